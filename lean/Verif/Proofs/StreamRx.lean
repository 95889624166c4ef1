import Verif.Model.StreamRx
import Verif.Proofs.NackReport
import Verif.Props.Extend
import Verif.Props.Nack

namespace Str0m.Rcv
open Str0m Str0m.Rtp NackRegister

/-! ### The register -/

/-- The register is what some history of 64-bit numbers makes of it -/
def RegOk (r : ReceiverRegister) : Prop := ∃ hist req, NackInv r.nack hist req ∧ ∀ s ∈ hist, s < 2 ^ 64

theorem accepts_iff {g : NackRegister} {hist req : List Nat} (h : NackInv g hist req) (n : Nat) :
    g.accepts n = true ↔ (∀ st en, g.active = some (st, en) → st ≤ n) ∧ n ∉ hist := by
  cases h with
  | fresh pk h => simp [accepts]
  | run pk st en _ _ hle hwin clear recv top endIn startOut cnt le5 future =>
    simp only [accepts]
    by_cases hlt : n < st
    · simp only [hlt, if_true]
      constructor
      · intro h; cases h
      · rintro ⟨h, _⟩; have := h st en rfl; omega
    · simp only [hlt, if_false]
      by_cases hse : n ≤ en
      · have r := recv n (by omega) hse
        have : ¬ n > en := by omega
        simp only [this, decide_false, Bool.or_false, Bool.not_eq_true']
        constructor
        · intro hf
          refine ⟨fun st' en' e => ?_, fun hc => ?_⟩
          · simp only [Option.some.injEq, Prod.mk.injEq] at e; omega
          · rw [r.2 hc] at hf; cases hf
        · rintro ⟨_, h⟩
          cases hb : (pk.at n).received with
          | false => rfl
          | true => exact absurd (r.1 hb) h
      · have : n > en := by omega
        simp only [this, decide_true, Bool.or_true, true_iff]
        refine ⟨fun st' en' e => ?_, fun hc => ?_⟩
        · simp only [Option.some.injEq, Prod.mk.injEq] at e; omega
        · have := top n hc; omega

theorem nack_update_accepts (g : NackRegister) (seq : Nat) : (g.update seq).2 = g.accepts seq := by
  obtain ⟨pk, act⟩ := g
  cases act with
  | none => simp [NackRegister.update, accepts]
  | some x =>
    obtain ⟨st, en⟩ := x
    simp only [NackRegister.update, accepts]
    split <;> simp

theorem regOk_update {r : ReceiverRegister} (h : RegOk r) {seq : Nat} (hs : seq < 2 ^ 64) :
    RegOk (r.update seq).1 ∧ (r.update seq).2 = r.nack.accepts seq ∧
      ∀ n, (r.update seq).1.nack.accepts n = true → r.nack.accepts n = true ∧ n ≠ seq := by
  obtain ⟨hist, req, hi, hf⟩ := h
  have hu := hi.update seq
  refine ⟨⟨seq :: hist, req, hu, ?_⟩, nack_update_accepts r.nack seq, ?_⟩
  · intro s hs'; rcases List.mem_cons.1 hs' with rfl | h
    · exact hs
    · exact hf s h
  · intro n hn
    have h1 := (accepts_iff hu n).1 hn
    simp only [List.mem_cons, not_or] at h1
    refine ⟨(accepts_iff hi n).2 ⟨?_, h1.2.2⟩, h1.2.1⟩
    intro st en he
    obtain ⟨g, first, count, ep, rp⟩ := r
    obtain ⟨pk, act⟩ := g
    simp only at he hi; subst he
    obtain ⟨st', en', h2, h3, _⟩ := (NackInv.update_run hi seq).2.2
    have := h1.1 st' en' h2
    omega

theorem regOk_new (m : Option Nat) (hm : ∀ n, m = some n → n < 2 ^ 64) : RegOk (ReceiverRegister.new m) := by
  cases m with
  | none => exact ⟨[], [], NackInv.fresh _ (fun _ => rfl), by simp⟩
  | some n => exact ⟨[n], [], NackInv.init n _ (fun _ => rfl), by simpa using hm n rfl⟩

theorem new_accepts {m n : Nat} (h : (ReceiverRegister.new (some m)).nack.accepts n = true) : m < n := by
  have hi := NackInv.init m (fun _ => ({} : PacketStatus)) (fun _ => rfl)
  have := (accepts_iff (g := (ReceiverRegister.new (some m)).nack) hi n).1 h
  have h1 := this.1 m m rfl
  simp at this
  omega

theorem regOk_nack {r : ReceiverRegister} (h : RegOk r) :
    RegOk { r with nack := r.nack.nackReports.2 } ∧ ∀ n, r.nack.nackReports.2.accepts n = r.nack.accepts n := by
  obtain ⟨hist, req, hi, hf⟩ := h
  cases hact : r.nack.active with
  | none =>
    have : r.nack.nackReports.2 = r.nack := by simp [NackRegister.nackReports, hact]
    rw [this]
    exact ⟨⟨hist, req, hi, hf⟩, fun _ => rfl⟩
  | some x =>
    obtain ⟨st, en⟩ := x
    have hn : en < 2 ^ 64 ∧ ∀ t, st ≤ t → t ≤ en → Near en t := by
      have : r.nack = ⟨r.nack.packets, some (st, en)⟩ := by rw [← hact]
      rw [this] at hi
      exact near_of_window hi hf
    obtain ⟨_, _, h3, h4, _⟩ := hi.nackReports st en hact en hn.1 hn.2
    refine ⟨⟨hist, _, h3, hf⟩, fun n => ?_⟩
    rw [Bool.eq_iff_iff, accepts_iff h3, accepts_iff hi, h4, hact]

theorem regOk_max {r : ReceiverRegister} (h : RegOk r) : ∀ p, r.nack.maxSeq = some p → p < 2 ^ 64 := by
  obtain ⟨hist, req, hi, hf⟩ := h
  intro p hp
  cases hact : r.nack.active with
  | none => simp [NackRegister.maxSeq, hact] at hp
  | some x =>
    obtain ⟨st, en⟩ := x
    simp [NackRegister.maxSeq, hact] at hp
    subst hp
    have : r.nack = ⟨r.nack.packets, some (st, en)⟩ := by rw [← hact]
    rw [this] at hi
    exact (near_of_window hi hf).1

theorem regOk_report {r : ReceiverRegister} (h : RegOk r) :
    RegOk r.receptionReport.1 ∧ r.receptionReport.1.nack = r.nack := by
  have : r.receptionReport.1.nack = r.nack := by
    unfold ReceiverRegister.receptionReport
    split <;> simp [ReceiverRegister.fractionLost]
  refine ⟨?_, this⟩
  unfold RegOk
  rw [this]
  exact h

/-! ### The highest numbers -/

theorem seqOf_bump_self (m : List (Nat × Nat)) (a n : Nat) : ∃ k, seqOf (bumpSeq m a n) a = some k ∧ n ≤ k ∧
    ∀ k', seqOf m a = some k' → k' ≤ k := by
  unfold bumpSeq
  cases h : seqOf m a with
  | none => exact ⟨n, by simp [seqOf], Nat.le_refl _, by simp⟩
  | some cur =>
    simp only
    split
    · rename_i hgt
      refine ⟨n, ?_, Nat.le_refl _, by simp; omega⟩
      clear hgt
      induction m with
      | nil => simp [seqOf] at h
      | cons e m ih =>
        simp only [seqOf, List.map_cons, List.find?_cons] at h ⊢
        by_cases he : e.1 = a
        · simp [he]
        · have : (e.1 == a) = false := by simpa using he
          simp only [this, Bool.false_eq_true, if_false] at h ⊢
          exact ih h
    · exact ⟨cur, h, by omega, by simp⟩

theorem seqOf_bump_other (m : List (Nat × Nat)) (a n b : Nat) (hb : b ≠ a) : seqOf (bumpSeq m a n) b = seqOf m b := by
  have hab : (a == b) = false := by simpa using fun e => hb e.symm
  unfold bumpSeq
  cases h : seqOf m a with
  | none => simp [seqOf, hab]
  | some cur =>
    simp only
    split
    · clear h
      induction m with
      | nil => rfl
      | cons e m ih =>
        simp only [seqOf, List.map_cons, List.find?_cons] at ih ⊢
        by_cases he : e.1 = a
        · simp only [he, beq_self_eq_true, if_true, hab]
          exact ih
        · have : (e.1 == a) = false := by simpa using he
          simp only [this, Bool.false_eq_true, if_false]
          by_cases hb' : e.1 = b
          · simp [hb']
          · have : (e.1 == b) = false := by simpa using hb'
            simp only [this]
            exact ih
    · rfl

/-- Every number kept is a 64-bit number -/
def SeqsFit (m : List (Nat × Nat)) : Prop := ∀ e ∈ m, e.2 < 2 ^ 64

theorem SeqsFit.get {m : List (Nat × Nat)} (h : SeqsFit m) {a n : Nat} (e : seqOf m a = some n) : n < 2 ^ 64 := by
  unfold seqOf at e
  simp only [Option.map_eq_some_iff] at e
  obtain ⟨x, hx, rfl⟩ := e
  exact h x (List.mem_of_find?_eq_some hx)

theorem SeqsFit.bump {m : List (Nat × Nat)} (h : SeqsFit m) (a : Nat) {n : Nat} (hn : n < 2 ^ 64) : SeqsFit (bumpSeq m a n) := by
  unfold bumpSeq
  split
  · intro e he; rcases List.mem_cons.1 he with rfl | he
    · exact hn
    · exact h e he
  · split
    · intro e he
      obtain ⟨x, hx, rfl⟩ := List.mem_map.1 he
      by_cases hxa : (x.1 == a) = true
      · rw [if_pos hxa]; exact hn
      · rw [if_neg hxa]; exact h x hx
    · exact h

/-! ### The invariant of "at most once" -/

/-- The part of a stream that decides what is accepted -/
structure Core where
  ssrc : Nat
  rtx : Option Nat
  resetRoc : Option Nat
  reg : Option ReceiverRegister
  regRtx : Option ReceiverRegister

/-- The part of a stream that decides what is accepted -/
def Rx.core (s : Rx) : Core := ⟨s.ssrc, s.rtx, s.resetRoc, s.reg, s.regRtx⟩

/-- `M`: the SSRCs of media, `R`: those of repair streams, `G`: the packets reported as new, `L`: the datagrams opened -/
structure Inv (M R : Nat → Prop) (s : Core) (seqs : List (Nat × Nat)) (L G : List (Nat × Nat)) : Prop where
  roc : s.resetRoc = none
  main : M s.ssrc
  rtx : ∀ x, s.rtx = some x → R x
  fit : SeqsFit seqs
  low : ∀ k ∈ G, ∃ m, seqOf seqs k.1 = some m ∧ k.2 ≤ m
  lowL : ∀ k ∈ L, ∃ m, seqOf seqs k.1 = some m ∧ k.2 ≤ m
  logG : ∀ k ∈ L, M k.1 → k ∈ G
  logNd : L.Nodup
  reg : ∀ r, s.reg = some r → RegOk r ∧ ∀ k ∈ G, k.1 = s.ssrc → r.nack.accepts k.2 = false
  regx : ∀ r, s.regRtx = some r → RegOk r ∧ ∀ x, s.rtx = some x → ∀ k ∈ L, k.1 = x → r.nack.accepts k.2 = false

variable {M R : Nat → Prop}

theorem low_bump {seqs : List (Nat × Nat)} {a n : Nat} {k : Nat × Nat} (h : ∃ m, seqOf seqs k.1 = some m ∧ k.2 ≤ m) :
    ∃ m, seqOf (bumpSeq seqs a n) k.1 = some m ∧ k.2 ≤ m := by
  obtain ⟨m, h1, h2⟩ := h
  by_cases hk : k.1 = a
  · obtain ⟨m', e, _, h3⟩ := seqOf_bump_self seqs a n
    rw [hk] at h1 ⊢
    exact ⟨m', e, by have := h3 m h1; omega⟩
  · rw [seqOf_bump_other _ _ _ _ hk]; exact ⟨m, h1, h2⟩

/-- The register that is made for the first packet keeps the invariant -/
theorem Inv.open_main {s : Core} {seqs L G} (h : Inv M R s seqs L G) :
    Inv M R { s with reg := some (s.reg.getD (ReceiverRegister.new (seqOf seqs s.ssrc))) } seqs L G := by
  refine { h with reg := ?_ }
  intro r hr
  simp only [Option.some.injEq] at hr
  cases hreg : s.reg with
  | some r0 => rw [hreg] at hr; simp at hr; subst hr; exact h.reg r0 hreg
  | none =>
    rw [hreg] at hr; simp at hr; subst hr
    refine ⟨regOk_new _ (fun n hn => h.fit.get hn), ?_⟩
    intro k hk hks
    obtain ⟨m, h1, h2⟩ := h.low k hk
    rw [hks] at h1
    rw [h1]
    cases hb : (ReceiverRegister.new (some m)).nack.accepts k.2 with
    | false => rfl
    | true => have := new_accepts hb; omega

/-- The same for the repair stream -/
theorem Inv.open_rtx {s : Core} {seqs L G} (h : Inv M R s seqs L G) {x : Nat} (hx : s.rtx = some x) :
    Inv M R { s with regRtx := some (s.regRtx.getD (ReceiverRegister.new (seqOf seqs x))) } seqs L G := by
  refine { h with regx := ?_ }
  intro r hr
  simp only [Option.some.injEq] at hr
  cases hreg : s.regRtx with
  | some r0 => rw [hreg] at hr; simp at hr; subst hr; exact h.regx r0 hreg
  | none =>
    rw [hreg] at hr; simp at hr; subst hr
    refine ⟨regOk_new _ (fun n hn => h.fit.get hn), ?_⟩
    intro x' hx' k hk hks
    rw [hx] at hx'; cases hx'
    obtain ⟨m, h1, h2⟩ := h.lowL k hk
    rw [hks] at h1
    rw [h1]
    cases hb : (ReceiverRegister.new (some m)).nack.accepts k.2 with
    | false => rfl
    | true => have := new_accepts hb; omega

/-- A packet counted in the main register -/
theorem Inv.count {s : Core} {seqs L G} (h : Inv M R s seqs L G) {r : ReceiverRegister} (hr : s.reg = some r) {n : Nat} (hn : n < 2 ^ 64) :
    Inv M R { s with reg := some (r.update n).1 } (bumpSeq seqs s.ssrc n) L (if (r.update n).2 then (s.ssrc, n) :: G else G) ∧
      ((r.update n).2 = true → (s.ssrc, n) ∉ G) := by
  obtain ⟨hok, hblock⟩ := h.reg r hr
  obtain ⟨u1, u2, u3⟩ := regOk_update hok hn
  have hmem : ∀ k, k ∈ (if (r.update n).2 then (s.ssrc, n) :: G else G) → k ∈ G ∨ k = (s.ssrc, n) := by
    intro k hk; split at hk
    · rcases List.mem_cons.1 hk with rfl | hk
      · exact .inr rfl
      · exact .inl hk
    · exact .inl hk
  refine ⟨{ h with fit := h.fit.bump _ hn, low := ?_, lowL := fun k hk => low_bump (h.lowL k hk), logG := ?_, reg := ?_ }, ?_⟩
  · intro k hk
    rcases hmem k hk with hk | rfl
    · exact low_bump (h.low k hk)
    · obtain ⟨m, e, h2, _⟩ := seqOf_bump_self seqs s.ssrc n
      exact ⟨m, e, h2⟩
  · intro k hk hm
    have := h.logG k hk hm
    split
    · exact List.mem_cons_of_mem _ this
    · exact this
  · intro r' hr'
    simp only [Option.some.injEq] at hr'
    subst hr'
    refine ⟨u1, ?_⟩
    intro k hk hks
    cases hb : (r.update n).1.nack.accepts k.2 with
    | false => rfl
    | true =>
      obtain ⟨h1, h2⟩ := u3 _ hb
      rcases hmem k hk with hk | rfl
      · rw [hblock k hk hks] at h1; cases h1
      · exact absurd rfl h2
  · intro hnew hmem
    rw [u2] at hnew
    rw [hblock _ hmem rfl] at hnew; cases hnew

/-- A datagram of the repair stream opened -/
theorem Inv.openRtx {s : Core} {seqs L G} (h : Inv M R s seqs L G) (hd : ∀ a, M a → ¬ R a) {r : ReceiverRegister} (hr : s.regRtx = some r)
    {x : Nat} (hx : s.rtx = some x) {n : Nat} (hn : n < 2 ^ 64) (ha : r.nack.accepts n = true) :
    Inv M R { s with regRtx := some (r.update n).1 } (bumpSeq seqs x n) ((x, n) :: L) G := by
  obtain ⟨hok, hblock⟩ := h.regx r hr
  obtain ⟨u1, u2, u3⟩ := regOk_update hok hn
  refine { h with fit := h.fit.bump _ hn, low := fun k hk => low_bump (h.low k hk), lowL := ?_, logG := ?_, logNd := ?_, regx := ?_ }
  · intro k hk
    rcases List.mem_cons.1 hk with rfl | hk
    · obtain ⟨m, e, h2, _⟩ := seqOf_bump_self seqs x n
      exact ⟨m, e, h2⟩
    · exact low_bump (h.lowL k hk)
  · intro k hk hm
    rcases List.mem_cons.1 hk with rfl | hk
    · exact absurd (h.rtx x hx) (hd x hm)
    · exact h.logG k hk hm
  · refine List.nodup_cons.2 ⟨fun hc => ?_, h.logNd⟩
    rw [hblock x hx _ hc rfl] at ha; cases ha
  · intro r' hr'
    simp only [Option.some.injEq] at hr'
    subst hr'
    refine ⟨u1, ?_⟩
    intro x' hx' k hk hks
    rw [hx] at hx'; cases hx'
    cases hb : (r.update n).1.nack.accepts k.2 with
    | false => rfl
    | true =>
      obtain ⟨h1, h2⟩ := u3 _ hb
      rcases List.mem_cons.1 hk with rfl | hk
      · exact absurd rfl h2
      · rw [hblock x hx k hk hks] at h1; cases h1

/-- A datagram of the media stream opened: it is counted, too -/
theorem Inv.openMain {s : Core} {seqs L G} (h : Inv M R s seqs L G) (hd : ∀ a, M a → ¬ R a) {r : ReceiverRegister} (hr : s.reg = some r)
    {n : Nat} (hn : n < 2 ^ 64) (ha : r.nack.accepts n = true) :
    Inv M R { s with reg := some (r.update n).1 } (bumpSeq seqs s.ssrc n) ((s.ssrc, n) :: L) ((s.ssrc, n) :: G) ∧ (s.ssrc, n) ∉ G := by
  obtain ⟨hc, hnew⟩ := h.count hr hn
  have hu := (regOk_update (h.reg r hr).1 hn).2.1
  rw [ha] at hu
  rw [if_pos hu] at hc
  have hnot := hnew hu
  refine ⟨{ hc with lowL := ?_, logG := ?_, logNd := ?_, regx := ?_ }, hnot⟩
  · intro k hk
    rcases List.mem_cons.1 hk with rfl | hk
    · exact hc.low _ (by simp)
    · exact hc.lowL k hk
  · intro k hk hm
    rcases List.mem_cons.1 hk with rfl | hk
    · simp
    · exact hc.logG k hk hm
  · exact List.nodup_cons.2 ⟨fun hmem => hnot (h.logG _ hmem h.main), h.logNd⟩
  · intro r' hr'
    refine ⟨(hc.regx r' hr').1, ?_⟩
    intro x hx k hk hks
    rcases List.mem_cons.1 hk with rfl | hk
    · exact absurd (h.rtx x hx) (by rw [← hks]; exact hd _ h.main)
    · exact (hc.regx r' hr').2 x hx k hk hks

end Str0m.Rcv
