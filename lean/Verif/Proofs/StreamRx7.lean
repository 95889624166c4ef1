import Verif.Proofs.StreamRx6
import Verif.Props.NackExact

namespace Str0m.Rcv
open Str0m Str0m.Rtp NackRegister

variable {U : Type}

/-! ### A register and the numbers it has let through -/

/-- `H`: the numbers let through, latest first; `q`: the highest number the session remembers -/
structure Lane (o : Option ReceiverRegister) (q : Option Nat) (H : List Nat) : Prop where
  cold : H = [] → q = none
  unset : o = none → H = []
  reg : ∀ r, o = some r → ∃ hist req, NackInv r.nack hist req ∧ (∀ n, n ∈ hist ↔ n ∈ H) ∧ hist.getLast? = H.getLast? ∧
    (∀ n ∈ hist, n < 2 ^ 64) ∧ Floor r.nack hist

theorem Lane.start : Lane none none [] := ⟨fun _ => rfl, fun _ => rfl, fun r h => by cases h⟩

theorem Lane.opened {o : Option ReceiverRegister} {q : Option Nat} {H : List Nat} (h : Lane o q H) :
    Lane (some (o.getD (ReceiverRegister.new q))) q H := by
  refine ⟨h.cold, fun e => (by cases e), ?_⟩
  intro r hr
  simp only [Option.some.injEq] at hr
  cases ho : o with
  | some r0 => rw [ho] at hr; simp at hr; subst hr; exact h.reg r0 ho
  | none =>
    have hH := h.unset ho
    have hq := h.cold hH
    rw [ho, hq] at hr; simp at hr; subst hr; subst hH
    exact ⟨[], [], NackInv.fresh _ (fun _ => rfl), by simp, rfl, by simp, fun st en e => by cases e⟩

/-- What is accepted -/
theorem Lane.accepts {r : ReceiverRegister} {q : Option Nat} {H : List Nat} (h : Lane (some r) q H) (n : Nat) :
    r.nack.accepts n = true ↔ n ∉ H ∧ (∀ first, H.getLast? = some first → first ≤ n) ∧ ∀ m ∈ H, m ≤ n + 100 := by
  obtain ⟨hist, req, hi, he, hl, hf, hfl⟩ := h.reg r rfl
  rw [accepts_iff hi, ← hl]
  generalize r.nack = g at *
  cases hi with
  | fresh pk h' =>
    have : H = [] := by
      cases H with
      | nil => rfl
      | cons a l => have := (he a).2 (by simp); cases this
    subst this
    simp
  | run pk st en _ _ hle hwin clear recv top endIn startOut cnt le5 future =>
    obtain ⟨first, f1, f2, f3⟩ := hfl st en rfl
    rw [he]
    constructor
    · rintro ⟨h1, h2⟩
      have h1 := h1 st en rfl
      refine ⟨h2, fun f hf' => ?_, fun m hm => ?_⟩
      · rw [f1] at hf'; cases hf'; omega
      · have := top m ((he m).2 hm); omega
    · rintro ⟨h1, h2, h4⟩
      refine ⟨?_, h1⟩
      intro st' en' e
      simp only [Option.some.injEq, Prod.mk.injEq] at e
      have := h2 first f1
      have := h4 en ((he en).1 endIn)
      by_contra hc
      rcases f3 n (by omega) (by omega) with h | h
      · exact h1 ((he n).1 h)
      · omega

/-- The number a 16-bit number is taken for -/
theorem Lane.extend {r : ReceiverRegister} {q : Option Nat} {H : List Nat} (h : Lane (some r) q H) {n w : Nat} (hw : w % 65536 = n % 65536)
    (hn : n < 2 ^ 64) (hcold : H = [] → n < 65536) (hnear : ∀ m ∈ H, m < n + 2 ^ 15) (hfar : H ≠ [] → ∃ m ∈ H, n < m + 2 ^ 15) :
    Str0m.extend 16 r.nack.maxSeq w = n := by
  obtain ⟨hist, req, hi, he, hl, hf, hfl⟩ := h.reg r rfl
  generalize r.nack = g at *
  cases hi with
  | fresh pk h' =>
    have hH : H = [] := by
      cases H with
      | nil => rfl
      | cons a l => have := (he a).2 (by simp); cases this
    have c1 := hcold hH
    have : NackRegister.maxSeq ⟨pk, none⟩ = none := rfl
    rw [this]
    unfold Str0m.extend
    dsimp only
    omega
  | run pk st en _ _ hle hwin clear recv top endIn startOut cnt le5 future =>
    have hen := (he en).1 endIn
    obtain ⟨m, hm, hlt⟩ := hfar (by intro e; rw [e] at hen; cases hen)
    have := top m ((he m).2 hm)
    have := hnear en hen
    exact C01_extend_recovers 16 en n w (by omega) (by omega) (hf en endIn) hn (by omega) (by omega) (by
      have e : (2:Nat) ^ 16 = 65536 := by norm_num
      rw [e]; exact hw)

theorem Lane.fits {r : ReceiverRegister} {q : Option Nat} {H : List Nat} (h : Lane (some r) q H) : RegOk r := by
  obtain ⟨hist, req, hi, he, hl, hf, hfl⟩ := h.reg r rfl
  exact ⟨hist, req, hi, hf⟩

/-- A number goes through the register -/
theorem Lane.update {r : ReceiverRegister} {q q' : Option Nat} {H : List Nat} (h : Lane (some r) q H) {n : Nat} (hn : n < 2 ^ 64)
    (hgap : r.nack.accepts n = true → H = [] ∨ ∃ m ∈ H, n ≤ m + 101) :
    (r.update n).2 = r.nack.accepts n ∧ Lane (some (r.update n).1) q' (if r.nack.accepts n then n :: H else H) := by
  have hu : (r.update n).1.nack = (r.nack.update n).1 := rfl
  have hb : (r.update n).2 = r.nack.accepts n := nack_update_accepts r.nack n
  refine ⟨hb, ?_⟩
  obtain ⟨hist, req, hi, he, hl, hf, hfl⟩ := h.reg r rfl
  cases hacc : r.nack.accepts n with
  | true =>
    simp only [if_true]
    refine ⟨fun e => (by cases e), fun e => (by cases e), ?_⟩
    intro r' hr'
    simp only [Option.some.injEq] at hr'
    subst hr'
    rw [hu]
    have hlast : (n :: hist).getLast? = (n :: H).getLast? := by
      cases hist with
      | nil =>
        cases H with
        | nil => rfl
        | cons b l => have := (he b).2 (by simp); cases this
      | cons a l =>
        cases H with
        | nil => have := (he a).1 (by simp); cases this
        | cons b l' => rw [List.getLast?_cons_cons, List.getLast?_cons_cons]; exact hl
    refine ⟨n :: hist, req, hi.update n, ?_, hlast, ?_, Floor.update hi hfl n ?_⟩
    · intro k; simp [he k]
    · intro k hk
      rcases List.mem_cons.1 hk with rfl | hk
      · exact hn
      · exact hf k hk
    · intro st en hact
      have top : ∀ s ∈ hist, s ≤ en := by
        generalize r.nack = g at *
        cases hi with
        | fresh => cases hact
        | run pk st' en' _ _ hle hwin clear recv top endIn startOut cnt le5 future =>
          simp only [Option.some.injEq, Prod.mk.injEq] at hact
          intro s hs; have := top s hs; omega
      have hne : hist ≠ [] := by
        obtain ⟨first, f1, _⟩ := hfl st en hact
        intro e; rw [e] at f1; cases f1
      rcases hgap hacc with e | ⟨m, hm, hle⟩
      · exfalso
        cases hist with
        | nil => exact hne rfl
        | cons a l => have := (he a).1 (by simp); rw [e] at this; cases this
      · have := top m ((he m).2 hm); omega
  | false =>
    simp only [Bool.false_eq_true, if_false]
    have hne : hist ≠ [] := by
      intro e
      subst e
      generalize r.nack = g at *
      cases hi with
      | fresh => simp [NackRegister.accepts] at hacc
      | run pk st' en' _ _ hle hwin clear recv top endIn startOut cnt le5 future => cases endIn
    have hHne : H ≠ [] := by
      intro e
      cases hist with
      | nil => exact hne rfl
      | cons a l => have := (he a).1 (by simp); rw [e] at this; cases this
    refine ⟨fun e => absurd e hHne, fun e => (by cases e), ?_⟩
    intro r' hr'
    simp only [Option.some.injEq] at hr'
    subst hr'
    rw [hu]
    by_cases hmem : n ∈ hist
    · refine ⟨n :: hist, req, hi.update n, ?_, ?_, ?_, Floor.update hi hfl n ?_⟩
      · intro k
        simp only [List.mem_cons, he k]
        constructor
        · rintro (rfl | h)
          · exact (he k).1 hmem
          · exact h
        · exact fun h => .inr h
      · cases hist with
        | nil => exact absurd rfl hne
        | cons a l => rw [List.getLast?_cons_cons]; exact hl
      · intro k hk
        rcases List.mem_cons.1 hk with rfl | hk
        · exact hn
        · exact hf k hk
      · intro st en hact
        generalize r.nack = g at *
        cases hi with
        | fresh => cases hact
        | run pk st' en' _ _ hle hwin clear recv top endIn startOut cnt le5 future =>
          simp only [Option.some.injEq, Prod.mk.injEq] at hact
          have := top n hmem; omega
    · -- behind the window: the register does not change
      have hsame : (r.nack.update n).1 = r.nack := by
        cases hact : r.nack.active with
        | none => simp [NackRegister.accepts, hact] at hacc
        | some x =>
          obtain ⟨st, en⟩ := x
          have : ¬ (∀ st' en', r.nack.active = some (st', en') → st' ≤ n) := by
            intro hall
            have := (accepts_iff hi n).2 ⟨hall, hmem⟩
            rw [hacc] at this; cases this
          have hlt : n < st := by
            by_contra hc
            apply this
            intro st' en' e
            rw [hact] at e; cases e; omega
          unfold NackRegister.update
          rw [hact]
          simp only [hlt, if_true]
      rw [hsame]
      exact ⟨hist, req, hi, he, hl, hf, hfl⟩

theorem Lane.nack {r : ReceiverRegister} {q : Option Nat} {H : List Nat} (h : Lane (some r) q H) :
    Lane (some { r with nack := r.nack.nackReports.2 }) q H := by
  refine ⟨h.cold, fun e => (by cases e), ?_⟩
  intro r' hr'
  simp only [Option.some.injEq] at hr'
  subst hr'
  obtain ⟨hist, req, hi, he, hl, hf, hfl⟩ := h.reg r rfl
  have h1 := Floor.nack hi hf hfl
  cases hact : r.nack.active with
  | none =>
    have : r.nack.nackReports.2 = r.nack := by simp [NackRegister.nackReports, hact]
    dsimp only
    rw [this]
    exact ⟨hist, req, hi, he, hl, hf, hfl⟩
  | some x =>
    obtain ⟨st, en⟩ := x
    have hn : en < 2 ^ 64 ∧ ∀ t, st ≤ t → t ≤ en → Str0m.Near en t := by
      have : r.nack = ⟨r.nack.packets, some (st, en)⟩ := by rw [← hact]
      rw [this] at hi
      exact near_of_window hi hf
    obtain ⟨_, _, h3, _, _⟩ := hi.nackReports st en hact en hn.1 hn.2
    exact ⟨hist, _, h3, he, hl, hf, h1⟩

theorem Lane.report {r : ReceiverRegister} {q : Option Nat} {H : List Nat} (h : Lane (some r) q H) : Lane (some r.receptionReport.1) q H := by
  refine ⟨h.cold, fun e => (by cases e), ?_⟩
  intro r' hr'
  simp only [Option.some.injEq] at hr'
  subst hr'
  rw [(regOk_report h.fits).2]
  exact h.reg r rfl

/-! ### One datagram -/

theorem media_step {c : Cfg U} (hm : c.rtpMode = true) (d : Srtp.Derived) {s : Sess U} (hroc : s.rx.resetRoc = none) (h0 : s.rx.ssrc ≠ 0)
    (now : Nat) (h : Header U) (p : Param) (buf : List Byte) (hrep : p.pt = h.payloadType) (hs : h.ssrc = s.rx.ssrc) {r : ReceiverRegister}
    (hr : s.rx.reg.getD (ReceiverRegister.new (seqOf s.seqs s.rx.ssrc)) = r) {n : Nat} (hn : extend 16 r.nack.maxSeq h.sequenceNumber = n) :
    ∃ s', checked c d s now h p buf = .ok (s', none) ∧
      ((s'.rx.core = { s.rx.core with reg := some r } ∧ s'.seqs = s.seqs ∧ s'.log = s.log ∧ s'.pending = s.pending ∧
          (r.nack.accepts n = false ∨ ∀ data, open_ c d h buf n ≠ .ok data)) ∨
        ∃ data q, r.nack.accepts n = true ∧ open_ c d h buf n = .ok data ∧ s'.rx.core = { s.rx.core with reg := some (r.update n).1 } ∧
          s'.seqs = bumpSeq s.seqs s.rx.ssrc n ∧ s'.log = (h, n, data) :: s.log ∧ s'.pending = some q ∧ q.seqNo = n ∧ q.header = h ∧
          q.payload = data ∧ q.at_ = now) := by
  unfold checked
  rw [extendSeq_none (s := s.rx) hroc]
  dsimp only
  have hb : (p.pt != h.payloadType) = false := by simp [hrep]
  rw [hb, regOf_false, hs, hr, hn]
  have hnew : isNew (setReg s.rx false r) false n = .ok (r.nack.accepts n) := rfl
  rw [hnew]
  cases hacc : r.nack.accepts n with
  | false => exact ⟨_, rfl, .inl ⟨rfl, rfl, rfl, rfl, .inl rfl⟩⟩
  | true =>
    dsimp only
    cases ho : open_ c d h buf n with
    | panic => exact absurd ho (open_total c d h buf n)
    | err e => exact ⟨_, rfl, .inl ⟨rfl, rfl, rfl, rfl, .inr (by simp)⟩⟩
    | ok data =>
      dsimp only
      unfold received
      dsimp only
      rw [hb]
      obtain ⟨s1, t, e1, e2⟩ := updateRegister_ok (s := setReg s.rx false r) (rep := false) (r := r) rfl now h.timestamp p.clock n
      rw [e1]
      dsimp only
      rw [if_neg (by simp)]
      have hs1 : s1.ssrc = s.rx.ssrc := congrArg Core.ssrc e2
      have hne : s1.ssrc ≠ 0 := by rw [hs1]; exact h0
      let s2 : Sess U := ⟨s1, bumpSeq s.seqs h.ssrc n, twccOf s.twcc now h, s.pending, s.mediaBytes, (h, n, data) :: s.log⟩
      obtain ⟨s', d1, d2, d3, d4, d5, d6⟩ := deliver_mode hm s2 now h data n t (r.update n).2 hne
      have hb2 : (r.update n).2 = true := by rw [show (r.update n).2 = r.nack.accepts n from nack_update_accepts r.nack n, hacc]
      rw [hb2, if_pos rfl] at d6
      obtain ⟨_, q1, q2, q3, _, q4⟩ := handleRtp_core s1 now h data n t
      refine ⟨s', congrArg Res.ok d1, .inr ⟨data, _, rfl, rfl, ?_, ?_, d4, d6, q2, q1, q3, q4⟩⟩
      · rw [d2]; exact e2
      · rw [d3, ← hs]

theorem rtx_step {c : Cfg U} (hm : c.rtpMode = true) (d : Srtp.Derived) {s : Sess U} (hroc : s.rx.resetRoc = none) (h0 : s.rx.ssrc ≠ 0)
    (now : Nat) (h : Header U) (p : Param) (buf : List Byte) (hrep : p.pt ≠ h.payloadType) {x : Nat} (hs : h.ssrc = x) (hxa : x ≠ s.rx.ssrc)
    {r2 : ReceiverRegister} (hr2 : s.rx.regRtx.getD (ReceiverRegister.new (seqOf s.seqs x)) = r2) {k : Nat}
    (hk : extend 16 r2.nack.maxSeq h.sequenceNumber = k) {r1 : ReceiverRegister}
    (hr1 : s.rx.reg.getD (ReceiverRegister.new (seqOf s.seqs s.rx.ssrc)) = r1) :
    ∃ s', checked c d s now h p buf = .ok (s', none) ∧
      ((s'.rx.core = { s.rx.core with regRtx := some r2 } ∧ s'.seqs = s.seqs ∧ s'.log = s.log ∧ s'.pending = s.pending ∧
          (r2.nack.accepts k = false ∨ ∀ data, open_ c d h buf k ≠ .ok data)) ∨
       (r2.nack.accepts k = true ∧ open_ c d h buf k = .ok [] ∧ s'.rx.core = { s.rx.core with regRtx := some (r2.update k).1 } ∧
          s'.seqs = bumpSeq s.seqs x k ∧ s'.log = (h, k, []) :: s.log ∧ s'.pending = s.pending) ∨
        ∃ data n, r2.nack.accepts k = true ∧ open_ c d h buf k = .ok data ∧ data ≠ [] ∧
          extend 16 r1.nack.maxSeq ((readOsn data).1.getD 0) = n ∧
          s'.rx.core = { s.rx.core with reg := some (r1.update n).1, regRtx := some (r2.update k).1 } ∧
          s'.seqs = bumpSeq (bumpSeq s.seqs x k) s.rx.ssrc n ∧ s'.log = (h, k, data) :: s.log ∧
          ((r1.nack.accepts n = false ∧ s'.pending = s.pending) ∨ (r1.nack.accepts n = true ∧ ∃ q, s'.pending = some q ∧ q.seqNo = n ∧
            q.header = (unRtx s.rx h data p.pt).1 ∧ q.payload = (unRtx s.rx h data p.pt).2 ∧ q.at_ = now))) := by
  unfold checked
  rw [extendSeq_none (s := s.rx) hroc]
  dsimp only
  have hb : (p.pt != h.payloadType) = true := by simp [hrep]
  rw [hb, regOf_true, hs, hr2, hk]
  have hnew : isNew (setReg s.rx true r2) true k = .ok (r2.nack.accepts k) := rfl
  rw [hnew]
  cases hacc : r2.nack.accepts k with
  | false => exact ⟨_, rfl, .inl ⟨rfl, rfl, rfl, rfl, .inl rfl⟩⟩
  | true =>
    dsimp only
    cases ho : open_ c d h buf k with
    | panic => exact absurd ho (open_total c d h buf k)
    | err e => exact ⟨_, rfl, .inl ⟨rfl, rfl, rfl, rfl, .inr (by simp)⟩⟩
    | ok data =>
      dsimp only
      unfold received
      dsimp only
      rw [hb]
      obtain ⟨s1, t, e1, e2⟩ := updateRegister_ok (s := setReg s.rx true r2) (rep := true) (r := r2) rfl now h.timestamp p.clock k
      rw [e1]
      dsimp only
      rw [if_pos rfl]
      unfold repaired
      by_cases hd : data = []
      · subst hd
        rw [if_pos rfl]
        refine ⟨_, rfl, .inr (.inl ⟨rfl, rfl, ?_, by rw [hs], rfl, rfl⟩)⟩
        exact e2
      · rw [if_neg hd]
        dsimp only
        have hs1 : s1.ssrc = s.rx.ssrc := congrArg Core.ssrc e2
        have hreg1 : s1.reg = s.rx.reg := congrArg Core.reg e2
        have hroc1 : s1.resetRoc = none := (congrArg Core.resetRoc e2).trans hroc
        have hu1 : (unRtx s1 h data p.pt) = (unRtx s.rx h data p.pt) := by unfold unRtx; rw [hs1]
        rw [extendSeq_none hroc1]
        dsimp only
        have hussrc : (unRtx s1 h data p.pt).1.ssrc = s.rx.ssrc := hs1
        have huseq : (unRtx s1 h data p.pt).1.sequenceNumber = (readOsn data).1.getD 0 := rfl
        have huts : (unRtx s1 h data p.pt).1.timestamp = h.timestamp := rfl
        rw [hussrc, huseq, huts, regOf_false, hreg1, hs, seqOf_bump_other _ _ _ _ (fun e => hxa e.symm), hr1]
        obtain ⟨n, hn⟩ : ∃ n, extend 16 r1.nack.maxSeq ((readOsn data).1.getD 0) = n := ⟨_, rfl⟩
        rw [hn]
        obtain ⟨s3, t3, f1, f2⟩ := updateRegister_ok (s := setReg s1 false r1) (rep := false) (r := r1) rfl now h.timestamp p.clock n
        rw [f1]
        dsimp only
        have hs3 : s3.ssrc = s.rx.ssrc := (congrArg Core.ssrc f2).trans hs1
        have hne : s3.ssrc ≠ 0 := by rw [hs3]; exact h0
        let s2 : Sess U := ⟨s3, bumpSeq (bumpSeq s.seqs x k) s.rx.ssrc n, twccOf s.twcc now h, s.pending, s.mediaBytes, (h, k, data) :: s.log⟩
        obtain ⟨s', d1, d2, d3, d4, d5, d6⟩ := deliver_mode hm s2 now (unRtx s1 h data p.pt).1 (unRtx s1 h data p.pt).2 n t3 (r1.update n).2 hne
        have hb2 : (r1.update n).2 = r1.nack.accepts n := nack_update_accepts r1.nack n
        rw [hb2] at d6
        obtain ⟨_, q1, q2, q3, _, q4⟩ := handleRtp_core s3 now (unRtx s1 h data p.pt).1 (unRtx s1 h data p.pt).2 n t3
        rw [hu1] at q1 q3
        refine ⟨s', congrArg Res.ok d1, .inr (.inr ⟨data, n, rfl, rfl, hd, hn, ?_, d3, d4, ?_⟩)⟩
        · rw [d2]
          show s3.core = _
          rw [f2]
          show ({ (s1.core) with reg := some (r1.update n).1 } : Core) = _
          rw [e2]
          rfl
        · cases ha : r1.nack.accepts n with
          | false => rw [ha] at d6; exact .inl ⟨rfl, d6⟩
          | true => rw [ha, if_pos rfl] at d6; rw [hu1] at d6 q2 q4; exact .inr ⟨rfl, _, d6, q2, q1, q3, q4⟩

end Str0m.Rcv
