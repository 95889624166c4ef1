import Verif.Spec.EndToEnd
import Verif.Props.StreamTxOrder
import Verif.Proofs.StreamRx8

namespace Str0m.E2E
open Str0m

variable {U : Type}

/-! ### What the sender sends -/

/-- The kinds of datagrams -/
inductive Sent (a x : Nat) (P : List Tx.Param) (outs : List Tx.Out) (o : Tx.Out) : Prop where
  | media (hk : o.kind = .regular) (hs : o.ssrc = a) (p : Tx.Param) (hp : p ∈ P) (hpt : p.pt = o.pt)
  | resend (r : Tx.Out) (hr : r ∈ outs) (hrep : Tx.Repeats o r) (hra : r.ssrc = a) (hs : o.ssrc = x) (p : Tx.Param) (hp : p ∈ P)
      (hpt : p.pt = r.pt) (hrs : p.resend = some o.pt) (hr16 : r.seq16 = r.seqNo % 65536)
  | blank (len : Nat) (hk : o.kind = .blank len) (hl : 16 ≤ len ∧ len ≤ 240) (hb : o.body = Tx.padBody len) (hs : o.ssrc = x)
      (p : Tx.Param) (hp : p ∈ P) (hrs : p.resend = some o.pt)

theorem Sent.mono {a x : Nat} {P : List Tx.Param} {outs l : List Tx.Out} {o : Tx.Out} (h : Sent a x P outs o) : Sent a x P (outs ++ l) o := by
  cases h with
  | media hk hs p hp hpt => exact .media hk hs p hp hpt
  | resend r hr hrep hra hs p hp hpt hrs h16 => exact .resend r (List.mem_append_left _ hr) hrep hra hs p hp hpt hrs h16
  | blank len hk hl hb hs p hp hrs => exact .blank len hk hl hb hs p hp hrs

/-- The state of the sender -/
structure Sender (a x : Nat) (P : List Tx.Param) (es : List NackEntry) (s : Tx.Tx) (outs : List Tx.Out) : Prop where
  held : Tx.Held es s outs
  ssrc : s.ssrc = a
  rtx : s.rtx = some x
  sent : ∀ o ∈ outs, Sent a x P outs o ∧ o.seq16 = o.seqNo % 65536

theorem sender_step (a x : Nat) (P : List Tx.Param) (es : List NackEntry) (s : Tx.Tx) (outs : List Tx.Out) (op : Tx.Op) (t : Tx.Tx) (o : Option Tx.Out)
    (h : Sender a x P es s outs) (hk : Keeps P op) (hs : Tx.step s op = .ok (t, o)) : Sender a x P (Tx.asked es op) t (outs ++ o.toList) := by
  have hh := Tx.held_step es s outs op t o h.held hs
  have quiet : t.ssrc = s.ssrc → t.rtx = s.rtx → o = none → Sender a x P (Tx.asked es op) t (outs ++ o.toList) := by
    intro h1 h2 h3
    refine ⟨hh, h1.trans h.ssrc, h2.trans h.rtx, ?_⟩
    subst h3
    simpa using h.sent
  cases op with
  | write w => cases hs; exact quiet rfl rfl rfl
  | frame f cs =>
    cases hs
    obtain ⟨q, i, n, e⟩ := Tx.pushChunks_eq f cs true s
    rw [e] at hh ⊢
    exact ⟨hh, h.ssrc, h.rtx, by simpa using h.sent⟩
  | timeout now pt =>
    obtain ⟨t1, h1, hs⟩ := Pts.bind_eq_ok hs
    cases hs
    obtain ⟨y, q, hq, rfl⟩ := Tx.timeout_eq h1
    exact quiet rfl rfl rfl
  | poll now hdr params over =>
    have hk : params = P := hk
    subst hk
    obtain ⟨rs, pd, hsuf, hp⟩ := Tx.poll_ok hs
    have add : ∀ {o : Tx.Out}, Sent a x params outs o → o.seq16 = o.seqNo % 65536 → ∀ o' ∈ outs ++ [o], Sent a x params (outs ++ [o]) o' ∧ o'.seq16 = o'.seqNo % 65536 := by
      intro o h1 h2 o' ho'
      rcases List.mem_append.1 ho' with ho' | ho'
      · exact ⟨(h.sent o' ho').1.mono, (h.sent o' ho').2⟩
      · rw [List.mem_singleton.1 ho']; exact ⟨h1.mono, h2⟩
    cases hp with
    | none k => exact quiet rfl rfl rfl
    | dropped q r hq hr hu => exact quiet rfl rfl rfl
    | regular q r p c i hq hr hf hi hc hfit =>
      refine ⟨hh, h.ssrc, h.rtx, add ?_ rfl⟩
      refine .media rfl h.ssrc p (List.mem_of_find?_eq_some hf) ?_
      have e := List.find?_some hf
      simp only [decide_eq_true_eq] at e
      rw [e, hi]
      show _ = (Tx.announced s _).pt
      unfold Tx.announced; split <;> rfl
    | resend p m pad hg pp pt ssrc hf hpt hr hsx =>
      refine ⟨hh, h.ssrc, h.rtx, add ?_ rfl⟩
      have ha : ∀ i : TxInfo, (Tx.announced s i).time = i.time ∧ (Tx.announced s i).marker = i.marker ∧ (Tx.announced s i).ext = i.ext := by
        intro i; unfold Tx.announced; split <;> exact ⟨rfl, rfl, rfl⟩
      obtain ⟨-, r, hr1, e1, e2, e3, e4, e5, e6, e7, e8, e9⟩ := h.held.cache.get hg
      obtain ⟨a1, a2, a3⟩ := ha p.info
      refine .resend r hr1 ⟨e1, ?_, ?_, ?_, ?_, ?_⟩ (e2.trans h.ssrc) ?_ pp (List.mem_of_find?_eq_some hf) ?_ hpt (by rw [e4, e3])
      · rw [e3]; rfl
      · rw [e4, e5]; rfl
      · rw [e7]; exact a1
      · rw [e8]; exact a2
      · rw [e9]; exact a3
      · exact Option.some.inj (hr.symm.trans h.rtx)
      · rw [e6]; simpa using List.find?_some hf
    | blank pm len hl hm pp pt ssrc hf hpt hr =>
      refine ⟨hh, h.ssrc, h.rtx, add ?_ rfl⟩
      exact .blank len rfl hl rfl (Option.some.inj (hr.symm.trans h.rtx)) pp (List.mem_of_find?_eq_some hf) hpt
  | nack l =>
    cases hs
    obtain ⟨l', hl⟩ := Tx.nack_eq s l
    exact quiet (by rw [hl]) (by rw [hl]) rfl
  | report y =>
    cases hs
    obtain ⟨b1, b2, hl⟩ := Tx.report_eq s y
    exact quiet (by rw [hl]) (by rw [hl]) rfl
  | padding n =>
    cases hs
    obtain ⟨b1, hl⟩ := Tx.padding_eq s n
    exact quiet (by rw [hl]) (by rw [hl]) rfl
  | setCache m g d => cases hs; exact quiet rfl rfl rfl
  | resetBuffers => cases hs; exact quiet rfl rfl rfl
  | resetSsrc a1 a2 a3 a4 => exact hk.elim

theorem sender_run {a x : Nat} {P : List Tx.Param} {mid : Nat} {rid : Option Nat} {mtu s1 s2 : Nat} {ops : List Tx.Op} {t : Tx.Tx} {outs : List Tx.Out}
    (hk : ∀ op ∈ ops, Keeps P op) (h : Tx.run (Tx.new a (some x) mid rid mtu s1 s2) ops = .ok (t, outs)) :
    ∀ o ∈ outs, Sent a x P outs o ∧ o.seq16 = o.seqNo % 65536 := by
  have := Tx.run_induct (Sender a x P) (fun _ op => Keeps P op) Tx.asked (fun es s outs op t o hj hk hs => sender_step a x P es s outs op t o hj hk hs)
    ops [] _ [] t outs ⟨⟨Tx.cached_new _ _, fun n hn => by cases hn⟩, rfl, rfl, fun o ho => by cases ho⟩
    (fun pre op post e => hk op (by rw [e]; simp)) h
  simpa using this.sent

theorem unpad_blank {len : Nat} (h : 16 ≤ len ∧ len ≤ 240) : Rtp.unpadPayload (Tx.padBody len) = .ok [] := by
  obtain ⟨n, hn, h1, h2⟩ : ∃ n, Tx.padBody len = List.replicate (n - 1) 0 ++ [u8 n] ∧ 1 ≤ n ∧ n < 256 := by
    refine ⟨min (if len % 16 = 0 then len else (len / 16 + 1) * 16) 240, rfl, ?_, ?_⟩ <;> split <;> omega
  rw [hn]
  unfold Rtp.unpadPayload
  rw [if_neg (by simp)]
  have hlen : (List.replicate (n - 1) (0 : Byte) ++ [u8 n]).length = n := by simp; omega
  have hi : (Res.idx (List.replicate (n - 1) (0 : Byte) ++ [u8 n]) (n - 1) : Res Unit Byte) = .ok (u8 n) := by
    unfold Res.idx
    rw [List.getElem?_append_right (by simp)]
    simp
  rw [hlen, hi]
  have hv : (u8 n).val = n := by rw [u8_val]; omega
  show (if _ then _ else _) = _
  rw [hv, if_neg (by omega), Nat.sub_self]
  simp [Res.upto]

/-! ### A register and the numbers it has let through, without assumptions on the distances -/

open NackRegister in
/-- `H`: the numbers let through; `q`: the highest number the session remembers -/
structure Lane (o : Option ReceiverRegister) (q : Option Nat) (H : List Nat) : Prop where
  cold : H = [] → q = none
  unset : o = none → H = []
  reg : ∀ r, o = some r → ∃ hist req, NackInv r.nack hist req ∧ (∀ n, n ∈ hist ↔ n ∈ H) ∧ ∀ n ∈ hist, n < 2 ^ 64

theorem Lane.start : Lane none none [] := ⟨fun _ => rfl, fun _ => rfl, fun r h => by cases h⟩

theorem Lane.opened {o : Option ReceiverRegister} {q : Option Nat} {H : List Nat} (h : Lane o q H) :
    Lane (some (o.getD (ReceiverRegister.new q))) q H := by
  refine ⟨h.cold, fun e => (by cases e), ?_⟩
  intro r hr
  simp only [Option.some.injEq] at hr
  cases ho : o with
  | some r0 => rw [ho] at hr; simp at hr; subst hr; exact h.reg r0 ho
  | none =>
    have hH := h.unset ho
    have hq := h.cold hH
    rw [ho, hq] at hr; simp at hr; subst hr; subst hH
    exact ⟨[], [], NackInv.fresh _ (fun _ => rfl), by simp, by simp⟩

theorem Lane.fits {r : ReceiverRegister} {q : Option Nat} {H : List Nat} (h : Lane (some r) q H) : Rcv.RegOk r := by
  obtain ⟨hist, req, hi, he, hf⟩ := h.reg r rfl
  exact ⟨hist, req, hi, hf⟩

theorem Lane.new {r : ReceiverRegister} {q : Option Nat} {H : List Nat} (h : Lane (some r) q H) {n : Nat} (ha : r.nack.accepts n = true) : n ∉ H := by
  obtain ⟨hist, req, hi, he, hf⟩ := h.reg r rfl
  exact fun hc => ((Rcv.accepts_iff hi n).1 ha).2 ((he n).2 hc)

/-- The highest number -/
theorem Lane.max {r : ReceiverRegister} {q : Option Nat} {H : List Nat} (h : Lane (some r) q H) :
    (r.nack.maxSeq = none ∧ H = []) ∨ ∃ m ∈ H, r.nack.maxSeq = some m ∧ ∀ k ∈ H, k ≤ m := by
  obtain ⟨hist, req, hi, he, hf⟩ := h.reg r rfl
  generalize r.nack = g at *
  cases hi with
  | fresh pk h' =>
    left
    refine ⟨rfl, ?_⟩
    cases H with
    | nil => rfl
    | cons a l => have := (he a).2 (by simp); cases this
  | run pk st en _ _ hle hwin clear recv top endIn startOut cnt le5 future =>
    exact .inr ⟨en, (he en).1 endIn, rfl, fun k hk => top k ((he k).2 hk)⟩

/-- The number a 16-bit number is taken for -/
theorem Lane.tells {r : ReceiverRegister} {q : Option Nat} {H : List Nat} (h : Lane (some r) q H.reverse) {n w : Nat} (ht : Rcv.Tells H n)
    (hw : w % 65536 = n % 65536) : extend 16 r.nack.maxSeq w = n := by
  obtain ⟨h1, h2, h3, h4⟩ := ht
  have hb : ∀ m ∈ H, m < 2 ^ 64 := by
    obtain ⟨hist, req, hi, he, hf⟩ := h.reg r rfl
    exact fun m hm => hf m ((he m).2 (by simpa using hm))
  rcases h.max with ⟨e1, e2⟩ | ⟨m, hm, e1, e2⟩
  · rw [e1]
    have := h2 (by simpa using e2)
    unfold extend
    dsimp only
    omega
  · rw [e1]
    have hm : m ∈ H := by simpa using hm
    obtain ⟨k, hk, hlt⟩ := h4 (by intro e; rw [e] at hm; cases hm)
    have := e2 k (by simpa using hk)
    have := h3 m hm
    exact C01_extend_recovers 16 m n w (by omega) (by omega) (hb m hm) h1 (by omega) (by omega) (by
      have e : (2:Nat) ^ 16 = 65536 := by norm_num
      rw [e]; exact hw)

theorem extend_small {p n w : Nat} (hp : p < 2 ^ 47) (h : extend 16 (some p) w = n) (hn : n % 2 ^ 48 < 2 ^ 47) : n < 2 ^ 47 := by
  unfold extend at h
  dsimp only at h
  have hr : ((p / 65536 : Nat) : Int) < 2 ^ 31 := by omega
  have e1 : (2:Nat) ^ 16 = 65536 := by norm_num
  have e2 : (2:Nat) ^ (64 - 16) = 281474976710656 := by norm_num
  rw [e1, e2] at h
  generalize hR : ((p / 65536 : Nat) : Int) = R at *
  have hR0 : 0 ≤ R := by omega
  have key : ∀ v : Int, (v = 281474976710655 ∨ (0 ≤ v ∧ v ≤ 2 ^ 31)) → (if v < 0 then 0 else v.toNat * 65536 + w % 65536) = n → n < 2 ^ 47 := by
    intro v hv hh
    rw [if_neg (by omega)] at hh
    rcases hv with rfl | hv <;> omega
  refine key _ ?_ h
  split
  · split
    · by_cases hz : R = 0
      · left; subst hz; norm_num
      · right; omega
    · right; omega
  · split
    · right; omega
    · right; omega

/-- The index is the true one, if it is so up to its 48 bits -/
theorem Lane.exact {r : ReceiverRegister} {q : Option Nat} {H : List Nat} (h : Lane (some r) q H) (hs : ∀ m ∈ H, m < 2 ^ 47) {n w t : Nat}
    (hn : extend 16 r.nack.maxSeq w = n) (ht : t < 2 ^ 47) (he : n % 2 ^ 48 = t % 2 ^ 48) : n = t := by
  have hlt : n < 2 ^ 47 := by
    rcases h.max with ⟨e1, e2⟩ | ⟨m, hm, e1, e2⟩
    · rw [e1] at hn
      unfold extend at hn
      dsimp only at hn
      omega
    · rw [e1] at hn
      exact extend_small (hs m hm) hn (by omega)
  omega

/-- A number goes through the register -/
theorem Lane.update {r : ReceiverRegister} {q q' : Option Nat} {H : List Nat} (h : Lane (some r) q H) {n : Nat} (hn : n < 2 ^ 64) :
    Lane (some (r.update n).1) q' (if r.nack.accepts n then n :: H else H) := by
  have hu : (r.update n).1.nack = (r.nack.update n).1 := rfl
  obtain ⟨hist, req, hi, he, hf⟩ := h.reg r rfl
  have grow : ∀ k ∈ n :: hist, k < 2 ^ 64 := by
    intro k hk
    rcases List.mem_cons.1 hk with rfl | hk
    · exact hn
    · exact hf k hk
  cases hacc : r.nack.accepts n with
  | true =>
    simp only [if_true]
    refine ⟨fun e => (by cases e), fun e => (by cases e), ?_⟩
    intro r' hr'
    simp only [Option.some.injEq] at hr'
    subst hr'
    rw [hu]
    exact ⟨n :: hist, req, hi.update n, fun k => by simp [he k], grow⟩
  | false =>
    simp only [Bool.false_eq_true, if_false]
    have hne : hist ≠ [] := by
      intro e
      subst e
      generalize r.nack = g at *
      cases hi with
      | fresh => simp [NackRegister.accepts] at hacc
      | run pk st' en' _ _ hle hwin clear recv top endIn startOut cnt le5 future => cases endIn
    have hHne : H ≠ [] := by
      intro e
      cases hist with
      | nil => exact hne rfl
      | cons a l => have := (he a).1 (by simp); rw [e] at this; cases this
    refine ⟨fun e => absurd e hHne, fun e => (by cases e), ?_⟩
    intro r' hr'
    simp only [Option.some.injEq] at hr'
    subst hr'
    rw [hu]
    by_cases hmem : n ∈ hist
    · refine ⟨n :: hist, req, hi.update n, ?_, grow⟩
      intro k
      simp only [List.mem_cons, he k]
      constructor
      · rintro (rfl | h)
        · exact (he k).1 hmem
        · exact h
      · exact fun h => .inr h
    · -- behind the window: the register does not change
      have hsame : (r.nack.update n).1 = r.nack := by
        cases hact : r.nack.active with
        | none => simp [NackRegister.accepts, hact] at hacc
        | some x =>
          obtain ⟨st, en⟩ := x
          have : ¬ (∀ st' en', r.nack.active = some (st', en') → st' ≤ n) := by
            intro hall
            have := (Rcv.accepts_iff hi n).2 ⟨hall, hmem⟩
            rw [hacc] at this; cases this
          have hlt : n < st := by
            by_contra hc
            apply this
            intro st' en' e
            rw [hact] at e; cases e; omega
          unfold NackRegister.update
          rw [hact]
          simp only [hlt, if_true]
      rw [hsame]
      exact ⟨hist, req, hi, he, hf⟩

theorem Lane.nack {r : ReceiverRegister} {q : Option Nat} {H : List Nat} (h : Lane (some r) q H) :
    Lane (some { r with nack := r.nack.nackReports.2 }) q H := by
  refine ⟨h.cold, fun e => (by cases e), ?_⟩
  intro r' hr'
  simp only [Option.some.injEq] at hr'
  subst hr'
  obtain ⟨hist, req, hi, he, hf⟩ := h.reg r rfl
  cases hact : r.nack.active with
  | none =>
    have : r.nack.nackReports.2 = r.nack := by simp [NackRegister.nackReports, hact]
    dsimp only
    rw [this]
    exact ⟨hist, req, hi, he, hf⟩
  | some x =>
    obtain ⟨st, en⟩ := x
    have hn : en < 2 ^ 64 ∧ ∀ t, st ≤ t → t ≤ en → Str0m.Near en t := by
      have : r.nack = ⟨r.nack.packets, some (st, en)⟩ := by rw [← hact]
      rw [this] at hi
      exact near_of_window hi hf
    obtain ⟨_, _, h3, _, _⟩ := hi.nackReports st en hact en hn.1 hn.2
    exact ⟨hist, _, h3, he, hf⟩

theorem Lane.report {r : ReceiverRegister} {q : Option Nat} {H : List Nat} (h : Lane (some r) q H) : Lane (some r.receptionReport.1) q H := by
  refine ⟨h.cold, fun e => (by cases e), ?_⟩
  intro r' hr'
  simp only [Option.some.injEq] at hr'
  subst hr'
  rw [(Rcv.regOk_report h.fits).2]
  exact h.reg r rfl

/-! ### One datagram -/

/-- The stream with SSRC `a` and repair SSRC `x` has let through `D` and `L`, latest first -/
structure Track (a x : Nat) (s : Rcv.Sess U) (D L : List Nat) : Prop where
  ssrc : s.rx.ssrc = a
  rtx : s.rx.rtx = some x
  roc : s.rx.resetRoc = none
  main : Lane s.rx.reg (Rcv.seqOf s.seqs a) D
  rep : Lane s.rx.regRtx (Rcv.seqOf s.seqs x) L

/-- The packet is one the sender sent -/
def Genuine (a : Nat) (outs : List Tx.Out) (p : Rcv.Packet U) : Prop :=
  ∃ r ∈ outs, r.kind = .regular ∧ Same p r.seqNo r.body r.pt r.time r.marker a

/-- What a datagram does -/
inductive Took (a x : Nat) (outs : List Tx.Out) (s s' : Rcv.Sess U) (D L : List Nat) : Prop where
  | quiet (h1 : s'.log = s.log) (h2 : s'.pending = s.pending) (h3 : Track a x s' D L)
  | media (e : Rtp.Header U × Nat × List Byte) (q : Rcv.Packet U) (h1 : s'.log = e :: s.log) (h2 : e.1.ssrc = a) (h3 : s'.pending = some q)
      (h4 : Track a x s' (q.seqNo :: D) L) (h5 : q.seqNo ∉ D) (h6 : Genuine a outs q)
  | repair (e : Rtp.Header U × Nat × List Byte) (h1 : s'.log = e :: s.log) (h2 : e.1.ssrc = x) (h3 : s'.pending = s.pending)
      (h4 : Track a x s' D (e.2.1 :: L)) (h5 : e.2.1 < 2 ^ 47)
  | both (e : Rtp.Header U × Nat × List Byte) (q : Rcv.Packet U) (h1 : s'.log = e :: s.log) (h2 : e.1.ssrc = x) (h3 : s'.pending = some q)
      (h4 : Track a x s' (q.seqNo :: D) (e.2.1 :: L)) (h5 : e.2.1 < 2 ^ 47) (h6 : q.seqNo ∉ D) (h7 : Genuine a outs q)

theorem low_bits {r : ReceiverRegister} (h : Rcv.RegOk r) {w n : Nat} (hn : extend 16 r.nack.maxSeq w = n) : n % 65536 = w % 65536 := by
  have := (C01_extend_low_bits 16 w _ (by omega) (Rcv.regOk_max h)).1
  have e : (2:Nat) ^ 16 = 65536 := by norm_num
  rw [hn, e] at this
  exact this

theorem opened_inside {c : Rcv.Cfg U} {d : Srtp.Derived} {h : Rtp.Header U} {buf data : List Byte} {n : Nat} (ho : Rcv.open_ c d h buf n = .ok data) :
    ∃ x, Srtp.unprotectRtp c.prim d buf h.headerLen h.ssrc h.sequenceNumber n = .ok x ∧ (h.hasPadding = false → data = x) ∧
      (h.hasPadding = true → Rtp.unpadPayload x = .ok data) := by
  unfold Rcv.open_ at ho
  split at ho
  · rename_i x e
    refine ⟨x, e, ?_, ?_⟩
    · intro hp; rw [Rcv.unpad, if_neg (by simp [hp])] at ho; cases ho; rfl
    · intro hp; rw [Rcv.unpad, if_pos hp] at ho; exact ho
  · cases ho
  · cases ho

theorem Track.find {c : Rcv.Cfg U} {a x : Nat} {s : Rcv.Sess U} {D L : List Nat} (ht : Track a x s D L) (ha : a ≠ 0) {pt : Nat} {p : Rcv.Param}
    (h : Rcv.paramOf c s.rx.ssrc pt = some p) : p ∈ c.params ∧ (p.pt = pt ∨ p.resend = some pt) := by
  rw [ht.ssrc, Rcv.paramOf, if_neg ha] at h
  refine ⟨List.mem_of_find?_eq_some h, ?_⟩
  have := List.find?_some h
  simpa using this

/-- A datagram with a media payload type -/
theorem took_media {c : Rcv.Cfg U} (hm : c.rtpMode = true) {a x : Nat} (ha : a ≠ 0) (hax : x ≠ a) {outs : List Tx.Out} {s : Rcv.Sess U} {D L : List Nat}
    (ht : Track a x s D L) (hD : ∀ n ∈ D, n < 2 ^ 47) (now : Nat) (h : Rtp.Header U) (d : Srtp.Derived) (p : Rcv.Param) (buf : List Byte)
    (hrep : p.pt = h.payloadType) (hs : h.ssrc = a)
    (hopen : ∀ n data, Rcv.open_ c d h buf n = .ok data → n % 65536 = h.sequenceNumber % 65536 →
      ∃ r ∈ outs, r.kind = .regular ∧ r.seqNo < 2 ^ 47 ∧ n % 2 ^ 48 = r.seqNo % 2 ^ 48 ∧
        (n = r.seqNo → data = r.body) ∧ h.payloadType = r.pt ∧ h.timestamp = r.time % 2 ^ 32 ∧ h.marker = r.marker ∧ h.sequenceNumber = r.seqNo % 65536) :
    ∃ s', Rcv.checked c d s now h p buf = .ok (s', none) ∧ Took a x outs s s' D L := by
  have hs' : h.ssrc = s.rx.ssrc := by rw [ht.ssrc]; exact hs
  have hop := ht.main.opened
  obtain ⟨r, hr⟩ : ∃ r, s.rx.reg.getD (ReceiverRegister.new (Rcv.seqOf s.seqs s.rx.ssrc)) = r := ⟨_, rfl⟩
  rw [← ht.ssrc, hr, ht.ssrc] at hop
  obtain ⟨n, hn⟩ : ∃ n, extend 16 r.nack.maxSeq h.sequenceNumber = n := ⟨_, rfl⟩
  have hfit : n < 2 ^ 64 := hn ▸ Rcv.extend_fits hop.fits _
  obtain ⟨s', e1, e2⟩ := Rcv.media_step hm d ht.roc (by rw [ht.ssrc]; exact ha) now h p buf hrep hs' hr hn
  refine ⟨s', e1, ?_⟩
  rcases e2 with ⟨k1, k2, k3, k4, _⟩ | ⟨data, q, k0, k0', k1, k2, k3, k4, k5, k6, k7, k8⟩
  · obtain ⟨i1, i2, i3, i4, i5⟩ := Rcv.core_ids k1
    refine .quiet k3 k4 ⟨i1.trans ht.ssrc, i2.trans ht.rtx, i3.trans ht.roc, ?_, ?_⟩
    · rw [i4, k2]; exact hop
    · rw [i5, k2]; exact ht.rep
  · obtain ⟨i1, i2, i3, i4, i5⟩ := Rcv.core_ids k1
    obtain ⟨o, ho, g1, g2, g3, g4, g5, g6, g7, g8⟩ := hopen n data k0' (low_bits hop.fits hn)
    have hno : n = o.seqNo := hop.exact hD hn g2 g3
    refine .media (h, n, data) q k3 hs k4 ?_ ?_ ⟨o, ho, g1, ⟨k5.trans hno, k7.trans (g4 hno), ?_, ?_, ?_, ?_, ?_⟩⟩
    · rw [k5]
      have hup := hop.update (q' := Rcv.seqOf s'.seqs a) hfit
      rw [k0, if_pos rfl] at hup
      refine ⟨i1.trans ht.ssrc, i2.trans ht.rtx, i3.trans ht.roc, ?_, ?_⟩
      · rw [i4]; exact hup
      · rw [i5, k2, ht.ssrc, Rcv.seqOf_bump_other _ _ _ _ hax]; exact ht.rep
    · rw [k5]; exact hop.new k0
    · rw [k6]; exact g5
    · rw [k6]; exact g6
    · rw [k6]; exact g7
    · rw [k6]; exact hs
    · rw [k6]; exact g8

/-- A datagram with a repair payload type -/
theorem took_repair {c : Rcv.Cfg U} (hm : c.rtpMode = true) {a x : Nat} (ha : a ≠ 0) (hax : x ≠ a) {outs : List Tx.Out} {s : Rcv.Sess U} {H L : List Nat}
    (ht : Track a x s H.reverse L) (hL : ∀ n ∈ L, n < 2 ^ 47) (now : Nat) (h : Rtp.Header U) (d : Srtp.Derived) (p : Rcv.Param) (buf : List Byte)
    (hrep : p.pt ≠ h.payloadType) (hs : h.ssrc = x)
    (hopen : ∀ k data, Rcv.open_ c d h buf k = .ok data → k % 65536 = h.sequenceNumber % 65536 → ∃ t, t < 2 ^ 47 ∧ k % 2 ^ 48 = t % 2 ^ 48 ∧
      (k = t → data = [] ∨ ∃ r ∈ outs, r.kind = .regular ∧ Rcv.Tells H r.seqNo ∧
        data = be16 (r.seqNo % 65536) ++ r.body ∧ p.pt = r.pt ∧ h.timestamp = r.time % 2 ^ 32 ∧ h.marker = r.marker)) :
    ∃ s', Rcv.checked c d s now h p buf = .ok (s', none) ∧ Took a x outs s s' H.reverse L := by
  have hop1 := ht.main.opened
  obtain ⟨r1, hr1⟩ : ∃ r, s.rx.reg.getD (ReceiverRegister.new (Rcv.seqOf s.seqs s.rx.ssrc)) = r := ⟨_, rfl⟩
  rw [← ht.ssrc, hr1, ht.ssrc] at hop1
  have hop2 := ht.rep.opened
  obtain ⟨r2, hr2⟩ : ∃ r, s.rx.regRtx.getD (ReceiverRegister.new (Rcv.seqOf s.seqs x)) = r := ⟨_, rfl⟩
  rw [hr2] at hop2
  obtain ⟨k, hk⟩ : ∃ n, extend 16 r2.nack.maxSeq h.sequenceNumber = n := ⟨_, rfl⟩
  have hfit2 : k < 2 ^ 64 := hk ▸ Rcv.extend_fits hop2.fits _
  obtain ⟨s', e1, e2⟩ := Rcv.rtx_step hm d ht.roc (by rw [ht.ssrc]; exact ha) now h p buf hrep hs (by rw [ht.ssrc]; exact hax) hr2 hk hr1
  refine ⟨s', e1, ?_⟩
  rcases e2 with ⟨k1, k2, k3, k4, _⟩ | ⟨k0, ko, k1, k2, k3, k4⟩ | ⟨data, n, k0, ko, hne, hn, k1, k2, k3, k4⟩
  · obtain ⟨i1, i2, i3, i4, i5⟩ := Rcv.core_ids k1
    refine .quiet k3 k4 ⟨i1.trans ht.ssrc, i2.trans ht.rtx, i3.trans ht.roc, ?_, ?_⟩
    · rw [i4, k2]; exact ht.main
    · rw [i5, k2]; exact hop2
  · obtain ⟨i1, i2, i3, i4, i5⟩ := Rcv.core_ids k1
    obtain ⟨t, g1, g2, _⟩ := hopen k [] ko (low_bits hop2.fits hk)
    have hkt : k = t := hop2.exact hL hk g1 g2
    refine .repair (h, k, []) k3 hs k4 ?_ (by dsimp only; omega)
    have hup := hop2.update (q' := Rcv.seqOf s'.seqs x) hfit2
    rw [k0, if_pos rfl] at hup
    refine ⟨i1.trans ht.ssrc, i2.trans ht.rtx, i3.trans ht.roc, ?_, ?_⟩
    · rw [i4, k2, Rcv.seqOf_bump_other _ _ _ _ (fun e => hax e.symm)]; exact ht.main
    · rw [i5]; exact hup
  · obtain ⟨i1, i2, i3, i4, i5⟩ := Rcv.core_ids k1
    obtain ⟨t, g1, g2, g3⟩ := hopen k data ko (low_bits hop2.fits hk)
    have hkt : k = t := hop2.exact hL hk g1 g2
    have hfit1 : n < 2 ^ 64 := hn ▸ Rcv.extend_fits hop1.fits _
    have hx : Lane s'.rx.regRtx (Rcv.seqOf s'.seqs x) (k :: L) := by
      have hup := hop2.update (q' := Rcv.seqOf s'.seqs x) hfit2
      rw [k0, if_pos rfl] at hup
      rw [i5]; exact hup
    have hmain : Lane s'.rx.reg (Rcv.seqOf s'.seqs a) (if r1.nack.accepts n then n :: H.reverse else H.reverse) := by
      rw [i4]; exact hop1.update hfit1
    rcases k4 with ⟨ha1, k5⟩ | ⟨ha1, q, k5, k6, k7, k8, k9⟩
    · rw [ha1, if_neg (by simp)] at hmain
      exact .repair (h, k, data) k3 hs k5 ⟨i1.trans ht.ssrc, i2.trans ht.rtx, i3.trans ht.roc, hmain, hx⟩ (by dsimp only; omega)
    · rw [ha1, if_pos rfl] at hmain
      rcases g3 hkt with g | ⟨r, hr, f1, f2, f3, f4, f5, f6⟩
      · exact absurd g hne
      · have hrd : Rtp.readOsn data = (some (r.seqNo % 65536), r.body) := by
          rw [f3]
          show (some (rd16 _ _), _) = _
          have : rd16 (u8 (r.seqNo % 65536 / 2 ^ 8)) (u8 (r.seqNo % 65536)) = r.seqNo % 65536 := by
            simp only [rd16, u8_val]; omega
          rw [this]; rfl
        have hno : n = r.seqNo := by
          rw [← hn, hrd]
          exact hop1.tells f2 (by simp)
        refine .both (h, k, data) q k3 hs k5 ?_ (by dsimp only; omega) ?_ ⟨r, hr, f1, ⟨k6.trans hno, ?_, ?_, ?_, ?_, ?_, ?_⟩⟩
        · rw [k6]
          exact ⟨i1.trans ht.ssrc, i2.trans ht.rtx, i3.trans ht.roc, hmain, hx⟩
        · rw [k6]; exact hop1.new ha1
        · rw [k8]; show (Rtp.readOsn data).2 = _; rw [hrd]
        · rw [k7]; exact f4
        · rw [k7]; exact f5
        · rw [k7]; exact f6
        · rw [k7]; exact ht.ssrc
        · rw [k7]; show (Rtp.readOsn data).1.getD 0 = _; rw [hrd]; rfl

/-- What may arrive -/
def Fine (c : Rcv.Cfg U) (a x : Nat) (outs : List Tx.Out) (H : List Nat) (now : Nat) (buf : List Byte) : Prop :=
  (∃ o ∈ outs, Carries c buf o ∧ ∀ n, o.kind = .resend n → Rcv.Tells H n) ∨ Elsewhere c a x buf ∨
    (Rcv.Forged c buf ∧ Rcv.Labelled (· = a) (· = x) c (.packet now buf))

theorem took {c : Rcv.Cfg U} (hm : c.rtpMode = true) {a x : Nat} (ha : a ≠ 0) (hax : x ≠ a) {P : List Tx.Param} (hag : Agreed P c.params) {outs : List Tx.Out}
    (hout : ∀ o ∈ outs, Sent a x P outs o ∧ o.seq16 = o.seqNo % 65536) (hsm : ∀ o ∈ outs, o.seqNo < 2 ^ 47)
    {s : Rcv.Sess U} {H L : List Nat} (ht : Track a x s H.reverse L) (hH : ∀ n ∈ H, n < 2 ^ 47) (hL : ∀ n ∈ L, n < 2 ^ 47) (now : Nat) (buf : List Byte)
    (hf : Fine c a x outs H now buf) :
    ∃ s', Rcv.receive c s now buf = .ok (s', none) ∧ Took a x outs s s' H.reverse L := by
  have hD : ∀ n ∈ H.reverse, n < 2 ^ 47 := fun n hn => hH n (by simpa using hn)
  unfold Rcv.receive
  cases hp : Rtp.Header.parse c.env c.exts buf with
  | panic => have := (Rtp.C12_total c.env c.exts buf).1; rw [hp] at this; exact this.elim
  | err e => exact ⟨s, rfl, .quiet rfl rfl ht⟩
  | ok h =>
    dsimp only
    unfold Rcv.handle
    split
    · rename_i hs
      split
      · rename_i d p hd hpar
        obtain ⟨hpm, hpt⟩ := ht.find ha hpar
        rw [ht.ssrc, ht.rtx, Option.some.injEq] at hs
        rcases hf with ⟨o, ho, hc, htl⟩ | he | ⟨hfo, hlab⟩
        · obtain ⟨h', hp', c1, c2, c3, c4, c5, c6⟩ := hc.header
          rw [hp] at hp'; cases hp'
          obtain ⟨hsent, h16⟩ := hout o ho
          have ident : ∀ n data, Rcv.open_ c d h buf n = .ok data → n % 65536 = h.sequenceNumber % 65536 →
              n % 2 ^ 48 = o.seqNo % 2 ^ 48 ∧ (n = o.seqNo → (h.hasPadding = false → data = o.body) ∧ (h.hasPadding = true → Rtp.unpadPayload o.body = .ok data)) := by
            intro n data hopn hlow
            obtain ⟨y, y1, y2, y3⟩ := opened_inside hopn
            obtain ⟨z1, z2⟩ := hc.index h d n y hp hd (by rw [hlow, c2, h16]; omega) y1
            refine ⟨z1, fun e => ?_⟩
            rw [← z2 e]
            exact ⟨y2, y3⟩
          cases hsent with
          | media hk hss pp hpp hppt =>
            have hrep : p.pt = h.payloadType := by
              rcases hpt with h | h
              · exact h
              · rw [c3, ← hppt] at h; exact absurd h ((hag pp hpp).1 p hpm)
            refine took_media hm ha hax ht hD now h d p buf hrep (c1.trans hss) ?_
            intro n data hopn hlow
            obtain ⟨z1, z2⟩ := ident n data hopn hlow
            have hnp : h.hasPadding = false := by
              by_contra hc'
              obtain ⟨len, hlen⟩ := c6.1 (by simpa using hc')
              rw [hk] at hlen; cases hlen
            exact ⟨o, ho, hk, hsm o ho, z1, fun e => (z2 e).1 hnp, c3, c4, c5, c2.trans h16⟩
          | resend r hr hrp hra hss pp hpp hppt hrs hr16 =>
            have hne := (hag pp hpp).2 o.pt hrs p hpm
            have hrep : p.pt ≠ h.payloadType := by rw [c3]; exact hne.1
            refine took_repair hm ha hax ht hL now h d p buf hrep (c1.trans hss) ?_
            intro k data hopn hlow
            obtain ⟨z1, z2⟩ := ident k data hopn hlow
            have hnp : h.hasPadding = false := by
              by_contra hc'
              obtain ⟨len, hlen⟩ := c6.1 (by simpa using hc')
              rw [hrp.number] at hlen; cases hlen
            refine ⟨o.seqNo, hsm o ho, z1, fun e => .inr ⟨r, hr, hrp.orig, htl _ hrp.number, ?_, ?_, ?_, ?_⟩⟩
            · rw [(z2 e).1 hnp, hrp.body, hr16]
            · rw [← hppt]
              apply hne.2
              rcases hpt with h | h
              · exact absurd h hrep
              · rw [h, c3]
            · rw [c4, hrp.time]
            · rw [c5, hrp.marker]
          | blank len hk hl hb hss pp hpp hrs =>
            have hne := (hag pp hpp).2 o.pt hrs p hpm
            have hrep : p.pt ≠ h.payloadType := by rw [c3]; exact hne.1
            refine took_repair hm ha hax ht hL now h d p buf hrep (c1.trans hss) ?_
            intro k data hopn hlow
            obtain ⟨z1, z2⟩ := ident k data hopn hlow
            refine ⟨o.seqNo, hsm o ho, z1, fun e => .inl ?_⟩
            have := (z2 e).2 (c6.2 ⟨len, hk⟩)
            rw [hb, unpad_blank hl] at this
            simpa using this.symm
        · obtain ⟨e1, e2⟩ := he h hp
          rcases hs with hs | hs
          · exact absurd hs e1
          · exact absurd hs e2
        · have never : ∀ n data, Rcv.open_ c d h buf n ≠ .ok data := by
            intro n data e
            obtain ⟨y, y1, _⟩ := opened_inside e
            exact hfo h d n y hp hd y1
          have hpar' : Rcv.paramOf c a h.payloadType = some p := by rw [← ht.ssrc]; exact hpar
          have hl := Rcv.label_cases hlab hp ha hpar'
          by_cases hrep : p.pt = h.payloadType
          · rw [if_pos hrep] at hl
            exact took_media hm ha hax ht hD now h d p buf hrep (hs.resolve_right hl) (fun n data e => absurd e (never n data))
          · rw [if_neg hrep] at hl
            exact took_repair hm ha hax ht hL now h d p buf hrep (hs.resolve_left hl) (fun n data e => absurd e (never n data))
      · exact ⟨s, rfl, .quiet rfl rfl ht⟩
    · exact ⟨s, rfl, .quiet rfl rfl ht⟩

/-- The other steps -/
theorem Track.other {c : Rcv.Cfg U} {a x : Nat} {s s' : Rcv.Sess U} {D L : List Nat} (ht : Track a x s D L) {op : Rcv.Op} {es : List (Rcv.Ev U)}
    (hop : ∀ now buf, op ≠ .packet now buf) (hst : Rcv.Steady op) (h : Rcv.step c s op = .ok (s', es)) : Track a x s' D L := by
  have same : ∀ {s' : Rcv.Sess U}, s'.rx.core = s.rx.core → s'.seqs = s.seqs → Track a x s' D L := by
    intro s' h1 h2
    obtain ⟨i1, i2, i3, i4, i5⟩ := Rcv.core_ids h1
    exact ⟨i1.trans ht.ssrc, i2.trans ht.rtx, i3.trans ht.roc, by rw [i4, h2]; exact ht.main, by rw [i5, h2]; exact ht.rep⟩
  cases op with
  | packet now buf => exact absurd rfl (hop now buf)
  | poll =>
    have hp : (Rcv.pollPaused s.rx).1.core = s.rx.core := by unfold Rcv.pollPaused; split; rfl; split <;> rfl
    simp only [Rcv.step] at h
    split at h
    · rename_i rx b e
      rw [e] at hp
      cases h; exact same hp rfl
    · rename_i rx e
      rw [e] at hp
      cases h; exact same hp rfl
  | timeout now =>
    cases h
    refine same ?_ rfl
    dsimp only
    unfold Rcv.timeout
    split
    · rfl
    · split <;> rfl
  | senderInfo now ntp rtp32 packets octets => cases h; exact same rfl rfl
  | pollInfo =>
    cases h
    refine same ?_ rfl
    dsimp only
    unfold Rcv.pollSenderInfo
    split
    · rfl
    · split <;> rfl
  | fresh n => exact hst.elim
  | resetBuffers => exact hst.elim
  | changeSsrc n => exact hst.elim
  | setRtx n => exact hst.elim
  | resetRoc n => exact hst.elim
  | threshold t => cases h; exact same rfl rfl
  | suppress b => cases h; exact same rfl rfl
  | requestKf k => cases h; exact same rfl rfl
  | keyframe =>
    cases h
    refine same ?_ rfl
    dsimp only
    unfold Rcv.keyframe
    split <;> rfl
  | nack =>
    cases h
    unfold Rcv.makeNack
    split
    · exact ht
    · split
      · exact ht
      · rename_i r hr
        have hm := ht.main
        rw [hr] at hm
        have hn := hm.nack
        split
        · rename_i n e
          rw [e] at hn
          exact ⟨ht.ssrc, ht.rtx, ht.roc, hn, ht.rep⟩
        · rename_i ns n e
          rw [e] at hn
          exact ⟨ht.ssrc, ht.rtx, ht.roc, hn, ht.rep⟩
  | report now =>
    cases h
    unfold Rcv.makeReport Rcv.receiverReport
    dsimp only
    split
    · exact same rfl rfl
    · rename_i r hr
      have hm := ht.main
      rw [hr] at hm
      have hn := hm.report
      split
      · rename_i r' e
        rw [e] at hn
        exact ⟨ht.ssrc, ht.rtx, ht.roc, hn, ht.rep⟩
      · rename_i r' st e
        rw [e] at hn
        exact ⟨ht.ssrc, ht.rtx, ht.roc, hn, ht.rep⟩

/-! ### Over a history -/

/-- What holds at any time -/
structure Inv (a x : Nat) (outs : List Tx.Out) (s : Rcv.Sess U) (es : List (Rcv.Ev U)) : Prop where
  track : Track a x s (Rcv.numbersOf s es).reverse (Rcv.openedOn x s).reverse
  rep : ∀ n ∈ Rcv.openedOn x s, n < 2 ^ 47
  once : (Rcv.numbersOf s es).Nodup
  good : ∀ p ∈ Rcv.packetsOf es ++ s.pending.toList, Genuine a outs p

theorem Inv.small {a x : Nat} {outs : List Tx.Out} {s : Rcv.Sess U} {es : List (Rcv.Ev U)} (h : Inv a x outs s es)
    (hsm : ∀ o ∈ outs, o.seqNo < 2 ^ 47) : ∀ n ∈ Rcv.numbersOf s es, n < 2 ^ 47 := by
  intro n hn
  obtain ⟨p, hp, rfl⟩ := List.mem_map.1 hn
  obtain ⟨r, hr, _, hs⟩ := h.good p hp
  rw [hs.seqNo]; exact hsm r hr

theorem inv_run {c : Rcv.Cfg U} (hm : c.rtpMode = true) {a x : Nat} (ha : a ≠ 0) (hax : x ≠ a) {P : List Tx.Param} (hag : Agreed P c.params) {outs : List Tx.Out}
    (hout : ∀ o ∈ outs, Sent a x P outs o ∧ o.seq16 = o.seqNo % 65536) (hsm : ∀ o ∈ outs, o.seqNo < 2 ^ 47) (ops : List Rcv.Op)
    (s : Rcv.Sess U) (es : List (Rcv.Ev U)) (hrun : Rcv.run c { rx := { ssrc := a, rtx := some x } } ops = .ok (s, es)) :
    (∀ op ∈ ops, Rcv.Steady op) → Rcv.Drained c { rx := { ssrc := a, rtx := some x } } ops → Network c a x outs ops →
    Timely c { rx := { ssrc := a, rtx := some x } } outs ops → Inv a x outs s es := by
  revert s es
  refine Rcv.run_ind (c := c) (s0 := ({ rx := { ssrc := a, rtx := some x } } : Rcv.Sess U))
    (fun ops s es => (∀ op ∈ ops, Rcv.Steady op) → Rcv.Drained c { rx := { ssrc := a, rtx := some x } } ops → Network c a x outs ops →
    Timely c { rx := { ssrc := a, rtx := some x } } outs ops → Inv a x outs s es) ?_ ?_ ops
  · intro _ _ _ _
    exact ⟨⟨rfl, rfl, rfl, Lane.start, Lane.start⟩, (fun n hn => by cases hn), List.nodup_nil, (fun p hp => by cases hp)⟩
  · intro ops op s es s' es' hr ih hs hst hdr hnet htim
    have ih := ih (fun o ho => hst o (by simp [ho]))
      (fun pre now buf post e => hdr pre now buf (post ++ [op]) (by rw [e]; simp))
      (fun now buf hb => hnet now buf (by simp [hb]))
      (fun pre now buf post s1 es1 e => htim pre now buf (post ++ [op]) s1 es1 (by rw [e]; simp))
    have hfit0 : Rcv.Fit ({ rx := { ssrc := a, rtx := some x } } : Rcv.Sess U) := ⟨fun rep r h => (by cases rep <;> cases h), fun e he => (by cases he)⟩
    by_cases hp : ∃ now buf, op = .packet now buf
    · obtain ⟨now, buf, rfl⟩ := hp
      obtain ⟨o, e1, rfl⟩ := Rcv.packet_step hs
      have hpend : s.pending = none := hdr ops now buf [] rfl s es hr
      have hfine : Fine c a x outs (Rcv.numbersOf s es) now buf := by
        rcases hnet now buf (by simp) with ⟨o, ho, hc⟩ | h | h
        · exact .inl ⟨o, ho, hc, htim ops now buf [] s es rfl hr o ho hc⟩
        · exact .inr (.inl h)
        · exact .inr (.inr h)
      obtain ⟨s2, e2, tk⟩ := took hm ha hax hag hout hsm ih.track (ih.small hsm) (fun n hn => ih.rep n (by simpa using hn)) now buf hfine
      rw [e1] at e2; cases e2
      have hns : ∀ {q : Rcv.Packet U}, s'.pending = some q → Rcv.numbersOf s' (es ++ (none : Option (Rcv.Packet U)).toList.map Rcv.Ev.packet) = Rcv.numbersOf s es ++ [q.seqNo] := by
        intro q h1
        unfold Rcv.numbersOf
        rw [Rcv.packetsOf_append, h1, hpend]
        simp [Rcv.packetsOf]
      have hns0 : s'.pending = s.pending → Rcv.numbersOf s' (es ++ (none : Option (Rcv.Packet U)).toList.map Rcv.Ev.packet) = Rcv.numbersOf s es := by
        intro h1
        unfold Rcv.numbersOf
        rw [Rcv.packetsOf_append, h1]
        simp [Rcv.packetsOf]
      have hg : ∀ {q : Rcv.Packet U}, s'.pending = some q → Genuine a outs q →
          ∀ p ∈ Rcv.packetsOf (es ++ (none : Option (Rcv.Packet U)).toList.map Rcv.Ev.packet) ++ s'.pending.toList, Genuine a outs p := by
        intro q h1 h2 p hp
        rw [Rcv.packetsOf_append, h1] at hp
        simp only [Rcv.packetsOf, Option.toList_none, List.map_nil, List.filterMap_nil, List.append_nil, Option.toList_some, List.mem_append,
          List.mem_singleton] at hp
        rcases hp with hp | rfl
        · exact ih.good p (List.mem_append_left _ hp)
        · exact h2
      have hg0 : s'.pending = s.pending →
          ∀ p ∈ Rcv.packetsOf (es ++ (none : Option (Rcv.Packet U)).toList.map Rcv.Ev.packet) ++ s'.pending.toList, Genuine a outs p := by
        intro h1 p hp
        rw [Rcv.packetsOf_append, h1] at hp
        simp only [Rcv.packetsOf, Option.toList_none, List.map_nil, List.filterMap_nil, List.append_nil] at hp
        exact ih.good p hp
      have hos : ∀ {e : Rtp.Header U × Nat × List Byte}, s'.log = e :: s.log → e.1.ssrc = x → Rcv.openedOn x s' = Rcv.openedOn x s ++ [e.2.1] := by
        intro e h1 h2
        unfold Rcv.openedOn
        rw [h1]
        simp [h2]
      have hos0 : ∀ {e : Rtp.Header U × Nat × List Byte}, s'.log = e :: s.log → e.1.ssrc = a → Rcv.openedOn x s' = Rcv.openedOn x s := by
        intro e h1 h2
        unfold Rcv.openedOn
        rw [h1]
        simp [h2, hax.symm]
      have hnd : ∀ {n : Nat}, n ∉ (Rcv.numbersOf s es).reverse → (Rcv.numbersOf s es ++ [n]).Nodup := by
        intro n hn
        rw [List.nodup_append]
        refine ⟨ih.once, by simp, fun a' ha' b hb => ?_⟩
        rw [List.mem_singleton.1 hb]
        exact fun e => hn (by rw [← e]; simpa using ha')
      have hrp : ∀ {e : Rtp.Header U × Nat × List Byte}, e.2.1 < 2 ^ 47 → ∀ n ∈ Rcv.openedOn x s ++ [e.2.1], n < 2 ^ 47 := by
        intro e he n hn
        rcases List.mem_append.1 hn with hn | hn
        · exact ih.rep n hn
        · rw [List.mem_singleton.1 hn]; exact he
      cases tk with
      | quiet h1 h2 h3 =>
        have ho : Rcv.openedOn x s' = Rcv.openedOn x s := by unfold Rcv.openedOn; rw [h1]
        refine ⟨?_, ?_, ?_, hg0 h2⟩
        · rw [hns0 h2, ho]; exact h3
        · rw [ho]; exact ih.rep
        · rw [hns0 h2]; exact ih.once
      | media e q h1 h2 h3 h4 h5 h6 =>
        refine ⟨?_, ?_, ?_, hg h3 h6⟩
        · rw [hns h3, hos0 h1 h2, List.reverse_append]; exact h4
        · rw [hos0 h1 h2]; exact ih.rep
        · rw [hns h3]; exact hnd h5
      | repair e h1 h2 h3 h4 h5 =>
        refine ⟨?_, ?_, ?_, hg0 h3⟩
        · rw [hns0 h3, hos h1 h2, List.reverse_append]; exact h4
        · rw [hos h1 h2]; exact hrp h5
        · rw [hns0 h3]; exact ih.once
      | both e q h1 h2 h3 h4 h5 h6 h7 =>
        refine ⟨?_, ?_, ?_, hg h3 h7⟩
        · rw [hns h3, hos h1 h2, List.reverse_append, List.reverse_append]; exact h4
        · rw [hos h1 h2]; exact hrp h5
        · rw [hns h3]; exact hnd h6
    · have hop : ∀ now buf, op ≠ .packet now buf := fun n b e => hp ⟨n, b, e⟩
      have hfit : Rcv.Fit s := by
        obtain ⟨s1, es1, hr1, hf⟩ := Rcv.fit_run (c := c) hfit0 ops
        rw [hr] at hr1; cases hr1; exact hf
      obtain ⟨s2, es2, e2, _, hlog, _, hpk⟩ := Rcv.step_other c hfit op hop
      rw [hs] at e2; cases e2
      have hl : Rcv.packetsOf (es ++ es') ++ s'.pending.toList = Rcv.packetsOf es ++ s.pending.toList := by
        rw [Rcv.packetsOf_append]
        rcases hpk with ⟨h1, h2⟩ | ⟨h1, h2⟩
        · rw [h1, h2, List.append_nil]
        · rw [h1, h2]; simp
      have hn : Rcv.numbersOf s' (es ++ es') = Rcv.numbersOf s es := by unfold Rcv.numbersOf; rw [hl]
      have ho : Rcv.openedOn x s' = Rcv.openedOn x s := by unfold Rcv.openedOn; rw [hlog]
      refine ⟨?_, ?_, ?_, ?_⟩
      · rw [hn, ho]; exact ih.track.other hop (hst op (by simp)) hs
      · rw [ho]; exact ih.rep
      · rw [hn]; exact ih.once
      · rw [hl]; exact ih.good

end Str0m.E2E
