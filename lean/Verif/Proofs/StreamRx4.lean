import Verif.Proofs.StreamRx3

namespace Str0m.Rcv
open Str0m Str0m.Rtp NackRegister

variable {U : Type}

/-! ### A forged datagram changes nothing -/

/-- The session with other registers -/
def put (s : Sess U) (x y : Option ReceiverRegister) : Sess U := { s with rx := { s.rx with reg := x, regRtx := y } }

/-- What `updateRegister` does besides the register -/
def note (s : Rx) (now ts clock : Nat) (rep : Bool) : Rx × MediaTime :=
  let time : MediaTime := ⟨extendTime (s.lastTime.map (·.numer)) s.paused ts, clock⟩
  let s := { s with paused := false, needEvent := s.needEvent || s.paused, checkPausedAt := some (now + s.threshold) }
  ((if rep then s else { s with lastTime := some time }), time)

/-- Another register for the repair stream -/
def withRtx (s : Rx) (y : Option ReceiverRegister) : Rx := { s with regRtx := y }

theorem put_put (s : Sess U) (a b x y : Option ReceiverRegister) : put (put s a b) x y = put s x y := rfl

theorem put_self (s : Sess U) : put s s.rx.reg s.rx.regRtx = s := rfl

theorem upd_main (s : Rx) (r : ReceiverRegister) (y : Option ReceiverRegister) (now ts clock seq : Nat) :
    updateRegister { s with reg := some r, regRtx := y } now ts clock false seq =
      .ok ({ (note s now ts clock false).1 with reg := some (r.update seq).1, regRtx := y }, (note s now ts clock false).2, (r.update seq).2) := rfl

theorem upd_rtx (s : Rx) (r : ReceiverRegister) (x : Option ReceiverRegister) (now ts clock seq : Nat) :
    updateRegister { s with reg := x, regRtx := some r } now ts clock true seq =
      .ok ({ (note s now ts clock true).1 with reg := x, regRtx := some (r.update seq).1 }, (note s now ts clock true).2, (r.update seq).2) := rfl

theorem deliver_put (c : Cfg U) (s : Sess U) (x y : Option ReceiverRegister) (now : Nat) (h : Header U) (data : List Byte) (seq : Nat)
    (t : MediaTime) (new : Bool) :
    deliver c (put s x y) now h data seq t new = (put (deliver c s now h data seq t new).1 x y, (deliver c s now h data seq t new).2) := by
  unfold deliver
  have e : (put s x y).rx.ssrc = s.rx.ssrc := rfl
  rw [e]
  split
  · rfl
  · have hh : handleRtp (put s x y).rx now h data seq t =
        ({ (handleRtp s.rx now h data seq t).1 with reg := x, regRtx := y }, (handleRtp s.rx now h data seq t).2) := by
      unfold handleRtp put
      dsimp only
      split <;> rfl
    dsimp only
    rw [hh]
    split
    · split <;> rfl
    · rfl

theorem deliver_keeps (c : Cfg U) (s : Sess U) (now : Nat) (h : Header U) (data : List Byte) (seq : Nat)
    (t : MediaTime) (new : Bool) : (deliver c s now h data seq t new).1.seqs = s.seqs ∧ (deliver c s now h data seq t new).1.rx.ssrc = s.rx.ssrc ∧
      (deliver c s now h data seq t new).1.rx.rtx = s.rx.rtx ∧ (deliver c s now h data seq t new).1.rx.resetRoc = s.rx.resetRoc := by
  obtain ⟨s', o, d1, d2, d3, d4, d5, d6, d7⟩ := deliver_spec c s now h data seq t new
  rw [d1]
  refine ⟨d3, d5, d6, ?_⟩
  have := d1
  unfold deliver at this
  split at this
  · cases this; rfl
  · have hk := congrArg Core.resetRoc (handleRtp_core s.rx now h data seq t).1
    dsimp only at this
    split at this
    · split at this <;> cases this <;> exact hk
    · cases this; exact hk

/-- Same SSRCs, no counter set, and the numbers changed at most at `a` -/
structure Near (a : Nat) (s s' : Sess U) : Prop where
  ssrc : s'.rx.ssrc = s.rx.ssrc
  rtx : s'.rx.rtx = s.rx.rtx
  roc : s'.rx.resetRoc = none
  seqs : ∀ b, b ≠ a → seqOf s'.seqs b = seqOf s.seqs b

/-- A media packet: the outcome depends on the main register alone -/
theorem main_path (c : Cfg U) (d : Srtp.Derived) (s : Sess U) (hroc : s.rx.resetRoc = none) (now : Nat) (h : Header U) (p : Param) (buf : List Byte)
    (hrep : p.pt = h.payloadType) (r : ReceiverRegister) :
    ∃ (b : Sess U) (r' : ReceiverRegister) (o : Option (Packet U)), Near h.ssrc s b ∧
      ∀ x y, x.getD (ReceiverRegister.new (seqOf s.seqs h.ssrc)) = r → checked c d (put s x y) now h p buf = .ok (put b (some r') y, o) := by
  have hb : (p.pt != h.payloadType) = false := by simp [hrep]
  have near0 : Near h.ssrc s s := ⟨rfl, rfl, hroc, fun _ _ => rfl⟩
  have start : ∀ x y, x.getD (ReceiverRegister.new (seqOf s.seqs h.ssrc)) = r →
      extendSeq (put s x y).rx (put s x y).seqs h.ssrc h.sequenceNumber false =
        ((put s (some r) y).rx, extend 16 r.nack.maxSeq h.sequenceNumber) := by
    intro x y hx
    rw [extendSeq_none (by exact hroc)]
    have : (regOf (put s x y).rx false).getD (ReceiverRegister.new (seqOf (put s x y).seqs h.ssrc)) = r := hx
    rw [this]; rfl
  obtain ⟨n, hn⟩ : ∃ n, extend 16 r.nack.maxSeq h.sequenceNumber = n := ⟨_, rfl⟩
  rw [hn] at start
  have hnew : ∀ y, isNew (put s (some r) y).rx false n = .ok (r.nack.accepts n) := fun _ => rfl
  cases hacc : r.nack.accepts n with
  | false =>
    refine ⟨s, r, none, near0, fun x y hx => ?_⟩
    unfold checked
    rw [hb, start x y hx]
    dsimp only
    rw [hnew, hacc]; rfl
  | true =>
    cases ho : open_ c d h buf n with
    | panic => exact absurd ho (open_total c d h buf n)
    | err e =>
      refine ⟨s, r, none, near0, fun x y hx => ?_⟩
      unfold checked
      rw [hb, start x y hx]
      dsimp only
      rw [hnew, hacc, ho]; rfl
    | ok data =>
      let s2 : Sess U := ⟨(note s.rx now h.timestamp p.clock false).1, bumpSeq s.seqs h.ssrc n, twccOf s.twcc now h, s.pending, s.mediaBytes, (h, n, data) :: s.log⟩
      obtain ⟨k1, k2, k3, k4⟩ := deliver_keeps c s2 now h data n (note s.rx now h.timestamp p.clock false).2 (r.update n).2
      refine ⟨(deliver c s2 now h data n (note s.rx now h.timestamp p.clock false).2 (r.update n).2).1, (r.update n).1,
        (deliver c s2 now h data n (note s.rx now h.timestamp p.clock false).2 (r.update n).2).2, ⟨k2, k3, k4.trans hroc, ?_⟩, fun x y hx => ?_⟩
      · intro b hb'; rw [k1]; exact seqOf_bump_other _ _ _ _ hb'
      · unfold checked
        rw [hb, start x y hx]
        dsimp only
        rw [hnew, hacc, ho]
        dsimp only
        unfold received
        dsimp only
        rw [hb]
        have := upd_main s.rx r y now h.timestamp p.clock n
        have e2 : updateRegister (put s (some r) y).rx now h.timestamp p.clock false n = _ := this
        rw [e2]
        dsimp only
        rw [if_neg (by simp)]
        exact congrArg Res.ok (deliver_put c s2 (some (r.update n).1) y now h data n _ _)

/-- What a repair packet does with the main register -/
theorem repaired_path (c : Cfg U) (s : Sess U) (hroc : s.rx.resetRoc = none) (now : Nat) (h : Header U) (p : Param) (data : List Byte)
    (r : ReceiverRegister) :
    ∃ (b : Sess U) (r' : ReceiverRegister) (o : Option (Packet U)), Near s.rx.ssrc s b ∧ (data = [] → b = s) ∧
      ∀ x y, x.getD (ReceiverRegister.new (seqOf s.seqs s.rx.ssrc)) = r →
        repaired c (put s x y) now h p data = .ok (put b (if data = [] then x else some r') y, o) := by
  by_cases hd : data = []
  · refine ⟨s, r, none, ⟨rfl, rfl, hroc, fun _ _ => rfl⟩, fun _ => rfl, fun x y _ => ?_⟩
    unfold repaired
    rw [if_pos hd, if_pos hd]
  · have start : ∀ x y, x.getD (ReceiverRegister.new (seqOf s.seqs s.rx.ssrc)) = r →
        extendSeq (put s x y).rx (put s x y).seqs s.rx.ssrc ((readOsn data).1.getD 0) false =
          ((put s (some r) y).rx, extend 16 r.nack.maxSeq ((readOsn data).1.getD 0)) := by
      intro x y hx
      rw [extendSeq_none (by exact hroc)]
      have : (regOf (put s x y).rx false).getD (ReceiverRegister.new (seqOf (put s x y).seqs s.rx.ssrc)) = r := hx
      rw [this]; rfl
    obtain ⟨n, hn⟩ : ∃ n, extend 16 r.nack.maxSeq ((readOsn data).1.getD 0) = n := ⟨_, rfl⟩
    rw [hn] at start
    let s2 : Sess U := ⟨(note s.rx now h.timestamp p.clock false).1, bumpSeq s.seqs s.rx.ssrc n, s.twcc, s.pending, s.mediaBytes, s.log⟩
    let D := deliver c s2 now (unRtx s.rx h data p.pt).1 (readOsn data).2 n (note s.rx now h.timestamp p.clock false).2 (r.update n).2
    obtain ⟨k1, k2, k3, k4⟩ := deliver_keeps c s2 now (unRtx s.rx h data p.pt).1 (readOsn data).2 n (note s.rx now h.timestamp p.clock false).2 (r.update n).2
    refine ⟨D.1, (r.update n).1, D.2, ⟨k2, k3, k4.trans hroc, ?_⟩, fun h => absurd h hd, fun x y hx => ?_⟩
    · intro b hb'; rw [k1]; exact seqOf_bump_other _ _ _ _ hb'
    · unfold repaired
      rw [if_neg hd, if_neg hd]
      have e1 : unRtx (put s x y).rx h data p.pt = unRtx s.rx h data p.pt := rfl
      dsimp only
      rw [e1]
      have e2 : extendSeq (put s x y).rx (put s x y).seqs (unRtx s.rx h data p.pt).1.ssrc (unRtx s.rx h data p.pt).1.sequenceNumber false = _ := start x y hx
      rw [e2]
      dsimp only
      have e3 : updateRegister (put s (some r) y).rx now (unRtx s.rx h data p.pt).1.timestamp p.clock false n = _ := upd_main s.rx r y now h.timestamp p.clock n
      rw [e3]
      exact congrArg Res.ok (deliver_put c s2 (some (r.update n).1) y now (unRtx s.rx h data p.pt).1 (readOsn data).2 n _ _)

/-- A repair packet: both registers matter -/
theorem rtx_path (c : Cfg U) (d : Srtp.Derived) (s : Sess U) (hroc : s.rx.resetRoc = none) (now : Nat) (h : Header U) (p : Param) (buf : List Byte)
    (hrep : p.pt ≠ h.payloadType) (hne : h.ssrc ≠ s.rx.ssrc) (r1 r2 : ReceiverRegister) :
    ∃ (b : Sess U) (r1' r2' : ReceiverRegister) (touch : Bool) (o : Option (Packet U)),
      b.rx.ssrc = s.rx.ssrc ∧ b.rx.rtx = s.rx.rtx ∧ b.rx.resetRoc = none ∧ (touch = false → Near h.ssrc s b) ∧
      ∀ x y, x.getD (ReceiverRegister.new (seqOf s.seqs s.rx.ssrc)) = r1 → y.getD (ReceiverRegister.new (seqOf s.seqs h.ssrc)) = r2 →
        checked c d (put s x y) now h p buf = .ok (put b (if touch then some r1' else x) (some r2'), o) := by
  have hb : (p.pt != h.payloadType) = true := by simp [hrep]
  have start : ∀ x y, y.getD (ReceiverRegister.new (seqOf s.seqs h.ssrc)) = r2 →
      extendSeq (put s x y).rx (put s x y).seqs h.ssrc h.sequenceNumber true =
        ((put s x (some r2)).rx, extend 16 r2.nack.maxSeq h.sequenceNumber) := by
    intro x y hx
    rw [extendSeq_none (by exact hroc)]
    have : (regOf (put s x y).rx true).getD (ReceiverRegister.new (seqOf (put s x y).seqs h.ssrc)) = r2 := hx
    rw [this]; rfl
  obtain ⟨n, hn⟩ : ∃ n, extend 16 r2.nack.maxSeq h.sequenceNumber = n := ⟨_, rfl⟩
  rw [hn] at start
  have hnew : ∀ x, isNew (put s x (some r2)).rx true n = .ok (r2.nack.accepts n) := fun _ => rfl
  have near0 : Near h.ssrc s s := ⟨rfl, rfl, hroc, fun _ _ => rfl⟩
  cases hacc : r2.nack.accepts n with
  | false =>
    refine ⟨s, r1, r2, false, none, rfl, rfl, hroc, fun _ => near0, fun x y _ hy => ?_⟩
    unfold checked
    rw [hb, start x y hy]
    dsimp only
    rw [hnew, hacc]; rfl
  | true =>
    cases ho : open_ c d h buf n with
    | panic => exact absurd ho (open_total c d h buf n)
    | err e =>
      refine ⟨s, r1, r2, false, none, rfl, rfl, hroc, fun _ => near0, fun x y _ hy => ?_⟩
      unfold checked
      rw [hb, start x y hy]
      dsimp only
      rw [hnew, hacc, ho]; rfl
    | ok data =>
      let s2 : Sess U := ⟨(note s.rx now h.timestamp p.clock true).1, bumpSeq s.seqs h.ssrc n, twccOf s.twcc now h, s.pending, s.mediaBytes, (h, n, data) :: s.log⟩
      have hseq : seqOf s2.seqs s2.rx.ssrc = seqOf s.seqs s.rx.ssrc := seqOf_bump_other _ _ _ _ (Ne.symm hne)
      obtain ⟨b, r', o, hnear, hsame, hall⟩ := repaired_path c s2 hroc now h p data r1
      have step : ∀ x y, y.getD (ReceiverRegister.new (seqOf s.seqs h.ssrc)) = r2 →
          checked c d (put s x y) now h p buf = repaired c (put s2 x (some (r2.update n).1)) now h p data := by
        intro x y hy
        unfold checked
        rw [hb, start x y hy]
        dsimp only
        rw [hnew, hacc, ho]
        dsimp only
        unfold received
        dsimp only
        rw [hb]
        have e2 : updateRegister (put s x (some r2)).rx now h.timestamp p.clock true n = _ := upd_rtx s.rx r2 x now h.timestamp p.clock n
        rw [e2]
        rfl
      refine ⟨b, r', (r2.update n).1, !decide (data = []), o, hnear.ssrc, hnear.rtx, hnear.roc, fun ht => ?_, fun x y hx hy => ?_⟩
      · have hdat : data = [] := by simpa using ht
        refine ⟨hnear.ssrc, hnear.rtx, hnear.roc, ?_⟩
        intro q hq
        rw [hsame hdat]
        exact seqOf_bump_other _ _ _ _ hq
      · rw [step x y hy, hall x (some (r2.update n).1) (by rw [hseq]; exact hx)]
        by_cases hdat : data = [] <;> simp [hdat]

/-- `s` and `t` differ at most in registers that were opened and not used yet -/
structure Sim (M R : Nat → Prop) (s t : Sess U) : Prop where
  rest : t = put s t.rx.reg t.rx.regRtx
  reg : t.rx.reg = s.rx.reg ∨ (s.rx.reg = none ∧ t.rx.reg = some (ReceiverRegister.new (seqOf s.seqs s.rx.ssrc)))
  regx : t.rx.regRtx = s.rx.regRtx ∨
    (s.rx.regRtx = none ∧ ∃ x, s.rx.rtx = some x ∧ t.rx.regRtx = some (ReceiverRegister.new (seqOf s.seqs x)))
  roc : s.rx.resetRoc = none
  main : M s.rx.ssrc
  rtx : ∀ x, s.rx.rtx = some x → R x

variable {M R : Nat → Prop}

theorem Sim.refl {s : Sess U} (roc : s.rx.resetRoc = none) (main : M s.rx.ssrc) (rtx : ∀ x, s.rx.rtx = some x → R x) : Sim M R s s :=
  ⟨rfl, .inl rfl, .inl rfl, roc, main, rtx⟩

theorem Sim.getD {s t : Sess U} (h : Sim M R s t) :
    s.rx.reg.getD (ReceiverRegister.new (seqOf s.seqs s.rx.ssrc)) = t.rx.reg.getD (ReceiverRegister.new (seqOf s.seqs s.rx.ssrc)) := by
  rcases h.reg with e | ⟨e1, e2⟩
  · rw [e]
  · rw [e1, e2]; rfl

theorem Sim.getDx {s t : Sess U} (h : Sim M R s t) {x : Nat} (hx : s.rx.rtx = some x) :
    s.rx.regRtx.getD (ReceiverRegister.new (seqOf s.seqs x)) = t.rx.regRtx.getD (ReceiverRegister.new (seqOf s.seqs x)) := by
  rcases h.regx with e | ⟨e1, x', hx', e2⟩
  · rw [e]
  · rw [hx] at hx'; cases hx'
    rw [e1, e2]; rfl

/-- Who a labelled packet is from -/
theorem label_main {s : Sess U} (rtx : ∀ x, s.rx.rtx = some x → R x) {h : Header U} (hs : h.ssrc = s.rx.ssrc ∨ some h.ssrc = s.rx.rtx) (hl : ¬ R h.ssrc) :
    h.ssrc = s.rx.ssrc := by
  rcases hs with hs | hs
  · exact hs
  · exact absurd (rtx _ hs.symm) hl

theorem label_rtx {s : Sess U} (main : M s.rx.ssrc) {h : Header U} (hs : h.ssrc = s.rx.ssrc ∨ some h.ssrc = s.rx.rtx) (hl : ¬ M h.ssrc) :
    s.rx.rtx = some h.ssrc := by
  rcases hs with hs | hs
  · exact absurd (hs ▸ main) hl
  · exact hs.symm

/-- The same packet in both -/
theorem Sim.checked {c : Cfg U} {s t : Sess U} (hsim : Sim M R s t) (hd : ∀ a, M a → ¬ R a) (d : Srtp.Derived) (now : Nat) (h : Header U) (p : Param) (buf : List Byte)
    (hs : h.ssrc = s.rx.ssrc ∨ some h.ssrc = s.rx.rtx) (hl : if p.pt = h.payloadType then ¬ R h.ssrc else ¬ M h.ssrc) :
    ∃ s' t' o, checked c d s now h p buf = .ok (s', o) ∧ checked c d t now h p buf = .ok (t', o) ∧ Sim M R s' t' := by
  by_cases hrep : p.pt = h.payloadType
  · rw [if_pos hrep] at hl
    have hm := label_main hsim.rtx hs hl
    obtain ⟨b, r', o, hnear, hall⟩ := main_path c d s hsim.roc now h p buf hrep (s.rx.reg.getD (ReceiverRegister.new (seqOf s.seqs h.ssrc)))
    have h1 := hall s.rx.reg s.rx.regRtx rfl
    have h2 := hall t.rx.reg t.rx.regRtx (by rw [hm]; exact hsim.getD.symm)
    rw [put_self] at h1
    rw [← hsim.rest] at h2
    refine ⟨_, _, o, h1, h2, rfl, .inl rfl, ?_, hnear.roc, ?_, ?_⟩
    · rcases hsim.regx with e | ⟨e1, x, hx, e2⟩
      · exact .inl e
      · refine .inr ⟨e1, x, hnear.rtx.trans hx, ?_⟩
        have hne : x ≠ h.ssrc := by
          intro e; rw [hm] at e; exact hd _ hsim.main (e ▸ hsim.rtx x hx)
        have := hnear.seqs x hne
        show t.rx.regRtx = some (ReceiverRegister.new (seqOf b.seqs x))
        rw [this]; exact e2
    · show M b.rx.ssrc; rw [hnear.ssrc]; exact hsim.main
    · intro x hx; exact hsim.rtx x (hnear.rtx.symm.trans hx)
  · rw [if_neg hrep] at hl
    have hm := label_rtx hsim.main hs hl
    have hne : h.ssrc ≠ s.rx.ssrc := by
      intro e; exact hl (e ▸ hsim.main)
    obtain ⟨b, r1', r2', touch, o, n1, n2, n3, n4, hall⟩ := rtx_path c d s hsim.roc now h p buf hrep hne
      (s.rx.reg.getD (ReceiverRegister.new (seqOf s.seqs s.rx.ssrc))) (s.rx.regRtx.getD (ReceiverRegister.new (seqOf s.seqs h.ssrc)))
    have h1 := hall s.rx.reg s.rx.regRtx rfl rfl
    have h2 := hall t.rx.reg t.rx.regRtx hsim.getD.symm (hsim.getDx hm).symm
    rw [put_self] at h1
    rw [← hsim.rest] at h2
    refine ⟨_, _, o, h1, h2, rfl, ?_, .inl rfl, n3, ?_, ?_⟩
    · cases touch with
      | true => exact .inl rfl
      | false =>
        rcases hsim.reg with e | ⟨e1, e2⟩
        · exact .inl e
        · refine .inr ⟨e1, ?_⟩
          have h3 := (n4 rfl).seqs s.rx.ssrc (Ne.symm hne)
          show t.rx.reg = some (ReceiverRegister.new (seqOf b.seqs b.rx.ssrc))
          rw [n1, h3]; exact e2
    · show M b.rx.ssrc; rw [n1]; exact hsim.main
    · intro x hx; exact hsim.rtx x (n2.symm.trans hx)

theorem Sim.ids {s t : Sess U} (h : Sim M R s t) : t.rx.ssrc = s.rx.ssrc ∧ t.rx.rtx = s.rx.rtx ∧ t.rx.resetRoc = s.rx.resetRoc ∧ t.seqs = s.seqs := by
  rw [h.rest]; exact ⟨rfl, rfl, rfl, rfl⟩

theorem label_cases {c : Cfg U} {now : Nat} {buf : List Byte} (hl : Labelled M R c (.packet now buf)) {h : Header U} (hp : Header.parse c.env c.exts buf = .ok h)
    {a : Nat} (h0 : a ≠ 0) {p : Param} (hpar : paramOf c a h.payloadType = some p) : if p.pt = h.payloadType then ¬ R h.ssrc else ¬ M h.ssrc := by
  rw [paramOf, if_neg h0] at hpar
  have := hl h p hp hpar
  split
  · rename_i e; exact this.1 e
  · rename_i e; exact this.2 e

theorem Sim.receive {c : Cfg U} {s t : Sess U} (hsim : Sim M R s t) (h0 : ¬ M 0) (hd : ∀ a, M a → ¬ R a) (now : Nat) (buf : List Byte)
    (hl : Labelled M R c (.packet now buf)) :
    ∃ s' t' o, receive c s now buf = .ok (s', o) ∧ receive c t now buf = .ok (t', o) ∧ Sim M R s' t' := by
  obtain ⟨i1, i2, _, _⟩ := hsim.ids
  unfold Rcv.receive
  cases hp : Header.parse c.env c.exts buf with
  | panic => have := (C12_total c.env c.exts buf).1; rw [hp] at this; exact this.elim
  | err e => exact ⟨s, t, none, rfl, rfl, hsim⟩
  | ok h =>
    dsimp only
    unfold handle
    rw [i1, i2]
    split
    · rename_i hs
      split
      · rename_i d p hd' hpar
        have hne : s.rx.ssrc ≠ 0 := fun e => h0 (e ▸ hsim.main)
        exact hsim.checked hd d now h p buf hs (label_cases hl hp hne hpar)
      · exact ⟨s, t, none, rfl, rfl, hsim⟩
    · exact ⟨s, t, none, rfl, rfl, hsim⟩

/-- A forged packet -/
theorem Sim.forged {c : Cfg U} {s t : Sess U} (hsim : Sim M R s t) (h0 : ¬ M 0) (now : Nat) (buf : List Byte)
    (hl : Labelled M R c (.packet now buf)) (hf : Forged c buf) : ∃ t', Rcv.receive c t now buf = .ok (t', none) ∧ Sim M R s t' := by
  obtain ⟨i1, i2, i3, i4⟩ := hsim.ids
  unfold Rcv.receive
  cases hp : Header.parse c.env c.exts buf with
  | panic => have := (C12_total c.env c.exts buf).1; rw [hp] at this; exact this.elim
  | err e => exact ⟨t, rfl, hsim⟩
  | ok h =>
    dsimp only
    unfold handle
    rw [i1, i2]
    split
    · rename_i hs
      split
      · rename_i d p hd' hpar
        have hne : s.rx.ssrc ≠ 0 := fun e => h0 (e ▸ hsim.main)
        have hlc := label_cases hl hp hne hpar
        have hopen : ∀ n x, open_ c d h buf n ≠ .ok x := by
          intro n x
          unfold open_
          split
          · rename_i y hy; exact absurd hy (hf h d n y hp hd')
          · intro e; cases e
          · intro e; cases e
        obtain ⟨r, hr⟩ : ∃ r, (regOf t.rx (p.pt != h.payloadType)).getD (ReceiverRegister.new (seqOf t.seqs h.ssrc)) = r := ⟨_, rfl⟩
        refine ⟨{ t with rx := setReg t.rx (p.pt != h.payloadType) r }, ?_, ?_⟩
        · unfold Rcv.checked
          rw [extendSeq_none (by rw [i3]; exact hsim.roc), hr]
          dsimp only
          split
          · split
            · rename_i x hx; exact absurd hx (hopen _ _)
            · rfl
            · rename_i hx; exact absurd hx (open_total c d h buf _)
          · rfl
          · rename_i hx; rw [isNew, regOf_setReg] at hx; cases hx
          · rename_i hx; rw [isNew, regOf_setReg] at hx; cases hx
        · by_cases hrep : p.pt = h.payloadType
          · have hb : (p.pt != h.payloadType) = false := by simp [hrep]
            rw [hb] at hr ⊢
            rw [if_pos hrep] at hlc
            have hm := label_main hsim.rtx hs hlc
            rw [regOf_false, i4, hm, ← hsim.getD] at hr
            have e2 := hsim.rest
            refine ⟨by rw [e2]; rfl, ?_, hsim.regx, hsim.roc, hsim.main, hsim.rtx⟩
            show some r = s.rx.reg ∨ (_ ∧ some r = _)
            cases hreg : s.rx.reg with
            | none => rw [hreg] at hr; exact .inr ⟨rfl, by rw [← hr]; rfl⟩
            | some r0 => rw [hreg] at hr; exact .inl (by rw [← hr]; rfl)
          · have hb : (p.pt != h.payloadType) = true := by simp [hrep]
            rw [hb] at hr ⊢
            rw [if_neg hrep] at hlc
            have hm := label_rtx hsim.main hs hlc
            rw [regOf_true, i4, ← hsim.getDx hm] at hr
            have e2 := hsim.rest
            refine ⟨by rw [e2]; rfl, hsim.reg, ?_, hsim.roc, hsim.main, hsim.rtx⟩
            show some r = s.rx.regRtx ∨ (_ ∧ ∃ x, _ ∧ some r = _)
            cases hreg : s.rx.regRtx with
            | none => rw [hreg] at hr; exact .inr ⟨rfl, _, hm, by rw [← hr]; rfl⟩
            | some r0 => rw [hreg] at hr; exact .inl (by rw [← hr]; rfl)
      · exact ⟨t, rfl, hsim⟩
    · exact ⟨t, rfl, hsim⟩

theorem new_nackReports (m : Option Nat) : (ReceiverRegister.new m).nack.nackReports = (none, (ReceiverRegister.new m).nack) := by
  cases m with
  | none => rfl
  | some n => simp [ReceiverRegister.new, NackRegister.new, NackRegister.initWithSeq, NackRegister.nackReports, findNeeds, Slots.at, Slots.upd,
      PacketStatus.markReceived, PacketStatus.needsNack]

theorem new_receptionReport (m : Option Nat) : (ReceiverRegister.new m).receptionReport = (ReceiverRegister.new m, none) := rfl

/-- The registers do not matter for these -/
theorem Sim.upd {s t : Sess U} (hsim : Sim M R s t) (f : Rx → Rx)
    (hf : ∀ (rx : Rx) x y, f { rx with reg := x, regRtx := y } = { f rx with reg := x, regRtx := y })
    (h1 : ∀ rx : Rx, (f rx).ssrc = rx.ssrc) (h2 : ∀ rx : Rx, (f rx).rtx = rx.rtx) (h3 : ∀ rx : Rx, (f rx).resetRoc = rx.resetRoc) :
    Sim M R ({ s with rx := f s.rx } : Sess U) ({ t with rx := f t.rx } : Sess U) := by
  have hs : (f s.rx).reg = s.rx.reg ∧ (f s.rx).regRtx = s.rx.regRtx := by
    have := hf s.rx s.rx.reg s.rx.regRtx
    have e : ({ s.rx with reg := s.rx.reg, regRtx := s.rx.regRtx } : Rx) = s.rx := rfl
    rw [e] at this
    rw [this]; exact ⟨rfl, rfl⟩
  have ht : (f t.rx).reg = t.rx.reg ∧ (f t.rx).regRtx = t.rx.regRtx := by
    have := hf t.rx t.rx.reg t.rx.regRtx
    have e : ({ t.rx with reg := t.rx.reg, regRtx := t.rx.regRtx } : Rx) = t.rx := rfl
    rw [e] at this
    rw [this]; exact ⟨rfl, rfl⟩
  have hr := hsim.rest
  refine ⟨?_, ?_, ?_, ?_, ?_, ?_⟩
  · dsimp only
    rw [ht.1, ht.2]
    have e1 : t.rx = { s.rx with reg := t.rx.reg, regRtx := t.rx.regRtx } := congrArg Sess.rx hr
    have e2 : f t.rx = { f s.rx with reg := t.rx.reg, regRtx := t.rx.regRtx } := (congrArg f e1).trans (hf _ _ _)
    have e3 : ({ t with rx := f t.rx } : Sess U) = { s with rx := f t.rx } := by
      have h4 := congrArg Sess.seqs hr; have h5 := congrArg Sess.twcc hr; have h6 := congrArg Sess.pending hr
      have h7 := congrArg Sess.mediaBytes hr; have h8 := congrArg Sess.log hr
      simp only [put] at h4 h5 h6 h7 h8
      rw [h4, h5, h6, h7, h8]
    rw [e3, e2]; rfl
  · dsimp only; rw [hs.1, ht.1, h1]; exact hsim.reg
  · dsimp only; rw [hs.2, ht.2, h2]; exact hsim.regx
  · dsimp only; rw [h3]; exact hsim.roc
  · dsimp only; rw [h1]; exact hsim.main
  · dsimp only; rw [h2]; exact hsim.rtx

theorem Sim.step {c : Cfg U} {s t : Sess U} (hsim : Sim M R s t) (h0 : ¬ M 0) (hd : ∀ a, M a → ¬ R a) (op : Op) (hl : Labelled M R c op) :
    ∃ s' t' es, step c s op = .ok (s', es) ∧ step c t op = .ok (t', es) ∧ Sim M R s' t' := by
  obtain ⟨i1, i2, i3, i4⟩ := hsim.ids
  cases op with
  | packet now buf =>
    obtain ⟨s', t', o, e1, e2, e3⟩ := hsim.receive h0 hd now buf hl
    exact ⟨s', t', o.toList.map .packet, by simp [Rcv.step, e1], by simp [Rcv.step, e2], e3⟩
  | poll =>
    have hne : s.rx.ssrc ≠ 0 := fun e => h0 (e ▸ hsim.main)
    have hp : t.pending = s.pending := by rw [hsim.rest]; rfl
    have hn : t.rx.needEvent = s.rx.needEvent := by rw [hsim.rest]; rfl
    have hpa : t.rx.paused = s.rx.paused := by rw [hsim.rest]; rfl
    cases hb : s.rx.needEvent with
    | true =>
      have e1 : pollPaused s.rx = ({ s.rx with needEvent := false }, some s.rx.paused) := by simp [pollPaused, hne, hb]
      have e2 : pollPaused t.rx = ({ t.rx with needEvent := false }, some s.rx.paused) := by simp [pollPaused, i1, hne, hn, hb, hpa]
      exact ⟨_, _, [.paused s.rx.paused], by simp only [Rcv.step, e1], by simp only [Rcv.step, e2],
        hsim.upd (fun rx => { rx with needEvent := false }) (fun _ _ _ => rfl) (fun _ => rfl) (fun _ => rfl) (fun _ => rfl)⟩
    | false =>
      have e1 : pollPaused s.rx = (s.rx, none) := by simp [pollPaused, hne, hb]
      have e2 : pollPaused t.rx = (t.rx, none) := by simp [pollPaused, i1, hne, hn, hb]
      refine ⟨({ s with pending := none } : Sess U), ({ t with pending := none } : Sess U), s.pending.toList.map .packet, by simp only [Rcv.step, e1], by simp only [Rcv.step, e2, hp], ?_, hsim.reg, hsim.regx, hsim.roc, hsim.main, hsim.rtx⟩
      have := congrArg (fun z : Sess U => ({ z with pending := none } : Sess U)) hsim.rest
      exact this
  | timeout now =>
    refine ⟨_, _, _, rfl, rfl, hsim.upd (fun rx => Rcv.timeout rx now) ?_ ?_ ?_ ?_⟩
    · intro rx x y; unfold Rcv.timeout; dsimp only; split; rfl; split <;> rfl
    all_goals intro rx; unfold Rcv.timeout; split; rfl; split <;> rfl
  | senderInfo now ntp rtp32 packets octets =>
    exact ⟨_, _, _, rfl, rfl, hsim.upd (fun rx => setSenderInfo rx now ntp rtp32 packets octets) (fun _ _ _ => rfl) (fun _ => rfl) (fun _ => rfl) (fun _ => rfl)⟩
  | pollInfo =>
    have hp : (pollSenderInfo t.rx).2 = (pollSenderInfo s.rx).2 := by
      rw [hsim.rest]; unfold pollSenderInfo put; dsimp only
      split
      · rfl
      · split <;> rfl
    refine ⟨_, _, (pollSenderInfo s.rx).2.toList.map .info, rfl, by simp only [Rcv.step]; rw [hp], hsim.upd (fun rx => (pollSenderInfo rx).1) ?_ ?_ ?_ ?_⟩
    · intro rx x y; unfold pollSenderInfo; dsimp only; split; rfl; split <;> rfl
    all_goals intro rx; unfold pollSenderInfo; split; rfl; split <;> rfl
  | fresh n =>
    refine ⟨_, _, _, rfl, rfl, ?_, .inl rfl, .inl rfl, rfl, hl, fun x hx => nomatch hx⟩
    rw [hsim.rest]; rfl
  | resetBuffers =>
    refine ⟨_, _, _, rfl, rfl, ?_, ?_, ?_, hsim.roc, hsim.main, hsim.rtx⟩
    · rw [hsim.rest]; rfl
    · show clearReg t.rx.reg (seqOf t.seqs t.rx.ssrc) = clearReg s.rx.reg (seqOf s.seqs s.rx.ssrc) ∨ _
      rw [i1, i4]
      rcases hsim.reg with e | ⟨e1, e2⟩
      · exact .inl (by rw [e])
      · refine .inr ⟨?_, ?_⟩
        · show clearReg s.rx.reg _ = none; rw [e1]; rfl
        · show clearReg t.rx.reg (seqOf s.seqs t.rx.ssrc) = _; rw [e2, i1]; rfl
    · show clearReg t.rx.regRtx (t.rx.rtx.bind (seqOf t.seqs)) = clearReg s.rx.regRtx (s.rx.rtx.bind (seqOf s.seqs)) ∨ _
      rw [i2, i4]
      rcases hsim.regx with e | ⟨e1, x, hx, e2⟩
      · exact .inl (by rw [e])
      · refine .inr ⟨?_, x, hx, ?_⟩
        · show clearReg s.rx.regRtx _ = none; rw [e1]; rfl
        · show clearReg t.rx.regRtx (t.rx.rtx.bind (seqOf s.seqs)) = _; rw [e2, i2, hx]; rfl
  | changeSsrc n =>
    refine ⟨_, _, _, rfl, rfl, ?_⟩
    have hprev : t.rx.prev = s.rx.prev := by rw [hsim.rest]; rfl
    unfold changeSsrc
    rw [i1, hprev]
    split
    · exact hsim
    · refine ⟨?_, .inl rfl, hsim.regx, rfl, hl, hsim.rtx⟩
      rw [hsim.rest]; rfl
  | setRtx n =>
    refine ⟨_, _, _, rfl, rfl, ?_⟩
    unfold setRtx
    rw [i2]
    split
    · exact hsim
    · refine ⟨?_, hsim.reg, .inl rfl, hsim.roc, hsim.main, ?_⟩
      · rw [hsim.rest]; rfl
      · intro x hx
        have : some n = some x := hx
        cases this; exact hl
  | resetRoc n => exact hl.elim
  | threshold v =>
    exact ⟨_, _, _, rfl, rfl, hsim.upd (fun rx => { rx with threshold := v }) (fun _ _ _ => rfl) (fun _ => rfl) (fun _ => rfl) (fun _ => rfl)⟩
  | suppress b =>
    exact ⟨_, _, _, rfl, rfl, hsim.upd (fun rx => { rx with suppressNack := b }) (fun _ _ _ => rfl) (fun _ => rfl) (fun _ => rfl) (fun _ => rfl)⟩
  | requestKf k =>
    exact ⟨_, _, _, rfl, rfl, hsim.upd (fun rx => { rx with kf := some k }) (fun _ _ _ => rfl) (fun _ => rfl) (fun _ => rfl) (fun _ => rfl)⟩
  | keyframe =>
    have hp : (Rcv.keyframe t.rx).2 = (Rcv.keyframe s.rx).2 := by
      rw [hsim.rest]; unfold Rcv.keyframe put; dsimp only
      split <;> rfl
    refine ⟨_, _, (Rcv.keyframe s.rx).2.toList.map .keyframe, rfl, by simp only [Rcv.step]; rw [hp], hsim.upd (fun rx => (Rcv.keyframe rx).1) ?_ ?_ ?_ ?_⟩
    · intro rx x y; unfold Rcv.keyframe; dsimp only; split <;> rfl
    all_goals intro rx; unfold Rcv.keyframe; split <;> rfl
  | nack =>
    have hsup : t.rx.suppressNack = s.rx.suppressNack := by rw [hsim.rest]; rfl
    rcases hsim.reg with e | ⟨e1, e2⟩
    · have key : makeNack t.rx = (withRtx (makeNack s.rx).1 t.rx.regRtx, (makeNack s.rx).2) := by
        have e3 : t.rx = { s.rx with reg := s.rx.reg, regRtx := t.rx.regRtx } := by
          have := congrArg Sess.rx hsim.rest; rw [e] at this; exact this
        rw [e3]
        unfold makeNack
        dsimp only
        split
        · rfl
        · split
          · rfl
          · split <;> rfl
      have hk : (makeNack s.rx).1.ssrc = s.rx.ssrc ∧ (makeNack s.rx).1.rtx = s.rx.rtx ∧ (makeNack s.rx).1.resetRoc = s.rx.resetRoc ∧
          (makeNack s.rx).1.regRtx = s.rx.regRtx := by
        unfold makeNack
        split
        · exact ⟨rfl, rfl, rfl, rfl⟩
        · split
          · exact ⟨rfl, rfl, rfl, rfl⟩
          · split <;> exact ⟨rfl, rfl, rfl, rfl⟩
      obtain ⟨k1, k2, k3, k4⟩ := hk
      refine ⟨({ s with rx := (makeNack s.rx).1 } : Sess U), ({ t with rx := withRtx (makeNack s.rx).1 t.rx.regRtx } : Sess U), (makeNack s.rx).2.map .nack, rfl, by simp only [Rcv.step]; rw [key], ?_, .inl rfl, ?_, ?_, ?_, ?_⟩
      · rw [hsim.rest]; rfl
      · dsimp only; rw [k2, k4]; exact hsim.regx
      · dsimp only; rw [k3]; exact hsim.roc
      · dsimp only; rw [k1]; exact hsim.main
      · dsimp only; rw [k2]; exact hsim.rtx
    · have k1 : makeNack s.rx = (s.rx, []) := by
        unfold makeNack; split; rfl; simp only [e1]
      have k2 : makeNack t.rx = (t.rx, []) := by
        unfold makeNack; split; rfl
        simp only [e2, new_nackReports]
        have : ({ t.rx with reg := some (ReceiverRegister.new (seqOf s.seqs s.rx.ssrc)) } : Rx) = t.rx := by rw [← e2]
        exact congrArg (fun z => (z, [])) this
      exact ⟨s, t, [], by simp [Rcv.step, k1], by simp [Rcv.step, k2], hsim⟩
  | report now =>
    rcases hsim.reg with e | ⟨e1, e2⟩
    · have key : makeReport t.rx now = (withRtx (makeReport s.rx now).1 t.rx.regRtx, (makeReport s.rx now).2) := by
        have e3 : t.rx = { s.rx with reg := s.rx.reg, regRtx := t.rx.regRtx } := by
          have := congrArg Sess.rx hsim.rest; rw [e] at this; exact this
        rw [e3]
        unfold makeReport receiverReport
        dsimp only
        split
        · rfl
        · split <;> rfl
      have hk : (makeReport s.rx now).1.ssrc = s.rx.ssrc ∧ (makeReport s.rx now).1.rtx = s.rx.rtx ∧
          (makeReport s.rx now).1.resetRoc = s.rx.resetRoc ∧ (makeReport s.rx now).1.regRtx = s.rx.regRtx := by
        unfold makeReport receiverReport
        dsimp only
        split
        · exact ⟨rfl, rfl, rfl, rfl⟩
        · split <;> exact ⟨rfl, rfl, rfl, rfl⟩
      obtain ⟨k1, k2, k3, k4⟩ := hk
      refine ⟨({ s with rx := (makeReport s.rx now).1 } : Sess U), ({ t with rx := withRtx (makeReport s.rx now).1 t.rx.regRtx } : Sess U), [.report (makeReport s.rx now).2], rfl, by simp only [Rcv.step]; rw [key], ?_, .inl rfl, ?_, ?_, ?_, ?_⟩
      · rw [hsim.rest]; rfl
      · dsimp only; rw [k2, k4]; exact hsim.regx
      · dsimp only; rw [k3]; exact hsim.roc
      · dsimp only; rw [k1]; exact hsim.main
      · dsimp only; rw [k2]; exact hsim.rtx
    · have k1 : makeReport s.rx now = ({ s.rx with lastReport := now }, none) := by
        simp [makeReport, receiverReport, e1]
      have k2 : makeReport t.rx now = ({ t.rx with lastReport := now }, none) := by
        simp only [makeReport, receiverReport, e2, new_receptionReport]
      refine ⟨({ s with rx := { s.rx with lastReport := now } } : Sess U), ({ t with rx := { t.rx with lastReport := now } } : Sess U), [.report none], by simp only [Rcv.step, k1], by simp only [Rcv.step, k2], ?_⟩
      exact hsim.upd (fun rx => { rx with lastReport := now }) (fun _ _ _ => rfl) (fun _ => rfl) (fun _ => rfl) (fun _ => rfl)

theorem Sim.run {c : Cfg U} (h0 : ¬ M 0) (hd : ∀ a, M a → ¬ R a) (keep : Op → Bool) (ops : List Op) :
    ∀ {s t : Sess U}, Sim M R s t → (∀ op ∈ ops, Labelled M R c op) →
    (∀ op ∈ ops, keep op = false → ∃ now buf, op = .packet now buf ∧ Forged c buf) →
    ∃ s' t' es, run c s (ops.filter keep) = .ok (s', es) ∧ run c t ops = .ok (t', es) ∧ Sim M R s' t' := by
  induction ops with
  | nil => intro s t h _ _; exact ⟨s, t, [], rfl, rfl, h⟩
  | cons op ops ih =>
    intro s t hsim hl hk
    have hl' := fun op' h => hl op' (List.mem_cons_of_mem op h)
    have hk' := fun op' h => hk op' (List.mem_cons_of_mem op h)
    cases hkeep : keep op with
    | true =>
      obtain ⟨s1, t1, es1, a1, a2, a3⟩ := hsim.step h0 hd op (hl op (by simp))
      obtain ⟨s2, t2, es2, b1, b2, b3⟩ := ih a3 hl' hk'
      exact ⟨s2, t2, es1 ++ es2, by simp [List.filter_cons, hkeep, Rcv.run, a1, b1], by simp [Rcv.run, a2, b2], b3⟩
    | false =>
      obtain ⟨now, buf, rfl, hf⟩ := hk op (by simp) hkeep
      obtain ⟨t1, a1, a2⟩ := hsim.forged h0 now buf (hl _ (by simp)) hf
      obtain ⟨s2, t2, es2, b1, b2, b3⟩ := ih a2 hl' hk'
      refine ⟨s2, t2, es2, by simpa [List.filter_cons, hkeep] using b1, by simp [Rcv.run, Rcv.step, a1, b2], b3⟩

end Str0m.Rcv
