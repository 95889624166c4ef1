import Verif.Proofs.StreamRx2
import Verif.Proofs.PayloadType

namespace Str0m.Rcv
open Str0m Str0m.Rtp NackRegister

variable {U : Type}

/-! ### Where a packet comes from -/

/-- Everything in the state is a 64-bit number -/
structure Fit (s : Sess U) : Prop where
  reg : ∀ rep r, regOf s.rx rep = some r → RegOk r
  seqs : SeqsFit s.seqs

theorem extendSeq_spec {s : Rx} {seqs : List (Nat × Nat)} (hr : ∀ rep r, regOf s rep = some r → RegOk r) (hs : SeqsFit seqs)
    (a w : Nat) (rep : Bool) :
    ∃ r, RegOk r ∧ regOf (extendSeq s seqs a w rep).1 rep = some r ∧ regOf (extendSeq s seqs a w rep).1 (!rep) = regOf s (!rep) ∧
      (extendSeq s seqs a w rep).2 % 65536 = w % 65536 ∧ ((extendSeq s seqs a w rep).2 < 2 ^ 64 ∨ 65536 ≤ w) ∧
      (extendSeq s seqs a w rep).1.ssrc = s.ssrc ∧ (extendSeq s seqs a w rep).1.rtx = s.rtx := by
  have hok : RegOk ((regOf s rep).getD (ReceiverRegister.new (seqOf seqs a))) := by
    cases h : regOf s rep with
    | some r => exact hr rep r h
    | none => exact regOk_new _ (fun n hn => hs.get hn)
  refine ⟨_, hok, ?_⟩
  unfold extendSeq
  dsimp only
  split
  · rename_i roc hroc
    cases rep with
    | true => cases hroc
    | false =>
      refine ⟨rfl, rfl, ?_, ?_, rfl, rfl⟩
      · dsimp only
        have : roc * 65536 % 2 ^ 64 % 65536 = 0 := by omega
        omega
      · dsimp only
        have : roc * 65536 % 2 ^ 64 % 65536 = 0 := by omega
        omega
  · have h1 := C01_extend_low_bits 16 w _ (by omega) (regOk_max hok)
    refine ⟨regOf_setReg _ _ _, ?_, h1.1, .inl h1.2, ?_, ?_⟩
    all_goals cases rep <;> rfl

theorem rd16At_lt' {buf : List Byte} {i v : Nat} (h : (Twcc.rd16At buf i : Res Unit Nat) = .ok v) : v < 65536 := by
  unfold Twcc.rd16At at h
  obtain ⟨a, _, h⟩ := Pts.bind_eq_ok h
  obtain ⟨b, _, h⟩ := Pts.bind_eq_ok h
  cases h
  exact rd16_lt a b

theorem rd32At_lt' {buf : List Byte} {i v : Nat} (h : (Twcc.rd32At buf i : Res Unit Nat) = .ok v) : v < 2 ^ 32 := by
  unfold Twcc.rd32At at h
  obtain ⟨a, _, h⟩ := Pts.bind_eq_ok h
  obtain ⟨b, _, h⟩ := Pts.bind_eq_ok h
  obtain ⟨c, _, h⟩ := Pts.bind_eq_ok h
  obtain ⟨d, _, h⟩ := Pts.bind_eq_ok h
  cases h
  exact rd32_lt a b c d

theorem parse_fields {env : Env U} {m : ExtMap} {buf : List Byte} {h : Header U} (hp : Header.parse env m buf = .ok h) :
    h.sequenceNumber < 65536 ∧ h.timestamp < 2 ^ 32 ∧ h.ssrc < 2 ^ 32 := by
  unfold Header.parse at hp
  split at hp
  · cases hp
  obtain ⟨b0, _, hp⟩ := Pts.bind_eq_ok hp
  split at hp
  · cases hp
  obtain ⟨b1, _, hp⟩ := Pts.bind_eq_ok hp
  obtain ⟨seq, h1, hp⟩ := Pts.bind_eq_ok hp
  obtain ⟨ts, h2, hp⟩ := Pts.bind_eq_ok hp
  obtain ⟨ssrc, h3, hp⟩ := Pts.bind_eq_ok hp
  obtain ⟨r, _, hp⟩ := Pts.bind_eq_ok hp
  split at hp
  · cases hp
  obtain ⟨csrc, _, hp⟩ := Pts.bind_eq_ok hp
  obtain ⟨r2, _, hp⟩ := Pts.bind_eq_ok hp
  obtain ⟨x, _, hp⟩ := Pts.bind_eq_ok hp
  cases hp
  exact ⟨rd16At_lt' h1, rd32At_lt' h2, rd32At_lt' h3⟩

theorem updateRegister_fit {s : Rx} {rep : Bool} {r : ReceiverRegister} (h : regOf s rep = some r) (now ts clock seq : Nat) :
    ∃ s' t b, updateRegister s now ts clock rep seq = .ok (s', t, b) ∧ regOf s' rep = some (r.update seq).1 ∧
      regOf s' (!rep) = regOf s (!rep) ∧ s'.ssrc = s.ssrc ∧ s'.rtx = s.rtx := by
  unfold updateRegister
  simp only [h]
  refine ⟨_, _, _, rfl, ?_⟩
  cases rep <;> exact ⟨rfl, rfl, rfl, rfl⟩

theorem handleRtp_keeps (s : Rx) (now : Nat) (h : Header U) (data : List Byte) (seq : Nat) (t : MediaTime) :
    (∀ rep, regOf (handleRtp s now h data seq t).1 rep = regOf s rep) ∧ (handleRtp s now h data seq t).1.ssrc = s.ssrc ∧
      (handleRtp s now h data seq t).1.rtx = s.rtx := by
  have := (handleRtp_core s now h data seq t).1
  refine ⟨fun rep => ?_, congrArg Core.ssrc this, congrArg Core.rtx this⟩
  cases rep
  · exact congrArg Core.reg this
  · exact congrArg Core.regRtx this

/-- What `deliver` does: nothing, or the packet is shown in one of the two ways -/
theorem deliver_spec (c : Cfg U) (s : Sess U) (now : Nat) (h : Header U) (data : List Byte) (seq : Nat) (t : MediaTime) (new : Bool) :
    ∃ s' o, deliver c s now h data seq t new = (s', o) ∧ (∀ rep, regOf s'.rx rep = regOf s.rx rep) ∧ s'.seqs = s.seqs ∧ s'.log = s.log ∧
      s'.rx.ssrc = s.rx.ssrc ∧ s'.rx.rtx = s.rx.rtx ∧
      ((s'.pending = s.pending ∧ o = none) ∨
        (s.rx.ssrc ≠ 0 ∧ ((s'.pending = some (handleRtp s.rx now h data seq t).2 ∧ o = none) ∨
          (s'.pending = s.pending ∧ o = some (handleRtp s.rx now h data seq t).2)))) := by
  unfold deliver
  obtain ⟨k1, k2, k3⟩ := handleRtp_keeps s.rx now h data seq t
  split
  · exact ⟨_, _, rfl, fun _ => rfl, rfl, rfl, rfl, rfl, .inl ⟨rfl, rfl⟩⟩
  · rename_i h0
    dsimp only
    split
    · split
      · exact ⟨_, _, rfl, k1, rfl, rfl, k2, k3, .inr ⟨h0, .inl ⟨rfl, rfl⟩⟩⟩
      · exact ⟨_, _, rfl, k1, rfl, rfl, k2, k3, .inl ⟨rfl, rfl⟩⟩
    · exact ⟨_, _, rfl, k1, rfl, rfl, k2, k3, .inr ⟨h0, .inr ⟨rfl, rfl⟩⟩⟩

/-- The result of a datagram -/
structure Rcvd (c : Cfg U) (s : Sess U) (now : Nat) (buf : List Byte) (s' : Sess U) (o : Option (Packet U)) : Prop where
  fit : Fit s'
  ids : s'.rx.ssrc = s.rx.ssrc ∧ s'.rx.rtx = s.rx.rtx
  src : (s'.log = s.log ∧ s'.pending = s.pending ∧ o = none) ∨
    ∃ e, Authentic c buf e ∧ s'.log = e :: s.log ∧ ((s'.pending = s.pending ∧ o = none) ∨
      ∃ p, Source c s now buf e p ∧ ((s'.pending = some p ∧ o = none) ∨ (s'.pending = s.pending ∧ o = some p)))

theorem fit_of {rx : Rx} {s : Sess U} {rep : Bool} {r : ReceiverRegister} (hf : Fit s) (h1 : regOf rx rep = some r) (hr : RegOk r)
    (h2 : regOf rx (!rep) = regOf s.rx (!rep)) : ∀ rep' r', regOf rx rep' = some r' → RegOk r' := by
  intro rep' r' h
  by_cases e : rep' = rep
  · rw [e, h1] at h; cases h; exact hr
  · have : rep' = !rep := by cases rep <;> cases rep' <;> simp_all
    rw [this, h2] at h
    exact hf.reg _ _ h

theorem repaired_spec (c : Cfg U) {s : Sess U} (hf : Fit s) (now : Nat) (h : Header U) (p : Param) (data : List Byte) :
    ∃ s' o, repaired c s now h p data = .ok (s', o) ∧ Fit s' ∧ s'.rx.ssrc = s.rx.ssrc ∧ s'.rx.rtx = s.rx.rtx ∧ s'.log = s.log ∧
      ((s'.pending = s.pending ∧ o = none) ∨ ∃ q : Packet U, ((s'.pending = some q ∧ o = none) ∨ (s'.pending = s.pending ∧ o = some q)) ∧
        s.rx.ssrc ≠ 0 ∧ data ≠ [] ∧ q.header = (unRtx s.rx h data p.pt).1 ∧ q.payload = (unRtx s.rx h data p.pt).2 ∧ q.at_ = now ∧
        q.seqNo % 65536 = q.header.sequenceNumber % 65536 ∧ q.seqNo < 2 ^ 64) := by
  unfold repaired
  split
  · exact ⟨s, none, rfl, hf, rfl, rfl, rfl, .inl ⟨rfl, rfl⟩⟩
  rename_i hne
  dsimp only
  obtain ⟨r, x1, x2, x3, x4, x5, x6, x7⟩ := extendSeq_spec hf.reg hf.seqs (unRtx s.rx h data p.pt).1.ssrc (unRtx s.rx h data p.pt).1.sequenceNumber false
  have hosn : (unRtx s.rx h data p.pt).1.sequenceNumber < 65536 := by
    show (readOsn data).1.getD 0 < 65536
    unfold readOsn
    split
    · exact rd16_lt _ _
    · simp
  obtain ⟨rx, hrx⟩ : ∃ rx, extendSeq s.rx s.seqs (unRtx s.rx h data p.pt).1.ssrc (unRtx s.rx h data p.pt).1.sequenceNumber false = rx := ⟨_, rfl⟩
  rw [hrx] at x2 x3 x4 x5 x6 x7 ⊢
  obtain ⟨rx, n⟩ := rx
  dsimp only at x2 x3 x4 x5 x6 x7 ⊢
  have hn : n < 2 ^ 64 := by omega
  obtain ⟨s1, t, b, e1, e2, e3, e4, e5⟩ := updateRegister_fit x2 now h.timestamp p.clock n
  have ets : (unRtx s.rx h data p.pt).1.timestamp = h.timestamp := rfl
  rw [ets, e1]
  dsimp only
  obtain ⟨s', o, d1, d2, d3, d4, d5, d6, d7⟩ := deliver_spec c ({ s with rx := s1, seqs := bumpSeq s.seqs (unRtx s.rx h data p.pt).1.ssrc n } : Sess U) now (unRtx s.rx h data p.pt).1 (unRtx s.rx h data p.pt).2 n t b
  rw [d1]
  refine ⟨s', o, rfl, ⟨?_, ?_⟩, ?_, ?_, d4, ?_⟩
  · intro rep' r' h'
    rw [d2] at h'
    exact fit_of hf e2 (regOk_update x1 hn).1 (e3.trans x3) rep' r' h'
  · rw [d3]; exact hf.seqs.bump _ hn
  · rw [d5]; exact e4.trans x6
  · rw [d6]; exact e5.trans x7
  · rcases d7 with d7 | ⟨d7, d8⟩
    · exact .inl d7
    · have hs1 : s.rx.ssrc ≠ 0 := by
        have : s1.ssrc ≠ 0 := d7
        rw [e4, x6] at this; exact this
      have hk := handleRtp_core s1 now (unRtx s.rx h data p.pt).1 (unRtx s.rx h data p.pt).2 n t
      refine .inr ⟨_, d8, hs1, hne, hk.2.1, hk.2.2.2.1, hk.2.2.2.2.2, ?_, ?_⟩
      · rw [hk.2.2.1, hk.2.1]; exact x4
      · rw [hk.2.2.1]; exact hn

theorem paramOf_mem {c : Cfg U} {a pt : Nat} {p : Param} (h : paramOf c a pt = some p) (h0 : a ≠ 0) :
    p ∈ c.params ∧ (p.pt = pt ∨ p.resend = some pt) := by
  rw [paramOf, if_neg h0] at h
  refine ⟨List.mem_of_find?_eq_some h, ?_⟩
  have := List.find?_some h
  simpa using this

theorem open_authentic {c : Cfg U} {d : Srtp.Derived} (hd : c.srtp = some d) {buf : List Byte} {h : Header U} (hp : Header.parse c.env c.exts buf = .ok h)
    {n : Nat} {data : List Byte} (ho : open_ c d h buf n = .ok data) (hn : n < 2 ^ 64) (hlow : n % 65536 = h.sequenceNumber % 65536) :
    Authentic c buf (h, n, data) := by
  refine ⟨hp, hlow, hn, d, ?_⟩
  unfold open_ at ho
  dsimp only
  split at ho
  · rename_i x hx
    refine ⟨x, hd, hx, ?_, ?_⟩
    · intro hpad; rw [unpad, hpad] at ho; simp at ho; exact ho.symm
    · intro hpad; rw [unpad, hpad] at ho; simpa using ho
  · cases ho
  · cases ho

theorem checked_spec {c : Cfg U} {d : Srtp.Derived} (hd : c.srtp = some d) {s : Sess U} (hf : Fit s) (now : Nat) {h : Header U} {p : Param}
    {buf : List Byte} (hp : Header.parse c.env c.exts buf = .ok h) (hs : h.ssrc = s.rx.ssrc ∨ some h.ssrc = s.rx.rtx)
    (hpar : paramOf c s.rx.ssrc h.payloadType = some p) :
    ∃ s' o, checked c d s now h p buf = .ok (s', o) ∧ Rcvd c s now buf s' o := by
  unfold checked
  obtain ⟨hseq, _, _⟩ := parse_fields hp
  obtain ⟨rep, hrep⟩ : ∃ rep, (p.pt != h.payloadType) = rep := ⟨_, rfl⟩
  rw [hrep]
  obtain ⟨r, x1, x2, x3, x4, x5, x6, x7⟩ := extendSeq_spec hf.reg hf.seqs h.ssrc h.sequenceNumber rep
  obtain ⟨rx, hrx⟩ : ∃ rx, extendSeq s.rx s.seqs h.ssrc h.sequenceNumber rep = rx := ⟨_, rfl⟩
  rw [hrx] at x2 x3 x4 x5 x6 x7 ⊢
  obtain ⟨rx, n⟩ := rx
  dsimp only at x2 x3 x4 x5 x6 x7 ⊢
  have hn : n < 2 ^ 64 := by omega
  have hf1 : Fit ({ s with rx := rx } : Sess U) := ⟨fit_of hf x2 x1 x3, hf.seqs⟩
  have stop : Rcvd c s now buf ({ s with rx := rx } : Sess U) none := ⟨hf1, ⟨x6, x7⟩, .inl ⟨rfl, rfl, rfl⟩⟩
  have hnew : isNew rx rep n = .ok (r.nack.accepts n) := by rw [isNew, x2]
  rw [hnew]
  cases hacc : r.nack.accepts n with
  | false => exact ⟨_, _, rfl, stop⟩
  | true =>
    dsimp only
    cases ho : open_ c d h buf n with
    | panic => exact absurd ho (open_total c d h buf n)
    | err e => exact ⟨_, _, rfl, stop⟩
    | ok data =>
      dsimp only
      have haut := open_authentic hd hp ho hn x4
      unfold received
      dsimp only
      rw [hrep]
      obtain ⟨s1, t, b, e1, e2, e3, e4, e5⟩ := updateRegister_fit x2 now h.timestamp p.clock n
      rw [e1]
      dsimp only
      let s2 : Sess U := ⟨s1, bumpSeq s.seqs h.ssrc n, twccOf s.twcc now h, s.pending, s.mediaBytes, (h, n, data) :: s.log⟩
      have hf2 : Fit s2 := ⟨fit_of hf e2 (regOk_update x1 hn).1 (e3.trans x3), hf.seqs.bump _ hn⟩
      cases hb : rep with
      | false =>
        rw [hb] at hrep
        rw [if_neg (by simp)]
        obtain ⟨s', o, d1, d2, d3, d4, d5, d6, d7⟩ := deliver_spec c s2 now h data n t b
        refine ⟨s', o, congrArg Res.ok d1, ⟨?_, ?_⟩, ⟨?_, ?_⟩, .inr ⟨(h, n, data), haut, d4, ?_⟩⟩
        · intro rep' r' h'; rw [d2] at h'; exact hf2.reg rep' r' h'
        · rw [d3]; exact hf2.seqs
        · rw [d5]; exact e4.trans x6
        · rw [d6]; exact e5.trans x7
        · rcases d7 with d7 | ⟨d7, d8⟩
          · exact .inl d7
          · have hs0 : s.rx.ssrc ≠ 0 := by
              have : s1.ssrc ≠ 0 := d7
              rw [e4, x6] at this; exact this
            have hk := handleRtp_core s1 now h data n t
            refine .inr ⟨_, ⟨haut, hk.2.2.2.2.2, .inl ⟨⟨p, (paramOf_mem hpar hs0).1, by simpa using hrep⟩, hs, hk.2.1, hk.2.2.1, hk.2.2.2.1⟩⟩, d8⟩
      | true =>
        rw [hb] at hrep
        rw [if_pos rfl]
        obtain ⟨s', o, k1, k2, k3, k4, k5, k6⟩ := repaired_spec c hf2 now h p data
        refine ⟨s', o, k1, k2, ⟨k3.trans (e4.trans x6), k4.trans (e5.trans x7)⟩, .inr ⟨(h, n, data), haut, k5, ?_⟩⟩
        rcases k6 with k6 | ⟨q, q1, q2, q3, q4, q5, q6, q7, q8⟩
        · exact .inl k6
        · have hs1 : s1.ssrc = s.rx.ssrc := e4.trans x6
          have hs0 : s.rx.ssrc ≠ 0 := by
            have : s1.ssrc ≠ 0 := q2
            rwa [hs1] at this
          have hne : p.pt ≠ h.payloadType := by simpa using hrep
          obtain ⟨m1, m2⟩ := paramOf_mem hpar hs0
          refine .inr ⟨q, ⟨haut, q6, .inr ⟨⟨p, m1, hne, m2.resolve_left hne, by rw [q4]; rfl⟩, hs, ?_, ?_, ?_, ?_, ?_, ?_, ?_, ?_, q7, q8, ?_⟩⟩, q1⟩
          · rw [q4]; exact hs1
          · rw [q4]; rfl
          · rw [q4]; rfl
          · rw [q4]; rfl
          · rw [q4]; rfl
          · rw [q4]; rfl
          · rw [q4]; rfl
          · rw [q4]; rfl
          · rw [q4, q5]
            match data, q3 with
            | [a], _ => exact .inr ⟨a, rfl, rfl, rfl⟩
            | a :: b :: rest, _ => exact .inl ⟨a, b, rest, rfl, rfl, rfl⟩

theorem receive_spec (c : Cfg U) {s : Sess U} (hf : Fit s) (now : Nat) (buf : List Byte) :
    ∃ s' o, receive c s now buf = .ok (s', o) ∧ Rcvd c s now buf s' o := by
  have stop : Rcvd c s now buf s none := ⟨hf, ⟨rfl, rfl⟩, .inl ⟨rfl, rfl, rfl⟩⟩
  unfold receive
  cases hp : Header.parse c.env c.exts buf with
  | panic => have := (C12_total c.env c.exts buf).1; rw [hp] at this; exact this.elim
  | err e => exact ⟨s, none, rfl, stop⟩
  | ok h =>
    dsimp only
    unfold handle
    split
    · rename_i hs
      split
      · rename_i d p hd hpar
        exact checked_spec hd hf now hp hs hpar
      · exact ⟨s, none, rfl, stop⟩
    · exact ⟨s, none, rfl, stop⟩

/-- Every other step leaves the log, the packets that wait and the numbers as they are, and shows no packet but the one that waited -/
theorem step_other (c : Cfg U) {s : Sess U} (hf : Fit s) (op : Op) (hop : ∀ now buf, op ≠ .packet now buf) :
    ∃ s' es, step c s op = .ok (s', es) ∧ Fit s' ∧ s'.log = s.log ∧ s'.seqs = s.seqs ∧
      ((s'.pending = s.pending ∧ packetsOf es = []) ∨ (s'.pending = none ∧ packetsOf es = s.pending.toList)) := by
  have upd : ∀ rx : Rx, (∀ rep r, regOf rx rep = some r → RegOk r) → Fit ({ s with rx := rx } : Sess U) := fun rx h => ⟨h, hf.seqs⟩
  cases op with
  | packet now buf => exact absurd rfl (hop now buf)
  | poll =>
    have hp : ∀ rep, regOf (pollPaused s.rx).1 rep = regOf s.rx rep := by
      intro rep; unfold pollPaused; split; rfl; split <;> cases rep <;> rfl
    simp only [step]
    split
    · rename_i rx b e
      rw [e] at hp
      exact ⟨_, _, rfl, upd _ (fun rep r h => hf.reg rep r (by rw [← hp]; exact h)), rfl, rfl, .inl ⟨rfl, rfl⟩⟩
    · rename_i rx e
      rw [e] at hp
      refine ⟨_, _, rfl, ⟨fun rep r h => hf.reg rep r (by rw [← hp]; exact h), hf.seqs⟩, rfl, rfl, .inr ⟨rfl, ?_⟩⟩
      cases s.pending <;> rfl
  | timeout now =>
    refine ⟨_, _, rfl, upd _ ?_, rfl, rfl, .inl ⟨rfl, rfl⟩⟩
    intro rep r
    unfold timeout; split
    · exact hf.reg rep r
    · split
      · exact hf.reg rep r
      · cases rep <;> exact hf.reg _ r
  | senderInfo now ntp rtp32 packets octets =>
    refine ⟨_, _, rfl, upd _ ?_, rfl, rfl, .inl ⟨rfl, rfl⟩⟩
    intro rep r; cases rep <;> exact hf.reg _ r
  | pollInfo =>
    refine ⟨_, _, rfl, upd _ ?_, rfl, rfl, .inl ⟨rfl, ?_⟩⟩
    · intro rep r
      unfold pollSenderInfo; split
      · exact hf.reg rep r
      · split
        · exact hf.reg rep r
        · cases rep <;> exact hf.reg _ r
    · cases (pollSenderInfo s.rx).2 <;> rfl
  | fresh n =>
    refine ⟨_, _, rfl, upd _ ?_, rfl, rfl, .inl ⟨rfl, rfl⟩⟩
    intro rep r h; cases rep <;> cases h
  | resetBuffers =>
    refine ⟨_, _, rfl, upd _ ?_, rfl, rfl, .inl ⟨rfl, rfl⟩⟩
    intro rep r h
    have key : ∀ (x : Option ReceiverRegister) (m : Option Nat), (∀ n, m = some n → n < 2 ^ 64) → clearReg x m = some r → RegOk r := by
      intro x m hm hx
      cases x with
      | none => cases hx
      | some r0 => cases hx; exact regOk_new m hm
    cases rep
    · exact key _ _ (fun n hn => hf.seqs.get hn) h
    · refine key _ _ (fun n hn => ?_) h
      cases hx : s.rx.rtx with
      | none => rw [hx] at hn; cases hn
      | some x => rw [hx] at hn; exact hf.seqs.get hn
  | changeSsrc n =>
    refine ⟨_, _, rfl, upd _ ?_, rfl, rfl, .inl ⟨rfl, rfl⟩⟩
    intro rep r h
    unfold changeSsrc at h; split at h
    · exact hf.reg rep r h
    · cases rep
      · cases h
      · exact hf.reg true r h
  | setRtx n =>
    refine ⟨_, _, rfl, upd _ ?_, rfl, rfl, .inl ⟨rfl, rfl⟩⟩
    intro rep r h
    unfold setRtx at h; split at h
    · exact hf.reg rep r h
    · cases rep
      · exact hf.reg false r h
      · cases h
  | resetRoc n =>
    refine ⟨_, _, rfl, upd _ ?_, rfl, rfl, .inl ⟨rfl, rfl⟩⟩
    intro rep r h; cases rep <;> cases h
  | threshold t =>
    refine ⟨_, _, rfl, upd _ ?_, rfl, rfl, .inl ⟨rfl, rfl⟩⟩
    intro rep r; cases rep <;> exact hf.reg _ r
  | suppress b =>
    refine ⟨_, _, rfl, upd _ ?_, rfl, rfl, .inl ⟨rfl, rfl⟩⟩
    intro rep r; cases rep <;> exact hf.reg _ r
  | requestKf k =>
    refine ⟨_, _, rfl, upd _ ?_, rfl, rfl, .inl ⟨rfl, rfl⟩⟩
    intro rep r; cases rep <;> exact hf.reg _ r
  | keyframe =>
    refine ⟨_, _, rfl, upd _ ?_, rfl, rfl, .inl ⟨rfl, ?_⟩⟩
    · intro rep r
      unfold keyframe; split <;> cases rep <;> exact hf.reg _ r
    · cases (keyframe s.rx).2 <;> rfl
  | nack =>
    refine ⟨_, _, rfl, upd _ ?_, rfl, rfl, .inl ⟨rfl, ?_⟩⟩
    · intro rep r h
      unfold makeNack at h
      split at h
      · exact hf.reg rep r h
      · split at h
        · exact hf.reg rep r h
        · rename_i r0 hr0
          have k1 := (regOk_nack (hf.reg false r0 hr0)).1
          split at h
          · rename_i n hn
            rw [hn] at k1
            cases rep
            · cases h; exact k1
            · exact hf.reg true r h
          · rename_i ns n hn
            rw [hn] at k1
            cases rep
            · cases h; exact k1
            · exact hf.reg true r h
    · unfold packetsOf
      rw [List.filterMap_map]
      simp
  | report now =>
    refine ⟨_, _, rfl, upd _ ?_, rfl, rfl, .inl ⟨rfl, rfl⟩⟩
    intro rep r h
    cases hr0 : s.rx.reg with
    | none =>
      have : regOf (makeReport s.rx now).1 rep = regOf s.rx rep := by
        unfold makeReport receiverReport; rw [hr0]; cases rep <;> rfl
      rw [this] at h; exact hf.reg rep r h
    | some r0 =>
      have k1 := (regOk_report (hf.reg false r0 hr0)).1
      have hx : regOf (makeReport s.rx now).1 rep = if rep then s.rx.regRtx else some r0.receptionReport.1 := by
        unfold makeReport receiverReport; rw [hr0]; dsimp only
        split <;> rename_i hn <;> rw [hn] <;> cases rep <;> rfl
      rw [hx] at h
      cases rep
      · cases h; exact k1
      · exact hf.reg true r h

end Str0m.Rcv
