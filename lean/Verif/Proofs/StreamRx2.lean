import Verif.Proofs.StreamRx
import Verif.Spec.StreamRx
import Verif.Props.Srtp

namespace Str0m.Rcv
open Str0m Str0m.Rtp NackRegister

variable {U : Type}

/-! ### One packet, step by step -/

theorem extendSeq_none {s : Rx} (h : s.resetRoc = none) (seqs : List (Nat × Nat)) (a w : Nat) (rep : Bool) :
    extendSeq s seqs a w rep = (setReg s rep ((regOf s rep).getD (ReceiverRegister.new (seqOf seqs a))),
      extend 16 ((regOf s rep).getD (ReceiverRegister.new (seqOf seqs a))).nack.maxSeq w) := by
  unfold extendSeq
  cases rep <;> simp [setReg, h]

theorem core_setReg (s : Rx) (rep : Bool) (r : ReceiverRegister) :
    (setReg s rep r).core = if rep then { s.core with regRtx := some r } else { s.core with reg := some r } := by
  cases rep <;> rfl

theorem regOf_setReg (s : Rx) (rep : Bool) (r : ReceiverRegister) : regOf (setReg s rep r) rep = some r := by
  cases rep <;> rfl

theorem regOf_false (s : Rx) : regOf s false = s.reg := rfl
theorem regOf_true (s : Rx) : regOf s true = s.regRtx := rfl

theorem updateRegister_ok {s : Rx} {rep : Bool} {r : ReceiverRegister} (h : regOf s rep = some r) (now ts clock seq : Nat) :
    ∃ s' t, updateRegister s now ts clock rep seq = .ok (s', t, (r.update seq).2) ∧ s'.core = (setReg s rep (r.update seq).1).core := by
  unfold updateRegister
  simp only [h]
  refine ⟨_, _, rfl, ?_⟩
  cases rep <;> rfl

theorem deliver_zero (c : Cfg U) (s : Sess U) (now : Nat) (h : Header U) (data : List Byte) (seq : Nat) (t : MediaTime) (new : Bool)
    (h0 : s.rx.ssrc = 0) : deliver c s now h data seq t new = (s, none) := by
  simp [deliver, h0]

theorem handleRtp_core (s : Rx) (now : Nat) (h : Header U) (data : List Byte) (seq : Nat) (t : MediaTime) :
    (handleRtp s now h data seq t).1.core = s.core ∧ (handleRtp s now h data seq t).2.header = h ∧
      (handleRtp s now h data seq t).2.seqNo = seq ∧ (handleRtp s now h data seq t).2.payload = data ∧
      (handleRtp s now h data seq t).2.time = t ∧ (handleRtp s now h data seq t).2.at_ = now := by
  unfold handleRtp
  refine ⟨?_, rfl, rfl, rfl, rfl, rfl⟩
  dsimp only
  split <;> rfl

theorem deliver_mode {c : Cfg U} (hm : c.rtpMode = true) (s : Sess U) (now : Nat) (h : Header U) (data : List Byte) (seq : Nat)
    (t : MediaTime) (new : Bool) (h0 : s.rx.ssrc ≠ 0) :
    ∃ s', deliver c s now h data seq t new = (s', none) ∧ s'.rx.core = s.rx.core ∧ s'.seqs = s.seqs ∧ s'.log = s.log ∧ s'.twcc = s.twcc ∧
      s'.pending = if new then some (handleRtp s.rx now h data seq t).2 else s.pending := by
  unfold deliver
  simp only [h0, if_false, hm, if_true]
  have hc := (handleRtp_core s.rx now h data seq t).1
  cases new
  · exact ⟨_, rfl, hc, rfl, rfl, rfl, rfl⟩
  · exact ⟨_, rfl, hc, rfl, rfl, rfl, rfl⟩

/-- The invariant with what was handed over (`E`) -/
structure Good (M R : Nat → Prop) (s : Sess U) (E G : List (Nat × Nat)) : Prop where
  inv : Inv M R s.rx.core s.seqs (logKeys s.log) G
  nodup : (s.pending.toList.map Packet.key ++ E).Nodup
  sub : ∀ k ∈ s.pending.toList.map Packet.key ++ E, k ∈ G

variable {M R : Nat → Prop}

theorem Good.next {s s' : Sess U} {E G G' : List (Nat × Nat)} (hg : Good M R s E G) (hi : Inv M R s'.rx.core s'.seqs (logKeys s'.log) G')
    (hsub : ∀ k ∈ G, k ∈ G') (hp : s'.pending = s.pending ∨ ∃ p, s'.pending = some p ∧ p.key ∉ G ∧ p.key ∈ G') : Good M R s' E G' := by
  rcases hp with hp | ⟨p, hp, hn, hm⟩
  · exact ⟨hi, by rw [hp]; exact hg.nodup, fun k hk => hsub k (hg.sub k (by rw [hp] at hk; exact hk))⟩
  · refine ⟨hi, ?_, ?_⟩
    · rw [hp]
      simp only [Option.toList_some, List.map_cons, List.map_nil, List.cons_append, List.nil_append, List.nodup_cons]
      exact ⟨fun hc => hn (hg.sub _ (List.mem_append_right _ hc)), (List.nodup_append.1 hg.nodup).2.1⟩
    · rw [hp]
      simp only [Option.toList_some, List.map_cons, List.map_nil, List.cons_append, List.nil_append, List.mem_cons]
      rintro k (rfl | hk)
      · exact hm
      · exact hsub k (hg.sub k (List.mem_append_right _ hk))

theorem extend_fits {r : ReceiverRegister} (h : RegOk r) (w : Nat) : extend 16 r.nack.maxSeq w < 2 ^ 64 :=
  (C01_extend_low_bits 16 w _ (by omega) (regOk_max h)).2

theorem repaired_good {c : Cfg U} (hm : c.rtpMode = true) {s : Sess U} {E G : List (Nat × Nat)} (hg : Good M R s E G)
    (h0 : ¬ M 0) (now : Nat) (h : Header U) (p : Param) (data : List Byte) :
    ∃ s' G', repaired c s now h p data = .ok (s', none) ∧ Good M R s' E G' := by
  unfold repaired
  split
  · exact ⟨s, G, rfl, hg⟩
  simp only [unRtx]
  rw [extendSeq_none (s := s.rx) hg.inv.roc]
  dsimp only
  rw [regOf_false]
  have hi1 := hg.inv.open_main
  obtain ⟨r, hr⟩ : ∃ r, (s.rx.reg.getD (ReceiverRegister.new (seqOf s.seqs s.rx.ssrc))) = r := ⟨_, rfl⟩
  rw [hr]
  rw [show s.rx.core.reg = s.rx.reg from rfl, show s.rx.core.ssrc = s.rx.ssrc from rfl, hr] at hi1
  have hok := (hi1.reg r rfl).1
  obtain ⟨n, hn⟩ : ∃ n, extend 16 r.nack.maxSeq ((readOsn data).1.getD 0) = n := ⟨_, rfl⟩
  rw [hn]
  have hfit : n < 2 ^ 64 := hn ▸ extend_fits hok _
  obtain ⟨s1, t, e1, e2⟩ := updateRegister_ok (s := setReg s.rx false r) (rep := false) (r := r) rfl now h.timestamp p.clock n
  rw [e1]
  obtain ⟨hi2, hnew⟩ := hi1.count (r := r) rfl hfit
  have hssrc : s1.ssrc = s.rx.ssrc := by have := congrArg Core.ssrc e2; exact this
  have hne : s1.ssrc ≠ 0 := by rw [hssrc]; intro e; exact h0 (e ▸ hg.inv.main)
  let s2 : Sess U := { s with rx := s1, seqs := bumpSeq s.seqs s.rx.ssrc n }
  obtain ⟨s', d1, d2, d3, d4, d5, d6⟩ := deliver_mode hm s2 now (unRtx s.rx h data p.pt).1 (readOsn data).2 n t (r.update n).2 hne
  refine ⟨s', _, congrArg Res.ok d1, hg.next (G' := if (r.update n).2 then (s.rx.ssrc, n) :: G else G) ?_ ?_ ?_⟩
  · rw [d2, d3, d4]
    show Inv M R s1.core _ _ _
    rw [e2]
    exact hi2
  · intro k hk; split
    · exact List.mem_cons_of_mem _ hk
    · exact hk
  · rw [d6]
    cases hb : (r.update n).2 with
    | false => exact .inl rfl
    | true =>
      refine .inr ⟨_, rfl, ?_, ?_⟩
      · have : (s.rx.ssrc, n) ∉ G := hnew hb
        simpa [Packet.key, handleRtp, unRtx] using this
      · simp [Packet.key, handleRtp, unRtx]

theorem Good.mk' {s : Sess U} {E G : List (Nat × Nat)} (hg : Good M R s E G) (rx : Rx) (hi : Inv M R rx.core s.seqs (logKeys s.log) G) :
    Good M R { s with rx := rx } E G := hg.next hi (fun _ h => h) (.inl rfl)

theorem checked_good {c : Cfg U} (hm : c.rtpMode = true) (d : Srtp.Derived) {s : Sess U} {E G : List (Nat × Nat)} (hg : Good M R s E G)
    (h0 : ¬ M 0) (hd : ∀ a, M a → ¬ R a) (now : Nat) (h : Header U) (p : Param) (buf : List Byte)
    (hs : h.ssrc = s.rx.ssrc ∨ some h.ssrc = s.rx.rtx) (hl : if p.pt = h.payloadType then ¬ R h.ssrc else ¬ M h.ssrc)
    (hopen : ∀ n, open_ c d h buf n ≠ .panic) :
    ∃ s' G', checked c d s now h p buf = .ok (s', none) ∧ Good M R s' E G' := by
  unfold checked
  rw [extendSeq_none (s := s.rx) hg.inv.roc]
  dsimp only
  by_cases hrep : p.pt = h.payloadType
  · -- media
    have hb : (p.pt != h.payloadType) = false := by simp [hrep]
    rw [hb, regOf_false]
    rw [if_pos hrep] at hl
    have hssrc : h.ssrc = s.rx.ssrc := by
      rcases hs with hs | hs
      · exact hs
      · exact absurd (hg.inv.rtx _ hs.symm) hl
    rw [hssrc]
    have hi1 := hg.inv.open_main
    obtain ⟨r, hr⟩ : ∃ r, (s.rx.reg.getD (ReceiverRegister.new (seqOf s.seqs s.rx.ssrc))) = r := ⟨_, rfl⟩
    rw [hr]
    rw [show s.rx.core.reg = s.rx.reg from rfl, show s.rx.core.ssrc = s.rx.ssrc from rfl, hr] at hi1
    have hok := (hi1.reg r rfl).1
    obtain ⟨n, hn⟩ : ∃ n, extend 16 r.nack.maxSeq h.sequenceNumber = n := ⟨_, rfl⟩
    rw [hn]
    have hfit : n < 2 ^ 64 := hn ▸ extend_fits hok _
    have hnew : isNew (setReg s.rx false r) false n = .ok (r.nack.accepts n) := rfl
    rw [hnew]
    cases hacc : r.nack.accepts n with
    | false => exact ⟨_, G, rfl, hg.mk' _ hi1⟩
    | true =>
      dsimp only
      cases ho : open_ c d h buf n with
      | panic => exact absurd ho (hopen n)
      | err e => exact ⟨_, G, rfl, hg.mk' _ hi1⟩
      | ok data =>
        dsimp only
        unfold received
        dsimp only
        rw [hb]
        obtain ⟨s1, t, e1, e2⟩ := updateRegister_ok (s := setReg s.rx false r) (rep := false) (r := r) rfl now h.timestamp p.clock n
        rw [e1]
        dsimp only
        rw [if_neg (by simp)]
        obtain ⟨hi2, hnot⟩ := hi1.openMain hd (r := r) rfl hfit hacc
        have hs1 : s1.ssrc = s.rx.ssrc := congrArg Core.ssrc e2
        have hne : s1.ssrc ≠ 0 := by rw [hs1]; intro e; exact h0 (e ▸ hg.inv.main)
        let s2 : Sess U := ⟨s1, bumpSeq s.seqs h.ssrc n, twccOf s.twcc now h, s.pending, s.mediaBytes, (h, n, data) :: s.log⟩
        obtain ⟨s', d1, d2, d3, d4, d5, d6⟩ := deliver_mode hm s2 now h data n t (r.update n).2 hne
        refine ⟨s', _, congrArg Res.ok d1, hg.next (G' := (s.rx.ssrc, n) :: G) ?_ (fun k hk => List.mem_cons_of_mem _ hk) ?_⟩
        · rw [d2, d3, d4]
          show Inv M R s1.core (bumpSeq s.seqs h.ssrc n) ((h.ssrc, n) :: logKeys s.log) _
          rw [e2, hssrc]
          exact hi2
        · rw [d6]
          have hb2 : (r.update n).2 = true := by rw [(regOk_update hok hfit).2.1, hacc]
          rw [hb2]
          refine .inr ⟨_, rfl, ?_, ?_⟩
          · have : (s.rx.ssrc, n) ∉ G := hnot
            simpa [Packet.key, handleRtp, hssrc] using this
          · simp [Packet.key, handleRtp, hssrc]
  · -- repair
    have hb : (p.pt != h.payloadType) = true := by simp [hrep]
    rw [hb, regOf_true]
    rw [if_neg hrep] at hl
    have hssrc : s.rx.rtx = some h.ssrc := by
      rcases hs with hs | hs
      · exact absurd (hs ▸ hg.inv.main) hl
      · exact hs.symm
    have hi1 := hg.inv.open_rtx (x := h.ssrc) hssrc
    obtain ⟨r, hr⟩ : ∃ r, (s.rx.regRtx.getD (ReceiverRegister.new (seqOf s.seqs h.ssrc))) = r := ⟨_, rfl⟩
    rw [hr]
    rw [show s.rx.core.regRtx = s.rx.regRtx from rfl, hr] at hi1
    have hok := (hi1.regx r rfl).1
    obtain ⟨n, hn⟩ : ∃ n, extend 16 r.nack.maxSeq h.sequenceNumber = n := ⟨_, rfl⟩
    rw [hn]
    have hfit : n < 2 ^ 64 := hn ▸ extend_fits hok _
    have hnew : isNew (setReg s.rx true r) true n = .ok (r.nack.accepts n) := rfl
    rw [hnew]
    cases hacc : r.nack.accepts n with
    | false => exact ⟨_, G, rfl, hg.mk' _ hi1⟩
    | true =>
      dsimp only
      cases ho : open_ c d h buf n with
      | panic => exact absurd ho (hopen n)
      | err e => exact ⟨_, G, rfl, hg.mk' _ hi1⟩
      | ok data =>
        dsimp only
        unfold received
        dsimp only
        rw [hb]
        obtain ⟨s1, t, e1, e2⟩ := updateRegister_ok (s := setReg s.rx true r) (rep := true) (r := r) rfl now h.timestamp p.clock n
        rw [e1]
        dsimp only
        rw [if_pos (by simp)]
        have hi2 := hi1.openRtx hd (r := r) rfl hssrc hfit hacc
        let s2 : Sess U := ⟨s1, bumpSeq s.seqs h.ssrc n, twccOf s.twcc now h, s.pending, s.mediaBytes, (h, n, data) :: s.log⟩
        refine repaired_good (s := s2) hm (hg.next (G' := G) ?_ (fun _ h => h) (.inl rfl)) h0 now h p data
        show Inv M R s1.core (bumpSeq s.seqs h.ssrc n) ((h.ssrc, n) :: logKeys s.log) _
        rw [e2]
        exact hi2

theorem open_total (c : Cfg U) (d : Srtp.Derived) (h : Header U) (buf : List Byte) (n : Nat) : open_ c d h buf n ≠ .panic := by
  unfold open_
  have h1 := (Srtp.C37_rtp_total c.prim d buf h.headerLen h.ssrc h.sequenceNumber n).1
  cases hu : Srtp.unprotectRtp c.prim d buf h.headerLen h.ssrc h.sequenceNumber n with
  | panic => rw [hu] at h1; exact h1.elim
  | err e => simp
  | ok data =>
    simp only [unpad]
    split
    · have h2 := (C12_unpad data).1
      intro e; rw [e] at h2; exact h2
    · simp

theorem receive_good {c : Cfg U} (hm : c.rtpMode = true) {s : Sess U} {E G : List (Nat × Nat)} (hg : Good M R s E G)
    (h0 : ¬ M 0) (hd : ∀ a, M a → ¬ R a) (now : Nat) (buf : List Byte) (hl : Labelled M R c (.packet now buf)) :
    ∃ s' G', receive c s now buf = .ok (s', none) ∧ Good M R s' E G' := by
  unfold receive
  cases hp : Header.parse c.env c.exts buf with
  | panic => have := (C12_total c.env c.exts buf).1; rw [hp] at this; exact this.elim
  | err e => exact ⟨s, G, rfl, hg⟩
  | ok h =>
    dsimp only
    unfold handle
    split
    · rename_i hs
      split
      · rename_i d p hd' hpar
        have hne : s.rx.ssrc ≠ 0 := fun e => h0 (e ▸ hg.inv.main)
        rw [paramOf, if_neg hne] at hpar
        have := hl h p hp hpar
        refine checked_good hm d hg h0 hd now h p buf hs ?_ (open_total c d h buf)
        split
        · rename_i e; exact this.1 e
        · rename_i e; exact this.2 e
      · exact ⟨s, G, rfl, hg⟩
    · exact ⟨s, G, rfl, hg⟩

theorem packetsOf_append (a b : List (Ev U)) : packetsOf (a ++ b) = packetsOf a ++ packetsOf b := List.filterMap_append

theorem Inv.swap {core core' : Core} {seqs L G} (h : Inv M R core seqs L G) (e : core' = core) : Inv M R core' seqs L G := e ▸ h

theorem step_good {c : Cfg U} (hm : c.rtpMode = true) {s : Sess U} {E G : List (Nat × Nat)} (hg : Good M R s E G)
    (h0 : ¬ M 0) (hd : ∀ a, M a → ¬ R a) (op : Op) (hl : Labelled M R c op) :
    ∃ s' es G', step c s op = .ok (s', es) ∧ Good M R s' ((packetsOf es).map Packet.key ++ E) G' := by
  cases op with
  | packet now buf =>
    obtain ⟨s', G', e, h⟩ := receive_good hm hg h0 hd now buf hl
    exact ⟨s', [], G', by simp [step, e], h⟩
  | poll =>
    have hp : (pollPaused s.rx).1.core = s.rx.core := by unfold pollPaused; split; rfl; split <;> rfl
    simp only [step]
    split
    · rename_i rx b e
      rw [e] at hp
      exact ⟨_, _, G, rfl, hg.mk' _ (hg.inv.swap hp)⟩
    · rename_i rx e
      rw [e] at hp
      refine ⟨_, _, G, rfl, hg.inv.swap hp, ?_, ?_⟩
      · have := hg.nodup
        cases hpen : s.pending with
        | none => rw [hpen] at this; simpa [packetsOf] using this
        | some p => rw [hpen] at this; simpa [packetsOf] using this
      · have := hg.sub
        cases hpen : s.pending with
        | none => rw [hpen] at this; simpa [packetsOf] using this
        | some p => rw [hpen] at this; simpa [packetsOf] using this
  | timeout now =>
    refine ⟨_, _, G, rfl, hg.mk' _ (hg.inv.swap ?_)⟩
    unfold timeout; split; rfl; split <;> rfl
  | senderInfo now ntp rtp32 packets octets => exact ⟨_, _, G, rfl, hg.mk' _ (hg.inv.swap rfl)⟩
  | pollInfo =>
    have hk : (packetsOf ((pollSenderInfo s.rx).2.toList.map (Ev.info (U := U)))) = [] := by
      cases (pollSenderInfo s.rx).2 <;> rfl
    refine ⟨_, _, G, rfl, ?_⟩
    rw [hk]
    refine hg.mk' _ (hg.inv.swap ?_)
    unfold pollSenderInfo; split; rfl; split <;> rfl
  | fresh n =>
    refine ⟨_, _, G, rfl, hg.mk' _ ?_⟩
    exact { hg.inv with roc := rfl, main := hl, rtx := (fun _ hx => nomatch hx), reg := (fun _ hr => nomatch hr), regx := (fun _ hr => nomatch hr) }
  | resetBuffers =>
    refine ⟨_, _, G, rfl, hg.mk' _ ?_⟩
    have hi := hg.inv
    have h1 : Inv M R { s.rx.core with reg := clearReg s.rx.reg (seqOf s.seqs s.rx.ssrc) } s.seqs (logKeys s.log) G := by
      cases hr : s.rx.reg with
      | none => exact { hi with reg := (fun _ hr => nomatch hr) }
      | some r0 =>
        have hx : Inv M R { s.rx.core with reg := none } s.seqs (logKeys s.log) G := { hi with reg := (fun _ hr => nomatch hr) }
        exact hx.open_main
    have h2 : Inv M R { s.rx.core with reg := clearReg s.rx.reg (seqOf s.seqs s.rx.ssrc), regRtx := clearReg s.rx.regRtx (s.rx.rtx.bind (seqOf s.seqs)) } s.seqs (logKeys s.log) G := by
      cases hr : s.rx.regRtx with
      | none => exact { h1 with regx := (fun _ hr => nomatch hr) }
      | some r0 =>
        cases hxx : s.rx.rtx with
        | none =>
          refine { h1 with regx := ?_ }
          intro r hr
          simp only [clearReg, Option.map_some, Option.bind_none, Option.some.injEq] at hr
          subst hr
          refine ⟨regOk_new _ (by simp), ?_⟩
          intro x hx
          have : s.rx.rtx = some x := hx
          rw [hxx] at this; cases this
        | some x =>
          have hx : Inv M R { s.rx.core with reg := clearReg s.rx.reg (seqOf s.seqs s.rx.ssrc), regRtx := none } s.seqs (logKeys s.log) G := { h1 with regx := (fun _ hr => nomatch hr) }
          exact hx.open_rtx (x := x) hxx
    exact h2
  | changeSsrc n =>
    refine ⟨_, _, G, rfl, hg.mk' _ ?_⟩
    unfold changeSsrc
    split
    · exact hg.inv
    · exact { hg.inv with roc := rfl, main := hl, reg := (fun _ hr => nomatch hr) }
  | setRtx n =>
    refine ⟨_, _, G, rfl, hg.mk' _ ?_⟩
    unfold setRtx
    split
    · exact hg.inv
    · refine { hg.inv with rtx := ?_, regx := (fun _ hr => nomatch hr) }
      intro x hx
      have : some n = some x := hx
      cases this; exact hl
  | resetRoc n => exact hl.elim
  | threshold t => exact ⟨_, _, G, rfl, hg.mk' _ (hg.inv.swap rfl)⟩
  | suppress b => exact ⟨_, _, G, rfl, hg.mk' _ (hg.inv.swap rfl)⟩
  | requestKf k => exact ⟨_, _, G, rfl, hg.mk' _ (hg.inv.swap rfl)⟩
  | keyframe =>
    have hk : (packetsOf ((keyframe s.rx).2.toList.map (Ev.keyframe (U := U)))) = [] := by
      cases (keyframe s.rx).2 <;> rfl
    refine ⟨_, _, G, rfl, ?_⟩
    rw [hk]
    refine hg.mk' _ (hg.inv.swap ?_)
    unfold keyframe; split <;> rfl
  | nack =>
    have hk : (packetsOf ((makeNack s.rx).2.map (Ev.nack (U := U)))) = [] := by
      unfold packetsOf
      rw [List.filterMap_map]
      simp
    refine ⟨_, _, G, rfl, ?_⟩
    rw [hk]
    refine hg.mk' _ ?_
    unfold makeNack
    split
    · exact hg.inv
    · split
      · exact hg.inv
      · rename_i r hr
        obtain ⟨hok, hb⟩ := hg.inv.reg r hr
        obtain ⟨k1, k2⟩ := regOk_nack hok
        have key : Inv M R { s.rx.core with reg := some { r with nack := r.nack.nackReports.2 } } s.seqs (logKeys s.log) G := by
          refine { hg.inv with reg := ?_ }
          intro r' hr'
          simp only [Option.some.injEq] at hr'
          subst hr'
          exact ⟨k1, fun k hk hks => by rw [k2]; exact hb k hk hks⟩
        split
        · rename_i n hn
          rw [hn] at key; exact key
        · rename_i ns n hn
          rw [hn] at key; exact key
  | report now =>
    refine ⟨_, _, G, rfl, hg.mk' _ ?_⟩
    unfold makeReport receiverReport
    cases hr : s.rx.reg with
    | none => exact hg.inv.swap (by simp [Rx.core, hr])
    | some r =>
      obtain ⟨hok, hb⟩ := hg.inv.reg r hr
      obtain ⟨k1, k2⟩ := regOk_report hok
      have key : Inv M R { s.rx.core with reg := some r.receptionReport.1 } s.seqs (logKeys s.log) G := by
        refine { hg.inv with reg := ?_ }
        intro r' hr'
        simp only [Option.some.injEq] at hr'
        subst hr'
        exact ⟨k1, fun k hk hks => by rw [k2]; exact hb k hk hks⟩
      dsimp only
      split
      · rename_i r' hn; rw [hn] at key; exact key
      · rename_i r' st hn; rw [hn] at key; exact key

theorem run_good {c : Cfg U} (hm : c.rtpMode = true) (h0 : ¬ M 0) (hd : ∀ a, M a → ¬ R a) (ops : List Op) :
    ∀ {s : Sess U} {E G : List (Nat × Nat)}, Good M R s E G → (∀ op ∈ ops, Labelled M R c op) →
    ∃ s' es G', run c s ops = .ok (s', es) ∧ Good M R s' (((packetsOf es).map Packet.key).reverse ++ E) G' := by
  induction ops with
  | nil => intro s E G hg _; exact ⟨s, [], G, rfl, hg⟩
  | cons op ops ih =>
    intro s E G hg hl
    obtain ⟨s1, e1, G1, h1, g1⟩ := step_good hm hg h0 hd op (hl op (by simp))
    have hrev : Good M R s1 (((packetsOf e1).map Packet.key).reverse ++ E) G1 := by
      refine ⟨g1.inv, ?_, ?_⟩
      · refine (List.Perm.nodup_iff ?_).1 g1.nodup
        exact ((List.reverse_perm _).symm.append_right E).append_left _
      · intro k hk; exact g1.sub k (by simp at hk ⊢; exact hk)
    obtain ⟨s2, e2, G2, h2, g2⟩ := ih hrev (fun op hop => hl op (by simp [hop]))
    refine ⟨s2, e1 ++ e2, G2, by simp [run, h1, h2], ?_⟩
    rw [packetsOf_append, List.map_append, List.reverse_append, List.append_assoc]
    exact g2

end Str0m.Rcv
