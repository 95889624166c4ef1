import Verif.Proofs.StreamRx7

namespace Str0m.Rcv
open Str0m Str0m.Rtp NackRegister

variable {U : Type}

/-- The stream with SSRC `a` and repair SSRC `x` has let through `D` and `L`, latest first -/
structure Track (a x : Nat) (s : Sess U) (D L : List Nat) : Prop where
  ssrc : s.rx.ssrc = a
  rtx : s.rx.rtx = some x
  roc : s.rx.resetRoc = none
  main : Lane s.rx.reg (seqOf s.seqs a) D
  rep : Lane s.rx.regRtx (seqOf s.seqs x) L

/-- The next number is not too far ahead -/
def Gap (n : Nat) (H : List Nat) : Prop := H = [] ∨ ∃ m ∈ H, n ≤ m + 101

/-- What a datagram does -/
inductive Took (a x : Nat) (s s' : Sess U) (D L : List Nat) : Prop where
  | quiet (h1 : s'.log = s.log) (h2 : s'.pending = s.pending) (h3 : Track a x s' D L)
  | media (e : Header U × Nat × List Byte) (q : Packet U) (h1 : s'.log = e :: s.log) (h2 : e.1.ssrc = a) (h3 : s'.pending = some q)
      (h4 : Gap q.seqNo D → Track a x s' (q.seqNo :: D) L)
  | repair (e : Header U × Nat × List Byte) (h1 : s'.log = e :: s.log) (h2 : e.1.ssrc = x) (h3 : s'.pending = s.pending)
      (h4 : Gap e.2.1 L → Track a x s' D (e.2.1 :: L))
  | both (e : Header U × Nat × List Byte) (q : Packet U) (h1 : s'.log = e :: s.log) (h2 : e.1.ssrc = x) (h3 : s'.pending = some q)
      (h4 : Gap e.2.1 L → Gap q.seqNo D → Track a x s' (q.seqNo :: D) (e.2.1 :: L))

theorem core_ids {s' : Sess U} {c : Core} (h : s'.rx.core = c) :
    s'.rx.ssrc = c.ssrc ∧ s'.rx.rtx = c.rtx ∧ s'.rx.resetRoc = c.resetRoc ∧ s'.rx.reg = c.reg ∧ s'.rx.regRtx = c.regRtx :=
  ⟨congrArg Core.ssrc h, congrArg Core.rtx h, congrArg Core.resetRoc h, congrArg Core.reg h, congrArg Core.regRtx h⟩

theorem lane_q {o : Option ReceiverRegister} {q q' : Option Nat} {H : List Nat} (h : Lane o q H) (hne : H ≠ []) : Lane o q' H :=
  ⟨fun e => absurd e hne, h.unset, h.reg⟩

/-- The packet is the SSRC's own, or the repair stream's -/
theorem took {c : Cfg U} (hm : c.rtpMode = true) {a x : Nat} (ha : a ≠ 0) (hax : x ≠ a) {s : Sess U} {D L : List Nat} (ht : Track a x s D L) (now : Nat)
    (buf : List Byte) (hl : Labelled (· = a) (· = x) c (.packet now buf)) :
    ∃ s', receive c s now buf = .ok (s', none) ∧ Took a x s s' D L := by
  unfold receive
  cases hp : Header.parse c.env c.exts buf with
  | panic => have := (C12_total c.env c.exts buf).1; rw [hp] at this; exact this.elim
  | err e => exact ⟨s, rfl, .quiet rfl rfl ht⟩
  | ok h =>
    dsimp only
    unfold handle
    split
    · rename_i hs
      split
      · rename_i d p hd hpar
        rw [ht.ssrc] at hpar
        have hlab := label_cases hl hp ha hpar
        rw [ht.ssrc, ht.rtx, Option.some.injEq] at hs
        by_cases hrep : p.pt = h.payloadType
        · rw [if_pos hrep] at hlab
          have hs' : h.ssrc = s.rx.ssrc := by rw [ht.ssrc]; rcases hs with h | h; exact h; exact absurd h hlab
          have hop := ht.main.opened
          obtain ⟨r, hr⟩ : ∃ r, s.rx.reg.getD (ReceiverRegister.new (seqOf s.seqs s.rx.ssrc)) = r := ⟨_, rfl⟩
          rw [← ht.ssrc, hr, ht.ssrc] at hop
          obtain ⟨n, hn⟩ : ∃ n, extend 16 r.nack.maxSeq h.sequenceNumber = n := ⟨_, rfl⟩
          have hfit : n < 2 ^ 64 := hn ▸ extend_fits hop.fits _
          obtain ⟨s', e1, e2⟩ := media_step hm d ht.roc (by rw [ht.ssrc]; exact ha) now h p buf hrep hs' hr hn
          refine ⟨s', e1, ?_⟩
          rcases e2 with ⟨k1, k2, k3, k4, _⟩ | ⟨data, q, k0, k0', k1, k2, k3, k4, k5, k6, k7, k8⟩
          · obtain ⟨i1, i2, i3, i4, i5⟩ := core_ids k1
            refine .quiet k3 k4 ⟨i1.trans ht.ssrc, i2.trans ht.rtx, i3.trans ht.roc, ?_, ?_⟩
            · rw [i4, k2]; exact hop
            · rw [i5, k2]; exact ht.rep
          · obtain ⟨i1, i2, i3, i4, i5⟩ := core_ids k1
            refine .media (h, n, data) q k3 (by rw [← ht.ssrc]; exact hs') k4 (fun hg => ?_)
            rw [k5] at hg ⊢
            have hup := (hop.update (q' := seqOf s'.seqs a) hfit (fun _ => hg)).2
            rw [k0, if_pos rfl] at hup
            refine ⟨i1.trans ht.ssrc, i2.trans ht.rtx, i3.trans ht.roc, ?_, ?_⟩
            · rw [i4]; exact hup
            · rw [i5, k2, ht.ssrc, seqOf_bump_other _ _ _ _ hax]; exact ht.rep
        · rw [if_neg hrep] at hlab
          have hs' : h.ssrc = x := by rcases hs with h | h; exact absurd h hlab; exact h
          have hop1 := ht.main.opened
          obtain ⟨r1, hr1⟩ : ∃ r, s.rx.reg.getD (ReceiverRegister.new (seqOf s.seqs s.rx.ssrc)) = r := ⟨_, rfl⟩
          rw [← ht.ssrc, hr1, ht.ssrc] at hop1
          have hop2 := ht.rep.opened
          obtain ⟨r2, hr2⟩ : ∃ r, s.rx.regRtx.getD (ReceiverRegister.new (seqOf s.seqs x)) = r := ⟨_, rfl⟩
          rw [hr2] at hop2
          obtain ⟨k, hk⟩ : ∃ n, extend 16 r2.nack.maxSeq h.sequenceNumber = n := ⟨_, rfl⟩
          have hfit2 : k < 2 ^ 64 := hk ▸ extend_fits hop2.fits _
          obtain ⟨s', e1, e2⟩ := rtx_step hm d ht.roc (by rw [ht.ssrc]; exact ha) now h p buf hrep hs' (by rw [ht.ssrc]; exact hax) hr2 hk hr1
          refine ⟨s', e1, ?_⟩
          rcases e2 with ⟨k1, k2, k3, k4, _⟩ | ⟨k0, _, k1, k2, k3, k4⟩ | ⟨data, n, k0, _, _, hn, k1, k2, k3, k4⟩
          · obtain ⟨i1, i2, i3, i4, i5⟩ := core_ids k1
            refine .quiet k3 k4 ⟨i1.trans ht.ssrc, i2.trans ht.rtx, i3.trans ht.roc, ?_, ?_⟩
            · rw [i4, k2]; exact ht.main
            · rw [i5, k2]; exact hop2
          · obtain ⟨i1, i2, i3, i4, i5⟩ := core_ids k1
            refine .repair (h, k, []) k3 hs' k4 (fun hg => ?_)
            have hup := (hop2.update (q' := seqOf s'.seqs x) hfit2 (fun _ => hg)).2
            rw [k0, if_pos rfl] at hup
            refine ⟨i1.trans ht.ssrc, i2.trans ht.rtx, i3.trans ht.roc, ?_, ?_⟩
            · rw [i4, k2, seqOf_bump_other _ _ _ _ (fun e => hax e.symm)]; exact ht.main
            · rw [i5]; exact hup
          · obtain ⟨i1, i2, i3, i4, i5⟩ := core_ids k1
            have hfit1 : n < 2 ^ 64 := hn ▸ extend_fits hop1.fits _
            have hx : Gap k L → Lane s'.rx.regRtx (seqOf s'.seqs x) (k :: L) := by
              intro hg
              have hup := (hop2.update (q' := seqOf s'.seqs x) hfit2 (fun _ => hg)).2
              rw [k0, if_pos rfl] at hup
              rw [i5]; exact hup
            rcases k4 with ⟨ha1, k5⟩ | ⟨ha1, q, k5, k6, _⟩
            · refine .repair (h, k, data) k3 hs' k5 (fun hg => ⟨i1.trans ht.ssrc, i2.trans ht.rtx, i3.trans ht.roc, ?_, hx hg⟩)
              have hup := (hop1.update (q' := seqOf s'.seqs a) hfit1 (fun h => by rw [ha1] at h; cases h)).2
              rw [ha1, if_neg (by simp)] at hup
              rw [i4]; exact hup
            · refine .both (h, k, data) q k3 hs' k5 (fun hg hg2 => ⟨i1.trans ht.ssrc, i2.trans ht.rtx, i3.trans ht.roc, ?_, hx hg⟩)
              rw [k6] at hg2 ⊢
              have hup := (hop1.update (q' := seqOf s'.seqs a) hfit1 (fun _ => hg2)).2
              rw [ha1, if_pos rfl] at hup
              rw [i4]; exact hup
      · exact ⟨s, rfl, .quiet rfl rfl ht⟩
    · exact ⟨s, rfl, .quiet rfl rfl ht⟩

/-- The other steps -/
theorem Track.other {c : Cfg U} {a x : Nat} {s s' : Sess U} {D L : List Nat} (ht : Track a x s D L) {op : Op} {es : List (Ev U)}
    (hop : ∀ now buf, op ≠ .packet now buf) (hst : Steady op) (h : step c s op = .ok (s', es)) : Track a x s' D L := by
  have same : ∀ {s' : Sess U}, s'.rx.core = s.rx.core → s'.seqs = s.seqs → Track a x s' D L := by
    intro s' h1 h2
    obtain ⟨i1, i2, i3, i4, i5⟩ := core_ids h1
    exact ⟨i1.trans ht.ssrc, i2.trans ht.rtx, i3.trans ht.roc, by rw [i4, h2]; exact ht.main, by rw [i5, h2]; exact ht.rep⟩
  cases op with
  | packet now buf => exact absurd rfl (hop now buf)
  | poll =>
    have hp : (pollPaused s.rx).1.core = s.rx.core := by unfold pollPaused; split; rfl; split <;> rfl
    simp only [step] at h
    split at h
    · rename_i rx b e
      rw [e] at hp
      cases h; exact same hp rfl
    · rename_i rx e
      rw [e] at hp
      cases h; exact same hp rfl
  | timeout now =>
    cases h
    refine same ?_ rfl
    dsimp only
    unfold timeout
    split
    · rfl
    · split <;> rfl
  | senderInfo now ntp rtp32 packets octets => cases h; exact same rfl rfl
  | pollInfo =>
    cases h
    refine same ?_ rfl
    dsimp only
    unfold pollSenderInfo
    split
    · rfl
    · split <;> rfl
  | fresh n => exact hst.elim
  | resetBuffers => exact hst.elim
  | changeSsrc n => exact hst.elim
  | setRtx n => exact hst.elim
  | resetRoc n => exact hst.elim
  | threshold t => cases h; exact same rfl rfl
  | suppress b => cases h; exact same rfl rfl
  | requestKf k => cases h; exact same rfl rfl
  | keyframe =>
    cases h
    refine same ?_ rfl
    dsimp only
    unfold keyframe
    split <;> rfl
  | nack =>
    cases h
    unfold makeNack
    split
    · exact ht
    · split
      · exact ht
      · rename_i r hr
        have hm := ht.main
        rw [hr] at hm
        have hn := hm.nack
        split
        · rename_i n e
          rw [e] at hn
          exact ⟨ht.ssrc, ht.rtx, ht.roc, hn, ht.rep⟩
        · rename_i ns n e
          rw [e] at hn
          exact ⟨ht.ssrc, ht.rtx, ht.roc, hn, ht.rep⟩
  | report now =>
    cases h
    unfold makeReport receiverReport
    dsimp only
    split
    · exact same rfl rfl
    · rename_i r hr
      have hm := ht.main
      rw [hr] at hm
      have hn := hm.report
      split
      · rename_i r' e
        rw [e] at hn
        exact ⟨ht.ssrc, ht.rtx, ht.roc, hn, ht.rep⟩
      · rename_i r' st e
        rw [e] at hn
        exact ⟨ht.ssrc, ht.rtx, ht.roc, hn, ht.rep⟩

theorem Close.init {l : List Nat} {n : Nat} (h : Close (l ++ [n])) : Close l ∧ Gap n l.reverse := by
  constructor
  · intro pre m post e
    exact h pre m (post ++ [n]) (by rw [e]; simp)
  · rcases h l n [] rfl with h | ⟨m, hm, hle⟩
    · exact .inl (by rw [h]; rfl)
    · exact .inr ⟨m, List.mem_reverse.2 hm, hle⟩

/-- Over a history -/
theorem track_run {c : Cfg U} (hm : c.rtpMode = true) {a x : Nat} (ha : a ≠ 0) (hax : x ≠ a) (ops : List Op)
    (s : Sess U) (es : List (Ev U)) (hrun : run c { rx := { ssrc := a, rtx := some x } } ops = .ok (s, es)) :
    (∀ op ∈ ops, Steady op) → (∀ op ∈ ops, Labelled (· = a) (· = x) c op) → Drained c { rx := { ssrc := a, rtx := some x } } ops →
    Close (numbersOf s es) → Close (openedOn x s) → Track a x s (numbersOf s es).reverse (openedOn x s).reverse := by
  revert s es
  refine run_ind (c := c) (s0 := ({ rx := { ssrc := a, rtx := some x } } : Sess U))
    (fun ops s es => (∀ op ∈ ops, Steady op) → (∀ op ∈ ops, Labelled (· = a) (· = x) c op) → Drained c { rx := { ssrc := a, rtx := some x } } ops →
    Close (numbersOf s es) → Close (openedOn x s) → Track a x s (numbersOf s es).reverse (openedOn x s).reverse) ?_ ?_ ops
  · intro _ _ _ _ _
    exact ⟨rfl, rfl, rfl, Lane.start, Lane.start⟩
  · intro ops op s es s' es' hr ih hs hst hlab hdr hc1 hc2
    have ih := ih (fun o ho => hst o (by simp [ho])) (fun o ho => hlab o (by simp [ho]))
      (fun pre now buf post e => hdr pre now buf (post ++ [op]) (by rw [e]; simp))
    have hfit0 : Fit ({ rx := { ssrc := a, rtx := some x } } : Sess U) := ⟨fun rep r h => (by cases rep <;> cases h), fun e he => (by cases he)⟩
    have other : (∀ now buf, op ≠ .packet now buf) → Track a x s' (numbersOf s' (es ++ es')).reverse (openedOn x s').reverse := by
      intro hop
      have hfit : Fit s := by
        obtain ⟨s1, es1, hr1, hf⟩ := fit_run (c := c) hfit0 ops
        rw [hr] at hr1; cases hr1; exact hf
      obtain ⟨s2, es2, e2, _, hlog, _, hp⟩ := step_other c hfit op hop
      rw [hs] at e2; cases e2
      have hn : numbersOf s' (es ++ es') = numbersOf s es := by
        unfold numbersOf
        rw [packetsOf_append]
        rcases hp with ⟨h1, h2⟩ | ⟨h1, h2⟩
        · rw [h1, h2, List.append_nil]
        · rw [h1, h2]; simp
      have ho : openedOn x s' = openedOn x s := by unfold openedOn; rw [hlog]
      rw [hn] at hc1 ⊢
      rw [ho] at hc2 ⊢
      exact (ih hc1 hc2).other hop (hst op (by simp)) hs
    by_cases hp : ∃ now buf, op = .packet now buf
    · obtain ⟨now, buf, rfl⟩ := hp
      obtain ⟨o, e1, rfl⟩ := packet_step hs
      have hpend : s.pending = none := hdr ops now buf [] rfl s es hr
      -- what the step adds
      have hns : ∀ {q : Packet U}, s'.pending = some q → o = none → numbersOf s' (es ++ o.toList.map Ev.packet) = numbersOf s es ++ [q.seqNo] := by
        intro q h1 h2
        unfold numbersOf
        rw [packetsOf_append, h1, h2, hpend]
        simp [packetsOf]
      have hns0 : s'.pending = s.pending → o = none → numbersOf s' (es ++ o.toList.map Ev.packet) = numbersOf s es := by
        intro h1 h2
        unfold numbersOf
        rw [packetsOf_append, h1, h2]
        simp [packetsOf]
      have hos : ∀ {e : Header U × Nat × List Byte}, s'.log = e :: s.log → e.1.ssrc = x → openedOn x s' = openedOn x s ++ [e.2.1] := by
        intro e h1 h2
        unfold openedOn
        rw [h1]
        simp [h2]
      have hos0 : ∀ {e : Header U × Nat × List Byte}, s'.log = e :: s.log → e.1.ssrc = a → openedOn x s' = openedOn x s := by
        intro e h1 h2
        unfold openedOn
        rw [h1]
        simp [h2, hax.symm]
      -- the prefix is close as well
      have hpre : Track a x s (numbersOf s es).reverse (openedOn x s).reverse := by
        have hpo : numbersOf s' (es ++ o.toList.map Ev.packet) = numbersOf s es ∨ ∃ n, numbersOf s' (es ++ o.toList.map Ev.packet) = numbersOf s es ++ [n] := by
          have hcl := (receive_clock e1)
          have hmode : o = none := (receive_mode e1).1 hm
          cases hcl with
          | quiet _ h2 h3 _ => exact .inl (hns0 h3 h2)
          | probe _ _ _ h2 h3 _ => exact .inl (hns0 h3 h2)
          | packet e _ h1 b hb t p hp ht h4 h5 h6 =>
            rcases h5 with h5 | ⟨q, h5, _⟩
            · exact .inl (hns0 h5 hmode)
            · exact .inr ⟨q.seqNo, hns h5 hmode⟩
        have hlo : openedOn x s' = openedOn x s ∨ ∃ n, openedOn x s' = openedOn x s ++ [n] := by
          have hgen : ∀ {e : Header U × Nat × List Byte}, s'.log = e :: s.log → openedOn x s' = openedOn x s ∨ ∃ n, openedOn x s' = openedOn x s ++ [n] := by
            intro e h1
            by_cases hx : e.1.ssrc = x
            · exact .inr ⟨_, hos h1 hx⟩
            · left; unfold openedOn; rw [h1]; simp [hx]
          cases receive_clock e1 with
          | quiet h1 _ _ _ => left; unfold openedOn; rw [h1]
          | probe e _ h1 _ _ _ => exact hgen h1
          | packet e _ h1 => exact hgen h1
        refine ih ?_ ?_
        · rcases hpo with h | ⟨n, h⟩
          · rw [h] at hc1; exact hc1
          · rw [h] at hc1; exact hc1.init.1
        · rcases hlo with h | ⟨n, h⟩
          · rw [h] at hc2; exact hc2
          · rw [h] at hc2; exact hc2.init.1
      obtain ⟨s2, e2, tk⟩ := took hm ha hax hpre now buf (hlab _ (by simp))
      rw [e1] at e2; cases e2
      cases tk with
      | quiet h1 h2 h3 =>
        rw [hns0 h2 rfl]
        have : openedOn x s' = openedOn x s := by unfold openedOn; rw [h1]
        rw [this]; exact h3
      | media e q h1 h2 h3 h4 =>
        rw [hns h3 rfl] at hc1
        rw [hns h3 rfl, hos0 h1 h2, List.reverse_append]
        exact h4 hc1.init.2
      | repair e h1 h2 h3 h4 =>
        rw [hos h1 h2] at hc2
        rw [hns0 h3 rfl, hos h1 h2, List.reverse_append]
        exact h4 hc2.init.2
      | both e q h1 h2 h3 h4 =>
        rw [hns h3 rfl] at hc1
        rw [hos h1 h2] at hc2
        rw [hns h3 rfl, hos h1 h2, List.reverse_append, List.reverse_append]
        exact h4 hc2.init.2 hc1.init.2
    · exact other (fun n b e => hp ⟨n, b, e⟩)

end Str0m.Rcv
