import Verif.Proofs.StreamRx5

namespace Str0m.Rcv
open Str0m Str0m.Rtp NackRegister

variable {U : Type}

theorem run_snoc (c : Cfg U) (s : Sess U) (ops : List Op) (op : Op) {s1 s2 : Sess U} {e1 e2 : List (Ev U)}
    (h1 : run c s ops = .ok (s1, e1)) (h2 : step c s1 op = .ok (s2, e2)) : run c s (ops ++ [op]) = .ok (s2, e1 ++ e2) := by
  induction ops generalizing s e1 with
  | nil => simp only [run, Res.ok.injEq, Prod.mk.injEq] at h1; obtain ⟨rfl, rfl⟩ := h1; simp [run, h2]
  | cons o ops ih =>
    simp only [run, List.cons_append] at h1 ⊢
    cases hs : step c s o with
    | ok x =>
      obtain ⟨s', es⟩ := x
      rw [hs] at h1
      dsimp only at h1 ⊢
      cases hr : run c s' ops with
      | ok y =>
        obtain ⟨s'', es'⟩ := y
        rw [hr] at h1
        simp only [Res.ok.injEq, Prod.mk.injEq] at h1
        obtain ⟨rfl, rfl⟩ := h1
        rw [ih s' hr]
        simp
      | err e => rw [hr] at h1; cases h1
      | panic => rw [hr] at h1; cases h1
    | err e => rw [hs] at h1; cases h1
    | panic => rw [hs] at h1; cases h1

theorem run_snoc_inv (c : Cfg U) (s : Sess U) (ops : List Op) (op : Op) {s2 : Sess U} {es : List (Ev U)}
    (h : run c s (ops ++ [op]) = .ok (s2, es)) :
    ∃ s1 e1 e2, run c s ops = .ok (s1, e1) ∧ step c s1 op = .ok (s2, e2) ∧ es = e1 ++ e2 := by
  induction ops generalizing s es with
  | nil =>
    simp only [List.nil_append, run] at h
    cases hs : step c s op with
    | ok x =>
      obtain ⟨s', es'⟩ := x
      rw [hs] at h
      simp only [Res.ok.injEq, Prod.mk.injEq] at h
      obtain ⟨rfl, rfl⟩ := h
      exact ⟨s, [], es', rfl, by rw [hs], by simp⟩
    | err e => rw [hs] at h; cases h
    | panic => rw [hs] at h; cases h
  | cons o ops ih =>
    simp only [run, List.cons_append] at h ⊢
    cases hs : step c s o with
    | ok x =>
      obtain ⟨s', e0⟩ := x
      rw [hs] at h
      dsimp only at h ⊢
      cases hr : run c s' (ops ++ [op]) with
      | ok y =>
        obtain ⟨s'', es'⟩ := y
        rw [hr] at h
        simp only [Res.ok.injEq, Prod.mk.injEq] at h
        obtain ⟨rfl, rfl⟩ := h
        obtain ⟨s1, e1, e2, k1, k2, k3⟩ := ih s' hr
        exact ⟨s1, e0 ++ e1, e2, by rw [k1], k2, by rw [k3]; simp⟩
      | err e => rw [hr] at h; cases h
      | panic => rw [hr] at h; cases h
    | err e => rw [hs] at h; cases h
    | panic => rw [hs] at h; cases h

/-- A property of histories, step by step from the end -/
theorem run_ind {c : Cfg U} {s0 : Sess U} (P : List Op → Sess U → List (Ev U) → Prop) (h0 : P [] s0 [])
    (hs : ∀ ops op s es s' es', run c s0 ops = .ok (s, es) → P ops s es → step c s op = .ok (s', es') → P (ops ++ [op]) s' (es ++ es')) :
    ∀ ops s es, run c s0 ops = .ok (s, es) → P ops s es := by
  intro ops
  induction ops using List.reverseRecOn with
  | nil => intro s es h; cases h; exact h0
  | append_singleton ops op ih =>
    intro s es h
    obtain ⟨s1, e1, e2, k1, k2, rfl⟩ := run_snoc_inv c s0 ops op h
    exact hs ops op s1 e1 s e2 k1 (ih s1 e1 k1) k2

/-- What the steps other than a datagram do to the fields about time -/
theorem step_clock {c : Cfg U} {s s' : Sess U} {op : Op} {es : List (Ev U)} (hop : ∀ now buf, op ≠ .packet now buf)
    (h : step c s op = .ok (s', es)) :
    s'.log = s.log ∧
    (match op with
      | .poll => s'.rx.paused = s.rx.paused ∧ s'.rx.checkPausedAt = s.rx.checkPausedAt ∧ s'.rx.lastTime = s.rx.lastTime
      | .timeout now => s'.rx.lastTime = s.rx.lastTime ∧ ((∃ t, s.rx.checkPausedAt = some t ∧ t ≤ now ∧ s'.rx.paused = true ∧ s'.rx.checkPausedAt = none ∧ s'.rx.needEvent = true) ∨
          ((∀ t, s.rx.checkPausedAt = some t → now < t) ∧ s'.rx = s.rx))
      | .fresh _ => s'.rx.paused = true ∧ s'.rx.checkPausedAt = none ∧ s'.rx.lastTime = none
      | .changeSsrc _ => s'.rx.paused = s.rx.paused ∧ s'.rx.checkPausedAt = s.rx.checkPausedAt
      | _ => s'.rx.paused = s.rx.paused ∧ s'.rx.checkPausedAt = s.rx.checkPausedAt ∧ s'.rx.lastTime = s.rx.lastTime) := by
  cases op with
  | packet now buf => exact absurd rfl (hop now buf)
  | poll =>
    dsimp only
    simp only [step] at h
    split at h
    · rename_i rx b e
      have : rx.paused = s.rx.paused ∧ rx.checkPausedAt = s.rx.checkPausedAt ∧ rx.lastTime = s.rx.lastTime := by
        unfold pollPaused at e
        split at e
        · cases e
        · split at e <;> cases e; exact ⟨rfl, rfl, rfl⟩
      cases h; exact ⟨rfl, this⟩
    · rename_i rx e
      have : rx.paused = s.rx.paused ∧ rx.checkPausedAt = s.rx.checkPausedAt ∧ rx.lastTime = s.rx.lastTime := by
        unfold pollPaused at e
        split at e
        · cases e; exact ⟨rfl, rfl, rfl⟩
        · split at e <;> cases e; exact ⟨rfl, rfl, rfl⟩
      cases h; exact ⟨rfl, this⟩
  | timeout now =>
    dsimp only
    simp only [step, Res.ok.injEq, Prod.mk.injEq] at h
    obtain ⟨rfl, rfl⟩ := h
    refine ⟨rfl, ?_⟩
    dsimp only
    unfold timeout
    split
    · rename_i hn; exact ⟨rfl, .inr ⟨fun t ht => (by rw [hn] at ht; cases ht), rfl⟩⟩
    · rename_i t ht
      split
      · rename_i hlt
        refine ⟨rfl, .inr ⟨fun t' ht' => ?_, rfl⟩⟩
        rw [ht] at ht'; cases ht'; exact hlt
      · exact ⟨rfl, .inl ⟨t, ht, by omega, rfl, rfl, rfl⟩⟩
  | senderInfo now ntp rtp32 packets octets => cases h; exact ⟨rfl, rfl, rfl, rfl⟩
  | pollInfo =>
    cases h
    refine ⟨rfl, ?_⟩
    dsimp only
    unfold pollSenderInfo
    split
    · exact ⟨rfl, rfl, rfl⟩
    · split <;> exact ⟨rfl, rfl, rfl⟩
  | fresh n => cases h; exact ⟨rfl, rfl, rfl, rfl⟩
  | resetBuffers => cases h; exact ⟨rfl, rfl, rfl, rfl⟩
  | changeSsrc n =>
    cases h
    refine ⟨rfl, ?_⟩
    dsimp only
    unfold changeSsrc
    split <;> exact ⟨rfl, rfl⟩
  | setRtx n =>
    cases h
    refine ⟨rfl, ?_⟩
    dsimp only
    unfold setRtx
    split <;> exact ⟨rfl, rfl, rfl⟩
  | resetRoc n => cases h; exact ⟨rfl, rfl, rfl, rfl⟩
  | threshold t => cases h; exact ⟨rfl, rfl, rfl, rfl⟩
  | suppress b => cases h; exact ⟨rfl, rfl, rfl, rfl⟩
  | requestKf k => cases h; exact ⟨rfl, rfl, rfl, rfl⟩
  | keyframe =>
    cases h
    refine ⟨rfl, ?_⟩
    dsimp only
    unfold keyframe
    split <;> exact ⟨rfl, rfl, rfl⟩
  | nack =>
    cases h
    refine ⟨rfl, ?_⟩
    dsimp only
    unfold makeNack
    split
    · exact ⟨rfl, rfl, rfl⟩
    · split
      · exact ⟨rfl, rfl, rfl⟩
      · split <;> exact ⟨rfl, rfl, rfl⟩
  | report now =>
    cases h
    refine ⟨rfl, ?_⟩
    dsimp only
    unfold makeReport receiverReport
    dsimp only
    split
    · exact ⟨rfl, rfl, rfl⟩
    · split <;> exact ⟨rfl, rfl, rfl⟩

theorem step_event {c : Cfg U} {s s' : Sess U} {op : Op} {es : List (Ev U)} (hop : ∀ now buf, op ≠ .packet now buf) (hfresh : ∀ n, op ≠ .fresh n)
    (h : step c s op = .ok (s', es)) :
    (match op with
      | .poll => if s.rx.ssrc ≠ 0 ∧ s.rx.needEvent then pausesOf es = [s.rx.paused] ∧ s'.rx.needEvent = false
          else pausesOf es = [] ∧ s'.rx.needEvent = s.rx.needEvent
      | .timeout _ => pausesOf es = [] ∧ (s'.rx.needEvent = true ∨ s'.rx = s.rx)
      | _ => pausesOf es = [] ∧ s'.rx.needEvent = s.rx.needEvent) := by
  cases op with
  | packet now buf => exact absurd rfl (hop now buf)
  | fresh n => exact absurd rfl (hfresh n)
  | poll =>
    dsimp only
    simp only [step] at h
    by_cases h0 : s.rx.ssrc = 0
    · have e : pollPaused s.rx = (s.rx, none) := by simp [pollPaused, h0]
      rw [e] at h
      simp only [Res.ok.injEq, Prod.mk.injEq] at h
      obtain ⟨rfl, rfl⟩ := h
      rw [if_neg (by simp [h0])]
      refine ⟨?_, rfl⟩
      cases s.pending <;> rfl
    · cases hb : s.rx.needEvent with
      | true =>
        have e : pollPaused s.rx = ({ s.rx with needEvent := false }, some s.rx.paused) := by simp [pollPaused, h0, hb]
        rw [e] at h
        simp only [Res.ok.injEq, Prod.mk.injEq] at h
        obtain ⟨rfl, rfl⟩ := h
        rw [if_pos ⟨h0, rfl⟩]
        exact ⟨rfl, rfl⟩
      | false =>
        have e : pollPaused s.rx = (s.rx, none) := by simp [pollPaused, h0, hb]
        rw [e] at h
        simp only [Res.ok.injEq, Prod.mk.injEq] at h
        obtain ⟨rfl, rfl⟩ := h
        rw [if_neg (by simp)]
        refine ⟨?_, hb⟩
        cases s.pending <;> rfl
  | timeout now =>
    dsimp only
    simp only [step, Res.ok.injEq, Prod.mk.injEq] at h
    obtain ⟨rfl, rfl⟩ := h
    refine ⟨rfl, ?_⟩
    dsimp only
    unfold timeout
    split
    · exact .inr rfl
    · split
      · exact .inr rfl
      · exact .inl rfl
  | senderInfo now ntp rtp32 packets octets => cases h; exact ⟨rfl, rfl⟩
  | pollInfo =>
    cases h
    dsimp only
    constructor
    · cases (pollSenderInfo s.rx).2 <;> rfl
    · unfold pollSenderInfo
      split
      · rfl
      · split <;> rfl
  | resetBuffers => cases h; exact ⟨rfl, rfl⟩
  | changeSsrc n =>
    cases h
    refine ⟨rfl, ?_⟩
    dsimp only
    unfold changeSsrc
    split <;> rfl
  | setRtx n =>
    cases h
    refine ⟨rfl, ?_⟩
    dsimp only
    unfold setRtx
    split <;> rfl
  | resetRoc n => cases h; exact ⟨rfl, rfl⟩
  | threshold t => cases h; exact ⟨rfl, rfl⟩
  | suppress b => cases h; exact ⟨rfl, rfl⟩
  | requestKf k => cases h; exact ⟨rfl, rfl⟩
  | keyframe =>
    cases h
    dsimp only
    constructor
    · cases (keyframe s.rx).2 <;> rfl
    · unfold keyframe; split <;> rfl
  | nack =>
    cases h
    dsimp only
    constructor
    · unfold pausesOf; rw [List.filterMap_map]; simp
    · unfold makeNack
      split
      · rfl
      · split
        · rfl
        · split <;> rfl
  | report now =>
    cases h
    refine ⟨rfl, ?_⟩
    dsimp only
    unfold makeReport receiverReport
    dsimp only
    split
    · rfl
    · split <;> rfl

theorem packet_step {c : Cfg U} {s s' : Sess U} {now : Nat} {buf : List Byte} {es : List (Ev U)} (h : step c s (.packet now buf) = .ok (s', es)) :
    ∃ o, receive c s now buf = .ok (s', o) ∧ es = o.toList.map .packet := by
  simp only [step] at h
  split at h
  · rename_i s1 o e
    simp only [Res.ok.injEq, Prod.mk.injEq] at h
    obtain ⟨rfl, rfl⟩ := h
    exact ⟨o, e, rfl⟩
  · cases h
  · cases h

theorem deliver_shows (c : Cfg U) (s : Sess U) (now : Nat) (h : Header U) (data : List Byte) (seq : Nat) (t : MediaTime) (new : Bool) :
    (c.rtpMode = true → (deliver c s now h data seq t new).2 = none) ∧
    (c.rtpMode = false → (deliver c s now h data seq t new).1.pending = s.pending) := by
  unfold deliver
  split
  · exact ⟨fun _ => rfl, fun _ => rfl⟩
  · dsimp only
    constructor
    · intro e; rw [if_pos e]; split <;> rfl
    · intro e; rw [if_neg (by simp [e])]

theorem receive_mode {c : Cfg U} {s s' : Sess U} {now : Nat} {buf : List Byte} {o : Option (Packet U)} (hr : receive c s now buf = .ok (s', o)) :
    (c.rtpMode = true → o = none) ∧ (c.rtpMode = false → s'.pending = s.pending) := by
  have hdel : ∀ {s0 : Sess U} {n h d q t b}, s0.pending = s.pending → (Res.ok (ε := Unit) (deliver c s0 n h d q t b)) = .ok (s', o) →
      (c.rtpMode = true → o = none) ∧ (c.rtpMode = false → s'.pending = s.pending) := by
    intro s0 n h d q t b hs e
    simp only [Res.ok.injEq] at e
    obtain ⟨d1, d2⟩ := deliver_shows c s0 n h d q t b
    rw [e] at d1 d2
    exact ⟨d1, fun hm => (d2 hm).trans hs⟩
  have stop : ∀ {x : Sess U}, x.pending = s.pending → Res.ok (ε := Unit) (x, none) = .ok (s', o) →
      (c.rtpMode = true → o = none) ∧ (c.rtpMode = false → s'.pending = s.pending) := by
    intro x hx e; cases e; exact ⟨fun _ => rfl, fun _ => hx⟩
  unfold receive at hr
  split at hr
  · unfold handle at hr
    split at hr
    · split at hr
      · unfold checked at hr
        dsimp only at hr
        split at hr
        · split at hr
          · unfold received at hr
            dsimp only at hr
            split at hr
            · split at hr
              · unfold repaired at hr
                split at hr
                · exact stop (by rfl) hr
                · dsimp only at hr
                  split at hr
                  · exact hdel (by rfl) hr
                  · cases hr
                  · cases hr
              · exact hdel (by rfl) hr
            · cases hr
            · cases hr
          · exact stop (by rfl) hr
          · cases hr
        · exact stop (by rfl) hr
        · cases hr
        · cases hr
      · exact stop (by rfl) hr
    · exact stop (by rfl) hr
  · exact stop (by rfl) hr
  · cases hr

theorem fit_run {c : Cfg U} {s0 : Sess U} (hf : Fit s0) (ops : List Op) : ∃ s es, run c s0 ops = .ok (s, es) ∧ Fit s := by
  induction ops using List.reverseRecOn with
  | nil => exact ⟨s0, [], rfl, hf⟩
  | append_singleton ops op ih =>
    obtain ⟨s, es, h1, h2⟩ := ih
    by_cases hp : ∃ now buf, op = .packet now buf
    · obtain ⟨now, buf, rfl⟩ := hp
      obtain ⟨s', o, e, r⟩ := receive_spec c h2 now buf
      exact ⟨s', es ++ o.toList.map .packet, run_snoc c s0 ops _ h1 (by simp [step, e]), r.fit⟩
    · obtain ⟨s', es', e, f, _⟩ := step_other c h2 op (fun n b e => hp ⟨n, b, e⟩)
      exact ⟨s', _, run_snoc c s0 ops _ h1 e, f⟩

end Str0m.Rcv
