import Verif.Proofs.StreamRx6
import Verif.Props.Extend
import Verif.Props.StreamRx
import Mathlib.Data.List.Chain
/-
  C83: the time of a packet. C84: when a stream is paused, and what the application is told.
-/
namespace Str0m.Rcv
open Str0m Str0m.Rtp NackRegister

variable {U : Type}

theorem fresh_fit (a : Nat) (x : Option Nat) : Fit ({ rx := { ssrc := a, rtx := x } } : Sess U) :=
  ⟨fun rep r h => (by cases rep <;> cases h), fun e he => (by cases he)⟩

theorem step_ssrc {c : Cfg U} {s s' : Sess U} (hf : Fit s) {op : Op} {es : List (Ev U)} (hop : SameStream op) (h : step c s op = .ok (s', es)) :
    s'.rx.ssrc = s.rx.ssrc := by
  cases op with
  | packet now buf =>
    obtain ⟨o, e, -⟩ := packet_step h
    obtain ⟨s2, o2, e2, r⟩ := receive_spec c hf now buf
    rw [e] at e2; cases e2
    exact r.ids.1
  | poll =>
    have hp : (pollPaused s.rx).1.ssrc = s.rx.ssrc := by unfold pollPaused; split; rfl; split <;> rfl
    simp only [step] at h
    split at h
    · rename_i rx b e; rw [e] at hp; cases h; exact hp
    · rename_i rx e; rw [e] at hp; cases h; exact hp
  | timeout now =>
    cases h
    dsimp only
    unfold timeout
    split
    · rfl
    · split <;> rfl
  | senderInfo now ntp rtp32 packets octets => cases h; rfl
  | pollInfo =>
    cases h
    dsimp only
    unfold pollSenderInfo
    split
    · rfl
    · split <;> rfl
  | fresh n => exact hop.elim
  | resetBuffers => cases h; rfl
  | changeSsrc n => exact hop.elim
  | setRtx n => cases h; dsimp only; unfold setRtx; split <;> rfl
  | resetRoc n => cases h; rfl
  | threshold t => cases h; rfl
  | suppress b => cases h; rfl
  | requestKf k => cases h; rfl
  | keyframe => cases h; dsimp only; unfold keyframe; split <;> rfl
  | nack =>
    cases h
    dsimp only
    unfold makeNack
    split
    · rfl
    · split
      · rfl
      · split <;> rfl
  | report now =>
    cases h
    dsimp only
    unfold makeReport receiverReport
    dsimp only
    split
    · rfl
    · split <;> rfl

/-- The extended time stamp is the true one -/
theorem extendTime_true {prev : Option Nat} {b : Bool} {ts t : Nat} (h1 : t < 2 ^ 64) (h2 : t % 2 ^ 32 = ts)
    (h3 : match prev with
      | none => t < 2 ^ 32
      | some p => p < 2 ^ 64 ∧ t < p + 2 ^ 31 ∧ p < t + 2 ^ 31 ∧ (b = true → p ≤ t)) : extendTime prev b ts = t := by
  unfold extendTime
  cases prev with
  | none => dsimp only at h3 ⊢; rw [C01_extend_first]; omega
  | some p =>
    dsimp only at h3 ⊢
    obtain ⟨k0, k1, k2, k3⟩ := h3
    have : extend 32 (some p) ts = t := C01_extend_recovers 32 p t ts (by norm_num) (by norm_num) k0 h1 (by norm_num; omega) (by norm_num; omega) (by omega)
    rw [this, if_neg]
    rintro ⟨hb, hlt⟩
    have := k3 hb
    omega

/-- The last time kept is the true time of the last packet opened -/
structure Timed (a : Nat) (c : Cfg U) (T : Header U × Nat × List Byte → Nat) (s : Sess U) : Prop where
  fit : Fit s
  ssrc : s.rx.ssrc = a
  time : s.rx.lastTime.map (·.numer) = (s.log.find? (carries c)).map T
  bound : ∀ e, s.log.find? (carries c) = some e → T e < 2 ^ 64

/-- One datagram -/
theorem timed_packet {a : Nat} (ha : a ≠ 0) {c : Cfg U} {T : Header U × Nat × List Byte → Nat} {s s' : Sess U} {now : Nat} {buf : List Byte} {o : Option (Packet U)}
    (ht : Timed a c T s) (h : receive c s now buf = .ok (s', o))
    (hsm : ∀ e, s'.log = e :: s.log → carries c e = true → T e < 2 ^ 64 ∧ T e % 2 ^ 32 = e.1.timestamp ∧
      match s.log.find? (carries c) with
      | none => T e < 2 ^ 32
      | some e0 => T e < T e0 + 2 ^ 31 ∧ T e0 < T e + 2 ^ 31 ∧ (s.rx.paused = true → T e0 ≤ T e)) :
    Timed a c T s' ∧ ∀ e p, s'.log = e :: s.log → s.pending = none → p ∈ o.toList ++ s'.pending.toList →
      p.time.numer = T e ∧ ∃ q ∈ c.params, q.pt = p.header.payloadType ∧ p.time.denom = q.clock := by
  obtain ⟨s2, o2, e2, r⟩ := receive_spec c ht.fit now buf
  rw [h] at e2; cases e2
  have h0 : s.rx.ssrc ≠ 0 := by rw [ht.ssrc]; exact ha
  have hss := r.ids.1.trans ht.ssrc
  have none_out : ∀ {e : Header U × Nat × List Byte} {p : Packet U} {P : Prop}, o = none → s'.pending = s.pending → s.pending = none → p ∈ o.toList ++ s'.pending.toList → P := by
    intro e p P k1 k2 k3 k4
    rw [k1, k2, k3] at k4; simp at k4
  cases receive_clock h with
  | quiet h1 h2 h3 h4 =>
    have hl : s'.rx.lastTime = s.rx.lastTime := congrArg (·.1) h4
    refine ⟨⟨r.fit, hss, by rw [hl, h1]; exact ht.time, by rw [h1]; exact ht.bound⟩, fun e p k1 => ?_⟩
    rw [h1] at k1
    exact absurd k1 (by simp)
  | probe e hc h1 h2 h3 h4 =>
    have hl : s'.rx.lastTime = s.rx.lastTime := congrArg (·.1) h4
    have hf : s'.log.find? (carries c) = s.log.find? (carries c) := by rw [h1, List.find?_cons, hc h0]
    refine ⟨⟨r.fit, hss, by rw [hl, hf]; exact ht.time, by rw [hf]; exact ht.bound⟩, fun e p k1 k2 k3 => ?_⟩
    exact none_out (e := e) h2 h3 k2 k3
  | packet e hc h1 b hb t p hp htt h4 h5 h6 =>
    have hl : s'.rx.lastTime = some t := congrArg (·.1) h4
    have hf : s'.log.find? (carries c) = some e := by rw [h1, List.find?_cons, hc h0]
    obtain ⟨k1, k2, k3⟩ := hsm e h1 (hc h0)
    have htrue : t.numer = T e := by
      rw [htt]
      dsimp only
      refine extendTime_true k1 k2 ?_
      rw [ht.time]
      cases hfd : s.log.find? (carries c) with
      | none => rw [hfd] at k3; exact k3
      | some e0 => rw [hfd] at k3; exact ⟨ht.bound e0 hfd, k3.1, k3.2.1, fun hbt => k3.2.2 (hb hbt)⟩
    refine ⟨⟨r.fit, hss, by rw [hl, hf]; simp [htrue], fun e' he' => ?_⟩, fun e' q j1 j2 j3 => ?_⟩
    · rw [hf] at he'; cases he'; exact k1
    · rw [h1] at j1
      cases (List.cons.inj j1).1
      have fin : q.time = t ∧ q.header.timestamp = e.1.timestamp ∧ q.header.payloadType = p.pt → 
          q.time.numer = T e ∧ ∃ p ∈ c.params, p.pt = q.header.payloadType ∧ q.time.denom = p.clock := by
        rintro ⟨i1, _, i3⟩
        exact ⟨by rw [i1]; exact htrue, p, hp h0, i3.symm, by rw [i1, htt]⟩
      rcases List.mem_append.1 j3 with j | j
      · exact fin (h6 q (by simpa using j))
      · rcases h5 with h5 | ⟨q', h5, h7⟩
        · rw [h5, j2] at j; simp at j
        · rw [h5] at j
          have : q = q' := by simpa using j
          rw [this]; rw [this] at fin; exact fin h7

theorem timed_run {c : Cfg U} {a : Nat} (ha : a ≠ 0) (x : Option Nat) (T : Header U × Nat × List Byte → Nat) (ops : List Op) (s : Sess U) (es : List (Ev U))
    (hrun : run c { rx := { ssrc := a, rtx := x } } ops = .ok (s, es)) :
    (∀ op ∈ ops, SameStream op) → Smooth c { rx := { ssrc := a, rtx := x } } ops T → Timed a c T s := by
  revert s es
  refine run_ind (c := c) (s0 := ({ rx := { ssrc := a, rtx := x } } : Sess U))
    (fun ops s es => (∀ op ∈ ops, SameStream op) → Smooth c { rx := { ssrc := a, rtx := x } } ops T → Timed a c T s) ?_ ?_ ops
  · intro _ _
    exact ⟨fresh_fit a x, rfl, rfl, fun e he => by cases he⟩
  · intro ops op s es s' es' hr ih hs hsame hsm
    have ih := ih (fun o ho => hsame o (by simp [ho]))
      (fun pre now buf post s1 es1 s2 es2 e h => hsm pre now buf (post ++ [op]) s1 es1 s2 es2 e (by rw [h]; simp))
    by_cases hp : ∃ now buf, op = .packet now buf
    · obtain ⟨now, buf, rfl⟩ := hp
      obtain ⟨o, e1, rfl⟩ := packet_step hs
      exact (timed_packet ha ih e1 (fun e he hc => hsm ops now buf [] s es s' _ e rfl hr hs he hc)).1
    · have hop : ∀ now buf, op ≠ .packet now buf := fun n b e => hp ⟨n, b, e⟩
      obtain ⟨s2, es2, e2, hfit, _⟩ := step_other c ih.fit op hop
      rw [hs] at e2; cases e2
      have hss := (step_ssrc ih.fit (hsame op (by simp)) hs).trans ih.ssrc
      obtain ⟨hlog, hcl⟩ := step_clock hop hs
      have hlt : s'.rx.lastTime = s.rx.lastTime := by
        have hso := hsame op (by simp)
        cases op with
        | fresh n => exact hso.elim
        | changeSsrc n => exact hso.elim
        | packet n b => exact absurd rfl (hop n b)
        | timeout n => exact hcl.1
        | _ => exact hcl.2.2
      exact ⟨hfit, hss, by rw [hlt, hlog]; exact ih.time, by rw [hlog]; exact ih.bound⟩

/-- **C83**: a packet carries its true time: if the (64 bit) times `T` of the packets opened so far are each less than 2^31 away from the
one before, and not before it after a pause, then every packet handed over has the time `T` of the datagram it came with, in the clock
rate of its payload type; whatever the order, the gaps, the repairs, the pauses and the resets in between. -/
theorem C83_time (c : Cfg U) (a : Nat) (ha : a ≠ 0) (x : Option Nat) (T : Header U × Nat × List Byte → Nat) (ops : List Op) (now : Nat) (buf : List Byte)
    (hsame : ∀ op ∈ ops, SameStream op) (hsm : Smooth c { rx := { ssrc := a, rtx := x } } (ops ++ [.packet now buf]) T)
    (s s' : Sess U) (es es' : List (Ev U)) (hrun : run c { rx := { ssrc := a, rtx := x } } ops = .ok (s, es))
    (hstep : step c s (.packet now buf) = .ok (s', es')) (hpend : s.pending = none) (p : Packet U) (hp : p ∈ packetsOf es' ++ s'.pending.toList) :
    ∃ e, s'.log = e :: s.log ∧ p.time.numer = T e ∧ ∃ q ∈ c.params, q.pt = p.header.payloadType ∧ p.time.denom = q.clock := by
  have ht := timed_run ha x T ops s es hrun hsame
    (fun pre n b post s1 es1 s2 es2 e h => hsm pre n b (post ++ [.packet now buf]) s1 es1 s2 es2 e (by rw [h]; simp))
  obtain ⟨o, e1, rfl⟩ := packet_step hstep
  have hpo : packetsOf (o.toList.map Ev.packet) = o.toList := by cases o <;> rfl
  rw [hpo] at hp
  have hk := (timed_packet ha ht e1 (fun e he hc => hsm ops now buf [] s es s' _ e rfl hrun hstep he hc)).2
  obtain ⟨s2, o2, e2, r⟩ := receive_spec c ht.fit now buf
  rw [e1] at e2; cases e2
  rcases r.src with ⟨_, h2, h3⟩ | ⟨e, _, h1, _⟩
  · rw [h2, h3, hpend] at hp; simp at hp
  · exact ⟨e, h1, hk e p h1 hpend hp⟩

/-- Without a pause and with the wrap of the 32 bits: 2^32 - 500 is followed by 2^32 + 500 -/
example : outcome exampleCfg { rx := { ssrc := 7, rtx := some 9 } }
    [.packet 0 (datagram 96 7 1 (2 ^ 32 - 500) [1]), .poll, .poll, .packet 1 (datagram 96 7 3 500 [2]), .poll, .packet 2 (datagram 97 9 50 (2 ^ 32 - 100) (be16 2 ++ [3])), .poll] =
    some [(7, 1, 2 ^ 32 - 500, [1]), (7, 3, 2 ^ 32 + 500, [2]), (7, 2, 2 ^ 32 - 100, [3])] := by
  decide +kernel

/-- The example with the times 2^32 - 500 and 2^32 + 500 -/
def timeOps : List Op := [.packet 0 (datagram 96 7 1 (2 ^ 32 - 500) [1]), .poll, .poll, .packet 1 (datagram 96 7 3 500 [2])]

/-- Their true times -/
def timeT (e : Header Nat × Nat × List Byte) : Nat := if e.2.1 = 1 then 2 ^ 32 - 500 else 2 ^ 32 + 500

/-- The hypotheses of C83 are met by that history -/
example : Smooth exampleCfg { rx := { ssrc := 7, rtx := some 9 } } timeOps timeT ∧ ∀ op ∈ timeOps, SameStream op := by
  have key : ∀ (pre : List Op) (now : Nat) (buf : List Byte), (match run exampleCfg ({ rx := { ssrc := 7, rtx := some 9 } } : Sess Nat) pre with
      | .ok (s1, _) => match step exampleCfg s1 (.packet now buf) with
        | .ok (s2, _) => match s2.log.head? with
          | some e => decide (timeT e < 2 ^ 64 ∧ timeT e % 2 ^ 32 = e.1.timestamp) && (match s1.log.find? (carries exampleCfg) with
            | none => decide (timeT e < 2 ^ 32)
            | some e0 => decide (timeT e < timeT e0 + 2 ^ 31 ∧ timeT e0 < timeT e + 2 ^ 31 ∧ (s1.rx.paused = true → timeT e0 ≤ timeT e)))
          | none => true
        | _ => true
      | _ => true) = true → ∀ s1 es1 s2 es2 e, run exampleCfg ({ rx := { ssrc := 7, rtx := some 9 } } : Sess Nat) pre = .ok (s1, es1) →
      step exampleCfg s1 (.packet now buf) = .ok (s2, es2) → s2.log = e :: s1.log → carries exampleCfg e = true →
      timeT e < 2 ^ 64 ∧ timeT e % 2 ^ 32 = e.1.timestamp ∧
      match s1.log.find? (carries exampleCfg) with
      | none => timeT e < 2 ^ 32
      | some e0 => timeT e < timeT e0 + 2 ^ 31 ∧ timeT e0 < timeT e + 2 ^ 31 ∧ (s1.rx.paused = true → timeT e0 ≤ timeT e) := by
    intro pre now buf h s1 es1 s2 es2 e h1 h2 h3 _
    rw [h1] at h
    dsimp only at h
    rw [h2] at h
    dsimp only at h
    rw [h3] at h
    dsimp only [List.head?_cons] at h
    rw [Bool.and_eq_true] at h
    obtain ⟨k1, k2⟩ := h
    have k1 := of_decide_eq_true k1
    refine ⟨k1.1, k1.2, ?_⟩
    cases hf : s1.log.find? (carries exampleCfg) with
    | none => rw [hf] at k2; exact of_decide_eq_true k2
    | some e0 => rw [hf] at k2; exact of_decide_eq_true k2
  constructor
  · intro pre now buf post s1 es1 s2 es2 e h
    match pre, h with
    | [], h =>
      simp only [timeOps, List.nil_append, List.cons.injEq, Op.packet.injEq] at h
      obtain ⟨⟨rfl, rfl⟩, _⟩ := h
      intro h1 h2 h3 h4
      have := key _ _ _ (by decide +kernel) s1 es1 s2 es2 e h1 h2 h3 h4
      refine ⟨this.1, this.2.1, ?_⟩
      have := this.2.2
      revert this
      cases s1.log.find? (carries exampleCfg) <;> exact id
    | [_], h => simp [timeOps] at h
    | [_, _], h => simp [timeOps] at h
    | [_, _, _], h =>
      simp only [timeOps, List.cons_append, List.nil_append, List.cons.injEq, Op.packet.injEq] at h
      obtain ⟨rfl, rfl, rfl, ⟨rfl, rfl⟩, _⟩ := h
      intro h1 h2 h3 h4
      have := key _ _ _ (by decide +kernel) s1 es1 s2 es2 e h1 h2 h3 h4
      refine ⟨this.1, this.2.1, ?_⟩
      have := this.2.2
      revert this
      cases s1.log.find? (carries exampleCfg) <;> exact id
    | _ :: _ :: _ :: _ :: pre, h => simp [timeOps] at h
  · intro op hop
    simp only [timeOps, List.mem_cons, List.not_mem_nil, or_false] at hop
    rcases hop with rfl | rfl | rfl | rfl <;> trivial

/-- **Violation** of the condition on pauses: after a pause of the threshold, a packet of the same frame or a little older gets a time half
a cycle (6.6 hours at 90 kHz) later, and the next one is back. -/
theorem C83_violation_after_pause : outcome exampleCfg { rx := { ssrc := 7 } }
    [.packet 0 (datagram 96 7 1 1000 [1]), .poll, .poll, .timeout 1500000000, .poll, .packet 1500000001 (datagram 96 7 2 900 [2]), .poll, .poll,
     .packet 1500000002 (datagram 96 7 3 950 [3]), .poll] =
    some [(7, 1, 1000, [1]), (7, 2, 2 ^ 31 + 900, [2]), (7, 3, 950, [3])] := by
  decide +kernel

/-! ### C84 -/

/-- `Live`, with the time at which it ends -/
def LiveTo (c : Cfg U) (s0 : Sess U) (ops : List Op) (T : Nat) : Prop :=
  ∃ pre now buf post s1 es1, ops = pre ++ Op.packet now buf :: post ∧ OpenedAt c s0 pre now buf ∧ run c s0 pre = .ok (s1, es1) ∧
    (∀ mid n b rest, post = mid ++ Op.packet n b :: rest → ¬ OpenedAt c s0 (pre ++ Op.packet now buf :: mid) n b) ∧
    T = now + s1.rx.threshold ∧ ∀ t, Op.timeout t ∈ post → t < T

theorem live_iff (c : Cfg U) (s0 : Sess U) (ops : List Op) : Live c s0 ops ↔ ∃ T, LiveTo c s0 ops T := by
  constructor
  · rintro ⟨pre, now, buf, post, s1, es1, h1, h2, h3, h4, h5⟩
    exact ⟨_, pre, now, buf, post, s1, es1, h1, h2, h3, h4, rfl, h5⟩
  · rintro ⟨T, pre, now, buf, post, s1, es1, h1, h2, h3, h4, rfl, h5⟩
    exact ⟨pre, now, buf, post, s1, es1, h1, h2, h3, h4, h5⟩

/-- A step that opens nothing -/
theorem liveTo_snoc {c : Cfg U} {s0 : Sess U} {ops : List Op} {op : Op} (hno : ∀ now buf, op = .packet now buf → ¬ OpenedAt c s0 ops now buf) (T : Nat) :
    LiveTo c s0 (ops ++ [op]) T ↔ LiveTo c s0 ops T ∧ ∀ t, op = .timeout t → t < T := by
  constructor
  · rintro ⟨pre, now, buf, post, s1, es1, h1, h2, h3, h4, rfl, h5⟩
    rcases List.eq_nil_or_concat post with rfl | ⟨post', o, rfl⟩
    · obtain ⟨e1, e2⟩ := List.append_inj' h1 rfl
      rw [List.cons.injEq] at e2
      exact absurd (e1 ▸ h2) (hno now buf e2.1)
    · have h1' : ops ++ [op] = (pre ++ Op.packet now buf :: post') ++ [o] := by rw [h1]; simp
      obtain ⟨e1, e2⟩ := List.append_inj' h1' rfl
      rw [List.cons.injEq] at e2
      obtain rfl := e2.1
      refine ⟨⟨pre, now, buf, post', s1, es1, e1, h2, h3, ?_, rfl, fun t ht => h5 t (by simp [ht])⟩, fun t ht => h5 t (by simp [ht])⟩
      intro mid n b rest h
      exact h4 mid n b (rest ++ [op]) (by rw [h]; simp)
  · rintro ⟨⟨pre, now, buf, post, s1, es1, h1, h2, h3, h4, rfl, h5⟩, h6⟩
    refine ⟨pre, now, buf, post ++ [op], s1, es1, by rw [h1]; simp, h2, h3, ?_, rfl, ?_⟩
    · intro mid n b rest h
      rcases List.eq_nil_or_concat rest with rfl | ⟨rest', o, rfl⟩
      · obtain ⟨e1, e2⟩ := List.append_inj' h rfl
        rw [List.cons.injEq] at e2
        rw [← e1, ← h1]
        exact hno n b e2.1
      · have h' : post ++ [op] = (mid ++ Op.packet n b :: rest') ++ [o] := by rw [h]; simp
        obtain ⟨e1, _⟩ := List.append_inj' h' rfl
        exact h4 mid n b rest' e1
    · intro t ht
      rcases List.mem_append.1 ht with ht | ht
      · exact h5 t ht
      · exact h6 t (List.mem_singleton.1 ht).symm

theorem openedAt_iff {c : Cfg U} {s0 s s' : Sess U} {ops : List Op} {now : Nat} {buf : List Byte} {es es' : List (Ev U)} (hr : run c s0 ops = .ok (s, es))
    (hs : step c s (.packet now buf) = .ok (s', es')) : OpenedAt c s0 ops now buf ↔ s'.log ≠ s.log := by
  constructor
  · rintro ⟨s1, e1, s2, e2, h1, h2, h3⟩
    rw [hr] at h1; cases h1
    rw [hs] at h2; cases h2
    exact h3
  · intro h; exact ⟨s, es, s', es', hr, hs, h⟩

/-- A datagram either leaves the fields about pauses, or restarts the clock -/
theorem packet_pause {c : Cfg U} {s s' : Sess U} {now : Nat} {buf : List Byte} {es : List (Ev U)} (hs : step c s (.packet now buf) = .ok (s', es)) :
    pausesOf es = [] ∧ ((s'.log = s.log ∧ s'.rx.paused = s.rx.paused ∧ s'.rx.checkPausedAt = s.rx.checkPausedAt ∧ s'.rx.needEvent = s.rx.needEvent) ∨
      (s'.log ≠ s.log ∧ s'.rx.paused = false ∧ s'.rx.checkPausedAt = some (now + s.rx.threshold) ∧ s'.rx.needEvent = (s.rx.needEvent || s.rx.paused))) := by
  obtain ⟨o, e1, rfl⟩ := packet_step hs
  refine ⟨by cases o <;> rfl, ?_⟩
  cases receive_clock e1 with
  | quiet h1 h2 h3 h4 =>
    simp only [clk, Prod.mk.injEq] at h4
    exact .inl ⟨h1, h4.2.1, h4.2.2.2.1, h4.2.2.1⟩
  | probe e hc h1 h2 h3 h4 =>
    simp only [clk, Prod.mk.injEq] at h4
    exact .inr ⟨by rw [h1]; simp, h4.2.1, h4.2.2.2.1, h4.2.2.1⟩
  | packet e hc h1 b hb t p hp htt h4 h5 h6 =>
    simp only [clk, Prod.mk.injEq] at h4
    exact .inr ⟨by rw [h1]; simp, h4.2.1, h4.2.2.2.1, h4.2.2.1⟩

/-- The state of the pause -/
structure Pausing (c : Cfg U) (s0 : Sess U) (ops : List Op) (s : Sess U) (es : List (Ev U)) : Prop where
  fit : Fit s
  ssrc : s.rx.ssrc = s0.rx.ssrc
  check : s.rx.paused = s.rx.checkPausedAt.isNone
  live : ∀ T, s.rx.checkPausedAt = some T ↔ LiveTo c s0 ops T
  told : s.rx.needEvent = false → (pausesOf es).getLast?.getD true = s.rx.paused

theorem pausesOf_append (a b : List (Ev U)) : pausesOf (a ++ b) = pausesOf a ++ pausesOf b := List.filterMap_append

theorem pausing_run {c : Cfg U} {a : Nat} (x : Option Nat) (ops : List Op) (s : Sess U) (es : List (Ev U))
    (hrun : run c { rx := { ssrc := a, rtx := x } } ops = .ok (s, es)) :
    (∀ op ∈ ops, SameStream op) → Pausing c { rx := { ssrc := a, rtx := x } } ops s es := by
  revert s es
  refine run_ind (c := c) (s0 := ({ rx := { ssrc := a, rtx := x } } : Sess U))
    (fun ops s es => (∀ op ∈ ops, SameStream op) → Pausing c { rx := { ssrc := a, rtx := x } } ops s es) ?_ ?_ ops
  · intro _
    refine ⟨fresh_fit a x, rfl, rfl, fun T => ⟨fun h => (by cases h), ?_⟩, fun _ => rfl⟩
    rintro ⟨pre, now, buf, post, s1, es1, h1, _⟩
    exact absurd h1 (by simp)
  · intro ops op s es s' es' hr ih hs hsame
    have ih := ih (fun o ho => hsame o (by simp [ho]))
    have hso := hsame op (by simp)
    have hss := (step_ssrc ih.fit hso hs).trans ih.ssrc
    by_cases hp : ∃ now buf, op = .packet now buf
    · obtain ⟨now, buf, rfl⟩ := hp
      have hfit : Fit s' := by
        obtain ⟨o, e1, -⟩ := packet_step hs
        obtain ⟨s2, o2, e2, r⟩ := receive_spec c ih.fit now buf
        rw [e1] at e2; cases e2
        exact r.fit
      obtain ⟨hpe, h | h⟩ := packet_pause hs
      · obtain ⟨h1, h2, h3, h4⟩ := h
        refine ⟨hfit, hss, by rw [h2, h3]; exact ih.check, fun T => ?_, ?_⟩
        · rw [h3, ih.live, liveTo_snoc]
          · exact ⟨fun h => ⟨h, fun t ht => (by cases ht)⟩, fun h => h.1⟩
          · intro n b e
            cases e
            rw [openedAt_iff hr hs]
            exact fun h => h h1
        · rw [h4, h2, pausesOf_append, hpe, List.append_nil]
          exact ih.told
      · obtain ⟨h1, h2, h3, h4⟩ := h
        have hop := (openedAt_iff hr hs).2 h1
        refine ⟨hfit, hss, by rw [h2, h3]; rfl, fun T => ?_, ?_⟩
        · rw [h3, Option.some.injEq]
          constructor
          · rintro rfl
            exact ⟨ops, now, buf, [], s, es, rfl, hop, hr, by simp, rfl, by simp⟩
          · rintro ⟨pre, n, b, post, s1, es1, k1, k2, k3, k4, rfl, k5⟩
            rcases List.eq_nil_or_concat post with rfl | ⟨post', o, rfl⟩
            · obtain ⟨e1, e2⟩ := List.append_inj' k1 rfl
              cases e2
              cases e1
              rw [hr] at k3; cases k3
              rfl
            · have k1' : ops ++ [Op.packet now buf] = (pre ++ Op.packet n b :: post') ++ [o] := by rw [k1]; simp
              obtain ⟨e1, e2⟩ := List.append_inj' k1' rfl
              cases e2
              exact absurd (e1 ▸ hop) (k4 post' now buf [] (by simp))
        · intro hne
          rw [h4, Bool.or_eq_false_iff] at hne
          have := ih.told hne.1
          rw [pausesOf_append, hpe, List.append_nil, this, h2]
          exact hne.2
    · have hop : ∀ now buf, op ≠ .packet now buf := fun n b e => hp ⟨n, b, e⟩
      have hfr : ∀ n, op ≠ .fresh n := by rintro n rfl; exact hso.elim
      obtain ⟨s2, es2, e2, hfit, _⟩ := step_other c ih.fit op hop
      rw [hs] at e2; cases e2
      obtain ⟨hlog, hcl⟩ := step_clock hop hs
      have hev := step_event hop hfr hs
      have hno : ∀ now buf, op = .packet now buf → ¬ OpenedAt c ({ rx := { ssrc := a, rtx := x } } : Sess U) ops now buf := fun n b e => absurd e (hop n b)
      -- a step that keeps the fields
      have keep : (∀ t, op ≠ .timeout t) → s'.rx.paused = s.rx.paused → s'.rx.checkPausedAt = s.rx.checkPausedAt →
          (s'.rx.needEvent = false → (pausesOf (es ++ es')).getLast?.getD true = s'.rx.paused) →
          Pausing c { rx := { ssrc := a, rtx := x } } (ops ++ [op]) s' (es ++ es') := by
        intro ht h1 h2 h3
        refine ⟨hfit, hss, by rw [h1, h2]; exact ih.check, fun T => ?_, h3⟩
        rw [h2, ih.live, liveTo_snoc hno]
        exact ⟨fun h => ⟨h, fun t e => absurd e (ht t)⟩, fun h => h.1⟩
      have plain : (∀ t, op ≠ .timeout t) → s'.rx.paused = s.rx.paused → s'.rx.checkPausedAt = s.rx.checkPausedAt → pausesOf es' = [] →
          s'.rx.needEvent = s.rx.needEvent → Pausing c { rx := { ssrc := a, rtx := x } } (ops ++ [op]) s' (es ++ es') := by
        intro ht h1 h2 h3 h4
        refine keep ht h1 h2 (fun hne => ?_)
        rw [pausesOf_append, h3, List.append_nil, h1]
        exact ih.told (h4 ▸ hne)
      cases op with
      | packet n b => exact absurd rfl (hop n b)
      | fresh n => exact hso.elim
      | changeSsrc n => exact hso.elim
      | poll =>
        dsimp only at hcl hev
        split at hev
        · refine keep (by intro t e; cases e) hcl.1 hcl.2.1 (fun _ => ?_)
          rw [pausesOf_append, hev.1, hcl.1]
          simp
        · exact plain (by intro t e; cases e) hcl.1 hcl.2.1 hev.1 hev.2
      | timeout now =>
        dsimp only at hcl hev
        rcases hcl.2 with ⟨t, k1, k2, k3, k4, k5⟩ | ⟨k1, k2⟩
        · refine ⟨hfit, hss, by rw [k3, k4]; rfl, fun T => ?_, fun h => ?_⟩
          · rw [k4, liveTo_snoc hno]
            refine ⟨fun h => (by cases h), fun ⟨h1, h2⟩ => ?_⟩
            have := (ih.live T).2 h1
            rw [k1] at this; cases this
            have := h2 now rfl
            omega
          · rw [k5] at h; cases h
        · refine ⟨hfit, hss, by rw [k2]; exact ih.check, fun T => ?_, fun h => ?_⟩
          · rw [k2, liveTo_snoc hno, ih.live]
            exact ⟨fun h => ⟨h, fun t e => (by cases e; exact k1 T ((ih.live T).2 h))⟩, fun h => h.1⟩
          · rw [k2] at h ⊢
            rw [pausesOf_append, hev.1, List.append_nil]
            exact ih.told h
      | _ => exact plain (by intro t e; cases e) hcl.1 hcl.2.1 hev.1 hev.2

/-- **C84**: after every history and a poll, the last pause event tells the truth (before any event the stream counts as paused): the stream
is active exactly if a datagram was opened on it and, since the last one of these, no timeout was handled at or after its time plus the
threshold then in force. Datagrams that are dropped (forged, repeated, too old, another SSRC) do not count. -/
theorem C84_told (c : Cfg U) (a : Nat) (ha : a ≠ 0) (x : Option Nat) (ops : List Op) (hsame : ∀ op ∈ ops, SameStream op) (s : Sess U) (es : List (Ev U))
    (hrun : run c { rx := { ssrc := a, rtx := x } } (ops ++ [.poll]) = .ok (s, es)) :
    (pausesOf es).getLast?.getD true = false ↔ Live c { rx := { ssrc := a, rtx := x } } ops := by
  obtain ⟨s1, e1, e2, h1, h2, rfl⟩ := run_snoc_inv c _ ops .poll hrun
  have ih := pausing_run x ops s1 e1 h1 hsame
  have hno : ∀ now buf, Op.poll = .packet now buf → ¬ OpenedAt c ({ rx := { ssrc := a, rtx := x } } : Sess U) ops now buf := fun n b e => by cases e
  have hev := step_event (fun _ _ e => by cases e) (fun _ e => by cases e) h2
  have hlive : s1.rx.paused = false ↔ Live c { rx := { ssrc := a, rtx := x } } ops := by
    rw [live_iff, ih.check]
    cases hc : s1.rx.checkPausedAt with
    | none =>
      refine ⟨fun h => (by cases h), fun ⟨T, hT⟩ => ?_⟩
      have := (ih.live T).2 hT
      rw [hc] at this; cases this
    | some T => exact ⟨fun _ => ⟨T, (ih.live T).1 hc⟩, fun _ => rfl⟩
  rw [← hlive, pausesOf_append]
  dsimp only at hev
  split at hev
  · rw [hev.1]; simp
  · rename_i hn
    have hn' : s1.rx.needEvent = false := by
      by_contra h
      exact hn ⟨by rw [ih.ssrc]; exact ha, by simpa using h⟩
    rw [hev.1, List.append_nil, ih.told hn']

/-- **C84**: if the application polls after every call, the events alternate: active, paused, active, ... -/
theorem C84_alternate (c : Cfg U) (a : Nat) (ha : a ≠ 0) (x : Option Nat) (calls : List Op) (hsame : ∀ op ∈ calls, SameStream op) (s : Sess U) (es : List (Ev U))
    (hrun : run c { rx := { ssrc := a, rtx := x } } (calls.flatMap fun o => [o, .poll]) = .ok (s, es)) :
    (true :: pausesOf es).IsChain (· ≠ ·) := by
  suffices h : ∀ calls : List Op, (∀ op ∈ calls, SameStream op) → ∀ s es, run c ({ rx := { ssrc := a, rtx := x } } : Sess U) (calls.flatMap fun o => [o, .poll]) = .ok (s, es) →
      s.rx.needEvent = false ∧ (true :: pausesOf es).IsChain (· ≠ ·) from (h calls hsame s es hrun).2
  intro calls
  induction calls using List.reverseRecOn with
  | nil => intro _ s es h; cases h; exact ⟨rfl, by simp [pausesOf]⟩
  | append_singleton calls op ih =>
    intro hsame s es hrun
    have hso := hsame op (by simp)
    have hsp : ∀ o ∈ calls.flatMap (fun o => [o, Op.poll]), SameStream o := by
      intro o ho
      obtain ⟨o', h1, h2⟩ := List.mem_flatMap.1 ho
      simp only [List.mem_cons, List.not_mem_nil, or_false] at h2
      rcases h2 with rfl | rfl
      · exact hsame _ (by simp [h1])
      · trivial
    rw [List.flatMap_append, List.flatMap_singleton, show [op, Op.poll] = [op] ++ [Op.poll] from rfl, ← List.append_assoc] at hrun
    obtain ⟨s2, e2, e3, h2, h3, rfl⟩ := run_snoc_inv c _ _ .poll hrun
    obtain ⟨s1, e1, e2', h1, h2', rfl⟩ := run_snoc_inv c _ _ op h2
    obtain ⟨n1, ch1⟩ := ih (fun o ho => hsame o (by simp [ho])) s1 e1 h1
    have p1 := pausing_run x _ s1 e1 h1 hsp
    have p2 := pausing_run x _ s2 _ h2 (by
      intro o ho
      rcases List.mem_append.1 ho with ho | ho
      · exact hsp o ho
      · rw [List.mem_singleton.1 ho]; exact hso)
    have hev := step_event (fun _ _ e => by cases e) (fun _ e => by cases e) h3
    -- what the call did
    have hcall : (pausesOf e2' = [] ∧ (s2.rx.needEvent = false ∨ s2.rx.paused ≠ s1.rx.paused)) := by
      by_cases hp : ∃ now buf, op = .packet now buf
      · obtain ⟨now, buf, rfl⟩ := hp
        obtain ⟨hpe, h | h⟩ := packet_pause h2'
        · exact ⟨hpe, .inl (h.2.2.2.trans n1)⟩
        · refine ⟨hpe, ?_⟩
          rw [h.2.2.2, h.2.1, n1, Bool.false_or]
          cases s1.rx.paused <;> simp
      · have hop : ∀ now buf, op ≠ .packet now buf := fun n b e => hp ⟨n, b, e⟩
        have hfr : ∀ n, op ≠ .fresh n := by rintro n rfl; exact hso.elim
        have hev := step_event hop hfr h2'
        obtain ⟨hlog, hcl⟩ := step_clock hop h2'
        cases op with
        | packet n b => exact absurd rfl (hop n b)
        | fresh n => exact hso.elim
        | poll =>
          dsimp only at hev
          rw [if_neg (by simp [n1])] at hev
          exact ⟨hev.1, .inl (hev.2.trans n1)⟩
        | timeout now =>
          refine ⟨hev.1, ?_⟩
          rcases hcl.2 with ⟨t, k1, k2, k3, k4, k5⟩ | ⟨k1, k2⟩
          · right
            rw [k3, p1.check, k1]
            simp
          · left; rw [k2]; exact n1
        | _ => exact ⟨hev.1, .inl (hev.2.trans n1)⟩
    dsimp only at hev
    split at hev
    · rename_i hc
      refine ⟨hev.2, ?_⟩
      rw [pausesOf_append, pausesOf_append, hcall.1, List.append_nil, hev.1]
      have hne : s2.rx.paused ≠ s1.rx.paused := by
        rcases hcall.2 with h | h
        · rw [h] at hc; exact absurd hc.2 (by simp)
        · exact h
      have hlast := p1.told n1
      rw [← List.cons_append]
      refine List.isChain_append.2 ⟨ch1, by simp, ?_⟩
      intro u hu v hv
      simp only [List.head?_cons, Option.mem_some_iff] at hv
      subst hv
      rw [List.getLast?_cons] at hu
      simp only [Option.mem_some_iff] at hu
      rw [← hu, hlast]
      exact fun h => hne h.symm
    · rename_i hn
      have hn' : s2.rx.needEvent = false := by
        by_contra h
        exact hn ⟨by rw [p2.ssrc]; exact ha, by simpa using h⟩
      rw [pausesOf_append, pausesOf_append, hcall.1, hev.1, List.append_nil, List.append_nil]
      exact ⟨hev.2.trans hn', ch1⟩

/-- What the pause events of a history say -/
def pauses (c : Cfg Nat) (s : Sess Nat) (ops : List Op) : Option (List Bool) :=
  match run c s ops with
  | .ok (_, es) => some (pausesOf es)
  | _ => none

/-- A packet, the pause, a forged packet, another one -/
example : pauses exampleCfg { rx := { ssrc := 7 } }
    [.packet 0 (datagram 96 7 1 1000 [1]), .poll, .timeout 1499999999, .poll, .timeout 1500000000, .poll, .packet 1500000001 (forgery 96 7 2 900 [2]), .poll,
     .packet 1500000002 (datagram 96 7 2 2000 [3]), .poll] = some [false, true, false] := by
  decide +kernel

/-- **Violation** without polling after every call: the application is told twice in a row that the stream is paused. -/
theorem C84_violation_repeat : pauses exampleCfg { rx := { ssrc := 7 } }
    [.packet 0 (datagram 96 7 1 1000 [1]), .timeout 1500000000, .poll, .packet 1500000001 (datagram 96 7 2 2000 [3]), .timeout 3500000000, .poll] =
    some [true, true] := by
  decide +kernel

end Str0m.Rcv
