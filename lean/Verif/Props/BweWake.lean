import Verif.Props.BweSmooth

/-! C108 and C113: when the estimator wants to be woken up, and when it begins to probe. -/

namespace Str0m.BwEst
open Str0m.Pacer (Bitrate SEC MS mulDur divDur satSub alreadyHappened notHappening)

/-! ### C108 -/

/-- nothing is scheduled -/
def Control.Clear (c : Control) : Prop := c.schedExponential = none ∧ c.schedPeriodic = none ∧ c.schedStagnant = none

theorem told_clear (b : Bwe) (now : Nat) (o : Oracle) (h : (b.told now o).desired ≠ none) : (b.told now o).Clear := by
  have h1 : (b.control.setDesired b.desired).Clear := by
    rcases told_desired b now o with ⟨_, _⟩ | ⟨h', _⟩
    · unfold Control.setDesired
      split
      · rename_i hz
        exfalso
        apply h
        unfold Bwe.told
        rw [propagate_desired]
        simp only
        split
        · rw [setAlrStart_desired]; unfold Control.setDesired; rw [if_pos hz]; exact hz.1
        · rw [setAlrStop_desired]; unfold Control.setDesired; rw [if_pos hz]; exact hz.1
      · exact ⟨rfl, rfl, rfl⟩
    · exact absurd h' h
  have h2 : ∀ (B : Bwe), B.control.Clear → (B.propagate o).control.Clear := by
    intro B hB
    unfold Bwe.propagate
    split
    · exact hB
    · split
      · exact hB
      · unfold Control.setEstimated
        simp only
        split
        · exact hB
        · split
          · exact hB
          · exact ⟨rfl, rfl, rfl⟩
  unfold Bwe.told
  apply h2
  simp only
  split
  · unfold Control.setAlrStart
    split
    · exact h1
    · exact ⟨rfl, rfl, rfl⟩
  · unfold Control.setAlrStop
    split
    · exact h1
    · exact ⟨rfl, rfl, rfl⟩

theorem enable_clear (c : Control) (v : Bool) (h : c.Clear) : (c.enable v).Clear := by
  unfold Control.enable
  split
  · exact ⟨rfl, rfl, rfl⟩
  · split
    · exact ⟨rfl, rfl, rfl⟩
    · exact h

/-- After a wake-up that put out no probe, the probe controller wants the next one later -/
theorem next_later (b : Bwe) (now : Nat) (p : Bool) (o : Oracle) (hq : (step b (.timeout now p o)).2.cluster? = none)
    (hn : now < notHappening) : now < (step b (.timeout now p o)).1.control.next := by
  obtain ⟨hc, ho, _⟩ := timeout_step b now p o
  rw [ho] at hq
  rw [hc]
  rcases control_cases ((b.told now o).enable p) now with ⟨n, g, hn', _⟩ | ⟨_, d, e, hd, _, ⟨x, xs, _, g⟩ | ⟨_, _, c', out, g, _, ⟨ho', gi⟩ | ⟨k, x, xs, ho', _⟩⟩⟩
  · rw [g]
    rcases hn' with ⟨_, h⟩ | h
    · exact h
    · rw [h]; exact hn
  · rw [g] at hq; exact absurd hq (by simp)
  · rw [g]
    have hcl : ((b.told now o).enable p).Clear := by
      apply enable_clear
      apply told_clear
      intro hz
      rcases enable_cases (b.told now o) p with ⟨_, _, e1, _⟩ | ⟨_, _, e1⟩ | ⟨_, _, _, _, e1, _⟩
      · rw [e1, hz] at hd; exact absurd hd (by simp)
      · rw [e1, hz] at hd; exact absurd hd (by simp)
      · rw [e1] at hd; exact absurd hd (by simp)
    rcases gi.next hcl.1 hcl.2.1 hcl.2.2 with h | h | h <;> rw [h]
    · have : 0 < MAX_WAIT := by decide
      omega
    · have : 0 < MIN_ALR := by decide
      omega
    · have : 0 < MIN_STAGNANT := by decide
      omega
  · rw [g, ho'] at hq; exact absurd hq (by simp)

theorem foldl_min_lt (l : List Nat) (a n : Nat) (ha : n < a) (h : ∀ x ∈ l, n < x) : n < l.foldl min a := by
  induction l generalizing a with
  | nil => exact ha
  | cons x l ih =>
    rw [List.foldl_cons]
    exact ih _ (lt_min ha (h x (by simp))) (fun y hy => h y (List.mem_cons_of_mem _ hy))

/-- C108: after a wake-up that put out no probe, the estimator does not want to be woken up at once, unless the round-trip time is
measured as zero -/
theorem C108_later_partial (b : Bwe) (now : Nat) (p : Bool) (o : Oracle) (hq : (step b (.timeout now p o)).2.cluster? = none)
    (hn : now < notHappening) (hr : o.rtt ≠ some 0) : now < (step b (.timeout now p o)).1.pollTimeout := by
  unfold Bwe.pollTimeout
  refine lt_min (lt_min ?_ (next_later b now p o hq hn)) ?_
  · rw [timeout_delay]
    unfold Delay.handleTimeout
    have hms : 0 < 25 * MS := by decide
    split
    · have : 0 < Nat.min (o.rtt.getD (500 * MS)) (25 * MS) := by
        rw [Nat.lt_min]
        refine ⟨?_, hms⟩
        cases h : o.rtt with
        | none => decide
        | some t =>
          rw [h] at hr
          simp only [Option.getD_some]
          exact Nat.pos_of_ne_zero (fun h0 => hr (by rw [h0]))
      simp only
      omega
    · simp only [Delay.updateEstimate]
      omega
  · unfold Estimator.pollTimeout
    apply foldl_min_lt _ _ _ hn
    intro x hx
    obtain ⟨s, hs, rfl⟩ := List.mem_map.mp hx
    obtain ⟨l, _, hl, ⟨he, _⟩ | ⟨c, hc, _⟩⟩ := timeout_states b now p o
    · rw [he] at hs; exact hl s hs
    · rw [hc] at hq; exact absurd hq (by simp [Out.cluster?])

/-- a report that everything arrived at once, so that the round-trip time is zero -/
def instant : Oracle := { calm with rtt := some 0 }

/-- C108: with a round-trip time of zero, and no report in this very instant, the estimator wants to be woken up again at once, no
matter how often it just was -/
theorem C108_violation_instant (i : Bitrate) (n now : Nat) (p : Bool) (hnow : 0 < now) :
    (run (Bwe.new i) (List.replicate (n + 1) (.timeout now p instant))).pollTimeout ≤ now := by
  have hinv : ∀ n, (run (Bwe.new i) (List.replicate n (.timeout now p instant))).delay.lastReport = 0 := by
    intro n
    induction n with
    | zero => rfl
    | succ n ih =>
      rw [List.replicate_succ', run_snoc, timeout_delay]
      unfold Delay.handleTimeout
      split
      · exact ih
      · simp only [Delay.updateEstimate]
        exact ih
  rw [List.replicate_succ', run_snoc]
  unfold Bwe.pollTimeout
  refine (min_le_left _ _).trans ((min_le_left _ _).trans ?_)
  rw [timeout_delay]
  unfold Delay.handleTimeout
  have hv : (run (Bwe.new i) (List.replicate n (.timeout now p instant))).delay.valid instant now = false := by
    unfold Delay.valid
    rw [hinv n]
    apply decide_eq_false
    intro h
    have h' : now - 0 ≤ Nat.min (0 * 2) (50 * MS) := h
    rw [show Nat.min (0 * 2) (50 * MS) = 0 from Nat.zero_min _] at h'
    omega
  rw [hv]
  exact le_refl _

/-- Does the condition hold? -/
def tick (P : Prop) [Decidable P] : Nat := if P then 1 else 0

/-- how many more probes can come out at this instant -/
def budget (c : Control) (now : Nat) (d L : Bitrate) : Nat :=
  c.pending.length + 2 * tick (c.lastProbe.map (fun q => (q.when, q.wasEstimate)) ≠ some (now, some L)) +
    2 * tick (c.prevDesired ≠ some d) + tick (c.lastStagnant ≠ some now)

theorem tick_le (P : Prop) [Decidable P] : tick P ≤ 1 := by unfold tick; split <;> omega
theorem tick_true {P : Prop} [Decidable P] (h : P) : tick P = 1 := if_pos h
theorem tick_false {P : Prop} [Decidable P] (h : ¬P) : tick P = 0 := if_neg h
theorem tick_mono {P Q : Prop} [Decidable P] [Decidable Q] (h : P → Q) : tick P ≤ tick Q := by
  by_cases hp : P
  · rw [tick_true hp, tick_true (h hp)]
  · rw [tick_false hp]; omega

theorem budget_drop (b : Bwe) (now : Nat) (p : Bool) (o : Oracle) (L : Bitrate) (h : Core b.control) (x : Cluster)
    (hL : (b.told now o).lastEstimate = some L) (hx : (step b (.timeout now p o)).2.cluster? = some x) :
    budget (step b (.timeout now p o)).1.control now b.desired L + 1 ≤ budget b.control now b.desired L ∧
    (step b (.timeout now p o)).1.control.lastEstimate = some L := by
  rcases wake b now p o h with ⟨hn, _⟩ | ⟨_, y, hy, l | ⟨k, xs, f⟩⟩
  · rw [hx] at hn; exact absurd hn (by simp)
  · refine ⟨?_, l.lastEstimate.trans hL⟩
    simp only [budget, l.was, l.pending, l.lastProbe, l.lastStagnant, l.prevDesired, List.length_nil, List.length_cons]
    omega
  · obtain ⟨e, he, d, cons⟩ := f.decided
    rw [hL] at he
    obtain rfl := Option.some.inj he
    obtain ⟨t1, t2, t3, t4⟩ := told_enable b now o
    refine ⟨?_, cons.lastEstimate.trans (t4.trans hL)⟩
    obtain ⟨g, hg⟩ := d.lastProbe
    have hpl : (step b (.timeout now p o)).1.control.pending.length ≤ 1 := by rw [d.pending]; exact d.short
    have hlp : tick ((step b (.timeout now p o)).1.control.lastProbe.map (fun q => (q.when, q.wasEstimate)) ≠ some (now, some L)) = 0 := by
      apply tick_false
      rw [hg]
      simp [t4, hL]
    have hpd : tick ((step b (.timeout now p o)).1.control.prevDesired ≠ some b.desired) ≤ tick (b.control.prevDesired ≠ some b.desired) := by
      apply tick_mono
      intro hne hh
      rcases cons.prevDesired with h | h
      · exact hne (h.trans (t3.trans hh))
      · exact hne h
    have hst : tick ((step b (.timeout now p o)).1.control.lastStagnant ≠ some now) ≤ tick (b.control.lastStagnant ≠ some now) := by
      apply tick_mono
      intro hne hh
      rw [d.lastStagnant] at hne
      split at hne
      · exact hne rfl
      · exact hne (t2.trans hh)
    unfold budget
    rw [hlp, f.was]
    simp only [List.length_nil]
    by_cases hfirst : b.control.lastProbe.map (fun q => (q.when, q.wasEstimate)) = some (now, some L)
    · -- decided again at this instant
      obtain ⟨q, hq, hq'⟩ := Option.map_eq_some_iff.mp hfirst
      simp only [Prod.mk.injEq] at hq'
      have hc := d.cond
      have hsec : 0 < SEC := by decide
      cases k with
      | initial => rw [Cond, t1, hq] at hc; exact absurd hc (by simp)
      | exponential =>
        obtain ⟨_, q', h1, _, h2⟩ := hc
        rw [t1, hq] at h1
        obtain rfl := Option.some.inj h1
        have := h2 hq'.2.symm
        rw [hq'.1] at this
        have hm : 0 < MAX_WAIT := by decide
        omega
      | periodicAlr =>
        obtain ⟨_, q', h1, h2⟩ := hc
        rw [t1, hq] at h1
        obtain rfl := Option.some.inj h1
        rw [hq'.1] at h2
        have hm : 0 < MIN_ALR := by decide
        omega
      | largeDrop =>
        obtain ⟨q', h1, h2⟩ := hc
        rw [t1, hq] at h1
        obtain rfl := Option.some.inj h1
        rw [hq'.1] at h2
        have hm : 0 < MIN_ALR := by decide
        omega
      | increaseAlr =>
        obtain ⟨_, _, _, _, v, hv, hlt⟩ := hc
        rw [t3] at hv
        have e1 : tick (b.control.prevDesired ≠ some b.desired) = 1 := by
          apply tick_true
          rw [hv]
          intro hh
          rw [Option.some.inj hh] at hlt
          exact lt_irrefl _ hlt
        have e2 : tick ((step b (.timeout now p o)).1.control.prevDesired ≠ some b.desired) = 0 := by
          apply tick_false
          rw [d.increase rfl]
          simp
        omega
      | stagnant =>
        obtain ⟨_, _, _, _, _, h6⟩ := hc
        rw [t2] at h6
        have e1 : tick (b.control.lastStagnant ≠ some now) = 1 := by
          apply tick_true
          intro hh
          have := h6 now hh
          have hm : 0 < MIN_STAGNANT := by decide
          omega
        have e2 : tick ((step b (.timeout now p o)).1.control.lastStagnant ≠ some now) = 0 := by
          apply tick_false
          rw [d.lastStagnant]
          simp
        have e3 : (step b (.timeout now p o)).1.control.pending = [] := by
          rw [d.pending]; exact d.alone (by simp) (by simp)
        rw [e3] at hpl ⊢
        simp only [List.length_nil]
        omega
    · have e0 : tick (b.control.lastProbe.map (fun q => (q.when, q.wasEstimate)) ≠ some (now, some L)) = 1 := tick_true hfirst
      omega

theorem told_same (b : Bwe) (now : Nat) (p : Bool) (o : Oracle) (hd : b.delay.last ≠ none) (e : Bitrate)
    (hu : b.lastUpdated = some e) (he : estimateAfter b now p o = some e) : (b.told now o).lastEstimate = b.control.lastEstimate := by
  rw [told_eq]
  have h := (lastUpdated_after b now p o hd).2
  rw [he] at h
  unfold Bwe.propagate
  rw [← h]
  simp only
  rw [if_pos (by exact hu)]
  simp only [Bwe.before]
  have h1 : (b.control.setDesired b.desired).lastEstimate = b.control.lastEstimate := by
    unfold Control.setDesired; split <;> rfl
  split
  · rw [← h1]; unfold Control.setAlrStart; split <;> rfl
  · rw [← h1]; unfold Control.setAlrStop; split <;> rfl

/-- the wake-ups at one instant -/
def sameInstant (now : Nat) (os : List Oracle) : List Event := os.map (fun o => .timeout now true o)

theorem same_bound (now : Nat) (e L : Bitrate) (os : List Oracle) (b : Bwe) (hc : Core b.control) (hd : b.delay.last ≠ none)
    (hu : b.lastUpdated = some e) (hL : b.control.lastEstimate = some L)
    (he : ∀ pre o post, os = pre ++ o :: post → estimateAfter (run b (sameInstant now pre)) now true o = some e)
    (hp : ∀ pre o post, os = pre ++ o :: post → (step (run b (sameInstant now pre)) (.timeout now true o)).2.cluster? ≠ none) :
    os.length ≤ budget b.control now b.desired L := by
  induction os generalizing b with
  | nil => simp
  | cons o os ih =>
    have he0 := he [] o os rfl
    have hp0 := hp [] o os rfl
    simp only [sameInstant, List.map_nil, run] at he0 hp0
    obtain ⟨x, hx⟩ := Option.ne_none_iff_exists'.mp hp0
    have ht := told_same b now true o hd e hu he0
    obtain ⟨h1, h2⟩ := budget_drop b now true o L hc x (ht.trans hL) hx
    have hdes := (timeout_step b now true o).2.2
    have hd' : (step b (.timeout now true o)).1.delay.last ≠ none := by
      rw [timeout_delay]; exact delay_timeout_some _ _ _ hd
    have hu' : (step b (.timeout now true o)).1.lastUpdated = some e := by
      rw [(lastUpdated_after b now true o hd).1]; exact he0
    have := ih (step b (.timeout now true o)).1 (core_step b _ hc) hd' hu' h2
      (fun pre o' post hh => he (o :: pre) o' post (by rw [hh]; rfl))
      (fun pre o' post hh => hp (o :: pre) o' post (by rw [hh]; rfl))
    rw [hdes] at this
    simp only [List.length_cons]
    omega

theorem budget_six (c : Control) (h : Core c) (now : Nat) (d L : Bitrate) : budget c now d L ≤ 6 := by
  unfold budget
  have h1 := h.short
  have h2 := tick_le (c.lastProbe.map (fun q => (q.when, q.wasEstimate)) ≠ some (now, some L))
  have h3 := tick_le (c.prevDesired ≠ some d)
  have h4 := tick_le (c.lastStagnant ≠ some now)
  omega

/-- C108: of seven wake-ups at the same instant, during which the estimate does not change, one puts out no probe (and then, by
`C108_later_partial`, the next one is wanted later) -/
theorem C108_settles (i : Bitrate) (es : List Event) (now : Nat) (os : List Oracle) (e : Bitrate) (hlen : os.length = 7)
    (he : ∀ pre o post, os = pre ++ o :: post → estimateAfter (run (Bwe.new i) (es ++ sameInstant now pre)) now true o = some e) :
    ∃ pre o post, os = pre ++ o :: post ∧ (step (run (Bwe.new i) (es ++ sameInstant now pre)) (.timeout now true o)).2.cluster? = none := by
  by_contra hno
  push Not at hno
  obtain ⟨o, os', rfl⟩ : ∃ o os', os = o :: os' := by
    cases os with
    | nil => simp at hlen
    | cons o os' => exact ⟨o, os', rfl⟩
  have hc := core_run i es
  have hd := delay_some i es
  have he0 := he [] o os' rfl
  have hp0 := hno [] o os' rfl
  simp only [sameInstant, List.map_nil, List.append_nil] at he0 hp0
  have he1 : ∀ pre o' post, os' = pre ++ o' :: post →
      estimateAfter (run (step (run (Bwe.new i) es) (.timeout now true o)).1 (sameInstant now pre)) now true o' = some e := by
    intro pre o' post hh
    have := he (o :: pre) o' post (by rw [hh]; rfl)
    rw [run_append] at this
    exact this
  have hp1 : ∀ pre o' post, os' = pre ++ o' :: post →
      (step (run (step (run (Bwe.new i) es) (.timeout now true o)).1 (sameInstant now pre)) (.timeout now true o')).2.cluster? ≠ none := by
    intro pre o' post hh
    have := hno (o :: pre) o' post (by rw [hh]; rfl)
    rw [run_append] at this
    exact this
  generalize run (Bwe.new i) es = b at *
  obtain ⟨x, hx⟩ := Option.ne_none_iff_exists'.mp hp0
  obtain ⟨L, hL⟩ : ∃ L, (b.told now o).lastEstimate = some L := by
    rcases wake b now true o hc with ⟨hn, _⟩ | ⟨_, y, hy, l | ⟨k, xs, f⟩⟩
    · exact absurd hn hp0
    · have hl := (hc.live (by rw [l.was]; simp)).2.2.1
      exact Option.ne_none_iff_exists'.mp ((told_kept' b now o).lastEstimate hl)
    · obtain ⟨L, hL, _⟩ := f.decided
      exact ⟨L, hL⟩
  obtain ⟨h1, h2⟩ := budget_drop b now true o L hc x hL hx
  have hd' : (step b (.timeout now true o)).1.delay.last ≠ none := by
    rw [timeout_delay]; exact delay_timeout_some _ _ _ hd
  have hu' : (step b (.timeout now true o)).1.lastUpdated = some e := by
    rw [(lastUpdated_after b now true o hd).1]; exact he0
  have := same_bound now e L os' _ (core_step b _ hc) hd' hu' h2 he1 hp1
  rw [(timeout_step b now true o).2.2] at this
  have h6 := budget_six b.control hc now b.desired L
  simp only [List.length_cons] at hlen
  omega

/-- The hypotheses of `C108_settles` are met: at the start two probes come out at the same instant, then none -/
theorem C108_example :
    (outs (Bwe.new 300000) (.desired 2000000 :: sameInstant (1000 * MS) (List.replicate 7 calm))).map (fun o => o.cluster?.isSome)
      = [false, true, true, false, false, false, false, false] ∧
    (run (Bwe.new 300000) (.desired 2000000 :: sameInstant (1000 * MS) (List.replicate 3 calm))).pollTimeout = 1025 * MS := by
  constructor <;> decide +kernel

/-! ### C113 -/

theorem enabled_after (b : Bwe) (now : Nat) (p : Bool) (o : Oracle) :
    (step b (.timeout now p o)).1.control.enabled = p := by
  rw [(timeout_step b now p o).1]
  have he : ((b.told now o).enable p).enabled = p := by
    rcases enable_cases (b.told now o) p with ⟨rfl, k, _⟩ | ⟨rfl, h, e⟩ | ⟨rfl, _, h, _⟩
    · exact k.enabled
    · rw [e]; exact h
    · exact h
  rcases control_cases ((b.told now o).enable p) now with ⟨n, g, _⟩ | ⟨_, d, e, _, _, ⟨x, xs, _, g⟩ | ⟨_, _, c', out, g, k, _⟩⟩
  · rw [g]; exact he
  · rw [g]; exact he
  · rw [g]; exact k.enabled.trans he

/-- While probing is not possible, there is no memory of a probe -/
theorem dormant (i : Bitrate) (es : List Event) (h : (run (Bwe.new i) es).control.enabled = false) :
    (run (Bwe.new i) es).control.lastProbe = none ∧ (run (Bwe.new i) es).control.pending = [] := by
  have hpend : (run (Bwe.new i) es).control.pending = [] := by
    by_contra hp
    rw [((core_run i es).live hp).1] at h
    exact absurd h (by simp)
  refine ⟨?_, hpend⟩
  clear hpend
  induction es using List.reverseRecOn with
  | nil => rfl
  | append_singleton es e ih =>
    rw [run_snoc] at h ⊢
    by_cases ht : ∃ now p o, e = .timeout now p o
    · obtain ⟨now, p, o, rfl⟩ := ht
      rw [enabled_after] at h
      subst h
      rw [(timeout_step (run (Bwe.new i) es) now false o).1]
      have hk := told_kept' (run (Bwe.new i) es) now o
      rcases enable_cases ((run (Bwe.new i) es).told now o) false with ⟨hh, _⟩ | ⟨_, hh, he⟩ | ⟨_, _, h2, _, _, _, h3, _⟩
      · exact absurd hh (by simp)
      · rw [he]
        rcases control_cases ((run (Bwe.new i) es).told now o) now with ⟨n, g, _⟩ | ⟨g, _⟩
        · rw [g]
          simp only
          rw [hk.lastProbe]
          exact ih (hk.enabled ▸ hh)
        · rw [g] at hh; exact absurd hh (by simp)
      · rcases control_cases (((run (Bwe.new i) es).told now o).enable false) now with ⟨n, g, _⟩ | ⟨g, _⟩
        · rw [g]; exact h3
        · rw [g] at h2; exact absurd h2 (by simp)
    · rcases (other_step (run (Bwe.new i) es) e (fun now p o hh => ht ⟨now, p, o, hh⟩)).2 with ⟨j, _, hc⟩ | ⟨_, k⟩
      · rw [hc]
      · rw [k.enabled] at h
        rw [k.lastProbe]; exact ih h

theorem queueProbe_head (c : Control) (rate : Bitrate) (k : Kind) (d : Bitrate) (now : Nat) (x : Cluster)
    (h : c.pending.head? = some x) : (c.queueProbe rate k d now).pending.head? = some x := by
  rcases hp : c.pending with _ | ⟨y, ys⟩
  · rw [hp] at h; exact absurd h (by simp)
  · rw [hp] at h
    unfold Control.queueProbe
    simp only
    split
    · rw [hp]; exact h
    · simp only [hp, List.cons_append]; exact h

theorem handleTimeout_consider (c : Control) (now : Nat) (d L : Bitrate) (hn : c.next = alreadyHappened) (hen : c.enabled = true)
    (hd : c.desired = some d) (he : c.lastEstimate = some L) (hp : c.pending = []) :
    c.handleTimeout now = ({ c with next := notHappening } : Control).consider now d L := by
  unfold Control.handleTimeout
  rw [if_neg (by rw [hn]; simp [alreadyHappened])]
  simp only
  split
  · rename_i h
    rw [hen] at h; exact absurd h (by simp)
  · split
    · rename_i d' e' hd' he'
      have h1 : d' = d := by rw [hd] at hd'; exact (Option.some.inj hd').symm
      have h2 : e' = L := by rw [he] at he'; exact (Option.some.inj he').symm
      subst h1; subst h2
      split
      · rename_i p ps hq
        rw [hp] at hq; exact absurd hq (by simp)
      · rfl
    · rename_i hno
      exact absurd he (hno d L hd)

theorem consider_initial (c : Control) (now : Nat) (d L : Bitrate) (hc : c.canProbe = true) (hp : c.pending = []) (hl : c.lastProbe = none)
    (h1 : 5000 ≤ L * 3) (h2 : 5000 ≤ d * 2) :
    (c.consider now d L).2 = some ⟨c.nextId, min (L * 3) (d * 2), 15 * MS, 5, 2 * MS, .initial⟩ := by
  have hq : (c.queueProbe (L * 3) .initial d now).pending.head? = some ⟨c.nextId, min (L * 3) (d * 2), 15 * MS, 5, 2 * MS, .initial⟩ := by
    unfold Control.queueProbe
    simp only
    rw [if_neg (by rw [not_lt]; exact le_min h1 h2)]
    simp [hp]
  have hq2 := queueProbe_head _ (L * 6) .initial d now _ hq
  have hdec : c.decide now d L = (c.queueProbe (L * 3) .initial d now).queueProbe (L * 6) .initial d now := by
    unfold Control.decide Control.maybeInitial
    simp [hl, orElse]
  unfold Control.consider
  rw [hc]
  simp only [Bool.not_true, Bool.false_eq_true, if_false]
  rw [hdec]
  obtain ⟨t, ht⟩ := updateEstimateChange_kept ((c.queueProbe (L * 3) .initial d now).queueProbe (L * 6) .initial d now) now L
  rw [ht]
  generalize hE : ({ ({ ((c.queueProbe (L * 3) .initial d now).queueProbe (L * 6) .initial d now) with lastEstimateChange := some t } : Control) with
    prevEstimate := some L } : Control) = E
  have hs := computeNext_sched E now
  have hEp : E.pending.head? = some ⟨c.nextId, min (L * 3) (d * 2), 15 * MS, 5, 2 * MS, .initial⟩ := by rw [← hE]; exact hq2
  rw [← hs.pending] at hEp
  generalize E.computeNext now = r at *
  obtain ⟨r1, r2⟩ := r
  simp only at hEp ⊢
  rcases hp1 : r1.pending with _ | ⟨y, ys⟩
  · rw [hp1] at hEp; exact absurd hEp (by simp)
  · rw [hp1] at hEp
    simp only [List.head?_cons, Option.some.injEq] at hEp
    simp [Control.pop, Control.requestImmediate, hEp]

theorem timeout_states_clear (b : Bwe) (now : Nat) (o : Oracle) : (step b (.timeout now false o)).1.estimator.states = [] := by
  have hE : (b.handleTimeout false now o).1.estimator = (b.prepared false now o).estimator := by
    unfold Bwe.handleTimeout
    rw [sendSideTimeout_eq]
    simp only
    split <;> rfl
  have h0 : (b.prepared false now o).estimator.states = [] := by
    unfold Bwe.prepared
    simp [Estimator.clear]
  have hq : (b.handleTimeout false now o).2 = none := by
    have := (timeout_step b now false o).2.1
    have h2 : (b.handleTimeout false now o).2 = (((b.told now o).enable false).handleTimeout now).2 := by
      unfold Bwe.handleTimeout
      rw [sendSideTimeout_eq, prepared_control]
    rw [h2]
    have he : ((b.told now o).enable false).enabled = false := by
      rcases enable_cases (b.told now o) false with ⟨hh, _⟩ | ⟨_, h, e⟩ | ⟨_, _, h, _⟩
      · exact absurd hh (by simp)
      · rw [e]; exact h
      · exact h
    rcases control_cases ((b.told now o).enable false) now with ⟨n, g, _⟩ | ⟨g, _⟩
    · rw [g]
    · rw [g] at he; exact absurd he (by simp)
  unfold step
  simp only
  generalize b.handleTimeout false now o = r at *
  obtain ⟨B, r2⟩ := r
  simp only at hE hq
  subst hq
  simp only
  rw [hE]; exact h0

/-- C113: when the session may probe again, the network is not congested, and the estimate differs from the one at the wake-up
before, then an initial probe comes out at once. Full claim: whether or not the estimate differs. It does not hold: see
`C113_violation_stuck`. -/
theorem C113_resumes_partial (i : Bitrate) (es : List Event) (t now : Nat) (o' o : Oracle) (e : Bitrate)
    (he : estimateAfter (run (Bwe.new i) (es ++ [.timeout t false o'])) now true o = some e)
    (hne : estimateAfter (run (Bwe.new i) es) t false o' ≠ some e)
    (hc : ¬Congested o) (h1 : 2000 ≤ e) (h2 : 2500 ≤ desiredAt es) :
    ∃ x, (step (run (Bwe.new i) (es ++ [.timeout t false o'])) (.timeout now true o)).2 = .probe x ∧ x.kind = .initial := by
  have hd := delay_some i (es ++ [.timeout t false o'])
  have hlu := (lastUpdated_after (run (Bwe.new i) es) t false o' (delay_some i es)).1
  have hclear := timeout_states_clear (run (Bwe.new i) es) t o'
  have hen : (run (Bwe.new i) (es ++ [.timeout t false o'])).control.enabled = false := by rw [run_snoc, enabled_after]
  obtain ⟨hlp, hpend⟩ := dormant i _ hen
  have hdes : (run (Bwe.new i) (es ++ [.timeout t false o'])).desired = desiredAt es := by
    rw [desired_run, desiredAt_snoc]
  rw [← run_snoc] at hlu hclear
  generalize run (Bwe.new i) (es ++ [.timeout t false o']) = b at *
  have hest := (lastUpdated_after b now true o hd).2
  rw [he] at hest
  have hcause : (match cause o with | .lossIncreasing | .delayLimited => true | _ => false) = true := by
    unfold cause
    rw [if_neg (fun h => hc (.inl h))]
    cases hl : o.lossState with
    | none => rfl
    | some x =>
      cases x with
      | true => rfl
      | false => exact absurd (.inr hl) hc
  -- what the controller knows
  obtain ⟨L, hL, hLe, hcan⟩ : ∃ L, (b.told now o).lastEstimate = some L ∧ e ≤ L * (1 + 5 / 100) ∧ (b.told now o).canProbe = true := by
    rw [told_eq]
    unfold Bwe.propagate
    rw [← hest]
    simp only
    rw [if_neg (by
      intro hh
      have : b.lastUpdated = some e := hh
      rw [hlu] at this; exact hne this)]
    simp only
    unfold Control.setEstimated
    rw [if_neg (by rintro ⟨_, hz⟩; rw [hz] at h1; norm_num at h1)]
    split
    · rename_i hdom
      unfold Control.dominated at hdom
      cases hle : (b.before now o).control.lastEstimate with
      | none => rw [hle] at hdom; simp at hdom
      | some L =>
        rw [hle] at hdom
        simp only [Bool.and_eq_true, decide_eq_true_eq] at hdom
        refine ⟨L, rfl, hdom.1.1, ?_⟩
        unfold Control.canProbe
        rw [hdom.2]; exact hcause
    · exact ⟨e, rfl, by linarith, hcause⟩
  have hk := told_kept' b now o
  have hnx : (b.told now o).desired = some b.desired ∧ (b.told now o).next = alreadyHappened := by
    rcases told_desired b now o with h | ⟨_, _, h⟩
    · exact h
    · rw [hdes] at h; rw [h] at h2; norm_num at h2
  rcases enable_cases (b.told now o) true with ⟨_, ke, e1, e2, e3, _, _, e6⟩ | ⟨hh, _⟩ | ⟨hh, _⟩
  swap
  · exact absurd hh (by simp)
  swap
  · exact absurd hh (by simp)
  have hout : (((b.told now o).enable true).handleTimeout now).2 =
      some ⟨((b.told now o).enable true).nextId, min (L * 3) (b.desired * 2), 15 * MS, 5, 2 * MS, .initial⟩ := by
    have hp' : ((b.told now o).enable true).pending = [] := ke.pending.trans (hk.pending.trans hpend)
    have hl' : ((b.told now o).enable true).lastProbe = none := ke.lastProbe.trans (hk.lastProbe.trans hlp)
    have hen' : ((b.told now o).enable true).enabled = true := ke.enabled
    have hc' : ((b.told now o).enable true).canProbe = true := by
      unfold Control.canProbe at hcan ⊢
      rw [e3]; exact hcan
    have hn' := e6 hnx.2
    rw [hnx.1] at e1
    rw [hL] at e2
    generalize (b.told now o).enable true = C at *
    rw [handleTimeout_consider C now b.desired L hn' hen' e1 e2 hp']
    exact consider_initial { C with next := notHappening } now b.desired L hc' hp' hl' (by linarith) (by rw [hdes]; linarith)
  have hcl := (timeout_step b now true o).2.1
  rw [hout] at hcl
  -- there is room for it
  have hroom : ∀ c, (step b (.timeout now true o)).2 ≠ .refused c := by
    intro c hr
    obtain ⟨l, hl, _, ⟨_, _, g⟩ | ⟨c', g, _⟩⟩ := timeout_states b now true o
    · have := (g c hr).1
      rw [hclear] at hl
      rw [List.sublist_nil.mp hl] at this
      simp at this
    · rw [hr] at g; exact absurd g (by simp)
  cases hs : (step b (.timeout now true o)).2 with
  | quiet => rw [hs] at hcl; exact absurd hcl (by simp [Out.cluster?])
  | estimate r => rw [hs] at hcl; exact absurd hcl (by simp [Out.cluster?])
  | refused c => exact absurd hs (hroom c)
  | probe x =>
    rw [hs] at hcl
    simp only [Out.cluster?, Option.some.injEq] at hcl
    exact ⟨x, rfl, by rw [hcl]⟩

/-- probing was possible, then it was not for a moment -/
def paused : List Event := twoProbes ++ [.timeout (1100 * MS) false calm]

/-- The hypotheses of `C113_resumes_partial` are met -/
theorem C113_example :
    estimateAfter (run (Bwe.new 300000) (twoProbes ++ [.timeout (1100 * MS) false calm])) (1200 * MS) true
      { calm with lossState := some true, loss := some 290000 } = some 290000 ∧
    estimateAfter (run (Bwe.new 300000) twoProbes) (1100 * MS) false calm ≠ some 290000 ∧ 2500 ≤ desiredAt twoProbes := by
  refine ⟨?_, ?_, ?_⟩ <;> decide +kernel

theorem calm_delay (d : Delay) (now : Nat) : (d.handleTimeout calm now).last = d.last := by
  unfold Delay.handleTimeout
  split
  · rfl
  · rfl

/-- C113: after a pause no probe comes out again, no matter how long the calm lasts and how often the estimator is woken up, as long as
the estimate stays the same: the probe controller forgot the estimate when it was paused (control.rs 137), and is told it again only
when it changes (mod.rs 337) -/
theorem C113_violation_stuck (ts : List Nat) :
    ∀ x ∈ outs (run (Bwe.new 300000) paused) (ts.map (fun t => .timeout t true calm)), x = .quiet := by
  have h0 : (run (Bwe.new 300000) paused).control.lastEstimate = none ∧ (run (Bwe.new 300000) paused).lastUpdated = some 300000 ∧
      (run (Bwe.new 300000) paused).delay.last = some 300000 := by
    refine ⟨?_, ?_, ?_⟩ <;> decide +kernel
  generalize run (Bwe.new 300000) paused = b at *
  induction ts generalizing b with
  | nil => simp [outs]
  | cons t ts ih =>
    obtain ⟨g1, g2, g3⟩ := h0
    have hd : b.delay.last ≠ none := by rw [g3]; simp
    have hdl : (step b (.timeout t true calm)).1.delay.last = some 300000 := by
      rw [timeout_delay, calm_delay]; exact g3
    have he : estimateAfter b t true calm = some 300000 := by
      unfold estimateAfter Bwe.lastEstimate
      exact hdl
    have ht := told_same b t true calm hd 300000 g2 he
    obtain ⟨hc, ho, _⟩ := timeout_step b t true calm
    rcases enable_cases (b.told t calm) true with ⟨_, ke, e1, e2, _⟩ | ⟨hh, _⟩ | ⟨hh, _⟩
    swap
    · exact absurd hh (by simp)
    swap
    · exact absurd hh (by simp)
    have hln : ((b.told t calm).enable true).lastEstimate = none := e2.trans (ht.trans g1)
    rcases control_cases ((b.told t calm).enable true) t with ⟨n, g, _⟩ | ⟨_, d, e, _, g, _⟩
    · rw [g] at hc ho
      have hq : (step b (.timeout t true calm)).2 = .quiet := by
        unfold step at ho ⊢
        simp only at ho ⊢
        split
        · rfl
        · rename_i B c hB
          rw [hB] at ho
          simp only at ho
          split at ho <;> exact absurd ho (by simp [Out.cluster?])
      simp only [List.map_cons, outs, List.mem_cons]
      rintro x (rfl | hx)
      · exact hq
      · refine ih (step b (.timeout t true calm)).1 ⟨?_, ?_, hdl⟩ x hx
        · rw [hc]; exact hln
        · rw [(lastUpdated_after b t true calm hd).1]; exact he
    · rw [hln] at g; exact absurd g (by simp)

end Str0m.BwEst
