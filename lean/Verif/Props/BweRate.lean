import Verif.Props.BweProbe

/-! C112: how the estimate moves. -/

namespace Str0m.BwEst
open Str0m.Pacer (Bitrate SEC MS mulDur divDur satSub alreadyHappened notHappening)

/-- What never changes of the delay controller -/
structure Set (d : Delay) : Prop where
  min : d.rc.min = 40000
  max : d.rc.max = 10000000000
  last : d.last = some d.rc.estimate

theorem updateEstimate_cases (r : RateControl) (v : Bitrate) (now : Nat) :
    (r.updateEstimate v now).min = r.min ∧ (r.updateEstimate v now).max = r.max ∧
    (r.updateEstimate v now).estimate = if v < r.min then r.min else if v > r.max then r.max else v := ⟨rfl, rfl, rfl⟩

theorem rcUpdate_fixed (r : RateControl) (u : Usage) (ob : Bitrate) (rtt : Option Nat) (g : ℚ) (now : Nat) :
    (r.update u ob rtt g now).min = r.min ∧ (r.update u ob rtt g now).max = r.max := by
  unfold RateControl.update
  cases rtt <;> simp only <;> split
  all_goals first
    | exact ⟨rfl, rfl⟩
    | (unfold RateControl.increase; simp only; split <;> exact ⟨rfl, rfl⟩)
    | (split <;> exact ⟨rfl, rfl⟩)

theorem set_updateEstimate (d : Delay) (o : Oracle) (pr : Option Bitrate) (now : Nat) (h : Set d) : Set (d.updateEstimate o pr now) := by
  unfold Delay.updateEstimate
  simp only
  split
  · exact ⟨h.min, h.max, rfl⟩
  · rename_i ob _
    have := rcUpdate_fixed d.rc o.usage ob o.rtt o.gain now
    exact ⟨this.1.trans h.min, this.2.trans h.max, rfl⟩
  · exact ⟨h.min, h.max, h.last⟩

theorem set_update (d : Delay) (o : Oracle) (pr : Option Bitrate) (now : Nat) (h : Set d) : Set (d.update o pr now) := by
  have := set_updateEstimate d o pr now h
  exact ⟨this.min, this.max, this.last⟩

theorem set_timeout (d : Delay) (o : Oracle) (now : Nat) (h : Set d) : Set (d.handleTimeout o now) := by
  unfold Delay.handleTimeout
  split
  · exact ⟨h.min, h.max, h.last⟩
  · exact set_updateEstimate d o none now h

theorem propagate_delay (b : Bwe) (o : Oracle) : (b.propagate o).delay = b.delay := by
  unfold Bwe.propagate
  split
  · rfl
  · split <;> rfl

/-- the result of a probe that a report leads to, if any: the last one -/
theorem report_delay (b : Bwe) (rs : List Rec) (now : Nat) (o : Oracle) :
    (step b (.report rs now o)).1.delay = b.delay.update o (((b.estimator.update rs).2.getLast?).map Prod.snd) now := by
  simp only [step, Bwe.update]
  split
  · rfl
  · split
    · rfl
    · rw [propagate_delay]

theorem set_run (i : Bitrate) (es : List Event) : Set (run (Bwe.new i) es).delay := by
  induction es using List.reverseRecOn with
  | nil => exact ⟨rfl, rfl, rfl⟩
  | append_singleton es e ih =>
    rw [run_snoc]
    cases e with
    | timeout now p o => rw [timeout_delay]; exact set_timeout _ o now ih
    | report rs now o => rw [report_delay]; exact set_update _ o _ now ih
    | completed now id => exact ih
    | desired v => exact ih
    | reset j => exact ⟨rfl, rfl, rfl⟩
    | poll =>
      simp only [step]
      split <;> exact ih

/-- C109: the last result that a report yields becomes the estimate of the delay controller, within 40 kbit/s and 10 Gbit/s -/
theorem C109_applied (i : Bitrate) (es : List Event) (rs : List Rec) (now : Nat) (o : Oracle) (c : Cluster) (r : Bitrate)
    (h : ((run (Bwe.new i) es).estimator.update rs).2.getLast? = some (c, r)) :
    (run (Bwe.new i) (es ++ [.report rs now o])).delay.last = some (max 40000 (min r 10000000000)) := by
  rw [run_snoc, report_delay, h]
  have hs := set_run i es
  simp only [Delay.update, Delay.updateEstimate, Option.map_some, RateControl.updateEstimate, hs.min, hs.max]
  congr 1
  split
  · rw [max_eq_left]
    exact (min_le_left _ _).trans (by linarith)
  · split
    · rw [min_eq_right (by linarith), max_eq_right (by norm_num)]
    · rw [min_eq_left (by linarith), max_eq_right (by linarith)]

theorem decrease_le (r : RateControl) (ob : Bitrate) (now : Nat) :
    (r.decrease ob now).estimate ≤ max r.estimate r.min ∧ (r.decrease ob now).estimate ≤ max (ob * (85 / 100)) r.min := by
  unfold RateControl.decrease RateControl.updateEstimate
  simp only [le_max_iff]
  split_ifs <;> constructor <;> first | (left; linarith) | (right; linarith)

theorem increase_le (r : RateControl) (ob : Bitrate) (g : ℚ) (now : Nat) :
    (r.increase ob g now).estimate ≤ max (max r.estimate r.min) (ob * (3 / 2)) := by
  unfold RateControl.increase RateControl.updateEstimate
  simp only
  split
  · exact le_max_of_le_left (le_max_left _ _)
  · simp only
    split
    · exact le_max_of_le_left (le_max_right _ _)
    · split
      · rename_i h1 h2
        exact le_max_of_le_right ((le_of_lt h2).trans ((min_le_left _ _).trans (min_le_left _ _)))
      · exact le_max_of_le_right ((min_le_left _ _).trans (min_le_left _ _))

/-- An update grows, shrinks or holds, as the delay says -/
theorem rcUpdate_cases (r : RateControl) (u : Usage) (ob : Bitrate) (rtt : Option Nat) (g : ℚ) (now : Nat) :
    ∃ r0 : RateControl, r0.estimate = r.estimate ∧ r0.min = r.min ∧ r0.max = r.max ∧ r0.lastUpdate = r.lastUpdate ∧
      r0.lastRtt = (if rtt.isSome then rtt else r.lastRtt) ∧
      ((u = .normal ∧ r.update u ob rtt g now = r0.increase ob g now) ∨
       (u = .overuse ∧ r.update u ob rtt g now = if r0.timeToReduce now ob then r0.decrease ob now else r0) ∨
       (u ≠ .overuse ∧ r.update u ob rtt g now = r0)) := by
  have go : ∀ R : RateControl, (match ({ R with state := R.state.transition u } : RateControl).state with
      | .increase => ({ R with state := R.state.transition u } : RateControl).increase ob g now
      | .decrease => if ({ R with state := R.state.transition u } : RateControl).timeToReduce now ob then
          ({ R with state := R.state.transition u } : RateControl).decrease ob now else { R with state := R.state.transition u }
      | .hold => { R with state := R.state.transition u }) = r.update u ob rtt g now →
      ((u = .normal ∧ r.update u ob rtt g now = ({ R with state := R.state.transition u } : RateControl).increase ob g now) ∨
       (u = .overuse ∧ r.update u ob rtt g now = if ({ R with state := R.state.transition u } : RateControl).timeToReduce now ob then
          ({ R with state := R.state.transition u } : RateControl).decrease ob now else { R with state := R.state.transition u }) ∨
       (u ≠ .overuse ∧ r.update u ob rtt g now = { R with state := R.state.transition u })) := by
    intro R hR
    rw [← hR]
    cases u with
    | overuse => exact .inr (.inl ⟨rfl, rfl⟩)
    | underuse => exact .inr (.inr ⟨by simp, rfl⟩)
    | normal =>
      cases h : R.state with
      | increase => exact .inl ⟨rfl, rfl⟩
      | hold => exact .inl ⟨rfl, rfl⟩
      | decrease => exact .inr (.inr ⟨by simp, rfl⟩)
  cases rtt with
  | none => exact ⟨{ r with state := r.state.transition u }, rfl, rfl, rfl, rfl, rfl, go r rfl⟩
  | some t => exact ⟨{ r with lastRtt := some t, state := r.state.transition u }, rfl, rfl, rfl, rfl, rfl, go { r with lastRtt := some t } rfl⟩

/-- What one update without a probe result does to the estimate -/
structure Moves (o : Oracle) (v v' : Bitrate) : Prop where
  unknown : o.acked = none → v' = v
  underuse : o.usage = .underuse → v' = v
  overuse : o.usage = .overuse → v' ≤ max v 40000
  normal : ∀ ob, o.acked = some ob → v' ≤ max (max v 40000) (ob * (3 / 2))

theorem Moves.refl (o : Oracle) (v : Bitrate) : Moves o v v :=
  ⟨fun _ => rfl, fun _ => rfl, fun _ => le_max_left _ _, fun _ _ => le_max_of_le_left (le_max_left _ _)⟩

theorem update_moves (d : Delay) (o : Oracle) (now : Nat) (h : Set d) :
    Moves o d.rc.estimate (d.updateEstimate o none now).rc.estimate := by
  unfold Delay.updateEstimate
  cases hob : o.acked with
  | none => exact .refl _ _
  | some ob =>
    simp only
    obtain ⟨r0, e1, e2, _, _, _, ⟨hu, he⟩ | ⟨hu, he⟩ | ⟨hu, he⟩⟩ := rcUpdate_cases d.rc o.usage ob o.rtt o.gain now
    · rw [he]
      have := increase_le r0 ob o.gain now
      rw [e1, e2, h.min] at this
      refine ⟨by rw [hob]; simp, by rw [hu]; simp, by rw [hu]; simp, ?_⟩
      intro ob' h'
      rw [hob] at h'
      obtain rfl := Option.some.inj h'
      exact this
    · rw [he]
      split
      · have := (decrease_le r0 ob now).1
        rw [e1, e2, h.min] at this
        exact ⟨by rw [hob]; simp, by rw [hu]; simp, fun _ => this, fun _ _ => le_max_of_le_left this⟩
      · rw [e1]; exact .refl _ _
    · rw [he, e1]; exact .refl _ _

/-- C112: a wake-up, or a report that yields no probe result, moves the estimate of the delay controller like this: not at all while
it is not known how much arrives or while the delay shrinks; while the delay grows, not up (but to 40 kbit/s, if it was below);
and otherwise to no more than one and a half times what arrives, if it was not above that already. -/
theorem C112_moves (i : Bitrate) (es : List Event) (e : Event) (o : Oracle) (v v' : Bitrate)
    (he : (∃ now p, e = .timeout now p o) ∨ ∃ rs now, e = .report rs now o ∧ ((run (Bwe.new i) es).estimator.update rs).2 = [])
    (hv : (run (Bwe.new i) es).delay.last = some v) (hv' : (run (Bwe.new i) (es ++ [e])).delay.last = some v') :
    (o.acked = none → v' = v) ∧ (o.usage = .underuse → v' = v) ∧ (o.usage = .overuse → v' ≤ max v 40000) ∧
    ∀ arriving, o.acked = some arriving → v' ≤ max (max v 40000) (arriving * (3 / 2)) := by
  have hs := set_run i es
  have hs' := set_run i (es ++ [e])
  rw [hs.last] at hv
  rw [hs'.last] at hv'
  obtain rfl := Option.some.inj hv
  obtain rfl := Option.some.inj hv'
  have hm : Moves o (run (Bwe.new i) es).delay.rc.estimate (run (Bwe.new i) (es ++ [e])).delay.rc.estimate := by
    rw [run_snoc]
    rcases he with ⟨now, p, rfl⟩ | ⟨rs, now, rfl, hr⟩
    · rw [timeout_delay]
      unfold Delay.handleTimeout
      split
      · exact .refl _ _
      · exact update_moves _ o now hs
    · rw [report_delay, hr]
      exact update_moves _ o now hs
  exact ⟨hm.unknown, hm.underuse, hm.overuse, hm.normal⟩

/-- C112: when a report without probe result tells of a growing delay, two hundred milliseconds or more after the last change or
with much less arriving than estimated, then the estimate goes down to 85 % of what arrives, or below (but not below 40 kbit/s). -/
theorem C112_reduces (i : Bitrate) (es : List Event) (rs : List Rec) (now : Nat) (o : Oracle) (arriving v : Bitrate)
    (hr : ((run (Bwe.new i) es).estimator.update rs).2 = []) (hu : o.usage = .overuse) (ha : o.acked = some arriving)
    (hv : (run (Bwe.new i) es).delay.last = some v)
    (ht : (∀ t, (run (Bwe.new i) es).delay.rc.lastUpdate = some t → t + 200 * MS ≤ now) ∨ arriving < v / 2) :
    ∃ v', (run (Bwe.new i) (es ++ [.report rs now o])).delay.last = some v' ∧ v' ≤ max (arriving * (85 / 100)) 40000 := by
  have hs := set_run i es
  have hs' := set_run i (es ++ [.report rs now o])
  refine ⟨_, hs'.last, ?_⟩
  rw [run_snoc, report_delay, hr]
  rw [hs.last] at hv
  obtain rfl := Option.some.inj hv
  generalize run (Bwe.new i) es = b at *
  simp only [List.getLast?_nil, Option.map_none, Delay.update, Delay.updateEstimate, ha]
  obtain ⟨r0, e1, e2, _, e4, _, ⟨hu', he⟩ | ⟨hu', he⟩ | ⟨hu', he⟩⟩ := rcUpdate_cases b.delay.rc o.usage arriving o.rtt o.gain now
  · rw [hu] at hu'; exact absurd hu' (by simp)
  · rw [he, if_pos]
    · have := (decrease_le r0 arriving now).2
      rw [e2, hs.min] at this
      exact this
    · unfold RateControl.timeToReduce
      rw [e4]
      split
      · rfl
      · rename_i t hl
        simp only [Bool.or_eq_true, decide_eq_true_eq]
        rcases ht with ht | ht
        · left
          have h1 := ht t hl
          have h2 : Nat.min (Nat.max (r0.lastRtt.getD (100 * MS)) (10 * MS)) (200 * MS) ≤ 200 * MS := Nat.min_le_right _ _
          omega
        · right
          rw [e1]; linarith
  · exact absurd hu hu'

/-- C112: the estimate of the delay controller is what it was set to at first, or at the last reset, or lies within 40 kbit/s and
10 Gbit/s; and the estimate told to the pacer and the application is never above it. -/
theorem C112_bounds (i : Bitrate) (es : List Event) :
    ∃ v, (run (Bwe.new i) es).delay.last = some v ∧ (v = i ∨ (.reset v) ∈ es ∨ (40000 ≤ v ∧ v ≤ 10000000000)) ∧
      ∀ o e, (run (Bwe.new i) es).lastEstimate o = some e → e ≤ v ∧ (o.lossState = none → e = v) ∧ (∀ l, o.loss = some l → min v l ≤ e) := by
  have hs := set_run i es
  refine ⟨_, hs.last, ?_, ?_⟩
  · have hu : ∀ (d : Delay) (o : Oracle) (pr : Option Bitrate) (now : Nat), Set d →
        ((d.updateEstimate o pr now).rc.estimate = d.rc.estimate ∨
          (40000 ≤ (d.updateEstimate o pr now).rc.estimate ∧ (d.updateEstimate o pr now).rc.estimate ≤ 10000000000)) := by
      intro d o pr now h
      have hc : ∀ (r : RateControl) (x : Bitrate) (now : Nat), r.min = 40000 → r.max = 10000000000 →
          40000 ≤ (r.updateEstimate x now).estimate ∧ (r.updateEstimate x now).estimate ≤ 10000000000 := by
        intro r x now h1 h2
        unfold RateControl.updateEstimate
        simp only [h1, h2]
        split_ifs <;> constructor <;> linarith
      unfold Delay.updateEstimate
      simp only
      split
      · exact .inr (hc _ _ _ h.min h.max)
      · rename_i ob _
        obtain ⟨r0, e1, e2, e3, _, _, ⟨_, he⟩ | ⟨_, he⟩ | ⟨_, he⟩⟩ := rcUpdate_cases d.rc o.usage ob o.rtt o.gain now
        · simp only
          rw [he]
          unfold RateControl.increase
          simp only
          split
          · exact .inl e1
          · exact .inr (hc _ _ _ (e2.trans h.min) (e3.trans h.max))
        · simp only
          rw [he]
          split
          · exact .inr (hc _ _ _ (e2.trans h.min) (e3.trans h.max))
          · exact .inl e1
        · simp only
          rw [he]; exact .inl e1
      · exact .inl rfl
    induction es using List.reverseRecOn with
    | nil => exact .inl rfl
    | append_singleton es e ih =>
      have ih := ih (set_run i es)
      have hgo : ∀ x, (x = (run (Bwe.new i) es).delay.rc.estimate ∨ (40000 ≤ x ∧ x ≤ 10000000000)) →
          (x = i ∨ Event.reset x ∈ es ++ [e] ∨ (40000 ≤ x ∧ x ≤ 10000000000)) := by
        rintro x (rfl | hx)
        · rcases ih with h | h | h
          · exact .inl h
          · exact .inr (.inl (List.mem_append_left _ h))
          · exact .inr (.inr h)
        · exact .inr (.inr hx)
      rw [run_snoc]
      cases e with
      | timeout now p o =>
        apply hgo
        rw [timeout_delay]
        unfold Delay.handleTimeout
        split
        · exact .inl rfl
        · exact hu _ _ _ _ (set_run i es)
      | report rs now o =>
        apply hgo
        rw [report_delay]
        exact hu _ _ _ _ (set_run i es)
      | completed now id => exact hgo _ (.inl rfl)
      | desired v => exact hgo _ (.inl rfl)
      | reset j => exact .inr (.inl (by simp [step, Bwe.reset, Delay.new]))
      | poll =>
        apply hgo
        left
        simp only [step]
        split <;> rfl
  · intro o e he
    unfold Bwe.lastEstimate at he
    rw [hs.last] at he
    generalize (run (Bwe.new i) es).delay.rc.estimate = v at *
    cases hl : o.lossState with
    | none =>
      rw [hl] at he
      obtain rfl := Option.some.inj he
      exact ⟨le_refl _, fun _ => rfl, fun _ _ => min_le_left _ _⟩
    | some x =>
      rw [hl] at he
      cases hlo : o.loss with
      | none =>
        rw [hlo] at he
        obtain rfl := Option.some.inj he
        exact ⟨le_refl _, fun _ => rfl, fun _ _ => min_le_left _ _⟩
      | some l =>
        rw [hlo] at he
        obtain rfl := Option.some.inj he
        exact ⟨min_le_left _ _, by simp, fun l' h' => by rw [Option.some.inj h']⟩

/-- 100 kbit/s arrive -/
def arriving100 : Oracle := { calm with acked := some 100000 }

/-- C112: a calm network can lower the estimate: growing stops at one and a half times what arrives, although it is only skipped from
10 kbit/s above that on (rate_control.rs 191, 242) -/
theorem C112_violation_lowers :
    (run (Bwe.new 155000) []).delay.last = some 155000 ∧ (run (Bwe.new 155000) [.report [] (1000 * MS) arriving100]).delay.last = some 150000 := by
  constructor <;> decide +kernel

/-- C112: a growing delay can raise the estimate, if the application began below 40 kbit/s -/
theorem C112_violation_raises :
    (run (Bwe.new 20000) []).delay.last = some 20000 ∧
    (run (Bwe.new 20000) [.report [] (1000 * MS) { arriving100 with usage := .overuse }]).delay.last = some 40000 := by
  constructor <;> decide +kernel

/-- The hypotheses of `C112_moves` and `C112_reduces` are met -/
theorem C112_example :
    (run (Bwe.new 300000) [.report [] (1000 * MS) { arriving100 with acked := some 290000 }]).delay.last = some 301000 ∧
    (run (Bwe.new 300000) [.report [] (1000 * MS) { arriving100 with acked := some 290000 }, .report [] (1200 * MS) { arriving100 with usage := .overuse }]).delay.last
      = some 85000 ∧
    (run (Bwe.new 300000) [.report [] (1000 * MS) { arriving100 with acked := some 290000 }]).delay.rc.lastUpdate = some (1000 * MS) := by
  refine ⟨?_, ?_, ?_⟩ <;> decide +kernel

end Str0m.BwEst
