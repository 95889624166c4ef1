import Verif.Props.Bwe

/-! C105 to C108: the ids, the gating and the timing of probes. -/

namespace Str0m.BwEst
open Str0m.Pacer (Bitrate SEC MS mulDur divDur satSub alreadyHappened notHappening)

/-! ### C105 -/

theorem ids_inv (i : Bitrate) (es : List Event) (hr : NoReset es) (hn : calls es < 2 ^ 62) :
    ((probes (Bwe.new i) es ++ (run (Bwe.new i) es).control.pending).map (·.id)).Pairwise (· < ·) ∧
    (∀ x ∈ probes (Bwe.new i) es ++ (run (Bwe.new i) es).control.pending, x.id < (run (Bwe.new i) es).control.nextId) ∧
    (run (Bwe.new i) es).control.nextId ≤ 2 * calls es := by
  induction es using List.reverseRecOn with
  | nil => simp [probes, outs, run, Bwe.new, calls]
  | append_singleton es e ih =>
    rw [calls_append] at hn
    obtain ⟨h1, h2, h3⟩ := ih (fun x hx => hr x (List.mem_append_left _ hx)) (by omega)
    rw [run_snoc, probes_snoc, calls_append]
    by_cases ht : ∃ now p o, e = .timeout now p o
    · obtain ⟨now, p, o, rfl⟩ := ht
      have hc1 : calls [Event.timeout now p o] = 1 := rfl
      rcases wake (run (Bwe.new i) es) now p o (core_run i es) with ⟨hn', s⟩ | ⟨_, x, hx, l | ⟨k, xs, f⟩⟩
      · rw [hn', s.pending, s.nextId]
        simp only [Option.toList_none, List.append_nil]
        refine ⟨?_, fun x hx => h2 x (List.mem_append_left _ hx), by omega⟩
        rw [List.map_append] at h1
        exact (List.pairwise_append.mp h1).1
      · rw [hx, l.pending, l.nextId]
        rw [l.was] at h1 h2
        simp only [Option.toList_some, List.append_nil]
        exact ⟨h1, h2, by omega⟩
      · obtain ⟨e, he, d, _⟩ := f.decided
        rw [f.was, List.append_nil] at h1 h2
        have hid : ((((run (Bwe.new i) es).told now o).enable true).nextId) = (run (Bwe.new i) es).control.nextId := by
          rcases enable_cases ((run (Bwe.new i) es).told now o) true with ⟨_, ke, _⟩ | ⟨h, _⟩ | ⟨h, _⟩
          · exact ke.nextId.trans (told_kept' _ now o).nextId
          · exact absurd h (by simp)
          · exact absurd h (by simp)
        have hids := d.ids
        have hnx := d.nextId
        rw [hid] at hids hnx
        rw [hx, d.pending, hnx]
        simp only [Option.toList_some]
        generalize (run (Bwe.new i) es).control.nextId = n at *
        have hs := d.short
        obtain ⟨hxi, hrest⟩ := hids
        cases xs with
        | nil =>
          simp only [List.append_nil, List.length_cons, List.length_nil, List.map_append, List.map_cons, List.map_nil]
          have hmod : (n + (0 + 1)) % 2 ^ 64 = n + 1 := Nat.mod_eq_of_lt (by omega)
          rw [hmod]
          refine ⟨?_, ?_, by omega⟩
          · rw [List.pairwise_append]
            refine ⟨h1, by simp, ?_⟩
            intro a ha c hc
            simp only [List.mem_map] at ha
            obtain ⟨y, hy, rfl⟩ := ha
            simp only [List.mem_singleton] at hc
            rw [hc, hxi]; exact h2 y hy
          · intro y hy
            simp only [List.mem_append, List.mem_singleton] at hy
            rcases hy with hy | rfl
            · have := h2 y hy; omega
            · omega
        | cons y ys =>
          have : ys = [] := by
            simp only [List.length_cons] at hs
            exact List.length_eq_zero_iff.mp (by omega)
          subst this
          have hyi : y.id = n + 1 := by rw [hrest.1]; exact Nat.mod_eq_of_lt (by omega)
          simp only [List.length_cons, List.length_nil, List.map_append, List.map_cons, List.map_nil]
          have hmod : (n + (0 + 1 + 1)) % 2 ^ 64 = n + 2 := Nat.mod_eq_of_lt (by omega)
          rw [hmod]
          refine ⟨?_, ?_, by omega⟩
          · rw [List.append_assoc, List.pairwise_append]
            refine ⟨h1, by simp [hxi, hyi], ?_⟩
            intro a ha c hc
            simp only [List.mem_map] at ha
            obtain ⟨z, hz, rfl⟩ := ha
            have hz' := h2 z hz
            simp only [List.singleton_append, List.mem_cons, List.not_mem_nil, or_false] at hc
            rcases hc with rfl | rfl <;> omega
          · intro z hz
            simp only [List.mem_append, List.mem_singleton] at hz
            rcases hz with (hz | rfl) | rfl
            · have := h2 z hz; omega
            · omega
            · omega
    · obtain ⟨hq, hk⟩ := other_step (run (Bwe.new i) es) e (fun now p o hh => ht ⟨now, p, o, hh⟩)
      rcases hk with ⟨i', rfl, _⟩ | ⟨_, k⟩
      · exact absurd rfl (hr _ (by simp) i')
      · rw [hq, k.pending, k.nextId]
        simp only [Option.toList_none, List.append_nil]
        exact ⟨h1, h2, by omega⟩

/-- C105: until the application resets the estimator, the probes that come out carry ids that only ever grow (for the first 2^62
wake-ups), so no two of them share an id. -/
theorem C105_ids (i : Bitrate) (es : List Event) (hr : NoReset es) (hn : calls es < 2 ^ 62) :
    ((probes (Bwe.new i) es).map (·.id)).Pairwise (· < ·) := by
  have := (ids_inv i es hr hn).1
  rw [List.map_append] at this
  exact (List.pairwise_append.mp this).1

/-- A history for the examples: two probes come out -/
def twoProbes : List Event := [.desired 2000000, .timeout (1000 * MS) true calm, .timeout (1001 * MS) true calm]

theorem C105_example : (probes (Bwe.new 300000) twoProbes).map (fun c => (c.id, c.target)) = [(0, 900000), (1, 1800000)] := by
  decide +kernel

/-- packets of the probes before the reset, as a report tells of them: four of them, of 1200 bytes, 1 ms apart -/
def oldPackets : List Rec :=
  [⟨some 0, 1200, 1001 * MS, some (11 * MS)⟩, ⟨some 0, 1200, 1002 * MS, some (12 * MS)⟩,
   ⟨some 0, 1200, 1003 * MS, some (13 * MS)⟩, ⟨some 0, 1200, 1004 * MS, some (14 * MS)⟩]

/-- C105: after a reset the ids start from zero again, though packets with the old ids may still be under way. Here a report
about packets sent before the reset, at 9.6 Mbit/s, is taken for the result of the new probe, and becomes the estimate. -/
theorem C105_violation_reset :
    (step (run (Bwe.new 300000) (twoProbes ++ [.reset 100000])) (.timeout (1100 * MS) true calm)).2
      = .probe ⟨0, 300000, 15 * MS, 5, 2 * MS, .initial⟩ ∧
    (run (Bwe.new 300000) (twoProbes ++ [.reset 100000, .timeout (1100 * MS) true calm, .report oldPackets (1110 * MS) calm])).delay.last
      = some 9600000 := by
  constructor <;> decide +kernel

/-! ### C106 -/

theorem delay_timeout_some (d : Delay) (o : Oracle) (now : Nat) (h : d.last ≠ none) : (d.handleTimeout o now).last ≠ none := by
  unfold Delay.handleTimeout
  split
  · exact h
  · unfold Delay.updateEstimate
    simp only
    split <;> simp_all

theorem prepared_delay (b : Bwe) (p : Bool) (now : Nat) (o : Oracle) : (b.prepared p now o).delay = b.delay.handleTimeout o now := by
  unfold Bwe.prepared
  simp only
  have hp : ∀ (x : Bwe), (x.propagate o).delay = x.delay := by
    intro x
    unfold Bwe.propagate
    split
    · rfl
    · split <;> rfl
  split <;> simp [hp]

theorem timeout_delay (b : Bwe) (now : Nat) (p : Bool) (o : Oracle) :
    (step b (.timeout now p o)).1.delay = b.delay.handleTimeout o now := by
  unfold step
  simp only [Bwe.handleTimeout, sendSideTimeout_eq]
  have := prepared_delay b p now o
  generalize ((b.prepared p now o).control.handleTimeout now) = r
  obtain ⟨r1, r2⟩ := r
  cases r2 with
  | none => simp only; split <;> simp [this]
  | some x =>
    simp only
    split
    · split <;> simp [this]
    · split <;> simp [this]

theorem delay_some (i : Bitrate) (es : List Event) : (run (Bwe.new i) es).delay.last ≠ none := by
  induction es using List.reverseRecOn with
  | nil => simp [run, Bwe.new, Delay.new]
  | append_singleton es e ih =>
    rw [run_snoc]
    cases e with
    | timeout now p o => rw [timeout_delay]; exact delay_timeout_some _ _ _ ih
    | report rs now o =>
      have hu : ∀ (d : Delay) (pr : Option Bitrate), d.last ≠ none → (d.update o pr now).last ≠ none := by
        intro d pr hd
        unfold Delay.update Delay.updateEstimate
        simp only
        split <;> simp_all
      have hp : ∀ (x : Bwe), (x.propagate o).delay = x.delay := by
        intro x
        unfold Bwe.propagate
        split
        · rfl
        · split <;> rfl
      simp only [step, Bwe.update]
      split
      · exact hu _ _ ih
      · split
        · exact hu _ _ ih
        · rw [hp]; exact hu _ _ ih
    | completed now id => exact ih
    | desired v => exact ih
    | reset j => simp [step, Bwe.reset, Delay.new]
    | poll =>
      simp only [step]
      split <;> exact ih

theorem lastEstimate_of_delay {b b' : Bwe} (h : b.delay = b'.delay) (o : Oracle) : b.lastEstimate o = b'.lastEstimate o := by
  simp [Bwe.lastEstimate, h]

theorem lastEstimate_some (b : Bwe) (o : Oracle) (h : b.delay.last ≠ none) : ∃ e, b.lastEstimate o = some e := by
  obtain ⟨d, hd⟩ := Option.ne_none_iff_exists'.mp h
  unfold Bwe.lastEstimate
  rw [hd]
  split
  · exact ⟨d, rfl⟩
  · cases o.loss <;> simp

/-- the state that `told` propagates from -/
def Bwe.before (b : Bwe) (now : Nat) (o : Oracle) : Bwe :=
  { b with
    delay := b.delay.handleTimeout o now
    control := (match o.alr with
      | some t => (b.control.setDesired b.desired).setAlrStart t
      | none => (b.control.setDesired b.desired).setAlrStop now)
    estimator := b.estimator.handleTimeout now }

theorem told_eq (b : Bwe) (now : Nat) (o : Oracle) : b.told now o = ((b.before now o).propagate o).control := rfl

theorem timeout_lastUpdated (b : Bwe) (now : Nat) (p : Bool) (o : Oracle) :
    (step b (.timeout now p o)).1.lastUpdated = ((b.before now o).propagate o).lastUpdated := by
  have hpr : (b.prepared p now o).lastUpdated = ((b.before now o).propagate o).lastUpdated := by
    unfold Bwe.prepared Bwe.before
    simp only
    split <;> rfl
  unfold step
  simp only [Bwe.handleTimeout, sendSideTimeout_eq]
  generalize ((b.prepared p now o).control.handleTimeout now) = r
  obtain ⟨r1, r2⟩ := r
  cases r2 with
  | none => simp only; split <;> simp [hpr]
  | some x =>
    simp only
    split
    · split <;> simp [hpr]
    · split <;> simp [hpr]

/-- After a wake-up the estimate has been passed on -/
theorem lastUpdated_after (b : Bwe) (now : Nat) (p : Bool) (o : Oracle) (h : b.delay.last ≠ none) :
    (step b (.timeout now p o)).1.lastUpdated = estimateAfter b now p o ∧ estimateAfter b now p o = (b.before now o).lastEstimate o := by
  have hd : estimateAfter b now p o = (b.before now o).lastEstimate o := lastEstimate_of_delay (by rw [timeout_delay]; rfl) o
  refine ⟨?_, hd⟩
  rw [timeout_lastUpdated, hd]
  obtain ⟨e, he⟩ := lastEstimate_some (b.before now o) o (delay_timeout_some _ o now h)
  unfold Bwe.propagate
  rw [he]
  simp only
  split
  · rename_i h; exact h
  · rfl

theorem cause_congested {o : Oracle} (h : Congested o) : cause o = .delayIncreased ∨ cause o = .lossLimited := by
  unfold cause
  split
  · exact .inl rfl
  · rename_i hu
    rcases h with h | h
    · exact absurd h hu
    · rw [h]; exact .inr rfl

/-- C106: when a wake-up put out no probe, and at the next one the network is congested and the estimate has moved, then no probe
comes out of that one either. Full claim: no probe comes out while the network is congested. It does not hold: see the two
violations below. -/
theorem C106_congested_partial (i : Bitrate) (es : List Event) (t1 t2 : Nat) (p1 p2 : Bool) (o1 o2 : Oracle)
    (hq : (step (run (Bwe.new i) es) (.timeout t1 p1 o1)).2.cluster? = none) (hc : Congested o2)
    (hm : estimateAfter (run (Bwe.new i) (es ++ [.timeout t1 p1 o1])) t2 p2 o2 ≠ estimateAfter (run (Bwe.new i) es) t1 p1 o1) :
    (step (run (Bwe.new i) (es ++ [.timeout t1 p1 o1])) (.timeout t2 p2 o2)).2.cluster? = none := by
  have hcore := core_run i (es ++ [.timeout t1 p1 o1])
  have hd := delay_some i (es ++ [.timeout t1 p1 o1])
  have hlu := (lastUpdated_after (run (Bwe.new i) es) t1 p1 o1 (delay_some i es)).1
  rw [← run_snoc] at hlu
  have hpend : (run (Bwe.new i) (es ++ [.timeout t1 p1 o1])).control.pending = [] := by
    rw [run_snoc]
    rcases wake (run (Bwe.new i) es) t1 p1 o1 (core_run i es) with ⟨_, s⟩ | ⟨_, x, hx, _⟩
    · exact s.pending
    · rw [hq] at hx; exact absurd hx (by simp)
  generalize run (Bwe.new i) (es ++ [.timeout t1 p1 o1]) = b at *
  have hest := (lastUpdated_after b t2 p2 o2 hd).2
  obtain ⟨e2, he2⟩ := lastEstimate_some (b.before t2 o2) o2 (delay_timeout_some _ o2 t2 hd)
  rcases wake b t2 p2 o2 hcore with ⟨hn, _⟩ | ⟨_, x, _, l | ⟨k, xs, f⟩⟩
  · exact hn
  · rw [l.was] at hpend; exact absurd hpend (by simp)
  · exfalso
    have hcan := f.can
    obtain ⟨e, he, _⟩ := f.decided
    rw [told_eq] at hcan he
    unfold Bwe.propagate at hcan he
    rw [he2] at hcan he
    have hne : ¬(b.before t2 o2).lastUpdated = some e2 := by
      intro h
      apply hm
      rw [hest, he2, ← h, ← hlu]
      rfl
    simp only [if_neg hne] at hcan he
    unfold Control.setEstimated at hcan he
    split at hcan
    · rename_i hz
      rw [if_pos hz] at he
      rw [hz.1] at he
      exact absurd he (by simp)
    · split at hcan
      · rename_i hz hdom
        have := hdom.2
        rcases cause_congested hc with h | h <;> (rw [h] at this; simp [Control.canProbe, this] at hcan)
      · rcases cause_congested hc with h | h <;> simp [Control.canProbe, Control.requestImmediate, h] at hcan

/-- the network of the examples becomes congested -/
def congested : Oracle := { calm with usage := .overuse }

/-- The hypotheses of `C106_congested_partial` are met, in a history where without congestion the same wake-up does probe -/
theorem C106_example :
    (step (run (Bwe.new 300000) [.desired 2000000]) (.timeout (1000 * MS) false calm)).2.cluster? = none ∧
    Congested { calm with lossState := some false, loss := some 200000 } ∧
    estimateAfter (run (Bwe.new 300000) ([.desired 2000000] ++ [.timeout (1000 * MS) false calm])) (1001 * MS) true
      { calm with lossState := some false, loss := some 200000 } ≠
      estimateAfter (run (Bwe.new 300000) [.desired 2000000]) (1000 * MS) false calm ∧
    (step (run (Bwe.new 300000) ([.desired 2000000] ++ [.timeout (1000 * MS) false calm])) (.timeout (1001 * MS) true
      { calm with lossState := some true, loss := some 200000 })).2 = .probe ⟨0, 600000, 15 * MS, 5, 2 * MS, .initial⟩ := by
  refine ⟨by decide +kernel, .inr rfl, by decide +kernel, by decide +kernel⟩

/-- C106: the second of two probes comes out although the network has become congested in between -/
theorem C106_violation_leftover :
    (step (run (Bwe.new 300000) [.desired 2000000, .timeout (1000 * MS) true calm]) (.timeout (1001 * MS) true congested)).2
      = .probe ⟨1, 1800000, 15 * MS, 5, 2 * MS, .initial⟩ := by decide +kernel

/-- C106: while the estimate stays the same, nobody tells the probe controller that the network has become congested, and it goes
on to decide on new probes -/
theorem C106_violation_unchanged :
    (step (run (Bwe.new 300000) [.timeout (1000 * MS) true calm, .desired 2000000]) (.timeout (1001 * MS) true congested)).2
      = .probe ⟨0, 900000, 15 * MS, 5, 2 * MS, .initial⟩ ∧
    estimateAfter (run (Bwe.new 300000) []) (1000 * MS) true calm = some 300000 := by
  constructor <;> decide +kernel

/-! ### C107 -/

theorem told_enable (b : Bwe) (now : Nat) (o : Oracle) :
    ((b.told now o).enable true).lastProbe = b.control.lastProbe ∧ ((b.told now o).enable true).lastStagnant = b.control.lastStagnant ∧
    ((b.told now o).enable true).prevDesired = b.control.prevDesired ∧
    ((b.told now o).enable true).lastEstimate = (b.told now o).lastEstimate := by
  have kt := told_kept' b now o
  rcases enable_cases (b.told now o) true with ⟨_, ke, _, e, _⟩ | ⟨h, _⟩ | ⟨h, _⟩
  · exact ⟨ke.lastProbe.trans kt.lastProbe, ke.lastStagnant.trans kt.lastStagnant, ke.prevDesired.trans kt.prevDesired, e⟩
  · exact absurd h (by simp)
  · exact absurd h (by simp)

/-- What is left over is the second of a pair -/
theorem pending_kind (i : Bitrate) (es : List Event) :
    ∀ x ∈ (run (Bwe.new i) es).control.pending, x.kind = .initial ∨ x.kind = .increaseAlr := by
  induction es using List.reverseRecOn with
  | nil => intro x hx; simp [run, Bwe.new] at hx
  | append_singleton es e ih =>
    rw [run_snoc]
    by_cases ht : ∃ now p o, e = .timeout now p o
    · obtain ⟨now, p, o, rfl⟩ := ht
      rcases wake (run (Bwe.new i) es) now p o (core_run i es) with ⟨_, s⟩ | ⟨_, x, _, l | ⟨k, xs, f⟩⟩
      · rw [s.pending]; simp
      · rw [l.pending]; simp
      · obtain ⟨e, he, d, _⟩ := f.decided
        intro y hy
        rw [d.pending] at hy
        have fit := d.fit y (List.mem_cons_of_mem _ hy)
        rw [fit.kind]
        by_contra hno
        push Not at hno
        rw [d.alone hno.1 hno.2] at hy
        simp at hy
    · intro x hx
      rcases (other_step (run (Bwe.new i) es) e (fun now p o hh => ht ⟨now, p, o, hh⟩)).2 with ⟨i, _, hc⟩ | ⟨_, k⟩
      · rw [hc] at hx; simp at hx
      · rw [k.pending] at hx; exact ih x hx

theorem forward_append {es fs : List Event} (h : Forward (es ++ fs)) :
    Forward es ∧ Forward fs ∧ ∀ t p o t' p' o', Event.timeout t p o ∈ es → Event.timeout t' p' o' ∈ fs → t ≤ t' := by
  induction es with
  | nil => exact ⟨trivial, h, by simp⟩
  | cons e es ih =>
    cases e with
    | timeout now p o =>
      obtain ⟨h1, h2⟩ := h
      obtain ⟨g1, g2, g3⟩ := ih h2
      refine ⟨⟨fun t p o ht => h1 t p o (List.mem_append_left _ ht), g1⟩, g2, ?_⟩
      intro t q r t' q' r' ht ht'
      simp only [List.mem_cons] at ht
      rcases ht with ht | ht
      · cases ht
        exact h1 t' q' r' (List.mem_append_right _ ht')
      · exact g3 _ _ _ _ _ _ ht ht'
    | _ =>
      obtain ⟨g1, g2, g3⟩ := ih h
      refine ⟨g1, g2, ?_⟩
      intro t q r t' q' r' ht ht'
      simp only [List.mem_cons] at ht
      rcases ht with ht | ht
      · cases ht
      · exact g3 _ _ _ _ _ _ ht ht'

theorem probesAfter_append (b : Bwe) (s : Nat) (es fs : List Event) :
    probesAfter b s (es ++ fs) = probesAfter b s es + probesAfter (run b es) s fs := by
  induction es generalizing b with
  | nil => simp [probesAfter, run]
  | cons e es ih =>
    cases e <;> simp only [List.cons_append, probesAfter, run, ih]
    omega

theorem probesAfter_le (b : Bwe) (s : Nat) (es : List Event) : probesAfter b s es ≤ (probes b es).length := by
  induction es generalizing b with
  | nil => simp [probesAfter]
  | cons e es ih =>
    have hp : probes b (e :: es) = ((step b e).2.cluster?).toList ++ probes (step b e).1 es := by
      simp only [probes, outs]
      cases h : (step b e).2.cluster? <;> simp [h]
    rw [hp, List.length_append]
    cases e with
    | timeout now p o =>
      simp only [probesAfter]
      have := ih (step b (.timeout now p o)).1
      cases h : (step b (.timeout now p o)).2.cluster? with
      | none => simp; exact this
      | some x =>
        simp only [Option.isSome_some, and_true, Option.toList_some, List.length_singleton]
        split <;> omega
    | _ =>
      simp only [probesAfter]
      exact (ih _).trans (Nat.le_add_left _ _)

theorem probesAfter_zero (b : Bwe) (s : Nat) (es : List Event) (h : ∀ t p o, Event.timeout t p o ∈ es → t ≤ s) : probesAfter b s es = 0 := by
  induction es generalizing b with
  | nil => rfl
  | cons e es ih =>
    have ih' := fun b => ih b (fun t p o ht => h t p o (List.mem_cons_of_mem _ ht))
    cases e with
    | timeout now p o =>
      simp only [probesAfter, ih', Nat.add_zero]
      have := h now p o (by simp)
      rw [if_neg (by omega)]
    | _ => simp only [probesAfter, ih']

/-- After the probe that was decided last, at most one more has come out, and it was decided with it -/
theorem spacing_inv (i : Bitrate) (es : List Event) (hf : Forward es) (q : LastProbe)
    (hq : (run (Bwe.new i) es).control.lastProbe = some q) :
    ∃ pre post, es = pre ++ post ∧ (∀ t p o, Event.timeout t p o ∈ pre → t ≤ q.when) ∧
      (probes (run (Bwe.new i) pre) post).length + (run (Bwe.new i) es).control.pending.length ≤ 1 := by
  induction es using List.reverseRecOn generalizing q with
  | nil => simp [run, Bwe.new] at hq
  | append_singleton es e ih =>
    obtain ⟨hf1, _, hf3⟩ := forward_append hf
    rw [run_snoc] at hq ⊢
    by_cases ht : ∃ now p o, e = .timeout now p o
    · obtain ⟨now, p, o, rfl⟩ := ht
      rcases wake (run (Bwe.new i) es) now p o (core_run i es) with ⟨hn, s⟩ | ⟨_, x, hx, l | ⟨k, xs, f⟩⟩
      · rcases s.lastProbe with h | ⟨_, h⟩
        · rw [h] at hq
          obtain ⟨pre, post, h1, h2, h3⟩ := ih hf1 q hq
          refine ⟨pre, post ++ [.timeout now p o], by rw [h1, List.append_assoc], h2, ?_⟩
          rw [probes_snoc, ← run_append, ← h1, hn, s.pending]
          simp; omega
        · rw [h] at hq; exact absurd hq (by simp)
      · rw [l.lastProbe] at hq
        obtain ⟨pre, post, h1, h2, h3⟩ := ih hf1 q hq
        refine ⟨pre, post ++ [.timeout now p o], by rw [h1, List.append_assoc], h2, ?_⟩
        rw [probes_snoc, ← run_append, ← h1, hx, l.pending]
        rw [l.was] at h3
        simpa using h3
      · obtain ⟨e, he, d, _⟩ := f.decided
        obtain ⟨g, hg⟩ := d.lastProbe
        rw [hg] at hq
        obtain rfl := Option.some.inj hq
        refine ⟨es ++ [.timeout now p o], [], by simp, ?_, ?_⟩
        · intro t p' o' ht
          simp only [List.mem_append, List.mem_singleton] at ht
          rcases ht with ht | ht
          · exact hf3 _ _ _ _ _ _ ht (List.mem_singleton.mpr rfl)
          · cases ht; exact le_refl _
        · rw [d.pending]
          simpa [probes, outs] using d.short
    · obtain ⟨hn, hk⟩ := other_step (run (Bwe.new i) es) e (fun now p o hh => ht ⟨now, p, o, hh⟩)
      rcases hk with ⟨j, _, hc⟩ | ⟨_, k⟩
      · rw [hc] at hq; exact absurd hq (by simp)
      · rw [k.lastProbe] at hq
        obtain ⟨pre, post, h1, h2, h3⟩ := ih hf1 q hq
        refine ⟨pre, post ++ [e], by rw [h1, List.append_assoc], h2, ?_⟩
        rw [probes_snoc, ← run_append, ← h1, hn, k.pending]
        simpa using h3

/-- C107: when a periodic probe or one after a large drop comes out, then in the five seconds before it at most one other probe came
out, the second half of an older pair. -/
theorem C107_five_seconds (i : Bitrate) (es : List Event) (now : Nat) (p : Bool) (o : Oracle) (x : Cluster)
    (hf : Forward es) (hx : (step (run (Bwe.new i) es) (.timeout now p o)).2.cluster? = some x)
    (hk : x.kind = .periodicAlr ∨ x.kind = .largeDrop) :
    5 * SEC ≤ now ∧ probesAfter (Bwe.new i) (now - 5 * SEC) es ≤ 1 := by
  rcases wake (run (Bwe.new i) es) now p o (core_run i es) with ⟨hn, s⟩ | ⟨_, y, hy, l | ⟨k, xs, f⟩⟩
  · rw [hx] at hn; exact absurd hn (by simp)
  · rw [hx] at hy
    obtain rfl := Option.some.inj hy
    have := pending_kind i es x (by rw [l.was]; simp)
    rcases hk with h | h <;> rw [h] at this <;> simp at this
  · rw [hx] at hy
    obtain rfl := Option.some.inj hy
    obtain ⟨e, he, d, _⟩ := f.decided
    have hkx := (d.fit x List.mem_cons_self).kind
    have hcond : ∃ q, (run (Bwe.new i) es).control.lastProbe = some q ∧ MIN_ALR ≤ now - q.when := by
      have hc := d.cond
      have hl := (told_enable (run (Bwe.new i) es) now o).1
      rcases hk with h | h
      · rw [← hkx, h] at hc
        obtain ⟨_, q, hq, hn⟩ := hc
        exact ⟨q, hl ▸ hq, hn⟩
      · rw [← hkx, h] at hc
        obtain ⟨q, hq, hn⟩ := hc
        exact ⟨q, hl ▸ hq, hn⟩
    obtain ⟨q, hq, hn⟩ := hcond
    obtain ⟨pre, post, h1, h2, h3⟩ := spacing_inv i es hf q hq
    have hm : MIN_ALR = 5 * SEC := rfl
    have h5 : 0 < 5 * SEC := by decide
    refine ⟨by omega, ?_⟩
    rw [h1, probesAfter_append, probesAfter_zero _ _ pre (fun t p o ht => by have := h2 t p o ht; omega), Nat.zero_add]
    exact (probesAfter_le _ _ _).trans (by omega)

theorem steady_snoc {es : List Event} {e : Event} (h : Steady (es ++ [e])) :
    Steady es ∧ (∀ i, e ≠ .reset i) ∧ ∀ now o, e ≠ .timeout now false o :=
  ⟨fun x hx => h x (List.mem_append_left _ hx), h e (by simp)⟩

/-- C107: while probing stays possible, two stagnation probes are at least fifteen seconds apart -/
theorem C107_stagnant (i : Bitrate) (es mid : List Event) (t1 t2 : Nat) (p1 p2 : Bool) (o1 o2 : Oracle) (x y : Cluster)
    (hx : (step (run (Bwe.new i) es) (.timeout t1 p1 o1)).2.cluster? = some x) (hkx : x.kind = .stagnant)
    (hs : Steady mid) (hf : Forward (.timeout t1 p1 o1 :: mid))
    (hy : (step (run (Bwe.new i) (es ++ .timeout t1 p1 o1 :: mid)) (.timeout t2 p2 o2)).2.cluster? = some y) (hky : y.kind = .stagnant) :
    t1 + 15 * SEC ≤ t2 := by
  have hinv : ∃ u, t1 ≤ u ∧ (run (Bwe.new i) (es ++ .timeout t1 p1 o1 :: mid)).control.lastStagnant = some u := by
    clear hy
    induction mid using List.reverseRecOn with
    | nil =>
      rw [run_snoc]
      rcases wake (run (Bwe.new i) es) t1 p1 o1 (core_run i es) with ⟨hn, s⟩ | ⟨_, z, hz, l | ⟨k, xs, f⟩⟩
      · rw [hx] at hn; exact absurd hn (by simp)
      · rw [hx] at hz
        obtain rfl := Option.some.inj hz
        have := pending_kind i es x (by rw [l.was]; simp)
        rw [hkx] at this; simp at this
      · rw [hx] at hz
        obtain rfl := Option.some.inj hz
        obtain ⟨e, he, d, _⟩ := f.decided
        have hk := (d.fit x List.mem_cons_self).kind
        refine ⟨t1, le_refl _, ?_⟩
        rw [d.lastStagnant, ← hk, hkx]; simp
    | append_singleton mid e ih =>
      have hf' : Forward ((.timeout t1 p1 o1 :: mid) ++ [e]) := by simpa using hf
      obtain ⟨hf1, _, hf3⟩ := forward_append hf'
      obtain ⟨hs1, hs2, hs3⟩ := steady_snoc hs
      obtain ⟨u, hu, hl⟩ := ih hs1 hf1
      have hrun : es ++ .timeout t1 p1 o1 :: (mid ++ [e]) = (es ++ .timeout t1 p1 o1 :: mid) ++ [e] := by simp
      rw [hrun, run_snoc]
      by_cases ht : ∃ now p o, e = .timeout now p o
      · obtain ⟨now, p, o, rfl⟩ := ht
        have hp : p = true := by
          cases p
          · exact absurd rfl (hs3 now o)
          · rfl
        have hle : t1 ≤ now := hf3 t1 p1 o1 now p o (by simp) (by simp)
        rcases wake (run (Bwe.new i) (es ++ .timeout t1 p1 o1 :: mid)) now p o (core_run i _) with ⟨hn, s⟩ | ⟨_, z, hz, l | ⟨k, xs, f⟩⟩
        · rcases s.lastStagnant with h | h | h
          · exact ⟨u, hu, h.trans hl⟩
          · exact ⟨now, hle, h⟩
          · rw [hp] at h; exact absurd h (by simp)
        · exact ⟨u, hu, l.lastStagnant.trans hl⟩
        · obtain ⟨e, he, d, _⟩ := f.decided
          rw [d.lastStagnant]
          split
          · exact ⟨now, hle, rfl⟩
          · exact ⟨u, hu, (told_enable _ now o).2.1.trans hl⟩
      · rcases (other_step (run (Bwe.new i) (es ++ .timeout t1 p1 o1 :: mid)) e (fun now p o hh => ht ⟨now, p, o, hh⟩)).2 with ⟨j, hj, _⟩ | ⟨_, k⟩
        · exact absurd hj (hs2 j)
        · exact ⟨u, hu, k.lastStagnant.trans hl⟩
  obtain ⟨u, hu, hl⟩ := hinv
  rcases wake (run (Bwe.new i) (es ++ .timeout t1 p1 o1 :: mid)) t2 p2 o2 (core_run i _) with ⟨hn, s⟩ | ⟨_, z, hz, l | ⟨k, xs, f⟩⟩
  · rw [hy] at hn; exact absurd hn (by simp)
  · rw [hy] at hz
    obtain rfl := Option.some.inj hz
    have := pending_kind i _ y (by rw [l.was]; simp)
    rw [hky] at this; simp at this
  · rw [hy] at hz
    obtain rfl := Option.some.inj hz
    obtain ⟨e, he, d, _⟩ := f.decided
    have hk := (d.fit y List.mem_cons_self).kind
    have hc := d.cond
    rw [← hk, hky] at hc
    have := hc.2.2.2.2.2 u (by rw [(told_enable _ t2 o2).2.1, hl])
    have hm : MIN_STAGNANT = 15 * SEC := rfl
    have h5 : 0 < 15 * SEC := by decide
    omega

/-- the initial probes among some -/
def initials (l : List Cluster) : Nat := (l.filter (fun c => c.kind == .initial)).length

theorem initials_append (a b : List Cluster) : initials (a ++ b) = initials a + initials b := by simp [initials]

theorem initials_le (a : List Cluster) : initials a ≤ a.length := List.length_filter_le _ _

/-- C107: while probing stays possible, at most two initial probes come out -/
theorem C107_initial (i : Bitrate) (es mid : List Event) (hs : Steady mid) :
    ((probes (run (Bwe.new i) es) mid).filter (fun c => c.kind == .initial)).length ≤ 2 := by
  have hinv : initials (probes (run (Bwe.new i) es) mid) + initials (run (Bwe.new i) (es ++ mid)).control.pending ≤ 2 ∧
      ((run (Bwe.new i) (es ++ mid)).control.lastProbe = none → initials (probes (run (Bwe.new i) es) mid) = 0) := by
    induction mid using List.reverseRecOn with
    | nil =>
      have := (core_run i es).short
      have := initials_le (run (Bwe.new i) es).control.pending
      simp only [probes, outs, List.filterMap_nil, List.append_nil]
      exact ⟨by simp only [initials, List.filter_nil, List.length_nil] at *; omega, fun _ => rfl⟩
    | append_singleton mid e ih =>
      obtain ⟨hs1, hs2, hs3⟩ := steady_snoc hs
      obtain ⟨h1, h2⟩ := ih hs1
      rw [← List.append_assoc, run_snoc, probes_snoc, ← run_append, initials_append]
      generalize probes (run (Bwe.new i) es) mid = P at *
      have hcore := core_run i (es ++ mid)
      generalize run (Bwe.new i) (es ++ mid) = b at *
      by_cases ht : ∃ now p o, e = .timeout now p o
      · obtain ⟨now, p, o, rfl⟩ := ht
        have hp : p = true := by
          cases p
          · exact absurd rfl (hs3 now o)
          · rfl
        rcases wake b now p o hcore with ⟨hn, s⟩ | ⟨_, z, hz, l | ⟨k, xs, f⟩⟩
        · rw [hn, s.pending]
          refine ⟨by simp [initials] at *; omega, fun hl => ?_⟩
          rcases s.lastProbe with h | ⟨h, _⟩
          · rw [h] at hl; simp [initials] at *; exact h2 hl
          · rw [hp] at h; exact absurd h (by simp)
        · rw [hz, l.pending]
          rw [l.was] at h1
          refine ⟨by simpa [initials] using h1, fun hl => ?_⟩
          rw [l.lastProbe] at hl
          exact absurd hl l.probed
        · obtain ⟨e, he, d, _⟩ := f.decided
          rw [hz, d.pending]
          refine ⟨?_, fun hl => ?_⟩
          · by_cases hk : k = .initial
            · have hc := d.cond
              rw [hk] at hc
              have h0 := h2 ((told_enable b now o).1.symm.trans hc)
              have := d.short
              have h3 := initials_le (Option.some z).toList
              have h4 := initials_le xs
              simp only [Option.toList_some, List.length_singleton] at h3
              simp only [Option.toList_some] at *
              omega
            · have hall : ∀ y ∈ z :: xs, (y.kind == Kind.initial) = false := by
                intro y hy
                rw [(d.fit y hy).kind]
                simpa using hk
              have e1 : initials (Option.some z).toList = 0 := by
                simp [initials, hall z List.mem_cons_self]
              have e2 : initials xs = 0 := by
                simp only [initials, List.length_eq_zero_iff, List.filter_eq_nil_iff]
                intro y hy
                simp [hall y (List.mem_cons_of_mem _ hy)]
              omega
          · obtain ⟨g, hg⟩ := d.lastProbe
            rw [hg] at hl
            exact absurd hl (by simp)
      · obtain ⟨hn, hk⟩ := other_step b e (fun now p o hh => ht ⟨now, p, o, hh⟩)
        rcases hk with ⟨j, hj, _⟩ | ⟨_, k⟩
        · exact absurd hj (hs2 j)
        · rw [hn, k.pending, k.lastProbe]
          have h0 : initials (none : Option Cluster).toList = 0 := rfl
          rw [h0]
          exact ⟨h1, h2⟩
  have := hinv.1
  unfold initials at this
  omega

/-- A history in which the sender probes at the start, and then because nothing has changed for fifteen seconds -/
def stuck : List Event := [.desired 2000000, .timeout (1000 * MS) true calm, .timeout (1001 * MS) true calm]

/-- The hypotheses of `C107_stagnant` are met, exactly at the bound; two stagnation probes fifteen seconds apart also contradict the
comments at the code, which promise one in thirty seconds (probe/control.rs 442, 467) -/
theorem C107_violation_thirty :
    (step (run (Bwe.new 300000) stuck) (.timeout (17 * SEC) true calm)).2 = .probe ⟨2, 600000, 15 * MS, 5, 2 * MS, .stagnant⟩ ∧
    Steady [.timeout (18 * SEC) true calm] ∧ Forward [.timeout (17 * SEC) true calm, .timeout (18 * SEC) true calm] ∧
    (step (run (Bwe.new 300000) (stuck ++ .timeout (17 * SEC) true calm :: [.timeout (18 * SEC) true calm]))
      (.timeout (32 * SEC) true calm)).2 = .probe ⟨3, 600000, 15 * MS, 5, 2 * MS, .stagnant⟩ := by
  refine ⟨by decide +kernel, ?_, ?_, by decide +kernel⟩
  · intro e he
    rw [List.mem_singleton.mp he]
    exact ⟨by simp, by simp⟩
  · refine ⟨?_, by simp, trivial⟩
    intro t p o ht
    cases List.mem_singleton.mp ht
    decide

/-- the sender has been limited by the application since the first second -/
def limited : Oracle := { calm with alr := some (1000 * MS) }

/-- The hypotheses of `C107_five_seconds` are met, and one probe less than five seconds before is possible: the second half of the
first pair comes out late, and the periodic probe five seconds after the first half -/
theorem C107_example :
    Forward [.desired 2000000, .timeout (1000 * MS) true limited, .timeout (5000 * MS) true limited] ∧
    (step (run (Bwe.new 300000) [.desired 2000000, .timeout (1000 * MS) true limited, .timeout (5000 * MS) true limited])
      (.timeout (6000 * MS) true limited)).2 = .probe ⟨2, 4000000, 15 * MS, 5, 2 * MS, .periodicAlr⟩ ∧
    probesAfter (Bwe.new 300000) (1000 * MS) [.desired 2000000, .timeout (1000 * MS) true limited, .timeout (5000 * MS) true limited] = 1 ∧
    ((probes (Bwe.new 300000) [.desired 2000000, .timeout (1000 * MS) true limited, .timeout (5000 * MS) true limited]).filter
      (fun c => c.kind == .initial)).length = 2 := by
  refine ⟨⟨?_, by simp, trivial⟩, by decide +kernel, by decide +kernel, by decide +kernel⟩
  intro t p o ht
  cases List.mem_singleton.mp ht
  decide

end Str0m.BwEst
