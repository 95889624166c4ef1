import Verif.Model.Bwe

/-! Facts about the deciding of probes, for `Props/Bwe.lean`. -/

namespace Str0m.BwEst
open Str0m.Pacer (Bitrate SEC MS mulDur divDur satSub alreadyHappened notHappening)

theorem run_append (b : Bwe) (es fs : List Event) : run b (es ++ fs) = run (run b es) fs := by
  induction es generalizing b with
  | nil => rfl
  | cons e es ih => exact ih _

theorem outs_append (b : Bwe) (es fs : List Event) : outs b (es ++ fs) = outs b es ++ outs (run b es) fs := by
  induction es generalizing b with
  | nil => rfl
  | cons e es ih => simp [outs, run, ih]

theorem run_snoc (b : Bwe) (es : List Event) (e : Event) : run b (es ++ [e]) = (step (run b es) e).1 := by
  rw [run_append]; rfl

/-- What the attempts to probe never touch -/
structure Frame (c c' : Control) : Prop where
  next : c'.next = c.next
  enabled : c'.enabled = c.enabled
  desired : c'.desired = c.desired
  lastEstimate : c'.lastEstimate = c.lastEstimate
  lastEstimateChange : c'.lastEstimateChange = c.lastEstimateChange
  lastCause : c'.lastCause = c.lastCause
  prevEstimate : c'.prevEstimate = c.prevEstimate
  alrStart : c'.alrStart = c.alrStart
  alrStop : c'.alrStop = c.alrStop
  schedExponential : c'.schedExponential = c.schedExponential
  schedPeriodic : c'.schedPeriodic = c.schedPeriodic
  schedStagnant : c'.schedStagnant = c.schedStagnant

theorem Frame.refl (c : Control) : Frame c c := ⟨rfl, rfl, rfl, rfl, rfl, rfl, rfl, rfl, rfl, rfl, rfl, rfl⟩

theorem Frame.trans {a b c : Control} (h : Frame a b) (g : Frame b c) : Frame a c :=
  ⟨g.1.trans h.1, g.2.trans h.2, g.3.trans h.3, g.4.trans h.4, g.5.trans h.5, g.6.trans h.6, g.7.trans h.7, g.8.trans h.8,
    g.9.trans h.9, g.10.trans h.10, g.11.trans h.11, g.12.trans h.12⟩

/-- An attempt that did not probe -/
structure Same (d : Bitrate) (c c' : Control) : Prop where
  frame : Frame c c'
  pending : c'.pending = c.pending
  nextId : c'.nextId = c.nextId
  lastProbe : c'.lastProbe = c.lastProbe
  lastStagnant : c'.lastStagnant = c.lastStagnant
  prevDesired : c'.prevDesired = c.prevDesired ∨ c'.prevDesired = some d

theorem Same.refl (d : Bitrate) (c : Control) : Same d c c := ⟨.refl c, rfl, rfl, rfl, rfl, .inl rfl⟩

theorem Same.trans {d : Bitrate} {a b c : Control} (h : Same d a b) (g : Same d b c) : Same d a c :=
  ⟨h.1.trans g.1, g.2.trans h.2, g.3.trans h.3, g.4.trans h.4, g.5.trans h.5, by
    rcases g.6 with e | e
    · rw [e]; exact h.6
    · exact .inr e⟩

/-- A probe as it is queued -/
structure Fit (d : Bitrate) (k : Kind) (x : Cluster) : Prop where
  low : 5000 ≤ x.target
  high : x.target ≤ d * 2
  duration : x.duration = 15 * MS
  packets : x.minPackets = 5
  delta : x.minDelta = 2 * MS
  kind : x.kind = k

/-- The ids count up -/
def Ids : Nat → List Cluster → Prop
  | _, [] => True
  | n, x :: xs => x.id = n ∧ Ids ((n + 1) % 2 ^ 64) xs

/-- An attempt that probed -/
structure Adds (c : Control) (now : Nat) (d : Bitrate) (k : Kind) (new : List Cluster) (c' : Control) : Prop where
  frame : Frame c c'
  pending : c'.pending = c.pending ++ new
  short : new.length ≤ 2
  alone : k ≠ .initial → k ≠ .increaseAlr → new.length ≤ 1
  fit : ∀ x ∈ new, Fit d k x
  ids : Ids c.nextId new
  nextId : new ≠ [] → c'.nextId = (c.nextId + new.length) % 2 ^ 64
  quiet : new = [] → c'.lastProbe = c.lastProbe ∧ c'.nextId = c.nextId
  lastProbe : new ≠ [] → ∃ f, c'.lastProbe = some ⟨now, k, f, c.lastEstimate⟩
  lastStagnant : c'.lastStagnant = if k = .stagnant then some now else c.lastStagnant
  prevDesired : c'.prevDesired = c.prevDesired ∨ c'.prevDesired = some d

/-- `queue_probe` when it queues -/
def Control.queued (c : Control) (x : Cluster) (p : LastProbe) : Control :=
  { c with nextId := (c.nextId + 1) % 2 ^ 64, pending := c.pending ++ [x], lastProbe := some p }

/-- `queue_probe` -/
theorem queueProbe_cases (c : Control) (rate : Bitrate) (k : Kind) (d : Bitrate) (now : Nat) :
    c.queueProbe rate k d now = c ∨
    ∃ x, Fit d k x ∧ x.id = c.nextId ∧ ∃ f, c.queueProbe rate k d now = c.queued x ⟨now, k, f, c.lastEstimate⟩ := by
  unfold Control.queueProbe
  simp only
  split
  · exact .inl rfl
  · rename_i h
    exact .inr ⟨_, ⟨not_lt.mp h, min_le_right _ _, rfl, rfl, rfl, rfl⟩, rfl, _, rfl⟩

theorem one_adds (c : Control) (rate : Bitrate) (k : Kind) (hk : k ≠ .stagnant) (d : Bitrate) (now : Nat) :
    ∃ new, Adds c now d k new (c.queueProbe rate k d now) := by
  rcases queueProbe_cases c rate k d now with h | ⟨x, hx, hi, f, h⟩
  · rw [h]
    exact ⟨[], .refl c, by simp, by simp, by simp, by simp, trivial, fun h => absurd rfl h, fun _ => ⟨rfl, rfl⟩, fun h => absurd rfl h, by simp [hk], .inl rfl⟩
  · rw [h]
    exact ⟨[x], ⟨rfl, rfl, rfl, rfl, rfl, rfl, rfl, rfl, rfl, rfl, rfl, rfl⟩, rfl, by simp, by simp, by simpa using hx, ⟨hi, trivial⟩, fun _ => rfl,
      by simp, fun _ => ⟨f, rfl⟩, by simp [hk, Control.queued], .inl rfl⟩

theorem two_adds (c : Control) (r1 r2 : Bitrate) (k : Kind) (hk : k ≠ .stagnant) (hk' : k = .initial ∨ k = .increaseAlr) (d : Bitrate)
    (now : Nat) :
    ∃ new, Adds c now d k new ((c.queueProbe r1 k d now).queueProbe r2 k d now) := by
  rcases queueProbe_cases c r1 k d now with h | ⟨x, hx, hi, f, h⟩
  · rw [h]; exact one_adds c r2 k hk d now
  · rw [h]
    rcases queueProbe_cases (c.queued x ⟨now, k, f, c.lastEstimate⟩) r2 k d now with h | ⟨y, hy, hj, g, h⟩
    · rw [h]
      exact ⟨[x], ⟨rfl, rfl, rfl, rfl, rfl, rfl, rfl, rfl, rfl, rfl, rfl, rfl⟩, rfl, by simp, by simp, by simpa using hx, ⟨hi, trivial⟩, fun _ => rfl,
        by simp, fun _ => ⟨f, rfl⟩, by simp [hk, Control.queued], .inl rfl⟩
    · rw [h]
      refine ⟨[x, y], ⟨rfl, rfl, rfl, rfl, rfl, rfl, rfl, rfl, rfl, rfl, rfl, rfl⟩, by simp [Control.queued], by simp,
        fun h1 h2 => absurd hk' (by simp [h1, h2]), ?_, ⟨hi, hj, trivial⟩, fun _ => ?_,
        by simp, fun _ => ⟨g, rfl⟩, by simp [hk, Control.queued], .inl rfl⟩
      · intro z hz
        simp only [List.mem_cons, List.not_mem_nil, or_false] at hz
        rcases hz with rfl | rfl
        · exact hx
        · exact hy
      · simp only [Control.queued, List.length_cons, List.length_nil]
        omega

/-- Why a probe of this kind was decided on -/
def Cond (c : Control) (now : Nat) (d e : Bitrate) : Kind → Prop
  | .initial => c.lastProbe = none
  | .exponential => c.pending = [] ∧ ∃ p, c.lastProbe = some p ∧ p.further ≤ e ∧
      (some e = p.wasEstimate → MAX_WAIT ≤ now - p.when)
  | .increaseAlr => c.inAlr = true ∧ (∃ p, c.lastProbe = some p) ∧ c.duringInitial now = false ∧ e < d ∧
      ∃ v, c.prevDesired = some v ∧ v < d
  | .periodicAlr => c.inAlr = true ∧ ∃ p, c.lastProbe = some p ∧ MIN_ALR ≤ now - p.when
  | .largeDrop => ∃ p, c.lastProbe = some p ∧ MIN_ALR ≤ now - p.when
  | .stagnant => c.inAlr = false ∧ (∃ p, c.lastProbe = some p) ∧ c.duringInitial now = false ∧ e < d ∧
      (∃ t, c.lastEstimateChange = some t ∧ MIN_STAGNANT ≤ now - t) ∧ ∀ t, c.lastStagnant = some t → MIN_STAGNANT ≤ now - t

theorem maybeInitial_cases (c : Control) (now : Nat) (d e : Bitrate) :
    ((c.maybeInitial now d e) = (c, false) ∧ c.lastProbe ≠ none) ∨
    ∃ c' new, c.maybeInitial now d e = (c', true) ∧ Adds c now d .initial new c' ∧ Cond c now d e .initial := by
  unfold Control.maybeInitial
  split
  · rename_i h
    exact .inl ⟨rfl, by intro h'; rw [h'] at h; exact absurd h (by simp)⟩
  · rename_i h
    obtain ⟨new, a⟩ := two_adds c (e * 3) (e * 6) .initial (by decide) (by decide) d now
    exact .inr ⟨_, new, rfl, a, by simpa [Cond] using h⟩

theorem maybeExponential_cases (c : Control) (now : Nat) (d e : Bitrate) :
    c.maybeExponential now d e = (c, false) ∨
    ∃ c' new, c.maybeExponential now d e = (c', true) ∧ Adds c now d .exponential new c' ∧ Cond c now d e .exponential := by
  unfold Control.maybeExponential
  split
  · exact .inl rfl
  · rename_i hp
    split
    · exact .inl rfl
    · rename_i last hl
      split
      · exact .inl rfl
      · rename_i hf
        split
        · exact .inl rfl
        · rename_i hs
          simp only
          split
          · exact .inl rfl
          · obtain ⟨new, a⟩ := one_adds c (e * c.lastCause.probeScale) .exponential (by decide) d now
            refine .inr ⟨_, new, rfl, a, by simpa using hp, last, hl, not_lt.mp hf, fun h => ?_⟩
            have : ¬c.probedWithin now MAX_WAIT = true := fun hw => hs ⟨h, hw⟩
            simp only [Control.probedWithin, hl, decide_eq_true_eq, not_lt] at this
            exact this

theorem frame_prev (c : Control) (v : Bitrate) : Same v c { c with prevDesired := some v } :=
  ⟨⟨rfl, rfl, rfl, rfl, rfl, rfl, rfl, rfl, rfl, rfl, rfl, rfl⟩, rfl, rfl, rfl, rfl, .inr rfl⟩

theorem frame_drop (d : Bitrate) (c : Control) (v : Option LargeDrop) : Same d c { c with largeDrop := v } :=
  ⟨⟨rfl, rfl, rfl, rfl, rfl, rfl, rfl, rfl, rfl, rfl, rfl, rfl⟩, rfl, rfl, rfl, rfl, .inl rfl⟩

theorem Adds.of_same {a b c : Control} {now : Nat} {d : Bitrate} {k : Kind} {new : List Cluster} (s : Same d a b)
    (h : Adds b now d k new c) : Adds a now d k new c :=
  { frame := s.frame.trans h.frame
    pending := by rw [h.pending, s.pending]
    short := h.short
    alone := h.alone
    fit := h.fit
    ids := by have := h.ids; rwa [s.nextId] at this
    nextId := by have := h.nextId; rwa [s.nextId] at this
    quiet := fun n => ⟨(h.quiet n).1.trans s.lastProbe, (h.quiet n).2.trans s.nextId⟩
    lastProbe := fun n => by
      obtain ⟨f, hf⟩ := h.lastProbe n
      exact ⟨f, by rw [hf, s.frame.lastEstimate]⟩
    lastStagnant := by rw [h.lastStagnant, s.lastStagnant]
    prevDesired := by
      rcases h.prevDesired with e | e
      · rw [e]; exact s.prevDesired
      · exact .inr e }

theorem Adds.then_drop {a c : Control} {now : Nat} {d : Bitrate} {k : Kind} {new : List Cluster}
    (h : Adds a now d k new c) (v : Option LargeDrop) : Adds a now d k new { c with largeDrop := v } :=
  { frame := ⟨h.frame.1, h.frame.2, h.frame.3, h.frame.4, h.frame.5, h.frame.6, h.frame.7, h.frame.8, h.frame.9, h.frame.10,
      h.frame.11, h.frame.12⟩
    pending := h.pending
    short := h.short
    alone := h.alone
    fit := h.fit
    ids := h.ids
    nextId := h.nextId
    quiet := h.quiet
    lastProbe := h.lastProbe
    lastStagnant := h.lastStagnant
    prevDesired := h.prevDesired }

theorem maybeIncreaseAlr_cases (c : Control) (now : Nat) (d e : Bitrate) (hl : c.lastProbe ≠ none) :
    (∃ c', c.maybeIncreaseAlr now d e = (c', false) ∧ Same d c c') ∨
    ∃ c' new, c.maybeIncreaseAlr now d e = (c', true) ∧ (Adds c now d .increaseAlr new c' ∧ c'.prevDesired = some d) ∧
      Cond c now d e .increaseAlr := by
  unfold Control.maybeIncreaseAlr
  split
  · exact .inl ⟨c, rfl, .refl d c⟩
  · rename_i hi
    split
    · exact .inl ⟨c, rfl, .refl d c⟩
    · rename_i ha
      simp only
      split
      · exact .inl ⟨_, rfl, frame_prev c _⟩
      · rename_i v hv
        split
        · exact .inl ⟨_, rfl, frame_prev c _⟩
        · rename_i hd
          split
          · exact .inl ⟨_, rfl, frame_prev c _⟩
          · rename_i hde
            have hc : Cond c now d e .increaseAlr :=
              ⟨by simpa using ha, Option.ne_none_iff_exists'.mp hl, by simpa using hi, not_le.mp hde, v, hv, not_le.mp hd⟩
            refine .inr ?_
            split
            · obtain ⟨new, a⟩ := two_adds { c with prevDesired := some d } (min (d * 1) (e * 2)) (d * 2) .increaseAlr (by decide) (by decide) d now
              exact ⟨_, new, rfl, ⟨a.of_same (frame_prev c _), a.prevDesired.elim (fun h => h) (fun h => h)⟩, hc⟩
            · obtain ⟨new, a⟩ := one_adds { c with prevDesired := some d } (min (d * 1) (e * 2)) .increaseAlr (by decide) d now
              exact ⟨_, new, rfl, ⟨a.of_same (frame_prev c _), a.prevDesired.elim (fun h => h) (fun h => h)⟩, hc⟩

theorem noticeDrop_same (d : Bitrate) (c : Control) (now : Nat) (e : Bitrate) : Same d c (c.noticeDrop now e) := by
  unfold Control.noticeDrop
  split
  · split
    · exact frame_drop d c _
    · exact .refl d c
  · exact .refl d c

theorem probedWithin_false {c : Control} {now n : Nat} (h : ¬c.probedWithin now n = true) (hl : c.lastProbe ≠ none) :
    ∃ p, c.lastProbe = some p ∧ n ≤ now - p.when := by
  obtain ⟨p, hp⟩ := Option.ne_none_iff_exists'.mp hl
  refine ⟨p, hp, ?_⟩
  simpa [Control.probedWithin, hp] using h

theorem maybeLargeDrop_cases (c : Control) (now : Nat) (d e : Bitrate) (hl : c.lastProbe ≠ none) :
    (∃ c', c.maybeLargeDrop now d e = (c', false) ∧ Same d c c') ∨
    ∃ c' new, c.maybeLargeDrop now d e = (c', true) ∧ Adds c now d .largeDrop new c' ∧ Cond c now d e .largeDrop := by
  unfold Control.maybeLargeDrop
  have hs := noticeDrop_same d c now e
  split
  · exact .inl ⟨c, rfl, .refl d c⟩
  · simp only
    split
    · exact .inl ⟨_, rfl, hs⟩
    · rename_i drop hd
      split
      · exact .inl ⟨_, rfl, hs.trans (frame_drop d _ _)⟩
      · split
        · exact .inl ⟨_, rfl, hs⟩
        · split
          · exact .inl ⟨_, rfl, hs⟩
          · rename_i hw
            obtain ⟨new, a⟩ := one_adds (c.noticeDrop now e) (drop.before * (85 / 100)) .largeDrop (by decide) d now
            obtain ⟨p, hp, hn⟩ := probedWithin_false hw (by rw [hs.lastProbe]; exact hl)
            exact .inr ⟨_, new, rfl, (a.of_same hs).then_drop _, p, hs.lastProbe ▸ hp, hn⟩

theorem maybePeriodicAlr_cases (c : Control) (now : Nat) (d e : Bitrate) (hl : c.lastProbe ≠ none) :
    c.maybePeriodicAlr now d = (c, false) ∨
    ∃ c' new, c.maybePeriodicAlr now d = (c', true) ∧ Adds c now d .periodicAlr new c' ∧ Cond c now d e .periodicAlr := by
  unfold Control.maybePeriodicAlr
  split
  · exact .inl rfl
  · split
    · exact .inl rfl
    · rename_i ha
      split
      · exact .inl rfl
      · rename_i hw
        obtain ⟨new, a⟩ := one_adds c (d * 2) .periodicAlr (by decide) d now
        exact .inr ⟨_, new, rfl, a, by simpa using ha, probedWithin_false hw hl⟩

theorem maybeStagnant_cases (c : Control) (now : Nat) (d e : Bitrate) (hl : c.lastProbe ≠ none) :
    c.maybeStagnant now d e = (c, false) ∨
    ∃ c' new, c.maybeStagnant now d e = (c', true) ∧ Adds c now d .stagnant new c' ∧ Cond c now d e .stagnant := by
  unfold Control.maybeStagnant
  split
  · exact .inl rfl
  · rename_i hi
    split
    · exact .inl rfl
    · rename_i ha
      split
      · exact .inl rfl
      · rename_i t ht
        split
        · exact .inl rfl
        · rename_i hn
          split
          · exact .inl rfl
          · rename_i hde
            split
            · exact .inl rfl
            · rename_i hst
              have hc : Cond c now d e .stagnant := by
                refine ⟨by simpa using ha, Option.ne_none_iff_exists'.mp hl, by simpa using hi, not_le.mp hde, ⟨t, ht, not_lt.mp hn⟩, ?_⟩
                intro u hu
                simpa [Control.stagnatedWithin, hu] using hst
              rcases queueProbe_cases c (e * 2) .stagnant d now with h | ⟨x, hx, hj, f, h⟩
              · simp only [h]
                exact .inr ⟨_, [], rfl, ⟨⟨rfl, rfl, rfl, rfl, rfl, rfl, rfl, rfl, rfl, rfl, rfl, rfl⟩, by simp, by simp, by simp, by simp, trivial,
                  fun h => absurd rfl h, fun _ => ⟨rfl, rfl⟩, fun h => absurd rfl h, by simp, .inl rfl⟩, hc⟩
              · simp only [h]
                exact .inr ⟨_, [x], rfl, ⟨⟨rfl, rfl, rfl, rfl, rfl, rfl, rfl, rfl, rfl, rfl, rfl, rfl⟩, rfl, by simp, by simp, by simpa using hx,
                  ⟨hj, trivial⟩, fun _ => rfl, by simp, fun _ => ⟨f, rfl⟩, by simp, .inl rfl⟩, hc⟩

theorem Frame.inAlr {c c' : Control} (h : Frame c c') : c'.inAlr = c.inAlr := by
  simp [Control.inAlr, h.alrStart, h.alrStop]

theorem Same.duringInitial {d : Bitrate} {c c' : Control} (h : Same d c c') (now : Nat) : c'.duringInitial now = c.duringInitial now := by
  simp [Control.duringInitial, h.lastProbe]

/-- Deciding: nothing, or one or two probes of one kind, for the reason that goes with the kind -/
theorem decide_cases (c : Control) (now : Nat) (d e : Bitrate) :
    Same d c (c.decide now d e) ∨ ∃ k new, Adds c now d k new (c.decide now d e) ∧
      (k = .increaseAlr → (c.decide now d e).prevDesired = some d) ∧ Cond c now d e k := by
  unfold Control.decide
  rcases maybeInitial_cases c now d e with ⟨h, hl⟩ | ⟨c', new, h, a, hc⟩
  swap
  · simp only [h, orElse, if_true]; exact .inr ⟨_, new, a, by simp, hc⟩
  simp only [h, orElse, Bool.false_eq_true, if_false]
  rcases maybeExponential_cases c now d e with h | ⟨c', new, h, a, hc⟩
  swap
  · simp only [h, if_true]; exact .inr ⟨_, new, a, by simp, hc⟩
  simp only [h, Bool.false_eq_true, if_false]
  rcases maybeIncreaseAlr_cases c now d e hl with ⟨c1, h, s1⟩ | ⟨c', new, h, a, hc⟩
  swap
  · simp only [h, if_true]; exact .inr ⟨_, new, a.1, fun _ => a.2, hc⟩
  simp only [h, Bool.false_eq_true, if_false]
  have hl1 : c1.lastProbe ≠ none := by rw [s1.lastProbe]; exact hl
  rcases maybeLargeDrop_cases c1 now d e hl1 with ⟨c2, h, s2⟩ | ⟨c', new, h, a, hc⟩
  swap
  · simp only [h, if_true]
    refine .inr ⟨_, new, a.of_same s1, by simp, ?_⟩
    obtain ⟨p, hp, hn⟩ := hc
    exact ⟨p, s1.lastProbe ▸ hp, hn⟩
  simp only [h, Bool.false_eq_true, if_false]
  have s12 := s1.trans s2
  have hl2 : c2.lastProbe ≠ none := by rw [s12.lastProbe]; exact hl
  rcases maybePeriodicAlr_cases c2 now d e hl2 with h | ⟨c', new, h, a, hc⟩
  swap
  · simp only [h, if_true]
    refine .inr ⟨_, new, a.of_same s12, by simp, ?_⟩
    obtain ⟨ha, p, hp, hn⟩ := hc
    exact ⟨s12.frame.inAlr ▸ ha, p, s12.lastProbe ▸ hp, hn⟩
  simp only [h, Bool.false_eq_true, if_false]
  rcases maybeStagnant_cases c2 now d e hl2 with h | ⟨c', new, h, a, hc⟩
  swap
  · simp only [h]
    refine .inr ⟨_, new, a.of_same s12, by simp, ?_⟩
    obtain ⟨ha, ⟨p, hp⟩, hi, hde, ⟨t, ht, hn⟩, hs⟩ := hc
    exact ⟨s12.frame.inAlr ▸ ha, ⟨p, s12.lastProbe ▸ hp⟩, s12.duringInitial now ▸ hi, hde,
      ⟨t, s12.frame.lastEstimateChange ▸ ht, hn⟩, fun u hu => hs u (by rw [s12.lastStagnant]; exact hu)⟩
  simp only [h]
  exact .inl s12

/-! ### One call of `handle_timeout` -/

/-- mod.rs 293-325: the state when the probe controller is asked -/
def Bwe.prepared (b : Bwe) (doProbe : Bool) (now : Nat) (o : Oracle) : Bwe :=
  let b := { b with delay := b.delay.handleTimeout o now }
  let b := { b with control := b.control.setDesired b.desired }
  let b := { b with control := match o.alr with
    | some t => b.control.setAlrStart t
    | none => b.control.setAlrStop now }
  let b := { b with estimator := b.estimator.handleTimeout now }
  let b := b.propagate o
  let b := if !doProbe then { b with estimator := b.estimator.clear } else b
  { b with control := b.control.enable doProbe }

theorem sendSideTimeout_eq (b : Bwe) (doProbe : Bool) (now : Nat) (o : Oracle) :
    b.sendSideTimeout doProbe now o =
      ({ b.prepared doProbe now o with control := ((b.prepared doProbe now o).control.handleTimeout now).1 },
        ((b.prepared doProbe now o).control.handleTimeout now).2) := rfl

/-- The updates that reach the probe controller leave its probes alone -/
structure Kept (c c' : Control) : Prop where
  enabled : c'.enabled = c.enabled
  pending : c'.pending = c.pending
  nextId : c'.nextId = c.nextId
  lastProbe : c'.lastProbe = c.lastProbe
  lastStagnant : c'.lastStagnant = c.lastStagnant
  prevEstimate : c'.prevEstimate = c.prevEstimate
  lastEstimateChange : c'.lastEstimateChange = c.lastEstimateChange
  prevDesired : c'.prevDesired = c.prevDesired
  largeDrop : c'.largeDrop = c.largeDrop
  desired : c.desired ≠ none → c'.desired ≠ none
  lastEstimate : c.lastEstimate ≠ none → c'.lastEstimate ≠ none
  due : c.next = alreadyHappened → c'.next = alreadyHappened

theorem Kept.refl (c : Control) : Kept c c :=
  ⟨rfl, rfl, rfl, rfl, rfl, rfl, rfl, rfl, rfl, fun h => h, fun h => h, fun h => h⟩

theorem Kept.trans {a b c : Control} (h : Kept a b) (g : Kept b c) : Kept a c :=
  ⟨g.1.trans h.1, g.2.trans h.2, g.3.trans h.3, g.4.trans h.4, g.5.trans h.5, g.6.trans h.6, g.7.trans h.7, g.8.trans h.8,
    g.9.trans h.9, g.10 ∘ h.10, g.11 ∘ h.11, g.12 ∘ h.12⟩

theorem setDesired_kept (c : Control) (v : Bitrate) : Kept c (c.setDesired v) := by
  unfold Control.setDesired
  split
  · exact .refl c
  · exact ⟨rfl, rfl, rfl, rfl, rfl, rfl, rfl, rfl, rfl, fun _ => by simp [Control.requestImmediate], fun h => h, fun _ => rfl⟩

theorem setEstimated_kept (c : Control) (v : Bitrate) (k : Cause) : Kept c (c.setEstimated v k) := by
  unfold Control.setEstimated
  split
  · exact .refl c
  · split
    · exact .refl c
    · exact ⟨rfl, rfl, rfl, rfl, rfl, rfl, rfl, rfl, rfl, fun h => h, fun _ => by simp [Control.requestImmediate], fun _ => rfl⟩

theorem setAlrStart_kept (c : Control) (t : Nat) : Kept c (c.setAlrStart t) := by
  unfold Control.setAlrStart
  split
  · exact .refl c
  · exact ⟨rfl, rfl, rfl, rfl, rfl, rfl, rfl, rfl, rfl, fun h => h, fun h => h, fun _ => rfl⟩

theorem setAlrStop_kept (c : Control) (t : Nat) : Kept c (c.setAlrStop t) := by
  unfold Control.setAlrStop
  split
  · exact .refl c
  · exact ⟨rfl, rfl, rfl, rfl, rfl, rfl, rfl, rfl, rfl, fun h => h, fun h => h, fun _ => rfl⟩

theorem setDesired_desired (c : Control) (v : Bitrate) :
    (c.setDesired v).desired = some v ∧ (c.setDesired v).next = alreadyHappened ∨
    (c.setDesired v).desired = none ∧ c.desired = none ∧ v = 0 := by
  unfold Control.setDesired
  split
  · rename_i h
    exact .inr ⟨h.1, h.1, h.2⟩
  · exact .inl ⟨rfl, rfl⟩

theorem setEstimated_desired (c : Control) (v : Bitrate) (k : Cause) : (c.setEstimated v k).desired = c.desired := by
  unfold Control.setEstimated
  split
  · rfl
  · split <;> rfl

theorem setAlrStart_desired (c : Control) (t : Nat) : (c.setAlrStart t).desired = c.desired := by
  unfold Control.setAlrStart
  split <;> rfl

theorem setAlrStop_desired (c : Control) (t : Nat) : (c.setAlrStop t).desired = c.desired := by
  unfold Control.setAlrStop
  split <;> rfl

/-- the probe controller after mod.rs 297-318 -/
def Bwe.told (b : Bwe) (now : Nat) (o : Oracle) : Control :=
  (({ b with delay := b.delay.handleTimeout o now
             control := (match o.alr with
               | some t => (b.control.setDesired b.desired).setAlrStart t
               | none => (b.control.setDesired b.desired).setAlrStop now)
             estimator := b.estimator.handleTimeout now } : Bwe).propagate o).control

theorem prepared_control (b : Bwe) (doProbe : Bool) (now : Nat) (o : Oracle) :
    (b.prepared doProbe now o).control = (b.told now o).enable doProbe := by
  unfold Bwe.prepared Bwe.told
  simp only
  congr 1
  split <;> (cases h : o.alr <;> simp_all)

theorem propagate_kept (b : Bwe) (o : Oracle) : Kept b.control (b.propagate o).control := by
  unfold Bwe.propagate
  split
  · exact .refl _
  · split
    · exact .refl _
    · exact setEstimated_kept _ _ _

theorem propagate_desired (b : Bwe) (o : Oracle) : (b.propagate o).control.desired = b.control.desired := by
  unfold Bwe.propagate
  split
  · rfl
  · split
    · rfl
    · exact setEstimated_desired _ _ _

theorem told_kept (b : Bwe) (now : Nat) (o : Oracle) : Kept (b.control.setDesired b.desired) (b.told now o) := by
  unfold Bwe.told
  refine Kept.trans ?_ (propagate_kept _ o)
  simp only
  split
  · exact setAlrStart_kept _ _
  · exact setAlrStop_kept _ _

theorem told_kept' (b : Bwe) (now : Nat) (o : Oracle) : Kept b.control (b.told now o) :=
  (setDesired_kept _ _).trans (told_kept b now o)

/-- What is desired is what the application set, and the controller looks at it at once -/
theorem told_desired (b : Bwe) (now : Nat) (o : Oracle) :
    (b.told now o).desired = some b.desired ∧ (b.told now o).next = alreadyHappened ∨
    (b.told now o).desired = none ∧ b.control.desired = none ∧ b.desired = 0 := by
  have hd : (b.told now o).desired = (b.control.setDesired b.desired).desired := by
    unfold Bwe.told
    rw [propagate_desired]
    simp only
    split
    · exact setAlrStart_desired _ _
    · exact setAlrStop_desired _ _
  have hn := (told_kept b now o).due
  rcases setDesired_desired b.control b.desired with ⟨h, h'⟩ | ⟨h, h'⟩
  · exact .inl ⟨hd.trans h, hn h'⟩
  · exact .inr ⟨hd.trans h, h'⟩

/-- `enable` -/
theorem enable_cases (c : Control) (v : Bool) :
    (v = true ∧ Kept { c with enabled := true } (c.enable v) ∧ (c.enable v).desired = c.desired ∧
      (c.enable v).lastEstimate = c.lastEstimate ∧ (c.enable v).lastCause = c.lastCause ∧
      (c.enable v).alrStart = c.alrStart ∧ (c.enable v).alrStop = c.alrStop ∧ (c.next = alreadyHappened → (c.enable v).next = alreadyHappened)) ∨
    (v = false ∧ c.enabled = false ∧ c.enable v = c) ∨
    (v = false ∧ c.enabled = true ∧ (c.enable v).enabled = false ∧ (c.enable v).pending = [] ∧ (c.enable v).desired = none ∧
      (c.enable v).lastEstimate = none ∧ (c.enable v).lastProbe = none ∧ (c.enable v).nextId = c.nextId ∧
      (c.enable v).lastStagnant = none ∧ (c.enable v).next = notHappening) := by
  cases v <;> cases h : c.enabled
  · exact .inr (.inl ⟨rfl, rfl, by simp [Control.enable, h]⟩)
  · exact .inr (.inr (by simp [Control.enable, h]))
  · refine .inl ⟨rfl, ?_, ?_⟩
    · simp only [Control.enable, h, Bool.not_false, Bool.and_self, if_true]
      exact ⟨rfl, rfl, rfl, rfl, rfl, rfl, rfl, rfl, rfl, fun h => h, fun h => h, fun _ => rfl⟩
    · simp [Control.enable, h, Control.requestImmediate]
  · refine .inl ⟨rfl, ?_, ?_⟩
    · simp only [Control.enable, h]
      exact ⟨h, rfl, rfl, rfl, rfl, rfl, rfl, rfl, rfl, fun h => h, fun h => h, fun h => h⟩
    · simp [Control.enable, h]

theorem updateEstimateChange_kept (c : Control) (now : Nat) (e : Bitrate) :
    ∃ t, c.updateEstimateChange now e = { c with lastEstimateChange := some t } := by
  unfold Control.updateEstimateChange
  simp only
  split
  · split
    · exact ⟨now, by simp⟩
    · split
      · exact ⟨now, rfl⟩
      · rename_i h
        obtain ⟨t, ht⟩ := Option.ne_none_iff_exists'.mp h
        exact ⟨t, by cases c; simp_all⟩
  · split
    · exact ⟨now, rfl⟩
    · rename_i h
      obtain ⟨t, ht⟩ := Option.ne_none_iff_exists'.mp h
      exact ⟨t, by cases c; simp_all⟩

/-- What `computeNext` leaves alone -/
structure Sched (c c' : Control) : Prop where
  enabled : c'.enabled = c.enabled
  pending : c'.pending = c.pending
  nextId : c'.nextId = c.nextId
  lastProbe : c'.lastProbe = c.lastProbe
  lastStagnant : c'.lastStagnant = c.lastStagnant
  desired : c'.desired = c.desired
  lastEstimate : c'.lastEstimate = c.lastEstimate
  lastCause : c'.lastCause = c.lastCause
  prevDesired : c'.prevDesired = c.prevDesired
  largeDrop : c'.largeDrop = c.largeDrop
  alrStart : c'.alrStart = c.alrStart
  alrStop : c'.alrStop = c.alrStop
  prevEstimate : c'.prevEstimate = c.prevEstimate
  lastEstimateChange : c'.lastEstimateChange = c.lastEstimateChange

theorem computeNext_sched (c : Control) (now : Nat) : Sched c (c.computeNext now).1 := by
  unfold Control.computeNext
  simp only
  split
  · exact ⟨rfl, rfl, rfl, rfl, rfl, rfl, rfl, rfl, rfl, rfl, rfl, rfl, rfl, rfl⟩
  · split
    · exact ⟨rfl, rfl, rfl, rfl, rfl, rfl, rfl, rfl, rfl, rfl, rfl, rfl, rfl, rfl⟩
    · exact ⟨rfl, rfl, rfl, rfl, rfl, rfl, rfl, rfl, rfl, rfl, rfl, rfl, rfl, rfl⟩

/-- `consider` when something was decided -/
structure Decided (c : Control) (now : Nat) (d e : Bitrate) (k : Kind) (x : Cluster) (xs : List Cluster) (c' : Control) : Prop where
  pending : c'.pending = xs
  short : xs.length ≤ 1
  alone : k ≠ .initial → k ≠ .increaseAlr → xs = []
  fit : ∀ y ∈ x :: xs, Fit d k y
  ids : Ids c.nextId (x :: xs)
  nextId : c'.nextId = (c.nextId + (x :: xs).length) % 2 ^ 64
  lastProbe : ∃ f, c'.lastProbe = some ⟨now, k, f, c.lastEstimate⟩
  lastStagnant : c'.lastStagnant = if k = .stagnant then some now else c.lastStagnant
  increase : k = .increaseAlr → c'.prevDesired = some d
  cond : Cond c now d e k
  next : c'.next = alreadyHappened

/-- `consider` when nothing was -/
structure Idle (c : Control) (now : Nat) (c' : Control) : Prop where
  pending : c'.pending = []
  nextId : c'.nextId = c.nextId
  lastProbe : c'.lastProbe = c.lastProbe
  lastStagnant : c'.lastStagnant = c.lastStagnant ∨ c'.lastStagnant = some now
  next : c.schedExponential = none → c.schedPeriodic = none → c.schedStagnant = none →
    c'.next = now + MAX_WAIT ∨ c'.next = now + MIN_ALR ∨ c'.next = now + MIN_STAGNANT

/-- What considering never touches -/
structure Considered (c : Control) (d e : Bitrate) (c' : Control) : Prop where
  enabled : c'.enabled = c.enabled
  desired : c'.desired = c.desired
  lastEstimate : c'.lastEstimate = c.lastEstimate
  lastCause : c'.lastCause = c.lastCause
  alrStart : c'.alrStart = c.alrStart
  alrStop : c'.alrStop = c.alrStop
  prevEstimate : c'.prevEstimate = some e
  prevDesired : c'.prevDesired = c.prevDesired ∨ c'.prevDesired = some d

/-- `consider`: nothing may be probed; nothing is; or something is -/
theorem consider_cases (c : Control) (now : Nat) (d e : Bitrate) (hp : c.pending = []) :
    (c.canProbe = false ∧ c.consider now d e = (c, none)) ∨
    (c.canProbe = true ∧ ∃ c' out, c.consider now d e = (c', out) ∧ Considered c d e c' ∧
      ((out = none ∧ Idle c now c') ∨ ∃ k x xs, out = some x ∧ Decided c now d e k x xs c')) := by
  unfold Control.consider
  cases hc : c.canProbe
  · exact .inl ⟨rfl, rfl⟩
  refine .inr ⟨rfl, ?_⟩
  simp only [Bool.not_true, Bool.false_eq_true, if_false]
  generalize hD : c.decide now d e = D
  obtain ⟨t, ht⟩ := updateEstimateChange_kept D now e
  rw [ht]
  generalize hE : ({ ({ D with lastEstimateChange := some t } : Control) with prevEstimate := some e } : Control) = E
  have hs := computeNext_sched E now
  have hEp : E.pending = D.pending := by rw [← hE]
  have hdc := decide_cases c now d e
  rw [hD] at hdc
  have hcons : Frame c D → (D.prevDesired = c.prevDesired ∨ D.prevDesired = some d) →
      Considered c d e (E.computeNext now).1 := by
    intro s hpd
    refine ⟨?_, ?_, ?_, ?_, ?_, ?_, ?_, ?_⟩
    · rw [hs.enabled, ← hE]; exact s.enabled
    · rw [hs.desired, ← hE]; exact s.desired
    · rw [hs.lastEstimate, ← hE]; exact s.lastEstimate
    · rw [hs.lastCause, ← hE]; exact s.lastCause
    · rw [hs.alrStart, ← hE]; exact s.alrStart
    · rw [hs.alrStop, ← hE]; exact s.alrStop
    · rw [hs.prevEstimate, ← hE]
    · rw [hs.prevDesired, ← hE]; exact hpd
  have hnext : Frame c D → c.schedExponential = none → c.schedPeriodic = none → c.schedStagnant = none →
      (E.computeNext now).2 = now + MAX_WAIT ∨ (E.computeNext now).2 = now + MIN_ALR ∨ (E.computeNext now).2 = now + MIN_STAGNANT := by
    intro s h1 h2 h3
    have e1 : E.schedExponential = none := by rw [← hE]; exact s.schedExponential.trans h1
    have e2 : E.schedPeriodic = none := by rw [← hE]; exact s.schedPeriodic.trans h2
    have e3 : E.schedStagnant = none := by rw [← hE]; exact s.schedStagnant.trans h3
    simp only [Control.computeNext, e1, e2, e3, Option.getD_none]
    split
    · exact .inl rfl
    · split
      · exact .inr (.inl rfl)
      · exact .inr (.inr rfl)
  rcases hdc with s | ⟨k, new, a, hinc, hcond⟩
  · -- nothing
    have hpe : (E.computeNext now).1.pending = [] := by rw [hs.pending, hEp, s.pending, hp]
    simp only [hpe, List.isEmpty_nil, Bool.not_true, Bool.false_eq_true, if_false, Control.pop]
    have hk := hcons s.frame s.prevDesired
    refine ⟨_, _, rfl, ⟨hk.1, hk.2, hk.3, hk.4, hk.5, hk.6, hk.7, hk.8⟩, .inl ⟨rfl, rfl, ?_, ?_, .inl ?_, hnext s.frame⟩⟩
    · rw [hs.nextId, ← hE]; exact s.nextId
    · rw [hs.lastProbe, ← hE]; exact s.lastProbe
    · rw [hs.lastStagnant, ← hE]; exact s.lastStagnant
  · have hk := hcons a.frame a.prevDesired
    cases new with
    | nil =>
      have hpe : (E.computeNext now).1.pending = [] := by rw [hs.pending, hEp, a.pending, hp]; rfl
      simp only [hpe, List.isEmpty_nil, Bool.not_true, Bool.false_eq_true, if_false, Control.pop]
      refine ⟨_, _, rfl, ⟨hk.1, hk.2, hk.3, hk.4, hk.5, hk.6, hk.7, hk.8⟩, .inl ⟨rfl, rfl, ?_, ?_, ?_, hnext a.frame⟩⟩
      · rw [hs.nextId, ← hE]; exact (a.quiet rfl).2
      · rw [hs.lastProbe, ← hE]; exact (a.quiet rfl).1
      · rw [hs.lastStagnant, ← hE]
        simp only
        rw [a.lastStagnant]
        split
        · exact .inr rfl
        · exact .inl rfl
    | cons x xs =>
      have hpe : (E.computeNext now).1.pending = x :: xs := by rw [hs.pending, hEp, a.pending, hp]; rfl
      simp only [hpe, List.isEmpty_cons, Bool.not_false, if_true, Control.pop, Control.requestImmediate]
      refine ⟨_, _, rfl, ⟨hk.1, hk.2, hk.3, hk.4, hk.5, hk.6, hk.7, hk.8⟩, .inr ⟨k, x, xs, rfl, rfl, ?_, ?_, a.fit, a.ids, ?_, ?_, ?_, ?_, hcond, rfl⟩⟩
      · have := a.short; simp only [List.length_cons] at this; omega
      · intro h1 h2
        have := a.alone h1 h2; simp only [List.length_cons] at this
        exact List.length_eq_zero_iff.mp (by omega)
      · simp only; rw [hs.nextId, ← hE]; exact a.nextId (by simp)
      · obtain ⟨f, hf⟩ := a.lastProbe (by simp)
        exact ⟨f, by simp only; rw [hs.lastProbe, ← hE]; exact hf⟩
      · simp only; rw [hs.lastStagnant, ← hE]; exact a.lastStagnant
      · intro h
        simp only; rw [hs.prevDesired, ← hE]; exact hinc h

/-- `handle_timeout` of the probe controller -/
theorem control_cases (c : Control) (now : Nat) :
    (∃ n, c.handleTimeout now = ({ c with next := n }, none) ∧ (n = c.next ∧ now < n ∨ n = notHappening) ∧
      (now < c.next ∨ c.enabled = false ∨ c.desired = none ∨ c.lastEstimate = none ∨ c.pending = [] ∧ c.canProbe = false)) ∨
    (c.enabled = true ∧ ∃ d e, c.desired = some d ∧ c.lastEstimate = some e ∧
      ((∃ p ps, c.pending = p :: ps ∧ c.handleTimeout now = (({ c with pending := ps } : Control).requestImmediate, some p)) ∨
       (c.pending = [] ∧ c.canProbe = true ∧ ∃ c' out, c.handleTimeout now = (c', out) ∧ Considered c d e c' ∧
        ((out = none ∧ Idle c now c') ∨ ∃ k x xs, out = some x ∧ Decided c now d e k x xs c')))) := by
  unfold Control.handleTimeout
  split
  · rename_i h
    exact .inl ⟨c.next, rfl, .inl ⟨rfl, h⟩, .inl h⟩
  · simp only
    split
    · rename_i h
      exact .inl ⟨_, rfl, .inr rfl, .inr (.inl (by simpa using h))⟩
    · rename_i h
      split
      · rename_i d e hd he
        split
        · rename_i p ps hp
          exact .inr ⟨by simpa using h, d, e, hd, he, .inl ⟨p, ps, hp, rfl⟩⟩
        · rename_i hp
          rcases consider_cases { c with next := notHappening } now d e hp with ⟨h1, h2⟩ | ⟨h1, c', out, h2, h3, h4⟩
          · rw [h2]
            exact .inl ⟨_, rfl, .inr rfl, .inr (.inr (.inr (.inr ⟨hp, h1⟩)))⟩
          · refine .inr ⟨by simpa using h, d, e, hd, he, .inr ⟨hp, h1, c', out, h2, ⟨h3.1, h3.2, h3.3, h3.4, h3.5, h3.6, h3.7, h3.8⟩, ?_⟩⟩
            rcases h4 with ⟨ho, g⟩ | ⟨k, x, xs, ho, g⟩
            · exact .inl ⟨ho, g.1, g.2, g.3, g.4, g.5⟩
            · refine .inr ⟨k, x, xs, ho, g.1, g.2, g.3, g.4, g.5, g.6, g.7, g.8, g.9, ?_, g.11⟩
              have := g.cond
              cases k <;> exact this
      · rename_i hno
        refine .inl ⟨_, rfl, .inr rfl, ?_⟩
        cases hd : c.desired with
        | none => exact .inr (.inr (.inl rfl))
        | some d =>
          cases he : c.lastEstimate with
          | none => exact .inr (.inr (.inr (.inl rfl)))
          | some e => exact absurd he (hno d e hd)

end Str0m.BwEst
