import Verif.Model.Pacer
import Mathlib.Tactic.Linarith
import Mathlib.Tactic.Positivity
import Mathlib.Tactic.FieldSimp
import Mathlib.Tactic.Ring
import Mathlib.Data.List.Induction
/-
  C34 (debts of the leaky bucket), C62 (what it lets through).
-/
namespace Str0m.Pacer

/-! ### Arithmetic -/

theorem mulDur_nonneg {r : Bitrate} (h : 0 ≤ r) (d : Nat) : 0 ≤ mulDur r d := by
  unfold mulDur
  apply Int.floor_nonneg.2
  have : (0 : ℚ) ≤ r * ((d : ℚ) / SEC) / 8 := by positivity
  linarith

theorem mulDur_mono {r s : Bitrate} (h : r ≤ s) (d : Nat) : mulDur r d ≤ mulDur s d := by
  unfold mulDur
  apply Int.floor_le_floor
  have : (0 : ℚ) ≤ (d : ℚ) / SEC := by positivity
  have := mul_le_mul_of_nonneg_right h this
  linarith

theorem mulDur_mono_dur {r : Bitrate} (h : 0 ≤ r) {d e : Nat} (hd : d ≤ e) : mulDur r d ≤ mulDur r e := by
  unfold mulDur
  apply Int.floor_le_floor
  have h1 : (d : ℚ) / SEC ≤ (e : ℚ) / SEC := by
    apply div_le_div_of_nonneg_right (by exact_mod_cast hd)
    positivity
  have := mul_le_mul_of_nonneg_left h1 h
  linarith

theorem mulDur_le (r : Bitrate) (d : Nat) : (mulDur r d : ℚ) ≤ r * ((d : ℚ) / SEC) / 8 + 1 / 2 := Int.floor_le _

theorem lt_mulDur (r : Bitrate) (d : Nat) : r * ((d : ℚ) / SEC) / 8 - 1 / 2 < (mulDur r d : ℚ) := by
  have := Int.lt_floor_add_one (r * ((d : ℚ) / SEC) / 8 + 1 / 2)
  unfold mulDur
  linarith

theorem divRate_le {x : Int} {r : Bitrate} (hr : 0 < r) {d : Nat} (h : divRate x r ≤ d) : (x : ℚ) * 8 * SEC < r * (d + 1 / 2) := by
  unfold divRate at h
  rw [if_neg (ne_of_gt hr)] at h
  have h1 : ⌊(x : ℚ) * 8 / r * SEC + 1 / 2⌋ ≤ (d : Int) := by omega
  have h2 := Int.lt_floor_add_one ((x : ℚ) * 8 / r * SEC + 1 / 2)
  have h3 : ((⌊(x : ℚ) * 8 / r * SEC + 1 / 2⌋ : Int) : ℚ) ≤ (d : ℚ) := by exact_mod_cast h1
  have h4 : (x : ℚ) * 8 / r * SEC < d + 1 / 2 := by linarith
  have h5 : (x : ℚ) * 8 / r * SEC = ((x : ℚ) * 8 * SEC) / r := by ring
  rw [h5, div_lt_iff₀ hr] at h4
  linarith

theorem satSub_nonneg (a b : Int) : 0 ≤ satSub a b := by unfold satSub; omega
theorem satSub_le {a b : Int} (ha : 0 ≤ a) (hb : 0 ≤ b) : satSub a b ≤ a := by unfold satSub; omega

/-! ### What the calls leave alone -/

theorem updateAdjusted_eq (l : Leaky) (now : Nat) : ∃ a, l.updateAdjusted now = { l with adjusted := a } ∧
    (a = l.baseRate ∨ (a = max 0 (min (l.minRate now) MAX_BITRATE) ∧ l.baseRate < l.minRate now)) := by
  unfold Leaky.updateAdjusted
  split
  · exact ⟨_, rfl, .inl rfl⟩
  · split
    · rename_i h; exact ⟨_, rfl, .inr ⟨rfl, h⟩⟩
    · exact ⟨_, rfl, .inl rfl⟩

theorem paddingRequest_eq (l : Leaky) (now : Nat) : ∃ b ps, (l.paddingRequest now).1 = { l with hasPaddingQueue := b, probes := ps } ∧
    (ps = [] ∨ ps = l.probes ∨ ∃ p rest, l.probes = p :: rest ∧ ps = (p.nextPacket now).1 :: rest) := by
  unfold Leaky.paddingRequest
  split
  · exact ⟨l.hasPaddingQueue, l.probes, rfl, .inr (.inl rfl)⟩
  · split
    · exact ⟨_, _, rfl, .inl rfl⟩
    · split
      · rename_i p rest hp
        split
        · exact ⟨true, l.probes, rfl, .inr (.inl rfl)⟩
        · exact ⟨true, _, rfl, .inr (.inr ⟨p, rest, hp, rfl⟩)⟩
      · split
        · exact ⟨true, l.probes, rfl, .inr (.inl rfl)⟩
        · split
          · exact ⟨true, l.probes, rfl, .inr (.inl rfl)⟩
          · exact ⟨true, l.probes, rfl, .inr (.inl rfl)⟩

theorem finish_eq (l : Leaky) (now : Nat) : ∃ q t, l.finish now = { l with nextPollQueue := q, nextPollTime := t } := by
  unfold Leaky.finish
  split
  · exact ⟨l.nextPollQueue, l.nextPollTime, rfl⟩
  · split
    · exact ⟨l.nextPollQueue, l.nextPollTime, rfl⟩
    · exact ⟨_, _, rfl⟩

theorem nextPacket_config (p : Probe) (now : Nat) : (p.nextPacket now).1.config = p.config := by
  unfold Probe.nextPacket
  dsimp only
  repeat' split
  all_goals rfl

/-- All that a timeout changes in debts and rates. -/
theorem handleTimeout_eq (l : Leaky) (now : Nat) (qs : List QueueState) :
    (l.handleTimeout now qs).1.mediaDebt = satSub l.mediaDebt (mulDur l.adjusted (l.elapsed now)) ∧
    (l.handleTimeout now qs).1.paddingDebt = satSub l.paddingDebt (mulDur l.padding (l.elapsed now)) ∧
    (l.handleTimeout now qs).1.pacing = l.pacing ∧ (l.handleTimeout now qs).1.padding = l.padding ∧
    (l.handleTimeout now qs).1.lastHandle = some now ∧ (l.handleTimeout now qs).1.needsTimeout = false ∧
    (l.handleTimeout now qs).1.adjusted = (l.begin now qs).adjusted ∧
    (l.handleTimeout now qs).1.lastEmitted = l.lastEmitted ∧
    ((l.handleTimeout now qs).1.probes = [] ∨ (l.handleTimeout now qs).1.probes = l.probes ∨
      ∃ p rest, l.probes = p :: rest ∧ (l.handleTimeout now qs).1.probes = (p.nextPacket now).1 :: rest) := by
  obtain ⟨a, ha, -⟩ := updateAdjusted_eq (Leaky.clearDebt { l with needsTimeout := false, nextPollTime := none, queues := qs, lastHandle := some now } (l.elapsed now)) now
  have hb : l.begin now qs = { Leaky.clearDebt { l with needsTimeout := false, nextPollTime := none, queues := qs, lastHandle := some now } (l.elapsed now) with adjusted := a } := ha
  obtain ⟨b, ps, hp, hps⟩ := paddingRequest_eq (l.begin now qs) now
  have hpb : (l.begin now qs).probes = l.probes := by rw [hb]; rfl
  rw [hpb] at hps
  unfold Leaky.handleTimeout
  cases hr : Leaky.paddingRequest (l.begin now qs) now with
  | mk l' req =>
    rw [hr] at hp
    dsimp only at hp
    cases req with
    | some req =>
      dsimp only
      rw [hp, hb]
      exact ⟨rfl, rfl, rfl, rfl, rfl, rfl, rfl, rfl, hps⟩
    | none =>
      dsimp only
      obtain ⟨q, t, hf⟩ := finish_eq l' now
      rw [hf, hp, hb]
      exact ⟨rfl, rfl, rfl, rfl, rfl, rfl, rfl, rfl, hps⟩

theorem pollQueue_eq (l : Leaky) : ∃ q b t, l.pollQueue.1 = { l with nextPollQueue := q, needsTimeout := b, nextPollTime := t } := by
  unfold Leaky.pollQueue
  split
  · exact ⟨l.nextPollQueue, l.needsTimeout, l.nextPollTime, rfl⟩
  · split
    · exact ⟨l.nextPollQueue, l.needsTimeout, l.nextPollTime, rfl⟩
    · exact ⟨_, _, _, rfl⟩

theorem checkInternal_eq (l : Leaky) : ∃ ps, l.checkInternal.1 = { l with probes := ps } ∧ ∀ p ∈ ps, p ∈ l.probes := by
  unfold Leaky.checkInternal
  split
  · exact ⟨l.probes, rfl, fun p h => h⟩
  · rename_i p rest hp
    split
    · exact ⟨rest, rfl, fun q h => by rw [hp]; exact List.mem_cons_of_mem _ h⟩
    · exact ⟨l.probes, rfl, fun p h => h⟩

theorem registerSend_eq (l : Leaky) (now : Nat) (size : Int) : ∃ ps c, l.registerSend now size = { l.register now size with probes := ps, completedProbe := c } ∧
    ∀ p ∈ ps, p ∈ (l.register now size).probes := by
  obtain ⟨ps, h1, h2⟩ := checkInternal_eq (l.register now size)
  unfold Leaky.registerSend
  cases hr : Leaky.checkInternal (l.register now size) with
  | mk l' c =>
    rw [hr] at h1
    dsimp only at h1
    cases c with
    | some c => dsimp only; rw [h1]; exact ⟨_, _, rfl, h2⟩
    | none => dsimp only; rw [h1]; exact ⟨_, _, rfl, h2⟩

/-! ### Debts -/

/-- What may be called. -/
inductive Op where
  | handle (now : Nat) (qs : List QueueState)
  | poll
  | register (now : Nat) (size : Int)
  | setPacing (r : Bitrate)
  | setPadding (r : Bitrate)
  | startProbe (c : ProbeConfig)
  | check

def Op.run (l : Leaky) : Op → Leaky
  | .handle now qs => (l.handleTimeout now qs).1
  | .poll => l.pollQueue.1
  | .register now size => l.registerSend now size
  | .setPacing r => l.setPacingRate r
  | .setPadding r => l.setPaddingRate r
  | .startProbe c => l.startProbe c
  | .check => l.checkComplete.1

/-- Rates and sizes that are not negative. -/
def Op.Valid : Op → Prop
  | .register _ size => 0 ≤ size
  | .setPacing r => 0 ≤ r
  | .setPadding r => 0 ≤ r
  | .startProbe c => 0 ≤ c.targetBitrate
  | _ => True

/-- All pacing and probing rates at most `a`, all padding rates at most `p`. -/
def Op.Rates (a p : Bitrate) : Op → Prop
  | .setPacing r => r ≤ a
  | .setPadding r => r ≤ p
  | .startProbe c => c.targetBitrate ≤ a
  | _ => True

structure Debts (a p : Bitrate) (l : Leaky) : Prop where
  media0 : 0 ≤ l.mediaDebt
  padding0 : 0 ≤ l.paddingDebt
  pacingR : 0 ≤ l.pacing ∧ l.pacing ≤ a
  adjustedR : 0 ≤ l.adjusted ∧ l.adjusted ≤ a
  paddingR : 0 ≤ l.padding ∧ l.padding ≤ p
  probeR : ∀ q ∈ l.probes, 0 ≤ q.config.targetBitrate ∧ q.config.targetBitrate ≤ a
  media : l.mediaDebt ≤ mulDur a MAX_DEBT_IN_TIME
  padding : l.paddingDebt ≤ mulDur p MAX_DEBT_IN_TIME

theorem baseRate_bounds {a p : Bitrate} {l : Leaky} (h : Debts a p l) : 0 ≤ l.baseRate ∧ l.baseRate ≤ a := by
  unfold Leaky.baseRate
  split
  · rename_i q rest hq
    exact h.probeR q (by rw [hq]; exact List.mem_cons_self ..)
  · exact h.pacingR

theorem begin_adjusted {a p : Bitrate} (hmax : MAX_BITRATE ≤ a) {l : Leaky} (h : Debts a p l) (now : Nat) (qs : List QueueState) :
    0 ≤ (l.begin now qs).adjusted ∧ (l.begin now qs).adjusted ≤ a := by
  obtain ⟨x, hx, hc⟩ := updateAdjusted_eq (Leaky.clearDebt { l with needsTimeout := false, nextPollTime := none, queues := qs, lastHandle := some now } (l.elapsed now)) now
  have e : (l.begin now qs).adjusted = x := by show (Leaky.updateAdjusted _ now).adjusted = x; rw [hx]
  rw [e]
  rcases hc with hc | ⟨hc, -⟩
  · rw [hc]
    exact baseRate_bounds (a := a) (p := p) (l := l) h
  · rw [hc]
    refine ⟨le_max_left _ _, max_le ?_ ((min_le_right _ _).trans hmax)⟩
    exact h.pacingR.1.trans h.pacingR.2

theorem Debts.step {a p : Bitrate} (hmax : MAX_BITRATE ≤ a) {l : Leaky} (h : Debts a p l) {o : Op} (hv : o.Valid) (hr : o.Rates a p) : Debts a p (o.run l) := by
  cases o with
  | handle now qs =>
    obtain ⟨e1, e2, e3, e4, -, -, e7, -, e9⟩ := handleTimeout_eq l now qs
    have m1 := mulDur_nonneg h.adjustedR.1 (l.elapsed now)
    have m2 := mulDur_nonneg h.paddingR.1 (l.elapsed now)
    constructor
    · show 0 ≤ (l.handleTimeout now qs).1.mediaDebt; rw [e1]; exact satSub_nonneg _ _
    · show 0 ≤ (l.handleTimeout now qs).1.paddingDebt; rw [e2]; exact satSub_nonneg _ _
    · show 0 ≤ (l.handleTimeout now qs).1.pacing ∧ (l.handleTimeout now qs).1.pacing ≤ a; rw [e3]; exact h.pacingR
    · show 0 ≤ (l.handleTimeout now qs).1.adjusted ∧ (l.handleTimeout now qs).1.adjusted ≤ a; rw [e7]; exact begin_adjusted hmax h now qs
    · show 0 ≤ (l.handleTimeout now qs).1.padding ∧ (l.handleTimeout now qs).1.padding ≤ p; rw [e4]; exact h.paddingR
    · show ∀ q ∈ (l.handleTimeout now qs).1.probes, _
      rcases e9 with e | e | ⟨q, rest, e, e'⟩
      · rw [e]; intro q hq; cases hq
      · rw [e]; exact h.probeR
      · rw [e']
        intro x hx
        rcases List.mem_cons.1 hx with hx | hx
        · rw [hx, nextPacket_config]; exact h.probeR q (by rw [e]; exact List.mem_cons_self ..)
        · exact h.probeR x (by rw [e]; exact List.mem_cons_of_mem _ hx)
    · show (l.handleTimeout now qs).1.mediaDebt ≤ _; rw [e1]; exact (satSub_le h.media0 m1).trans h.media
    · show (l.handleTimeout now qs).1.paddingDebt ≤ _; rw [e2]; exact (satSub_le h.padding0 m2).trans h.padding
  | poll =>
    obtain ⟨q, b, t, e⟩ := pollQueue_eq l
    show Debts a p l.pollQueue.1
    rw [e]
    exact ⟨h.media0, h.padding0, h.pacingR, h.adjustedR, h.paddingR, h.probeR, h.media, h.padding⟩
  | register now size =>
    obtain ⟨ps, c, e, hps⟩ := registerSend_eq l now size
    show Debts a p (l.registerSend now size)
    rw [e]
    have hs : 0 ≤ size := hv
    have m1 := mulDur_nonneg h.adjustedR.1 MAX_DEBT_IN_TIME
    have m2 := mulDur_nonneg h.paddingR.1 MAX_DEBT_IN_TIME
    have m3 := mulDur_mono h.adjustedR.2 MAX_DEBT_IN_TIME
    have m4 := mulDur_mono h.paddingR.2 MAX_DEBT_IN_TIME
    have k1 := h.media0
    have k2 := h.padding0
    refine ⟨?_, ?_, h.pacingR, h.adjustedR, h.paddingR, ?_, ?_, ?_⟩
    · show 0 ≤ min (l.mediaDebt + size) (mulDur l.adjusted MAX_DEBT_IN_TIME); omega
    · show 0 ≤ min (l.paddingDebt + size) (mulDur l.padding MAX_DEBT_IN_TIME); omega
    · intro q hq
      have hq' : q ∈ (l.register now size).probes := hps q hq
      unfold Leaky.register at hq'
      dsimp only at hq'
      split at hq'
      · cases hq'
      · rename_i x rest hx
        rcases List.mem_cons.1 hq' with hq' | hq'
        · rw [hq']; exact h.probeR x (by rw [hx]; exact List.mem_cons_self ..)
        · exact h.probeR q (by rw [hx]; exact List.mem_cons_of_mem _ hq')
    · show min (l.mediaDebt + size) (mulDur l.adjusted MAX_DEBT_IN_TIME) ≤ _; omega
    · show min (l.paddingDebt + size) (mulDur l.padding MAX_DEBT_IN_TIME) ≤ _; omega
  | setPacing r => exact ⟨h.media0, h.padding0, ⟨hv, hr⟩, h.adjustedR, h.paddingR, h.probeR, h.media, h.padding⟩
  | setPadding r => exact ⟨h.media0, h.padding0, h.pacingR, h.adjustedR, ⟨hv, hr⟩, h.probeR, h.media, h.padding⟩
  | startProbe c =>
    refine ⟨h.media0, h.padding0, h.pacingR, h.adjustedR, h.paddingR, ?_, h.media, h.padding⟩
    intro q hq
    rcases List.mem_append.1 hq with hq | hq
    · exact h.probeR q hq
    · rw [List.mem_singleton.1 hq]; exact ⟨hv, hr⟩
  | check =>
    show Debts a p l.checkComplete.1
    unfold Leaky.checkComplete
    split
    · exact ⟨h.media0, h.padding0, h.pacingR, h.adjustedR, h.paddingR, h.probeR, h.media, h.padding⟩
    · obtain ⟨ps, e, hps⟩ := checkInternal_eq l
      rw [e]
      exact ⟨h.media0, h.padding0, h.pacingR, h.adjustedR, h.paddingR, fun q hq => h.probeR q (hps q hq), h.media, h.padding⟩

/-- **C34** After any calls, with rates and sizes that are not negative, both debts are not negative; the padding debt is at most half a
second at the greatest padding rate there was, the media debt half a second at the greatest rate (pacing, probing, or the 10
Gbit/s that a long queue may ask for). -/
theorem C34_debts (r0 a p : Bitrate) (ops : List Op) (h0 : 0 ≤ r0 ∧ r0 ≤ a) (hp : 0 ≤ p) (hmax : MAX_BITRATE ≤ a) (hv : ∀ o ∈ ops, o.Valid) (hr : ∀ o ∈ ops, o.Rates a p) :
    let l := ops.foldl Op.run (Leaky.new r0)
    0 ≤ l.mediaDebt ∧ 0 ≤ l.paddingDebt ∧ l.mediaDebt ≤ mulDur a (500 * MS) ∧ l.paddingDebt ≤ mulDur p (500 * MS) := by
  have ha : 0 ≤ a := h0.1.trans h0.2
  have h : Debts a p (ops.foldl Op.run (Leaky.new r0)) := by
    have init : Debts a p (Leaky.new r0) := by
      refine ⟨Int.le_refl 0, Int.le_refl 0, h0, ⟨le_refl _, ha⟩, ⟨le_refl _, hp⟩, ?_, mulDur_nonneg ha _, mulDur_nonneg hp _⟩
      intro q hq; cases hq
    clear h0
    revert init
    generalize Leaky.new r0 = l
    induction ops generalizing l with
    | nil => exact id
    | cons o ops ih =>
      intro init
      exact ih (fun o ho => hv o (List.mem_cons_of_mem _ ho)) (fun o ho => hr o (List.mem_cons_of_mem _ ho)) _
        (init.step hmax (hv o (List.mem_cons_self ..)) (hr o (List.mem_cons_self ..)))
  exact ⟨h.media0, h.padding0, h.media, h.padding⟩

/-- **C34** Right after a packet is registered, the debts are at most half a second at the rates of that moment. -/
theorem C34_cap (l : Leaky) (now : Nat) (size : Int) :
    (l.registerSend now size).mediaDebt ≤ mulDur l.adjusted (500 * MS) ∧ (l.registerSend now size).paddingDebt ≤ mulDur l.padding (500 * MS) := by
  obtain ⟨ps, c, e, -⟩ := registerSend_eq l now size
  rw [e]
  exact ⟨Int.min_le_right _ _, Int.min_le_right _ _⟩

/-! ### Draining -/

/-- Timeouts only: the times and the queues. -/
def handles (l : Leaky) (hs : List (Nat × List QueueState)) : Leaky := hs.foldl (fun l h => (l.handleTimeout h.1 h.2).1) l

/-- What a rate drains in a number of steps at the given times. -/
def drained (r : Bitrate) : Nat → List Nat → Int
  | _, [] => 0
  | t, u :: us => mulDur r (u - t) + drained r u us

theorem drained_nonneg {r : Bitrate} (h : 0 ≤ r) : ∀ (us : List Nat) (t : Nat), 0 ≤ drained r t us
  | [], _ => Int.le_refl 0
  | u :: us, t => by
    have h1 := mulDur_nonneg h (u - t)
    have h2 := drained_nonneg h us u
    unfold drained
    omega

/-- **C34** When nothing is sent, the debts go down by what the rate makes in each step, until they are zero (the media debt at least so
fast: pacing rate `r` at most 10 Gbit/s, no probe). -/
theorem C34_drain (hs : List (Nat × List QueueState)) (l : Leaky) (t : Nat) (r : Bitrate) (ht : l.lastHandle = some t)
    (h0 : 0 ≤ l.mediaDebt ∧ 0 ≤ l.paddingDebt) (hr : 0 ≤ r ∧ r ≤ MAX_BITRATE) (hpad : 0 ≤ l.padding) (hpace : r ≤ l.pacing) (hadj : r ≤ l.adjusted) (hprobe : l.probes = []) :
    (handles l hs).paddingDebt ≤ max 0 (l.paddingDebt - drained l.padding t (hs.map (·.1))) ∧
    (handles l hs).mediaDebt ≤ max 0 (l.mediaDebt - drained r t (hs.map (·.1))) := by
  induction hs generalizing l t with
  | nil => unfold handles; simp only [List.foldl_nil, List.map_nil, drained]; omega
  | cons h hs ih =>
    obtain ⟨now, qs⟩ := h
    obtain ⟨e1, e2, e3, e4, e5, -, e7, -, e9⟩ := handleTimeout_eq l now qs
    have he : l.elapsed now = now - t := by unfold Leaky.elapsed; rw [ht]
    rw [he] at e1 e2
    have hprobe' : (l.handleTimeout now qs).1.probes = [] := by
      rcases e9 with e | e | ⟨q, rest, e, -⟩
      · exact e
      · rw [e, hprobe]
      · rw [hprobe] at e; cases e
    have hadj' : r ≤ (l.handleTimeout now qs).1.adjusted := by
      rw [e7]
      obtain ⟨x, hx, hc⟩ := updateAdjusted_eq (Leaky.clearDebt { l with needsTimeout := false, nextPollTime := none, queues := qs, lastHandle := some now } (l.elapsed now)) now
      have e : (l.begin now qs).adjusted = x := by show (Leaky.updateAdjusted _ now).adjusted = x; rw [hx]
      have hb : (Leaky.clearDebt { l with needsTimeout := false, nextPollTime := none, queues := qs, lastHandle := some now } (l.elapsed now)).baseRate = l.pacing := by
        unfold Leaky.baseRate Leaky.clearDebt
        dsimp only
        rw [hprobe]
      rw [hb] at hc
      rw [e]
      rcases hc with hc | ⟨hc, hlt⟩
      · rw [hc]; exact hpace
      · rw [hc]; exact (le_min (hpace.trans (le_of_lt hlt)) hr.2).trans (le_max_right _ _)
    have := ih (l.handleTimeout now qs).1 now e5 ⟨by rw [e1]; exact satSub_nonneg _ _, by rw [e2]; exact satSub_nonneg _ _⟩ (by rw [e4]; exact hpad) (by rw [e3]; exact hpace) hadj' hprobe'
    rw [e4, e2, e1] at this
    have hm := mulDur_mono hadj (now - t)
    have hd1 := drained_nonneg hpad (hs.map (·.1)) now
    have hd2 := drained_nonneg hr.1 (hs.map (·.1)) now
    unfold handles at this ⊢
    simp only [List.foldl_cons, List.map_cons, drained]
    unfold satSub at this
    omega

/-- **C34** So a single timeout after a long enough time clears both debts. -/
theorem C34_clears (l : Leaky) (t now : Nat) (qs : List QueueState) (ht : l.lastHandle = some t)
    (hm : l.mediaDebt ≤ mulDur l.adjusted (now - t)) (hp : l.paddingDebt ≤ mulDur l.padding (now - t)) :
    (l.handleTimeout now qs).1.mediaDebt = 0 ∧ (l.handleTimeout now qs).1.paddingDebt = 0 := by
  obtain ⟨e1, e2, -⟩ := handleTimeout_eq l now qs
  have he : l.elapsed now = now - t := by unfold Leaky.elapsed; rw [ht]
  rw [he] at e1 e2
  rw [e1, e2]
  unfold satSub
  omega

example : mulDur 1000000 (10 * MS) = 1250 := by rw [mulDur]; norm_num [MS, SEC]

theorem mulDur_tiny : mulDur 100000 1000 = 0 := by rw [mulDur]; norm_num [SEC]

/-- **C34**, not as the property says: what a rate makes is rounded to bytes in each timeout, and the time counts as used. At 100 kbit/s, with
a timeout each microsecond (1000 nanoseconds), the padding debt never goes down, for whatever time. -/
theorem C34_violation_busy (n : Nat) (l : Leaky) (t : Nat) (ht : l.lastHandle = some t) (hr : l.padding = 100000) (h0 : 0 ≤ l.paddingDebt) :
    (handles l ((List.range n).map (fun i => (t + 1000 * (i + 1), [])))).paddingDebt = l.paddingDebt := by
  have : ∀ n, (handles l ((List.range n).map (fun i => (t + 1000 * (i + 1), [])))).paddingDebt = l.paddingDebt ∧
      (handles l ((List.range n).map (fun i => (t + 1000 * (i + 1), [])))).padding = 100000 ∧
      (handles l ((List.range n).map (fun i => (t + 1000 * (i + 1), [])))).lastHandle = some (t + 1000 * n) := by
    intro n
    induction n with
    | zero => exact ⟨rfl, hr, ht⟩
    | succ n ih =>
      have e : handles l ((List.range (n + 1)).map (fun i => (t + 1000 * (i + 1), []))) =
          ((handles l ((List.range n).map (fun i => (t + 1000 * (i + 1), [])))).handleTimeout (t + 1000 * (n + 1)) []).1 := by
        unfold handles
        rw [List.range_succ, List.map_append, List.foldl_append]
        rfl
      rw [e]
      obtain ⟨-, e2, -, e4, e5, -⟩ := handleTimeout_eq (handles l ((List.range n).map (fun i => (t + 1000 * (i + 1), [])))) (t + 1000 * (n + 1)) []
      refine ⟨?_, by rw [e4]; exact ih.2.1, e5⟩
      rw [e2, ih.1, ih.2.1]
      have he : Leaky.elapsed (handles l ((List.range n).map (fun i => (t + 1000 * (i + 1), [])))) (t + 1000 * (n + 1)) = 1000 := by
        unfold Leaky.elapsed; rw [ih.2.2]; dsimp only; omega
      rw [he, mulDur_tiny]
      unfold satSub
      omega
  exact (this n).1

/-! ### What is let through -/

/-- What the session does: timeouts, and sending. For a packet it asks which queue to poll, and registers what that gives. -/
inductive Step where
  | handle (now : Nat) (qs : List QueueState)
  | send (now : Nat) (size : Nat)
  | setPadding (r : Bitrate)

/-- The pacer and all bytes sent. -/
def Step.run (s : Leaky × Int) : Step → Leaky × Int
  | .handle now qs => ((s.1.handleTimeout now qs).1, s.2)
  | .send now size =>
    match s.1.pollQueue with
    | (l, some _) => (l.registerSend now size, s.2 + size)
    | (l, none) => (l, s.2)
  | .setPadding r => (s.1.setPaddingRate r, s.2)

/-- The queues do not need more than the rate: their bytes go out in the time that is left of two seconds after the average time that
packets have waited already. -/
def Calm (R : Bitrate) (now : Nat) (qs : List QueueState) : Prop :=
  (queueTotals now qs).2.1 = 0 ∨ divDur (queueTotals now qs).2.2 (max MS (2 * SEC - (queueTotals now qs).1 / (queueTotals now qs).2.1)) ≤ R

/-- Packets have at most `M` bytes, all queues are paced and calm. -/
def Step.Ok (R : Bitrate) (M : Nat) : Step → Prop
  | .handle now qs => Calm R now qs ∧ ∀ q ∈ qs, q.isUnpaced = false
  | .send _ size => size ≤ M
  | .setPadding _ => True

/-- The times of the timeouts. -/
def times (steps : List Step) : List Nat := steps.filterMap (fun s => match s with | .handle now _ => some now | _ => none)

structure Paced (R : Bitrate) (M : Nat) (l : Leaky) : Prop where
  pacing : l.pacing = R
  limit : l.queueLimit = 2 * SEC
  probes : l.probes = []
  started : (l.adjusted = R ∧ l.lastHandle ≠ none) ∨ (l.needsTimeout = true ∧ l.nextPollQueue = none ∧ l.mediaDebt = 0 ∧ l.lastHandle = none)
  debt0 : 0 ≤ l.mediaDebt
  debt : (l.mediaDebt : ℚ) * 8 * SEC ≤ R * (PACING + 1 / 2) + 8 * SEC * M
  ready : l.nextPollQueue ≠ none → (l.mediaDebt : ℚ) * 8 * SEC ≤ R * (PACING + 1 / 2)
  fresh : l.lastEmitted = none → l.mediaDebt = 0

theorem firstUnpaced_none {qs : List QueueState} (h : ∀ q ∈ qs, q.isUnpaced = false) : firstUnpaced qs = none := by
  unfold firstUnpaced
  have : qs.filter (·.isUnpaced) = [] := by
    rw [List.filter_eq_nil_iff]
    intro q hq; simp [h q hq]
  rw [this]; rfl

theorem nextPadding_none {l : Leaky} {now : Nat} {t : Nat × Reason} {q : Option QueueState} (h : l.nextPadding now = some (t, q)) : q = none := by
  unfold Leaky.nextPadding at h
  split at h
  · split at h
    · exact (Prod.mk.inj (Option.some.inj h)).2.symm
    · exact (Prod.mk.inj (Option.some.inj h)).2.symm
  · cases h

/-- When a queue is chosen, little debt is left. -/
theorem nextPoll_ready {l : Leaky} {now t : Nat} {r : Reason} {q : QueueState} (hun : firstUnpaced l.queues = none) (hp : l.probes = [])
    (hh : l.lastHandle = some now) (h : l.nextPoll now = some ((t, r), some q)) (ht : ¬ now < t) :
    l.lastEmitted = none ∨ (0 < l.adjusted ∧ divRate l.mediaDebt l.adjusted ≤ PACING) := by
  unfold Leaky.nextPoll at h
  split at h
  · rename_i hn
    left
    simpa using hn
  · rw [hun] at h
    dsimp only at h
    split at h
    · split at h
      · rename_i ha
        right
        refine ⟨ha, ?_⟩
        rw [hp, hh] at h
        dsimp only at h
        have h1 := (Prod.mk.inj (Prod.mk.inj (Option.some.inj h)).1).1
        unfold Leaky.sendOffset at h1
        split at h1
        · rename_i hgt
          have : PACING > 0 := by decide
          omega
        · omega
      · have := nextPadding_none h; cases this
    · have := nextPadding_none h; cases this

theorem ready_of_div {R : Bitrate} (hR : 0 < R) {x : Int} (h : divRate x R ≤ PACING) : (x : ℚ) * 8 * SEC ≤ R * (PACING + 1 / 2) := by
  have := divRate_le hR h
  linarith

theorem begin_adjusted_calm {R : Bitrate} {M : Nat} {l : Leaky} (h : Paced R M l) (hR : 0 < R) {now : Nat} {qs : List QueueState} (hc : Calm R now qs) :
    (l.begin now qs).adjusted = R := by
  have hb : (Leaky.clearDebt { l with needsTimeout := false, nextPollTime := none, queues := qs, lastHandle := some now } (l.elapsed now)).baseRate = R := by
    unfold Leaky.baseRate Leaky.clearDebt
    dsimp only
    rw [h.probes]; exact h.pacing
  show (Leaky.updateAdjusted _ now).adjusted = R
  unfold Leaky.updateAdjusted
  rw [hb]
  split
  · rfl
  · rename_i hz
    rw [if_neg]
    · rcases hc with hc | hc
      · exact absurd hc hz
      · have e : (Leaky.clearDebt { l with needsTimeout := false, nextPollTime := none, queues := qs, lastHandle := some now } (l.elapsed now)).minRate now =
            divDur (queueTotals now qs).2.2 (max MS (2 * SEC - (queueTotals now qs).1 / (queueTotals now qs).2.1)) := by
          unfold Leaky.minRate
          rw [← h.limit]
          rfl
        rw [e]
        exact not_lt.2 hc

theorem scale_nonneg : (0 : ℚ) ≤ 8 * (SEC : ℚ) := by positivity

theorem Paced.handle {R : Bitrate} {M : Nat} {l : Leaky} (h : Paced R M l) (hR : 0 < R) {now : Nat} {qs : List QueueState} (hc : Calm R now qs)
    (hun : ∀ q ∈ qs, q.isUnpaced = false) : Paced R M (l.handleTimeout now qs).1 ∧
    l.mediaDebt ≤ (l.handleTimeout now qs).1.mediaDebt + (if l.lastHandle = none then 0 else mulDur R (l.elapsed now)) := by
  obtain ⟨e1, -, e3, -, e5, -, e7, e8, e9⟩ := handleTimeout_eq l now qs
  have hadj := begin_adjusted_calm h hR hc
  rw [hadj] at e7
  have hprobe' : (l.handleTimeout now qs).1.probes = [] := by
    rcases e9 with e | e | ⟨q, rest, e, -⟩
    · exact e
    · rw [e, h.probes]
    · rw [h.probes] at e; cases e
  have hmul : 0 ≤ mulDur l.adjusted (l.elapsed now) := by
    rcases h.started with ⟨a, -⟩ | ⟨-, -, -, a⟩
    · rw [a]; exact mulDur_nonneg (le_of_lt hR) _
    · unfold Leaky.elapsed; rw [a]; unfold mulDur; norm_num
  have hle : (l.handleTimeout now qs).1.mediaDebt ≤ l.mediaDebt := by rw [e1]; exact satSub_le h.debt0 hmul
  have hleq : ((l.handleTimeout now qs).1.mediaDebt : ℚ) * 8 * SEC ≤ (l.mediaDebt : ℚ) * 8 * SEC := by
    have : ((l.handleTimeout now qs).1.mediaDebt : ℚ) ≤ (l.mediaDebt : ℚ) := by exact_mod_cast hle
    have := mul_le_mul_of_nonneg_right this scale_nonneg
    linarith
  have h0 : 0 ≤ (l.handleTimeout now qs).1.mediaDebt := by rw [e1]; exact satSub_nonneg _ _
  have hlim : (l.handleTimeout now qs).1.queueLimit = l.queueLimit := by
    obtain ⟨a, ha, -⟩ := updateAdjusted_eq (Leaky.clearDebt { l with needsTimeout := false, nextPollTime := none, queues := qs, lastHandle := some now } (l.elapsed now)) now
    have hb : (l.begin now qs).queueLimit = l.queueLimit := by show (Leaky.updateAdjusted _ now).queueLimit = _; rw [ha]; rfl
    obtain ⟨b, ps, hp, -⟩ := paddingRequest_eq (l.begin now qs) now
    unfold Leaky.handleTimeout
    cases hr : Leaky.paddingRequest (l.begin now qs) now with
    | mk l' req =>
      rw [hr] at hp
      dsimp only at hp
      cases req with
      | some req => dsimp only; rw [hp]; exact hb
      | none =>
        obtain ⟨q, t, hf⟩ := finish_eq l' now
        dsimp only; rw [hf, hp]; exact hb
  refine ⟨⟨by rw [e3]; exact h.pacing, by rw [hlim]; exact h.limit, hprobe', .inl ⟨e7, by rw [e5]; simp⟩, h0, hleq.trans h.debt, ?_, ?_⟩, ?_⟩
  · -- ready
    intro hsome
    by_cases hold : l.nextPollQueue = none
    · -- newly chosen
      have hzero : (l.handleTimeout now qs).1.mediaDebt = 0 ∨ divRate (l.handleTimeout now qs).1.mediaDebt R ≤ PACING := by
        obtain ⟨a, ha, -⟩ := updateAdjusted_eq (Leaky.clearDebt { l with needsTimeout := false, nextPollTime := none, queues := qs, lastHandle := some now } (l.elapsed now)) now
        have hb : l.begin now qs = { Leaky.clearDebt { l with needsTimeout := false, nextPollTime := none, queues := qs, lastHandle := some now } (l.elapsed now) with adjusted := a } := ha
        have hbp : (l.begin now qs).probes = [] := by rw [hb]; exact h.probes
        have hbd : (l.begin now qs).mediaDebt = (l.handleTimeout now qs).1.mediaDebt := by rw [e1, hb]; rfl
        have hbq : (l.begin now qs).nextPollQueue = none := by rw [hb]; exact hold
        have hbl : (l.begin now qs).lastHandle = some now := by rw [hb]; rfl
        have hbe : (l.begin now qs).lastEmitted = l.lastEmitted := by rw [hb]; rfl
        have hbqs : (l.begin now qs).queues = qs := by rw [hb]; rfl
        obtain ⟨b, ps, hp, hps⟩ := paddingRequest_eq (l.begin now qs) now
        unfold Leaky.handleTimeout at hsome
        cases hr : Leaky.paddingRequest (l.begin now qs) now with
        | mk l' req =>
          rw [hr] at hsome hp
          dsimp only at hp
          cases req with
          | some req =>
            left
            rw [← hbd]
            have hr2 : (Leaky.paddingRequest (l.begin now qs) now).2 = some req := by rw [hr]
            unfold Leaky.paddingRequest at hr2
            rw [hbp] at hr2
            split at hr2
            · cases hr2
            · split at hr2
              · cases hr2
              · dsimp only at hr2
                split at hr2
                · cases hr2
                · rename_i hd
                  by_contra hne
                  exact hd (.inl hne)
          | none =>
            dsimp only at hsome
            have hl'q : l'.nextPollQueue = none := by rw [hp]; exact hbq
            have hl'p : l'.probes = [] := by
              rw [hp]
              show ps = []
              rcases hps with e | e | ⟨q, rest, e, -⟩
              · exact e
              · rw [e]; exact hbp
              · rw [hbp] at e; cases e
            have hl'l : l'.lastHandle = some now := by rw [hp]; exact hbl
            have hl'e : l'.lastEmitted = l.lastEmitted := by rw [hp]; exact hbe
            have hl'd : l'.mediaDebt = (l.handleTimeout now qs).1.mediaDebt := by rw [hp]; exact hbd
            have hl'a : l'.adjusted = R := by rw [hp]; exact hadj
            have hl'qs : l'.queues = qs := by rw [hp]; exact hbqs
            unfold Leaky.finish at hsome
            rw [if_neg (by rw [hl'q]; simp)] at hsome
            cases hn : l'.nextPoll now with
            | none => rw [hn] at hsome; exact absurd hl'q hsome
            | some v =>
              obtain ⟨⟨t, r⟩, q⟩ := v
              rw [hn] at hsome
              dsimp only at hsome
              split at hsome
              · exact absurd rfl hsome
              · rename_i hnt
                cases q with
                | none => exact absurd rfl hsome
                | some q =>
                  have := nextPoll_ready (by rw [hl'qs]; exact firstUnpaced_none hun) hl'p hl'l hn hnt
                  rw [hl'e, hl'd, hl'a] at this
                  rcases this with h1 | h1
                  · left
                    have := h.fresh h1
                    omega
                  · exact .inr h1.2
      rcases hzero with hz | hz
      · rw [hz]
        have : (0 : ℚ) ≤ R * (PACING + 1 / 2) := by positivity
        simpa using this
      · exact ready_of_div hR hz
    · exact hleq.trans (h.ready hold)
  · intro hfr
    rw [e8] at hfr
    have := h.fresh hfr
    omega
  · rw [e1]
    rcases h.started with ⟨a, hne⟩ | ⟨-, -, a, hn⟩
    · rw [if_neg hne, a]; unfold satSub; omega
    · rw [if_pos hn, a]
      have := satSub_nonneg 0 (mulDur l.adjusted (l.elapsed now))
      omega

/-- The cap of the debt is not reached. -/
theorem cap_far {R : Bitrate} {M : Nat} (hM : 20 * (M : ℚ) ≤ R) (hR : 100 ≤ R) {x : Int} {size : Nat} (hs : size ≤ M) (hx : (x : ℚ) * 8 * SEC ≤ R * (PACING + 1 / 2)) :
    x + size ≤ mulDur R MAX_DEBT_IN_TIME := by
  have h1 := lt_mulDur R MAX_DEBT_IN_TIME
  have hs' : (size : ℚ) ≤ M := by exact_mod_cast hs
  have e1 : (SEC : ℚ) = 1000000000 := by norm_num [SEC]
  have e2 : (PACING : ℚ) = 40000000 := by norm_num [PACING, MS]
  have e3 : (MAX_DEBT_IN_TIME : ℚ) = 500000000 := by norm_num [MAX_DEBT_IN_TIME, MS]
  rw [e1, e3] at h1
  rw [e1, e2] at hx
  have h2 : ((x + size : Int) : ℚ) < (mulDur R MAX_DEBT_IN_TIME : ℚ) := by
    push_cast
    linarith
  have : x + (size : Int) < mulDur R MAX_DEBT_IN_TIME := by exact_mod_cast h2
  omega

theorem Paced.step {R : Bitrate} {M : Nat} (hM : 20 * (M : ℚ) ≤ R) (hR : 100 ≤ R) {l : Leaky} (sent : Int) (h : Paced R M l) {s : Step} (hs : s.Ok R M) :
    Paced R M (s.run (l, sent)).1 ∧
    (s.run (l, sent)).2 + l.mediaDebt ≤ sent + (s.run (l, sent)).1.mediaDebt +
      (match s with | .handle now _ => (if l.lastHandle = none then 0 else mulDur R (l.elapsed now)) | _ => 0) ∧
    (s.run (l, sent)).1.lastHandle = (match s with | .handle now _ => some now | _ => l.lastHandle) := by
  have hR0 : 0 < R := by linarith
  cases s with
  | handle now qs =>
    obtain ⟨h1, h2⟩ := h.handle hR0 hs.1 hs.2
    refine ⟨h1, ?_, (handleTimeout_eq l now qs).2.2.2.2.1⟩
    show sent + l.mediaDebt ≤ sent + (l.handleTimeout now qs).1.mediaDebt + _
    dsimp only
    omega
  | setPadding r =>
    refine ⟨⟨h.pacing, h.limit, h.probes, h.started, h.debt0, h.debt, h.ready, h.fresh⟩, ?_, rfl⟩
    show sent + l.mediaDebt ≤ sent + l.mediaDebt + 0
    omega
  | send now size =>
    have hsz : size ≤ M := hs
    unfold Step.run
    cases hp : l.pollQueue with
    | mk l' res =>
      unfold Leaky.pollQueue at hp
      split at hp
      · obtain ⟨e1, e2⟩ := Prod.mk.inj hp
        subst e1; subst e2
        refine ⟨h, ?_, rfl⟩
        dsimp only; omega
      · rename_i hneeds
        split at hp
        · obtain ⟨e1, e2⟩ := Prod.mk.inj hp
          subst e1; subst e2
          refine ⟨h, ?_, rfl⟩
          dsimp only; omega
        · rename_i next hnext
          obtain ⟨e1, e2⟩ := Prod.mk.inj hp
          subst e2
          have hready := h.ready (by rw [hnext]; simp)
          have hst : l.adjusted = R ∧ l.lastHandle ≠ none := by
            rcases h.started with a | ⟨a, -⟩
            · exact a
            · exact absurd a hneeds
          have hcap := cap_far hM hR hsz hready
          obtain ⟨ps, c, er, hps⟩ := registerSend_eq l' now (size : Int)
          have hd : (l'.registerSend now size).mediaDebt = l.mediaDebt + size := by
            rw [er, ← e1]
            show min (l.mediaDebt + size) (mulDur l.adjusted MAX_DEBT_IN_TIME) = _
            rw [hst.1]; omega
          dsimp only
          have hps' : ps = [] := by
            cases ps with
            | nil => rfl
            | cons p ps =>
              have := hps p (List.mem_cons_self ..)
              rw [← e1] at this
              unfold Leaky.register at this
              dsimp only at this
              rw [h.probes] at this
              cases this
          have hd0 := h.debt0
          refine ⟨⟨?_, ?_, ?_, .inl ⟨?_, ?_⟩, by rw [hd]; omega, ?_, ?_, ?_⟩, ?_, ?_⟩
          · rw [er, ← e1]; exact h.pacing
          · rw [er, ← e1]; exact h.limit
          · rw [er]; exact hps'
          · rw [er, ← e1]; exact hst.1
          · rw [er, ← e1]; exact hst.2
          · rw [hd]
            push_cast
            have h2 : (size : ℚ) ≤ M := by exact_mod_cast hsz
            have := mul_le_mul_of_nonneg_left h2 scale_nonneg
            linarith
          · intro hne
            exfalso
            apply hne
            rw [er, ← e1]
            rfl
          · intro hne
            rw [er] at hne
            cases hne
          · rw [hd]; omega
          · rw [er, ← e1]; rfl

/-- What the rate makes over some timeouts, the first possibly the first ever. -/
def drainedFrom (R : Bitrate) : Option Nat → List Nat → Int
  | _, [] => 0
  | none, u :: us => drained R u us
  | some t, us => drained R t us

theorem paced_run {R : Bitrate} {M : Nat} (hM : 20 * (M : ℚ) ≤ R) (hR : 100 ≤ R) : ∀ (steps : List Step) (l : Leaky) (sent : Int), Paced R M l →
    (∀ s ∈ steps, s.Ok R M) → Paced R M (steps.foldl Step.run (l, sent)).1 ∧
    (steps.foldl Step.run (l, sent)).2 + l.mediaDebt ≤ sent + (steps.foldl Step.run (l, sent)).1.mediaDebt + drainedFrom R l.lastHandle (times steps)
  | [], l, sent, h, _ => by
    refine ⟨h, ?_⟩
    show sent + l.mediaDebt ≤ sent + l.mediaDebt + drainedFrom R l.lastHandle []
    cases l.lastHandle <;> simp [drainedFrom]
  | s :: steps, l, sent, h, hs => by
    obtain ⟨h1, h2, h3⟩ := h.step hM hR sent (hs s (List.mem_cons_self ..))
    obtain ⟨k1, k2⟩ := paced_run hM hR steps (s.run (l, sent)).1 (s.run (l, sent)).2 h1 (fun s hs' => hs s (List.mem_cons_of_mem _ hs'))
    have hpair : ((s.run (l, sent)).1, (s.run (l, sent)).2) = s.run (l, sent) := rfl
    rw [hpair] at k1 k2
    refine ⟨k1, ?_⟩
    rw [List.foldl_cons]
    rw [h3] at k2
    cases s with
    | handle now qs =>
      have e : drainedFrom R l.lastHandle (times (.handle now qs :: steps)) =
          (if l.lastHandle = none then 0 else mulDur R (l.elapsed now)) + drainedFrom R (some now) (times steps) := by
        have ht : times (.handle now qs :: steps) = now :: times steps := rfl
        have hd : drainedFrom R (some now) (times steps) = drained R now (times steps) := by
          cases times steps <;> rfl
        rw [ht, hd]
        unfold Leaky.elapsed
        cases l.lastHandle with
        | none => simp [drainedFrom]
        | some t => simp [drainedFrom, drained]
      rw [e]
      dsimp only at h2 k2
      omega
    | send now size =>
      have e : times (.send now size :: steps) = times steps := rfl
      rw [e]
      dsimp only at h2 k2
      omega
    | setPadding r =>
      have e : times (.setPadding r :: steps) = times steps := rfl
      rw [e]
      dsimp only at h2 k2
      omega

theorem paced_new {R : Bitrate} (hR : 0 ≤ R) (M : Nat) : Paced R M (Leaky.new R) := by
  refine ⟨rfl, rfl, rfl, .inr ⟨rfl, rfl, rfl, rfl⟩, Int.le_refl 0, ?_, ?_, fun _ => rfl⟩
  · show ((0 : Int) : ℚ) * 8 * SEC ≤ _
    have : (0 : ℚ) ≤ R * (PACING + 1 / 2) := by positivity
    have h2 : (0 : ℚ) ≤ 8 * SEC * M := by positivity
    simp only [Int.cast_zero, zero_mul]
    linarith
  · intro h; exact absurd rfl h

theorem drained_le {R : Bitrate} : ∀ (us : List Nat) (t : Nat), (t :: us).Pairwise (· ≤ ·) →
    (drained R t us : ℚ) ≤ R * ((((t :: us).getLast (by simp) : Nat) : ℚ) - t) / SEC / 8 + us.length / 2
  | [], t, _ => by simp [drained]
  | u :: us, t, h => by
    have hp := List.pairwise_cons.1 h
    have ih := drained_le (R := R) us u hp.2
    have hu : t ≤ u := hp.1 u (List.mem_cons_self ..)
    have h1 := mulDur_le R (u - t)
    rw [Nat.cast_sub hu] at h1
    have e : (t :: u :: us).getLast (by simp) = (u :: us).getLast (by simp) := rfl
    rw [e]
    unfold drained
    push_cast
    rw [List.length_cons]
    push_cast
    have e2 : R * ((((u :: us).getLast (by simp) : Nat) : ℚ) - t) / SEC / 8 =
        R * ((((u :: us).getLast (by simp) : Nat) : ℚ) - u) / SEC / 8 + R * (((u : ℚ) - t) / SEC) / 8 := by ring
    rw [e2]
    linarith

/-- **C62** With a pacing rate `R`, no probes, all queues paced and none so long that it needs more than `R`, and packets of at most
`M` bytes (not more than 0.4 seconds worth): over any part `steps` of any history, in which timeouts happen at `t` and then `us`, the
bits sent are at most what `R` makes in the time of that part and 40 milliseconds (and half a nanosecond), and one packet, and half a byte
per timeout. -/
theorem C62_rate {R : Bitrate} {M : Nat} (hM : 20 * (M : ℚ) ≤ R) (hR : 100 ≤ R) (pre : List Step) (steps : List Step)
    (hpre : ∀ s ∈ pre, s.Ok R M) (hs : ∀ s ∈ steps, s.Ok R M) (t : Nat) (us : List Nat)
    (ht : (pre.foldl Step.run (Leaky.new R, 0)).1.lastHandle = some t) (hus : times steps = us) (hsorted : (t :: us).Pairwise (· ≤ ·)) :
    (((pre ++ steps).foldl Step.run (Leaky.new R, 0)).2 - (pre.foldl Step.run (Leaky.new R, 0)).2 : ℚ) * 8 ≤
      R * ((((t :: us).getLast (by simp) : Nat) : ℚ) - t + 40 * MS + 1 / 2) / SEC + 8 * M + 4 * us.length := by
  have hR0 : (0 : ℚ) ≤ R := by linarith
  obtain ⟨h1, -⟩ := paced_run hM hR pre (Leaky.new R) 0 (paced_new hR0 M) hpre
  obtain ⟨h2, h3⟩ := paced_run hM hR steps (pre.foldl Step.run (Leaky.new R, 0)).1 (pre.foldl Step.run (Leaky.new R, 0)).2 h1 hs
  rw [List.foldl_append]
  have hpair : ((pre.foldl Step.run (Leaky.new R, 0)).1, (pre.foldl Step.run (Leaky.new R, 0)).2) = pre.foldl Step.run (Leaky.new R, 0) := rfl
  rw [hpair] at h2 h3
  have hd : drainedFrom R (some t) us = drained R t us := by cases us <;> rfl
  rw [ht, hus, hd] at h3
  have h4 := drained_le (R := R) us t hsorted
  have h5 := h2.debt
  have h6 := h1.debt0
  generalize steps.foldl Step.run (pre.foldl Step.run (Leaky.new R, 0)) = F at *
  generalize pre.foldl Step.run (Leaky.new R, 0) = P at *
  have h7 : ((F.2 - P.2 : Int) : ℚ) ≤ (F.1.mediaDebt : ℚ) + drained R t us := by
    have : F.2 - P.2 ≤ F.1.mediaDebt + drained R t us := by omega
    exact_mod_cast this
  have e1 : (SEC : ℚ) = 1000000000 := by norm_num [SEC]
  have e2 : (PACING : ℚ) = 40000000 := by norm_num [PACING, MS]
  have e3 : (MS : ℚ) = 1000000 := by norm_num [MS]
  rw [e1] at h4 h5 ⊢
  rw [e2] at h5
  rw [e3]
  push_cast at h7
  generalize (((t :: us).getLast (by simp) : Nat) : ℚ) - t = T at *
  have e5 : R * (T + 40 * 1000000 + 1 / 2) / 1000000000 = R * T / 1000000000 + R * (40000000 + 1 / 2) / 1000000000 := by ring
  rw [e5]
  linarith

/-- **C62** Between two timeouts at most one packet is asked for: after one was, none is until the next timeout. -/
theorem C62_one {l l' : Leaky} {x : Nat × Option Nat} (h : l.pollQueue = (l', some x)) (now : Nat) (size : Int) :
    l'.pollQueue.2 = none ∧ (l'.registerSend now size).pollQueue.2 = none := by
  have hn : l'.needsTimeout = true := by
    unfold Leaky.pollQueue at h
    split at h
    · cases h
    · split at h
      · cases h
      · rw [← (Prod.mk.inj h).1]
  constructor
  · unfold Leaky.pollQueue; rw [if_pos hn]
  · obtain ⟨ps, c, e, -⟩ := registerSend_eq l' now size
    unfold Leaky.pollQueue
    rw [if_pos]
    rw [e]; exact hn

/-- **C62** After a timeout the next one is at most 40 milliseconds away. -/
theorem C62_timeout (l : Leaky) (now : Nat) (qs : List QueueState) : ∃ t r, (l.handleTimeout now qs).1.pollTimeout = (some t, r) ∧ t ≤ now + 40 * MS := by
  have e5 := (handleTimeout_eq l now qs).2.2.2.2.1
  unfold Leaky.pollTimeout
  rw [e5]
  cases (l.handleTimeout now qs).1.nextPollTime with
  | none => exact ⟨_, _, rfl, Nat.le_refl _⟩
  | some v =>
    obtain ⟨t, r⟩ := v
    dsimp only
    split
    · exact ⟨_, _, rfl, Nat.le_refl _⟩
    · rename_i hh
      exact ⟨_, _, rfl, by unfold PACING at hh; omega⟩

/-- **C62** Nothing waits without a cause: after a timeout with a packet in some queue, no unpaced queue and no probe, either a queue is
ready to be polled, or the debt needs more than 40 milliseconds at the rate (which is not zero unless the pacing rate is), or
the rate is zero. -/
theorem C62_serves (l : Leaky) (now : Nat) (qs : List QueueState) (hp : l.probes = []) (hq : ∃ q ∈ qs, q.snapshot.packetCount > 0) :
    (l.handleTimeout now qs).1.nextPollQueue ≠ none ∨ PACING < divRate (l.handleTimeout now qs).1.mediaDebt (l.handleTimeout now qs).1.adjusted ∨
    (l.handleTimeout now qs).1.adjusted ≤ 0 ∨ (∃ q ∈ qs, q.isUnpaced = true) := by
  by_cases hun : ∃ q ∈ qs, q.isUnpaced = true
  · exact .inr (.inr (.inr hun))
  have hun' : ∀ q ∈ qs, q.isUnpaced = false := by
    intro q hq'
    cases hb : q.isUnpaced with
    | false => rfl
    | true => exact absurd ⟨q, hq', hb⟩ hun
  obtain ⟨a, ha, -⟩ := updateAdjusted_eq (Leaky.clearDebt { l with needsTimeout := false, nextPollTime := none, queues := qs, lastHandle := some now } (l.elapsed now)) now
  have hb : l.begin now qs = { Leaky.clearDebt { l with needsTimeout := false, nextPollTime := none, queues := qs, lastHandle := some now } (l.elapsed now) with adjusted := a } := ha
  have hreq : Leaky.paddingRequest (l.begin now qs) now = (l.begin now qs, none) := by
    unfold Leaky.paddingRequest
    rw [if_pos]
    obtain ⟨q, h1, h2⟩ := hq
    have hbqs : (l.begin now qs).queues = qs := by rw [hb]; rfl
    rw [hbqs, List.all_eq_false]
    exact ⟨q, h1, by simp; omega⟩
  have hh : (l.handleTimeout now qs).1 = (l.begin now qs).finish now := by
    unfold Leaky.handleTimeout; rw [hreq]
  rw [hh]
  have hbp : (l.begin now qs).probes = [] := by rw [hb]; exact hp
  have hbl : (l.begin now qs).lastHandle = some now := by rw [hb]; rfl
  have hbqs : (l.begin now qs).queues = qs := by rw [hb]; rfl
  generalize l.begin now qs = m at *
  by_cases hm : m.nextPollQueue.isSome = true
  · left
    unfold Leaky.finish
    rw [if_pos hm]
    intro hc; rw [hc] at hm; cases hm
  · by_cases hadj : m.adjusted ≤ 0
    · right; right; left
      obtain ⟨x, y, e⟩ := finish_eq m now
      rw [e]; exact hadj
    · by_cases hd : PACING < divRate m.mediaDebt m.adjusted
      · right; left
        obtain ⟨x, y, e⟩ := finish_eq m now
        rw [e]; exact hd
      · left
        have hnext : ∃ r q, m.nextPoll now = some ((now, r), some q) := by
          unfold Leaky.nextPoll
          split
          · obtain ⟨q, h1, h2⟩ := hq
            have : q ∈ m.queues.filter (fun q => decide (q.snapshot.packetCount > 0)) := by
              rw [hbqs, List.mem_filter]; exact ⟨h1, by simpa using h2⟩
            cases hf : m.queues.filter (fun q => decide (q.snapshot.packetCount > 0)) with
            | nil => rw [hf] at this; cases this
            | cons x xs => exact ⟨_, _, rfl⟩
          · rw [hbqs, firstUnpaced_none hun']
            dsimp only
            have : ∃ x, firstNonEmpty qs = some x := by
              obtain ⟨q, h1, h2⟩ := hq
              have : q ∈ qs.filter (fun q => decide (q.snapshot.packetCount > 0)) := by
                rw [List.mem_filter]; exact ⟨h1, by simpa using h2⟩
              unfold firstNonEmpty
              cases hf : qs.filter (fun q => decide (q.snapshot.packetCount > 0)) with
              | nil => rw [hf] at this; cases this
              | cons x xs => exact ⟨_, rfl⟩
            obtain ⟨x, hx⟩ := this
            rw [hx]
            dsimp only
            rw [if_pos (not_le.1 hadj), hbp, hbl]
            dsimp only
            have : m.sendOffset = 0 := by unfold Leaky.sendOffset; rw [if_neg (by omega)]
            rw [this]
            exact ⟨_, _, rfl⟩
        obtain ⟨r, q, hn⟩ := hnext
        unfold Leaky.finish
        rw [if_neg hm, hn]
        dsimp only
        rw [if_neg (Nat.lt_irrefl _)]
        simp

/-- **C62** A probe asks for padding only as far as its target (rate times duration) is not reached, and no two requests are closer than the
delta of the probe (nor at the same instant). -/
theorem C62_probe (p p' : Probe) (now : Nat) (n : Int) (h : p.nextPacket now = (p', some n)) (ht : 0 ≤ p.config.targetBytes) :
    0 < n ∧ p.bytesSent + n ≤ p.config.targetBytes ∧ p.lastPaddingAt + p.config.minProbeDelta ≤ now ∧ p.lastPaddingAt < now ∧ p'.lastPaddingAt = now := by
  unfold Probe.nextPacket at h
  dsimp only at h
  split at h
  · cases h
  · rename_i h1
    split at h
    · cases h
    · split at h
      · cases h
      · rename_i h3
        obtain ⟨e1, e2⟩ := Prod.mk.inj h
        split at e2
        · cases e2
        · rename_i h4
          have e3 := Option.some.inj e2
          unfold satSub MAX_PADDING_PACKET_SIZE at e3 h4
          refine ⟨by omega, by omega, by omega, by omega, by rw [← e1]⟩

/-- A run to which the theorems apply: a queue with two packets of 1200 bytes at 1 Mbit/s. -/
def demoQueue (n : Nat) : QueueState :=
  { midrid := 1, isUnpaced := false, useForPadding := false,
    snapshot := { createdAt := 0, byteSize := 1200 * n, packetCount := n, totalQueueTimeOrigin := 0, lastEmitted := none, firstUnsent := some 0, priority := 0 } }

def demo : List Step := [.handle 1000 [demoQueue 2], .send 1000 1200, .handle 2000 [demoQueue 1], .send 2000 1200]

example : (demo.foldl Step.run (Leaky.new 1000000, 0)).2 = 2400 := by decide +kernel

example : ∀ s ∈ demo, s.Ok 1000000 1200 := by
  intro s hs
  simp only [demo, List.mem_cons, List.not_mem_nil, or_false] at hs
  rcases hs with h | h | h | h <;> subst h
  · refine ⟨.inr ?_, by intro q hq; simp only [List.mem_cons, List.not_mem_nil, or_false] at hq; rw [hq]; rfl⟩
    decide +kernel
  · show 1200 ≤ 1200; omega
  · refine ⟨.inr ?_, by intro q hq; simp only [List.mem_cons, List.not_mem_nil, or_false] at hq; rw [hq]; rfl⟩
    decide +kernel
  · show 1200 ≤ 1200; omega

end Str0m.Pacer
