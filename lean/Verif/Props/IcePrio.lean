import Verif.Model.IceAgent
/-
  C25 (pair priorities) and C26 (candidate priorities).
-/
namespace Str0m.Ice

/-! ## C25 -/

/-- RFC 8445, 6.1.2.3: pair priority = 2^32*MIN(G,D) + 2*MAX(G,D) + (G>D?1:0), where `G` is
the priority of the controlling agent's candidate, `D` that of the controlled agent's. -/
def rfcPairPriority (g d : Nat) : Nat :=
  2^32 * min g d + 2 * max g d + (if d < g then 1 else 0)

/-- Both agents compute the RFC value: the controlling one with its own candidate (priority
`g`) as local and the peer's (`d`) as remote, the controlled one the other way round. -/
theorem C25_both_sides_agree (g d : Nat) :
    calculatePrio true (remotePrio := d) (localPrio := g) = rfcPairPriority g d ∧
    calculatePrio false (remotePrio := g) (localPrio := d) = rfcPairPriority g d := by
  simp [calculatePrio, rfcPairPriority]

/-- No `u64` overflow when the two priorities are `u32` values and the local one is a legal
candidate priority. -/
theorem C25_no_overflow (controlling : Bool) (remote local_ : Nat) (hr : remote < 2^32)
    (hl : local_ < 2^31) : calculatePrio controlling remote local_ < 2^64 := by
  have h : ∀ g d : Nat, min g d < 2^31 → max g d < 2^32 →
      2^32 * min g d + 2 * max g d + (if d < g then 1 else 0) < 2^64 := by
    intro g d h1 h2; split <;> omega
  cases controlling <;> simp only [calculatePrio] <;> apply h <;> simp <;> omega

/-- Different (controlling, controlled) priority pairs have different pair priorities, for
all legal candidate priorities. -/
theorem C25_injective (g d g' d' : Nat) (hg : g < 2^31) (hd : d < 2^31) (hg' : g' < 2^31)
    (hd' : d' < 2^31) (controlling : Bool)
    (h : calculatePrio controlling d g = calculatePrio controlling d' g') : g = g' ∧ d = d' := by
  have key : ∀ g d g' d' : Nat, g < 2^31 → d < 2^31 → g' < 2^31 → d' < 2^31 →
      2^32 * min g d + 2 * max g d + (if g > d then 1 else 0)
        = 2^32 * min g' d' + 2 * max g' d' + (if g' > d' then 1 else 0) → g = g' ∧ d = d' := by
    intro g d g' d' h1 h2 h3 h4 h
    split at h <;> split at h <;> constructor <;> omega
  cases controlling with
  | true => exact key g d g' d' hg hd hg' hd' (by simpa [calculatePrio] using h)
  | false =>
    have := key d g d' g' hd hg hd' hg' (by simpa [calculatePrio] using h)
    exact ⟨this.2, this.1⟩

/-- Outside the legal range the formula does overflow `u64`: two priorities of `2^32 - 1`. -/
theorem C25_overflow_witness : ¬ calculatePrio true (2^32 - 1) (2^32 - 1) < 2^64 := by decide

example : calculatePrio true 2113937151 1845501695 = calculatePrio false 1845501695 2113937151 := by
  decide

/-! ## C26 -/

/-- The RFC 8445, 5.1.2.1 formula for RTP (component `comp`). -/
def rfcPriority (typePref localPref comp : Nat) : Nat :=
  2^24 * typePref + 2^8 * localPref + (256 - comp)

theorem typePreference_le (k : Kind) (p : Proto) : typePreference k p ≤ 126 := by
  cases k <;> cases p <;> decide

theorem or_is_sum (tp lp c : Nat) (hlp : lp < 2^16) (hc : c < 2^8) :
    (tp <<< 24) ||| ((lp <<< 8) % 2^32) ||| c = 2^24 * tp + 2^8 * lp + c := by
  have e1 : (lp <<< 8) % 2^32 = lp <<< 8 := by
    rw [Nat.shiftLeft_eq]; omega
  have h1 : lp <<< 8 < 2^24 := by rw [Nat.shiftLeft_eq]; omega
  rw [e1, ← Nat.shiftLeft_add_eq_or_of_lt h1]
  have e2 : tp <<< 24 + lp <<< 8 = (tp * 2^16 + lp) <<< 8 := by
    simp only [Nat.shiftLeft_eq]; ring
  rw [e2, ← Nat.shiftLeft_add_eq_or_of_lt hc]
  simp only [Nat.shiftLeft_eq]; ring

/-- A candidate whose priority is computed here (no signalled priority), with a local
preference in the legal range and a component id 1 to 255. -/
structure Computed (c : Cand) : Prop where
  noPrio : c.prio = Option.none
  pref : c.localPreference < 2^16
  comp : 1 ≤ c.componentId ∧ c.componentId ≤ 255

/-- Every locally computed priority follows the RFC formula and lies in 1..2^31-1; the
`assert!` in the code cannot fail. -/
theorem C26_range (c : Cand) (asPrflx : Bool) (h : Computed c) :
    ∃ p, c.doPrio asPrflx = some p ∧ 1 ≤ p ∧ p ≤ 2^31 - 1 ∧
      p = rfcPriority (typePreference (if asPrflx then .prflx else c.kind) c.proto)
        c.localPreference c.componentId := by
  obtain ⟨h1, h2, h3⟩ := h
  have ht := typePreference_le (if asPrflx then Kind.prflx else c.kind) c.proto
  have e := or_is_sum (typePreference (if asPrflx then Kind.prflx else c.kind) c.proto)
    c.localPreference (256 - c.componentId) h2 (by omega)
  refine ⟨_, ?_, ?_, ?_, rfl⟩
  · simp only [Cand.doPrio, h1, e]
    rw [if_pos (by omega), if_pos (by omega)]
    rfl
  · simp only [rfcPriority]; omega
  · simp only [rfcPriority]; omega

/-- Rank of candidate types in RFC 8445 5.1.2.2: host over peer reflexive over server
reflexive over relayed. -/
def typeRank : Kind → Nat
  | .host => 3 | .prflx => 2 | .srflx => 1 | .relayed => 0

/-- Over UDP a better candidate type always has a strictly higher priority, whatever the local
preferences and component ids; over every transport a relayed candidate is worse than any
other one. (Partial: over TCP the order of the non-relayed types is not the RFC one, see
`C26_violation`.) -/
theorem C26_type_order_partial (c d : Cand) (hc : Computed c) (hd : Computed d)
    (hp : c.proto = d.proto)
    (hk : (c.proto = .udp ∧ typeRank d.kind < typeRank c.kind) ∨
          (d.kind = .relayed ∧ c.kind ≠ .relayed))
    (pc pd : Nat) (h1 : c.doPrio false = some pc) (h2 : d.doPrio false = some pd) : pd < pc := by
  obtain ⟨pc', e1, -, -, r1⟩ := C26_range c false hc
  obtain ⟨pd', e2, -, -, r2⟩ := C26_range d false hd
  rw [h1] at e1; rw [h2] at e2
  obtain rfl := Option.some.inj e1
  obtain rfl := Option.some.inj e2
  have a1 := hc.pref; have a2 := hd.pref
  have a3 := hc.comp; have a4 := hd.comp
  simp only [rfcPriority, Bool.false_eq_true, if_false] at r1 r2
  have key : typePreference d.kind d.proto + 1 ≤ typePreference c.kind c.proto := by
    rw [← hp]
    rcases hk with ⟨hu, hk⟩ | ⟨hk, hk'⟩
    · rw [hu]; revert hk; cases c.kind <;> cases d.kind <;> decide
    · rw [hk]; revert hk'; cases c.kind <;> cases c.proto <;> decide
  omega

/-- A host and a server reflexive candidate over TCP, both with default preferences: the
server reflexive one gets the higher priority, so "better types get strictly higher
priority" is false of the code over TCP. -/
theorem C26_violation :
    ∃ c d : Cand, Computed c ∧ Computed d ∧ c.proto = d.proto ∧ typeRank d.kind < typeRank c.kind ∧
      ∃ pc pd, c.doPrio false = some pc ∧ d.doPrio false = some pd ∧ pc < pd := by
  refine ⟨{ addr := ⟨false, 1⟩, localAddr := ⟨false, 1⟩, proto := .tcp },
    { addr := ⟨false, 2⟩, localAddr := ⟨false, 1⟩, proto := .tcp, kind := .srflx },
    ⟨rfl, by decide, by decide⟩, ⟨rfl, by decide, by decide⟩, rfl, by decide,
    1526726399, 1694498559, by decide +kernel, by decide +kernel, by decide⟩

example : Computed { addr := ⟨false, 1⟩, localAddr := ⟨false, 1⟩ } := ⟨rfl, by decide, by decide⟩

/-- The default local preference stays in the range 0..65535 of RFC 8445 (it may run out: then
the code panics). -/
theorem C26_default_preference_range (c : Cand) (k p : Nat)
    (h : defaultLocalPreference c k = some p) : p ≤ 65535 := by
  simp only [defaultLocalPreference] at h
  split at h
  · have := Option.some.inj h
    have h2 : prefStart c ≤ 65535 := by
      simp only [prefStart]; cases c.kind <;> simp <;> omega
    omega
  · cases h

/-- The default preference does not run out for the first 7691 candidates of a kind. -/
theorem C26_default_preference_total (c : Cand) (k : Nat) (hk : k ≤ 7691) :
    (defaultLocalPreference c k).isSome := by
  simp only [defaultLocalPreference]
  rw [if_pos]; · rfl
  simp only [prefStart, prefPunish]
  cases c.kind <;> simp <;> split <;> (try split) <;> omega

end Str0m.Ice
