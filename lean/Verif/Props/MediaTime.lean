import Verif.Model.MediaTime
/-
  C10: MediaTime. The value of a media time is the rational number `numer / denom`; all
  statements are by cross multiplication.
-/
namespace Str0m
namespace MediaTime

/-- The rational value of `a` is smaller than that of `b`. -/
def ValueLt (a b : MediaTime) : Prop := a.numer * b.denom < b.numer * a.denom
/-- Same rational value. -/
def ValueEq (a b : MediaTime) : Prop := a.numer * b.denom = b.numer * a.denom
/-- The value in units of `1/d` seconds is below `2^64` (no truncation when rebased). -/
def Fits (t : MediaTime) (d : Nat) : Prop := t.numer * d < 2 ^ 64 * t.denom

theorem rebase_fits {t : MediaTime} {d : Nat} (hw : t.WF) (hf : t.Fits d) :
    (t.rebase d).denom = d ∧ (t.rebase d).numer = t.numer * d / t.denom := by
  unfold rebase
  split
  · rename_i h
    subst h
    refine ⟨rfl, ?_⟩
    rw [Nat.mul_div_cancel _ hw.2.1]
  · refine ⟨rfl, ?_⟩
    simp only
    apply Nat.mod_eq_of_lt
    apply Nat.div_lt_of_lt_mul
    have := hf; unfold Fits at this; rw [Nat.mul_comm t.denom]; exact this

/-- **C10** (rebase): when the result fits `u64`, rebasing rounds down and loses less than one unit
of the new frequency; rebasing to the own frequency changes nothing. -/
theorem C10_rebase (t : MediaTime) (d : Nat) (hw : t.WF) (hf : t.Fits d) :
    (t.rebase d).denom = d ∧
    -- value(new) ≤ value(old) < value(new) + 1/d
    (t.rebase d).numer * t.denom ≤ t.numer * d ∧
    t.numer * d < ((t.rebase d).numer + 1) * t.denom ∧
    t.rebase t.denom = t := by
  obtain ⟨h1, h2⟩ := rebase_fits hw hf
  refine ⟨h1, ?_, ?_, by simp [rebase]⟩
  · rw [h2]; exact Nat.div_mul_le_self _ _
  · rw [h2]
    have := Nat.lt_mul_div_succ (t.numer * d) hw.2.1
    rw [Nat.mul_comm _ t.denom]; exact this

/-- Both times have the larger frequency after `sameBase`. -/
theorem sameBase_denom (a b : MediaTime) :
    (sameBase a b).1.denom = max a.denom b.denom ∧ (sameBase a b).2.denom = max a.denom b.denom := by
  simp only [sameBase, rebase]
  constructor <;> split <;> simp_all

theorem cmp_eq (a b : MediaTime) : cmp a b =
    if (sameBase a b).1.numer = (sameBase a b).2.numer then .eq
    else if (sameBase a b).1.numer < (sameBase a b).2.numer then .lt else .gt := by
  obtain ⟨h1, h2⟩ := sameBase_denom a b
  generalize hs : sameBase a b = s at *
  obtain ⟨l, r⟩ := s
  simp only at h1 h2
  have he : l.eq r = (l.numer == r.numer) := by
    simp only [eq, sameBase, h1, h2, Nat.max_self]
    simp [rebase, h1, h2]
  simp only [cmp, hs, he, beq_iff_eq]

/-- **C10**: comparison is consistent with equality, reflexive, total and anti-symmetric, for all
times. -/
theorem C10_cmp_laws (a b : MediaTime) :
    (cmp a b = .eq ↔ a.eq b = true) ∧ cmp a a = .eq ∧ cmp b a = (cmp a b).swap := by
  refine ⟨?_, ?_, ?_⟩
  · rw [cmp_eq]
    simp only [eq, beq_iff_eq]
    constructor
    · intro h
      split at h
      · assumption
      · split at h <;> cases h
    · intro h; simp [h]
  · rw [cmp_eq]; simp [sameBase]
  · rw [cmp_eq, cmp_eq]
    have h1 : (sameBase b a).1.numer = (sameBase a b).2.numer := by simp [sameBase, Nat.max_comm]
    have h2 : (sameBase b a).2.numer = (sameBase a b).1.numer := by simp [sameBase, Nat.max_comm]
    rw [h1, h2]
    generalize (sameBase a b).1.numer = x
    generalize (sameBase a b).2.numer = y
    by_cases h : x = y
    · simp [h]
    · by_cases h' : x < y
      · have : ¬ y = x := by omega
        have : ¬ y < x := by omega
        simp_all
      · have : ¬ y = x := by omega
        have hyx : y < x := by omega
        have hxy : ¬ x < y := by omega
        simp only [h, if_false, hxy, this, hyx, if_true]; rfl

/-- Numerators of the two rebased times: one of them is unchanged, the other is rounded down. -/
theorem sameBase_numer {a b : MediaTime} (ha : a.WF) (hb : b.WF)
    (fa : a.Fits b.denom) (fb : b.Fits a.denom) :
    (a.denom ≤ b.denom ∧ (sameBase a b).1.numer = a.numer * b.denom / a.denom ∧
        (sameBase a b).2.numer = b.numer) ∨
    (b.denom ≤ a.denom ∧ (sameBase a b).1.numer = a.numer ∧
        (sameBase a b).2.numer = b.numer * a.denom / b.denom) := by
  rcases Nat.le_total a.denom b.denom with h | h
  · left
    refine ⟨h, ?_, ?_⟩
    · simp only [sameBase, Nat.max_eq_right h]; exact (rebase_fits ha fa).2
    · simp [sameBase, Nat.max_eq_right h, rebase]
  · right
    refine ⟨h, ?_, ?_⟩
    · simp [sameBase, Nat.max_eq_left h, rebase]
    · simp only [sameBase, Nat.max_eq_left h]; exact (rebase_fits hb fb).2

/-- **C10** (the strict order is sound): `Less`/`Greater` are only answered when the rational values
differ that way, times of equal value compare `Equal`, and `Equal` means the values differ by less
than one unit of the larger frequency. -/
theorem C10_cmp_sound (a b : MediaTime) (ha : a.WF) (hb : b.WF)
    (fa : a.Fits b.denom) (fb : b.Fits a.denom) :
    (cmp a b = .lt → ValueLt a b) ∧ (cmp a b = .gt → ValueLt b a) ∧
    (ValueEq a b → cmp a b = .eq) ∧
    (cmp a b = .eq →
      a.numer * b.denom < b.numer * a.denom + min a.denom b.denom ∧
      b.numer * a.denom < a.numer * b.denom + min a.denom b.denom) := by
  have hda := ha.2.1
  have hdb := hb.2.1
  rw [cmp_eq]
  unfold ValueLt ValueEq
  rcases sameBase_numer ha hb fa fb with ⟨h, h1, h2⟩ | ⟨h, h1, h2⟩
  · rw [h1, h2, Nat.min_eq_left h]
    generalize hx : a.numer * b.denom = x at *
    have e1 : x / a.denom * a.denom ≤ x := Nat.div_mul_le_self _ _
    have e2 : x < (x / a.denom + 1) * a.denom := by
      have := Nat.lt_mul_div_succ x hda; rw [Nat.mul_comm]; exact this
    have e3 : x = b.numer * a.denom → x / a.denom = b.numer := by
      rintro rfl; exact Nat.mul_div_cancel _ hda
    generalize x / a.denom = q at *
    have e4 : q < b.numer → (q + 1) * a.denom ≤ b.numer * a.denom := fun h =>
      Nat.mul_le_mul_right _ h
    have e5 : b.numer < q → (b.numer + 1) * a.denom ≤ q * a.denom := fun h =>
      Nat.mul_le_mul_right _ h
    have e6 : (b.numer + 1) * a.denom = b.numer * a.denom + a.denom := by ring
    have e7 : (q + 1) * a.denom = q * a.denom + a.denom := by ring
    by_cases c1 : q = b.numer
    · subst c1; simp; omega
    · by_cases c2 : q < b.numer
      · have := e4 c2
        simp [c1, c2]
        exact ⟨by omega, fun h => c1 (e3 h)⟩
      · have := e5 (by omega)
        simp [c1, c2]
        exact ⟨by omega, fun h => c1 (e3 h)⟩
  · rw [h1, h2, Nat.min_eq_right h]
    generalize hx : b.numer * a.denom = x at *
    have e1 : x / b.denom * b.denom ≤ x := Nat.div_mul_le_self _ _
    have e2 : x < (x / b.denom + 1) * b.denom := by
      have := Nat.lt_mul_div_succ x hdb; rw [Nat.mul_comm]; exact this
    have e3 : a.numer * b.denom = x → x / b.denom = a.numer := by
      rintro rfl; exact Nat.mul_div_cancel _ hdb
    generalize x / b.denom = q at *
    have e4 : q < a.numer → (q + 1) * b.denom ≤ a.numer * b.denom := fun h =>
      Nat.mul_le_mul_right _ h
    have e5 : a.numer < q → (a.numer + 1) * b.denom ≤ q * b.denom := fun h =>
      Nat.mul_le_mul_right _ h
    have e6 : (a.numer + 1) * b.denom = a.numer * b.denom + b.denom := by ring
    have e7 : (q + 1) * b.denom = q * b.denom + b.denom := by ring
    by_cases c1 : a.numer = q
    · subst c1; simp; omega
    · by_cases c2 : a.numer < q
      · have := e5 c2
        simp [c1, c2]
        exact ⟨by omega, fun h => c1 (e3 h).symm⟩
      · have := e4 (by omega)
        simp [c1, c2]
        exact ⟨by omega, fun h => c1 (e3 h).symm⟩

/-- **C10** (partial): among times of one frequency the comparison is exactly the order of the
values, hence a total order, for all `u64` numerators. Missing for the full property: different
frequencies, where it is false (`C10_violation_*`). -/
theorem C10_cmp_exact_partial (a b : MediaTime) (ha : a.WF) (h : a.denom = b.denom) :
    (cmp a b = .lt ↔ ValueLt a b) ∧ (cmp a b = .eq ↔ ValueEq a b) ∧ (cmp a b = .gt ↔ ValueLt b a) := by
  have hda := ha.2.1
  have hs : sameBase a b = (a, b) := by simp [sameBase, rebase, h]
  rw [cmp_eq, hs]
  simp only [ValueLt, ValueEq, ← h, Nat.mul_lt_mul_right hda, Nat.mul_right_cancel_iff hda]
  by_cases c1 : a.numer = b.numer
  · simp [c1]
  · by_cases c2 : a.numer < b.numer
    · simp [c1, c2]; omega
    · simp [c1, c2]; omega

/-- **C10** (add and sub are inverses on one frequency): the sum is exact, and subtracting gives
back the other operand; `checked_sub` refuses exactly the negative results. -/
theorem C10_add_sub (a b : MediaTime) (h : a.denom = b.denom) :
    (a.numer + b.numer < 2 ^ 64 →
      ∃ s, a.add b = .ok s ∧ s = ⟨a.numer + b.numer, a.denom⟩ ∧ s.sub b = .ok a ∧ s.sub a = .ok b) ∧
    (a.checkedSub b = none ↔ a.numer < b.numer) ∧
    (b.numer ≤ a.numer → a.checkedSub b = some ⟨a.numer - b.numer, a.denom⟩) ∧
    (a.numer < b.numer → a.sub b = .panic ∧ a.saturatingSub b = zero) := by
  obtain ⟨n, d⟩ := a
  obtain ⟨m, e⟩ := b
  simp only at h; subst h
  have hsub : ∀ x y : Nat, checkedSub ⟨x, d⟩ ⟨y, d⟩ = if x < y then none else some ⟨x - y, d⟩ := by
    intro x y; simp [checkedSub, sameBase, rebase]
  refine ⟨fun hlt => ?_, ?_, ?_, ?_⟩
  · refine ⟨⟨n + m, d⟩, by simp only at hlt; simp [add, sameBase, rebase]; omega, rfl, ?_, ?_⟩
    · simp only [sub, hsub]; simp
    · simp only [sub, hsub]; simp
  · rw [hsub]; simp
  · intro hle; rw [hsub]; simp only at hle; simp [Nat.not_lt.mpr hle]
  · intro hlt; simp only at hlt; simp [sub, saturatingSub, hsub, hlt]

/-- **C10** (sum of different frequencies): the sum is at the larger frequency, never more than the
exact sum and less than one unit below it. Stated for `a` the lower frequency. -/
theorem C10_add_error (a b : MediaTime) (ha : a.WF) (h : a.denom ≤ b.denom)
    (fa : a.Fits b.denom) (s : MediaTime) (hs : a.add b = .ok s) :
    s.denom = b.denom ∧
    s.numer * a.denom ≤ a.numer * b.denom + b.numer * a.denom ∧
    a.numer * b.denom + b.numer * a.denom < (s.numer + 1) * a.denom := by
  have hr := (rebase_fits ha fa).2
  have e1 := Nat.div_mul_le_self (a.numer * b.denom) a.denom
  have e2 : a.numer * b.denom < (a.numer * b.denom / a.denom + 1) * a.denom := by
    have := Nat.lt_mul_div_succ (a.numer * b.denom) ha.2.1; rw [Nat.mul_comm _ a.denom]; exact this
  have hb : b.rebase b.denom = b := by simp [rebase]
  simp only [add, sameBase, Nat.max_eq_right h, hb, hr, (rebase_fits ha fa).1] at hs
  split at hs
  · cases hs
    simp only
    generalize a.numer * b.denom / a.denom = q at *
    generalize a.numer * b.denom = x at *
    refine ⟨trivial, ?_, ?_⟩
    · have : (q + b.numer) * a.denom = q * a.denom + b.numer * a.denom := by ring
      omega
    · have : (q + b.numer + 1) * a.denom = (q + 1) * a.denom + b.numer * a.denom := by ring
      omega
  · cases hs

/-- **C10**: a `Duration` in whole microseconds survives the way through `MediaTime`. -/
theorem C10_duration_roundtrip (us : Nat) (h : us < 2 ^ 64) :
    (ofDurationMicros us).toDurationMicros = us := by
  simp [toDurationMicros, asMicros, ofDurationMicros, rebase]; omega

/-- **C10 is violated**: equality is not transitive (1/3 = 1/2 and 1/2 = 2/4, but 1/3 ≠ 2/4). -/
theorem C10_violation_eq_not_transitive :
    ∃ a b c : MediaTime, a.WF ∧ b.WF ∧ c.WF ∧ a.eq b = true ∧ b.eq c = true ∧ a.eq c = false := by
  refine ⟨⟨1, 3⟩, ⟨1, 2⟩, ⟨2, 4⟩, ?_, ?_, ?_, ?_, ?_, ?_⟩ <;> simp [WF, eq, sameBase, rebase]

/-- **C10 is violated**: `Less` is not transitive across frequencies: 1/3 < 41/100 < 1/2, yet 1/3
and 1/2 compare `Equal`. Sorting mixed-frequency times has no well-defined result. -/
theorem C10_violation_lt_not_transitive :
    ∃ a b c : MediaTime, a.WF ∧ b.WF ∧ c.WF ∧ cmp a b = .lt ∧ cmp b c = .lt ∧ cmp a c = .eq := by
  refine ⟨⟨1, 3⟩, ⟨41, 100⟩, ⟨1, 2⟩, ?_, ?_, ?_, ?_, ?_, ?_⟩ <;>
    simp [WF, cmp, eq, sameBase, rebase]

/-- **C10 is violated** for numerators near the top of `u64`: rebasing silently drops the high bits,
so a huge time compares `Less` than a small one. -/
theorem C10_violation_truncation :
    ∃ a b : MediaTime, a.WF ∧ b.WF ∧ cmp a b = .lt ∧ ValueLt b a := by
  refine ⟨⟨2 ^ 63, 1⟩, ⟨1, 1000⟩, ?_, ?_, ?_, ?_⟩ <;>
    simp [WF, cmp, eq, sameBase, rebase, ValueLt]

example : (⟨90001, 90000⟩ : MediaTime).WF ∧ (⟨48000, 48000⟩ : MediaTime).WF ∧
    (⟨90001, 90000⟩ : MediaTime).Fits 48000 ∧ (⟨48000, 48000⟩ : MediaTime).Fits 90000 ∧
    cmp ⟨90001, 90000⟩ ⟨48000, 48000⟩ = .gt := by
  simp [WF, Fits, cmp, eq, sameBase, rebase]

example : (⟨3, 48000⟩ : MediaTime).add ⟨1, 90000⟩ = .ok ⟨6, 90000⟩ := by
  simp [add, sameBase, rebase]

end MediaTime
end Str0m
