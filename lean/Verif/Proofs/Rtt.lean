import Mathlib.Tactic.Linarith
import Mathlib.Tactic.NormNum
import Mathlib.Tactic.Positivity
import Mathlib.Tactic.FieldSimp
import Mathlib.Tactic.Ring
import Mathlib.Algebra.Order.Field.Basic
import Verif.Model.Rtt

namespace Str0m.Rtt

theorem roundEven_err (x : ℚ) : |(roundEven x : ℚ) - x| ≤ 1 / 2 := by
  have h1 := Int.floor_le x
  have h2 := Int.lt_floor_add_one x
  unfold roundEven
  rw [abs_le]
  split
  · constructor <;> linarith
  · split
    · push_cast; constructor <;> linarith
    · split
      · constructor <;> linarith
      · push_cast; constructor <;> linarith

theorem flt_err (p : ℕ) {x : ℚ} (k : ℤ) (h : |x| < 2 ^ k) : |flt p x - x| ≤ 2 ^ (k - p) / 2 := by
  have hp : (0 : ℚ) < 2 ^ (k - p) := zpow_pos (by norm_num) _
  unfold flt
  by_cases hx : x = 0
  · rw [if_pos hx, hx]; simp only [sub_self, abs_zero]; linarith
  · rw [if_neg hx]
    have hpos : 0 < |x| := abs_pos.2 hx
    have hu : 0 < ulp p x := zpow_pos (by norm_num) _
    have hlog : Int.log 2 |x| < k := (Int.lt_zpow_iff_log_lt (by norm_num) hpos).1 (by exact_mod_cast h)
    have hle : ulp p x ≤ 2 ^ (k - p) := zpow_le_zpow_right₀ (by norm_num) (by omega)
    have he := roundEven_err (x / ulp p x)
    have : roundEven (x / ulp p x) * ulp p x - x = (roundEven (x / ulp p x) - x / ulp p x) * ulp p x := by
      field_simp
    rw [this, abs_mul, abs_of_pos hu]
    calc |(roundEven (x / ulp p x) : ℚ) - x / ulp p x| * ulp p x ≤ 1 / 2 * ulp p x := mul_le_mul_of_nonneg_right he hu.le
      _ ≤ 2 ^ (k - p) / 2 := by linarith

/-- Below 2^33 the error is below 2^-21 -/
theorem f64_secs {x : ℚ} (h : |x| < 2 ^ 33) : |f64 x - x| ≤ 1 / 2 ^ 21 := by
  have := flt_err 53 (x := x) 33 (by exact_mod_cast h)
  refine this.trans ?_
  norm_num [zpow_neg]

theorem f64_ntp {x : ℚ} (h : |x| < 2 ^ 65) : |f64 x - x| ≤ 2 ^ 11 := by
  have := flt_err 53 (x := x) 65 (by exact_mod_cast h)
  refine this.trans ?_
  norm_num [zpow_neg]

theorem f32_one {x : ℚ} (h : |x| < 2) : |f32 x - x| ≤ 1 / 2 ^ 24 := by
  have := flt_err 24 (x := x) 1 (by simpa using h)
  refine this.trans ?_
  norm_num [zpow_neg]

theorem f32_ns {x : ℚ} (h : |x| < 2 ^ 30) : |f32 x - x| ≤ 2 ^ 5 := by
  have := flt_err 24 (x := x) 30 (by exact_mod_cast h)
  refine this.trans ?_
  norm_num [zpow_neg]

/-- Seconds -/
def secs (t : ℕ) : ℚ := t / 10 ^ 9

theorem secs_split (t : ℕ) : secs t = (t / 10 ^ 9 : ℕ) + ((t % 10 ^ 9 : ℕ) : ℚ) / 10 ^ 9 := by
  unfold secs
  have : (t : ℚ) = ((t / 10 ^ 9 : ℕ) : ℚ) * 10 ^ 9 + ((t % 10 ^ 9 : ℕ) : ℚ) := by
    exact_mod_cast (Nat.div_add_mod' t (10 ^ 9)).symm
  rw [this]
  field_simp

theorem asSecs_err33 {t : ℕ} (h : secs t < 2 ^ 33 - 2) : |asSecsF64 t - secs t| ≤ 1 / 2 ^ 20 := by
  have hs := secs_split t
  obtain ⟨a, ha⟩ : ∃ a : ℚ, a = (t / 10 ^ 9 : ℕ) := ⟨_, rfl⟩
  obtain ⟨b, hb⟩ : ∃ b : ℚ, b = ((t % 10 ^ 9 : ℕ) : ℚ) / 10 ^ 9 := ⟨_, rfl⟩
  have hb0 : 0 ≤ b := by rw [hb]; positivity
  have hb1 : b < 1 := by
    rw [hb, div_lt_one (by norm_num)]
    exact_mod_cast Nat.mod_lt _ (by norm_num)
  have ha0 : 0 ≤ a := by rw [ha]; positivity
  have e1 := f64_secs (x := b) (by rw [abs_of_nonneg hb0]; linarith)
  rw [abs_le] at e1
  rw [← ha, ← hb] at hs
  have e2 := f64_secs (x := a + f64 b) (by rw [abs_lt]; constructor <;> linarith)
  rw [abs_le] at e2
  have : asSecsF64 t = f64 (a + f64 b) := by
    unfold asSecsF64
    rw [ha, hb]
  rw [this, hs, abs_le]
  constructor <;> linarith

theorem asSecs_err {t : ℕ} (h : secs t < 2 ^ 32) : |asSecsF64 t - secs t| ≤ 1 / 2 ^ 20 := asSecs_err33 (by linarith)

/-- The NTP time in seconds is right, before 2036 -/
theorem asNtp_err {t : ℕ} (h : secs t + SECS_1900 < 2 ^ 32 - 1) : |(asNtp64 t : ℚ) / 2 ^ 32 - (secs t + SECS_1900)| ≤ 1 / 2 ^ 18 := by
  have h0 : 0 ≤ secs t := by unfold secs; positivity
  have hS : (SECS_1900 : ℚ) = 2208988800 := by norm_num [SECS_1900]
  rw [hS] at h ⊢
  have e1 := asSecs_err (t := t) (by linarith)
  rw [abs_le] at e1
  have e2 := f64_secs (x := asSecsF64 t + 2208988800) (by rw [abs_lt]; constructor <;> linarith)
  rw [abs_le] at e2
  obtain ⟨y, hy⟩ : ∃ y, y = f64 (asSecsF64 t + 2208988800) := ⟨_, rfl⟩
  rw [← hy] at e2
  have e3 := f64_ntp (x := y * 2 ^ 32) (by rw [abs_lt]; constructor <;> linarith)
  rw [abs_le] at e3
  obtain ⟨z, hz⟩ : ∃ z, z = f64 (y * 2 ^ 32) := ⟨_, rfl⟩
  rw [← hz] at e3
  have hz0 : 0 ≤ z := by linarith
  have f1 := Nat.floor_le hz0
  have f2 := Nat.lt_floor_add_one z
  have hlt : ⌊z⌋₊ ≤ 2 ^ 64 - 1 := by
    have : (⌊z⌋₊ : ℚ) < 2 ^ 64 := by linarith
    have : ⌊z⌋₊ < 2 ^ 64 := by exact_mod_cast this
    omega
  have : asNtp64 t = ⌊z⌋₊ := by
    unfold asNtp64
    rw [hS, ← hy, ← hz]
    exact min_eq_left hlt
  obtain ⟨q, hq⟩ : ∃ q : ℚ, q = (⌊z⌋₊ : ℚ) / 2 ^ 32 := ⟨_, rfl⟩
  have hqq : (⌊z⌋₊ : ℚ) = q * 2 ^ 32 := by rw [hq]; field_simp
  rw [hqq] at f1 f2
  rw [this, ← hq, abs_le]
  constructor <;> linarith

/-- And what is read of it -/
theorem fromNtp_err {v : ℕ} (h1 : (SECS_1900 : ℚ) + 1 ≤ v / 2 ^ 32) (h2 : (v : ℚ) / 2 ^ 32 ≤ 2 ^ 32) :
    |secs (fromNtp64 v) + SECS_1900 - v / 2 ^ 32| ≤ 1 / 2 ^ 18 := by
  have hS : (SECS_1900 : ℚ) = 2208988800 := by norm_num [SECS_1900]
  rw [hS] at h1 ⊢
  obtain ⟨w, hw⟩ : ∃ w : ℚ, w = v := ⟨_, rfl⟩
  rw [← hw] at h1 h2 ⊢
  rw [le_div_iff₀ (by norm_num)] at h1
  rw [div_le_iff₀ (by norm_num)] at h2
  have e1 := f64_ntp (x := w) (by rw [abs_lt]; constructor <;> linarith)
  rw [abs_le] at e1
  obtain ⟨a, ha⟩ : ∃ a, a = f64 w := ⟨_, rfl⟩
  rw [← ha] at e1
  obtain ⟨a', ha'⟩ : ∃ a', a' = a / 2 ^ 32 := ⟨_, rfl⟩
  have hwa : a = a' * 2 ^ 32 := by rw [ha']; field_simp
  have e2 := f64_secs (x := a') (by rw [abs_lt]; constructor <;> linarith)
  rw [abs_le] at e2
  obtain ⟨b, hb⟩ : ∃ b, b = f64 a' := ⟨_, rfl⟩
  rw [← hb] at e2
  have e3 := f64_secs (x := b - 2208988800) (by rw [abs_lt]; constructor <;> linarith)
  rw [abs_le] at e3
  obtain ⟨c, hc⟩ : ∃ c, c = f64 (b - 2208988800) := ⟨_, rfl⟩
  rw [← hc] at e3
  have hc0 : 0 ≤ c := by linarith
  have e4 := roundEven_err (c * 10 ^ 9)
  obtain ⟨R, hR⟩ : ∃ R, R = roundEven (c * 10 ^ 9) := ⟨_, rfl⟩
  rw [← hR, abs_le] at e4
  have hr0 : 0 ≤ R := by
    have : (-1 : ℚ) < R := by linarith
    have : (-1 : ℤ) < R := by exact_mod_cast this
    omega
  have hf : (fromNtp64 v : ℚ) = R := by
    have : fromNtp64 v = R.toNat := by
      unfold fromNtp64 ofSecsF64
      rw [hS, ← hw, ← ha, ← ha', ← hb, ← hc, if_neg (by linarith), ← hR]
    rw [this]
    exact_mod_cast Int.toNat_of_nonneg hr0
  have hsec : secs (fromNtp64 v) = R / 10 ^ 9 := by unfold secs; rw [hf]
  obtain ⟨r, hr⟩ : ∃ r : ℚ, r = R / 10 ^ 9 := ⟨_, rfl⟩
  have hrr : (R : ℚ) = r * 10 ^ 9 := by rw [hr]; field_simp
  rw [hrr] at e4
  obtain ⟨w', hw'⟩ : ∃ w', w' = w / 2 ^ 32 := ⟨_, rfl⟩
  have hww : w = w' * 2 ^ 32 := by rw [hw']; field_simp
  rw [hsec, ← hr, ← hw', abs_le]
  constructor <;> linarith

theorem units_err (u : ℕ) : (u : ℚ) * 10 ^ 9 / 65536 - 100 ≤ unitsToNanos u ∧ (unitsToNanos u : ℚ) ≤ u * 10 ^ 9 / 65536 + 15360 := by
  obtain ⟨a, ha⟩ : ∃ a, a = u / 2 ^ 16 := ⟨_, rfl⟩
  obtain ⟨x, hx⟩ : ∃ x, x = u % 2 ^ 16 := ⟨_, rfl⟩
  have hu : (u : ℚ) = a * 65536 + x := by
    rw [ha, hx]
    exact_mod_cast (Nat.div_add_mod' u (2 ^ 16)).symm
  have hx0 : (0 : ℚ) ≤ x := by positivity
  have hx1 : (x : ℚ) ≤ 65535 := by
    have : x ≤ 65535 := by omega
    exact_mod_cast this
  obtain ⟨q, hq⟩ : ∃ q : ℚ, q = x / 65535 := ⟨_, rfl⟩
  have hqx : (x : ℚ) = q * 65535 := by rw [hq]; field_simp
  rw [hqx] at hx0 hx1
  have e1 := f32_one (x := q) (by rw [abs_lt]; constructor <;> linarith)
  rw [abs_le] at e1
  obtain ⟨y, hy⟩ : ∃ y, y = f32 q := ⟨_, rfl⟩
  rw [← hy] at e1
  have e2 := f32_ns (x := y * 10 ^ 9) (by rw [abs_lt]; constructor <;> linarith)
  rw [abs_le] at e2
  obtain ⟨z, hz⟩ : ∃ z, z = f32 (y * 10 ^ 9) := ⟨_, rfl⟩
  rw [← hz] at e2
  have hn : (unitsToNanos u : ℚ) = a * 10 ^ 9 + ⌊z⌋₊ := by
    unfold unitsToNanos
    rw [← ha, ← hx, ← hq, ← hy, ← hz]
    push_cast
    ring
  have f1 := Nat.lt_floor_add_one z
  have f2 : (⌊z⌋₊ : ℚ) ≤ z ∨ (⌊z⌋₊ : ℚ) = 0 := by
    rcases le_or_gt 0 z with h | h
    · exact .inl (Nat.floor_le h)
    · right; rw [Nat.floor_of_nonpos h.le]; simp
  rw [hn, hu, hqx]
  constructor
  · linarith
  · rcases f2 with f2 | f2 <;> linarith

/-- The middle of the NTP time that comes back -/
theorem middle_err {t k : ℕ} (h : secs t + SECS_1900 < 2 ^ 32 - 2) (hs : 1 ≤ secs t - 1)
    (h1 : (k : ℚ) * 65536 + 3 / 2 ^ 18 ≤ secs t + SECS_1900) (h2 : secs t + SECS_1900 + 3 / 2 ^ 18 < (k + 1) * 65536) :
    |(middle (asNtp64 (fromNtp64 (asNtp64 t))) : ℚ) - ((secs t + SECS_1900) * 65536 - k * 2 ^ 32)| ≤ 7 / 4 ∧
      (middle (asNtp64 (fromNtp64 (asNtp64 t))) : ℚ) ≤ (secs t + SECS_1900) * 65536 - k * 2 ^ 32 + 3 / 4 := by
  have e1 := asNtp_err (t := t) (by linarith)
  rw [abs_le] at e1
  have e2 := fromNtp_err (v := asNtp64 t) (by linarith) (by linarith)
  rw [abs_le] at e2
  have e3 := asNtp_err (t := fromNtp64 (asNtp64 t)) (by linarith)
  rw [abs_le] at e3
  obtain ⟨n, hn⟩ : ∃ n, n = asNtp64 (fromNtp64 (asNtp64 t)) := ⟨_, rfl⟩
  rw [← hn] at e3 ⊢
  obtain ⟨q, hq⟩ : ∃ q : ℚ, q = n / 2 ^ 32 := ⟨_, rfl⟩
  have hnq : (n : ℚ) = q * 2 ^ 32 := by rw [hq]; field_simp
  rw [← hq] at e3
  have hlo : k * 2 ^ 48 ≤ n := by
    have : (k * 2 ^ 48 : ℚ) ≤ n := by rw [hnq]; linarith
    exact_mod_cast this
  have hhi : n < (k + 1) * 2 ^ 48 := by
    have : (n : ℚ) < (k + 1) * 2 ^ 48 := by rw [hnq]; linarith
    exact_mod_cast this
  obtain ⟨m, hm⟩ : ∃ m, m = middle n := ⟨_, rfl⟩
  have hmn : m * 2 ^ 16 + k * 2 ^ 48 ≤ n ∧ n < (m + 1) * 2 ^ 16 + k * 2 ^ 48 := by
    rw [hm]; unfold middle
    omega
  have m1 : (m : ℚ) * 2 ^ 16 + k * 2 ^ 48 ≤ q * 2 ^ 32 := by rw [← hnq]; exact_mod_cast hmn.1
  have m2 : q * 2 ^ 32 < ((m : ℚ) + 1) * 2 ^ 16 + k * 2 ^ 48 := by rw [← hnq]; exact_mod_cast hmn.2
  rw [← hm, abs_le]
  refine ⟨⟨?_, ?_⟩, ?_⟩ <;> linarith

theorem delay_err {d : ℕ} (h : d < 65536 * 10 ^ 9) : (d : ℚ) * 65536 / 10 ^ 9 - 1.07 ≤ delay32 d ∧ (delay32 d : ℚ) ≤ d * 65536 / 10 ^ 9 := by
  obtain ⟨x, hx⟩ : ∃ x, x = delay32 d := ⟨_, rfl⟩
  have hn : x * 10 ^ 9 ≤ d * 65536 ∧ d * 65536 < x * 10 ^ 9 + 107 * 10 ^ 7 := by
    obtain ⟨m, hm⟩ : ∃ m, m = d / 1000 := ⟨_, rfl⟩
    have a1 : d = 1000 * m + d % 1000 := by omega
    have a2 : m < 65536 * 10 ^ 6 := by omega
    have a3 : m * 65536 / 1000000 < 2 ^ 32 := by omega
    have a4 : x = m * 65536 / 1000000 := by rw [hx, hm]; unfold delay32; rw [Nat.mod_eq_of_lt (by rw [← hm]; exact a3)]
    omega
  have n1 : (x : ℚ) * 10 ^ 9 ≤ d * 65536 := by exact_mod_cast hn.1
  have n2 : (d : ℚ) * 65536 < x * 10 ^ 9 + 107 * 10 ^ 7 := by exact_mod_cast hn.2
  rw [← hx]
  constructor <;> linarith

theorem now_err {n k : ℕ} (h1 : k * 65536 * 10 ^ 9 ≤ n) (h2 : n < (k + 1) * 65536 * 10 ^ 9) :
    (n : ℚ) * 65536 / 10 ^ 9 - k * 2 ^ 32 - 1.01 ≤ nowUnits n ∧ (nowUnits n : ℚ) ≤ n * 65536 / 10 ^ 9 - k * 2 ^ 32 := by
  obtain ⟨x, hx⟩ : ∃ x, x = nowUnits n := ⟨_, rfl⟩
  have hn : x * 10 ^ 9 + k * 2 ^ 32 * 10 ^ 9 ≤ n * 65536 ∧ n * 65536 < x * 10 ^ 9 + k * 2 ^ 32 * 10 ^ 9 + 101 * 10 ^ 7 := by
    obtain ⟨s, hs⟩ : ∃ s, s = n / 10 ^ 9 := ⟨_, rfl⟩
    obtain ⟨f, hf⟩ : ∃ f, f = n % 10 ^ 9 := ⟨_, rfl⟩
    have a1 : n = 10 ^ 9 * s + f := by omega
    have a2 : f < 10 ^ 9 := by omega
    have a3 : k * 65536 ≤ s ∧ s < (k + 1) * 65536 := by omega
    have a4 : s * 2 ^ 16 % 2 ^ 32 = s * 2 ^ 16 - k * 2 ^ 32 := by omega
    obtain ⟨g, hg⟩ : ∃ g, g = f * (2 ^ 32 - 1) / 10 ^ 9 := ⟨_, rfl⟩
    have a5 : g * 1000000000 ≤ f * 4294967295 ∧ f * 4294967295 < g * 1000000000 + 1000000000 := by
      have : g = f * 4294967295 / 1000000000 := by rw [hg]; norm_num
      rw [this]
      exact ⟨Nat.div_mul_le_self _ _, Nat.lt_div_mul_add (by norm_num)⟩
    have a6 : x = s * 2 ^ 16 - k * 2 ^ 32 + g / 2 ^ 16 := by
      unfold nowUnits at hx
      rw [hx, ← hs, ← hf, ← hg, a4]
    obtain ⟨h, hh⟩ : ∃ h, h = g / 2 ^ 16 := ⟨_, rfl⟩
    have a7 : h * 65536 ≤ g ∧ g < h * 65536 + 65536 := by rw [hh]; exact ⟨Nat.div_mul_le_self _ _, Nat.lt_div_mul_add (by norm_num)⟩
    rw [← hh] at a6
    have a8 : x + k * 2 ^ 32 = s * 2 ^ 16 + h := by clear hg hx a5; omega
    have a9 : x * 10 ^ 9 + k * 2 ^ 32 * 10 ^ 9 = (s * 2 ^ 16 + h) * 10 ^ 9 := by rw [← a8, Nat.add_mul]
    rw [a9]
    have b1 : n * 65536 = 65536000000000 * s + 65536 * f := by rw [a1]; ring
    have b2 : (s * 2 ^ 16 + h) * 10 ^ 9 = 65536000000000 * s + 1000000000 * h := by ring
    rw [b1, b2]
    have b3 : f ≤ 999999999 := by clear hs hf hg a4 hx h1 h2 a8 a9 a6 hh a7 a5 a3 b1 b2; omega
    clear hs hf hg a4 hx h1 h2 a8 a9 a6 hh a1 a2 a3 b1 b2
    obtain ⟨a5, a5'⟩ := a5
    obtain ⟨a7, a7'⟩ := a7
    constructor <;> linarith
  have n1 : (x : ℚ) * 10 ^ 9 + k * 2 ^ 32 * 10 ^ 9 ≤ n * 65536 := by exact_mod_cast hn.1
  have n2 : (n : ℚ) * 65536 < x * 10 ^ 9 + k * 2 ^ 32 * 10 ^ 9 + 101 * 10 ^ 7 := by exact_mod_cast hn.2
  rw [← hx]
  constructor <;> linarith

/-- Beyond 32 bits of seconds -/
theorem asNtp_sat {t : ℕ} (h1 : (2 : ℚ) ^ 32 + 1 ≤ secs t + SECS_1900) (h2 : secs t + SECS_1900 < 2 ^ 33 - 1) : asNtp64 t = 2 ^ 64 - 1 := by
  have hS : (SECS_1900 : ℚ) = 2208988800 := by norm_num [SECS_1900]
  rw [hS] at h1 h2
  have e1 := asSecs_err33 (t := t) (by linarith)
  rw [abs_le] at e1
  have e2 := f64_secs (x := asSecsF64 t + 2208988800) (by rw [abs_lt]; constructor <;> linarith)
  rw [abs_le] at e2
  obtain ⟨y, hy⟩ : ∃ y, y = f64 (asSecsF64 t + 2208988800) := ⟨_, rfl⟩
  rw [← hy] at e2
  have e3 := f64_ntp (x := y * 2 ^ 32) (by rw [abs_lt]; constructor <;> linarith)
  rw [abs_le] at e3
  obtain ⟨z, hz⟩ : ∃ z, z = f64 (y * 2 ^ 32) := ⟨_, rfl⟩
  rw [← hz] at e3
  have hle : 2 ^ 64 - 1 ≤ ⌊z⌋₊ := by
    refine Nat.le_floor ?_
    have : ((2 ^ 64 - 1 : ℕ) : ℚ) = 18446744073709551615 := by norm_num
    rw [this]
    linarith
  unfold asNtp64
  rw [hS, ← hy, ← hz]
  exact min_eq_right hle

theorem middle_sat : 2 ^ 32 - 2 ≤ middle (asNtp64 (fromNtp64 (2 ^ 64 - 1))) := by
  have hS : (SECS_1900 : ℚ) = 2208988800 := by norm_num [SECS_1900]
  have hv : ((2 ^ 64 - 1 : ℕ) : ℚ) = 18446744073709551615 := by norm_num
  have e2 := fromNtp_err (v := 2 ^ 64 - 1) (by rw [hS, hv]; norm_num) (by rw [hv]; norm_num)
  rw [abs_le, hv, hS] at e2
  obtain ⟨t, ht⟩ : ∃ t, t = fromNtp64 (2 ^ 64 - 1) := ⟨_, rfl⟩
  rw [← ht] at e2 ⊢
  have e1 := asSecs_err33 (t := t) (by linarith)
  rw [abs_le] at e1
  have e2 := f64_secs (x := asSecsF64 t + 2208988800) (by rw [abs_lt]; constructor <;> linarith)
  rw [abs_le] at e2
  obtain ⟨y, hy⟩ : ∃ y, y = f64 (asSecsF64 t + 2208988800) := ⟨_, rfl⟩
  rw [← hy] at e2
  have e3 := f64_ntp (x := y * 2 ^ 32) (by rw [abs_lt]; constructor <;> linarith)
  rw [abs_le] at e3
  obtain ⟨z, hz⟩ : ∃ z, z = f64 (y * 2 ^ 32) := ⟨_, rfl⟩
  rw [← hz] at e3
  have hle : 18446744073709420544 ≤ ⌊z⌋₊ := by
    refine Nat.le_floor ?_
    push_cast
    linarith
  unfold middle asNtp64
  rw [hS, ← hy, ← hz]
  obtain ⟨w, hw⟩ : ∃ w, w = min ⌊z⌋₊ (2 ^ 64 - 1) := ⟨_, rfl⟩
  have w1 : 18446744073709420544 ≤ w := by rw [hw]; exact le_min hle (by norm_num)
  have w2 : w ≤ 2 ^ 64 - 1 := by rw [hw]; exact min_le_right _ _
  rw [← hw]
  omega

end Str0m.Rtt
