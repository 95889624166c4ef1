import Verif.Proofs.Rtt
/-
  C87: the round-trip time.
-/
namespace Str0m.Rtt

theorem secs_ntp (t : ℕ) : secs t + SECS_1900 = (toNtp t : ℚ) / 10 ^ 9 := by
  unfold secs toNtp
  push_cast
  field_simp
  ring

/-- **C87**: a report sent at `t0`, received at `t1` and answered at `t2` on the other side's clock, the answer received at `t3` (nanoseconds since
1970): the round-trip time is reported, and is right to 60 microseconds. The 16 bits of seconds in the reports must not wrap in between
(2208988800 is the number of seconds from 1900 to 1970), the time spent on the way is at least 31 microseconds, and at the other side 16. -/
theorem C87_rtt (t0 t1 t2 t3 k : ℕ) (hw : k * 65536 * 10 ^ 9 + 12000 ≤ t0 + 2208988800 * 10 ^ 9) (hw' : t3 + 2208988800 * 10 ^ 9 < (k + 1) * 65536 * 10 ^ 9)
    (h2036 : t3 + 2208988800 * 10 ^ 9 < (2 ^ 32 - 2) * 10 ^ 9) (h1970 : 2 * 10 ^ 9 ≤ t0) (hd : t1 + 16000 ≤ t2) (hr : t0 + (t2 - t1) + 31000 ≤ t3) :
    ∃ d, measured t0 t1 t2 t3 = some d ∧ d ≤ t3 - t0 - (t2 - t1) + 60000 ∧ t3 - t0 - (t2 - t1) ≤ d + 60000 := by
  obtain ⟨D, hD⟩ : ∃ D, D = t2 - t1 := ⟨_, rfl⟩
  rw [← hD] at hr ⊢
  have hD0 : 16000 ≤ D := by omega
  obtain ⟨T0, hT0⟩ : ∃ T0, T0 = toNtp t0 := ⟨_, rfl⟩
  obtain ⟨T3, hT3⟩ : ∃ T3, T3 = toNtp t3 := ⟨_, rfl⟩
  have hS : (SECS_1900 : ℚ) = 2208988800 := by norm_num [SECS_1900]
  have e0 : T0 = t0 + 2208988800 * 10 ^ 9 := hT0
  have e3 : T3 = t3 + 2208988800 * 10 ^ 9 := hT3
  rw [← e0] at hw
  rw [← e3] at hw' h2036
  have hord : T0 + D + 31000 ≤ T3 := by omega
  have hgap : t3 - t0 - D = T3 - T0 - D := by omega
  rw [hgap]
  have hDlt : D < 65536 * 10 ^ 9 := by omega
  have hk3 : k * 65536 * 10 ^ 9 ≤ T3 := by linarith
  -- in rationals
  have qw : (k : ℚ) * 65536 * 10 ^ 9 + 12000 ≤ T0 := by exact_mod_cast hw
  have qw' : (T3 : ℚ) < (k + 1) * 65536 * 10 ^ 9 := by exact_mod_cast hw'
  have qo : (T0 : ℚ) + D + 31000 ≤ T3 := by exact_mod_cast hord
  have qD : (16000 : ℚ) ≤ D := by exact_mod_cast hD0
  have q36 : (T3 : ℚ) < (2 ^ 32 - 2) * 10 ^ 9 := by
    have : T3 < 4294967294 * 10 ^ 9 := by norm_num at h2036 ⊢; exact h2036
    have : (T3 : ℚ) < 4294967294 * 10 ^ 9 := by exact_mod_cast this
    linarith
  have hsec : secs t0 + SECS_1900 = (T0 : ℚ) / 10 ^ 9 := by rw [hT0]; exact secs_ntp t0
  have hs1 : (1 : ℚ) ≤ secs t0 - 1 := by
    have : (2 * 10 ^ 9 : ℚ) ≤ t0 := by exact_mod_cast h1970
    unfold secs
    linarith
  obtain ⟨m1, m2⟩ := middle_err (t := t0) (k := k) (by rw [hsec]; linarith) hs1 (by rw [hsec]; linarith) (by rw [hsec]; linarith)
  rw [abs_le, hsec] at m1
  rw [hsec] at m2
  obtain ⟨d1, d2⟩ := delay_err hDlt
  obtain ⟨n1, n2⟩ := now_err (n := T3) (k := k) hk3 hw'
  obtain ⟨L, hL⟩ : ∃ L, L = middle (asNtp64 (fromNtp64 (asNtp64 t0))) := ⟨_, rfl⟩
  obtain ⟨x, hx⟩ : ∃ x, x = delay32 D := ⟨_, rfl⟩
  obtain ⟨n, hn⟩ : ∃ n, n = nowUnits T3 := ⟨_, rfl⟩
  rw [← hL] at m1 m2
  rw [← hx] at d1 d2
  rw [← hn] at n1 n2
  have hx0 : x ≠ 0 := by
    intro h
    have h1 := Nat.div_add_mod (D / 1000 * 65536 / 1000000) (2 ^ 32)
    rw [hx] at h
    unfold delay32 at h
    have a2 : D / 1000 < 65536 * 10 ^ 6 := by omega
    have a3 : D / 1000 * 65536 / 1000000 < 2 ^ 32 := by omega
    rw [Nat.mod_eq_of_lt a3] at h
    omega
  have hle : x + L ≤ n := by
    have : ((x : ℚ) + L) < n + 1 := by linarith
    have : x + L < n + 1 := by exact_mod_cast this
    omega
  have hm : measured t0 t1 t2 t3 = some (unitsToNanos (n - x - L)) := by
    unfold measured calculateRtt
    rw [← hD, ← hT3, ← hx, ← hn, ← hL, if_neg hx0, if_neg (by omega), if_neg (by omega)]
  obtain ⟨u, hu⟩ : ∃ u, u = n - x - L := ⟨_, rfl⟩
  have hun : (n : ℚ) = u + x + L := by
    have : n = u + x + L := by omega
    exact_mod_cast this
  obtain ⟨u1, u2⟩ := units_err u
  rw [← hu] at hm
  obtain ⟨d, hd'⟩ : ∃ d, d = unitsToNanos u := ⟨_, rfl⟩
  rw [← hd'] at u1 u2 hm
  obtain ⟨R, hR⟩ : ∃ R, R = T3 - T0 - D := ⟨_, rfl⟩
  have hRq : (T3 : ℚ) = T0 + D + R := by
    have : T3 = T0 + D + R := by omega
    exact_mod_cast this
  rw [← hR]
  refine ⟨d, hm, ?_, ?_⟩
  · have : (d : ℚ) ≤ R + 60000 := by linarith
    exact_mod_cast this
  · have : (R : ℚ) ≤ d + 60000 := by linarith
    exact_mod_cast this

/-- An hour of the year 2024, 50 milliseconds on the way -/
example : ∃ d, measured (1717171717 * 10 ^ 9) 5000 (5000 + 700 * 10 ^ 6) (1717171717 * 10 ^ 9 + 750 * 10 ^ 6) = some d ∧ d ≤ 50060000 ∧ 49940000 ≤ d := by
  obtain ⟨d, h1, h2, h3⟩ := C87_rtt (1717171717 * 10 ^ 9) 5000 (5000 + 700 * 10 ^ 6) (1717171717 * 10 ^ 9 + 750 * 10 ^ 6) 59908
    (by norm_num) (by norm_num) (by norm_num) (by norm_num) (by norm_num) (by norm_num)
  exact ⟨d, h1, by omega, by omega⟩

/-- The 16 bits of seconds wrap every 18 hours. A report from before and an answer from after give no round-trip time, whatever it is (RFC 3550
subtracts modulo 2^32). -/
theorem C87_violation_wrap (t0 t1 t2 t3 k : ℕ) (h0 : k * 65536 * 10 ^ 9 + 12000 ≤ t0 + 2208988800 * 10 ^ 9)
    (h0' : t0 + 2208988800 * 10 ^ 9 + 12000 < (k + 1) * 65536 * 10 ^ 9) (h3 : (k + 1) * 65536 * 10 ^ 9 ≤ t3 + 2208988800 * 10 ^ 9)
    (h3' : t3 + 30000 < t0 + 65536 * 10 ^ 9) (h2036 : t0 + 2208988800 * 10 ^ 9 < (2 ^ 32 - 2) * 10 ^ 9) (h1970 : 2 * 10 ^ 9 ≤ t0) :
    measured t0 t1 t2 t3 = none := by
  obtain ⟨T0, hT0⟩ : ∃ T0, T0 = toNtp t0 := ⟨_, rfl⟩
  obtain ⟨T3, hT3⟩ : ∃ T3, T3 = toNtp t3 := ⟨_, rfl⟩
  have e0 : T0 = t0 + 2208988800 * 10 ^ 9 := hT0
  have e3 : T3 = t3 + 2208988800 * 10 ^ 9 := hT3
  rw [← e0] at h0 h0' h2036
  rw [← e3] at h3
  have hlt : T3 + 30000 < T0 + 65536 * 10 ^ 9 := by omega
  have q0 : (k : ℚ) * 65536 * 10 ^ 9 + 12000 ≤ T0 := by exact_mod_cast h0
  have q0' : (T0 : ℚ) + 12000 < (k + 1) * 65536 * 10 ^ 9 := by exact_mod_cast h0'
  have q3 : (T3 : ℚ) + 30000 < T0 + 65536 * 10 ^ 9 := by exact_mod_cast hlt
  have q36 : (T0 : ℚ) < (2 ^ 32 - 2) * 10 ^ 9 := by
    have : T0 < 4294967294 * 10 ^ 9 := by norm_num at h2036 ⊢; exact h2036
    have : (T0 : ℚ) < 4294967294 * 10 ^ 9 := by exact_mod_cast this
    linarith
  have hsec : secs t0 + SECS_1900 = (T0 : ℚ) / 10 ^ 9 := by rw [hT0]; exact secs_ntp t0
  have hs1 : (1 : ℚ) ≤ secs t0 - 1 := by
    have : (2 * 10 ^ 9 : ℚ) ≤ t0 := by exact_mod_cast h1970
    unfold secs
    linarith
  obtain ⟨m1, -⟩ := middle_err (t := t0) (k := k) (by rw [hsec]; linarith) hs1 (by rw [hsec]; linarith) (by rw [hsec]; linarith)
  rw [abs_le, hsec] at m1
  obtain ⟨-, n2⟩ := now_err (n := T3) (k := k + 1) h3 (by omega)
  push_cast at n2
  have hlt : nowUnits T3 < middle (asNtp64 (fromNtp64 (asNtp64 t0))) := by
    have : (nowUnits T3 : ℚ) < middle (asNtp64 (fromNtp64 (asNtp64 t0))) := by linarith
    exact_mod_cast this
  unfold measured calculateRtt
  rw [← hT3]
  split
  · rfl
  · split
    · rfl
    · rw [if_pos (by omega)]

/-- From 7 February 2036 on (seconds since 1900 do not fit in 32 bits) the NTP time saturates, and there is no round-trip time. -/
theorem C87_violation_2036 (t0 t1 t2 t3 : ℕ) (h0 : (2 ^ 32 + 1) * 10 ^ 9 ≤ t0 + 2208988800 * 10 ^ 9) (h0' : t0 + 2208988800 * 10 ^ 9 < (2 ^ 33 - 1) * 10 ^ 9)
    (hd : t1 + 31000 ≤ t2) (hd' : t2 < t1 + 65536 * 10 ^ 9) : measured t0 t1 t2 t3 = none := by
  have hS : (SECS_1900 : ℚ) = 2208988800 := by norm_num [SECS_1900]
  have hsec : secs t0 + 2208988800 = (toNtp t0 : ℚ) / 10 ^ 9 := by rw [← hS]; exact secs_ntp t0
  have q0 : (2 ^ 32 + 1 : ℚ) ≤ secs t0 + 2208988800 := by
    rw [hsec, le_div_iff₀ (by norm_num)]
    exact_mod_cast h0
  have q1 : secs t0 + 2208988800 < (2 ^ 33 - 1 : ℚ) := by
    rw [hsec, div_lt_iff₀ (by norm_num)]
    have : toNtp t0 < 8589934591 * 10 ^ 9 := by norm_num at h0' ⊢; exact h0'
    have : (toNtp t0 : ℚ) < 8589934591 * 10 ^ 9 := by exact_mod_cast this
    linarith
  have hfull : asNtp64 t0 = 2 ^ 64 - 1 := asNtp_sat (by rw [hS]; linarith) (by rw [hS]; linarith)
  have hL : 2 ^ 32 - 2 ≤ middle (asNtp64 (fromNtp64 (asNtp64 t0))) := by
    rw [hfull]
    exact middle_sat
  have hn : nowUnits (toNtp t3) < 2 ^ 32 := by
    unfold nowUnits
    have a1 : toNtp t3 / 10 ^ 9 * 2 ^ 16 % 2 ^ 32 ≤ 2 ^ 32 - 2 ^ 16 := by omega
    have a2 : toNtp t3 % 10 ^ 9 * (2 ^ 32 - 1) / 10 ^ 9 / 2 ^ 16 < 2 ^ 16 := by
      rw [Nat.div_div_eq_div_mul, Nat.div_lt_iff_lt_mul (by norm_num)]
      have : toNtp t3 % 10 ^ 9 < 10 ^ 9 := Nat.mod_lt _ (by norm_num)
      generalize toNtp t3 % 10 ^ 9 = f at this
      norm_num at this ⊢
      linarith
    omega
  have hx : 2 ≤ delay32 (t2 - t1) := by
    unfold delay32
    have a3 : (t2 - t1) / 1000 * 65536 / 1000000 < 2 ^ 32 := by omega
    rw [Nat.mod_eq_of_lt a3]
    omega
  unfold measured calculateRtt
  split
  · rfl
  · split
    · rfl
    · rw [if_pos (by omega)]

end Str0m.Rtt
