import Mathlib.Data.Int.Log
import Mathlib.Data.Rat.Floor
import Verif.Base
/-
  Model of the round-trip time: src/util/mod.rs 37-87 (`calculate_rtt`), src/util/time_tricks.rs 79-157 (NTP time),
  src/streams/receive.rs 600-638 (LSR and DLSR of a receiver report), src/session.rs 309-322, 754-761 (the same for DLRR).

  Times are nanoseconds. Floating point numbers are rationals that are rounded to nearest, ties to even, after each operation; there are
  no denormals, infinities and NaNs (no value here gets near them).
-/
namespace Str0m.Rtt

/-- To the nearest integer, ties to even -/
def roundEven (x : ℚ) : ℤ :=
  if x - ⌊x⌋ < 1 / 2 then ⌊x⌋ else if 1 / 2 < x - ⌊x⌋ then ⌊x⌋ + 1 else if ⌊x⌋ % 2 = 0 then ⌊x⌋ else ⌊x⌋ + 1

/-- The distance of the floating point numbers with `p` bits around `x` -/
def ulp (p : ℕ) (x : ℚ) : ℚ := (2 : ℚ) ^ (Int.log 2 |x| - (p - 1))

/-- A result in floating point with `p` bits -/
def flt (p : ℕ) (x : ℚ) : ℚ := if x = 0 then 0 else roundEven (x / ulp p x) * ulp p x

def f64 : ℚ → ℚ := flt 53
def f32 : ℚ → ℚ := flt 24

/-- time_tricks.rs 85 -/
def SECS_1900 : ℕ := 2208988800

/-- `Duration::as_secs_f64` of the standard library: `(secs as f64) + (nanos as f64) / 1e9` -/
def asSecsF64 (t : ℕ) : ℚ := f64 ((t / 10 ^ 9 : ℕ) + f64 ((t % 10 ^ 9 : ℕ) / 10 ^ 9))

/-- `as_ntp_64`, time_tricks.rs 148-156, for a time after 1970 (`t` is the time since then); `as u64` saturates -/
def asNtp64 (t : ℕ) : ℕ := min ⌊f64 (f64 (asSecsF64 t + SECS_1900) * 2 ^ 32)⌋₊ (2 ^ 64 - 1)

/-- `Duration::try_from_secs_f64(x).unwrap_or(ZERO)` of the standard library, time_tricks.rs 142; to the nearest nanosecond -/
def ofSecsF64 (x : ℚ) : ℕ := if x < 0 then 0 else (roundEven (x * 10 ^ 9)).toNat

/-- `from_ntp_64`, time_tricks.rs 128-146 -/
def fromNtp64 (v : ℕ) : ℕ := ofSecsF64 (f64 (f64 (f64 v / 2 ^ 32) - SECS_1900))

/-- `(t64 >> 16) as u32`, receive.rs 613-620; session.rs 757 -/
def middle (v : ℕ) : ℕ := v / 2 ^ 16 % 2 ^ 32

/-- receive.rs 626-632; session.rs 314-315: the delay in units of 1/65536 seconds -/
def delay32 (d : ℕ) : ℕ := d / 1000 * 65536 / 1000000 % 2 ^ 32

/-- `to_ntp_duration`, time_tricks.rs 109-111 -/
def toNtp (t : ℕ) : ℕ := t + SECS_1900 * 10 ^ 9

/-- util/mod.rs 74-79 -/
def nowUnits (ntp : ℕ) : ℕ :=
  ntp / 10 ^ 9 * 2 ^ 16 % 2 ^ 32 + ntp % 10 ^ 9 * (2 ^ 32 - 1) / 10 ^ 9 / 2 ^ 16

/-- util/mod.rs 82-86 -/
def unitsToNanos (u : ℕ) : ℕ :=
  u / 2 ^ 16 * 10 ^ 9 + ⌊f32 (f32 ((u % 2 ^ 16 : ℕ) / 65535) * 10 ^ 9)⌋₊

/-- `calculate_rtt`, util/mod.rs 45-87 -/
def calculateRtt (ntp delay last : ℕ) : Option ℕ :=
  if delay = 0 then none
  else if nowUnits ntp < delay then none
  else if nowUnits ntp - delay < last then none
  else some (unitsToNanos (nowUnits ntp - delay - last))

/-- What the sender of a report at `t0` computes at `t3` of the answer: the other side, which received the report at `t1` and answered at
`t2` (of its own clock), sends back the middle of the NTP time of the report as it read it, and its delay. -/
def measured (t0 t1 t2 t3 : ℕ) : Option ℕ :=
  calculateRtt (toNtp t3) (delay32 (t2 - t1)) (middle (asNtp64 (fromNtp64 (asNtp64 t0))))

end Str0m.Rtt
