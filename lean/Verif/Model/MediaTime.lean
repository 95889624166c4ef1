import Verif.Base
/-
  Model of src/rtp/mtime.rs 35-104 and 168-435 (`Frequency`, `MediaTime`). The floating point
  constructors (234-245) are not modelled.
-/
namespace Str0m

/-- mtime.rs 168-169. `numer` is a `u64`, `denom` a non-zero `u32` (`WF` below). -/
structure MediaTime where
  numer : Nat
  denom : Nat
deriving Repr, DecidableEq

namespace MediaTime

/-- What the Rust types guarantee: `u64` numerator, `NonZeroU32` denominator (mtime.rs 36, 169). -/
def WF (t : MediaTime) : Prop := t.numer < 2 ^ 64 ∧ 0 < t.denom ∧ t.denom < 2 ^ 32

/-- mtime.rs 172-173: `ZERO` is `0/1`. -/
def zero : MediaTime := ⟨0, 1⟩

/-- mtime.rs 262-270. The product of a `u64` and a `u32` fits `i128`; `as u64` keeps the low 64
bits. -/
def rebase (t : MediaTime) (denom : Nat) : MediaTime :=
  if denom = t.denom then t
  else ⟨(t.numer * denom / t.denom) % 2 ^ 64, denom⟩

/-- mtime.rs 272-276 -/
def sameBase (a b : MediaTime) : MediaTime × MediaTime :=
  let m := max a.denom b.denom
  (a.rebase m, b.rebase m)

/-- mtime.rs 296-304 -/
def checkedSub (a b : MediaTime) : Option MediaTime :=
  let (l, r) := sameBase a b
  if l.numer < r.numer then none else some ⟨l.numer - r.numer, l.denom⟩

/-- mtime.rs 324-330 -/
def saturatingSub (a b : MediaTime) : MediaTime :=
  match a.checkedSub b with
  | some v => v
  | none => zero

/-- mtime.rs 333-339 -/
def eq (a b : MediaTime) : Bool :=
  let (l, r) := sameBase a b
  l.numer == r.numer

/-- mtime.rs 352-363. The inner `t0 == t1` is `eq` again (on the rebased times). -/
def cmp (a b : MediaTime) : Ordering :=
  let (l, r) := sameBase a b
  if l.eq r then .eq else if l.numer < r.numer then .lt else .gt

/-- mtime.rs 366-373; `u64` addition panics on overflow (in a checked build). -/
def add (a b : MediaTime) : Res Unit MediaTime :=
  let (l, r) := sameBase a b
  if l.numer + r.numer < 2 ^ 64 then .ok ⟨l.numer + r.numer, l.denom⟩ else .panic

/-- mtime.rs 376-382: panics when the result would be negative. -/
def sub (a b : MediaTime) : Res Unit MediaTime :=
  match a.checkedSub b with
  | some v => .ok v
  | none => .panic

/-- mtime.rs 247-250 -/
def asMicros (t : MediaTime) : Nat := (t.rebase 1000000).numer

/-- mtime.rs 425-428 `Duration::from`, in microseconds. -/
def toDurationMicros (t : MediaTime) : Nat := t.asMicros

/-- mtime.rs 431-434; a duration in microseconds (`as u64` truncates). -/
def ofDurationMicros (us : Nat) : MediaTime := ⟨us % 2 ^ 64, 1000000⟩

end MediaTime
end Str0m
