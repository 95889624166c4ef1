import Mathlib.Data.Int.Order.Basic

/-!
The detector of an application that sends less than it may: bwe/alr_detector/budget.rs 20-120, bwe/alr_detector/detector.rs 20-134.

Simplifications: sizes are exact, in units of 1/800000000 byte, so that the target rate (65% of the estimate, in bits per second) times
microseconds is a number of units; the program rounds each product to whole bytes. Ratios are compared without rounding. Times are
microseconds.
-/

namespace Str0m.Alr

/-- `IntervalBudget` (budget.rs 20-29) with `can_build_up_underuse`, and `AlrDetector` (detector.rs 21-36): the target rate (percent of a bit
per second), what remains, the time since when the application is limited, the last time -/
structure State where
  rate : Nat := 0
  rem : Int := 0
  alr : Option Nat := none
  last : Option Nat := none
deriving Repr, DecidableEq

/-- A byte (see above) -/
def byte : Int := 800000000

/-- `calculate_max_bytes` (budget.rs 118-120): half a second -/
def State.max (s : State) : Int := (s.rate : Int) * 500000

/-- `set_estimated_bitrate` (detector.rs 123-126), `set_target_rate` (budget.rs 51-63) -/
def setEstimate (s : State) (estimate : Nat) : State :=
  let s' : State := { s with rate := 65 * estimate }
  { s' with rem := Max.max (-s'.max) (Min.min s'.max s.rem) }

/-- `use_budget` (budget.rs 92-97) -/
def State.use (s : State) (bytes : Nat) : State := { s with rem := Max.max (-s.max) (s.rem - byte * bytes) }

/-- `increase_budget` (budget.rs 71-87) -/
def State.increase (s : State) (delta : Nat) : State := { s with rem := Min.min s.max (s.rem + s.rate * delta) }

/-- `budget_ratio() > 0.8` (budget.rs 109-115, detector.rs 97) -/
def State.high (s : State) : Bool := decide (0 < s.max) && decide (4 * s.max < 5 * s.rem)

/-- `budget_ratio() < 0.5` (budget.rs 109-115, detector.rs 107) -/
def State.low (s : State) : Bool := decide (s.max = 0) || decide (2 * s.rem < s.max)

/-- The change of state (detector.rs 95-116) -/
def State.judge (s : State) (now : Nat) : State :=
  match s.alr with
  | none => if s.high then { s with alr := some now } else s
  | some _ => if s.low then { s with alr := none } else s

/-- `on_bytes_sent` (detector.rs 77-117) -/
def sent (s : State) (now bytes : Nat) : State :=
  match s.last with
  | none => { s with last := some now }
  | some last => (({ s with last := some now }.use bytes).increase (now - last)).judge now

/-- What happens -/
inductive Op where
  | estimate (e : Nat)
  | sent (now bytes : Nat)
deriving Repr, DecidableEq

/-- One step -/
def step (s : State) : Op → State
  | .estimate e => setEstimate s e
  | .sent now bytes => sent s now bytes

/-- A history -/
def run (ops : List Op) : State := ops.foldl step {}

end Str0m.Alr
