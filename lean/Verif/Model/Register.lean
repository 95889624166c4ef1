import Verif.Model.Nack
/-
  Model of the integer part of src/streams/register.rs (reception statistics). The
  interarrival jitter (floating point, lines 40-65, 140-211, 237-243) is not modelled.
-/
namespace Str0m

/-- register.rs 7-31, without `time_point_prior` and `jitter`. -/
structure ReceiverRegister where
  nack : NackRegister
  first : Option Nat
  count : Nat
  expectedPrior : Int
  receivedPrior : Int

/-- register.rs 109-124 / rr.rs 17-25: the modelled fields of a `ReceptionReport`. -/
structure ReceptionStats where
  fractionLost : Nat
  packetsLost : Nat
  maxSeq : Nat
deriving Repr, DecidableEq

namespace ReceiverRegister

/-- register.rs 68-78 -/
def new (maxSeqNo : Option Nat) : ReceiverRegister :=
  { nack := .new maxSeqNo, first := none, count := 0, expectedPrior := 0, receivedPrior := 0 }

/-- register.rs 84-98 (without the time argument) -/
def update (r : ReceiverRegister) (seq : Nat) : ReceiverRegister × Bool :=
  let first := match r.first with | none => some seq | some f => some f
  let (nack, new) := r.nack.update seq
  ({ r with first := first, nack := nack, count := if new then r.count + 1 else r.count }, new)

/-- register.rs 261-264; `(last - first) as i64` then `saturating_add(1)`. -/
def expected (first last : Nat) : Int :=
  ((min (last - first + 1) (2 ^ 63 - 1) : Nat) : Int)

/-- register.rs 247-259. `lost_t as u32` is the remainder modulo `2^32`. -/
def packetsLost (expected received : Int) : Nat :=
  let lost := expected - received
  if lost > 0x7fffff then 0x7fffff
  else if lost < -0x7fffff then 0x8000000
  else (lost % 2 ^ 32).toNat

/-- register.rs 217-235. Rust's `/` on `i64` truncates toward zero; `as u8` is the
remainder modulo 256. -/
def fractionLost (r : ReceiverRegister) (expected received : Int) : ReceiverRegister × Nat :=
  let expectedInterval := expected - r.expectedPrior
  let receivedInterval := received - r.receivedPrior
  let lostInterval := expectedInterval - receivedInterval
  let lost : Int :=
    if expectedInterval = 0 ∨ lostInterval = 0 then 0
    else (lostInterval * 256).tdiv expectedInterval
  ({ r with expectedPrior := expected, receivedPrior := received }, (lost % 256).toNat)

/-- register.rs 109-124 -/
def receptionReport (r : ReceiverRegister) : ReceiverRegister × Option ReceptionStats :=
  match r.first, r.nack.maxSeq with
  | some first, some last =>
    let e := expected first last
    let (r', f) := r.fractionLost e r.count
    (r', some { fractionLost := f, packetsLost := packetsLost e r.count, maxSeq := last % 2 ^ 32 })
  | _, _ => (r, none)

end ReceiverRegister
end Str0m
