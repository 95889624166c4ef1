import Verif.Model.RtxCap

/-!
What C124 is about: bytes of the last second, from what was taken to be sent.
-/

namespace Str0m.RtxCap
open Str0m Str0m.Tx

/-- Bytes that went out during the second before `t`: those sent again, or those sent for the first time -/
def bytesIn (resend : Bool) (l : List Entry) (t : Nat) : Nat :=
  ((l.filter (fun e => e.resend == resend && decide (t ≤ e.time + 1000000))).map (·.len)).sum

/-- At `t` the packets sent again were no more than the share `c` of all bytes of the last second -/
def Within (c : ℚ) (l : List Entry) (t : Nat) : Prop :=
  (bytesIn true l t : ℚ) ≤ c * ((bytesIn true l t + bytesIn false l t : Nat) : ℚ)

/-- The time of a poll -/
def Op.time : Op → Option Nat
  | .poll now _ _ => some now
  | _ => none

/-- Time does not go back: no poll is before `t`, and they are in order -/
def Forward : Nat → List Op → Prop
  | _, [] => True
  | t, op :: ops =>
    match op.time with
    | some now => t ≤ now ∧ Forward now ops
    | none => Forward t ops

/-- What starts the accounts anew: another SSRC, or no cap -/
def Op.Restarts : Op → Prop
  | .resetSsrc .. => True
  | .setCache _ _ cap => cap = none
  | _ => False

/-- A stream with a cap that sent nothing yet -/
structure Fresh (s : Capped) : Prop where
  flag : s.tx.capped = true
  cap : s.cap ≠ none
  sent : s.sent = some {}
  resent : s.resent = some {}
  measured : s.measured = none

/-- Nothing is asked for again -/
def Op.NoNack : Op → Prop
  | .nack _ => False
  | _ => True

end Str0m.RtxCap
