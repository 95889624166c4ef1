import Verif.Model.Alr

/-!
What C130 is about: how much was sent in stretches of time, and how much could have been.
-/

namespace Str0m.Alr

/-- One packet: the estimate when it was sent, the time since the packet before, its bytes -/
structure Piece where
  estimate : Nat
  gap : Nat
  bytes : Nat
deriving Repr, DecidableEq

/-- The packets of a history but for the first, given the estimate and the time of the packet before -/
def pieces (estimate : Nat) (last : Option Nat) : List Op → List Piece
  | [] => []
  | .estimate e :: ops => pieces e last ops
  | .sent now bytes :: ops => match last with
    | none => pieces estimate (some now) ops
    | some t => ⟨estimate, now - t, bytes⟩ :: pieces estimate (some now) ops

/-- The packets of a history from the start -/
def history (ops : List Op) : List Piece := pieces 0 none ops

/-- The estimate that holds at the end -/
def estimateAt (ops : List Op) : Nat := ops.foldl (fun e op => match op with | .estimate e' => e' | _ => e) 0

/-- Bits times 10^8 that were sent -/
def used (l : List Piece) : Int := (l.map (fun p => (800000000 : Int) * p.bytes)).sum

/-- Bits times 10^8 that 65% of the estimate allows in the time of the stretch -/
def allowed (l : List Piece) : Int := (l.map (fun p => (65 : Int) * p.estimate * p.gap)).sum

/-- Bits times 10^8 that 65% of an estimate allows in so many milliseconds -/
def worth (estimate ms : Nat) : Int := (65 : Int) * estimate * (1000 * ms)

/-- The time of a stretch in microseconds -/
def time (l : List Piece) : Nat := (l.map (·.gap)).sum

/-- The estimate was the same for each packet -/
def Steady (e : Nat) (l : List Piece) : Prop := ∀ p ∈ l, p.estimate = e

end Str0m.Alr
