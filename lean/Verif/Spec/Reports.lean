import Verif.Model.Reports
/-
  C132: what is said about the times of reports.
-/
namespace Str0m.Reports

/-- The times of the timeouts do not go back. -/
def Forward : Nat → List Op → Prop
  | _, [] => True
  | clock, .timeout now :: ops => clock ≤ now ∧ Forward now ops
  | clock, _ :: ops => Forward clock ops

/-- The time of the last timeout. -/
def clockAfter : Nat → List Op → Nat
  | clock, [] => clock
  | _, .timeout now :: ops => clockAfter now ops
  | clock, _ :: ops => clockAfter clock ops

/-- No incoming stream of the media is new or changes its SSRC. -/
def SettledRx (m : Nat) : Op → Prop
  | .expectRx _ _ mid _ => mid ≠ m
  | .changeRx _ _ => False
  | _ => True

/-- No outgoing stream of the media is new or changes its SSRC. -/
def SettledTx (m : Nat) : Op → Prop
  | .declareTx _ mid => mid ≠ m
  | .resetTx _ _ => False
  | _ => True

/-- The application does not turn NACKs on or off on a stream it has looked up by SSRC. -/
def NotBySsrc : Op → Prop
  | .suppress _ _ viaMid => viaMid = true
  | _ => True

/-- The stream of SSRC 0 is left alone: nobody removes it or gives it RTX, and its mid is nobody else's. -/
def ProbesLeft : Op → Prop
  | .expectRx ssrc rtx mid _ => (ssrc = 0 → rtx = none) ∧ (mid = midProbe → ssrc = 0)
  | .changeRx old new => old ≠ 0 ∧ new ≠ 0
  | .removeRx ssrc => ssrc ≠ 0
  | .removeMid mid => mid ≠ midProbe
  | _ => True

end Str0m.Reports
