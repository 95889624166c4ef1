import Verif.Model.SsrcLines
/-
  C133: what the SSRC lines of an SDP mean.
-/
namespace Str0m.SsrcLines

/-- All SSRCs of these streams. -/
def ssrcsOf (l : List (Nat × Option Nat)) : List Nat := l.flatMap (fun p => p.1 :: p.2.toList)

/-- An attribute about SSRCs. -/
def aboutSsrc : Attr → Bool
  | .other _ => false
  | _ => true

/-- The stream that these SSRCs of the other side should be received with. -/
def wanted (mid : Nat) (p : Nat × Option Nat) : Rx := { ssrc := p.1, mid := mid, rtx := p.2, suppress := p.2 = none }

end Str0m.SsrcLines
