import Verif.Model.Snap

/-!
What C131 is about: that both sides started SCTP the same way.
-/

namespace Str0m.Snap
variable {Chunk : Type}

/-- The code is base64 (what is decoded is what was encoded, and nothing else is taken for it) -/
structure Code.Fair (c : Code Chunk) : Prop where
  back : ∀ x, c.decode (c.encode x) = some x
  only : ∀ s x, c.decode s = some x → c.encode x = s

/-- Both sides did not start SCTP, or both with the handshake, or both without, each with the chunk of the other -/
inductive Together : Option (Mode Chunk) → Option (Mode Chunk) → Prop where
  | none : Together .none .none
  | handshake : Together (some .handshake) (some .handshake)
  | snap (x y : Chunk) : Together (some (.snap x y)) (some (.snap y x))

/-- The chunks that the library makes are taken by the library of the other side -/
def Honest (c : Code Chunk) (op : Op Chunk) : Prop := match op with
  | .exchange _ _ m m' => (∀ x, m = some x → c.takes x = true) ∧ ∀ x, m' = some x → c.takes x = true
  | .unsent _ _ m => ∀ x, m = some x → c.takes x = true

/-- The first exchange with an application line: which side made the offer, and the two chunks -/
def opening : List (Op Chunk) → Option (Bool × Option Chunk × Option Chunk)
  | [] => none
  | .exchange first true m m' :: _ => some (first, m, m')
  | _ :: ops => opening ops

end Str0m.Snap
