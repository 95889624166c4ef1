import Verif.Model.MsidId
/-
  C135: RFC 8830 and RFC 4566: `msid-id = 1*64token-char` and
  `token-char = %x21 / %x23-27 / %x2A-2B / %x2D-2E / %x30-39 / %x41-5A / %x5E-7E`.
-/
namespace Str0m.MsidId

/-- A token-char of RFC 4566. -/
def TokenChar (u : Nat) : Prop :=
  u = 0x21 ∨ (0x23 ≤ u ∧ u ≤ 0x27) ∨ (0x2a ≤ u ∧ u ≤ 0x2b) ∨ (0x2d ≤ u ∧ u ≤ 0x2e) ∨ (0x30 ≤ u ∧ u ≤ 0x39) ∨ (0x41 ≤ u ∧ u ≤ 0x5a) ∨
    (0x5e ≤ u ∧ u ≤ 0x7e)

/-- An msid-id of RFC 8830. -/
def Legal (s : List Nat) : Prop := 1 ≤ s.length ∧ s.length ≤ 64 ∧ ∀ u ∈ s, TokenChar u

/-- Space, tab, CR and LF: what ends a word or a line of the SDP. -/
def Ends (u : Nat) : Prop := u = 0x20 ∨ u = 0x09 ∨ u = 0x0d ∨ u = 0x0a

end Str0m.MsidId
