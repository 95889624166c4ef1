import Verif.Base
/-
  Vocabulary of C23/C24, independent of the model.
-/
namespace Str0m.Packet.Spec

/-- Every RTP payload fits the MTU. -/
def FitsMtu (mtu : Nat) (packets : List (List Byte)) : Prop := ∀ p ∈ packets, p.length ≤ mtu

/-- RFC 6386 9.1: the lowest bit of the first byte of a VP8 frame is 0 for a key frame. -/
def Vp8KeyFrame (frame : List Byte) : Prop := ∃ b rest, frame = b :: rest ∧ b.val % 2 = 0

/-- The value of `n` bits of a byte after the `from` most significant ones. -/
def bits (b : Byte) (start n : Nat) : Nat := b.val / 2 ^ (8 - start - n) % 2 ^ n

/-- VP9 bitstream specification 6.2: `frame_marker` f(2), `profile_low_bit` f(1), `profile_high_bit`
f(1), `reserved_zero` f(1) only if the profile is 3, `show_existing_frame` f(1), `frame_type` f(1)
where 0 is a key frame. -/
def Vp9KeyFrame (frame : List Byte) : Prop :=
  ∃ b rest, frame = b :: rest ∧ bits b 0 2 = 2 ∧
    (if bits b 2 1 = 1 ∧ bits b 3 1 = 1 then bits b 5 1 = 0 ∧ bits b 6 1 = 0 else bits b 4 1 = 0 ∧ bits b 5 1 = 0)

/-- VP9 profile of a frame: 0, 1, 2 or 3. -/
def vp9Profile (b : Byte) : Nat := bits b 3 1 * 2 + bits b 2 1

end Str0m.Packet.Spec
