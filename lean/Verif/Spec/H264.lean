import Verif.Base
/-
  H.264 vocabulary for C23, independent of the model: NAL units, Annex B byte streams (ITU-T H.264
  Annex B), RFC 6184 packet contents.
-/
namespace Str0m.H264.Spec

/-- The `nal_unit_type` of a NAL unit. -/
def unitType (n : List Byte) : Nat :=
  match n with
  | [] => 0
  | b :: _ => b.val % 32

/-- A NAL unit that H.264 allows in a byte stream: `forbidden_zero_bit` 0, a type from 1 to 23 (RFC 6184
reserves the others), no start code inside, last byte not zero. -/
def ValidUnit (n : List Byte) : Prop :=
  (∃ b rest, n = b :: rest ∧ b.val < 128) ∧ 1 ≤ unitType n ∧ unitType n ≤ 23 ∧
  (∀ a c : List Byte, n ≠ a ++ [0, 0, 1] ++ c) ∧ (∀ a : List Byte, n ≠ a ++ [0])

/-- Access unit delimiters and filler data are not sent over RTP. -/
def Dropped (n : List Byte) : Prop := unitType n = 9 ∨ unitType n = 12

instance (n : List Byte) : Decidable (Dropped n) := by unfold Dropped; infer_instance

/-- The Annex B byte stream of NAL units, each after a start code with the given number of zeros. -/
def annexB : List (Nat × List Byte) → List Byte
  | [] => []
  | (zeros, n) :: rest => List.replicate zeros 0 ++ [1] ++ n ++ annexB rest

/-- What a receiver hands to the application for NAL units in Annex B form. -/
def delivered : List (List Byte) → List Byte
  | [] => []
  | n :: ns => [0, 0, 0, 1] ++ n ++ delivered ns

/-- In AVC form each NAL unit follows its 32 bit length. -/
def deliveredAvc : List (List Byte) → List Byte
  | [] => []
  | n :: ns => be32 n.length ++ n ++ deliveredAvc ns

end Str0m.H264.Spec

namespace Str0m.H264.Spec

/-- The NAL units that travel for a frame, in order: delimiters and filler are left out; parameter sets
wait and go together, SPS then PPS, just before the next other unit once both are there. `sps`
and `pps` are what waits from before. -/
def sent : Option (List Byte) → Option (List Byte) → List (List Byte) → List (List Byte)
  | _, _, [] => []
  | sps, pps, n :: ns =>
    if unitType n = 9 ∨ unitType n = 12 then sent sps pps ns
    else if unitType n = 7 then sent (some n) pps ns
    else if unitType n = 8 then sent sps (some n) ns
    else match sps, pps with
      | some s, some p => s :: p :: n :: sent none none ns
      | _, _ => n :: sent sps pps ns

/-- The frame as handed to the application by the receiver. -/
def frame (avc : Bool) (us : List (List Byte)) : List Byte := if avc then deliveredAvc us else delivered us

/-- A frame as encoders make them, without delimiters and filler: nothing or SPS and PPS first, then
at least one unit, none of them a parameter set. -/
def Usual (us : List (List Byte)) : Prop :=
  ∃ ps slices, us.filter (fun n => ¬ Dropped n) = ps ++ slices ∧ slices ≠ [] ∧
    (∀ n ∈ slices, unitType n ≠ 7 ∧ unitType n ≠ 8) ∧
    (ps = [] ∨ ∃ s p, ps = [s, p] ∧ unitType s = 7 ∧ unitType p = 8)

end Str0m.H264.Spec
