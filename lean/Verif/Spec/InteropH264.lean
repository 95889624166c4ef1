import Verif.Spec.H264
/-
  RFC 6184 payloads of other implementations (C64): single NAL unit packets, STAP-A with any number of
  units, FU-A fragments cut anywhere.
-/
namespace Str0m.H264.Spec

/-- A unit that may travel in packetization mode 1: forbidden bit 0, type 1 to 23. -/
def Travels (n : List Byte) : Prop := ∃ b t, n = b :: t ∧ b.val < 128 ∧ 1 ≤ b.val % 32 ∧ b.val % 32 ≤ 23

inductive Item where
  /-- A single NAL unit packet. -/
  | single (n : List Byte)
  /-- STAP-A: NRI and units. -/
  | stapA (nri : Nat) (us : List (List Byte))
  /-- FU-A: the header byte of the unit and the pieces of the rest. -/
  | fuA (hdr : Byte) (pieces : List (List Byte))

def Item.Legal : Item → Prop
  | .single n => Travels n
  | .stapA nri us => nri < 4 ∧ us ≠ [] ∧ ∀ n ∈ us, Travels n ∧ n.length < 2 ^ 16
  | .fuA hdr pieces => hdr.val < 128 ∧ 1 ≤ hdr.val % 32 ∧ hdr.val % 32 ≤ 23 ∧ 2 ≤ pieces.length

/-- Each unit after its 16 bit size. -/
def aggregated : List (List Byte) → List Byte
  | [] => []
  | n :: ns => be16 n.length ++ n ++ aggregated ns

/-- FU indicator, FU header (S, E, R, type), piece. -/
def fu (hdr : Byte) (s e : Bool) (piece : List Byte) : List Byte :=
  u8 (hdr.val / 32 * 32 + 28) :: u8 ((if s then 128 else 0) + (if e then 64 else 0) + hdr.val % 32) :: piece

def fuRest (hdr : Byte) : List (List Byte) → List (List Byte)
  | [] => []
  | [p] => [fu hdr false true p]
  | p :: q :: ps => fu hdr false false p :: fuRest hdr (q :: ps)

/-- The RTP payloads of an item. -/
def Item.payloads : Item → List (List Byte)
  | .single n => [n]
  | .stapA nri us => [u8 (nri * 32 + 24) :: aggregated us]
  | .fuA _ [] => []
  | .fuA hdr (p :: ps) => fu hdr true false p :: fuRest hdr ps

/-- The units of an item. -/
def Item.units : Item → List (List Byte)
  | .single n => [n]
  | .stapA _ us => us
  | .fuA hdr pieces => [hdr :: pieces.flatten]

end Str0m.H264.Spec
