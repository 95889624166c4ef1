import Verif.Base
/-
  AV1 vocabulary for C23, independent of the model: OBUs and the low overhead bitstream format (AV1
  bitstream specification 5.3, 4.10.5).
-/
namespace Str0m.Av1.Spec

/-- An OBU: type, extension byte, reserved bit, payload. -/
structure SObu where
  ty : Nat
  ext : Option Byte
  reserved : Bool
  payload : List Byte

/-- `obu_header()`: forbidden bit 0, type, extension flag, size flag, reserved bit. -/
def SObu.header (o : SObu) (sized : Bool) : Byte :=
  u8 (o.ty * 8 + (if o.ext.isSome then 4 else 0) + (if sized then 2 else 0) + (if o.reserved then 1 else 0))

/-- The value of LEB128 bytes. -/
def lebVal : List Byte → Nat
  | [] => 0
  | b :: r => b.val % 128 + 128 * lebVal r

/-- A legal `leb128()` of `n`: at most eight bytes, continuation bits on all but the last; it need not be the
shortest. -/
def IsLeb (l : List Byte) (n : Nat) : Prop :=
  ∃ init last, l = init ++ [last] ∧ l.length ≤ 8 ∧ (∀ b ∈ init, 128 ≤ b.val) ∧ last.val < 128 ∧ lebVal l = n

/-- The shortest `leb128()`. -/
def lebMin (n : Nat) : List Byte :=
  if h : n < 128 then [u8 n] else u8 (n % 128 + 128) :: lebMin (n / 128)
termination_by n
decreasing_by omega

/-- An OBU with a size field. -/
def sized (o : SObu) (size : List Byte) : List Byte := o.header true :: (o.ext.toList ++ size ++ o.payload)

/-- An OBU without a size field: it extends to the end. -/
def unsized (o : SObu) : List Byte := o.header false :: (o.ext.toList ++ o.payload)

/-- A frame given to the packetizer: OBUs with size fields, perhaps a last one without. -/
def lowOverhead (us : List (SObu × List Byte)) (last : Option SObu) : List Byte :=
  (us.map (fun x => sized x.1 x.2)).flatten ++ (match last with | some o => unsized o | none => [])

/-- OBUs that travel over RTP (RTP payload format for AV1, section 5): sequence and frame headers, tile
groups, metadata, frames, redundant frame headers. Temporal delimiters, tile lists, padding and
reserved types are dropped. -/
def Kept (o : SObu) : Prop := o.ty ∈ [1, 3, 4, 5, 6, 7]

instance (o : SObu) : Decidable (Kept o) := by unfold Kept; infer_instance

/-- The frame as handed to the application by the receiver: every OBU with its shortest size field. -/
def delivered : List SObu → List Byte
  | [] => []
  | o :: os => sized o (lebMin o.payload.length) ++ delivered os

end Str0m.Av1.Spec
