import Verif.Model.Packet
/-
  Model of `Vp8Descriptor`, `Vp8PatchBuilder` and `Vp8Patch`, `src/packet/vp8.rs` 16-372.
-/
namespace Str0m.Vp8Desc
open Str0m.Packet (bit)

/-- `enum Vp8DescriptorError`, `src/packet/vp8.rs` 63-71. -/
inductive DErr where
  | shortPayload
  | malformed
deriving Repr, DecidableEq

/-- `enum Vp8PatchError`, `src/packet/vp8.rs` 84-98. -/
inductive BErr where
  | pictureIdMissing
  | pictureIdTooLarge
  | tl0Missing
  | keyIdxMissing
  | keyIdxTooLarge
deriving Repr, DecidableEq

/-- `struct Vp8PictureId`, `src/packet/vp8.rs` 232-237. -/
structure Pid where
  value : Nat
  offset : Nat
  is15 : Bool
deriving Repr, DecidableEq

/-- `struct Vp8Field`, `src/packet/vp8.rs` 226-230. -/
structure Field where
  value : Byte
  offset : Nat
deriving Repr, DecidableEq

/-- `struct Vp8Descriptor`, `src/packet/vp8.rs` 218-224. -/
structure Desc where
  payloadOffset : Nat
  pid : Option Pid
  tl0 : Option Field
  key : Option Field
deriving Repr, DecidableEq

/-- `read_vp8_descriptor_byte`, `src/packet/vp8.rs` 366-372. -/
def readB (payload : List Byte) (offset : Nat) : Res DErr Byte :=
  match payload[offset]? with
  | some b => .ok b
  | none => .err .shortPayload

/-- The picture id, `src/packet/vp8.rs` 273-289. -/
def parsePid (payload : List Byte) (has : Bool) (off : Nat) : Res DErr (Option Pid × Nat) :=
  if has then do
    let b ← readB payload off
    if bit b 7 = 1 then do
      let lo ← readB payload (off + 1)
      pure (some ⟨b.val % 128 * 256 + lo.val, off, true⟩, off + 2)
    else pure (some ⟨b.val % 128, off, false⟩, off + 1)
  else .ok (none, off)

/-- TL0PICIDX, `src/packet/vp8.rs` 291-295. -/
def parseTl0 (payload : List Byte) (has : Bool) (off : Nat) : Res DErr (Option Field × Nat) :=
  if has then do
    let b ← readB payload off
    pure (some ⟨b, off⟩, off + 1)
  else .ok (none, off)

/-- TID/Y/KEYIDX, `src/packet/vp8.rs` 297-303. -/
def parseKey (payload : List Byte) (hasTid hasKey : Bool) (off : Nat) : Res DErr (Option Field × Nat) :=
  if hasTid || hasKey then do
    let b ← readB payload off
    pure (if hasKey then some ⟨b, off⟩ else none, off + 1)
  else .ok (none, off)

/-- The fields, `src/packet/vp8.rs` 262-304. -/
def parseFields (payload : List Byte) (required : Byte) : Res DErr Desc :=
  if bit required 7 = 1 then do
    let ext ← readB payload 1
    if bit ext 6 = 1 ∧ bit ext 5 ≠ 1 then .err .malformed
    else do
      let p ← parsePid payload (bit ext 7 == 1) 2
      let t ← parseTl0 payload (bit ext 6 == 1) p.2
      let k ← parseKey payload (bit ext 5 == 1) (bit ext 4 == 1) t.2
      pure ⟨k.2, p.1, t.1, k.1⟩
  else .ok ⟨1, none, none, none⟩

/-- `Vp8Descriptor::parse`, `src/packet/vp8.rs` 250-311. -/
def parse (payload : List Byte) : Res DErr Desc :=
  match payload with
  | [] => .err .shortPayload
  | b :: _ => do
    let d ← parseFields payload b
    if d.payloadOffset ≥ payload.length then .err .shortPayload else pure d

/-- `Vp8Descriptor::picture_id`, `src/packet/vp8.rs` 314-319. -/
def Desc.pictureId (d : Desc) : Option Nat := d.pid.map (·.value)

/-- `Vp8Descriptor::tl0_pic_idx`, `src/packet/vp8.rs` 322-327. -/
def Desc.tl0PicIdx (d : Desc) : Option Nat := d.tl0.map (·.value.val)

/-- `Vp8Descriptor::key_idx`, `src/packet/vp8.rs` 330-335. -/
def Desc.keyIdx (d : Desc) : Option Nat := d.key.map (·.value.val % 32)

/-- `Vp8Descriptor::starts_keyframe`, `src/packet/vp8.rs` 341-353. -/
def Desc.startsKeyframe (d : Desc) (payload : List Byte) : Bool :=
  match payload with
  | [] => false
  | b :: _ =>
    if bit b 4 = 0 ∨ b.val % 8 ≠ 0 then false
    else match payload[d.payloadOffset]? with
      | some h => bit h 0 == 0
      | none => false

/-- `Vp8Patch`, `src/packet/vp8.rs` 21-26: at most four replacements (offset, byte). -/
abbrev Patch := List (Nat × Byte)

/-- `Vp8Patch::push`, `src/packet/vp8.rs` 37-45: arrays of four, `offset as u8` under an assertion. -/
def push (p : Patch) (offset : Nat) (b : Byte) : Res BErr Patch :=
  if p.length < 4 ∧ offset ≤ 255 then .ok (p ++ [(offset, b)]) else .panic

/-- The picture id of `build`, `src/packet/vp8.rs` 171-190. -/
def buildPid (d : Desc) (req : Option Nat) (p : Patch) : Res BErr Patch :=
  match req with
  | none => .ok p
  | some v =>
    match d.pid with
    | none => .err .pictureIdMissing
    | some q =>
      if v > 0x7fff then .err .pictureIdTooLarge
      else if q.is15 = false ∧ v > 0x7f then .err .pictureIdTooLarge
      else if q.is15 then do
        let p1 ← push p q.offset (u8 (0x80 + v / 256 % 128))
        push p1 (q.offset + 1) (u8 v)
      else push p q.offset (u8 v)

/-- TL0PICIDX of `build`, `src/packet/vp8.rs` 192-197. -/
def buildTl0 (d : Desc) (req : Option Byte) (p : Patch) : Res BErr Patch :=
  match req with
  | none => .ok p
  | some v =>
    match d.tl0 with
    | none => .err .tl0Missing
    | some q => push p q.offset v

/-- KEYIDX of `build`, `src/packet/vp8.rs` 199-207: `(value & !0x1f) | key_idx`. -/
def buildKey (d : Desc) (req : Option Byte) (p : Patch) : Res BErr Patch :=
  match req with
  | none => .ok p
  | some v =>
    match d.key with
    | none => .err .keyIdxMissing
    | some q => if v.val > 0x1f then .err .keyIdxTooLarge else push p q.offset (u8 (q.value.val / 32 * 32 + v.val))

/-- `Vp8PatchBuilder::build`, `src/packet/vp8.rs` 168-210. -/
def build (d : Desc) (pid : Option Nat) (tl0 key : Option Byte) : Res BErr Patch := do
  let p1 ← buildPid d pid []
  let p2 ← buildTl0 d tl0 p1
  buildKey d key p2

/-- The loop of `Vp8Patch::copy_to`, `src/packet/vp8.rs` 57-59. -/
def apply : Patch → List Byte → Res BErr (List Byte)
  | [], dst => .ok dst
  | (o, b) :: rest, dst => if o < dst.length then apply rest (dst.set o b) else .panic

/-- `Vp8Patch::copy_to`, `src/packet/vp8.rs` 52-60: `dst` starts as a copy of the payload. -/
def copyTo (p : Patch) (payload : List Byte) : Res BErr (List Byte) := apply p payload

end Str0m.Vp8Desc
