import Verif.Base
import Verif.Model.Extend
/-
  Model of the simple packetizers and depacketizers: Opus, G.711/G.722, comfort noise, null, VP8, VP9
  (`src/packet/{opus,g7xx,comfort_noise,null,vp8,vp9}.rs`) and of the byte reader they use
  (`BitRead`, `src/packet/mod.rs` 180-277, only ever used at byte positions here).

  A depacketizer maps its state, a packet, the output so far and the codec extra to the new ones;
  an error leaves no result (the theorems quantify over every state, so the state after an error
  needs no model).
-/
namespace Str0m.Packet

/-- `enum PacketError`, `src/packet/error.rs` 8-22 (the variants used here). -/
inductive PErr where
  | shortPacket
  | payloadTooLarge
  | tooManySpatialLayers
  | tooManyPDiff
  | vp8Corrupted
  | vp9Corrupted
  | av1Corrupted
  | stapASize (size rest : Nat)
  | naluType (t : Nat)
  | h265Corrupted
  | h265Type
  | h265Phes
  | h266Corrupted
deriving Repr, DecidableEq

/-- Bit `k` of a byte. -/
def bit (b : Byte) (k : Nat) : Nat := b.val / 2 ^ k % 2

/-- `reader.get_u8().ok_or(e)?` at byte `pos`: `src/packet/mod.rs` 208-226.  Returns the byte; the
reader moves to `pos + 1`. -/
def getU8 (packet : List Byte) (pos : Nat) (e : PErr) : Res PErr Byte :=
  match packet[pos]? with
  | some b => .ok b
  | none => .err e

/-! ### Opus, G.7xx, comfort noise, null -/

/-- The loop of `OpusPacketizer::packetize`, `src/packet/opus.rs` 20-25. -/
def opusGo (mtu : Nat) (payload : List Byte) : Nat → Nat → Res PErr (List (List Byte))
  | 0, _ => .ok []
  | fuel + 1, cur =>
    if cur < payload.length then do
      let piece ← Res.slice payload cur (cur + min mtu (payload.length - cur))
      let rest ← opusGo mtu payload fuel (cur + mtu)
      pure (piece :: rest)
    else .ok []

/-- `OpusPacketizer::packetize`, `src/packet/opus.rs` 12-28; the loop runs at most once per byte. -/
def opusPacketize (mtu : Nat) (payload : List Byte) : Res PErr (List (List Byte)) :=
  if payload = [] ∨ mtu = 0 then .ok [] else opusGo mtu payload (payload.length + 1) 0

/-- The loop of `G7xxPacketizer::packetize`, `src/packet/g7xx.rs` 19-30. -/
def g7xxGo (mtu : Nat) (payload : List Byte) : Nat → Nat → Nat → Res PErr (List (List Byte))
  | 0, _, _ => .ok []
  | fuel + 1, remaining, index =>
    if remaining > 0 then do
      let piece ← Res.slice payload index (index + min mtu remaining)
      let rest ← g7xxGo mtu payload fuel (remaining - min mtu remaining) (index + min mtu remaining)
      pure (piece :: rest)
    else .ok []

/-- `G7xxPacketizer::packetize`, `src/packet/g7xx.rs` 12-33. -/
def g7xxPacketize (mtu : Nat) (payload : List Byte) : Res PErr (List (List Byte)) :=
  if payload = [] ∨ mtu = 0 then .ok [] else g7xxGo mtu payload (payload.length + 1) payload.length 0

/-- `ComfortNoisePacketizer::packetize`, `src/packet/comfort_noise.rs` 9-20. -/
def cnPacketize (mtu : Nat) (payload : List Byte) : Res PErr (List (List Byte)) :=
  if payload = [] then .ok [] else if payload.length > mtu then .err .payloadTooLarge else .ok [payload]

/-- `NullPacketizer::packetize`, `src/packet/null.rs` 9-12. -/
def nullPacketize (_mtu : Nat) (payload : List Byte) : Res PErr (List (List Byte)) := .ok [payload]

/-- `OpusDepacketizer::depacketize`, `G711Depacketizer::depacketize`, `NullDepacketizer::depacketize`:
`src/packet/opus.rs` 50-61, `g7xx.rs` 49-60, `null.rs` 24-32 (extending by nothing for an empty packet). -/
def plainDepacketize (packet out : List Byte) : Res PErr (List Byte) := .ok (out ++ packet)

/-- `ComfortNoiseDepacketizer::depacketize`, `src/packet/comfort_noise.rs` 32-44. -/
def cnDepacketize (packet out : List Byte) : Res PErr (List Byte) :=
  if packet = [] then .err .shortPacket else .ok (out ++ packet)

/-! ### VP8 -/

/-- `struct Vp8Packetizer`, `src/packet/vp8.rs` 457-461. -/
structure Vp8P where
  enablePictureId : Bool
  pictureId : Nat
deriving Repr, DecidableEq

/-- `using_header_size`, `src/packet/vp8.rs` 490-498. -/
def vp8HeaderSize (p : Vp8P) : Nat :=
  if p.enablePictureId then (if p.pictureId = 0 ∨ p.pictureId < 128 then 3 else 4) else 1

/-- The descriptor of one packet, `src/packet/vp8.rs` 515-535: `buf[..using_header_size]`. -/
def vp8Header (p : Vp8P) (first : Bool) : List Byte :=
  let b0 : Nat := if first then 0x10 else 0
  if p.enablePictureId then
    if p.pictureId = 0 ∨ p.pictureId < 128 then [u8 (b0 + 0x80), u8 0x80, u8 (p.pictureId % 128)]
    else [u8 (b0 + 0x80), u8 0x80, u8 (0x80 + p.pictureId / 256 % 128), u8 (p.pictureId % 256)]
  else [u8 b0]

/-- The loop of `Vp8Packetizer::packetize`, `src/packet/vp8.rs` 510-544. -/
def vp8Go (p : Vp8P) (maxFrag : Nat) (payload : List Byte) : Nat → Nat → Nat → Bool → Res PErr (List (List Byte))
  | 0, _, _, _ => .ok []
  | fuel + 1, remaining, index, first =>
    if remaining > 0 then do
      let piece ← Res.slice payload index (index + min maxFrag remaining)
      let rest ← vp8Go p maxFrag payload fuel (remaining - min maxFrag remaining) (index + min maxFrag remaining) false
      pure ((vp8Header p first ++ piece) :: rest)
    else .ok []

/-- `Vp8Packetizer::packetize`, `src/packet/vp8.rs` 463-550. -/
def vp8Packetize (p : Vp8P) (mtu : Nat) (payload : List Byte) : Res PErr (List (List Byte) × Vp8P) :=
  if payload = [] ∨ mtu = 0 then .ok ([], p)
  else if mtu ≤ vp8HeaderSize p then .ok ([], p)
  else do
    let pkts ← vp8Go p (mtu - vp8HeaderSize p) payload (payload.length + 1) payload.length 0 true
    pure (pkts, { p with pictureId := (p.pictureId + 1) % 2 ^ 15 })

/-- The part of `struct Vp8Depacketizer` that survives to the next packet or is reported,
`src/packet/vp8.rs` 563-606. -/
structure Vp8D where
  extendedPid : Option Nat
  extendedTl0 : Option Nat
  tid : Nat
  y : Nat
  keyIdx : Nat
deriving Repr, DecidableEq

/-- `struct Vp8CodecExtra`, `src/packet/vp8.rs` 374-394. -/
structure Vp8Extra where
  discardable : Bool
  sync : Bool
  layerIndex : Nat
  pictureId : Option Nat
  tl0PictureId : Option Nat
  isKeyframe : Bool
deriving Repr, DecidableEq

/-- The picture id, `src/packet/vp8.rs` 672-686: the new state and the number of bytes read. -/
def vp8PictureId (d : Vp8D) (packet : List Byte) (i : Bool) (pos : Nat) : Res PErr (Vp8D × Nat) :=
  if i then do
    let b ← getU8 packet pos .shortPacket
    if bit b 7 = 1 then do
      let x ← getU8 packet (pos + 1) .shortPacket
      pure ({ d with extendedPid := some (extendU15 d.extendedPid (b.val % 128 * 256 + x.val)) }, pos + 2)
    else pure ({ d with extendedPid := some (extendU7 d.extendedPid b.val) }, pos + 1)
  else .ok (d, pos)

/-- `TL0PICIDX`, `src/packet/vp8.rs` 688-697. -/
def vp8Tl0 (d : Vp8D) (packet : List Byte) (l : Bool) (pos : Nat) : Res PErr (Vp8D × Nat) :=
  if pos ≥ packet.length then .err .shortPacket
  else if l then do
    let b ← getU8 packet pos .shortPacket
    pure ({ d with extendedTl0 := some (extendU8 d.extendedTl0 b.val) }, pos + 1)
  else .ok (d, pos)

/-- TID, Y and KEYIDX, `src/packet/vp8.rs` 699-713. -/
def vp8Tid (d : Vp8D) (packet : List Byte) (t k : Bool) (pos : Nat) : Res PErr (Vp8D × Nat) :=
  if pos ≥ packet.length then .err .shortPacket
  else if t ∨ k then do
    let b ← getU8 packet pos .shortPacket
    pure ({ d with tid := (if t then b.val / 64 else d.tid), y := (if t then bit b 5 else d.y),
                   keyIdx := (if k then b.val % 32 else d.keyIdx) }, pos + 1)
  else .ok (d, pos)

/-- The extension flags I, L, T, K, `src/packet/vp8.rs` 651-670. -/
def vp8Ext (packet : List Byte) (x : Bool) : Res PErr ((Bool × Bool × Bool × Bool) × Nat) :=
  if x then do
    let b ← getU8 packet 1 .shortPacket
    if bit b 6 = 1 ∧ bit b 5 = 0 then .err .vp8Corrupted
    else pure ((bit b 7 == 1, bit b 6 == 1, bit b 5 == 1, bit b 4 == 1), 2)
  else .ok ((false, false, false, false), 1)

/-- `is_keyframe` of the extra collected so far, `src/packet/vp8.rs` 751-755. -/
def vp8Was (extra : Option Vp8Extra) : Bool :=
  match extra with
  | some x => x.isKeyframe
  | none => false

/-- `Vp8Depacketizer::depacketize`, `src/packet/vp8.rs` 615-773. -/
def vp8Depacketize (d : Vp8D) (packet out : List Byte) (extra : Option Vp8Extra) :
    Res PErr (Vp8D × List Byte × Option Vp8Extra) := do
  let b0 ← getU8 packet 0 .shortPacket
  let e ← vp8Ext packet (bit b0 7 == 1)
  let r1 ← vp8PictureId d packet e.1.1 e.2
  let r2 ← vp8Tl0 r1.1 packet e.1.2.1 r1.2
  let r3 ← vp8Tid r2.1 packet e.1.2.2.1 e.1.2.2.2 r2.2
  if r3.2 ≥ packet.length then .err .shortPacket
  else do
    let body ← Res.from_ packet r3.2
    let p ← (if bit b0 4 = 1 ∧ b0.val % 8 = 0 then do
        let b ← getU8 packet r3.2 .shortPacket
        pure (bit b 0)
      else pure 1 : Res PErr Nat)
    pure (r3.1, out ++ body, some {
      discardable := bit b0 5 == 1, sync := r3.1.y == 1, layerIndex := r3.1.tid,
      pictureId := if e.1.1 then r3.1.extendedPid else none,
      tl0PictureId := if e.1.2.1 then r3.1.extendedTl0 else none,
      isKeyframe := vp8Was extra || p == 0 })

/-- `Vp8Depacketizer::is_partition_head`, `src/packet/vp8.rs` 775-782. -/
def vp8Head (packet : List Byte) : Bool :=
  match packet with
  | [] => false
  | b :: _ => bit b 4 == 1

/-- `detect_vp8_keyframe`, `src/packet/vp8.rs` 396-449. -/
def detectVp8Keyframe (payload : List Byte) : Res PErr Bool :=
  if payload = [] then .ok false
  else do
    let b0 ← Res.idx payload 0
    if bit b0 4 ≠ 1 ∨ b0.val % 8 ≠ 0 then .ok false
    else if bit b0 7 = 1 then
      if 1 ≥ payload.length then .ok false
      else do
        let ext ← Res.idx payload 1
        if bit ext 7 = 1 ∧ 2 ≥ payload.length then .ok false
        else do
          let idx ← (if bit ext 7 = 1 then do
              let b ← Res.idx payload 2
              pure (if bit b 7 = 1 then 4 else 3)
            else pure 2 : Res PErr Nat)
          let idx2 := idx + (if bit ext 6 = 1 then 1 else 0) + (if bit ext 5 = 1 ∨ bit ext 4 = 1 then 1 else 0)
          if idx2 ≥ payload.length then .ok false
          else do
            let b ← Res.idx payload idx2
            pure (bit b 0 == 0)
    else if 1 ≥ payload.length then .ok false
    else do
      let b ← Res.idx payload 1
      pure (bit b 0 == 0)

/-! ### VP9 -/

/-- `detect_vp9_keyframe_bitstream`, `src/packet/vp9.rs` 118-155. -/
def vp9Keyframe (payload : List Byte) : Bool :=
  match payload with
  | [] => false
  | b :: _ =>
    if b.val / 64 ≠ 2 then false
    else if bit b 4 = 1 then (if bit b 2 ≠ 0 then false else bit b 1 == 0)
    else if bit b 3 ≠ 0 then false else bit b 2 == 0

/-- `struct Vp9Packetizer`, `src/packet/vp9.rs` 177-187. -/
structure Vp9P where
  pictureId : Nat
  tl0picidx : Nat
  initialized : Bool
  flexible : Bool
deriving Repr, DecidableEq

/-- The header of one packet in non-flexible mode, `src/packet/vp9.rs` 299-330. -/
def vp9HeaderN (p : Vp9P) (key first last : Bool) : List Byte :=
  [u8 (0xA0 + (if key then 0 else 0x40) + (if first then 8 else 0) + (if last then 4 else 0) + (if key && first then 2 else 0)),
   u8 (p.pictureId / 256 ||| 0x80), u8 (p.pictureId % 256), u8 0x10, u8 p.tl0picidx] ++ (if key && first then [u8 0] else [])

/-- The header of one packet in flexible mode, `src/packet/vp9.rs` 385-397. -/
def vp9HeaderF (p : Vp9P) (first last : Bool) : List Byte :=
  [u8 (0x90 + (if first then 8 else 0) + (if last then 4 else 0)), u8 (p.pictureId / 256 ||| 0x80), u8 (p.pictureId % 256)]

/-- The loops of `packetize_non_flexible` and `packetize_flexible`, `src/packet/vp9.rs` 287-340 and
377-407, over the header function. -/
def vp9Go (hdr : Bool → Bool → List Byte) (maxFrag : Nat) (payload : List Byte) : Nat → Nat → Nat → Res PErr (List (List Byte))
  | 0, _, _ => .ok []
  | fuel + 1, remaining, index =>
    if remaining > 0 then do
      let piece ← Res.slice payload index (index + min maxFrag remaining)
      let rest ← vp9Go hdr maxFrag payload fuel (remaining - min maxFrag remaining) (index + min maxFrag remaining)
      pure ((hdr (index == 0) (remaining == min maxFrag remaining) ++ piece) :: rest)
    else .ok []

/-- `Vp9Packetizer::packetize`, `src/packet/vp9.rs` 210-346 and 363-413; `rng` is the first picture id. -/
def vp9Packetize (rng : Nat) (p : Vp9P) (mtu : Nat) (payload : List Byte) : Res PErr (List (List Byte) × Vp9P) :=
  if payload = [] ∨ mtu = 0 then .ok ([], p)
  else
    let p := if p.initialized then p else { p with pictureId := rng % 2 ^ 15, initialized := true }
    if p.flexible then
      if mtu ≤ 3 then .ok ([], p)
      else do
        let pkts ← vp9Go (vp9HeaderF p) (mtu - 3) payload (payload.length + 1) payload.length 0
        pure (pkts, { p with pictureId := (p.pictureId + 1) % 2 ^ 15 })
    else
      let p := { p with tl0picidx := (p.tl0picidx + 1) % 256 }
      if mtu ≤ 8 then .ok ([], p)
      else do
        let pkts ← vp9Go (vp9HeaderN p (vp9Keyframe payload)) (mtu - 8) payload (payload.length + 1) payload.length 0
        pure (pkts, { p with pictureId := (p.pictureId + 1) % 2 ^ 15 })

/-- The part of `struct Vp9Depacketizer` that is reported or survives, `src/packet/vp9.rs` 416-473. -/
structure Vp9D where
  pictureId : Nat
  tid : Nat
  sid : Nat
  tl0picidx : Nat
  widths : List (Option Nat)
  heights : List (Option Nat)
  pgtid : List Nat
  pgpdiff : List (List Nat)
deriving Repr, DecidableEq

/-- `Vp9Depacketizer::default()`. -/
def Vp9D.init : Vp9D :=
  { pictureId := 0, tid := 0, sid := 0, tl0picidx := 0, widths := [none, none, none], heights := [none, none, none], pgtid := [], pgpdiff := [] }

/-- `struct Vp9CodecExtra`, `src/packet/vp9.rs` 26-116. -/
structure Vp9Extra where
  layersScheme : List (Option Nat)
  tid : Option Nat
  widths : List (Option Nat)
  heights : List (Option Nat)
  tl0PictureId : Option Nat
  pid : Nat
  isKeyframe : Bool
deriving Repr, DecidableEq

/-- `Vp9CodecExtra::default()`. -/
def Vp9Extra.init : Vp9Extra :=
  { layersScheme := [none, none, none], tid := none, widths := [none, none, none], heights := [none, none, none],
    tl0PictureId := none, pid := 0, isKeyframe := false }

/-- `parse_picture_id`, `src/packet/vp9.rs` 597-621. -/
def vp9PictureId (d : Vp9D) (packet : List Byte) (pos : Nat) : Res PErr (Vp9D × Nat) := do
  let b ← getU8 packet pos .shortPacket
  if bit b 7 = 1 then do
    let x ← getU8 packet (pos + 1) .shortPacket
    pure ({ d with pictureId := b.val % 128 * 256 + x.val }, pos + 2)
  else pure ({ d with pictureId := b.val % 128 }, pos + 1)

/-- `parse_layer_info`, `src/packet/vp9.rs` 623-685. -/
def vp9LayerInfo (d : Vp9D) (packet : List Byte) (f : Bool) (pos : Nat) : Res PErr (Vp9D × Nat) := do
  let b ← getU8 packet pos .shortPacket
  if b.val / 2 % 8 ≥ 3 then .err .tooManySpatialLayers
  else if f then pure ({ d with tid := b.val / 32, sid := b.val / 2 % 8 }, pos + 1)
  else do
    let t ← getU8 packet (pos + 1) .shortPacket
    pure ({ d with tid := b.val / 32, sid := b.val / 2 % 8, tl0picidx := t.val }, pos + 2)

/-- `parse_ref_indices`, `src/packet/vp9.rs` 694-717 (the differences themselves are not reported):
`left` more are allowed. -/
def vp9Refs (packet : List Byte) : Nat → Nat → Res PErr Nat
  | 0, _ => .err .tooManyPDiff
  | left + 1, pos => do
    let b ← getU8 packet pos .shortPacket
    if bit b 0 = 1 then vp9Refs packet left (pos + 1) else pure (pos + 1)

/-- The resolutions of the scalability structure, `src/packet/vp9.rs` 762-772: `n` layers from `i`;
`self.width[i]` of an array of three. -/
def vp9Sizes (d : Vp9D) (packet : List Byte) : Nat → Nat → Nat → Res PErr (Vp9D × Nat)
  | 0, _, pos => .ok (d, pos)
  | n + 1, i, pos => do
    let a ← getU8 packet pos .shortPacket
    let b ← getU8 packet (pos + 1) .shortPacket
    let c ← getU8 packet (pos + 2) .shortPacket
    let e ← getU8 packet (pos + 3) .shortPacket
    if i < d.widths.length ∧ i < d.heights.length then
      vp9Sizes { d with widths := d.widths.set i (some (rd16 a b)), heights := d.heights.set i (some (rd16 c e)) } packet n (i + 1) (pos + 4)
    else .panic

/-- The reference differences of one picture of the group, `src/packet/vp9.rs` 798-804:
`self.pgpdiff[i].push(b)`. -/
def vp9PgDiffs (d : Vp9D) (packet : List Byte) (i : Nat) : Nat → Nat → Res PErr (Vp9D × Nat)
  | 0, pos => .ok (d, pos)
  | r + 1, pos => do
    let b ← getU8 packet pos .shortPacket
    let old ← Res.idx d.pgpdiff i
    vp9PgDiffs { d with pgpdiff := d.pgpdiff.set i (old ++ [b.val]) } packet i r (pos + 1)

/-- The picture group, `src/packet/vp9.rs` 783-805: `n` pictures from `i`.  Nothing clears
`pgtid`/`pgpdiff` between packets. -/
def vp9Pg (d : Vp9D) (packet : List Byte) : Nat → Nat → Nat → Res PErr (Vp9D × Nat)
  | 0, _, pos => .ok (d, pos)
  | n + 1, i, pos => do
    let b ← getU8 packet pos .shortPacket
    let r ← vp9PgDiffs { d with pgtid := d.pgtid ++ [b.val / 32], pgpdiff := d.pgpdiff ++ [[]] } packet i (b.val / 4 % 4) (pos + 1)
    vp9Pg r.1 packet n (i + 1) r.2

/-- `parse_ssdata`, `src/packet/vp9.rs` 739-808. -/
def vp9Ss (d : Vp9D) (packet : List Byte) (pos : Nat) : Res PErr (Vp9D × Nat) := do
  let b ← getU8 packet pos .shortPacket
  if b.val / 32 + 1 > 3 then .err .vp9Corrupted
  else do
    let r ← (if bit b 4 = 1 then vp9Sizes d packet (b.val / 32 + 1) 0 (pos + 1) else pure (d, pos + 1) : Res PErr (Vp9D × Nat))
    if b.val / 2 % 8 ≠ 0 then do
      let ng ← getU8 packet r.2 .shortPacket
      vp9Pg r.1 packet ng.val 0 (r.2 + 1)
    else pure r

/-- The extra collected so far, `src/packet/vp9.rs` 553-556. -/
def vp9Base (extra : Option Vp9Extra) : Vp9Extra :=
  match extra with
  | some e => e
  | none => Vp9Extra.init

/-- `update_extra`, `src/packet/vp9.rs` 546-587: `out_len + packet_len - payload_index`,
`layers_scheme[self.sid]` of an array of three, and `copy_from_slice` of arrays of three. -/
def vp9UpdateExtra (d : Vp9D) (l f p b : Bool) (extra : Option Vp9Extra) (outLen packetLen index : Nat) : Res PErr Vp9Extra := do
  let e := vp9Base extra
  let key := e.isKeyframe || (!p && (d.sid == 0 || !l) && b)
  if l then
    if outLen + packetLen < index then .panic
    else do
      let old ← Res.idx e.layersScheme d.sid
      if old ≠ none ∧ old ≠ some outLen then .err .vp9Corrupted
      else pure {
        layersScheme := e.layersScheme.set d.sid (some (outLen + packetLen - index))
        tid := some d.tid
        widths := d.widths
        heights := d.heights
        tl0PictureId := if f then e.tl0PictureId else some d.tl0picidx
        pid := d.pictureId
        isKeyframe := key }
  else pure { e with pid := d.pictureId, widths := d.widths, heights := d.heights, isKeyframe := key }

/-- `Vp9Depacketizer::depacketize`, `src/packet/vp9.rs` 482-527. -/
def vp9Depacketize (d : Vp9D) (packet out : List Byte) (extra : Option Vp9Extra) :
    Res PErr (Vp9D × List Byte × Option Vp9Extra) := do
  let b ← getU8 packet 0 .shortPacket
  let r1 ← (if bit b 7 = 1 then vp9PictureId d packet 1 else pure (d, 1) : Res PErr (Vp9D × Nat))
  let r2 ← (if bit b 5 = 1 then vp9LayerInfo r1.1 packet (bit b 4 == 1) r1.2 else pure r1 : Res PErr (Vp9D × Nat))
  let pos3 ← (if bit b 4 = 1 ∧ bit b 6 = 1 then vp9Refs packet 3 r2.2 else pure r2.2 : Res PErr Nat)
  let r4 ← (if bit b 1 = 1 then vp9Ss r2.1 packet pos3 else pure (r2.1, pos3) : Res PErr (Vp9D × Nat))
  let e ← vp9UpdateExtra r4.1 (bit b 5 == 1) (bit b 4 == 1) (bit b 6 == 1) (bit b 3 == 1) extra out.length packet.length r4.2
  let body ← Res.from_ packet r4.2
  pure (r4.1, out ++ body, some e)

/-- `Vp9Depacketizer::is_partition_head`, `src/packet/vp9.rs` 529-536. -/
def vp9Head (packet : List Byte) : Bool :=
  match packet with
  | [] => false
  | b :: _ => bit b 3 == 1

/-- Depacketizing packets in order, as `depacketize` of `src/packet/buffer_rx.rs` does for one frame. -/
def runDepack {σ ε : Type} (depack : σ → List Byte → List Byte → Option ε → Res PErr (σ × List Byte × Option ε)) :
    List (List Byte) → σ → List Byte → Option ε → Res PErr (σ × List Byte × Option ε)
  | [], s, out, extra => .ok (s, out, extra)
  | p :: ps, s, out, extra => do
    let r ← depack s p out extra
    runDepack depack ps r.1 r.2.1 r.2.2

end Str0m.Packet
