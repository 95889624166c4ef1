import Verif.Model.Packet
/-
  Model of `src/packet/h264.rs`: the Annex B splitter, the packetizer, the depacketizer and the key
  frame detector.
-/
namespace Str0m.H264
open Str0m.Packet (PErr)

/-- `nalu[0] & 0x1f`. -/
def ntype (b : Byte) : Nat := b.val % 32

/-- `b & NALU_REF_IDC_BITMASK` (0x60). -/
def refIdc (b : Byte) : Nat := b.val / 32 % 4 * 32

/-- The loop of `next_ind`, `src/packet/h264.rs` 109-118: the bytes from `i` on, with the zeros seen. -/
def nextIndGo : List Byte → Nat → Nat → Option (Nat × Nat)
  | [], _, _ => none
  | b :: rest, i, zeros =>
    if b.val = 0 then nextIndGo rest (i + 1) (zeros + 1)
    else if b.val = 1 ∧ zeros ≥ 2 then some (i - zeros, zeros + 1)
    else nextIndGo rest (i + 1) 0

/-- `H264Packetizer::next_ind`, `src/packet/h264.rs` 106-119; `none` is `(-1, -1)`. -/
def nextInd (nalu : List Byte) (start : Nat) : Res PErr (Option (Nat × Nat)) :=
  if start ≤ nalu.length then .ok (nextIndGo (nalu.drop start) start 0) else .panic

/-- `struct H264Packetizer`, `src/packet/h264.rs` 22-26. -/
structure P where
  sps : Option (List Byte)
  pps : Option (List Byte)
deriving Repr, DecidableEq

/-- The fragmentation loop, `src/packet/h264.rs` 188-224. -/
def fuaGo (nalu : List Byte) (b0 ty maxFrag total : Nat) : Nat → Nat → Nat → Res PErr (List (List Byte))
  | 0, _, _ => .ok []
  | fuel + 1, remaining, index =>
    if remaining > 0 then do
      let piece ← Res.slice nalu index (index + min maxFrag remaining)
      let rest ← fuaGo nalu b0 ty maxFrag total fuel (remaining - min maxFrag remaining) (index + min maxFrag remaining)
      pure (([u8 b0, u8 (ty + (if remaining = total then 0x80 else if remaining - min maxFrag remaining = 0 then 0x40 else 0))] ++ piece) :: rest)
    else .ok []

/-- The aggregation packet, `src/packet/h264.rs` 139-147. -/
def stapA (sps pps : List Byte) : List Byte := u8 0x78 :: (be16 sps.length ++ sps ++ be16 pps.length ++ pps)

/-- The part of `emit` after the parameter sets, `src/packet/h264.rs` 158-225. -/
def emitNalu (nalu : List Byte) (b : Byte) (mtu : Nat) : Res PErr (List (List Byte)) :=
  if nalu.length ≤ mtu then .ok [nalu]
  else if mtu ≤ 2 ∨ nalu.length ≤ 1 then .ok []
  else fuaGo nalu (28 + refIdc b) (ntype b) (mtu - 2) (nalu.length - 1) (nalu.length + 1) (nalu.length - 1) 1

/-- `H264Packetizer::emit`, `src/packet/h264.rs` 121-225: the packets added and the new state. -/
def emit (p : P) (nalu : List Byte) (mtu : Nat) : Res PErr (List (List Byte) × P) :=
  match nalu with
  | [] => .ok ([], p)
  | b :: _ =>
    if ntype b = 9 ∨ ntype b = 12 then .ok ([], p)
    else if ntype b = 7 then .ok ([], { p with sps := some nalu })
    else if ntype b = 8 then .ok ([], { p with pps := some nalu })
    else match p.sps, p.pps with
      | some s, some q => do
        let tail ← emitNalu nalu b mtu
        pure ((if (stapA s q).length ≤ mtu then [stapA s q] else []) ++ tail, { sps := none, pps := none })
      | _, _ => do
        let tail ← emitNalu nalu b mtu
        pure (tail, p)

/-- The loop of `packetize`, `src/packet/h264.rs` 241-257, from a start code `(ind, len)`. -/
def packGo (mtu : Nat) (payload : List Byte) : Nat → P → Nat × Nat → Res PErr (List (List Byte) × P)
  | 0, p, _ => .ok ([], p)
  | fuel + 1, p, (ind, len) => do
    let next ← nextInd payload (ind + len)
    match next with
    | some (ind2, len2) => do
      let n ← Res.slice payload (ind + len) ind2
      let r ← emit p n mtu
      let rest ← packGo mtu payload fuel r.2 (ind2, len2)
      pure (r.1 ++ rest.1, rest.2)
    | none => do
      let n ← Res.from_ payload (ind + len)
      emit p n mtu

/-- `H264Packetizer::packetize`, `src/packet/h264.rs` 230-261; the loop runs at most once per byte. -/
def packetize (p : P) (mtu : Nat) (payload : List Byte) : Res PErr (List (List Byte) × P) :=
  if payload = [] ∨ mtu = 0 then .ok ([], p)
  else do
    let first ← nextInd payload 0
    match first with
    | none => emit p payload mtu
    | some il => packGo mtu payload (payload.length + 1) p il

/-- `struct H264Depacketizer`, `src/packet/h264.rs` 275-279. -/
structure D where
  isAvc : Bool
  fua : Option (List Byte)
deriving Repr, DecidableEq

/-- The start code or the length, `src/packet/h264.rs` 314-318, 347-351, 384-388. -/
def prefix_ (isAvc : Bool) (len : Nat) : List Byte := if isAvc then be32 (len % 2 ^ 32) else [0, 0, 0, 1]

/-- `is_keyframe` of the new extra, `src/packet/h264.rs` 307-312; `H264CodecExtra` is the flag. -/
def key (extra : Option Bool) (ty : Nat) : Option Bool :=
  some ((ty == 5) || (match extra with | some k => k | none => false))

/-- The aggregation loop, `src/packet/h264.rs` 324-354. -/
def stapGo (isAvc : Bool) (packet : List Byte) : Nat → Nat → List Byte → Option Bool → Res PErr (List Byte × Option Bool)
  | 0, _, out, extra => .ok (out, extra)
  | fuel + 1, off, out, extra =>
    if off + 1 < packet.length then do
      let a ← Res.idx packet off
      let b ← Res.idx packet (off + 1)
      if off + 2 + rd16 a b > packet.length then .err (.stapASize (rd16 a b) (packet.length - (off + 2)))
      else match packet[off + 2]? with
        | none => stapGo isAvc packet fuel (off + 2) out extra
        | some b0 => do
          let n ← Res.slice packet (off + 2) (off + 2 + rd16 a b)
          stapGo isAvc packet fuel (off + 2 + rd16 a b) (out ++ prefix_ isAvc (rd16 a b) ++ n) (key extra (ntype b0))
    else .ok (out, extra)

/-- `H264Depacketizer::depacketize`, `src/packet/h264.rs` 290-400. -/
def depacketize (d : D) (packet out : List Byte) (extra : Option Bool) : Res PErr (D × List Byte × Option Bool) :=
  match packet with
  | [] => .err .shortPacket
  | b0 :: rest =>
    if 1 ≤ ntype b0 ∧ ntype b0 ≤ 23 then
      .ok (d, out ++ prefix_ d.isAvc packet.length ++ packet, key extra (ntype b0))
    else if ntype b0 = 24 then do
      let r ← stapGo d.isAvc packet (packet.length + 1) 1 out extra
      pure (d, r.1, r.2)
    else if ntype b0 = 28 then
      match rest with
      | [] => .err .shortPacket
      | b1 :: body =>
        let buf := (match d.fua with | some x => x | none => []) ++ body
        if b1.val / 64 % 2 = 1 then
          .ok ({ d with fua := none }, out ++ prefix_ d.isAvc (buf.length + 1) ++ u8 (refIdc b0 + ntype b1) :: buf, key extra (ntype b1))
        else .ok ({ d with fua := some buf }, out, extra)
    else .err (.naluType (ntype b0))

/-- `H264Depacketizer::is_partition_head`, `src/packet/h264.rs` 403-415. -/
def head (packet : List Byte) : Bool :=
  match packet with
  | b0 :: b1 :: _ => if ntype b0 = 28 ∨ ntype b0 = 29 then b1.val / 128 == 1 else true
  | _ => false

/-- The aggregation loop of `detect_h264_keyframe`, `src/packet/h264.rs` 71-85. -/
def detectStap (payload : List Byte) : Nat → Nat → Res PErr Bool
  | 0, _ => .ok false
  | fuel + 1, off =>
    if off + 2 ≤ payload.length then do
      let a ← Res.idx payload off
      let b ← Res.idx payload (off + 1)
      if off + 2 + rd16 a b > payload.length then .ok false
      else if payload[off + 2]?.any (fun b0 => ntype b0 == 5) then .ok true
      else detectStap payload fuel (off + 2 + rd16 a b)
    else .ok false

/-- `detect_h264_keyframe`, `src/packet/h264.rs` 58-103. -/
def detect (payload : List Byte) : Res PErr Bool :=
  match payload with
  | [] => .ok false
  | b0 :: _ =>
    if 1 ≤ ntype b0 ∧ ntype b0 ≤ 23 then .ok (ntype b0 == 5)
    else if ntype b0 = 24 then detectStap payload (payload.length + 1) 1
    else if ntype b0 = 28 then
      if payload.length < 2 then .ok false
      else do
        let b1 ← Res.idx payload 1
        if b1.val / 128 = 0 then .ok false else .ok (ntype b1 == 5)
    else .ok false

end Str0m.H264
