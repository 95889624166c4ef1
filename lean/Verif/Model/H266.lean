import Verif.Model.Packet
/-
  Model of `src/packet/h266.rs` (RFC 9328): the Annex B splitter, the packetizer, the depacketizer and the
  key frame detector.  `pkt_buf` is only a reused buffer and is not modelled.
-/
namespace Str0m.H266
open Str0m.Packet (PErr)

/-- `nalu_type` of the second header byte, `src/packet/h266.rs` 95-98. -/
def ntype (b1 : Byte) : Nat := b1.val / 8

/-- `tid`, `src/packet/h266.rs` 100-103. -/
def tid (b1 : Byte) : Nat := b1.val % 8

/-- `layer_id`, `src/packet/h266.rs` 90-93. -/
def layer (b0 : Byte) : Nat := b0.val % 64

/-- `f`, `src/packet/h266.rs` 80-83. -/
def fbit (b0 : Byte) : Bool := decide (128 ≤ b0.val)

/-- `is_irap`, `src/packet/h266.rs` 105-113. -/
def irap (t : Nat) : Bool := t == 7 || t == 8 || t == 9

/-- `H266Packetizer::next_start_code`, `src/packet/h266.rs` 311-325, on the bytes from `i` on;
`none` is `(-1, -1)`. -/
def scGo : List Byte → Nat → Option (Nat × Nat)
  | a :: b :: c :: rest, i =>
    if a.val = 0 ∧ b.val = 0 ∧ c.val = 1 then some (i, 3)
    else if a.val = 0 ∧ b.val = 0 ∧ c.val = 0 ∧ rest.head?.any (fun d => d.val == 1) then some (i, 4)
    else scGo (b :: c :: rest) (i + 1)
  | _, _ => none

/-- `next_start_code(payload, start)`. -/
def nextStart (payload : List Byte) (start : Nat) : Option (Nat × Nat) := scGo (payload.drop start) start

/-- `struct H266Packetizer`, `src/packet/h266.rs` 208-218. -/
structure P where
  vps : Option (List Byte)
  sps : Option (List Byte)
  pps : Option (List Byte)
  donl : Option Nat
deriving Repr, DecidableEq

/-- `donl_overhead`, `src/packet/h266.rs` 282, 396, 422. -/
def overhead (donl : Option Nat) : Nat := if donl.isSome then 2 else 0

/-- `increment_donl`, `increment_donl_by`, `src/packet/h266.rs` 238-248. -/
def bump (donl : Option Nat) (k : Nat) : Option Nat := donl.map (fun v => (v + k) % 65536)

/-- The DONL field. -/
def donlBytes (donl : Option Nat) : List Byte :=
  match donl with
  | some v => be16 v
  | none => []

/-- The F bit, layer and temporal ids of an aggregation packet, `src/packet/h266.rs` 263-271. -/
def apHdr : List (List Byte) → Bool × Nat × Nat → Res PErr (Bool × Nat × Nat)
  | [], acc => .ok acc
  | n :: ns, acc => do
    let b0 ← Res.idx n 0
    let b1 ← Res.idx n 1
    apHdr ns (acc.1 || fbit b0, min acc.2.1 (layer b0), min acc.2.2 (tid b1))

/-- The aggregation units, `src/packet/h266.rs` 302-305. -/
def apUnits : List (List Byte) → List Byte
  | [] => []
  | n :: ns => be16 (n.length % 65536) ++ n ++ apUnits ns

/-- `nal_units.iter().map(|n| 2 + n.len()).sum()`, `src/packet/h266.rs` 285. -/
def apSize : List (List Byte) → Nat
  | [] => 0
  | n :: ns => 2 + n.length + apSize ns

/-- `H266Packetizer::build_ap_packet`, `src/packet/h266.rs` 253-307; `none` is `false`. -/
def buildAp (us : List (List Byte)) (donl : Option Nat) (mtu : Nat) : Res PErr (Option (List Byte)) := do
  let h ← apHdr us (false, 63, 7)
  if us.any (fun n => n.length > 65535) then pure none
  else if 2 + overhead donl + apSize us > mtu then pure none
  else pure (some ([u8 (h.2.1 + (if h.1 then 128 else 0)), u8 (28 * 8 + max h.2.2 1)] ++ donlBytes donl ++ apUnits us))

/-- A single NAL unit packet, `src/packet/h266.rs` 399-410, 424-435. -/
def single (n : List Byte) (donl : Option Nat) : Res PErr (List Byte) :=
  match donl with
  | none => .ok n
  | some v => do
    let h ← Res.slice n 0 2
    let t ← Res.from_ n 2
    pure (h ++ be16 v ++ t)

/-- The parameter sets as single packets, `src/packet/h266.rs` 396-412. -/
def singles : List (List Byte) → Option Nat → Nat → Res PErr (List (List Byte) × Option Nat)
  | [], donl, _ => .ok ([], donl)
  | n :: ns, donl, mtu =>
    if n.length + overhead donl ≤ mtu then do
      let q ← single n donl
      let r ← singles ns (bump donl 1) mtu
      pure (q :: r.1, r.2)
    else singles ns donl mtu

/-- The cached parameter sets go out, `src/packet/h266.rs` 390-413. -/
def flush (us : List (List Byte)) (donl : Option Nat) (mtu : Nat) : Res PErr (List (List Byte) × Option Nat) :=
  if 2 ≤ us.length then do
    let ap ← buildAp us donl mtu
    match ap with
    | some q => pure ([q], bump donl us.length)
    | none => singles us donl mtu
  else singles us donl mtu

/-- The fragmentation loop, `src/packet/h266.rs` 461-487. -/
def fuGo (b0 b1 : Byte) (ty : Nat) (payload donl : List Byte) (firstMax maxFrag : Nat) : Nat → Nat → Res PErr (List (List Byte))
  | 0, _ => .ok []
  | fuel + 1, off =>
    if off < payload.length then do
      let piece ← Res.slice payload off (off + min (payload.length - off) (if off = 0 then firstMax else maxFrag))
      let rest ← fuGo b0 b1 ty payload donl firstMax maxFrag fuel (off + min (payload.length - off) (if off = 0 then firstMax else maxFrag))
      pure (([b0, b1, u8 (ty + (if off = 0 then 128 else 0)
          + (if off + min (payload.length - off) (if off = 0 then firstMax else maxFrag) = payload.length then 64 else 0))]
        ++ (if off = 0 then donl else []) ++ piece) :: rest)
    else .ok []

/-- The part of `emit_nalu` after the parameter sets, `src/packet/h266.rs` 420-491. -/
def emitNalu (b0 b1 : Byte) (body : List Byte) (donl : Option Nat) (mtu : Nat) : Res PErr (List (List Byte) × Option Nat) :=
  if body.length + 2 + overhead donl ≤ mtu then do
    let q ← single (b0 :: b1 :: body) donl
    pure ([q], bump donl 1)
  else if body.length + 2 ≤ 2 then .ok ([], donl)
  else if min mtu 1200 ≤ 3 + overhead donl then .ok ([], donl)
  else do
    let r ← fuGo b0 (u8 (29 * 8 + tid b1)) (ntype b1) body (donlBytes donl) (min mtu 1200 - 3 - overhead donl) (min mtu 1200 - 3) (body.length + 1) 0
    pure (r, bump donl 1)

/-- `nal_units`, `src/packet/h266.rs` 374-388. -/
def sets (p : P) (s q : List Byte) : List (List Byte) :=
  match p.vps with
  | some v => [v, s, q]
  | none => [s, q]

/-- `H266Packetizer::emit_nalu`, `src/packet/h266.rs` 329-491: the packets added and the new state. -/
def emit (p : P) (nalu : List Byte) (mtu : Nat) : Res PErr (List (List Byte) × P) :=
  match nalu with
  | b0 :: b1 :: body =>
    if mtu = 0 then .ok ([], p)
    else if ntype b1 = 20 ∨ ntype b1 = 25 then .ok ([], p)
    else if ntype b1 = 28 ∨ ntype b1 = 29 then .ok ([], p)
    else if ntype b1 = 14 then .ok ([], { p with vps := some nalu })
    else if ntype b1 = 15 then .ok ([], { p with sps := some nalu })
    else if ntype b1 = 16 then .ok ([], { p with pps := some nalu })
    else match p.sps, p.pps with
      | some s, some q => do
        let a ← flush (sets p s q) p.donl mtu
        let t ← emitNalu b0 b1 body a.2 mtu
        pure (a.1 ++ t.1, { vps := none, sps := none, pps := none, donl := t.2 })
      | _, _ => do
        let t ← emitNalu b0 b1 body p.donl mtu
        pure (t.1, { p with donl := t.2 })
  | _ => .ok ([], p)

/-- The loop of `packetize`, `src/packet/h266.rs` 536-547, from a start code `(ind, len)`. -/
def packGo (mtu : Nat) (payload : List Byte) : Nat → P → Nat × Nat → Res PErr (List (List Byte) × P)
  | 0, p, _ => .ok ([], p)
  | fuel + 1, p, (ind, len) =>
    match nextStart payload (ind + len) with
    | some (ind2, len2) => do
      let n ← Res.slice payload (ind + len) ind2
      let r ← emit p n mtu
      let rest ← packGo mtu payload fuel r.2 (ind2, len2)
      pure (r.1 ++ rest.1, rest.2)
    | none => do
      let n ← Res.from_ payload (ind + len)
      emit p n mtu

/-- `H266Packetizer::packetize`, `src/packet/h266.rs` 495-550; the loop runs at most once per byte. -/
def packetize (p : P) (mtu : Nat) (payload : List Byte) : Res PErr (List (List Byte) × P) :=
  if payload = [] then .ok ([], p)
  else if mtu < 4 then .ok ([], p)
  else match nextStart payload 0 with
    | none => emit p payload (min mtu 1200)
    | some il => packGo (min mtu 1200) payload (payload.length + 1) p il

/-- `struct H266Depacketizer`, `src/packet/h266.rs` 560-565. -/
structure D where
  fu : Option (List Byte)
  donl : Bool
deriving Repr, DecidableEq

/-- `mark_keyframe`, `src/packet/h266.rs` 600-607; `CodecExtra::H266` is the flag. -/
def mark (extra : Option Bool) (k : Bool) : Option Bool :=
  some (k || (match extra with | some e => e | none => false))

/-- `ANNEXB_NALUSTART_CODE`, `src/packet/h266.rs` 22. -/
def startCode : List Byte := [0, 0, 0, 1]

/-- The aggregation loop, `src/packet/h266.rs` 675-711: what is in `out`, the extra, and the error. -/
def apGo (packet : List Byte) (outStart : Nat) : Nat → Nat → Nat → List Byte → Option Bool → Res PErr (List Byte × Option Bool × Option PErr)
  | 0, _, _, out, extra => .ok (out, extra, none)
  | fuel + 1, off, count, out, extra =>
    if off < packet.length then
      if off + 2 > packet.length then .ok (out.take outStart, extra, some .shortPacket)
      else do
        let a ← Res.idx packet off
        let b ← Res.idx packet (off + 1)
        if off + 2 + rd16 a b > packet.length ∨ rd16 a b < 2 then .ok (out.take outStart, extra, some .shortPacket)
        else do
          let n ← Res.slice packet (off + 2) (off + 2 + rd16 a b)
          let b1 ← Res.idx n 1
          if ntype b1 = 28 ∨ ntype b1 = 29 then .ok (out.take outStart, extra, some .h266Corrupted)
          else apGo packet outStart fuel (off + 2 + rd16 a b) (count + 1) (out ++ startCode ++ n) (mark extra (irap (ntype b1)))
    else if count < 2 then .ok (out, extra, some .shortPacket)
    else .ok (out, extra, none)

/-- A fragment, `src/packet/h266.rs` 609-657. -/
def depackFu (d : D) (packet out : List Byte) (extra : Option Bool) : Res PErr (D × List Byte × Option Bool × Option PErr) := do
  let b0 ← Res.idx packet 0
  let b1 ← Res.idx packet 1
  let h ← Res.idx packet 2
  if h.val ≥ 128 ∧ d.donl = true ∧ packet.length < 5 then .ok (d, out, extra, some .shortPacket)
  else do
    let body ← Res.from_ packet (if h.val ≥ 128 ∧ d.donl = true then 5 else 3)
    match (if h.val ≥ 128 then some [] else d.fu) with
    | none => .ok (d, out, extra, none)
    | some buf =>
      if h.val / 64 % 2 = 1 then
        .ok ({ d with fu := some (buf ++ body) }, out ++ startCode ++ [b0, u8 (h.val % 32 * 8 + tid b1)] ++ (buf ++ body),
          mark extra (irap (h.val % 32)), none)
      else .ok ({ d with fu := some (buf ++ body) }, out, extra, none)

/-- An aggregation packet, `src/packet/h266.rs` 658-711. -/
def depackAp (d : D) (packet out : List Byte) (extra : Option Bool) : Res PErr (D × List Byte × Option Bool × Option PErr) :=
  if d.donl = true ∧ packet.length < 4 then .ok (d, out, extra, some .shortPacket)
  else do
    let r ← apGo packet out.length (packet.length + 1) (if d.donl = true then 4 else 2) 0 out extra
    pure (d, r.1, r.2.1, r.2.2)

/-- A single unit, `src/packet/h266.rs` 713-728. -/
def depackSingle (d : D) (packet out : List Byte) (extra : Option Bool) (t : Nat) : Res PErr (D × List Byte × Option Bool × Option PErr) :=
  if d.donl = true then
    if packet.length < 5 then .ok (d, out ++ startCode, mark extra (irap t), some .shortPacket)
    else do
      let h ← Res.slice packet 0 2
      let b ← Res.from_ packet 4
      pure (d, out ++ startCode ++ h ++ b, mark extra (irap t), none)
  else .ok (d, out ++ startCode ++ packet, mark extra (irap t), none)

/-- `H266Depacketizer::depacketize`, `src/packet/h266.rs` 580-730: the state, `out` and the extra left
behind, and the error returned, if any. -/
def depack (d : D) (packet out : List Byte) (extra : Option Bool) : Res PErr (D × List Byte × Option Bool × Option PErr) :=
  if packet.length ≤ 2 then .ok (d, out, extra, some .shortPacket)
  else do
    let b0 ← Res.idx packet 0
    let b1 ← Res.idx packet 1
    if fbit b0 = true then .ok (d, out, extra, some .h266Corrupted)
    else if ntype b1 = 29 then depackFu d packet out extra
    else if ntype b1 = 28 then depackAp d packet out extra
    else depackSingle d packet out extra (ntype b1)

/-- `depacketize` for a caller that stops at an error. -/
def depacketize (d : D) (packet out : List Byte) (extra : Option Bool) : Res PErr (D × List Byte × Option Bool) := do
  let r ← depack d packet out extra
  match r.2.2.2 with
  | some e => .err e
  | none => pure (r.1, r.2.1, r.2.2.1)

/-- `H266Depacketizer::is_partition_head`, `src/packet/h266.rs` 732-749. -/
def head (packet : List Byte) : Bool :=
  match packet with
  | b0 :: b1 :: rest =>
    if fbit b0 = true then true
    else if ntype b1 ≠ 29 then true
    else rest.head?.any (fun h => decide (h.val ≥ 128))
  | _ => false

/-- `H266Depacketizer::is_partition_tail`, `src/packet/h266.rs` 751-763. -/
def tail (marker : Bool) (packet : List Byte) : Bool :=
  match packet with
  | _ :: b1 :: rest => if ntype b1 = 29 then rest.head?.any (fun h => h.val / 64 % 2 == 1) else marker
  | _ => false

/-- The aggregation loop of `detect_h266_keyframe`, `src/packet/h266.rs` 181-193. -/
def detectAp (payload : List Byte) : Nat → Nat → Res PErr Bool
  | 0, _ => .ok false
  | fuel + 1, off =>
    if off + 2 ≤ payload.length then do
      let a ← Res.idx payload off
      let b ← Res.idx payload (off + 1)
      if off + 2 + rd16 a b > payload.length ∨ rd16 a b < 2 then .ok false
      else do
        let b1 ← Res.idx payload (off + 3)
        if irap (ntype b1) = true then .ok true
        else detectAp payload fuel (off + 2 + rd16 a b)
    else .ok false

/-- `detect_h266_keyframe`, `src/packet/h266.rs` 171-205. -/
def detect (payload : List Byte) : Res PErr Bool :=
  match payload with
  | _ :: b1 :: rest =>
    if ntype b1 = 28 then detectAp payload (payload.length + 1) 2
    else if ntype b1 = 29 then
      match rest with
      | [] => .ok false
      | h :: _ => .ok (decide (h.val ≥ 128) && (decide (7 ≤ h.val % 32) && decide (h.val % 32 ≤ 9)))
    else .ok (irap (ntype b1))
  | _ => .ok false

end Str0m.H266
