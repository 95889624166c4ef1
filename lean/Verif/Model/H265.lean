import Verif.Model.H264
/-
  Model of `src/packet/h265.rs` (RFC 7798): the Annex B splitter, the packetizer, the depacketizer with its
  `payload()` view, PACI packets and the key frame detector.  `pkt_buf` is only a reused buffer and
  is not modelled.
-/
namespace Str0m.H265
open Str0m.Packet (PErr)

/-- `H265NALUHeader::nalu_type` from the first header byte, `src/packet/h265.rs` 632-636. -/
def ntype (b0 : Byte) : Nat := b0.val / 2 % 64

/-- `H265NALUHeader::f`, `src/packet/h265.rs` 627-629. -/
def fbit (b0 : Byte) : Bool := decide (128 ≤ b0.val)

/-- `H265NALUHeader::layer_id`, `src/packet/h265.rs` 646-650. -/
def layer (b0 b1 : Byte) : Nat := b0.val % 2 * 32 + b1.val / 8

/-- `H265NALUHeader::tid`, `src/packet/h265.rs` 653-656. -/
def tid (b1 : Byte) : Nat := b1.val % 8

/-- `H265NALUHeader::is_irap`, `src/packet/h265.rs` 688-699. -/
def irap (t : Nat) : Bool := t == 16 || t == 17 || t == 18 || t == 19 || t == 20 || t == 21

/-- `(orig & !TYPE_MASK) | (t << 9)`, first byte, `src/packet/h265.rs` 231-234, 486-489, 1500-1504. -/
def withType (t : Nat) (b0 : Byte) : Byte := u8 (b0.val / 128 * 128 + t * 2 + b0.val % 2)

/-- `struct H265Packetizer`, `src/packet/h265.rs` 157-171. -/
structure P where
  vps : Option (List Byte)
  sps : Option (List Byte)
  pps : Option (List Byte)
  donl : Option Nat
deriving Repr, DecidableEq

/-- `donl_overhead`, `src/packet/h265.rs` 493. -/
def overhead (donl : Option Nat) : Nat := if donl.isSome then 2 else 0

/-- `increment_donl`, `increment_donl_by`, `src/packet/h265.rs` 195-207. -/
def bump (donl : Option Nat) (k : Nat) : Option Nat := donl.map (fun v => (v + k) % 65536)

/-- The DONL field. -/
def donlBytes (donl : Option Nat) : List Byte :=
  match donl with
  | some v => be16 v
  | none => []

/-- The loop of `build_ap_packet`, `src/packet/h265.rs` 245-258; `none` is `false`. -/
def apLoop (donl : Bool) (mtu : Nat) : List (List Byte) → Bool → List Byte → Option (List Byte)
  | [], _, buf => some buf
  | n :: ns, first, buf =>
    if (buf ++ (if donl = true ∧ first = false then [0] else []) ++ be16 (n.length % 65536) ++ n).length > mtu then none
    else apLoop donl mtu ns false (buf ++ (if donl = true ∧ first = false then [0] else []) ++ be16 (n.length % 65536) ++ n)

/-- `H265Packetizer::build_ap_packet`, `src/packet/h265.rs` 220-261; `b0`, `b1` start the template unit. -/
def buildAp (b0 b1 : Byte) (us : List (List Byte)) (donl : Option Nat) (mtu : Nat) : Option (List Byte) :=
  apLoop donl.isSome mtu us true ([withType 48 b0, b1] ++ donlBytes donl)

/-- A single NAL unit packet, `src/packet/h265.rs` 430-443, 462-474. -/
def single (n : List Byte) (donl : Option Nat) : Res PErr (List Byte) :=
  match donl with
  | none => .ok n
  | some v => do
    let h ← Res.slice n 0 2
    let t ← Res.from_ n 2
    pure (h ++ be16 v ++ t)

/-- The parameter sets as single packets, `src/packet/h265.rs` 428-448. -/
def singles : List (List Byte) → Option Nat → Nat → Res PErr (List (List Byte) × Option Nat)
  | [], donl, _ => .ok ([], donl)
  | n :: ns, donl, mtu =>
    if n.length ≤ mtu then do
      let q ← single n donl
      let r ← singles ns (bump donl 1) mtu
      pure (q :: r.1, r.2)
    else singles ns donl mtu

/-- The cached parameter sets go out, `src/packet/h265.rs` 405-449. -/
def flush (b0 b1 : Byte) (us : List (List Byte)) (donl : Option Nat) (mtu : Nat) : Res PErr (List (List Byte) × Option Nat) :=
  match buildAp b0 b1 us donl mtu with
  | some q => .ok ([q], bump donl us.length)
  | none => singles us donl mtu

/-- The fragmentation loop, `src/packet/h265.rs` 507-533. -/
def fuGo (i0 i1 : Byte) (ty : Nat) (payload donl : List Byte) (firstMax maxFrag : Nat) : Nat → Nat → Res PErr (List (List Byte))
  | 0, _ => .ok []
  | fuel + 1, off =>
    if off < payload.length then do
      let piece ← Res.slice payload off (off + min (payload.length - off) (if off = 0 then firstMax else maxFrag))
      let rest ← fuGo i0 i1 ty payload donl firstMax maxFrag fuel (off + min (payload.length - off) (if off = 0 then firstMax else maxFrag))
      pure (([i0, i1, u8 (ty + (if off = 0 then 128 else 0)
          + (if off + min (payload.length - off) (if off = 0 then firstMax else maxFrag) = payload.length then 64 else 0))]
        ++ (if off = 0 then donl else []) ++ piece) :: rest)
    else .ok []

/-- The part of `emit_nalu` after the parameter sets, `src/packet/h265.rs` 458-537. -/
def emitNalu (b0 b1 : Byte) (body : List Byte) (donl : Option Nat) (mtu : Nat) : Res PErr (List (List Byte) × Option Nat) :=
  if body.length + 2 ≤ mtu then do
    let q ← single (b0 :: b1 :: body) donl
    pure ([q], bump donl 1)
  else if mtu ≤ 3 ∨ body.length + 2 ≤ 2 then .ok ([], donl)
  else if min mtu 1200 ≤ 3 + overhead donl then .ok ([], donl)
  else do
    let r ← fuGo (withType 49 b0) b1 (ntype b0) body (donlBytes donl) (min mtu 1200 - 3 - overhead donl) (min mtu 1200 - 3) (body.length + 1) 0
    pure (r, bump donl 1)

/-- `nal_units`, `src/packet/h265.rs` 393-405. -/
def sets (p : P) (s q : List Byte) : List (List Byte) :=
  match p.vps with
  | some v => [v, s, q]
  | none => [s, q]

/-- `H265Packetizer::emit_nalu`, `src/packet/h265.rs` 357-537: the packets added and the new state. -/
def emit (p : P) (nalu : List Byte) (mtu : Nat) : Res PErr (List (List Byte) × P) :=
  match nalu with
  | b0 :: b1 :: body =>
    if mtu = 0 then .ok ([], p)
    else if ntype b0 = 35 ∨ ntype b0 = 38 then .ok ([], p)
    else if ntype b0 = 32 then .ok ([], { p with vps := some nalu })
    else if ntype b0 = 33 then .ok ([], { p with sps := some nalu })
    else if ntype b0 = 34 then .ok ([], { p with pps := some nalu })
    else match p.sps, p.pps with
      | some s, some q => do
        let a ← flush b0 b1 (sets p s q) p.donl mtu
        let t ← emitNalu b0 b1 body a.2 mtu
        pure (a.1 ++ t.1, { vps := none, sps := none, pps := none, donl := t.2 })
      | _, _ => do
        let t ← emitNalu b0 b1 body p.donl mtu
        pure (t.1, { p with donl := t.2 })
  | _ => .ok ([], p)

/-- The loop of `packetize`, `src/packet/h265.rs` 586-598, from a start code `(ind, len)`;
`next_start_code` 334-349 is the loop of H.264's `next_ind`. -/
def packGo (mtu : Nat) (payload : List Byte) : Nat → P → Nat × Nat → Res PErr (List (List Byte) × P)
  | 0, p, _ => .ok ([], p)
  | fuel + 1, p, (ind, len) => do
    let next ← H264.nextInd payload (ind + len)
    match next with
    | some (ind2, len2) => do
      let n ← Res.slice payload (ind + len) ind2
      let r ← emit p n mtu
      let rest ← packGo mtu payload fuel r.2 (ind2, len2)
      pure (r.1 ++ rest.1, rest.2)
    | none => do
      let n ← Res.from_ payload (ind + len)
      emit p n mtu

/-- `H265Packetizer::packetize`, `src/packet/h265.rs` 541-601; the loop runs at most once per byte. -/
def packetize (p : P) (mtu : Nat) (payload : List Byte) : Res PErr (List (List Byte) × P) :=
  if payload = [] then .ok ([], p)
  else if mtu < 4 then .ok ([], p)
  else do
    let next ← H264.nextInd payload 0
    match next with
    | none => emit p payload (min mtu 1200)
    | some il => packGo (min mtu 1200) payload (payload.length + 1) p il

/-! ### PACI -/

/-- `H265Packetizer::build_paci_packet`, `src/packet/h265.rs` 277-325 (`H265PACIPacket::packetize` 1327-1334). -/
def buildPaci (inner phes : List Byte) : Res PErr (List Byte) :=
  if phes.length > 31 then .err .h265Phes
  else do
    let b0 ← Res.idx inner 0
    let b1 ← Res.idx inner 1
    pure (be16 (50 * 512 + layer b0 b1 * 8 + tid b1)
      ++ be16 ((if fbit b0 = true then 32768 else 0) + ntype b0 * 512 + phes.length * 16 + (if phes.length ≥ 3 then 8 else 0))
      ++ phes ++ (if inner.length > 2 then inner.drop 2 else []))

/-- `enum H265Payload`, `src/packet/h265.rs` 1387-1392: what `payload()` shows of the last packet. -/
inductive Payload where
  /-- `H265SingleNALUnitPacket` 723-732: header bytes, `donl`, `payload`. -/
  | single (b0 b1 : Byte) (donl : Option Nat) (body : List Byte)
  /-- `H265FragmentationUnitPacket` 1092-1103: header bytes, FU header, `donl`, `payload`. -/
  | fu (b0 b1 h : Byte) (donl : Option Nat) (body : List Byte)
  /-- `H265AggregationPacket` 898-903: the first unit with `donl`, the others with `dond`. -/
  | ap (donl : Option Nat) (first : List Byte) (others : List (Option Byte × List Byte))
  /-- `H265PACIPacket` 1194-1206: header bytes, `paci_header_fields`, `phes`, `payload`. -/
  | paci (b0 b1 : Byte) (fields : Nat) (phes body : List Byte)
deriving Repr, DecidableEq

/-- `H265PACIPacket::a`, `src/packet/h265.rs` 1215-1218. -/
def paciA (f : Nat) : Bool := f / 32768 % 2 == 1
/-- `H265PACIPacket::ctype`, `src/packet/h265.rs` 1221-1224. -/
def paciType (f : Nat) : Nat := f / 512 % 64
/-- `H265PACIPacket::phs_size`, `src/packet/h265.rs` 1227-1230. -/
def paciSize (f : Nat) : Nat := f / 16 % 32
/-- `H265PACIPacket::f0`, `src/packet/h265.rs` 1233-1236. -/
def paciF0 (f : Nat) : Bool := f / 8 % 2 == 1

/-- `H265PACIPacket::tsci`, `src/packet/h265.rs` 1267-1275. -/
def tsci (fields : Nat) (phes : List Byte) : Res PErr (Option Nat) :=
  if paciF0 fields = false ∨ paciSize fields < 3 then .ok none
  else do
    let a ← Res.idx phes 0
    let b ← Res.idx phes 1
    let c ← Res.idx phes 0
    pure (some (a.val * 65536 + b.val * 256 + c.val))

/-- `H265TSCI::tl0picidx`, `src/packet/h265.rs` 1348-1352. -/
def tl0picidx (x : Nat) : Nat := x / 16777216 % 256
/-- `H265TSCI::irap_pic_id`, `src/packet/h265.rs` 1355-1359. -/
def irapPicId (x : Nat) : Nat := x / 65536 % 256
/-- `H265TSCI::s`, `src/packet/h265.rs` 1362-1366. -/
def tsciS (x : Nat) : Bool := x / 32768 % 2 == 1
/-- `H265TSCI::e`, `src/packet/h265.rs` 1369-1373. -/
def tsciE (x : Nat) : Bool := x / 16384 % 2 == 1
/-- `H265TSCI::res`, `src/packet/h265.rs` 1376-1380. -/
def tsciRes (x : Nat) : Nat := x / 256 % 64

/-! ### The packet parsers -/

/-- A DONL field and what follows it, `src/packet/h265.rs` 761-770, 1131-1139. -/
def takeDonl (t : List Byte) : Res PErr (Option Nat × List Byte) :=
  if t.length ≤ 2 then .err .shortPacket
  else do
    let a ← Res.idx t 0
    let b ← Res.idx t 1
    let r ← Res.from_ t 2
    pure (some (rd16 a b), r)

/-- `H265SingleNALUnitPacket::depacketize`, `src/packet/h265.rs` 743-776. -/
def parseSingle (donl : Bool) (p : List Byte) : Res PErr (Byte × Byte × Option Nat × List Byte) :=
  if p.length ≤ 2 then .err .shortPacket
  else do
    let b0 ← Res.idx p 0
    let b1 ← Res.idx p 1
    if fbit b0 = true then .err .h265Corrupted
    else if ntype b0 = 49 ∨ ntype b0 = 50 ∨ ntype b0 = 48 then .err .h265Type
    else do
      let t ← Res.from_ p 2
      let r ← (if donl = true then takeDonl t else .ok (none, t))
      pure (b0, b1, r.1, r.2)

/-- `H265FragmentationUnitPacket::depacketize`, `src/packet/h265.rs` 1114-1146. -/
def parseFu (donl : Bool) (p : List Byte) : Res PErr (Byte × Byte × Byte × Option Nat × List Byte) :=
  if p.length ≤ 3 then .err .shortPacket
  else do
    let b0 ← Res.idx p 0
    let b1 ← Res.idx p 1
    if fbit b0 = true then .err .h265Corrupted
    else if ntype b0 ≠ 49 then .err .h265Type
    else do
      let h ← Res.idx p 2
      let t ← Res.from_ p 3
      let r ← (if h.val ≥ 128 ∧ donl = true then takeDonl t else .ok (none, t))
      pure (b0, b1, h, r.1, r.2)

/-- The DOND byte of a later unit, `src/packet/h265.rs` 959-968. -/
def dondOf (donl : Bool) (t : List Byte) : Res PErr (Option Byte) :=
  if donl = true then do
    let d ← Res.idx t 0
    pure (some d)
  else .ok none

/-- The loop over the later units, `src/packet/h265.rs` 955-984. -/
def apMore (donl : Bool) : Nat → List Byte → Res PErr (List (Option Byte × List Byte))
  | 0, _ => .ok []
  | fuel + 1, t =>
    if donl = true ∧ t = [] then .ok []
    else do
      let d ← dondOf donl t
      let t1 ← Res.from_ t (if donl = true then 1 else 0)
      if t1.length < 2 then .ok []
      else do
        let a ← Res.idx t1 0
        let b ← Res.idx t1 1
        let t2 ← Res.from_ t1 2
        if t2.length < rd16 a b then .ok []
        else do
          let n ← Res.slice t2 0 (rd16 a b)
          let t3 ← Res.from_ t2 (rd16 a b)
          let us ← apMore donl fuel t3
          pure ((d, n) :: us)

/-- DONL of the first unit of an aggregate, `src/packet/h265.rs` 931-940. -/
def apDonl (donl : Bool) (t : List Byte) : Res PErr (Option Nat × List Byte) :=
  if donl = true then
    if t.length < 2 then .err .shortPacket
    else do
      let a ← Res.idx t 0
      let b ← Res.idx t 1
      let r ← Res.from_ t 2
      pure (some (rd16 a b), r)
  else .ok (none, t)

/-- The units of an aggregate, `src/packet/h265.rs` 941-994. -/
def apFirst (donl : Bool) (t : List Byte) : Res PErr (List Byte × List (Option Byte × List Byte)) :=
  if t.length < 2 then .err .shortPacket
  else do
    let a ← Res.idx t 0
    let b ← Res.idx t 1
    let t2 ← Res.from_ t 2
    if t2.length < rd16 a b then .err .shortPacket
    else do
      let n ← Res.slice t2 0 (rd16 a b)
      let t3 ← Res.from_ t2 (rd16 a b)
      let us ← apMore donl (t3.length + 1) t3
      if us = [] then .err .shortPacket else pure (n, us)

/-- `H265AggregationPacket::depacketize`, `src/packet/h265.rs` 914-995. -/
def parseAp (donl : Bool) (p : List Byte) : Res PErr (Option Nat × List Byte × List (Option Byte × List Byte)) :=
  if p.length ≤ 2 then .err .shortPacket
  else do
    let b0 ← Res.idx p 0
    if fbit b0 = true then .err .h265Corrupted
    else if ntype b0 ≠ 48 then .err .h265Type
    else do
      let t ← Res.from_ p 2
      let d ← apDonl donl t
      let u ← apFirst donl d.2
      pure (d.1, u.1, u.2)

/-- `H265PACIPacket::depacketize`, `src/packet/h265.rs` 1279-1314. -/
def parsePaci (p : List Byte) : Res PErr (Byte × Byte × Nat × List Byte × List Byte) :=
  if p.length ≤ 4 then .err .shortPacket
  else do
    let b0 ← Res.idx p 0
    let b1 ← Res.idx p 1
    if fbit b0 = true then .err .h265Corrupted
    else if ntype b0 ≠ 50 then .err .h265Type
    else do
      let f0 ← Res.idx p 2
      let f1 ← Res.idx p 3
      let t ← Res.from_ p 4
      if t.length < paciSize (rd16 f0 f1) + 1 then .err .shortPacket
      else do
        let x ← Res.slice t 0 (paciSize (rd16 f0 f1))
        let r ← Res.from_ t (paciSize (rd16 f0 f1))
        pure (b0, b1, rd16 f0 f1, x, r)

/-! ### The depacketizer -/

/-- `struct H265Depacketizer`, `src/packet/h265.rs` 1402-1406. -/
structure D where
  fu : Option (List Byte)
  donl : Bool
  payload : Payload
deriving Repr, DecidableEq

/-- The key frame flag of `CodecExtra::H265`, `src/packet/h265.rs` 1461-1466, 1508-1513, 1571-1576, 1606-1611. -/
def mark (extra : Option Bool) (k : Bool) : Option Bool :=
  some (k || (match extra with | some e => e | none => false))

/-- `ANNEXB_NALUSTART_CODE`, `src/packet/h265.rs` 53. -/
def startCode : List Byte := [0, 0, 0, 1]

/-- The `?` operator: an error ends the call with the state as it is. -/
def orElse {α} (r : Res PErr α) (d : D) (out : List Byte) (extra : Option Bool)
    (k : α → Res PErr (D × List Byte × Option Bool × Option PErr)) : Res PErr (D × List Byte × Option Bool × Option PErr) :=
  match r with
  | .ok a => k a
  | .err e => .ok (d, out, extra, some e)
  | .panic => .panic

/-- The key frame flag after a unit, if it has a header, `src/packet/h265.rs` 1459-1467, 1569-1577. -/
def markUnit (extra : Option Bool) (n : List Byte) : Option Bool :=
  match n with
  | b0 :: _ :: _ => mark extra (irap (ntype b0))
  | _ => extra

/-- A PACI packet, `src/packet/h265.rs` 1450-1469. -/
def depackPaci (d : D) (packet out : List Byte) (extra : Option Bool) : Res PErr (D × List Byte × Option Bool × Option PErr) :=
  orElse (parsePaci packet) d out extra (fun r =>
    .ok ({ d with payload := .paci r.1 r.2.1 r.2.2.1 r.2.2.2.1 r.2.2.2.2 }, out ++ startCode ++ r.2.2.2.2, markUnit extra r.2.2.2.2, none))

/-- A fragment, `src/packet/h265.rs` 1470-1524. -/
def depackFu (d : D) (packet out : List Byte) (extra : Option Bool) : Res PErr (D × List Byte × Option Bool × Option PErr) :=
  orElse (parseFu d.donl packet) d out extra (fun r =>
    match (if r.2.2.1.val ≥ 128 then some [] else d.fu) with
    | none => .ok ({ d with payload := .fu r.1 r.2.1 r.2.2.1 r.2.2.2.1 r.2.2.2.2 }, out, extra, none)
    | some buf =>
      if r.2.2.1.val / 64 % 2 = 1 then
        .ok ({ d with fu := some (buf ++ r.2.2.2.2), payload := .fu r.1 r.2.1 r.2.2.1 r.2.2.2.1 r.2.2.2.2 },
          out ++ startCode ++ [withType (r.2.2.1.val % 64) r.1, r.2.1] ++ (buf ++ r.2.2.2.2), mark extra (irap (r.2.2.1.val % 64)), none)
      else .ok ({ d with fu := some (buf ++ r.2.2.2.2), payload := .fu r.1 r.2.1 r.2.2.1 r.2.2.2.1 r.2.2.2.2 }, out, extra, none))

/-- The bytes of DONL or DOND before a unit, `src/packet/h265.rs` 1536-1550. -/
def skip (donl first : Bool) : Nat := if donl = true then (if first = true then 2 else 1) else 0

/-- The aggregation loop, `src/packet/h265.rs` 1529-1584: `out`, the extra and the number of units. -/
def apGo (donl : Bool) (packet : List Byte) : Nat → Nat → Nat → List Byte → Option Bool → Res PErr (List Byte × Option Bool × Nat)
  | 0, _, count, out, extra => .ok (out, extra, count)
  | fuel + 1, off, count, out, extra =>
    if off < packet.length then
      if off + skip donl (count == 0) > packet.length then .ok (out, extra, count)
      else if off + skip donl (count == 0) + 2 > packet.length then .ok (out, extra, count)
      else do
        let a ← Res.idx packet (off + skip donl (count == 0))
        let b ← Res.idx packet (off + skip donl (count == 0) + 1)
        if off + skip donl (count == 0) + 2 + rd16 a b > packet.length then .ok (out, extra, count)
        else do
          let n ← Res.slice packet (off + skip donl (count == 0) + 2) (off + skip donl (count == 0) + 2 + rd16 a b)
          apGo donl packet fuel (off + skip donl (count == 0) + 2 + rd16 a b) (count + 1) (out ++ startCode ++ n) (markUnit extra n)
    else .ok (out, extra, count)

/-- An aggregation packet, `src/packet/h265.rs` 1525-1597. -/
def depackAp (d : D) (packet out : List Byte) (extra : Option Bool) : Res PErr (D × List Byte × Option Bool × Option PErr) := do
  let r ← apGo d.donl packet (packet.length + 1) 2 0 out extra
  if r.2.2 < 2 then .ok (d, r.1, r.2.1, some .shortPacket)
  else orElse (parseAp d.donl packet) d r.1 r.2.1 (fun p => .ok ({ d with payload := .ap p.1 p.2.1 p.2.2 }, r.1, r.2.1, none))

/-- A single unit, `src/packet/h265.rs` 1598-1620. -/
def depackSingle (d : D) (packet out : List Byte) (extra : Option Bool) (t : Nat) : Res PErr (D × List Byte × Option Bool × Option PErr) :=
  orElse (parseSingle d.donl packet) d out extra (fun r =>
    .ok ({ d with payload := .single r.1 r.2.1 r.2.2.1 r.2.2.2 }, out ++ startCode ++ [r.1, r.2.1] ++ r.2.2.2, mark extra (irap t), none))

/-- `H265Depacketizer::depacketize`, `src/packet/h265.rs` 1435-1623: the state, `out` and the extra left
behind, and the error returned, if any. -/
def depack (d : D) (packet out : List Byte) (extra : Option Bool) : Res PErr (D × List Byte × Option Bool × Option PErr) :=
  if packet.length ≤ 2 then .ok (d, out, extra, some .shortPacket)
  else do
    let b0 ← Res.idx packet 0
    if fbit b0 = true then .ok (d, out, extra, some .h265Corrupted)
    else if ntype b0 = 50 then depackPaci d packet out extra
    else if ntype b0 = 49 then depackFu d packet out extra
    else if ntype b0 = 48 then depackAp d packet out extra
    else depackSingle d packet out extra (ntype b0)

/-- `depacketize` for a caller that stops at an error. -/
def depacketize (d : D) (packet out : List Byte) (extra : Option Bool) : Res PErr (D × List Byte × Option Bool) := do
  let r ← depack d packet out extra
  match r.2.2.2 with
  | some e => .err e
  | none => pure (r.1, r.2.1, r.2.2.1)

/-- `H265Depacketizer::is_partition_head`, `src/packet/h265.rs` 1626-1666. -/
def head (packet : List Byte) : Bool :=
  match packet with
  | b0 :: _ :: rest =>
    if fbit b0 = true then true
    else if ntype b0 ≠ 49 then true
    else rest.head?.any (fun h => decide (h.val ≥ 128))
  | _ => false

/-- `H265Depacketizer::is_partition_tail`, `src/packet/h265.rs` 1668-1686. -/
def tail (marker : Bool) (packet : List Byte) : Bool :=
  match packet with
  | b0 :: _ :: rest => if ntype b0 = 49 then rest.head?.any (fun h => h.val / 64 % 2 == 1) else marker
  | _ => false

/-- The aggregation loop of `detect_h265_keyframe`, `src/packet/h265.rs` 79-92. -/
def detectAp (payload : List Byte) : Nat → Nat → Res PErr Bool
  | 0, _ => .ok false
  | fuel + 1, off =>
    if off + 2 ≤ payload.length then do
      let a ← Res.idx payload off
      let b ← Res.idx payload (off + 1)
      if off + 2 + rd16 a b > payload.length ∨ rd16 a b < 2 then .ok false
      else do
        let b0 ← Res.idx payload (off + 2)
        let _ ← Res.idx payload (off + 3)
        if irap (ntype b0) = true then .ok true
        else detectAp payload fuel (off + 2 + rd16 a b)
    else .ok false

/-- `detect_h265_keyframe`, `src/packet/h265.rs` 65-121. -/
def detect (payload : List Byte) : Res PErr Bool :=
  match payload with
  | b0 :: _ :: rest =>
    if ntype b0 ≤ 47 then .ok (irap (ntype b0))
    else if ntype b0 = 48 then detectAp payload (payload.length + 1) 2
    else if ntype b0 = 49 then
      match rest with
      | [] => .ok false
      | h :: _ => .ok (decide (h.val ≥ 128) && irap (h.val % 64))
    else .ok false
  | _ => .ok false

end Str0m.H265
