import Verif.Base
/-
  Model of `src/rtp/vla.rs`: LEB128 and the video layers allocation header extension.
  `u8`/`u16`/`u64` values are natural numbers; the ranges are hypotheses of the theorems.
  A panic is modelled wherever a build with overflow checks panics.
-/
namespace Str0m.Vla

/-- `struct ResolutionAndFramerate`, `src/rtp/vla.rs` 57-67. -/
structure Resn where
  width : Nat
  height : Nat
  framerate : Nat
deriving Repr, DecidableEq

/-- `struct SpatialLayerAllocation`, `src/rtp/vla.rs` 37-55; a temporal layer is its
`cumulative_kbps`. -/
structure Layer where
  temporal : List Nat
  res : Option Resn
deriving Repr, DecidableEq

/-- `struct SimulcastStreamAllocation`, `src/rtp/vla.rs` 28-35. -/
structure Stream where
  layers : List Layer
deriving Repr, DecidableEq

/-- `struct VideoLayersAllocation`, `src/rtp/vla.rs` 15-26. -/
structure Alloc where
  current : Nat
  streams : List Stream
deriving Repr, DecidableEq

/-- `read_bits(bits, s..e)`, `src/rtp/vla.rs` 479-483 (all calls have `e ≤ 8`). -/
def readBits (b : Byte) (s e : Nat) : Nat := b.val / 2 ^ (8 - e) % 2 ^ (e - s)

/-- `read_bit`, `src/rtp/vla.rs` 474-477. -/
def readBit (b : Byte) (i : Nat) : Bool := decide (readBits b i (i + 1) > 0)

/-- `div_round_up`, `src/rtp/vla.rs` 432-439. -/
def divRoundUp (top bottom : Nat) : Nat := if top = 0 then 0 else (top - 1) / bottom + 1

/-- `split_at`, `src/rtp/vla.rs` 422-430; `none` is the Rust `None`. -/
def splitAt? (buf : List Byte) (mid : Nat) : Res Unit (List Byte × List Byte) :=
  if mid > buf.length then .err () else .ok (buf.take mid, buf.drop mid)

/-- `split_byte_in2`, `src/rtp/vla.rs` 441-445. -/
def splitIn2 (b : Byte) : List Nat := [readBits b 0 4, readBits b 4 8]

/-- `split_byte_in4`, `src/rtp/vla.rs` 447-456. -/
def splitIn4 (b : Byte) : List Nat := [readBits b 0 2, readBits b 2 4, readBits b 4 6, readBits b 6 8]

/-- The number of flags up to and including the last set one: `count` in
`read_lower_4bits_ignoring_leading_zeros`, `src/rtp/vla.rs` 459-472. -/
def lastSet : List Bool → Nat
  | [] => 0
  | b :: bs => if lastSet bs > 0 then lastSet bs + 1 else if b then 1 else 0

/-- `read_lower_4bits_ignoring_leading_zeros`, `src/rtp/vla.rs` 458-472: bit 0 (least significant)
first, truncated after the last set bit. -/
def lower4 (bits : Nat) : List Bool :=
  let b := u8 bits
  let bools := [readBit b 7, readBit b 6, readBit b 5, readBit b 4]
  bools.take (lastSet bools)

/-- The loop of `parse_leb_u63`, `src/rtp/vla.rs` 391-402. -/
def parseLebGo (orig : List Byte) : List Byte → Nat → Nat → Nat × List Byte
  | [], _, _ => (0, orig)
  | b :: bs, index, result =>
    let result' := result + readBits b 1 8 * 2 ^ (7 * index)
    if readBit b 0 = false ∨ index = 8 then (result', bs) else parseLebGo orig bs (index + 1) result'

/-- `parse_leb_u63`, `src/rtp/vla.rs` 391-402 (the `|=` of disjoint 7-bit groups is a sum). -/
def parseLeb (bytes : List Byte) : Nat × List Byte := parseLebGo bytes bytes 0 0

/-- `encode_leb_u63`, `src/rtp/vla.rs` 404-420: the bytes written, at most `fuel` of them. -/
def encodeLebGo : Nat → Nat → List Byte
  | 0, _ => []
  | fuel + 1, value => if value < 0x80 then [u8 value] else u8 (value % 128 + 128) :: encodeLebGo fuel (value / 128)

/-- `encode_leb_u63` on a `u64`, which needs at most ten bytes. -/
def encodeLeb (value : Nat) : List Byte := encodeLebGo 10 value

/-- The bitrate loop of `parse`, `src/rtp/vla.rs` 137-147. -/
def parseLebs : Nat → List Byte → List Nat × List Byte
  | 0, bytes => ([], bytes)
  | n + 1, bytes =>
    let r := parseLeb bytes
    let rest := parseLebs n r.2
    (r.1 :: rest.1, rest.2)

/-- One `resolutions_and_framerates.next()`, `src/rtp/vla.rs` 158-171.  The iterator's counter
never runs out before the calls do (one call per active layer), and once a block is missing all
later ones are, so the byte slice is its whole state.  `+ 1` on a `u16` overflows for 65535. -/
def nextRes (bytes : List Byte) : Res Unit (Option Resn × List Byte) :=
  match bytes with
  | a :: b :: c :: d :: e :: rest =>
    if rd16 a b + 1 < 2 ^ 16 ∧ rd16 c d + 1 < 2 ^ 16 then
      .ok (some { width := rd16 a b + 1, height := rd16 c d + 1, framerate := e.val }, rest)
    else .panic
  | _ => .ok (none, bytes)

/-- The queues consumed while the result is built, `src/rtp/vla.rs` 129-171. -/
structure Queues where
  counts : List Nat
  rates : List Nat
  resBytes : List Byte
deriving Repr, DecidableEq

/-- The closure for one spatial layer, `src/rtp/vla.rs` 178-198. -/
def takeLayer (active : Bool) (q : Queues) : Res Unit (Option Layer × Queues) :=
  if active then
    match q.counts with
    | [] => .ok (none, q)
    | n :: counts => do
      let r ← nextRes q.resBytes
      pure (some { temporal := q.rates.take n, res := r.1 },
        { counts := counts, rates := q.rates.drop n, resBytes := r.2 })
  else .ok (some { temporal := [], res := none }, q)

/-- The spatial layers of one simulcast stream, `src/rtp/vla.rs` 176-199. -/
def takeLayers : List Bool → Queues → Res Unit (List Layer × Queues)
  | [], q => .ok ([], q)
  | a :: as, q => do
    let r ← takeLayer a q
    let rest ← takeLayers as r.2
    pure (r.1.toList ++ rest.1, rest.2)

/-- All simulcast streams, `src/rtp/vla.rs` 173-202. -/
def takeStreams : List (List Bool) → Queues → Res Unit (List Stream × Queues)
  | [], q => .ok ([], q)
  | a :: as, q => do
    let r ← takeLayers a q
    let rest ← takeStreams as r.2
    pure ({ layers := r.1 } :: rest.1, rest.2)

/-- The spatial layer bitmasks, `src/rtp/vla.rs` 86-109. -/
def parseMasks (count shared : Nat) (after : List Byte) : Res Unit (List (List Bool) × List Byte) :=
  if shared > 0 then .ok (List.replicate count (lower4 shared), after)
  else do
    let s ← splitAt? after (divRoundUp count 2)
    pure (((s.1.flatMap splitIn2).take count).map lower4, s.2)

/-- What follows the bitmasks, `src/rtp/vla.rs` 110-206. -/
def parseTail (current : Nat) (active : List (List Bool)) (after : List Byte) : Res Unit Alloc := do
  let total := (active.flatten.filter (fun a => a)).length
  let s ← splitAt? after (divRoundUp total 4)
  let counts := ((s.1.flatMap splitIn4).map (fun c => c + 1)).take total
  let rates := parseLebs counts.sum s.2
  if rates.1.any (fun kbps => decide (kbps > 2 ^ 63)) then .err ()
  else do
    let r ← takeStreams active { counts := counts, rates := rates.1, resBytes := rates.2 }
    pure { current := current, streams := r.1 }

/-- `VideoLayersAllocation::parse`, `src/rtp/vla.rs` 69-207. -/
def parse (buf : List Byte) : Res Unit Alloc :=
  match buf with
  | [] => .err ()
  | b0 :: after =>
    if b0 = 0 ∧ after = [] then .ok { current := 0, streams := [] }
    else do
      let m ← parseMasks (readBits b0 2 4 + 1) (readBits b0 4 8) after
      parseTail (readBits b0 0 2) m.1 m.2

/-! ### The writer -/

/-- `buf[i] = v`, out of bounds panics. -/
def setB (buf : List Byte) (i : Nat) (v : Byte) : Res Unit (List Byte) :=
  if i < buf.length then .ok (buf.set i v) else .panic

/-- `buf[i] |= v` with `v` a byte value. -/
def orB (buf : List Byte) (i : Nat) (v : Nat) : Res Unit (List Byte) := do
  let old ← Res.idx buf i
  setB buf i (u8 (old.val ||| v))

/-- `buf[i..i + bytes.len()].copy_from_slice(bytes)`. -/
def putB (buf : List Byte) (i : Nat) (bytes : List Byte) : Res Unit (List Byte) :=
  if i + bytes.length ≤ buf.length then .ok (buf.take i ++ bytes ++ buf.drop (i + bytes.length)) else .panic

/-- The bitmask of one stream, `src/rtp/vla.rs` 263-268: `1u8 << layer_id` overflows from 8 on. -/
def streamMask : List Layer → Nat → Nat → Res Unit Nat
  | [], _, acc => .ok acc
  | l :: ls, i, acc =>
    if i < 8 then streamMask ls (i + 1) (acc ||| (if l.temporal.isEmpty then 0 else 2 ^ i)) else .panic

/-- The fold over streams, `src/rtp/vla.rs` 260-273: `spatial_layers[stream_index]` of a `[u8; 4]`. -/
def streamMasks : List Stream → Nat → List Nat → Res Unit (List Nat)
  | [], _, acc => .ok acc
  | s :: ss, i, acc => do
    let m ← streamMask s.layers 0 0
    if i < 4 then streamMasks ss (i + 1) (acc.set i m) else .panic

/-- The loop writing per-stream bitmasks, `src/rtp/vla.rs` 284-293. -/
def writeMasks : List Nat → Nat → List Byte → Nat → Res Unit (List Byte × Nat)
  | [], _, buf, index => .ok (buf, index)
  | m :: ms, i, buf, index =>
    if i % 2 = 0 then do
      let buf ← setB buf (index + 1) 0
      let buf ← orB buf (index + 1 + i / 2) (m % 16 * 16)
      writeMasks ms (i + 1) buf (index + 1)
    else do
      let buf ← orB buf (index + i / 2) (m % 16)
      writeMasks ms (i + 1) buf index

/-- The loop writing temporal layer counts, `src/rtp/vla.rs` 303-324, over all layers of all
streams in order; the result is the buffer, `index` and `tl_index` (`wrote_temporal_layer_count`
is `tl_index > 0`). -/
def writeCounts : List Layer → List Byte → Nat → Nat → Res Unit (List Byte × Nat × Nat)
  | [], buf, index, tl => .ok (buf, index, tl)
  | l :: ls, buf, index, tl =>
    if l.temporal.isEmpty then writeCounts ls buf index tl
    else if tl % 4 = 0 then
      if tl > 0 then do
        let buf ← setB buf (index + 1) 0
        let buf ← orB buf (index + 1) ((l.temporal.length - 1) % 256 * 2 ^ (6 - tl % 4 * 2) % 256)
        writeCounts ls buf (index + 1) (tl + 1)
      else do
        let buf ← setB buf index 0
        let buf ← orB buf index ((l.temporal.length - 1) % 256 * 2 ^ (6 - tl % 4 * 2) % 256)
        writeCounts ls buf index (tl + 1)
    else do
      let buf ← orB buf index ((l.temporal.length - 1) % 256 * 2 ^ (6 - tl % 4 * 2) % 256)
      writeCounts ls buf index (tl + 1)

/-- The loop writing the bitrates, `src/rtp/vla.rs` 334-340. -/
def writeRates : List Nat → List Byte → Nat → Res Unit (List Byte × Nat)
  | [], buf, index => .ok (buf, index)
  | r :: rs, buf, index => do
    let buf ← putB buf index (encodeLeb r)
    writeRates rs buf (index + (encodeLeb r).length)

/-- The loop writing resolutions, `src/rtp/vla.rs` 342-356: `r.width - 1` underflows for 0. -/
def writeRes : List Layer → List Byte → Nat → Res Unit (List Byte × Nat)
  | [], buf, index => .ok (buf, index)
  | l :: ls, buf, index =>
    match l.res with
    | none => writeRes ls buf index
    | some r =>
      if r.width = 0 ∨ r.height = 0 then .panic
      else do
        let buf ← putB buf index (be16 (r.width - 1) ++ be16 (r.height - 1) ++ [u8 r.framerate])
        writeRes ls buf (index + 5)

/-- All spatial layers of all streams, in order. -/
def Alloc.layers (v : Alloc) : List Layer := v.streams.flatMap (·.layers)

/-- All temporal layers of all streams, in order. -/
def Alloc.rates (v : Alloc) : List Nat := v.layers.flatMap (·.temporal)

/-- `Serializer::write_to` after the bitmasks, `src/rtp/vla.rs` 301-358. -/
def writeTail (v : Alloc) (buf : List Byte) (index : Nat) : Res Unit (List Byte × Nat) := do
  let c ← writeCounts v.layers buf index 0
  if c.2.2 > 0 then do
    let r ← writeRates v.rates c.1 (c.2.1 + 1)
    writeRes v.layers r.1 r.2
  else do
    let buf ← setB c.1 c.2.1 0
    pure (buf, c.2.1 + 1)

/-- `Serializer::write_to` for a present value, `src/rtp/vla.rs` 242-361; the result is the buffer
and the number of bytes written. -/
def write (v : Alloc) (buf : List Byte) : Res Unit (List Byte × Nat) := do
  let buf ← setB buf 0 0
  if v.current = 0 ∧ v.streams = [] then pure (buf, 1)
  else do
    let buf ← orB buf 0 (v.current % 4 * 64)
    if v.streams.length = 0 then .panic
    else do
      let buf ← orB buf 0 ((v.streams.length - 1) % 4 * 16)
      let masks ← streamMasks v.streams 0 [0, 0, 0, 0]
      let used ← Res.upto masks v.streams.length
      if used.all (fun m => m == masks.headD 0) then do
        let buf ← orB buf 0 (masks.headD 0 % 16)
        writeTail v buf 1
      else do
        let w ← writeMasks used 0 buf 0
        if v.streams.length % 2 ≠ 0 then do
          let buf ← orB w.1 w.2 15
          writeTail v buf (w.2 + 1)
        else writeTail v w.1 (w.2 + 1)

end Str0m.Vla
