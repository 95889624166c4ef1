import Verif.Base
import Verif.Model.Extend
/-
  Transport wide congestion control: src/rtp/rtcp/twcc.rs.

  Instants are `Nat` nanoseconds.
-/
namespace Str0m.Twcc
open Res

/-- `u32::from_be_bytes([buf[i], .., buf[i+3]])`; panics when out of bounds. -/
def rd32At (buf : List Byte) (i : Nat) : Res Unit Nat := do
  let a ← Res.idx buf i
  let b ← Res.idx buf (i+1)
  let c ← Res.idx buf (i+2)
  let d ← Res.idx buf (i+3)
  pure (rd32 a b c d)

/-- `u32::from_be_bytes([0, buf[i], .., buf[i+2]])`. -/
def rd24At (buf : List Byte) (i : Nat) : Res Unit Nat := do
  let a ← Res.idx buf i
  let b ← Res.idx buf (i+1)
  let c ← Res.idx buf (i+2)
  pure (rd24 a b c)

/-- `u16::from_be_bytes([buf[i], buf[i+1]])`. -/
def rd16At (buf : List Byte) (i : Nat) : Res Unit Nat := do
  let a ← Res.idx buf i
  let b ← Res.idx buf (i+1)
  pure (rd16 a b)

/-- twcc.rs 834-840 `PacketStatus` -/
inductive Status where
  | notReceived | small | large | unknown
deriving Repr, DecidableEq

/-- twcc.rs 835-839, the discriminants. -/
def Status.code : Status → Nat
  | notReceived => 0
  | small => 1
  | large => 2
  | unknown => 3

/-- twcc.rs 854-863 `From<u8> for PacketStatus` -/
def Status.ofCode (v : Nat) : Status :=
  if v = 0 then .notReceived else if v = 1 then .small else if v = 2 then .large else .unknown

/-- twcc.rs 629-634 `PacketChunk`. For the vectors: the bits, and how many statuses are
filled in. -/
inductive Chunk where
  | run (s : Status) (n : Nat)
  | single (v filled : Nat)
  | double (v filled : Nat)
deriving Repr, DecidableEq

/-- twcc.rs 842-846 `Delta`, a `u8` or an `i16`, in units of 250 us. -/
inductive Delta where
  | small (v : Byte)
  | large (v : Int)
deriving Repr, DecidableEq

/-- twcc.rs 826-831 -/
def Delta.byteLen : Delta → Nat
  | small _ => 1
  | large _ => 2

/-- twcc.rs 16-33 `Twcc` -/
structure Report where
  senderSsrc : Nat
  ssrc : Nat
  baseSeq : Nat
  statusCount : Nat
  referenceTime : Nat
  feedbackCount : Nat
  chunks : List Chunk
  delta : List Delta
deriving Repr, DecidableEq

/-! ### Serialising -/

/-- twcc.rs 741-793 `PacketChunk::write_to` -/
def Chunk.encode : Chunk → Res Unit (List Byte)
  | .run s n => if n ≤ 8192 then .ok (be16 ((s.code <<< 13) ||| n)) else .panic
  | .single v fill =>
    if fill = 14 ∧ v ≤ 16384 then .ok (be16 ((1 <<< 15) ||| v)) else .panic
  | .double v fill =>
    if fill = 7 ∧ v ≤ 16384 then .ok (be16 (((1 <<< 15) ||| (1 <<< 14)) ||| v)) else .panic

/-- `i16::to_be_bytes`. -/
def beI16 (v : Int) : List Byte := be16 (v % 65536).toNat

/-- twcc.rs 813-824 `Delta::write_to` -/
def Delta.encode : Delta → List Byte
  | .small v => [v]
  | .large v => beI16 v

/-- Serialise all chunks, twcc.rs 195-198. -/
def encodeChunks : List Chunk → Res Unit (List Byte)
  | [] => .ok []
  | c :: cs => do
    let a ← c.encode
    let b ← encodeChunks cs
    pure (a ++ b)

/-- twcc.rs 36-42 `chunks_byte_len` plus `delta_byte_len`. -/
def Report.bodyLen (t : Report) : Nat := t.chunks.length * 2 + (t.delta.map Delta.byteLen).sum

/-- The padding written for a body of `n` bytes, twcc.rs 165-168 and 208-209 (0 when the code
computes 4). -/
def padLen (n : Nat) : Nat := if 4 - n % 4 < 4 then 4 - n % 4 else 0

/-- twcc.rs 155-175 `length_words` -/
def Report.lengthWords (t : Report) : Nat := 5 + (t.bodyLen + padLen t.bodyLen) / 4

/-- The padding bytes, twcc.rs 208-213: zeros, and the last one is the pad length. -/
def padBytes (n : Nat) : List Byte :=
  if padLen n = 0 then [] else List.replicate (padLen n - 1) 0 ++ [u8 (padLen n)]

/-- twcc.rs 177-222 `Twcc::write_to`: the bytes at the front of the buffer. The RTCP header
(header.rs 96-105) is spelled out: version 2, padding bit, FMT 15, PT 205, length. Running
out of buffer is modelled by the caller. -/
def Report.encode (t : Report) : Res Unit (List Byte) := do
  let cs ← encodeChunks t.chunks
  let body := cs ++ t.delta.flatMap Delta.encode
  let total := 20 + body.length
  let p := padBytes total
  pure ([u8 ((0x80 ||| 15) ||| (if padLen total = 0 then 0 else 0x20)), u8 205]
    ++ be16 (t.lengthWords - 1)
    ++ be32 t.senderSsrc ++ be32 t.ssrc ++ be16 t.baseSeq ++ be16 t.statusCount
    ++ be24 t.referenceTime ++ [u8 t.feedbackCount] ++ body ++ p)

/-! ### Parsing -/

/-- twcc.rs 973-1001 `TryFrom<&[u8]> for PacketChunk` -/
def Chunk.parse (buf : List Byte) : Res Unit Chunk :=
  if buf.length < 2 then .err ()
  else do
    let x ← rd16At buf 0
    if x &&& 0x8000 > 0 then
      let n := x &&& 0x3fff
      if x &&& 0x4000 > 0 then pure (.double n 7) else pure (.single n 14)
    else
      pure (.run (Status.ofCode ((x >>> 13) % 256)) (x &&& 0x1fff))

/-- twcc.rs 795-801 `max_possible_status_count` -/
def Chunk.maxStatus : Chunk → Nat
  | .run _ n => n
  | .single _ _ => 14
  | .double _ _ => 7

/-- twcc.rs 893-904: read chunks until `todo` statuses are accounted for. The fuel is the
number of bytes plus one; running out would be a panic of the model (it never happens, see
`C14`). -/
def parseChunks : (fuel : Nat) → (todo : Int) → List Byte → Res Unit (List Chunk × List Byte)
  | 0, _, _ => .panic
  | fuel + 1, todo, buf =>
    if todo ≤ 0 then .ok ([], buf)
    else do
      let chunk ← Chunk.parse buf
      let buf ← Res.from_ buf 2
      let (cs, rest) ← parseChunks fuel (todo - chunk.maxStatus) buf
      pure (chunk :: cs, rest)

/-- twcc.rs 910-918 `read_delta_small` -/
def readSmall (buf : List Byte) (n : Nat) : Res Unit (List Delta) :=
  if buf.length < n then .err () else .ok ((buf.take n).map Delta.small)

/-- `i16::from_be_bytes([a, b])`. -/
def rdI16 (a b : Byte) : Int :=
  if rd16 a b < 32768 then (rd16 a b : Int) else (rd16 a b : Int) - 65536

/-- Pairs of bytes as large deltas (the closure of `read_delta_large`, 927-929). -/
def largePairs : Nat → List Byte → List Delta
  | 0, _ => []
  | n + 1, a :: b :: rest => .large (rdI16 a b) :: largePairs n rest
  | _ + 1, _ => []

/-- twcc.rs 920-930 `read_delta_large` -/
def readLarge (buf : List Byte) (n : Nat) : Res Unit (List Delta) :=
  if buf.length < n * 2 then .err () else .ok (largePairs n buf)

/-- `u16::count_ones` -/
def countOnes (v : Nat) : Nat := ((List.range 16).filter (fun i => v.testBit i)).length

/-- The status at position `i` of a two-bit vector, `(v >> (12 - 2 i)) & 0b11`,
twcc.rs 100-101 and 951-952. -/
def doubleStatus (v i : Nat) : Status := Status.ofCode ((v >>> (12 - 2 * i)) &&& 3)

/-- The loop over the seven statuses of a two-bit vector, twcc.rs 950-963. -/
def parseDouble (v : Nat) : List Nat → List Byte → Res Unit (List Delta × List Byte)
  | [], buf => .ok ([], buf)
  | i :: is, buf =>
    match doubleStatus v i with
    | .small => do
      let d ← readSmall buf 1
      let buf ← Res.from_ buf 1
      let (ds, rest) ← parseDouble v is buf
      pure (d ++ ds, rest)
    | .large => do
      let d ← readLarge buf 1
      let buf ← Res.from_ buf 2
      let (ds, rest) ← parseDouble v is buf
      pure (d ++ ds, rest)
    | _ => parseDouble v is buf

/-- The deltas of one chunk, twcc.rs 933-966. Note that after a run of `n` large deltas,
which are `2 n` bytes, the code advances by `n` bytes only (942). -/
def parseChunkDeltas (c : Chunk) (buf : List Byte) : Res Unit (List Delta × List Byte) :=
  match c with
  | .run .small n => do
    let d ← readSmall buf n
    let buf ← Res.from_ buf n
    pure (d, buf)
  | .run .large n => do
    let d ← readLarge buf n
    let buf ← Res.from_ buf n
    pure (d, buf)
  | .single v _ => do
    let n := countOnes v
    let d ← readSmall buf n
    let buf ← Res.from_ buf n
    pure (d, buf)
  | .double v _ => parseDouble v [0, 1, 2, 3, 4, 5, 6] buf
  | _ => .ok ([], buf)

/-- twcc.rs 932-967 -/
def parseDeltas : List Chunk → List Byte → Res Unit (List Delta)
  | [], _ => .ok []
  | c :: cs, buf => do
    let (d, buf) ← parseChunkDeltas c buf
    let ds ← parseDeltas cs buf
    pure (d ++ ds)

/-- twcc.rs 865-971 `TryFrom<&[u8]> for Twcc`; the buffer starts after the RTCP header and
has its padding removed. -/
def Report.parse (buf : List Byte) : Res Unit Report :=
  if buf.length < 16 then .err ()
  else do
    let senderSsrc ← rd32At buf 0
    let ssrc ← rd32At buf 4
    let baseSeq ← rd16At buf 8
    let statusCount ← rd16At buf 10
    let referenceTime ← rd24At buf 12
    let fc ← Res.idx buf 15
    let buf ← Res.from_ buf 16
    let (chunks, rest) ← parseChunks (buf.length + 1) statusCount buf
    let delta ← parseDeltas chunks rest
    pure { senderSsrc, ssrc, baseSeq, statusCount, referenceTime, feedbackCount := fc.val,
           chunks, delta }

/-! ### Iterating over a report (the sender side) -/

/-- twcc.rs 61-67 `TwccIter` -/
structure Iter where
  baseSeq : Nat
  lastSeq : Nat
  timeBase : Nat
  index : Nat
  chunks : List Chunk
  delta : List Delta
deriving Repr, DecidableEq

/-- twcc.rs 45-58 `Twcc::into_iter`. `extend_u16` is the model of C01. The
overflow of the sum is in `Send.apply`. -/
def Report.intoIter (t : Report) (timeZero extendFrom : Nat) : Iter :=
  let base := extendU16 (some extendFrom) t.baseSeq
  { baseSeq := base, lastSeq := base + t.statusCount,
    timeBase := timeZero + t.referenceTime * 64 * 1000000,
    index := 0, chunks := t.chunks, delta := t.delta }

/-- twcc.rs 81-104: the status at the current index of the first chunk, and the number of
statuses of the chunk. Shifting by a negative amount is a panic. -/
def chunkStatus (c : Chunk) (index : Nat) : Res Unit (Status × Nat) :=
  match c with
  | .run s n => .ok ((match s with | .unknown => .notReceived | s => s), n)
  | .single v n =>
    if index ≤ 13 then
      .ok (if v.testBit (13 - index) then .small else .notReceived, n)
    else .panic
  | .double v n =>
    if index * 2 ≤ 12 then .ok (doubleStatus v index, n) else .panic

/-- twcc.rs 106-131: consume a delta when the status has one. `none` is the early return of
the `?` on an empty delta queue. Yields the instant and the new time base. -/
def takeDelta (s : Status) (tb : Nat) (ds : List Delta) :
    Res Unit (Option (Option Nat × Nat × List Delta)) :=
  match s with
  | .notReceived => .ok (some (none, tb, ds))
  | .unknown => .ok (some (none, tb, ds))
  | .small =>
    match ds with
    | [] => .ok none
    | .small v :: rest =>
      let t := tb + 250 * v.val * 1000
      .ok (some (some t, t, rest))
    | .large _ :: _ => .panic
  | .large =>
    match ds with
    | [] => .ok none
    | .small _ :: _ => .panic
    | .large v :: rest =>
      let dur := 250 * v.natAbs * 1000
      let t := if v < 0 then (if dur ≤ tb then tb - dur else tb) else tb + dur
      .ok (some (some t, t, rest))

/-- twcc.rs 72-141 `TwccIter::next` -/
def Iter.next (it : Iter) : Res Unit (Option ((Nat × Status × Option Nat) × Iter)) :=
  let seq := it.baseSeq + it.index
  if seq = it.lastSeq then .ok none
  else
    match it.chunks with
    | [] => .ok none
    | head :: tail => do
      let (status, amount) ← chunkStatus head it.index
      let r ← takeDelta status it.timeBase it.delta
      match r with
      | none => pure none
      | some (instant, tb, ds) =>
        let it' :=
          if it.index + 1 = amount then
            { it with timeBase := tb, delta := ds, chunks := tail, baseSeq := seq + 1, index := 0 }
          else { it with timeBase := tb, delta := ds, index := it.index + 1 }
        pure (some ((seq, status, instant), it'))

/-- Exhausting the iterator, at most `n` items. -/
def Iter.collect : Nat → Iter → Res Unit (List (Nat × Status × Option Nat))
  | 0, _ => .ok []
  | n + 1, it => do
    match ← it.next with
    | none => pure []
    | some (x, it') => do
      let xs ← Iter.collect n it'
      pure (x :: xs)

/-- Everything a report says: the iterator yields at most `status_count` items. -/
def Report.items (t : Report) (timeZero extendFrom : Nat) : Res Unit (List (Nat × Status × Option Nat)) :=
  Iter.collect (t.statusCount + 1) (t.intoIter timeZero extendFrom)

end Str0m.Twcc
