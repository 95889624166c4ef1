import Verif.Model.Twcc
/-
  The receiver side of transport wide congestion control: `TwccRecvRegister`,
  `build_interims`, `ChunkInterim` and the filling of chunks (src/rtp/rtcp/twcc.rs 224-739).

  `Instant - Instant` saturates at zero, as it does in the standard library. The loss
  statistics (`ReceiveWindow`) are not modelled. Arithmetic overflow is a panic, as in a build
  with overflow checks.
-/
namespace Str0m.Twcc
open Res

/-- twcc.rs 259-263 `Receipt` -/
structure Receipt where
  seq : Nat
  time : Nat
deriving Repr, DecidableEq

/-- twcc.rs 225-257 `TwccRecvRegister` (`interims` is scratch space of `build_report`). -/
structure Recv where
  keep : Nat
  queue : List Receipt
  reportFrom : Nat
  timeStart : Option Nat
  generated : Nat
deriving Repr, DecidableEq

/-- twcc.rs 266-276 `new` -/
def Recv.new (keep : Nat) : Recv :=
  { keep, queue := [], reportFrom := 0, timeStart := none, generated := 0 }

/-- Where a binary search by `seq` inserts or finds, in a queue ordered by `seq`: the first
entry that is not smaller. -/
def insertAt (q : List Receipt) (seq : Nat) : Nat := q.findIdx (fun r => seq ≤ r.seq)

/-- twcc.rs 295-303: more than 8.192 s before the first reported packet. -/
def Recv.tooOld (s : Recv) (time : Nat) : Bool :=
  match s.timeStart with
  | some ts => decide (8192 * 1000000 ≤ ts - time)
  | none => false

/-- twcc.rs 285-310 `update_seq` -/
def Recv.update (s : Recv) (seq time : Nat) : Recv :=
  let idx := insertAt s.queue seq
  if (s.queue[idx]?).map (·.seq) = some seq then s
  else if s.tooOld time then s
  else
    { s with
      queue := s.queue.take idx ++ [⟨seq, time⟩] ++ s.queue.drop idx
      reportFrom := if idx < s.reportFrom then idx else s.reportFrom }

/-- twcc.rs 561-565 `ChunkInterim` -/
inductive Interim where
  | missing (n : Nat)
  | received (s : Status) (t : Int)
deriving Repr, DecidableEq

/-- twcc.rs 597-602 -/
def Interim.status : Interim → Status
  | missing _ => .notReceived
  | received s _ => s

/-- twcc.rs 604-613 -/
def Interim.delta : Interim → Option Delta
  | missing _ => none
  | received .small t => some (.small (u8 (t % 256).toNat))
  | received .large t => some (.large t)
  | received _ _ => none

/-- twcc.rs 524-530: a gap of `todo` packets, in pieces of at most 8192. -/
def splitMissing (todo : Nat) : List Interim :=
  List.replicate (todo / 8192) (.missing 8192) ++
    (if 0 < todo % 8192 then [.missing (todo % 8192)] else [])

/-- twcc.rs 533-540, in microseconds. -/
def diffTime (time prev : Nat) : Int :=
  if time < prev then -(((prev - time) / 1000 : Nat) : Int) else (((time - prev) / 1000 : Nat) : Int)

/-- twcc.rs 542-554: `none` is the `break`. Division truncates towards zero. -/
def classify (d : Int) : Option (Status × Int) :=
  if d < -8192000 ∨ d > 8191750 then none
  else if d < 0 ∨ d > 63750 then some (.large, d.tdiv 250)
  else some (.small, d.tdiv 250)

/-- twcc.rs 508-559 `build_interims`, on the part of the queue to report. (The missing packets
before an entry that cannot be represented are still pushed.) -/
def buildInterims : (prevSeq prevTime : Nat) → List Receipt → List Interim
  | _, _, [] => []
  | ps, pt, r :: rs =>
    (if r.seq - ps > 1 then splitMissing (r.seq - ps - 1) else []) ++
    (match classify (diffTime r.time pt) with
     | none => []
     | some (s, t) => .received s t :: buildInterims r.seq r.time rs)

/-- twcc.rs 733-739 `free` -/
def Chunk.free : Chunk → Nat
  | .run _ n => 8192 - n
  | .single _ f => 14 - f
  | .double _ f => 7 - f

/-- twcc.rs 725-731 -/
def Chunk.mustBeFull : Chunk → Bool
  | .run _ _ => false
  | _ => true

/-- twcc.rs 803-809 -/
def Chunk.canAppend (c : Chunk) (s : Status) : Bool :=
  match c with
  | .run s' _ => s' = s
  | .single _ _ => s ≠ .large
  | .double _ _ => true

/-- twcc.rs 668-723 `append`: the new chunk and how many were appended. The bits of a vector
never exceed 14, so that no bit is shifted out of the `u16`. -/
def Chunk.append (c : Chunk) (i : Interim) : Chunk × Nat :=
  match c, i with
  | .run s n, .missing m =>
    if s ≠ .notReceived then (c, 0)
    else (.run s (n + min c.free m), min c.free m)
  | .run s n, .received s2 _ =>
    if s ≠ s2 then (c, 0) else (.run s (n + min c.free 1), min c.free 1)
  | .single v f, .missing m =>
    (.single (v <<< min c.free m) (f + min c.free m), min c.free m)
  | .single v f, .received s2 _ =>
    if s2 = .large then (c, 0)
    else if min c.free 1 = 1 then (.single ((v <<< 1) ||| 1) (f + 1), 1) else (c, min c.free 1)
  | .double v f, .missing m =>
    (.double (v <<< (min c.free m * 2)) (f + min c.free m), min c.free m)
  | .double v f, .received s2 _ =>
    if min c.free 1 = 1 then (.double ((v <<< 2) ||| s2.code) (f + 1), 1) else (c, min c.free 1)

/-- The loop of twcc.rs 642-656; the flag is `reached_end`. -/
def appendMaxLoop : Chunk → List Interim → Chunk × Bool
  | c, [] => (c, true)
  | c, i :: is =>
    if c.free = 0 then (c, false)
    else if ¬ c.canAppend i.status then (c, false)
    else appendMaxLoop (c.append i).1 is

/-- twcc.rs 637-666 `append_max` -/
def Chunk.appendMax (c : Chunk) (is : List Interim) : Nat :=
  let r := appendMaxLoop c is
  if r.1.mustBeFull ∧ r.1.free > 0 ∧ ¬ r.2 then 0 else c.free - r.1.free

/-- twcc.rs 384-404: the choice, given how many each kind takes. -/
def pickChunk (first : Status) (mr ms md bytes : Nat) : Chunk × Nat :=
  if max (max mr ms) md = mr then (.run first 0, mr)
  else if max (max mr ms) md = ms ∧ bytes ≥ 19 then (.single 0 0, ms)
  else if max (max mr ms) md = md ∧ bytes ≥ 19 then (.double 0 0, md)
  else (.run first 0, mr)

/-- twcc.rs 376-405: the kind of chunk that can take the most, and how many it takes. -/
def chooseChunk (is : List Interim) (bytes : Nat) : Chunk × Nat :=
  let first := (is.head?.map Interim.status).getD .notReceived
  pickChunk first ((Chunk.run first 0).appendMax is) ((Chunk.single 0 0).appendMax is)
    ((Chunk.double 0 0).appendMax is) bytes

/-- What the inner loop works on. -/
structure Fill where
  chunk : Chunk
  bytes : Nat
  interims : List Interim
  count : Nat
  delta : List Delta
  received : Nat
deriving Repr, DecidableEq

/-- The inner loop, twcc.rs 410-446: move interims into the chunk. `count` is the
`status_count` so far, a `u16`. -/
def fillChunk : Chunk → (todo bytes count : Nat) → List Interim → Res Unit Fill
  | c, _, bytes, count, [] => .ok ⟨c, bytes, [], count, [], 0⟩
  | c, todo, bytes, count, i :: is =>
    if bytes < 7 ∨ todo = 0 then .ok ⟨c, bytes, i :: is, count, [], 0⟩
    else
      let (c', a) := c.append i
      if a = 0 ∨ todo < a ∨ 65535 < count + a then .panic
      else
        match i with
        | .missing m =>
          if m < a then .panic
          else if m - a = 0 then fillChunk c' (todo - a) bytes (count + a) is
          else if todo - a ≠ 0 then .panic
          else .ok ⟨c', bytes, .missing (m - a) :: is, count + a, [], 0⟩
        | .received _ _ =>
          if a ≠ 1 then .panic
          else
            match i.delta with
            | none => .panic
            | some d => do
              let r ← fillChunk c' (todo - 1) (bytes - d.byteLen) (count + 1) is
              pure { r with delta := d :: r.delta, received := r.received + 1 }

/-- twcc.rs 448-453: fill up a vector with missing packets; it must be the last chunk. -/
def padChunk (c : Chunk) (is : List Interim) : Res Unit Chunk :=
  if c.mustBeFull ∧ c.free > 0 then
    (if is = [] then .ok (c.append (.missing c.free)).1 else .panic)
  else .ok c

/-- The result of the outer loop. -/
structure Built where
  chunks : List Chunk
  delta : List Delta
  count : Nat
  received : Nat
  bytes : Nat
deriving Repr, DecidableEq

/-- The outer loop, twcc.rs 368-457. Running out of fuel would be a panic of the model. -/
def buildChunks : (fuel : Nat) → (bytes count : Nat) → List Interim → Res Unit Built
  | 0, _, _, _ => .panic
  | fuel + 1, bytes, count, is =>
    if is = [] ∨ bytes < 7 then .ok ⟨[], [], count, 0, bytes⟩
    else do
      let (c, todo) := chooseChunk is bytes
      let f ← fillChunk c todo bytes count is
      let c ← padChunk f.chunk f.interims
      if f.bytes < 2 then .panic
      else do
        let r ← buildChunks fuel (f.bytes - 2) f.count f.interims
        pure { r with chunks := c :: r.chunks, delta := f.delta ++ r.delta,
                      received := f.received + r.received }

/-- The number of statuses of some interims; one more is fuel enough. -/
def Interim.size : Interim → Nat
  | missing n => n
  | received _ _ => 1

/-- twcc.rs 456-476: the end of `build_report`, given what the loop built. -/
def Recv.finish (s : Recv) (first : Receipt) (ts ref : Nat) (b : Built) : Option Report × Recv :=
  if b.chunks = [] then
    (none, { s with timeStart := some ts, reportFrom := s.reportFrom + b.received })
  else
    (some { senderSsrc := 0, ssrc := 0, feedbackCount := s.generated % 256,
            baseSeq := first.seq % 65536, referenceTime := ref,
            statusCount := b.count, chunks := b.chunks, delta := b.delta },
     { s with timeStart := some ts, generated := s.generated + 1,
              queue := s.queue.drop (s.reportFrom + b.received - s.keep),
              reportFrom := s.reportFrom + b.received - (s.reportFrom + b.received - s.keep) })

/-- twcc.rs 319-456 of `build_report`, for the first unreported packet. -/
def Recv.reportOf (s : Recv) (maxSize : Nat) (first : Receipt) : Res Unit (Option Report × Recv) :=
  let ts := s.timeStart.getD first.time
  let ref := (first.time - ts) / 1000 / 64000 % 2^32
  let is := buildInterims first.seq (ts + ref * 64000 * 1000) (s.queue.drop s.reportFrom)
  if maxSize < 20 then .panic
  else do
    let b ← buildChunks ((is.map Interim.size).sum + 1) (maxSize - 20) 0 is
    pure (s.finish first ts ref b)

/-- twcc.rs 312-476 `build_report`: the report, if any, and the new register. Running over the
`u64`/`u32` ranges of times is not modelled, except the truncation of `reference_time`. -/
def Recv.buildReport (s : Recv) (maxSize : Nat) : Res Unit (Option Report × Recv) :=
  if maxSize > 10000 then .ok (none, s)
  else
    match s.queue[s.reportFrom]? with
    | none => .ok (none, s)
    | some first => s.reportOf maxSize first

/-- twcc.rs 478-480 -/
def Recv.hasUnreported (s : Recv) : Bool := s.queue.length > s.reportFrom

end Str0m.Twcc
