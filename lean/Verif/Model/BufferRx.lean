import Verif.Model.Contiguity
/-
  Model of the reordering/depacketizing buffer: src/packet/buffer_rx.rs 15-455.

  All times of one stream have one frequency, so `MediaTime` is a number here. Sequence numbers
  are below 2^63 (the code casts to `i64`). The codec is a parameter.
-/
namespace Str0m

/-- The part of `RtpMeta` (15-30) the buffer looks at. -/
structure RxMeta where
  seq : Nat
  time : Nat
  marker : Bool := false
deriving Repr, DecidableEq

/-- The `Depacketizer` trait, as a parameter: own state, head/tail predicates, and the step that
appends to the output (or fails). src/packet/mod.rs `trait Depacketizer`. -/
structure Codec where
  State : Type
  isHead : State → List Byte → Bool
  isTail : State → Bool → List Byte → Bool
  depack : State → List Byte → List Byte × CodecExtra → State × Except Unit (List Byte × CodecExtra)

/-- 112-118 -/
structure RxEntry where
  info : RxMeta
  data : List Byte
  head : Bool
  tail : Bool
deriving Repr, DecidableEq

/-- 289-290, 445 -/
def RxEntry.isPadding (e : RxEntry) : Bool := e.data.isEmpty && !e.head && !e.tail

/-- 32-39 -/
structure Depacketized where
  time : Nat
  contiguous : Bool
  infos : List RxMeta
  data : List Byte
  extra : CodecExtra
deriving Repr, DecidableEq

/-- 120-130. `segments` is recomputed at each use (371-372). `max_time` is never read here and is
left out; `last_emitted` keeps only the sequence number (the codec extra is never read). -/
structure RxBuffer (c : Codec) where
  holdBack : Nat
  st : c.State
  queue : List RxEntry := []
  lastEmitted : Option Nat := Option.none
  cache : Option ((Nat × Nat) × Depacketized) := Option.none
  cont : Contiguity

namespace RxBuffer
variable {c : Codec}

/-- Insertion at the point found by `binary_search_by_key` (188-214); the queue is sorted
(proved as an invariant), so the search finds an equal key if there is one and otherwise the
position before the first larger key. -/
def insertEntry (e : RxEntry) : List RxEntry → List RxEntry
  | [] => [e]
  | x :: xs => if e.info.seq < x.info.seq then e :: x :: xs else x :: insertEntry e xs

/-- 172-183: at or before the last delivered packet, and reordering is on. -/
def tooOld (b : RxBuffer c) (m : RxMeta) : Bool :=
  match b.lastEmitted with
  | some last => decide (m.seq ≤ last) && decide (b.holdBack > 0)
  | none => false

/-- 168-215. `partition` is `Some((false, false))` for padding. -/
def pushEntry (b : RxBuffer c) (m : RxMeta) (data : List Byte) (partition : Option (Bool × Bool)) :
    RxBuffer c :=
  if b.tooOld m then b
  else if b.queue.any (fun e => e.info.seq == m.seq) then b
  else
    let (head, tail) := match partition with
      | some p => p
      | none => (c.isHead b.st data, c.isTail b.st m.marker data)
    { b with queue := insertEntry { info := m, data := data, head := head, tail := tail } b.queue }

/-- 160-162 -/
def push (b : RxBuffer c) (m : RxMeta) (data : List Byte) : RxBuffer c := b.pushEntry m data none

/-- 164-166 -/
def pushPadding (b : RxBuffer c) (m : RxMeta) : RxBuffer c := b.pushEntry m [] (some (false, false))

/-- 374-379 -/
structure SegStart where
  index : Nat
  time : Nat
  offset : Int

/-- 392-404: what becomes of `start` on seeing the entry, before its own head/tail flags, and the
segment it may complete. -/
def segBreak (start : Option SegStart) (index : Nat) (e : RxEntry) :
    Option SegStart × List (Nat × Nat) :=
  match start with
  | none => (none, [])
  | some s =>
    let isExpected := decide (s.offset + (index : Int) = (e.info.seq : Int))
    let isSameTime := decide (s.time = e.info.time)
    if isExpected && !isSameTime then (none, [(s.index, index - 1)])   -- 392-399
    else if !isExpected || !isSameTime then (none, [])                 -- 401-404
    else (some s, [])

/-- 406-413 -/
def segHead (start : Option SegStart) (index : Nat) (e : RxEntry) : Option SegStart :=
  match start with
  | some s => some s
  | none =>
    if e.head then
      some { index := index, time := e.info.time, offset := (e.info.seq : Int) - (index : Int) }
    else none

/-- 415-421 -/
def segTail (start : Option SegStart) (index : Nat) (e : RxEntry) :
    Option SegStart × List (Nat × Nat) :=
  match start with
  | some s => if e.tail then (none, [(s.index, index)]) else (some s, [])
  | none => (none, [])

/-- 383-422 -/
def segLoop : Nat → Option SegStart → List RxEntry → List (Nat × Nat)
  | _, _, [] => []
  | index, start, e :: es =>
    let (start, s1) := segBreak start index e
    let start := segHead start index e
    let (start, s2) := segTail start index e
    s1 ++ s2 ++ segLoop (index + 1) start es

/-- 371-425 -/
def segments (q : List RxEntry) : List (Nat × Nat) := segLoop 0 none q

/-- 436-449: walk over the entries before `start`. -/
def followLoop : Nat → List RxEntry → Option Nat
  | seq, [] => some seq
  | seq, e :: es =>
    if e.info.seq ≠ seq + 1 then none
    else if !e.isPadding then none
    else followLoop e.info.seq es

/-- 427-454. `seq.is_next(x)` is `x == seq + 1` (rtp id.rs). -/
def isFollowingLast (b : RxBuffer c) (start : Nat) : Res Unit Bool :=
  match b.lastEmitted with
  | none => .ok true
  | some last =>
    match followLoop last (b.queue.take start) with
    | none => .ok false
    | some seq =>
      match b.queue[start]? with
      | none => .panic                          -- "entry for start index"
      | some e => .ok (decide (e.info.seq = seq + 1))

/-- 356-360 -/
def depackLoop (c : Codec) : c.State → List RxEntry → List Byte × CodecExtra →
    c.State × Except Unit (List Byte × CodecExtra)
  | st, [], acc => (st, .ok acc)
  | st, e :: es, acc =>
    match c.depack st e.data acc with
    | (st, .ok acc) => depackLoop c st es acc
    | (st, .error u) => (st, .error u)

/-- The entries `start..=stop`. -/
def range (q : List RxEntry) (start stop : Nat) : List RxEntry := (q.take (stop + 1)).drop start

/-- 332-369. Returns the buffer (with the cache taken) and the frame. -/
def depacketize (b : RxBuffer c) (start stop : Nat) : Res Unit (RxBuffer c × Except Unit Depacketized) :=
  let fresh : Res Unit (RxBuffer c × Except Unit Depacketized) :=
    match b.queue[start]? with
    | none => .panic                            -- "first index exist"
    | some first =>
      let es := range b.queue start stop
      match depackLoop c b.st es ([], .none) with
      | (st, .error u) => .ok ({ b with st := st, cache := none }, .error u)
      | (st, .ok (data, extra)) =>
        .ok ({ b with st := st, cache := none },
          .ok { time := first.info.time, contiguous := true, infos := es.map (·.info),
                data := data, extra := extra })
  match b.cache with
  | some (r, d) => if r = (start, stop) then .ok ({ b with cache := none }, .ok d) else fresh
  | none => fresh

/-- 293-303: drop padding from the front, moving `last` over consecutive padding. -/
def dropFront (holdBack : Nat) : Nat → List RxEntry → Nat × List RxEntry
  | last, [] => (last, [])
  | last, e :: es =>
    if (e :: es).length > holdBack then
      if !e.isPadding then (last, e :: es)
      else dropFront holdBack (if e.info.seq = last + 1 then e.info.seq else last) es
    else (last, e :: es)

/-- 318-325: remove the first `excess` padding entries. -/
def dropPadding : Nat → List RxEntry → List RxEntry
  | _, [] => []
  | excess, e :: es =>
    if excess > 0 ∧ e.isPadding = true then dropPadding (excess - 1) es
    else e :: dropPadding excess es

/-- 288-330 -/
def discardOldPadding (b : RxBuffer c) : RxBuffer c :=
  let (last, q) := match b.lastEmitted with
    | some last =>
      let (l, q) := dropFront b.holdBack last b.queue
      (some l, q)
    | none => (none, b.queue)
  let excess := (q.filter (·.isPadding)).length - b.holdBack
  let q := dropPadding excess q
  { b with lastEmitted := last, queue := q,
           cache := if q.length ≠ b.queue.length then none else b.cache }

/-- 265-285: emit (or drop) the depacketized frame. -/
def emit (b : RxBuffer c) (stop : Nat) (d : Depacketized) (contiguousSeq : Bool) (seq : Nat) :
    RxBuffer c × Option (Except Unit Depacketized) :=
  let (cont, canEmit, k) := b.cont.check d.extra contiguousSeq
  let b := { b with cont := cont, queue := b.queue.drop (stop + 1) }
  if !canEmit then (b, none)
  else ({ b with lastEmitted := some seq }, some (.ok { d with contiguous := k }))

/-- 217-286 -/
def pop (b : RxBuffer c) : Res Unit (RxBuffer c × Option (Except Unit Depacketized)) :=
  match segments b.queue with
  | [] => .ok (b.discardOldPadding, none)
  | (start, stop) :: rest =>
    match b.queue[stop]? with
    | none => .panic                            -- "entry for stop index"
    | some lastEntry =>
      let seq := lastEntry.info.seq
      (b.depacketize start stop).bind fun (b, r) =>
        match r with
        | .error u =>
          .ok ({ b with lastEmitted := some seq, queue := b.queue.drop (stop + 1) },
            some (.error u))
        | .ok d =>
          (b.isFollowingLast start).bind fun contiguousSeq =>
            let moreThanHoldBack := decide ((rest.length + 1) ≥ b.holdBack)
            if !contiguousSeq && !moreThanHoldBack then
              .ok (discardOldPadding { b with cache := some ((start, stop), d) }, none)
            else .ok (b.emit stop d contiguousSeq seq)

/-- 133-158 -/
def new (holdBack : Nat) (st : c.State) (cont : Contiguity) : RxBuffer c :=
  { holdBack := holdBack, st := st, cont := cont }

end RxBuffer
end Str0m
