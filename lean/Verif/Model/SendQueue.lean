import Verif.Base
/-
  Model of the queue of outgoing packets of one stream: src/streams/send_queue.rs 1-202 and of
  `QueueSnapshot`: src/pacer/queue.rs 6-108. `Instant`/`Duration` are ticks; `not_happening()`,
  the "not yet timestamped" sentinel, is `none`. Counters are unbounded (the code uses `usize`
  and casts the count to `u32`).
-/
namespace Str0m

/-- The part of `RtpPacket` the queue looks at; `timestamp = none` is `not_happening()`. -/
structure QPacket where
  payload : List Byte
  timestamp : Option Nat := none
deriving Repr, DecidableEq

/-- send_queue.rs 149-161 -/
structure TotalQueue where
  unsentCount : Nat := 0
  unsentSize : Nat := 0
  queueTime : Nat := 0
  last : Option Nat := none
deriving Repr, DecidableEq

namespace TotalQueue

/-- send_queue.rs 164-175; a failed `assert!` is a panic. `Instant` subtraction saturates. -/
def moveTimeForward (t : TotalQueue) (now : Nat) : Res Unit TotalQueue :=
  match t.last with
  | some last =>
    if t.unsentCount > 0 then
      .ok { t with queueTime := t.queueTime + (now - last) * t.unsentCount, last := some now }
    else .panic
  | none =>
    if t.unsentCount = 0 ∧ t.unsentSize = 0 ∧ t.queueTime = 0 then .ok t else .panic

/-- send_queue.rs 177-182 -/
def increase (t : TotalQueue) (now size : Nat) : Res Unit TotalQueue :=
  (t.moveTimeForward now).bind fun t =>
    .ok { t with unsentCount := t.unsentCount + 1, unsentSize := t.unsentSize + size,
                 last := some now }

/-- send_queue.rs 192-196 -/
def settle (t : TotalQueue) : Res Unit TotalQueue :=
  if t.unsentCount = 0 then
    if t.unsentSize = 0 then .ok { t with queueTime := 0, last := none } else .panic
  else .ok t

/-- send_queue.rs 184-197; `-=` on `usize` and `Duration` panics on underflow. -/
def decrease (t : TotalQueue) (now size queueTime : Nat) : Res Unit TotalQueue :=
  (t.moveTimeForward now).bind fun t =>
    if 1 ≤ t.unsentCount ∧ size ≤ t.unsentSize ∧ queueTime ≤ t.queueTime then
      settle { t with unsentCount := t.unsentCount - 1, unsentSize := t.unsentSize - size,
                      queueTime := t.queueTime - queueTime }
    else .panic

end TotalQueue

/-- src/pacer/queue.rs 31-40; a smaller number sorts first. -/
inductive QueuePriority where
  | media | padding | empty
deriving Repr, DecidableEq

/-- src/pacer/queue.rs 31 `#[derive(Ord)]` -/
def QueuePriority.rank : QueuePriority → Nat
  | .media => 0 | .padding => 1 | .empty => 2

/-- src/pacer/queue.rs 6-26. `created_at = none` is `not_happening()`. -/
structure QueueSnapshot where
  createdAt : Option Nat := none
  byteSize : Nat := 0
  packetCount : Nat := 0
  totalQueueTimeOrigin : Nat := 0
  lastEmitted : Option Nat := none
  firstUnsent : Option Nat := none
  priority : QueuePriority := .empty
deriving Repr, DecidableEq

/-- send_queue.rs 9-14 -/
structure SendQueue where
  queue : List QPacket := []
  total : TotalQueue := {}
  lastEmitted : Option Nat := none
deriving Repr, DecidableEq

namespace SendQueue

/-- send_queue.rs 25-31 -/
def push (q : SendQueue) (packet : QPacket) : SendQueue :=
  { q with queue := q.queue ++ [{ packet with timestamp := none }] }

/-- send_queue.rs 34-42: the loop over the reversed queue. -/
def stampLoop (now : Nat) : List QPacket → TotalQueue → Res Unit (List QPacket × TotalQueue)
  | [], t => .ok ([], t)
  | p :: ps, t =>
    match p.timestamp with
    | some _ => .ok (p :: ps, t)
    | none => (t.increase now p.payload.length).bind fun t =>
        (stampLoop now ps t).bind fun (ps, t) => .ok ({ p with timestamp := some now } :: ps, t)

/-- send_queue.rs 33-43 -/
def handleTimeout (q : SendQueue) (now : Nat) : Res Unit SendQueue :=
  (stampLoop now q.queue.reverse q.total).bind fun (r, t) =>
    .ok { q with queue := r.reverse, total := t }

/-- send_queue.rs 45-52 -/
def needTimeout (q : SendQueue) : Bool :=
  match q.queue.getLast? with
  | some p => p.timestamp == none
  | none => false

/-- send_queue.rs 54-61 -/
def peek (q : SendQueue) : Option QPacket :=
  match q.queue with
  | [] => none
  | p :: _ => if p.timestamp = none then none else some p

/-- send_queue.rs 63-79 -/
def pop (q : SendQueue) (now : Nat) : Res Unit (SendQueue × Option QPacket) :=
  match q.queue with
  | [] => .ok (q, none)
  | p :: ps =>
    match p.timestamp with
    | none => .ok (q, none)
    | some ts =>
      (q.total.decrease now p.payload.length (now - ts)).bind fun t =>
        .ok ({ queue := ps, total := t, lastEmitted := some now }, some p)

/-- send_queue.rs 89-109 -/
def snapshot (q : SendQueue) (now : Nat) : Res Unit (SendQueue × QueueSnapshot) :=
  (q.total.moveTimeForward now).bind fun t =>
    .ok ({ q with total := t },
      { createdAt := some now, byteSize := t.unsentSize, packetCount := t.unsentCount,
        totalQueueTimeOrigin := t.queueTime, lastEmitted := q.lastEmitted,
        firstUnsent := (q.queue.find? (fun p => p.timestamp ≠ none)).bind (·.timestamp),
        priority := if t.unsentCount > 0 then .media else .empty })

/-- send_queue.rs 111-115 -/
def clear (_ : SendQueue) : SendQueue := {}

end SendQueue

namespace QueueSnapshot

/-- `Option<Instant>::min` where `none` stands for `not_happening()`, the largest value. -/
def minInstant : Option Nat → Option Nat → Option Nat
  | none, b => b
  | a, none => a
  | some a, some b => some (min a b)

/-- `Option::max` (None is smallest), src/pacer/queue.rs 95 -/
def maxOpt : Option Nat → Option Nat → Option Nat
  | none, b => b
  | a, none => a
  | some a, some b => some (max a b)

/-- src/pacer/queue.rs 96-101 -/
def minFirst : Option Nat → Option Nat → Option Nat
  | none, none => none
  | none, some b => some b
  | some a, none => some a
  | some a, some b => some (min a b)

/-- src/pacer/queue.rs 90-103 -/
def merge (a b : QueueSnapshot) : QueueSnapshot :=
  { createdAt := minInstant a.createdAt b.createdAt
    byteSize := a.byteSize + b.byteSize
    packetCount := a.packetCount + b.packetCount
    totalQueueTimeOrigin := a.totalQueueTimeOrigin + b.totalQueueTimeOrigin
    lastEmitted := maxOpt a.lastEmitted b.lastEmitted
    firstUnsent := minFirst a.firstUnsent b.firstUnsent
    priority := if b.priority.rank < a.priority.rank then b.priority else a.priority }

/-- src/pacer/queue.rs 105-107; `not_happening()` is later than any `now` and the subtraction
saturates. -/
def totalQueueTime (s : QueueSnapshot) (now : Nat) : Nat :=
  s.totalQueueTimeOrigin + s.packetCount * (match s.createdAt with | some t => now - t | none => 0)

end QueueSnapshot
end Str0m
