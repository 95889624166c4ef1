import Verif.Base
import Mathlib.Data.Rat.Floor

/-!
The leaky bucket pacer: `pacer/leaky.rs`, `pacer/queue.rs`, `bwe/probe/cluster.rs`, and the arithmetic of `crates/proto/src/bandwidth.rs`.

Simplifications: a `Bitrate` is an exact non-negative rational where the code has an `f64` (so float rounding is not modelled, and
infinities and NaN do not occur); instants and durations are numbers of nanoseconds; `already_happened()` is 0 and
`not_happening()` is a constant beyond all times of interest; `i64` overflow of byte counts is not modelled. A `MidRid` is a number.
-/

namespace Str0m.Pacer

/-- bandwidth.rs 11 -/
abbrev Bitrate := ℚ

def SEC : Nat := 1000000000
def MS : Nat := 1000000

/-- bandwidth.rs 96-105 `Bitrate * Duration`; `round` of a number that is not negative -/
def mulDur (r : Bitrate) (d : Nat) : Int := ⌊r * ((d : ℚ) / SEC) / 8 + 1 / 2⌋

/-- bandwidth.rs 238-253 `DataSize / Bitrate`; `Duration::from_secs_f64` rounds to nanoseconds -/
def divRate (x : Int) (r : Bitrate) : Nat := if r = 0 then 0 else (⌊(x : ℚ) * 8 / r * SEC + 1 / 2⌋).toNat

/-- bandwidth.rs 221-236 `DataSize / Duration` -/
def divDur (x : Int) (d : Nat) : Bitrate := if d = 0 then 0 else (x : ℚ) * 8 / ((d : ℚ) / SEC)

/-- bandwidth.rs 199-201 -/
def satSub (a b : Int) : Int := max (a - b) 0

/-- leaky.rs 15 -/
def MAX_BITRATE : Bitrate := 10000000000
/-- leaky.rs 16 -/
def MAX_DEBT_IN_TIME : Nat := 500 * MS
/-- leaky.rs 17 -/
def PADDING_BURST_INTERVAL : Nat := 5 * MS
/-- leaky.rs 18 -/
def PACING : Nat := 40 * MS

/-- util: `already_happened()` -/
def alreadyHappened : Nat := 0
/-- util: `not_happening()` -/
def notHappening : Nat := 1000000000000000000000000000000

/-- leaky.rs: `PacerReason` -/
inductive Reason where
  | handle | immediate | firstEver | unpaced | paced | probe1 | probe2 | padding
deriving Repr, DecidableEq

/-- queue.rs 7-26 -/
structure Snapshot where
  createdAt : Nat
  byteSize : Nat
  packetCount : Nat
  totalQueueTimeOrigin : Nat
  lastEmitted : Option Nat
  firstUnsent : Option Nat
  priority : Nat
deriving Repr, DecidableEq

/-- queue.rs 72-77 -/
structure QueueState where
  midrid : Nat
  isUnpaced : Bool
  useForPadding : Bool
  snapshot : Snapshot
deriving Repr, DecidableEq

/-- queue.rs 105-107 -/
def Snapshot.totalQueueTime (s : Snapshot) (now : Nat) : Nat := s.totalQueueTimeOrigin + s.packetCount * (now - s.createdAt)

/-- queue.rs 81-86 -/
structure PaddingRequest where
  midrid : Nat
  amount : Nat
deriving Repr, DecidableEq

/-! ### bwe/probe/cluster.rs -/

/-- cluster.rs 12 -/
def MAX_PADDING_PACKET_SIZE : Int := 240

/-- cluster.rs 19-41 -/
structure ProbeConfig where
  cluster : Nat
  targetBitrate : Bitrate
  targetDuration : Nat
  minPacketCount : Nat
  minProbeDelta : Nat
deriving DecidableEq

/-- cluster.rs 134-155 -/
structure Probe where
  config : ProbeConfig
  bytesSent : Int
  packetsSent : Nat
  startedAt : Option Nat
  lastPacketAt : Option Nat
  lastPaddingAt : Nat
deriving DecidableEq

/-- cluster.rs 159-168 -/
def Probe.new (c : ProbeConfig) : Probe :=
  { config := c, bytesSent := 0, packetsSent := 0, startedAt := none, lastPacketAt := none, lastPaddingAt := alreadyHappened }

/-- cluster.rs 124-126 -/
def ProbeConfig.targetBytes (c : ProbeConfig) : Int := mulDur c.targetBitrate c.targetDuration

/-- cluster.rs 179-195 -/
def Probe.nextProbeTime (p : Probe) : Nat :=
  match p.startedAt with
  | none => alreadyHappened
  | some startedAt =>
    if p.config.targetBitrate = 0 then notHappening
    else max (startedAt + divRate p.bytesSent p.config.targetBitrate) (p.lastPaddingAt + p.config.minProbeDelta)

/-- cluster.rs 207-218 -/
def Probe.isComplete (p : Probe) : Bool :=
  p.startedAt.isSome && decide (p.bytesSent ≥ p.config.targetBytes) && decide (p.packetsSent ≥ p.config.minPacketCount)

/-- cluster.rs 223-227 -/
def Probe.shouldSendNow (p : Probe) (now : Nat) : Bool :=
  decide (now ≥ p.nextProbeTime) && decide (now ≥ p.lastPaddingAt + p.config.minProbeDelta)

/-- cluster.rs 244-292 -/
def Probe.nextPacket (p : Probe) (now : Nat) : Probe × Option Int :=
  let p := { p with startedAt := some (p.startedAt.getD now) }
  if now < p.lastPaddingAt + p.config.minProbeDelta then (p, none)
  else if now < p.nextProbeTime then (p, none)
  else if p.lastPaddingAt ≥ now then (p, none)
  else
    let recommended := max (mulDur p.config.targetBitrate p.config.minProbeDelta) MAX_PADDING_PACKET_SIZE
    let request := min (satSub p.config.targetBytes p.bytesSent) recommended
    ({ p with lastPaddingAt := now }, if request = 0 then none else some request)

/-- cluster.rs 301-312 -/
def Probe.recordPacket (p : Probe) (now : Nat) (size : Int) : Probe :=
  { p with startedAt := some (p.startedAt.getD now), bytesSent := p.bytesSent + size, packetsSent := p.packetsSent + 1, lastPacketAt := some now }

/-! ### leaky.rs -/

/-- leaky.rs 21-52 -/
structure Leaky where
  pacing : Bitrate
  adjusted : Bitrate
  padding : Bitrate
  lastHandle : Option Nat
  lastEmitted : Option Nat
  nextPollTime : Option (Nat × Reason)
  mediaDebt : Int
  paddingDebt : Int
  queueLimit : Nat
  queues : List QueueState
  nextPollQueue : Option Nat
  probes : List Probe
  completedProbe : Option Nat
  needsTimeout : Bool
  hasPaddingQueue : Bool
deriving DecidableEq

/-- leaky.rs 170-190 -/
def Leaky.new (initial : Bitrate) : Leaky :=
  { pacing := initial, adjusted := 0, padding := 0, lastHandle := none, lastEmitted := none, nextPollTime := none, mediaDebt := 0, paddingDebt := 0,
    queueLimit := 2 * SEC, queues := [], nextPollQueue := none, probes := [], completedProbe := none, needsTimeout := true, hasPaddingQueue := false }

/-- leaky.rs 55-65 -/
def Leaky.setPacingRate (l : Leaky) (r : Bitrate) : Leaky := { l with pacing := r }
def Leaky.setPaddingRate (l : Leaky) (r : Bitrate) : Leaky := { l with padding := r }

/-- leaky.rs 196-199 -/
def Leaky.startProbe (l : Leaky) (c : ProbeConfig) : Leaky := { l with probes := l.probes ++ [Probe.new c] }

/-- leaky.rs 67-76 (`Soonest`, util/mod.rs 20-35) -/
def Leaky.pollTimeout (l : Leaky) : Option Nat × Reason :=
  match l.lastHandle, l.nextPollTime with
  | some h, some (t, r) => if h + PACING < t then (some (h + PACING), .handle) else (some t, r)
  | some h, none => (some (h + PACING), .handle)
  | none, some (t, r) => (some t, r)
  | none, none => (none, .handle)

/-- leaky.rs 230-241 -/
def Leaky.elapsed (l : Leaky) (now : Nat) : Nat :=
  match l.lastHandle with
  | none => 0
  | some h => now - h

/-- leaky.rs 243-252 -/
def Leaky.clearDebt (l : Leaky) (elapsed : Nat) : Leaky :=
  { l with mediaDebt := satSub l.mediaDebt (mulDur l.adjusted elapsed), paddingDebt := satSub l.paddingDebt (mulDur l.padding elapsed) }

/-- leaky.rs 361-370 -/
def queueTotals (now : Nat) (qs : List QueueState) : Nat × Nat × Int :=
  qs.foldl (fun acc q => (acc.1 + q.snapshot.totalQueueTime now, acc.2.1 + q.snapshot.packetCount, acc.2.2 + (q.snapshot.byteSize : Int))) (0, 0, 0)

/-- leaky.rs 355-359: the rate before looking at the queues -/
def Leaky.baseRate (l : Leaky) : Bitrate :=
  match l.probes with
  | p :: _ => p.config.targetBitrate
  | [] => l.pacing

/-- leaky.rs 378-381 -/
def Leaky.minRate (l : Leaky) (now : Nat) : Bitrate :=
  divDur (queueTotals now l.queues).2.2 (max MS (l.queueLimit - (queueTotals now l.queues).1 / (queueTotals now l.queues).2.1))

/-- leaky.rs 353-386 -/
def Leaky.updateAdjusted (l : Leaky) (now : Nat) : Leaky :=
  if (queueTotals now l.queues).2.1 = 0 then { l with adjusted := l.baseRate }
  else if l.minRate now > l.baseRate then { l with adjusted := max 0 (min (l.minRate now) MAX_BITRATE) }
  else { l with adjusted := l.baseRate }

/-- `Iterator::min_by_key`: the first with the least key -/
def minByKey {α : Type} (lt : α → α → Bool) : List α → Option α
  | [] => none
  | x :: l => some (l.foldl (fun m y => if lt y m then y else m) x)

/-- `Iterator::max_by_key`: the last with the greatest key -/
def maxByKey {α : Type} (lt : α → α → Bool) : List α → Option α
  | [] => none
  | x :: l => some (l.foldl (fun m y => if lt y m then m else y) x)

/-- `Option<Instant>`: `None` is least -/
def optLt : Option Nat → Option Nat → Bool
  | none, some _ => true
  | some a, some b => decide (a < b)
  | _, none => false

/-- leaky.rs 287: the key `(priority, last_emitted)` -/
def queueLt (a b : QueueState) : Bool :=
  decide (a.snapshot.priority < b.snapshot.priority) ||
  (decide (a.snapshot.priority = b.snapshot.priority) && optLt a.snapshot.lastEmitted b.snapshot.lastEmitted)

/-- leaky.rs 267-272 -/
def firstUnpaced (qs : List QueueState) : Option (Nat × QueueState) :=
  minByKey (fun a b => decide (a.1 < b.1)) ((qs.filter (·.isUnpaced)).filterMap (fun q => q.snapshot.firstUnsent.map (fun t => (t, q))))

/-- leaky.rs 279-288 -/
def firstNonEmpty (qs : List QueueState) : Option QueueState :=
  minByKey queueLt (qs.filter (fun q => decide (q.snapshot.packetCount > 0)))

/-- leaky.rs 298-305 -/
def Leaky.sendOffset (l : Leaky) : Nat :=
  if divRate l.mediaDebt l.adjusted > PACING then divRate l.mediaDebt l.adjusted else 0

/-- leaky.rs 319-350 -/
def Leaky.nextPadding (l : Leaky) (now : Nat) : Option ((Nat × Reason) × Option QueueState) :=
  if l.padding > 0 ∧ l.queues.any (·.useForPadding) = true then
    match l.probes with
    | p :: _ => some ((p.nextProbeTime, .probe2), none)
    | [] =>
      some ((match l.lastHandle with
        | some h => h + (if max (divRate l.mediaDebt l.adjusted) (divRate l.paddingDebt l.padding) = 0 then 1000
            else max (divRate l.mediaDebt l.adjusted) (divRate l.paddingDebt l.padding))
        | none => now, .padding), none)
  else none

/-- leaky.rs 254-351 -/
def Leaky.nextPoll (l : Leaky) (now : Nat) : Option ((Nat × Reason) × Option QueueState) :=
  if l.lastEmitted.isNone then
    ((l.queues.filter (fun q => decide (q.snapshot.packetCount > 0))).head?).map (fun q => ((now, .firstEver), some q))
  else
    match firstUnpaced l.queues with
    | some (t, q) => some ((t, .unpaced), some q)
    | none =>
      match firstNonEmpty l.queues with
      | some q =>
        if l.adjusted > 0 then
          some (match l.probes with
            | p :: _ => (p.nextProbeTime, .probe1)
            | [] => (match l.lastHandle with
                | some h => h + l.sendOffset
                | none => now, .paced), some q)
        else l.nextPadding now
      | none => l.nextPadding now

/-- leaky.rs 400-466 -/
def Leaky.paddingRequest (l : Leaky) (now : Nat) : Leaky × Option PaddingRequest :=
  if l.queues.all (fun q => decide (q.snapshot.packetCount = 0)) = false then (l, none)
  else
    match maxByKey (fun a b : QueueState => optLt a.snapshot.lastEmitted b.snapshot.lastEmitted) (l.queues.filter (·.useForPadding)) with
    | none => ({ l with hasPaddingQueue := false, probes := [] }, none)
    | some q =>
      match l.probes with
      | p :: rest =>
        if p.shouldSendNow now = false then ({ l with hasPaddingQueue := true }, none)
        else
          ({ l with hasPaddingQueue := true, probes := (p.nextPacket now).1 :: rest },
            (p.nextPacket now).2.map (fun n => { midrid := q.midrid, amount := n.toNat }))
      | [] =>
        if l.mediaDebt ≠ 0 ∨ l.paddingDebt ≠ 0 then ({ l with hasPaddingQueue := true }, none)
        else if l.padding = 0 then ({ l with hasPaddingQueue := true }, none)
        else ({ l with hasPaddingQueue := true },
          some { midrid := q.midrid, amount := (mulDur l.padding PADDING_BURST_INTERVAL).toNat })

/-- leaky.rs 84-98: up to the padding request -/
def Leaky.begin (l : Leaky) (now : Nat) (qs : List QueueState) : Leaky :=
  Leaky.updateAdjusted (Leaky.clearDebt { l with needsTimeout := false, nextPollTime := none, queues := qs, lastHandle := some now } (l.elapsed now)) now

/-- leaky.rs 105-121 -/
def Leaky.finish (l : Leaky) (now : Nat) : Leaky :=
  if l.nextPollQueue.isSome then l
  else
    match l.nextPoll now with
    | none => l
    | some ((t, r), q) =>
      { l with nextPollQueue := if now < t then none else q.map (·.midrid), nextPollTime := some (t, r) }

/-- leaky.rs 78-122 -/
def Leaky.handleTimeout (l : Leaky) (now : Nat) (qs : List QueueState) : Leaky × Option PaddingRequest :=
  match Leaky.paddingRequest (l.begin now qs) now with
  | (l', some req) => ({ l' with nextPollQueue := some req.midrid }, some req)
  | (l', none) => (l'.finish now, none)

/-- leaky.rs 468-481 -/
def Leaky.immediate (l : Leaky) : Option (Nat × Reason) := l.lastHandle.map (fun t => (t + 1000, .immediate))

/-- leaky.rs 124-140 -/
def Leaky.pollQueue (l : Leaky) : Leaky × Option (Nat × Option Nat) :=
  if l.needsTimeout then (l, none)
  else
    match l.nextPollQueue with
    | none => (l, none)
    | some next =>
      ({ l with nextPollQueue := none, needsTimeout := true, nextPollTime := l.immediate }, some (next, l.probes.head?.map (·.config.cluster)))

/-- leaky.rs 218-228 -/
def Leaky.checkInternal (l : Leaky) : Leaky × Option Nat :=
  match l.probes with
  | [] => (l, none)
  | p :: rest => if p.isComplete then ({ l with probes := rest }, some p.config.cluster) else (l, none)

/-- leaky.rs 207-215 -/
def Leaky.checkComplete (l : Leaky) : Leaky × Option Nat :=
  match l.completedProbe with
  | some c => ({ l with completedProbe := none }, some c)
  | none => l.checkInternal

/-- leaky.rs 142-157, the part before the check for completeness -/
def Leaky.register (l : Leaky) (now : Nat) (size : Int) : Leaky :=
  { l with
    lastEmitted := some now
    mediaDebt := min (l.mediaDebt + size) (mulDur l.adjusted MAX_DEBT_IN_TIME)
    paddingDebt := min (l.paddingDebt + size) (mulDur l.padding MAX_DEBT_IN_TIME)
    probes := match l.probes with
      | [] => []
      | p :: rest => p.recordPacket now size :: rest }

/-- leaky.rs 142-162 -/
def Leaky.registerSend (l : Leaky) (now : Nat) (size : Int) : Leaky :=
  match Leaky.checkInternal (l.register now size) with
  | (l', some c) => { l' with completedProbe := some c }
  | (l', none) => l'

end Str0m.Pacer
