import Verif.Base
import Verif.Model.Pacer

/-!
The bandwidth estimator of the sender: `bwe/mod.rs`, `bwe/probe/control.rs`, `bwe/probe/estimator.rs`, `bwe/smoother.rs`,
`bwe/link_capacity_estimator.rs`, `bwe/delay/control.rs`, `bwe/delay/rate_control.rs`, and the part of `session.rs` (348-372) that
drives it.

Simplifications, on top of those of `Model/Pacer.lean` (exact finite rationals for `f64`, nanoseconds for instants):
* what the trendline filter, the acknowledged-bitrate estimator, the loss controller, the ALR detector and the moving averages
  would answer is given with each call as an `Oracle`; every theorem holds for whatever they answer;
* a packet of the TWCC history is the four fields that are read here.
-/

namespace Str0m.BwEst
open Str0m.Pacer (Bitrate SEC MS mulDur divDur satSub alreadyHappened notHappening)

/-! ### Probe clusters -/

/-- probe/cluster.rs 44-53 `ProbeKind` -/
inductive Kind where
  | initial | exponential | increaseAlr | periodicAlr | largeDrop | stagnant
deriving Repr, DecidableEq

/-- probe/cluster.rs 55-59 `is_alr` -/
def Kind.isAlr : Kind → Bool
  | .periodicAlr | .increaseAlr => true
  | _ => false

/-- probe/cluster.rs 19-41 `ProbeClusterConfig` -/
structure Cluster where
  id : Nat
  target : Bitrate
  duration : Nat
  minPackets : Nat
  minDelta : Nat
  kind : Kind
deriving Repr, DecidableEq

/-- probe/cluster.rs 124-126 `target_bytes` -/
def Cluster.targetBytes (c : Cluster) : Int := mulDur c.target c.duration

/-! ### ProbeControl -/

/-- probe/control.rs 48-53 -/
inductive Cause where
  | lossIncreasing | lossLimited | delayLimited | delayIncreased
deriving Repr, DecidableEq

/-- probe/control.rs 87-92 -/
structure LastProbe where
  «when» : Nat
  kind : Kind
  further : Bitrate
  wasEstimate : Option Bitrate
deriving Repr, DecidableEq

/-- probe/control.rs 94-97 -/
structure LargeDrop where
  «when» : Nat
  before : Bitrate
deriving Repr, DecidableEq

/-- probe/control.rs 55-84 `ProbeControl`; the constant `config` is inlined where it is read -/
structure Control where
  next : Nat := notHappening
  enabled : Bool := false
  desired : Option Bitrate := none
  prevDesired : Option Bitrate := none
  lastEstimate : Option Bitrate := none
  lastEstimateChange : Option Nat := none
  lastCause : Cause := .delayLimited
  prevEstimate : Option Bitrate := none
  alrStart : Option Nat := none
  alrStop : Option Nat := none
  lastProbe : Option LastProbe := none
  largeDrop : Option LargeDrop := none
  lastStagnant : Option Nat := none
  nextId : Nat := 0
  pending : List Cluster := []
  schedExponential : Option Nat := none
  schedPeriodic : Option Nat := none
  schedStagnant : Option Nat := none
deriving Repr, DecidableEq

/-- control.rs 22 -/
def MAX_WAIT : Nat := 1 * SEC
/-- control.rs 27 -/
def DROP_TIMEOUT : Nat := 5 * SEC
/-- control.rs 30 -/
def ALR_ENDED : Nat := 3 * SEC
/-- control.rs 31 -/
def MIN_ALR : Nat := 5 * SEC
/-- control.rs 38 -/
def MIN_STAGNANT : Nat := 15 * SEC

/-- control.rs 199-204 `request_immediate` -/
def Control.requestImmediate (c : Control) : Control :=
  { c with next := alreadyHappened, schedExponential := none, schedPeriodic := none, schedStagnant := none }

/-- control.rs 130-148 `enable` -/
def Control.enable (c : Control) (v : Bool) : Control :=
  if !c.enabled && v then ({ c with enabled := true } : Control).requestImmediate
  else if c.enabled && !v then
    { c with
      enabled := false
      pending := []
      lastEstimate := none
      desired := none
      lastEstimateChange := none
      lastStagnant := none
      lastProbe := none
      prevEstimate := none
      schedExponential := none
      schedPeriodic := none
      schedStagnant := none
      next := notHappening }
  else c

/-- control.rs 150-157 `set_desired_bitrate` -/
def Control.setDesired (c : Control) (v : Bitrate) : Control :=
  if c.desired = none ∧ v = 0 then c else ({ c with desired := some v } : Control).requestImmediate

/-- control.rs 166-170: within five percent of the last estimate -/
def Control.dominated (c : Control) (v : Bitrate) : Bool :=
  match c.lastEstimate with
  | none => false
  | some last => decide (v ≤ last * (1 + 5 / 100)) && decide (v ≥ last * (1 - 5 / 100))

/-- control.rs 159-179 `set_estimated_bitrate` -/
def Control.setEstimated (c : Control) (v : Bitrate) (cause : Cause) : Control :=
  if c.lastEstimate = none ∧ v = 0 then c
  else if c.dominated v = true ∧ c.lastCause = cause then c
  else ({ c with lastEstimate := some v, lastCause := cause } : Control).requestImmediate

/-- control.rs 181-188 `set_alr_start_time` -/
def Control.setAlrStart (c : Control) (t : Nat) : Control :=
  if c.alrStart.isSome then c else ({ c with alrStart := some t, alrStop := none } : Control).requestImmediate

/-- control.rs 190-197 `set_alr_stop_time` -/
def Control.setAlrStop (c : Control) (t : Nat) : Control :=
  if c.alrStart = none ∨ c.alrStop.isSome then c
  else ({ c with alrStart := none, alrStop := some t } : Control).requestImmediate

/-- control.rs 604-606 `in_alr` -/
def Control.inAlr (c : Control) : Bool := c.alrStart.isSome && c.alrStop.isNone

/-- control.rs 608-612 `alr_ended_recently` -/
def Control.alrEndedRecently (c : Control) (now : Nat) : Bool :=
  match c.alrStop with
  | some stop => decide (now - stop < ALR_ENDED)
  | none => false

/-- control.rs 626-630 `time_since_last_probe(now) < d`; with no probe yet the time is `Duration::MAX` -/
def Control.probedWithin (c : Control) (now d : Nat) : Bool :=
  match c.lastProbe with
  | some p => decide (now - p.when < d)
  | none => false

/-- control.rs 614-620 `is_during_initial` -/
def Control.duringInitial (c : Control) (now : Nat) : Bool :=
  match c.lastProbe with
  | some p => (p.kind == .initial || p.kind == .exponential) && decide (now - p.when ≤ MAX_WAIT)
  | none => false

/-- control.rs 589-602 `can_probe`; an estimate of the model is never infinite -/
def Control.canProbe (c : Control) : Bool :=
  match c.lastCause with
  | .lossIncreasing | .delayLimited => true
  | _ => false

/-- control.rs 682-689 `probe_scale` -/
def Cause.probeScale : Cause → ℚ
  | .lossIncreasing => 15 / 10 * (1 + 5 / 100)
  | _ => 2

/-- control.rs 529-556 `queue_probe`; the id is a `u64` that wraps (rtp/id.rs 338-342) -/
def Control.queueProbe (c : Control) (rate : Bitrate) (kind : Kind) (desired : Bitrate) (now : Nat) : Control :=
  let rate := min rate (desired * 2)
  if rate < 5000 then c
  else
    { c with
      nextId := (c.nextId + 1) % 2 ^ 64
      pending := c.pending ++ [⟨c.nextId, rate, 15 * MS, 5, 2 * MS, kind⟩]
      lastProbe := some ⟨now, kind, rate * (7 / 10), c.lastEstimate⟩ }

/-- control.rs 278-291 `maybe_initial` -/
def Control.maybeInitial (c : Control) (now : Nat) (desired estimate : Bitrate) : Control × Bool :=
  if c.lastProbe.isSome then (c, false)
  else
    let c := c.queueProbe (estimate * 3) .initial desired now
    let c := c.queueProbe (estimate * 6) .initial desired now
    (c, true)

/-- control.rs 293-329 `maybe_exponential` -/
def Control.maybeExponential (c : Control) (now : Nat) (desired estimate : Bitrate) : Control × Bool :=
  if !c.pending.isEmpty then (c, false)
  else
    match c.lastProbe with
    | none => (c, false)
    | some last =>
      if estimate < last.further then (c, false)
      else if some estimate = last.wasEstimate ∧ c.probedWithin now MAX_WAIT = true then (c, false)
      else
        let target := estimate * c.lastCause.probeScale
        let max := desired * 2
        if target ≥ max ∧ last.further ≥ max * (7 / 10) then (c, false)
        else (c.queueProbe target .exponential desired now, true)

/-- control.rs 331-372 `maybe_increase_alr` -/
def Control.maybeIncreaseAlr (c : Control) (now : Nat) (desired estimate : Bitrate) : Control × Bool :=
  if c.duringInitial now then (c, false)
  else if !c.inAlr then (c, false)
  else
    let prev := c.prevDesired
    let c := { c with prevDesired := some desired }
    match prev with
    | none => (c, false)
    | some prev =>
      if desired ≤ prev then (c, false)
      else if desired ≤ estimate then (c, false)
      else
        let limit := estimate * 2
        let p1 := min (desired * 1) limit
        let c := c.queueProbe p1 .increaseAlr desired now
        let p2 := desired * 2
        let c := if p2 ≤ limit ∧ p2 > p1 then c.queueProbe p2 .increaseAlr desired now else c
        (c, true)

/-- control.rs 374-396 `maybe_periodic_alr` -/
def Control.maybePeriodicAlr (c : Control) (now : Nat) (desired : Bitrate) : Control × Bool :=
  if c.duringInitial now then (c, false)
  else if !c.inAlr then (c, false)
  else if c.probedWithin now MIN_ALR then (c, false)
  else (c.queueProbe (desired * 2) .periodicAlr desired now, true)

/-- control.rs 468-472 -/
def Control.stagnatedWithin (c : Control) (now : Nat) : Bool :=
  match c.lastStagnant with
  | some t => decide (now - t < MIN_STAGNANT)
  | none => false

/-- control.rs 443-480 `maybe_stagnant` -/
def Control.maybeStagnant (c : Control) (now : Nat) (desired estimate : Bitrate) : Control × Bool :=
  if c.duringInitial now then (c, false)
  else if c.inAlr then (c, false)
  else
    match c.lastEstimateChange with
    | none => (c, false)
    | some change =>
      if now - change < MIN_STAGNANT then (c, false)
      else if desired ≤ estimate then (c, false)
      else if c.stagnatedWithin now then (c, false)
      else
        let c := c.queueProbe (estimate * 2) .stagnant desired now
        ({ c with lastStagnant := some now }, true)

/-- control.rs 489-498: notice a large drop -/
def Control.noticeDrop (c : Control) (now : Nat) (estimate : Bitrate) : Control :=
  match c.largeDrop, c.prevEstimate with
  | none, some prev => if estimate < prev * (66 / 100) then { c with largeDrop := some ⟨now, prev⟩ } else c
  | _, _ => c

/-- control.rs 482-527 `maybe_large_drop` -/
def Control.maybeLargeDrop (c : Control) (now : Nat) (desired estimate : Bitrate) : Control × Bool :=
  if c.duringInitial now then (c, false)
  else
    let c := c.noticeDrop now estimate
    match c.largeDrop with
    | none => (c, false)
    | some drop =>
      if now - drop.when > DROP_TIMEOUT then ({ c with largeDrop := none }, false)
      else if !c.inAlr && !c.alrEndedRecently now then (c, false)
      else if c.probedWithin now MIN_ALR then (c, false)
      else
        let c := c.queueProbe (drop.before * (85 / 100)) .largeDrop desired now
        ({ c with largeDrop := none }, true)

/-- control.rs 264-276 `update_estimate_change` -/
def Control.updateEstimateChange (c : Control) (now : Nat) (estimate : Bitrate) : Control :=
  let c := match c.prevEstimate with
    | some prev => if estimate ≠ prev then { c with lastEstimateChange := some now } else c
    | none => c
  if c.lastEstimateChange = none then { c with lastEstimateChange := some now } else c

/-- control.rs 561-562: the last probe was an initial or an exponential one -/
def Control.lastIsEarly (c : Control) : Bool :=
  match c.lastProbe with
  | some p => p.kind == .initial || p.kind == .exponential
  | none => false

/-- control.rs 558-587 `compute_next_timeout`, with the new schedules -/
def Control.computeNext (c : Control) (now : Nat) : Control × Nat :=
  if c.lastIsEarly then
    let t := c.schedExponential.getD (now + MAX_WAIT)
    ({ c with schedExponential := some t }, t)
  else if c.inAlr then
    let t := c.schedPeriodic.getD (now + MIN_ALR)
    ({ c with schedPeriodic := some t }, t)
  else
    let t := c.schedStagnant.getD (now + MIN_STAGNANT)
    ({ c with schedStagnant := some t }, t)

/-- `a || b` of two attempts, control.rs 242-247 -/
def orElse (x : Control × Bool) (f : Control → Control × Bool) : Control × Bool := if x.2 then x else f x.1

/-- control.rs 241-247: try each kind of probe in order -/
def Control.decide (c : Control) (now : Nat) (desired estimate : Bitrate) : Control :=
  (orElse (orElse (orElse (orElse (orElse (c.maybeInitial now desired estimate)
    (·.maybeExponential now desired estimate)) (·.maybeIncreaseAlr now desired estimate)) (·.maybeLargeDrop now desired estimate))
    (·.maybePeriodicAlr now desired)) (·.maybeStagnant now desired estimate)).1

/-- `VecDeque::pop_front` of the pending probes -/
def Control.pop (c : Control) : Control × Option Cluster :=
  match c.pending with
  | [] => (c, none)
  | p :: ps => ({ c with pending := ps }, some p)

/-- control.rs 236-262: the part of `handle_timeout` reached when nothing is pending -/
def Control.consider (c : Control) (now : Nat) (desired estimate : Bitrate) : Control × Option Cluster :=
  if !c.canProbe then (c, none)
  else
    let c := c.decide now desired estimate
    let c := c.updateEstimateChange now estimate
    let c := { c with prevEstimate := some estimate }
    let ct := c.computeNext now
    let c := { ct.1 with next := ct.2 }
    let c := if !c.pending.isEmpty then c.requestImmediate else c
    c.pop

/-- control.rs 210-262 `handle_timeout` -/
def Control.handleTimeout (c : Control) (now : Nat) : Control × Option Cluster :=
  if now < c.next then (c, none)
  else
    let c := { c with next := notHappening }
    if !c.enabled then (c, none)
    else
      match c.desired, c.lastEstimate with
      | some desired, some estimate =>
        match c.pending with
        | p :: ps => (({ c with pending := ps } : Control).requestImmediate, some p)
        | [] => c.consider now desired estimate
      | _, _ => (c, none)

/-! ### ProbeEstimator -/

/-- rtp/rtcp/twcc.rs `TwccSendRecord`: cluster, size, local send time, and the remote receive time of a packet that arrived -/
structure Rec where
  cluster : Option Nat
  size : Nat
  sent : Nat
  recv : Option Nat
deriving Repr, DecidableEq

/-- probe/estimator.rs 59-87 `ProbeEstimatorState` -/
structure EState where
  config : Cluster
  createdAt : Nat
  finalizeAt : Nat := notHappening
  firstSend : Option Nat := none
  lastSend : Option Nat := none
  sizeLastSend : Int := 0
  firstRecv : Option Nat := none
  lastRecv : Option Nat := none
  sizeFirstRecv : Int := 0
  total : Int := 0
  count : Nat := 0
deriving Repr, DecidableEq

/-- estimator.rs 251-284 `update`, for a packet with a receive time -/
def EState.update (s : EState) (size : Nat) (sent recv : Nat) : EState :=
  let lastSend := s.lastSend.getD sent
  let firstRecv := s.firstRecv.getD recv
  { s with
    firstSend := some (min (s.firstSend.getD sent) sent)
    lastSend := some (if sent ≥ lastSend then sent else lastSend)
    sizeLastSend := if sent ≥ lastSend then size else s.sizeLastSend
    firstRecv := some (if recv ≤ firstRecv then recv else firstRecv)
    sizeFirstRecv := if recv ≤ firstRecv then size else s.sizeFirstRecv
    lastRecv := some (max (s.lastRecv.getD recv) recv)
    total := s.total + size
    count := s.count + 1 }

/-- estimator.rs 301-396 `do_calculate_bitrate`; the reasons of a refusal are not told apart. `as usize` truncates -/
def EState.calculate (s : EState) : Option Bitrate :=
  if s.count < 4 then none
  else if s.count < (⌊((s.config.minPackets : ℚ) * (8 / 10))⌋).toNat then none
  else if s.total < ⌊((s.config.targetBytes : ℚ) * (8 / 10))⌋ then none
  else
    match s.firstSend, s.lastSend, s.firstRecv, s.lastRecv with
    | some fs, some ls, some fr, some lr =>
      let sendInterval := ls - fs
      let recvInterval := lr - fr
      if sendInterval = 0 then none
      else if sendInterval > SEC then none
      else if recvInterval = 0 ∨ recvInterval > SEC then none
      else
        let sendSize := satSub s.total s.sizeLastSend
        let recvSize := satSub s.total s.sizeFirstRecv
        if sendSize ≤ 0 ∨ recvSize ≤ 0 then none
        else
          let recvRate := divDur recvSize recvInterval
          let sendRate := divDur sendSize sendInterval
          if recvRate / sendRate > 2 then none
          else if recvRate < sendRate * (9 / 10) then some (recvRate * (95 / 100))
          else some (min sendRate recvRate)
    | _, _, _, _ => none

/-- estimator.rs 50-56 `ProbeEstimator` -/
structure Estimator where
  states : List EState := []
  didUpdate : List Nat := []
deriving Repr, DecidableEq

/-- estimator.rs 102-135 `probe_start` -/
def Estimator.start (e : Estimator) (c : Cluster) (now : Nat) : Estimator × Bool :=
  if e.states.length ≥ 20 then
    let kept := e.states.filter (fun s => decide (now - s.createdAt < 5 * SEC))
    if kept.length ≥ 20 then ({ e with states := kept }, false)
    else ({ e with states := kept ++ [{ config := c, createdAt := now }] }, true)
  else ({ e with states := e.states ++ [{ config := c, createdAt := now }] }, true)

/-- estimator.rs: change the first state of the cluster -/
def updateFirst (id : Nat) (f : EState → EState) : List EState → List EState
  | [] => []
  | s :: ss => if s.config.id = id then f s :: ss else s :: updateFirst id f ss

/-- estimator.rs 148-172: one record -/
def Estimator.one (e : Estimator) (r : Rec) : Estimator :=
  match r.cluster with
  | none => e
  | some id =>
    match e.states.find? (fun s => s.config.id == id) with
    | none => e
    | some _ =>
      match r.recv with
      | none => e
      | some recv =>
        { states := updateFirst id (fun s => s.update r.size r.sent recv) e.states
          didUpdate := e.didUpdate.filter (fun x => x != id) ++ [id] }

/-- estimator.rs 141-178 `update` -/
def Estimator.update (e : Estimator) (rs : List Rec) : Estimator × List (Cluster × Bitrate) :=
  let e := rs.foldl Estimator.one { e with didUpdate := [] }
  (e, e.didUpdate.filterMap (fun id =>
    (e.states.find? (fun s => s.config.id == id)).bind (fun s => s.calculate.map (fun b => (s.config, b)))))

/-- estimator.rs 185-196, 398-400 `end_probe` -/
def Estimator.finish (e : Estimator) (now : Nat) (id : Nat) : Estimator :=
  { e with states := updateFirst id (fun s => { s with finalizeAt := now + SEC }) e.states }

/-- estimator.rs 198-204 `poll_timeout` -/
def Estimator.pollTimeout (e : Estimator) : Nat := (e.states.map (·.finalizeAt)).foldl min notHappening

/-- estimator.rs 207-224 `handle_timeout` -/
def Estimator.handleTimeout (e : Estimator) (now : Nat) : Estimator :=
  { e with states := e.states.filter (fun s => decide (now < s.finalizeAt)) }

/-- estimator.rs 229-231 `clear_probes` -/
def Estimator.clear (e : Estimator) : Estimator := { e with states := [] }

/-! ### EstimateSmoother and LinkCapacityEstimator -/

/-- smoother.rs 14-18 -/
structure Smoother where
  estimates : List (Nat × Bitrate) := []
  maybeEmit : Bool := false
  emitted : Option Bitrate := none
deriving Repr, DecidableEq

/-- smoother.rs 40-52: forget the entries that are too old, but keep the last -/
def trim (now : Nat) : List (Nat × Bitrate) → List (Nat × Bitrate)
  | [] => []
  | [x] => [x]
  | x :: y :: rest => if now - x.1 > 3 * SEC then trim now (y :: rest) else x :: y :: rest

/-- smoother.rs 30-53 `record` -/
def Smoother.record (s : Smoother) (now : Nat) (estimate : Bitrate) : Smoother :=
  let changed : Bool := s.estimates.getLast?.map (·.2) != some estimate
  let pushed := if changed then s.estimates ++ [(now, estimate)] else s.estimates
  let kept := trim now pushed
  { s with estimates := kept, maybeEmit := s.maybeEmit || changed || decide (kept.length < pushed.length) }

/-- smoother.rs 92-96 `in_tolerance` -/
def inTolerance (b1 b2 : Bitrate) : Bool := decide (b2 > b1 * (1 - 5 / 100)) && decide (b2 < b1 * (1 + 5 / 100))

/-- smoother.rs 65-67: the average -/
def average (l : List (Nat × Bitrate)) : Bitrate := (l.map (·.2)).sum / l.length

/-- smoother.rs 72-76: far from what was told last -/
def Smoother.deviates (s : Smoother) (rate : Bitrate) : Bool :=
  match s.emitted with
  | some e => !inTolerance e rate
  | none => true

/-- smoother.rs 56-89 `poll` -/
def Smoother.poll (s : Smoother) : Smoother × Option Bitrate :=
  if !s.maybeEmit then (s, none)
  else if s.estimates.isEmpty then (s, none)
  else
    let rate := average s.estimates
    let force : Bool := s.estimates.length == 1 && s.emitted != some rate
    if !force && !s.deviates rate then ({ s with maybeEmit := false }, none)
    else ({ s with maybeEmit := false, emitted := some rate }, some rate)

/-- link_capacity_estimator.rs 19-25 -/
structure LinkCapacity where
  estimate : Option Bitrate := none
  time : Option Nat := none
deriving Repr, DecidableEq

/-- link_capacity_estimator.rs 40-58 -/
def LinkCapacity.update (l : LinkCapacity) (probe : Bitrate) (now : Nat) : LinkCapacity :=
  { estimate := some (max (l.estimate.getD probe) probe), time := some now }

/-- link_capacity_estimator.rs 61-72 -/
def LinkCapacity.get (l : LinkCapacity) (now : Nat) : Option Bitrate :=
  match l.estimate, l.time with
  | some e, some t => if now - t > 60 * SEC then none else some e
  | _, _ => none

/-! ### RateControl and DelayController -/

/-- mod.rs 472-476 `BandwidthUsage`, rate_control.rs 302-306 `Signal` -/
inductive Usage where
  | overuse | normal | underuse
deriving Repr, DecidableEq

/-- rate_control.rs 309-314 -/
inductive RcState where
  | increase | hold | decrease
deriving Repr, DecidableEq

/-- rate_control.rs 317-333 -/
def RcState.transition (s : RcState) : Usage → RcState
  | .overuse => .decrease
  | .underuse => .hold
  | .normal => match s with
    | .decrease => .hold
    | _ => .increase

/-- rate_control.rs 33-48; the moving average of the observed bitrate only decides how fast to grow, which is the oracle's `gain` -/
structure RateControl where
  state : RcState := .increase
  estimate : Bitrate
  min : Bitrate
  max : Bitrate
  lastUpdate : Option Nat := none
  lastRtt : Option Nat := none
deriving Repr, DecidableEq

/-- rate_control.rs 287-290 `update_estimate` -/
def RateControl.updateEstimate (r : RateControl) (rate : Bitrate) (now : Nat) : RateControl :=
  { r with estimate := if rate < r.min then r.min else if rate > r.max then r.max else rate, lastUpdate := some now }

/-- rate_control.rs 134-156 `time_to_reduce_further` -/
def RateControl.timeToReduce (r : RateControl) (now : Nat) (observed : Bitrate) : Bool :=
  match r.lastUpdate with
  | none => true
  | some t =>
    let rtt := r.lastRtt.getD (100 * MS)
    let interval := Nat.min (Nat.max rtt (10 * MS)) (200 * MS)
    decide (now - t ≥ interval) || decide (observed < r.estimate * (1 / 2))

/-- rate_control.rs 187-246 `increase`; `gain` is the additive or multiplicative growth (231, 236) before its lower bound -/
def RateControl.increase (r : RateControl) (observed : Bitrate) (gain : ℚ) (now : Nat) : RateControl :=
  let limit := observed * (3 / 2) + 10000
  if r.estimate ≥ limit then { r with lastUpdate := some now }
  else
    let new := r.estimate + Max.max gain 1000
    let most := observed * (3 / 2)
    r.updateEstimate (Min.min (Min.min most new) limit) now

/-- rate_control.rs 248-270 `decrease` -/
def RateControl.decrease (r : RateControl) (observed : Bitrate) (now : Nat) : RateControl :=
  let new := observed * (85 / 100)
  let new := if r.estimate < new then r.estimate else new
  ({ r with state := .hold } : RateControl).updateEstimate new now

/-- rate_control.rs 69-111 `update` -/
def RateControl.update (r : RateControl) (signal : Usage) (observed : Bitrate) (rtt : Option Nat) (gain : ℚ) (now : Nat) :
    RateControl :=
  let r := match rtt with
    | some t => { r with lastRtt := some t }
    | none => r
  let r := { r with state := r.state.transition signal }
  match r.state with
  | .increase => r.increase observed gain now
  | .decrease => if r.timeToReduce now observed then r.decrease observed now else r
  | .hold => r

/-- mod.rs 287-300: what the components that are not modelled would answer during one call -/
structure Oracle where
  /-- trendline.rs `hypothesis()` -/
  usage : Usage
  /-- acked_bitrate_estimator.rs `current_estimate()` -/
  acked : Option Bitrate
  /-- delay/control.rs 163-179 `get_smoothed_rtt()` -/
  rtt : Option Nat
  /-- rate_control.rs 228-238 -/
  gain : ℚ
  /-- loss_controller.rs 406-433 `loss_based_result().state`: none for `DelayBased`, true for `Increasing` -/
  lossState : Option Bool
  /-- loss_controller.rs 406-433 `loss_based_result().bandwidth_estimate` -/
  loss : Option Bitrate
  /-- alr_detector `alr_start_time()` -/
  alr : Option Nat
deriving Repr, DecidableEq

/-- delay/control.rs 24-40 -/
structure Delay where
  rc : RateControl
  last : Option Bitrate
  next : Nat := alreadyHappened
  lastReport : Nat := alreadyHappened
deriving Repr, DecidableEq

/-- delay/control.rs 43-54 -/
def Delay.new (initial : Bitrate) : Delay :=
  { rc := { estimate := initial, min := 40000, max := 10000000000 }, last := some initial }

/-- delay/control.rs 181-215 `update_estimate` -/
def Delay.updateEstimate (d : Delay) (o : Oracle) (probe : Option Bitrate) (now : Nat) : Delay :=
  let d := match probe, o.acked with
    | some p, _ =>
      let rc := d.rc.updateEstimate p now
      { d with rc := rc, last := some rc.estimate }
    | none, some observed =>
      let rc := d.rc.update o.usage observed o.rtt o.gain now
      { d with rc := rc, last := some rc.estimate }
    | none, none => d
  { d with next := now + 25 * MS }

/-- delay/control.rs 57-106 `update` -/
def Delay.update (d : Delay) (o : Oracle) (probe : Option Bitrate) (now : Nat) : Delay :=
  { d.updateEstimate o probe now with lastReport := now }

/-- delay/control.rs 218-225 `trendline_hypothesis_valid` -/
def Delay.valid (d : Delay) (o : Oracle) (now : Nat) : Bool :=
  decide (now - d.lastReport ≤ Nat.min ((o.rtt.map (· * 2)).getD (500 * MS)) (50 * MS))

/-- delay/control.rs 112-135 `handle_timeout` -/
def Delay.handleTimeout (d : Delay) (o : Oracle) (now : Nat) : Delay :=
  if !d.valid o now then { d with next := now + Nat.min (o.rtt.getD (500 * MS)) (25 * MS) }
  else d.updateEstimate o none now

/-! ### The estimator as a whole -/

/-- mod.rs 56-60, 128-138 `Bwe` with its `SendSideBandwidthEstimator` -/
structure Bwe where
  desired : Bitrate := 0
  smoother : Smoother := {}
  delay : Delay
  control : Control := {}
  estimator : Estimator := {}
  startedAt : Option Nat := none
  link : LinkCapacity := {}
  lastUpdated : Option Bitrate := none
deriving Repr, DecidableEq

/-- mod.rs 63-70, 141-162 -/
def Bwe.new (initial : Bitrate) : Bwe := { delay := Delay.new initial }

/-- mod.rs 88-90, 404-406 `reset`: everything but the desired bitrate and the smoother -/
def Bwe.reset (b : Bwe) (initial : Bitrate) : Bwe :=
  { delay := Delay.new initial, desired := b.desired, smoother := b.smoother }

/-- mod.rs 363-384 `last_estimate` -/
def Bwe.lastEstimate (b : Bwe) (o : Oracle) : Option Bitrate :=
  match o.lossState with
  | none => b.delay.last
  | some _ =>
    match b.delay.last, o.loss with
    | some de, some le => some (min de le)
    | none, some le => some le
    | some de, none => some de
    | none, none => none

/-- mod.rs 350-360 `bandwidth_limited_cause` -/
def cause (o : Oracle) : Cause :=
  if o.usage = .overuse then .delayIncreased
  else match o.lossState with
    | none => .delayLimited
    | some true => .lossIncreasing
    | some false => .lossLimited

/-- mod.rs 331-348 `propagate_estimate`; the ALR detector is not modelled -/
def Bwe.propagate (b : Bwe) (o : Oracle) : Bwe :=
  match b.lastEstimate o with
  | none => b
  | some e =>
    if b.lastUpdated = some e then b
    else { b with control := b.control.setEstimated e (cause o), lastUpdated := some e }

/-- mod.rs 287-329 `SendSideBandwidthEstimator::handle_timeout`; what the loss controller is told is not modelled -/
def Bwe.sendSideTimeout (b : Bwe) (doProbe : Bool) (now : Nat) (o : Oracle) : Bwe × Option Cluster :=
  let b := { b with delay := b.delay.handleTimeout o now }
  let b := { b with control := b.control.setDesired b.desired }
  let b := { b with control := match o.alr with
    | some t => b.control.setAlrStart t
    | none => b.control.setAlrStop now }
  let b := { b with estimator := b.estimator.handleTimeout now }
  let b := b.propagate o
  let b := if !doProbe then { b with estimator := b.estimator.clear } else b
  let b := { b with control := b.control.enable doProbe }
  let r := b.control.handleTimeout now
  ({ b with control := r.1 }, r.2)

/-- mod.rs 72-78 `Bwe::handle_timeout` -/
def Bwe.handleTimeout (b : Bwe) (doProbe : Bool) (now : Nat) (o : Oracle) : Bwe × Option Cluster :=
  let r := b.sendSideTimeout doProbe now o
  let b := r.1
  (match b.lastEstimate o with
    | some e => { b with smoother := b.smoother.record now e }
    | none => b, r.2)

/-- mod.rs 444-448 `in_startup_phase` -/
def inStartup (startedAt : Option Nat) (now : Nat) : Bool :=
  match startedAt with
  | some s => decide (now - s ≤ 2 * SEC)
  | none => false

/-- mod.rs 202-213, 237-241: the share of the reported packets that were lost -/
def lossOf (rs : List Rec) : ℚ :=
  if rs.length = 0 then 0 else ((rs.filter (fun r => r.recv.isNone)).length : ℚ) / rs.length

/-- mod.rs 181-275 `update`; the calls that feed the loss controller (246, 252, 256, 260, 269) are the oracle's business -/
def Bwe.update (b : Bwe) (rs : List Rec) (now : Nat) (o : Oracle) : Bwe :=
  let b := { b with startedAt := some (b.startedAt.getD now) }
  let er := b.estimator.update rs
  let results := er.2
  let link := results.foldl (fun l x => if x.1.kind.isAlr then l.update x.2 now else l) b.link
  let b := { b with estimator := er.1, link := link }
  let b := { b with delay := b.delay.update o ((results.getLast?).map Prod.snd) now }
  match b.delay.last with
  | none => b
  | some _ =>
    if inStartup b.startedAt now = true ∧ lossOf rs ≤ 1 / 1000 then b
    else b.propagate o

/-- mod.rs 104-106, 277-284 `poll_timeout` -/
def Bwe.pollTimeout (b : Bwe) : Nat := min (min b.delay.next b.control.next) b.estimator.pollTimeout

/-! ### Histories -/

/-- What the session and the application do to the estimator -/
inductive Event where
  /-- session.rs 348-366: `handle_timeout_bwe`; `doProbe` is 355 -/
  | timeout (now : Nat) (doProbe : Bool) (o : Oracle)
  /-- session.rs 743-745: a TWCC report -/
  | report (rs : List Rec) (now : Nat) (o : Oracle)
  /-- session.rs 369-371: the pacer finished a cluster -/
  | completed (now : Nat) (id : Nat)
  /-- bwe/api.rs 39-41 -/
  | desired (v : Bitrate)
  /-- bwe/api.rs 54-56 -/
  | reset (initial : Bitrate)
  /-- session.rs 806: ask for an estimate to tell the application -/
  | poll
deriving Repr, DecidableEq

/-- What comes out of it -/
inductive Out where
  | quiet
  /-- the probe was given to the pacer -/
  | probe (c : Cluster)
  /-- the probe estimator had no room for it -/
  | refused (c : Cluster)
  /-- session.rs 806-808: the estimate told to the application -/
  | estimate (r : Bitrate)
deriving Repr, DecidableEq

/-- session.rs 357-366, 369-371, 743-745, 806-808, 1153-1165 -/
def step (b : Bwe) : Event → Bwe × Out
  | .timeout now doProbe o =>
    match b.handleTimeout doProbe now o with
    | (b, none) => (b, .quiet)
    | (b, some c) =>
      match b.estimator.start c now with
      | (e, true) => ({ b with estimator := e }, .probe c)
      | (e, false) => ({ b with estimator := e }, .refused c)
  | .report rs now o => (b.update rs now o, .quiet)
  | .completed now id => ({ b with estimator := b.estimator.finish now id }, .quiet)
  | .desired v => ({ b with desired := v }, .quiet)
  | .reset i => (b.reset i, .quiet)
  | .poll =>
    match b.smoother.poll with
    | (s, none) => ({ b with smoother := s }, .quiet)
    | (s, some r) => ({ b with smoother := s }, .estimate r)

/-- the state after a history -/
def run (b : Bwe) : List Event → Bwe
  | [] => b
  | e :: es => run (step b e).1 es

/-- what a history put out, one entry per event -/
def outs (b : Bwe) : List Event → List Out
  | [] => []
  | e :: es => (step b e).2 :: outs (step b e).1 es

end Str0m.BwEst
