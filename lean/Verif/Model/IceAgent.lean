import Verif.Base
import Mathlib.Data.List.Sort
/-
  Model of the ICE agent: candidates, candidate pairs, connectivity checks, roles and
  nomination (crates/is/src/{preference,candidate,pair,agent}.rs, StunTiming of stun.rs).

  Simplifications, beyond the conventions in DESIGN.md:
  * socket addresses are an IP version flag and an opaque number standing for (IP, port);
  * ufrags are opaque numbers; passwords/message integrity are not modelled here: the
    operations `request`, `response`, `errorResponse` are messages that passed
    `accepts_message` (the transaction id check of it is modelled);
  * the random `PairId` and `TransId` are counters (assumed collision free);
  * logging, statistics counters and the `discovered_recv` set are dropped;
  * a panic of the Rust code (index out of bounds, `unwrap`, `assert!`, `u32` underflow) sets
    the sticky flag `crash`.
-/
namespace Str0m.Ice

/-- `SocketAddr`, abstracted. -/
structure Addr where
  v6 : Bool
  key : Nat
deriving DecidableEq, Repr

/-- candidate.rs 608-619 `CandidateKind`. -/
inductive Kind where
  | host | prflx | srflx | relayed
deriving DecidableEq, Repr

/-- crates/proto `Protocol`. -/
inductive Proto where
  | udp | tcp | sslTcp | tls
deriving DecidableEq, Repr

/-- candidate.rs 37-102 `Candidate`. `tempFound` is
`foundation == REMOTE_PEER_REFLEXIVE_TEMP_FOUNDATION`; `tcptype` is only informative. -/
structure Cand where
  tempFound : Bool := false
  componentId : Nat := 1
  proto : Proto := .udp
  prio : Option Nat := Option.none
  addr : Addr
  base : Option Addr := Option.none
  kind : Kind := .host
  raddr : Option Addr := Option.none
  ufrag : Option Nat := Option.none
  localAddr : Addr
  localPref : Option Nat := Option.none
  discarded : Bool := false
deriving DecidableEq, Repr

/-- candidate.rs 522-524 `base`. -/
def Cand.baseAddr (c : Cand) : Addr := c.base.getD c.addr

/-- preference.rs 51-60 `counter_start`. -/
def prefStart (c : Cand) : Nat :=
  (match c.kind with
    | .host => 65535 | .prflx => 49151 | .srflx => 32767 | .relayed => 16383)
      - (if c.addr.v6 then 0 else 1)

/-- preference.rs 67-75 `relay_across_ip_version_punishment`. -/
def prefPunish (c : Cand) : Nat :=
  if c.kind = .relayed then (if c.localAddr.v6 ≠ c.addr.v6 then 1000 else 0) else 0

/-- preference.rs 13-78 `default_local_preference`; `none` is the `u32` underflow panic. -/
def defaultLocalPreference (c : Cand) (sameKind : Nat) : Option Nat :=
  if sameKind * 2 + prefPunish c ≤ prefStart c then
    some (prefStart c - sameKind * 2 - prefPunish c)
  else Option.none

/-- candidate.rs 459-468, the type preference table. -/
def typePreference (k : Kind) (p : Proto) : Nat :=
  match k, p with
  | .host, .udp => 126
  | .prflx, .udp => 110
  | .srflx, _ => 100
  | .host, _ => 90
  | .prflx, _ => 80
  | .relayed, .udp => 2
  | .relayed, .tcp => 1
  | .relayed, _ => 0

/-- candidate.rs 488-491 `local_preference`. -/
def Cand.localPreference (c : Cand) : Nat :=
  c.localPref.getD (if c.addr.v6 then 65535 else 65534)

/-- candidate.rs 442-486 `do_prio`; `none` is a panic (component id above 256, or the
`assert!`). Shifting a `u32` left drops the bits above 32. -/
def Cand.doPrio (c : Cand) (asPrflx : Bool) : Option Nat :=
  match c.prio with
  | some p => some p
  | Option.none =>
    let kind := if asPrflx then .prflx else c.kind
    if c.componentId ≤ 256 then
      let p := (typePreference kind c.proto <<< 24) ||| ((c.localPreference <<< 8) % 2^32)
        ||| (256 - c.componentId)
      if 1 ≤ p ∧ p < 2^31 then some p else Option.none
    else Option.none

/-- pair.rs 173-188 `calculate_prio`. -/
def calculatePrio (controlling : Bool) (remotePrio localPrio : Nat) : Nat :=
  let gd := if controlling then (localPrio, remotePrio) else (remotePrio, localPrio)
  2^32 * min gd.1 gd.2 + 2 * max gd.1 gd.2 + (if gd.1 > gd.2 then 1 else 0)

/-- pair.rs 66-77 `CheckState`. -/
inductive CheckState where
  | waiting | inProgress | succeeded
deriving DecidableEq, Repr

/-- pair.rs 90-101 `NominationState`. -/
inductive Nom where
  | none | nominated | attempt | success
deriving DecidableEq, Repr

/-- pair.rs 103-125 `BindingAttempt`. -/
structure Attempt where
  trans : Nat
  sent : Nat
  resp : Option Nat := Option.none
  nominated : Bool
  controlling : Bool
deriving DecidableEq, Repr

/-- pair.rs 13-63 `CandidatePair` (the candidate kinds, kept for logging only, and the
RTT statistics are dropped). -/
structure Pair where
  id : Nat
  localIdx : Nat
  remoteIdx : Nat
  prio : Nat
  valid : Option Nat := Option.none
  state : CheckState := .waiting
  attempts : List Attempt := []
  cached : Option Nat := Option.none
  remoteReqTime : Option Nat := Option.none
  nom : Nom := .none
deriving DecidableEq, Repr

/-- stun.rs 14-19 `StunTiming`, in milliseconds. -/
structure Timing where
  initialRto : Nat := 250
  maxRetransmits : Nat := 9
  maxRto : Nat := 3000
deriving DecidableEq, Repr

/-- stun.rs 37-48 `stun_resend_delay` (for `max_retransmits < 64`; beyond that the shift of
the `u128` would overflow). -/
def Timing.resendDelay (t : Timing) (sendCount : Nat) : Nat :=
  if sendCount = 0 then 0
  else min (t.initialRto * 2 ^ (min (sendCount - 1) t.maxRetransmits)) t.maxRto

/-- stun.rs 23-29 `timeout`. -/
def Timing.timeout (t : Timing) : Nat :=
  ((List.range (t.maxRetransmits + 1)).drop 2).foldl (fun s n => s + t.resendDelay n) 0
    + t.resendDelay t.maxRetransmits

/-- pair.rs 10 `RECENT_BINDING_REQUEST`, 15 s. -/
def recentBindingRequest : Nat := 15000

/-- pair.rs 235-237 `is_nominated`. -/
def Pair.isNominated (p : Pair) : Bool := p.nom != .none

/-- pair.rs 228-233 `is_ice_lite_alive`. -/
def Pair.isIceLiteAlive (p : Pair) (now : Nat) : Bool :=
  match p.remoteReqTime with
  | Option.none => true
  | some t => decide (now - t < recentBindingRequest)

/-- pair.rs 250-265 `copy_nominated_and_success_state`. -/
def Pair.copyNominated (p other : Pair) : Pair :=
  match other.nom with
  | .nominated => { p with nom := .nominated }
  | .success => { p with nom := .success }
  | .none => p
  | .attempt => { p with nom := .nominated }

/-- pair.rs 473-476 `copy_remote_binding_requests`. -/
def Pair.copyRemoteReq (p other : Pair) : Pair := { p with remoteReqTime := other.remoteReqTime }

/-- pair.rs 270-313 `new_attempt` (the final `unwrap` panics exactly when
`max_retransmits = 0`; that is recorded by the caller). -/
def Pair.newAttempt (p : Pair) (now : Nat) (t : Timing) (controlling : Bool) (trans : Nat) : Pair :=
  let nom := if p.nom = .nominated then .attempt else p.nom
  let a : Attempt := { trans, sent := now, nominated := nom != .none, controlling }
  let attempts := p.attempts ++ [a]
  { p with
    cached := Option.none
    nom := nom
    attempts := attempts.drop (attempts.length - t.maxRetransmits)
    state := if p.state = .waiting then .inProgress else p.state }

/-- pair.rs 317-321 `binding_attempt`. -/
def Pair.bindingAttempt (p : Pair) (trans : Nat) : Option Attempt :=
  p.attempts.find? (fun a => a.trans == trans)

/-- Apply `f` to the first element satisfying `q` (`iter_mut().find(..)`). -/
def updFirst {α : Type} (q : α → Bool) (f : α → α) : List α → List α
  | [] => []
  | x :: xs => if q x then f x :: xs else x :: updFirst q f xs

/-- pair.rs 328-359 `record_binding_response` (the `expect` cannot fail where it is called:
the pair was found by this transaction id). -/
def Pair.recordResponse (p : Pair) (now trans validIdx : Nat) : Pair :=
  let nominated := match p.bindingAttempt trans with
    | some a => a.nominated
    | Option.none => false
  { p with
    cached := Option.none
    valid := some validIdx
    attempts := updFirst (fun a => a.trans == trans) (fun a => { a with resp := some now }) p.attempts
    nom := if nominated && p.nom == .attempt then .success else p.nom
    state := if p.state = .inProgress then .succeeded else p.state }

/-- pair.rs 364-366 `last_attempt_time`. -/
def Pair.lastAttemptTime (p : Pair) : Option Nat := p.attempts.getLast?.map (·.sent)

/-- The run of attempts without response at the end of the list, newest first
(pair.rs 396-399). -/
def Pair.unansweredRun (p : Pair) : List Attempt :=
  p.attempts.reverse.takeWhile (fun a => a.resp.isNone)

/-- pair.rs 395-403 `unanswered`. -/
def Pair.unanswered (p : Pair) : Option (Nat × Nat) :=
  p.unansweredRun.getLast?.map (fun a => (p.unansweredRun.length, a.sent))

/-- pair.rs 411-434, the uncached part of `next_binding_attempt`. -/
def Pair.nextAttemptTime (p : Pair) (now : Nat) (t : Timing) : Nat :=
  let next :=
    if p.nom = .nominated then (if 60000 ≤ now then now - 60000 else now)
    else match p.lastAttemptTime with
      | some last =>
        let sendCount := match p.unanswered with
          | some (count, since) => if now - since > t.maxRto / 2 then count else p.attempts.length
          | Option.none => p.attempts.length
        last + t.resendDelay sendCount
      | Option.none => now
  min next (now + t.maxRto)

/-- pair.rs 406-440 `next_binding_attempt`: the new pair (cache) and the time. -/
def Pair.nextBindingAttempt (p : Pair) (now : Nat) (t : Timing) : Pair × Nat :=
  match p.cached with
  | some c => (p, c)
  | Option.none => ({ p with cached := some (p.nextAttemptTime now t) }, p.nextAttemptTime now t)

/-- pair.rs 451-455: a recent request from the peer keeps the pair alive. -/
def Pair.recentRequest (p : Pair) (now : Nat) : Bool :=
  match p.remoteReqTime with
  | some r => decide (now - r < recentBindingRequest)
  | Option.none => false

/-- pair.rs 445-471 `is_still_possible`; `none` is the panic of the `unwrap` (only when
`max_retransmits = 0`). -/
def Pair.isStillPossible (p : Pair) (now : Nat) (t : Timing) : Option Bool :=
  if p.recentRequest now then some true
  else
    let unanswered := (p.unanswered.map (·.1)).getD 0
    if p.attempts.length < t.maxRetransmits ∨ unanswered < t.maxRetransmits then some true
    else match p.lastAttemptTime with
      | some last => some (decide (now < last + t.resendDelay t.maxRetransmits))
      | Option.none => Option.none

/-- agent.rs `IceConnectionState`. -/
inductive ConnState where
  | new | checking | connected | completed | disconnected
deriving DecidableEq, Repr

/-- agent.rs 146-157 `StunRequest`: a binding request that passed the integrity check. -/
structure Req where
  now : Nat
  proto : Proto
  source : Addr
  destination : Addr
  trans : Nat
  prio : Nat
  useCandidate : Bool
  remoteUfrag : Nat
  iceControlling : Option Nat
  iceControlled : Option Nat
deriving DecidableEq, Repr

/-- What the agent queues for transmission. -/
inductive Msg where
  /-- binding request: transaction, claimed role, tie breaker, PRIORITY, USE-CANDIDATE -/
  | request (trans : Nat) (controlling : Bool) (tieBreaker prio : Nat) (useCandidate : Bool)
      (source destination : Addr)
  | success (trans : Nat) (mapped : Addr)
  | roleConflict (trans : Nat)
deriving DecidableEq, Repr

/-- Events visible to the user of the agent. -/
inductive Event where
  | stateChange (s : ConnState)
  | nominatedSend (source destination : Addr)
  | iceRestart
deriving DecidableEq, Repr

/-- agent.rs 27-115 `IceAgent`. -/
structure Agent where
  iceLite : Bool := false
  maxPairs : Option Nat := Option.none
  remoteCreds : Option Nat := Option.none
  controlling : Bool := false
  tieBreaker : Nat := 0
  connState : ConnState := .new
  locals : List Cand := []
  remotes : List Cand := []
  pairs : List Pair := []
  transmit : List Msg := []
  events : List Event := []
  queue : List Req := []
  nominatedSend : Option Nat := Option.none
  timing : Timing := {}
  nextId : Nat := 0
  nextTrans : Nat := 0
  lastNow : Option Nat := Option.none
  timingAdvance : Nat := 50
  crash : Bool := false
deriving DecidableEq, Repr

/-- pair.rs 516-521: `sort()` by descending priority (Rust's sort is stable). -/
def sortPairs (ps : List Pair) : List Pair :=
  ps.insertionSort (fun a b => b.prio ≤ a.prio)

/-- The redundancy test in form_pairs, agent.rs 858-864. -/
def redundant (a : Agent) (l r : Cand) (check : Pair) : Bool :=
  match a.locals[check.localIdx]?, a.remotes[check.remoteIdx]? with
  | some cl, some cr =>
    l.baseAddr == cl.baseAddr && r.addr == cr.addr && l.proto == cl.proto && r.proto == cr.proto
  | _, _ => false

/-- agent.rs 873-891: the pair that replaces a redundant `check`. -/
def replacement (iceLite : Bool) (pair check : Pair) : Pair :=
  if iceLite then (pair.copyNominated check).copyRemoteReq check else pair.copyNominated check

/-- agent.rs 857-903: prune against the first redundant pair of the list, or append. -/
def insertPair (a : Agent) (l r : Cand) (pair : Pair) : List Pair → List Pair
  | [] => [pair]
  | check :: rest =>
    if redundant a l r check then
      (if pair.prio ≤ check.prio then check else replacement a.iceLite pair check) :: rest
    else check :: insertPair a l r pair rest

/-- agent.rs 834-905, the body of the two loops of `form_pairs`. -/
def formOne (a : Agent) (ij : Nat × Nat) : Agent :=
  match a.locals[ij.1]?, a.remotes[ij.2]? with
  | some l, some r =>
    if l.proto ≠ r.proto then a
    else match l.doPrio false, r.doPrio false with
      | some lp, some rp =>
        let pair : Pair :=
          { id := a.nextId, localIdx := ij.1, remoteIdx := ij.2,
            prio := calculatePrio a.controlling rp lp }
        { a with nextId := a.nextId + 1, pairs := insertPair a l r pair a.pairs }
      | _, _ => { a with crash := true }
  | _, _ => { a with crash := true }

/-- agent.rs 379-382, 918 `max_candidate_pairs`. -/
def Agent.max (a : Agent) : Nat := a.maxPairs.getD 100

/-- agent.rs 828-930 `form_pairs`. -/
def formPairs (a : Agent) (localIdxs remoteIdxs : List Nat) : Agent :=
  let a := (localIdxs.flatMap (fun i => remoteIdxs.map (fun j => (i, j)))).foldl formOne a
  { a with pairs := (sortPairs a.pairs).take a.max }

/-- Indexes of the elements satisfying `q`
(`iter().enumerate().filter(..).map(|(i, _)| i)`). -/
def idxsWhere {α : Type} (q : α → Bool) (l : List α) : List Nat :=
  (List.range l.length).filter (fun i => (l[i]?.map q).getD false)

/-- agent.rs 1044-1047 `discard_candidate_pairs_by_local`. -/
def discardByLocal (a : Agent) (idx : Nat) : Agent :=
  { a with pairs := a.pairs.filter (fun p => p.localIdx != idx) }

/-- agent.rs 1050-1053 `discard_candidate_pairs_by_remote`. -/
def discardByRemote (a : Agent) (idx : Nat) : Agent :=
  { a with pairs := a.pairs.filter (fun p => p.remoteIdx != idx) }

/-- agent.rs 497-503: the live local candidates paired with remote ones, and vice versa. -/
def liveSame (v6 : Bool) (c : Cand) : Bool := !c.discarded && c.addr.v6 == v6

/-- agent.rs 632-637: number of existing local candidates of the same kind and IP version. -/
def sameKindCount (a : Agent) (c : Cand) : Nat :=
  (a.locals.filter (fun v => v.kind == c.kind && v.addr.v6 == c.addr.v6)).length

/-- agent.rs 654-656: redundancy of local candidates. -/
def sameLocal (c v : Cand) : Bool :=
  v.addr == c.addr && v.baseAddr == c.baseAddr && v.proto == c.proto

/-- agent.rs 691-697 / 683-690: append a local candidate; then 701-718: pair it. -/
def pushLocal (a : Agent) (c : Cand) : Agent :=
  let a' := { a with locals := a.locals ++ [c] }
  formPairs a' [a.locals.length] (idxsWhere (liveSame c.addr.v6) a'.remotes)

/-- agent.rs 620-722 `add_local_candidate`; `pref` is the pluggable preference algorithm. -/
def addLocal (pref : Cand → Nat → Option Nat) (a : Agent) (c : Cand) : Agent :=
  if a.iceLite && c.kind != .host then a
  else match pref c (sameKindCount a c) with
    | Option.none => { a with crash := true }
    | some p =>
      let c := { c with localPref := some p }
      match a.locals.findIdx? (sameLocal c) with
      | Option.none => pushLocal a c
      | some idx =>
        match a.locals[idx]? with
        | Option.none => { a with crash := true }
        | some other =>
          if other.discarded && c.kind == other.kind && c.raddr == other.raddr then
            let a' := { a with locals := a.locals.set idx { other with discarded := false } }
            formPairs a' [idx] (idxsWhere (liveSame c.addr.v6) a'.remotes)
          else match c.doPrio false, other.doPrio false with
            | some cp, some op =>
              if cp < op then a
              else
                let a' := { a with locals := a.locals.set idx { other with discarded := true } }
                pushLocal (discardByLocal a' idx) c
            | _, _ => { a with crash := true }

/-- agent.rs 535-548 `find_pair_for_equivalent_remote_candidate`. -/
def equivRemote (a : Agent) (c : Cand) (p : Pair) : Bool :=
  match a.remotes[p.remoteIdx]? with
  | some o => c.addr == o.addr && c.baseAddr == o.baseAddr && c.proto == o.proto
      && c.kind == o.kind && c.raddr == o.raddr
  | Option.none => false

/-- agent.rs 774-782: a peer reflexive candidate learnt from a request. -/
def isTempPrflx (c v : Cand) : Bool := v.tempFound && v.kind == .prflx && v.addr == c.addr

/-- agent.rs 813-824: pair the remote candidate at `idx`. -/
def pairRemote (a : Agent) (c : Cand) (idx : Nat) : Agent :=
  formPairs a (idxsWhere (liveSame c.addr.v6) a.locals) [idx]

/-- agent.rs 752-824, once the ufrag is accepted. -/
def addRemoteAccepted (a : Agent) (c : Cand) : Agent :=
  let c := { c with ufrag := Option.none }
  let existing := (a.pairs.find? (equivRemote a c)).bind
    (fun p => a.remotes[p.remoteIdx]?.map (fun o => (p.remoteIdx, o)))
  match existing with
  | some (_, o) =>
    if !o.discarded then a
    else addIt a c existing
  | Option.none => addIt a c existing
where
  /-- agent.rs 786-824 -/
  addIt (a : Agent) (c : Cand) (existing : Option (Nat × Cand)) : Agent :=
    match a.remotes.findIdx? (isTempPrflx c) with
    | some idx => pairRemote { a with remotes := a.remotes.set idx c } c idx
    | Option.none =>
      match existing with
      | some (idx, o) => pairRemote { a with remotes := a.remotes.set idx { o with discarded := false } } c idx
      | Option.none => pairRemote { a with remotes := a.remotes ++ [c] } c a.remotes.length

/-- agent.rs 729-825 `add_remote_candidate`. -/
def addRemote (a : Agent) (c : Cand) : Agent :=
  if c.componentId ≠ 1 then a
  else match a.remoteCreds, c.ufrag with
    | some creds, some u => if u ≠ creds then a else addRemoteAccepted a c
    | _, _ => addRemoteAccepted a c

/-- agent.rs 942-947 / 956-963: the candidate `invalidate_candidate` looks for. -/
def sameForInvalidate (c v : Cand) : Bool :=
  v.addr == c.addr && v.baseAddr == c.baseAddr && v.raddr == c.raddr && v.kind == c.kind

/-- agent.rs 955-977: second half of `invalidate_candidate`. -/
def invalidateRemote (a : Agent) (c : Cand) : Agent :=
  match a.remotes.findIdx? (sameForInvalidate c) with
  | Option.none => a
  | some idx =>
    match a.remotes[idx]? with
    | some other =>
      if !other.discarded then
        discardByRemote { a with remotes := a.remotes.set idx { other with discarded := true } } idx
      else a
    | Option.none => a

/-- agent.rs 941-977 `invalidate_candidate`. -/
def invalidate (a : Agent) (c : Cand) : Agent :=
  match a.locals.findIdx? (sameForInvalidate c) with
  | Option.none => invalidateRemote a c
  | some idx =>
    match a.locals[idx]? with
    | some other =>
      if !other.discarded then
        discardByLocal { a with locals := a.locals.set idx { other with discarded := true } } idx
      else invalidateRemote a c
    | Option.none => invalidateRemote a c

/-- agent.rs 2001-2008 `set_connection_state`. -/
def setState (a : Agent) (s : ConnState) : Agent :=
  if a.connState = s then a
  else { a with connState := s, events := a.events ++ [.stateChange s] }

/-- agent.rs 986-1016 `ice_restart` (`nominated_send` is not cleared, pairs are). -/
def iceRestart (a : Agent) (keepLocal : Bool) : Agent :=
  setState
    { a with
      remoteCreds := Option.none, remotes := [], pairs := [], transmit := []
      locals := if keepLocal then a.locals else []
      events := [.iceRestart] } .checking

/-- agent.rs 1021-1041 `recreate_candidate_pairs`. -/
def recreatePairs (a : Agent) : Agent :=
  let a := { a with pairs := [] }
  setState (formPairs a (idxsWhere (fun c => !c.discarded) a.locals)
    (idxsWhere (fun c => !c.discarded) a.remotes)) .checking

/-- agent.rs 1690-1697: the new priority of a pair after a role switch. -/
def reprio (a : Agent) (controlling : Bool) (p : Pair) : Option Pair :=
  match a.locals[p.localIdx]?, a.remotes[p.remoteIdx]? with
  | some l, some r =>
    match l.doPrio false, r.doPrio false with
    | some lp, some rp => some { p with prio := calculatePrio controlling rp lp }
    | _, _ => Option.none
  | _, _ => Option.none

/-- agent.rs 1677-1699 `switch_role`. -/
def switchRole (a : Agent) (controlling : Bool) : Agent :=
  if a.controlling = controlling then a
  else if a.pairs.all (fun p => (reprio a controlling p).isSome) then
    { a with controlling := controlling
             pairs := sortPairs (a.pairs.map (fun p => (reprio a controlling p).getD p)) }
  else { a with controlling := controlling, crash := true }

/-- Index and element of the last maximum among the elements satisfying `q`
(`filter(..).max_by_key(..)` returns the last maximum). -/
def lastMax {α : Type} (q : α → Bool) (key : α → Nat) (l : List α) : Option (Nat × α) :=
  go 0 Option.none l
where
  go (i : Nat) (best : Option (Nat × α)) : List α → Option (Nat × α)
    | [] => best
    | x :: xs =>
      if q x then
        match best with
        | Option.none => go (i + 1) (some (i, x)) xs
        | some (_, b) => if key b ≤ key x then go (i + 1) (some (i, x)) xs
                         else go (i + 1) best xs
      else go (i + 1) best xs

/-- agent.rs 1945-1952 `nominated_pair_priority`. -/
def nominatedPrio (a : Agent) : Option Nat :=
  a.nominatedSend.bind (fun id => (a.pairs.find? (fun p => p.id == id)).map (·.prio))

/-- pair.rs 239-248 `nominate` (the `assert!` is checked by the caller). -/
def Pair.nominate (p : Pair) (force : Bool) : Pair :=
  { p with nom := if force then .success else .nominated }

/-- agent.rs 1903-1916: which pairs `evaluate_nomination` chooses from. -/
def eligible (a : Agent) (p : Pair) : Bool :=
  if a.controlling then p.state == .succeeded else p.isNominated

/-- agent.rs 1926-1943: choose the pair `best` at index `idx`. -/
def choosePair (a : Agent) (idx : Nat) (best : Pair) : Agent :=
  let best' := if !best.isNominated && (a.controlling || a.iceLite) then best.nominate a.iceLite
    else best
  match a.locals[best.localIdx]?, a.remotes[best.remoteIdx]? with
  | some l, some r =>
    { a with pairs := a.pairs.set idx best', nominatedSend := some best.id
             events := a.events ++ [.nominatedSend l.baseAddr r.addr] }
  | _, _ => { a with crash := true }

/-- agent.rs 1899-1944 `evaluate_nomination`. -/
def evalNomination (a : Agent) : Agent :=
  match lastMax (eligible a) (·.prio) a.pairs with
  | Option.none => a
  | some (idx, best) =>
    if nominatedPrio a = some best.prio then a else choosePair a idx best

/-- agent.rs 2013-2022: is any pair nominated. -/
def anyNomination (a : Agent) : Bool := a.pairs.any Pair.isNominated

/-- agent.rs 2019-2030 (the panic of `is_still_possible` counts as false here and is
recorded by `possibleCrash`). -/
def anyPossible (a : Agent) (now : Nat) : Bool :=
  a.pairs.any (fun p => !p.isNominated && p.isStillPossible now a.timing == some true)
    || a.remotes.isEmpty || a.locals.isEmpty

/-- Whether evaluating `is_still_possible` on the pairs panics. -/
def possibleCrash (a : Agent) (now : Nat) : Bool :=
  a.pairs.any (fun p => (p.isStillPossible now a.timing).isNone)

/-- agent.rs 2032-2073: the state machine of `evaluate_state`. -/
def nextState (a : Agent) (anyNom anyPoss : Bool) : ConnState :=
  match a.connState with
  | .new => .checking
  | .checking | .disconnected =>
    if anyNom then
      if a.iceLite then .completed
      else if anyPoss then .connected else .completed
    else if !anyPoss then .disconnected else .checking
  | .connected =>
    if anyNom then (if !anyPoss then .completed else .connected)
    else if anyPoss then .checking else .disconnected
  | .completed =>
    if anyNom then (if anyPoss && !a.iceLite then .connected else .completed)
    else if anyPoss then .checking else .disconnected

/-- agent.rs 2010-2075 `evaluate_state`. -/
def evalState (a : Agent) (now : Nat) : Agent :=
  let a := if possibleCrash a now then { a with crash := true } else a
  setState a (nextState a (anyNomination a) (anyPossible a now))

/-- agent.rs 160-166 `role_conflict_tiebreaker`: the peer's tie breaker if it claims the
same role as we have. -/
def Req.conflictTieBreaker (r : Req) (controlling : Bool) : Option Nat :=
  if controlling then r.iceControlling else r.iceControlled

/-- agent.rs 1446-1449: the local candidate a request arrived on. -/
def arrivesOn (req : Req) (v : Cand) : Bool :=
  (v.kind == .host || v.kind == .relayed) && v.addr == req.destination && v.proto == req.proto

/-- agent.rs 1491-1498: a live remote candidate with the source address. -/
def liveFrom (req : Req) (c : Cand) : Bool :=
  !c.discarded && c.proto == req.proto && c.addr == req.source

/-- candidate.rs 333-354 `peer_reflexive` as called from agent.rs 1526-1540. -/
def prflxOf (req : Req) : Cand :=
  { tempFound := true, proto := req.proto, prio := some req.prio, addr := req.source,
    base := some req.source, kind := .prflx, localAddr := req.source }

/-- agent.rs 1556, 1591: the pair of given candidate indexes. -/
def isPair (li ri : Nat) (p : Pair) : Bool := p.localIdx == li && p.remoteIdx == ri

/-- agent.rs 1601-1610: record a request on its pair, and the peer's nomination. -/
def requested (a : Agent) (req : Req) (p : Pair) : Pair :=
  let p := { p with remoteReqTime := some req.now }
  if !a.controlling && !p.isNominated && req.useCandidate then p.nominate a.iceLite else p

/-- agent.rs 1612-1615. -/
def afterRequest (a : Agent) (p : Pair) : Agent :=
  if a.controlling && p.state == .succeeded then evalNomination a else a

/-- agent.rs 1588-1641: the part after the pair exists. -/
def answerRequest (a : Agent) (req : Req) (li ri : Nat) : Agent :=
  match a.pairs.find? (isPair li ri) with
  | Option.none => { a with crash := true }
  | some p =>
    let p := requested a req p
    let a := afterRequest { a with pairs := updFirst (isPair li ri) (fun _ => p) a.pairs } p
    { a with transmit := a.transmit ++ [.success req.trans req.source] }

/-- agent.rs 1552-1586: make sure there is a pair for the request. -/
def ensurePair (a : Agent) (req : Req) (li ri : Nat) : Agent :=
  if a.pairs.any (isPair li ri) then answerRequest a req li ri
  else match a.locals[li]?, a.remotes[ri]? with
    | some l, some r =>
      if l.discarded then a
      else match l.doPrio false, r.doPrio false with
        | some lp, some rp =>
          let pair : Pair :=
            { id := a.nextId, localIdx := li, remoteIdx := ri,
              prio := calculatePrio a.controlling rp lp }
          answerRequest
            { a with nextId := a.nextId + 1, pairs := sortPairs (a.pairs ++ [pair]) } req li ri
        | _, _ => { a with crash := true }
    | _, _ => { a with crash := true }

/-- agent.rs 1481-1551: USE-CANDIDATE check and remote candidate of the request. -/
def findRemote (a : Agent) (req : Req) (li : Nat) : Agent :=
  if req.useCandidate && a.controlling then a
  else match lastMax (liveFrom req) (fun c => (c.doPrio false).getD 0) a.remotes with
    | some (ri, _) => ensurePair a req li ri
    | Option.none =>
      if a.remotes.any (fun c => c.discarded && c.proto == req.proto && c.addr == req.source) then a
      else ensurePair { a with remotes := a.remotes ++ [prflxOf req] } req li a.remotes.length

/-- agent.rs 1429-1642 `stun_server_handle_request`. -/
def handleRequest (a : Agent) (req : Req) : Agent :=
  match a.remoteCreds with
  | Option.none => { a with crash := true }
  | some creds =>
    if req.remoteUfrag ≠ creds then a
    else match a.locals.findIdx? (arrivesOn req) with
      | Option.none => a
      | some li =>
        match req.conflictTieBreaker a.controlling with
        | some tb =>
          if tb ≤ a.tieBreaker then { a with transmit := a.transmit ++ [.roleConflict req.trans] }
          else findRemote (switchRole a (!a.controlling)) req li
        | Option.none => findRemote a req li

/-- agent.rs 1365-1427 `stun_server_handle_message`. -/
def request (a : Agent) (req : Req) : Agent :=
  if a.remoteCreds.isSome then handleRequest a req
  else
    let q := a.queue ++ [req]
    { a with queue := q.drop (q.length - 100) }

/-- agent.rs 1835-1886: the prflx candidate created from a mapped address. -/
def localPrflx (proto : Proto) (mapped base : Addr) (prio : Nat) : Cand :=
  { proto, prio := some prio, addr := mapped, base := some base, kind := .prflx, localAddr := base }

/-- agent.rs 1888-1896: record the response on the pair of the transaction. -/
def recordOn (a : Agent) (now trans valid : Nat) : Agent :=
  let ps := updFirst (fun p => (p.bindingAttempt trans).isSome)
    (fun p => p.recordResponse now trans valid) a.pairs
  let a := { a with pairs := ps }
  let a := if a.controlling then evalNomination a else a
  evalState a now

/-- agent.rs 1792-1897 `stun_client_handle_response` (after `accepts_message`). -/
def response (a : Agent) (now trans : Nat) (mapped : Addr) : Agent :=
  match a.pairs.find? (fun p => (p.bindingAttempt trans).isSome) with
  | Option.none => a
  | some pair =>
    match a.locals.findIdx? (fun c => c.addr == mapped) with
    | some valid => recordOn a now trans valid
    | Option.none =>
      match a.locals[pair.localIdx]? with
      | Option.none => { a with crash := true }
      | some l =>
        match l.doPrio true with
        | Option.none => { a with crash := true }
        | some prio =>
          recordOn { a with locals := a.locals ++ [localPrflx l.proto mapped l.baseAddr prio] }
            now trans a.locals.length

/-- agent.rs 1756-1790 `stun_client_handle_error` (after `accepts_message`). -/
def errorResponse (a : Agent) (trans code : Nat) : Agent :=
  if code ≠ 487 then a
  else match a.pairs.findSome? (fun p => p.bindingAttempt trans) with
    | Option.none => a
    | some at_ => if at_.controlling ≠ a.controlling then a else switchRole a (!a.controlling)

/-- agent.rs 1701-1748 `stun_client_binding_request`. -/
def sendCheck (a : Agent) (now idx : Nat) : Agent :=
  match a.pairs[idx]? with
  | Option.none => { a with crash := true }
  | some p =>
    match a.locals[p.localIdx]?, a.remotes[p.remoteIdx]? with
    | some l, some r =>
      match l.doPrio true with
      | Option.none => { a with crash := true }
      | some prio =>
        { a with
          pairs := a.pairs.set idx (p.newAttempt now a.timing a.controlling a.nextTrans)
          nextTrans := a.nextTrans + 1
          crash := a.crash || a.timing.maxRetransmits == 0
          transmit := a.transmit ++ [.request a.nextTrans a.controlling a.tieBreaker prio
            (a.controlling && p.isNominated) l.baseAddr r.addr] }
    | _, _ => { a with crash := true }

/-- Index and value of the first minimum (`min_by_key` returns the first minimum). -/
def firstMin : List Nat → Option (Nat × Nat)
  | [] => Option.none
  | x :: xs =>
    match firstMin xs with
    | Option.none => some (0, x)
    | some (i, y) => if x ≤ y then some (0, x) else some (i + 1, y)

/-- agent.rs 1265-1282: run the most urgent check if it is due. -/
def runChecks (a : Agent) (now : Nat) : Agent :=
  let times := a.pairs.map (fun p => (p.nextBindingAttempt now a.timing).2)
  let a := { a with pairs := a.pairs.map (fun p => (p.nextBindingAttempt now a.timing).1) }
  match firstMin times with
  | Option.none => a
  | some (idx, deadline) => if deadline ≤ now then sendCheck a now idx else a

/-- agent.rs 1228-1240: which pairs survive the pruning. -/
def keepPair (a : Agent) (now : Nat) (p : Pair) : Bool :=
  if a.iceLite then p.isIceLiteAlive now else p.isStillPossible now a.timing == some true

/-- agent.rs 1221-1244: nomination and pruning of failed pairs. -/
def pruneFailed (a : Agent) (now : Nat) : Agent :=
  let a := evalNomination a
  let kept := a.pairs.filter (keepPair a now)
  let crashes := !a.iceLite && possibleCrash a now
  let a' := { a with pairs := kept, crash := a.crash || crashes }
  if kept.length = a.pairs.length then a' else evalState (evalNomination a') now

/-- agent.rs 1246-1283: the rest of `handle_timeout`. -/
def timeoutChecks (a : Agent) (now : Nat) : Agent :=
  if a.remoteCreds.isNone then a
  else if a.iceLite then
    let ps := a.pairs.map
      (fun p => if p.remoteReqTime.isNone then { p with remoteReqTime := some now } else p)
    { a with pairs := ps }
  else runChecks a now

/-- agent.rs 1204-1212: drop requests that are too old from the front of the queue. -/
def dropOld (timeout now : Nat) : List Req → List Req
  | [] => []
  | r :: rs => if timeout ≤ now - r.now then dropOld timeout now rs else r :: rs

/-- agent.rs 1193-1283 `handle_timeout` (the `IceRestart` event of the first call dropped). -/
def timeout (a : Agent) (now : Nat) : Agent :=
  let a := evalState a now
  if a.remoteCreds.isSome then
    match dropOld a.timing.timeout now a.queue with
    | r :: rs => handleRequest { a with queue := rs } r
    | [] => timeoutChecks (pruneFailed { a with queue := [], lastNow := some now } now) now
  else timeoutChecks (pruneFailed { a with lastNow := some now } now) now

/-- agent.rs 1318-1338: the deadline `poll_timeout` computes when nothing is pending. -/
def nextDeadline (a : Agent) (now : Nat) : Nat :=
  match (if a.iceLite then Option.none
    else firstMin (a.pairs.map (fun p => (p.nextBindingAttempt now a.timing).2))) with
  | some (_, next) => if next < now + a.timingAdvance then now + a.timingAdvance else next
  | Option.none => now + 3000

/-- agent.rs 1303-1341 `poll_timeout`: the new state (the deadlines are cached) and the result. -/
def pollTimeout (a : Agent) : Agent × Option Nat :=
  match a.lastNow with
  | Option.none => (a, Option.none)
  | some now =>
    if !a.queue.isEmpty || !a.transmit.isEmpty then (a, some (now + a.timingAdvance))
    else if a.iceLite then (a, some (nextDeadline a now))
    else ({ a with pairs := a.pairs.map (fun p => (p.nextBindingAttempt now a.timing).1) },
      some (nextDeadline a now))

/-- The operations a user and the network can apply to an agent. -/
inductive Op where
  | addLocal (pref : Cand → Nat → Option Nat) (c : Cand)
  | addRemote (c : Cand)
  | invalidate (c : Cand)
  | restart (keepLocal : Bool)
  | recreate
  | setRemoteCreds (u : Nat)
  | setMaxPairs (n : Nat)
  | request (r : Req)
  | response (now trans : Nat) (mapped : Addr)
  | error (trans code : Nat)
  | timeout (now : Nat)
  | poll
  | pollTransmit

/-- One operation. -/
def step (a : Agent) : Op → Agent
  | .addLocal pref c => addLocal pref a c
  | .addRemote c => addRemote a c
  | .invalidate c => invalidate a c
  | .restart keep => iceRestart a keep
  | .recreate => recreatePairs a
  | .setRemoteCreds u => { a with remoteCreds := some u }
  | .setMaxPairs n => { a with maxPairs := some n }
  | .request r => request a r
  | .response now t m => response a now t m
  | .error t c => errorResponse a t c
  | .timeout now => timeout a now
  | .poll => (pollTimeout a).1
  -- agent.rs 1286-1295 `poll_transmit`
  | .pollTransmit => { a with transmit := a.transmit.drop 1 }

/-- A history of operations. -/
def run (a : Agent) (ops : List Op) : Agent := ops.foldl step a

end Str0m.Ice
