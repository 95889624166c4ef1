import Verif.Model.Channel
/-
  The top of the library: the life cycle of an `Rtc`, `poll_output`, `handle_input`, `close`, `disconnect`
  (src/lib.rs 903-936, 1317-1336, 1459-1521, 1548-1854, 1905-2124), the wrapper of DTLS (src/dtls.rs), the
  pushed-back packets of SCTP (src/sctp/mod.rs 754-756, 1155-1159) and the channel table (Model/Channel).

  The parts below (the ICE agent, the DTLS instance, the SCTP association, the session, the statistics) are an
  opaque state `W` with arbitrary functions (`Env`): every theorem holds whatever they answer. A loop that asks
  a part until it has no more is bounded by fuel; `none` means that the fuel was not enough, and the theorems
  are about every amount of fuel that is. Times are nanoseconds, addresses, names and event contents numbers.

  The state carries a log, a ghost the code does not have: everything the parts said, everything the caller did
  that matters below, and everything the caller was given, in order.
-/
namespace Str0m.RtcLoop
open Str0m.Channel (Handler)

/-- lib.rs 936-940 -/
structure SendAddr where
  proto : Nat
  source : Nat
  destination : Nat
deriving Repr, DecidableEq

/-- `net::Transmit` -/
structure Transmit where
  addr : SendAddr
  contents : List Byte
deriving Repr, DecidableEq

/-- `IceAgentEvent` -/
inductive IceEvent where
  | restart
  | stateChange (v : Nat)
  | discovered (source : Nat)
  | nominated (a : SendAddr)
deriving Repr, DecidableEq

/-- `DtlsOutput` of the DTLS library; `other` is anything not named in lib.rs 1637-1696. -/
inductive DtlsOut where
  | packet (p : List Byte)
  | connected
  | keying (k : Nat)
  | peerCert (der : List Byte)
  | appData (d : List Byte)
  | timeout (t : Nat)
  | closeNotify
  | other
deriving Repr, DecidableEq

/-- `SctpEvent` (sctp/mod.rs) -/
inductive SctpEvent where
  | transmit (packets : List (List Byte))
  | opened (s : Nat) (label : List Byte)
  | closed (s : Nat) (pending : Bool)
  | resetComplete (s : Nat)
  | lost
  | data (s : Nat) (binary : Bool) (d : List Byte)
  | low (s : Nat)
deriving Repr, DecidableEq

/-- What `dtls.handle_input` answers (dtls.rs 164-172 with 41-50). -/
inductive SendRes where
  | ok | wouldBlock | failed
deriving Repr, DecidableEq

/-- crypto/finger.rs 9-18 -/
structure Fingerprint where
  hash : String
  bytes : List Byte
deriving Repr, DecidableEq

/-- `Event`, of those the session and the statistics make only a number. -/
inductive Event where
  | iceState (v : Nat)
  | connected
  | closed
  | channelOpen (id : Nat) (label : List Byte)
  | channelClose (id : Nat)
  | channelData (id : Nat) (binary : Bool) (d : List Byte)
  | channelLow (id : Nat)
  | session (k : Nat)
  | stats (k : Nat)
deriving Repr, DecidableEq

/-- Which error. -/
inductive Err where
  | dtlsTimer | noMatch | noFingerprint | dtlsOther | dtlsSend | close | media | dtlsReceive | session | missingFingerprint | dtlsInit
deriving Repr, DecidableEq

/-- `Result<Output, RtcError>`, or a panic. -/
inductive Outcome where
  | transmit (t : Transmit)
  | event (e : Event)
  | timeout (t : Nat)
  | error (e : Err)
  | panic
deriving Repr, DecidableEq

/-- An entry of the log. -/
inductive Note where
  /-- the ICE agent said this -/
  | ice (e : IceEvent)
  /-- the ICE agent wants this sent -/
  | iceSend (t : Transmit)
  /-- the DTLS instance said this -/
  | dtls (o : DtlsOut)
  /-- SCTP said this -/
  | sctp (e : SctpEvent)
  /-- the fingerprint of the peer was set -/
  | expects (f : Fingerprint)
  /-- the application made a channel -/
  | created (id : Nat)
  /-- `handle_input` with this time returned and was not ignored or refused before the clock was set -/
  | time (t : Nat)
  /-- a datagram with this many bytes arrived; `stun` or not -/
  | arrived (stun : Bool) (len : Nat)
  /-- `disconnect()` was called, or a timer of DTLS failed, or the SDP of the peer had no fingerprint -/
  | ended
  /-- `poll_output` returned this -/
  | out (o : Outcome)
deriving Repr, DecidableEq

/-- lib.rs 929-934 -/
inductive State where
  | alive | closing | closed
deriving Repr, DecidableEq

/-- The parts, as functions of their state. -/
structure Env (W : Type) where
  /-- `not_happening()` and `already_happened()` -/
  never : Nat
  past : Nat
  sha256 : List Byte → List Byte
  /-- `ice.poll_event`, `poll_transmit`, `poll_timeout` -/
  icePoll : W → Option IceEvent × W
  iceTransmit : W → Option Transmit × W
  iceTimeout : W → Option Nat
  /-- the DTLS instance: `handle_timeout` (true: no error), `poll_output`, `handle_packet`, `send_application_data`, `close`, `is_closed`, `set_active` -/
  dtlsTimer : Nat → W → Bool × W
  dtlsPoll : W → DtlsOut × W
  dtlsReceive : List Byte → W → Bool × W
  dtlsSend : List Byte → W → SendRes × W
  dtlsClose : W → Bool × W
  dtlsClosed : W → Bool
  dtlsActive : Bool → W → W
  /-- SCTP: `handle_input`, `do_poll` after the pushed-back packets, `close`, `is_inited`, `is_client`, `open_stream`, `close_stream`, `poll_timeout` -/
  sctpInput : Nat → List Byte → W → W
  sctpPoll : W → Option SctpEvent × W
  sctpClose : W → Bool × W
  sctpInited : W → Bool
  sctpClient : W → Bool
  sctpOpen : List (Nat × Nat) → W → W
  sctpCloseStream : Nat → W → W
  sctpTimeout : W → Option Nat
  /-- the session -/
  setKeying : Nat → Bool → W → W
  sessionEvent : W → Option Nat × W
  sessionMedia : W → Res Unit (Option Nat) × W
  sessionDatagram : Nat → W → Option (List Byte) × W
  clearFeedback : W → W
  closeRtp : W → W
  rtpClosed : W → Bool
  sessionTimeout : W → Option Nat × Nat
  /-- `stats.poll_output`, `stats.poll_timeout` -/
  stats : W → Option Nat × W
  statsTimeout : W → Option Nat
  /-- `handle_timeout` of ICE and SCTP, of the session, of the statistics with the two counters -/
  tick : Nat → W → W
  sessionTick : Nat → W → Bool × W
  statsTick : Nat → Nat → Nat → W → W
  /-- what a datagram does to ICE or the session -/
  receive : Nat → List Byte → W → W

variable {W : Type}

/-- lib.rs 903-926, dtls.rs 19-39; without buffers, `change_counter`, `need_init_time` and the remote fingerprint kept for
`remote_dtls_fingerprint()`. -/
structure Rtc (W : Type) where
  state : State
  lastNow : Nat
  dtlsConnected : Bool
  nextDtls : Option Nat
  active : Option Bool
  pending : List (List Byte)
  pushed : Option (List (List Byte))
  chan : Handler
  expected : Option Fingerprint
  verify : Bool
  remoteAddrs : List Nat
  sendAddr : Option SendAddr
  closeStarted : Bool
  peerRx : Nat
  peerTx : Nat
  reason : Nat
  world : W
  log : List Note

/-- lib.rs 1260-1292 -/
def Rtc.new (start : Nat) (verify : Bool) (w : W) : Rtc W :=
  { state := .alive, lastNow := start, dtlsConnected := false, nextDtls := none, active := none, pending := [], pushed := none,
    chan := Handler.empty, expected := none, verify := verify, remoteAddrs := [], sendAddr := none, closeStarted := false,
    peerRx := 0, peerTx := 0, reason := 0, world := w, log := [] }

/-- Ghost. -/
def Rtc.say (r : Rtc W) (n : Note) : Rtc W := { r with log := r.log ++ [n] }

/-- lib.rs 1317-1319 -/
def Rtc.isAlive (r : Rtc W) : Bool := decide (r.state ≠ .closed)

/-- lib.rs 1334-1336 -/
def Rtc.disconnect (r : Rtc W) : Rtc W := { r with state := .closed }

/-- lib.rs 1459-1473: whether there is a writer; `media` is whether the session has the mid. The panic in RTP mode is left out. -/
def Rtc.writer (r : Rtc W) (media : Bool) : Bool := decide (r.state = .alive) && media

/-- lib.rs 2112-2124: whether there is a channel to write to; `isOpen` is `sctp.is_open`. -/
def Rtc.channel (r : Rtc W) (isOpen : Nat → Bool) (id : Nat) : Bool :=
  decide (r.state = .alive) && match r.chan.byId id with
    | some s => isOpen s
    | none => false

/-- lib.rs 1999-2006 -/
def startDtlsClose (env : Env W) (r : Rtc W) : Bool × Rtc W :=
  if r.closeStarted then (true, r)
  else
    let a := env.dtlsClose r.world
    if a.1 then (true, { r with world := a.2, closeStarted := true }) else (false, { r with world := a.2 })

/-- lib.rs 1985-1997 -/
def startClose (env : Env W) (r : Rtc W) : Bool × Rtc W :=
  match r.state with
  | .closed => (true, r)
  | .closing => startDtlsClose env r
  | .alive =>
    let a := env.sctpClose (env.closeRtp r.world)
    if a.1 then startDtlsClose env { r with world := a.2, state := .closing } else (false, { r with world := a.2 })

/-- lib.rs 2008-2010 with dtls.rs 121-123 -/
def drained (env : Env W) (r : Rtc W) : Bool :=
  r.closeStarted && (r.pending.isEmpty && env.dtlsClosed r.world) && env.rtpClosed r.world

/-- lib.rs 1583-1616 -/
def iceLoop (env : Env W) : Nat → Rtc W → Option (Option Event × Rtc W)
  | 0, _ => none
  | fuel + 1, r =>
    match env.icePoll r.world with
    | (none, w) => some (none, { r with world := w })
    | (some e, w) =>
      match e with
      | .restart => iceLoop env fuel (({ r with world := w } : Rtc W).say (.ice .restart))
      | .stateChange v => some (some (.iceState v), ({ r with world := w } : Rtc W).say (.ice (.stateChange v)))
      | .discovered s =>
        iceLoop env fuel (({ r with world := w,
                                    remoteAddrs := (r.remoteAddrs ++ [s]).drop ((r.remoteAddrs ++ [s]).length - 20) } : Rtc W).say
          (.ice (.discovered s)))
      | .nominated a => iceLoop env fuel (({ r with world := w, sendAddr := some a } : Rtc W).say (.ice (.nominated a)))

/-- lib.rs 1621-1632; false: failed. -/
def dtlsTimer (env : Env W) (r : Rtc W) : Bool × Rtc W :=
  match r.nextDtls with
  | some t =>
    if t ≤ r.lastNow then
      let a := env.dtlsTimer r.lastNow r.world
      if a.1 then (true, { r with nextDtls := none, world := a.2 })
      else (false, (({ r with nextDtls := none, world := a.2 } : Rtc W).disconnect).say .ended)
    else (true, r)
  | none => (true, r)

/-- dtls.rs 131-145: a packet is kept and a timeout in the past returned. -/
def dtlsNext (env : Env W) (r : Rtc W) : DtlsOut × Rtc W :=
  match env.dtlsPoll r.world with
  | (.packet p, w) => (.timeout env.past, ({ r with world := w, pending := r.pending ++ [p] } : Rtc W).say (.dtls (.packet p)))
  | (o, w) => (o, ({ r with world := w } : Rtc W).say (.dtls o))

/-- How the loop over DTLS ends. -/
inductive DtlsEnd where
  | done (justConnected : Bool)
  | stop (o : Outcome)
deriving Repr, DecidableEq

/-- lib.rs 1660-1679: what is wrong with the certificate. -/
def certCheck (env : Env W) (r : Rtc W) (der : List Byte) : Option Err :=
  match r.expected with
  | some f =>
    if r.verify = false then none
    else if ({ hash := "sha-256", bytes := env.sha256 der } : Fingerprint) ≠ f then some .noMatch
    else none
  | none => some .noFingerprint

/-- lib.rs 1635-1697 -/
def dtlsLoop (env : Env W) : Nat → Bool → Rtc W → Option (DtlsEnd × Rtc W)
  | 0, _, _ => none
  | fuel + 1, just, r =>
    match dtlsNext env r with
    | (.packet _, r) => some (.stop .panic, r)
    | (.connected, r) =>
      if r.dtlsConnected then dtlsLoop env fuel just r
      else dtlsLoop env fuel true { r with dtlsConnected := true }
    | (.keying k, r) =>
      match r.active with
      | none => some (.stop .panic, r)
      | some a => dtlsLoop env fuel just { r with world := env.setKeying k a r.world }
    | (.peerCert der, r) =>
      match certCheck env r der with
      | some e => some (.stop (.error e), r.disconnect)
      | none => dtlsLoop env fuel just r
    | (.appData d, r) => dtlsLoop env fuel just { r with world := env.sctpInput r.lastNow d r.world }
    | (.timeout t, r) => some (.done just, { r with nextDtls := some t })
    | (.closeNotify, r) =>
      let a := startClose env r
      some (.stop (if a.1 then .event .closed else .error .close), a.2)
    | (.other, r) => some (.stop (.error .dtlsOther), r)

/-- sctp/mod.rs 734-756: pushed-back packets first. -/
def sctpNext (env : Env W) (r : Rtc W) : Option SctpEvent × Rtc W :=
  if env.sctpInited r.world then
    match r.pushed with
    | some p => (some (.transmit p), { r with pushed := none })
    | none =>
      let a := env.sctpPoll r.world
      (a.1, { r with world := a.2 })
  else (none, r)

/-- sctp/mod.rs 1155-1159: none is a panic. -/
def pushBack (r : Rtc W) (p : List (List Byte)) : Option (Rtc W) :=
  match r.pushed with
  | some _ => none
  | none => some { r with pushed := some p }

/-- How the loop over SCTP ends. -/
inductive SctpEnd where
  | done
  | again
  | stop (o : Outcome)
deriving Repr, DecidableEq

/-- lib.rs 1705-1735: the packets to send. `none` goes on with the loop. -/
def sctpTransmit (env : Env W) (r : Rtc W) (packets : List (List Byte)) : Option SctpEnd × Rtc W :=
  match packets with
  | [] => (none, r)
  | v :: rest =>
    match env.dtlsSend v r.world with
    | (.wouldBlock, w) =>
      match pushBack { r with world := w } packets with
      | some r => (some .done, r)
      | none => (some (.stop .panic), r)
    | (.failed, w) =>
      if r.state = .closing then
        if rest = [] then (some .again, { r with world := w })
        else match pushBack { r with world := w } rest with
          | some r => (some .again, r)
          | none => (some (.stop .panic), r)
      else (some (.stop (.error .dtlsSend)), { r with world := w })
    | (.ok, w) =>
      if rest = [] then (some .again, { r with world := w })
      else match pushBack { r with world := w } rest with
        | some r => (some .again, r)
        | none => (some (.stop .panic), r)

/-- lib.rs 1703-1781 -/
def sctpLoop (env : Env W) : Nat → Rtc W → Option (SctpEnd × Rtc W)
  | 0, _ => none
  | fuel + 1, r =>
    match sctpNext env r with
    | (none, r) => some (.done, r)
    | (some e, r₀) =>
      let r := r₀.say (.sctp e)
      match e with
      | .transmit packets =>
        match sctpTransmit env r packets with
        | (some o, r) => some (o, r)
        | (none, r) => sctpLoop env fuel r
      | .opened s label =>
        match (r.chan.ensure s).byStream s with
        | some id => some (.stop (.event (.channelOpen id label)), { r with chan := r.chan.ensure s })
        | none => some (.stop .panic, r)
      | .closed s pending =>
        match r.chan.byStream s with
        | none => sctpLoop env fuel r
        | some id => some (.stop (.event (.channelClose id)), { r with chan := r.chan.remove id pending })
      | .resetComplete s => sctpLoop env fuel { r with chan := r.chan.resetComplete s }
      | .lost =>
        let a := startClose env { r with chan := r.chan.lost }
        some (.stop (if a.1 then .event .closed else .error .close), a.2)
      | .data s binary d =>
        match r.chan.byStream s with
        | none => sctpLoop env fuel r
        | some id => some (.stop (.event (.channelData id binary d)), r)
      | .low s =>
        match r.chan.byStream s with
        | none => sctpLoop env fuel r
        | some id => some (.stop (.event (.channelLow id)), r)

/-- util/mod.rs 20-35 -/
def soonest (a b : Option Nat × Nat) : Option Nat × Nat :=
  match a, b with
  | (some x, s), (some y, t) => if x < y then (some x, s) else (some y, t)
  | (none, _), (none, _) => (none, 0)
  | (none, _), (some y, t) => (some y, t)
  | (some x, s), (none, _) => (some x, s)

/-- lib.rs 1824-1832; the reasons are 0 for `NotHappening` and 1-6 in the order of the list, the session has its own above. -/
def nextTimer (env : Env W) (r : Rtc W) : Option Nat × Nat :=
  soonest (soonest (soonest (soonest (soonest (soonest (none, 0) (r.nextDtls, 1)) (env.iceTimeout r.world, 2))
    (env.sessionTimeout r.world)) (env.sctpTimeout r.world, 4))
    (if env.sctpInited r.world && r.chan.wantsTimeout then some env.past else none, 5)) (env.statsTimeout r.world, 6)

/-- lib.rs 1824-1853: nothing to send and no event, a timeout. -/
def pollTimeout (env : Env W) (r : Rtc W) : Outcome × Rtc W :=
  let x := nextTimer env r
  let time := match x.1 with | some t => t | none => env.never
  let next := if time < r.lastNow then r.lastNow else time
  if decide (r.state = .closing) && drained env r then (.timeout env.never, { r with state := .closed, reason := 0 })
  else (.timeout next, { r with reason := x.2 })

/-- lib.rs 1804-1822 and on: a datagram for the nominated address, or the timeout. -/
def pollDatagram (env : Env W) (r : Rtc W) : Outcome × Rtc W :=
  match r.sendAddr with
  | some a =>
    match r.pending with
    | p :: rest => (.transmit { addr := a, contents := p }, { r with pending := rest })
    | [] =>
      match env.sessionDatagram r.lastNow r.world with
      | (some p, w) => (.transmit { addr := a, contents := p }, { r with world := w })
      | (none, w) => pollTimeout env { r with world := w }
  | none => pollTimeout env { r with world := env.clearFeedback r.world }

/-- lib.rs 1800-1802 and on -/
def pollIce (env : Env W) (r : Rtc W) : Outcome × Rtc W :=
  match env.iceTransmit r.world with
  | (some t, w) => (.transmit t, ({ r with world := w } : Rtc W).say (.iceSend t))
  | (none, w) => pollDatagram env { r with world := w }

/-- lib.rs 1783-1798 and on -/
def pollRest (env : Env W) (r : Rtc W) : Outcome × Rtc W :=
  match env.sessionEvent r.world with
  | (some k, w) => (.event (.session k), { r with world := w })
  | (none, w) =>
    match env.sessionMedia w with
    | (.ok (some k), w) => (.event (.session k), { r with world := w })
    | (.err _, w) => (.error .media, { r with world := w })
    | (.panic, w) => (.panic, { r with world := w })
    | (.ok none, w) =>
      match env.stats w with
      | (some k, w) => (.event (.stats k), { r with world := w })
      | (none, w) => pollIce env { r with world := w }

/-- lib.rs 1577-1854 -/
def doPoll (env : Env W) : Nat → Rtc W → Option (Outcome × Rtc W)
  | 0, _ => none
  | fuel + 1, r =>
    if r.state = .closed then some (.timeout env.never, { r with reason := 0 })
    else
      match iceLoop env fuel r with
      | none => none
      | some (some e, r) => some (.event e, r)
      | some (none, r) =>
        match dtlsTimer env r with
        | (false, r) => some (.error .dtlsTimer, r)
        | (true, r) =>
          match dtlsLoop env fuel false r with
          | none => none
          | some (.stop o, r) => some (o, r)
          | some (.done true, r) => some (.event .connected, r)
          | some (.done false, r) =>
            match sctpLoop env fuel r with
            | none => none
            | some (.stop o, r) => some (o, r)
            | some (.again, r) => doPoll env fuel r
            | some (.done, r) => some (pollRest env r)

/-- lib.rs 1548-1575; ghost: what it returns is noted. -/
def poll (env : Env W) (fuel : Nat) (r : Rtc W) : Option (Outcome × Rtc W) :=
  match doPoll env fuel r with
  | none => none
  | some (.transmit t, r) => some (.transmit t, ({ r with peerTx := r.peerTx + t.contents.length } : Rtc W).say (.out (.transmit t)))
  | some (o, r) => some (o, r.say (.out o))

/-- lib.rs 2025-2064; false: the session failed. Ghost: the clock moved or the time is earlier. -/
def handleTimeout (env : Env W) (t : Nat) (r : Rtc W) : Bool × Rtc W :=
  if t < r.lastNow then (true, r.say (.time t))
  else
    let w := env.tick t r.world
    let chan := if env.sctpInited w then (r.chan.timeout (env.sctpClient w)).1 else r.chan
    let w := if env.sctpInited w then env.sctpOpen (r.chan.timeout (env.sctpClient w)).2 w else w
    let a := env.sessionTick t w
    if a.1 then (true, ({ r with lastNow := t, chan := chan, world := env.statsTick t r.peerRx r.peerTx a.2 } : Rtc W).say (.time t))
    else (false, ({ r with lastNow := t, chan := chan, world := a.2 } : Rtc W).say (.time t))

/-- `DatagramRecvInner`; of STUN the bytes before parsing. -/
inductive Datagram where
  | stun (b : List Byte)
  | dtls (b : List Byte)
  | media (b : List Byte)
deriving Repr, DecidableEq

/-- How long it was on the wire. -/
def Datagram.len : Datagram → Nat
  | .stun b | .dtls b | .media b => b.length

/-- lib.rs 2066-2094 with dtls.rs 152-161; false: DTLS failed. -/
def handleReceive (env : Env W) (t : Nat) (d : Datagram) (r : Rtc W) : Bool × Rtc W :=
  match d with
  | .stun b => (true, ({ r with world := env.receive t b r.world } : Rtc W).say (.arrived true d.len))
  | .media b =>
    (true, ({ r with world := env.receive t b r.world, peerRx := r.peerRx + b.length } : Rtc W).say (.arrived false d.len))
  | .dtls b =>
    match r.active with
    | none => (true, ({ r with peerRx := r.peerRx + b.length } : Rtc W).say (.arrived false d.len))
    | some _ =>
      let a := env.dtlsReceive b r.world
      (a.1, ({ r with world := a.2, peerRx := r.peerRx + b.length } : Rtc W).say (.arrived false d.len))

/-- lib.rs 1482-1500 -/
def initDtls (env : Env W) (active : Bool) (r : Rtc W) : Bool × Rtc W :=
  match r.active with
  | some _ => (true, r)
  | none =>
    let a := env.dtlsTimer r.lastNow (env.dtlsActive active r.world)
    if a.1 then (true, { r with active := some active, world := if active then (env.dtlsReceive [] a.2).2 else a.2 })
    else (false, { r with active := some active, world := a.2 })

/-- change/sdp.rs 86-93 and 183-190: false: there is none. -/
def takeFingerprint (f : Option Fingerprint) (r : Rtc W) : Bool × Rtc W :=
  match r.expected, f with
  | some _, _ => (true, r)
  | none, some f => (true, ({ r with expected := some f } : Rtc W).say (.expects f))
  | none, none => (false, r.disconnect.say .ended)

/-- What the caller does. -/
inductive Op (W : Type) where
  /-- `poll_output` -/
  | poll
  /-- `handle_input(Input::Timeout(t))` -/
  | timeout (t : Nat)
  /-- `handle_input(Input::Receive(t, d))` -/
  | receive (t : Nat) (d : Datagram)
  | close
  | disconnect
  /-- `direct_api().set_remote_fingerprint`, `start_dtls` -/
  | setFingerprint (f : Fingerprint)
  | startDtls (active : Bool)
  /-- an offer or an answer of the peer, with the fingerprint in it; what it does to the session is an `api` -/
  | remoteSdp (offer : Bool) (f : Option Fingerprint) (active : Bool)
  /-- a new channel, and that it is wanted (channel.rs 198-238) -/
  | newChannel (wanted : Option Nat)
  | confirm (id : Nat)
  /-- `close_data_channel` (channel.rs 405-414) -/
  | closeChannel (id : Nat)
  /-- anything else, which changes only the parts -/
  | api (f : W → W)

/-- One call, and what it returns where that matters: an outcome of `poll_output`, or an error or panic of another call. -/
def step (env : Env W) (fuel : Nat) (r : Rtc W) : Op W → Option (Option Outcome × Rtc W)
  | .poll => (poll env fuel r).map (fun p => (some p.1, p.2))
  | .timeout t =>
    if r.state = .closed then some (none, r)
    else
      let a := handleTimeout env t r
      some (if a.1 then none else some (.error .session), a.2)
  | .receive t d =>
    if r.state = .closed then some (none, r)
    else
      let a := handleReceive env t d r
      if a.1 then
        let b := handleTimeout env t a.2
        some (if b.1 then none else some (.error .session), b.2)
      else some (some (.error .dtlsReceive), a.2)
  | .close =>
    let a := startClose env r
    some (if a.1 then none else some (.error .close), a.2)
  | .disconnect => some (none, r.disconnect.say .ended)
  | .setFingerprint f => some (none, ({ r with expected := some f } : Rtc W).say (.expects f))
  | .startDtls active =>
    let a := initDtls env active r
    some (if a.1 then none else some (.error .dtlsInit), a.2)
  | .remoteSdp offer f active =>
    if offer then
      let a := takeFingerprint f r
      if a.1 then
        let b := initDtls env active a.2
        some (if b.1 then none else some (.error .dtlsInit), b.2)
      else some (some (.error .missingFingerprint), a.2)
    else
      let b := initDtls env active r
      if b.1 then
        let a := takeFingerprint f b.2
        some (if a.1 then none else some (.error .missingFingerprint), a.2)
      else some (some (.error .dtlsInit), b.2)
  | .newChannel wanted =>
    match r.chan.newChannel wanted with
    | .ok (h, id) => some (none, ({ r with chan := h } : Rtc W).say (.created id))
    | _ => some (some .panic, r)
  | .confirm id =>
    match r.chan.confirm id with
    | .ok h => some (none, { r with chan := h })
    | _ => some (some .panic, r)
  | .closeChannel id =>
    match r.chan.byId id with
    | some s => some (none, { r with world := env.sctpCloseStream s r.world })
    | none => some (none, r)
  | .api f => some (none, { r with world := f r.world })

/-- A history. -/
def run (env : Env W) (fuel : Nat) (r : Rtc W) : List (Op W) → Option (Rtc W)
  | [] => some r
  | op :: ops =>
    match step env fuel r op with
    | none => none
    | some (_, r') => run env fuel r' ops

end Str0m.RtcLoop
