import Verif.Model.IceAgent
import Verif.Model.Stun

/-!
Several `Rtc` on one UDP socket: `Rtc::accepts` (lib.rs 1905-1933) on top of the ICE agent (`Model/IceAgent.lean`) and the check of STUN
messages (`Model/Stun.lean`).

Simplifications: the agent's opaque numbers for credentials and transactions stand for credentials and ids given by `Names`; the events of
the agent are drained at once (lib.rs 1582-1614; a state change is returned in between, and the application polls on until a timeout); what
is not STUN is only "media" (DTLS, RTP and RTCP are treated alike).
-/

namespace Str0m.Share

/-- What the numbers of the ICE agent stand for -/
structure Names where
  creds : Nat → Stun.Creds
  trans : List Byte → Nat

/-- The parts of `Rtc` that `accepts` reads; `sendTo` is `send_addr.destination` (lib.rs 916) -/
structure Rtc where
  agent : Ice.Agent
  loc : Stun.Creds
  sendTo : Option Ice.Addr := none

/-- io/mod.rs `DatagramRecvInner` -/
inductive Contents where
  | stun (m : Stun.Msg)
  | media
deriving Repr, DecidableEq

/-- net.rs `Receive` -/
structure Datagram where
  source : Ice.Addr
  contents : Contents
deriving Repr, DecidableEq

/-- agent.rs 515-518: the pairs in order; the index can panic -/
def viableIn (remotes : List Ice.Cand) (addr : Ice.Addr) : List Ice.Pair → Res Unit Bool
  | [] => .ok false
  | p :: ps =>
    if p.state = .succeeded then
      match remotes[p.remoteIdx]? with
      | none => .panic
      | some c => if c.addr = addr then .ok true else viableIn remotes addr ps
    else viableIn remotes addr ps

/-- agent.rs 514-519 `has_viable_remote_candidate` -/
def viable (a : Ice.Agent) (addr : Ice.Addr) : Res Unit Bool := viableIn a.remotes addr a.pairs

/-- agent.rs 1118-1121 -/
def outstanding (n : Names) (a : Ice.Agent) (t : List Byte) : Bool := a.pairs.any (fun p => (p.bindingAttempt (n.trans t)).isSome)

/-- lib.rs 1905-1933 `accepts` -/
def Rtc.accepts (env : Stun.Env) (n : Names) (r : Rtc) (d : Datagram) : Res Unit Bool :=
  if r.sendTo = some d.source then .ok true
  else
    match d.contents with
    | .stun m => Stun.acceptsMessage env r.loc (r.agent.remoteCreds.map n.creds) (outstanding n r.agent) m
    | .media => viable r.agent d.source

/-- the destination of an event, if it is a nomination -/
def nominatedTo : Ice.Event → Option Ice.Addr
  | .nominatedSend _ d => some d
  | _ => none

/-- lib.rs 1582-1614: the events in order; each nomination replaces the address -/
def Rtc.poll (r : Rtc) : Rtc :=
  { r with
    agent := { r.agent with events := [] }
    sendTo := match (r.agent.events.filterMap nominatedTo).getLast? with
      | some d => some d
      | none => r.sendTo }

/-- What happens to an `Rtc` -/
inductive Op where
  | ice (op : Ice.Op)
  /-- agent.rs 986-1016 with new local credentials -/
  | restart (keep : Bool) (creds : Stun.Creds)
  | poll

/-- One of them -/
def Rtc.step (r : Rtc) : Op → Rtc
  | .ice op => { r with agent := Ice.step r.agent op }
  | .restart keep c => { r with agent := Ice.step r.agent (.restart keep), loc := c }
  | .poll => r.poll

/-- All of them -/
def Rtc.run (r : Rtc) (ops : List Op) : Rtc := ops.foldl Rtc.step r

/-- lib.rs 1881-1882: the first instance that accepts gets the datagram -/
def pick (env : Stun.Env) (n : Names) (d : Datagram) : List Rtc → Res Unit (Option Rtc)
  | [] => .ok none
  | r :: rs =>
    match r.accepts env n d with
    | .ok true => .ok (some r)
    | .ok false => pick env n d rs
    | .err e => .err e
    | .panic => .panic

end Str0m.Share
