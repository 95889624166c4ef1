import Verif.Model.Negotiate
import Verif.Model.Channel

/-!
The SDP API of the application: `change/sdp.rs` 30-613 (`SdpApi`, `SdpPendingOffer`) on top of the negotiation of `Model/Negotiate.lean`,
the table of channels of `Model/Channel.lean` and what the ICE agent knows of credentials and roles.

Simplifications, on top of those of `Model/Negotiate.lean`:
* ICE credentials are numbers; random draws (`IceCreds::new`, `Mid::new`) are parameters; candidates, SSRCs, fingerprints (C91) and
  a=sctp-init (SNAP) are left out;
* a data channel's configuration is only the stream id it asks for;
* new channels stay in the list given to `apply_answer`, which looks at none of them.
-/

namespace Str0m.SdpApi
open Str0m.Negotiate (Dir Sess Media Sdp)
open Str0m.Channel (Handler)

/-- What of an `Rtc` takes part: the session, the channels, and of the ICE agent (crates/is agent.rs) whether it is lite, its role,
and the credentials of both sides -/
structure Peer where
  sess : Sess := .empty
  chans : Handler := .empty
  lite : Bool := false
  controlling : Bool := false
  localCreds : Nat
  remoteCreds : Option Nat := none
deriving Repr, DecidableEq

/-- An offer or an answer -/
structure Desc where
  sdp : Sdp
  creds : Option Nat
  lite : Bool
deriving Repr, DecidableEq

/-- change/sdp.rs 634-641 `Change` -/
inductive Change where
  | media (mid : Nat) (dir : Dir) (pts : List Nat)
  | app (mid : Nat)
  | channel (id : Nat)
  | direction (mid : Nat) (dir : Dir)
  | restart (creds : Nat)
deriving Repr, DecidableEq

/-- The same change for the negotiation -/
def Change.toNeg : Change → Negotiate.Change
  | .media mid dir pts => .addMedia mid dir pts
  | .app mid => .addApp mid
  | .channel id => .addChannel id
  | .direction mid dir => .direction mid dir
  | .restart _ => .iceRestart

/-- change/sdp.rs 587-590 `SdpPendingOffer` -/
structure Pending where
  changeId : Nat
  changes : List Change
deriving Repr, DecidableEq

/-- What `RtcError` can be here -/
inductive Err where
  | session (e : Negotiate.Err)
  | bothLite
  | noCreds
  | restartInAnswer
deriving Repr, DecidableEq

/-- change/sdp.rs 30-33 `SdpApi`: it borrows the `Rtc` -/
structure Api where
  peer : Peer
  changes : List Change := []
deriving Repr, DecidableEq

/-! ### Building changes -/

/-- change/sdp.rs 274-344 `add_media`; `mid` is the result of `new_mid` (lib.rs 1524-1531) -/
def Api.addMedia (a : Api) (mid : Nat) (dir : Dir) (pts : List Nat) : Api := { a with changes := a.changes ++ [.media mid dir pts] }

/-- session.rs 1235-1256 `set_direction`: whether it is a change -/
def changesDirection (s : Sess) (mid : Nat) (dir : Dir) : Bool :=
  match s.medias.find? (fun m => decide (m.mid = mid)) with
  | none => false
  | some m => !decide (m.dir = dir)

/-- change/sdp.rs 357-363 `set_direction` -/
def Api.setDirection (a : Api) (mid : Nat) (dir : Dir) : Api :=
  if changesDirection a.peer.sess mid dir then
    { peer := { a.peer with sess := a.peer.sess.setDirection mid dir }, changes := a.changes ++ [.direction mid dir] }
  else a

/-- session.rs 1258-1264: whether `stop_media` is a change -/
def stops (s : Sess) (mid : Nat) : Bool :=
  match s.medias.find? (fun m => decide (m.mid = mid)) with
  | none => false
  | some m => !m.disabled

/-- change/sdp.rs 379-387 `stop_media` -/
def Api.stopMedia (a : Api) (mid : Nat) : Api :=
  if stops a.peer.sess mid then
    { peer := { a.peer with sess := a.peer.sess.stopMedia mid }, changes := a.changes ++ [.direction mid .inactive] }
  else a

/-- change/sdp.rs 1687-1694 `contains_add_app` -/
def containsApp (cs : List Change) : Bool :=
  cs.any (fun c => match c with
    | .app _ => true
    | _ => false)

/-- change/sdp.rs 441-455 `add_channel_with_config`; `mid` is the result of `new_mid` -/
def Api.addChannel (a : Api) (mid : Nat) (negotiated : Option Nat) : Res Unit (Api × Nat) :=
  let cs := if a.peer.sess.app = none ∧ containsApp a.changes = false then a.changes ++ [.app mid] else a.changes
  match a.peer.chans.newChannel negotiated with
  | .ok (h, id) => .ok ({ peer := { a.peer with chans := h }, changes := cs ++ [.channel id] }, id)
  | .err e => .err e
  | .panic => .panic

/-- change/sdp.rs 468-469 -/
def Change.isRestart : Change → Bool
  | .restart _ => true
  | _ => false

/-- change/sdp.rs 467-476 `ice_restart`; `creds` is the result of `IceCreds::new`, and what the application is given -/
def Api.iceRestart (a : Api) (creds : Nat) : Api := { a with changes := a.changes.filter (fun c => !c.isRestart) ++ [.restart creds] }

/-- change/sdp.rs 598-609 `is_relevant` -/
def relevant (p : Peer) : Change → Bool
  | .media mid _ _ => (p.sess.medias.find? (fun m => decide (m.mid = mid))).isNone
  | .app _ => p.sess.app.isNone
  | .channel id => (p.chans.byId id).isNone
  | .direction mid dir => changesDirection p.sess mid dir
  | .restart c => !decide (p.localCreds = c)

/-- change/sdp.rs 551-562 `merge`, 597-612 `retain_relevant` -/
def Api.merge (a : Api) (p : Pending) : Api := { a with changes := p.changes.filter (relevant a.peer) ++ a.changes }

/-! ### Offer and answer -/

/-- change/sdp.rs 623-630 `ice_restart` -/
def firstRestart (cs : List Change) : Option Nat :=
  cs.findSome? (fun c => match c with
    | .restart x => some x
    | _ => none)

/-- change/sdp.rs 1696-1712 `take_new_channels`: last first -/
def newChannels (cs : List Change) : List Nat :=
  (cs.filterMap (fun c => match c with
    | .channel id => some id
    | _ => none)).reverse

/-- change/sdp.rs 224-226, 689-691 -/
def confirmAll (h : Handler) : List Nat → Res Unit Handler
  | [] => .ok h
  | id :: ids =>
    match h.confirm id with
    | .ok h => confirmAll h ids
    | .err e => .err e
    | .panic => .panic

/-- change/sdp.rs 694-714 `create_offer` and 1608-1631 `AsSdpParams::new` -/
def Peer.createOffer (p : Peer) (cs : List Change) : Peer × Desc :=
  ({ p with controlling := if p.sess.active = none then !p.lite else p.controlling },
   { sdp := p.sess.offerOf (cs.map Change.toNeg), creds := some ((firstRestart cs).getD p.localCreds), lite := p.lite })

/-- change/sdp.rs 675-683 `requires_negotiation` -/
def requiresNegotiation : Change → Bool
  | .channel _ => false
  | _ => true

/-- lib.rs 2137-2141 `next_change_id` -/
def Peer.nextChange (p : Peer) : Peer := { p with sess := { p.sess with changeCounter := p.sess.changeCounter + 1 } }

/-- change/sdp.rs 502-524 `apply` -/
def Api.apply (a : Api) : Res Unit (Peer × Option (Desc × Pending)) :=
  if a.changes = [] then .ok (a.peer, none)
  else if a.changes.any requiresNegotiation then
    let r := a.peer.nextChange.createOffer a.changes
    .ok (r.1, some (r.2, { changeId := a.peer.sess.changeCounter, changes := a.changes }))
  else
    match confirmAll a.peer.chans (newChannels a.changes) with
    | .ok h => .ok ({ a.peer.nextChange with chans := h }, none)
    | .err e => .err e
    | .panic => .panic

/-- change/sdp.rs 730-733: the credentials are not those known -/
def Peer.restarted (p : Peer) (creds : Nat) : Bool :=
  match p.remoteCreds with
  | some v => !decide (v = creds)
  | none => false

/-- change/sdp.rs 716-761 `add_ice_details`; `new` are the credentials for a restart, if there are any. Of `ice_restart` (agent.rs
986-1016) only the credentials matter here. -/
def Peer.addIce (p : Peer) (creds : Option Nat) (new : Option Nat) : Peer × Res Err Unit :=
  match creds with
  | none => (p, .err .noCreds)
  | some c =>
    if p.restarted c then
      match new with
      | none => (p, .err .restartInAnswer)
      | some n => ({ p with localCreds := n, remoteCreds := some c }, .ok ())
    else ({ p with remoteCreds := some c }, .ok ())

/-- change/sdp.rs 95-99 -/
def Peer.answererRole (p : Peer) (offerLite : Bool) : Peer :=
  if p.sess.active = none then { p with controlling := offerLite } else p

/-- change/sdp.rs 68-134 `accept_offer`; `fresh` is the result of `IceCreds::new` (747) -/
def Peer.acceptOffer (p : Peer) (offer : Desc) (fresh : Nat) : Peer × Res Err Desc :=
  if offer.sdp.lines = [] then (p.nextChange, .err (.session .noLines))
  else if p.lite = true ∧ offer.lite = true then (p.nextChange, .err .bothLite)
  else
    match p.addIce offer.creds (some fresh) with
    | (p, .err e) => (p.nextChange, .err e)
    | (p, .panic) => (p.nextChange, .panic)
    | (p, .ok ()) =>
      let p := p.answererRole offer.lite
      match p.sess.acceptOffer offer.sdp with
      | (s, .error e) => ({ p with sess := s }, .err (.session e))
      | (s, .ok sdp) => ({ p with sess := s }, .ok { sdp := sdp, creds := some p.localCreds, lite := p.lite })

/-- change/sdp.rs 158-229 `accept_answer` -/
def Peer.acceptAnswer (p : Peer) (pending : Pending) (answer : Desc) : Peer × Res Err Unit :=
  if p.sess.changeCounter ≠ pending.changeId + 1 then (p, .err (.session .changesOutOfOrder))
  else if p.lite = true ∧ answer.lite = true then (p, .err .bothLite)
  else
    match p.addIce answer.creds (firstRestart pending.changes) with
    | (p, .err e) => (p, .err e)
    | (p, .panic) => (p, .panic)
    | (p, .ok ()) =>
      match p.sess.acceptAnswer ⟨pending.changeId, pending.changes.map Change.toNeg⟩ answer.sdp with
      | none => (p, .panic)
      | some (s, .error e) => ({ p with sess := s }, .err (.session e))
      | some (s, .ok ()) =>
        match confirmAll p.chans (newChannels pending.changes) with
        | .ok h => ({ p with sess := s, chans := h }, .ok ())
        | _ => ({ p with sess := s }, .panic)

/-- channel.rs 256-266: the table of channels when time passes; there is an association once the application's m-line was negotiated
(change/sdp.rs 123-127, 218-222), and the client is the active side. Gives what is opened. -/
def Peer.timeout (p : Peer) : Peer × List (Nat × Nat) :=
  if p.sess.app = none then (p, [])
  else
    let r := p.chans.timeout (p.sess.active == some true)
    ({ p with chans := r.1 }, r.2)

end Str0m.SdpApi
