import Verif.Model.Negotiate

/-!
What the application is told about medias: the flags `need_open_event` and `need_changed_event`, set in media/mod.rs 440-443, 588-675,
change/sdp.rs 1158-1213, 1251-1305 and change/direct.rs 216-238, taken in session.rs 856-877; with `SdpApi::set_direction` and `stop_media`
(change/sdp.rs 357-390, session.rs 1235-1270) and `remove_media` (session.rs 1180-1183).

Simplifications: of an m-line only what decides about the flags; the order of lines and what is refused is in `Model/Negotiate.lean`. A
poll is one that gets to the medias: SRTP is ready and no other event waits (session.rs 815-855).
-/

namespace Str0m.MediaEv
open Str0m.Negotiate

/-- media/mod.rs 46-147 `Media`; `hasPts` is "`remote_pts` is not empty" -/
structure Media where
  mid : Nat
  dir : Dir
  remoteCreated : Bool := false
  stopped : Bool := false
  hasPts : Bool := false
  needOpen : Bool := true
  needChanged : Bool := false
deriving Repr, DecidableEq

/-- An m-line: port 0, "in the BUNDLE group", its direction, "a payload type matches" -/
structure Line where
  mid : Nat
  disabled : Bool := false
  bundled : Bool := true
  dir : Dir
  matched : Bool := true
deriving Repr, DecidableEq

/-- change/sdp.rs 1271-1274 -/
def Line.rejected (l : Line) : Bool := l.disabled && !l.bundled

/-- media/mod.rs 298-300 -/
def Media.disabled (m : Media) : Bool := m.stopped || !m.hasPts

/-- media/mod.rs 440-443 `set_direction` -/
def Media.setDirection (m : Media) (d : Dir) : Media := { m with needChanged := decide (m.dir ≠ d), dir := d }

/-- media/mod.rs 520-530 `set_remote_pts` -/
def Media.setPts (m : Media) (matched : Bool) : Media := if m.hasPts then m else { m with hasPts := matched }

/-- change/sdp.rs 1251-1335 `update_media` -/
def Media.update (m : Media) (l : Line) : Media :=
  if l.rejected then { m with stopped := true }.setDirection .inactive
  else if !m.remoteCreated && decide (m.dir = .inactive) && decide (l.dir.invert = .sendOnly) then m.setPts l.matched
  else (m.setDirection l.dir.invert).setPts l.matched

/-- media/mod.rs 617-641 `from_remote_media_line` -/
def Media.ofLine (isOffer : Bool) (l : Line) : Media :=
  { mid := l.mid, dir := if l.disabled then .inactive else l.dir.invert, remoteCreated := isOffer }

/-- change/sdp.rs 1178-1206: a new line -/
def Media.new (isOffer : Bool) (l : Line) : Media := ({ Media.ofLine isOffer l with needOpen := isOffer && !l.rejected }).update l

/-- The first media with the mid -/
def onMid (mid : Nat) (f : Media → Media) : List Media → List Media
  | [] => []
  | m :: ms => if m.mid = mid then f m :: ms else m :: onMid mid f ms

/-- session.rs 1235-1244, of the media -/
def Media.setLocal (m : Media) (d : Dir) : Media := if m.dir = d then m else m.setDirection d

/-- session.rs 1258-1270 `stop_media`, of the media -/
def Media.stop (m : Media) : Media := if m.disabled then m else { m with stopped := true }.setLocal .inactive

/-- What the application sees; `quiet` is a poll with nothing to tell, `removed` that it (or a new media in its place) removed one -/
inductive Ev where
  | added (mid : Nat) (d : Dir)
  | changed (mid : Nat) (d : Dir)
  | quiet
  | removed (mid : Nat)
deriving Repr, DecidableEq

/-- session.rs 858-877 -/
def pollMedias : List Media → List Media × Ev
  | [] => ([], .quiet)
  | m :: ms =>
    if m.needOpen then ({ m with needOpen := false } :: ms, .added m.mid m.dir)
    else if m.needChanged then ({ m with needChanged := false } :: ms, .changed m.mid m.dir)
    else (m :: (pollMedias ms).1, (pollMedias ms).2)

/-- What happens: `declare` is `DirectApi::declare_media`, `line` a line of an offer (or answer) of the peer -/
inductive Op where
  | declare (mid : Nat)
  | setDirection (mid : Nat) (d : Dir)
  | stop (mid : Nat)
  | line (isOffer : Bool) (l : Line)
  | remove (mid : Nat)
  | poll
deriving Repr, DecidableEq

/-- change/sdp.rs 1116-1155, 1178-1206 -/
def applyLine (isOffer : Bool) (l : Line) (ms : List Media) : List Media :=
  if ms.any (fun m => m.mid == l.mid) then onMid l.mid (fun m => m.update l) ms else ms ++ [Media.new isOffer l]

/-- One step -/
def step (ms : List Media) : Op → List Media × List Ev
  | .declare mid => (ms ++ [{ mid := mid, dir := .sendRecv }], [])
  | .setDirection mid d => (onMid mid (fun m => m.setLocal d) ms, [])
  | .stop mid => (onMid mid Media.stop ms, [])
  | .line o l => (applyLine o l ms, [])
  | .remove mid => (ms.filter (fun m => m.mid != mid), [.removed mid])
  | .poll => ((pollMedias ms).1, [(pollMedias ms).2])

/-- A history -/
def run (ms : List Media) : List Op → List Media × List Ev
  | [] => (ms, [])
  | op :: ops => ((run (step ms op).1 ops).1, (step ms op).2 ++ (run (step ms op).1 ops).2)

end Str0m.MediaEv
