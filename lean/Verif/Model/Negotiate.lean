import Verif.Base

/-!
Offer/answer negotiation: media directions (`rtp/dir.rs`), DTLS roles (`a=setup`), the order of the m-lines
(`change/sdp.rs`).

Simplified: of an m-line the model keeps its kind, mid, whether the port is 0, the direction and the payload types that
match the local configuration; codec parameters, header extensions, SSRCs, simulcast and ICE are elsewhere or left out.
Mids are numbers.
-/

namespace Str0m.Negotiate

/-- dir.rs 7-16 -/
inductive Dir where
  | sendOnly | recvOnly | sendRecv | inactive
deriving Repr, DecidableEq

/-- dir.rs 25-31 -/
def Dir.invert : Dir → Dir
  | .sendOnly => .recvOnly
  | .recvOnly => .sendOnly
  | d => d

/-- dir.rs 34-36 -/
def Dir.sending : Dir → Bool
  | .sendOnly | .sendRecv => true
  | _ => false

/-- dir.rs 39-41 -/
def Dir.receiving : Dir → Bool
  | .recvOnly | .sendRecv => true
  | _ => false

/-- dir.rs 60-70 -/
def Dir.ofString (s : String) : Dir :=
  if s = "sendonly" then .sendOnly
  else if s = "recvonly" then .recvOnly
  else if s = "sendrecv" then .sendRecv
  else .inactive

/-- dir.rs 72-85 -/
def Dir.toStr : Dir → String
  | .sendOnly => "sendonly"
  | .recvOnly => "recvonly"
  | .sendRecv => "sendrecv"
  | .inactive => "inactive"

/-- sdp/data.rs 785-790 -/
inductive Setup where
  | actPass | active | passive
deriving Repr, DecidableEq

/-- sdp/data.rs 815-828 -/
def Setup.compareToRemote : Setup → Setup → Option Setup
  | .actPass, .actPass => none
  | .actPass, .active => some .passive
  | .actPass, .passive => some .active
  | .active, .actPass => some .active
  | .active, .active => none
  | .active, .passive => some .active
  | .passive, .actPass => some .passive
  | .passive, .active => some .passive
  | .passive, .passive => none

/-- sdp/data.rs 830-836 -/
def Setup.invert : Setup → Setup
  | .actPass => .actPass
  | .active => .passive
  | .passive => .active

/-- `MediaType`; the two kinds of media are one here. -/
inductive Kind where
  | media | app | unknown
deriving Repr, DecidableEq

/-- sdp/data.rs `MediaLine`, what of it the negotiation below looks at; `pts` are those that match (change/sdp.rs 1330-1335). -/
structure Line where
  kind : Kind
  mid : Nat
  disabled : Bool
  dir : Dir
  pts : List Nat
deriving Repr, DecidableEq

/-- A remote SDP: `bundle` are the mids of a=group:BUNDLE. -/
structure Sdp where
  lines : List Line
  bundle : Option (List Nat)
  setup : Option Setup
deriving Repr, DecidableEq

/-- media/mod.rs `Media` -/
structure Media where
  mid : Nat
  index : Nat
  dir : Dir
  stopped : Bool
  remoteCreated : Bool
  pts : List Nat
deriving Repr, DecidableEq

/-- media/mod.rs 298-300 -/
def Media.disabled (m : Media) : Bool := m.stopped || m.pts.isEmpty

/-- session.rs 1262-1269, of the media -/
def Media.stop (m : Media) : Media := if m.disabled then m else { m with dir := .inactive, stopped := true }

/-- What of `Rtc` and `Session` takes part. `active` is the DTLS role, once set. -/
structure Sess where
  medias : List Media
  app : Option (Nat × Nat)
  active : Option Bool
  changeCounter : Nat
deriving Repr, DecidableEq

/-- A new `Rtc`. -/
def Sess.empty : Sess := { medias := [], app := none, active := none, changeCounter := 0 }

/-- The errors of `RtcError` that occur. -/
inductive Err where
  | noLines | noGroup | order | recycleInAnswer | appMid | appIndex | changesOutOfOrder | count | notMedia | notApp | notInOffer
deriving Repr, DecidableEq

/-- change/sdp.rs 1267-1270: port 0 and not bundled. -/
def rejected (bundle : Option (List Nat)) (l : Line) : Bool :=
  l.disabled && !(match bundle with | some mids => decide (l.mid ∈ mids) | none => false)

/-- change/sdp.rs 1249-1335 `update_media` -/
def updateMedia (bundle : Option (List Nat)) (l : Line) (m : Media) : Media :=
  if rejected bundle l then { m with stopped := true, dir := .inactive }
  else
    { m with
      dir := if !m.remoteCreated && decide (m.dir = .inactive) && decide (l.dir.invert = .sendOnly) then m.dir else l.dir.invert
      pts := l.pts }

/-- media/mod.rs 617-641 -/
def Media.ofLine (l : Line) (index : Nat) (remoteCreated : Bool) : Media :=
  { mid := l.mid, index := index, dir := if l.disabled then .inactive else l.dir.invert, stopped := false,
    remoteCreated := remoteCreated, pts := [] }

/-- Change the first element with the property. -/
def updateFirst {α : Type} (p : α → Bool) (f : α → α) : List α → List α
  | [] => []
  | a :: as => if p a then f a :: as else a :: updateFirst p f as

/-- `Vec::swap_remove` -/
def swapRemove {α : Type} (l : List α) (i : Nat) : List α :=
  match l.getLast? with
  | none => l
  | some last => if i + 1 = l.length then l.dropLast else (l.set i last).dropLast

/-- change/sdp.rs 1101-1155: one line; `true` if it is a new one. -/
def syncLine (isOffer : Bool) (bundle : Option (List Nat)) (s : Sess) (idx : Nat) (l : Line) : Sess × Except Err Bool :=
  match l.kind with
  | .unknown => (s, .ok false)
  | .app =>
    match s.app with
    | some (_, i) => if idx ≠ i then (s, .error .order) else (s, .ok false)
    | none => (s, .ok true)
  | .media =>
    match s.medias.find? (fun m => decide (m.mid = l.mid)) with
    | some m =>
      if idx ≠ m.index then (s, .error .order)
      else ({ s with medias := updateFirst (fun m => decide (m.mid = l.mid)) (updateMedia bundle l) s.medias }, .ok false)
    | none =>
      match s.medias.findIdx? (fun m => decide (m.index = idx)) with
      | none => (s, .ok true)
      | some pos =>
        if !isOffer then (s, .error .recycleInAnswer)
        else
          match s.medias[pos]? with
          | none => (s, .ok true)
          | some m =>
            if !m.disabled then (s, .error .order)
            else ({ s with medias := swapRemove s.medias pos }, .ok true)

/-- change/sdp.rs 1092-1162 `sync_medias`, from index `idx` on -/
def syncFrom (isOffer : Bool) (bundle : Option (List Nat)) : (s : Sess) → (idx : Nat) → List Line → Sess × Except Err (List (Nat × Line))
  | s, _, [] => (s, .ok [])
  | s, idx, l :: ls =>
    match syncLine isOffer bundle s idx l with
    | (s', .error e) => (s', .error e)
    | (s', .ok isNew) =>
      match syncFrom isOffer bundle s' (idx + 1) ls with
      | (s'', .error e) => (s'', .error e)
      | (s'', .ok new) => (s'', .ok (if isNew then (idx, l) :: new else new))

/-- session.rs 241-253 -/
def Sess.setApp (s : Sess) (mid index : Nat) : Except Err Sess :=
  match s.app with
  | some (m, i) => if m ≠ mid then .error .appMid else if i ≠ index then .error .appIndex else .ok s
  | none => .ok { s with app := some (mid, index) }

/-- change/sdp.rs 1168-1219 `add_new_lines` -/
def addNewLines (isOffer : Bool) (bundle : Option (List Nat)) : (s : Sess) → List (Nat × Line) → Sess × Except Err Unit
  | s, [] => (s, .ok ())
  | s, (idx, l) :: ls =>
    match l.kind with
    | .media => addNewLines isOffer bundle { s with medias := s.medias ++ [updateMedia bundle l (Media.ofLine l idx isOffer)] } ls
    | .app =>
      match s.setApp l.mid idx with
      | .error e => (s, .error e)
      | .ok s' => addNewLines isOffer bundle s' ls
    | .unknown => (s, .error .notMedia)

/-- change/sdp.rs 763-782 and lib.rs 1482-1500: the role is set once. -/
def Sess.initDtls (s : Sess) (remote : Option Setup) : Sess :=
  { s with active := match s.active with
      | some a => some a
      | none => some (match remote with
        | some .actPass => false
        | some r => decide (r.invert = .active)
        | none => false) }

/-- sdp/data.rs 98-127 `do_assert_consistency`, of lines the parser has passed (`check_consistent` returned `None`): the `?`
on that `None` leaves the function, so that nothing of the group is compared; only its presence is. -/
def assertConsistency (sdp : Sdp) : Except Err Unit :=
  match sdp.bundle with
  | none => .error .noGroup
  | some _ => .ok ()

/-- A line of an SDP that is written, with its place. -/
structure Placed where
  index : Nat
  line : Line
deriving Repr, DecidableEq

/-- change/sdp.rs 1483-1590: the line of a media. -/
def Media.placed (m : Media) : Placed :=
  { index := m.index, line := { kind := .media, mid := m.mid, disabled := m.disabled, dir := m.dir, pts := m.pts } }

/-- change/sdp.rs 1440-1475: the line of the application. The direction is not written. -/
def appPlaced (a : Nat × Nat) : Placed :=
  { index := a.2, line := { kind := .app, mid := a.1, disabled := false, dir := .inactive, pts := [] } }

/-- Insertion into a sorted list, behind what has the same index. -/
def insertPlaced (p : Placed) : List Placed → List Placed
  | [] => [p]
  | q :: qs => if p.index < q.index then p :: q :: qs else q :: insertPlaced p qs

/-- `sort_by_key`, a stable sort -/
def sortPlaced (l : List Placed) : List Placed := l.foldl (fun acc p => insertPlaced p acc) []

/-- change/sdp.rs 1246-1256 `as_media_lines` -/
def Sess.asLines (s : Sess) : List Placed :=
  sortPlaced ((match s.app with | some a => [appPlaced a] | none => []) ++ s.medias.map Media.placed)

/-- change/sdp.rs 1640-1645: the role in an answer. -/
def Sess.answerSetup (s : Sess) : Setup :=
  match s.active with
  | some true => .active
  | some false => .passive
  | none => .actPass

/-- change/sdp.rs 883-889: the mids of the lines that are not disabled. -/
def bundleOf (lines : List Line) : List Nat := (lines.filter (fun l => !l.disabled)).map (·.mid)

/-- change/sdp.rs 944-958 `apply_offer` -/
def Sess.applyOffer (s : Sess) (offer : Sdp) : Sess × Except Err Unit :=
  match assertConsistency offer with
  | .error e => (s, .error e)
  | .ok () =>
    match syncFrom true offer.bundle s 0 offer.lines with
    | (s', .error e) => (s', .error e)
    | (s', .ok new) => addNewLines true offer.bundle s' new

/-- change/sdp.rs 60-135 `accept_offer` -/
def Sess.acceptOffer (s : Sess) (offer : Sdp) : Sess × Except Err Sdp :=
  if offer.lines = [] then ({ s with changeCounter := s.changeCounter + 1 }, .error .noLines)
  else
    match Sess.applyOffer (Sess.initDtls { s with changeCounter := s.changeCounter + 1 } offer.setup) offer with
    | (s', .error e) => (s', .error e)
    | (s', .ok ()) =>
      (s', .ok { lines := s'.asLines.map (·.line), bundle := some (bundleOf (s'.asLines.map (·.line))), setup := some s'.answerSetup })

/-- change/sdp.rs 634-641 -/
inductive Change where
  | addMedia (mid : Nat) (dir : Dir) (pts : List Nat)
  | addApp (mid : Nat)
  | addChannel (id : Nat)
  | direction (mid : Nat) (dir : Dir)
  | iceRestart
deriving Repr, DecidableEq

/-- change/sdp.rs 676-684 -/
def Change.requiresNegotiation : Change → Bool
  | .addChannel _ => false
  | _ => true

/-- change/sdp.rs 1817-1838 `as_new_media`: the line in the offer. -/
def Change.newLine (index : Nat) : Change → Option Placed
  | .addMedia mid dir pts => some { index := index, line := { kind := .media, mid := mid, disabled := pts.isEmpty, dir := dir, pts := pts } }
  | .addApp mid => some (appPlaced (mid, index))
  | _ => none

/-- change/sdp.rs 1765-1784 `as_new_medias` -/
def newLines (start : Nat) : List Change → List Placed
  | [] => []
  | c :: cs =>
    match c.newLine start with
    | some p => p :: newLines (start + 1) cs
    | none => newLines start cs

/-- change/sdp.rs 1786-1796 `apply_to`, one change; the application's line has no direction to replace. -/
def Change.applyTo (lines : List Line) : Change → List Line
  | .direction mid dir =>
    match lines.find? (fun l => decide (l.mid = mid)) with
    | some l => if l.kind = .media then updateFirst (fun l => decide (l.mid = mid)) (fun l => { l with dir := dir }) lines else lines
    | none => lines
  | _ => lines

/-- change/sdp.rs 833-943 `as_sdp` with pending changes and 1633-1638: an offer is always actpass. -/
def Sess.offerOf (s : Sess) (changes : List Change) : Sdp :=
  let lines := changes.foldl Change.applyTo ((s.asLines ++ newLines s.asLines.length changes).map (·.line))
  { lines := lines, bundle := some (bundleOf lines), setup := some .actPass }

/-- change/sdp.rs 571-590 -/
structure Pending where
  changeId : Nat
  changes : List Change
deriving Repr, DecidableEq

/-- change/sdp.rs 500-528 `apply` -/
def Sess.apply (s : Sess) (changes : List Change) : Sess × Option (Sdp × Pending) :=
  if changes = [] then (s, none)
  else if changes.any Change.requiresNegotiation then
    ({ s with changeCounter := s.changeCounter + 1 },
     some (Sess.offerOf { s with changeCounter := s.changeCounter + 1 } changes, { changeId := s.changeCounter, changes := changes }))
  else ({ s with changeCounter := s.changeCounter + 1 }, none)

/-- change/sdp.rs 1757-1762 -/
def isNewLine : Change → Bool
  | .addMedia .. | .addApp _ => true
  | _ => false

/-- change/sdp.rs 1727-1752: the changes in order, the first with the mid of the line decides. -/
def correctLine (l : Line) : List Change → Option Err
  | [] => some .notInOffer
  | .addMedia mid _ _ :: cs => if mid = l.mid then (if l.kind = .media then none else some .notMedia) else correctLine l cs
  | .addApp mid :: cs => if mid = l.mid then (if l.kind = .app then none else some .notApp) else correctLine l cs
  | _ :: cs => correctLine l cs

/-- change/sdp.rs 1717-1755 `ensure_correct_answer` -/
def ensureCorrectAnswer (changes : List Change) (new : List (Nat × Line)) : Option Err :=
  if (changes.filter isNewLine).length ≠ new.length then some .count
  else new.findSome? (fun p => correctLine p.2 changes)

/-- change/sdp.rs 1043-1060 `add_pending_changes`: the expectation that there is a media for every one added; otherwise a panic. -/
def pendingThere (s : Sess) (changes : List Change) : Bool :=
  changes.all (fun c => match c with
    | .addMedia mid _ _ => s.medias.any (fun m => decide (m.mid = mid))
    | _ => true)

/-- change/sdp.rs 960-985 `apply_answer` and 165-230 `accept_answer`. The outer `none` is a panic. -/
def Sess.acceptAnswer (s : Sess) (p : Pending) (answer : Sdp) : Option (Sess × Except Err Unit) :=
  if s.changeCounter ≠ p.changeId + 1 then some (s, .error .changesOutOfOrder)
  else
    match assertConsistency answer with
    | .error e => some (s.initDtls answer.setup, .error e)
    | .ok () =>
      match syncFrom false answer.bundle (s.initDtls answer.setup) 0 answer.lines with
      | (s', .error e) => some (s', .error e)
      | (s', .ok new) =>
        match ensureCorrectAnswer p.changes new with
        | some e => some (s', .error e)
        | none =>
          match addNewLines false answer.bundle s' new with
          | (s'', .error e) => some (s'', .error e)
          | (s'', .ok ()) => if pendingThere s'' p.changes then some (s'', .ok ()) else none

/-- session.rs 1235-1256 -/
def Sess.setDirection (s : Sess) (mid : Nat) (dir : Dir) : Sess :=
  { s with medias := updateFirst (fun m => decide (m.mid = mid)) (fun m => { m with dir := dir }) s.medias }

/-- session.rs 1258-1270: only for a media that is not disabled. -/
def Sess.stopMedia (s : Sess) (mid : Nat) : Sess :=
  { s with medias := updateFirst (fun m => decide (m.mid = mid)) Media.stop s.medias }

end Str0m.Negotiate
