import Verif.Base
/-
  The table of streams: src/streams/mod.rs 119-712, src/session.rs 447-537 and 546-561, 776-786.

  A `HashMap` is a list of (key, value) pairs; its order is arbitrary, so a history may reorder it at
  any point. `none` is a panic. MID, RID and SSRC are numbers. Of a stream only its identity is kept
  (SSRC, RTX SSRC, MID, RID and the previous SSRC); the rest of a stream is in the other models.
-/
namespace Str0m.Routing
open Str0m

/-- `HashMap::get` -/
def get {α : Type} (l : List (Nat × α)) (k : Nat) : Option α := (l.find? fun e => e.1 == k).map (·.2)

/-- `HashMap::remove` -/
def del {α : Type} (l : List (Nat × α)) (k : Nat) : List (Nat × α) := l.filter fun e => e.1 != k

/-- `HashMap::insert` -/
def put {α : Type} (l : List (Nat × α)) (k : Nat) (v : α) : List (Nat × α) := (k, v) :: del l k

/-- `HashMap::get_mut`, and write -/
def upd {α : Type} (l : List (Nat × α)) (k : Nat) (f : α → α) : List (Nat × α) :=
  l.map fun e => if e.1 = k then (e.1, f e.2) else e

/-- `values_mut().find(p)`, and write -/
def updFirst {α : Type} (p : α → Bool) (f : α → α) : List (Nat × α) → List (Nat × α)
  | [] => []
  | e :: l => if p e.2 then (e.1, f e.2) :: l else e :: updFirst p f l

/-- `StreamRx`, receive.rs 30-110: what identifies it -/
structure Rx where
  ssrc : Nat
  prev : Option Nat := none
  rtx : Option Nat := none
  mid : Nat
  rid : Option Nat
  suppressNack : Bool
deriving Repr, DecidableEq

/-- `StreamTx`, send.rs 86-182: what identifies it -/
structure Tx where
  ssrc : Nat
  rtx : Option Nat
  mid : Nat
  rid : Option Nat
deriving Repr, DecidableEq

/-- `RxLookup`, mod.rs 165-170 -/
structure Look where
  mid : Nat
  main : Nat
  lastUsed : Nat
deriving Repr, DecidableEq

/-- `Streams`, mod.rs 119-157. Times in milliseconds; a clean-up "long ago" is time 0. -/
structure Table where
  rx : List (Nat × Rx) := []
  look : List (Nat × Look) := []
  tx : List (Nat × Tx) := []
  lastCleanup : Nat := 0
deriving Repr, DecidableEq

/-- `Rids`, media/mod.rs 150-163 -/
inductive Rids where
  | none
  | any
  | specific (l : List Nat)
deriving Repr, DecidableEq

/-- `Rids::contains`, media/mod.rs 166-172 -/
def Rids.has : Rids → Nat → Bool
  | .none, _ => false
  | .any, _ => true
  | .specific l, r => l.contains r

/-- `Rids::is_specific`, media/mod.rs 174-176 -/
def Rids.isSpecific : Rids → Bool
  | .specific _ => true
  | _ => false

/-- `Media`: what the table looks at -/
structure Media where
  mid : Nat
  rids : Rids
deriving Repr, DecidableEq

/-- `PayloadParams`: what the table looks at -/
structure Param where
  pt : Nat
  resend : Option Nat
deriving Repr, DecidableEq

/-- `RtpHeader`: what the table looks at -/
structure Header where
  ssrc : Nat
  pt : Nat
  mid : Option Nat := .none
  rid : Option Nat := .none
  ridRepair : Option Nat := .none
deriving Repr, DecidableEq

/-- `MidRid::special_equals`, rtp/id.rs 371-373 -/
def matchesMidRid (mid : Nat) (rid : Option Nat) (mid' : Nat) (rid' : Option Nat) : Bool :=
  mid == mid' && (rid == none || rid == rid')

/-- `stream_rx_by_midrid`, mod.rs 606-618 -/
def rxByMidRid (t : Table) (mid : Nat) (rid : Option Nat) : Option Rx :=
  (t.rx.find? fun e => matchesMidRid mid rid e.2.mid e.2.rid).map (·.2)

/-- `maybe_reset_rtx`, receive.rs 773-789 -/
def Rx.setRtx (s : Rx) (rtx : Nat) : Rx := { s with rtx := some rtx }

/-- `or_insert_with`: mod.rs 309-312 -/
def orInsert (l : List (Nat × Rx)) (ssrc mid : Nat) (rid : Option Nat) (suppressNack : Bool) : List (Nat × Rx) :=
  if (get l ssrc).isSome then l else (ssrc, { ssrc := ssrc, mid := mid, rid := rid, suppressNack := suppressNack }) :: l

/-- `if let Some(rtx) = rtx`: mod.rs 314-316 -/
def fillRtx (l : List (Nat × Rx)) (ssrc : Nat) : Option Nat → List (Nat × Rx)
  | none => l
  | some r => upd l ssrc fun s => s.setRtx r

/-- `expect_stream_rx`, mod.rs 299-319 -/
def expectRx (t : Table) (ssrc : Nat) (rtx : Option Nat) (mid : Nat) (rid : Option Nat) (suppressNack : Bool) : Table :=
  { t with rx := fillRtx (orInsert t.rx ssrc mid rid suppressNack) ssrc rtx }

/-- `remove_stream_rx`, mod.rs 321-328 -/
def removeRx (t : Table) (ssrc : Nat) : Table :=
  { t with rx := del t.rx ssrc, look := t.look.filter fun e => e.1 != ssrc && e.2.main != ssrc }

/-- `declare_stream_tx`, mod.rs 330-339 -/
def declareTx (t : Table) (ssrc : Nat) (rtx : Option Nat) (mid : Nat) (rid : Option Nat) : Table :=
  { t with tx := if (get t.tx ssrc).isSome then t.tx else (ssrc, { ssrc := ssrc, rtx := rtx, mid := mid, rid := rid }) :: t.tx }

/-- `remove_stream_tx`, mod.rs 341-343 -/
def removeTx (t : Table) (ssrc : Nat) : Table := { t with tx := del t.tx ssrc }

/-- Whether the stream takes the new SSRC: direct.rs 375-384 -/
def resettable (ssrc : Nat) (rtx : Option Nat) (s : Tx) : Bool := !(s.ssrc == ssrc) && !(s.rtx.isSome && s.rtx == rtx)

/-- `reset_ssrc`, send.rs 1217-1246 -/
def Tx.reset (ssrc : Nat) (rtx : Option Nat) (s : Tx) : Tx :=
  if resettable ssrc rtx s then { s with ssrc := ssrc, rtx := rtx } else s

/-- `DirectApi::reset_stream_tx`, direct.rs 363-391 -/
def resetTx (t : Table) (mid : Nat) (rid : Option Nat) (ssrc : Nat) (rtx : Option Nat) : Table :=
  { t with tx := updFirst (fun s => matchesMidRid mid rid s.mid s.rid) (Tx.reset ssrc rtx) t.tx }

/-- `remove_streams_by_mid`, mod.rs 620-624 -/
def removeMid (t : Table) (mid : Nat) : Table :=
  { t with tx := t.tx.filter (fun e => e.2.mid != mid), rx := t.rx.filter (fun e => e.2.mid != mid),
           look := t.look.filter fun e => e.2.mid != mid }

/-- The end of `handle_timeout`, mod.rs 478-482 -/
def timeout (t : Table) (now : Nat) : Table :=
  if now > t.lastCleanup + 10000 then
    { t with look := t.look.filter (fun e => decide (now - e.2.lastUsed ≤ 30000)), lastCleanup := now }
  else t

/-- `change_ssrc`, receive.rs 739-771: `none` is "not changed" -/
def Rx.change (s : Rx) (ssrc : Nat) : Option Rx :=
  if ssrc = s.ssrc ∨ some ssrc = s.prev then none else some { s with prev := some s.ssrc, ssrc := ssrc }

/-- `change_stream_rx_ssrc` once the stream is found: mod.rs 660-674 -/
def moveRx (t : Table) (src dst : Nat) : Option Rx → Table
  | none => t
  | some s => { t with rx := put (del t.rx src) dst s, look := t.look.filter fun e => e.1 != src && e.2.main != src }

/-- `change_stream_rx_ssrc`, mod.rs 652-675. The `unwrap` of line 655 is the panic. -/
def changeSsrc (t : Table) (src dst : Nat) : Option Table :=
  (get t.rx src).map fun s => moveRx t src dst (s.change dst)

/-- `change_stream_rx_rtx`, mod.rs 677-694 -/
def changeRtx (t : Table) (src dst : Nat) : Table :=
  { t with look := del t.look src, rx := updFirst (fun s => s.rtx == some src) (fun s => s.setRtx dst) t.rx }

/-- mod.rs 284-289 -/
def changeRtxOpt (t : Table) : Option Nat → Option Nat → Table
  | some a, some b => if a = b then t else changeRtx t a b
  | _, _ => t

/-- mod.rs 271-282 -/
def changeSsrcIf (t : Table) (src dst : Nat) : Option Table :=
  if src = dst then some t else changeSsrc t src dst

/-- mod.rs 267-290 -/
def rebind (t : Table) (main : Nat) (rtx : Option Nat) : Option Rx → Option Table
  | none => some t
  | some s => (changeSsrcIf t s.ssrc main).map fun t => changeRtxOpt t s.rtx rtx

/-- `map_dynamic_finish`, mod.rs 256-297 -/
def mapFinish (t : Table) (mid : Nat) (rid : Option Nat) (main : Nat) (rtx : Option Nat) (p : Param) : Option Table :=
  (rebind t main rtx (rxByMidRid t mid rid)).map fun t => expectRx t main rtx mid rid p.resend.isNone

/-- mod.rs 206-219 and 238-253: the same in both -/
def mapStream (t : Table) (ssrc mid : Nat) (rid : Option Nat) (p : Param) (isMain : Bool) : Option Rx → Option Table
  | none => if isMain then mapFinish t mid rid ssrc none p else some t
  | some s => if isMain then mapFinish t mid rid ssrc s.rtx p else mapFinish t mid rid s.ssrc (some ssrc) p

/-- `map_dynamic_by_rid`, mod.rs 187-220 -/
def mapByRid (t : Table) (ssrc mid rid : Nat) (m : Media) (p : Param) (isMain : Bool) : Option Table :=
  if m.rids.has rid then mapStream t ssrc mid (some rid) p isMain (rxByMidRid t mid (some rid)) else some t

/-- `map_dynamic_by_pt`, mod.rs 222-254 -/
def mapByPt (t : Table) (ssrc mid : Nat) (m : Media) (p : Param) (isMain : Bool) : Option Table :=
  if m.rids.isSpecific then some t else mapStream t ssrc mid none p isMain (rxByMidRid t mid none)

/-- session.rs 520-536 -/
def mapKnown (t : Table) (h : Header) (mid : Nat) (m : Media) (p : Param) : Option Table :=
  match h.rid.or h.ridRepair with
  | some rid => mapByRid t h.ssrc mid rid m p h.rid.isSome
  | none => mapByPt t h.ssrc mid m p (p.pt == h.pt)

/-- `codec_config.iter().find(…)`, session.rs 510-513 -/
def findParam (codecs : List Param) (pt : Nat) : Option Param := codecs.find? fun p => p.pt == pt || p.resend == some pt

/-- session.rs 505-518 -/
def mapMid (t : Table) (h : Header) (mid : Nat) : Option Media → Option Param → Option Table
  | some m, some p => mapKnown t h mid m p
  | _, _ => some t

/-- `map_dynamic`, session.rs 489-537 -/
def mapDynamic (t : Table) (medias : List Media) (codecs : List Param) (h : Header) : Option Table :=
  match h.mid with
  | none => some t
  | some mid => mapMid t h mid (medias.find? fun m => m.mid == mid) (findParam codecs h.pt)

/-- `stream_rx_by_ssrc_or_rtx`, mod.rs 696-700 -/
def bySsrcOrRtx (t : Table) (ssrc : Nat) : Option Rx :=
  (t.rx.find? fun e => e.2.ssrc == ssrc || e.2.rtx == some ssrc).map (·.2)

/-- mod.rs 379-396 -/
def lookupSlow (t : Table) (now ssrc : Nat) : Option Rx → Table × Option (Nat × Nat)
  | none => (t, none)
  | some s => ({ t with look := put t.look ssrc { mid := s.mid, main := s.ssrc, lastUsed := now } }, some (s.mid, s.ssrc))

/-- `mid_ssrc_rx_by_ssrc_or_rtx`, mod.rs 366-397 -/
def lookup (t : Table) (now ssrc : Nat) : Table × Option (Nat × Nat) :=
  match get t.look ssrc with
  | some l => ({ t with look := upd t.look ssrc fun l => { l with lastUsed := now } }, some (l.mid, l.main))
  | none => lookupSlow t now ssrc (bySsrcOrRtx t ssrc)

/-- `MID_PROBE`, media/mod.rs 42: a MID no remote description can contain; here a number -/
def midProbe : Nat := 0

/-- `ensure_probe_stream`, session.rs 471-487 -/
def probe (t : Table) (ssrc : Nat) : Table × Option (Nat × Nat) :=
  if ssrc = 0 then (expectRx t 0 none midProbe none true, some (midProbe, 0)) else (t, none)

/-- session.rs 457-468 -/
def orProbe (ssrc : Nat) (r : Table × Option (Nat × Nat)) : Table × Option (Nat × Nat) :=
  if r.2.isSome then r else probe r.1 ssrc

/-- `mid_and_ssrc_for_header`, session.rs 447-469 -/
def forHeader (t : Table) (now : Nat) (medias : List Media) (codecs : List Param) (h : Header) : Option (Table × Option (Nat × Nat)) :=
  if (lookup t now h.ssrc).2.isSome then some (lookup t now h.ssrc)
  else (mapDynamic (lookup t now h.ssrc).1 medias codecs h).map fun t => orProbe h.ssrc (lookup t now h.ssrc)

/-- The `unwrap` of session.rs 561: the stream the packet is given to must exist -/
def mustExist (r : Table × Option (Nat × Nat)) : Option (Table × Option (Nat × Rx)) :=
  match r.2 with
  | none => some (r.1, none)
  | some (mid, ssrc) => (get r.1.rx ssrc).map fun s => (r.1, some (mid, s))

/-- The start of `handle_rtp`, session.rs 539-561: which stream an incoming packet is given to (and the MID it is
reported with), before it is authenticated -/
def route (t : Table) (now : Nat) (medias : List Media) (codecs : List Param) (h : Header) : Option (Table × Option (Nat × Rx)) :=
  (forHeader t now medias codecs h).bind mustExist

/-- `stream_tx(&fb.ssrc())`, session.rs 781-785: which outgoing stream a report, NACK, PLI, FIR or REMB is given to -/
def feedbackTo (t : Table) (ssrc : Nat) : Option Tx := get t.tx ssrc

/-- `stream_rx(&fb.ssrc())`, session.rs 776-780: which incoming stream a sender report, SDES, BYE or DLRR is given to -/
def senderInfoTo (t : Table) (ssrc : Nat) : Option Rx := get t.rx ssrc

/-- The tests of `new_ssrc`, mod.rs 548-563 -/
def taken (t : Table) (ssrc : Nat) : Bool :=
  (get t.rx ssrc).isSome || (get t.tx ssrc).isSome || t.rx.any (fun e => e.2.rtx == some ssrc) ||
    t.tx.any (fun e => e.2.rtx == some ssrc)

/-- `new_ssrc`, mod.rs 543-568, and `Ssrc::new`, rtp/id.rs 78-92, given the random numbers drawn: the SSRC and the
draws left. `none`: the loop is still running when the draws end. -/
def newSsrc (t : Table) : List Nat → Option (Nat × List Nat)
  | [] => none
  | d :: ds => if d = 0 || taken t d then newSsrc t ds else some (d, ds)

/-- The loop of `new_ssrc_pair`, mod.rs 573-579; `fuel` bounds the number of rounds -/
def newOther (t : Table) (ssrc : Nat) : Nat → List Nat → Option (Nat × List Nat)
  | 0, _ => none
  | fuel + 1, ds => (newSsrc t ds).bind fun r => if r.1 = ssrc then newOther t ssrc fuel r.2 else some r

/-- `new_ssrc_pair`, mod.rs 570-582 -/
def newPair (t : Table) (ds : List Nat) : Option ((Nat × Nat) × List Nat) :=
  (newSsrc t ds).bind fun a => (newOther t a.1 (a.2.length + 1) a.2).map fun b => ((a.1, b.1), b.2)

/-- The SSRC of one layer of a new video m-line in an offer, change/sdp.rs 317-318: (main, RTX) -/
def offerPair (t : Table) (ds : List Nat) : Option ((Nat × Nat) × List Nat) :=
  (newSsrc t ds).bind fun a => (newSsrc t a.2).map fun b => ((b.1, a.1), b.2)

/-- `HashMap` iteration order is arbitrary -/
def reorder {α : Type} [DecidableEq α] (l l' : List (Nat × α)) : List (Nat × α) := if l'.Perm l then l' else l

/-- What can happen to the table -/
inductive Op where
  /-- an incoming packet -/
  | packet (now : Nat) (medias : List Media) (codecs : List Param) (h : Header)
  /-- `DirectApi::expect_stream_rx`, direct.rs 243-263, or `a=ssrc` lines, sdp.rs 1385-1399 -/
  | expect (ssrc : Nat) (rtx : Option Nat) (mid : Nat) (rid : Option Nat) (suppressNack : Bool)
  | removeRx (ssrc : Nat)
  | declareTx (ssrc : Nat) (rtx : Option Nat) (mid : Nat) (rid : Option Nat)
  | removeTx (ssrc : Nat)
  | resetTx (mid : Nat) (rid : Option Nat) (ssrc : Nat) (rtx : Option Nat)
  | removeMid (mid : Nat)
  | timeout (now : Nat)
  | reorder (rx : List (Nat × Rx)) (look : List (Nat × Look)) (tx : List (Nat × Tx))
deriving Repr, DecidableEq

/-- One event -/
def step (t : Table) : Op → Option Table
  | .packet now medias codecs h => (route t now medias codecs h).map (·.1)
  | .expect ssrc rtx mid rid n => some (expectRx t ssrc rtx mid rid n)
  | .removeRx ssrc => some (removeRx t ssrc)
  | .declareTx ssrc rtx mid rid => some (declareTx t ssrc rtx mid rid)
  | .removeTx ssrc => some (removeTx t ssrc)
  | .resetTx mid rid ssrc rtx => some (resetTx t mid rid ssrc rtx)
  | .removeMid mid => some (removeMid t mid)
  | .timeout now => some (timeout t now)
  | .reorder rx look tx => some { t with rx := reorder t.rx rx, look := reorder t.look look, tx := reorder t.tx tx }

/-- A history -/
def run (t : Table) : List Op → Option Table
  | [] => some t
  | op :: ops => (step t op).bind fun t => run t ops

end Str0m.Routing
