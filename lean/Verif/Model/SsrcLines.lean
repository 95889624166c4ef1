import Mathlib.Data.List.Basic
/-
  SSRCs told in the SDP: the end of `as_media_line` (change/sdp.rs 1543-1577), `ssrc_info` (sdp/data.rs 604-667) and the end of
  `update_media` (change/sdp.rs 1359-1399), with `expect_stream_rx` (streams/mod.rs 299-319).
-/
namespace Str0m.SsrcLines

/-- `MediaAttribute` (sdp/data.rs), as far as `ssrc_info` looks at it: `a=ssrc`, whose attribute and value it only uses
for names; `a=ssrc-group`, with "the semantics is FID in any case" (643); anything else -/
inductive Attr where
  | ssrc (ssrc : Nat)
  | group (fid : Bool) (ssrcs : List Nat)
  | other (n : Nat)
deriving DecidableEq, Repr

/-- `SsrcInfo`, sdp/data.rs 686-694, without the names -/
structure Info where
  ssrc : Nat
  repairs : Option Nat := none
deriving DecidableEq, Repr

/-- `by_ssrc`, sdp/data.rs 607-617: makes sure there is an entry -/
def bySsrc (v : List Info) (ssrc : Nat) : List Info := if v.any (fun i => i.ssrc = ssrc) then v else v ++ [{ ssrc := ssrc }]

/-- sdp/data.rs 619-636: the first pass -/
def lineOf (v : List Info) : Attr → List Info
  | .ssrc s => bySsrc v s
  | _ => v

/-- sdp/data.rs 653-654; `by_ssrc` keeps one entry for each SSRC, so there is one to change -/
def setRepairs (v : List Info) (ssrc repaired : Nat) : List Info :=
  v.map (fun i => if i.ssrc = ssrc then { i with repairs := some repaired } else i)

/-- sdp/data.rs 639-659: the second pass, with exactly two SSRCs -/
def groupOf (v : List Info) : Attr → List Info
  | .group true [main, rtx] => setRepairs (bySsrc v rtx) rtx main
  | _ => v

/-- `ssrc_info`, sdp/data.rs 604-667 -/
def ssrcInfo (attrs : List Attr) : List Info := attrs.foldl groupOf (attrs.foldl lineOf [])

/-- change/sdp.rs 1384-1393: each main SSRC with the first that repairs it -/
def mains (infos : List Info) : List (Nat × Option Nat) :=
  (infos.filter (fun i => i.repairs.isNone)).map
    (fun i => (i.ssrc, (infos.find? (fun r => r.repairs = some i.ssrc)).map (·.ssrc)))

/-- `StreamRx`, as made by `expect_stream_rx` -/
structure Rx where
  ssrc : Nat
  mid : Nat
  rtx : Option Nat
  suppress : Bool
deriving DecidableEq, Repr

/-- `maybe_reset_rtx`, receive.rs 773-789 -/
def setRtx (rtx : Option Nat) (r : Rx) : Rx :=
  match rtx with
  | none => r
  | some x => { r with rtx := some x }

/-- `expect_stream_rx`, streams/mod.rs 299-319, as called at change/sdp.rs 1395-1398 -/
def expectRx (mid : Nat) (t : List Rx) (p : Nat × Option Nat) : List Rx :=
  if t.any (fun r => r.ssrc = p.1) then t.map (fun r => if r.ssrc = p.1 then setRtx p.2 r else r)
  else t ++ [{ ssrc := p.1, mid, rtx := p.2, suppress := p.2.isNone }]

/-- change/sdp.rs 1359-1399: nothing if the media does not receive, or with simulcast -/
def updateMedia (receiving simulcast : Bool) (mid : Nat) (attrs : List Attr) (t : List Rx) : List Rx :=
  if receiving && !simulcast then (mains (ssrcInfo attrs)).foldl (expectRx mid) t else t

/-- change/sdp.rs 1545-1567: two lines (`cname` and `msid`) for each SSRC -/
def linesOf (p : Nat × Option Nat) : List Attr :=
  [.ssrc p.1, .ssrc p.1] ++ (match p.2 with
    | none => []
    | some x => [.ssrc x, .ssrc x])

/-- change/sdp.rs 1570-1577 -/
def fidOf (p : Nat × Option Nat) : Option Attr := p.2.map (fun x => .group true [p.1, x])

/-- change/sdp.rs 1543-1577: the outgoing SSRCs of the m-line -/
def announce (l : List (Nat × Option Nat)) : List Attr := l.flatMap linesOf ++ l.filterMap fidOf

end Str0m.SsrcLines
