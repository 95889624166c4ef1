import Mathlib.Data.List.Basic
/-
  When the streams of a session send their RTCP reports and ask for lost packets: streams/mod.rs 299-495 and 584-712,
  the scheduling part of streams/receive.rs and streams/send.rs, session.rs 275-346 and 1065-1118.
  What is in a report is modelled elsewhere (Sr, Dlrr, NackInv); here only which report is made at which time.
  Times are microseconds since `already_happened()` (util/time_tricks.rs 52-54).
-/
namespace Str0m.Reports

/-- `already_happened()`, util/time_tricks.rs 52-54: the beginning of time, up to an hour before the first call -/
def past : Nat := 0

/-- `NACK_MIN_INTERVAL`, session.rs 44 -/
def NACK_MIN : Nat := 33000

/-- `MID_PROBE`, media/mod.rs 42; the mid of no media -/
def midProbe : Nat := 0

/-- `RtcpReportIntervals`, config.rs 64-74, and the kinds of the media -/
structure Cfg where
  audio : Nat
  video : Nat
  isAudio : Nat → Bool

/-- `for_audio`, config.rs 71-73 -/
def Cfg.interval (c : Cfg) (audio : Bool) : Nat := if audio then c.audio else c.video

/-- `StreamRx`, receive.rs 30-110, as far as the schedule needs it -/
structure Rx where
  ssrc : Nat
  mid : Nat
  rtx : Option Nat := none
  prev : Option Nat := none
  last : Nat := past
  suppress : Bool
deriving DecidableEq, Repr

/-- `StreamTx`, send.rs 86-182, as far as the schedule needs it; `key` is where it is kept in the map -/
structure Tx where
  key : Nat
  ssrc : Nat
  mid : Nat
  audio : Option Bool := none
  last : Nat := past
deriving DecidableEq, Repr

/-- `Streams`, mod.rs 124-157, with `last_nack` and `rtp_closing` of the session. The maps are lists: nothing proved
depends on the order. -/
structure S where
  rx : List Rx := []
  tx : List Tx := []
  nackActive : Option Bool := none
  lastNack : Nat := past
  closing : Bool := false
deriving DecidableEq, Repr

/-- What a timeout makes: a receiver report (with the extended report, receive.rs 573-598), a sender report
(send.rs 985-997), or the list of what is missing (receive.rs 658-679; it may be empty). -/
inductive Report where
  | rr (ssrc : Nat)
  | sr (ssrc : Nat)
  | nack (ssrc : Nat)
deriving DecidableEq, Repr

/-- `receiver_report_at`, receive.rs 243-249: a stream without RTX counts as audio -/
def rrAt (c : Cfg) (r : Rx) : Nat := r.last + c.interval r.rtx.isNone

/-- `need_rr`, receive.rs 565-571 -/
def needRr (c : Cfg) (now : Nat) (r : Rx) : Bool := r.ssrc ≠ 0 ∧ rrAt c r ≤ now

/-- `sender_report_at`, send.rs 896-906; none is `not_happening()` -/
def srAt (c : Cfg) (t : Tx) : Option Nat := t.audio.map (fun a => t.last + c.interval a)

/-- `need_sr`, send.rs 981-983 -/
def needSr (c : Cfg) (now : Nat) (t : Tx) : Bool :=
  match srAt c t with
  | none => false
  | some u => u ≤ now

/-- `any_nack_enabled`, mod.rs 702-707: computed once, until it is forgotten -/
def anyNack (s : S) : S :=
  match s.nackActive with
  | some _ => s
  | none => { s with nackActive := some (s.rx.any (fun r => !r.suppress)) }

/-- `nack_at`, session.rs 1112-1118 -/
def nackAt (s : S) : Option Nat := if (anyNack s).nackActive = some true then some (s.lastNack + NACK_MIN) else none

/-- session.rs 285 -/
def doNack (s : S) (now : Nat) : Bool :=
  match nackAt s with
  | none => false
  | some u => u ≤ now

/-- the first list of media to report, mod.rs 432-437 -/
def rxMids (c : Cfg) (s : S) (now : Nat) : List Nat := (s.rx.filter (needRr c now)).map (·.mid)

/-- the second list, mod.rs 455-460 -/
def txMids (c : Cfg) (s : S) (now : Nat) : List Nat := (s.tx.filter (needSr c now)).map (·.mid)

/-- mod.rs 439-453, without the requests of the application -/
def rxOut (mids : List Nat) (nack : Bool) (r : Rx) : List Report :=
  (if r.mid ∈ mids then [.rr r.ssrc] else []) ++ (if nack && !r.suppress then [.nack r.ssrc] else [])

/-- receive.rs 597 -/
def rxNext (mids : List Nat) (now : Nat) (r : Rx) : Rx := if r.mid ∈ mids then { r with last := now } else r

/-- mod.rs 462-468 -/
def txOut (mids : List Nat) (t : Tx) : List Report := if t.mid ∈ mids then [.sr t.ssrc] else []

/-- send.rs 996, then 1164-1181: the first timeout learns the kind -/
def txNext (c : Cfg) (mids : List Nat) (now : Nat) (t : Tx) : Tx :=
  let t := if t.mid ∈ mids then { t with last := now } else t
  match t.audio with
  | some _ => t
  | none => { t with audio := some (c.isAudio t.mid) }

/-- `handle_timeout`, session.rs 275-333 and mod.rs 421-483 -/
def timeout (c : Cfg) (s : S) (now : Nat) : S × List Report :=
  if s.closing then (s, []) else
    ({ anyNack s with
        rx := s.rx.map (rxNext (rxMids c s now) now)
        tx := s.tx.map (txNext c (txMids c s now) now)
        lastNack := if doNack s now then now else s.lastNack },
      s.rx.flatMap (rxOut (rxMids c s now) (doNack s now)) ++ s.tx.flatMap (txOut (txMids c s now)))

/-- `regular_feedback_at`, mod.rs 399-403 -/
def feedbackAt (c : Cfg) (s : S) : Option Nat := (s.rx.map (rrAt c) ++ s.tx.filterMap (srAt c)).min?

/-- What happens to the streams. -/
inductive Op where
  | expectRx (ssrc : Nat) (rtx : Option Nat) (mid : Nat) (suppress : Bool)
  | changeRx (old new : Nat)
  | removeRx (ssrc : Nat)
  | declareTx (ssrc mid : Nat)
  | removeTx (ssrc : Nat)
  | resetTx (key ssrc : Nat)
  | removeMid (mid : Nat)
  | suppress (ssrc : Nat) (on viaMid : Bool)
  | poll
  | timeout (now : Nat)
  | close
deriving DecidableEq, Repr

/-- `maybe_reset_rtx`, receive.rs 773-789 -/
def setRtx (rtx : Option Nat) (r : Rx) : Rx :=
  match rtx with
  | none => r
  | some x => { r with rtx := some x }

/-- `expect_stream_rx`, mod.rs 299-319; also `ensure_probe_stream`, session.rs 475-487 -/
def expectRx (s : S) (ssrc : Nat) (rtx : Option Nat) (mid : Nat) (suppress : Bool) : S :=
  if s.rx.any (fun r => r.ssrc = ssrc) then
    { s with nackActive := none, rx := s.rx.map (fun r => if r.ssrc = ssrc then setRtx rtx r else r) }
  else { s with nackActive := none, rx := s.rx ++ [setRtx rtx { ssrc, mid, suppress }] }

/-- `change_stream_rx_ssrc`, mod.rs 652-675, and `change_ssrc`, receive.rs 739-771. The map holds one stream per SSRC. -/
def changeRx (s : S) (old new : Nat) : S :=
  match s.rx.find? (fun r => r.ssrc = old) with
  | none => s
  | some r =>
    if new = r.ssrc ∨ some new = r.prev then s
    else { s with rx := s.rx.filter (fun q => q.ssrc ≠ old ∧ q.ssrc ≠ new) ++ [{ r with ssrc := new, prev := some r.ssrc, last := past }] }

/-- `declare_stream_tx`, mod.rs 330-339 -/
def declareTx (s : S) (ssrc mid : Nat) : S :=
  if s.tx.any (fun t => t.key = ssrc) then s else { s with tx := s.tx ++ [{ key := ssrc, ssrc, mid }] }

/-- `reset_stream_tx`, direct.rs 363-391, and `reset_ssrc`, send.rs 1217-1246: the key in the map stays -/
def resetTx (s : S) (key ssrc : Nat) : S :=
  { s with tx := s.tx.map (fun t => if t.key = key ∧ t.ssrc ≠ ssrc then { t with ssrc := ssrc, last := past } else t) }

/-- `suppress_nack`, receive.rs 235-241, on the stream found by `stream_rx` (mod.rs 358-360, which keeps the answer of
`any_nack_enabled`) or by `stream_rx_by_mid` (mod.rs 606-618, which forgets it) -/
def suppressRx (s : S) (ssrc : Nat) (on viaMid : Bool) : S :=
  { s with
    rx := s.rx.map (fun r => if r.ssrc = ssrc then { r with suppress := on } else r)
    nackActive := if viaMid then none else s.nackActive }

/-- One step, and the reports it makes. -/
def step (c : Cfg) (s : S) : Op → S × List (Nat × Report)
  | .expectRx a b m n => (expectRx s a b m n, [])
  | .changeRx a b => (changeRx s a b, [])
  | .removeRx a => ({ s with rx := s.rx.filter (fun r => r.ssrc ≠ a) }, [])
  | .declareTx a m => (declareTx s a m, [])
  | .removeTx a => ({ s with tx := s.tx.filter (fun t => t.key ≠ a) }, [])
  | .resetTx k a => (resetTx s k a, [])
  | .removeMid m => ({ s with rx := s.rx.filter (fun r => r.mid ≠ m), tx := s.tx.filter (fun t => t.mid ≠ m) }, [])
  | .suppress a on v => (suppressRx s a on v, [])
  | .poll => (anyNack s, [])
  | .timeout now => ((timeout c s now).1, (timeout c s now).2.map (fun r => (now, r)))
  | .close => ({ s with closing := true }, [])

/-- A history, with all reports and their times. -/
def run (c : Cfg) (s : S) : List Op → S × List (Nat × Report)
  | [] => (s, [])
  | op :: ops => ((run c (step c s op).1 ops).1, (step c s op).2 ++ (run c (step c s op).1 ops).2)

end Str0m.Reports
