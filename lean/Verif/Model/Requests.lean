import Mathlib.Data.List.Nodup

/-!
Requests of the peer that the application is told: keyframes, REMB, application feedback. The side that asks: streams/receive.rs 220-238,
512-563, 740-770, streams/mod.rs 438-441, media/writer.rs 221-241; the side that is asked: rtp/rtcp/rtcpfb.rs 36-103, session.rs 729-737,
775-785, 839-848, 854-856, streams/send.rs 908-947, streams/mod.rs 485-514.

Simplifications: what is written into a datagram and read from it is `Model/Rtcp.lean` and `Model/RtcpPack.lean`; here the items of one
datagram come one by one. The order of the streams is that of a list. A poll is one where no raw packet, pause or packet comes first
(session.rs 818-844) and no sender report waits. Bitrates are numbers.
-/

namespace Str0m.Requests

/-- `KeyframeRequestKind` -/
inductive Kind where
  | pli
  | fir
deriving Repr, DecidableEq

/-- The feedback that is about this; a FIR has one entry for each stream, REMB names streams -/
inductive Item where
  | pli (ssrc : Nat)
  | fir (entries : List (Nat × Nat))
  | remb (ssrcs : List Nat) (bitrate : Nat)
  | app (payload : Nat)
deriving Repr, DecidableEq

/-! ### The side that asks -/

/-- Of `StreamRx` -/
structure Rx where
  ssrc : Nat
  kf : Option Kind := none
  remb : Option Nat := none
  firSeq : Nat := 0
deriving Repr, DecidableEq

/-- streams/receive.rs 512-540 -/
def Rx.keyframe (s : Rx) : Rx × List Item :=
  match s.kf with
  | none => (s, [])
  | some .pli => ({ s with kf := none }, [.pli s.ssrc])
  | some .fir => ({ s with kf := none, firSeq := (s.firSeq + 1) % 256 }, [.fir [(s.ssrc, s.firSeq)]])

/-- streams/receive.rs 542-557 -/
def Rx.takeRemb (s : Rx) : Rx × List Item :=
  match s.remb with
  | none => (s, [])
  | some b => ({ s with remb := none }, [.remb [s.ssrc] b])

/-- streams/mod.rs 438-441, one stream -/
def Rx.timeout (s : Rx) : Rx × List Item := (s.keyframe.1.takeRemb.1, s.keyframe.2 ++ s.keyframe.1.takeRemb.2)

/-- streams/mod.rs 438-441 -/
def timeout (rs : List Rx) : List Rx × List Item := (rs.map (fun r => r.timeout.1), rs.flatMap (fun r => r.timeout.2))

/-- The stream with the SSRC -/
def onSsrc (ssrc : Nat) (f : Rx → Rx) (rs : List Rx) : List Rx := rs.map (fun r => if r.ssrc = ssrc then f r else r)

/-- What happens on this side: requests (streams/receive.rs 224-238), timeouts, changes of the SSRC (751-763, when it does change), and
`reset_buffers` (736; when the direction no longer receives, session.rs 1250-1253) -/
inductive Ask where
  | keyframe (ssrc : Nat) (k : Kind)
  | remb (ssrc : Nat) (bitrate : Nat)
  | timeout
  | change (ssrc new : Nat)
  | reset (ssrc : Nat)
deriving Repr, DecidableEq

/-- One step -/
def askStep (rs : List Rx) : Ask → List Rx × List Item
  | .keyframe ssrc k => (onSsrc ssrc (fun r => { r with kf := some k }) rs, [])
  | .remb ssrc b => (onSsrc ssrc (fun r => { r with remb := some b }) rs, [])
  | .timeout => timeout rs
  | .change ssrc new => (onSsrc ssrc (fun r => { r with ssrc := new, kf := none, remb := none, firSeq := 0 }) rs, [])
  | .reset ssrc => (onSsrc ssrc (fun r => { r with kf := none }) rs, [])

/-- A history -/
def askRun (rs : List Rx) : List Ask → List Rx × List Item
  | [] => (rs, [])
  | a :: as => ((askRun (askStep rs a).1 as).1, (askStep rs a).2 ++ (askRun (askStep rs a).1 as).2)

/-- Of `PayloadParams`: payload type, `fb_pli`, `fb_fir` -/
structure Fb where
  pt : Nat
  pli : Bool
  fir : Bool
deriving Repr, DecidableEq

/-- session.rs 1272-1281 -/
def possible (config : List Fb) (k : Kind) : Bool := config.any (fun r => match k with
  | .pli => r.pli
  | .fir => r.fir)

/-! ### The side that is asked -/

/-- Of `StreamTx` -/
structure Tx where
  ssrc : Nat
  mid : Nat
  rid : Option Nat
  kf : Option Kind := none
  remb : Option Nat := none
deriving Repr, DecidableEq

/-- The streams, and `pending_app_feedback` -/
structure State where
  txs : List Tx
  app : Option Nat := none
deriving Repr, DecidableEq

/-- What the application is told -/
inductive Ev where
  | keyframe (mid : Nat) (rid : Option Nat) (k : Kind)
  | remb (mid : Nat) (bitrate : Nat)
  | app (payload : Nat)
  | quiet
deriving Repr, DecidableEq

/-- `stream_tx(&ssrc)` -/
def onTx (ssrc : Nat) (f : Tx → Tx) (txs : List Tx) : List Tx := txs.map (fun t => if t.ssrc = ssrc then f t else t)

/-- session.rs 729-785, rtp/rtcp/rtcpfb.rs 64-69, 84-102, streams/send.rs 937-947; a REMB without streams is about SSRC 0 -/
def receive (s : State) : Item → State
  | .pli ssrc => { s with txs := onTx ssrc (fun t => { t with kf := some .pli }) s.txs }
  | .fir entries => { s with txs := entries.foldl (fun txs e => onTx e.1 (fun t => { t with kf := some .fir }) txs) s.txs }
  | .remb ssrcs b => { s with txs := onTx (ssrcs.headD 0) (fun t => { t with remb := some b }) s.txs }
  | .app p => { s with app := some p }

/-- streams/mod.rs 485-494 -/
def pollKeyframe : List Tx → List Tx × Option Ev
  | [] => ([], none)
  | t :: ts => match t.kf with
    | some k => ({ t with kf := none } :: ts, some (.keyframe t.mid t.rid k))
    | none => (t :: (pollKeyframe ts).1, (pollKeyframe ts).2)

/-- streams/mod.rs 509-513 -/
def pollRemb : List Tx → List Tx × Option Ev
  | [] => ([], none)
  | t :: ts => match t.remb with
    | some b => ({ t with remb := none } :: ts, some (.remb t.mid b))
    | none => (t :: (pollRemb ts).1, (pollRemb ts).2)

/-- session.rs 824-826, 846-848, 854-856 -/
def poll (s : State) : State × Ev :=
  match s.app with
  | some p => ({ s with app := none }, .app p)
  | none => match pollKeyframe s.txs with
    | (txs, some e) => ({ s with txs := txs }, e)
    | (_, none) => match pollRemb s.txs with
      | (txs, some e) => ({ s with txs := txs }, e)
      | (_, none) => (s, .quiet)

/-- What happens on this side -/
inductive Op where
  | item (i : Item)
  | poll
deriving Repr, DecidableEq

/-- What happened, with what was told -/
inductive Log where
  | item (i : Item)
  | told (e : Ev)
deriving Repr, DecidableEq

/-- One step -/
def step (s : State) : Op → State × Log
  | .item i => (receive s i, .item i)
  | .poll => ((poll s).1, .told (poll s).2)

/-- A history -/
def run (s : State) : List Op → State × List Log
  | [] => (s, [])
  | op :: ops => ((run (step s op).1 ops).1, (step s op).2 :: (run (step s op).1 ops).2)

end Str0m.Requests
