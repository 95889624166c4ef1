import Mathlib.Algebra.Order.Field.Rat
import Mathlib.Data.List.Sort
import Mathlib.Data.List.Perm.Basic

/-!
Statistics: stats.rs, what the streams count for it (streams/receive.rs 458-586, 675, 681-688, 815-859; streams/send_stats.rs) and the
snapshot of `Session::visit_stats` and `Rtc::do_handle_timeout`.

Simplifications: counters are natural numbers (`u64` in the code); fractions are rational (`f32`); the fields of a `PeerStats` other than the
four byte counters and the time are left out (bandwidth estimate, losses of TWCC, round trip time, candidate pair: lib.rs 2044-2057,
session.rs 1147-1151). What decides that a packet is counted, that a stream is declared or that its SSRC changes is elsewhere
(`Model/StreamTable.lean`, `Model/StreamTx.lean`): here it is an input. A `HashMap` is a list without repeated keys; the order in which it is
walked is not known, so a timeout is given the four orders it comes across.
-/

namespace Str0m.Stats

/-- rtp_ `MidRid` -/
abbrev Key := Nat × Option Nat

/-- receive.rs `StreamRxStats` and `sender_info` (receive.rs 75-120) of a `StreamRx`; `remote` is octets and packets of the last SR -/
structure Rx where
  ssrc : Nat
  key : Key
  bytes : Nat := 0
  packets : Nat := 0
  firs : Nat := 0
  plis : Nat := 0
  nacks : Nat := 0
  jitter : Nat := 0
  rtt : Option Nat := none
  loss : Option ℚ := none
  remote : Option (Nat × Nat) := none
deriving Repr, DecidableEq

/-- send_stats.rs 13-46 `StreamTxStats` of a `StreamTx`; `ssrc` is where it is in
`streams_tx`; `losses` is `Losses::Enabled`; `lastRr` is max_seq, jitter, packets_lost -/
structure Tx where
  ssrc : Nat
  key : Key
  bytes : Nat := 0
  packets : Nat := 0
  firs : Nat := 0
  plis : Nat := 0
  nacks : Nat := 0
  rtt : Option Nat := none
  losses : List (Nat × ℚ) := []
  lastRr : Option (Nat × Nat × Nat) := none
deriving Repr, DecidableEq

/-- stats.rs 185-211 `MediaIngressStats` -/
structure Ingress where
  key : Key
  bytes : Nat
  packets : Nat
  firs : Nat
  plis : Nat
  nacks : Nat
  jitter : Nat
  rtt : Option Nat
  loss : Option ℚ
  «at» : Nat
  remote : Option (Nat × Nat)
deriving Repr, DecidableEq

/-- stats.rs 136-168 `MediaEgressStats` -/
structure Egress where
  key : Key
  bytes : Nat
  packets : Nat
  firs : Nat
  plis : Nat
  nacks : Nat
  rtt : Option Nat
  loss : Option ℚ
  «at» : Nat
  remote : Option (Nat × Nat × Nat)
deriving Repr, DecidableEq

/-- stats.rs 65-86 `PeerStats` -/
structure Peer where
  peerRx : Nat
  peerTx : Nat
  rx : Nat
  tx : Nat
  «at» : Nat
deriving Repr, DecidableEq

/-- stats.rs 56-60 `StatsEvent` -/
inductive Event where
  | peer (p : Peer)
  | ingress (i : Ingress)
  | egress (e : Egress)
deriving Repr, DecidableEq

/-- stats.rs 10-14 `Stats`, and what of `Rtc` and `Session` it reports -/
structure State where
  interval : Nat
  lastNow : Option Nat := none
  queue : List Event := []
  /-- `Rtc::last_now` -/
  clock : Nat := 0
  rxs : List Rx := []
  txs : List Tx := []
  peerRx : Nat := 0
  peerTx : Nat := 0
  mediaRx : Nat := 0
  mediaTx : Nat := 0
deriving Repr, DecidableEq

/-- stats.rs 244-252 -/
def mergeRemote : Option (Nat × Nat) → Option (Nat × Nat) → Option (Nat × Nat)
  | none, o => o
  | some r, none => some r
  | some r, some o => some (r.1 + o.1, r.2 + o.2)

/-- stats.rs 217-254 `merge_by_mid_rid`; the two assertions are about the keys, which are equal where it is called -/
def merge (a b : Ingress) : Ingress where
  key := a.key
  bytes := a.bytes + b.bytes
  packets := a.packets + b.packets
  firs := a.firs + b.firs
  plis := a.plis + b.plis
  nacks := a.nacks + b.nacks
  jitter := if a.at > b.at then a.jitter else b.jitter
  rtt := if a.at > b.at then a.rtt else b.rtt
  loss := if a.at > b.at then a.loss else b.loss
  «at» := max a.at b.at
  remote := mergeRemote a.remote b.remote

/-- receive.rs 831-847 -/
def Rx.stats (r : Rx) (now : Nat) : Ingress :=
  ⟨r.key, r.bytes, r.packets, r.firs, r.plis, r.nacks, r.jitter, r.rtt, r.loss, now, r.remote⟩

/-- receive.rs 853-857: `entry(midrid).and_modify(merge).or_insert` -/
def upsert : List Ingress → Ingress → List Ingress
  | [], x => [x]
  | y :: m, x => if y.key = x.key then merge y x :: m else y :: upsert m x

/-- receive.rs 681-688 `visit_stats` and 820-830: the probe stream has SSRC 0 -/
def visitRx (now : Nat) (m : List Ingress) (r : Rx) : List Ingress :=
  if r.ssrc = 0 then m
  else if r.bytes = 0 then m
  else upsert m (r.stats now)

/-- send_stats.rs 178-181: sorted by sequence number; the sort is stable -/
def sorted (l : List (Nat × ℚ)) : List (Nat × ℚ) := l.insertionSort (fun a b => a.1 ≤ b.1)

/-- send_stats.rs 111-116: weights and values of neighbours -/
def windows : List (Nat × ℚ) → List (Nat × ℚ)
  | a :: b :: l => (b.1 - a.1, b.2) :: windows (b :: l)
  | _ => []

/-- send_stats.rs 106-120 -/
def avgLoss (l : List (Nat × ℚ)) : Option ℚ :=
  let w := windows (sorted l)
  let total := (w.map (·.1)).sum
  if total = 0 then none else some ((w.map (fun p => p.2 * (p.1 : ℚ))).sum / total)

/-- send_stats.rs 184-189 `clear_all_but_last`, after the sort in place -/
def keepLast (l : List (Nat × ℚ)) : List (Nat × ℚ) := (sorted l).drop ((sorted l).length - 1)

/-- send_stats.rs 126-145 -/
def Tx.stats (t : Tx) (now : Nat) : Egress :=
  ⟨t.key, t.bytes, t.packets, t.firs, t.plis, t.nacks, t.rtt, avgLoss t.losses, now, t.lastRr⟩

/-- send_stats.rs 124: `HashMap::insert` -/
def insertEgress : List Egress → Egress → List Egress
  | [], x => [x]
  | y :: m, x => if y.key = x.key then x :: m else y :: insertEgress m x

/-- send_stats.rs 101-147 `fill`: the map -/
def visitTx (now : Nat) (m : List Egress) (t : Tx) : List Egress :=
  if t.bytes = 0 then m else insertEgress m (t.stats now)

/-- send_stats.rs 101-147 `fill`: the stream -/
def Tx.reported (t : Tx) : Tx := if t.bytes = 0 then t else { t with losses := keepLast t.losses }

/-- the order a map is walked in: the one given, if it is one of its orders -/
def inOrder {α : Type} [BEq α] (given l : List α) : List α := if given.isPerm l then given else l

/-- The orders in which a timeout walks the maps: streams_tx, streams_rx, snapshot.ingress, snapshot.egress -/
structure Orders where
  txs : List Tx := []
  rxs : List Rx := []
  ins : List Ingress := []
  egs : List Egress := []
deriving Repr, DecidableEq

/-- session.rs 1141-1143 -/
def ingressMap (s : State) (now : Nat) (o : Orders) : List Ingress := (inOrder o.rxs s.rxs).foldl (visitRx now) []

/-- session.rs 1137-1139 -/
def egressMap (s : State) (now : Nat) (o : Orders) : List Egress := (inOrder o.txs s.txs).foldl (visitTx now) []

/-- lib.rs 2041-2058, stats.rs 296-320: the events of a report -/
def report (s : State) (now : Nat) (o : Orders) : List Event :=
  .peer ⟨s.peerRx, s.peerTx, s.mediaRx, s.mediaTx, now⟩ ::
    ((inOrder o.ins (ingressMap s now o)).map .ingress ++ (inOrder o.egs (egressMap s now o)).map .egress)

/-- stats.rs 284-293 `wants_timeout`: the first time is learnt -/
def wants (s : State) (now : Nat) : Bool :=
  match s.lastNow with
  | none => false
  | some l => decide (now ≥ l + s.interval)

/-- lib.rs 2025-2064 `do_handle_timeout`, stats.rs 284-323 -/
def timeout (s : State) (now : Nat) (o : Orders) : State :=
  if now < s.clock then s
  else if wants s now then
    { s with clock := now, queue := s.queue ++ report s now o, lastNow := some now, txs := s.txs.map Tx.reported }
  else { s with clock := now, lastNow := some (s.lastNow.getD now) }

/-- stats.rs 328-331 `poll_timeout` -/
def pollTimeout (s : State) : Option Nat := s.lastNow.map (· + s.interval)

/-- the stream under an SSRC -/
def onRx (s : State) (ssrc : Nat) (f : Rx → Rx) : State := { s with rxs := s.rxs.map (fun r => if r.ssrc = ssrc then f r else r) }

/-- the stream under an SSRC -/
def onTx (s : State) (ssrc : Nat) (f : Tx → Tx) : State := { s with txs := s.txs.map (fun t => if t.ssrc = ssrc then f t else t) }

/-- What happens. Inputs about SSRCs without a stream change nothing. -/
inductive Op where
  | timeout (now : Nat) (o : Orders)
  /-- lib.rs 1792-1798, when nothing is before it -/
  | poll
  /-- streams/mod.rs 300-316 `expect_stream_rx` -/
  | rxDeclare (ssrc : Nat) (key : Key)
  /-- streams/mod.rs 321-328, 620-626 -/
  | rxRemove (ssrc : Nat)
  /-- streams/mod.rs 652-675 with receive.rs 740-771; the new SSRC is unknown (session.rs 440-470) -/
  | rxChange (old new : Nat)
  /-- receive.rs 454-489 and session.rs 687 -/
  | rxPacket (ssrc len : Nat)
  | rxFir (ssrc : Nat)
  | rxPli (ssrc : Nat)
  | rxNack (ssrc : Nat)
  /-- receive.rs 582-586 with 815-818 -/
  | rxRr (ssrc : Nat) (fraction : Fin 256) (jitter : Nat)
  /-- receive.rs 315-319 -/
  | rxDlrr (ssrc : Nat) (rtt : Option Nat)
  /-- receive.rs 290-313 -/
  | rxSr (ssrc octets packets : Nat)
  | txDeclare (ssrc : Nat) (key : Key)
  | txRemove (ssrc : Nat)
  /-- direct.rs 363-391 and send.rs 1217-1246: new counters; the stream stays where it is in the table -/
  | txReset (ssrc : Nat)
  /-- send_stats.rs 66-73; called at send.rs 801, 826 -/
  | txPacket (ssrc len : Nat)
  | txFir (ssrc : Nat)
  | txPli (ssrc : Nat)
  | txNack (ssrc : Nat)
  /-- send_stats.rs 87-99 -/
  | txRr (ssrc : Nat) (seq : Nat) (fraction : Fin 256) (rtt : Option Nat) (jitter lost : Nat)
  /-- lib.rs 2076 -/
  | peerRx (len : Nat)
  /-- lib.rs 1568 -/
  | peerTx (len : Nat)
  /-- session.rs 1055 -/
  | mediaTx (len : Nat)
deriving Repr, DecidableEq

/-- whether a stream has the SSRC -/
def hasRx (s : State) (ssrc : Nat) : Bool := s.rxs.any (fun r => r.ssrc == ssrc)

/-- whether a stream has the SSRC -/
def hasTx (s : State) (ssrc : Nat) : Bool := s.txs.any (fun t => t.ssrc == ssrc)

/-- One input, and what is told -/
def step (s : State) : Op → State × Option Event
  | .timeout now o => (timeout s now o, none)
  | .poll => ({ s with queue := s.queue.tail }, s.queue.head?)
  | .rxDeclare ssrc key => (if hasRx s ssrc then s else { s with rxs := s.rxs ++ [{ ssrc := ssrc, key := key }] }, none)
  | .rxRemove ssrc => ({ s with rxs := s.rxs.filter (fun r => r.ssrc != ssrc) }, none)
  | .rxChange old new => (if hasRx s new then s else onRx s old (fun r => { r with ssrc := new, remote := none }), none)
  | .rxPacket ssrc len =>
    (if hasRx s ssrc ∧ ssrc ≠ 0 then
      { onRx s ssrc (fun r => { r with bytes := r.bytes + len, packets := r.packets + 1 }) with mediaRx := s.mediaRx + len }
     else s, none)
  | .rxFir ssrc => (onRx s ssrc (fun r => { r with firs := r.firs + 1 }), none)
  | .rxPli ssrc => (onRx s ssrc (fun r => { r with plis := r.plis + 1 }), none)
  | .rxNack ssrc => (onRx s ssrc (fun r => { r with nacks := r.nacks + 1 }), none)
  | .rxRr ssrc f j => (onRx s ssrc (fun r => { r with loss := some ((f.val : ℚ) / 255), jitter := j }), none)
  | .rxDlrr ssrc d => (onRx s ssrc (fun r => { r with rtt := d }), none)
  | .rxSr ssrc o p => (onRx s ssrc (fun r => { r with remote := some (o, p) }), none)
  | .txDeclare ssrc key => (if hasTx s ssrc then s else { s with txs := s.txs ++ [{ ssrc := ssrc, key := key }] }, none)
  | .txRemove ssrc => ({ s with txs := s.txs.filter (fun t => t.ssrc != ssrc) }, none)
  | .txReset ssrc => (onTx s ssrc (fun t => { ssrc := t.ssrc, key := t.key }), none)
  | .txPacket ssrc len => (onTx s ssrc (fun t => { t with bytes := t.bytes + len, packets := t.packets + 1 }), none)
  | .txFir ssrc => (onTx s ssrc (fun t => { t with firs := t.firs + 1 }), none)
  | .txPli ssrc => (onTx s ssrc (fun t => { t with plis := t.plis + 1 }), none)
  | .txNack ssrc => (onTx s ssrc (fun t => { t with nacks := t.nacks + 1 }), none)
  | .txRr ssrc q f d j l =>
    (onTx s ssrc (fun t => { t with rtt := d, lastRr := some (q, j, l), losses := t.losses ++ [(q, (f.val : ℚ) / 255)] }), none)
  | .peerRx n => ({ s with peerRx := s.peerRx + n }, none)
  | .peerTx n => ({ s with peerTx := s.peerTx + n }, none)
  | .mediaTx n => ({ s with mediaTx := s.mediaTx + n }, none)

/-- A history: the state at its end and what was told -/
def run (s : State) : List Op → State × List Event
  | [] => (s, [])
  | op :: ops =>
    let r := run (step s op).1 ops
    (r.1, (step s op).2.toList ++ r.2)

end Str0m.Stats
