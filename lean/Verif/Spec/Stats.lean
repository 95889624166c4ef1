import Verif.Model.Stats

/-!
What C121-C123 are about, said without the model's maps, snapshots and counters. Histories are read with the newest input first.
-/

namespace Str0m.Stats

/-- A new `Rtc` -/
structure Start (s : State) : Prop where
  lastNow : s.lastNow = none
  queue : s.queue = []
  rxs : s.rxs = []
  txs : s.txs = []

/-- when a `PeerStats` is from -/
def Event.peerTime : Event → Option Nat
  | .peer p => some p.at
  | _ => none

/-- when the `PeerStats` of a list of events are from -/
def peerTimes (l : List Event) : List Nat := l.filterMap Event.peerTime

/-- a `MediaIngressStats` -/
def Event.ingress? : Event → Option Ingress
  | .ingress i => some i
  | _ => none

/-- the `MediaIngressStats` of a list of events -/
def ingresses (l : List Event) : List Ingress := l.filterMap Event.ingress?

/-- a `MediaEgressStats` -/
def Event.egress? : Event → Option Egress
  | .egress e => some e
  | _ => none

/-- the `MediaEgressStats` of a list of events -/
def egresses (l : List Event) : List Egress := l.filterMap Event.egress?

/-- One report: what is said of the peer, then each mid/rid received once, then each mid/rid sent once, all of one time -/
def IsReport (l : List Event) : Prop :=
  ∃ (p : Peer) (is : List Ingress) (es : List Egress), l = .peer p :: (is.map .ingress ++ es.map .egress) ∧
    (is.map Ingress.key).Nodup ∧ (es.map Egress.key).Nodup ∧ (∀ i ∈ is, i.at = p.at) ∧ (∀ e ∈ es, e.at = p.at)

/-- The mid/rid that packets with an SSRC are for -/
def owner : List Op → Nat → Option Key
  | [], _ => none
  | .rxDeclare s k :: past, x => if x = s then (owner past x).or (some k) else owner past x
  | .rxRemove s :: past, x => if x = s then none else owner past x
  | .rxChange old new :: past, x =>
    if (owner past new).isSome then owner past x
    else if x = new then owner past old
    else if x = old then none
    else owner past x
  | _ :: past, x => owner past x

/-- bytes of payload that came for a mid/rid; SSRC 0 is for probes -/
def received : List Op → Key → Nat
  | [], _ => 0
  | .rxPacket s len :: past, k => received past k + (if s ≠ 0 ∧ owner past s = some k then len else 0)
  | _ :: past, k => received past k

/-- packets that came for a mid/rid -/
def receivedPackets : List Op → Key → Nat
  | [], _ => 0
  | .rxPacket s _ :: past, k => receivedPackets past k + (if s ≠ 0 ∧ owner past s = some k then 1 else 0)
  | _ :: past, k => receivedPackets past k

/-- The mid/rid that a stream in the table sends -/
def sender : List Op → Nat → Option Key
  | [], _ => none
  | .txDeclare s k :: past, x => if x = s then (sender past x).or (some k) else sender past x
  | .txRemove s :: past, x => if x = s then none else sender past x
  | _ :: past, x => sender past x

/-- bytes of payload sent for a mid/rid -/
def sent : List Op → Key → Nat
  | [], _ => 0
  | .txPacket s len :: past, k => sent past k + (if sender past s = some k then len else 0)
  | _ :: past, k => sent past k

/-- packets sent for a mid/rid -/
def sentPackets : List Op → Key → Nat
  | [], _ => 0
  | .txPacket s _ :: past, k => sentPackets past k + (if sender past s = some k then 1 else 0)
  | _ :: past, k => sentPackets past k

/-- no receiving stream is removed, and none becomes or stops being the one for probes -/
def Op.KeepsRx : Op → Prop
  | .rxRemove _ => False
  | .rxChange old new => old ≠ 0 ∧ new ≠ 0
  | _ => True

/-- packets have a payload -/
def Op.Filled : Op → Prop
  | .rxPacket _ len => 0 < len
  | _ => True

/-- no sending stream is removed or reset -/
def Op.KeepsTx : Op → Prop
  | .txRemove _ | .txReset _ => False
  | _ => True

/-- no mid/rid is sent by two streams -/
def OneSender (h : List Op) : Prop := ∀ s1 s2 k, .txDeclare s1 k ∈ h → .txDeclare s2 k ∈ h → s1 = s2

end Str0m.Stats
