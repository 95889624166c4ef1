/-
  Grouping of acknowledged packets by send and arrival time: bwe/delay/arrival_group.rs.
  Times are whole nanoseconds (`Instant`s; the differences are exact in `TimeDelta` for finite times). Sequence numbers and
  sizes are kept by the code but decide nothing.
-/
namespace Str0m.Arrival

/-- `AckedPacket`, bwe: the two times the grouping looks at -/
structure Pkt where
  send : Int
  recv : Int
deriving DecidableEq, Repr

/-- `BURST_TIME_INTERVAL`, arrival_group.rs 9 -/
def BURST : Int := 5000000
/-- `SEND_TIME_GROUP_LENGTH`, arrival_group.rs 10 -/
def LENGTH : Int := 5000000
/-- `MAX_BURST_DURATION`, arrival_group.rs 11 -/
def MAX_BURST : Int := 100000000

/-- `ArrivalGroup`, arrival_group.rs 13-20, with at least one packet: the code's options are all set by the first packet.
The empty group is `none`. -/
structure Group where
  firstSend : Int
  firstRecv : Int
  lastSend : Int
  lastRecv : Int
deriving DecidableEq, Repr

inductive Belongs where | yes | newGroup | skipped
deriving DecidableEq, Repr

/-- `belongs_to_group`, arrival_group.rs 51-83, for a group with packets. The subtraction of `Instant`s in 76 stops at 0,
which makes no difference to the comparison. -/
def belongs (g : Group) (p : Pkt) : Belongs :=
  if p.send < g.firstSend then .skipped
  else if p.send - g.lastSend = 0 then .yes
  else if (p.recv - g.lastRecv) - (p.send - g.lastSend) < 0 ∧ p.recv - g.lastRecv ≤ BURST ∧ p.recv - g.firstRecv < MAX_BURST then .yes
  else if p.send - g.firstSend > LENGTH then .newGroup
  else .yes

/-- `add_packet`, arrival_group.rs 26-49: the group after it, and whether a new one is needed -/
def addPacket (g : Option Group) (p : Pkt) : Option Group × Bool :=
  match g with
  | none => (some { firstSend := p.send, firstRecv := p.recv, lastSend := p.send, lastRecv := p.recv }, false)
  | some g =>
    match belongs g p with
    | .newGroup => (some g, true)
    | .skipped => (some g, false)
    | .yes => (some { g with lastSend := max g.lastSend p.send, lastRecv := max g.lastRecv p.recv }, false)

/-- `InterGroupDelayDelta`, arrival_group.rs 179-188 -/
structure Delta where
  send : Int
  arrival : Int
  time : Int
deriving DecidableEq, Repr

/-- `ArrivalGroupAccumulator`, arrival_group.rs 130-134 -/
structure Acc where
  previous : Option Group := none
  current : Option Group := none
deriving DecidableEq, Repr

/-- `accumulate_packet`, arrival_group.rs 141-163, with 86-94 and 165-175 -/
def accumulate (s : Acc) (p : Pkt) : Acc × Option Delta :=
  match addPacket s.current p with
  | (some g, true) =>
    ({ previous := some g, current := (addPacket none p).1 },
      s.previous.map (fun q => { send := g.lastSend - q.lastSend, arrival := g.lastRecv - q.lastRecv, time := g.lastRecv }))
  | (g, _) => ({ s with current := g }, none)

/-- All packets, and the deltas they make. -/
def run (s : Acc) : List Pkt → Acc × List Delta
  | [] => (s, [])
  | p :: ps => ((run (accumulate s p).1 ps).1, (accumulate s p).2.toList ++ (run (accumulate s p).1 ps).2)

end Str0m.Arrival
