import Verif.Model.Arrival
/-
  C134: what it means to group packets.
-/
namespace Str0m.Arrival

/-- The latest of these times. -/
def latest : List Int → Int
  | [] => 0
  | t :: ts => ts.foldl max t

/-- When the last packet of the group was sent, and when the last arrived. -/
def lastSent (g : List Pkt) : Int := latest (g.map (fun p => p.send))
def lastArrived (g : List Pkt) : Int := latest (g.map (fun p => p.recv))

/-- When the first packet of the group was sent, and when it arrived. -/
def firstSent : List Pkt → Int
  | [] => 0
  | p :: _ => p.send
def firstArrived : List Pkt → Int
  | [] => 0
  | p :: _ => p.recv

/-- The packet goes with those of the group: sent within 5 ms of the first, or together with the last; or it comes in a
burst: it arrives at most 5 ms after the last, closer than it was sent, and less than 100 ms after the first. -/
def GoesWith (g : List Pkt) (p : Pkt) : Prop :=
  p.send - firstSent g ≤ 5000000 ∨ p.send = lastSent g ∨
    (p.recv - lastArrived g < p.send - lastSent g ∧ p.recv - lastArrived g ≤ 5000000 ∧ p.recv - firstArrived g < 100000000)

/-- Each group ends where the first packet of the next does not go with it. -/
def Split : List (List Pkt) → Prop
  | g :: (p :: h) :: gs => ¬ GoesWith g p ∧ Split ((p :: h) :: gs)
  | _ => True

/-- The differences between the last times of two groups. -/
def between (a b : List Pkt) : Delta :=
  { send := lastSent b - lastSent a, arrival := lastArrived b - lastArrived a, time := lastArrived b }

/-- Of each two groups in a row. -/
def differences (gs : List (List Pkt)) : List Delta := gs.zipWith between gs.tail

/-- These packets, in this order, are groups that follow the rule: every packet is sent no earlier than the first of its
group and goes with those before it in the group. -/
structure Groups (gs : List (List Pkt)) : Prop where
  some : ∀ g ∈ gs, g ≠ []
  split : Split gs
  goes : ∀ g ∈ gs, ∀ a p b, g = a ++ p :: b → a ≠ [] → firstSent g ≤ p.send ∧ GoesWith a p

open Classical in
/-- The groups with one more packet: it is left out if it was sent before the first of the last group, goes with that group,
or starts a new one. -/
noncomputable def addTo (gs : List (List Pkt)) (p : Pkt) : List (List Pkt) :=
  match gs.getLast? with
  | none => [[p]]
  | some g => if p.send < firstSent g then gs else if GoesWith g p then gs.dropLast ++ [g ++ [p]] else gs ++ [[p]]

/-- The packets are in the order they were sent. -/
def InOrder (ps : List Pkt) : Prop := ps.Pairwise (fun a b => a.send ≤ b.send)

end Str0m.Arrival
