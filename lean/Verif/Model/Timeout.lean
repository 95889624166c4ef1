import Verif.Base

/-!
The next timeout (`util/mod.rs` `Soonest`, `session.rs` `poll_timeout`, `lib.rs` `do_poll_output`), and windowed sums
(`util/value_history.rs`). Instants are numbers.
-/

namespace Str0m.Timeout

/-- `Reason`, only as a tag. -/
abbrev Reason := Nat

/-- The default of `Reason`: not happening. -/
def notHappening : Reason := 0

/-- util/mod.rs 20-35 -/
def soonest : Option Nat × Reason → Option Nat × Reason → Option Nat × Reason
  | (some v1, s1), (some v2, s2) => if v1 < v2 then (some v1, s1) else (some v2, s2)
  | (none, _), (none, _) => (none, notHappening)
  | (none, _), (some v, s) => (some v, s)
  | (some v, s), (none, _) => (some v, s)

/-- The deadlines of the parts of the session: session.rs 1068-1098. `paused` are those of the receive streams in the order
of the map, `packetize` those of the medias. -/
structure Session where
  feedback : Option Nat
  nack : Option Nat
  twcc : Option Nat
  pacing : Option Nat × Reason
  packetize : List (Option Nat)
  paused : List (Option Nat)
  sendStream : Option Nat
  bwe : Option Nat × Reason

/-- streams/mod.rs 405-407 (`find_map`), and session.rs 1083 (`flat_map(..).next()`): the first there is. -/
def firstOf : List (Option Nat) → Option Nat
  | [] => none
  | some t :: _ => some t
  | none :: l => firstOf l

/-- session.rs 1068-1098 `poll_timeout`, not while closing -/
def Session.pollTimeout (s : Session) : Option Nat × Reason :=
  soonest (soonest (soonest (soonest (soonest (soonest (soonest (s.feedback, 1) (s.nack, 2)) (s.twcc, 3)) s.pacing)
    (firstOf s.packetize, 5)) (firstOf s.paused, 6)) (s.sendStream, 7)) s.bwe

/-- What else has deadlines: lib.rs 1824-1832. -/
structure Parts where
  dtls : Option Nat
  ice : Option Nat
  session : Session
  sctp : Option Nat
  chan : Option Nat
  stats : Option Nat

/-- lib.rs 1826-1832 -/
def Parts.soonest (p : Parts) : Option Nat × Reason :=
  Timeout.soonest (Timeout.soonest (Timeout.soonest (Timeout.soonest (Timeout.soonest (Timeout.soonest (none, notHappening) (p.dtls, 10)) (p.ice, 11))
    p.session.pollTimeout) (p.sctp, 12)) (p.chan, 13)) (p.stats, 14)

/-- lib.rs 1836-1845: time does not go backwards; `far` is `not_happening()`. -/
def Parts.next (p : Parts) (far lastNow : Nat) : Nat :=
  if p.soonest.1.getD far < lastNow then lastNow else p.soonest.1.getD far

/-! ### value_history.rs -/

/-- value_history.rs 9-13 -/
structure ValueHistory where
  value : Nat
  history : List (Nat × Nat)
  maxTime : Nat
deriving Repr, DecidableEq

/-- value_history.rs 17-25 -/
def ValueHistory.new (maxTime : Nat) : ValueHistory := { value := 0, history := [], maxTime := maxTime }

/-- value_history.rs 33-36 -/
def ValueHistory.push (h : ValueHistory) (t v : Nat) : ValueHistory :=
  { h with value := h.value + v, history := h.history ++ [(t, v)] }

/-- value_history.rs 45-56, the loop; `duration_since` is 0 when the time is later. -/
def purge (maxTime now : Nat) : (value : Nat) → List (Nat × Nat) → Nat × List (Nat × Nat)
  | value, [] => (value, [])
  | value, (t, v) :: l => if now - t > maxTime then purge maxTime now (value - v) l else (value, (t, v) :: l)

/-- value_history.rs 45-56 -/
def ValueHistory.purgeOld (h : ValueHistory) (now : Nat) : ValueHistory :=
  { h with value := (purge h.maxTime now h.value h.history).1, history := (purge h.maxTime now h.value h.history).2 }

end Str0m.Timeout
