import Verif.Model.Rtt
/-
  Model of the answers to receiver reference times (RFC 3611 4.4, 4.5): src/session.rs 299-329, 754-774. Times are nanoseconds.
-/
namespace Str0m.Dlrr

/-- What the session gets: a reference time block of the SSRC with these middle 32 bits, or a timeout; `sr` says whether a sender report is
among the feedback that waits to be sent (session.rs 304-307). -/
inductive Op
  | rrtr (ssrc lrr now : Nat)
  | timeout (now : Nat) (sr : Bool)
deriving Repr

/-- `DlrrItem`, session.rs 316-320 -/
structure Item where
  ssrc : Nat
  lastRr : Nat
  delay : Nat
deriving Repr, DecidableEq

/-- session.rs 758-761 and the key -/
structure Pending where
  ssrc : Nat
  lrr : Nat
  receivedAt : Nat
deriving Repr, DecidableEq

/-- MAX_PENDING_RRTRS, session.rs 50 -/
def MAX_PENDING : Nat := 300
/-- MAX_DLRR_PER_REPORT, session.rs 53 -/
def MAX_PER_REPORT : Nat := 50

/-- session.rs 764-765: the first entry with the SSRC is replaced; `none` if there is none -/
def replace (p : Pending) : List Pending → Option (List Pending)
  | [] => none
  | q :: l => if q.ssrc = p.ssrc then some (p :: l) else (replace p l).map (q :: ·)

/-- session.rs 768-770 -/
def room (l : List Pending) : List Pending := if l.length ≥ MAX_PENDING then l.drop 1 else l

/-- session.rs 763-772 -/
def remember (p : Pending) (l : List Pending) : List Pending :=
  match replace p l with
  | some l => l
  | none => room l ++ [p]

/-- session.rs 313-321 -/
def answer (now : Nat) (p : Pending) : Item := { ssrc := p.ssrc, lastRr := p.lrr, delay := Rtt.delay32 (now - p.receivedAt) }

/-- session.rs 303-329: the state after and the items of the report -/
def flush (now : Nat) (l : List Pending) : List Pending × List Item :=
  (l.drop (min l.length MAX_PER_REPORT), (l.take (min l.length MAX_PER_REPORT)).map (answer now))

/-- The report is made if there is something to say and a sender report waits: session.rs 303-307 -/
def step (l : List Pending) : Op → List Pending × List Item
  | .rrtr ssrc lrr now => (remember { ssrc := ssrc, lrr := lrr, receivedAt := now } l, [])
  | .timeout now sr => if !l.isEmpty && sr then flush now l else (l, [])

/-- A history: the state, and per operation the items of the report -/
def run (l : List Pending) : List Op → List Pending × List (List Item)
  | [] => (l, [])
  | op :: ops => ((run (step l op).1 ops).1, (step l op).2 :: (run (step l op).1 ops).2)

end Str0m.Dlrr
