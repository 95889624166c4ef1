import Verif.Model.StreamTx

/-! What the theorems on repair (`Props/Repair.lean`) say -/

namespace Str0m.Tx
open Str0m

/-- The time of a poll -/
def Op.at_ : Op → Nat
  | .poll now _ _ _ => now
  | _ => 0

/-- The datagrams of a history, each with the time of the poll that made it -/
def timed (s : Tx) : List Op → List (Out × Nat)
  | [] => []
  | op :: ops => match step s op with
    | .ok (t, o) => o.toList.map (fun x => (x, op.at_)) ++ timed t ops
    | _ => []

/-- The new packets among them -/
def news (l : List (Out × Nat)) : List (Out × Nat) := l.filter fun x => match x.1.kind with | .regular => true | _ => false

/-- A stream of nackable packets, all of payload types `P`, that is not reset -/
def Video (P : List Param) : Op → Prop
  | .write w => w.nackable = true
  | .frame f _ => f.audio = false
  | .poll _ _ params _ => params = P
  | .setCache _ _ _ => False
  | .resetBuffers => False
  | .resetSsrc _ _ _ _ => False
  | _ => True

/-- The cap on retransmissions is not reached -/
def Free : Op → Prop
  | .poll _ _ _ over => over = false
  | _ => True

/-- Polls come in the order of time -/
def Clock : Nat → List Op → Prop
  | _, [] => True
  | t, .poll now _ _ _ :: ops => t ≤ now ∧ Clock now ops
  | t, _ :: ops => Clock t ops

/-- How many polls there are -/
def polls : List Op → Nat
  | [] => 0
  | .poll _ _ _ _ :: ops => polls ops + 1
  | _ :: ops => polls ops

/-- The numbers of the new packets follow each other -/
def Following (l : List (Out × Nat)) : Prop := (news l).IsChain fun a b => b.1.seqNo = a.1.seqNo + 1

end Str0m.Tx
