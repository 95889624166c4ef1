import Verif.Model.TwccRecv
import Verif.Spec.Rtcp
/-
  What may happen to a receiver of packets with transport wide sequence numbers, and what it
  means for a report to say that a packet was received.
-/
namespace Str0m.Twcc

/-- What happened so far to a register created with `keep_reported = keep`: `arr` are the
arrivals (extended sequence number and time), in order, and `sent` the reports that were
built, each with the extended sequence number of its first packet. -/
inductive History (keep : Nat) : List (Nat × Nat) → List (Nat × Report) → Recv → Prop where
  | new : History keep [] [] (Recv.new keep)
  | arrive {arr sent s} (seq time : Nat) : History keep arr sent s →
      History keep (arr ++ [(seq, time)]) sent (s.update seq time)
  | nothing {arr sent s s'} (max : Nat) : History keep arr sent s →
      s.buildReport max = .ok (none, s') → History keep arr sent s'
  | report {arr sent s s' rep} (max base : Nat) : History keep arr sent s →
      s.buildReport max = .ok (some rep, s') →
      (s.queue[s.reportFrom]?).map (·.seq) = some base →
      History keep arr (sent ++ [(base, rep)]) s'

/-- A report with base `base` says that `seq` was received. -/
def SaysReceived (p : Nat × Report) (seq : Nat) : Prop :=
  p.1 ≤ seq ∧ seq - p.1 < p.2.statusCount ∧
  ∃ st, (p.2.chunks.flatMap Chunk.statuses)[seq - p.1]? = some st ∧ carries st = true

/-- How many of the first `j + 1` decoded items are received packets. -/
def receivedUpTo (items : List (Nat × Status × Option Nat)) (j : Nat) : Nat :=
  (items.take (j + 1)).countP (fun x => x.2.2.isSome)

end Str0m.Twcc
