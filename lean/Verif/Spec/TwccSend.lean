import Verif.Model.TwccSend
/-
  What applying feedback must do.
-/
namespace Str0m.Twcc

/-- What a decoded report says about a sequence number: nothing, or whether (and when) it was
received. -/
def answer (items : List (Nat × Status × Option Nat)) (seq : Nat) : Option (Option Nat) :=
  (items.find? (fun x => x.1 = seq)).map (fun x => x.2.2)

/-- Was the packet acknowledged? -/
def SendRec.acked (r : SendRec) : Bool := r.remote.isSome

/-- The record after feedback: unchanged when the report says nothing about it; else it is
marked as reported now; the time of an earlier acknowledgement is kept. -/
def SendRec.after (r : SendRec) (items : List (Nat × Status × Option Nat)) (now counter : Nat) : SendRec :=
  match answer items r.seq with
  | none => r
  | some inst =>
    if r.acked then { r with recv := r.recv.map (fun x => { x with localTime := now }) }
    else { r with recv := some ⟨now, inst, counter⟩ }

/-- The items that can be read from an iterator, up to the end or up to where reading fails. -/
def Iter.readable : Nat → Iter → List (Nat × Status × Option Nat)
  | 0, _ => []
  | n + 1, it =>
    match it.next with
    | .ok (some (x, it')) => x :: Iter.readable n it'
    | _ => []

/-- What can be read from a report. For reports that decode it is `Report.items`. -/
def Report.readable (t : Report) (timeZero extendFrom : Nat) : List (Nat × Status × Option Nat) :=
  Iter.readable (t.statusCount + 1) (t.intoIter timeZero extendFrom)

/-- What may happen to the register: packets are sent with consecutive sequence numbers, and
any feedback at all is applied. `sent` are the sequence number, time and size of the sent
packets, in order; `told` are, for each applied report, what could be read from it, when it was
applied, and the records that were returned. -/
inductive Sends (keep : Nat) : (sent : List (Nat × Nat × Nat)) →
    (told : List (List (Nat × Status × Option Nat) × Nat × List SendRec)) → Send → Prop where
  | new : Sends keep [] [] (Send.new keep)
  | register {sent told s} (seq now size : Nat) : Sends keep sent told s →
      (∀ p ∈ sent.getLast?, seq = p.1 + 1) →
      Sends keep (sent ++ [(seq, now, size)]) told (s.register seq now size)
  | apply {sent told s s' out} (t : Report) (now : Nat) : Sends keep sent told s →
      s.apply t now = .ok (out, s') →
      Sends keep sent (told ++ [(t.readable (s.timeZero.getD now) s.last, now, out.getD [])]) s'

end Str0m.Twcc
