import Verif.Model.Bwe

/-!
What the claims C104 to C112 say about bandwidth estimation, in terms of the calls, their times and what they put out.
-/

namespace Str0m.BwEst
open Str0m.Pacer (Bitrate SEC MS)

/-- The desired bitrate the application asked for last; zero when it never did -/
def desiredAt (es : List Event) : Bitrate :=
  (es.reverse.findSome? (fun e => match e with | .desired v => some v | _ => none)).getD 0

/-- The wake-ups in a history -/
def calls (es : List Event) : Nat := (es.filter (fun e => match e with | .timeout .. => true | _ => false)).length

/-- Nothing in the history puts the estimator back to its beginning -/
def NoReset (es : List Event) : Prop := ∀ e ∈ es, ∀ i, e ≠ .reset i

/-- Probing stays possible all along: there is no reset and no wake-up at which the session may not probe -/
def Steady (es : List Event) : Prop := ∀ e ∈ es, (∀ i, e ≠ .reset i) ∧ ∀ now o, e ≠ .timeout now false o

/-- The probe that came out, whether or not there was room to measure it -/
def Out.cluster? : Out → Option Cluster
  | .probe c => some c
  | .refused c => some c
  | _ => none

/-- The probes that came out of a history -/
def probes (b : Bwe) (es : List Event) : List Cluster := (outs b es).filterMap Out.cluster?

/-- The times of the wake-ups do not go back -/
def Forward : List Event → Prop
  | [] => True
  | .timeout now _ _ :: es => (∀ t p o, Event.timeout t p o ∈ es → now ≤ t) ∧ Forward es
  | _ :: es => Forward es

/-- How many probes came out of wake-ups later than `since` -/
def probesAfter (b : Bwe) (since : Nat) : List Event → Nat
  | [] => 0
  | .timeout now p o :: es =>
    (if now > since ∧ (step b (.timeout now p o)).2.cluster?.isSome then 1 else 0) + probesAfter (step b (.timeout now p o)).1 since es
  | e :: es => probesAfter (step b e).1 since es

/-- The network is congested: the delay is growing, or packets are being lost -/
def Congested (o : Oracle) : Prop := o.usage = .overuse ∨ o.lossState = some false

/-- The probes that were given to the pacer, each with the time of the wake-up -/
def putOut (b : Bwe) : List Event → List (Nat × Cluster)
  | [] => []
  | .timeout now p o :: es =>
    (match (step b (.timeout now p o)).2 with | .probe c => [(now, c)] | _ => []) ++ putOut (step b (.timeout now p o)).1 es
  | e :: es => putOut (step b e).1 es

/-- the estimate as it is after a wake-up -/
def estimateAfter (b : Bwe) (now : Nat) (p : Bool) (o : Oracle) : Option Bitrate := (step b (.timeout now p o)).1.lastEstimate o

/-- `v` was the estimate after some wake-up, and after every one since -/
def Current (b : Bwe) (es : List Event) (v : Bitrate) : Prop :=
  ∃ pre now p o post, es = pre ++ .timeout now p o :: post ∧ estimateAfter (run b pre) now p o = some v ∧
    ∀ pre' t q r post', post = pre' ++ .timeout t q r :: post' → estimateAfter (run b (pre ++ .timeout now p o :: pre')) t q r = some v

/-- `v` was the estimate after some wake-up in the three seconds up to the last one -/
def Lately (b : Bwe) (es : List Event) (v : Bitrate) : Prop :=
  ∃ pre now p o post, es = pre ++ .timeout now p o :: post ∧ estimateAfter (run b pre) now p o = some v ∧
    ∀ t q r, Event.timeout t q r ∈ es → t ≤ now + 3 * SEC

/-- the estimate the application was told last -/
def toldLast : List Out → Option Bitrate
  | [] => none
  | .estimate r :: os => (toldLast os).or (some r)
  | _ :: os => toldLast os

/-- A packet of a probe that arrived: its size in bytes, when it was sent and, on the receiver's clock, when it was received -/
structure Arrival where
  size : Nat
  sent : Nat
  recv : Nat
deriving Repr, DecidableEq

/-- What a report says of the packets of one probe that arrived -/
def arrivals (id : Nat) (rs : List Rec) : List Arrival :=
  rs.filterMap (fun r => if r.cluster = some id then r.recv.map (fun t => ⟨r.size, r.sent, t⟩) else none)

/-- The same, of all the reports in a history -/
def arrivedIn (id : Nat) : List Event → List Arrival
  | [] => []
  | .report rs _ _ :: es => arrivals id rs ++ arrivedIn id es
  | _ :: es => arrivedIn id es

/-- how many bytes some packets carry -/
def bytesOf (ps : List Arrival) : ℚ := (ps.map (fun p => (p.size : ℚ))).sum

/-- `r` is what the packets `ps` that arrived tell of the capacity, for the probe `c`: there are four of them at least, with four
fifths at least of the bytes the probe was meant to have; with `a` and `b` the first and the last sent, and `f` and `l` the first
and the last received, both differences are at most a second and not zero; the rate of receiving is at most twice the one of
sending; and `r` is the smaller one, or 95 % of the rate of receiving when that is more than 10 % below the other. -/
structure Measured (c : Cluster) (ps : List Arrival) (r : Bitrate) : Prop where
  enough : 4 ≤ ps.length
  bytes : (8 / 10) * (c.target * c.duration / SEC / 8 - 1 / 2) < bytesOf ps + 1
  rates : ∃ a ∈ ps, ∃ b ∈ ps, ∃ f ∈ ps, ∃ l ∈ ps,
    (∀ p ∈ ps, a.sent ≤ p.sent ∧ p.sent ≤ b.sent ∧ f.recv ≤ p.recv ∧ p.recv ≤ l.recv) ∧
    a.sent < b.sent ∧ b.sent ≤ a.sent + SEC ∧ f.recv < l.recv ∧ l.recv ≤ f.recv + SEC ∧
    ∃ sending receiving : ℚ,
      sending = (bytesOf ps - b.size) * 8 * SEC / ((b.sent : ℚ) - a.sent) ∧
      receiving = (bytesOf ps - f.size) * 8 * SEC / ((l.recv : ℚ) - f.recv) ∧
      0 < sending ∧ 0 < receiving ∧ receiving ≤ 2 * sending ∧
      r = if receiving < sending * (9 / 10) then receiving * (95 / 100) else min sending receiving

end Str0m.BwEst
