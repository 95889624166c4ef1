import Verif.Model.Requests

/-!
What C129 is about: the requests that were not told yet, from what happened alone.
-/

namespace Str0m.Requests

/-- A stream that is sent: SSRC, mid, RID -/
structure Stream where
  ssrc : Nat
  mid : Nat
  rid : Option Nat
deriving Repr, DecidableEq

/-- The kind of keyframe request that an item makes of an SSRC -/
def Item.asks (ssrc : Nat) : Item → Option Kind
  | .pli s => if s = ssrc then some .pli else none
  | .fir entries => if ssrc ∈ entries.map (·.1) then some .fir else none
  | _ => none

/-- The bitrate that an item tells about an SSRC -/
def Item.limits (ssrc : Nat) : Item → Option Nat
  | .remb (s :: _) b => if s = ssrc then some b else none
  | _ => none

/-- The keyframe request of a stream that waits, after one more step: the latest that arrived since it was told -/
def waitingStep (x : Stream) (w : Option Kind) : Log → Option Kind
  | .item i => (i.asks x.ssrc).or w
  | .told (.keyframe mid rid _) => if mid = x.mid ∧ rid = x.rid then none else w
  | .told _ => w

/-- The keyframe request of a stream that arrived and was not told -/
def waiting (x : Stream) (log : List Log) : Option Kind := log.foldl (waitingStep x) none

/-- A keyframe request for a stream is in a log -/
def askedIn (x : Stream) (log : List Log) : Prop := ∃ i, Log.item i ∈ log ∧ i.asks x.ssrc ≠ none

/-- The streams have different SSRCs, and different mids or RIDs -/
def Distinct (xs : List Stream) : Prop := (xs.map (·.ssrc)).Nodup ∧ (xs.map (fun x => (x.mid, x.rid))).Nodup

/-- A session that sends these streams and was asked nothing -/
def start (xs : List Stream) : State := { txs := xs.map (fun x => { ssrc := x.ssrc, mid := x.mid, rid := x.rid }) }

/-- The keyframe request that the application made of a stream with this SSRC and that was not sent, after one more call or timeout -/
def wantedStep (ssrc : Nat) (w : Option Kind) : Ask → Option Kind
  | .keyframe s k => if s = ssrc then some k else w
  | .timeout => none
  | .reset s => if s = ssrc then none else w
  | _ => w

/-- The keyframe request of a stream that was not sent -/
def wanted (ssrc : Nat) (as : List Ask) : Option Kind := as.foldl (wantedStep ssrc) none

/-- The bitrate that the application asked a stream with this SSRC to keep to, and that was not sent, after one more call or timeout -/
def limitStep (ssrc : Nat) (w : Option Nat) : Ask → Option Nat
  | .remb s b => if s = ssrc then some b else w
  | .timeout => none
  | _ => w

/-- The bitrate that was not sent -/
def limit (ssrc : Nat) (as : List Ask) : Option Nat := as.foldl (limitStep ssrc) none

/-- The item asks for a keyframe of this kind, of this stream only -/
def Item.Is (ssrc : Nat) (k : Kind) : Item → Prop
  | .pli s => k = .pli ∧ s = ssrc
  | .fir es => k = .fir ∧ ∃ n, es = [(ssrc, n)]
  | _ => False

/-- No stream changes its SSRC -/
def Stable (as : List Ask) : Prop := ∀ a ∈ as, ∀ s n, a ≠ .change s n

/-- The FIR numbers of a stream, in order -/
def firNumbers (ssrc : Nat) (items : List Item) : List Nat := items.flatMap (fun i => match i with
  | .fir es => (es.filter (fun e => e.1 == ssrc)).map (·.2)
  | _ => [])

end Str0m.Requests
