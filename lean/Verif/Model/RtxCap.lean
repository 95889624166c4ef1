import Verif.Model.StreamTx
import Mathlib.Data.Rat.Defs
import Mathlib.Algebra.Order.Ring.Rat

/-!
The cap on retransmissions of an outgoing stream: `util/value_history.rs` 1-57, `streams/send.rs` 384-404, 488-509, 732-838, 1217-1246,
around the stream of `Model/StreamTx.lean`, which leaves open whether the ratio is above the cap.

Simplifications: time is in microseconds; sums are numbers instead of u64; the ratio and the cap are rationals instead of f32. Each step
gives, besides the datagram, what it took to be sent (`Entry`), which the code does not keep.
-/

namespace Str0m.RtxCap
open Str0m Str0m.Tx

/-- value_history.rs 15, in microseconds -/
def SECOND : Nat := 1000000

/-- send.rs 743, in microseconds -/
def INTERVAL : Nat := 50000

/-- value_history.rs 9-13 `ValueHistory`; the oldest first -/
structure Hist where
  value : Nat := 0
  entries : List (Nat × Nat) := []
deriving Repr, DecidableEq

/-- value_history.rs 33-36 `push` -/
def Hist.push (h : Hist) (t v : Nat) : Hist := { value := h.value + v, entries := h.entries ++ [(t, v)] }

/-- value_history.rs 46-55: the loop -/
def purgeLoop (now : Nat) (value : Nat) : List (Nat × Nat) → Hist
  | [] => { value := value, entries := [] }
  | e :: es => if now - e.1 > SECOND then purgeLoop now (value - e.2) es else { value := value, entries := e :: es }

/-- value_history.rs 45-56 `purge_old` -/
def Hist.purge (h : Hist) (now : Nat) : Hist := purgeLoop now h.value h.entries

/-- send.rs 86-182 `StreamTx`: what decides about the cap. `measured` is the time in `rtx_ratio`; none is "long ago". -/
structure Capped where
  tx : Tx
  cap : Option ℚ
  sent : Option Hist
  resent : Option Hist
  ratio : ℚ := 0
  measured : Option Nat := none
deriving DecidableEq

/-- send.rs 762-763 -/
def ratioOf (resent sent : Nat) : ℚ := if resent + sent = 0 then 0 else (resent : ℚ) / ((resent + sent : Nat) : ℚ)

/-- send.rs 743 -/
def Capped.recent (s : Capped) (now : Nat) : Bool :=
  match s.measured with
  | none => false
  | some t => decide (now - t < INTERVAL)

/-- send.rs 732-766 `rtx_ratio_downsampled` -/
def Capped.measure (s : Capped) (now : Nat) : Res Unit Capped :=
  match s.sent, s.resent with
  | some a, some b =>
    if s.recent now then .ok s
    else .ok { s with sent := some (a.purge now), resent := some (b.purge now),
                      ratio := ratioOf (b.purge now).value (a.purge now).value, measured := some now }
  | _, _ => .panic

/-- send.rs 769-773: the stream, and whether the ratio is above the cap -/
def Capped.check (s : Capped) (now : Nat) : Res Unit (Capped × Bool) :=
  match s.cap with
  | none => .ok (s, false)
  | some c => do
    let t ← s.measure now
    pure (t, decide (c < t.ratio))

/-- What is taken to be sent: a packet, or one again that was asked for -/
structure Entry where
  time : Nat
  resend : Bool
  len : Nat
deriving Repr, DecidableEq

/-- Padding is not counted -/
def entryOf (now : Nat) : Option (Next × Bool) → Option Entry
  | some (n, false) => some { time := now, resend := !decide (n.kind = .regular), len := n.payload.length }
  | _ => none

/-- send.rs 800-804, 825-829 -/
def Capped.note (s : Capped) : Option Entry → Capped
  | none => s
  | some e =>
    if e.resend then { s with resent := s.resent.map (fun h => h.push e.time e.len) }
    else { s with sent := s.sent.map (fun h => h.push e.time e.len) }

/-- send.rs 488-730 `poll_packet` -/
def Capped.poll (s : Capped) (now hdr : Nat) (params : List Param) : Res Unit (Capped × Option Out × Option Entry) := do
  let c ← s.check now
  let n ← pollNext c.1.tx now c.2
  let f ← finishPoll now hdr params n
  pure ({ c.1.note (entryOf now n.2) with tx := f.1 }, f.2, entryOf now n.2)

/-- send.rs 392-402 -/
def insertIf (h : Option Hist) (cap : Option ℚ) : Option Hist :=
  match cap with
  | none => none
  | some _ => some (h.getD {})

/-- send.rs 384-404 `set_rtx_cache` -/
def Capped.setCache (s : Capped) (maxPackets maxAge : Nat) (cap : Option ℚ) : Capped :=
  { s with tx := Tx.setCache s.tx maxPackets maxAge cap.isSome, cap := cap, sent := insertIf s.sent cap, resent := insertIf s.resent cap }

/-- send.rs 1217-1246 `reset_ssrc`; send_stats.rs 49-64: the new statistics always have the two histories -/
def Capped.resetSsrc (s : Capped) (ssrc : Nat) (rtx : Option Nat) (s1 s2 : Nat) : Capped :=
  { s with tx := Tx.resetSsrc s.tx ssrc rtx s1 s2, sent := some {}, resent := some {}, ratio := 0, measured := none }

/-- What happens to a stream: as in `Model/StreamTx.lean`, without the answer to "above the cap?" -/
inductive Op where
  | write (w : Write)
  | frame (f : Frame) (chunks : List (List Byte))
  | timeout (now : Nat) (pt : Option Nat)
  | poll (now hdr : Nat) (params : List Param)
  | nack (entries : List NackEntry)
  | report (ssrc : Nat)
  | padding (n : Nat)
  | setCache (maxPackets maxAge : Nat) (cap : Option ℚ)
  | resetBuffers
  | resetSsrc (ssrc : Nat) (rtx : Option Nat) (s1 s2 : Nat)

/-- One step: the stream, the datagram, what was taken -/
def Capped.step (s : Capped) : Op → Res Unit (Capped × Option Out × Option Entry)
  | .write w => .ok ({ s with tx := Tx.write s.tx w }, none, none)
  | .frame f cs => .ok ({ s with tx := pushChunks s.tx f true cs }, none, none)
  | .timeout now pt => do
    let t ← Tx.timeout s.tx now pt
    pure ({ s with tx := t }, none, none)
  | .poll now hdr params => s.poll now hdr params
  | .nack es => .ok ({ s with tx := Tx.nack s.tx es }, none, none)
  | .report ssrc => .ok ({ s with tx := receptionReport s.tx ssrc }, none, none)
  | .padding n => .ok ({ s with tx := generatePadding s.tx n }, none, none)
  | .setCache m a c => .ok (s.setCache m a c, none, none)
  | .resetBuffers => .ok ({ s with tx := Tx.resetBuffers s.tx }, none, none)
  | .resetSsrc a b c d => .ok (s.resetSsrc a b c d, none, none)

/-- A history: the datagrams and what was taken, in order -/
def Capped.run (s : Capped) : List Op → Res Unit (Capped × List Out × List Entry)
  | [] => .ok (s, [], [])
  | op :: ops => do
    let r ← s.step op
    let t ← r.1.run ops
    pure (t.1, r.2.1.toList ++ t.2.1, r.2.2.toList ++ t.2.2)

/-- A new stream: send.rs 298-335; `c` is 0.15 -/
def Capped.new (tx : Tx) (c : ℚ) : Capped := { tx := tx, cap := some c, sent := some {}, resent := some {} }

end Str0m.RtxCap
