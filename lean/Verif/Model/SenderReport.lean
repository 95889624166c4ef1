import Verif.Model.StreamTx
import Verif.Model.MediaTime
import Verif.Model.Rtcp
import Verif.Model.Rtt
/-
  Model of the sender reports of an outgoing stream: src/streams/send.rs 999-1056, and what they are made of: 434-447 (`rtp_and_wallclock`),
  570-571, 709-711 (`clock_rate`), 800-801, 825-826 (the counters, send_stats.rs 66-73), 1217-1246 (`reset_ssrc`).
  Times are nanoseconds since 1970 (`to_system_time`, time_tricks.rs 113-124, is linear).
-/
namespace Str0m.Sr
open Str0m Str0m.Tx

/-- The stream and what its sender reports need. `last` is `rtp_and_wallclock`. -/
structure Stream where
  tx : Tx
  last : Option (Nat × Nat) := none
  clock : Option Nat := none
  packets : Nat := 0
  bytes : Nat := 0

/-- What happens to the stream; `wall` is the wallclock of a write (of a frame: payload.rs 89-99) -/
structure Op where
  op : Tx.Op
  wall : Nat := 0

/-- send.rs 447, 1228; a frame is written packet by packet -/
def lastAfter (l : Option (Nat × Nat)) (o : Op) : Option (Nat × Nat) :=
  match o.op with
  | .write w => some (w.time, o.wall)
  | .frame f (_ :: _) => some (f.time, o.wall)
  | .resetSsrc _ _ _ _ => none
  | _ => l

/-- send.rs 570-571, 709-711; `rate` is the RTP clock rate of a payload type -/
def clockAfter (rate : Nat → Nat) (c : Option Nat) : Option Out → Option Nat
  | some o => if o.kind = .regular then some (rate o.pt) else c
  | none => c

/-- The bytes `poll_packet` counts: those of a resend (send.rs 800-801), or of the next packet of the queue (825-826) -/
def counted (s : Tx) (over : Bool) : Option Nat :=
  match pollResend s over with
  | .ok (_, some n) => some n.payload.length
  | .ok (_, none) => s.queue.peek.map (·.payload.length)
  | _ => none

/-- send_stats.rs 66-73, send.rs 1239-1240 -/
def countAfter (s : Stream) : Tx.Op → Nat × Nat
  | .poll _ _ _ over =>
    match counted s.tx over with
    | some n => (s.packets + 1, s.bytes + n)
    | none => (s.packets, s.bytes)
  | .resetSsrc _ _ _ _ => (0, 0)
  | _ => (s.packets, s.bytes)

def step (rate : Nat → Nat) (s : Stream) (o : Op) : Res Unit (Stream × Option Out) :=
  (Tx.step s.tx o.op).bind fun r =>
    .ok ({ tx := r.1, last := lastAfter s.last o, clock := clockAfter rate s.clock r.2, packets := (countAfter s o.op).1, bytes := (countAfter s o.op).2 }, r.2)

/-- A history, with all datagrams -/
def run (rate : Nat → Nat) (s : Stream) : List Op → Res Unit (Stream × List Out)
  | [] => .ok (s, [])
  | o :: ops => (step rate s o).bind fun r => (run rate r.1 ops).bind fun t => .ok (t.1, r.2.toList ++ t.2)

/-- `current_rtp_time`, send.rs 1035-1056 -/
def currentRtpTime (s : Stream) (now : Nat) : Res Unit (Option MediaTime) :=
  match s.last, s.clock with
  | some (t, w), some c =>
    if w > now then .ok none
    else (MediaTime.add ⟨t, c⟩ (.ofDurationMicros ((now - w) / 1000))).bind fun x => .ok (some (x.rebase c))
  | _, _ => .ok none

/-- `sender_info`, send.rs 1023-1033, and what is written of it, sr.rs 66-82 -/
def senderInfo (s : Stream) (now : Nat) : Res Unit Rtcp.SenderInfo :=
  (currentRtpTime s now).bind fun t =>
    .ok { ssrc := s.tx.ssrc, ntp := Rtt.asNtp64 now, rtpTime := (t.getD .zero).numer % 2 ^ 32, packetCount := s.packets % 2 ^ 32, octetCount := s.bytes % 2 ^ 32 }

end Str0m.Sr
