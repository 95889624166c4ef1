import Verif.Model.StreamRx

/-! What the theorems on the receiving side of a stream (`Props/StreamRx.lean`) say, without the functions that decide it -/

namespace Str0m.Rcv
open Str0m Str0m.Rtp

variable {U : Type}

/-- The packets handed over -/
def packetsOf (es : List (Ev U)) : List (Packet U) := es.filterMap fun | .packet p => some p | _ => none

/-- What an application sees of a packet -/
def Packet.key (p : Packet U) : Nat × Nat := (p.header.ssrc, p.seqNo)

/-- The keys of the datagrams opened -/
def logKeys (l : List (Header U × Nat × List Byte)) : List (Nat × Nat) := l.map fun e => (e.1.ssrc, e.2.1)

/-- What a history may hold: media SSRCs carry media payload types, repair SSRCs carry repair payload types, and the
roll-over counter is not set by hand -/
def Labelled (M R : Nat → Prop) (c : Cfg U) : Op → Prop
  | .packet _ buf => ∀ h p, Header.parse c.env c.exts buf = .ok h →
      c.params.find? (fun p => p.pt == h.payloadType || p.resend == some h.payloadType) = some p →
      (p.pt = h.payloadType → ¬ R h.ssrc) ∧ (p.pt ≠ h.payloadType → ¬ M h.ssrc)
  | .fresh n => M n
  | .changeSsrc n => M n
  | .setRtx n => R n
  | .resetRoc _ => False
  | _ => True

/-- The datagram parses, authenticates with the session key at this index, and says this -/
def Authentic (c : Cfg U) (buf : List Byte) (e : Header U × Nat × List Byte) : Prop :=
  Header.parse c.env c.exts buf = .ok e.1 ∧ e.2.1 % 65536 = e.1.sequenceNumber % 65536 ∧ e.2.1 < 2 ^ 64 ∧
  ∃ d x, c.srtp = some d ∧ Srtp.unprotectRtp c.prim d buf e.1.headerLen e.1.ssrc e.1.sequenceNumber e.2.1 = .ok x ∧
    (e.1.hasPadding = false → e.2.2 = x) ∧ (e.1.hasPadding = true → unpadPayload x = .ok e.2.2)

/-- The packet is what the datagram says -/
def Original (c : Cfg U) (s : Sess U) (e : Header U × Nat × List Byte) (p : Packet U) : Prop :=
  (∃ q ∈ c.params, q.pt = e.1.payloadType) ∧ (e.1.ssrc = s.rx.ssrc ∨ some e.1.ssrc = s.rx.rtx) ∧
  p.header = e.1 ∧ p.seqNo = e.2.1 ∧ p.payload = e.2.2

/-- The packet is the one the datagram repairs (RFC 4588): payload type and SSRC of the media stream, the first two bytes are the
sequence number and the rest is the payload. The last line is about a repair packet with a single byte. -/
def Repairs (c : Cfg U) (s : Sess U) (e : Header U × Nat × List Byte) (p : Packet U) : Prop :=
  (∃ q ∈ c.params, q.pt ≠ e.1.payloadType ∧ q.resend = some e.1.payloadType ∧ p.header.payloadType = q.pt) ∧
  (e.1.ssrc = s.rx.ssrc ∨ some e.1.ssrc = s.rx.rtx) ∧ p.header.ssrc = s.rx.ssrc ∧
  p.header.timestamp = e.1.timestamp ∧ p.header.marker = e.1.marker ∧ p.header.csrc = e.1.csrc ∧
  p.header.csrcCount = e.1.csrcCount ∧ p.header.hasPadding = e.1.hasPadding ∧ p.header.hasExtension = e.1.hasExtension ∧
  p.header.extVals = { e.1.extVals with rid := e.1.extVals.ridRepair, ridRepair := none } ∧
  p.seqNo % 65536 = p.header.sequenceNumber % 65536 ∧ p.seqNo < 2 ^ 64 ∧
  ((∃ a b rest, e.2.2 = a :: b :: rest ∧ p.header.sequenceNumber = a.val * 256 + b.val ∧ p.payload = rest) ∨
   (∃ a, e.2.2 = [a] ∧ p.header.sequenceNumber = 0 ∧ p.payload = [a]))

/-- The packet `p` is made, at `now` in the state `s`, of the datagram `buf` -/
def Source (c : Cfg U) (s : Sess U) (now : Nat) (buf : List Byte) (e : Header U × Nat × List Byte) (p : Packet U) : Prop :=
  Authentic c buf e ∧ p.at_ = now ∧ (Original c s e p ∨ Repairs c s e p)

/-- No key of the session opens the datagram, whatever index is assumed -/
def Forged (c : Cfg U) (buf : List Byte) : Prop :=
  ∀ h d n x, Header.parse c.env c.exts buf = .ok h → c.srtp = some d →
    Srtp.unprotectRtp c.prim d buf h.headerLen h.ssrc h.sequenceNumber n ≠ .ok x

/-- The extended sequence numbers handed over or waiting, in order -/
def numbersOf (s : Sess U) (es : List (Ev U)) : List Nat := (packetsOf es ++ s.pending.toList).map (·.seqNo)

/-- The extended sequence numbers of the datagrams opened on an SSRC, in order -/
def openedOn (x : Nat) (s : Sess U) : List Nat := ((s.log.filter fun e => decide (e.1.ssrc = x)).map (·.2.1)).reverse

/-- No number is more than 101 ahead of all before it -/
def Close (l : List Nat) : Prop := ∀ pre n post, l = pre ++ n :: post → pre = [] ∨ ∃ m ∈ pre, n ≤ m + 101

/-- After these numbers, `n` is new, not before the first and at most 100 behind the highest -/
def Takes (l : List Nat) (n : Nat) : Prop := n ∉ l ∧ (∀ first, l.head? = some first → first ≤ n) ∧ ∀ m ∈ l, m ≤ n + 100

/-- After these numbers, the low 16 bits of `n` are enough: it is less than 2^15 away from the highest, or the first of all and below 2^16 -/
def Tells (l : List Nat) (n : Nat) : Prop :=
  n < 2 ^ 64 ∧ (l = [] → n < 65536) ∧ (∀ m ∈ l, m < n + 2 ^ 15) ∧ (l ≠ [] → ∃ m ∈ l, n < m + 2 ^ 15)

/-- The stream is not changed by the application -/
def Steady : Op → Prop
  | .fresh _ | .resetBuffers | .changeSsrc _ | .setRtx _ | .resetRoc _ => False
  | _ => True

/-- Whenever a datagram arrives, the packet before it has been fetched -/
def Drained (c : Cfg U) (s0 : Sess U) (ops : List Op) : Prop :=
  ∀ pre now buf post, ops = pre ++ Op.packet now buf :: post → ∀ s es, run c s0 pre = .ok (s, es) → s.pending = none

/-- The datagram holds a packet: all but repair packets without content do -/
def carries (c : Cfg U) (e : Header U × Nat × List Byte) : Bool :=
  !e.2.2.isEmpty || (c.params.find? fun p => p.pt == e.1.payloadType || p.resend == some e.1.payloadType).any fun q => q.pt == e.1.payloadType

/-- The true (64-bit) time stamps `T` of the packets opened in a history fit: the first is below 2^32, each is less than 2^31 away from
the one before, and after a pause not before it -/
def Smooth (c : Cfg U) (s0 : Sess U) (ops : List Op) (T : Header U × Nat × List Byte → Nat) : Prop :=
  ∀ pre now buf post s1 es1 s2 es2 e, ops = pre ++ Op.packet now buf :: post → run c s0 pre = .ok (s1, es1) →
    step c s1 (.packet now buf) = .ok (s2, es2) → s2.log = e :: s1.log → carries c e = true →
    T e < 2 ^ 64 ∧ T e % 2 ^ 32 = e.1.timestamp ∧
    match s1.log.find? (carries c) with
    | none => T e < 2 ^ 32
    | some e0 => T e < T e0 + 2 ^ 31 ∧ T e0 < T e + 2 ^ 31 ∧ (s1.rx.paused = true → T e0 ≤ T e)

/-- The stream stays what it is -/
def SameStream : Op → Prop
  | .fresh _ | .changeSsrc _ => False
  | _ => True

/-- The datagram at this place of the history was opened -/
def OpenedAt (c : Cfg U) (s0 : Sess U) (pre : List Op) (now : Nat) (buf : List Byte) : Prop :=
  ∃ s1 es1 s2 es2, run c s0 pre = .ok (s1, es1) ∧ step c s1 (.packet now buf) = .ok (s2, es2) ∧ s2.log ≠ s1.log

/-- A datagram was opened, at `now`, none was opened since, and no timeout came at or after `now` plus the threshold of then -/
def Live (c : Cfg U) (s0 : Sess U) (ops : List Op) : Prop :=
  ∃ pre now buf post s1 es1, ops = pre ++ Op.packet now buf :: post ∧ OpenedAt c s0 pre now buf ∧ run c s0 pre = .ok (s1, es1) ∧
    (∀ mid n b rest, post = mid ++ Op.packet n b :: rest → ¬ OpenedAt c s0 (pre ++ Op.packet now buf :: mid) n b) ∧
    ∀ t, Op.timeout t ∈ post → t < now + s1.rx.threshold

/-- What the pause events said -/
def pausesOf (es : List (Ev U)) : List Bool := es.filterMap fun | .paused b => some b | _ => none

end Str0m.Rcv
