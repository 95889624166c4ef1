import Verif.Model.StreamTx
import Verif.Spec.StreamRx

/-! What the theorems on a sending and a receiving stream with a network in between (`Props/EndToEnd.lean`) say -/

namespace Str0m.E2E
open Str0m

variable {U : Type}

/-- The datagram is `o`, protected: it says what `o` says, an index with its sequence number opens it only if it is the one of `o`
(the SRTP index has 48 bits), and then what is inside is what the sender put inside. -/
structure Carries (c : Rcv.Cfg U) (buf : List Byte) (o : Tx.Out) : Prop where
  header : ∃ h, Rtp.Header.parse c.env c.exts buf = .ok h ∧ h.ssrc = o.ssrc ∧ h.sequenceNumber = o.seq16 ∧ h.payloadType = o.pt ∧
    h.timestamp = o.time % 2 ^ 32 ∧ h.marker = o.marker ∧ (h.hasPadding = true ↔ ∃ len, o.kind = .blank len)
  index : ∀ h d n x, Rtp.Header.parse c.env c.exts buf = .ok h → c.srtp = some d → n % 65536 = o.seq16 →
    Srtp.unprotectRtp c.prim d buf h.headerLen h.ssrc h.sequenceNumber n = .ok x → n % 2 ^ 48 = o.seqNo % 2 ^ 48 ∧ (n = o.seqNo → x = o.body)

/-- The datagram is for another stream -/
def Elsewhere (c : Rcv.Cfg U) (a x : Nat) (buf : List Byte) : Prop :=
  ∀ h, Rtp.Header.parse c.env c.exts buf = .ok h → h.ssrc ≠ a ∧ h.ssrc ≠ x

/-- The two sides do not disagree about the payload types of the stream: what one takes for media the other does not take for repair,
and a repair payload type repairs the same payload type on both sides -/
def Agreed (P : List Tx.Param) (Q : List Rcv.Param) : Prop :=
  ∀ p ∈ P, (∀ q ∈ Q, q.resend ≠ some p.pt) ∧ ∀ r, p.resend = some r → ∀ q ∈ Q, q.pt ≠ r ∧ (q.resend = some r → q.pt = p.pt)

/-- What the sender does: it keeps its SSRCs, and all is sent with the payload types `P` -/
def Keeps (P : List Tx.Param) : Tx.Op → Prop
  | .resetSsrc _ _ _ _ => False
  | .poll _ _ params _ => params = P
  | _ => True

/-- What the network does: it delivers datagrams of the sender, in any order, any number of times, or not at all; datagrams of other
streams; and datagrams made up without the key (which name the SSRCs with payload types of their kind). -/
def Network (c : Rcv.Cfg U) (a x : Nat) (outs : List Tx.Out) (ops : List Rcv.Op) : Prop :=
  ∀ now buf, Rcv.Op.packet now buf ∈ ops →
    (∃ o ∈ outs, Carries c buf o) ∨ Elsewhere c a x buf ∨
      (Rcv.Forged c buf ∧ Rcv.Labelled (· = a) (· = x) c (.packet now buf))

/-- Whenever a repair packet arrives, the number of the packet it repeats is less than 2^15 away from the highest handed over -/
def Timely (c : Rcv.Cfg U) (s0 : Rcv.Sess U) (outs : List Tx.Out) (ops : List Rcv.Op) : Prop :=
  ∀ pre now buf post s es, ops = pre ++ Rcv.Op.packet now buf :: post → Rcv.run c s0 pre = .ok (s, es) →
    ∀ o ∈ outs, Carries c buf o → ∀ n, o.kind = .resend n → Rcv.Tells (Rcv.numbersOf s es) n

/-- The packet handed over is the one sent: bytes, number, payload type, time stamp, marker, SSRC -/
structure Same (p : Rcv.Packet U) (n : Nat) (bytes : List Byte) (pt t : Nat) (m : Bool) (a : Nat) : Prop where
  seqNo : p.seqNo = n
  payload : p.payload = bytes
  pt : p.header.payloadType = pt
  time : p.header.timestamp = t % 2 ^ 32
  marker : p.header.marker = m
  ssrc : p.header.ssrc = a
  seq16 : p.header.sequenceNumber = n % 65536

end Str0m.E2E
