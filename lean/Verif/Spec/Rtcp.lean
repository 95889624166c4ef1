import Verif.Model.Rtcp
/-
  What a well-formed RTCP message is: every field fits its place on the wire. Independent of
  how messages are written or parsed.
-/
namespace Str0m.Twcc

/-- The meaning of a two bit status symbol (draft-holmer-rmcat-transport-wide-cc-extensions-01,
section 3.1.1). -/
def symbol : Nat → Status
  | 0 => .notReceived
  | 1 => .small
  | 2 => .large
  | _ => .unknown

/-- The packet statuses a chunk stands for, in order: the first status is the most
significant digit of a vector, in base 2 or 4. -/
def Chunk.statuses : Chunk → List Status
  | .run s n => List.replicate n s
  | .single v _ => (List.range 14).map (fun i => if v.testBit (13 - i) then .small else .notReceived)
  | .double v _ => (List.range 7).map (fun i => symbol (v / 4^(6 - i) % 4))

/-- Does a delta have the size its status announces? -/
def Fits : Status → Delta → Prop
  | .small, .small _ => True
  | .large, .large v => -32768 ≤ v ∧ v ≤ 32767
  | _, _ => False

/-- The statuses that carry a delta. -/
def carries (s : Status) : Bool := s = .small ∨ s = .large

/-- The delta list has one entry of the right size for each status that carries one. -/
def Match (ss : List Status) (ds : List Delta) : Prop :=
  List.Forall₂ Fits (ss.filter carries) ds

/-- A chunk that exists on the wire: a 13 bit run length, or a 14 bit vector. -/
def Chunk.WF : Chunk → Prop
  | .run _ n => n < 2^13
  | .single v f => v < 2^14 ∧ f = 14
  | .double v f => v < 2^14 ∧ f = 7

/-- The last chunk is needed to reach the status count, and reaches it. -/
def Covers : List Chunk → Nat → Prop
  | [], n => n = 0
  | c :: cs, n => 0 < n ∧ Covers cs (n - c.statuses.length)

/-- No chunk after a (non-empty) run of large deltas carries a delta. -/
def LargeRunLast : List Chunk → Prop
  | [] => True
  | c :: cs =>
    ((∃ n, 0 < n ∧ c = .run .large n) → ∀ d ∈ cs, ∀ s ∈ d.statuses, carries s = false)
      ∧ LargeRunLast cs

/-- A well-formed TWCC message. -/
structure Report.WF (t : Report) : Prop where
  sender : t.senderSsrc < 2^32
  ssrc : t.ssrc < 2^32
  base : t.baseSeq < 2^16
  count : t.statusCount < 2^16
  ref : t.referenceTime < 2^24
  fb : t.feedbackCount < 2^8
  chunks : ∀ c ∈ t.chunks, c.WF
  covers : Covers t.chunks t.statusCount
  deltas : Match (t.chunks.flatMap Chunk.statuses) t.delta
  size : 5 + (t.bodyLen + 3) / 4 ≤ 2^16

end Str0m.Twcc

namespace Str0m.Rtcp

/-- All fields fit; packets lost is 24 bits. -/
structure ReceptionReport.WF (r : ReceptionReport) : Prop where
  ssrc : r.ssrc < 2^32
  fractionLost : r.fractionLost < 2^8
  packetsLost : r.packetsLost < 2^24
  maxSeq : r.maxSeq < 2^32
  jitter : r.jitter < 2^32
  lastSrTime : r.lastSrTime < 2^32
  lastSrDelay : r.lastSrDelay < 2^32

structure SenderInfo.WF (i : SenderInfo) : Prop where
  ssrc : i.ssrc < 2^32
  ntp : i.ntp < 2^64
  rtpTime : i.rtpTime < 2^32
  packetCount : i.packetCount < 2^32
  octetCount : i.octetCount < 2^32

/-- At most 31 items, none of type END, each valid text of at most 255 bytes. -/
structure Sdes.WF (utf8 : List Byte → Bool) (s : Sdes) : Prop where
  ssrc : s.ssrc < 2^32
  count : s.values.length ≤ 31
  types : ∀ v ∈ s.values, v.1 ≠ .end_
  text : ∀ v ∈ s.values, utf8 v.2 = true
  len : ∀ v ∈ s.values, v.2.length ≤ 255

def Block.WF : Block → Prop
  | .rrtr ntp => ntp < 2^64
  | .dlrr items => items.length ≤ 21845 ∧
      ∀ i ∈ items, i.ssrc < 2^32 ∧ i.lastRr < 2^32 ∧ i.delay < 2^32

/-- A bitrate REMB can express exactly: an 18 bit mantissa and a 6 bit exponent. -/
def Expressible (b : Nat) : Prop := ∃ m e, 0 < m ∧ m < 2^18 ∧ e < 64 ∧ b = m * 2^e

/-- A well-formed message: counts and fields fit the wire, and the whole is at most
`2^16` words. -/
def Rtcp.WF (utf8 : List Byte → Bool) : Rtcp → Prop
  | .sr i rs => i.WF ∧ rs.length ≤ 31 ∧ ∀ r ∈ rs, r.WF
  | .rr s rs => s < 2^32 ∧ rs.length ≤ 31 ∧ ∀ r ∈ rs, r.WF
  | .xr s bs => s < 2^32 ∧ (∀ b ∈ bs, b.WF) ∧ 2 + (bs.map (fun b => b.len / 4)).sum ≤ 2^16
  | .sdes rs => rs.length ≤ 31 ∧ (∀ r ∈ rs, r.WF utf8)
  | .bye rs => 0 < rs.length ∧ rs.length ≤ 31 ∧ ∀ s ∈ rs, s < 2^32
  | .nack s m rs => s < 2^32 ∧ m < 2^32 ∧ 0 < rs.length ∧ rs.length ≤ 31 ∧
      ∀ e ∈ rs, e.pid < 2^16 ∧ e.blp < 2^16
  | .pli s m => s < 2^32 ∧ m < 2^32
  | .fir s rs => s < 2^32 ∧ 0 < rs.length ∧ rs.length ≤ 31 ∧
      ∀ e ∈ rs, e.ssrc < 2^32 ∧ e.seqNo < 2^8
  | .twcc t => t.WF ∧ Twcc.LargeRunLast t.chunks
  | .remb s b ss => s < 2^32 ∧ Expressible b ∧ ss.length ≤ 255 ∧ ∀ x ∈ ss, x < 2^32
  | .app s m p => s < 2^32 ∧ m < 2^32 ∧ p.length % 4 = 0 ∧ 3 + p.length / 4 ≤ 2^16 ∧
      ¬ (m = 0 ∧ p.take 4 = rembId)

end Str0m.Rtcp

/-! ### What a queue of messages reports -/
namespace Str0m.Rtcp

/-- One thing reported to the peer, with the stream it is about. Who the sender of a receiver
report, NACK or FIR is does not matter for its routing at the receiver
(src/rtp/rtcp/rtcpfb.rs 33-82). -/
inductive Item where
  | senderInfo (i : SenderInfo)
  | reception (r : ReceptionReport)
  | description (s : Sdes)
  | goodbye (ssrc : Nat)
  | nack (ssrc : Nat) (e : NackEntry)
  | pli (sender ssrc : Nat)
  | fir (e : FirEntry)
  | block (ssrc : Nat) (b : Block)
  | twcc (t : Twcc.Report)
  | remb (sender bitrate : Nat) (ssrcs : List Nat)
  | app (sender media : Nat) (payload : List Byte)
deriving DecidableEq

/-- The items of one message. -/
def Rtcp.items : Rtcp → List Item
  | .sr i rs => .senderInfo i :: rs.map .reception
  | .rr _ rs => rs.map .reception
  | .xr s bs => bs.map (.block s)
  | .sdes rs => rs.map .description
  | .bye rs => rs.map .goodbye
  | .nack _ m rs => rs.map (.nack m)
  | .pli s m => [.pli s m]
  | .fir _ rs => rs.map .fir
  | .twcc t => [.twcc t]
  | .remb s b ss => [.remb s b ss]
  | .app s m p => [.app s m p]

/-- The items of a queue. -/
def allItems (l : List Rtcp) : List Item := l.flatMap Rtcp.items

/-- Is it a sender report or a receiver report? -/
def Rtcp.isReport : Rtcp → Bool
  | .sr _ _ | .rr _ _ => true
  | _ => false

/-- Is it a goodbye? -/
def Rtcp.isBye : Rtcp → Bool
  | .bye _ => true
  | _ => false

end Str0m.Rtcp
