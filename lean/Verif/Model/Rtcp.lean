import Verif.Model.Twcc
import Verif.Model.Nack
/-
  RTCP packets: src/rtp/rtcp/{mod,header,fmt,list,sr,rr,xr,sdes,bb,nack,pli,fir,remb,psfbapp,rtcpfb}.rs.

  Simplifications:
  * `ReportList<T>` (an array of 31 options, filled from the front) is a `List` of at most 31
    elements; pushing a 32nd is a panic, as in the code.
  * `SystemTime` in sender infos and RRTR blocks is represented by its 64-bit NTP value; the
    floating point conversion of util/time_tricks.rs is not modelled.
  * The RTP time of a sender info is represented by the 32 bits on the wire.
  * The `f32` bitrate of REMB is represented by its integer part (a natural number).
  * `from_utf8` is a parameter.
-/
namespace Str0m.Rtcp
open Res
export Str0m.Twcc (rd32At rd24At rd16At)

/-! ### Types -/

/-- rr.rs 17-25 -/
structure ReceptionReport where
  ssrc : Nat
  fractionLost : Nat
  packetsLost : Nat
  maxSeq : Nat
  jitter : Nat
  lastSrTime : Nat
  lastSrDelay : Nat
deriving Repr, DecidableEq

/-- sr.rs 25-36 -/
structure SenderInfo where
  ssrc : Nat
  ntp : Nat
  rtpTime : Nat
  packetCount : Nat
  octetCount : Nat
deriving Repr, DecidableEq

/-- sdes.rs 26-51; `other` is `Unknown`. -/
inductive SdesType where
  | end_ | cname | name | email | phone | loc | tool | note | priv | rid | repairedRid | unknown
deriving Repr, DecidableEq

/-- The discriminants, sdes.rs 26-51 (`Unknown` follows 13). -/
def SdesType.code : SdesType → Nat
  | end_ => 0 | cname => 1 | name => 2 | email => 3 | phone => 4 | loc => 5 | tool => 6
  | note => 7 | priv => 8 | rid => 12 | repairedRid => 13 | unknown => 14

/-- sdes.rs 140-158 -/
def SdesType.ofCode (v : Nat) : SdesType :=
  match v with
  | 0 => end_ | 1 => cname | 2 => name | 3 => email | 4 => phone | 5 => loc | 6 => tool
  | 7 => note | 8 => priv | 12 => rid | 13 => repairedRid | _ => unknown

/-- sdes.rs 17-20 -/
structure Sdes where
  ssrc : Nat
  values : List (SdesType × List Byte)
deriving Repr, DecidableEq

/-- fir.rs 15-20 -/
structure FirEntry where
  ssrc : Nat
  seqNo : Nat
deriving Repr, DecidableEq

/-- xr.rs 82-86 -/
structure DlrrItem where
  ssrc : Nat
  lastRr : Nat
  delay : Nat
deriving Repr, DecidableEq

/-- xr.rs 32-35, with `Rrtr` (52-54) and `Dlrr` (77-79). -/
inductive Block where
  | rrtr (ntp : Nat)
  | dlrr (items : List DlrrItem)
deriving Repr, DecidableEq

/-- mod.rs 70-96 `Rtcp` -/
inductive Rtcp where
  | sr (info : SenderInfo) (reports : List ReceptionReport)
  | rr (sender : Nat) (reports : List ReceptionReport)
  | xr (ssrc : Nat) (blocks : List Block)
  | sdes (reports : List Sdes)
  | bye (reports : List Nat)
  | nack (sender ssrc : Nat) (reports : List NackEntry)
  | pli (sender ssrc : Nat)
  | fir (sender : Nat) (reports : List FirEntry)
  | twcc (t : Twcc.Report)
  | remb (sender bitrate : Nat) (ssrcs : List Nat)
  | app (sender media : Nat) (payload : List Byte)
deriving Repr, DecidableEq

/-- list.rs 18-21 `ReportList::push` -/
def push {α : Type} (l : List α) (v : α) : Res Unit (List α) :=
  if l.length < 31 then .ok (l ++ [v]) else .panic

/-! ### Header -/

/-- header.rs 96-105 with fmt.rs 41-54: `fmt` is the five bit field; counts above 31 are an
assertion failure. -/
def encodeHeader (fmt pt words : Nat) : Res Unit (List Byte) :=
  if fmt ≤ 31 then .ok ([u8 (0x80 ||| fmt), u8 pt] ++ be16 (words - 1)) else .panic

/-- mod.rs 477-480 -/
def padWord (n : Nat) : Nat := let pad := 4 - n % 4; if pad = 4 then n else n + pad

/-! ### Lengths -/

/-- sdes.rs 124-137 `word_size` -/
def Sdes.wordSize (s : Sdes) : Nat :=
  padWord (4 + (s.values.map (fun v => 2 + v.2.length)).sum + 1) / 4

/-- xr.rs 121-128, 146-148, 176-178 -/
def Block.len : Block → Nat
  | .rrtr _ => 12
  | .dlrr items => 4 + items.length * 4 * 3

/-- mod.rs 377-391 and the `length_words` of each type. -/
def Rtcp.lengthWords : Rtcp → Nat
  | .sr _ rs => 1 + 6 + 6 * rs.length
  | .rr _ rs => 1 + 1 + 6 * rs.length
  | .xr _ bs => 1 + 1 + (bs.map (fun b => b.len / 4)).sum
  | .sdes rs => 1 + (rs.map Sdes.wordSize).sum
  | .bye rs => 1 + rs.length
  | .nack _ _ rs => 1 + 2 + rs.length
  | .pli _ _ => 3
  | .fir _ rs => 1 + 1 + 1 + rs.length * 2
  | .twcc t => t.lengthWords
  | .remb _ _ ss => 1 + 16 / 4 + ss.length
  | .app _ _ p => 1 + 2 + (p.length + 3) / 4

/-! ### Serialising -/

/-- sr.rs 67-81 -/
def SenderInfo.encode (i : SenderInfo) : List Byte :=
  be32 i.ssrc ++ be64 i.ntp ++ be32 i.rtpTime ++ be32 i.packetCount ++ be32 i.octetCount

/-- rr.rs 63-71: the packets lost are written as four bytes, then the first is overwritten. -/
def ReceptionReport.encode (r : ReceptionReport) : List Byte :=
  be32 r.ssrc ++ ((be32 r.packetsLost).set 0 (u8 r.fractionLost)) ++ be32 r.maxSeq
    ++ be32 r.jitter ++ be32 r.lastSrTime ++ be32 r.lastSrDelay

/-- sdes.rs 90-102, one item; the length is truncated to a byte. -/
def encodeSdesItem (v : SdesType × List Byte) : List Byte :=
  [u8 v.1.code, u8 v.2.length] ++ v.2

/-- sdes.rs 85-120 `Sdes::write_to`: ssrc, items, END, padding. -/
def Sdes.encode (s : Sdes) : List Byte :=
  let tot := 4 + (s.values.flatMap encodeSdesItem).length + 1
  let pad := 4 - tot % 4
  be32 s.ssrc ++ s.values.flatMap encodeSdesItem ++ [0]
    ++ List.replicate (if pad < 4 then pad else 0) 0

/-- xr.rs 166-171 -/
def DlrrItem.encode (i : DlrrItem) : List Byte := be32 i.ssrc ++ be32 i.lastRr ++ be32 i.delay

/-- xr.rs 131-144 and 152-174. The block length is a `u16` product that can overflow. -/
def Block.encode : Block → Res Unit (List Byte)
  | .rrtr ntp => .ok ([4, 0] ++ be16 2 ++ be64 ntp)
  | .dlrr items =>
    if items.length % 2^16 * 3 < 2^16 then
      .ok ([5, 0] ++ be16 (items.length % 2^16 * 3) ++ items.flatMap DlrrItem.encode)
    else .panic

/-- xr.rs 110-115 -/
def encodeBlocks : List Block → Res Unit (List Byte)
  | [] => .ok []
  | b :: bs => do
    let x ← b.encode
    let y ← encodeBlocks bs
    pure (x ++ y)

/-- nack.rs 48-52 -/
def encodeNack (e : NackEntry) : List Byte := be16 e.pid ++ be16 e.blp

/-- fir.rs 50-54 -/
def FirEntry.encode (e : FirEntry) : List Byte := be32 e.ssrc ++ [u8 e.seqNo, 0, 0, 0]

/-- remb.rs 6: `0x3FFFFp+63` -/
def bitrateMax : Nat := 0x3FFFF * 2^63

/-- remb.rs 77-80: halve until below `2^18`. (`f32` division by two is exact, and only the
integer part matters for the final `floor`.) -/
def rembNorm (b : Nat) : Nat × Nat :=
  if b ≥ 2^18 then
    let r := rembNorm (b / 2)
    (r.1, r.2 + 1)
  else (b, 0)
termination_by b
decreasing_by omega

/-- remb.rs 74-94, the mantissa and exponent bytes. -/
def encodeBitrate (bitrate : Nat) : List Byte :=
  let (mantissa, exp) := rembNorm (min bitrate bitrateMax)
  [u8 (((exp <<< 2) % 256) ||| ((mantissa >>> 16) % 256)), u8 (mantissa >>> 8), u8 mantissa]

/-- remb.rs 10 `b"REMB"` -/
def rembId : List Byte := [82, 69, 77, 66]

/-- mod.rs 393-407 and the `write_to` of each type: the bytes written at the front of the
buffer. Running out of buffer is modelled by `writeTo`. -/
def Rtcp.encode (p : Rtcp) : Res Unit (List Byte) :=
  match p with
  | .sr info rs => do
    let h ← encodeHeader rs.length 200 p.lengthWords
    pure (h ++ info.encode ++ rs.flatMap ReceptionReport.encode)
  | .rr sender rs => do
    let h ← encodeHeader rs.length 201 p.lengthWords
    pure (h ++ be32 sender ++ rs.flatMap ReceptionReport.encode)
  | .xr ssrc bs => do
    let h ← encodeHeader 0 207 p.lengthWords
    let b ← encodeBlocks bs
    pure (h ++ be32 ssrc ++ b)
  | .sdes rs => do
    let h ← encodeHeader rs.length 202 p.lengthWords
    pure (h ++ rs.flatMap Sdes.encode)
  | .bye rs => do
    let h ← encodeHeader rs.length 203 p.lengthWords
    pure (h ++ rs.flatMap be32)
  | .nack sender ssrc rs => do
    let h ← encodeHeader 1 205 p.lengthWords
    pure (h ++ be32 sender ++ be32 ssrc ++ rs.flatMap encodeNack)
  | .pli sender ssrc => do
    let h ← encodeHeader 1 206 p.lengthWords
    pure (h ++ be32 sender ++ be32 ssrc)
  | .fir sender rs => do
    let h ← encodeHeader 4 206 p.lengthWords
    pure (h ++ be32 sender ++ be32 ((rs.head?.map (·.ssrc)).getD 0)
      ++ rs.flatMap FirEntry.encode)
  | .twcc t => t.encode
  | .remb sender bitrate ss => do
    let h ← encodeHeader 15 206 p.lengthWords
    pure (h ++ be32 sender ++ be32 0 ++ rembId ++ [u8 ss.length] ++ encodeBitrate bitrate
      ++ ss.flatMap be32)
  | .app sender media payload => do
    let h ← encodeHeader 15 206 p.lengthWords
    pure (h ++ be32 sender ++ be32 media ++ payload
      ++ List.replicate ((payload.length + 3) / 4 * 4 - payload.length) 0)

/-- What `write_to` returns (each type computes it in its own way). -/
def Rtcp.written (p : Rtcp) : Nat :=
  match p with
  | .sr _ _ | .rr _ _ | .bye _ | .nack _ _ _ => p.lengthWords * 4
  | .xr _ bs => 4 + 4 + (bs.map Block.len).sum
  | .sdes rs => 4 + (rs.map (fun s => s.encode.length)).sum
  | .pli _ _ => 12
  | .fir _ rs => 4 + 4 + 4 + rs.length * 8
  | .twcc t => 20 + t.bodyLen + Twcc.padLen (20 + t.bodyLen)
  | .remb _ _ ss => 4 + 16 + ss.length * 4
  | .app _ _ p => 12 + p.length + ((p.length + 3) / 4 * 4 - p.length)

/-- `write_to` into a buffer of `cap` bytes: panics when the bytes do not fit. -/
def Rtcp.writeTo (p : Rtcp) (cap : Nat) : Res Unit (List Byte) := do
  let b ← p.encode
  if b.length ≤ cap then pure b else .panic

/-! ### Parsing -/

/-- sr.rs 110-150 -/
def SenderInfo.parse (buf : List Byte) : Res Unit SenderInfo :=
  if buf.length < 24 then .err ()
  else do
    let ssrc ← rd32At buf 0
    let hi ← rd32At buf 4
    let lo ← rd32At buf 8
    let rtpTime ← rd32At buf 12
    let packetCount ← rd32At buf 16
    let octetCount ← rd32At buf 20
    pure { ssrc, ntp := hi * 2^32 + lo, rtpTime, packetCount, octetCount }

/-- rr.rs 104-133 -/
def ReceptionReport.parse (buf : List Byte) : Res Unit ReceptionReport :=
  if buf.length < 24 then .err ()
  else do
    let ssrc ← rd32At buf 0
    let fl ← Res.idx buf 4
    let packetsLost ← rd24At buf 5
    let maxSeq ← rd32At buf 8
    let jitter ← rd32At buf 12
    let lastSrTime ← rd32At buf 16
    let lastSrDelay ← rd32At buf 20
    pure { ssrc, fractionLost := fl.val, packetsLost, maxSeq, jitter, lastSrTime, lastSrDelay }

/-- The loops of the shape `for _ in 0..n { parse; push; advance by k }` (sr.rs 97-101,
rr.rs 91-95, bb.rs 52-56, fir.rs 82-87, nack.rs 80-85). -/
def parseN {α : Type} (f : List Byte → Res Unit α) (k : Nat) :
    Nat → List Byte → List α → Res Unit (List α)
  | 0, _, acc => .ok acc
  | n + 1, buf, acc => do
    let v ← f buf
    let acc ← push acc v
    let buf ← Res.from_ buf k
    parseN f k n buf acc

/-- sr.rs 84-108 -/
def parseSr (buf : List Byte) : Res Unit Rtcp := do
  let info ← SenderInfo.parse buf
  let buf ← Res.from_ buf 24
  let rs ← parseN ReceptionReport.parse 24 (min (buf.length / 24) 31) buf []
  pure (.sr info rs)

/-- rr.rs 74-102 -/
def parseRr (buf : List Byte) : Res Unit Rtcp :=
  if buf.length < 4 then .err ()
  else do
    let sender ← rd32At buf 0
    let buf ← Res.from_ buf 4
    let rs ← parseN ReceptionReport.parse 24 (min (buf.length / 24) 31) buf []
    pure (.rr sender rs)

/-- sdes.rs 214-279, the item loop. The fuel is the number of bytes plus one. -/
def sdesLoop (utf8 : List Byte → Bool) : (fuel : Nat) → List Byte → (abs : Nat) →
    List (SdesType × List Byte) → Res Unit (List (SdesType × List Byte))
  | 0, _, _, _ => .panic
  | fuel + 1, buf, abs, values =>
    if values.length = 31 then .ok values
    else if buf = [0] then .ok values
    else if buf.length < 2 then .err ()
    else do
      let t ← Res.idx buf 0
      if SdesType.ofCode t.val = .end_ then
        (if 4 - abs % 4 < 4 ∧ buf.length < 4 - abs % 4 then .err () else .ok values)
      else do
        let len ← Res.idx buf 1
        if buf.length < 2 + len.val then .err ()
        else do
          let buf ← Res.from_ buf 2
          let text ← Res.upto buf len.val
          let values ← (if utf8 text then push values (SdesType.ofCode t.val, text)
                        else .ok values)
          let buf ← Res.from_ buf len.val
          sdesLoop utf8 fuel buf (abs + 2 + len.val) values

/-- sdes.rs 200-283 -/
def Sdes.parse (utf8 : List Byte → Bool) (buf : List Byte) : Res Unit Sdes :=
  if buf.length < 8 then .err ()
  else do
    let ssrc ← rd32At buf 0
    let buf ← Res.from_ buf 4
    let values ← sdesLoop utf8 (buf.length + 1) buf 0 []
    pure { ssrc, values }

/-- sdes.rs 168-192 -/
def descLoop (utf8 : List Byte → Bool) : (fuel : Nat) → List Byte → List Sdes →
    Res Unit (List Sdes)
  | 0, _, _ => .panic
  | fuel + 1, buf, reports =>
    if reports.length = 31 then .ok reports
    else if buf.length < 8 then .ok reports
    else do
      let report ← Sdes.parse utf8 buf
      let len := report.wordSize * 4
      let reports ← push reports report
      if len = 0 ∨ len ≥ buf.length then .ok reports
      else do
        let buf ← Res.from_ buf len
        descLoop utf8 fuel buf reports

/-- bb.rs 35-62 -/
def parseBye (count : Nat) (buf : List Byte) : Res Unit Rtcp :=
  if buf.length < 4 then .err ()
  else if buf.length < count * 4 then .err ()
  else do
    let rs ← parseN (fun b => rd32At b 0) 4 (min count 31) buf []
    pure (.bye rs)

/-- nack.rs 81-83 -/
def parseNackEntry (buf : List Byte) : Res Unit NackEntry := do
  let pid ← rd16At buf 0
  let blp ← rd16At buf 2
  pure { pid, blp }

/-- nack.rs 63-93 -/
def parseNack (buf : List Byte) : Res Unit Rtcp :=
  if buf.length < 12 then .err ()
  else do
    let sender ← rd32At buf 0
    let ssrc ← rd32At buf 4
    let buf ← Res.from_ buf 8
    let rs ← parseN parseNackEntry 4 (min (buf.length / 4) 31) buf []
    pure (.nack sender ssrc rs)

/-- pli.rs 39-52 -/
def parsePli (buf : List Byte) : Res Unit Rtcp :=
  if buf.length < 8 then .err ()
  else do
    let sender ← rd32At buf 0
    let ssrc ← rd32At buf 4
    pure (.pli sender ssrc)

/-- fir.rs 83-85 -/
def parseFirEntry (buf : List Byte) : Res Unit FirEntry := do
  let ssrc ← rd32At buf 0
  let s ← Res.idx buf 4
  pure { ssrc, seqNo := s.val }

/-- fir.rs 66-94 -/
def parseFir (buf : List Byte) : Res Unit Rtcp :=
  if buf.length < 16 then .err ()
  else do
    let sender ← rd32At buf 0
    let buf ← Res.from_ buf 8
    let rs ← parseN parseFirEntry 8 (min (buf.length / 8) 31) buf []
    pure (.fir sender rs)

/-- remb.rs 143-149: shift the mantissa up until bit 23 is set. The exponent is an unsigned
number and the loop runs at most 23 times for a non-zero mantissa; running out of fuel would
be a panic of the model. -/
def rembShift : (fuel : Nat) → (exp mantissa : Nat) → Res Unit (Nat × Nat)
  | 0, _, _ => .panic
  | fuel + 1, exp, mantissa =>
    if mantissa &&& 0x800000 = 0 then
      (if exp = 0 then .panic else rembShift fuel (exp - 1) (mantissa * 2))
    else .ok (exp, mantissa)

/-- `f32::from_bits((exp << 23) | frac)` of a normal number, integer part:
`(2^23 + frac) * 2^(exp - 150)`. -/
def f32OfBits (exp frac : Nat) : Nat := (2^23 + frac) * 2^exp / 2^150

/-- remb.rs 132-152, the bitrate from its three bytes. -/
def decodeBitrate (b17 b18 b19 : Byte) : Res Unit Nat :=
  let exp := (b17.val >>> 2) + 127 + 23
  let mantissa := ((b17.val &&& 3) <<< 16) ||| (b18.val <<< 8) ||| b19.val
  do
    let (e, m) ← (if mantissa ≠ 0 then rembShift 24 exp mantissa else .ok (exp, mantissa))
    pure (f32OfBits e (m &&& 0x7FFFFF))

/-- remb.rs 160-169 -/
def rembSsrcs (buf : List Byte) : (n i : Nat) → Res Unit (List Nat)
  | 0, _ => .ok []
  | n + 1, i => do
    let s ← rd32At buf (16 + i * 4)
    let ss ← rembSsrcs buf n (i + 1)
    pure (s :: ss)

/-- remb.rs 107-178 -/
def parseRemb (buf : List Byte) : Res Unit Rtcp :=
  if buf.length < 16 then .err ()
  else do
    let sender ← rd32At buf 0
    let media ← rd32At buf 4
    if media ≠ 0 then .err ()
    else do
      let id ← Res.slice buf 8 12
      if id ≠ rembId then .err ()
      else do
        let n ← Res.idx buf 12
        let b17 ← Res.idx buf 13
        let b18 ← Res.idx buf 14
        let b19 ← Res.idx buf 15
        let bitrate ← decodeBitrate b17 b18 b19
        if buf.length < 16 + n.val * 4 then .err ()
        else do
          let ss ← rembSsrcs buf n.val 0
          pure (.remb sender bitrate ss)

/-- psfbapp.rs 64-84 -/
def parseApp (buf : List Byte) : Res Unit Rtcp :=
  if buf.length < 8 then .err ()
  else do
    let sender ← rd32At buf 0
    let media ← rd32At buf 4
    let payload ← Res.from_ buf 8
    pure (.app sender media payload)

/-- xr.rs 265-281 -/
def dlrrItems : Nat → List Byte → Res Unit (List DlrrItem)
  | 0, _ => .ok []
  | n + 1, buf =>
    if buf.length < 12 then .ok []
    else do
      let ssrc ← rd32At buf 0
      let lastRr ← rd32At buf 4
      let delay ← rd32At buf 8
      let buf ← Res.from_ buf 12
      let is ← dlrrItems n buf
      pure ({ ssrc, lastRr, delay } :: is)

/-- xr.rs 211-285 -/
def Block.parse (buf : List Byte) : Res Unit Block :=
  if buf = [] then .err ()
  else do
    let t ← Res.idx buf 0
    if t.val = 4 then
      (if buf.length < 12 then .err ()
       else do
        let hi ← rd32At buf 4
        let lo ← rd32At buf 8
        pure (.rrtr (hi * 2^32 + lo)))
    else if t.val = 5 then
      (if buf.length < 4 then .err ()
       else do
        let words ← rd16At buf 2
        let buf ← Res.from_ buf 4
        let items ← dlrrItems (words / 3) buf
        pure (.dlrr items))
    else .err ()

/-- xr.rs 194-205: `while let Ok(block) = ..`. -/
def xrLoop : (fuel : Nat) → List Byte → List Block → Res Unit (List Block)
  | 0, _, _ => .panic
  | fuel + 1, buf, blocks =>
    match Block.parse buf with
    | .panic => .panic
    | .err _ => .ok blocks
    | .ok block =>
      if block.len = 0 ∨ block.len ≥ buf.length then .ok (blocks ++ [block])
      else do
        let buf ← Res.from_ buf block.len
        xrLoop fuel buf (blocks ++ [block])

/-- xr.rs 181-209 -/
def parseXr (buf : List Byte) : Res Unit Rtcp :=
  if buf.length < 4 then .err ()
  else do
    let ssrc ← rd32At buf 0
    let buf ← Res.from_ buf 4
    let blocks ← xrLoop (buf.length + 1) buf []
    pure (.xr ssrc blocks)

/-- What a parsed header holds: packet type, five bit field, `words_less_one`
(header.rs 8-12). -/
structure Header where
  pt : Nat
  fmt : Nat
  wordsLessOne : Nat
deriving Repr, DecidableEq

/-- header.rs 91-93 -/
def Header.lengthWords (h : Header) : Nat := h.wordsLessOne + 1

/-- header.rs 160-198 with 138-158 and fmt.rs 70-84, 115-132: unknown packet types, and
unknown feedback types of the two feedback packets, are errors. -/
def Header.parse (buf : List Byte) : Res Unit Header :=
  if buf.length < 4 then .err ()
  else do
    let b0 ← Res.idx buf 0
    if (b0.val &&& 0xC0) >>> 6 ≠ 2 then .err ()
    else do
      let fmt := b0.val &&& 0x1F
      let pt ← Res.idx buf 1
      if ¬ (200 ≤ pt.val ∧ pt.val ≤ 207) then .err ()
      else if pt.val = 205 ∧ ¬ (fmt = 1 ∨ fmt = 15) then .err ()
      else if pt.val = 206 ∧ ¬ (fmt = 1 ∨ fmt = 2 ∨ fmt = 3 ∨ fmt = 4 ∨ fmt = 15) then .err ()
      else do
        let wordsLessOne ← rd16At buf 2
        pure { pt := pt.val, fmt, wordsLessOne }

/-- `if let Ok(v) = x { return Ok(v) }` followed by another attempt, mod.rs 453-459. -/
def orElse {α : Type} (x y : Res Unit α) : Res Unit α :=
  match x with
  | .err _ => y
  | r => r

/-- mod.rs 410-468 `TryFrom<&[u8]> for Rtcp` -/
def Rtcp.parse (utf8 : List Byte → Bool) (buf : List Byte) : Res Unit Rtcp := do
  let h ← Header.parse buf
  let buf ← Res.from_ buf 4
  match h.pt with
  | 200 => parseSr buf
  | 201 => parseRr buf
  | 202 => do
    let rs ← descLoop utf8 (buf.length + 1) buf []
    pure (.sdes rs)
  | 203 => parseBye h.fmt buf
  | 204 => .err ()
  | 205 =>
    if h.fmt = 1 then parseNack buf
    else do
      let t ← Twcc.Report.parse buf
      pure (.twcc t)
  | 206 =>
    if h.fmt = 1 then parsePli buf
    else if h.fmt = 4 then parseFir buf
    else if h.fmt = 15 then orElse (parseRemb buf) (parseApp buf)
    else .err ()
  | 207 => parseXr buf
  | _ => .err ()

/-- mod.rs 121-130: the length of the packet without its padding; `none` is the `break`. -/
def unpadded (buf : List Byte) (full : Nat) : Res Unit (Option Nat) := do
  let b0 ← Res.idx buf 0
  if b0.val &&& 0x20 > 0 then do
    let pad ← Res.idx buf (full - 1)
    if full < pad.val then pure none else pure (some (full - pad.val))
  else pure (some full)

/-- mod.rs 99-139 `Rtcp::read_packet`: the messages that are pushed. The fuel is the number
of bytes plus one. -/
def readLoop (utf8 : List Byte → Bool) : (fuel : Nat) → List Byte → Res Unit (List Rtcp)
  | 0, _ => .panic
  | fuel + 1, buf =>
    if buf = [] then .ok []
    else
      match Header.parse buf with
      | .panic => .panic
      | .err _ => .ok []
      | .ok h => do
        let full := h.lengthWords * 4
        if full > buf.length then pure []
        else do
          match ← unpadded buf full with
          | none => pure []
          | some n => do
            let pkt ← Res.upto buf n
            match Rtcp.parse utf8 pkt with
            | .panic => .panic
            | .err _ => do
              let buf ← Res.from_ buf full
              readLoop utf8 fuel buf
            | .ok v => do
              let buf ← Res.from_ buf full
              let vs ← readLoop utf8 fuel buf
              pure (v :: vs)

/-- mod.rs 99 -/
def readPacket (utf8 : List Byte → Bool) (buf : List Byte) : Res Unit (List Rtcp) :=
  readLoop utf8 (buf.length + 1) buf

end Str0m.Rtcp
