import Verif.Model.RtpExt
/-
  The RTP header: src/rtp/header.rs 6-250.
-/
namespace Str0m.Rtp
open Res
open Str0m.Twcc (rd16At rd24At rd32At)

/-- header.rs 6-37 `RtpHeader`. `version` is always 2. `csrc` are the 15 slots of the array. -/
structure Header (U : Type) where
  hasPadding : Bool
  hasExtension : Bool
  csrcCount : Nat
  marker : Bool
  payloadType : Nat
  sequenceNumber : Nat
  timestamp : Nat
  ssrc : Nat
  csrc : List Nat
  extVals : Vals U
  headerLen : Nat
deriving Repr, DecidableEq

/-- The extension block with its padding, header.rs 60-78. -/
def padTo4 (bs : List Byte) : List Byte :=
  if 4 - bs.length % 4 < 4 then bs ++ List.replicate (4 - bs.length % 4) 0 else bs

/-- header.rs 40-79 `write_to`: the bytes of the header. The extension block is written even
when `hasExtension` is false. -/
def Header.write {U : Type} (env : Env U) (m : ExtMap) (h : Header U) : Res Unit (List Byte) :=
  if h.csrcCount > 15 ∨ h.payloadType > 127 then .panic
  else do
    let exts ← writeEntries env (m.form env h.extVals) h.extVals m.iter
    let block := padTo4 exts
    pure ([u8 (0x80 ||| (if h.hasPadding then 0x20 else 0) ||| (if h.hasExtension then 0x10 else 0) ||| h.csrcCount),
           u8 (h.payloadType ||| (if h.marker then 0x80 else 0))]
      ++ be16 h.sequenceNumber ++ be32 h.timestamp ++ be32 h.ssrc
      ++ (h.csrc.take h.csrcCount).flatMap be32
      ++ be16 (m.form env h.extVals).code ++ be16 (block.length / 4) ++ block)

/-- header.rs 160-169: `n` contributing sources. -/
def readCsrc : Nat → List Byte → Res Unit (List Nat)
  | 0, _ => .ok []
  | n + 1, buf => do
    let v ← rd32At buf 0
    let rest ← readCsrc n (buf.drop 4)
    pure (v :: rest)

/-- header.rs 177-204: the extension block. Gives the values and the rest of the buffer. -/
def parseBlock {U : Type} (env : Env U) (m : ExtMap) (buf : List Byte) : Res Unit (Vals U × List Byte) :=
  if buf.length < 4 then .err ()
  else do
    let a ← Res.idx buf 0
    let b ← Res.idx buf 1
    match Form.parse a b with
    | none => .err ()
    | some form => do
      let words ← rd16At buf 2
      let buf ← Res.from_ buf 4
      if buf.length < words * 4 then .err ()
      else do
        let ext ← Res.upto buf (words * 4)
        let ev ← parseExts env m form (ext.length + 1) ext (Vals.default env.init)
        let rest ← Res.from_ buf (words * 4)
        pure (ev, rest)

/-- header.rs 129-224 `parse` -/
def Header.parse {U : Type} (env : Env U) (m : ExtMap) (buf : List Byte) : Res Unit (Header U) :=
  if buf.length < 12 then .err ()
  else do
    let b0 ← Res.idx buf 0
    if (b0.val &&& 0xC0) / 64 ≠ 2 then .err ()
    else do
      let b1 ← Res.idx buf 1
      let seq ← rd16At buf 2
      let ts ← rd32At buf 4
      let ssrc ← rd32At buf 8
      let rest ← Res.from_ buf 12
      if rest.length < 4 * (b0.val &&& 15) then .err ()
      else do
        let csrc ← readCsrc (b0.val &&& 15) rest
        let rest ← Res.from_ rest (4 * (b0.val &&& 15))
        let (ev, rest) ← (if b0.val &&& 0x10 > 0 then parseBlock env m rest
          else .ok (Vals.default env.init, rest))
        pure { hasPadding := decide (b0.val &&& 0x20 > 0), hasExtension := decide (b0.val &&& 0x10 > 0),
               csrcCount := b0.val &&& 15, marker := decide (b1.val &&& 0x80 > 0),
               payloadType := b1.val &&& 0x7f, sequenceNumber := seq, timestamp := ts, ssrc,
               csrc := csrc ++ List.replicate (15 - (b0.val &&& 15)) 0, extVals := ev,
               headerLen := buf.length - rest.length }

/-- header.rs 118-127 `unpad_payload`; `none` is an error. -/
def unpadPayload (buf : List Byte) : Res Unit (List Byte) :=
  if buf = [] then .ok buf
  else do
    let b ← Res.idx buf (buf.length - 1)
    if buf.length < b.val then .err () else Res.upto buf (buf.length - b.val)

/-- header.rs 81-116 `create_padding_packet`, on the payload only: the padding bytes. `maxPad` is
`MAX_BLANK_PADDING_PAYLOAD_SIZE` (src/rtp/mod.rs). -/
def paddingLen (padLen blockSize maxPad : Nat) : Nat :=
  min (if padLen % blockSize = 0 then padLen else (padLen / blockSize + 1) * blockSize) maxPad

/-- header.rs 81-92 `do_pad`: the bytes after the header. -/
def padBytes (pad : Nat) : List Byte :=
  if pad = 0 then [] else List.replicate (pad - 1) 0 ++ [u8 pad]

/-- header.rs 227-234 `read_original_sequence_number`: the number, if any, and the rest. -/
def readOsn (buf : List Byte) : Option Nat × List Byte :=
  match buf with
  | a :: b :: rest => (some (rd16 a b), rest)
  | _ => (none, buf)

/-- header.rs 237-241 -/
def writeOsn (seq : Nat) : List Byte := be16 (seq % 65536)

end Str0m.Rtp
