import Verif.Base
import Verif.Model.RtpHeader
import Verif.Model.Extend
/-
  SRTP and SRTCP: src/rtp/srtp.rs and the profiles of crates/proto/src/crypto/provider.rs.

  The primitives (AES-CTR, AES-GCM, AES-ECB, HMAC-SHA1) are parameters. That ciphers want output
  buffers larger than their output is not modelled: they give their output. Of an RTP header only
  the length, the SSRC and the sequence number are used.
-/
namespace Str0m.Srtp
open Res

/-- What the crypto provider supplies. `open_` fails when the tag does not fit; the slices of
additional data are one after the other. `ecb` is the first 16 bytes of the round. -/
structure Prim where
  ctrEnc : (key iv msg : List Byte) → List Byte
  ctrDec : (key iv ct : List Byte) → List Byte
  seal_ : (key iv aad msg : List Byte) → List Byte
  open_ : (key iv aad ct : List Byte) → Option (List Byte)
  hmac : (key msg : List Byte) → List Byte
  ecb : (key input : List Byte) → List Byte

/-- The three profiles, srtp.rs 56-104. -/
inductive Profile where
  | aesCm | gcm128 | gcm256
deriving Repr, DecidableEq

/-- provider.rs 310, 393, 451 -/
def Profile.keyLen : Profile → Nat
  | .aesCm => 16
  | .gcm128 => 16
  | .gcm256 => 32

/-- provider.rs 312, 395, 453 -/
def Profile.saltLen : Profile → Nat
  | .aesCm => 14
  | .gcm128 => 12
  | .gcm256 => 12

/-- provider.rs 316, 399, 457: `HMAC_TAG_LEN` and `TAG_LEN` -/
def Profile.tagLen : Profile → Nat
  | .aesCm => 10
  | .gcm128 => 16
  | .gcm256 => 16

/-- srtp.rs 800-817 `Derived`; the hmac key is only used by the first profile. -/
structure Derived where
  profile : Profile
  hmacKey : List Byte
  salt : List Byte
  key : List Byte
deriving Repr, DecidableEq

/-- srtp.rs 187-199 -/
structure Context where
  rtp : Derived
  rtcp : Derived
  index : Nat
deriving Repr, DecidableEq

/-- `iv[i] ^= b[i]` -/
def xorBytes (a b : List Byte) : List Byte := List.zipWith (fun x y => u8 (x.val ^^^ y.val)) a b

/-- provider.rs 346-358 -/
def cmIv (salt : List Byte) (ssrc index : Nat) : List Byte :=
  xorBytes (xorBytes ([0, 0, 0, 0] ++ be32 ssrc ++ [0, 0, 0, 0, 0, 0, 0, 0]) ([0, 0, 0, 0, 0, 0] ++ be64 index ++ [0, 0]))
    (salt ++ [0, 0])

/-- provider.rs 404-421 and 462-479 -/
def gcmRtpIv (salt : List Byte) (ssrc roc seq : Nat) : List Byte :=
  xorBytes ([0, 0] ++ be32 ssrc ++ be32 roc ++ be16 seq) salt

/-- provider.rs 424-439 and 482-497 -/
def gcmRtcpIv (salt : List Byte) (ssrc index : Nat) : List Byte :=
  xorBytes ([0, 0] ++ be32 ssrc ++ [0, 0] ++ be32 index) salt

/-- `(srtp_index >> 16) as u32` -/
def rocOf (index : Nat) : Nat := index / 2^16 % 2^32

/-- The tag of an RTP packet in the first profile, provider.rs 319-330: over what precedes it and
the rollover counter. -/
def rtpTag (p : Prim) (d : Derived) (body : List Byte) (index : Nat) : List Byte :=
  (p.hmac d.hmacKey (body ++ be32 (rocOf index))).take 10

/-- provider.rs 361-370 -/
def rtcpTag (p : Prim) (d : Derived) (body : List Byte) : List Byte := (p.hmac d.hmacKey body).take 10

/-- srtp.rs 206-301 `protect_rtp`: `buf` is header and payload, `hlen`, `ssrc` and `seq` are of
the header. -/
def protectRtp (p : Prim) (d : Derived) (buf : List Byte) (hlen ssrc seq index : Nat) : Res Unit (List Byte) := do
  let input ← Res.from_ buf hlen
  let head ← Res.upto buf hlen
  match d.profile with
  | .aesCm =>
    let body := head ++ p.ctrEnc d.key (cmIv d.salt ssrc index) input
    .ok (body ++ rtpTag p d body index)
  | _ => .ok (head ++ p.seal_ d.key (gcmRtpIv d.salt ssrc (rocOf index) seq) head input)

/-- srtp.rs 307-414 `unprotect_rtp`; rejecting is an error. -/
def unprotectRtp (p : Prim) (d : Derived) (buf : List Byte) (hlen ssrc seq index : Nat) : Res Unit (List Byte) :=
  if buf.length < hlen + d.profile.tagLen then .err ()
  else
    match d.profile with
    | .aesCm => do
      let body ← Res.upto buf (buf.length - 10)
      let tag ← Res.from_ buf (buf.length - 10)
      if rtpTag p d body index = tag then do
        let input ← Res.slice buf hlen (buf.length - 10)
        .ok (p.ctrDec d.key (cmIv d.salt ssrc index) input)
      else .err ()
    | _ => do
      let aad ← Res.upto buf hlen
      let input ← Res.from_ buf hlen
      match p.open_ d.key (gcmRtpIv d.salt ssrc (rocOf index) seq) aad input with
      | some m => .ok m
      | none => .err ()

/-- `u32::from_be_bytes(buf[i..i+4])` -/
def rdU32 (buf : List Byte) (i : Nat) : Res Unit Nat := do
  let a ← Res.idx buf i
  let b ← Res.idx buf (i + 1)
  let c ← Res.idx buf (i + 2)
  let d ← Res.idx buf (i + 3)
  pure (rd32 a b c d)

/-- srtp.rs 416-504 `protect_rtcp`: the packet and the next index. -/
def protectRtcp (p : Prim) (d : Derived) (index : Nat) (buf : List Byte) : Res Unit (List Byte × Nat) := do
  let next := (index + 1) % 2^31
  let si := be32 (0x80000000 ||| index)
  let ssrc ← rdU32 buf 4
  let head ← Res.upto buf 8
  let input ← Res.from_ buf 8
  match d.profile with
  | .aesCm =>
    let body := head ++ p.ctrEnc d.key (cmIv d.salt ssrc index) input ++ si
    .ok (body ++ rtcpTag p d body, next)
  | _ => .ok (head ++ p.seal_ d.key (gcmRtcpIv d.salt ssrc index) (head ++ si) input ++ si, next)

/-- srtp.rs 514-721 `unprotect_rtcp` -/
def unprotectRtcp (p : Prim) (d : Derived) (buf : List Byte) : Res Unit (List Byte) :=
  if buf.length < 8 + 4 + d.profile.tagLen then .err ()
  else
    match d.profile with
    | .aesCm => do
      let body ← Res.upto buf (buf.length - 10)
      let tag ← Res.from_ buf (buf.length - 10)
      if rtcpTag p d body = tag then do
        let si ← rdU32 buf (buf.length - 14)
        if si &&& 0x80000000 > 0 then do
          let ssrc ← rdU32 buf 4
          let input ← Res.slice buf 8 (buf.length - 14)
          let head ← Res.upto buf 8
          .ok (head ++ p.ctrDec d.key (cmIv d.salt ssrc (si &&& 0x7fffffff)) input)
        else Res.upto buf (buf.length - 14)
      else .err ()
    | _ => do
      let si ← rdU32 buf (buf.length - 4)
      let ssrc ← rdU32 buf 4
      let head ← Res.upto buf 8
      if si &&& 0x80000000 > 0 then do
        let input ← Res.slice buf 8 (buf.length - 4)
        match p.open_ d.key (gcmRtcpIv d.salt ssrc (si &&& 0x7fffffff)) (head ++ be32 si) input with
        | some m => .ok (head ++ m)
        | none => .err ()
      else do
        let input ← Res.slice buf (buf.length - 4 - 16) (buf.length - 4)
        let a0 ← Res.upto buf (buf.length - 4 - 16)
        let a1 ← Res.from_ buf (buf.length - 4)
        match p.open_ d.key (gcmRtcpIv d.salt ssrc (si &&& 0x7fffffff)) (a0 ++ a1) input with
        | some _ => Res.upto buf (buf.length - 4 - 16)
        | none => .err ()

/-! ### Keys -/

/-- srtp.rs 731-751 `SrtpKey::new`: master key and salt of one side. -/
def srtpKey (prof : Profile) (mat : List Byte) (left : Bool) : Res Unit (List Byte × List Byte) :=
  if mat.length ≠ prof.keyLen * 2 + prof.saltLen * 2 then .panic
  else do
    let o0 := if left then 0 else prof.keyLen
    let o1 := if left then 0 else prof.saltLen
    let master ← Res.slice mat o0 (o0 + prof.keyLen)
    let salt ← Res.slice mat (2 * prof.keyLen + o1) (2 * prof.keyLen + o1 + prof.saltLen)
    pure (master, salt)

/-- srtp.rs 757-775: the input of one round. -/
def deriveInput (salt : List Byte) (label round : Nat) : List Byte :=
  let base := salt ++ List.replicate (16 - salt.length) 0
  ((base.take 7) ++ [u8 ((base.getD 7 0).val ^^^ label)] ++ ((base.drop 8).take 6)) ++ be16 round

/-- srtp.rs 753-796 `derive`: `n` bytes from the given round on. The fuel is `n`. -/
def deriveFrom (p : Prim) (master salt : List Byte) (label : Nat) : (fuel round n : Nat) → List Byte
  | 0, _, _ => []
  | fuel + 1, round, n =>
    if n = 0 then []
    else (p.ecb master (deriveInput salt label round)).take n ++ deriveFrom p master salt label fuel (round + 1) (n - 16)

/-- srtp.rs 753 -/
def derive (p : Prim) (master salt : List Byte) (label n : Nat) : List Byte := deriveFrom p master salt label n 0 n

/-- srtp.rs 819-939 and 48-105 `SrtpContext::new` -/
def Context.new (p : Prim) (prof : Profile) (mat : List Byte) (left : Bool) : Res Unit Context := do
  let (master, salt) ← srtpKey prof mat left
  pure {
    rtp := { profile := prof, key := derive p master salt 0 prof.keyLen,
             hmacKey := if prof = .aesCm then derive p master salt 1 20 else [], salt := derive p master salt 2 prof.saltLen }
    rtcp := { profile := prof, key := derive p master salt 3 prof.keyLen,
              hmacKey := if prof = .aesCm then derive p master salt 4 20 else [], salt := derive p master salt 5 prof.saltLen }
    index := 0 }

/-- session.rs 259-273 `set_keying_material`: receiving and sending contexts. -/
def sessionContexts (p : Prim) (prof : Profile) (mat : List Byte) (active : Bool) : Res Unit (Context × Context) := do
  let rx ← Context.new p prof mat (!active)
  let tx ← Context.new p prof mat active
  pure (rx, tx)

/-! ### The two ends -/

/-- streams/send.rs 625-674 and session.rs 1037: the header is written, the payload appended, and all of it
protected. The sequence number of the header is the low 16 bits of the index. -/
def sendRtp {U : Type} (p : Prim) (d : Derived) (env : Rtp.Env U) (m : Rtp.ExtMap) (h : Rtp.Header U)
    (payload : List Byte) (index : Nat) : Res Unit (List Byte) := do
  let head ← h.write env m
  protectRtp p d (head ++ payload) head.length h.ssrc h.sequenceNumber index

/-- session.rs 431-438 and 539-617 `handle_rtp`, without the choice of the stream and the check for
duplicates: the header is parsed, the index found from the highest one of the stream, and the rest unprotected. -/
def recvRtp {U : Type} (p : Prim) (d : Derived) (env : Rtp.Env U) (m : Rtp.ExtMap) (prev : Option Nat)
    (b : List Byte) : Res Unit (Nat × List Byte) := do
  let h ← Rtp.Header.parse env m b
  let index := extend 16 prev h.sequenceNumber
  let data ← unprotectRtp p d b h.headerLen h.ssrc h.sequenceNumber index
  pure (index, data)

/-- The packets of a run of `protect_rtcp` calls, starting with `index` (srtp.rs 416-433). -/
def protectAll (p : Prim) (d : Derived) : Nat → List (List Byte) → Res Unit (List (List Byte))
  | _, [] => .ok []
  | index, b :: bs => do
    let (w, next) ← protectRtcp p d index b
    let ws ← protectAll p d next bs
    pure (w :: ws)

end Str0m.Srtp
