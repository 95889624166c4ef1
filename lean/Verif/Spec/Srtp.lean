import Verif.Model.Srtp
/-
  What is assumed of the crypto provider, and what the authenticity claims are about.
-/
namespace Str0m.Srtp

/-- The primitives are lawful: decryption inverts encryption, an authenticated message opens, and
the lengths are those of AES-CTR, AES-GCM and HMAC-SHA1. -/
structure Laws (p : Prim) : Prop where
  ctr : ∀ k iv m, p.ctrDec k iv (p.ctrEnc k iv m) = m
  ctrLen : ∀ k iv m, (p.ctrEnc k iv m).length = m.length
  gcm : ∀ k iv a m, p.open_ k iv a (p.seal_ k iv a m) = some m
  gcmLen : ∀ k iv a m, (p.seal_ k iv a m).length = m.length + 16
  hmacLen : ∀ k m, (p.hmac k m).length = 20

/-- One AES block. -/
def EcbLaws (p : Prim) : Prop := ∀ k x, (p.ecb k x).length = 16

/-- A block cipher is a permutation for each key. -/
def EcbInj (p : Prim) : Prop := ∀ k x y, x.length = 16 → y.length = 16 → p.ecb k x = p.ecb k y → x = y

/-- What the receiver authenticates of an RTP datagram: for AES-CM the string under the MAC; for
GCM nonce, additional data and ciphertext. -/
inductive Auth where
  | mac (msg : List Byte)
  | aead (iv aad ct : List Byte)
deriving DecidableEq

/-- The primitive's verdict on it: the last ten bytes of `b` are the MAC, or the AEAD opens. -/
def Auth.Verifies (p : Prim) (d : Derived) (b : List Byte) : Auth → Prop
  | .mac msg => (p.hmac d.hmacKey msg).take 10 = b.drop (b.length - 10)
  | .aead iv aad ct => ∃ m, p.open_ d.key iv aad ct = some m

/-- Of a protected RTP packet with the given header length, SSRC, sequence number and index. -/
def authRtp (d : Derived) (b : List Byte) (hlen ssrc seq index : Nat) : Auth :=
  match d.profile with
  | .aesCm => .mac (b.take (b.length - 10) ++ be32 (rocOf index))
  | _ => .aead (gcmRtpIv d.salt ssrc (rocOf index) seq) (b.take hlen) (b.drop hlen)

/-- The SRTCP trailer (flag and index) at an offset. -/
def word (b : List Byte) (i : Nat) : Nat :=
  rd32 (b.getD i 0) (b.getD (i + 1) 0) (b.getD (i + 2) 0) (b.getD (i + 3) 0)

/-- The trailer of an SRTCP packet: encryption flag (2^31) and index. It precedes the tag in AES-CM
and is last in GCM. -/
def trailer (prof : Profile) (w : List Byte) : Nat :=
  word w (w.length - (if prof = .aesCm then 14 else 4))

/-- What the receiver authenticates of an SRTCP packet. -/
def authRtcp (d : Derived) (b : List Byte) : Auth :=
  match d.profile with
  | .aesCm => .mac (b.take (b.length - 10))
  | _ =>
    let iv := gcmRtcpIv d.salt (word b 4) (trailer d.profile b % 2^31)
    if 2^31 ≤ trailer d.profile b then .aead iv (b.take 8 ++ b.drop (b.length - 4)) ((b.take (b.length - 4)).drop 8)
    else .aead iv (b.take (b.length - 20) ++ b.drop (b.length - 4)) ((b.take (b.length - 4)).drop (b.length - 20))

/-- One packet given to be sent. -/
structure SentRtp (U : Type) where
  header : Rtp.Header U
  payload : List Byte
  index : Nat

end Str0m.Srtp
