import Verif.Base
/-
  Model of datagram classification: src/io/mod.rs 106-151.
-/
namespace Str0m

/-- src/io/mod.rs 107-112, `MultiplexKind`. -/
inductive MultiplexKind where
  | stun | dtls | rtp | rtcp
deriving Repr, DecidableEq

/-- src/io/mod.rs 114-151, `MultiplexKind::try_from(&[u8])`. The two `io::Error`s are
collapsed into `()`; indexing is `Res.idx`, which panics out of bounds. -/
def MultiplexKind.tryFrom (value : List Byte) : Res Unit MultiplexKind :=
  if value.isEmpty then .err ()
  else do
    let byte0 ← Res.idx value 0
    let len := value.length
    if byte0.val < 2 ∧ len ≥ 20 then pure .stun
    else if byte0.val ≥ 20 ∧ byte0.val < 64 then pure .dtls
    else if byte0.val ≥ 128 ∧ byte0.val < 192 ∧ len > 2 then do
      let byte1 ← Res.idx value 1
      let payloadType := byte1.val % 128        -- `byte1 & 0x7f`
      if payloadType < 64 then pure .rtp
      else if payloadType ≥ 64 ∧ payloadType < 96 then pure .rtcp
      else pure .rtp
    else .err ()

end Str0m
