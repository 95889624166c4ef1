import Verif.Base
/-
  Model of the "extend" family: src/rtp/header.rs 252-311 (`mk_extend!`).
-/
namespace Str0m

/-- src/rtp/header.rs 252-303, `mk_extend!(id, t, bits)`: instantiated at
`extend_u7/u8/u15/u16/u32` (305-311). The Rust function works on `u64`/`i64`;
`roc` is `prev >> BITS` as an `i64` and `& ROC_MASK` with
`ROC_MASK = u64::MAX >> BITS = 2^(64-BITS) - 1` is, in two's complement, the
non-negative remainder modulo `2^(64-BITS)` (`Int.emod`). -/
def extend (bits : Nat) (prev : Option Nat) (seq : Nat) : Nat :=
  let MAX := 2 ^ bits
  let HALF := MAX / 2
  let seq := seq % MAX                       -- 273: `seq as u64 & VAL_MASK`
  match prev with
  | none => seq                              -- 275-278
  | some prevIndex =>
    let roc : Int := ((prevIndex / MAX : Nat) : Int)   -- 281
    let prevSeq := prevIndex % MAX           -- 282
    let v : Int :=
      if prevSeq < HALF then                 -- 284
        if seq > HALF + prevSeq then (roc - 1) % (2 ^ (64 - bits) : Nat) else roc
      else if prevSeq > seq + HALF then (roc + 1) % (2 ^ (64 - bits) : Nat)
      else roc
    if v < 0 then 0 else v.toNat * MAX + seq -- 296-300

/-- src/rtp/header.rs 305 -/
def extendU8 := extend 8
/-- src/rtp/header.rs 306 -/
def extendU16 := extend 16
/-- src/rtp/header.rs 307 -/
def extendU32 := extend 32
/-- src/rtp/header.rs 310 -/
def extendU7 := extend 7
/-- src/rtp/header.rs 311 -/
def extendU15 := extend 15

end Str0m
