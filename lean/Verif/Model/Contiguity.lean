import Verif.Base
/-
  Model of src/packet/contiguity.rs 1-104, contiguity_vp8.rs 1-50, contiguity_vp9.rs 1-51.
-/
namespace Str0m

/-- src/packet/mod.rs `CodecExtra`, restricted to what the contiguity check reads:
VP8 picture ids and layer (`Vp8CodecExtra`), VP9 `pid`, `tl0_picture_id`, `tid`
(`Vp9CodecExtra`, vp9.rs 28-116). H264 and the like are `other`. -/
inductive CodecExtra where
  | none
  | vp8 (pictureId tl0 : Option Nat) (layer : Nat)
  | vp9 (pid : Nat) (tl0 tid : Option Nat)
  | other
deriving Repr, DecidableEq

/-- contiguity.rs 27-33 (and contiguity_vp8.rs 5-10, contiguity_vp9.rs 5-11). -/
structure FrameContiguity where
  lastPictureId : Option Nat := Option.none
  lastTl0 : Option Nat := Option.none
deriving Repr, DecidableEq

/-- contiguity.rs 37-103. Returns the new state, "may be emitted" and "contiguous". The
`wrapping_add(1)` is on `u64`. -/
def FrameContiguity.nextFrame (s : FrameContiguity) (pictureId tl0 layer : Option Nat)
    (contiguousSeq : Bool) : FrameContiguity × Bool × Bool :=
  match pictureId, tl0 with
  | Option.none, _ => (s, true, contiguousSeq)
  | _, Option.none => (s, true, contiguousSeq)
  | some pid, some tl0 =>
    match s.lastTl0, s.lastPictureId with
    | some lastTl0, some lastPid =>
      if pid ≤ lastPid then (s, false, true)
      else if layer = some 0 then
        ({ lastPictureId := some pid, lastTl0 := some tl0 }, true, tl0 == (lastTl0 + 1) % 2 ^ 64)
      else if tl0 = lastTl0 ∧ pid = (lastPid + 1) % 2 ^ 64 then
        ({ s with lastPictureId := some pid }, true, true)
      else (s, false, true)
    | _, _ => ({ lastPictureId := some pid, lastTl0 := some tl0 }, true, true)

/-- contiguity.rs 6-10 -/
inductive Contiguity where
  | vp8 (s : FrameContiguity)
  | vp9 (s : FrameContiguity)
  | none
deriving Repr, DecidableEq

/-- `v.try_into().ok()`, contiguity_vp9.rs 47-48 -/
def narrow (bits : Nat) (v : Option Nat) : Option Nat :=
  v.bind fun x => if x < 2 ^ bits then some x else Option.none

/-- contiguity.rs 13-23 with contiguity_vp8.rs 20-31 and contiguity_vp9.rs 21-32, 44-51. -/
def Contiguity.check (c : Contiguity) (next : CodecExtra) (contiguousSeq : Bool) :
    Contiguity × Bool × Bool :=
  match c, next with
  | .vp8 s, .vp8 pid tl0 layer =>
    let (s, e, k) := s.nextFrame pid tl0 (some layer) contiguousSeq
    (.vp8 s, e, k)
  | .vp9 s, .vp9 pid tl0 tid =>
    let (s, e, k) := s.nextFrame (some pid) tl0 tid contiguousSeq
    (.vp9 { lastPictureId := narrow 16 s.lastPictureId, lastTl0 := narrow 8 s.lastTl0 }, e, k)
  | c, _ => (c, true, contiguousSeq)

end Str0m
