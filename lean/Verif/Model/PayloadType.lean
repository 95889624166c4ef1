import Verif.Base
import Verif.Model.Profiles
import Verif.Model.Negotiate
/-
  Payload types: `format/payload_params.rs`, `format/codec_config.rs`. Payload types are numbers; the
  table `[bool; 128]` is the list of its true positions, the hash set a list.
-/
namespace Str0m.Pts
open Str0m.Profiles Str0m.Negotiate

/-- format/codec.rs 51-78 -/
inductive Codec where
  | opus | pcmu | pcma | g722 | cn | h264 | h265 | h266 | vp8 | vp9 | av1 | rtx | null | unknown
deriving Repr, DecidableEq

/-- codec.rs 85-88 -/
def Codec.isAudio : Codec → Bool
  | .opus | .pcmu | .pcma | .g722 | .cn => true
  | _ => false

/-- codec.rs 91-94 -/
def Codec.isVideo : Codec → Bool
  | .h266 | .h265 | .h264 | .vp8 | .vp9 | .av1 => true
  | _ => false

/-- format_params.rs 8-113 -/
structure Format where
  minPTime : Option Nat := none
  stereo : Option Bool := none
  spropStereo : Option Bool := none
  useInbandFec : Option Bool := none
  useDtx : Option Bool := none
  levelAsymmetryAllowed : Option Bool := none
  packetizationMode : Option Nat := none
  profileLevelId : Option Nat := none
  profileId : Option Nat := none
  profile : Option Nat := none
  levelIdx : Option Nat := none
  tier : Option Nat := none
  h265 : Option H265Ptl := none
  h266 : Option H266Ptl := none
  spropMaxDonDiff : Option Nat := none
deriving Repr, DecidableEq

/-- format/codec.rs 14-48 -/
structure Spec where
  codec : Codec
  clockRate : Nat
  channels : Option Nat
  format : Format
deriving Repr, DecidableEq

/-- payload_params.rs 80-112, without the feedback flags -/
structure Params where
  pt : Nat
  resend : Option Nat
  spec : Spec
  locked : Bool
deriving Repr, DecidableEq

/-! ### Matching -/

/-- payload_params.rs 327-331 and the like: `n` off if one is given and they differ -/
def penalty {α : Type} [DecidableEq α] (a b : Option α) (n : Nat) : Nat :=
  if (a.isSome ∨ b.isSome) ∧ a ≠ b then n else 0

/-- payload_params.rs 351-361 -/
def penaltyDefault (a b : Option Bool) (n : Nat) : Nat :=
  if a.getD false ≠ b.getD false then n else 0

/-- `match_opus_score`, payload_params.rs 323-364; `saturating_sub` -/
def matchOpus (c0 c1 : Format) : Nat :=
  100 - penalty c0.minPTime c1.minPTime 1 - penalty c0.useInbandFec c1.useInbandFec 2 - penalty c0.useDtx c1.useDtx 4
    - penaltyDefault c0.stereo c1.stereo 8 - penaltyDefault c0.spropStereo c1.spropStereo 8

/-- `match_vp9_score`, payload_params.rs 366-376 -/
def matchVp9 (c0 c1 : Format) : Option Nat :=
  if c0.profileId.getD 0 ≠ c1.profileId.getD 0 then none else some 100

/-- `match_av1_score`, payload_params.rs 378-407 -/
def matchAv1 (c0 c1 : Format) : Option Nat :=
  if c0.profile.getD 0 ≠ c1.profile.getD 0 then none
  else if c0.levelIdx.getD 5 ≠ c1.levelIdx.getD 5 then none
  else if c0.tier.getD 0 ≠ c1.tier.getD 0 then none
  else some 100

/-- `abs_diff` -/
def absDiff (a b : Nat) : Nat := (a - b) + (b - a)

/-- payload_params.rs 418-427: a profile-level-id that does not parse is no match -/
def h264Pl (f : Format) : Option H264ProfileLevel :=
  match f.profileLevelId with
  | none => some H264ProfileLevel.FALLBACK
  | some l => H264ProfileLevel.tryFrom l

/-- payload_params.rs 429-447 -/
def matchPl (a b : H264ProfileLevel) : Option Nat :=
  if a.profile ≠ b.profile then none else some (100 - absDiff a.level.ordinal b.level.ordinal)

/-- `match_h264_score`, payload_params.rs 409-448 -/
def matchH264 (c0 c1 : Format) : Option Nat :=
  if c0.packetizationMode.getD 0 ≠ c1.packetizationMode.getD 0 then none
  else (h264Pl c0).bind (fun a => (h264Pl c1).bind (fun b => matchPl a b))

/-- payload_params.rs 511-523: the profile; `p as u8` -/
def h265Profile (f : Format) : Nat :=
  match f.h265 with
  | some ptl => ptl.profile.toId
  | none => match f.profileId with
    | some p => p % 256
    | none => H265Ptl.FALLBACK.profile.toId

/-- `match_h265_score`, payload_params.rs 474-535 -/
def matchH265 (c0 c1 : Format) : Option Nat :=
  match c0.h265, c1.h265 with
  | some a, some b =>
    if a.profile ≠ b.profile then none
    else if a.tier ≠ b.tier then none
    else some (100 - absDiff a.level.ordinal b.level.ordinal)
  | _, _ => if h265Profile c0 ≠ h265Profile c1 then none else some 90

/-- payload_params.rs 569-581 -/
def h266Profile (f : Format) : Nat :=
  match f.h266 with
  | some ptl => ptl.profile.toId
  | none => match f.profileId with
    | some p => p % 256
    | none => H266Ptl.FALLBACK.profile.toId

/-- `match_h266_score`, payload_params.rs 537-591 -/
def matchH266 (c0 c1 : Format) : Option Nat :=
  match c0.h266, c1.h266 with
  | some a, some b =>
    if a.profile ≠ b.profile then none
    else if a.tier ≠ b.tier then none
    else some (100 - absDiff a.level.ordinal b.level.ordinal)
  | _, _ => if h266Profile c0 ≠ h266Profile c1 then none else some 90

/-- `match_score`, payload_params.rs 267-321, of two codec specs -/
def matchSpec (c0 c1 : Spec) : Option Nat :=
  if c0 = c1 then some 100
  else if c0.codec ≠ c1.codec ∨ c0.codec = .unknown ∧ c1.codec = .unknown then none
  else if c0.clockRate ≠ c1.clockRate then none
  else if c0.channels ≠ c1.channels then none
  else match c0.codec with
    | .opus => some (matchOpus c0.format c1.format)
    | .h264 => matchH264 c0.format c1.format
    | .h265 => matchH265 c0.format c1.format
    | .h266 => matchH266 c0.format c1.format
    | .vp9 => matchVp9 c0.format c1.format
    | .av1 => matchAv1 c0.format c1.format
    | _ => none

/-- payload_params.rs 267 -/
def matchScore (p o : Params) : Option Nat := matchSpec p.spec o.spec

/-- `Iterator::max_by_key` over the matching ones, payload_params.rs 600-606: of equal scores the last -/
def bestFrom (p : Params) : Option (Params × Nat) → List Params → Option (Params × Nat)
  | best, [] => best
  | best, r :: rest =>
    match matchScore p r with
    | none => bestFrom p best rest
    | some s =>
      match best with
      | none => bestFrom p (some (r, s)) rest
      | some (q, t) => bestFrom p (if t ≤ s then some (r, s) else some (q, t)) rest

/-- payload_params.rs 600-606 -/
def best (p : Params) (remote : List Params) : Option Params := (bestFrom p none remote).map (·.1)

/-- `max_by_key(|p| p.match_score(&params))` with `None` the least, codec_config.rs 423 -/
def bestLocal (o : Params) : Option Params → List Params → Option Params
  | best, [] => best
  | none, p :: rest => bestLocal o (some p) rest
  | some q, p :: rest =>
    match matchScore q o, matchScore p o with
    | some t, some s => bestLocal o (if t ≤ s then some p else some q) rest
    | some _, none => bestLocal o (some q) rest
    | none, _ => bestLocal o (some p) rest

/-- `match_params`, codec_config.rs 422-426 -/
def matchParams (params : List Params) (o : Params) : Option Params :=
  (bestLocal o none params).bind (fun c => (matchScore c o).map (fun _ => c))

/-- `sdp_match_remote`, codec_config.rs 429-445 -/
def sdpMatchRemote (params : List Params) (o : Params) (receiving : Bool) : Option Nat :=
  (matchParams params o).map (fun c => if receiving then o.pt else c.pt)

/-! ### Narrowing of the format, payload_params.rs 608-669 -/

/-- `std::cmp::min` of levels, h265_profile.rs 282-286 -/
def minLevel265 (a b : H265Level) : H265Level := if b.ordinal < a.ordinal then b else a

/-- h266_profile.rs 284-288 -/
def minLevel266 (a b : H266Level) : H266Level := if b.ordinal < a.ordinal then b else a

/-- payload_params.rs 613-618 -/
def negotiated265 (loc : Option H265Ptl) (remote : H265Ptl) : H265Ptl :=
  match loc with
  | some l => { remote with level := minLevel265 l.level remote.level }
  | none => remote

/-- payload_params.rs 645-650 -/
def negotiated266 (loc : Option H266Ptl) (remote : H266Ptl) : H266Ptl :=
  match loc with
  | some l => { remote with level := minLevel266 l.level remote.level }
  | none => remote

/-- payload_params.rs 610-630 -/
def mirror265 (f r : Format) : Format :=
  match r.h265 with
  | some ptl => { f with h265 := some (negotiated265 f.h265 ptl), profileId := none }
  | none => match r.profileId with
    | some id => { f with h265 := none, profileId := some id }
    | none => { f with h265 := none, profileId := none }

/-- payload_params.rs 642-662 -/
def mirror266 (f r : Format) : Format :=
  match r.h266 with
  | some ptl => { f with h266 := some (negotiated266 f.h266 ptl), profileId := none }
  | none => match r.profileId with
    | some id => { f with h266 := none, profileId := some id }
    | none => { f with h266 := none, profileId := none }

/-- payload_params.rs 632-637, 664-668 -/
def adoptDon (f r : Format) : Format :=
  if r.spropMaxDonDiff.isSome then { f with spropMaxDonDiff := r.spropMaxDonDiff } else f

/-- payload_params.rs 608-669 -/
def narrow (p first : Params) : Params :=
  if p.spec.codec = .h265 ∧ first.spec.codec = .h265 then
    { p with spec := { p.spec with format := adoptDon (mirror265 p.spec.format first.spec.format) first.spec.format } }
  else if p.spec.codec = .h266 ∧ first.spec.codec = .h266 then
    { p with spec := { p.spec with format := adoptDon (mirror266 p.spec.format first.spec.format) first.spec.format } }
  else p

/-! ### Claims -/

/-- payload_params.rs 13-25 -/
def ranges : List (Nat × Nat) := [(96, 127), (80, 95), (77, 78), (35, 71)]

/-- The numbers of a range in order, payload_params.rs 53 -/
def rangeOf (r : Nat × Nat) : List Nat := (List.range (r.2 + 1 - r.1)).map (r.1 + ·)

/-- payload_params.rs 52-53: all candidates in order -/
def candidates : List Nat := ranges.flatMap rangeOf

/-- The state of the tables: payload_params.rs 596, 598 -/
structure Tables where
  claimed : List Nat
  unlocked : List Nat
deriving Repr, DecidableEq

/-- `assert_claim_once`, payload_params.rs 38-42: out of bounds or claimed before is a panic -/
def claimOnce (t : Tables) (pt : Nat) : Res Unit Tables :=
  if pt ≥ 128 then .panic
  else if pt ∈ t.claimed then .panic
  else .ok { t with claimed := pt :: t.claimed }

/-- `is_claimed`, payload_params.rs 43-46 -/
def isClaimed (t : Tables) (pt : Nat) : Res Unit Bool :=
  if pt ≥ 128 then .panic else .ok (decide (pt ∈ t.claimed))

/-- `find_unclaimed`, payload_params.rs 47-63 -/
def findUnclaimed (t : Tables) : Option Nat :=
  candidates.find? (fun i => decide (i ∉ t.claimed) && decide (i ∉ t.unlocked))

/-- `unlocked.remove` -/
def Tables.remove (t : Tables) (pt : Nat) : Tables := { t with unlocked := t.unlocked.filter (· ≠ pt) }

/-- payload_params.rs 707-718, 732-740: a free number or a panic -/
def takeFree (t : Tables) : Res Unit (Nat × Tables) :=
  match findUnclaimed t with
  | some n => .ok (n, t.remove n)
  | none => .panic

/-- payload_params.rs 704-718, 729-740: the configured number if free, else any -/
def remap (own : Option Nat) (t : Tables) : Res Unit (Nat × Tables) :=
  match own with
  | none => takeFree t
  | some n => do
    let c ← isClaimed t n
    if c then takeFree t else pure (n, t.remove n)

/-- payload_params.rs 700-719, 725-743: the number wanted by the remote, or another one if we control
and it is taken -/
def settle (controlling : Bool) (own : Option Nat) (wanted : Nat) (t : Tables) : Res Unit (Nat × Tables) :=
  if controlling then do
    let c ← isClaimed t wanted
    if c then remap own t else pure (wanted, t)
  else .ok (wanted, t)

/-- payload_params.rs 725-749: the RTX payload type -/
def lockRtx (controlling : Bool) (own wanted : Option Nat) (t : Tables) : Res Unit (Option Nat × Tables) :=
  match wanted with
  | none => .ok (none, t)
  | some w => do
    let r ← settle controlling own w t
    let t ← claimOnce r.2 r.1
    pure (some r.1, t)

/-- `update_param`, payload_params.rs 593-754 -/
def updateParam (controlling : Bool) (remote : List Params) (p : Params) (t : Tables) : Res Unit (Params × Tables) :=
  match best p remote with
  | none => .ok (p, t)
  | some first =>
    if p.locked then .ok (narrow p first, t)
    else do
      let r ← settle controlling (some p.pt) first.pt t
      let t ← claimOnce r.2 r.1
      let x ← lockRtx controlling p.resend first.resend t
      pure ({ narrow p first with pt := r.1, resend := x.1, locked := true }, x.2)

/-- codec_config.rs 496-503 -/
def updateAll (controlling : Bool) (remote : List Params) : List Params → Tables → Res Unit (List Params × Tables)
  | [], t => .ok ([], t)
  | p :: ps, t => do
    let r ← updateParam controlling remote p t
    let s ← updateAll controlling remote ps r.2
    pure (r.1 :: s.1, s.2)

/-- The payload types of an entry: codec_config.rs 472-476, 484-485 -/
def Params.roles (p : Params) : List Nat := p.pt :: p.resend.toList

/-- codec_config.rs 474-476 -/
def claimRtx (t : Tables) (rtx : Option Nat) : Res Unit Tables :=
  match rtx with
  | some n => claimOnce t n
  | none => .ok t

/-- codec_config.rs 466-477 -/
def claimLocked : List Params → Tables → Res Unit Tables
  | [], t => .ok t
  | p :: ps, t =>
    if p.locked then do
      let t ← claimOnce t p.pt
      let t ← claimRtx t p.resend
      claimLocked ps t
    else claimLocked ps t

/-- codec_config.rs 511-522, 528-539 -/
def reassign (pt : Nat) (t : Tables) : Res Unit (Nat × Tables) := do
  let c ← isClaimed t pt
  if c then do
    let r ← takeFree t
    let t ← claimOnce t r.1
    pure (r.1, t.remove r.1)
  else pure (pt, t)

/-- codec_config.rs 524-539 -/
def reassignRtx (rtx : Option Nat) (t : Tables) : Res Unit (Option Nat × Tables) :=
  match rtx with
  | none => .ok (none, t)
  | some n => do
    let r ← reassign n t
    pure (some r.1, r.2)

/-- codec_config.rs 505-540 -/
def reassignAll : List Params → Tables → Res Unit (List Params)
  | [], _ => .ok []
  | p :: ps, t =>
    if p.locked then do
      let s ← reassignAll ps t
      pure (p :: s)
    else do
      let r ← reassign p.pt t
      let x ← reassignRtx p.resend r.2
      let s ← reassignAll ps x.2
      pure ({ p with pt := r.1, resend := x.1 } :: s)

/-- `sdp_is_receiving`, dir.rs 45-58 -/
def sdpIsReceiving : Dir → Bool
  | .sendOnly => false
  | _ => true

/-- `update_params`, codec_config.rs 462-541 -/
def updateParams (params remote : List Params) (dir : Dir) : Res Unit (List Params) := do
  let t ← claimLocked params ⟨[], (params.filter (fun p => !p.locked)).flatMap Params.roles⟩
  let r ← updateAll (!sdpIsReceiving dir) remote params t
  reassignAll r.1 r.2

/-- Several m-lines, in any number of rounds: change/sdp.rs 1189-1192 -/
def updateRun : List Params → List (List Params × Dir) → Res Unit (List Params)
  | params, [] => .ok params
  | params, x :: xs => do
    let q ← updateParams params x.1 x.2
    updateRun q xs

/-! ### The payload types of a media -/

/-- change/sdp.rs 1330-1335: the numbers kept for a new m-line -/
def remotePts (params remote : List Params) (dir : Dir) : List Nat :=
  remote.filterMap (fun r => sdpMatchRemote params r (sdpIsReceiving dir))

/-- media/writer.rs 43-51 `payload_params`, and change/sdp.rs 1512: what the user may send on the media, and what the answer lists -/
def payloadParams (params : List Params) (pts : List Nat) : List Params := params.filter (fun p => decide (p.pt ∈ pts))

/-! ### The default configuration -/

/-- `add_config`, codec_config.rs 104-137 -/
def config (pt : Nat) (resend : Option Nat) (codec : Codec) (clockRate : Nat) (channels : Option Nat) (format : Format) : Params :=
  ⟨pt, resend, ⟨codec, clockRate, channels, format⟩, false⟩

/-- `add_h264`, codec_config.rs 152-172 -/
def h264Config (pt resend : Nat) (mode : Bool) (pli : Nat) : Params :=
  config pt (some resend) .h264 90000 none
    { levelAsymmetryAllowed := some true, packetizationMode := some (if mode then 1 else 0), profileLevelId := some pli }

/-- `new_with_defaults`, codec_config.rs 78-91 with 246-396 -/
def defaults : List Params :=
  [config 111 none .opus 48000 (some 2) { minPTime := some 10, useInbandFec := some true },
   config 96 (some 97) .vp8 90000 none {},
   h264Config 127 121 true 0x42001f, h264Config 125 107 false 0x42001f, h264Config 108 109 true 0x42e01f,
   h264Config 124 120 false 0x42e01f, h264Config 123 119 true 0x4d001f, h264Config 35 36 false 0x4d001f,
   h264Config 114 115 true 0x64001f,
   config 102 (some 103) .h265 90000 none { h265 := some ((H265Ptl.new 1 0 180).getD H265Ptl.FALLBACK) },
   config 98 (some 99) .vp9 90000 none { profileId := some 0 },
   config 100 (some 101) .vp9 90000 none { profileId := some 2 },
   config 45 (some 46) .av1 90000 none {}]

end Str0m.Pts
