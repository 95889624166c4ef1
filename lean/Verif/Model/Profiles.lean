import Verif.Base

/-!
Codec profiles: `util/bit_pattern.rs`, `packet/h264_profile.rs`, `packet/h265_profile.rs`, `packet/h266_profile.rs`. Bytes are
numbers below 256.
-/

namespace Str0m.Profiles

/-! ### bit_pattern.rs -/

/-- bit_pattern.rs 3-6 -/
structure BitPattern where
  mask : Nat
  maskedValue : Nat
deriving Repr, DecidableEq

/-- bit_pattern.rs 18-25: the byte at `7 - i` of the pattern; a pattern is a constant of the program, and others than `0`, `1`, `x` do not compile -/
def maskBit (p : List Char) (i : Nat) : Nat :=
  if p[7 - i]? = some '1' ∨ p[7 - i]? = some '0' then 1 <<< i else 0 <<< i

/-- bit_pattern.rs 38-45 -/
def valueBit (p : List Char) (i : Nat) : Nat :=
  if p[7 - i]? = some '1' then 1 <<< i else 0 <<< i

/-- bit_pattern.rs 17-61 -/
def BitPattern.new (p : List Char) : BitPattern :=
  { mask := maskBit p 7 ||| maskBit p 6 ||| maskBit p 5 ||| maskBit p 4 ||| maskBit p 3 ||| maskBit p 2 ||| maskBit p 1 ||| maskBit p 0
    maskedValue := valueBit p 7 ||| valueBit p 6 ||| valueBit p 5 ||| valueBit p 4 ||| valueBit p 3 ||| valueBit p 2 ||| valueBit p 1 ||| valueBit p 0 }

/-- bit_pattern.rs 9-11 -/
def BitPattern.matches (b : BitPattern) (iop : Nat) : Bool := ((iop ^^^ b.maskedValue) &&& b.mask) == 0

/-! ### h264_profile.rs -/

/-- h264_profile.rs 183-197 -/
inductive H264Profile where
  | baseline | constrainedBaseline | main | extended | high | constrainedHigh | high10 | high422 | high444Predictive
  | high10Intra | high422Intra | high444Intra | cavlc444Intra
deriving Repr, DecidableEq

/-- h264_profile.rs 204-213; `toByte` is the discriminant -/
inductive H264Idc where
  | x2c | x42 | x4d | x58 | x64 | x6e | x7a | xf4
deriving Repr, DecidableEq

/-- h264_profile.rs 204-213 -/
def H264Idc.toByte : H264Idc → Nat
  | .x2c => 44 | .x42 => 66 | .x4d => 77 | .x58 => 88 | .x64 => 100 | .x6e => 110 | .x7a => 122 | .xf4 => 244

/-- h264_profile.rs 215-231 -/
def H264Idc.ofByte (v : Nat) : Option H264Idc :=
  if v = 44 then some .x2c else if v = 66 then some .x42 else if v = 77 then some .x4d else if v = 88 then some .x58
  else if v = 100 then some .x64 else if v = 110 then some .x6e else if v = 122 then some .x7a else if v = 244 then some .xf4 else none

/-- h264_profile.rs 240-258 -/
inductive H264Level where
  | l1b | l1 | l1_1 | l1_2 | l1_3 | l2 | l2_1 | l2_2 | l3 | l3_1 | l3_2 | l4 | l4_1 | l4_2 | l5 | l5_1 | l5_2
deriving Repr, DecidableEq

/-- h264_profile.rs 240-258, the discriminants -/
def H264Level.toByte : H264Level → Nat
  | .l1b => 0 | .l1 => 10 | .l1_1 => 11 | .l1_2 => 12 | .l1_3 => 13 | .l2 => 20 | .l2_1 => 21 | .l2_2 => 22 | .l3 => 30
  | .l3_1 => 31 | .l3_2 => 32 | .l4 => 40 | .l4_1 => 41 | .l4_2 => 42 | .l5 => 50 | .l5_1 => 51 | .l5_2 => 52

/-- h264_profile.rs 240-258: all -/
def H264Level.all : List H264Level :=
  [.l1b, .l1, .l1_1, .l1_2, .l1_3, .l2, .l2_1, .l2_2, .l3, .l3_1, .l3_2, .l4, .l4_1, .l4_2, .l5, .l5_1, .l5_2]

/-- h264_profile.rs 298-326: the arms are tried in order -/
def H264Level.ofByte (v : Nat) : Option H264Level := H264Level.all.find? (fun l => l.toByte == v)

/-- h264_profile.rs 263-283 -/
def H264Level.ordinal : H264Level → Nat
  | .l1 => 0 | .l1b => 1 | .l1_1 => 2 | .l1_2 => 3 | .l1_3 => 4 | .l2 => 5 | .l2_1 => 6 | .l2_2 => 7 | .l3 => 8
  | .l3_1 => 9 | .l3_2 => 10 | .l4 => 11 | .l4_1 => 12 | .l4_2 => 13 | .l5 => 14 | .l5_1 => 15 | .l5_2 => 16

/-- h264_profile.rs 26-114 -/
def PROFILES : List (H264Profile × H264Idc × BitPattern) :=
  [(.constrainedBaseline, .x42, .new "x1xx0000".toList),
   (.constrainedBaseline, .x4d, .new "1xxx0000".toList),
   (.constrainedBaseline, .x58, .new "11xx0000".toList),
   (.baseline, .x42, .new "x0xx0000".toList),
   (.baseline, .x58, .new "10xx0000".toList),
   (.main, .x4d, .new "0x0x0000".toList),
   (.extended, .x58, .new "00xx0000".toList),
   (.high, .x64, .new "00000000".toList),
   (.constrainedHigh, .x64, .new "00001100".toList),
   (.high10, .x6e, .new "00000000".toList),
   (.high422, .x7a, .new "00000000".toList),
   (.high444Predictive, .xf4, .new "00000000".toList),
   (.high10Intra, .x6e, .new "00010000".toList),
   (.high422Intra, .x7a, .new "00010000".toList),
   (.high444Intra, .xf4, .new "00010000".toList),
   (.cavlc444Intra, .x2c, .new "00010000".toList)]

/-- h264_profile.rs 4-7 -/
structure H264ProfileLevel where
  profile : H264Profile
  level : H264Level
deriving Repr, DecidableEq

/-- h264_profile.rs 16-19 -/
def H264ProfileLevel.FALLBACK : H264ProfileLevel := { profile := .baseline, level := .l3_1 }

/-- h264_profile.rs 119-134 -/
def H264ProfileLevel.new (idc : H264Idc) (iop : Nat) (level : H264Level) : Option H264ProfileLevel :=
  PROFILES.findSome? (fun row => if row.2.1 ≠ idc then none else if !row.2.2.matches iop then none else some { profile := row.1, level := level })

/-- h264_profile.rs 163-176: the level that is used -/
def levelFix (idc : H264Idc) (iop : Nat) (level : H264Level) : H264Level :=
  if [H264Idc.x42, .x4d, .x58].contains idc && level == .l1 then (if (iop &&& 0x10) ≠ 0 then .l1b else .l1) else level

/-- h264_profile.rs 150-179 `try_from(u32)` -/
def H264ProfileLevel.tryFrom (value : Nat) : Option H264ProfileLevel :=
  match H264Idc.ofByte (value / 65536 % 256) with
  | none => none
  | some idc =>
    match H264Level.ofByte (value % 256) with
    | none => none
    | some level => H264ProfileLevel.new idc (value / 256 % 256) (levelFix idc (value / 256 % 256) level)

/-! ### h265_profile.rs -/

/-- h265_profile.rs 97-120 -/
inductive H265Profile where
  | main | main10 | mainStillPicture | formatRangeExtensions | highThroughput | multiviewMain | scalableMain | threeDMain
  | screenContentCoding | screenContentCodingExtensions | highThroughputScreenContentCoding
deriving Repr, DecidableEq

/-- h265_profile.rs 126-141 -/
def H265Profile.fromId (v : Nat) : Option H265Profile :=
  if v = 1 then some .main else if v = 2 then some .main10 else if v = 3 then some .mainStillPicture else if v = 4 then some .formatRangeExtensions
  else if v = 5 then some .highThroughput else if v = 6 then some .multiviewMain else if v = 7 then some .scalableMain else if v = 8 then some .threeDMain
  else if v = 9 then some .screenContentCoding else if v = 10 then some .screenContentCodingExtensions else if v = 11 then some .highThroughputScreenContentCoding
  else none

/-- h265_profile.rs 144-158 -/
def H265Profile.toId : H265Profile → Nat
  | .main => 1 | .main10 => 2 | .mainStillPicture => 3 | .formatRangeExtensions => 4 | .highThroughput => 5 | .multiviewMain => 6
  | .scalableMain => 7 | .threeDMain => 8 | .screenContentCoding => 9 | .screenContentCodingExtensions => 10 | .highThroughputScreenContentCoding => 11

/-- h265_profile.rs 163-168, h266_profile.rs 158-163 -/
inductive Tier where
  | main | high
deriving Repr, DecidableEq

/-- h265_profile.rs 174-180, h266_profile.rs 169-175 -/
def Tier.fromFlag (v : Nat) : Option Tier := if v = 0 then some .main else if v = 1 then some .high else none

/-- h265_profile.rs 183-188, h266_profile.rs 178-183 -/
def Tier.toFlag : Tier → Nat
  | .main => 0 | .high => 1

/-- h265_profile.rs 197-224 -/
inductive H265Level where
  | l1 | l2 | l2_1 | l3 | l3_1 | l4 | l4_1 | l5 | l5_1 | l5_2 | l6 | l6_1 | l6_2
deriving Repr, DecidableEq

/-- h265_profile.rs 197-224, the discriminants; 271-273 `to_id` -/
def H265Level.toId : H265Level → Nat
  | .l1 => 30 | .l2 => 60 | .l2_1 => 63 | .l3 => 90 | .l3_1 => 93 | .l4 => 120 | .l4_1 => 123 | .l5 => 150 | .l5_1 => 153
  | .l5_2 => 156 | .l6 => 180 | .l6_1 => 183 | .l6_2 => 186

/-- h265_profile.rs 197-224: all -/
def H265Level.all : List H265Level := [.l1, .l2, .l2_1, .l3, .l3_1, .l4, .l4_1, .l5, .l5_1, .l5_2, .l6, .l6_1, .l6_2]

/-- h265_profile.rs 250-268 -/
def H265Level.fromId (v : Nat) : Option H265Level := H265Level.all.find? (fun l => l.toId == v)

/-- h265_profile.rs 231-247 -/
def H265Level.ordinal : H265Level → Nat
  | .l1 => 0 | .l2 => 1 | .l2_1 => 2 | .l3 => 3 | .l3_1 => 4 | .l4 => 5 | .l4_1 => 6 | .l5 => 7 | .l5_1 => 8 | .l5_2 => 9
  | .l6 => 10 | .l6_1 => 11 | .l6_2 => 12

/-- h265_profile.rs 10-14 -/
structure H265Ptl where
  profile : H265Profile
  tier : Tier
  level : H265Level
deriving Repr, DecidableEq

/-- h265_profile.rs 20-24 -/
def H265Ptl.FALLBACK : H265Ptl := { profile := .main, tier := .main, level := .l3_1 }

/-- h265_profile.rs 29-39 -/
def H265Ptl.new (profileId tierFlag levelId : Nat) : Option H265Ptl :=
  match H265Profile.fromId profileId, Tier.fromFlag tierFlag, H265Level.fromId levelId with
  | some p, some t, some l => some { profile := p, tier := t, level := l }
  | _, _, _ => none

/-! ### h266_profile.rs -/

/-- h266_profile.rs 104-121 -/
inductive H266Profile where
  | main10 | multilayerMain10 | main10_444 | multilayerMain10_444 | main10StillPicture | multilayerMain10StillPicture
  | main10_444StillPicture | multilayerMain10_444StillPicture
deriving Repr, DecidableEq

/-- h266_profile.rs 127-139 -/
def H266Profile.fromId (v : Nat) : Option H266Profile :=
  if v = 1 then some .main10 else if v = 17 then some .multilayerMain10 else if v = 33 then some .main10_444 else if v = 49 then some .multilayerMain10_444
  else if v = 65 then some .main10StillPicture else if v = 81 then some .multilayerMain10StillPicture else if v = 97 then some .main10_444StillPicture
  else if v = 113 then some .multilayerMain10_444StillPicture else none

/-- h266_profile.rs 142-153 -/
def H266Profile.toId : H266Profile → Nat
  | .main10 => 1 | .multilayerMain10 => 17 | .main10_444 => 33 | .multilayerMain10_444 => 49 | .main10StillPicture => 65
  | .multilayerMain10StillPicture => 81 | .main10_444StillPicture => 97 | .multilayerMain10_444StillPicture => 113

/-- h266_profile.rs 193-225 -/
inductive H266Level where
  | l1 | l2 | l2_1 | l3 | l3_1 | l4 | l4_1 | l5 | l5_1 | l5_2 | l6 | l6_1 | l6_2 | l6_3 | l15_5
deriving Repr, DecidableEq

/-- h266_profile.rs 193-225, the discriminants; 273-275 `to_id` -/
def H266Level.toId : H266Level → Nat
  | .l1 => 16 | .l2 => 32 | .l2_1 => 35 | .l3 => 48 | .l3_1 => 51 | .l4 => 64 | .l4_1 => 67 | .l5 => 80 | .l5_1 => 83
  | .l5_2 => 86 | .l6 => 96 | .l6_1 => 99 | .l6_2 => 102 | .l6_3 => 105 | .l15_5 => 255

/-- h266_profile.rs 193-225: all -/
def H266Level.all : List H266Level := [.l1, .l2, .l2_1, .l3, .l3_1, .l4, .l4_1, .l5, .l5_1, .l5_2, .l6, .l6_1, .l6_2, .l6_3, .l15_5]

/-- h266_profile.rs 250-270 -/
def H266Level.fromId (v : Nat) : Option H266Level := H266Level.all.find? (fun l => l.toId == v)

/-- h266_profile.rs 229-247 -/
def H266Level.ordinal : H266Level → Nat
  | .l1 => 0 | .l2 => 1 | .l2_1 => 2 | .l3 => 3 | .l3_1 => 4 | .l4 => 5 | .l4_1 => 6 | .l5 => 7 | .l5_1 => 8 | .l5_2 => 9
  | .l6 => 10 | .l6_1 => 11 | .l6_2 => 12 | .l6_3 => 13 | .l15_5 => 14

/-- h266_profile.rs 16-20 -/
structure H266Ptl where
  profile : H266Profile
  tier : Tier
  level : H266Level
deriving Repr, DecidableEq

/-- h266_profile.rs 26-30 -/
def H266Ptl.FALLBACK : H266Ptl := { profile := .main10, tier := .main, level := .l3_1 }

/-- h266_profile.rs 35-45 -/
def H266Ptl.new (profileId tierFlag levelId : Nat) : Option H266Ptl :=
  match H266Profile.fromId profileId, Tier.fromFlag tierFlag, H266Level.fromId levelId with
  | some p, some t, some l => some { profile := p, tier := t, level := l }
  | _, _, _ => none

end Str0m.Profiles
