import Verif.Model.Text
import Verif.Model.PayloadType

/-!
`sdp/data.rs` `FormatParam` and `format/format_params.rs`: the text of an `a=fmtp` value.
-/

namespace Str0m.Sdp
open Str0m.Text Str0m.StrId Str0m.Profiles Str0m.Pts

/-- What the code takes from its surroundings: the text of IP addresses (`std::net`), the crate version, `char::is_alphanumeric`
(a Unicode table) and the order in which a `HashMap` gives its entries. -/
structure Env (Ip : Type) where
  ipShow : Ip → Str
  ipParse : Str → Option Ip
  version : Str
  alnum : Char → Bool
  mapOrder : List (Str × Str) → List (Str × Str)

/-- data.rs 924-990 -/
inductive FP where
  | minPTime (v : Nat) | stereo (v : Bool) | spropStereo (v : Bool) | useInbandFec (v : Bool) | useDtx (v : Bool)
  | levelAsymmetryAllowed (v : Bool) | packetizationMode (v : Nat) | profileLevelId (v : Nat) | profileId (v : Nat)
  | profile (v : Nat) | levelIdx (v : Nat) | tier (v : Nat) | h265 (v : H265Ptl) | h266 (v : H266Ptl)
  | spropMaxDonDiff (v : Nat) | apt (v : Nat) | unknown
deriving Repr, DecidableEq

/-- data.rs 995-1019: the match on the key, `none` where the value does not parse or the key is not known -/
def FP.parseKey (k v : Str) : Option FP :=
  if k = c!"minptime" then (parseNat 255 v).map .minPTime
  else if k = c!"useinbandfec" then some (.useInbandFec (v == c!"1"))
  else if k = c!"usedtx" then some (.useDtx (v == c!"1"))
  else if k = c!"stereo" then some (.stereo (v == c!"1"))
  else if k = c!"sprop-stereo" then some (.spropStereo (v == c!"1"))
  else if k = c!"level-asymmetry-allowed" then some (.levelAsymmetryAllowed (v == c!"1"))
  else if k = c!"packetization-mode" then (parseNat 255 v).map .packetizationMode
  else if k = c!"profile-level-id" then
    (match parseRadix 16 (2^32 - 1) v with
     | some n => some n
     | none => parseNat (2^32 - 1) v).map .profileLevelId
  else if k = c!"profile-id" then (parseNat (2^32 - 1) v).map .profileId
  else if k = c!"profile" then (parseNat 255 v).map .profile
  else if k = c!"level-idx" then (parseNat 255 v).map .levelIdx
  else if k = c!"tier" then (parseNat 255 v).map .tier
  else if k = c!"sprop-max-don-diff" then ((parseNat 65535 v).filter (· ≤ 32767)).map .spropMaxDonDiff
  else if k = c!"apt" then (parseNat 255 v).map .apt
  else none

/-- data.rs 993-1023 -/
def FP.parse (k v : Str) : FP := (FP.parseKey k v).getD .unknown

/-- `HashMap::get` on the entries of the map -/
def lookup (k : Str) (m : List (Str × Str)) : Option Str := (m.find? (fun p => p.1 == k)).map (·.2)

/-- `HashMap::from_iter`: one entry per key, the last value wins. The order of the list is not the order of the map. -/
def collectMap (pairs : List (Str × Str)) : List (Str × Str) :=
  pairs.foldl (fun m p => if m.any (fun q => q.1 == p.1) then m.map (fun q => if q.1 == p.1 then p else q) else m ++ [p]) []

/-- h265_profile.rs 45-51 -/
def ptl265 (m : List (Str × Str)) : Option H265Ptl :=
  match (lookup c!"profile-id" m).bind (parseNat 255), (lookup c!"tier-flag" m).bind (parseNat 255), (lookup c!"level-id" m).bind (parseNat 255) with
  | some p, some t, some l => H265Ptl.new p t l
  | _, _, _ => none

/-- h266_profile.rs 51-57 -/
def ptl266 (m : List (Str × Str)) : Option H266Ptl :=
  match (lookup c!"profile-id" m).bind (parseNat 255), (lookup c!"tier-flag" m).bind (parseNat 255), (lookup c!"level-id" m).bind (parseNat 255) with
  | some p, some t, some l => H266Ptl.new p t l
  | _, _, _ => none

/-- data.rs 1041-1047: the composite, H.265 first -/
def ptlOf (m : List (Str × Str)) : List FP :=
  match ptl265 m with
  | some p => [.h265 p]
  | none => match ptl266 m with
    | some p => [.h266 p]
    | none => []

/-- data.rs 1028-1063 -/
def parsePairs (env : Env Ip) (pairs : List (Str × Str)) : List FP :=
  if pairs.any (fun p => p.1 == c!"tier-flag" || p.1 == c!"level-id") then
    let m := collectMap pairs
    ptlOf m ++ ((env.mapOrder m).filter (fun p => p.1 != c!"profile-id" && p.1 != c!"tier-flag" && p.1 != c!"level-id")).map (fun p => FP.parse p.1 p.2)
  else pairs.map (fun p => FP.parse p.1 p.2)

/-- `i32::from(bool)` printed -/
def bit (b : Bool) : Str := if b then c!"1" else c!"0"

/-- data.rs 1066-1107 `Display` -/
def FP.show : FP → Str
  | .minPTime v => c!"minptime=" ++ dec v
  | .useInbandFec v => c!"useinbandfec=" ++ bit v
  | .useDtx v => c!"usedtx=" ++ bit v
  | .stereo v => c!"stereo=" ++ bit v
  | .spropStereo v => c!"sprop-stereo=" ++ bit v
  | .levelAsymmetryAllowed v => c!"level-asymmetry-allowed=" ++ bit v
  | .packetizationMode v => c!"packetization-mode=" ++ dec v
  | .profileLevelId v => c!"profile-level-id=" ++ hexPad 6 v
  | .profileId v => c!"profile-id=" ++ dec v
  | .profile v => c!"profile=" ++ dec v
  | .levelIdx v => c!"level-idx=" ++ dec v
  | .tier v => c!"tier=" ++ dec v
  | .h265 p => c!"profile-id=" ++ dec p.profile.toId ++ c!";tier-flag=" ++ dec p.tier.toFlag ++ c!";level-id=" ++ dec p.level.toId
  | .h266 p => c!"profile-id=" ++ dec p.profile.toId ++ c!";tier-flag=" ++ dec p.tier.toFlag ++ c!";level-id=" ++ dec p.level.toId
  | .spropMaxDonDiff v => c!"sprop-max-don-diff=" ++ dec v
  | .apt v => c!"apt=" ++ dec v
  | .unknown => []

/-- `[String]::join` -/
def join (sep : Str) : List Str → Str
  | [] => []
  | [s] => s
  | s :: ss => s ++ sep ++ join sep ss

/-! ### format_params.rs -/

/-- format_params.rs 141-162 `set_param` -/
def Fmt.set (f : Format) : FP → Format
  | .minPTime v => { f with minPTime := some v }
  | .stereo v => { f with stereo := some v }
  | .spropStereo v => { f with spropStereo := some v }
  | .useInbandFec v => { f with useInbandFec := some v }
  | .useDtx v => { f with useDtx := some v }
  | .levelAsymmetryAllowed v => { f with levelAsymmetryAllowed := some v }
  | .packetizationMode v => { f with packetizationMode := some v }
  | .profileLevelId v => { f with profileLevelId := some v }
  | .profileId v => { f with profileId := some v }
  | .profile v => { f with profile := some v }
  | .levelIdx v => { f with levelIdx := some v }
  | .tier v => { f with tier := some v }
  | .h265 v => { f with h265 := some v }
  | .h266 v => { f with h266 := some v }
  | .spropMaxDonDiff v => { f with spropMaxDonDiff := some v }
  | .apt _ => f
  | .unknown => f

/-- format_params.rs 164-217 `to_format_param` -/
def Fmt.toParams (f : Format) : List FP :=
  (f.minPTime.map FP.minPTime).toList ++ (f.stereo.map FP.stereo).toList ++ (f.spropStereo.map FP.spropStereo).toList ++
  (f.useInbandFec.map FP.useInbandFec).toList ++ (f.useDtx.map FP.useDtx).toList ++
  (f.levelAsymmetryAllowed.map FP.levelAsymmetryAllowed).toList ++ (f.packetizationMode.map FP.packetizationMode).toList ++
  (f.profileLevelId.map FP.profileLevelId).toList ++ (f.profileId.map FP.profileId).toList ++ (f.profile.map FP.profile).toList ++
  (f.levelIdx.map FP.levelIdx).toList ++ (f.tier.map FP.tier).toList ++ (f.h265.map FP.h265).toList ++ (f.h266.map FP.h266).toList ++
  (f.spropMaxDonDiff.map FP.spropMaxDonDiff).toList

/-- format_params.rs 220-230 `Display` -/
def Fmt.show (f : Format) : Str := join c!";" ((Fmt.toParams f).map FP.show)

/-- `str::split(char)` -/
def split (sep : Char) : Str → List Str
  | [] => [[]]
  | c :: cs =>
    if c == sep then [] :: split sep cs
    else match split sep cs with
      | [] => [[c]]
      | s :: ss => (c :: s) :: ss

/-- format_params.rs 123-129: `k=v` of one part, `None` without a `=` -/
def keyVal (part : Str) : Option (Str × Str) :=
  match split '=' part with
  | k :: v :: _ => some (trim k, trim v)
  | _ => none

/-- format_params.rs 120-139 -/
def Fmt.parseLine (env : Env Ip) (line : Str) : Format :=
  (parsePairs env ((split ';' line).filterMap keyVal)).foldl Fmt.set {}

end Str0m.Sdp
