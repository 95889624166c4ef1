import Verif.Proofs.Fmtp
import Mathlib.Data.List.Pairwise

/-!
C73: format parameters survive their text.
-/

namespace Str0m.Sdp
open Str0m.Text Str0m.StrId Str0m.Profiles Str0m.Pts

/-- Format parameters within the widths of their fields, with at most one of the three that are written as `profile-id` -/
structure FmtOk (f : Format) : Prop where
  minPTime : ∀ v ∈ f.minPTime, v ≤ 255
  packetizationMode : ∀ v ∈ f.packetizationMode, v ≤ 255
  profileLevelId : ∀ v ∈ f.profileLevelId, v < 2 ^ 32
  profileId : ∀ v ∈ f.profileId, v < 2 ^ 32
  profile : ∀ v ∈ f.profile, v ≤ 255
  levelIdx : ∀ v ∈ f.levelIdx, v ≤ 255
  tier : ∀ v ∈ f.tier, v ≤ 255
  spropMaxDonDiff : ∀ v ∈ f.spropMaxDonDiff, v ≤ 32767
  one : (f.profileId = none ∨ (f.h265 = none ∧ f.h266 = none)) ∧ (f.h265 = none ∨ f.h266 = none)

theorem toParams_fits (f : Format) (h : FmtOk f) : ∀ v ∈ Fmt.toParams f, v.Fits := by
  intro v hv
  simp only [Fmt.toParams, List.mem_append, Option.mem_toList, Option.mem_def, Option.map_eq_some_iff] at hv
  rcases hv with (((((((((((((hv | hv) | hv) | hv) | hv) | hv) | hv) | hv) | hv) | hv) | hv) | hv) | hv) | hv) | hv
  all_goals obtain ⟨x, hx, rfl⟩ := hv
  all_goals first
    | trivial
    | exact h.minPTime x hx
    | exact h.packetizationMode x hx
    | exact h.profileLevelId x hx
    | exact h.profileId x hx
    | exact h.profile x hx
    | exact h.levelIdx x hx
    | exact h.tier x hx
    | exact h.spropMaxDonDiff x hx

theorem optSub {α : Type} (c : α → FP) (o : Option α) (d : α) : List.Sublist (o.map c).toList [c (o.getD d)] := by
  cases o <;> simp

/-- No two parameters of a format have the same name -/
theorem toParams_names (f : Format) (h : FmtOk f) : (Fmt.toParams f).Pairwise (fun a b => a.name ≠ b.name) := by
  have key : ∀ x y z : List FP, List.Sublist (Fmt.toParams f)
      (((((([FP.minPTime (f.minPTime.getD 0)] ++ [FP.stereo (f.stereo.getD false)]) ++ [FP.spropStereo (f.spropStereo.getD false)]) ++
      [FP.useInbandFec (f.useInbandFec.getD false)] ++ [FP.useDtx (f.useDtx.getD false)]) ++
      [FP.levelAsymmetryAllowed (f.levelAsymmetryAllowed.getD false)]) ++ [FP.packetizationMode (f.packetizationMode.getD 0)]) ++
      [FP.profileLevelId (f.profileLevelId.getD 0)] ++ x ++ [FP.profile (f.profile.getD 0)] ++ [FP.levelIdx (f.levelIdx.getD 0)] ++
      [FP.tier (f.tier.getD 0)] ++ y ++ z ++ [FP.spropMaxDonDiff (f.spropMaxDonDiff.getD 0)]) ∨ ¬ (
        List.Sublist (f.profileId.map FP.profileId).toList x ∧ List.Sublist (f.h265.map FP.h265).toList y ∧
        List.Sublist (f.h266.map FP.h266).toList z) := by
    intro x y z
    by_cases hs : List.Sublist (f.profileId.map FP.profileId).toList x ∧ List.Sublist (f.h265.map FP.h265).toList y ∧
        List.Sublist (f.h266.map FP.h266).toList z
    · left
      unfold Fmt.toParams
      repeat' apply List.Sublist.append
      all_goals first
        | exact optSub _ _ _
        | exact hs.1
        | exact hs.2.1
        | exact hs.2.2
    · exact Or.inr hs
  obtain ⟨h1, h2⟩ := h.one
  rcases h1 with h1 | ⟨h3, h4⟩
  · rcases h2 with h2 | h2
    · have := (key [] [] [FP.h266 (f.h266.getD .FALLBACK)]).resolve_right (not_not.2 ⟨by simp [h1], by first | exact optSub _ _ _ | simp [h2], by first | exact optSub _ _ _ | simp [h2]⟩)
      exact List.Pairwise.sublist this (by simp [FP.name])
    · have := (key [] [FP.h265 (f.h265.getD .FALLBACK)] []).resolve_right (not_not.2 ⟨by simp [h1], by first | exact optSub _ _ _ | simp [h2], by first | exact optSub _ _ _ | simp [h2]⟩)
      exact List.Pairwise.sublist this (by simp [FP.name])
  · have := (key [FP.profileId (f.profileId.getD 0)] [] []).resolve_right (not_not.2 ⟨optSub _ _ _, by simp [h3], by simp [h4]⟩)
    exact List.Pairwise.sublist this (by simp [FP.name])

/-- Two parameters with different names are set in either order -/
theorem set_comm (x y : FP) (h : x.name ≠ y.name) (g : Format) : Fmt.set (Fmt.set g x) y = Fmt.set (Fmt.set g y) x := by
  cases x <;> cases y <;> first | rfl | exact absurd rfl h

theorem set_toParams (f : Format) : (Fmt.toParams f).foldl Fmt.set {} = f := by
  have e1 : ∀ (o : Option Nat) (g : Format), (o.map FP.minPTime).toList.foldl Fmt.set g = { g with minPTime := o <|> g.minPTime } := by intro o g; cases o <;> rfl
  have e2 : ∀ (o : Option Bool) (g : Format), (o.map FP.stereo).toList.foldl Fmt.set g = { g with stereo := o <|> g.stereo } := by intro o g; cases o <;> rfl
  have e3 : ∀ (o : Option Bool) (g : Format), (o.map FP.spropStereo).toList.foldl Fmt.set g = { g with spropStereo := o <|> g.spropStereo } := by intro o g; cases o <;> rfl
  have e4 : ∀ (o : Option Bool) (g : Format), (o.map FP.useInbandFec).toList.foldl Fmt.set g = { g with useInbandFec := o <|> g.useInbandFec } := by intro o g; cases o <;> rfl
  have e5 : ∀ (o : Option Bool) (g : Format), (o.map FP.useDtx).toList.foldl Fmt.set g = { g with useDtx := o <|> g.useDtx } := by intro o g; cases o <;> rfl
  have e6 : ∀ (o : Option Bool) (g : Format), (o.map FP.levelAsymmetryAllowed).toList.foldl Fmt.set g = { g with levelAsymmetryAllowed := o <|> g.levelAsymmetryAllowed } := by intro o g; cases o <;> rfl
  have e7 : ∀ (o : Option Nat) (g : Format), (o.map FP.packetizationMode).toList.foldl Fmt.set g = { g with packetizationMode := o <|> g.packetizationMode } := by intro o g; cases o <;> rfl
  have e8 : ∀ (o : Option Nat) (g : Format), (o.map FP.profileLevelId).toList.foldl Fmt.set g = { g with profileLevelId := o <|> g.profileLevelId } := by intro o g; cases o <;> rfl
  have e9 : ∀ (o : Option Nat) (g : Format), (o.map FP.profileId).toList.foldl Fmt.set g = { g with profileId := o <|> g.profileId } := by intro o g; cases o <;> rfl
  have e10 : ∀ (o : Option Nat) (g : Format), (o.map FP.profile).toList.foldl Fmt.set g = { g with profile := o <|> g.profile } := by intro o g; cases o <;> rfl
  have e11 : ∀ (o : Option Nat) (g : Format), (o.map FP.levelIdx).toList.foldl Fmt.set g = { g with levelIdx := o <|> g.levelIdx } := by intro o g; cases o <;> rfl
  have e12 : ∀ (o : Option Nat) (g : Format), (o.map FP.tier).toList.foldl Fmt.set g = { g with tier := o <|> g.tier } := by intro o g; cases o <;> rfl
  have e13 : ∀ (o : Option H265Ptl) (g : Format), (o.map FP.h265).toList.foldl Fmt.set g = { g with h265 := o <|> g.h265 } := by intro o g; cases o <;> rfl
  have e14 : ∀ (o : Option H266Ptl) (g : Format), (o.map FP.h266).toList.foldl Fmt.set g = { g with h266 := o <|> g.h266 } := by intro o g; cases o <;> rfl
  have e15 : ∀ (o : Option Nat) (g : Format), (o.map FP.spropMaxDonDiff).toList.foldl Fmt.set g = { g with spropMaxDonDiff := o <|> g.spropMaxDonDiff } := by intro o g; cases o <;> rfl
  simp only [Fmt.toParams, List.foldl_append, e1, e2, e3, e4, e5, e6, e7, e8, e9, e10, e11, e12, e13, e14, e15]
  simp

theorem set_perm (f : Format) (h : FmtOk f) (vs : List FP) (hp : vs.Perm (Fmt.toParams f)) : vs.foldl Fmt.set {} = f := by
  rw [hp.foldl_eq', set_toParams]
  intro x hx y hy z
  have hx := hp.subset hx
  have hy := hp.subset hy
  by_cases hxy : x = y
  · rw [hxy]
  · refine set_comm x y ?_ z
    haveI : Std.Symm (fun a b : FP => a.name ≠ b.name) := ⟨fun a b hab => Ne.symm hab⟩
    exact (toParams_names f h).forall hx hy hxy

/-- C73. Format parameters written by `Display` are read back by `parse_line`, whatever the order of the map. -/
theorem C73_fmtp_roundtrip (env : Env Ip) (henv : env.Lawful) (f : Format) (h : FmtOk f) : Fmt.parseLine env (Fmt.show f) = f := by
  unfold Fmt.parseLine Fmt.show
  rw [join_pairs _ (toParams_fits f h), keyVals_join]
  · exact set_perm f h _ (parsePairs_pairs env henv _ (toParams_fits f h) (fun _ => toParams_names f h)).2
  · intro p hp
    obtain ⟨v, _, hv⟩ := List.mem_flatMap.1 hp
    exact v.pairs_plain p hv

/-! ### The hypotheses are needed, and met -/

/-- An environment -/
def env0 : Env Nat := { ipShow := dec, ipParse := parseNat (2^32 - 1), version := c!"0.1.0", alnum := isAlnum, mapOrder := List.reverse }

theorem env0_lawful : env0.Lawful := fun m => List.reverse_perm m

def fmt264 : Format := { levelAsymmetryAllowed := some true, packetizationMode := some 1, profileLevelId := some 0x42e01f }

theorem fmt264_ok : FmtOk fmt264 := by constructor <;> simp [fmt264]

example : Fmt.show fmt264 = c!"level-asymmetry-allowed=1;packetization-mode=1;profile-level-id=42e01f" := by decide +kernel

def fmt265 : Format := { h265 := some .FALLBACK, spropMaxDonDiff := some 3, minPTime := some 10 }

theorem fmt265_ok : FmtOk fmt265 := by constructor <;> simp [fmt265]

example : Fmt.show fmt265 = c!"minptime=10;profile-id=1;tier-flag=0;level-id=93;sprop-max-don-diff=3" := by decide +kernel
example : Fmt.parseLine env0 (Fmt.show fmt265) = fmt265 := C73_fmtp_roundtrip env0 env0_lawful fmt265 fmt265_ok

/-- `sprop-max-don-diff` above 32767 does not come back -/
example : Fmt.parseLine env0 (Fmt.show { spropMaxDonDiff := some 32768 }) = {} := by decide +kernel

/-- A `profile-id` beside a composite is printed twice and lost -/
example : Fmt.parseLine env0 (Fmt.show { profileId := some 2, h265 := some .FALLBACK }) = { h265 := some .FALLBACK } := by decide +kernel

/-- C73 (violation). A VP9 `profile-id` is lost when a `level-id` stands on the same line. -/
theorem C73_profile_id_lost : (Fmt.parseLine env0 c!"profile-id=2;level-id=31").profileId = none ∧ (Fmt.parseLine env0 c!"profile-id=2").profileId = some 2 := by
  decide +kernel

end Str0m.Sdp
