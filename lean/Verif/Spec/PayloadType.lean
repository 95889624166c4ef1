import Verif.Model.PayloadType
/-
  What C40 is about: the payload types a configuration uses, and who chose which remote entry.
-/
namespace Str0m.Pts.Spec
open Str0m.Pts

/-- All payload types an entry uses: its own and the one for resends. -/
def uses (p : Params) : List Nat := match p.resend with
  | some r => [p.pt, r]
  | none => [p.pt]

/-- All payload types of a configuration. -/
def used : List Params → List Nat
  | [] => []
  | p :: ps => uses p ++ used ps

/-- No number has two meanings, and all are payload types. -/
structure Wf (ps : List Params) : Prop where
  distinct : (used ps).Nodup
  range : ∀ n ∈ used ps, n < 128

/-- `r` is a best match for `p` among the remote entries. -/
def IsBest (p : Params) (remote : List Params) (r : Params) : Prop :=
  r ∈ remote ∧ ∃ s, matchScore p r = some s ∧ ∀ q ∈ remote, ∀ t, matchScore p q = some t → t ≤ s

/-- The remote entries that entries not yet negotiated take as their match (`best` is characterised by
`C40_best`). -/
def demands (ps remote : List Params) : List Params := (ps.filter (fun p => !p.locked)).filterMap (fun p => best p remote)

/-- The entries that are negotiated. -/
def settled (ps : List Params) : List Params := ps.filter (fun p => p.locked)

/-- Nothing matches. -/
def NoMatch (p : Params) (remote : List Params) : Prop := ∀ r ∈ remote, matchScore p r = none

/-- No entry can match two entries of the list. -/
def Exclusive (ps : List Params) : Prop :=
  List.Pairwise (fun p q => ∀ r : Params, matchScore p r = none ∨ matchScore q r = none) ps

/-- What separates codecs in SDP besides name, clock and channels (RFC 6184 8.2.2: mode and profile;
RFC 7798, RFC 9328: profile; RFC 9628: profile; AV1: profile, level, tier). -/
inductive Detail where
  | any
  | h264 (mode : Nat) (profile : Option Profiles.H264Profile)
  | profile (n : Nat)
  | av1 (profile level tier : Nat)
  | exact (f : Format)
deriving DecidableEq

/-- RFC 6184 8.1: Baseline 3.1 if there is no profile-level-id. -/
def h264ProfileOf (f : Format) : Option Profiles.H264Profile :=
  match f.profileLevelId with
  | none => some .baseline
  | some l => (Profiles.H264ProfileLevel.tryFrom l).map Profiles.H264ProfileLevel.profile

/-- RFC 7798 7.1: Main (1) if there is no profile-id. -/
def profileOr1 (own : Option Nat) (id : Option Nat) : Nat :=
  match own, id with
  | some n, _ => n
  | none, some n => n % 256
  | none, none => 1

def detail (s : Pts.Spec) : Detail :=
  match s.codec with
  | .opus => .any
  | .h264 => .h264 (s.format.packetizationMode.getD 0) (h264ProfileOf s.format)
  | .h265 => .profile (profileOr1 (s.format.h265.map (fun x => x.profile.toId)) s.format.profileId)
  | .h266 => .profile (profileOr1 (s.format.h266.map (fun x => x.profile.toId)) s.format.profileId)
  | .vp9 => .profile (s.format.profileId.getD 0)
  | .av1 => .av1 (s.format.profile.getD 0) (s.format.levelIdx.getD 5) (s.format.tier.getD 0)
  | _ => .exact s.format

/-- The media format an entry stands for. -/
def kind (p : Params) : Codec × Nat × Option Nat × Detail := (p.spec.codec, p.spec.clockRate, p.spec.channels, detail p.spec)

/-- A configuration as it should be: all numbers different, one entry per media format, and few
enough entries that there are always free numbers. -/
structure Good (ps : List Params) : Prop where
  wf : Wf ps
  kinds : (ps.map kind).Nodup
  small : 4 * ps.length ≤ 87

end Str0m.Pts.Spec
