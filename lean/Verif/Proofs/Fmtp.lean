import Verif.Model.Fmtp
import Verif.Proofs.Text
import Verif.Props.Profiles
import Verif.Props.StrId

namespace Str0m.Sdp
open Str0m.Text Str0m.StrId Str0m.Profiles Str0m.Pts

/-! ### Specification -/

/-- The values a parameter can have in an SDP (the widths of the fields; RFC 7798 bounds `sprop-max-don-diff`). -/
def FP.Fits : FP → Prop
  | .minPTime v | .packetizationMode v | .profile v | .levelIdx v | .tier v | .apt v => v ≤ 255
  | .profileLevelId v | .profileId v => v < 2 ^ 32
  | .spropMaxDonDiff v => v ≤ 32767
  | .unknown => False
  | _ => True

/-- What a parameter is called in the text. The composites of H.265 and H.266 both begin with `profile-id`. -/
def FP.name : FP → Nat
  | .minPTime _ => 0 | .stereo _ => 1 | .spropStereo _ => 2 | .useInbandFec _ => 3 | .useDtx _ => 4 | .levelAsymmetryAllowed _ => 5
  | .packetizationMode _ => 6 | .profileLevelId _ => 7 | .profileId _ => 8 | .profile _ => 9 | .levelIdx _ => 10 | .tier _ => 11
  | .h265 _ => 8 | .h266 _ => 8 | .spropMaxDonDiff _ => 12 | .apt _ => 13 | .unknown => 14

/-- The composites -/
def FP.IsPtl : FP → Prop
  | .h265 _ | .h266 _ => True
  | _ => False

/-- The order of a map's entries is an order of its entries -/
def Env.Lawful (env : Env Ip) : Prop := ∀ m, (env.mapOrder m).Perm m

/-! ### The pairs of a parameter -/

def FP.pairs : FP → List (Str × Str)
  | .minPTime v => [(c!"minptime", dec v)]
  | .useInbandFec v => [(c!"useinbandfec", bit v)]
  | .useDtx v => [(c!"usedtx", bit v)]
  | .stereo v => [(c!"stereo", bit v)]
  | .spropStereo v => [(c!"sprop-stereo", bit v)]
  | .levelAsymmetryAllowed v => [(c!"level-asymmetry-allowed", bit v)]
  | .packetizationMode v => [(c!"packetization-mode", dec v)]
  | .profileLevelId v => [(c!"profile-level-id", hexPad 6 v)]
  | .profileId v => [(c!"profile-id", dec v)]
  | .profile v => [(c!"profile", dec v)]
  | .levelIdx v => [(c!"level-idx", dec v)]
  | .tier v => [(c!"tier", dec v)]
  | .h265 p => [(c!"profile-id", dec p.profile.toId), (c!"tier-flag", dec p.tier.toFlag), (c!"level-id", dec p.level.toId)]
  | .h266 p => [(c!"profile-id", dec p.profile.toId), (c!"tier-flag", dec p.tier.toFlag), (c!"level-id", dec p.level.toId)]
  | .spropMaxDonDiff v => [(c!"sprop-max-don-diff", dec v)]
  | .apt v => [(c!"apt", dec v)]
  | .unknown => []

def kv (p : Str × Str) : Str := p.1 ++ c!"=" ++ p.2

theorem FP.show_pairs (v : FP) : v.show = join c!";" (v.pairs.map kv) := by
  cases v <;> simp [FP.show, FP.pairs, join, kv]

theorem FP.pairs_ne_nil (v : FP) (h : v.Fits) : v.pairs ≠ [] := by
  cases v <;> simp_all [FP.pairs, FP.Fits]

theorem join_append (sep : Str) (xs ys : List Str) (hx : xs ≠ []) (hy : ys ≠ []) : join sep (xs ++ ys) = join sep xs ++ sep ++ join sep ys := by
  induction xs with
  | nil => exact absurd rfl hx
  | cons x xs ih =>
    cases xs with
    | nil =>
      cases ys with
      | nil => exact absurd rfl hy
      | cons y ys => simp [join]
    | cons x2 xs =>
      have := ih (by simp)
      simp only [List.cons_append, join] at this ⊢
      rw [this]; simp

theorem join_pairs (vs : List FP) (h : ∀ v ∈ vs, v.Fits) : join c!";" (vs.map FP.show) = join c!";" ((vs.flatMap FP.pairs).map kv) := by
  induction vs with
  | nil => rfl
  | cons v vs ih =>
    have hv := FP.pairs_ne_nil v (h v (by simp))
    have ih := ih (fun w hw => h w (by simp [hw]))
    cases vs with
    | nil => simp [join, FP.show_pairs]
    | cons w ws =>
      have hw := FP.pairs_ne_nil w (h w (by simp))
      rw [List.flatMap_cons, List.map_append, join_append _ _ _ (by simpa using hv) (by simp [hw]), ← ih, List.map_cons, FP.show_pairs v]
      rfl

/-- The characters of a key -/
def KeyChar (c : Char) : Prop := c ≠ '=' ∧ c ≠ ';' ∧ isWs c = false ∧ c ≠ ' ' ∧ c ≠ '\r' ∧ c ≠ '\n'

instance (c : Char) : Decidable (KeyChar c) := by unfold KeyChar; infer_instance

theorem hexDigit_keyChar : ∀ d : Fin 16, KeyChar (hexDigit d.val) := by decide +kernel

theorem dec_keyChar (n : Nat) : ∀ c ∈ dec n, KeyChar c := by
  intro c hc
  obtain ⟨d, hd, rfl⟩ := digitsGo_mem 10 hexDigit (by omega) _ _ c hc
  exact hexDigit_keyChar ⟨d, by omega⟩

theorem hexPad_keyChar (w n : Nat) : ∀ c ∈ hexPad w n, KeyChar c := by
  intro c hc
  obtain ⟨d, hd, rfl⟩ := hexPad_mem w n c hc
  exact hexDigit_keyChar ⟨d, hd⟩

theorem bit_keyChar (b : Bool) : ∀ c ∈ bit b, KeyChar c := by cases b <;> decide

/-- A key or a value -/
def Plain (s : Str) : Prop := s ≠ [] ∧ ∀ c ∈ s, KeyChar c

instance (s : Str) : Decidable (Plain s) := by unfold Plain; infer_instance

theorem dec_plain (n : Nat) : Plain (dec n) := ⟨dec_ne_nil n, dec_keyChar n⟩
theorem hexPad_plain (w n : Nat) : Plain (hexPad w n) := ⟨hexPad_ne_nil w n, hexPad_keyChar w n⟩
theorem bit_plain (b : Bool) : Plain (bit b) := by cases b <;> decide

theorem FP.pairs_plain (v : FP) : ∀ p ∈ v.pairs, Plain p.1 ∧ Plain p.2 := by
  intro p hp
  cases v <;> simp only [FP.pairs, List.mem_cons, List.not_mem_nil, or_false] at hp
  case h265 | h266 =>
    rcases hp with rfl | rfl | rfl
    · exact ⟨by dsimp only; decide +kernel, dec_plain _⟩
    · exact ⟨by dsimp only; decide +kernel, dec_plain _⟩
    · exact ⟨by dsimp only; decide +kernel, dec_plain _⟩
  all_goals subst hp
  all_goals first
    | exact ⟨by dsimp only; decide +kernel, dec_plain _⟩
    | exact ⟨by dsimp only; decide +kernel, bit_plain _⟩
    | exact ⟨by dsimp only; decide +kernel, hexPad_plain _ _⟩

/-! ### Splitting -/

theorem split_free (sep : Char) (s : Str) (h : ∀ c ∈ s, c ≠ sep) : split sep s = [s] := by
  induction s with
  | nil => rfl
  | cons c s ih =>
    have hc := h c (by simp)
    simp [split, hc, ih (fun x hx => h x (by simp [hx]))]

theorem split_append (sep : Char) (s t : Str) (h : ∀ c ∈ s, c ≠ sep) : split sep (s ++ sep :: t) = s :: split sep t := by
  induction s with
  | nil => simp [split]
  | cons c s ih =>
    have hc := h c (by simp)
    simp [split, hc, ih (fun x hx => h x (by simp [hx]))]

theorem split_join (xs : List Str) (hx : xs ≠ []) (h : ∀ s ∈ xs, ∀ c ∈ s, c ≠ ';') : split ';' (join c!";" xs) = xs := by
  induction xs with
  | nil => exact absurd rfl hx
  | cons x xs ih =>
    cases xs with
    | nil => simpa [join] using split_free ';' x (h x (by simp))
    | cons y ys =>
      rw [join, List.append_assoc]
      · have := split_append ';' x (join c!";" (y :: ys)) (h x (by simp))
        rw [ih (by simp) (fun s hs => h s (by simp [hs]))] at this
        exact this
      · simp

theorem dropWhile_eq_self {α : Type} (f : α → Bool) (s : List α) (h : ∀ c ∈ s, f c = false) : s.dropWhile f = s := by
  cases s with
  | nil => rfl
  | cons c s => simp [h c (by simp)]

theorem trim_plain (s : Str) (h : ∀ c ∈ s, KeyChar c) : trim s = s := by
  unfold trim
  rw [dropWhile_eq_self _ _ (fun c hc => (h c hc).2.2.1), dropWhile_eq_self _ _ (fun c hc => (h c (by simpa using hc)).2.2.1), List.reverse_reverse]

theorem keyVal_kv (p : Str × Str) (h1 : Plain p.1) (h2 : Plain p.2) : keyVal (kv p) = some p := by
  unfold keyVal kv
  rw [List.append_assoc]
  have : split '=' (p.1 ++ (c!"=" ++ p.2)) = p.1 :: split '=' p.2 := split_append '=' p.1 p.2 (fun c hc => (h1.2 c hc).1)
  rw [this, split_free '=' p.2 (fun c hc => (h2.2 c hc).1)]
  simp [trim_plain _ h1.2, trim_plain _ h2.2]

/-- The pairs are read back from the text -/
theorem keyVals_join (ps : List (Str × Str)) (h : ∀ p ∈ ps, Plain p.1 ∧ Plain p.2) : (split ';' (join c!";" (ps.map kv))).filterMap keyVal = ps := by
  by_cases hp : ps = []
  · subst hp; decide
  · rw [split_join _ (by simpa using hp)]
    · rw [List.filterMap_map]
      have : ∀ p ∈ ps, (keyVal ∘ kv) p = some p := fun p hp => keyVal_kv p (h p hp).1 (h p hp).2
      clear hp h
      induction ps with
      | nil => rfl
      | cons p ps ih =>
        rw [List.filterMap_cons_some (this p (by simp)), ih (fun q hq => this q (by simp [hq]))]
    · intro s hs c hc
      obtain ⟨p, hp, rfl⟩ := List.mem_map.1 hs
      simp only [kv, List.mem_append, List.mem_singleton] at hc
      rcases hc with (hc | rfl) | hc
      · exact ((h p hp).1.2 c hc).2.1
      · decide
      · exact ((h p hp).2.2 c hc).2.1

/-! ### One pair at a time -/

theorem FP.parse_pair (v : FP) (hf : v.Fits) (hp : ¬ v.IsPtl) : ∃ p, v.pairs = [p] ∧ FP.parse p.1 p.2 = v := by
  cases v with
  | h265 | h266 => exact absurd trivial hp
  | unknown => exact absurd hf id
  | minPTime v => exact ⟨_, rfl, by simp [FP.parse, FP.parseKey, parseNat_dec 255 v hf]⟩
  | packetizationMode v => exact ⟨_, rfl, by simp [FP.parse, FP.parseKey, parseNat_dec 255 v hf]⟩
  | profile v => exact ⟨_, rfl, by simp [FP.parse, FP.parseKey, parseNat_dec 255 v hf]⟩
  | levelIdx v => exact ⟨_, rfl, by simp [FP.parse, FP.parseKey, parseNat_dec 255 v hf]⟩
  | tier v => exact ⟨_, rfl, by simp [FP.parse, FP.parseKey, parseNat_dec 255 v hf]⟩
  | apt v => exact ⟨_, rfl, by simp [FP.parse, FP.parseKey, parseNat_dec 255 v hf]⟩
  | profileId v => exact ⟨_, rfl, by simp [FP.parse, FP.parseKey, parseNat_dec 4294967295 v (Nat.le_pred_of_lt hf)]⟩
  | profileLevelId v => exact ⟨_, rfl, by simp [FP.parse, FP.parseKey, parseRadix_hexPad 6 4294967295 v (Nat.le_pred_of_lt hf)]⟩
  | spropMaxDonDiff v =>
    have h : v ≤ 32767 := hf
    exact ⟨_, rfl, by simp [FP.parse, FP.parseKey, parseNat_dec 65535 v (by omega), Option.filter, h]⟩
  | stereo v => exact ⟨_, rfl, by cases v <;> simp [FP.parse, FP.parseKey, bit]⟩
  | spropStereo v => exact ⟨_, rfl, by cases v <;> simp [FP.parse, FP.parseKey, bit]⟩
  | useInbandFec v => exact ⟨_, rfl, by cases v <;> simp [FP.parse, FP.parseKey, bit]⟩
  | useDtx v => exact ⟨_, rfl, by cases v <;> simp [FP.parse, FP.parseKey, bit]⟩
  | levelAsymmetryAllowed v => exact ⟨_, rfl, by cases v <;> simp [FP.parse, FP.parseKey, bit]⟩

theorem map_parse (vs : List FP) (hf : ∀ v ∈ vs, v.Fits) (hp : ∀ v ∈ vs, ¬ v.IsPtl) :
    (vs.flatMap FP.pairs).map (fun p => FP.parse p.1 p.2) = vs := by
  induction vs with
  | nil => rfl
  | cons v vs ih =>
    obtain ⟨p, h1, h2⟩ := FP.parse_pair v (hf v (by simp)) (hp v (by simp))
    rw [List.flatMap_cons, h1]
    simpa [h2] using ih (fun w hw => hf w (by simp [hw])) (fun w hw => hp w (by simp [hw]))

/-! ### Keys -/

def keysOf : Nat → List Str
  | 0 => [c!"minptime"] | 1 => [c!"stereo"] | 2 => [c!"sprop-stereo"] | 3 => [c!"useinbandfec"] | 4 => [c!"usedtx"]
  | 5 => [c!"level-asymmetry-allowed"] | 6 => [c!"packetization-mode"] | 7 => [c!"profile-level-id"]
  | 8 => [c!"profile-id", c!"tier-flag", c!"level-id"] | 9 => [c!"profile"] | 10 => [c!"level-idx"] | 11 => [c!"tier"]
  | 12 => [c!"sprop-max-don-diff"] | 13 => [c!"apt"] | _ => []

theorem keysOf_nodup : ∀ i : Fin 15, (keysOf i.val).Nodup := by decide +kernel
theorem keysOf_disjoint : ∀ i j : Fin 15, i ≠ j → ∀ k ∈ keysOf i.val, k ∉ keysOf j.val := by decide +kernel

theorem FP.name_lt (v : FP) : v.name < 15 := by cases v <;> simp [FP.name]

theorem FP.keys (v : FP) : List.Sublist (v.pairs.map Prod.fst) (keysOf v.name) := by
  cases v <;> simp [FP.pairs, FP.name, keysOf]

theorem FP.keys_disjoint (v w : FP) (h : v.name ≠ w.name) (k : Str) (hk : k ∈ v.pairs.map Prod.fst) : k ∉ w.pairs.map Prod.fst := by
  intro hw
  exact keysOf_disjoint ⟨v.name, v.name_lt⟩ ⟨w.name, w.name_lt⟩ (by simpa [Fin.ext_iff] using h) k (v.keys.subset hk) (w.keys.subset hw)

theorem keys_nodup (vs : List FP) (h : vs.Pairwise (fun a b => a.name ≠ b.name)) : ((vs.flatMap FP.pairs).map Prod.fst).Nodup := by
  induction vs with
  | nil => simp
  | cons v vs ih =>
    rw [List.pairwise_cons] at h
    rw [List.flatMap_cons, List.map_append, List.nodup_append]
    refine ⟨v.keys.nodup (keysOf_nodup ⟨v.name, v.name_lt⟩), ih h.2, ?_⟩
    intro a ha b hb hab
    subst hab
    rw [List.mem_map] at hb
    obtain ⟨p, hp, rfl⟩ := hb
    obtain ⟨w, hw, hpw⟩ := List.mem_flatMap.1 hp
    exact FP.keys_disjoint v w (h.1 w hw) _ ha (List.mem_map.2 ⟨p, hpw, rfl⟩)

theorem collectMap_go (ps acc : List (Str × Str)) (h : ((acc ++ ps).map Prod.fst).Nodup) :
    ps.foldl (fun m p => if m.any (fun q => q.1 == p.1) then m.map (fun q => if q.1 == p.1 then p else q) else m ++ [p]) acc = acc ++ ps := by
  induction ps generalizing acc with
  | nil => simp
  | cons p ps ih =>
    rw [List.foldl_cons]
    have hno : acc.any (fun q => q.1 == p.1) = false := by
      rw [List.any_eq_false]
      intro q hq hqp
      have hqp : q.1 = p.1 := by simpa using hqp
      rw [List.map_append, List.nodup_append] at h
      exact h.2.2 q.1 (List.mem_map.2 ⟨q, hq, rfl⟩) p.1 (by simp) hqp
    rw [hno]
    simp only [Bool.false_eq_true, if_false]
    rw [ih (acc ++ [p]) (by simpa using h)]
    simp

theorem collectMap_nodup (ps : List (Str × Str)) (h : (ps.map Prod.fst).Nodup) : collectMap ps = ps := by
  simpa [collectMap] using collectMap_go ps [] (by simpa using h)

theorem lookup_mem (m : List (Str × Str)) (h : (m.map Prod.fst).Nodup) (k v : Str) (hm : (k, v) ∈ m) : lookup k m = some v := by
  unfold lookup
  induction m with
  | nil => simp at hm
  | cons p m ih =>
    rw [List.map_cons, List.nodup_cons] at h
    by_cases hk : p.1 = k
    · rw [List.find?_cons_of_pos (by simpa using hk)]
      rcases List.mem_cons.1 hm with rfl | hm
      · rfl
      · exact absurd (List.mem_map.2 ⟨_, hm, rfl⟩) (by rw [← hk] at *; exact h.1)
    · rw [List.find?_cons_of_neg (by simpa using hk)]
      rcases List.mem_cons.1 hm with rfl | hm
      · exact absurd rfl hk
      · exact ih h.2 hm

theorem h265_bounds (p : H265Ptl) : p.profile.toId ≤ 255 ∧ p.tier.toFlag ≤ 255 ∧ p.level.toId ≤ 255 := by
  obtain ⟨a, b, c⟩ := p
  refine ⟨?_, ?_, ?_⟩ <;> dsimp only
  · cases a <;> decide
  · cases b <;> decide
  · cases c <;> decide

theorem h266_bounds (p : H266Ptl) : p.profile.toId ≤ 255 ∧ p.tier.toFlag ≤ 255 ∧ p.level.toId ≤ 255 := by
  obtain ⟨a, b, c⟩ := p
  refine ⟨?_, ?_, ?_⟩ <;> dsimp only
  · cases a <;> decide
  · cases b <;> decide
  · cases c <;> decide

theorem h265_new (p : H265Ptl) : H265Ptl.new p.profile.toId p.tier.toFlag p.level.toId = some p := by
  obtain ⟨a, b, c⟩ := p
  have h1 : H265Profile.fromId a.toId = some a := by cases a <;> decide
  have h2 : Tier.fromFlag b.toFlag = some b := by cases b <;> decide
  have h3 : H265Level.fromId c.toId = some c := by cases c <;> decide
  simp [H265Ptl.new, h1, h2, h3]

theorem h266_new (p : H266Ptl) : H266Ptl.new p.profile.toId p.tier.toFlag p.level.toId = some p := by
  obtain ⟨a, b, c⟩ := p
  have h1 : H266Profile.fromId a.toId = some a := by cases a <;> decide
  have h2 : Tier.fromFlag b.toFlag = some b := by cases b <;> decide
  have h3 : H266Level.fromId c.toId = some c := by cases c <;> decide
  simp [H266Ptl.new, h1, h2, h3]

/-- No level of H.266 has the number of a level of H.265 -/
theorem h265_not_h266 (a t : Nat) (l : H266Level) : H265Ptl.new a t l.toId = none := by
  have h3 : H265Level.fromId l.toId = none := by cases l <;> decide
  unfold H265Ptl.new
  rw [h3]
  split <;> simp_all

theorem ptlOf_pairs (m : List (Str × Str)) (h : (m.map Prod.fst).Nodup) (v : FP) (hv : v.IsPtl) (hm : ∀ p ∈ v.pairs, p ∈ m) : ptlOf m = [v] := by
  cases v with
  | h265 q =>
    have b := h265_bounds q
    have l1 := lookup_mem m h _ _ (hm (c!"profile-id", dec q.profile.toId) (by simp [FP.pairs]))
    have l2 := lookup_mem m h _ _ (hm (c!"tier-flag", dec q.tier.toFlag) (by simp [FP.pairs]))
    have l3 := lookup_mem m h _ _ (hm (c!"level-id", dec q.level.toId) (by simp [FP.pairs]))
    have : ptl265 m = some q := by
      unfold ptl265
      rw [l1, l2, l3]
      simp only [Option.bind_some, parseNat_dec _ _ b.1, parseNat_dec _ _ b.2.1, parseNat_dec _ _ b.2.2, h265_new]
    simp [ptlOf, this]
  | h266 q =>
    have b := h266_bounds q
    have l1 := lookup_mem m h _ _ (hm (c!"profile-id", dec q.profile.toId) (by simp [FP.pairs]))
    have l2 := lookup_mem m h _ _ (hm (c!"tier-flag", dec q.tier.toFlag) (by simp [FP.pairs]))
    have l3 := lookup_mem m h _ _ (hm (c!"level-id", dec q.level.toId) (by simp [FP.pairs]))
    have h0 : ptl265 m = none := by
      unfold ptl265
      rw [l1, l2, l3]
      simp only [Option.bind_some, parseNat_dec _ _ b.1, parseNat_dec _ _ b.2.1, parseNat_dec _ _ b.2.2, h265_not_h266]
    have : ptl266 m = some q := by
      unfold ptl266
      rw [l1, l2, l3]
      simp only [Option.bind_some, parseNat_dec _ _ b.1, parseNat_dec _ _ b.2.1, parseNat_dec _ _ b.2.2, h266_new]
    simp [ptlOf, h0, this]
  | _ => exact absurd hv id

theorem ptl_name (v : FP) (h : v.IsPtl) : v.name = 8 := by cases v <;> first | rfl | exact absurd h id

theorem key_not_ptl (w : FP) (hw : w.name ≠ 8) (p : Str × Str) (hp : p ∈ w.pairs) :
    p.1 ≠ c!"profile-id" ∧ p.1 ≠ c!"tier-flag" ∧ p.1 ≠ c!"level-id" := by
  cases w <;> simp only [FP.pairs, FP.name, List.mem_cons, List.not_mem_nil, or_false, ne_eq, not_true_eq_false] at hp hw
  all_goals (subst hp; dsimp only; decide +kernel)

theorem key_ptl (w : FP) (hw : w.IsPtl) (p : Str × Str) (hp : p ∈ w.pairs) :
    p.1 = c!"profile-id" ∨ p.1 = c!"tier-flag" ∨ p.1 = c!"level-id" := by
  cases w <;> first | exact absurd hw id | skip
  all_goals
    simp only [FP.pairs, List.mem_cons, List.not_mem_nil, or_false] at hp
    rcases hp with rfl | rfl | rfl <;> simp

theorem key_plain (w : FP) (hw : ¬ w.IsPtl) (p : Str × Str) (hp : p ∈ w.pairs) : p.1 ≠ c!"tier-flag" ∧ p.1 ≠ c!"level-id" := by
  cases w <;> first | exact absurd trivial hw | skip
  all_goals simp only [FP.pairs, List.mem_cons, List.not_mem_nil, or_false] at hp
  all_goals (subst hp; dsimp only; decide +kernel)

theorem tier_pair (v : FP) (h : v.IsPtl) : ∃ p ∈ v.pairs, p.1 = c!"tier-flag" := by
  cases v <;> first | exact absurd h id | skip
  · rename_i q; exact ⟨(c!"tier-flag", dec q.tier.toFlag), by simp [FP.pairs], rfl⟩
  · rename_i q; exact ⟨(c!"tier-flag", dec q.tier.toFlag), by simp [FP.pairs], rfl⟩

/-- The parameters are read back from their pairs: in the same order without a composite, in some order with one. -/
theorem parsePairs_pairs (env : Env Ip) (henv : env.Lawful) (vs : List FP) (hf : ∀ v ∈ vs, v.Fits)
    (hn : (∃ v ∈ vs, v.IsPtl) → vs.Pairwise (fun a b => a.name ≠ b.name)) :
    ((∀ v ∈ vs, ¬ v.IsPtl) → parsePairs env (vs.flatMap FP.pairs) = vs) ∧ (parsePairs env (vs.flatMap FP.pairs)).Perm vs := by
  by_cases hp : ∀ v ∈ vs, ¬ v.IsPtl
  · have : parsePairs env (vs.flatMap FP.pairs) = vs := by
      unfold parsePairs
      rw [if_neg, map_parse vs hf hp]
      simp only [List.any_eq_true, Bool.or_eq_true, beq_iff_eq, not_exists, not_and, not_or]
      intro p hp'
      obtain ⟨w, hw, hpw⟩ := List.mem_flatMap.1 hp'
      exact key_plain w (hp w hw) p hpw
    exact ⟨fun _ => this, by rw [this]⟩
  · refine ⟨fun h => absurd h hp, ?_⟩
    have hp : ∃ v ∈ vs, v.IsPtl := by simpa using hp
    have hn := hn hp
    obtain ⟨v, hv, hvp⟩ := hp
    obtain ⟨pre, post, rfl⟩ := List.append_of_mem hv
    have hnd := keys_nodup _ hn
    have hnames : ∀ w ∈ pre ++ post, w.name ≠ 8 := by
      intro w hw
      rw [← ptl_name v hvp]
      rw [List.pairwise_append, List.pairwise_cons] at hn
      rcases List.mem_append.1 hw with hw | hw
      · exact hn.2.2 w hw v (by simp)
      · exact fun h => hn.2.1.1 w hw h.symm
    have hany : ((pre ++ v :: post).flatMap FP.pairs).any (fun p => p.1 == c!"tier-flag" || p.1 == c!"level-id") = true := by
      rw [List.any_eq_true]
      obtain ⟨p, hp1, hp2⟩ := tier_pair v hvp
      exact ⟨p, List.mem_flatMap.2 ⟨_, hv, hp1⟩, by simp [hp2]⟩
    unfold parsePairs
    rw [if_pos hany]
    simp only
    rw [collectMap_nodup _ hnd, ptlOf_pairs _ hnd v hvp (fun p hp' => List.mem_flatMap.2 ⟨v, hv, hp'⟩)]
    have hperm := (((henv ((pre ++ v :: post).flatMap FP.pairs)).filter
      (fun p => p.1 != c!"profile-id" && p.1 != c!"tier-flag" && p.1 != c!"level-id")).map (fun p => FP.parse p.1 p.2))
    have hfil : (((pre ++ v :: post).flatMap FP.pairs).filter
        (fun p => p.1 != c!"profile-id" && p.1 != c!"tier-flag" && p.1 != c!"level-id")) = (pre ++ post).flatMap FP.pairs := by
      rw [List.flatMap_append, List.flatMap_cons, List.filter_append, List.filter_append, List.flatMap_append]
      have keep : ∀ l : List FP, (∀ w ∈ l, w.name ≠ 8) → (l.flatMap FP.pairs).filter
          (fun p => p.1 != c!"profile-id" && p.1 != c!"tier-flag" && p.1 != c!"level-id") = l.flatMap FP.pairs := by
        intro l hl
        rw [List.filter_eq_self]
        intro p hp'
        obtain ⟨w, hw, hpw⟩ := List.mem_flatMap.1 hp'
        obtain ⟨a, b, c⟩ := key_not_ptl w (hl w hw) p hpw
        simp only [Bool.and_eq_true, bne_iff_ne]
        exact ⟨⟨a, b⟩, c⟩
      have drop : v.pairs.filter (fun p => p.1 != c!"profile-id" && p.1 != c!"tier-flag" && p.1 != c!"level-id") = [] := by
        rw [List.filter_eq_nil_iff]
        intro p hp'
        simp only [Bool.and_eq_true, bne_iff_ne]
        rintro ⟨⟨a, b⟩, c⟩
        rcases key_ptl v hvp p hp' with h | h | h
        · exact a h
        · exact b h
        · exact c h
      rw [keep pre (fun w hw => hnames w (by simp [hw])), keep post (fun w hw => hnames w (by simp [hw])), drop, List.nil_append]
    rw [hfil, map_parse (pre ++ post)] at hperm
    · exact (List.Perm.cons v hperm).trans List.perm_middle.symm
    · intro w hw; exact hf w (by rcases List.mem_append.1 hw with h | h <;> simp [h])
    · intro w hw h; exact hnames w hw (ptl_name w h)

end Str0m.Sdp
