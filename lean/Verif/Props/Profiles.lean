import Verif.Model.Profiles
/-
  C50: codec profiles.
-/
namespace Str0m.Profiles

/-! ### Patterns -/

/-- What a pattern says: a byte fits when each bit that is given as `1` is set and each given as `0` is not; the first character is the
highest bit. -/
def Fits (p : List Char) (b : Nat) : Prop :=
  ∀ i < 8, (p[i]? = some '1' → b.testBit (7 - i) = true) ∧ (p[i]? = some '0' → b.testBit (7 - i) = false)

instance (p : List Char) (b : Nat) : Decidable (Fits p b) := by unfold Fits; infer_instance

theorem testBit_maskBit (p : List Char) (i j : Nat) : (maskBit p i).testBit j = (decide (p[7 - i]? = some '1' ∨ p[7 - i]? = some '0') && decide (i = j)) := by
  unfold maskBit
  split <;> rename_i h
  · rw [Nat.one_shiftLeft, Nat.testBit_two_pow]; simp [h]
  · simp [h]

theorem testBit_valueBit (p : List Char) (i j : Nat) : (valueBit p i).testBit j = (decide (p[7 - i]? = some '1') && decide (i = j)) := by
  unfold valueBit
  split <;> rename_i h
  · rw [Nat.one_shiftLeft, Nat.testBit_two_pow]; simp [h]
  · simp [h]

theorem testBit_mask (p : List Char) (j : Nat) (hj : j < 8) : (BitPattern.new p).mask.testBit j = decide (p[7 - j]? = some '1' ∨ p[7 - j]? = some '0') := by
  unfold BitPattern.new
  simp only [Nat.testBit_or, testBit_maskBit]
  have : j = 0 ∨ j = 1 ∨ j = 2 ∨ j = 3 ∨ j = 4 ∨ j = 5 ∨ j = 6 ∨ j = 7 := by omega
  rcases this with h | h | h | h | h | h | h | h <;> subst h <;> simp

theorem testBit_value (p : List Char) (j : Nat) (hj : j < 8) : (BitPattern.new p).maskedValue.testBit j = decide (p[7 - j]? = some '1') := by
  unfold BitPattern.new
  simp only [Nat.testBit_or, testBit_valueBit]
  have : j = 0 ∨ j = 1 ∨ j = 2 ∨ j = 3 ∨ j = 4 ∨ j = 5 ∨ j = 6 ∨ j = 7 := by omega
  rcases this with h | h | h | h | h | h | h | h <;> subst h <;> simp

theorem testBit_mask_high (p : List Char) (j : Nat) (hj : 8 ≤ j) : (BitPattern.new p).mask.testBit j = false := by
  unfold BitPattern.new
  simp only [Nat.testBit_or, testBit_maskBit]
  simp
  omega

/-- **C50** The mask and the masked value decide exactly what the pattern says, for every pattern and byte. -/
theorem C50_pattern (p : List Char) (b : Nat) : (BitPattern.new p).matches b = true ↔ Fits p b := by
  unfold BitPattern.matches
  rw [beq_iff_eq]
  have key : ((b ^^^ (BitPattern.new p).maskedValue) &&& (BitPattern.new p).mask) = 0 ↔
      ∀ j < 8, (p[7 - j]? = some '1' ∨ p[7 - j]? = some '0') → b.testBit j = decide (p[7 - j]? = some '1') := by
    constructor
    · intro h j hj hp
      have := congrArg (fun x => x.testBit j) h
      simp only [Nat.testBit_and, Nat.testBit_xor, testBit_mask p j hj, testBit_value p j hj, Nat.zero_testBit] at this
      simp only [hp, decide_true, Bool.and_true] at this
      revert this
      cases b.testBit j <;> simp
    · intro h
      apply Nat.eq_of_testBit_eq
      intro j
      rw [Nat.zero_testBit, Nat.testBit_and, Nat.testBit_xor]
      by_cases hj : j < 8
      · rw [testBit_mask p j hj, testBit_value p j hj]
        by_cases hp : (p[7 - j]? = some '1' ∨ p[7 - j]? = some '0')
        · rw [h j hj hp]; simp
        · simp only [hp, decide_false, Bool.and_false]
      · rw [testBit_mask_high p j (by omega)]; simp
  rw [key]
  unfold Fits
  constructor
  · intro h i hi
    have := h (7 - i) (by omega)
    rw [show 7 - (7 - i) = i by omega] at this
    refine ⟨fun e => ?_, fun e => ?_⟩
    · rw [this (.inl e), e]; decide
    · rw [this (.inr e), e]; decide
  · intro h j hj hp
    have := h (7 - j) (by omega)
    rw [show 7 - (7 - j) = j by omega] at this
    rcases hp with e | e
    · rw [this.1 e, e]; decide
    · rw [this.2 e, e]; decide

/-! ### H.264 -/

/-- RFC 6184 table 5 (with Constrained High as libwebrtc has it): the profile, the byte `profile_idc`, and the pattern of the byte
`profile-iop`. -/
def rfc6184 : List (H264Profile × Nat × List Char) :=
  [(.constrainedBaseline, 0x42, "x1xx0000".toList), (.constrainedBaseline, 0x4D, "1xxx0000".toList), (.constrainedBaseline, 0x58, "11xx0000".toList),
   (.baseline, 0x42, "x0xx0000".toList), (.baseline, 0x58, "10xx0000".toList),
   (.main, 0x4D, "0x0x0000".toList),
   (.extended, 0x58, "00xx0000".toList),
   (.high, 0x64, "00000000".toList), (.constrainedHigh, 0x64, "00001100".toList),
   (.high10, 0x6E, "00000000".toList), (.high422, 0x7A, "00000000".toList), (.high444Predictive, 0xF4, "00000000".toList),
   (.high10Intra, 0x6E, "00010000".toList), (.high422Intra, 0x7A, "00010000".toList), (.high444Intra, 0xF4, "00010000".toList),
   (.cavlc444Intra, 0x2C, "00010000".toList)]

theorem profiles_rfc : PROFILES.map (fun r => (r.1, r.2.1.toByte, r.2.2)) = rfc6184.map (fun r => (r.1, r.2.1, BitPattern.new r.2.2)) := rfl

theorem idc_ofByte (v : Nat) (i : H264Idc) : H264Idc.ofByte v = some i ↔ i.toByte = v := by
  constructor
  · intro h
    unfold H264Idc.ofByte at h
    repeat' split at h
    all_goals cases h
    all_goals (rename_i e; exact e.symm)
  · intro h; subst h; cases i <;> rfl

theorem level_ofByte (v : Nat) (l : H264Level) : H264Level.ofByte v = some l ↔ l.toByte = v := by
  constructor
  · intro h
    have := List.find?_some h
    simpa using this
  · intro h; subst h; cases l <;> rfl

/-- No byte pair fits two rows of the table with different profiles. -/
theorem table_unique : ∀ b < 256, ∀ r ∈ rfc6184, ∀ r' ∈ rfc6184, r.2.1 = r'.2.1 → Fits r.2.2 b → Fits r'.2.2 b → r.1 = r'.1 := by
  decide +kernel

/-- The profile of two bytes by the table. -/
theorem new_iff (idc : H264Idc) (iop : Nat) (hi : iop < 256) (level : H264Level) (r : H264ProfileLevel) :
    H264ProfileLevel.new idc iop level = some r ↔ r.level = level ∧ ∃ row ∈ rfc6184, row.1 = r.profile ∧ row.2.1 = idc.toByte ∧ Fits row.2.2 iop := by
  have toRfc : ∀ row ∈ PROFILES, ∃ row' ∈ rfc6184, row'.1 = row.1 ∧ row'.2.1 = row.2.1.toByte ∧ BitPattern.new row'.2.2 = row.2.2 := by
    intro row hr
    have : (row.1, row.2.1.toByte, row.2.2) ∈ rfc6184.map (fun r => (r.1, r.2.1, BitPattern.new r.2.2)) := by
      rw [← profiles_rfc]; exact List.mem_map.2 ⟨row, hr, rfl⟩
    obtain ⟨row', h1, h2⟩ := List.mem_map.1 this
    refine ⟨row', h1, (Prod.mk.inj h2).1, (Prod.mk.inj (Prod.mk.inj h2).2).1, (Prod.mk.inj (Prod.mk.inj h2).2).2⟩
  have ofRfc : ∀ row' ∈ rfc6184, ∃ row ∈ PROFILES, row'.1 = row.1 ∧ row'.2.1 = row.2.1.toByte ∧ BitPattern.new row'.2.2 = row.2.2 := by
    intro row' hr
    have : (row'.1, row'.2.1, BitPattern.new row'.2.2) ∈ PROFILES.map (fun r => (r.1, r.2.1.toByte, r.2.2)) := by
      rw [profiles_rfc]; exact List.mem_map.2 ⟨row', hr, rfl⟩
    obtain ⟨row, h1, h2⟩ := List.mem_map.1 this
    refine ⟨row, h1, (Prod.mk.inj h2).1.symm, (Prod.mk.inj (Prod.mk.inj h2).2).1.symm, (Prod.mk.inj (Prod.mk.inj h2).2).2.symm⟩
  have byteInj : ∀ i j : H264Idc, i.toByte = j.toByte → i = j := by
    intro i j h
    have := (idc_ofByte j.toByte i).2 h
    have h2 := (idc_ofByte j.toByte j).2 rfl
    rw [this] at h2; exact Option.some.inj h2
  constructor
  · intro h
    unfold H264ProfileLevel.new at h
    obtain ⟨row, hr, e⟩ := List.exists_of_findSome?_eq_some h
    split at e
    · cases e
    · rename_i hidc
      split at e
      · cases e
      · rename_i hm
        have := Option.some.inj e
        subst this
        obtain ⟨row', h1, h2, h3, h4⟩ := toRfc row hr
        refine ⟨rfl, row', h1, h2, ?_, ?_⟩
        · rw [h3]; simp at hidc; rw [hidc]
        · rw [← C50_pattern, h4]; simpa using hm
  · rintro ⟨hl, row', h1, h2, h3, h4⟩
    obtain ⟨row, g1, g2, g3, g4⟩ := ofRfc row' h1
    have hidc : row.2.1 = idc := byteInj _ _ (by rw [← g3, h3])
    cases hf : H264ProfileLevel.new idc iop level with
    | none =>
      unfold H264ProfileLevel.new at hf
      rw [List.findSome?_eq_none_iff] at hf
      have := hf row g1
      rw [if_neg (by simp [hidc]), if_neg] at this
      · cases this
      · rw [← g4, (C50_pattern _ _).2 h4]; simp
    | some r' =>
      unfold H264ProfileLevel.new at hf
      obtain ⟨row2, hr2, e⟩ := List.exists_of_findSome?_eq_some hf
      split at e
      · cases e
      · rename_i hidc2
        split at e
        · cases e
        · rename_i hm
          have := Option.some.inj e
          obtain ⟨row2', k1, k2, k3, k4⟩ := toRfc row2 hr2
          have hfit : Fits row2'.2.2 iop := by rw [← C50_pattern, k4]; simpa using hm
          have hprof := table_unique iop hi row2' k1 row' h1 (by rw [k3, h3]; simp at hidc2; rw [hidc2]) hfit h4
          rw [← this]
          obtain ⟨rp, rl⟩ := r
          dsimp only at hl h2
          subst hl
          rw [← k2, hprof, h2]

/-- The level that a level byte names (ten times the level; 0 for 1b). -/
def levels : List (Nat × H264Level) :=
  [(0, .l1b), (10, .l1), (11, .l1_1), (12, .l1_2), (13, .l1_3), (20, .l2), (21, .l2_1), (22, .l2_2), (30, .l3), (31, .l3_1), (32, .l3_2),
   (40, .l4), (41, .l4_1), (42, .l4_2), (50, .l5), (51, .l5_1), (52, .l5_2)]

theorem mem_levels (v : Nat) (l : H264Level) : (v, l) ∈ levels ↔ l.toByte = v := by
  constructor
  · intro h
    simp [levels] at h
    rcases h with h | h | h | h | h | h | h | h | h | h | h | h | h | h | h | h | h <;> (rw [h.1, h.2]; rfl)
  · intro h; subst h; cases l <;> decide

/-- **C50** (partial: see `C50_violation_level1b` for the level of `4x xx 0a` and `4x xx 0b`). A `profile-level-id` is accepted exactly
when its last byte names a level and its first two bytes fit a row of RFC 6184's table 5; the profile is the one of
that row (there are not two), and the level the one named, except for level 1 with the bit `constraint_set3` in the profiles
with the bytes 42, 4D, 58, which is taken as 1b. -/
theorem C50_h264_partial (idc iop level : Nat) (h1 : idc < 256) (h2 : iop < 256) (h3 : level < 256) (r : H264ProfileLevel) :
    H264ProfileLevel.tryFrom (idc * 65536 + iop * 256 + level) = some r ↔
      (∃ row ∈ rfc6184, row.1 = r.profile ∧ row.2.1 = idc ∧ Fits row.2.2 iop) ∧
      (∃ l, (level, l) ∈ levels ∧ ((idc = 0x42 ∨ idc = 0x4D ∨ idc = 0x58) ∧ l = .l1 ∧ iop.testBit 4 = true → r.level = .l1b) ∧
        (¬ ((idc = 0x42 ∨ idc = 0x4D ∨ idc = 0x58) ∧ l = .l1 ∧ iop.testBit 4 = true) → r.level = l)) := by
  have e1 : (idc * 65536 + iop * 256 + level) / 65536 % 256 = idc := by omega
  have e2 : (idc * 65536 + iop * 256 + level) / 256 % 256 = iop := by omega
  have e3 : (idc * 65536 + iop * 256 + level) % 256 = level := by omega
  unfold H264ProfileLevel.tryFrom
  rw [e1, e2, e3]
  have hbit : (iop &&& 0x10) ≠ 0 ↔ iop.testBit 4 = true := by
    have : (iop &&& 0x10) = if iop.testBit 4 then 0x10 else 0 := by
      apply Nat.eq_of_testBit_eq
      intro j
      rw [Nat.testBit_and, show (0x10 : Nat) = 2 ^ 4 from rfl, Nat.testBit_two_pow]
      by_cases h4 : 4 = j
      · subst h4
        cases iop.testBit 4 <;> simp; decide
      · have h16 : Nat.testBit 16 j = false := by
          rw [show (16 : Nat) = 2 ^ 4 from rfl, Nat.testBit_two_pow]; simpa using h4
        cases iop.testBit 4 <;> simp [h4, h16]
    rw [this]
    cases iop.testBit 4 <;> simp
  cases hi : H264Idc.ofByte idc with
  | none =>
    refine ⟨(fun h => by cases h), ?_⟩
    rintro ⟨⟨row, hr, -, hrow, -⟩, -⟩
    exfalso
    have : ∀ row ∈ rfc6184, H264Idc.ofByte row.2.1 ≠ none := by decide
    exact this row hr (by rw [hrow, hi])
  | some i =>
    have hib := (idc_ofByte idc i).1 hi
    cases hl : H264Level.ofByte level with
    | none =>
      refine ⟨(fun h => by cases h), ?_⟩
      rintro ⟨-, l, hm, -⟩
      rw [mem_levels, ← level_ofByte, hl] at hm
      cases hm
    | some l =>
      have hlb := (level_ofByte level l).1 hl
      show H264ProfileLevel.new i iop (levelFix i iop l) = some r ↔ _
      rw [new_iff i iop h2, hib]
      have hidc : ([H264Idc.x42, .x4d, .x58].contains i = true) ↔ (idc = 0x42 ∨ idc = 0x4D ∨ idc = 0x58) := by
        rw [← hib]; cases i <;> decide
      have hfix : levelFix i iop l = if (idc = 0x42 ∨ idc = 0x4D ∨ idc = 0x58) ∧ l = .l1 ∧ iop.testBit 4 = true then .l1b else l := by
        unfold levelFix
        by_cases hc : (idc = 0x42 ∨ idc = 0x4D ∨ idc = 0x58) ∧ l = .l1
        · rw [if_pos (by rw [Bool.and_eq_true, hidc, beq_iff_eq]; exact hc)]
          by_cases hb : iop.testBit 4 = true
          · rw [if_pos (hbit.2 hb), if_pos ⟨hc.1, hc.2, hb⟩]
          · rw [if_neg (fun h => hb (hbit.1 h)), if_neg (fun h => hb h.2.2), hc.2]
        · rw [if_neg (by rw [Bool.and_eq_true, hidc, beq_iff_eq]; exact hc), if_neg (fun h => hc ⟨h.1, h.2.1⟩)]
      rw [hfix]
      constructor
      · rintro ⟨a, b⟩
        refine ⟨b, l, (mem_levels level l).2 hlb, ?_, ?_⟩
        · intro hc; rw [a, if_pos hc]
        · intro hc; rw [a, if_neg hc]
      · rintro ⟨b, l', hm, c1, c2⟩
        rw [mem_levels, ← level_ofByte, hl] at hm
        have := Option.some.inj hm
        subst this
        refine ⟨?_, b⟩
        split
        · rename_i hc; exact c1 hc
        · rename_i hc; exact c2 hc

example : H264ProfileLevel.tryFrom 0x42e01f = some { profile := .constrainedBaseline, level := .l3_1 } := by decide
example : H264ProfileLevel.tryFrom 0x4d201f = none := by decide

/-- **C50**, not as RFC 6184 section 8.1 says: with the bit `constraint_set3`, level byte 11 is 1b there; the code takes it as level 1.1,
and takes level byte 10 as 1b. -/
theorem C50_violation_level1b :
    H264ProfileLevel.tryFrom 0x42100b = some { profile := .baseline, level := .l1_1 } ∧
    H264ProfileLevel.tryFrom 0x42100a = some { profile := .baseline, level := .l1b } := by decide

/-- The order of levels: 1b is between 1 and 1.1, and else it is the order of the numbers. -/
theorem C50_h264_order (a b : H264Level) (ha : a ≠ .l1b) (hb : b ≠ .l1b) : a.ordinal < b.ordinal ↔ a.toByte < b.toByte := by
  cases a <;> cases b <;> first | exact absurd rfl ha | exact absurd rfl hb | decide

theorem C50_h264_ordinal_inj (a b : H264Level) (h : a.ordinal = b.ordinal) : a = b := by
  cases a <;> cases b <;> first | rfl | cases h

theorem C50_h264_order_1b : H264Level.l1.ordinal < H264Level.l1b.ordinal ∧ H264Level.l1b.ordinal < H264Level.l1_1.ordinal := by decide

/-! ### H.265 and H.266 -/

theorem h265_profile_iff (v : Nat) (p : H265Profile) : H265Profile.fromId v = some p ↔ p.toId = v := by
  constructor
  · intro h
    unfold H265Profile.fromId at h
    repeat' split at h
    all_goals cases h
    all_goals (rename_i e; exact e.symm)
  · intro h; subst h; cases p <;> rfl

theorem h266_profile_iff (v : Nat) (p : H266Profile) : H266Profile.fromId v = some p ↔ p.toId = v := by
  constructor
  · intro h
    unfold H266Profile.fromId at h
    repeat' split at h
    all_goals cases h
    all_goals (rename_i e; exact e.symm)
  · intro h; subst h; cases p <;> rfl

theorem tier_iff (v : Nat) (t : Tier) : Tier.fromFlag v = some t ↔ t.toFlag = v := by
  constructor
  · intro h
    unfold Tier.fromFlag at h
    repeat' split at h
    all_goals cases h
    all_goals (rename_i e; exact e.symm)
  · intro h; subst h; cases t <;> rfl

theorem h265_level_iff (v : Nat) (l : H265Level) : H265Level.fromId v = some l ↔ l.toId = v := by
  constructor
  · intro h
    have := List.find?_some h
    simpa using this
  · intro h; subst h; cases l <;> rfl

theorem h266_level_iff (v : Nat) (l : H266Level) : H266Level.fromId v = some l ↔ l.toId = v := by
  constructor
  · intro h
    have := List.find?_some h
    simpa using this
  · intro h; subst h; cases l <;> rfl

/-- **C50** The three numbers of an H.265 profile, tier and level are read back exactly, and nothing else is read as it. -/
theorem C50_h265 (p t l : Nat) (r : H265Ptl) : H265Ptl.new p t l = some r ↔ r.profile.toId = p ∧ r.tier.toFlag = t ∧ r.level.toId = l := by
  rw [← h265_profile_iff, ← tier_iff, ← h265_level_iff]
  unfold H265Ptl.new
  obtain ⟨rp, rt, rl⟩ := r
  cases H265Profile.fromId p with
  | none => simp
  | some a =>
    cases Tier.fromFlag t with
    | none => simp
    | some b =>
      cases H265Level.fromId l with
      | none => simp
      | some c => simp

/-- **C50** The same for H.266. -/
theorem C50_h266 (p t l : Nat) (r : H266Ptl) : H266Ptl.new p t l = some r ↔ r.profile.toId = p ∧ r.tier.toFlag = t ∧ r.level.toId = l := by
  rw [← h266_profile_iff, ← tier_iff, ← h266_level_iff]
  unfold H266Ptl.new
  obtain ⟨rp, rt, rl⟩ := r
  cases H266Profile.fromId p with
  | none => simp
  | some a =>
    cases Tier.fromFlag t with
    | none => simp
    | some b =>
      cases H266Level.fromId l with
      | none => simp
      | some c => simp

/-- **C50** No three numbers are both an H.265 and an H.266 profile, tier and level (they share their names in SDP). -/
theorem C50_disjoint (p t l : Nat) : H265Ptl.new p t l = none ∨ H266Ptl.new p t l = none := by
  cases h : H265Ptl.new p t l with
  | none => exact .inl rfl
  | some r =>
    right
    cases h' : H266Ptl.new p t l with
    | none => rfl
    | some r' =>
      exfalso
      have e1 := ((C50_h265 p t l r).1 h).2.2
      have e2 := ((C50_h266 p t l r').1 h').2.2
      have : ∀ (a : H265Level) (b : H266Level), a.toId ≠ b.toId := by
        intro a b; cases a <;> cases b <;> decide
      exact this r.level r'.level (by rw [e1, e2])

example : H265Ptl.new 1 0 93 = some H265Ptl.FALLBACK ∧ H266Ptl.new 1 0 51 = some H266Ptl.FALLBACK := by decide

/-- The levels of H.265, as major and minor number. -/
def h265Levels : List (Nat × Nat × H265Level) :=
  [(1, 0, .l1), (2, 0, .l2), (2, 1, .l2_1), (3, 0, .l3), (3, 1, .l3_1), (4, 0, .l4), (4, 1, .l4_1), (5, 0, .l5), (5, 1, .l5_1), (5, 2, .l5_2),
   (6, 0, .l6), (6, 1, .l6_1), (6, 2, .l6_2)]

/-- The levels of H.266. -/
def h266Levels : List (Nat × Nat × H266Level) :=
  [(1, 0, .l1), (2, 0, .l2), (2, 1, .l2_1), (3, 0, .l3), (3, 1, .l3_1), (4, 0, .l4), (4, 1, .l4_1), (5, 0, .l5), (5, 1, .l5_1), (5, 2, .l5_2),
   (6, 0, .l6), (6, 1, .l6_1), (6, 2, .l6_2), (6, 3, .l6_3), (15, 5, .l15_5)]

/-- **C50** The level ids are those of the standards: `general_level_idc` is 30 times the level, that of H.266 is 16 times the major
number and 3 times the minor. -/
theorem C50_level_ids :
    (∀ l : H265Level, ∃ r ∈ h265Levels, r.2.2 = l ∧ l.toId = 30 * r.1 + 3 * r.2.1) ∧
    (∀ l : H266Level, ∃ r ∈ h266Levels, r.2.2 = l ∧ l.toId = 16 * r.1 + 3 * r.2.1) := by
  constructor <;> intro l <;> cases l <;> decide

/-- **C50** The profile ids of H.265 are 1 to 11 in the order of the standard; the ones of H.266 are 1 and then by 16 (bit 4: multilayer,
bit 5: 4:4:4, bit 6: still picture). -/
theorem C50_profile_ids :
    ([.main, .main10, .mainStillPicture, .formatRangeExtensions, .highThroughput, .multiviewMain, .scalableMain, .threeDMain,
      .screenContentCoding, .screenContentCodingExtensions, .highThroughputScreenContentCoding] : List H265Profile).map H265Profile.toId =
      [1, 2, 3, 4, 5, 6, 7, 8, 9, 10, 11] ∧
    ([.main10, .multilayerMain10, .main10_444, .multilayerMain10_444, .main10StillPicture, .multilayerMain10StillPicture,
      .main10_444StillPicture, .multilayerMain10_444StillPicture] : List H266Profile).map H266Profile.toId =
      [1, 1 + 16, 1 + 32, 1 + 32 + 16, 1 + 64, 1 + 64 + 16, 1 + 64 + 32, 1 + 64 + 32 + 16] := by
  constructor <;> decide

/-- The order of levels is that of their ids. -/
theorem C50_h265_order (a b : H265Level) : a.ordinal < b.ordinal ↔ a.toId < b.toId := by cases a <;> cases b <;> decide

theorem C50_h266_order (a b : H266Level) : a.ordinal < b.ordinal ↔ a.toId < b.toId := by cases a <;> cases b <;> decide

end Str0m.Profiles
