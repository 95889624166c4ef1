import Verif.Proofs.Stun
/-
  What the MESSAGE-INTEGRITY attribute covers: nothing behind it influences the parsed message
  (apart from the fingerprint).
-/
namespace Str0m.Stun
open Res

/-! ### Helpers read only a prefix -/

theorem idx_pre {p t : List Byte} {i : Nat} (h : i < p.length) :
    Res.idx (ε := Unit) (p ++ t) i = Res.idx p i := by
  simp [Res.idx, List.getElem?_append_left h]

theorem rdU32_pre {p t : List Byte} {i : Nat} (h : i + 3 < p.length) :
    rdU32 (p ++ t) i = rdU32 p i := by
  unfold rdU32
  rw [idx_pre (by omega), idx_pre (by omega), idx_pre (by omega), idx_pre (by omega)]

theorem rdU16_pre {p t : List Byte} {i : Nat} (h : i + 1 < p.length) :
    rdU16 (p ++ t) i = rdU16 p i := by
  unfold rdU16
  rw [idx_pre (by omega), idx_pre (by omega)]

theorem slice_pre {p t : List Byte} {a b : Nat} (hab : a ≤ b) (h : b ≤ p.length) :
    Res.slice (ε := Unit) (p ++ t) a b = Res.slice p a b := by
  rw [slice_of_le hab (by simp; omega), slice_of_le hab h, List.take_append_of_le_length h]

theorem decodeStr_pre {env : Env} {n len : Nat} {p t : List Byte} (h : len ≤ p.length) :
    decodeStr env n (p ++ t) len = decodeStr env n p len := by
  unfold decodeStr
  rw [upto_of_le h, upto_of_le (by simp; omega), List.take_append_of_le_length h]

theorem from_pre {p t : List Byte} {a : Nat} (h : a ≤ p.length) :
    Res.from_ (ε := Unit) (p ++ t) a = .ok (p.drop a ++ t) := by
  rw [from_of_le (by simp; omega), List.drop_append_of_le_length h]

theorem attrStr_pre {env : Env} {n len : Nat} {p t : List Byte} (h : 4 + len ≤ p.length) :
    attrStr env n (p ++ t) len = attrStr env n p len := by
  unfold attrStr
  simp only [bind_def]
  rw [from_pre (by omega), from_of_le (by omega)]
  exact decodeStr_pre (by simp; omega)

theorem decodeXor_pre {p t tid : List Byte} (h : 20 ≤ p.length) :
    decodeXor (p ++ t) tid = decodeXor p tid := by
  unfold decodeXor
  rw [if_neg (by simp; omega), if_neg (by omega), idx_pre (by omega), idx_pre (by omega),
    idx_pre (by omega), from_pre (by omega), from_of_le (by omega)]
  simp only [bind_def, bind_ok]
  congr 1; funext b2
  congr 1; funext b3
  congr 1; funext fam
  have hd : (p.drop 4).length ≥ 16 := by simp; omega
  have k1 : ∀ q : List Byte, q.length ≥ 16 → ((fam.val = 1 ∧ q.length ≥ 4) ↔ fam.val = 1) :=
    fun q hq => ⟨fun hh => hh.1, fun hh => ⟨hh, by omega⟩⟩
  have k2 : ∀ q : List Byte, q.length ≥ 16 → ((fam.val = 2 ∧ q.length ≥ 16) ↔ fam.val = 2) :=
    fun q hq => ⟨fun hh => hh.1, fun hh => ⟨hh, by omega⟩⟩
  have hd' : (p.drop 4 ++ t).length ≥ 16 := by simp at hd ⊢; omega
  simp only [k1 _ hd, k2 _ hd, k1 _ hd', k2 _ hd']
  rw [idx_pre (by omega), idx_pre (by omega), idx_pre (by omega), idx_pre (by omega),
    upto_of_le hd', upto_of_le hd, List.take_append_of_le_length hd]

theorem attrXor_pre {p t tid : List Byte} (h : 24 ≤ p.length) :
    attrXor (p ++ t) tid = attrXor p tid := by
  unfold attrXor
  simp only [bind_def]
  rw [from_pre (by omega), from_of_le (by omega)]
  exact decodeXor_pre (by simp; omega)

theorem parseErrorCode_pre {env : Env} {len : Nat} {p t : List Byte}
    (h : 28 + len ≤ p.length) : parseErrorCode env (p ++ t) len = parseErrorCode env p len := by
  unfold parseErrorCode
  rw [idx_pre (by omega), idx_pre (by omega), idx_pre (by omega), idx_pre (by omega),
    from_pre (by omega), from_of_le (by omega)]
  simp only [bind_def, bind_ok]
  rw [decodeStr_pre (by simp; omega)]

/-- One attribute depends on its own bytes and at most the 24 that follow. -/
theorem parseAttr_pre {env : Env} {typ len : Nat} {p t tid : List Byte}
    (h : 28 + len ≤ p.length) :
    parseAttr env (p ++ t) tid typ len = parseAttr env p tid typ len := by
  have hs : ∀ n, attrStr env n (p ++ t) len = attrStr env n p len :=
    fun n => attrStr_pre (by omega)
  have hx := attrXor_pre (p := p) (t := t) (tid := tid) (by omega)
  have h32 : attrU32 (p ++ t) len = attrU32 p len := by
    unfold attrU32; rw [rdU32_pre (by omega)]
  have h64 : attrU64 (p ++ t) len = attrU64 p len := by
    unfold attrU64; rw [rdU32_pre (by omega), rdU32_pre (by omega)]
  have hmi : attrIntegrity (p ++ t) len = attrIntegrity p len := by
    unfold attrIntegrity; rw [slice_pre (by omega) (by omega)]
  have hch : attrChannel (p ++ t) len = attrChannel p len := by
    unfold attrChannel; rw [rdU16_pre (by omega)]
  have hco : attrCost (p ++ t) len = attrCost p len := by
    unfold attrCost; rw [rdU16_pre (by omega), rdU16_pre (by omega)]
  unfold parseAttr
  rw [hs, hs, hx, h32, h64, hmi, hch, hco, parseErrorCode_pre h, slice_pre (by omega) (by omega)]

theorem dispatch_pre {env : Env} {typ len off : Nat} {p t tid : List Byte} {s : PState}
    (h : 28 + len ≤ p.length) :
    dispatch env (p ++ t) tid off typ len s = dispatch env p tid off typ len s := by
  unfold dispatch; rw [parseAttr_pre h]

/-! ### After MESSAGE-INTEGRITY -/

/-- The state without the fingerprint. -/
def PState.noFp (s : PState) : PState := { s with attrs.fingerprint := none }

theorem parseAttr_fp {env : Env} {buf tid : List Byte} {len : Nat} {v : AV}
    (h : parseAttr env buf tid FINGERPRINT len = .ok v) : ∃ n, v = .fingerprint n := by
  unfold parseAttr at h
  rw [if_neg (by decide), if_neg (by decide), if_neg (by decide), if_neg (by decide),
    if_neg (by decide), if_neg (by decide), if_neg (by decide), if_neg (by decide),
    if_neg (by decide), if_neg (by decide), if_neg (by decide), if_neg (by decide),
    if_neg (by decide), if_neg (by decide), if_pos rfl] at h
  obtain ⟨n, -, rfl⟩ := rmap_ok h
  exact ⟨n, rfl⟩

theorem dispatch_ignored {env : Env} {buf tid : List Byte} {off typ len : Nat} {s t : PState}
    (hig : s.ignoreRest = true) (h : dispatch env buf tid off typ len s = .ok t) :
    t.noFp = s.noFp := by
  unfold dispatch at h
  split at h
  · rename_i hc
    have ht : typ = FINGERPRINT := by
      rcases hc with hc | hc
      · rw [hig] at hc; cases hc
      · exact hc
    subst ht
    obtain ⟨v, hv, rfl⟩ := rmap_ok h
    obtain ⟨n, rfl⟩ := parseAttr_fp hv
    rfl
  · cases h; rfl

theorem noFp_ignore {s t : PState} (h : t.noFp = s.noFp) : t.ignoreRest = s.ignoreRest ∧
    t.miOff = s.miOff := by
  constructor
  · have := congrArg PState.ignoreRest h; exact this
  · have := congrArg PState.miOff h; exact this

/-- Once `ignore_rest` is set, only the fingerprint can change. -/
theorem parseLoop_ignored {env : Env} {tid buf : List Byte} {off : Nat} {s s' : PState}
    (hig : s.ignoreRest = true) (h : parseLoop env tid buf off s = .ok s') :
    s'.noFp = s.noFp := by
  rcases parseLoop_ok h with ⟨-, rfl⟩ | ⟨h4, n, t, hn, hle, hd, hr⟩
  · rfl
  · have h1 := dispatch_ignored hig hd
    have h2 := parseLoop_ignored (by rw [(noFp_ignore h1).1, hig]) hr
    rw [h2, h1]
termination_by buf.length
decreasing_by simp only [List.length_drop]; omega

/-- If the loop meets a MESSAGE-INTEGRITY attribute, it lies inside the buffer. -/
theorem parseLoop_found {env : Env} {tid buf : List Byte} {off : Nat} {s s' : PState}
    (hig : s.ignoreRest = false) (hig' : s'.ignoreRest = true)
    (h : parseLoop env tid buf off s = .ok s') :
    off ≤ s'.miOff ∧ s'.miOff + 24 ≤ off + buf.length := by
  rcases parseLoop_ok h with ⟨-, rfl⟩ | ⟨h4, n, t, hn, hle, hd, hr⟩
  · rw [hig] at hig'; cases hig'
  · rcases dispatch_mi hd with ⟨hm, hi, -⟩ | ⟨-, hl, hb, -, rfl⟩
    · have ih := parseLoop_found (by rw [hi, hig]) hig' hr
      simp only [List.length_drop] at ih
      omega
    · have := (noFp_ignore (parseLoop_ignored rfl hr)).2
      simp only at this
      omega
termination_by buf.length
decreasing_by simp only [List.length_drop]; omega

/-- Two runs whose buffers agree up to and including the first MESSAGE-INTEGRITY attribute of
the first one end in the same state, up to the fingerprint. -/
theorem parseLoop_agree {env : Env} {tid b1 b2 : List Byte} {off : Nat} {s s1 s2 : PState}
    (hig : s.ignoreRest = false) (hig1 : s1.ignoreRest = true)
    (h1 : parseLoop env tid b1 off s = .ok s1) (h2 : parseLoop env tid b2 off s = .ok s2)
    (hpre : b1.take (s1.miOff + 24 - off) = b2.take (s1.miOff + 24 - off))
    (hlen : s1.miOff + 24 - off ≤ b2.length) :
    s2.noFp = s1.noFp := by
  have hf := parseLoop_found hig hig1 h1
  set k := s1.miOff + 24 - off with hk
  have hk24 : 24 ≤ k := by omega
  have e1 : b1 = b1.take k ++ b1.drop k := (List.take_append_drop k b1).symm
  have e2 : b2 = b1.take k ++ b2.drop k := by rw [hpre]; exact (List.take_append_drop k b2).symm
  have lp : (b1.take k).length = k := by simp; omega
  rcases parseLoop_ok h1 with ⟨rfl, rfl⟩ | ⟨h4, n, t, hn, hle, hd, hr⟩
  · rw [hig] at hig1; cases hig1
  rcases parseLoop_ok h2 with ⟨rfl, rfl⟩ | ⟨h4', n', t', hn', hle', hd', hr'⟩
  · simp at hlen; omega
  have g : ∀ i (hi : i < 4), b1[i] = b2[i] := by
    intro i hi
    have : b1[i]? = b2[i]? := by
      rw [e1, e2, List.getElem?_append_left (by omega), List.getElem?_append_left (by omega)]
    rw [List.getElem?_eq_getElem (by omega), List.getElem?_eq_getElem (by omega)] at this
    simpa using this
  rw [← g 0 (by omega), ← g 1 (by omega), ← g 2 (by omega), ← g 3 (by omega)] at hd'
  rw [← g 2 (by omega), ← g 3 (by omega)] at hn'
  have hnn : n' = n := by omega
  subst hnn
  rcases dispatch_mi hd with ⟨hm, hi, -⟩ | ⟨htyp, hl, hb, -, rfl⟩
  · -- an attribute before MESSAGE-INTEGRITY
    have hf2 := parseLoop_found (by rw [hi, hig]) hig1 hr
    have hb : 28 + rd16 b1[2] b1[3] ≤ (b1.take k).length := by omega
    have c1 : ∀ typ len, 28 + len ≤ (b1.take k).length →
        dispatch env b1 tid off typ len s = dispatch env (b1.take k) tid off typ len s := by
      intro typ len hb
      conv_lhs => rw [e1]
      exact dispatch_pre hb
    have c2 : ∀ typ len, 28 + len ≤ (b1.take k).length →
        dispatch env b2 tid off typ len s = dispatch env (b1.take k) tid off typ len s := by
      intro typ len hb
      conv_lhs => rw [e2]
      exact dispatch_pre hb
    rw [c1 _ _ hb] at hd
    rw [c2 _ _ hb, hd] at hd'
    cases hd'
    refine parseLoop_agree (by rw [hi, hig]) hig1 hr hr' ?_ ?_
    · have : s1.miOff + 24 - (off + n') = k - n' := by omega
      rw [this, List.take_drop, List.take_drop, show n' + (k - n') = k by omega, hpre]
    · simp only [List.length_drop]; omega
  · -- MESSAGE-INTEGRITY
    have i1 := parseLoop_ignored rfl hr
    have hm1 := (noFp_ignore i1).2
    simp only at hm1
    have hk' : k = 24 := by omega
    rcases dispatch_mi hd' with ⟨hm', hi', -⟩ | ⟨-, -, hb', -, rfl⟩
    · exfalso
      unfold dispatch at hd'
      rw [if_pos (Or.inl hig), htyp, hl] at hd'
      unfold parseAttr at hd'
      rw [if_neg (by decide), if_pos rfl] at hd'
      unfold attrIntegrity at hd'
      rw [if_neg (by omega), slice_of_le (by omega) (by omega)] at hd'
      simp only [rmap, bind_ok, PState.assign, Res.ok.injEq] at hd'
      subst hd'
      simp [hig] at hi'
    · have i2 := parseLoop_ignored rfl hr'
      rw [i1, i2]
      rw [hk'] at hpre
      rw [hpre]
termination_by b1.length
decreasing_by simp only [List.length_drop]; omega

theorem head4 : ∀ {buf : List Byte} (h4 : 4 ≤ buf.length),
    (buf.take 24).take 4 = be16 (rd16 buf[0] buf[1]) ++ be16 (rd16 buf[2] buf[3])
  | a :: b :: c :: d :: r, _ => by
    simp only [List.getElem_cons_zero, List.getElem_cons_succ]
    rw [be16_rd16, be16_rd16]; rfl

/-- When the loop has met MESSAGE-INTEGRITY, the recorded offset is that of the attribute in
the buffer, and the recorded value is its value. -/
theorem parseLoop_mi_bytes {env : Env} {tid buf : List Byte} {off : Nat} {s s' : PState}
    (hig : s.ignoreRest = false) (hig' : s'.ignoreRest = true)
    (h : parseLoop env tid buf off s = .ok s') :
    ∃ v, s'.attrs.messageIntegrity = some v ∧ v.length = 20 ∧
      (buf.drop (s'.miOff - off)).take 24 = be16 MESSAGE_INTEGRITY ++ be16 20 ++ v := by
  have hf := parseLoop_found hig hig' h
  rcases parseLoop_ok h with ⟨-, rfl⟩ | ⟨h4, n, t, hn, hle, hd, hr⟩
  · rw [hig] at hig'; cases hig'
  · rcases dispatch_mi hd with ⟨hm, hi, -⟩ | ⟨htyp, hl, hb, -, rfl⟩
    · have hf2 := parseLoop_found (by rw [hi, hig]) hig' hr
      obtain ⟨v, hv, hvl, hb⟩ := parseLoop_mi_bytes (by rw [hi, hig]) hig' hr
      refine ⟨v, hv, hvl, ?_⟩
      rw [List.drop_drop, show n + (s'.miOff - (off + n)) = s'.miOff - off by omega] at hb
      exact hb
    · have hm := noFp_ignore (parseLoop_ignored rfl hr)
      have ha := congrArg (fun x : PState => x.attrs.messageIntegrity) (parseLoop_ignored rfl hr)
      simp only [PState.noFp] at ha
      refine ⟨_, ha, by simp; omega, ?_⟩
      rw [hm.2, Nat.sub_self, List.drop_zero]
      have e := List.take_append_drop 4 (buf.take 24)
      rw [head4 h4, htyp, hl] at e
      exact e.symm
termination_by buf.length
decreasing_by simp only [List.length_drop]; omega

/-- Without MESSAGE-INTEGRITY nothing is recorded. -/
theorem parseLoop_no_mi {env : Env} {tid buf : List Byte} {off : Nat} {s s' : PState}
    (hig' : s'.ignoreRest = false) (h : parseLoop env tid buf off s = .ok s') :
    s'.miOff = s.miOff ∧ s'.attrs.messageIntegrity = s.attrs.messageIntegrity := by
  rcases parseLoop_ok h with ⟨-, rfl⟩ | ⟨h4, n, t, hn, hle, hd, hr⟩
  · exact ⟨rfl, rfl⟩
  · have ih := parseLoop_no_mi hig' hr
    rcases dispatch_mi hd with ⟨hm, hi, ha⟩ | ⟨htyp, hl, hb, -, rfl⟩
    · rw [ih.1, ih.2]; exact ⟨hm, ha⟩
    · have := (noFp_ignore (parseLoop_ignored rfl hr)).1
      rw [hig'] at this; cases this
termination_by buf.length
decreasing_by simp only [List.length_drop]; omega

/-! ### The whole parser -/

/-- What a successful parse says: the header fields, the attribute loop, and the final checks. -/
theorem parse_ok {env : Env} {buf : List Byte} {m : Msg} (h : parse env buf = .ok m) :
    ∃ (h20 : 20 ≤ buf.length) (s : PState),
      buf.length % 4 = 0 ∧ (buf.drop 4).take 4 = magic ∧
      m.transId = (buf.drop 8).take 12 ∧
      m.method = Method.fromTyp ((buf[0].val &&& 0x3f) * 256 + buf[1].val) ∧
      m.cls = Class.fromTyp ((buf[0].val &&& 0x3f) * 256 + buf[1].val) ∧
      parseLoop env m.transId (buf.drop 20) 0 {} = .ok s ∧
      m.attrs = s.attrs ∧
      m.integrity = (if s.miOff > 0 then buf.take (s.miOff + 20) else []) ∧
      m.integrityLen = (if s.miOff > 0 then (s.miOff + 24) % 2^16 else 0) ∧
      (m.method = .binding → m.cls = .success →
        s.miOff > 0 ∧ m.attrs.xorMappedAddress.isSome) ∧
      (m.method = .binding → m.cls = .request →
        s.miOff > 0 ∧ (splitUsername m.attrs).isSome ∧ m.attrs.priority.isSome) := by
  unfold parse at h
  split at h
  · cases h
  rename_i hl4
  simp only [bind_def, idx_of_lt (show 0 < buf.length by omega),
    idx_of_lt (show 1 < buf.length by omega), bind_ok, rdU16_ok (show 2 + 1 < buf.length by omega)]
    at h
  split at h
  · cases h
  split at h
  · cases h
  rename_i hm4 hlen
  have h20 : 20 ≤ buf.length := by omega
  rw [slice_of_le (by omega) (by omega), slice_of_le (by omega) (by omega),
    from_of_le (by omega)] at h
  simp only [bind_ok] at h
  split at h
  · cases h
  rename_i hmg
  have ht1 : (buf.take 8).drop 4 = (buf.drop 4).take 4 := by
    rw [List.take_drop]
  have ht2 : (buf.take 20).drop 8 = (buf.drop 8).take 12 := by
    rw [List.take_drop]
  rw [ht1] at hmg
  rw [ht2] at h
  cases hs : parseLoop env ((buf.drop 8).take 12) (buf.drop 20) 0 {} with
  | err e => rw [hs] at h; cases h
  | panic => rw [hs] at h; cases h
  | ok s =>
    rw [hs] at h
    simp only [bind_ok] at h
    have hmi := parseLoop_miOff hs
    simp only [List.length_drop] at hmi
    have hcv : covered buf s.miOff = .ok (if s.miOff > 0 then buf.take (s.miOff + 20) else []) := by
      unfold covered
      split
      · rw [upto_of_le]
        rcases hmi with hmi | hmi
        · have : s.miOff = 0 := hmi
          omega
        · omega
      · rfl
    unfold parseFinish at h
    simp only [bind_def, hcv, bind_ok] at h
    refine ⟨h20, s, by omega, by simpa using hmg, ?_⟩
    rcases ite_ok h with ⟨hc1, h⟩ | ⟨hc1, h⟩
    · rcases ite_ok h with ⟨-, h⟩ | ⟨hz, h⟩
      · cases h
      rcases ite_ok h with ⟨-, h⟩ | ⟨hx, h⟩
      · cases h
      cases h
      refine ⟨rfl, rfl, rfl, hs, rfl, rfl, rfl, ?_, ?_⟩
      · intro _ _
        exact ⟨by omega, by cases hh : s.attrs.xorMappedAddress <;> simp_all⟩
      · intro _ hr
        simp only at hr
        rw [hc1.2] at hr; cases hr
    · rcases ite_ok h with ⟨hc2, h⟩ | ⟨hc2, h⟩
      · rcases ite_ok h with ⟨-, h⟩ | ⟨hz, h⟩
        · cases h
        rcases ite_ok h with ⟨-, h⟩ | ⟨hu, h⟩
        · cases h
        rcases ite_ok h with ⟨-, h⟩ | ⟨hp, h⟩
        · cases h
        cases h
        refine ⟨rfl, rfl, rfl, hs, rfl, rfl, rfl, ?_, ?_⟩
        · intro _ hr
          simp only at hr
          rw [hc2.2] at hr; cases hr
        · intro _ _
          exact ⟨by omega, Option.isSome_iff_ne_none.2 hu, Option.isSome_iff_ne_none.2 hp⟩
      · cases h
        refine ⟨rfl, rfl, rfl, hs, rfl, rfl, rfl, ?_, ?_⟩
        · intro a b; exact absurd ⟨a, b⟩ hc1
        · intro a b; exact absurd ⟨a, b⟩ hc2

theorem parse_noPanic (env : Env) (buf : List Byte) : (parse env buf).NoPanic := by
  unfold parse
  split
  · trivial
  rename_i hl4
  simp only [bind_def, idx_of_lt (show 0 < buf.length by omega),
    idx_of_lt (show 1 < buf.length by omega), bind_ok, rdU16_ok (show 2 + 1 < buf.length by omega)]
  split
  · trivial
  split
  · trivial
  rename_i hm4 hlen
  rw [slice_of_le (by omega) (by omega), slice_of_le (by omega) (by omega),
    from_of_le (by omega)]
  simp only [bind_ok]
  split
  · trivial
  apply NoPanic.bind
  · apply parseLoop_noPanic; simp; omega
  · intro s hs
    apply parseFinish_noPanic
    have := parseLoop_miOff hs
    simp only [List.length_drop] at this
    rcases this with h | h
    · left; exact h
    · right; omega

end Str0m.Stun
