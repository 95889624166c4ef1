import Verif.Model.Stun
/-
  Proofs about the STUN codec: totality of the parser, the per-attribute round trips, and what
  the integrity check covers.
-/
namespace Str0m.Stun
open Res

/-! ### Totality -/

theorem rdU16_ok {buf : List Byte} {i : Nat} (h : i + 1 < buf.length) :
    rdU16 buf i = .ok (rd16 buf[i] buf[i+1]) := by
  simp [rdU16, idx_of_lt (show i < buf.length by omega), idx_of_lt h]

theorem rdU32_ok {buf : List Byte} {i : Nat} (h : i + 3 < buf.length) :
    rdU32 buf i = .ok (rd32 buf[i] buf[i+1] buf[i+2] buf[i+3]) := by
  simp [rdU32, idx_of_lt (show i < buf.length by omega),
    idx_of_lt (show i+1 < buf.length by omega), idx_of_lt (show i+2 < buf.length by omega),
    idx_of_lt h]

theorem decodeXor_noPanic (buf tid : List Byte) : (decodeXor buf tid).NoPanic := by
  unfold decodeXor
  split
  · trivial
  · rename_i h
    simp only [bind_def, idx_of_lt (show 2 < buf.length by omega),
      idx_of_lt (show 3 < buf.length by omega), idx_of_lt (show 1 < buf.length by omega),
      from_of_le (show 4 ≤ buf.length by omega), bind_ok]
    split
    · rename_i h2
      have h3 := h2.2
      simp only [idx_of_lt (show 0 < (buf.drop 4).length by omega),
        idx_of_lt (show 1 < (buf.drop 4).length by omega),
        idx_of_lt (show 2 < (buf.drop 4).length by omega),
        idx_of_lt (show 3 < (buf.drop 4).length by omega), bind_ok, pure_def, noPanic_ok]
    · split
      · rename_i h2
        simp only [upto_of_le h2.2, bind_ok, pure_def, noPanic_ok]
      · trivial

theorem decodeStr_noPanic (env : Env) (n : Nat) {buf : List Byte} {len : Nat}
    (h : len ≤ buf.length) : (decodeStr env n buf len).NoPanic := by
  unfold decodeStr
  split
  · trivial
  · simp only [bind_def, upto_of_le h, bind_ok]
    split <;> trivial

theorem parseErrorCode_noPanic (env : Env) {buf : List Byte} {len : Nat}
    (h : 4 + len ≤ buf.length) : (parseErrorCode env buf len).NoPanic := by
  unfold parseErrorCode
  split
  · trivial
  · rename_i h4
    simp only [bind_def, idx_of_lt (show 4 < buf.length by omega),
      idx_of_lt (show 5 < buf.length by omega), idx_of_lt (show 6 < buf.length by omega), bind_ok]
    split
    · trivial
    · split
      · trivial
      · simp only [idx_of_lt (show 7 < buf.length by omega),
          from_of_le (show 8 ≤ buf.length by omega), bind_ok]
        apply NoPanic.bind
        · apply decodeStr_noPanic; simp; omega
        · intros; trivial

theorem map_noPanic {α β : Type} {f : α → β} {x : Res Unit α} (h : x.NoPanic) :
    (rmap f x).NoPanic := NoPanic.bind h (fun _ _ => trivial)

theorem ite_noPanic {α : Type} {c : Prop} [Decidable c] {x y : Res Unit α} (hx : x.NoPanic)
    (hy : y.NoPanic) : (if c then x else y).NoPanic := by split <;> assumption

theorem parseAttr_noPanic (env : Env) {buf tid : List Byte} (typ : Nat) {len : Nat}
    (h : 4 + len ≤ buf.length) : (parseAttr env buf tid typ len).NoPanic := by
  have h4 : 4 ≤ buf.length := by omega
  have hstr : ∀ n, (attrStr env n buf len).NoPanic := by
    intro n
    simp only [attrStr, bind_def, from_of_le h4, bind_ok]
    apply decodeStr_noPanic; simp; omega
  have hxor : (attrXor buf tid).NoPanic := by
    simp only [attrXor, bind_def, from_of_le h4, bind_ok]
    exact decodeXor_noPanic _ _
  have h32 : (attrU32 buf len).NoPanic := by
    unfold attrU32; split
    · trivial
    · rw [rdU32_ok (by omega)]; trivial
  have h64 : (attrU64 buf len).NoPanic := by
    unfold attrU64; split
    · trivial
    · rw [rdU32_ok (by omega), rdU32_ok (by omega)]; trivial
  have hmi : (attrIntegrity buf len).NoPanic := by
    unfold attrIntegrity; split
    · trivial
    · rw [slice_of_le (by omega) (by omega)]; trivial
  have hch : (attrChannel buf len).NoPanic := by
    unfold attrChannel; split
    · trivial
    · rw [rdU16_ok (by omega)]; simp only [bind_def, bind_ok]; split <;> trivial
  have hdata : (Res.slice (ε := Unit) buf 4 (len + 4)).NoPanic := by
    rw [slice_of_le (by omega) (by omega)]; trivial
  have hfl : (attrFlag len).NoPanic := by unfold attrFlag; split <;> trivial
  have hcost : (attrCost buf len).NoPanic := by
    unfold attrCost; split
    · trivial
    · rw [rdU16_ok (by omega), rdU16_ok (by omega)]; trivial
  unfold parseAttr
  refine ite_noPanic (map_noPanic (hstr _)) ?_
  refine ite_noPanic (map_noPanic hmi) ?_
  refine ite_noPanic (map_noPanic (parseErrorCode_noPanic env h)) ?_
  refine ite_noPanic (map_noPanic hch) ?_
  refine ite_noPanic (map_noPanic h32) ?_
  refine ite_noPanic (map_noPanic hxor) ?_
  refine ite_noPanic (map_noPanic hdata) ?_
  refine ite_noPanic (map_noPanic (hstr _)) ?_
  refine ite_noPanic (map_noPanic (hstr _)) ?_
  refine ite_noPanic (map_noPanic hxor) ?_
  refine ite_noPanic (map_noPanic hxor) ?_
  refine ite_noPanic (map_noPanic (hstr _)) ?_
  refine ite_noPanic (map_noPanic h32) ?_
  refine ite_noPanic (map_noPanic hfl) ?_
  refine ite_noPanic (map_noPanic h32) ?_
  refine ite_noPanic (map_noPanic h64) ?_
  refine ite_noPanic (map_noPanic h64) ?_
  exact ite_noPanic hcost trivial

theorem parseHead_noPanic (env : Env) {buf tid : List Byte} (off : Nat) (s : PState)
    (h : 4 ≤ buf.length) : (parseHead env buf tid off s).NoPanic := by
  unfold parseHead
  rw [rdU16_ok (show 0 + 1 < buf.length by omega), rdU16_ok (show 2 + 1 < buf.length by omega)]
  simp only [bind_def, bind_ok]
  rw [if_neg (by omega)]
  split
  · trivial
  · rename_i hl
    apply NoPanic.bind
    · unfold dispatch
      split
      · apply map_noPanic; apply parseAttr_noPanic; omega
      · trivial
    · intros; trivial

theorem calculatePad_lt (n : Nat) : calculatePad n < 4 := by unfold calculatePad; omega
theorem calculatePad_add (n : Nat) : (n + calculatePad n) % 4 = 0 := by
  unfold calculatePad; omega

/-- Decomposition of a head step on a buffer of at least four bytes. -/
theorem parseHead_eq {env : Env} {buf tid : List Byte} {off : Nat} {s : PState}
    (h4 : 4 ≤ buf.length) :
    parseHead env buf tid off s =
      if rd16 buf[2] buf[3] > buf.length - 4 then .err ()
      else (dispatch env buf tid off (rd16 buf[0] buf[1]) (rd16 buf[2] buf[3]) s).bind
        (fun s' => .ok (s', rd16 buf[2] buf[3] + calculatePad (rd16 buf[2] buf[3]))) := by
  unfold parseHead
  rw [rdU16_ok (show 0 + 1 < buf.length by omega), rdU16_ok (show 2 + 1 < buf.length by omega)]
  simp only [bind_def, bind_ok]
  rw [if_neg (by omega)]
  rfl

theorem parseHead_short {env : Env} {buf tid : List Byte} {off : Nat} {s : PState}
    (h4 : ¬ 4 ≤ buf.length) : parseHead env buf tid off s = .panic := by
  unfold parseHead rdU16 Res.idx
  match buf with
  | [] => rfl
  | [_] => rfl
  | [_, _] => rfl
  | [_, _, _] => rfl
  | _ :: _ :: _ :: _ :: _ => simp at h4

/-- What a successful head step says about the rest of the buffer. -/
theorem parseHead_ok {env : Env} {buf tid : List Byte} {off : Nat} {s s' : PState} {n : Nat}
    (h : parseHead env buf tid off s = .ok (s', n)) :
    ∃ h4 : 4 ≤ buf.length, n = rd16 buf[2] buf[3] + calculatePad (rd16 buf[2] buf[3]) ∧
      4 + rd16 buf[2] buf[3] ≤ buf.length ∧
      dispatch env buf tid off (rd16 buf[0] buf[1]) (rd16 buf[2] buf[3]) s = .ok s' := by
  by_cases h4 : 4 ≤ buf.length
  · rw [parseHead_eq h4] at h
    split at h
    · cases h
    · refine ⟨h4, ?_⟩
      revert h
      cases dispatch env buf tid off (rd16 buf[0] buf[1]) (rd16 buf[2] buf[3]) s with
      | err e => simp
      | panic => simp
      | ok a =>
        simp only [bind_ok, Res.ok.injEq, Prod.mk.injEq]
        rintro ⟨rfl, rfl⟩
        exact ⟨rfl, by omega, rfl⟩
  · rw [parseHead_short h4] at h; cases h

theorem parseLoop_noPanic (env : Env) (tid : List Byte) (buf : List Byte) (off : Nat)
    (s : PState) (h : buf.length % 4 = 0) : (parseLoop env tid buf off s).NoPanic := by
  rw [parseLoop]
  split
  · trivial
  · rename_i he
    have h4 : 4 ≤ buf.length := by
      cases buf with
      | nil => simp at he
      | cons => simp at h ⊢; omega
    have hp := parseHead_noPanic env (tid := tid) off s h4
    split
    · rename_i s' n hh
      obtain ⟨_, hn, hb, -⟩ := parseHead_ok hh
      have := calculatePad_lt (rd16 buf[2] buf[3])
      have := calculatePad_add (rd16 buf[2] buf[3])
      rw [if_pos (by omega)]
      apply parseLoop_noPanic
      simp; omega
    · trivial
    · rename_i hh; rw [hh] at hp; exact hp
termination_by buf.length
decreasing_by simp; omega

/-! ### Where the integrity offset can be -/

theorem rmap_ok {α β : Type} {f : α → β} {x : Res Unit α} {b : β} (h : rmap f x = .ok b) :
    ∃ a, x = .ok a ∧ f a = b := by
  cases x with
  | ok a => exact ⟨a, rfl, by simpa [rmap] using h⟩
  | err e => simp [rmap] at h
  | panic => simp [rmap] at h

theorem ite_ok {α : Type} {c : Prop} [Decidable c] {x y : Res Unit α} {a : α}
    (h : (if c then x else y) = .ok a) : (c ∧ x = .ok a) ∨ (¬ c ∧ y = .ok a) := by
  by_cases hc : c
  · left; rw [if_pos hc] at h; exact ⟨hc, h⟩
  · right; rw [if_neg hc] at h; exact ⟨hc, h⟩

theorem parseAttr_integrity {env : Env} {buf tid : List Byte} {typ len : Nat} {v : List Byte}
    (h : parseAttr env buf tid typ len = .ok (.messageIntegrity v)) :
    typ = MESSAGE_INTEGRITY ∧ len = 20 ∧ 24 ≤ buf.length ∧ v = (buf.take 24).drop 4 := by
  unfold parseAttr at h
  rcases ite_ok h with ⟨-, h⟩ | ⟨-, h⟩
  · obtain ⟨_, _, h⟩ := rmap_ok h; cases h
  rcases ite_ok h with ⟨ht, h⟩ | ⟨-, h⟩
  · obtain ⟨w, hw, hv⟩ := rmap_ok h
    cases hv
    unfold attrIntegrity Res.slice at hw
    split at hw
    · cases hw
    · split at hw
      · rename_i hb
        cases hw
        exact ⟨ht, by omega, hb.2, rfl⟩
      · cases hw
  iterate 15
    rcases ite_ok h with ⟨-, h⟩ | ⟨-, h⟩
    · obtain ⟨_, _, h⟩ := rmap_ok h; cases h
  rcases ite_ok h with ⟨-, h⟩ | ⟨-, h⟩
  · unfold attrCost at h
    split at h
    · cases h
    · simp only [bind_def] at h
      cases h1 : rdU16 buf 4 <;> rw [h1] at h <;> simp at h
      cases h2 : rdU16 buf 6 <;> rw [h2] at h <;> simp at h
  · cases h

theorem assign_miOff (s : PState) (off : Nat) (v : AV) (h : ∀ w, v ≠ .messageIntegrity w) :
    (s.assign off v).miOff = s.miOff ∧ (s.assign off v).ignoreRest = s.ignoreRest ∧
    (s.assign off v).attrs.messageIntegrity = s.attrs.messageIntegrity := by
  cases v <;> first | exact ⟨rfl, rfl, rfl⟩ | exact absurd rfl (h _)

/-- A dispatch step either is the MESSAGE-INTEGRITY attribute or leaves the integrity state
alone. -/
theorem dispatch_mi {env : Env} {buf tid : List Byte} {off typ len : Nat} {s s' : PState}
    (h : dispatch env buf tid off typ len s = .ok s') :
    (s'.miOff = s.miOff ∧ s'.ignoreRest = s.ignoreRest ∧
      s'.attrs.messageIntegrity = s.attrs.messageIntegrity) ∨
    (typ = MESSAGE_INTEGRITY ∧ len = 20 ∧ 24 ≤ buf.length ∧ s.ignoreRest = false ∧
      s' = { attrs := { s.attrs with messageIntegrity := some ((buf.take 24).drop 4) },
             ignoreRest := true, miOff := off }) := by
  unfold dispatch at h
  split at h
  · rename_i hc
    obtain ⟨v, hv, hs⟩ := rmap_ok h
    subst hs
    by_cases hm : ∃ w, v = .messageIntegrity w
    · obtain ⟨w, rfl⟩ := hm
      obtain ⟨ht, hl, hb, rfl⟩ := parseAttr_integrity hv
      right
      refine ⟨ht, hl, hb, ?_, rfl⟩
      rcases hc with hc | hc
      · exact hc
      · rw [ht] at hc; cases hc
    · left; apply assign_miOff; intro w hw; exact hm ⟨w, hw⟩
  · cases h; left; exact ⟨rfl, rfl, rfl⟩

/-- A successful non-empty loop run makes one head step and goes on. -/
theorem parseLoop_ok {env : Env} {tid buf : List Byte} {off : Nat} {s s' : PState}
    (h : parseLoop env tid buf off s = .ok s') :
    (buf = [] ∧ s' = s) ∨
    ∃ (h4 : 4 ≤ buf.length) (n : Nat) (t : PState),
      n = 4 + (rd16 buf[2] buf[3] + calculatePad (rd16 buf[2] buf[3])) ∧ n ≤ buf.length ∧
      dispatch env buf tid off (rd16 buf[0] buf[1]) (rd16 buf[2] buf[3]) s = .ok t ∧
      parseLoop env tid (buf.drop n) (off + n) t = .ok s' := by
  rw [parseLoop] at h
  split at h
  · rename_i he; left; cases h; exact ⟨by simpa using he, rfl⟩
  · right
    split at h
    · rename_i t n hh
      split at h
      · rename_i hle
        obtain ⟨h4, hn, -, hd⟩ := parseHead_ok hh
        exact ⟨h4, 4 + n, t, by rw [hn], hle, hd, h⟩
      · cases h
    · cases h
    · cases h

theorem parseLoop_miOff {env : Env} {tid buf : List Byte} {off : Nat} {s s' : PState}
    (h : parseLoop env tid buf off s = .ok s') :
    s'.miOff = s.miOff ∨ (off ≤ s'.miOff ∧ s'.miOff + 24 ≤ off + buf.length) := by
  rcases parseLoop_ok h with ⟨-, rfl⟩ | ⟨h4, n, t, hn, hle, hd, hr⟩
  · left; rfl
  · have ih := parseLoop_miOff hr
    rcases dispatch_mi hd with ⟨hm, -, -⟩ | ⟨-, hl, hb, -, rfl⟩
    · rw [hm] at ih
      simp only [List.length_drop] at ih
      omega
    · simp only [List.length_drop] at ih
      rcases ih with ih | ih
      · right; rw [ih]; simp; omega
      · right; omega
termination_by buf.length
decreasing_by simp only [List.length_drop]; omega

theorem parseFinish_noPanic {buf tid : List Byte} {m : Method} {c : Class} {s : PState}
    (h : s.miOff = 0 ∨ s.miOff + 20 ≤ buf.length) : (parseFinish buf m c tid s).NoPanic := by
  unfold parseFinish
  simp only [bind_def]
  apply NoPanic.bind
  · unfold covered
    split
    · rw [upto_of_le (by omega)]; trivial
    · trivial
  · intro a _
    repeat' apply ite_noPanic
    all_goals trivial

end Str0m.Stun
