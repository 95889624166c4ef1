import Verif.Model.StrId
/-
  C47: ids from text.
-/
namespace Str0m.StrId

/-- ASCII letter, digit, or underscore. -/
def Allowed (c : Char) : Prop := (('0' ≤ c ∧ c ≤ '9') ∨ ('A' ≤ c ∧ c ≤ 'Z') ∨ ('a' ≤ c ∧ c ≤ 'z')) ∨ c = '_'

theorem isAlnum_iff (c : Char) : isAlnum c = true ↔ (('0' ≤ c ∧ c ≤ '9') ∨ ('A' ≤ c ∧ c ≤ 'Z') ∨ ('a' ≤ c ∧ c ≤ 'z')) := by
  have hle : ∀ a b : Char, a ≤ b ↔ a.toNat ≤ b.toNat := fun a b => UInt32.le_iff_toNat_le
  simp only [isAlnum, Bool.or_eq_true, Bool.and_eq_true, decide_eq_true_eq, hle]
  rw [show '0'.toNat = 48 from rfl, show '9'.toNat = 57 from rfl, show 'A'.toNat = 65 from rfl, show 'Z'.toNat = 90 from rfl,
    show 'a'.toNat = 97 from rfl, show 'z'.toNat = 122 from rfl, or_assoc]

theorem sanitize_allowed (c : Char) : Allowed (sanitize c) := by
  unfold sanitize Allowed
  split
  · rename_i h; exact .inl ((isAlnum_iff c).1 h)
  · exact .inr rfl

theorem sanitize_of_allowed {c : Char} (h : Allowed c) : sanitize c = c := by
  rcases h with h | h
  · unfold sanitize; rw [if_pos ((isAlnum_iff c).2 h)]
  · subst h; rfl

theorem allowed_code {c : Char} (h : Allowed c) : c.toNat < 128 ∧ isWs c = false := by
  rcases h with h | h
  · replace h := (isAlnum_iff c).2 h
    simp only [isAlnum, Bool.or_eq_true, Bool.and_eq_true, decide_eq_true_eq] at h
    refine ⟨by omega, ?_⟩
    simp only [isWs, Bool.or_eq_false_iff, Bool.and_eq_false_iff, decide_eq_false_iff_not, beq_eq_false_iff_ne]
    omega
  · subst h; exact ⟨by decide, by decide⟩

theorem fromStr_length (n : Nat) (v : List Char) : (fromStr n v).length = n := by
  unfold fromStr
  simp only [List.length_append, List.length_replicate, List.length_take]
  omega

theorem dropWhile_nows {l : List Char} (h : ∀ c ∈ l, isWs c = false) : l.dropWhile isWs = l := by
  cases l with
  | nil => rfl
  | cons a l => rw [List.dropWhile_cons_of_neg]; simp [h a (List.mem_cons_self ..)]

theorem dropWhile_spaces (k : Nat) {l : List Char} (h : ∀ c ∈ l, isWs c = false) : (List.replicate k ' ' ++ l).dropWhile isWs = l := by
  induction k with
  | zero => exact dropWhile_nows h
  | succ k ih =>
    rw [List.replicate_succ, List.cons_append, List.dropWhile_cons_of_pos (by decide)]
    exact ih

theorem trim_padded {l : List Char} (h : ∀ c ∈ l, isWs c = false) (k : Nat) : trim (l ++ List.replicate k ' ') = l := by
  unfold trim
  cases l with
  | nil =>
    have := dropWhile_spaces k (l := []) (by intro c hc; cases hc)
    rw [List.append_nil] at this
    rw [List.nil_append, this]; rfl
  | cons a l =>
    have e : (a :: l ++ List.replicate k ' ').dropWhile isWs = a :: l ++ List.replicate k ' ' := by
      rw [List.cons_append, List.dropWhile_cons_of_neg]; simp [h a (List.mem_cons_self ..)]
    rw [e, List.reverse_append, List.reverse_replicate, dropWhile_spaces k (fun c hc => h c (List.mem_reverse.1 hc)), List.reverse_reverse]

theorem map_ofNat_toNat (l : List Char) : (l.map Char.toNat).map Char.ofNat = l := by
  rw [List.map_map]
  conv_rhs => rw [← List.map_id l]
  apply List.map_congr_left
  intro c _
  simp

/-- What text an id made from text has. -/
theorem deref_fromStr (u : Utf8) (n : Nat) (v : List Char) : deref u (fromStr n v) = .ok ((v.map sanitize).take n) := by
  have hall : ∀ c ∈ (v.map sanitize).take n, Allowed c := by
    intro c hc
    obtain ⟨d, -, e⟩ := List.mem_map.1 (List.mem_of_mem_take hc)
    rw [← e]; exact sanitize_allowed d
  have hasc : ∀ x ∈ fromStr n v, x < 128 := by
    intro x hx
    unfold fromStr at hx
    rcases List.mem_append.1 hx with hx | hx
    · rw [← List.map_take] at hx
      obtain ⟨c, hc, e⟩ := List.mem_map.1 hx
      rw [← e]
      exact (allowed_code (hall c hc)).1
    · rw [(List.mem_replicate.1 hx).2]; omega
  unfold deref
  rw [u.ascii _ hasc]
  show Res.ok (trim _) = _
  congr 1
  unfold fromStr
  rw [List.map_append, List.map_replicate, ← List.map_take, map_ofNat_toNat]
  exact trim_padded (fun c hc => (allowed_code (hall c hc)).2) _

/-- **C47** An id made from any text can be read without panic; the text is at most `n` characters (16 for `Mid`, 8 for `Rid`), all of
them ASCII letters, digits or underscores: that of the given characters where they are such, with other characters
replaced by underscores. Making an id of that text gives the same id. -/
theorem C47_text (u : Utf8) (n : Nat) (v : List Char) : ∃ t, deref u (fromStr n v) = .ok t ∧ t.length = min n v.length ∧
    (∀ c ∈ t, Allowed c) ∧
    (∀ (i : Nat) (c : Char), t[i]? = some c → ∃ d, v[i]? = some d ∧ (Allowed d → c = d) ∧ (¬ Allowed d → c = '_')) ∧
    fromStr n t = fromStr n v := by
  refine ⟨_, deref_fromStr u n v, by simp, ?_, ?_, ?_⟩
  · intro c hc
    obtain ⟨d, -, e⟩ := List.mem_map.1 (List.mem_of_mem_take hc)
    rw [← e]; exact sanitize_allowed d
  · intro i c hc
    rw [List.getElem?_take] at hc
    split at hc
    · rw [List.getElem?_map] at hc
      cases hd : v[i]? with
      | none => rw [hd] at hc; cases hc
      | some d =>
        rw [hd] at hc
        refine ⟨d, rfl, ?_, ?_⟩
        · intro ha
          have := Option.some.inj hc
          rw [← this]; exact sanitize_of_allowed ha
        · intro ha
          have := Option.some.inj hc
          rw [← this]
          unfold sanitize
          rw [if_neg]
          intro h; exact ha (.inl ((isAlnum_iff d).1 h))
    · cases hc
  · have e : ((v.map sanitize).take n).map sanitize = (v.map sanitize).take n := by
      conv_rhs => rw [← List.map_id ((v.map sanitize).take n)]
      apply List.map_congr_left
      intro c hc
      obtain ⟨d, -, e⟩ := List.mem_map.1 (List.mem_of_mem_take hc)
      rw [← e]; exact sanitize_of_allowed (sanitize_allowed d)
    unfold fromStr
    rw [e, ← List.map_take (f := Char.toNat), List.take_take, Nat.min_self, ← List.map_take (f := Char.toNat)]

/-- **C47** Two ids are equal exactly when their texts are: nothing but the text is in an id. -/
theorem C47_eq (u : Utf8) (n : Nat) (v w : List Char) : fromStr n v = fromStr n w ↔ deref u (fromStr n v) = deref u (fromStr n w) := by
  constructor
  · intro h; rw [h]
  · intro h
    obtain ⟨t, e, -, -, -, ht⟩ := C47_text u n v
    obtain ⟨t', e', -, -, -, ht'⟩ := C47_text u n w
    rw [e, e'] at h
    cases h
    rw [← ht, ← ht']

/-- **C47** Text that fits and has only such characters is kept, so different ones give different ids. -/
theorem C47_keeps (u : Utf8) (n : Nat) (v : List Char) (h : v.length ≤ n) (ha : ∀ c ∈ v, Allowed c) : deref u (fromStr n v) = .ok v := by
  rw [deref_fromStr]
  have e : v.map sanitize = v := by
    conv_rhs => rw [← List.map_id v]
    exact List.map_congr_left (fun c hc => sanitize_of_allowed (ha c hc))
  rw [e, List.take_of_length_le h]

/-- Random ids (`Mid::new`, `Rid::new`) are read back as their random characters, if those are letters or digits. -/
theorem C47_new (u : Utf8) {n k : Nat} (hk : k ≤ n) (arr : List Nat) (hl : k ≤ arr.length) (cs : List Char) (hcs : arr.take k = cs.map Char.toNat) (ha : ∀ c ∈ cs, Allowed c) :
    deref u (newId n k arr) = .ok cs ∧ newId n k arr = fromStr n cs := by
  have hlen : cs.length = k := by
    have := congrArg List.length hcs
    simp at this; omega
  have e : newId n k arr = fromStr n cs := by
    unfold newId fromStr
    have e : cs.map sanitize = cs := by
      conv_rhs => rw [← List.map_id cs]
      exact List.map_congr_left (fun c hc => sanitize_of_allowed (ha c hc))
    rw [e, hcs, List.take_of_length_le (by simp; omega)]
    simp [hlen]
  exact ⟨by rw [e]; exact C47_keeps u n cs (by omega) ha, e⟩

/-- A decoder to which the theorems apply. -/
def asciiOnly : Utf8 where
  decode b := if ∀ x ∈ b, x < 128 then some (b.map Char.ofNat) else none
  ascii b h := by rw [if_pos h]

example : deref asciiOnly (fromStr 8 "hö-1".toList) = .ok "h__1".toList := by decide
example : deref asciiOnly (fromStr 8 "0123456789".toList) = .ok "01234567".toList := by decide

/-- What the SDP says is not what the id says (sdp/parser.rs 125, 476): two media lines with the different mids `a-1` and
`a_1` of a remote offer are one mid here, and so are two whose first 16 characters are the same. -/
theorem C47_violation_collide :
    fromStr 16 "a-1".toList = fromStr 16 "a_1".toList ∧ fromStr 16 "0123456789abcdefX".toList = fromStr 16 "0123456789abcdefY".toList := by
  decide

end Str0m.StrId
