import Verif.Model.Av1
import Verif.Spec.Av1
import Verif.Spec.Packet
import Verif.Proofs.Vla
import Verif.Proofs.PacketSafe
/-
  AV1: LEB128, OBU parsing.
-/
namespace Str0m.Av1
open Str0m.Packet
open Str0m.Vla (encodeLeb encodeLebGo)
open Spec

/-! ### LEB128 -/

theorem getLebGo_spec (rest : List Byte) : ∀ (init : List Byte) (last : Byte) (fuel i acc : Nat), init.length < fuel →
    (∀ b ∈ init, 128 ≤ b.val) → last.val < 128 → i + 7 * (init.length + 1) ≤ 64 →
    getLebGo fuel i acc (init ++ [last] ++ rest) = some (acc + lebVal (init ++ [last]) * 2 ^ i, rest) := by
  intro init
  induction init with
  | nil =>
    intro last fuel i acc hf _ hl hi
    obtain ⟨f, rfl⟩ : ∃ f, fuel = f + 1 := ⟨fuel - 1, by simp at hf; omega⟩
    show (if last.val < 128 then some (acc + last.val % 128 * 2 ^ i % 2 ^ 64, rest) else _) = _
    rw [if_pos hl]
    have : last.val % 128 * 2 ^ i < 2 ^ 64 := by
      have h1 : (2:Nat) ^ i ≤ 2 ^ 57 := Nat.pow_le_pow_right (by omega) (by simp at hi; omega)
      have h2 : last.val % 128 < 128 := Nat.mod_lt _ (by omega)
      calc last.val % 128 * 2 ^ i ≤ 127 * 2 ^ 57 := Nat.mul_le_mul (by omega) h1
        _ < 2 ^ 64 := by norm_num
    rw [Nat.mod_eq_of_lt this]
    simp [lebVal]
  | cons b init ih =>
    intro last fuel i acc hf hb hl hi
    obtain ⟨f, rfl⟩ : ∃ f, fuel = f + 1 := ⟨fuel - 1, by simp at hf; omega⟩
    rw [List.length_cons] at hf hi
    show (if b.val < 128 then _ else getLebGo f (i + 7) (acc + b.val % 128 * 2 ^ i % 2 ^ 64) (init ++ [last] ++ rest)) = _
    rw [if_neg (by have := hb b (by simp); omega)]
    rw [ih last f (i + 7) _ (by omega) (fun c hc => hb c (List.mem_cons_of_mem _ hc)) hl (by omega)]
    have : b.val % 128 * 2 ^ i < 2 ^ 64 := by
      have h1 : (2:Nat) ^ i ≤ 2 ^ 57 := Nat.pow_le_pow_right (by omega) (by omega)
      have h2 : b.val % 128 < 128 := Nat.mod_lt _ (by omega)
      calc b.val % 128 * 2 ^ i ≤ 127 * 2 ^ 57 := Nat.mul_le_mul (by omega) h1
        _ < 2 ^ 64 := by norm_num
    rw [Nat.mod_eq_of_lt this]
    show some (_, rest) = some (acc + (b.val % 128 + 128 * lebVal (init ++ [last])) * 2 ^ i, rest)
    congr 2
    rw [Nat.pow_add]
    ring

theorem getLeb_isLeb {l : List Byte} {n : Nat} (h : IsLeb l n) (rest : List Byte) : getLeb (l ++ rest) = some (n, rest) := by
  obtain ⟨init, last, rfl, hlen, h1, h2, h3⟩ := h
  unfold getLeb
  rw [List.length_append, List.length_singleton] at hlen
  rw [getLebGo_spec rest init last 10 0 0 (by omega) h1 h2 (by omega), h3]
  simp

theorem encodeLebGo_min : ∀ (fuel n : Nat), n < 128 ^ fuel → encodeLebGo fuel n = lebMin n ∨ fuel = 0 := by
  intro fuel
  induction fuel with
  | zero => intro n _; exact Or.inr rfl
  | succ fuel ih =>
    intro n h
    left
    unfold encodeLebGo lebMin
    by_cases hn : n < 128
    · rw [if_pos hn, dif_pos hn]
    · rw [if_neg hn, dif_neg hn]
      have hlt : n / 128 < 128 ^ fuel := by
        rw [Nat.div_lt_iff_lt_mul (by omega), ← Nat.pow_succ]; exact h
      rcases ih (n / 128) hlt with h' | h'
      · rw [h']
      · subst h'
        simp at h
        omega

theorem encodeLeb_min {n : Nat} (h : n < 2 ^ 63) : encodeLeb n = lebMin n := by
  unfold encodeLeb
  rcases encodeLebGo_min 10 n (lt_of_lt_of_le h (by norm_num)) with h | h
  · exact h
  · omega

/-- The shortest encoding, as continuation bytes and a last byte. -/
theorem lebMin_shape (k : Nat) : ∀ n, n < 128 ^ (k + 1) → ∃ init last, lebMin n = init ++ [last] ∧ init.length ≤ k ∧ (∀ b ∈ init, 128 ≤ b.val) ∧
    last.val < 128 ∧ lebVal (lebMin n) = n := by
  induction k with
  | zero =>
    intro n h
    have hn : n < 128 := by simpa using h
    unfold lebMin
    rw [dif_pos hn]
    refine ⟨[], u8 n, rfl, by simp, by simp, by rw [u8_val]; omega, ?_⟩
    simp [lebVal]; omega
  | succ k ih =>
    intro n h
    unfold lebMin
    by_cases hn : n < 128
    · rw [dif_pos hn]
      refine ⟨[], u8 n, rfl, by simp, by simp, by rw [u8_val]; omega, ?_⟩
      simp [lebVal]; omega
    · rw [dif_neg hn]
      obtain ⟨init, last, e, h1, h2, h3, h4⟩ := ih (n / 128) (by rw [Nat.div_lt_iff_lt_mul (by omega), ← Nat.pow_succ]; exact h)
      refine ⟨u8 (n % 128 + 128) :: init, last, by rw [e]; rfl, by simpa using h1, ?_, h3, ?_⟩
      · intro b hb
        rcases List.mem_cons.1 hb with rfl | hb
        · rw [u8_val]; omega
        · exact h2 b hb
      · show (u8 (n % 128 + 128)).val % 128 + 128 * lebVal (lebMin (n / 128)) = n
        rw [h4, u8_val]; omega

theorem getLeb_min {n : Nat} (h : n < 2 ^ 63) (rest : List Byte) : getLeb (lebMin n ++ rest) = some (n, rest) := by
  obtain ⟨init, last, e, h1, h2, h3, h4⟩ := lebMin_shape 8 n (lt_of_lt_of_le h (by norm_num))
  unfold getLeb
  have := getLebGo_spec rest init last 10 0 0 (by omega) h2 h3 (by omega)
  rw [← e, h4] at this
  rw [this]; simp

theorem lebSize_eq {n : Nat} (h : n < 2 ^ 63) : lebSize n = (lebMin n).length := by
  have key : ∀ (fuel n : Nat), n < 128 ^ (fuel + 1) → lebSizeGo fuel n = (lebMin n).length := by
    intro fuel
    induction fuel with
    | zero =>
      intro n h
      unfold lebMin lebSizeGo
      rw [dif_pos (by simpa using h)]; rfl
    | succ fuel ih =>
      intro n h
      unfold lebMin lebSizeGo
      by_cases hn : n < 128
      · rw [if_neg (by omega), dif_pos hn]; rfl
      · rw [if_pos (by omega), dif_neg hn, ih _ (by rw [Nat.div_lt_iff_lt_mul (by omega), ← Nat.pow_succ]; exact h), List.length_cons]
        omega
  exact key 10 n (lt_of_lt_of_le h (by norm_num))

theorem lebMin_pos (n : Nat) : 0 < (lebMin n).length := by
  unfold lebMin; split <;> simp

theorem lebMin_length_le (k : Nat) : ∀ n, n < 128 ^ (k + 1) → (lebMin n).length ≤ k + 1 := by
  intro n h
  obtain ⟨init, last, e, h1, -⟩ := lebMin_shape k n h
  rw [e, List.length_append, List.length_singleton]; omega

theorem lebMin_mono : ∀ (b a : Nat), a ≤ b → (lebMin a).length ≤ (lebMin b).length := by
  intro b
  induction b using Nat.strong_induction_on with
  | _ b ih =>
    intro a h
    by_cases hb : b < 128
    · unfold lebMin; rw [dif_pos hb, dif_pos (by omega)]; simp
    · rw [lebMin.eq_def b, dif_neg hb]
      by_cases ha : a < 128
      · unfold lebMin; rw [dif_pos ha]; simp
      · rw [lebMin.eq_def a, dif_neg ha, List.length_cons, List.length_cons]
        have := ih (b / 128) (by omega) (a / 128) (by omega)
        omega

/-! ### Parsing -/

/-- What the code keeps of an OBU; the size bit of the header stays as it was. -/
def toObu (o : SObu) (s : Bool) : Obu :=
  ⟨o.header s, o.ext.getD (u8 0), o.payload, 1 + (if o.ext.isSome then 1 else 0) + o.payload.length⟩

theorem header_val (o : SObu) (h : o.ty < 16) (s : Bool) :
    (o.header s).val = o.ty * 8 + (if o.ext.isSome then 4 else 0) + (if s then 2 else 0) + (if o.reserved then 1 else 0) := by
  unfold SObu.header
  rw [u8_val]
  apply Nat.mod_eq_of_lt
  split <;> split <;> split <;> omega

theorem header_ext (o : SObu) (h : o.ty < 16) (s : Bool) : hasExt (o.header s) = o.ext.isSome := by
  unfold hasExt
  rw [header_val o h]
  cases o.ext.isSome <;> cases s <;> cases o.reserved <;> simp <;> omega

theorem header_size (o : SObu) (h : o.ty < 16) (s : Bool) : hasSize (o.header s) = s := by
  unfold hasSize
  rw [header_val o h]
  cases o.ext.isSome <;> cases s <;> cases o.reserved <;> simp <;> omega

theorem header_type (o : SObu) (h : o.ty < 16) (s : Bool) : obuType (o.header s) = o.ty := by
  unfold obuType
  rw [header_val o h]
  cases o.ext.isSome <;> cases s <;> cases o.reserved <;> simp <;> omega

theorem header_included (o : SObu) (h : o.ty < 16) (s : Bool) : included (o.header s) = decide (Kept o) := by
  unfold included Kept
  rw [header_type o h]

theorem header_clear (o : SObu) (h : o.ty < 16) (s : Bool) : clearSize (o.header s) = o.header false := by
  unfold clearSize
  apply Fin.ext
  rw [u8_val, header_val o h, header_val o h]
  cases o.ext.isSome <;> cases s <;> cases o.reserved <;> simp <;> omega

theorem header_set (o : SObu) (h : o.ty < 16) (s : Bool) : setSize (o.header s) = o.header true := by
  unfold setSize
  apply Fin.ext
  rw [u8_val, header_val o h, header_val o h]
  cases o.ext.isSome <;> cases s <;> cases o.reserved <;> simp <;> omega

theorem parseExt_spec (o : SObu) (h : o.ty < 16) (s : Bool) (rest : List Byte) :
    parseExt (o.header s) (o.ext.toList ++ rest) = .ok (o.ext.getD (u8 0), rest) := by
  unfold parseExt
  rw [header_ext o h]
  cases o.ext <;> rfl

theorem parseObusGo_sized (o : SObu) (h : o.ty < 16) {l : List Byte} (hl : IsLeb l o.payload.length) (rest : List Byte) (fuel : Nat) :
    parseObusGo (fuel + 1) (sized o l ++ rest) = (parseObusGo fuel rest >>= fun tail =>
      pure (if Kept o then toObu o true :: tail else tail)) := by
  unfold sized
  rw [List.cons_append]
  unfold parseObusGo
  rw [show o.ext.toList ++ l ++ o.payload ++ rest = o.ext.toList ++ (l ++ (o.payload ++ rest)) by simp [List.append_assoc]]
  rw [parseExt_spec o h, Res.bind_def, Res.bind_ok]
  have hb : parseBody (o.header true) (l ++ (o.payload ++ rest)) = .ok (o.payload, rest) := by
    unfold parseBody
    rw [header_size o h, if_pos rfl, getLeb_isLeb hl]
    dsimp only
    rw [if_neg (by rw [List.length_append]; omega), List.take_left, List.drop_left]
  dsimp only
  rw [hb, Res.bind_def, Res.bind_ok, header_included o h, header_ext o h]
  by_cases hk : Kept o
  · simp only [hk, decide_true, if_true]
    rw [← parseObusGo.eq_def]
    rfl
  · simp only [hk, decide_false, if_false, Bool.false_eq_true]
    rw [← parseObusGo.eq_def]

theorem parseObusGo_nil (fuel : Nat) : parseObusGo fuel [] = .ok [] := by
  cases fuel <;> rfl

theorem parseObusGo_unsized (o : SObu) (h : o.ty < 16) (fuel : Nat) :
    parseObusGo (fuel + 1) (unsized o) = .ok (if Kept o then [toObu o false] else []) := by
  unfold unsized parseObusGo
  rw [parseExt_spec o h, Res.bind_def, Res.bind_ok]
  have hb : parseBody (o.header false) o.payload = .ok (o.payload, []) := by
    unfold parseBody
    rw [header_size o h, if_neg (by simp)]
  dsimp only
  rw [hb, Res.bind_def, Res.bind_ok, header_included o h, header_ext o h, parseObusGo_nil, Res.bind_def, Res.bind_ok]
  by_cases hk : Kept o <;> simp [hk, toObu]

theorem parseObus_low (us : List (SObu × List Byte)) (last : Option SObu) (hu : ∀ x ∈ us, x.1.ty < 16 ∧ IsLeb x.2 x.1.payload.length)
    (hl : ∀ o, last = some o → o.ty < 16) :
    parseObus (lowOverhead us last) = .ok (((us.map (·.1)).filter (fun o => Kept o)).map (toObu · true) ++
      ((last.toList).filter (fun o => Kept o)).map (toObu · false)) := by
  have key : ∀ (us : List (SObu × List Byte)) (fuel : Nat), us.length < fuel → (∀ x ∈ us, x.1.ty < 16 ∧ IsLeb x.2 x.1.payload.length) →
      parseObusGo fuel (lowOverhead us last) = .ok (((us.map (·.1)).filter (fun o => Kept o)).map (toObu · true) ++
      ((last.toList).filter (fun o => Kept o)).map (toObu · false)) := by
    intro us
    induction us with
    | nil =>
      intro fuel hf _
      obtain ⟨f, rfl⟩ : ∃ f, fuel = f + 1 := ⟨fuel - 1, by simp at hf; omega⟩
      cases last with
      | none => rfl
      | some o =>
        show parseObusGo (f + 1) (unsized o) = _
        rw [parseObusGo_unsized o (hl o rfl)]
        by_cases hk : Kept o <;> simp [hk]
    | cons x us ih =>
      intro fuel hf h
      obtain ⟨f, rfl⟩ : ∃ f, fuel = f + 1 := ⟨fuel - 1, by simp at hf; omega⟩
      obtain ⟨h1, h2⟩ := h x (by simp)
      have : lowOverhead (x :: us) last = sized x.1 x.2 ++ lowOverhead us last := by simp [lowOverhead, List.append_assoc]
      rw [this, parseObusGo_sized x.1 h1 h2, ih f (by simpa using hf) (fun y hy => h y (List.mem_cons_of_mem _ hy)), Res.bind_def, Res.bind_ok]
      by_cases hk : Kept x.1 <;> simp [hk]
  refine key us _ ?_ hu
  have : us.length ≤ (lowOverhead us last).length := by
    clear key hu
    unfold lowOverhead
    rw [List.length_append]
    induction us with
    | nil => simp
    | cons x us ih =>
      have : (sized x.1 x.2).length ≥ 1 := by simp [sized]
      simp only [List.map_cons, List.flatten_cons, List.length_append, List.length_cons] at ih ⊢
      omega
  omega

end Str0m.Av1
