import Verif.Model.Text
import Mathlib.Data.List.Basic

namespace Str0m.Text
open Str0m.StrId

/-! ### Numbers -/

theorem hexDigit_dec : ∀ d : Fin 10, digitVal 10 (hexDigit d.val) = some d.val := by decide +kernel
theorem hexDigit_hex : ∀ d : Fin 16, digitVal 16 (hexDigit d.val) = some d.val := by decide +kernel
theorem hexDigitU_hex : ∀ d : Fin 16, digitVal 16 (hexDigitU d.val) = some d.val := by decide +kernel

theorem digitsGo_append (b : Nat) (dig : Nat → Char) (fuel n : Nat) (acc : Str) :
    digitsGo b dig fuel n acc = digitsGo b dig fuel n [] ++ acc := by
  induction fuel generalizing n acc with
  | zero => simp [digitsGo]
  | succ k ih =>
    rw [digitsGo, digitsGo]
    split
    · rfl
    · rw [ih (n / b) (dig (n % b) :: acc), ih (n / b) [dig (n % b)]]; simp

theorem parseGo_append (b max a : Nat) (xs ys : Str) :
    parseGo b max a (xs ++ ys) = (parseGo b max a xs).bind (fun a' => parseGo b max a' ys) := by
  induction xs generalizing a with
  | nil => simp [parseGo]
  | cons x xs ih =>
    rw [List.cons_append, parseGo, parseGo]
    cases digitVal b x with
    | none => rfl
    | some d =>
      simp only
      split
      · exact ih _
      · rfl

theorem parseGo_digits (b max : Nat) (dig : Nat → Char) (hb : 2 ≤ b) (hd : ∀ d < b, digitVal b (dig d) = some d)
    (fuel n : Nat) (hf : n < fuel) (hn : n ≤ max) : parseGo b max 0 (digitsGo b dig fuel n []) = some n := by
  induction fuel generalizing n with
  | zero => omega
  | succ k ih =>
    rw [digitsGo]
    split
    · rename_i h
      simp [parseGo, hd n h, hn]
    · rename_i h
      have h0 : 0 < n := by omega
      have hlt : n / b < n := Nat.div_lt_self h0 (by omega)
      rw [digitsGo_append, parseGo_append, ih (n / b) (by omega) (by omega)]
      have hm : n / b * b + n % b = n := by rw [Nat.mul_comm]; exact Nat.div_add_mod n b
      simp [parseGo, hd _ (Nat.mod_lt n (by omega : 0 < b)), hm, hn]

theorem digitsGo_mem (b : Nat) (dig : Nat → Char) (hb : 2 ≤ b) (fuel n : Nat) (c : Char) (h : c ∈ digitsGo b dig fuel n []) :
    ∃ d < b, c = dig d := by
  induction fuel generalizing n with
  | zero => simp [digitsGo] at h
  | succ k ih =>
    rw [digitsGo] at h
    split at h
    · rename_i hn
      simp at h; exact ⟨n, hn, h⟩
    · rw [digitsGo_append] at h
      simp only [List.mem_append, List.mem_singleton] at h
      rcases h with h | h
      · exact ih _ h
      · exact ⟨_, Nat.mod_lt n (by omega), h⟩

theorem digitsGo_ne_nil (b : Nat) (dig : Nat → Char) (fuel n : Nat) : digitsGo b dig (fuel + 1) n [] ≠ [] := by
  rw [digitsGo]
  split
  · simp
  · rw [digitsGo_append]; simp

theorem dec_ne_nil (n : Nat) : dec n ≠ [] := digitsGo_ne_nil _ _ _ _
theorem hex_ne_nil (n : Nat) : hex n ≠ [] := digitsGo_ne_nil _ _ _ _

/-- A digit `0`–`9` -/
def IsDec (c : Char) : Prop := 48 ≤ c.toNat ∧ c.toNat ≤ 57

theorem hexDigit_isDec : ∀ d : Fin 10, 48 ≤ (hexDigit d.val).toNat ∧ (hexDigit d.val).toNat ≤ 57 := by decide +kernel

theorem dec_isDec (n : Nat) (c : Char) (h : c ∈ dec n) : IsDec c := by
  obtain ⟨d, hd, rfl⟩ := digitsGo_mem 10 hexDigit (by omega) _ _ c h
  exact hexDigit_isDec ⟨d, hd⟩

theorem IsDec.ne {c : Char} (h : IsDec c) (x : Char) (hx : x.toNat < 48 ∨ 57 < x.toNat) : c ≠ x := by
  rintro rfl; unfold IsDec at h; omega

theorem parseRadix_of_ne (b max : Nat) (s : Str) (h : s ≠ []) (hp : ∀ c ∈ s, c ≠ '+') : parseRadix b max s = parseGo b max 0 s := by
  cases s with
  | nil => exact absurd rfl h
  | cons c cs =>
    have hc : c ≠ '+' := hp c (by simp)
    unfold parseRadix
    split <;> simp_all

theorem parseNat_dec (max n : Nat) (h : n ≤ max) : parseNat max (dec n) = some n := by
  unfold parseNat
  rw [parseRadix_of_ne _ _ _ (dec_ne_nil n) (fun c hc => (dec_isDec n c hc).ne '+' (by decide))]
  exact parseGo_digits 10 max hexDigit (by omega) (fun d hd => hexDigit_dec ⟨d, hd⟩) _ _ (by omega) h

theorem hexDigit_ne_plus : ∀ d : Fin 16, hexDigit d.val ≠ '+' := by decide +kernel

theorem hex_mem (n : Nat) (c : Char) (h : c ∈ hex n) : ∃ d < 16, c = hexDigit d := digitsGo_mem 16 hexDigit (by omega) _ _ c h

theorem parseGo_zeros (b max k : Nat) (hb : 2 ≤ b) (h0 : digitVal b '0' = some 0) (s : Str) :
    parseGo b max 0 (List.replicate k '0' ++ s) = parseGo b max 0 s := by
  induction k with
  | zero => rfl
  | succ k ih => rw [List.replicate_succ, List.cons_append, parseGo, h0]; simpa using ih

theorem hexPad_mem (w n : Nat) (c : Char) (h : c ∈ hexPad w n) : ∃ d < 16, c = hexDigit d := by
  unfold hexPad at h
  rcases List.mem_append.1 h with h | h
  · exact ⟨0, by omega, by rw [List.eq_of_mem_replicate h]; decide⟩
  · exact hex_mem n c h

theorem hexPad_ne_nil (w n : Nat) : hexPad w n ≠ [] := by
  unfold hexPad
  have := hex_ne_nil n
  simp [this]

theorem parseRadix_hexPad (w max n : Nat) (h : n ≤ max) : parseRadix 16 max (hexPad w n) = some n := by
  rw [parseRadix_of_ne _ _ _ (hexPad_ne_nil w n)]
  · unfold hexPad
    rw [parseGo_zeros _ _ _ (by omega) (by decide)]
    exact parseGo_digits 16 max hexDigit (by omega) (fun d hd => hexDigit_hex ⟨d, hd⟩) _ _ (by omega) h
  · intro c hc
    obtain ⟨d, hd, rfl⟩ := hexPad_mem w n c hc
    exact hexDigit_ne_plus ⟨d, hd⟩

/-! ### Parsers -/

/-- `p` reads `v` from the input and leaves `r` -/
def Reads (p : P α) (i : Str) (v : α) (r : Str) : Prop := ∃ c, p i = .ok v r c

/-- `p` fails, committed or not -/
def Errs (p : P α) (i : Str) : Prop := ∃ c, p i = .err c

/-- `p` fails and leaves the input for another -/
def Fails (p : P α) (i : Str) : Prop := p i = .err false

theorem Fails.errs {p : P α} (h : Fails p i) : Errs p i := ⟨_, h⟩

theorem Reads.ret (v : α) (i : Str) : Reads (ret v) i v i := ⟨_, rfl⟩

theorem Reads.then {p : P α} {f : α → P β} (h : Reads p i v r) (h2 : Reads (f v) r w r') : Reads (thenP p f) i w r' := by
  obtain ⟨c, h⟩ := h
  obtain ⟨c', h2⟩ := h2
  exact ⟨c || c', by simp only [thenP, h, h2]⟩

theorem Reads.pmap {p : P α} (f : α → β) (h : Reads p i v r) : Reads (pmap f p) i (f v) r := h.then (Reads.ret _ _)

theorem Reads.andThen {p : P α} {f : α → Option β} (h : Reads p i v r) (hf : f v = some w) : Reads (andThen p f) i w r := by
  obtain ⟨c, h⟩ := h
  exact ⟨c, by simp only [Text.andThen, h, hf]⟩

theorem Reads.attempt {p : P α} (h : Reads p i v r) : Reads (attempt p) i v r := by
  obtain ⟨c, h⟩ := h
  exact ⟨c, by simp only [Text.attempt, h]⟩

theorem Reads.head {p : P α} (ps : List (P α)) (h : Reads p i v r) : Reads (choice (p :: ps)) i v r := by
  obtain ⟨c, h⟩ := h
  exact ⟨c, by simp only [choice, h]⟩

theorem Reads.tail {p : P α} {ps : List (P α)} (hf : Fails p i) (h : Reads (choice ps) i v r) : Reads (choice (p :: ps)) i v r := by
  obtain ⟨c, h⟩ := h
  exact ⟨c, by simp only [choice, show p i = .err false from hf, h]⟩

theorem Fails.choice_nil (i : Str) : Fails (choice ([] : List (P α))) i := rfl

theorem Fails.choice_cons {p : P α} {ps : List (P α)} (hf : Fails p i) (h : Fails (choice ps) i) : Fails (choice (p :: ps)) i := by
  simp only [Fails, choice, show p i = .err false from hf, show choice ps i = .err false from h]

theorem Fails.choice_all {ps : List (P α)} (h : ∀ p ∈ ps, Fails p i) : Fails (choice ps) i := by
  induction ps with
  | nil => exact Fails.choice_nil i
  | cons p ps ih => exact Fails.choice_cons (h p (by simp)) (ih (fun q hq => h q (by simp [hq])))

theorem Errs.attempt {p : P α} (h : Errs p i) : Fails (attempt p) i := by
  obtain ⟨c, h⟩ := h
  simp only [Fails, Text.attempt, h]

theorem Errs.then {p : P α} {f : α → P β} (h : Errs p i) : Errs (thenP p f) i := by
  obtain ⟨c, h⟩ := h
  exact ⟨c, by simp only [thenP, h]⟩

theorem Reads.thenErrs {p : P α} {f : α → P β} (h : Reads p i v r) (h2 : Errs (f v) r) : Errs (thenP p f) i := by
  obtain ⟨c, h⟩ := h
  obtain ⟨c', h2⟩ := h2
  exact ⟨c || c', by simp only [thenP, h, h2]⟩

theorem Fails.then {p : P α} {f : α → P β} (h : Fails p i) : Fails (thenP p f) i := by
  simp only [Fails, thenP, show p i = .err false from h]

theorem Fails.pmap {p : P α} (f : α → β) (h : Fails p i) : Fails (pmap f p) i := h.then
theorem Errs.pmap {p : P α} (f : α → β) (h : Errs p i) : Errs (pmap f p) i := h.then

theorem Errs.andThen {p : P α} {f : α → Option β} (h : Errs p i) : Errs (andThen p f) i := by
  obtain ⟨c, h⟩ := h
  exact ⟨c, by simp only [Text.andThen, h]⟩

theorem Fails.andThen {p : P α} {f : α → Option β} (h : Fails p i) : Fails (andThen p f) i := by
  simp only [Fails, Text.andThen, show p i = .err false from h]

theorem Reads.optSome {p : P α} (h : Reads p i v r) : Reads (opt p) i (some v) r := by
  obtain ⟨c, h⟩ := h
  exact ⟨c, by simp only [opt, h]⟩

theorem Reads.optNone {p : P α} (h : Fails p i) : Reads (opt p) i none i := ⟨false, by simp only [opt, show p i = .err false from h]⟩

theorem manyGo_nil {p : P α} (h : Fails p i) (fuel : Nat) : Reads (manyGo p fuel) i [] i := by
  cases fuel with
  | zero => exact ⟨_, rfl⟩
  | succ k => exact ⟨false, by simp only [manyGo, show p i = .err false from h]⟩

theorem manyGo_cons {p : P α} (h : Reads p i v r) (h2 : Reads (manyGo p fuel) r vs r') : Reads (manyGo p (fuel + 1)) i (v :: vs) r' := by
  obtain ⟨c, h⟩ := h
  obtain ⟨c', h2⟩ := h2
  exact ⟨c || c', by simp only [manyGo, h, h2]⟩

/-- A list of texts, each read by `p` whatever the later ones and `r` are, then `r`, on which `p` fails -/
theorem manyGo_chain {p : P α} (items : List (Str × α)) (r : Str) (hr : Fails p r)
    (h : ∀ k, ∀ x ∈ items[k]?, Reads p (x.1 ++ (((items.drop (k + 1)).map (·.1)).flatten ++ r)) x.2 (((items.drop (k + 1)).map (·.1)).flatten ++ r))
    (fuel : Nat) (hf : items.length ≤ fuel) : Reads (manyGo p fuel) ((items.map (·.1)).flatten ++ r) (items.map (·.2)) r := by
  induction items generalizing fuel with
  | nil => exact manyGo_nil hr fuel
  | cons x xs ih =>
    cases fuel with
    | zero => simp at hf
    | succ k =>
      have h0 := h 0 x (by simp)
      simp only [List.drop_succ_cons, List.drop_zero, Nat.zero_add] at h0
      rw [List.map_cons, List.flatten_cons, List.map_cons, List.append_assoc]
      refine manyGo_cons h0 (ih (fun j y hy => ?_) k (by simpa using hf))
      have := h (j + 1) y (by simpa using hy)
      simpa using this

theorem many_chain {p : P α} (items : List (Str × α)) (r : Str) (hr : Fails p r)
    (h : ∀ k, ∀ x ∈ items[k]?, Reads p (x.1 ++ (((items.drop (k + 1)).map (·.1)).flatten ++ r)) x.2 (((items.drop (k + 1)).map (·.1)).flatten ++ r))
    (hne : ∀ x ∈ items, x.1 ≠ []) : Reads (many p) ((items.map (·.1)).flatten ++ r) (items.map (·.2)) r := by
  refine manyGo_chain items r hr h _ ?_
  have : items.length ≤ ((items.map (·.1)).flatten).length := by
    clear h
    induction items with
    | nil => simp
    | cons x xs ih =>
      have h1 := ih (fun y hy => hne y (by simp [hy]))
      have h2 := List.length_pos_iff.2 (hne x (by simp))
      simp only [List.map_cons, List.flatten_cons, List.length_append, List.length_cons]
      omega
  rw [List.length_append]; omega

/-- When every text is read whatever follows -/
theorem many_free {p : P α} (items : List (Str × α)) (r : Str) (hr : Fails p r) (h : ∀ x ∈ items, ∀ r', Reads p (x.1 ++ r') x.2 r')
    (hne : ∀ x ∈ items, x.1 ≠ []) : Reads (many p) ((items.map (·.1)).flatten ++ r) (items.map (·.2)) r :=
  many_chain items r hr (fun k x hx => h x (List.mem_of_getElem? hx) _) hne

/-! ### Texts -/

/-- `r` does not begin with a character that satisfies `f` -/
def Stops (f : Char → Bool) (r : Str) : Prop := ∀ c ∈ r.head?, f c = false

theorem Stops.nil (f : Char → Bool) : Stops f [] := by simp [Stops]
theorem Stops.cons {f : Char → Bool} {c : Char} {r : Str} (h : f c = false) : Stops f (c :: r) := by simp [Stops, h]

theorem takeWhile_stops {f : Char → Bool} {t r : Str} (ht : ∀ c ∈ t, f c = true) (hr : Stops f r) : (t ++ r).takeWhile f = t := by
  induction t with
  | nil =>
    cases r with
    | nil => rfl
    | cons c r => simp [hr c (by simp)]
  | cons c t ih =>
    rw [List.cons_append, List.takeWhile_cons_of_pos (ht c (by simp)), ih (fun x hx => ht x (by simp [hx]))]

theorem dropWhile_stops {f : Char → Bool} {t r : Str} (ht : ∀ c ∈ t, f c = true) (hr : Stops f r) : (t ++ r).dropWhile f = r := by
  induction t with
  | nil =>
    cases r with
    | nil => rfl
    | cons c r => simp [hr c (by simp)]
  | cons c t ih =>
    rw [List.cons_append, List.dropWhile_cons_of_pos (ht c (by simp)), ih (fun x hx => ht x (by simp [hx]))]

theorem Reads.many1c {f : Char → Bool} {t r : Str} (hne : t ≠ []) (ht : ∀ c ∈ t, f c = true) (hr : Stops f r) :
    Reads (many1c f) (t ++ r) t r := by
  refine ⟨true, ?_⟩
  unfold Text.many1c
  rw [takeWhile_stops ht hr, dropWhile_stops ht hr]
  cases t with
  | nil => exact absurd rfl hne
  | cons => rfl

theorem Fails.many1c {f : Char → Bool} {r : Str} (hr : Stops f r) : Fails (many1c f) r := by
  have : r.takeWhile f = [] := by simpa using takeWhile_stops (t := []) (by simp) hr
  simp [Fails, Text.many1c, this]

theorem Reads.stringGo (s r : Str) (b : Bool) : Reads (stringGo s b) (s ++ r) () r := by
  induction s generalizing b with
  | nil => exact ⟨_, rfl⟩
  | cons c s ih =>
    obtain ⟨c', h⟩ := ih true
    exact ⟨c', by simpa [Text.stringGo] using h⟩

theorem Reads.string (s r : Str) : Reads (string s) (s ++ r) () r := Reads.stringGo s r false

theorem Reads.token (t : Char) (r : Str) : Reads (token t) (t :: r) t r := ⟨true, by simp [Text.token, satisfy]⟩

theorem Fails.token {t : Char} {r : Str} (h : Stops (fun c => c == t) r) : Fails (token t) r := by
  cases r with
  | nil => rfl
  | cons c r =>
    have := h c (by simp)
    simp [Fails, Text.token, satisfy, this]

theorem Errs.stringGo {s i : Str} (h : ¬ s <+: i) (b : Bool) : Errs (stringGo s b) i := by
  induction s generalizing i b with
  | nil => simp at h
  | cons c s ih =>
    cases i with
    | nil => exact ⟨_, rfl⟩
    | cons x i =>
      by_cases hx : x = c
      · subst hx
        have h' : ¬ s <+: i := fun hp => h (by simpa using hp)
        obtain ⟨c', h2⟩ := ih h' true
        exact ⟨c', by simpa [Text.stringGo] using h2⟩
      · exact ⟨b, by simp [Text.stringGo, hx]⟩

theorem Errs.string {s i : Str} (h : ¬ s <+: i) : Errs (string s) i := Errs.stringGo h false

end Str0m.Text
