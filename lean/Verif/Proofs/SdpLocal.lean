import Verif.Proofs.SdpDesc

/-!
Proofs for C76: a parser that does not look beyond the end of its line.
-/

namespace Str0m.Sdp
open Str0m.Text Str0m.StrId Str0m.Profiles Str0m.Pts
open Str0m.Negotiate (Dir Setup)

/-- A text without line ends -/
def OneLine (s : Str) : Prop := ∀ c ∈ s, c ≠ '\r' ∧ c ≠ '\n'

theorem OneLine.suffix {s s' : Str} (h : OneLine s) (hs : s' <:+ s) : OneLine s' := fun c hc => h c (hs.subset hc)

/-- On `s` up to the end of the line the parser does the same whatever comes after the line, and leaves a part of `s` -/
def At (p : P α) (s : Str) : Prop :=
  (∃ v s' c, s' <:+ s ∧ ∀ r, p (s ++ '\r' :: r) = .ok v (s' ++ '\r' :: r) c) ∨ ∃ c, ∀ r, p (s ++ '\r' :: r) = .err c

/-- On every line -/
def Loc (p : P α) : Prop := ∀ s, OneLine s → At p s

theorem Loc.ret (v : α) : Loc (ret v) := fun s _ => Or.inl ⟨v, s, false, List.suffix_refl _, fun _ => rfl⟩

theorem At.then {p : P α} {f : α → P β} {s : Str} (h : At p s)
    (h2 : ∀ v s' c, s' <:+ s → (∀ r, p (s ++ '\r' :: r) = .ok v (s' ++ '\r' :: r) c) → At (f v) s') : At (thenP p f) s := by
  rcases h with ⟨v, s', c, hs, hp⟩ | ⟨c, hp⟩
  · rcases h2 v s' c hs hp with ⟨w, s'', c', hs', hq⟩ | ⟨c', hq⟩
    · exact Or.inl ⟨w, s'', c || c', hs'.trans hs, fun r => by simp only [thenP, hp r, hq r]⟩
    · exact Or.inr ⟨c || c', fun r => by simp only [thenP, hp r, hq r]⟩
  · exact Or.inr ⟨c, fun r => by simp only [thenP, hp r]⟩

theorem Loc.then {p : P α} {f : α → P β} (h : Loc p) (h2 : ∀ v, Loc (f v)) : Loc (thenP p f) :=
  fun s hs => (h s hs).then (fun v s' _ hs' _ => h2 v s' (hs.suffix hs'))

theorem At.pmap {p : P α} {f : α → β} {s : Str} (h : At p s) : At (pmap f p) s := h.then (fun v s' _ _ _ => Or.inl ⟨f v, s', false, List.suffix_refl _, fun _ => rfl⟩)
theorem Loc.pmap {p : P α} {f : α → β} (h : Loc p) : Loc (pmap f p) := fun s hs => (h s hs).pmap

theorem At.andThen {p : P α} {f : α → Option β} {s : Str} (h : At p s) : At (andThen p f) s := by
  rcases h with ⟨v, s', c, hs, hp⟩ | ⟨c, hp⟩
  · cases hf : f v with
    | none => exact Or.inr ⟨c, fun r => by simp only [Text.andThen, hp r, hf]⟩
    | some w => exact Or.inl ⟨w, s', c, hs, fun r => by simp only [Text.andThen, hp r, hf]⟩
  · exact Or.inr ⟨c, fun r => by simp only [Text.andThen, hp r]⟩
theorem Loc.andThen {p : P α} {f : α → Option β} (h : Loc p) : Loc (andThen p f) := fun s hs => (h s hs).andThen

theorem At.attempt {p : P α} {s : Str} (h : At p s) : At (attempt p) s := by
  rcases h with ⟨v, s', c, hs, hp⟩ | ⟨c, hp⟩
  · exact Or.inl ⟨v, s', c, hs, fun r => by simp only [Text.attempt, hp r]⟩
  · exact Or.inr ⟨false, fun r => by simp only [Text.attempt, hp r]⟩
theorem Loc.attempt {p : P α} (h : Loc p) : Loc (attempt p) := fun s hs => (h s hs).attempt

theorem At.choice_cons {p : P α} {ps : List (P α)} {s : Str} (h : At p s) (h2 : At (choice ps) s) : At (choice (p :: ps)) s := by
  rcases h with ⟨v, s', c, hs, hp⟩ | ⟨c, hp⟩
  · exact Or.inl ⟨v, s', c, hs, fun r => by simp only [choice, hp r]⟩
  · cases c with
    | true => exact Or.inr ⟨true, fun r => by simp only [choice, hp r]⟩
    | false =>
      rcases h2 with ⟨v, s', c, hs, hq⟩ | ⟨c, hq⟩
      · exact Or.inl ⟨v, s', c, hs, fun r => by simp only [choice, hp r, hq r]⟩
      · exact Or.inr ⟨c, fun r => by simp only [choice, hp r, hq r]⟩

theorem Loc.choice {ps : List (P α)} (h : ∀ p ∈ ps, Loc p) : Loc (choice ps) := by
  intro s hs
  induction ps with
  | nil => exact Or.inr ⟨false, fun _ => rfl⟩
  | cons p ps ih => exact (h p (by simp) s hs).choice_cons (ih (fun q hq => h q (by simp [hq])))

theorem At.opt {p : P α} {s : Str} (h : At p s) : At (opt p) s := by
  rcases h with ⟨v, s', c, hs, hp⟩ | ⟨c, hp⟩
  · exact Or.inl ⟨some v, s', c, hs, fun r => by simp only [Text.opt, hp r]⟩
  · cases c with
    | true => exact Or.inr ⟨true, fun r => by simp only [Text.opt, hp r]⟩
    | false => exact Or.inl ⟨none, s, false, List.suffix_refl _, fun r => by simp only [Text.opt, hp r]⟩
theorem Loc.opt {p : P α} (h : Loc p) : Loc (opt p) := fun s hs => (h s hs).opt

theorem Loc.satisfy {f : Char → Bool} (hf : f '\r' = false) : Loc (satisfy f) := by
  intro s _
  cases s with
  | nil => exact Or.inr ⟨false, fun r => by simp [Text.satisfy, hf]⟩
  | cons c s =>
    by_cases h : f c = true
    · exact Or.inl ⟨c, s, true, List.suffix_cons _ _, fun r => by simp [Text.satisfy, h]⟩
    · exact Or.inr ⟨false, fun r => by simp [Text.satisfy, h]⟩

theorem Loc.token {t : Char} (h : t ≠ '\r') : Loc (token t) := Loc.satisfy (by simpa using h.symm)

theorem Loc.stringGo {k : Str} (hk : '\r' ∉ k) (c : Bool) : Loc (stringGo k c) := by
  induction k generalizing c with
  | nil => exact fun s _ => Or.inl ⟨(), s, c, List.suffix_refl _, fun _ => rfl⟩
  | cons t ts ih =>
    intro s hs
    have ht : ('\r' == t) = false := by
      rw [beq_eq_false_iff_ne]; rintro rfl; simp at hk
    cases s with
    | nil => exact Or.inr ⟨c, fun r => by simp [Text.stringGo, ht]⟩
    | cons x s =>
      by_cases h : (x == t) = true
      · rcases ih (fun hm => hk (by simp [hm])) true s (hs.suffix (List.suffix_cons _ _)) with ⟨v, s', c', hs', hp⟩ | ⟨c', hp⟩
        · exact Or.inl ⟨v, s', c', hs'.trans (List.suffix_cons _ _), fun r => by simp only [List.cons_append, Text.stringGo, h, if_true, hp r]⟩
        · exact Or.inr ⟨c', fun r => by simp only [List.cons_append, Text.stringGo, h, if_true, hp r]⟩
      · exact Or.inr ⟨c, fun r => by simp [Text.stringGo, h]⟩

theorem Loc.string {k : Str} (hk : '\r' ∉ k) : Loc (string k) := Loc.stringGo hk false

theorem takeWhile_at {f : Char → Bool} (s r : Str) (hf : f '\r' = false) : (s ++ '\r' :: r).takeWhile f = s.takeWhile f := by
  induction s with
  | nil => simp [hf]
  | cons c s ih => by_cases h : f c = true <;> simp [h, ih]

theorem dropWhile_at {f : Char → Bool} (s r : Str) (hf : f '\r' = false) : (s ++ '\r' :: r).dropWhile f = s.dropWhile f ++ '\r' :: r := by
  induction s with
  | nil => simp [hf]
  | cons c s ih => by_cases h : f c = true <;> simp [h, ih]

theorem Loc.many1c {f : Char → Bool} (hf : f '\r' = false) : Loc (many1c f) := by
  intro s _
  cases h : s.takeWhile f with
  | nil => exact Or.inr ⟨false, fun r => by simp [Text.many1c, takeWhile_at s r hf, h]⟩
  | cons c cs => exact Or.inl ⟨c :: cs, s.dropWhile f, true, List.dropWhile_suffix _, fun r => by simp [Text.many1c, takeWhile_at s r hf, dropWhile_at s r hf, h]⟩

theorem At.token_then {t : Char} {p : P α} {s : Str} (ht : t ≠ '\r') (h : ∀ u, s = t :: u → At p u) : At (thenP (token t) fun _ => p) s := by
  cases s with
  | nil =>
    have : ('\r' == t) = false := by simpa using ht.symm
    exact Or.inr ⟨false, fun r => by simp [thenP, token, Text.satisfy, this]⟩
  | cons x u =>
    by_cases hx : x = t
    · subst hx
      rcases h u rfl with ⟨v, s', c, hs, hp⟩ | ⟨c, hp⟩
      · exact Or.inl ⟨v, s', true || c, hs.trans (List.suffix_cons _ _), fun r => by simp [thenP, token, Text.satisfy, hp r]⟩
      · exact Or.inr ⟨true || c, fun r => by simp [thenP, token, Text.satisfy, hp r]⟩
    · exact Or.inr ⟨false, fun r => by simp [thenP, token, Text.satisfy, hx]⟩

/-- A parser after a character consumes at least that -/
theorem token_then_shorter {t : Char} {p : P α} {s s' : Str} {v : α} {c : Bool} (hp : ∀ u, s = t :: u → At p u) (ht : t ≠ '\r')
    (h : ∀ r, thenP (token t) (fun _ => p) (s ++ '\r' :: r) = .ok v (s' ++ '\r' :: r) c) : s'.length < s.length := by
  cases s with
  | nil =>
    have : ('\r' == t) = false := by simpa using ht.symm
    have := h []
    simp [thenP, token, Text.satisfy, *] at this
  | cons x s =>
    have h0 := h []
    by_cases hx : x = t
    · subst hx
      simp only [List.cons_append, thenP, token, Text.satisfy, beq_self_eq_true, if_true] at h0
      rcases hp s rfl with ⟨w, s'', c', hs'', hq⟩ | ⟨c', hq⟩
      · rw [hq []] at h0
        simp only [PR.ok.injEq] at h0
        have := congrArg List.length h0.2.1
        simp at this
        have := hs''.length_le
        simp; omega
      · rw [hq []] at h0; cases h0
    · simp [thenP, token, Text.satisfy, hx] at h0

/-- The rounds of `many`, when there are enough of them -/
theorem At.manyGo {p : P α} (Q : Str → Prop) (hQ : ∀ s s', s' <:+ s → Q s → Q s') (hp : ∀ s, Q s → At p s)
    (hsh : ∀ s s' v c, Q s → (∀ r, p (s ++ '\r' :: r) = .ok v (s' ++ '\r' :: r) c) → s'.length < s.length) (n : Nat) :
    ∀ s, Q s → s.length ≤ n → (∃ vs s' c, s' <:+ s ∧ ∀ fuel, s.length < fuel → ∀ r, manyGo p fuel (s ++ '\r' :: r) = .ok vs (s' ++ '\r' :: r) c) ∨
      ∃ c, ∀ fuel, s.length < fuel → ∀ r, manyGo p fuel (s ++ '\r' :: r) = .err c := by
  induction n with
  | zero =>
    intro s hs hn
    rcases hp s hs with ⟨v, s', c, h1, h2⟩ | ⟨c, h2⟩
    · have := hsh s s' v c hs h2; omega
    · cases c with
      | true =>
        refine Or.inr ⟨true, fun fuel hf r => ?_⟩
        cases fuel with
        | zero => omega
        | succ k => simp only [Text.manyGo, h2 r]
      | false =>
        refine Or.inl ⟨[], s, false, List.suffix_refl _, fun fuel hf r => ?_⟩
        cases fuel with
        | zero => omega
        | succ k => simp only [Text.manyGo, h2 r]
  | succ n ih =>
    intro s hs hn
    rcases hp s hs with ⟨v, s', c, h1, h2⟩ | ⟨c, h2⟩
    · have hl := hsh s s' v c hs h2
      rcases ih s' (hQ s s' h1 hs) (by omega) with ⟨vs, s'', c', h3, h4⟩ | ⟨c', h4⟩
      · refine Or.inl ⟨v :: vs, s'', c || c', h3.trans h1, fun fuel hf r => ?_⟩
        cases fuel with
        | zero => omega
        | succ k => simp only [Text.manyGo, h2 r, h4 k (by omega) r]
      · refine Or.inr ⟨c || c', fun fuel hf r => ?_⟩
        cases fuel with
        | zero => omega
        | succ k => simp only [Text.manyGo, h2 r, h4 k (by omega) r]
    · cases c with
      | true =>
        refine Or.inr ⟨true, fun fuel hf r => ?_⟩
        cases fuel with
        | zero => omega
        | succ k => simp only [Text.manyGo, h2 r]
      | false =>
        refine Or.inl ⟨[], s, false, List.suffix_refl _, fun fuel hf r => ?_⟩
        cases fuel with
        | zero => omega
        | succ k => simp only [Text.manyGo, h2 r]

theorem At.many {p : P α} {s : Str}
    (h : (∃ vs s' c, s' <:+ s ∧ ∀ fuel, s.length < fuel → ∀ r, Text.manyGo p fuel (s ++ '\r' :: r) = .ok vs (s' ++ '\r' :: r) c) ∨
      ∃ c, ∀ fuel, s.length < fuel → ∀ r, Text.manyGo p fuel (s ++ '\r' :: r) = .err c) : At (many p) s := by
  rcases h with ⟨vs, s', c, h1, h2⟩ | ⟨c, h2⟩
  · exact Or.inl ⟨vs, s', c, h1, fun r => h2 _ (by simp; omega) r⟩
  · exact Or.inr ⟨c, fun r => h2 _ (by simp; omega) r⟩

theorem Loc.sepBy1 {p : P α} {t : Char} (hp : Loc p) (ht : t ≠ '\r') : Loc (sepBy1 p (Text.token t)) := by
  refine hp.then (fun v => ?_)
  refine Loc.then ?_ (fun _ => Loc.ret _)
  intro s hs
  have h1 : Loc (thenP (Text.token t) fun _ => p) := (Loc.token ht).then (fun _ => hp)
  exact At.many (At.manyGo OneLine (fun _ _ h hs => hs.suffix h) h1
    (fun s s' v c hs h => token_then_shorter (fun u hu => hp u (hs.suffix (by rw [hu]; exact List.suffix_cons _ _))) ht h) s.length s hs (Nat.le_refl _))

theorem Loc.sepBy {p : P α} {t : Char} (hp : Loc p) (ht : t ≠ '\r') : Loc (sepBy p (Text.token t)) := (Loc.sepBy1 hp ht).opt.pmap

/-! ### Lines -/

/-- On the attribute line `a=v` the parser either takes exactly the line, always as the same, or leaves it -/
def Line (p : P α) (v : Str) : Prop :=
  (∃ x, ∀ r, Reads p ('a' :: '=' :: (v ++ (nl ++ r))) x r) ∨ ∀ r, Fails p ('a' :: '=' :: (v ++ (nl ++ r)))

theorem lineEnd_at {s : Str} (hs : OneLine s) : (s = [] ∧ ∀ r, Reads lineEnd (s ++ (nl ++ r)) () r) ∨ ∀ r, Errs lineEnd (s ++ (nl ++ r)) := by
  cases s with
  | nil => exact Or.inl ⟨rfl, fun r => lineEnd_reads r⟩
  | cons c s =>
    refine Or.inr (fun r => ?_)
    obtain ⟨h1, h2⟩ := hs c (by simp)
    exact Fails.errs (by simp [Fails, lineEnd, choice, crlf, thenP, token, Text.satisfy, h1, h2, Text.pmap, eof])

theorem typedLine_line {val : P α} {v : Str} (hv : OneLine v) (h : At val v) : Line (typedLine 'a' val) v := by
  rcases h with ⟨x, s', c, hs, hp⟩ | ⟨c, hp⟩
  · have hr : ∀ r, Reads val (v ++ (nl ++ r)) x (s' ++ (nl ++ r)) := fun r => ⟨c, hp _⟩
    rcases lineEnd_at (hv.suffix hs) with ⟨rfl, hl⟩ | hl
    · exact Or.inl ⟨x, fun r => typedLine_reads (hr r)⟩
    · refine Or.inr (fun r => Errs.attempt ?_)
      exact (Reads.token 'a' _).thenErrs ((Reads.token '=' _).thenErrs ((hr r).thenErrs (Errs.then (hl r))))
  · refine Or.inr (fun r => Errs.attempt ?_)
    exact (Reads.token 'a' _).thenErrs ((Reads.token '=' _).thenErrs (Errs.then ⟨c, hp _⟩))

theorem Line.pmap {p : P α} {f : α → β} {v : Str} (h : Line p v) : Line (pmap f p) v := by
  rcases h with ⟨x, h⟩ | h
  · exact Or.inl ⟨f x, fun r => (h r).pmap f⟩
  · exact Or.inr (fun r => (h r).pmap f)

theorem Line.attempt {p : P α} {v : Str} (h : Line p v) : Line (attempt p) v := by
  rcases h with ⟨x, h⟩ | h
  · exact Or.inl ⟨x, fun r => (h r).attempt⟩
  · exact Or.inr (fun r => (h r).errs.attempt)

theorem Line.choice {ps : List (P α)} {v : Str} (h : ∀ p ∈ ps, Line p v) : Line (choice ps) v := by
  induction ps with
  | nil => exact Or.inr (fun _ => rfl)
  | cons p ps ih =>
    rcases h p (by simp) with ⟨x, hp⟩ | hp
    · exact Or.inl ⟨x, fun r => Reads.head _ (hp r)⟩
    · rcases ih (fun q hq => h q (by simp [hq])) with ⟨x, hq⟩ | hq
      · exact Or.inl ⟨x, fun r => Reads.tail (hp r) (hq r)⟩
      · exact Or.inr (fun r => Fails.choice_cons (hp r) (hq r))

theorem attempt_fails {p : P α} {i : Str} (h : Errs (Text.attempt p) i) : Fails (Text.attempt p) i := by
  obtain ⟨c, h⟩ := h
  unfold Text.attempt at h ⊢
  unfold Fails
  cases hp : p i with
  | ok v r c => rw [hp] at h; cases h
  | err c => simp only [hp]

theorem attrLine_at {k : Str} {val : P α} {v : Str} (hv : OneLine v) (hk : '\r' ∉ k) (h : ∀ w, v = k ++ ':' :: w → At val w) : Line (attrLine k val) v := by
  by_cases hp : (k ++ c!":") <+: v
  · obtain ⟨w, hw⟩ := hp
    have hw : v = k ++ ':' :: w := by simpa using hw.symm
    refine typedLine_line hv ?_
    subst hw
    rcases h w rfl with ⟨x, s', c, hs, hp⟩ | ⟨c, hp⟩
    · have : ∀ r, ∃ c', (thenP (string k) fun _ => thenP (token ':') fun _ => val) ((k ++ ':' :: w) ++ '\r' :: r) = .ok x (s' ++ '\r' :: r) c' := by
        intro r
        rw [List.append_assoc]
        exact (Reads.string k _).then ((Reads.token ':' _).then ⟨c, hp r⟩)
      rcases (Loc.string hk (k ++ ':' :: w) hv) with ⟨u, t, c1, ht, hq⟩ | ⟨c1, hq⟩
      · have e : ∀ r, t ++ '\r' :: r = (':' :: w) ++ '\r' :: r := by
          intro r
          obtain ⟨c2, h2⟩ := Reads.string k ((':' :: w) ++ '\r' :: r)
          have := hq r
          rw [List.append_assoc, h2] at this
          simp only [PR.ok.injEq] at this
          exact this.2.1.symm
        have e : t = ':' :: w := List.append_cancel_right (e [])
        subst e
        refine Or.inl ⟨x, s', c1 || (true || c), hs.trans ((List.suffix_cons _ _).trans ht), fun r => ?_⟩
        have h3 := hq r
        unfold thenP
        rw [h3]
        simp only [List.cons_append, token, Text.satisfy, beq_self_eq_true, if_true, hp r]
      · obtain ⟨c2, h2⟩ := Reads.string k ((':' :: w) ++ '\r' :: [])
        have := hq []
        rw [List.append_assoc, h2] at this
        cases this
    · refine (Loc.string hk _ hv).then ?_
      intro u t c1 ht hq
      have e : ∀ r, t ++ '\r' :: r = (':' :: w) ++ '\r' :: r := by
        intro r
        obtain ⟨c2, h2⟩ := Reads.string k ((':' :: w) ++ '\r' :: r)
        have := hq r
        rw [List.append_assoc, h2] at this
        simp only [PR.ok.injEq] at this
        exact this.2.1.symm
      have e : t = ':' :: w := List.append_cancel_right (e [])
      subst e
      refine Or.inr ⟨true, fun r => ?_⟩
      simp [thenP, token, Text.satisfy, hp r]
  · exact Or.inr (fun r => attempt_fails (keyed_errs (val := val) (r := r) hp hk))

theorem attrLine_loc {k : Str} {val : P α} {v : Str} (hv : OneLine v) (hk : '\r' ∉ k) (h : Loc val) : Line (attrLine k val) v :=
  attrLine_at hv hk (fun w hw => h w (hv.suffix (by rw [hw]; exact ⟨k ++ [':'], by simp⟩)))

theorem attrFlag_loc {k : Str} {v : Str} (hv : OneLine v) (hk : '\r' ∉ k) : Line (attrFlag k) v := typedLine_line hv (Loc.string hk v hv)

/-! ### The values -/

theorem loc_notSp : Loc notSp := Loc.many1c (by decide)
theorem loc_any : Loc anyValue := Loc.many1c (by decide)
theorem loc_num (max : Nat) : Loc (numTok max) := loc_notSp.andThen
theorem loc_pt : Loc ptP := loc_notSp.andThen
theorem loc_name {env : Env Ip} (henv : EnvOk env) : Loc (name env) := Loc.many1c (henv.alnum '\r' (by simp))

theorem parseGo_cr (b max a : Nat) (hb : digitVal b '\r' = none) (s r : Str) : parseGo b max a (s ++ '\r' :: r) = none := by
  induction s generalizing a with
  | nil => simp [parseGo, hb]
  | cons c s ih =>
    simp only [List.cons_append, parseGo]
    cases digitVal b c with
    | none => rfl
    | some d =>
      simp only
      split
      · exact ih _
      · rfl

theorem parseNat_cr (max : Nat) (s r : Str) : parseNat max (s ++ '\r' :: r) = none := by
  unfold parseNat parseRadix
  split
  · rfl
  · rfl
  · rename_i cs h1 h2
    cases s with
    | nil => simp at h2
    | cons c s =>
      simp only [List.cons_append, List.cons.injEq] at h2
      rw [← h2.2]
      exact parseGo_cr 10 max 0 (by decide) s r
  · exact parseGo_cr 10 max 0 (by decide) s r

theorem while_stop (s t : Str) (f : Char → Bool) (h : ∃ c ∈ s, f c = false) :
    (s ++ t).takeWhile f = s.takeWhile f ∧ (s ++ t).dropWhile f = s.dropWhile f ++ t := by
  induction s with
  | nil => simp at h
  | cons x s ih =>
    by_cases hx : f x = true
    · obtain ⟨c, hc, hc2⟩ := h
      have hc : c ∈ s := by
        rcases List.mem_cons.1 hc with rfl | hc
        · rw [hx] at hc2; cases hc2
        · exact hc
      obtain ⟨h1, h2⟩ := ih ⟨c, hc, hc2⟩
      simp [hx, h1, h2]
    · simp [hx]

theorem while_over (s t : Str) (f : Char → Bool) (h : ∀ c ∈ s, f c = true) : (s ++ t).takeWhile f = s ++ t.takeWhile f := by
  induction s with
  | nil => rfl
  | cons x s ih => simp [h x (by simp), ih (fun c hc => h c (by simp [hc]))]

/-- The id of an extmap, whose token runs over the end of the line: then it is no number -/
theorem loc_extId : Loc (andThen (many1c (fun c => c != '/' && c != ' ')) (parseNat 255)) := by
  intro s hs
  by_cases h : ∃ c ∈ s, (c != '/' && c != ' ') = false
  · have key := fun r : Str => while_stop s ('\r' :: r) (fun c => c != '/' && c != ' ') h
    refine At.andThen ?_
    cases ht : s.takeWhile (fun c => c != '/' && c != ' ') with
    | nil => exact Or.inr ⟨false, fun r => by rw [many1c, (key r).1, ht]⟩
    | cons c cs => exact Or.inl ⟨c :: cs, _, true, List.dropWhile_suffix _, fun r => by rw [many1c, (key r).1, ht, (key r).2]⟩
  · have hall : ∀ c ∈ s, (c != '/' && c != ' ') = true := by
      intro c hc
      by_contra hn
      exact h ⟨c, hc, by simpa using hn⟩
    refine Or.inr ⟨true, fun r => ?_⟩
    have e := while_over s ('\r' :: r) (fun c => c != '/' && c != ' ') hall
    have e : ∃ t, (s ++ '\r' :: r).takeWhile (fun c => c != '/' && c != ' ') = s ++ '\r' :: t :=
      ⟨r.takeWhile (fun c => c != '/' && c != ' '), by rw [e, List.takeWhile_cons_of_pos (by decide)]⟩
    obtain ⟨t, ht⟩ := e
    unfold andThen many1c
    rw [ht]
    cases s with
    | nil => simp [show parseNat 255 ('\r' :: t) = none from parseNat_cr 255 [] t]
    | cons x s => simp [show parseNat 255 (x :: (s ++ '\r' :: t)) = none from parseNat_cr 255 (x :: s) t]

theorem loc_candidate (env : Env Ip) : Loc (candidateP env) := by
  unfold candidateP
  refine (Loc.string (by decide)).then fun _ => ?_
  refine loc_notSp.then fun _ => (Loc.token (by decide)).then fun _ => ?_
  refine (loc_num _).then fun _ => (Loc.token (by decide)).then fun _ => ?_
  refine loc_notSp.andThen.then fun _ => (Loc.token (by decide)).then fun _ => ?_
  refine (loc_num _).then fun _ => (Loc.token (by decide)).then fun _ => ?_
  refine loc_notSp.andThen.then fun _ => (Loc.token (by decide)).then fun _ => ?_
  refine (loc_num _).then fun _ => (Loc.string (by decide)).then fun _ => ?_
  have hk : Loc candKind := by
    refine Loc.choice ?_
    intro p hp
    simp only [List.mem_cons, List.not_mem_nil, or_false] at hp
    rcases hp with rfl | rfl | rfl | rfl <;> exact (Loc.string (by decide)).pmap
  have hx : ∀ k : Str, '\r' ∉ k → Loc (candExt k) := fun k h => (Loc.string h).attempt.then fun _ => loc_notSp
  have hr : Loc (candRaddr env) := (Loc.string (by decide)).attempt.then fun _ => loc_notSp.andThen.then fun _ => (Loc.string (by decide)).then fun _ =>
    (loc_num _).then fun _ => Loc.ret _
  have ht : Loc candTcp := (Loc.string (by decide)).attempt.then fun _ => loc_notSp.andThen
  refine hk.then fun _ => hr.opt.then fun _ => ht.opt.then fun _ => ?_
  exact (hx _ (by decide)).opt.then fun _ => (hx _ (by decide)).opt.then fun _ => (hx _ (by decide)).opt.then fun _ => (hx _ (by decide)).opt.then fun _ => Loc.ret _

theorem candidateAttr_line (env : Env Ip) {v : Str} (hv : OneLine v) : Line (attempt (candidateAttr env)) v := by
  rcases loc_candidate env v hv with ⟨x, s', c, hs, hp⟩ | ⟨c, hp⟩
  · have hr : ∀ r, Reads (candidateP env) (v ++ (nl ++ r)) x (s' ++ (nl ++ r)) := fun r => ⟨c, hp _⟩
    rcases lineEnd_at (hv.suffix hs) with ⟨rfl, hl⟩ | hl
    · exact Or.inl ⟨x, fun r => ((Reads.string c!"a=" _).then ((hr r).then ((hl r).then (w := x) (Reads.ret _ _)))).attempt⟩
    · exact Or.inr (fun r => Errs.attempt ((Reads.string c!"a=" _).thenErrs ((hr r).thenErrs (Errs.then (hl r)))))
  · exact Or.inr (fun r => Errs.attempt ((Reads.string c!"a=" _).thenErrs (Errs.then ⟨c, hp _⟩)))

theorem attempt_pmap_line {p : P α} {f : α → β} {v : Str} (h : Line (attempt p) v) : Line (attempt (pmap f p)) v := by
  rcases h with ⟨x, h⟩ | h
  · refine Or.inl ⟨f x, fun r => ?_⟩
    obtain ⟨c, hc⟩ := h r
    have : Reads p ('a' :: '=' :: (v ++ (nl ++ r))) x r := by
      unfold Text.attempt at hc
      cases hp : p ('a' :: '=' :: (v ++ (nl ++ r))) with
      | ok v r c => rw [hp] at hc; cases hc; exact ⟨_, hp⟩
      | err c => rw [hp] at hc; cases hc
    exact (this.pmap f).attempt
  · refine Or.inr (fun r => Errs.attempt (Errs.pmap f ?_))
    have := h r
    unfold Fails Text.attempt at this
    cases hp : p ('a' :: '=' :: (v ++ (nl ++ r))) with
    | ok v r c => rw [hp] at this; cases this
    | err c => exact ⟨c, hp⟩

theorem loc_hexByte : Loc hexByte := Loc.andThen ((Loc.satisfy (by decide)).then fun _ => (Loc.satisfy (by decide)).then fun _ => Loc.ret _)

theorem finger_line {v : Str} (hv : OneLine v) : Line fingerP v :=
  attrLine_loc hv (by decide) (loc_notSp.then fun _ => (Loc.token (by decide)).then fun _ => (Loc.sepBy1 loc_hexByte (by decide)).then fun _ => Loc.ret _)

theorem setup_line {v : Str} (hv : OneLine v) : Line setupP v := by
  refine attrLine_loc hv (by decide) (Loc.choice ?_)
  intro p hp
  simp only [List.mem_cons, List.not_mem_nil, or_false] at hp
  rcases hp with rfl | rfl | rfl <;> exact (Loc.string (by decide)).pmap.attempt

theorem unused_line {f : Str → β} {v : Str} (hv : Val v) (r : Str) : Reads (pmap f (typedLine 'a' anyValue)) ('a' :: '=' :: (v ++ (nl ++ r))) (f v) r :=
  unused_reads hv r

/-- A choice whose last alternative takes every line -/
theorem Line.reads {ps : List (P α)} {q : P α} {x : α} {v : Str} (h : ∀ p ∈ ps, Line p v) (hq : ∀ r, Reads q ('a' :: '=' :: (v ++ (nl ++ r))) x r) :
    ∃ y, ∀ r, Reads (Text.choice (ps ++ [q])) ('a' :: '=' :: (v ++ (nl ++ r))) y r := by
  rcases Line.choice (ps := ps ++ [q]) (v := v) (by
    intro p hp
    rcases List.mem_append.1 hp with hp | hp
    · exact h p hp
    · simp only [List.mem_singleton] at hp; subst hp; exact Or.inl ⟨x, hq⟩) with h1 | h1
  · exact h1
  · exfalso
    have h2 := h1 []
    clear h1
    induction ps with
    | nil =>
      obtain ⟨c, hc⟩ := Reads.head [] (hq [])
      rw [List.nil_append] at h2
      rw [show Text.choice [q] _ = _ from h2] at hc
      cases hc
    | cons p ps ih =>
      refine ih (fun q hq => h q (by simp [hq])) ?_
      unfold Fails at h2 ⊢
      rw [List.cons_append, Text.choice] at h2
      beta_reduce at h2
      split at h2
      · cases h2
      · cases h2
      · exact h2

/-- Every attribute line of the session is read on its own. -/
theorem sess_line (env : Env Ip) (v : Str) (hv : Val v) : ∃ a, ∀ r, Reads (sessAttrP env) ('a' :: '=' :: (v ++ (nl ++ r))) a r := by
  have ho : OneLine v := hv.2
  refine Line.reads (ps := [_, _, _, _, _, _, _, _, _, _]) ?_ (fun r => unused_reads hv r)
  intro p hp
  simp only [List.mem_cons, List.not_mem_nil, or_false] at hp
  rcases hp with rfl | rfl | rfl | rfl | rfl | rfl | rfl | rfl | rfl | rfl
  · exact (attrLine_loc ho (by decide) (loc_notSp.then fun _ => (Loc.token (by decide)).then fun _ => (Loc.sepBy1 loc_notSp.pmap (by decide)).then fun _ => Loc.ret _)).attempt
  · exact (attrLine_loc ho (by decide) ((Loc.token (by decide)).opt.then fun _ => loc_notSp.then fun _ => (Loc.token (by decide)).then fun _ =>
      (Loc.sepBy1 loc_notSp (by decide)).then fun _ => Loc.ret _)).attempt
  · exact (attrFlag_loc ho (by decide)).pmap.attempt
  · exact (attrLine_loc ho (by decide) loc_any).pmap.attempt
  · exact (attrLine_loc ho (by decide) loc_any).pmap.attempt
  · exact (attrLine_loc ho (by decide) loc_any).pmap.attempt
  · exact (finger_line ho).pmap.attempt
  · exact (setup_line ho).pmap.attempt
  · exact attempt_pmap_line (candidateAttr_line env ho)
  · exact (attrFlag_loc ho (by decide)).pmap.attempt

theorem media1_line {v : Str} (ho : OneLine v) : Line (choice (mediaAlts1 (Ip := Ip))) v := by
  refine Line.choice ?_
  intro p hp
  simp only [mediaAlts1, List.mem_cons, List.not_mem_nil, or_false] at hp
  rcases hp with rfl | rfl | rfl | rfl | rfl | rfl | rfl | rfl | rfl | rfl | rfl | rfl | rfl
  · exact (attrLine_loc ho (by decide) loc_any).pmap.attempt
  · exact (attrLine_loc ho (by decide) loc_any).pmap.attempt
  · exact (attrLine_loc ho (by decide) loc_any).pmap.attempt
  · exact (finger_line ho).pmap.attempt
  · exact (setup_line ho).pmap.attempt
  · exact (attrLine_loc ho (by decide) loc_any).pmap.attempt
  · exact (attrLine_loc ho (by decide) (loc_num _)).pmap.attempt
  · exact (attrLine_loc ho (by decide) (loc_num _)).pmap.attempt
  · exact (attrLine_loc ho (by decide) loc_any).pmap.attempt
  · exact (attrLine_loc ho (by decide) (loc_extId.then fun _ => ((Loc.token (by decide)).then fun _ => loc_notSp).opt.then fun _ =>
      (Loc.token (by decide)).then fun _ => loc_notSp.then fun _ => ((Loc.token (by decide)).then fun _ => loc_any).opt.then fun _ => Loc.ret _)).attempt
  · refine (Line.choice ?_).attempt
    intro p hp
    simp only [List.mem_cons, List.not_mem_nil, or_false] at hp
    rcases hp with rfl | rfl | rfl | rfl <;> exact (attrFlag_loc ho (by decide)).pmap.attempt
  · exact (attrLine_loc ho (by decide) (loc_notSp.then fun _ => (Loc.token (by decide)).then fun _ => loc_any.then fun _ => Loc.ret _)).attempt
  · exact (attrLine_loc ho (by decide) loc_any).pmap.attempt

theorem simulcast_line {env : Env Ip} (henv : EnvOk env) {v : Str} (ho : OneLine v) : Line (simulcastP env) v := by
  have hr : Loc (simRid env) := (Loc.token (by decide)).opt.then fun _ => (loc_name henv).then fun _ => Loc.ret _
  have h1 : ∀ d : Str, '\r' ∉ d → Loc (simul1 env d) := fun d hd => (Loc.string hd).then fun _ => (Loc.token (by decide)).then fun _ =>
    Loc.sepBy1 (Loc.sepBy1 hr (by decide)) (by decide)
  refine attrLine_loc ho (by decide) (Loc.choice ?_)
  intro p hp
  simp only [List.mem_cons, List.not_mem_nil, or_false] at hp
  rcases hp with rfl | rfl
  · exact (h1 _ (by decide)).then fun _ => ((Loc.token (by decide)).then fun _ => h1 _ (by decide)).opt.then fun _ => Loc.ret _
  · exact (h1 _ (by decide)).then fun _ => ((Loc.token (by decide)).then fun _ => h1 _ (by decide)).opt.then fun _ => Loc.ret _

/-- Every media attribute line is read on its own, if the parsers of fmtp, rid and ssrc do so -/
theorem media_line (env : Env Ip) (henv : EnvOk env) (v : Str) (hv : Val v) (h1 : Line (attempt (fmtpP env)) v) (h2 : Line (attempt (ridP env)) v)
    (h3 : Line (attempt (ssrcP (Ip := Ip))) v) : ∃ a, ∀ r, Reads (mediaAttrP env) ('a' :: '=' :: (v ++ (nl ++ r))) a r := by
  have ho : OneLine v := hv.2
  refine Line.reads (ps := [_, _]) ?_ (fun r => unused_reads hv r)
  intro p hp
  simp only [List.mem_cons, List.not_mem_nil, or_false] at hp
  rcases hp with rfl | rfl
  · exact (media1_line ho).attempt
  · refine (Line.choice ?_).attempt
    intro p hp
    simp only [mediaAlts2, List.mem_cons, List.not_mem_nil, or_false] at hp
    rcases hp with rfl | rfl | rfl | rfl | rfl | rfl | rfl | rfl | rfl | rfl | rfl | rfl
    · exact (attrFlag_loc ho (by decide)).pmap.attempt
    · exact (attrFlag_loc ho (by decide)).pmap.attempt
    · exact (attrFlag_loc ho (by decide)).pmap.attempt
    · exact attempt_pmap_line (candidateAttr_line env ho)
    · exact (attrFlag_loc ho (by decide)).pmap.attempt
    · exact (attrLine_loc ho (by decide) (loc_pt.then fun _ => (Loc.token (by decide)).then fun _ => (Loc.many1c (by decide)).then fun _ =>
        (Loc.token (by decide)).then fun _ => (Loc.many1c (by decide)).andThen.then fun _ =>
        ((Loc.token (by decide)).then fun _ => loc_any.andThen).opt.then fun _ => Loc.ret _)).attempt
    · exact (attrLine_loc ho (by decide) (loc_pt.then fun _ => (Loc.token (by decide)).then fun _ => loc_any.then fun _ => Loc.ret _)).attempt
    · exact h1
    · exact h2
    · exact (simulcast_line henv ho).attempt
    · exact (attrLine_loc ho (by decide) (loc_notSp.then fun _ => (Loc.token (by decide)).then fun _ => (Loc.sepBy1 (loc_num _) (by decide)).then fun _ => Loc.ret _)).attempt
    · exact h3

/-! ### fmtp, rid and ssrc -/

/-- The line does not end with white space or `;` -/
def Tidy (s : Str) : Prop := ∀ c ∈ s.getLast?, isWs c = false ∧ c ≠ ';'

theorem Tidy.suffix {s s' : Str} (h : Tidy s) (hs : s' <:+ s) : Tidy s' := by
  obtain ⟨t, rfl⟩ := hs
  intro c hc
  exact h c (by rw [List.getLast?_append, Option.mem_def.1 hc]; rfl)

theorem spaces_at {s : Str} (hne : s ≠ []) (ht : Tidy s) : At spaces s := by
  have h : ∃ c ∈ s, isWs c = false := ⟨s.getLast hne, List.getLast_mem hne, (ht _ (List.getLast?_eq_getLast_of_ne_nil hne)).1⟩
  exact Or.inl ⟨(), s.dropWhile isWs, (s.takeWhile isWs != []), List.dropWhile_suffix _, fun r => by
    rw [spaces, (while_stop s ('\r' :: r) isWs h).1, (while_stop s ('\r' :: r) isWs h).2]⟩

theorem keyVal_at {s : Str} (hne : s ≠ []) (ho : OneLine s) (ht : Tidy s) : At keyValP s := by
  refine (spaces_at hne ht).opt.then (fun _ s' _ hs _ => ?_)
  exact ((Loc.many1c (by decide)).then fun _ => (Loc.token (by decide)).then fun _ => (Loc.many1c (by decide)).then fun _ => Loc.ret _) s' (ho.suffix hs)

theorem keyVals_at {s : Str} (hne : s ≠ []) (ho : OneLine s) (ht : Tidy s) : At (sepBy1 keyValP (token ';')) s := by
  have hsemi : ∀ s u : Str, OneLine s ∧ Tidy s → s = ';' :: u → At keyValP u := by
    rintro s u ⟨h1, h2⟩ rfl
    have hs : u <:+ ';' :: u := List.suffix_cons _ _
    refine keyVal_at ?_ (h1.suffix hs) (h2.suffix hs)
    rintro rfl
    exact (h2 ';' rfl).2 rfl
  refine (keyVal_at hne ho ht).then (fun v s' _ hs _ => ?_)
  refine At.then (At.many (At.manyGo (fun s => OneLine s ∧ Tidy s) (fun _ _ h hs => ⟨hs.1.suffix h, hs.2.suffix h⟩)
    (fun s hs => At.token_then (by decide) (hsemi s · hs)) (fun s s' v c hs h => token_then_shorter (hsemi s · hs) (by decide) h)
    s'.length s' ⟨ho.suffix hs, ht.suffix hs⟩ (Nat.le_refl _))) (fun vs s'' _ _ _ => Or.inl ⟨v :: vs, s'', false, List.suffix_refl _, fun _ => rfl⟩)

theorem ret_at (v : α) (s : Str) : At (ret v) s := Or.inl ⟨v, s, false, List.suffix_refl _, fun _ => rfl⟩

theorem fmtp_line (env : Env Ip) {v : Str} (ho : OneLine v) (ht : Tidy v) : Line (attempt (fmtpP env)) v := by
  refine (Line.choice ?_).attempt
  intro p hp
  simp only [List.mem_cons, List.not_mem_nil, or_false] at hp
  rcases hp with rfl | rfl
  · refine (attrLine_at ho (by decide) ?_).attempt
    intro w hw
    have hsw : w <:+ v := by rw [hw]; exact ⟨c!"fmtp" ++ [':'], by simp⟩
    refine (loc_pt w (ho.suffix hsw)).then (fun pt s' _ hs _ => At.token_then (by decide) (fun u hu => ?_))
    have hsu : u <:+ v := (by rw [hu]; exact List.suffix_cons _ _ : u <:+ s').trans (hs.trans hsw)
    refine (keyVals_at ?_ (ho.suffix hsu) (ht.suffix hsu)).then (fun ps s'' _ _ _ => ret_at _ _)
    rintro rfl
    have := (ht.suffix (hs.trans hsw)) ' ' (by rw [hu]; rfl)
    exact absurd this.1 (by decide)
  · exact (attrLine_loc ho (by decide) (loc_pt.then fun _ => (Loc.token (by decide)).then fun _ => loc_notSp.then fun _ => Loc.ret _)).attempt

theorem rid_line {env : Env Ip} (henv : EnvOk env) {v : Str} (ho : OneLine v) (ht : Tidy v) (hp : ¬ c!" pt=" <:+: v) : Line (attempt (ridP env)) v := by
  refine (attrLine_at ho (by decide) ?_).attempt
  intro w hw
  have hsw : w <:+ v := by rw [hw]; exact ⟨c!"rid" ++ [':'], by simp⟩
  refine (loc_name henv w (ho.suffix hsw)).then (fun id s1 _ hs1 _ => ?_)
  refine (Loc.token (by decide) s1 (ho.suffix (hs1.trans hsw))).then (fun _ s2 _ hs2 _ => ?_)
  have hl2 := hs2.trans (hs1.trans hsw)
  have hsr : Loc sendRecvP := by
    refine Loc.choice ?_
    intro p hp
    simp only [List.mem_cons, List.not_mem_nil, or_false] at hp
    rcases hp with rfl | rfl <;> exact (Loc.string (by decide)).pmap
  refine (hsr s2 (ho.suffix hl2)).then (fun d s3 _ hs3 _ => ?_)
  have hl3 := hs3.trans hl2
  refine At.then (At.opt ?_) (fun _ _ _ _ _ => ret_at _ _)
  refine At.token_then (by decide) (fun u hu => ?_)
  have hsu : u <:+ v := (by rw [hu]; exact List.suffix_cons _ _ : u <:+ s3).trans hl3
  have hne : u ≠ [] := by
    rintro rfl
    have := (ht.suffix hl3) ' ' (by rw [hu]; rfl)
    exact absurd this.1 (by decide)
  have hno : ∃ c, ∀ r, string c!"pt=" (u ++ '\r' :: r) = .err c := by
    rcases Loc.string (k := c!"pt=") (by decide) u (ho.suffix hsu) with ⟨x, s', c, _, h⟩ | h
    · exfalso
      refine hp ?_
      have h0 := h []
      have : c!"pt=" <+: u := by
        by_contra hn
        have hn' : ¬ c!"pt=" <+: u ++ '\r' :: [] := fun h => hn (prefix_cut (c := '\r') (by decide) h)
        obtain ⟨c', hc'⟩ := Errs.string hn'
        rw [hc'] at h0; cases h0
      obtain ⟨t, rfl⟩ := this
      obtain ⟨t2, ht2⟩ := hl3
      exact ⟨t2, t, by rw [← ht2, hu]; simp⟩
    · exact h
  obtain ⟨c, hc⟩ := hno
  have hpts : ∀ r, ridPtsP (u ++ '\r' :: r) = .err c := fun r => by simp only [ridPtsP, thenP, hc r]
  have hkv : At (sepBy keyValP (token ';')) u := (keyVals_at hne (ho.suffix hsu) (ht.suffix hsu)).opt.pmap
  cases c with
  | true => exact Or.inr ⟨true, fun r => by simp only [thenP, opt, hpts r]⟩
  | false =>
    refine At.then (Or.inl ⟨none, u, false, List.suffix_refl _, fun r => by simp only [opt, hpts r]⟩) (fun ps s' c' hs' hh => ?_)
    have h0 := hh []
    simp only [opt, hpts, PR.ok.injEq] at h0
    have : s' = u := (List.append_cancel_right h0.2.1).symm
    rw [this]
    exact hkv.then (fun _ _ _ _ _ => ret_at _ _)

theorem parseGo_chars {b max a n : Nat} {s : Str} (h : parseGo b max a s = some n) : ∀ c ∈ s, digitVal b c ≠ none := by
  induction s generalizing a with
  | nil => simp
  | cons x s ih =>
    simp only [parseGo] at h
    cases hx : digitVal b x with
    | none => rw [hx] at h; cases h
    | some d =>
      rw [hx] at h
      simp only at h
      split at h
      · intro c hc
        rcases List.mem_cons.1 hc with rfl | hc
        · rw [hx]; simp
        · exact ih h c hc
      · cases h

theorem parseNat_colon {max n : Nat} {s : Str} (h : parseNat max s = some n) : ':' ∉ s := by
  have key : ∀ {a : Nat} {t : Str}, parseGo 10 max a t = some n → ':' ∉ t := fun h hc => parseGo_chars h ':' hc (by decide)
  unfold parseNat parseRadix at h
  split at h
  · cases h
  · cases h
  · intro hc
    rcases List.mem_cons.1 hc with hc | hc
    · exact absurd hc (by decide)
    · exact key h hc
  · exact key h

theorem ssrc_line {v : Str} (ho : OneLine v) (hc : ∀ w, v = c!"ssrc" ++ ':' :: w → ':' ∈ w) : Line (attempt (ssrcP (Ip := Ip))) v := by
  refine (attrLine_at ho (by decide) ?_).attempt
  intro w hw
  have hsw : w <:+ v := by rw [hw]; exact ⟨c!"ssrc" ++ [':'], by simp⟩
  have hcw := hc w hw
  have how := ho.suffix hsw
  refine (loc_num _ w how).then (fun n s1 _ hs1 hn => ?_)
  have hf : (fun c => c != ' ' && c != '\r' && c != '\n') '\r' = false := by decide
  have h0 := hn []
  unfold numTok andThen notSp many1c at h0
  rw [takeWhile_at w [] hf, dropWhile_at w [] hf] at h0
  have hs : ':' ∈ s1 := by
    cases ht : w.takeWhile (fun c => c != ' ' && c != '\r' && c != '\n') with
    | nil => rw [ht] at h0; cases h0
    | cons x xs =>
      rw [ht] at h0
      simp only at h0
      cases hp : parseNat (2 ^ 32 - 1) (x :: xs) with
      | none => rw [hp] at h0; cases h0
      | some m =>
        rw [hp] at h0
        simp only [PR.ok.injEq] at h0
        rw [← List.append_cancel_right h0.2.1]
        have hnc := parseNat_colon hp
        rw [← ht] at hnc
        have := List.takeWhile_append_dropWhile (p := fun c : Char => c != ' ' && c != '\r' && c != '\n') (l := w)
        rw [← this] at hcw
        rcases List.mem_append.1 hcw with h | h
        · exact absurd h hnc
        · exact h
  refine At.token_then (by decide) (fun u hu => ?_)
  have hcu : ':' ∈ u := by
    rw [hu] at hs
    rcases List.mem_cons.1 hs with h | h
    · exact absurd h (by decide)
    · exact h
  have hsu : u <:+ w := (by rw [hu]; exact List.suffix_cons _ _ : u <:+ s1).trans hs1
  have hst := fun r : Str => while_stop u ('\r' :: r) (fun c => c != ':') ⟨':', hcu, by decide⟩
  have ha : At (many1c (fun c => c != ':')) u := by
    cases ht : u.takeWhile (fun c => c != ':') with
    | nil => exact Or.inr ⟨false, fun r => by rw [many1c, (hst r).1, ht]⟩
    | cons c cs => exact Or.inl ⟨c :: cs, _, true, List.dropWhile_suffix _, fun r => by rw [many1c, (hst r).1, ht, (hst r).2]⟩
  refine ha.then (fun a s2 _ hs2 _ => ?_)
  exact ((Loc.token (by decide)).then fun _ => loc_any.then fun _ => Loc.ret _) s2 ((how.suffix hsu).suffix hs2)

end Str0m.Sdp
