import Verif.Props.SdpSpec

namespace Str0m.Sdp
open Str0m.Text Str0m.StrId Str0m.Profiles Str0m.Pts
open Str0m.Negotiate (Dir Setup)

/-! ### Lines -/

theorem lineEnd_reads (r : Str) : Reads lineEnd (nl ++ r) () r := ⟨true, rfl⟩

theorem typedLine_reads {t : Char} {val : P α} {i : Str} {v : α} {r : Str} (h : Reads val i v (nl ++ r)) :
    Reads (typedLine t val) (t :: '=' :: i) v r :=
  ((Reads.token t _).then ((Reads.token '=' _).then (h.then (Reads.then (f := fun _ => ret v) (lineEnd_reads r) (Reads.ret v r))))).attempt

theorem attrLine_reads {k : Str} {val : P α} {i : Str} {v : α} {r : Str} (h : Reads val i v (nl ++ r)) :
    Reads (attrLine k val) ('a' :: '=' :: (k ++ (':' :: i))) v r :=
  typedLine_reads ((Reads.string k _).then ((Reads.token ':' _).then h))

theorem attrFlag_reads {k : Str} {r : Str} : Reads (attrFlag k) ('a' :: '=' :: (k ++ (nl ++ r))) () r := typedLine_reads (Reads.string k _)

theorem typedLine_fails {t : Char} {val : P α} {i : Str} (h : Stops (fun c => c == t) i) : Fails (typedLine t val) i :=
  (Fails.token h).then.errs.attempt

theorem endl (r : Str) : EndLine (nl ++ r) := EndLine.nl _

theorem Val.chars {s : Str} (h : Val s) : ∀ c ∈ s, (c != '\r' && c != '\n') = true := by
  intro c hc
  obtain ⟨a, b⟩ := h.2 c hc
  simp [a, b]

theorem anyValue_reads {s : Str} (h : Val s) (r : Str) : Reads anyValue (s ++ (nl ++ r)) s (nl ++ r) := Reads.many1c h.1 h.chars (endl r).anyValue

theorem MidText.tok {m : Str} (h : MidText m) : Tok m := by
  refine ⟨h.1, fun c hc => ?_⟩
  rcases h.2.2 c hc with h | rfl
  · refine ⟨?_, ?_, ?_⟩ <;> rintro rfl <;> revert h <;> decide
  · decide

theorem MidText.midOf {m : Str} (h : MidText m) : midOf m = m := by
  unfold Sdp.midOf
  have : m.map sanitize = m := by
    rw [List.map_eq_iff]
    intro i
    rcases hi : m[i]? with _ | c
    · simp
    · have hc := List.mem_of_getElem? hi
      simp only [Option.map_some, Option.some.injEq]
      rcases h.2.2 c hc with h | rfl
      · simp [sanitize, h]
      · decide
  rw [this, List.take_of_length_le h.2.1]

theorem Tok.val {s : Str} (h : Tok s) : Val s := ⟨h.1, fun c hc => (h.2 c hc).2⟩

/-! ### Lists -/

theorem join_flat (sc : Char) (t : Str) (ts : List Str) : join [sc] (t :: ts) = t ++ (ts.map (fun x => sc :: x)).flatten := by
  induction ts generalizing t with
  | nil => simp [join]
  | cons u us ih =>
    rw [join, ih u]
    · simp
    · simp

/-- A list with separators -/
theorem sepBy1_reads {p : P α} (sc : Char) (items : List (Str × α)) (hne : items ≠ []) (r : Str) (hr : Stops (fun c => c == sc) r)
    (h : ∀ x ∈ items, ∀ r', (r' = r ∨ ∃ y, r' = sc :: y) → Reads p (x.1 ++ r') x.2 r') :
    Reads (sepBy1 p (token sc)) (join [sc] (items.map (·.1)) ++ r) (items.map (·.2)) r := by
  cases items with
  | nil => exact absurd rfl hne
  | cons x xs =>
    rw [List.map_cons, join_flat, List.append_assoc, List.map_cons]
    have hm : (xs.map (·.1)).map (fun y => sc :: y) = (xs.map (fun y => (sc :: y.1, y.2))).map (·.1) := by simp
    have hm2 : xs.map (·.2) = (xs.map (fun y => (sc :: y.1, y.2))).map (·.2) := by simp
    rw [hm]
    have hfol : ∀ zs : List (Str × α), ((((zs.map (fun y => (sc :: y.1, y.2))).map (·.1)).flatten ++ r) = r ∨
        ∃ y, (((zs.map (fun y => (sc :: y.1, y.2))).map (·.1)).flatten ++ r) = sc :: y) := by
      intro zs
      cases zs with
      | nil => exact Or.inl rfl
      | cons z zs => exact Or.inr ⟨_, rfl⟩
    refine (h x (by simp) _ (hfol xs)).then (Reads.then (v := xs.map (·.2)) (r := r) ?_ (Reads.ret _ _))
    rw [hm2]
    refine many_chain _ r ((Fails.token hr).then) ?_ ?_
    · intro k y hy
      rw [Option.mem_def, List.getElem?_map, Option.map_eq_some_iff] at hy
      obtain ⟨z, hz, rfl⟩ := hy
      exact (Reads.token sc _).then (h z (by simp [List.mem_of_getElem? hz]) _ (by rw [← List.map_drop]; exact hfol _))
    · intro y hy
      obtain ⟨z, _, rfl⟩ := List.mem_map.1 hy
      simp

/-! ### Pieces -/

theorem hexU : ∀ n : Fin 256, (digitVal 16 (hexDigitU (n.val / 16))).isSome = true ∧ (digitVal 16 (hexDigitU (n.val % 16))).isSome = true ∧
    parseRadix 16 255 [hexDigitU (n.val / 16), hexDigitU (n.val % 16)] = some n.val := by decide +kernel

theorem satisfy_reads {f : Char → Bool} {c : Char} (h : f c = true) (r : Str) : Reads (satisfy f) (c :: r) c r := ⟨true, by simp [satisfy, h]⟩

theorem hexByte_reads (b : Byte) (r : Str) : Reads hexByte (hex2U b.val ++ r) b r := by
  obtain ⟨h1, h2, h3⟩ := hexU b
  refine Reads.andThen (v := [hexDigitU (b.val / 16), hexDigitU (b.val % 16)]) ?_ (by rw [h3]; simp)
  exact (satisfy_reads h1 _).then ((satisfy_reads h2 _).then (Reads.ret _ _))

theorem endl_stops {sc : Char} (h : sc ≠ '\r') (r : Str) : Stops (fun c => c == sc) (nl ++ r) := Stops.cons (by simpa using h.symm)

theorem finger_reads (f : Fingerprint) (h : FingerprintOk f) (r : Str) :
    Reads fingerP ('a' :: '=' :: (c!"fingerprint" ++ (':' :: (f.hash ++ (c!" " ++ (showFinger f.bytes ++ (nl ++ r))))))) f r := by
  refine attrLine_reads ?_
  refine (notSp_sep h.1 (Sep.sp _)).then ((Reads.token ' ' _).then ?_)
  have := sepBy1_reads (p := hexByte) ':' (f.bytes.map (fun b => (hex2U b.val, b))) (by simpa using h.2) (nl ++ r) (endl_stops (by decide) r)
    (by
      intro x hx r' _
      obtain ⟨b, _, rfl⟩ := List.mem_map.1 hx
      exact hexByte_reads b r')
  simp only [List.map_map] at this
  have e1 : ((fun x : Str × Byte => x.1) ∘ fun b : Byte => (hex2U b.val, b)) = fun b => hex2U b.val := rfl
  have e2 : ((fun x : Str × Byte => x.2) ∘ fun b : Byte => (hex2U b.val, b)) = id := rfl
  rw [e1, e2, List.map_id] at this
  exact this.then (Reads.ret _ _)

theorem setup_reads (s : Setup) (r : Str) : Reads setupP ('a' :: '=' :: (c!"setup" ++ (':' :: (showSetup s ++ (nl ++ r))))) s r := by
  refine attrLine_reads ?_
  cases s with
  | actPass => exact Reads.head _ ((Reads.string _ _).pmap _).attempt
  | active => exact Reads.tail rfl (Reads.head _ ((Reads.string _ _).pmap _).attempt)
  | passive => exact Reads.tail rfl (Reads.tail rfl (Reads.head _ ((Reads.string _ _).pmap _).attempt))

theorem candAttr_reads (env : Env Ip) (henv : env.IpOk) (c : Cand Ip) (h : CandOk c) (r : Str) :
    Reads (candidateAttr env) (c!"a=" ++ (c.show env ++ (nl ++ r))) c r :=
  (Reads.string _ _).then ((candidateP_reads env henv c h (nl ++ r) (endl r)).then (Reads.then (f := fun _ => ret c) (lineEnd_reads r) (Reads.ret c r)))

/-- Tokens with a space between -/
theorem toks_reads {p : P α} (ts : List (Str × α)) (hne : ts ≠ []) (r : Str) (h : ∀ x ∈ ts, ∀ r', Sep r' → Reads p (x.1 ++ r') x.2 r') :
    Reads (sepBy1 p (token ' ')) (join c!" " (ts.map (·.1)) ++ (nl ++ r)) (ts.map (·.2)) (nl ++ r) := by
  refine sepBy1_reads ' ' ts hne _ (endl_stops (by decide) r) ?_
  rintro x hx r' (rfl | ⟨y, rfl⟩)
  · exact h x hx _ (Or.inl (endl r))
  · exact h x hx _ (Sep.sp _)

theorem toksSame_reads (ts : List Str) (hne : ts ≠ []) (r : Str) (h : ∀ x ∈ ts, Tok x) :
    Reads (sepBy1 notSp (token ' ')) (join c!" " ts ++ (nl ++ r)) ts (nl ++ r) := by
  have := toks_reads (p := notSp) (ts.map (fun t => (t, t))) (by simpa using hne) r (by
    intro x hx r' hr'
    obtain ⟨t, ht, rfl⟩ := List.mem_map.1 hx
    exact notSp_sep (h t ht) hr')
  simp only [List.map_map] at this
  have e : ((fun x : Str × Str => x.1) ∘ fun t : Str => (t, t)) = id := rfl
  have e2 : ((fun x : Str × Str => x.2) ∘ fun t : Str => (t, t)) = id := rfl
  rw [e, e2, List.map_id] at this
  exact this

theorem nums_reads (max : Nat) (ns : List Nat) (hne : ns ≠ []) (r : Str) (h : ∀ n ∈ ns, n ≤ max) :
    Reads (sepBy1 (numTok max) (token ' ')) (join c!" " (ns.map dec) ++ (nl ++ r)) ns (nl ++ r) := by
  have := toks_reads (p := numTok max) (ns.map (fun n => (dec n, n))) (by simpa using hne) r (by
    intro x hx r' hr'
    obtain ⟨n, hn, rfl⟩ := List.mem_map.1 hx
    exact numTok_sep (h n hn) hr')
  simp only [List.map_map] at this
  have e : ((fun x : Str × Nat => x.1) ∘ fun n : Nat => (dec n, n)) = dec := rfl
  have e2 : ((fun x : Str × Nat => x.2) ∘ fun n : Nat => (dec n, n)) = id := rfl
  rw [e, e2, List.map_id] at this
  exact this

/-! ### Unknown attributes -/

theorem prefix_cut {k s r : Str} {c : Char} (hc : c ∉ k) (h : k <+: s ++ c :: r) : k <+: s := by
  obtain ⟨t, ht⟩ := h
  rw [List.append_eq_append_iff] at ht
  rcases ht with ⟨as, h1, _⟩ | ⟨bs, h1, h2⟩
  · exact ⟨as, h1.symm⟩
  · cases bs with
    | nil => exact ⟨[], by simp [h1]⟩
    | cons b bs =>
      simp only [List.cons_append, List.cons.injEq] at h2
      exact absurd (by rw [h1, h2.1]; simp) hc

/-- A line that does not begin with the key is not that attribute -/
theorem attrLine_errs {k : Str} {val : P α} {i : Str} (h : ¬ (c!"a=" ++ (k ++ c!":")) <+: i) : Errs (attrLine k val) i := by
  refine (Errs.attempt ?_).errs
  cases i with
  | nil => exact Errs.then ⟨_, rfl⟩
  | cons c i =>
    by_cases hc : c = 'a'
    · subst hc
      refine (Reads.token 'a' _).thenErrs ?_
      cases i with
      | nil => exact Errs.then ⟨_, rfl⟩
      | cons c i =>
        by_cases hc : c = '='
        · subst hc
          refine (Reads.token '=' _).thenErrs (Errs.then ?_)
          have h : ¬ (k ++ c!":") <+: i := fun hp => h (by simpa using hp)
          by_cases hp : k <+: i
          · obtain ⟨t, rfl⟩ := hp
            refine (Reads.string k t).thenErrs (Errs.then (Fails.token ?_).errs)
            intro c hc
            cases t with
            | nil => simp at hc
            | cons d t =>
              simp only [List.head?_cons, Option.mem_def, Option.some.injEq] at hc
              subst hc
              by_contra hd
              have hd : d = ':' := by simpa using hd
              subst hd
              exact h ⟨t, by simp⟩
          · exact (Errs.string hp).then
        · exact Errs.then (Fails.token (Stops.cons (by simpa using hc))).errs
    · exact Errs.then (Fails.token (Stops.cons (by simpa using hc))).errs

/-- A line that does not begin with the flag is not that flag -/
theorem attrFlag_errs {k : Str} {i : Str} (h : ¬ (c!"a=" ++ k) <+: i) : Errs (attrFlag k) i := by
  refine (Errs.attempt ?_).errs
  cases i with
  | nil => exact Errs.then ⟨_, rfl⟩
  | cons c i =>
    by_cases hc : c = 'a'
    · subst hc
      refine (Reads.token 'a' _).thenErrs ?_
      cases i with
      | nil => exact Errs.then ⟨_, rfl⟩
      | cons c i =>
        by_cases hc : c = '='
        · subst hc
          refine (Reads.token '=' _).thenErrs (Errs.then (Errs.string (fun hp => h (by simpa using hp))))
        · exact Errs.then (Fails.token (Stops.cons (by simpa using hc))).errs
    · exact Errs.then (Fails.token (Stops.cons (by simpa using hc))).errs

theorem candidateAttr_errs (env : Env Ip) {i : Str} (h : ¬ c!"a=candidate:" <+: i) : Errs (candidateAttr env) i := by
  by_cases hp : c!"a=" <+: i
  · obtain ⟨t, rfl⟩ := hp
    exact (Reads.string _ _).thenErrs (Errs.then (Errs.then (Errs.string (fun hp => h (by simpa using hp)))))
  · exact Errs.then (Errs.string hp)

theorem keyed_errs {k : Str} {val : P α} {v r : Str} (h : ¬ (k ++ c!":") <+: v) (hk : '\r' ∉ k) :
    Errs (attrLine k val) ('a' :: '=' :: (v ++ (nl ++ r))) := by
  refine attrLine_errs (fun hp => h (prefix_cut (c := '\r') (r := '\n' :: r) ?_ (by simpa [nl] using hp)))
  intro hm
  rcases List.mem_append.1 hm with hm | hm
  · exact hk hm
  · revert hm; decide

theorem flag_errs {k : Str} {v r : Str} (hv : Val v) (h : v ≠ k) (hk : '\r' ∉ k) : Errs (attrFlag k) ('a' :: '=' :: (v ++ (nl ++ r))) := by
  refine (Errs.attempt ?_).errs
  refine (Reads.token 'a' _).thenErrs ((Reads.token '=' _).thenErrs ?_)
  by_cases hp : k <+: v ++ (nl ++ r)
  · have hp' := prefix_cut (c := '\r') (r := '\n' :: r) hk hp
    obtain ⟨t, rfl⟩ := hp'
    rw [List.append_assoc]
    refine (Reads.string k _).thenErrs (Errs.then ?_)
    cases t with
    | nil => exact absurd (by simp) h
    | cons c t =>
      obtain ⟨h1, h2⟩ := hv.2 c (by simp)
      refine ⟨false, ?_⟩
      simp [lineEnd, choice, crlf, thenP, token, satisfy, pmap, eof, h1, h2]
  · exact (Errs.string hp).then

theorem cand_errs (env : Env Ip) {v r : Str} (h : ¬ (c!"candidate" ++ c!":") <+: v) : Errs (candidateAttr env) ('a' :: '=' :: (v ++ (nl ++ r))) := by
  refine candidateAttr_errs env (fun hp => h (prefix_cut (c := '\r') (r := '\n' :: r) (by decide) ?_))
  simpa [nl] using hp

/-- Two texts that differ at some place -/
def clash : Str → Str → Bool
  | a :: as, b :: bs => if a = b then clash as bs else true
  | _, _ => false

theorem clash_prefix {k l i : Str} (h : clash k l = true) : ¬ k <+: l ++ i := by
  induction k generalizing l with
  | nil => simp [clash] at h
  | cons a as ih =>
    cases l with
    | nil => simp [clash] at h
    | cons b bs =>
      rw [clash] at h
      by_cases hab : a = b
      · rw [if_pos hab] at h
        rw [List.cons_append]
        intro hp
        exact ih h (by simpa [hab] using hp)
      · rw [List.cons_append]
        intro hp
        obtain ⟨t, ht⟩ := hp
        simp only [List.cons_append, List.cons.injEq] at ht
        exact hab ht.1

theorem noKey {k : Str} {val : P α} {l i : Str} (h : clash (c!"a=" ++ (k ++ c!":")) l = true) : Fails (attempt (attrLine k val)) (l ++ i) :=
  (attrLine_errs (clash_prefix h)).attempt

theorem noKeyM {k : Str} {val : P α} {f : α → β} {l i : Str} (h : clash (c!"a=" ++ (k ++ c!":")) l = true) :
    Fails (attempt (pmap f (attrLine k val))) (l ++ i) := ((attrLine_errs (clash_prefix h)).pmap f).attempt

theorem noFlag {k : Str} {f : Unit → β} {l i : Str} (h : clash (c!"a=" ++ k) l = true) : Fails (attempt (pmap f (attrFlag k))) (l ++ i) :=
  ((attrFlag_errs (clash_prefix h)).pmap f).attempt

theorem noCand {env : Env Ip} {f : Cand Ip → β} {l i : Str} (h : clash c!"a=candidate:" l = true) :
    Fails (attempt (pmap f (candidateAttr env))) (l ++ i) := ((candidateAttr_errs env (clash_prefix h)).pmap f).attempt

theorem unused_reads {f : Str → β} {v : Str} (hv : Val v) (r : Str) : Reads (pmap f (typedLine 'a' anyValue)) ('a' :: '=' :: (v ++ (nl ++ r))) (f v) r :=
  (typedLine_reads (anyValue_reads hv r)).pmap f

theorem sess_unused (env : Env Ip) (v : Str) (hv : Val v) (hc : UnusedOk sessKeys sessFlags v) (r : Str) :
    Reads (sessAttrP env) ('a' :: '=' :: (v ++ (nl ++ r))) (.unused v) r := by
  obtain ⟨_, hk, hf⟩ := hc
  have key : ∀ (α β : Type) (f : α → β) (k : Str) (val : P α), k ∈ sessKeys → '\r' ∉ k → Fails (attempt (pmap f (attrLine k val))) ('a' :: '=' :: (v ++ (nl ++ r))) :=
    fun α β f k val h1 h2 => ((keyed_errs (hk k h1) h2).pmap f).attempt
  have key0 : ∀ (α : Type) (k : Str) (val : P α), k ∈ sessKeys → '\r' ∉ k → Fails (attempt (attrLine k val)) ('a' :: '=' :: (v ++ (nl ++ r))) :=
    fun α k val h1 h2 => (keyed_errs (hk k h1) h2).attempt
  have flag : ∀ (β : Type) (f : Unit → β) (k : Str), k ∈ sessFlags → '\r' ∉ k → Fails (attempt (pmap f (attrFlag k))) ('a' :: '=' :: (v ++ (nl ++ r))) :=
    fun β f k h1 h2 => ((flag_errs hv (hf k h1) h2).pmap f).attempt
  refine Reads.tail (key0 _ c!"group" _ (by decide) (by decide)) ?_
  refine Reads.tail (key0 _ c!"msid-semantic" _ (by decide) (by decide)) ?_
  refine Reads.tail (flag _ _ c!"ice-lite" (by decide) (by decide)) ?_
  refine Reads.tail (key _ _ _ c!"ice-ufrag" _ (by decide) (by decide)) ?_
  refine Reads.tail (key _ _ _ c!"ice-pwd" _ (by decide) (by decide)) ?_
  refine Reads.tail (key _ _ _ c!"ice-options" _ (by decide) (by decide)) ?_
  refine Reads.tail (key _ _ _ c!"fingerprint" _ (by decide) (by decide)) ?_
  refine Reads.tail (key _ _ _ c!"setup" _ (by decide) (by decide)) ?_
  refine Reads.tail ((cand_errs env (hk c!"candidate" (by decide))).pmap _).attempt ?_
  refine Reads.tail (flag _ _ c!"end-of-candidates" (by decide) (by decide)) ?_
  exact Reads.head _ (unused_reads hv r)

/-! ### Session attributes -/

theorem val3 {l s e : Str} (hl : l ≠ []) (h1 : ∀ c ∈ l, c ≠ '\r' ∧ c ≠ '\n') (hs : Tok s) (h2 : ∀ c ∈ e, c ≠ '\r' ∧ c ≠ '\n') : Val (l ++ (s ++ e)) := by
  refine ⟨by simp [hl], ?_⟩
  intro c hc
  rcases List.mem_append.1 hc with hc | hc
  · exact h1 c hc
  · rcases List.mem_append.1 hc with hc | hc
    · exact (hs.2 c hc).2
    · exact h2 c hc

/-- The session alternatives, one after another, on a line that begins with `l` -/
theorem sessSkip (env : Env Ip) (l i : Str) :
    (clash c!"a=group:" l = true → Fails (attempt (groupP (Ip := Ip))) (l ++ i)) ∧
    (clash c!"a=msid-semantic:" l = true → Fails (attempt (msidSemanticP (Ip := Ip))) (l ++ i)) ∧
    (clash c!"a=ice-lite" l = true → Fails (attempt (pmap (fun _ => SessAttr.iceLite (Ip := Ip)) (attrFlag c!"ice-lite"))) (l ++ i)) ∧
    (clash c!"a=ice-ufrag:" l = true → Fails (attempt (pmap (SessAttr.iceUfrag (Ip := Ip)) (attrLine c!"ice-ufrag" anyValue))) (l ++ i)) ∧
    (clash c!"a=ice-pwd:" l = true → Fails (attempt (pmap (SessAttr.icePwd (Ip := Ip)) (attrLine c!"ice-pwd" anyValue))) (l ++ i)) ∧
    (clash c!"a=ice-options:" l = true → Fails (attempt (pmap (SessAttr.iceOptions (Ip := Ip)) (attrLine c!"ice-options" anyValue))) (l ++ i)) ∧
    (clash c!"a=fingerprint:" l = true → Fails (attempt (pmap (SessAttr.fingerprint (Ip := Ip)) fingerP)) (l ++ i)) ∧
    (clash c!"a=setup:" l = true → Fails (attempt (pmap (SessAttr.setup (Ip := Ip)) setupP)) (l ++ i)) ∧
    (clash c!"a=candidate:" l = true → Fails (attempt (pmap (SessAttr.candidate (Ip := Ip)) (candidateAttr env))) (l ++ i)) ∧
    (clash c!"a=end-of-candidates" l = true → Fails (attempt (pmap (fun _ => SessAttr.endOfCandidates (Ip := Ip)) (attrFlag c!"end-of-candidates"))) (l ++ i)) :=
  ⟨fun h => noKey (k := c!"group") h, fun h => noKey (k := c!"msid-semantic") h, fun h => noFlag (k := c!"ice-lite") h,
   fun h => noKeyM (k := c!"ice-ufrag") h, fun h => noKeyM (k := c!"ice-pwd") h, fun h => noKeyM (k := c!"ice-options") h,
   fun h => noKeyM (k := c!"fingerprint") h, fun h => noKeyM (k := c!"setup") h, fun h => noCand h, fun h => noFlag (k := c!"end-of-candidates") h⟩

theorem sess_group_nil (env : Env Ip) (typ : Str) (h : Tok typ) (r : Str) :
    Reads (sessAttrP env) (c!"a=group:" ++ (typ ++ (c!" " ++ (nl ++ r)))) (.unused (c!"group:" ++ (typ ++ c!" "))) r := by
  have hv : Val (c!"group:" ++ (typ ++ c!" ")) := val3 (by decide) (by decide) h (by decide)
  obtain ⟨s0, s1, s2, s3, s4, s5, s6, s7, s8, s9⟩ := sessSkip env c!"a=group:" (typ ++ (c!" " ++ (nl ++ r)))
  refine Reads.tail ?_ (Reads.tail (s1 (by decide)) (Reads.tail (s2 (by decide)) (Reads.tail (s3 (by decide)) (Reads.tail (s4 (by decide))
    (Reads.tail (s5 (by decide)) (Reads.tail (s6 (by decide)) (Reads.tail (s7 (by decide)) (Reads.tail (s8 (by decide)) (Reads.tail (s9 (by decide))
    (Reads.head _ ?_))))))))))
  · refine (Errs.attempt ?_).errs.attempt
    refine (Reads.token 'a' _).thenErrs ((Reads.token '=' _).thenErrs (Errs.then ((Reads.string c!"group" _).thenErrs ((Reads.token ':' _).thenErrs ?_))))
    refine (notSp_sep h (Sep.sp _)).thenErrs ((Reads.token ' ' _).thenErrs ?_)
    exact ⟨_, rfl⟩
  · have := unused_reads (f := (SessAttr.unused (Ip := Ip))) hv r
    simp only [List.append_assoc] at this
    exact this

theorem sess_msid_nil (env : Env Ip) (s : Str) (h : Tok s) (r : Str) :
    Reads (sessAttrP env) (c!"a=msid-semantic: " ++ (s ++ (c!" " ++ (nl ++ r)))) (.unused (c!"msid-semantic: " ++ (s ++ c!" "))) r := by
  have hv : Val (c!"msid-semantic: " ++ (s ++ c!" ")) := val3 (by decide) (by decide) h (by decide)
  obtain ⟨s0, s1, s2, s3, s4, s5, s6, s7, s8, s9⟩ := sessSkip env c!"a=msid-semantic: " (s ++ (c!" " ++ (nl ++ r)))
  refine Reads.tail (s0 (by decide)) (Reads.tail ?_ (Reads.tail (s2 (by decide)) (Reads.tail (s3 (by decide)) (Reads.tail (s4 (by decide))
    (Reads.tail (s5 (by decide)) (Reads.tail (s6 (by decide)) (Reads.tail (s7 (by decide)) (Reads.tail (s8 (by decide)) (Reads.tail (s9 (by decide))
    (Reads.head _ ?_))))))))))
  · refine (Errs.attempt ?_).errs.attempt
    refine (Reads.token 'a' _).thenErrs ((Reads.token '=' _).thenErrs (Errs.then ((Reads.string c!"msid-semantic" _).thenErrs ((Reads.token ':' _).thenErrs ?_))))
    refine (Reads.optSome (Reads.token ' ' _)).thenErrs ((notSp_sep h (Sep.sp _)).thenErrs ((Reads.token ' ' _).thenErrs ?_))
    exact ⟨_, rfl⟩
  · have := unused_reads (f := (SessAttr.unused (Ip := Ip))) hv r
    simp only [List.append_assoc] at this
    exact this

theorem sess_group (env : Env Ip) (typ : Str) (ht : Tok typ) (mids : List Str) (hne : mids ≠ []) (hm : ∀ m ∈ mids, MidText m) (r : Str) :
    Reads (sessAttrP env) (c!"a=group:" ++ (typ ++ (c!" " ++ (join c!" " mids ++ (nl ++ r))))) (.group typ mids) r := by
  refine Reads.head _ (Reads.attempt (attrLine_reads (k := c!"group") ?_))
  refine (notSp_sep ht (Sep.sp _)).then ((Reads.token ' ' _).then ?_)
  have := toks_reads (p := pmap midOf notSp) (mids.map (fun t => (t, t))) (by simpa using hne) r (by
    intro x hx r' hr'
    obtain ⟨t, ht, rfl⟩ := List.mem_map.1 hx
    have hm := hm t ht
    have := (notSp_sep hm.tok hr').pmap midOf
    rwa [hm.midOf] at this)
  simp only [List.map_map] at this
  have e : ((fun x : Str × Str => x.1) ∘ fun t : Str => (t, t)) = id := rfl
  have e2 : ((fun x : Str × Str => x.2) ∘ fun t : Str => (t, t)) = id := rfl
  rw [e, e2, List.map_id] at this
  exact this.then (Reads.ret _ _)

theorem sess_msid (env : Env Ip) (s : Str) (h : Tok s) (ids : List Str) (hne : ids ≠ []) (hi : ∀ i ∈ ids, Tok i) (r : Str) :
    Reads (sessAttrP env) (c!"a=msid-semantic: " ++ (s ++ (c!" " ++ (join c!" " ids ++ (nl ++ r))))) (.msidSemantic s ids) r := by
  obtain ⟨s0, _⟩ := sessSkip env c!"a=msid-semantic: " (s ++ (c!" " ++ (join c!" " ids ++ (nl ++ r))))
  refine Reads.tail (s0 (by decide)) (Reads.head _ (Reads.attempt (attrLine_reads (k := c!"msid-semantic") ?_)))
  refine (Reads.optSome (Reads.token ' ' _)).then ((notSp_sep h (Sep.sp _)).then ((Reads.token ' ' _).then ?_))
  exact (toksSame_reads ids hne r hi).then (Reads.ret _ _)

theorem sess_reads (env : Env Ip) (henv : EnvOk env) (a : SessAttr Ip) (h : a.Ok) (r : Str) :
    Reads (sessAttrP env) (a.show env ++ r) a.received r := by
  cases a with
  | group typ mids =>
    cases mids with
    | nil =>
      have := sess_group_nil env typ h.1 r
      simpa only [SessAttr.show, join, List.append_assoc, List.nil_append, SessAttr.received] using this
    | cons m ms =>
      have := sess_group env typ h.1 (m :: ms) (by simp) h.2 r
      simpa only [SessAttr.show, List.append_assoc, SessAttr.received] using this
  | msidSemantic s ids =>
    cases ids with
    | nil =>
      have := sess_msid_nil env s h.1 r
      simpa only [SessAttr.show, join, List.append_assoc, List.nil_append, SessAttr.received] using this
    | cons i is =>
      have := sess_msid env s h.1 (i :: is) (by simp) h.2 r
      simpa only [SessAttr.show, List.append_assoc, SessAttr.received] using this
  | allowMixedExts => exact sess_unused env c!"extmap-allow-mixed" ⟨by decide, by decide⟩ ⟨⟨by decide, by decide⟩, by decide, by decide⟩ r
  | iceLite =>
    obtain ⟨s0, s1, _⟩ := sessSkip env c!"a=ice-lite" (nl ++ r)
    exact Reads.tail (s0 (by decide)) (Reads.tail (s1 (by decide)) (Reads.head _ ((attrFlag_reads (k := c!"ice-lite")).pmap _).attempt))
  | iceUfrag v =>
    simp only [SessAttr.show, List.append_assoc]
    obtain ⟨s0, s1, s2, _⟩ := sessSkip env c!"a=ice-ufrag:" (v ++ (nl ++ r))
    exact Reads.tail (s0 (by decide)) (Reads.tail (s1 (by decide)) (Reads.tail (s2 (by decide))
      (Reads.head _ ((attrLine_reads (k := c!"ice-ufrag") (anyValue_reads h r)).pmap _).attempt)))
  | icePwd v =>
    simp only [SessAttr.show, List.append_assoc]
    obtain ⟨s0, s1, s2, s3, _⟩ := sessSkip env c!"a=ice-pwd:" (v ++ (nl ++ r))
    exact Reads.tail (s0 (by decide)) (Reads.tail (s1 (by decide)) (Reads.tail (s2 (by decide)) (Reads.tail (s3 (by decide))
      (Reads.head _ ((attrLine_reads (k := c!"ice-pwd") (anyValue_reads h r)).pmap _).attempt))))
  | iceOptions v =>
    simp only [SessAttr.show, List.append_assoc]
    obtain ⟨s0, s1, s2, s3, s4, _⟩ := sessSkip env c!"a=ice-options:" (v ++ (nl ++ r))
    exact Reads.tail (s0 (by decide)) (Reads.tail (s1 (by decide)) (Reads.tail (s2 (by decide)) (Reads.tail (s3 (by decide)) (Reads.tail (s4 (by decide))
      (Reads.head _ ((attrLine_reads (k := c!"ice-options") (anyValue_reads h r)).pmap _).attempt)))))
  | fingerprint f =>
    simp only [SessAttr.show, List.append_assoc]
    obtain ⟨s0, s1, s2, s3, s4, s5, _⟩ := sessSkip env c!"a=fingerprint:" (f.hash ++ (c!" " ++ (showFinger f.bytes ++ (nl ++ r))))
    exact Reads.tail (s0 (by decide)) (Reads.tail (s1 (by decide)) (Reads.tail (s2 (by decide)) (Reads.tail (s3 (by decide)) (Reads.tail (s4 (by decide))
      (Reads.tail (s5 (by decide)) (Reads.head _ ((finger_reads f h r).pmap _).attempt))))))
  | setup s =>
    simp only [SessAttr.show, List.append_assoc]
    obtain ⟨s0, s1, s2, s3, s4, s5, s6, _⟩ := sessSkip env c!"a=setup:" (showSetup s ++ (nl ++ r))
    exact Reads.tail (s0 (by decide)) (Reads.tail (s1 (by decide)) (Reads.tail (s2 (by decide)) (Reads.tail (s3 (by decide)) (Reads.tail (s4 (by decide))
      (Reads.tail (s5 (by decide)) (Reads.tail (s6 (by decide)) (Reads.head _ ((setup_reads s r).pmap _).attempt)))))))
  | candidate c =>
    have e : (SessAttr.candidate c).show env ++ r = c!"a=candidate:" ++ (c.foundation ++ spaced (candWords env c) ++ (nl ++ r)) := by
      simp only [SessAttr.show, show_words, List.append_assoc]; rfl
    have e2 : (SessAttr.candidate c).show env ++ r = c!"a=" ++ (c.show env ++ (nl ++ r)) := by simp only [SessAttr.show, List.append_assoc]
    have key := (candAttr_reads env henv.ip c h r).pmap SessAttr.candidate
    rw [← e2] at key
    obtain ⟨s0, s1, s2, s3, s4, s5, s6, s7, _⟩ := sessSkip env c!"a=candidate:" (c.foundation ++ spaced (candWords env c) ++ (nl ++ r))
    rw [← e] at s0 s1 s2 s3 s4 s5 s6 s7
    exact Reads.tail (s0 (by decide)) (Reads.tail (s1 (by decide)) (Reads.tail (s2 (by decide)) (Reads.tail (s3 (by decide)) (Reads.tail (s4 (by decide))
      (Reads.tail (s5 (by decide)) (Reads.tail (s6 (by decide)) (Reads.tail (s7 (by decide)) (Reads.head _ key.attempt))))))))
  | endOfCandidates =>
    obtain ⟨s0, s1, s2, s3, s4, s5, s6, s7, s8, _⟩ := sessSkip env c!"a=end-of-candidates" (nl ++ r)
    exact Reads.tail (s0 (by decide)) (Reads.tail (s1 (by decide)) (Reads.tail (s2 (by decide)) (Reads.tail (s3 (by decide)) (Reads.tail (s4 (by decide))
      (Reads.tail (s5 (by decide)) (Reads.tail (s6 (by decide)) (Reads.tail (s7 (by decide)) (Reads.tail (s8 (by decide))
      (Reads.head _ ((attrFlag_reads (k := c!"end-of-candidates")).pmap _).attempt)))))))))
  | unused v =>
    simp only [SessAttr.show, List.append_assoc]
    exact sess_unused env v h.1 h r

end Str0m.Sdp
