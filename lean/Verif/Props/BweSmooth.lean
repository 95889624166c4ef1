import Verif.Props.BweRate

/-! C111: what the application is told of the estimate. -/

namespace Str0m.BwEst
open Str0m.Pacer (Bitrate SEC MS mulDur divDur satSub alreadyHappened notHappening)

theorem toldLast_snoc (os : List Out) (o : Out) :
    toldLast (os ++ [o]) = match o with | .estimate r => some r | _ => toldLast os := by
  induction os with
  | nil => cases o <;> rfl
  | cons x os ih => cases x <;> cases o <;> simp_all [toldLast]

theorem trim_suffix (now : Nat) (l : List (Nat × Bitrate)) : ∃ pre, l = pre ++ trim now l := by
  induction l with
  | nil => exact ⟨[], rfl⟩
  | cons x l ih =>
    cases l with
    | nil => exact ⟨[], rfl⟩
    | cons y rest =>
      unfold trim
      split
      · obtain ⟨pre, hp⟩ := ih
        exact ⟨x :: pre, by rw [List.cons_append, ← hp]⟩
      · exact ⟨[], rfl⟩

theorem trim_last (now : Nat) (l : List (Nat × Bitrate)) : (trim now l).getLast? = l.getLast? := by
  induction l with
  | nil => rfl
  | cons x l ih =>
    cases l with
    | nil => rfl
    | cons y rest =>
      unfold trim
      split
      · rw [ih]; simp
      · rfl

theorem trim_young (now : Nat) (l : List (Nat × Bitrate)) (hs : l.Pairwise (fun x y => x.1 ≤ y.1)) :
    ∀ x ∈ (trim now l).dropLast, now - x.1 ≤ 3 * SEC := by
  induction l with
  | nil => simp [trim]
  | cons x l ih =>
    cases l with
    | nil => simp [trim]
    | cons y rest =>
      unfold trim
      split
      · exact ih (List.pairwise_cons.mp hs).2
      · rename_i h
        intro z hz
        have hz' := List.mem_of_mem_dropLast hz
        simp only [List.mem_cons] at hz'
        rcases hz' with rfl | hz'
        · omega
        · have := (List.pairwise_cons.mp hs).1 z (by simpa using hz')
          omega

/-- The smoother after a wake-up -/
theorem timeout_smoother (b : Bwe) (now : Nat) (p : Bool) (o : Oracle) (h : b.delay.last ≠ none) :
    ∃ e, estimateAfter b now p o = some e ∧ (step b (.timeout now p o)).1.smoother = b.smoother.record now e := by
  obtain ⟨e, he⟩ := lastEstimate_some (b.before now o) o (delay_timeout_some _ o now h)
  have hea := (lastUpdated_after b now p o h).2
  refine ⟨e, hea.trans he, ?_⟩
  have hd : ∀ c, ({ b.prepared p now o with control := c } : Bwe).lastEstimate o = some e := by
    intro c
    rw [← he]
    exact lastEstimate_of_delay (by rw [prepared_delay]; rfl) o
  have hsm : (b.prepared p now o).smoother = b.smoother := by
    have hp : ∀ (x : Bwe), (x.propagate o).smoother = x.smoother := by
      intro x
      unfold Bwe.propagate
      split
      · rfl
      · split <;> rfl
    unfold Bwe.prepared
    simp only
    split <;> simp [hp]
  have hH : (b.handleTimeout p now o).1.smoother = b.smoother.record now e := by
    unfold Bwe.handleTimeout
    rw [sendSideTimeout_eq]
    simp only
    split
    · rename_i e' h'
      rw [hd] at h'
      cases h'
      simp [hsm]
    · rename_i h'
      rw [hd] at h'
      exact absurd h' (by simp)
  rw [← hH]
  unfold step
  simp only
  generalize b.handleTimeout p now o = r
  obtain ⟨B, r2⟩ := r
  cases r2 with
  | none => rfl
  | some x =>
    simp only
    split <;> rfl

theorem other_smoother (b : Bwe) (e : Event) (h : ∀ now p o, e ≠ .timeout now p o) (hp : e ≠ .poll) :
    (step b e).1.smoother = b.smoother ∧ (step b e).2 = .quiet := by
  cases e with
  | timeout now p o => exact absurd rfl (h now p o)
  | report rs now o =>
    have hp : ∀ (x : Bwe), (x.propagate o).smoother = x.smoother := by
      intro x
      unfold Bwe.propagate
      split
      · rfl
      · split <;> rfl
    refine ⟨?_, rfl⟩
    simp only [step, Bwe.update]
    split
    · rfl
    · split
      · rfl
      · rw [hp]
  | completed now id => exact ⟨rfl, rfl⟩
  | desired v => exact ⟨rfl, rfl⟩
  | reset i => exact ⟨rfl, rfl⟩
  | poll => exact absurd rfl hp

/-- What polling does -/
theorem poll_cases (s : Smoother) :
    (s.poll.1.estimates = s.estimates) ∧
    ((s.poll.2 = none ∧ s.poll.1.emitted = s.emitted) ∨ ∃ r, s.poll.2 = some r ∧ s.poll.1.emitted = some r ∧ s.estimates ≠ [] ∧
      r = average s.estimates ∧ ((s.estimates.length = 1 ∧ s.emitted ≠ some r) ∨ ∀ e, s.emitted = some e → inTolerance e r = false)) ∧
    (s.poll.1.maybeEmit = false → s.poll.1.estimates.length = 1 →
      (s.maybeEmit = false → s.emitted = some (average s.estimates)) → s.poll.1.emitted = some (average s.estimates)) := by
  unfold Smoother.poll
  split
  · rename_i h
    refine ⟨rfl, .inl ⟨rfl, rfl⟩, fun _ _ h' => h' (by simpa using h)⟩
  · split
    · rename_i h
      refine ⟨rfl, .inl ⟨rfl, rfl⟩, fun _ hl => ?_⟩
      simp only [List.isEmpty_iff] at h
      simp [h] at hl
    · rename_i hne
      simp only [List.isEmpty_iff] at hne
      simp only
      split
      · rename_i h
        refine ⟨rfl, .inl ⟨rfl, rfl⟩, fun _ hl _ => ?_⟩
        simp only [Bool.and_eq_true, Bool.not_eq_true', Bool.and_eq_false_iff, beq_eq_false_iff_ne, bne_eq_false_iff_eq] at h
        rcases h.1 with h1 | h1
        · exact absurd hl h1
        · exact h1
      · rename_i h
        refine ⟨rfl, .inr ⟨_, rfl, rfl, hne, rfl, ?_⟩, fun _ _ _ => rfl⟩
        simp only [Bool.and_eq_true, Bool.not_eq_true', not_and_or, Bool.not_eq_false, Bool.and_eq_true, beq_iff_eq, bne_iff_ne] at h
        rcases h with h | h
        · exact .inl h
        · right
          intro e he
          unfold Smoother.deviates at h
          rw [he] at h
          simpa using h

theorem poll_step (b : Bwe) : (step b .poll).1.smoother = b.smoother.poll.1 ∧
    ((b.smoother.poll.2 = none ∧ (step b .poll).2 = .quiet) ∨ ∃ r, b.smoother.poll.2 = some r ∧ (step b .poll).2 = .estimate r) := by
  simp only [step]
  generalize b.smoother.poll = q
  obtain ⟨x, y⟩ := q
  cases y with
  | none => exact ⟨rfl, .inl ⟨rfl, rfl⟩⟩
  | some r => exact ⟨rfl, .inr ⟨r, rfl, rfl⟩⟩

/-- What is known of the smoother after a history -/
structure Smooth (i : Bitrate) (es : List Event) : Prop where
  told : (run (Bwe.new i) es).smoother.emitted = toldLast (outs (Bwe.new i) es)
  quiet : (run (Bwe.new i) es).smoother.maybeEmit = false → (run (Bwe.new i) es).smoother.estimates.length = 1 →
    (run (Bwe.new i) es).smoother.emitted = some (average (run (Bwe.new i) es).smoother.estimates)
  sorted : (run (Bwe.new i) es).smoother.estimates.Pairwise (fun x y => x.1 ≤ y.1)
  source : ∀ x ∈ (run (Bwe.new i) es).smoother.estimates, ∃ pre p o post, es = pre ++ .timeout x.1 p o :: post ∧
    estimateAfter (run (Bwe.new i) pre) x.1 p o = some x.2
  last : ∀ x, (run (Bwe.new i) es).smoother.estimates.getLast? = some x → Current (Bwe.new i) es x.2
  young : ∀ x ∈ (run (Bwe.new i) es).smoother.estimates.dropLast, ∀ t q r, Event.timeout t q r ∈ es → t ≤ x.1 + 3 * SEC

theorem current_other {b : Bwe} {es : List Event} {v : Bitrate} (h : Current b es v) (e : Event)
    (he : ∀ t q r, e = .timeout t q r → estimateAfter (run b es) t q r = some v) : Current b (es ++ [e]) v := by
  obtain ⟨pre, now, p, o, post, h1, h2, h3⟩ := h
  refine ⟨pre, now, p, o, post ++ [e], by rw [h1]; simp, h2, ?_⟩
  intro pre' t q r post' hp
  rcases List.eq_nil_or_concat post' with rfl | ⟨post'', x, rfl⟩
  · obtain ⟨h4, h5⟩ := List.append_inj' hp rfl
    cases h5
    have := he t q r rfl
    rw [h1] at this
    rw [← h4]; exact this
  · rw [List.concat_eq_append, show pre' ++ Event.timeout t q r :: (post'' ++ [x]) = (pre' ++ Event.timeout t q r :: post'') ++ [x] by simp] at hp
    obtain ⟨h4, _⟩ := List.append_inj' hp rfl
    exact h3 _ _ _ _ _ h4

theorem smooth_run (i : Bitrate) (es : List Event) (hf : Forward es) : Smooth i es := by
  induction es using List.reverseRecOn with
  | nil =>
    refine ⟨rfl, ?_, ?_, ?_, ?_, ?_⟩ <;> simp [run, Bwe.new]
  | append_singleton es e ih =>
    obtain ⟨hf1, _, hf3⟩ := forward_append hf
    obtain ⟨iT, iQ, iS, iSrc, iL, iY⟩ := ih hf1
    have source : ∀ x ∈ (run (Bwe.new i) es).smoother.estimates, ∃ pre p o post, es ++ [e] = pre ++ .timeout x.1 p o :: post ∧
        estimateAfter (run (Bwe.new i) pre) x.1 p o = some x.2 := by
      intro x hx
      obtain ⟨pre, p, o, post, h1, h2⟩ := iSrc x hx
      exact ⟨pre, p, o, post ++ [e], by rw [h1]; simp, h2⟩
    by_cases ht : ∃ now p o, e = .timeout now p o
    · obtain ⟨now, p, o, rfl⟩ := ht
      obtain ⟨v, hv, hs⟩ := timeout_smoother (run (Bwe.new i) es) now p o (delay_some i es)
      have hmem : ∀ x ∈ (run (Bwe.new i) es).smoother.estimates, x.1 ≤ now := by
        intro x hx
        obtain ⟨pre, p', o', post, h1, _⟩ := iSrc x hx
        exact hf3 x.1 p' o' now p o (by rw [h1]; simp) (by simp)
      have hout : toldLast (outs (Bwe.new i) (es ++ [.timeout now p o])) = toldLast (outs (Bwe.new i) es) := by
        rw [outs_append, outs, outs, toldLast_snoc]
        have : ∀ r, (step (run (Bwe.new i) es) (.timeout now p o)).2 ≠ .estimate r := by
          intro r
          unfold step
          simp only
          split
          · simp
          · split <;> simp
        split
        · rename_i r hr; exact absurd hr (this r)
        · rfl
      generalize hS : (run (Bwe.new i) es).smoother = S at *
      -- the list before trimming
      obtain ⟨P, hP, hPs, hPsrc, hPl, hPeq⟩ : ∃ P : List (Nat × Bitrate),
          P = (if (S.estimates.getLast?.map (·.2) != some v) then S.estimates ++ [(now, v)] else S.estimates) ∧
          P.Pairwise (fun x y => x.1 ≤ y.1) ∧
          (∀ x ∈ P, ∃ pre p' o' post, es ++ [.timeout now p o] = pre ++ .timeout x.1 p' o' :: post ∧
            estimateAfter (run (Bwe.new i) pre) x.1 p' o' = some x.2) ∧
          (∀ x, P.getLast? = some x → Current (Bwe.new i) (es ++ [.timeout now p o]) x.2) ∧
          ((S.estimates.getLast?.map (·.2) != some v) = false → P = S.estimates) := by
        refine ⟨_, rfl, ?_⟩
        split
        · rename_i hc
          refine ⟨?_, ?_, ?_, by rw [hc]; simp⟩
          · rw [List.pairwise_append]
            refine ⟨iS, by simp, ?_⟩
            intro a ha c hc
            rw [List.mem_singleton.mp hc]
            exact hmem a ha
          · intro x hx
            simp only [List.mem_append, List.mem_singleton] at hx
            rcases hx with hx | rfl
            · exact source x hx
            · exact ⟨es, p, o, [], rfl, hv⟩
          · intro x hx
            simp only [List.getLast?_append, List.getLast?_singleton, Option.some_or] at hx
            obtain rfl := Option.some.inj hx
            refine ⟨es, now, p, o, [], rfl, hv, ?_⟩
            intro pre' t q r post' hh
            simp at hh
        · rename_i hc
          refine ⟨iS, source, ?_, fun _ => rfl⟩
          intro x hx
          refine current_other (iL x hx) _ ?_
          intro t q r hh
          cases hh
          rw [hx] at hc
          simp only [Option.map_some, bne_iff_ne, ne_eq, Decidable.not_not, Option.some.injEq] at hc
          rw [hv, hc]
      have hest : (run (Bwe.new i) (es ++ [.timeout now p o])).smoother.estimates = trim now P := by
        rw [run_snoc, hs, hP]; rfl
      have hem : (run (Bwe.new i) (es ++ [.timeout now p o])).smoother.emitted = S.emitted := by
        rw [run_snoc, hs]; rfl
      have hme : (run (Bwe.new i) (es ++ [.timeout now p o])).smoother.maybeEmit =
          (S.maybeEmit || (S.estimates.getLast?.map (·.2) != some v) || decide ((trim now P).length < P.length)) := by
        rw [run_snoc, hs, hP]; rfl
      obtain ⟨pre, hpre⟩ := trim_suffix now P
      refine ⟨?_, ?_, ?_, ?_, ?_, ?_⟩
      · rw [hem, hout]; exact iT
      · rw [hem, hest, hme]
        intro hq hl
        simp only [Bool.or_eq_false_iff, decide_eq_false_iff_not, not_lt] at hq
        have hnil : pre = [] := by
          have := congrArg List.length hpre
          rw [List.length_append] at this
          exact List.length_eq_zero_iff.mp (by omega)
        rw [hnil, List.nil_append] at hpre
        rw [← hpre] at hl ⊢
        rw [hPeq hq.1.2] at hl ⊢
        exact iQ hq.1.1 hl
      · rw [hest]
        rw [hpre] at hPs
        exact (List.pairwise_append.mp hPs).2.1
      · rw [hest]
        intro x hx
        exact hPsrc x (by rw [hpre]; exact List.mem_append_right _ hx)
      · rw [hest, trim_last]
        exact hPl
      · rw [hest]
        intro x hx t q r htq
        have h3 := trim_young now P hPs x hx
        have ht : t ≤ now := by
          simp only [List.mem_append, List.mem_singleton] at htq
          rcases htq with htq | htq
          · exact hf3 t q r now p o htq (by simp)
          · cases htq; exact le_refl _
        omega
    · have hno : ∀ t q r, e ≠ .timeout t q r := fun t q r hh => ht ⟨t, q, r, hh⟩
      have hyoung : ∀ x ∈ (run (Bwe.new i) es).smoother.estimates.dropLast, ∀ t q r, Event.timeout t q r ∈ es ++ [e] → t ≤ x.1 + 3 * SEC := by
        intro x hx t q r hm
        simp only [List.mem_append, List.mem_singleton] at hm
        rcases hm with hm | hm
        · exact iY x hx t q r hm
        · exact absurd hm.symm (hno t q r)
      have hlast : ∀ x, (run (Bwe.new i) es).smoother.estimates.getLast? = some x → Current (Bwe.new i) (es ++ [e]) x.2 :=
        fun x hx => current_other (iL x hx) e (fun t q r hh => absurd hh (hno t q r))
      by_cases hp : e = .poll
      · subst hp
        have hc := poll_cases (run (Bwe.new i) es).smoother
        obtain ⟨h1, h2'⟩ := poll_step (run (Bwe.new i) es)
        rw [← run_snoc] at h1
        have h2 : toldLast (outs (Bwe.new i) (es ++ [.poll])) = (run (Bwe.new i) es).smoother.poll.2.or (toldLast (outs (Bwe.new i) es)) := by
          rw [outs_append, outs, outs, toldLast_snoc]
          rcases h2' with ⟨g1, g2⟩ | ⟨r, g1, g2⟩ <;> rw [g1, g2] <;> rfl
        obtain ⟨e1, e2, e3⟩ := hc
        refine ⟨?_, ?_, ?_, ?_, ?_, ?_⟩
        · rw [h1, h2]
          rcases e2 with ⟨g1, g2⟩ | ⟨r, g1, g2, _⟩
          · rw [g1, g2]; exact iT
          · rw [g1, g2]; rfl
        · rw [h1, e1]
          intro q1 q2
          exact e3 q1 (by rw [e1]; exact q2) (fun hq => iQ hq q2)
        · rw [h1, e1]; exact iS
        · rw [h1, e1]; exact source
        · rw [h1, e1]; exact hlast
        · rw [h1, e1]; exact hyoung
      · obtain ⟨h1, h2⟩ := other_smoother (run (Bwe.new i) es) e hno hp
        have h3 : toldLast (outs (Bwe.new i) (es ++ [e])) = toldLast (outs (Bwe.new i) es) := by
          rw [outs_append, outs, outs, toldLast_snoc, h2]
        refine ⟨?_, ?_, ?_, ?_, ?_, ?_⟩ <;> rw [run_snoc, h1]
        · rw [h3]; exact iT
        · exact iQ
        · exact iS
        · exact source
        · exact hlast
        · exact hyoung

theorem sum_low (l : List (Nat × Bitrate)) (h : l ≠ []) : ∃ a ∈ l, (l.length : ℚ) * a.2 ≤ (l.map (·.2)).sum := by
  induction l with
  | nil => exact absurd rfl h
  | cons x l ih =>
    by_cases hl : l = []
    · subst hl; exact ⟨x, by simp, by simp⟩
    · obtain ⟨a, ha, hs⟩ := ih hl
      have hlen : (0 : ℚ) ≤ l.length := by positivity
      simp only [List.map_cons, List.sum_cons, List.length_cons, Nat.cast_add, Nat.cast_one]
      by_cases hx : x.2 ≤ a.2
      · exact ⟨x, by simp, by nlinarith⟩
      · exact ⟨a, by simp [ha], by nlinarith⟩

theorem sum_high (l : List (Nat × Bitrate)) (h : l ≠ []) : ∃ a ∈ l, (l.map (·.2)).sum ≤ (l.length : ℚ) * a.2 := by
  induction l with
  | nil => exact absurd rfl h
  | cons x l ih =>
    by_cases hl : l = []
    · subst hl; exact ⟨x, by simp, by simp⟩
    · obtain ⟨a, ha, hs⟩ := ih hl
      have hlen : (0 : ℚ) ≤ l.length := by positivity
      simp only [List.map_cons, List.sum_cons, List.length_cons, Nat.cast_add, Nat.cast_one]
      by_cases hx : x.2 ≤ a.2
      · exact ⟨a, by simp [ha], by nlinarith⟩
      · exact ⟨x, by simp, by nlinarith⟩

theorem average_between (l : List (Nat × Bitrate)) (h : l ≠ []) : ∃ a ∈ l, ∃ b ∈ l, a.2 ≤ average l ∧ average l ≤ b.2 := by
  have hlen : (0 : ℚ) < l.length := by
    have := List.length_pos_of_ne_nil h
    exact_mod_cast this
  obtain ⟨a, ha, h1⟩ := sum_low l h
  obtain ⟨b, hb, h2⟩ := sum_high l h
  refine ⟨a, ha, b, hb, ?_, ?_⟩
  · unfold average
    rw [le_div_iff₀ hlen]; linarith
  · unfold average
    rw [div_le_iff₀ hlen]; linarith

theorem told_recent (i : Bitrate) (es : List Event) (hf : Forward es) :
    ∀ x ∈ (run (Bwe.new i) es).smoother.estimates, Current (Bwe.new i) es x.2 ∨ Lately (Bwe.new i) es x.2 := by
  have hs := smooth_run i es hf
  intro x hx
  have hne : (run (Bwe.new i) es).smoother.estimates ≠ [] := List.ne_nil_of_mem hx
  rw [← List.dropLast_append_getLast hne, List.mem_append, List.mem_singleton] at hx
  rcases hx with hx | hx
  · right
    obtain ⟨pre, p, o, post, h1, h2⟩ := hs.source x (List.mem_of_mem_dropLast hx)
    exact ⟨pre, x.1, p, o, post, h1, h2, hs.young x hx⟩
  · left
    exact hs.last x (by rw [hx]; exact List.getLast?_eq_getLast_of_ne_nil hne)

/-- C111: the estimate that the application is told lies between two estimates, each of them the current one or one that was the
estimate after a wake-up in the last three seconds -/
theorem C111_between (i : Bitrate) (es : List Event) (r : Bitrate) (hf : Forward es)
    (h : (step (run (Bwe.new i) es) .poll).2 = .estimate r) :
    ∃ lo hi, (Current (Bwe.new i) es lo ∨ Lately (Bwe.new i) es lo) ∧ (Current (Bwe.new i) es hi ∨ Lately (Bwe.new i) es hi) ∧
      lo ≤ r ∧ r ≤ hi := by
  rcases (poll_step (run (Bwe.new i) es)).2 with ⟨_, h2⟩ | ⟨r', h1, h2⟩
  · rw [h] at h2; exact absurd h2 (by simp)
  · rw [h] at h2
    cases h2
    obtain ⟨_, ⟨g, _⟩ | ⟨r', g1, _, g3, g4, _⟩, _⟩ := poll_cases (run (Bwe.new i) es).smoother
    · rw [h1] at g; exact absurd g (by simp)
    · rw [h1] at g1
      obtain rfl := Option.some.inj g1
      obtain ⟨a, ha, b, hb, h3, h4⟩ := average_between _ g3
      rw [← g4] at h3 h4
      exact ⟨a.2, b.2, told_recent i es hf a ha, told_recent i es hf b hb, h3, h4⟩

/-- C111: the application is told again only when the new value is off by 5 % or more, or is the current estimate and not the value
it was told last -/
theorem C111_again (i : Bitrate) (es : List Event) (r1 r2 : Bitrate) (hf : Forward es) (h1 : toldLast (outs (Bwe.new i) es) = some r1)
    (hpos : 0 < r1) (h : (step (run (Bwe.new i) es) .poll).2 = .estimate r2) :
    r2 ≠ r1 ∧ (r2 ≤ r1 * (95 / 100) ∨ r1 * (105 / 100) ≤ r2 ∨ Current (Bwe.new i) es r2) := by
  have hs := smooth_run i es hf
  rcases (poll_step (run (Bwe.new i) es)).2 with ⟨_, h2⟩ | ⟨r', h3, h2⟩
  · rw [h] at h2; exact absurd h2 (by simp)
  · rw [h] at h2
    cases h2
    obtain ⟨_, ⟨g, _⟩ | ⟨r', g1, _, g3, g4, g5⟩, _⟩ := poll_cases (run (Bwe.new i) es).smoother
    · rw [h3] at g; exact absurd g (by simp)
    · rw [h3] at g1
      obtain rfl := Option.some.inj g1
      rw [hs.told, h1] at g5
      rcases g5 with ⟨hl, hne⟩ | hd
      · refine ⟨fun hh => hne (by rw [hh]), .inr (.inr ?_)⟩
        obtain ⟨x, hx⟩ := List.length_eq_one_iff.mp hl
        have : r2 = x.2 := by rw [g4, hx]; simp [average]
        rw [this]
        exact hs.last x (by rw [hx]; rfl)
      · have := hd r1 rfl
        unfold inTolerance at this
        simp only [Bool.and_eq_false_iff, decide_eq_false_iff_not, not_lt, gt_iff_lt] at this
        constructor
        · rintro rfl
          rcases this with h | h <;> linarith
        · rcases this with h | h
          · left; linarith
          · right; left; linarith

/-- Nothing is recorded while the estimate stays the same -/
theorem same_estimate (i : Bitrate) (es : List Event) (T1 : Nat) (p1 : Bool) (o1 : Oracle) (mid : List Event) (v : Bitrate)
    (hf : Forward (es ++ .timeout T1 p1 o1 :: mid)) (h1 : estimateAfter (run (Bwe.new i) es) T1 p1 o1 = some v)
    (hm : ∀ pre t q r post, mid = pre ++ .timeout t q r :: post →
      estimateAfter (run (Bwe.new i) (es ++ .timeout T1 p1 o1 :: pre)) t q r = some v) :
    (∃ x, (run (Bwe.new i) (es ++ .timeout T1 p1 o1 :: mid)).smoother.estimates.getLast? = some x ∧ x.2 = v) ∧
    ∀ x ∈ (run (Bwe.new i) (es ++ .timeout T1 p1 o1 :: mid)).smoother.estimates.dropLast, x.1 ≤ T1 := by
  have rec_cases : ∀ (S : Smoother) (now : Nat),
      (∃ x, (S.record now v).estimates.getLast? = some x ∧ x.2 = v) ∧
      ((∃ x, S.estimates.getLast? = some x ∧ x.2 = v) → ∀ x ∈ (S.record now v).estimates.dropLast, x ∈ S.estimates.dropLast) := by
    intro S now
    have hd : ∀ (P : List (Nat × Bitrate)) (x), x ∈ (trim now P).dropLast → x ∈ P.dropLast := by
      intro P x hx
      obtain ⟨pre, hp⟩ := trim_suffix now P
      have hne : trim now P ≠ [] := by
        intro h0; rw [h0] at hx; simp at hx
      rw [hp, List.dropLast_append_of_ne_nil hne]
      exact List.mem_append_right _ hx
    constructor
    · simp only [Smoother.record, trim_last]
      split
      · exact ⟨(now, v), by simp, rfl⟩
      · rename_i hc
        simp only [bne_iff_ne, ne_eq, Decidable.not_not, Option.map_eq_some_iff] at hc
        exact hc
    · rintro ⟨y, hy, rfl⟩ x hx
      have hc : (S.estimates.getLast?.map (·.2) != some y.2) = false := by rw [hy]; simp
      simp only [Smoother.record, hc] at hx
      exact hd _ _ hx
  induction mid using List.reverseRecOn with
  | nil =>
    obtain ⟨hf1, _, hf3⟩ := forward_append hf
    obtain ⟨e, he, hs⟩ := timeout_smoother (run (Bwe.new i) es) T1 p1 o1 (delay_some i es)
    rw [h1] at he
    cases he
    rw [run_snoc, hs]
    refine ⟨(rec_cases _ _).1, ?_⟩
    have hsm := smooth_run i (es ++ [.timeout T1 p1 o1]) hf
    rw [← hs, ← run_snoc]
    intro x hx
    obtain ⟨pre, p, o, post, g1, _⟩ := hsm.source x (List.mem_of_mem_dropLast hx)
    have hmem : Event.timeout x.1 p o ∈ es ++ [.timeout T1 p1 o1] := by rw [g1]; simp
    simp only [List.mem_append, List.mem_singleton] at hmem
    rcases hmem with hm | hm
    · exact hf3 _ _ _ _ _ _ hm (List.mem_singleton.mpr rfl)
    · cases hm; exact le_refl _
  | append_singleton mid e ih =>
    have hrun : es ++ .timeout T1 p1 o1 :: (mid ++ [e]) = (es ++ .timeout T1 p1 o1 :: mid) ++ [e] := by simp
    rw [hrun] at hf ⊢
    obtain ⟨hf1, _, _⟩ := forward_append hf
    obtain ⟨i1, i2⟩ := ih hf1 (fun pre t q r post hh => hm pre t q r (post ++ [e]) (by rw [hh]; simp))
    rw [run_snoc]
    by_cases ht : ∃ now p o, e = .timeout now p o
    · obtain ⟨now, p, o, rfl⟩ := ht
      obtain ⟨e, he, hs⟩ := timeout_smoother (run (Bwe.new i) (es ++ .timeout T1 p1 o1 :: mid)) now p o (delay_some i _)
      rw [hm mid now p o [] rfl] at he
      cases he
      rw [hs]
      exact ⟨(rec_cases _ _).1, fun x hx => i2 x ((rec_cases _ now).2 i1 x hx)⟩
    · by_cases hp : e = .poll
      · subst hp
        rw [(poll_step _).1, (poll_cases _).1]
        exact ⟨i1, i2⟩
      · rw [(other_smoother _ e (fun t q r hh => ht ⟨t, q, r, hh⟩) hp).1]
        exact ⟨i1, i2⟩

/-- C111: when the estimate has been the same after every wake-up for more than three seconds, then once the application asks, what it
was told last is that estimate -/
theorem C111_settles (i : Bitrate) (es mid : List Event) (T1 T2 : Nat) (p1 p2 : Bool) (o1 o2 : Oracle) (v : Bitrate)
    (hf : Forward (es ++ .timeout T1 p1 o1 :: (mid ++ [.timeout T2 p2 o2]))) (hT : T1 + 3 * SEC < T2)
    (h1 : estimateAfter (run (Bwe.new i) es) T1 p1 o1 = some v)
    (hm : ∀ pre t q r post, mid ++ [.timeout T2 p2 o2] = pre ++ .timeout t q r :: post →
      estimateAfter (run (Bwe.new i) (es ++ .timeout T1 p1 o1 :: pre)) t q r = some v) :
    toldLast (outs (Bwe.new i) (es ++ .timeout T1 p1 o1 :: (mid ++ [.timeout T2 p2 o2]) ++ [.poll])) = some v := by
  obtain ⟨⟨x, hx, hxv⟩, hold⟩ := same_estimate i es T1 p1 o1 _ v hf h1 hm
  have hs := smooth_run i _ hf
  have hfp : Forward (es ++ .timeout T1 p1 o1 :: (mid ++ [.timeout T2 p2 o2]) ++ [.poll]) := by
    have : ∀ l, Forward l → Forward (l ++ [Event.poll]) := by
      intro l
      induction l with
      | nil => intro _; exact trivial
      | cons e l ih =>
        intro h
        cases e with
        | timeout now p o =>
          refine ⟨fun t p o ht => ?_, ih h.2⟩
          rcases List.mem_append.mp ht with ht | ht
          · exact h.1 t p o ht
          · exact absurd (List.mem_singleton.mp ht) (by simp)
        | _ => exact ih h
    exact this _ hf
  have hs2 := smooth_run i _ hfp
  have hsingle : (run (Bwe.new i) (es ++ .timeout T1 p1 o1 :: (mid ++ [.timeout T2 p2 o2]))).smoother.estimates = [x] := by
    have hdl : (run (Bwe.new i) (es ++ .timeout T1 p1 o1 :: (mid ++ [.timeout T2 p2 o2]))).smoother.estimates.dropLast = [] := by
      by_contra hne
      obtain ⟨y, hy⟩ := List.exists_mem_of_ne_nil _ hne
      have h3 := hs.young y hy T2 p2 o2 (by simp)
      have h4 := hold y hy
      omega
    have hne : (run (Bwe.new i) (es ++ .timeout T1 p1 o1 :: (mid ++ [.timeout T2 p2 o2]))).smoother.estimates ≠ [] := by
      intro h0; rw [h0] at hx; simp at hx
    rw [← List.dropLast_append_getLast hne, hdl]
    rw [List.getLast?_eq_getLast_of_ne_nil hne] at hx
    rw [Option.some.inj hx]; rfl
  have hav : average [x] = v := by simp [average, hxv]
  rw [← hs2.told]
  rw [run_snoc, (poll_step _).1]
  have hq := hs.quiet
  generalize (run (Bwe.new i) (es ++ .timeout T1 p1 o1 :: (mid ++ [.timeout T2 p2 o2]))).smoother = S at *
  obtain ⟨e1, e2, e3⟩ := poll_cases S
  rw [hsingle, hav] at e2 e3 hq
  have hmq : S.poll.1.maybeEmit = false := by
    unfold Smoother.poll
    split
    · rename_i h; simpa using h
    · split
      · rename_i h; rw [hsingle] at h; simp at h
      · simp only; split <;> rfl
  exact e3 hmq (by rw [e1, hsingle]; rfl) (fun h => hq h rfl)

/-- The hypotheses of `C111_between`, `C111_again` and `C111_settles` are met: the application is told 300 kbit/s, after the fall to
85 kbit/s the average 192.5 kbit/s, and three seconds later 85 kbit/s -/
def falling : List Event :=
  [.timeout (1000 * MS) true calm, .poll, .report [] (1100 * MS) { arriving100 with usage := .overuse },
   .timeout (1110 * MS) true calm, .poll, .timeout (3000 * MS) true calm, .poll, .timeout (4111 * MS) true calm, .poll]

theorem C111_example :
    outs (Bwe.new 300000) falling = [.quiet, .estimate 300000, .quiet, .quiet, .estimate 192500, .quiet, .quiet, .quiet, .estimate 85000] := by
  decide +kernel

end Str0m.BwEst
