import Verif.Model.Timeout
import Mathlib.Data.List.Induction
/-
  C45 (the soonest deadline), C46 (windowed sums).
-/
namespace Str0m.Timeout

/-- The result is the earlier of the two times. -/
def Least (r : Option Nat) (l : List (Option Nat)) : Prop :=
  (∀ x ∈ l, ∀ t, x = some t → ∃ t', r = some t' ∧ t' ≤ t) ∧ r ∈ none :: l

theorem soonest_le (a b : Option Nat × Reason) :
    (∀ t, a.1 = some t → ∃ t', (soonest a b).1 = some t' ∧ t' ≤ t) ∧ (∀ t, b.1 = some t → ∃ t', (soonest a b).1 = some t' ∧ t' ≤ t) ∧
    (soonest a b = a ∨ soonest a b = b ∨ ((soonest a b) = (none, notHappening) ∧ a.1 = none ∧ b.1 = none)) := by
  obtain ⟨a, ra⟩ := a
  obtain ⟨b, rb⟩ := b
  cases a with
  | none =>
    cases b with
    | none => exact ⟨(fun t h => by cases h), (fun t h => by cases h), .inr (.inr ⟨rfl, rfl, rfl⟩)⟩
    | some b => exact ⟨(fun t h => by cases h), (fun t h => by cases h; exact ⟨_, rfl, Nat.le_refl _⟩), .inr (.inl rfl)⟩
  | some a =>
    cases b with
    | none => exact ⟨(fun t h => by cases h; exact ⟨_, rfl, Nat.le_refl _⟩), (fun t h => by cases h), .inl rfl⟩
    | some b =>
      show (∀ t, some a = some t → ∃ t', (if a < b then (some a, ra) else (some b, rb)).1 = some t' ∧ t' ≤ t) ∧ (∀ t, some b = some t → ∃ t', (if a < b then (some a, ra) else (some b, rb)).1 = some t' ∧ t' ≤ t) ∧
        ((if a < b then (some a, ra) else (some b, rb)) = (some a, ra) ∨ (if a < b then (some a, ra) else (some b, rb)) = (some b, rb) ∨ _)
      split
      · rename_i h
        refine ⟨(fun t h => by cases h; exact ⟨_, rfl, Nat.le_refl _⟩), fun t ht => ?_, .inl rfl⟩
        cases ht
        exact ⟨a, rfl, by omega⟩
      · rename_i h
        refine ⟨fun t ht => ?_, (fun t h => by cases h; exact ⟨_, rfl, Nat.le_refl _⟩), .inr (.inl rfl)⟩
        cases ht
        exact ⟨b, rfl, by omega⟩

theorem Least.soonest {a : Option Nat × Reason} {l : List (Option Nat)} (h : Least a.1 l) (b : Option Nat × Reason) :
    Least (soonest a b).1 (b.1 :: l) := by
  obtain ⟨h1, h2, h3⟩ := soonest_le a b
  constructor
  · intro x hx t ht
    rcases List.mem_cons.1 hx with hx | hx
    · subst hx; exact h2 t ht
    · obtain ⟨t', e1, e2⟩ := h.1 x hx t ht
      obtain ⟨t'', e3, e4⟩ := h1 t' e1
      exact ⟨t'', e3, by omega⟩
  · rcases h3 with e | e | e
    · rw [e]
      rcases List.mem_cons.1 h.2 with h' | h'
      · rw [h']; exact List.mem_cons_self ..
      · exact List.mem_cons_of_mem _ (List.mem_cons_of_mem _ h')
    · rw [e]; exact List.mem_cons_of_mem _ (List.mem_cons_self ..)
    · rw [e.1]; exact List.mem_cons_self ..

/-- The deadlines that the session looks at. -/
def Session.deadlines (s : Session) : List (Option Nat) :=
  [s.bwe.1, s.sendStream, firstOf s.paused, firstOf s.packetize, s.pacing.1, s.twcc, s.nack, s.feedback]

theorem session_least (s : Session) : Least s.pollTimeout.1 s.deadlines := by
  have h0 : Least ((s.feedback, (1 : Reason)) : Option Nat × Reason).1 [s.feedback] :=
    ⟨fun x hx t ht => ⟨t, by simp at hx; rw [← hx]; exact ht, Nat.le_refl _⟩, by simp⟩
  exact ((((((h0.soonest (s.nack, 2)).soonest (s.twcc, 3)).soonest s.pacing).soonest (firstOf s.packetize, 5)).soonest
    (firstOf s.paused, 6)).soonest (s.sendStream, 7)).soonest s.bwe

/-- All deadlines of the parts, each of the pausing checks and packetizers by itself. -/
def Parts.deadlines (p : Parts) : List (Option Nat) :=
  [p.dtls, p.ice, p.sctp, p.chan, p.stats, p.session.feedback, p.session.nack, p.session.twcc, p.session.pacing.1, p.session.sendStream, p.session.bwe.1] ++
    p.session.packetize ++ p.session.paused

theorem firstOf_mem : ∀ l : List (Option Nat), firstOf l ∈ none :: l
  | [] => by simp [firstOf]
  | some t :: l => by simp [firstOf]
  | none :: l => by
    have := firstOf_mem l
    unfold firstOf
    rcases List.mem_cons.1 this with h | h
    · rw [h]; exact List.mem_cons_self ..
    · exact List.mem_cons_of_mem _ (List.mem_cons_of_mem _ h)

/-- When all deadlines that are set in the list are the same, the first is the least. -/
theorem firstOf_least {l : List (Option Nat)} {c : Nat} (h : ∀ t, some t ∈ l → t = c) : ∀ t, some t ∈ l → firstOf l = some t := by
  induction l with
  | nil => intro t ht; cases ht
  | cons a l ih =>
    intro t ht
    cases a with
    | some a =>
      unfold firstOf
      rw [h a (List.mem_cons_self ..), h t ht]
    | none =>
      unfold firstOf
      refine ih (fun t ht => h t (List.mem_cons_of_mem _ ht)) t ?_
      rcases List.mem_cons.1 ht with ht | ht
      · cases ht
      · exact ht

theorem parts_least (p : Parts) : Least p.soonest.1 [p.stats, p.chan, p.sctp, p.session.pollTimeout.1, p.ice, p.dtls] := by
  have h0 : Least ((none, notHappening) : Option Nat × Reason).1 [] := ⟨(fun x hx => by cases hx), by simp⟩
  exact (((((h0.soonest (p.dtls, 10)).soonest (p.ice, 11)).soonest p.session.pollTimeout).soonest (p.sctp, 12)).soonest (p.chan, 13)).soonest (p.stats, 14)

/-- **C45** (partial: at most one receive stream waits for its pause check; `C45_violation_paused` shows the rest). The
timeout that is reported is never later than any deadline of any part (or is now, if that has passed), and it is one of
these deadlines, or now, or that there is none. Packetizing is always due at once (media/mod.rs 474-480: `c`). -/
theorem C45_soonest_partial (p : Parts) (far lastNow c : Nat) (hpack : ∀ t, some t ∈ p.session.packetize → t = c)
    (hpause : ∀ t u, some t ∈ p.session.paused → some u ∈ p.session.paused → t = u) :
    (∀ t, some t ∈ p.deadlines → p.next far lastNow ≤ max t lastNow) ∧
    (p.next far lastNow = lastNow ∨ p.next far lastNow = far ∨ some (p.next far lastNow) ∈ p.deadlines) ∧ lastNow ≤ p.next far lastNow := by
  have hL := parts_least p
  have hS := session_least p.session
  have key : ∀ t, some t ∈ p.deadlines → ∃ t', p.soonest.1 = some t' ∧ t' ≤ t := by
    have viaS : ∀ x ∈ p.session.deadlines, ∀ t, x = some t → ∃ t', p.soonest.1 = some t' ∧ t' ≤ t := by
      intro x hx t ht
      obtain ⟨t1, e1, e2⟩ := hS.1 x hx t ht
      obtain ⟨t2, e3, e4⟩ := hL.1 p.session.pollTimeout.1 (by simp) t1 e1
      exact ⟨t2, e3, by omega⟩
    intro t ht
    unfold Parts.deadlines at ht
    rcases List.mem_append.1 ht with ht | ht
    · rcases List.mem_append.1 ht with ht | ht
      · simp only [List.mem_cons, List.not_mem_nil, or_false] at ht
        rcases ht with h | h | h | h | h | h | h | h | h | h | h
        · exact hL.1 _ (by simp) t h.symm
        · exact hL.1 _ (by simp) t h.symm
        · exact hL.1 _ (by simp) t h.symm
        · exact hL.1 _ (by simp) t h.symm
        · exact hL.1 _ (by simp) t h.symm
        all_goals exact viaS _ (by simp [Session.deadlines]) t h.symm
      · exact viaS (firstOf p.session.packetize) (by simp [Session.deadlines]) t (firstOf_least hpack t ht)
    · exact viaS (firstOf p.session.paused) (by simp [Session.deadlines]) t (firstOf_least (c := t) (fun u hu => hpause u t hu ht) t ht)
  have hmem : p.soonest.1 ∈ none :: p.deadlines := by
    have sess : p.session.pollTimeout.1 ∈ none :: p.deadlines := by
      have h := hS.2
      have f1 := firstOf_mem p.session.packetize
      have f2 := firstOf_mem p.session.paused
      unfold Session.deadlines at h
      unfold Parts.deadlines
      simp only [List.mem_cons, List.not_mem_nil, or_false, List.mem_append] at h f1 f2 ⊢
      rcases h with h | h | h | h | h | h | h | h | h
      · simp [h]
      · simp [h]
      · simp [h]
      · rw [h]; rcases f2 with f | f
        · exact .inl f
        · exact .inr (.inr f)
      · rw [h]; rcases f1 with f | f
        · exact .inl f
        · exact .inr (.inl (.inr f))
      all_goals simp [h]
    have h := hL.2
    simp only [List.mem_cons, List.not_mem_nil, or_false] at h
    rcases h with h | h | h | h | h | h | h
    · rw [h]; exact List.mem_cons_self ..
    · rw [h]; unfold Parts.deadlines; simp
    · rw [h]; unfold Parts.deadlines; simp
    · rw [h]; unfold Parts.deadlines; simp
    · rw [h]; exact sess
    · rw [h]; unfold Parts.deadlines; simp
    · rw [h]; unfold Parts.deadlines; simp
  unfold Parts.next
  refine ⟨?_, ?_, ?_⟩
  · intro t ht
    obtain ⟨t', e1, e2⟩ := key t ht
    rw [e1]
    simp only [Option.getD_some]
    split <;> omega
  · split
    · exact .inl rfl
    · right
      cases hs : p.soonest.1 with
      | none => left; simp
      | some t =>
        right
        rw [hs] at hmem
        rcases List.mem_cons.1 hmem with h | h
        · cases h
        · simpa using h
  · split <;> omega

/-- **C45**, not as the property says: of several receive streams waiting for their pause check the session reports the
first of its map, not the earliest. Here one is due at 3, and the timeout is 5. -/
theorem C45_violation_paused : ∃ p : Parts, some 3 ∈ p.deadlines ∧ p.next 1000 0 = 5 := by
  refine ⟨{ dtls := none, ice := none, sctp := none, chan := none, stats := none,
            session := { feedback := none, nack := none, twcc := none, pacing := (none, 0), packetize := [], paused := [some 5, some 3], sendStream := none, bwe := (none, 0) } }, ?_, ?_⟩ <;> decide

/-! ### Windowed sums -/

/-- What may be called. -/
inductive HOp where
  | push (t v : Nat)
  | purge (now : Nat)
deriving Repr, DecidableEq

def HOp.time : HOp → Nat
  | .push t _ => t
  | .purge now => now

def HOp.run (h : ValueHistory) : HOp → ValueHistory
  | .push t v => h.push t v
  | .purge now => h.purgeOld now

/-- What was pushed, in order. -/
def pushed (ops : List HOp) : List (Nat × Nat) := ops.filterMap (fun o => match o with | .push t v => some (t, v) | .purge _ => none)

theorem purge_spec {maxTime now : Nat} : ∀ {l : List (Nat × Nat)} {value : Nat}, value = (l.map (·.2)).sum → (l.map (·.1)).Pairwise (· ≤ ·) →
    (purge maxTime now value l).2 = l.filter (fun p => decide (now - p.1 ≤ maxTime)) ∧
    (purge maxTime now value l).1 = ((l.filter (fun p => decide (now - p.1 ≤ maxTime))).map (·.2)).sum
  | [], value, h, _ => by simpa [purge] using h
  | (t, v) :: l, value, h, hs => by
    have hs' := List.pairwise_cons.1 hs
    rw [List.map_cons, List.sum_cons] at h
    unfold purge
    split
    · rename_i hgt
      have ih := purge_spec (maxTime := maxTime) (now := now) (value := value - v) (l := l) (by dsimp only at h; omega) hs'.2
      rw [List.filter_cons_of_neg (by simp; omega)]
      exact ih
    · rename_i hgt
      have hall : ((t, v) :: l).filter (fun p => decide (now - p.1 ≤ maxTime)) = (t, v) :: l := by
        rw [List.filter_eq_self]
        intro p hp
        rcases List.mem_cons.1 hp with hp | hp
        · subst hp; simpa using hgt
        · have := hs'.1 p.1 (List.mem_map.2 ⟨p, hp, rfl⟩)
          simp only [decide_eq_true_eq]
          dsimp only at hgt this
          omega
      rw [hall]
      refine ⟨rfl, ?_⟩
      rw [List.map_cons, List.sum_cons]
      exact h

theorem filter_twice {maxTime now now' : Nat} (h : now ≤ now') (l : List (Nat × Nat)) :
    (l.filter (fun p => decide (now - p.1 ≤ maxTime))).filter (fun p => decide (now' - p.1 ≤ maxTime)) = l.filter (fun p => decide (now' - p.1 ≤ maxTime)) := by
  rw [List.filter_filter]
  refine List.filter_congr (fun p _ => ?_)
  rw [Bool.eq_iff_iff, Bool.and_eq_true, decide_eq_true_eq, decide_eq_true_eq]
  constructor
  · exact fun h => h.1
  · intro h'
    exact ⟨h', by omega⟩

/-- The state after calls with times that do not go back: the kept values are those pushed except what the last purge found too old. -/
structure Kept (maxTime : Nat) (ops : List HOp) (h : ValueHistory) : Prop where
  max : h.maxTime = maxTime
  sum : h.value = (h.history.map (·.2)).sum
  suffix : h.history <:+ pushed ops
  purged : ∀ now, (∀ o ∈ ops, o.time ≤ now) → h.history.filter (fun p => decide (now - p.1 ≤ maxTime)) = (pushed ops).filter (fun p => decide (now - p.1 ≤ maxTime))

theorem pushed_times {ops : List HOp} {p : Nat × Nat} (h : p ∈ pushed ops) : ∃ o ∈ ops, o.time = p.1 := by
  obtain ⟨o, ho, e⟩ := List.mem_filterMap.1 h
  cases o with
  | push t v => cases e; exact ⟨_, ho, rfl⟩
  | purge now => cases e

theorem pushed_sorted {ops : List HOp} (h : (ops.map HOp.time).Pairwise (· ≤ ·)) : ((pushed ops).map (·.1)).Pairwise (· ≤ ·) := by
  induction ops with
  | nil => exact List.Pairwise.nil
  | cons o ops ih =>
    have h' := List.pairwise_cons.1 h
    cases o with
    | purge now => exact ih h'.2
    | push t v =>
      show (((t, v) :: pushed ops).map (·.1)).Pairwise (· ≤ ·)
      rw [List.map_cons]
      refine List.pairwise_cons.2 ⟨fun x hx => ?_, ih h'.2⟩
      obtain ⟨p, hp, rfl⟩ := List.mem_map.1 hx
      obtain ⟨o, ho, e⟩ := pushed_times hp
      rw [← e]
      exact h'.1 _ (List.mem_map.2 ⟨o, ho, rfl⟩)

theorem kept_run {maxTime : Nat} : ∀ {ops : List HOp}, (ops.map HOp.time).Pairwise (· ≤ ·) → Kept maxTime ops (ops.foldl HOp.run (ValueHistory.new maxTime)) := by
  intro ops
  induction ops using List.reverseRecOn with
  | nil => intro _; exact ⟨rfl, rfl, List.suffix_refl _, fun _ _ => rfl⟩
  | append_singleton ops o ih =>
    intro hs
    rw [List.map_append, List.pairwise_append] at hs
    have ih := ih hs.1
    rw [List.foldl_append, List.foldl_cons, List.foldl_nil]
    generalize ops.foldl HOp.run (ValueHistory.new maxTime) = h at ih
    have hlast : ∀ o' ∈ ops, o'.time ≤ o.time := fun o' ho' => hs.2.2 _ (List.mem_map.2 ⟨o', ho', rfl⟩) _ (by simp)
    cases o with
    | push t v =>
      have hp : pushed (ops ++ [.push t v]) = pushed ops ++ [(t, v)] := by unfold pushed; rw [List.filterMap_append]; rfl
      refine ⟨ih.max, ?_, ?_, ?_⟩
      · show h.value + v = ((h.history ++ [(t, v)]).map (·.2)).sum
        rw [List.map_append, List.sum_append, ih.sum]
        simp
      · rw [hp]
        obtain ⟨pre, e⟩ := ih.suffix
        exact ⟨pre, by rw [← e, List.append_assoc]; rfl⟩
      · intro now hnow
        rw [hp]
        show (h.history ++ [(t, v)]).filter _ = _
        rw [List.filter_append, List.filter_append, ih.purged now (fun o ho => hnow o (List.mem_append_left _ ho))]
    | purge now' =>
      have hp : pushed (ops ++ [.purge now']) = pushed ops := by unfold pushed; rw [List.filterMap_append]; simp
      have hsorted : (h.history.map (·.1)).Pairwise (· ≤ ·) :=
        (pushed_sorted hs.1).sublist (List.Sublist.map _ ih.suffix.sublist)
      obtain ⟨e1, e2⟩ := purge_spec (maxTime := h.maxTime) (now := now') ih.sum hsorted
      have hh : (HOp.run h (.purge now')).history = h.history.filter (fun p => decide (now' - p.1 ≤ maxTime)) := by
        rw [← ih.max]; exact e1
      refine ⟨ih.max, ?_, ?_, ?_⟩
      · show (purge h.maxTime now' h.value h.history).1 = ((purge h.maxTime now' h.value h.history).2.map (·.2)).sum
        rw [e2, e1]
      · rw [hp]
        have : (HOp.run h (.purge now')).history <:+ h.history := by
          have aux : ∀ (l : List (Nat × Nat)) (value : Nat), (purge h.maxTime now' value l).2 <:+ l := by
            intro l
            induction l with
            | nil => intro value; exact List.suffix_refl _
            | cons a l ih2 =>
              intro value
              obtain ⟨t, v⟩ := a
              unfold purge
              split
              · exact (ih2 _).trans (List.suffix_cons _ _)
              · exact List.suffix_refl _
          exact aux _ _
        exact this.trans ih.suffix
      · intro now hnow
        have hle : now' ≤ now := hnow (.purge now') (by simp)
        rw [hp, hh, filter_twice hle]
        exact ih.purged now (fun o ho => hnow o (List.mem_append_left _ ho))

/-- **C46** After any calls with times that do not go back, and a purge at a time not before them, the sum is that of exactly
the values pushed that are not older than the window. -/
theorem C46_window (maxTime now : Nat) (ops : List HOp) (hs : (ops.map HOp.time).Pairwise (· ≤ ·)) (hn : ∀ o ∈ ops, o.time ≤ now) :
    ((ops.foldl HOp.run (ValueHistory.new maxTime)).purgeOld now).value =
      (((pushed ops).filter (fun p => decide (now - p.1 ≤ maxTime))).map (·.2)).sum := by
  have hk := kept_run (maxTime := maxTime) hs
  have hsorted := (pushed_sorted hs).sublist (List.Sublist.map (·.1) hk.suffix.sublist)
  obtain ⟨-, e2⟩ := purge_spec (maxTime := maxTime) (now := now) hk.sum hsorted
  rw [hk.purged now hn] at e2
  show (purge (ops.foldl HOp.run (ValueHistory.new maxTime)).maxTime now _ _).1 = _
  rw [hk.max]
  exact e2

example : ((([.push 0 5, .push 400 7, .purge 1100, .push 1200 1] : List HOp).foldl HOp.run (ValueHistory.new 1000)).purgeOld 1300).value = 8 := by decide

end Str0m.Timeout
