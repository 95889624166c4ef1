import Verif.Model.RtxCache
/-
  Invariants of the resend cache.
-/
namespace Str0m
namespace EvictingBuffer
variable {T : Type}

/-- Every stored entry sits in its own slot and is not before the eviction position. -/
structure Inv (b : EvictingBuffer T) : Prop where
  home : ∀ i e, b.slot i = some e → i < b.buf.length ∧ e.position % b.buf.length = i
  low : ∀ i e, b.slot i = some e → ∃ n, b.nextEvict = some n ∧ n ≤ e.position

/-- The entry `e` is stored somewhere. -/
def Has (b : EvictingBuffer T) (e : CacheEntry T) : Prop := ∃ i, b.slot i = some e

theorem slot_set (b : EvictingBuffer T) (i j : Nat) (x : Option (CacheEntry T)) :
    ({ b with buf := b.buf.set i x } : EvictingBuffer T).slot j =
      if i = j ∧ j < b.buf.length then x else b.slot j := by
  simp only [slot, List.getD_eq_getElem?_getD, List.getElem?_set]
  by_cases h : i = j
  · subst h
    by_cases h2 : i < b.buf.length
    · simp [h2]
    · simp [h2]
  · simp [h]

theorem not_inert {b : EvictingBuffer T} (h : ¬ b.isInert = true) : 0 < b.buf.length ∧ 0 < b.maxAge := by
  simp [isInert] at h
  constructor
  · cases hb : b.buf with
    | nil => simp [hb] at h
    | cons => simp
  · omega

/-- The re-hash fold: entries of the result come from the source and sit at home. -/
theorem grow_fold (m : Nat) (l : List (Option (CacheEntry T))) :
    ∀ acc : List (Option (CacheEntry T)), acc.length = m →
    (∀ (i : Nat) (e : CacheEntry T), acc.getD i none = some e → e.position % m = i) →
    let r := l.foldl (putHome m) acc
    r.length = m ∧ ∀ (i : Nat) (e : CacheEntry T), r.getD i none = some e →
      e.position % m = i ∧ (acc.getD i none = some e ∨ some e ∈ l) := by
  induction l with
  | nil => intro acc h1 h2; exact ⟨h1, fun i e h => ⟨h2 i e h, Or.inl h⟩⟩
  | cons x l ih =>
    intro acc h1 h2
    cases x with
    | none =>
      obtain ⟨a, b⟩ := ih acc h1 h2
      refine ⟨a, fun i e h => ?_⟩
      obtain ⟨c, d⟩ := b i e h
      exact ⟨c, d.imp id (fun h => by simp [h])⟩
    | some x =>
      have h1' : (acc.set (x.position % m) (some x)).length = m := by simp [h1]
      have hsplit : ∀ (i : Nat) (e : CacheEntry T), (acc.set (x.position % m) (some x)).getD i none = some e →
          (e = x ∧ i = x.position % m) ∨ acc.getD i none = some e := by
        intro i e h
        rw [List.getD_eq_getElem?_getD, List.getElem?_set] at h
        split at h
        · rename_i hi
          split at h
          · simp at h; exact Or.inl ⟨h.symm, hi.symm⟩
          · simp at h
        · right; rw [List.getD_eq_getElem?_getD]; exact h
      obtain ⟨a, b⟩ := ih _ h1' (by
        intro i e h
        rcases hsplit i e h with ⟨rfl, rfl⟩ | h
        · rfl
        · exact h2 i e h)
      refine ⟨a, fun i e h => ?_⟩
      obtain ⟨c, d⟩ := b i e h
      refine ⟨c, ?_⟩
      rcases d with d | d
      · rcases hsplit i e d with ⟨rfl, _⟩ | d
        · right; simp
        · left; exact d
      · right; simp [d]

theorem slot_of_mem {b : EvictingBuffer T} {e : CacheEntry T} (h : some e ∈ b.buf) : b.Has e := by
  obtain ⟨i, hi, he⟩ := List.getElem_of_mem h
  refine ⟨i, ?_⟩
  simp [slot, List.getD_eq_getElem?_getD, List.getElem?_eq_getElem hi, he]

theorem grow_spec (b : EvictingBuffer T) (h : b.Inv) :
    b.grow.Inv ∧ (∀ e, b.grow.Has e → b.Has e) ∧ b.grow.nextEvict = b.nextEvict ∧
    b.grow.lastTimeout = b.lastTimeout ∧ b.grow.maxAge = b.maxAge ∧ b.grow.maxSize = b.maxSize ∧
    b.buf.length ≤ b.grow.buf.length ∧ b.grow.buf.length ≤ max b.buf.length b.maxSize := by
  by_cases hc : b.buf.length ≥ b.maxSize
  · have : b.grow = b := by simp [grow, hc]
    rw [this]
    exact ⟨h, fun e he => he, rfl, rfl, rfl, rfl, Nat.le_refl _, by omega⟩
  · have hg : b.grow = { b with buf := rehash (max (min b.maxSize ((b.buf.length * 133) / 100)) (b.buf.length + 1)) b.buf } := by
      simp only [grow, hc, if_false]
    rw [hg]
    generalize hm : max (min b.maxSize ((b.buf.length * 133) / 100)) (b.buf.length + 1) = m
    have hrep : ∀ (i : Nat) (e : CacheEntry T), (List.replicate m (none : Option (CacheEntry T))).getD i none = some e → False := by
      intro i e h
      rw [List.getD_eq_getElem?_getD, List.getElem?_replicate] at h
      split at h <;> simp at h
    obtain ⟨h1, h2⟩ := grow_fold m b.buf (List.replicate m none) (by simp)
      (fun i e h => (hrep i e h).elim)
    change (rehash m b.buf).length = m at h1
    change ∀ i e, (rehash m b.buf).getD i none = some e → _ at h2
    have hmem : ∀ i e, slot { b with buf := rehash m b.buf } i = some e →
        e.position % m = i ∧ b.Has e := by
      intro i e he
      obtain ⟨c, d⟩ := h2 i e he
      rcases d with d | d
      · exact (hrep i e d).elim
      · exact ⟨c, slot_of_mem d⟩
    refine ⟨⟨?_, ?_⟩, ?_, rfl, rfl, rfl, rfl, ?_, ?_⟩
    · intro i e he
      obtain ⟨c, d⟩ := hmem i e he
      show i < (rehash m b.buf).length ∧ e.position % (rehash m b.buf).length = i
      rw [h1]
      exact ⟨by rw [← c]; exact Nat.mod_lt _ (by omega), c⟩
    · intro i e he
      obtain ⟨j, hj⟩ := (hmem i e he).2
      exact h.low j e hj
    · rintro e ⟨i, he⟩
      exact (hmem i e he).2
    · show b.buf.length ≤ (rehash m b.buf).length
      rw [h1]; omega
    · show (rehash m b.buf).length ≤ _
      rw [h1]; omega

/-- Facts about a push that is not rejected. -/
theorem push_spec (b : EvictingBuffer T) (h : b.Inv) (position timestamp : Nat) (value : T) :
    (b.push position timestamp value).Inv ∧
    (∀ e, (b.push position timestamp value).Has e →
      (e = ⟨position, timestamp, value⟩) ∨ (b.Has e ∧
        (e.position ≠ position ∨ b.isInert = true ∨ timestamp < b.lastTimeout))) ∧
    (b.push position timestamp value).lastTimeout = b.lastTimeout ∧
    (b.push position timestamp value).maxAge = b.maxAge ∧
    (b.push position timestamp value).maxSize = b.maxSize ∧
    b.buf.length ≤ (b.push position timestamp value).buf.length ∧
    (b.push position timestamp value).buf.length ≤ max b.buf.length b.maxSize ∧
    (¬ b.isInert = true → b.lastTimeout ≤ timestamp → (∀ n, b.nextEvict = some n → n ≤ position) →
      (b.push position timestamp value).slot (position % (b.push position timestamp value).buf.length) =
        some ⟨position, timestamp, value⟩) := by
  by_cases hi : b.isInert = true
  · have hpe : b.push position timestamp value = b := by simp [push, hi]
    rw [hpe]
    exact ⟨h, fun e he => Or.inr ⟨he, by simp [hi]⟩, rfl, rfl, rfl, Nat.le_refl _, by omega,
      fun hc => absurd hi hc⟩
  · obtain ⟨hlen, _⟩ := not_inert hi
    by_cases ht : timestamp < b.lastTimeout
    · have hpe : b.push position timestamp value = b := by simp [push, ht]
      rw [hpe]
      exact ⟨h, fun e he => Or.inr ⟨he, by simp [ht]⟩, rfl, rfl, rfl, Nat.le_refl _, by omega,
        fun _ hc => absurd hc (by omega)⟩
    ·
      generalize hne : b.nextEvict.getD position = ne
      -- the buffer with `next_evict` set
      have hb0 : Inv { b with nextEvict := some ne } := by
        refine ⟨h.home, fun i e he => ?_⟩
        obtain ⟨n, hn, hle⟩ := h.low i e he
        rw [hn] at hne; simp at hne
        exact ⟨ne, rfl, by omega⟩
      by_cases hp : position < ne
      · have hlow : ∀ e, b.Has e → e.position ≠ position := by
          rintro e ⟨i, he⟩ hc
          obtain ⟨n, hn, hle⟩ := h.low i e he
          rw [hn] at hne; simp at hne; omega
        have hpe : b.push position timestamp value = { b with nextEvict := some ne } := by
          simp [push, ht, hi, hne, hp]
        rw [hpe]
        refine ⟨hb0, fun e he => Or.inr ⟨he, Or.inl (hlow e he)⟩, rfl, rfl, rfl, Nat.le_refl _,
          Nat.le_max_left _ _, ?_⟩
        intro _ _ hc
        cases hn : b.nextEvict with
        | none => rw [hn] at hne; simp at hne; omega
        | some n => rw [hn] at hne; simp at hne; have := hc n hn; omega
      · have hpe : b.push position timestamp value =
            (makeSpace { b with nextEvict := some ne } position).store ⟨position, timestamp, value⟩ := by
          simp [push, ht, hi, hne, hp]
        rw [hpe]
        generalize hb1 : ({ b with nextEvict := some ne } : EvictingBuffer T) = b1
        rw [hb1] at hb0
        have hHas1 : ∀ e, b1.Has e → b.Has e := by
          rintro e ⟨i, he⟩; subst hb1; exact ⟨i, he⟩
        -- the buffer after a possible grow
        generalize hb2 : b1.makeSpace position = b2
        have hb2c : b2 = b1 ∨ b2 = b1.grow := by
          rw [← hb2]; unfold makeSpace; split
          · split
            · right; rfl
            · left; rfl
          · left; rfl
        have hfacts : b2.Inv ∧ (∀ e, b2.Has e → b.Has e) ∧ b2.nextEvict = some ne ∧
            b2.lastTimeout = b.lastTimeout ∧ b2.maxAge = b.maxAge ∧ b2.maxSize = b.maxSize ∧
            b.buf.length ≤ b2.buf.length ∧ b2.buf.length ≤ max b.buf.length b.maxSize := by
          have hg := grow_spec b1 hb0
          rcases hb2c with rfl | rfl
          · subst hb1; exact ⟨hb0, hHas1, rfl, rfl, rfl, rfl, Nat.le_refl _, Nat.le_max_left _ _⟩
          · obtain ⟨a1, a2, a3, a4, a5, a6, a7, a8⟩ := hg
            subst hb1
            exact ⟨a1, fun e he => hHas1 e (a2 e he), a3, a4, a5, a6, a7, a8⟩
        obtain ⟨f1, f2, f3, f4, f5, f6, f7, f8⟩ := hfacts
        have hlen2 : 0 < b2.buf.length := by omega
        have hslot : ∀ j, slot (b2.store ⟨position, timestamp, value⟩) j =
            if b2.indexFor position = j ∧ j < b2.buf.length then some ⟨position, timestamp, value⟩
            else b2.slot j := fun j => slot_set b2 _ j _
        refine ⟨⟨?_, ?_⟩, ?_, f4, f5, f6, ?_, ?_, ?_⟩
        · intro i e he
          rw [hslot] at he
          simp only [store, List.length_set]
          split at he
          · rename_i hc
            simp at he; subst he
            exact ⟨hc.2, hc.1⟩
          · exact f1.home i e he
        · intro i e he
          rw [hslot] at he
          split at he
          · simp at he; subst he
            exact ⟨ne, f3, by simp; omega⟩
          · exact f1.low i e he
        · rintro e ⟨i, he⟩
          rw [hslot] at he
          split at he
          · simp at he; exact Or.inl he.symm
          · rename_i hc
            right
            refine ⟨f2 e ⟨i, he⟩, Or.inl ?_⟩
            intro hpos
            obtain ⟨c1, c2⟩ := f1.home i e he
            apply hc
            exact ⟨by rw [← c2, hpos]; rfl, c1⟩
        · simp [store, f7]
        · simp only [store, List.length_set]; exact f8
        · intro _ _ _
          rw [hslot, if_pos]
          simp only [store, List.length_set]
          exact ⟨rfl, Nat.mod_lt _ hlen2⟩

/-- The eviction loop: terminates within `len + 1` steps, only removes entries, and everything
it leaves behind is at or after the returned position. -/
theorem evictLoop_spec (now startPos len maxAge : Nat) (hlen : 0 < len) :
    ∀ (fuel position : Nat) (b : EvictingBuffer T),
    b.buf.length = len → b.maxAge = maxAge →
    startPos ≤ position → position ≤ startPos + len → startPos + len + 1 ≤ position + fuel →
    (∀ i e, b.slot i = some e → i < len ∧ e.position % len = i ∧ startPos ≤ e.position) →
    (∀ q, startPos ≤ q → q < position → b.slot (q % len) = none) →
    ∃ b' p', evictLoop b now startPos fuel position = some (b', p') ∧ position ≤ p' ∧
      p' ≤ startPos + len ∧
      b'.buf.length = len ∧ b'.maxAge = b.maxAge ∧ b'.maxSize = b.maxSize ∧
      b'.lastTimeout = b.lastTimeout ∧ b'.lastPosition = b.lastPosition ∧
      (∀ i e, b'.slot i = some e → b.slot i = some e ∧ p' ≤ e.position) ∧
      (∀ i e, b.slot i = some e → now ≤ e.timestamp + maxAge → b'.slot i = some e) := by
  intro fuel
  induction fuel with
  | zero => intro position b _ _ _ _ h5 _ _; omega
  | succ fuel ih =>
    intro position b h1 h2 h3 h4 h5 h6 h7
    -- whatever is stored is at or after `position`
    have hafter : ∀ i e, b.slot i = some e → position ≤ e.position := by
      intro i e he
      obtain ⟨c1, c2, c3⟩ := h6 i e he
      by_contra hlt
      have := h7 e.position c3 (by omega)
      rw [c2, he] at this; cases this
    simp only [evictLoop]
    by_cases hbr : b.indexFor position = b.indexFor startPos ∧ position > startPos
    · rw [if_pos hbr]
      exact ⟨b, position, rfl, Nat.le_refl _, h4, h1, rfl, rfl, rfl, rfl,
        fun i e he => ⟨he, hafter i e he⟩, fun i e he _ => he⟩
    · rw [if_neg hbr]
      have hposlt : position < startPos + len := by
        by_contra hge
        have : position = startPos + len := by omega
        apply hbr
        refine ⟨?_, by omega⟩
        simp only [indexFor, h1, this]
        simp
      cases hs : b.slot (b.indexFor position) with
      | none =>
        simp only []
        obtain ⟨b', p', e1, e2, e3⟩ := ih (position + 1) b h1 h2 (by omega) (by omega) (by omega) h6
          (by
            intro q q1 q2
            by_cases hq : q = position
            · subst hq; simpa [indexFor, h1] using hs
            · exact h7 q q1 (by omega))
        exact ⟨b', p', e1, by omega, e3⟩
      | some entry =>
        simp only []
        have hidx : b.indexFor position < len := by
          simp only [indexFor, h1]; exact Nat.mod_lt _ hlen
        by_cases hage : now - entry.timestamp > b.maxAge
        · rw [if_pos hage]
          have hslot : ∀ j, slot { b with buf := b.buf.set (b.indexFor position) none } j =
              if b.indexFor position = j ∧ j < b.buf.length then none else b.slot j :=
            fun j => slot_set b _ j _
          obtain ⟨b', p', e1, e2, e2', e3, e4, e5, e6, e7, e8, e9⟩ := ih (position + 1)
            { b with buf := b.buf.set (b.indexFor position) none } (by simp [h1]) h2
            (by omega) (by omega) (by omega)
            (by
              intro i e he
              rw [hslot] at he
              split at he
              · cases he
              · exact h6 i e he)
            (by
              intro q q1 q2
              rw [hslot]
              split
              · rfl
              · rename_i hne
                by_cases hq : q = position
                · subst hq
                  exfalso; apply hne
                  exact ⟨by simp [indexFor, h1], by rw [h1]; exact Nat.mod_lt _ hlen⟩
                · exact h7 q q1 (by omega))
          refine ⟨b', p', e1, by omega, e2', e3, e4, e5, e6, e7, ?_, ?_⟩
          · intro i e he
            obtain ⟨c1, c2⟩ := e8 i e he
            rw [hslot] at c1
            split at c1
            · cases c1
            · exact ⟨c1, c2⟩
          · intro i e he hfr
            apply e9 i e _ hfr
            rw [hslot, if_neg]
            · exact he
            · rintro ⟨c1, _⟩
              rw [c1, he] at hs
              cases hs
              omega
        · rw [if_neg hage]
          exact ⟨b, position, rfl, Nat.le_refl _, h4, h1, rfl, rfl, rfl, rfl,
            fun i e he => ⟨he, hafter i e he⟩, fun i e he _ => he⟩

theorem maybeEvict_spec (b : EvictingBuffer T) (h : b.Inv) (now : Nat) :
    (b.maybeEvict now).Inv ∧ (∀ e, (b.maybeEvict now).Has e → b.Has e) ∧
    (b.maybeEvict now).buf.length = b.buf.length ∧ (b.maybeEvict now).maxAge = b.maxAge ∧
    (b.maybeEvict now).maxSize = b.maxSize ∧
    (∀ i e, b.slot i = some e → now ≤ e.timestamp + b.maxAge → (b.maybeEvict now).slot i = some e) ∧
    (b.maybeEvict now).lastTimeout ≤ max b.lastTimeout now := by
  by_cases hi : b.isInert = true
  · have hpe : b.maybeEvict now = b := by simp [maybeEvict, hi]
    rw [hpe]
    exact ⟨h, fun e he => he, rfl, rfl, rfl, fun i e he _ => he, by omega⟩
  · obtain ⟨hlen, _⟩ := not_inert hi
    by_cases ht : now < b.lastTimeout
    · have hpe : b.maybeEvict now = b := by simp [maybeEvict, ht]
      rw [hpe]
      exact ⟨h, fun e he => he, rfl, rfl, rfl, fun i e he _ => he, by omega⟩
    · cases hn : b.nextEvict with
      | none =>
        have hpe : b.maybeEvict now = { b with lastTimeout := now } := by
          simp [maybeEvict, hi, ht, evict, hn]
        rw [hpe]
        exact ⟨⟨h.home, h.low⟩, fun e he => he, rfl, rfl, rfl, fun i e he _ => he,
          Nat.le_max_right _ _⟩
      | some start =>
        obtain ⟨b', p', e1, e2, e2', e3, e4, e5, e6, e7, e8, e9⟩ :=
          evictLoop_spec now start b.buf.length b.maxAge hlen (b.buf.length + 1) start
            { b with lastTimeout := now } rfl rfl (Nat.le_refl _) (by omega) (by omega)
            (by
              intro i e he
              obtain ⟨c1, c2⟩ := h.home i e he
              obtain ⟨n, d1, d2⟩ := h.low i e he
              rw [hn] at d1; simp at d1; subst d1
              exact ⟨c1, c2, d2⟩)
            (by intro q q1 q2; omega)
        have hpe : b.maybeEvict now = { b' with nextEvict := some p' } := by
          unfold maybeEvict
          rw [if_neg hi, if_neg ht]
          unfold evict
          have hn' : ({ b with lastTimeout := now } : EvictingBuffer T).nextEvict = some start := hn
          rw [hn']
          simp only [hn] at e1 ⊢
          rw [e1]
        rw [hpe]
        refine ⟨⟨?_, ?_⟩, ?_, e3, e4, e5, ?_, ?_⟩
        · intro i e he
          obtain ⟨c1, c2⟩ := e8 i e he
          obtain ⟨d1, d2⟩ := h.home i e c1
          show i < b'.buf.length ∧ e.position % b'.buf.length = i
          rw [e3]; exact ⟨d1, d2⟩
        · intro i e he
          exact ⟨p', rfl, (e8 i e he).2⟩
        · rintro e ⟨i, he⟩
          exact ⟨i, (e8 i e he).1⟩
        · intro i e he hfr
          exact e9 i e he hfr
        · show b'.lastTimeout ≤ _
          rw [e6]; exact Nat.le_max_right _ _

theorem get_some {b : EvictingBuffer T} {pos : Nat} {v : T} (h : b.get pos = some v) :
    ∃ e, b.Has e ∧ e.position = pos ∧ e.value = v := by
  unfold get at h
  split at h
  · cases h
  · split at h
    · rename_i e he
      split at h
      · rename_i hp
        simp at h
        exact ⟨e, ⟨_, he⟩, hp, h⟩
      · cases h
    · cases h

end EvictingBuffer
end Str0m
