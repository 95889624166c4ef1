import Verif.Props.RtxCache
/-
  What the resend cache keeps when sequence numbers are consecutive.
-/
namespace Str0m
namespace EvictingBuffer
variable {T : Type}

/-- Moving entries keeps one that has its new slot for itself. -/
theorem rehash_keep (m : Nat) (hm : 0 < m) (e : CacheEntry T) (l : List (Option (CacheEntry T))) :
    ∀ acc : List (Option (CacheEntry T)), acc.length = m →
    (some e ∈ l ∨ acc.getD (e.position % m) none = some e) →
    (∀ x, some x ∈ l → x.position % m = e.position % m → x = e) →
    (l.foldl (putHome m) acc).getD (e.position % m) none = some e := by
  induction l with
  | nil => intro acc _ h _; simpa using h
  | cons y l ih =>
    intro acc hl h hx
    rw [List.foldl_cons]
    cases y with
    | none =>
      refine ih acc hl ?_ (fun x h => hx x (List.mem_cons_of_mem _ h))
      simpa using h
    | some y =>
      have hget : (putHome m acc (some y)).getD (e.position % m) none =
          if y.position % m = e.position % m then some y else acc.getD (e.position % m) none := by
        have : e.position % m < acc.length := by rw [hl]; exact Nat.mod_lt _ hm
        simp only [putHome, List.getD_eq_getElem?_getD, List.getElem?_set]
        by_cases hc : y.position % m = e.position % m
        · simp [hc, this]
        · simp [hc]
      refine ih _ (by simp [putHome, hl]) ?_ (fun x h => hx x (List.mem_cons_of_mem _ h))
      by_cases hc : y.position % m = e.position % m
      · right
        rw [hget, if_pos hc, hx y (List.mem_cons_self ..) hc]
      · rcases h with h | h
        · left
          rcases List.mem_cons.1 h with h | h
          · cases h; exact absurd rfl hc
          · exact h
        · right; rw [hget, if_neg hc]; exact h

/-- All entries are within the last `buf.length` positions up to `last` -/
def Near (b : EvictingBuffer T) (last : Nat) : Prop := ∀ i e, b.slot i = some e → e.position ≤ last ∧ last < e.position + b.buf.length

theorem mem_of_slot {b : EvictingBuffer T} {i : Nat} {e : CacheEntry T} (h : b.slot i = some e) : some e ∈ b.buf := by
  simp only [slot, List.getD_eq_getElem?_getD] at h
  cases hg : b.buf[i]? with
  | none => rw [hg] at h; cases h
  | some y =>
    rw [hg] at h
    obtain ⟨hi, he⟩ := List.getElem?_eq_some_iff.1 hg
    have : y = some e := by simpa using h
    rw [← this, ← he]
    exact List.getElem_mem hi

theorem near_mod {x y last n m : Nat} (hx : x ≤ last) (hx2 : last < x + n) (hy : y ≤ last) (hy2 : last < y + n) (hm : n ≤ m) (h : x % m = y % m) : x = y := by
  rcases Nat.lt_trichotomy x y with hlt | rfl | hlt
  · exfalso
    have : (y - x) % m = 0 := Nat.sub_mod_eq_zero_of_mod_eq h.symm
    rw [Nat.mod_eq_of_lt (by omega)] at this
    omega
  · rfl
  · exfalso
    have : (x - y) % m = 0 := Nat.sub_mod_eq_zero_of_mod_eq h
    rw [Nat.mod_eq_of_lt (by omega)] at this
    omega

/-- Growing loses nothing -/
theorem grow_keep {b : EvictingBuffer T} (h : b.Inv) {last : Nat} (hn : b.Near last) {i : Nat} {e : CacheEntry T} (he : b.slot i = some e) :
    b.grow.slot (e.position % b.grow.buf.length) = some e := by
  obtain ⟨h1, h2⟩ := h.home i e he
  unfold grow
  split
  · rw [h2]; exact he
  · dsimp only
    generalize hm : max (min b.maxSize ((b.buf.length * 133) / 100)) (b.buf.length + 1) = m
    have hml : b.buf.length ≤ m := by omega
    have hlen : (rehash m b.buf).length = m := by
      have : ∀ (l : List (Option (CacheEntry T))) acc, (l.foldl (putHome m) acc).length = acc.length := by
        intro l
        induction l with
        | nil => intro acc; rfl
        | cons y l ih =>
          intro acc
          rw [List.foldl_cons, ih]
          cases y <;> simp [putHome]
      unfold rehash
      rw [this]; simp
    show (rehash m b.buf).getD (e.position % (rehash m b.buf).length) none = some e
    rw [hlen]
    refine rehash_keep m (by omega) e b.buf _ (by simp) (.inl (mem_of_slot he)) ?_
    intro x hx hxm
    obtain ⟨j, hj⟩ := slot_of_mem hx
    have a := hn j x hj
    have c := hn i e he
    have hp := near_mod a.1 a.2 c.1 c.2 hml hxm
    have d := (h.home j x hj).2
    rw [hp, h2] at d
    rw [← d, he] at hj
    exact (Option.some.inj hj).symm

/-- What a push of the next position keeps -/
theorem push_keep {b : EvictingBuffer T} (h : b.Inv) {last : Nat} (hn : b.Near last) {now : Nat} {v : T} (hi : ¬ b.isInert = true) (ht : b.lastTimeout ≤ now)
    (hne : ∀ n, b.nextEvict = some n → n ≤ last + 1) :
    (b.push (last + 1) now v).Near (last + 1) ∧
      ∀ i e, b.slot i = some e → last + 1 < e.position + max b.buf.length b.maxSize →
        (b.push (last + 1) now v).slot (e.position % (b.push (last + 1) now v).buf.length) = some e := by
  obtain ⟨hlen, _⟩ := not_inert hi
  obtain ⟨ne, hnee⟩ : ∃ ne, b.nextEvict.getD (last + 1) = ne := ⟨_, rfl⟩
  have hle : ne ≤ last + 1 := by
    cases hq : b.nextEvict with
    | none => rw [hq] at hnee; simp at hnee; omega
    | some n => rw [hq] at hnee; simp at hnee; have := hne n hq; omega
  have hpe : b.push (last + 1) now v = (makeSpace { b with nextEvict := some ne } (last + 1)).store ⟨last + 1, now, v⟩ := by
    have h1 : ¬ now < b.lastTimeout := by omega
    have h2 : ¬ last + 1 < ne := by omega
    simp [push, hi, h1, hnee, h2]
  rw [hpe]
  obtain ⟨b1, hb1⟩ : ∃ b1, b1 = ({ b with nextEvict := some ne } : EvictingBuffer T) := ⟨_, rfl⟩
  rw [← hb1]
  have hs1 : ∀ i, b1.slot i = b.slot i := by intro i; rw [hb1]; rfl
  have hl1 : b1.buf.length = b.buf.length := by rw [hb1]
  have hm1 : b1.maxSize = b.maxSize := by rw [hb1]
  have hinv1 : b1.Inv := by
    refine ⟨fun i e he => ?_, fun i e he => ?_⟩
    · rw [hs1] at he; rw [hl1]; exact h.home i e he
    · rw [hs1] at he
      obtain ⟨n, a, c⟩ := h.low i e he
      rw [a] at hnee
      refine ⟨ne, by rw [hb1], ?_⟩
      simp at hnee; omega
  have hn1 : b1.Near last := by
    intro i e he; rw [hs1] at he; rw [hl1]; exact hn i e he
  -- after making space
  obtain ⟨b2, hb2⟩ : ∃ b2, b2 = b1.makeSpace (last + 1) := ⟨_, rfl⟩
  rw [← hb2]
  have key : b.buf.length ≤ b2.buf.length ∧ (∀ i e, b.slot i = some e → b2.slot (e.position % b2.buf.length) = some e) ∧
      (∀ i e, b2.slot i = some e → e.position % b2.buf.length = i ∧ i < b2.buf.length ∧ e.position ≤ last ∧ last < e.position + b.buf.length) ∧
      (b2.buf.length = b.buf.length → b.maxSize ≤ b.buf.length ∨ b.slot ((last + 1) % b.buf.length) = none) := by
    have same : b2 = b1 → b.maxSize ≤ b.buf.length ∨ b.slot ((last + 1) % b.buf.length) = none → b.buf.length ≤ b2.buf.length ∧
      (∀ i e, b.slot i = some e → b2.slot (e.position % b2.buf.length) = some e) ∧
      (∀ i e, b2.slot i = some e → e.position % b2.buf.length = i ∧ i < b2.buf.length ∧ e.position ≤ last ∧ last < e.position + b.buf.length) ∧
      (b2.buf.length = b.buf.length → b.maxSize ≤ b.buf.length ∨ b.slot ((last + 1) % b.buf.length) = none) := by
      intro hb hc
      rw [hb, hl1]
      refine ⟨le_refl _, fun i e he => ?_, fun i e he => ?_, fun _ => hc⟩
      · rw [hs1, (h.home i e he).2]; exact he
      · rw [hs1] at he
        exact ⟨(h.home i e he).2, (h.home i e he).1, (hn i e he).1, (hn i e he).2⟩
    unfold makeSpace at hb2
    cases hsl : b1.slot (b1.indexFor (last + 1)) with
    | none =>
      rw [hsl] at hb2
      refine same hb2 (.inr ?_)
      rw [hs1] at hsl
      unfold indexFor at hsl
      rw [hl1] at hsl
      exact hsl
    | some en =>
      rw [hsl] at hb2
      dsimp only at hb2
      have hne' : en.position ≠ last + 1 := by have := (hn1 _ _ hsl).1; omega
      rw [if_pos hne'] at hb2
      by_cases hmax : b.maxSize ≤ b.buf.length
      · refine same ?_ (.inl hmax)
        rw [hb2]
        unfold grow
        rw [if_pos (by rw [hl1, hm1]; exact hmax)]
      · obtain ⟨g1, g2, g3, g4, g5, g6, g7, g8⟩ := grow_spec b1 hinv1
        rw [← hb2] at g1 g2 g7 g8
        rw [hl1] at g7
        refine ⟨g7, fun i e he => ?_, fun i e he => ?_, fun hc => ?_⟩
        · rw [hb2]; exact grow_keep hinv1 hn1 (by rw [hs1]; exact he)
        · obtain ⟨j, hj⟩ := g2 e ⟨i, he⟩
          have := hn1 j e hj
          rw [hl1] at this
          exact ⟨(g1.home i e he).2, (g1.home i e he).1, this⟩
        · exfalso
          have : b1.grow.buf.length > b1.buf.length := by
            unfold grow
            rw [if_neg (by rw [hl1, hm1]; exact hmax)]
            dsimp only
            generalize hmm : max (min b1.maxSize ((b1.buf.length * 133) / 100)) (b1.buf.length + 1) = m
            have hlen : (rehash m b1.buf).length = m := by
              have : ∀ (l : List (Option (CacheEntry T))) acc, (l.foldl (putHome m) acc).length = acc.length := by
                intro l
                induction l with
                | nil => intro acc; rfl
                | cons y l ih =>
                  intro acc
                  rw [List.foldl_cons, ih]
                  cases y <;> simp [putHome]
              unfold rehash
              rw [this]; simp
            rw [hlen]; omega
          rw [← hb2, hl1] at this
          omega
  obtain ⟨k1, k2, k3, k4⟩ := key
  have hslot : ∀ j, slot (b2.store ⟨last + 1, now, v⟩) j =
      if b2.indexFor (last + 1) = j ∧ j < b2.buf.length then some ⟨last + 1, now, v⟩ else b2.slot j := fun j => slot_set b2 _ j _
  have hl3 : (b2.store ⟨last + 1, now, v⟩).buf.length = b2.buf.length := by simp [store]
  -- an old entry whose slot is taken
  have clash : ∀ e : CacheEntry T, e.position ≤ last → last < e.position + b.buf.length → e.position % b2.buf.length = (last + 1) % b2.buf.length →
      last + 1 = e.position + b.buf.length ∧ b2.buf.length = b.buf.length := by
    intro e c1 c2 hc
    have : (last + 1 - e.position) % b2.buf.length = 0 := Nat.sub_mod_eq_zero_of_mod_eq hc.symm
    by_cases hlt : last + 1 - e.position < b2.buf.length
    · rw [Nat.mod_eq_of_lt hlt] at this; omega
    · omega
  refine ⟨?_, ?_⟩
  · intro i e he
    rw [hslot] at he
    rw [hl3]
    split at he
    · cases he; dsimp only; omega
    · rename_i hc
      obtain ⟨c1, c2, c3, c4⟩ := k3 i e he
      refine ⟨by omega, ?_⟩
      by_contra hcon
      have e1 : b2.buf.length = b.buf.length := by omega
      refine hc ⟨?_, c2⟩
      rw [← c1]
      unfold indexFor
      have : last + 1 = e.position + b2.buf.length := by omega
      rw [this, Nat.add_mod_right]
  · intro i e he hy
    rw [hl3, hslot]
    have c := hn i e he
    by_cases hc : e.position % b2.buf.length = (last + 1) % b2.buf.length
    · exfalso
      obtain ⟨d1, d2⟩ := clash e c.1 c.2 hc
      rcases k4 d2 with hmax | hno
      · omega
      · have : (last + 1) % b.buf.length = i := by
          rw [← d2, ← hc, d2]; exact (h.home i e he).2
        rw [this, he] at hno
        cases hno
    · rw [if_neg (fun hh => hc (by unfold indexFor at hh; exact hh.1.symm))]
      exact k2 i e he

/-- The position pushed is remembered -/
theorem push_last {b : EvictingBuffer T} {pos now : Nat} {v : T} (hi : ¬ b.isInert = true) (ht : b.lastTimeout ≤ now)
    (hne : ∀ n, b.nextEvict = some n → n ≤ pos) : (b.push pos now v).lastPosition = some pos := by
  have h1 : ¬ now < b.lastTimeout := by omega
  have h2 : ¬ pos < b.nextEvict.getD pos := by
    cases hq : b.nextEvict with
    | none => simp
    | some n => have := hne n hq; simp; omega
  unfold push
  rw [if_neg hi, if_neg h1]
  dsimp only
  rw [if_neg h2]
  rfl

theorem evictLoop_last (now start : Nat) : ∀ (fuel pos : Nat) (b b' : EvictingBuffer T) (p' : Nat), evictLoop b now start fuel pos = some (b', p') →
    b'.lastPosition = b.lastPosition := by
  intro fuel
  induction fuel with
  | zero => intro pos b b' p' h; cases h
  | succ fuel ih =>
    intro pos b b' p' h
    unfold evictLoop at h
    dsimp only at h
    split at h
    · cases h; rfl
    · split at h
      · exact ih _ _ _ _ h
      · split at h
        · exact (ih _ _ _ _ h).trans rfl
        · cases h; rfl

theorem maybeEvict_last (b : EvictingBuffer T) (now : Nat) : (b.maybeEvict now).lastPosition = b.lastPosition := by
  unfold maybeEvict
  split
  · rfl
  · split
    · rfl
    · unfold evict
      dsimp only
      split
      · rfl
      · rename_i e
        split
        · rename_i h
          exact (evictLoop_last _ _ _ _ _ _ _ h).trans rfl
        · rfl

end EvictingBuffer
end Str0m
