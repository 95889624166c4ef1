import Verif.Model.Nack
/-
  Invariant of the NACK register.
-/
namespace Str0m
open NackRegister

theorem Slots.at_upd (pk : Slots) (s t : Nat) (f) :
    (pk.upd s f).at t = if t % BUFFER_SIZE = s % BUFFER_SIZE then f (pk.at t) else pk.at t := rfl

/-- Two numbers of one window that share a slot are equal. -/
theorem slot_inj {a b lo : Nat} (h : a % BUFFER_SIZE = b % BUFFER_SIZE)
    (ha : lo ≤ a) (ha' : a ≤ lo + 100) (hb : lo ≤ b) (hb' : b ≤ lo + 100) : a = b := by
  simp only [BUFFER_SIZE, MAX_MISORDER] at h; omega

theorem resetLoop_spec (pk : Slots) (i s n k : Nat) (hi : i ≤ 102) :
    ((∃ t, s ≤ t ∧ t < s + min n (103 - i) ∧ t % BUFFER_SIZE = k) → resetLoop pk i s n k = {}) ∧
    ((¬ ∃ t, s ≤ t ∧ t < s + min n (103 - i) ∧ t % BUFFER_SIZE = k) →
      resetLoop pk i s n k = pk k) := by
  induction n generalizing pk i s with
  | zero => simp only [resetLoop]; constructor
            · rintro ⟨t, h1, h2, _⟩; omega
            · intro _; trivial
  | succ n ih =>
    simp only [resetLoop]
    by_cases hb : i > BUFFER_SIZE
    · simp only [hb, if_true]
      have hi' : i = 102 := by simp only [BUFFER_SIZE, MAX_MISORDER] at hb; omega
      subst hi'
      constructor
      · rintro ⟨t, h1, h2, h3⟩
        have : t = s := by omega
        subst this
        simp [Slots.upd, h3]
      · intro h
        have : ¬ k = s % BUFFER_SIZE := fun e => h ⟨s, by omega, by omega, e.symm⟩
        simp [Slots.upd, this]
    · simp only [hb, if_false]
      have hi' : i + 1 ≤ 102 := by simp only [BUFFER_SIZE, MAX_MISORDER] at hb; omega
      obtain ⟨ih1, ih2⟩ := ih (pk.upd s (fun _ => {})) (i + 1) (s + 1) hi'
      by_cases hex : ∃ t, s + 1 ≤ t ∧ t < s + 1 + min n (103 - (i + 1)) ∧ t % BUFFER_SIZE = k
      · have := ih1 hex
        constructor
        · intro _; exact this
        · intro h; exfalso; apply h
          obtain ⟨t, h1, h2, h3⟩ := hex
          exact ⟨t, by omega, by omega, h3⟩
      · rw [ih2 hex]
        constructor
        · rintro ⟨t, h1, h2, h3⟩
          by_cases hts : t = s
          · subst hts; simp [Slots.upd, h3]
          · exfalso; apply hex; exact ⟨t, by omega, by omega, h3⟩
        · intro h
          have : ¬ k = s % BUFFER_SIZE := fun e => h ⟨s, by omega, by omega, e.symm⟩
          simp [Slots.upd, this]

/-- The reset loop clears exactly the slots of the numbers `s..s+n`. -/
theorem resetLoop_spec' (pk : Slots) (s n k : Nat) (hk : k < BUFFER_SIZE) :
    ((∃ t, s ≤ t ∧ t < s + n ∧ t % BUFFER_SIZE = k) → resetLoop pk 0 s n k = {}) ∧
    ((¬ ∃ t, s ≤ t ∧ t < s + n ∧ t % BUFFER_SIZE = k) → resetLoop pk 0 s n k = pk k) := by
  obtain ⟨h1, h2⟩ := resetLoop_spec pk 0 s n k (by omega)
  have hB : BUFFER_SIZE = 101 := rfl
  by_cases hn : n ≤ 103
  · have : min n (103 - 0) = n := by omega
    rw [this] at h1 h2
    exact ⟨h1, h2⟩
  · have hex : ∃ t, s ≤ t ∧ t < s + min n (103 - 0) ∧ t % BUFFER_SIZE = k := by
      rw [hB] at hk ⊢
      refine ⟨s + (k + 101 * (s / 101 + 1) - s) % 101, ?_, ?_, ?_⟩ <;> omega
    constructor
    · intro _; exact h1 hex
    · intro h; exfalso; apply h
      obtain ⟨t, a, b, c⟩ := hex
      exact ⟨t, a, by omega, c⟩

theorem advanceStart_spec (pk : Slots) (seq n s : Nat) :
    let r := advanceStart pk seq n s
    s ≤ r ∧ r ≤ s + n ∧ (∀ t, s ≤ t → t < r → (pk.at t).received = true ∨ t = seq) ∧
    (r < s + n → (pk.at r).received = false ∧ r ≠ seq) := by
  induction n generalizing s with
  | zero => simp [advanceStart]; intro t h1 h2; omega
  | succ n ih =>
    simp only [advanceStart]
    split
    · rename_i h
      simp at h
      refine ⟨by omega, by omega, by intro t h1 h2; omega, fun _ => h⟩
    · rename_i h
      simp at h
      obtain ⟨h1, h2, h3, h4⟩ := ih (s + 1)
      refine ⟨by omega, by omega, ?_, fun hr => h4 (by omega)⟩
      intro t ht ht'
      by_cases hts : t = s
      · subst hts
        by_cases hr : (pk.at t).received = true
        · exact Or.inl hr
        · exact Or.inr (h (by simpa using hr))
      · exact h3 t (by omega) ht'

/-- The register invariant, relative to the list `hist` of all sequence numbers offered so
far and the list `req` of all sequence numbers requested so far. -/
inductive NackInv : NackRegister → List Nat → List Nat → Prop
  | fresh (pk : Slots) (h : ∀ k, pk k = {}) : NackInv ⟨pk, none⟩ [] []
  | run (pk : Slots) (st en : Nat) (hist req : List Nat)
      (hle : st ≤ en) (hwin : en ≤ st + 100)
      (clear : ∀ k, k < BUFFER_SIZE → (∀ s, st ≤ s → s ≤ en → s % BUFFER_SIZE ≠ k) → pk k = {})
      (recv : ∀ s, st ≤ s → s ≤ en → ((pk.at s).received = true ↔ s ∈ hist))
      (top : ∀ s ∈ hist, s ≤ en) (endIn : en ∈ hist)
      (startOut : st < en → st ∉ hist)
      (cnt : ∀ s, st ≤ s → s ≤ en → (pk.at s).nackCount = req.count s)
      (le5 : ∀ s, req.count s ≤ 5) (future : ∀ s, en < s → req.count s = 0) :
      NackInv ⟨pk, some (st, en)⟩ hist req

theorem NackInv.init (seq : Nat) (pk : Slots) (h : ∀ k, pk k = {}) :
    NackInv (initWithSeq ⟨pk, none⟩ seq) [seq] [] := by
  unfold initWithSeq
  refine NackInv.run _ _ _ _ _ (Nat.le_refl _) (by omega) ?_ ?_ ?_ ?_ ?_ ?_ ?_ ?_
  · intro k hk hs
    have : ¬ k = seq % BUFFER_SIZE := fun e => hs seq (Nat.le_refl _) (Nat.le_refl _) e.symm
    simp [Slots.upd, this, h]
  · intro s h1 h2
    have : s = seq := by omega
    subst this
    simp [Slots.at_upd, PacketStatus.markReceived]
  · intro s hs; simp at hs; omega
  · simp
  · omega
  · intro s h1 h2
    rw [Slots.at_upd]
    split <;> simp [PacketStatus.markReceived, Slots.at, h]
  · simp
  · simp

/-- All the facts about one `update` on an active register. -/
theorem NackInv.update_run {pk : Slots} {st en : Nat} {hist req : List Nat}
    (hinv : NackInv ⟨pk, some (st, en)⟩ hist req) (seq : Nat) :
    NackInv (update ⟨pk, some (st, en)⟩ seq).1 (seq :: hist) req ∧
    ((update ⟨pk, some (st, en)⟩ seq).2 = true ↔ st ≤ seq ∧ seq ∉ hist) ∧
    (∃ st' en', (update ⟨pk, some (st, en)⟩ seq).1.active = some (st', en') ∧ st ≤ st' ∧ en' = max en seq) := by
  obtain _ | ⟨_, _, _, _, _, hle, hwin, clear, recv, top, endIn, startOut, cnt, le5, future⟩ := hinv
  have hB : BUFFER_SIZE = 101 := rfl
  unfold update
  by_cases hlt : seq < st
  · simp only [hlt, if_true]
    refine ⟨?_, ?_, st, en, rfl, by omega, by omega⟩
    · refine NackInv.run _ _ _ _ _ hle hwin clear ?_ ?_ ?_ ?_ cnt le5 future
      · intro s h1 h2
        rw [recv s h1 h2]; simp; omega
      · intro s hs; simp at hs; rcases hs with h | h
        · omega
        · exact top s h
      · simp [endIn]
      · intro h hc; simp at hc; rcases hc with h' | h'
        · omega
        · exact startOut h h'
    · simp; omega
  · simp only [hlt, if_false]
    -- name the intermediate values
    generalize hstop : max en seq = stop
    generalize hs0 : max st (stop - MAX_MISORDER) = s0
    have hMM : MAX_MISORDER = 100 := rfl
    obtain ⟨a1, a2, a3, a4⟩ := advanceStart_spec pk seq (stop - s0) s0
    generalize hst' : advanceStart pk seq (stop - s0) s0 = st' at *
    have hs0le : s0 ≤ stop := by omega
    have hwin' : stop ≤ st' + 100 := by omega
    have hst'le : st' ≤ stop := by omega
    -- slots after the reset
    have rs := fun k hk => resetLoop_spec' pk st (st' - st) k hk
    generalize hpk1 : resetLoop pk 0 st (st' - st) = pk1 at *
    have hmod : ∀ x, x % BUFFER_SIZE < BUFFER_SIZE := fun x => Nat.mod_lt _ (by decide)
    -- a number of the new window that was in the old window keeps its slot
    have keep : ∀ s, st' ≤ s → s ≤ stop → s ≤ en → pk1.at s = pk.at s := by
      intro s h1 h2 h3
      refine (rs _ (hmod s)).2 ?_
      rintro ⟨t, b1, b2, b3⟩
      have := slot_inj (lo := st) b3 (by omega) (by omega) (by omega) (by omega)
      omega
    -- a number of the new window above the old window has a clear slot
    have fresh : ∀ s, st' ≤ s → s ≤ stop → en < s → pk1.at s = {} := by
      intro s h1 h2 h3
      by_cases hex : ∃ t, st ≤ t ∧ t < st + (st' - st) ∧ t % BUFFER_SIZE = s % BUFFER_SIZE
      · exact (rs _ (hmod s)).1 hex
      · rw [Slots.at, (rs _ (hmod s)).2 hex]
        refine clear _ (hmod s) ?_
        intro t b1 b2 b3
        apply hex
        have : t + 101 ≤ s := by rw [hB] at b3; omega
        exact ⟨t, b1, by omega, b3⟩
    have outside : ∀ k, k < BUFFER_SIZE → (∀ s, st' ≤ s → s ≤ stop → s % BUFFER_SIZE ≠ k) →
        pk1 k = {} := by
      intro k hk h
      by_cases hex : ∃ t, st ≤ t ∧ t < st + (st' - st) ∧ t % BUFFER_SIZE = k
      · exact (rs _ hk).1 hex
      · rw [(rs _ hk).2 hex]
        refine clear _ hk ?_
        intro t b1 b2 b3
        by_cases ht : st' ≤ t
        · exact h t ht (by omega) b3
        · exact hex ⟨t, b1, by omega, b3⟩
    have hcnt : ∀ s, st' ≤ s → s ≤ stop → (pk1.at s).nackCount = req.count s := by
      intro s h1 h2
      by_cases hse : s ≤ en
      · rw [keep s h1 h2 hse]; exact cnt s (by omega) hse
      · rw [fresh s h1 h2 (by omega), future s (by omega)]
    have hrecv : ∀ s, st' ≤ s → s ≤ stop → ((pk1.at s).received = true ↔ s ∈ hist) := by
      intro s h1 h2
      by_cases hse : s ≤ en
      · rw [keep s h1 h2 hse]; exact recv s (by omega) hse
      · rw [fresh s h1 h2 (by omega)]
        simp; intro hc; have := top s hc; omega
    -- `st'` is not received unless the window is a single number
    have hnot : st' < stop → st' ∉ hist ∧ st' ≠ seq := by
      intro h
      obtain ⟨b1, b2⟩ := a4 (by omega)
      refine ⟨?_, b2⟩
      intro hc
      have := top _ hc
      rw [(recv st' (by omega) this).2 hc] at b1
      cases b1
    have hendIn : stop ∈ seq :: hist := by
      by_cases h : stop = seq
      · simp [h]
      · have : stop = en := by omega
        rw [this]; simp [endIn]
    refine ⟨?_, ?_, st', stop, by rfl, by omega, by rfl⟩
    · by_cases hmark : st' ≤ seq ∧ seq ≤ stop
      · simp only [hmark, and_self, if_true]
        refine NackInv.run _ _ _ _ _ hst'le hwin' ?_ ?_ ?_ hendIn ?_ ?_ le5
          (fun s hs => future s (by omega))
        · intro k hk h
          have : ¬ k = seq % BUFFER_SIZE := fun e => h seq hmark.1 hmark.2 e.symm
          simp only [Slots.upd, this, if_false]
          exact outside k hk h
        · intro s h1 h2
          rw [Slots.at_upd]
          split
          · rename_i he
            have := slot_inj (lo := st') he (by omega) (by omega) (by omega) (by omega)
            simp [PacketStatus.markReceived, this]
          · rename_i he
            have : s ≠ seq := fun e => he (by rw [e])
            rw [hrecv s h1 h2]; simp [this]
        · intro s hs; simp at hs; rcases hs with h | h
          · omega
          · have := top s h; omega
        · intro h hc; simp at hc
          have := hnot h
          rcases hc with h' | h'
          · exact this.2 h'
          · exact this.1 h'
        · intro s h1 h2
          rw [Slots.at_upd]
          split
          · simp [PacketStatus.markReceived]; exact hcnt s h1 h2
          · exact hcnt s h1 h2
      · simp only [hmark, if_false]
        have hseq : seq < st' := by omega
        refine NackInv.run _ _ _ _ _ hst'le hwin' outside ?_ ?_ hendIn ?_ hcnt le5
          (fun s hs => future s (by omega))
        · intro s h1 h2
          rw [hrecv s h1 h2]; simp; omega
        · intro s hs; simp at hs; rcases hs with h | h
          · omega
          · have := top s h; omega
        · intro h hc; simp at hc
          have := hnot h
          rcases hc with h' | h'
          · exact this.2 h'
          · exact this.1 h'
    · -- the returned flag
      simp only [Bool.or_eq_true, Bool.not_eq_true', decide_eq_true_eq, gt_iff_lt]
      by_cases hse : seq ≤ en
      · have r := recv seq (by omega) hse
        constructor
        · rintro (h | h)
          · refine ⟨by omega, fun hc => ?_⟩
            rw [r.2 hc] at h; cases h
          · omega
        · rintro ⟨_, h⟩
          left
          cases hb : (pk.at seq).received with
          | false => rfl
          | true => exact absurd (r.1 hb) h
      · constructor
        · intro _; exact ⟨by omega, fun hc => by have := top seq hc; omega⟩
        · intro _; right; omega

theorem NackInv.update {r : NackRegister} {hist req : List Nat} (hinv : NackInv r hist req)
    (seq : Nat) : NackInv (r.update seq).1 (seq :: hist) req := by
  cases hinv with
  | fresh pk h => simpa [NackRegister.update] using NackInv.init seq pk h
  | run pk st en _ _ a b c d e f g i j k =>
    exact (NackInv.update_run (NackInv.run pk st en _ _ a b c d e f g i j k) seq).1

end Str0m
