import Verif.Proofs.Nack
import Verif.Props.Extend
/-
  What a round of NACK generation asks for.
-/
namespace Str0m
open NackRegister

/-- Numbers of `a, a+1, .., a+n-1` that need a NACK. -/
def needed (pk : Slots) (a n : Nat) : List Nat :=
  (List.range' a n).filter (fun s => (pk.at s).needsNack)

def PacketStatus.bump (p : PacketStatus) : PacketStatus := { p with nackCount := p.nackCount + 1 }

theorem needed_succ (pk : Slots) (a n : Nat) :
    needed pk a (n + 1) = (if (pk.at a).needsNack then [a] else []) ++ needed pk (a + 1) n := by
  simp only [needed, List.range'_succ, List.filter_cons]
  split <;> simp

theorem needed_append (pk : Slots) (a m n : Nat) :
    needed pk a (m + n) = needed pk a m ++ needed pk (a + m) n := by
  simp only [needed]
  rw [← List.range'_append_1, List.filter_append]

theorem needed_congr {pk pk' : Slots} {a n : Nat}
    (h : ∀ t, a ≤ t → t < a + n → (pk.at t).needsNack = (pk'.at t).needsNack) :
    needed pk a n = needed pk' a n := by
  unfold needed
  apply List.filter_congr
  intro t ht
  rw [List.mem_range'_1] at ht
  exact h t ht.1 ht.2

theorem needed_nil {pk : Slots} {a n : Nat}
    (h : ∀ t, a ≤ t → t < a + n → (pk.at t).needsNack = false) : needed pk a n = [] := by
  unfold needed
  rw [List.filter_eq_nil_iff]
  intro t ht
  rw [List.mem_range'_1] at ht
  simp [h t ht.1 ht.2]

theorem mem_needed {pk : Slots} {a n t : Nat} :
    t ∈ needed pk a n ↔ (a ≤ t ∧ t < a + n) ∧ (pk.at t).needsNack = true := by
  simp [needed, List.mem_range'_1]

theorem findNeeds_spec (pk : Slots) (n a : Nat) :
    match findNeeds pk n a with
    | none => ∀ t, a ≤ t → t < a + n → (pk.at t).needsNack = false
    | some s => a ≤ s ∧ s < a + n ∧ (pk.at s).needsNack = true ∧
        ∀ t, a ≤ t → t < s → (pk.at t).needsNack = false := by
  induction n generalizing a with
  | zero => simp only [findNeeds]; intro t h1 h2; omega
  | succ n ih =>
    simp only [findNeeds]
    by_cases h : (pk.at a).needsNack = true
    · simp only [h, if_true]
      refine ⟨by omega, by omega, trivial, by intro t h1 h2; omega⟩
    · simp only [h]
      have := ih (a + 1)
      have ha : (pk.at a).needsNack = false := by simpa using h
      cases hf : findNeeds pk n (a + 1) with
      | none =>
        rw [hf] at this
        simp only [] at this ⊢
        intro t h1 h2
        by_cases e : t = a
        · rw [e]; exact ha
        · exact this t (by omega) (by omega)
      | some s =>
        rw [hf] at this
        simp only [] at this ⊢
        obtain ⟨b1, b2, b3, b4⟩ := this
        refine ⟨by omega, by omega, b3, ?_⟩
        intro t h1 h2
        by_cases e : t = a
        · rw [e]; exact ha
        · exact b4 t (by omega) (by omega)

theorem at_upd_self (pk : Slots) (s : Nat) (f) : (pk.upd s f).at s = f (pk.at s) := by
  simp [Slots.at_upd]

theorem at_upd_other {pk : Slots} {s t lo : Nat} {f} (h : t ≠ s) (h1 : lo ≤ s)
    (h2 : s ≤ lo + 100) (h3 : lo ≤ t) (h4 : t ≤ lo + 100) : (pk.upd s f).at t = pk.at t := by
  rw [Slots.at_upd]
  split
  · rename_i he
    exact absurd (slot_inj he h3 h4 h1 h2) h
  · rfl

theorem blpLoop_spec (lo : Nat) (n : Nat) : ∀ (pk : Slots) (i s blp : Nat),
    lo ≤ s → s + n ≤ lo + 101 →
    (∀ t, lo ≤ t → t ≤ lo + 100 → (blpLoop pk i s n blp).1.at t =
      if s ≤ t ∧ t < s + n ∧ (pk.at t).needsNack = true then (pk.at t).bump else pk.at t) ∧
    (∀ j, (blpLoop pk i s n blp).2.testBit j =
      (blp.testBit j || (decide (i ≤ j) && decide (j < i + n) && (pk.at (s + (j - i))).needsNack))) := by
  induction n with
  | zero =>
    intro pk i s blp _ _
    refine ⟨?_, ?_⟩
    · intro t _ _
      simp only [blpLoop]
      rw [if_neg (by omega)]
    · intro j
      simp only [blpLoop]
      by_cases h : i ≤ j
      · simp
      · simp [h]
  | succ n ih =>
    intro pk i s blp h1 h2
    simp only [blpLoop]
    by_cases hn : (pk.at s).needsNack = true
    · simp only [hn, if_true]
      obtain ⟨ih1, ih2⟩ := ih (pk.upd s (fun p => { p with nackCount := p.nackCount + 1 }))
        (i + 1) (s + 1) (blp ||| (1 <<< i)) (by omega) (by omega)
      refine ⟨?_, ?_⟩
      · intro t ht ht'
        rw [ih1 t ht ht']
        by_cases e : t = s
        · subst e
          rw [if_neg (by omega), at_upd_self, if_pos ⟨by omega, by omega, hn⟩]
          rfl
        · rw [at_upd_other e h1 (by omega) ht ht']
          by_cases hc : (pk.at t).needsNack = true
          · simp only [hc, and_true]
            by_cases hd : s + 1 ≤ t ∧ t < s + 1 + n
            · rw [if_pos hd, if_pos (by omega)]
            · rw [if_neg hd, if_neg (by omega)]
          · simp [hc]
      · intro j
        rw [ih2 j]
        have hone : (1 <<< i : Nat).testBit j = decide (i = j) := by
          rw [Nat.shiftLeft_eq, Nat.one_mul, Nat.testBit_two_pow]
        rw [Nat.testBit_or, hone]
        by_cases hij : i = j
        · subst hij
          simp [hn]
        · by_cases hle : i ≤ j
          · have e1 : decide (i + 1 ≤ j) = true := by simp; omega
            have e2 : decide (i ≤ j) = true := by simp; omega
            have e3 : decide (j < i + 1 + n) = decide (j < i + (n + 1)) := by
              congr 1; apply propext; omega
            have e4 : s + 1 + (j - (i + 1)) = s + (j - i) := by omega
            rw [e1, e2, e3, e4]
            by_cases hjn : j < i + (n + 1)
            · rw [at_upd_other (lo := lo) (by omega) h1 (by omega) (by omega) (by omega)]
              simp [hij]
            · simp [hjn, hij]
          · have e1 : decide (i + 1 ≤ j) = false := by simp; omega
            have e2 : decide (i ≤ j) = false := by simp; omega
            rw [e1, e2]; simp [hij]
    · have hn' : (pk.at s).needsNack = false := by simpa using hn
      simp only [hn]
      obtain ⟨ih1, ih2⟩ := ih pk (i + 1) (s + 1) blp (by omega) (by omega)
      refine ⟨?_, ?_⟩
      · intro t ht ht'
        rw [if_neg (by simp), ih1 t ht ht']
        by_cases e : t = s
        · subst e
          rw [if_neg (by omega), if_neg (by simp [hn'])]
        · by_cases hd : s + 1 ≤ t ∧ t < s + 1 + n ∧ (pk.at t).needsNack = true
          · rw [if_pos hd, if_pos ⟨by omega, by omega, hd.2.2⟩]
          · rw [if_neg hd, if_neg]
            rintro ⟨c1, c2, c3⟩
            exact hd ⟨by omega, by omega, c3⟩
      · intro j
        rw [if_neg (by simp), ih2 j]
        by_cases hij : i = j
        · subst hij
          have : ¬ i + 1 ≤ i := by omega
          simp [hn', this]
        · by_cases hle : i ≤ j
          · have e1 : decide (i + 1 ≤ j) = true := by simp; omega
            have e2 : decide (i ≤ j) = true := by simp; omega
            have e3 : decide (j < i + 1 + n) = decide (j < i + (n + 1)) := by
              congr 1; apply propext; omega
            have e4 : s + 1 + (j - (i + 1)) = s + (j - i) := by omega
            rw [e1, e2, e3, e4]
          · have e1 : decide (i + 1 ≤ j) = false := by simp; omega
            have e2 : decide (i ≤ j) = false := by simp; omega
            rw [e1, e2]; simp

/-- Reference number `ref` of the peer is close enough to recover `s`. -/
def Near (ref s : Nat) : Prop := s < ref + 2 ^ 15 ∧ ref < s + 2 ^ 15 ∧ s < 2 ^ 64

theorem extendU16_near {ref s w : Nat} (hr : ref < 2 ^ 64) (h : Near ref s)
    (hw : w % 2 ^ 16 = s % 2 ^ 16) : extendU16 (some ref) w = s := by
  obtain ⟨h1, h2, h3⟩ := h
  exact C01_extend_recovers 16 ref s w (by omega) (by omega) hr h3 (by omega) (by omega) hw

theorem filter_range_needed (pk : Slots) (s n : Nat) (blp : Nat) (hn : n ≤ 16)
    (h : ∀ j, blp.testBit j = (decide (j < n) && (pk.at (s + j)).needsNack)) :
    ((List.range 16).filter (fun i => blp.testBit i)).map (fun i => s + i) = needed pk s n := by
  have e16 : 16 = n + (16 - n) := by omega
  rw [e16, List.range_add, List.filter_append]
  have hnil : ((List.range (16 - n)).map (fun x => n + x)).filter (fun i => blp.testBit i) = [] := by
    rw [List.filter_eq_nil_iff]
    intro t ht
    simp only [List.mem_map, List.mem_range] at ht
    obtain ⟨x, _, rfl⟩ := ht
    simp [h]
  rw [hnil, List.append_nil]
  have hf : (List.range n).filter (fun i => blp.testBit i) =
      (List.range n).filter (fun i => (pk.at (s + i)).needsNack) := by
    apply List.filter_congr
    intro t ht
    simp at ht
    simp [h, ht]
  rw [hf, needed, List.range'_eq_map_range, List.filter_map]
  rfl

theorem intoIter_spec (pk : Slots) (ref s n blp : Nat) (hr : ref < 2 ^ 64) (hn : n ≤ 16)
    (hnear : ∀ t, s ≤ t → t < s + 1 + n → Near ref t)
    (h : ∀ j, blp.testBit j = (decide (j < n) && (pk.at (s + 1 + j)).needsNack)) :
    (NackEntry.intoIter ⟨s % 2 ^ 16, blp⟩ ref) = s :: needed pk (s + 1) n := by
  unfold NackEntry.intoIter
  rw [extendU16_near hr (hnear s (by omega) (by omega)) (by simp)]
  congr 1
  rw [← filter_range_needed pk (s + 1) n blp hn h]
  apply List.map_congr_left
  intro i hi
  simp only [List.mem_filter, h] at hi
  have hin : i < n := by
    have := hi.2; simp at this; exact this.1
  exact (extendU16_near hr (hnear (s + 1 + i) (by omega) (by omega)) (by simp; omega))

/-- One round over the rest of the window. -/
theorem nackAll_spec (lo ref : Nat) (hr : ref < 2 ^ 64) : ∀ (fuel : Nat) (pk : Slots) (next stop : Nat),
    lo ≤ next → stop ≤ lo + 100 → stop + 1 - next ≤ fuel →
    (next ≤ stop → (pk.at stop).needsNack = false) →
    (∀ t, next ≤ t → t ≤ stop → Near ref t) →
    ((nackAll fuel pk next stop).1.flatMap (fun e => e.intoIter ref) =
      needed pk next (stop + 1 - next)) ∧
    (∀ t, lo ≤ t → t ≤ lo + 100 → (nackAll fuel pk next stop).2.at t =
      if t ∈ needed pk next (stop + 1 - next) then (pk.at t).bump else pk.at t) := by
  intro fuel
  induction fuel with
  | zero =>
    intro pk next stop _ _ hf _ _
    have : stop + 1 - next = 0 := by omega
    rw [this]
    simp [nackAll, needed]
  | succ fuel ih =>
    intro pk next stop hlo hst hf hstop hnear
    simp only [nackAll, nackNext]
    have hfs := findNeeds_spec pk (stop + 1 - next) next
    cases hfind : findNeeds pk (stop + 1 - next) next with
    | none =>
      rw [hfind] at hfs
      simp only [] at hfs ⊢
      rw [needed_nil hfs]
      simp
    | some s =>
      rw [hfind] at hfs
      simp only [] at hfs ⊢
      obtain ⟨f1, f2, f3, f4⟩ := hfs
      have hsstop : s < stop := by
        rcases Nat.lt_or_ge s stop with h | h
        · exact h
        · exfalso
          have : s = stop := by omega
          rw [this, hstop (by omega)] at f3; cases f3
      generalize hn : min 16 (stop - (s + 1)) = n
      generalize hpk1 : pk.upd s (fun p => { p with nackCount := p.nackCount + 1 }) = pk1
      have hpk1self : pk1.at s = (pk.at s).bump := by rw [← hpk1, at_upd_self]; rfl
      have hpk1other : ∀ t, t ≠ s → lo ≤ t → t ≤ lo + 100 → pk1.at t = pk.at t := by
        intro t h1 h2 h3
        rw [← hpk1]
        exact at_upd_other h1 (by omega) (by omega) h2 h3
      obtain ⟨b1, b2⟩ := blpLoop_spec lo n pk1 0 (s + 1) 0 (by omega) (by omega)
      generalize hbl : blpLoop pk1 0 (s + 1) n 0 = bl at b1 b2
      obtain ⟨pk2, blp⟩ := bl
      simp only [] at b1 b2 ⊢
      have hpk2 : ∀ t, s + 1 + n ≤ t → t ≤ lo + 100 → pk2.at t = pk.at t := by
        intro t h1 h2
        rw [b1 t (by omega) h2, if_neg (by omega), hpk1other t (by omega) (by omega) h2]
      obtain ⟨c1, c2⟩ := ih pk2 (s + 1 + n) stop (by omega) hst (by omega)
        (fun h => by rw [hpk2 stop (by omega) (by omega)]; exact hstop (by omega))
        (fun t h1 h2 => hnear t (by omega) h2)
      generalize hall : nackAll fuel pk2 (s + 1 + n) stop = all at c1 c2
      obtain ⟨es, pk3⟩ := all
      simp only [] at c1 c2 ⊢
      have hrest : needed pk2 (s + 1 + n) (stop + 1 - (s + 1 + n)) =
          needed pk (s + 1 + n) (stop + 1 - (s + 1 + n)) := by
        apply needed_congr
        intro t h1 h2
        rw [hpk2 t h1 (by omega)]
      have hsplit : needed pk next (stop + 1 - next) =
          s :: (needed pk (s + 1) n ++ needed pk (s + 1 + n) (stop + 1 - (s + 1 + n))) := by
        have e : stop + 1 - next = (s - next) + ((n + (stop + 1 - (s + 1 + n))) + 1) := by omega
        rw [e, needed_append, needed_nil (fun t h1 h2 => f4 t h1 (by omega))]
        have e2 : next + (s - next) = s := by omega
        rw [e2, needed_succ, f3, needed_append]
        simp
      have hmid : needed pk1 (s + 1) n = needed pk (s + 1) n := by
        apply needed_congr
        intro t h1 h2
        rw [hpk1other t (by omega) (by omega) (by omega)]
      refine ⟨?_, ?_⟩
      · rw [List.flatMap_cons, c1, hsplit, hrest]
        rw [intoIter_spec pk1 ref s n blp hr (by omega) (fun t h1 h2 => hnear t (by omega) (by omega))]
        · rw [hmid]; simp
        · intro j
          rw [b2 j]
          simp
      · intro t h1 h2
        rw [c2 t h1 h2, hrest, hsplit]
        by_cases hts : t = s
        · subst hts
          have hnr : t ∉ needed pk (t + 1 + n) (stop + 1 - (t + 1 + n)) := by
            rw [mem_needed]; omega
          rw [if_neg hnr, b1 t h1 h2, if_neg (by omega), hpk1self, if_pos (by simp)]
        · by_cases hr' : t ∈ needed pk (s + 1 + n) (stop + 1 - (s + 1 + n))
          · have := (mem_needed.1 hr').1
            rw [if_pos hr', hpk2 t (by omega) h2, if_pos (by simp [hr'])]
          · rw [if_neg hr', b1 t h1 h2, hpk1other t hts h1 h2]
            have : (s + 1 ≤ t ∧ t < s + 1 + n ∧ (pk.at t).needsNack = true) ↔
                t ∈ needed pk (s + 1) n := by rw [mem_needed]; tauto
            by_cases hm : t ∈ needed pk (s + 1) n
            · rw [if_pos (this.2 hm), if_pos (by simp [hm])]
            · rw [if_neg (fun h => hm (this.1 h)), if_neg (by simp [hts, hm, hr'])]

theorem listsFromIter_flatten {α : Type} (xs : List α) : ∀ (i : Nat) (cur : List α),
    (listsFromIter i cur xs).flatten = cur ++ xs := by
  induction xs with
  | nil =>
    intro i cur
    simp only [listsFromIter]
    split
    · rename_i h; simp at h; simp [h]
    · simp
  | cons x xs ih =>
    intro i cur
    simp only [listsFromIter]
    split
    · simp [ih]
    · simp [ih]

/-- Every produced list has between 1 and 31 items. -/
theorem listsFromIter_len {α : Type} (xs : List α) : ∀ (i : Nat) (cur : List α),
    (cur.length = 0 ↔ i = 0) → cur.length ≤ 31 → (i - cur.length) % 31 = 0 → cur.length ≤ i →
    ∀ l ∈ listsFromIter i cur xs, 1 ≤ l.length ∧ l.length ≤ 31 := by
  induction xs with
  | nil =>
    intro i cur h0 h1 h2 h3 l hl
    simp only [listsFromIter] at hl
    split at hl
    · simp at hl
    · rename_i h
      simp at hl h
      subst hl
      have : l.length ≠ 0 := by simpa using h
      omega
  | cons x xs ih =>
    intro i cur h0 h1 h2 h3 l hl
    simp only [listsFromIter] at hl
    split at hl
    · rename_i hc
      simp at hc
      simp only [List.mem_cons] at hl
      rcases hl with rfl | hl
      · omega
      · exact ih (i + 1) [x] (by simp) (by simp) (by simp; omega) (by simp) l hl
    · rename_i hc
      simp at hc
      have : cur.length < 31 := by
        by_cases hi : i = 0
        · have := h0.2 hi; omega
        · have : i % 31 ≠ 0 := fun h => hi (hc h)
          omega
      exact ih (i + 1) (cur ++ [x]) (by simp) (by simp; omega) (by simp; omega) (by simp; omega) l hl

end Str0m

namespace Str0m
open NackRegister

/-- All facts about one call of `nack_reports`. -/
theorem NackInv.nackReports {r : NackRegister} {hist req : List Nat} (hinv : NackInv r hist req)
    (st en : Nat) (hact : r.active = some (st, en)) (ref : Nat) (hr : ref < 2 ^ 64)
    (hnear : ∀ t, st ≤ t → t ≤ en → Near ref t) :
    let out := (r.nackReports.1.getD []).flatten.flatMap (fun e => e.intoIter ref)
    out = needed r.packets st (en + 1 - st) ∧
    (r.nackReports.1 = none ↔ needed r.packets st (en + 1 - st) = []) ∧
    NackInv r.nackReports.2 hist (req ++ out) ∧ r.nackReports.2.active = some (st, en) ∧
    (∀ s ∈ out, st ≤ s ∧ s ≤ en ∧ s ∉ hist ∧ req.count s < 5) ∧ out.Nodup := by
  obtain _ | ⟨pk, st', en', _, _, hle, hwin, clear, recv, top, endIn, startOut, cnt, le5, future⟩ := hinv
  · cases hact
  simp only [Option.some.injEq, Prod.mk.injEq] at hact
  obtain ⟨rfl, rfl⟩ := hact
  -- shared consequences for the produced list
  have hmem : ∀ s ∈ needed pk st' (en' + 1 - st'), st' ≤ s ∧ s ≤ en' ∧ s ∉ hist ∧ req.count s < 5 := by
    intro s hs
    obtain ⟨⟨h1, h2⟩, h3⟩ := mem_needed.1 hs
    simp only [PacketStatus.needsNack, Bool.and_eq_true, Bool.not_eq_true', decide_eq_true_eq] at h3
    refine ⟨h1, by omega, ?_, ?_⟩
    · intro hc
      rw [(recv s h1 (by omega)).2 hc] at h3; simp at h3
    · rw [← cnt s h1 (by omega)]; exact h3.2
  have hnodup : (needed pk st' (en' + 1 - st')).Nodup :=
    List.Pairwise.filter _ List.nodup_range'
  have hstopn : (pk.at en').needsNack = false := by
    have := (recv en' hle (Nat.le_refl _)).2 endIn
    simp [PacketStatus.needsNack, this]
  simp only [NackRegister.nackReports]
  have hfs := findNeeds_spec pk (en' + 1 - st') st'
  cases hf : findNeeds pk (en' + 1 - st') st' with
  | none =>
    rw [hf] at hfs
    simp only [] at hfs ⊢
    have hnil := needed_nil hfs
    rw [hnil]
    simp only [Option.getD_none, List.flatten_nil, List.flatMap_nil, List.append_nil, List.not_mem_nil,
      false_implies, implies_true, List.nodup_nil, and_true, true_and]
    exact NackInv.run _ _ _ _ _ hle hwin clear recv top endIn startOut cnt le5 future
  | some s =>
    rw [hf] at hfs
    simp only [] at hfs ⊢
    obtain ⟨f1, f2, f3, f4⟩ := hfs
    obtain ⟨c1, c2⟩ := nackAll_spec st' ref hr (en' + 1 - s) pk s en' (by omega) (by omega)
      (Nat.le_refl _) (fun _ => hstopn) (fun t h1 h2 => hnear t (by omega) h2)
    have heq : needed pk s (en' + 1 - s) = needed pk st' (en' + 1 - st') := by
      have e : en' + 1 - st' = (s - st') + (en' + 1 - s) := by omega
      rw [e, needed_append, needed_nil (fun t h1 h2 => f4 t h1 (by omega))]
      have e2 : st' + (s - st') = s := by omega
      rw [e2]; simp
    rw [heq] at c1 c2
    generalize hall : nackAll (en' + 1 - s) pk s en' = all at c1 c2
    obtain ⟨es, pk3⟩ := all
    simp only [] at c1 c2 ⊢
    have hout : (listsFromIter 0 [] es).flatten.flatMap (fun e => e.intoIter ref) =
        needed pk st' (en' + 1 - st') := by
      rw [listsFromIter_flatten]; simpa using c1
    simp only [Option.getD_some, hout]
    refine ⟨trivial, ?_, ?_, trivial, hmem, hnodup⟩
    · have : s ∈ needed pk st' (en' + 1 - st') := mem_needed.2 ⟨⟨f1, f2⟩, f3⟩
      constructor
      · intro h; cases h
      · intro h; rw [h] at this; simp at this
    · have hcount : ∀ t, (needed pk st' (en' + 1 - st')).count t =
          if t ∈ needed pk st' (en' + 1 - st') then 1 else 0 := by
        intro t; exact hnodup.count
      refine NackInv.run _ _ _ _ _ hle hwin ?_ ?_ top endIn startOut ?_ ?_ ?_
      · intro k hk h
        -- a slot outside the window is untouched: it is the slot of some number of the
        -- period beginning at `st'`
        have hB : BUFFER_SIZE = 101 := rfl
        have hex : ∃ t, st' ≤ t ∧ t ≤ st' + 100 ∧ t % BUFFER_SIZE = k := by
          rw [hB] at hk ⊢
          refine ⟨st' + (k + 101 * (st' / 101 + 1) - st') % 101, ?_, ?_, ?_⟩ <;> omega
        obtain ⟨t, t1, t2, t3⟩ := hex
        have := c2 t t1 t2
        rw [Slots.at, t3] at this
        rw [this]
        have hn : t ∉ needed pk st' (en' + 1 - st') := by
          intro hc
          obtain ⟨⟨_, h2⟩, _⟩ := mem_needed.1 hc
          exact h t t1 (by omega) t3
        rw [if_neg hn, Slots.at, t3]
        exact clear k hk h
      · intro t h1 h2
        rw [c2 t h1 (by omega)]
        split
        · simp only [PacketStatus.bump]; exact recv t h1 h2
        · exact recv t h1 h2
      · intro t h1 h2
        rw [c2 t h1 (by omega), List.count_append, hcount]
        split
        · simp only [PacketStatus.bump]; rw [cnt t h1 h2]
        · rw [cnt t h1 h2]; simp
      · intro t
        rw [List.count_append, hcount]
        split
        · rename_i ht; have := (hmem t ht).2.2.2; omega
        · have := le5 t; omega
      · intro t ht
        rw [List.count_append, hcount, future t ht]
        rw [if_neg]
        intro hc
        have := (hmem t hc).2.1; omega

end Str0m
