import Verif.Model.BufferRx
/-
  Lemmas about the depacketizing buffer.
-/
namespace Str0m
namespace RxBuffer
variable {c : Codec}

/-- A segment: a run of consecutive numbers and equal times that begins with a head. -/
def GoodSeg (q : List RxEntry) (s : Nat × Nat) : Prop :=
  s.1 ≤ s.2 ∧ s.2 < q.length ∧ ∃ e0, q[s.1]? = some e0 ∧ e0.head = true ∧
    ∀ k, s.1 ≤ k → k ≤ s.2 → ∃ e, q[k]? = some e ∧ e.info.seq = e0.info.seq + (k - s.1) ∧
      e.info.time = e0.info.time

def StartOK (q : List RxEntry) (index : Nat) (s : SegStart) : Prop :=
  s.index < index ∧ ∃ e0, q[s.index]? = some e0 ∧ e0.head = true ∧ s.time = e0.info.time ∧
    s.offset = (e0.info.seq : Int) - (s.index : Int) ∧
    ∀ k, s.index ≤ k → k < index → ∃ e, q[k]? = some e ∧
      e.info.seq = e0.info.seq + (k - s.index) ∧ e.info.time = e0.info.time

theorem StartOK.goodSeg {q : List RxEntry} {index : Nat} {s : SegStart} (h : StartOK q (index + 1) s)
    (hl : index < q.length) : GoodSeg q (s.index, index) := by
  obtain ⟨h1, e0, h2, h3, _, _, h6⟩ := h
  refine ⟨?_, hl, e0, h2, h3, ?_⟩
  · have := h1; simp only; omega
  · intro k k1 k2
    exact h6 k k1 (by simp only at k2; omega)

theorem segLoop_good (q : List RxEntry) : ∀ (es : List RxEntry) (index : Nat) (start : Option SegStart),
    q.drop index = es → (∀ s, start = some s → StartOK q index s) →
    ∀ seg ∈ segLoop index start es, GoodSeg q seg := by
  intro es
  induction es with
  | nil => intro _ _ _ _ seg h; simp [segLoop] at h
  | cons e es ih =>
    intro index start hd hs seg hseg
    have hlt : index < q.length := by
      by_contra hc
      rw [List.drop_eq_nil_of_le (by omega)] at hd; cases hd
    have hq : q[index]? = some e := by
      have : (q.drop index)[0]? = some e := by rw [hd]; rfl
      simpa using this
    have hd' : q.drop (index + 1) = es := by
      have : (q.drop index).drop 1 = es := by rw [hd]; rfl
      rw [List.drop_drop] at this; exact this
    -- phase 1
    have p1 : (∀ s, (segBreak start index e).1 = some s → StartOK q (index + 1) s) ∧
        ∀ sg ∈ (segBreak start index e).2, GoodSeg q sg := by
      cases start with
      | none => simp [segBreak]
      | some s =>
        have hso := hs s rfl
        simp only [segBreak]
        split
        · refine ⟨by simp, ?_⟩
          intro sg hsg
          simp at hsg; subst hsg
          obtain ⟨h1, _⟩ := hso
          have : index - 1 + 1 = index := by omega
          exact StartOK.goodSeg (by rw [this]; exact hs s rfl) (by omega)
        · split
          · simp
          · rename_i n1 n2
            refine ⟨?_, by simp⟩
            intro s' hs'
            simp at hs'; subst hs'
            simp at n1 n2
            obtain ⟨n3, n4⟩ := n2
            obtain ⟨h1, e0, h2, h3, h4, h5, h6⟩ := hso
            refine ⟨by omega, e0, h2, h3, h4, h5, ?_⟩
            intro k k1 k2
            by_cases hk : k < index
            · exact h6 k k1 hk
            · have : k = index := by omega
              subst this
              refine ⟨e, hq, by omega, by omega⟩
    -- phase 2
    have p2 : ∀ s, segHead (segBreak start index e).1 index e = some s → StartOK q (index + 1) s := by
      intro s h
      unfold segHead at h
      split at h
      · rename_i s' h'
        simp at h; subst h
        exact p1.1 s' h'
      · split at h
        · rename_i hh
          simp at h; subst h
          refine ⟨by simp, e, hq, hh, rfl, rfl, ?_⟩
          intro k k1 k2
          have : k = index := by simp at k1; omega
          subst this
          exact ⟨e, hq, by simp, rfl⟩
        · cases h
    generalize hst2 : segHead (segBreak start index e).1 index e = st2 at *
    have p3 : (∀ s, (segTail st2 index e).1 = some s → StartOK q (index + 1) s) ∧
        ∀ sg ∈ (segTail st2 index e).2, GoodSeg q sg := by
      cases st2 with
      | none => simp [segTail]
      | some s =>
        simp only [segTail]
        split
        · refine ⟨by simp, ?_⟩
          intro sg hsg; simp at hsg; subst hsg
          exact (p2 s rfl).goodSeg hlt
        · refine ⟨?_, by simp⟩
          intro s' h; simp at h; subst h
          exact p2 s rfl
    simp only [segLoop, hst2, List.mem_append] at hseg
    rcases hseg with (h | h) | h
    · exact p1.2 seg h
    · exact p3.2 seg h
    · exact ih (index + 1) _ hd' p3.1 seg h

theorem segments_good (q : List RxEntry) : ∀ seg ∈ segments q, GoodSeg q seg :=
  segLoop_good q q 0 none rfl (by simp)

/-! ### Ranges -/

theorem range_getElem? (q : List RxEntry) (a b i : Nat) :
    (range q a b)[i]? = if a + i ≤ b then q[a + i]? else none := by
  simp only [range, List.getElem?_drop, List.getElem?_take]
  by_cases h : a + i ≤ b
  · rw [if_pos h, if_pos (by omega)]
  · rw [if_neg h, if_neg (by omega)]

theorem range_length {q : List RxEntry} {a b : Nat} (h1 : a ≤ b) (h2 : b < q.length) :
    (range q a b).length = b + 1 - a := by
  simp [range]; omega

theorem range_subset (q : List RxEntry) (a b : Nat) : ∀ e ∈ range q a b, e ∈ q := by
  intro e he
  exact List.mem_of_mem_take (List.mem_of_mem_drop he)

/-! ### Insert -/

theorem mem_insertEntry (e x : RxEntry) (q : List RxEntry) : x ∈ insertEntry e q ↔ x = e ∨ x ∈ q := by
  induction q with
  | nil => simp [insertEntry]
  | cons y q ih =>
    simp only [insertEntry]
    split
    · simp
    · simp only [List.mem_cons, ih]
      constructor
      · rintro (h | h | h) <;> simp [h]
      · rintro (h | h | h) <;> simp [h]

theorem insertEntry_sorted (e : RxEntry) (q : List RxEntry)
    (h : q.Pairwise (fun a b => a.info.seq < b.info.seq)) (hn : ∀ x ∈ q, x.info.seq ≠ e.info.seq) :
    (insertEntry e q).Pairwise (fun a b => a.info.seq < b.info.seq) := by
  induction q with
  | nil => simp [insertEntry]
  | cons y q ih =>
    rw [List.pairwise_cons] at h
    simp only [insertEntry]
    split
    · rename_i hlt
      rw [List.pairwise_cons]
      refine ⟨?_, List.pairwise_cons.mpr h⟩
      intro x hx
      rcases List.mem_cons.mp hx with rfl | hx
      · exact hlt
      · have := h.1 x hx; omega
    · rename_i hge
      rw [List.pairwise_cons]
      refine ⟨?_, ih h.2 (fun x hx => hn x (by simp [hx]))⟩
      intro x hx
      rcases (mem_insertEntry e x q).mp hx with rfl | hx
      · have := hn y (by simp); omega
      · exact h.1 x hx

theorem insertEntry_last (e : RxEntry) (q : List RxEntry) (h : ∀ x ∈ q, x.info.seq < e.info.seq) :
    insertEntry e q = q ++ [e] := by
  induction q with
  | nil => rfl
  | cons y q ih =>
    have := h y (by simp)
    simp only [insertEntry]
    rw [if_neg (by omega), ih (fun x hx => h x (by simp [hx]))]
    rfl

/-! ### Padding removal -/

theorem dropPadding_sublist (n : Nat) (q : List RxEntry) : (dropPadding n q).Sublist q := by
  induction q generalizing n with
  | nil => simp [dropPadding]
  | cons e q ih =>
    simp only [dropPadding]
    split
    · exact (ih _).cons _
    · exact (ih _).cons_cons _

/-- Dropping from the front: what is left is a suffix, and the last position moved only over
consecutive padding. -/
theorem dropFront_spec (hb : Nat) (q : List RxEntry) : ∀ (last : Nat),
    q.Pairwise (fun a b => a.info.seq < b.info.seq) → (∀ e ∈ q, last < e.info.seq) →
    ∃ pre, q = pre ++ (dropFront hb last q).2 ∧
      (∀ e ∈ pre, e.isPadding = true) ∧
      last ≤ (dropFront hb last q).1 ∧
      (∀ e ∈ (dropFront hb last q).2, (dropFront hb last q).1 < e.info.seq) ∧
      (∀ s, last < s → s ≤ (dropFront hb last q).1 → ∃ e ∈ pre, e.info.seq = s) := by
  induction q with
  | nil => intro last _ _; exact ⟨[], by simp [dropFront], by simp, by simp [dropFront], by simp [dropFront], by intro s h1 h2; simp [dropFront] at h2; omega⟩
  | cons e q ih =>
    intro last hp hl
    rw [List.pairwise_cons] at hp
    simp only [dropFront]
    split
    · split
      · exact ⟨[], by simp, by simp, Nat.le_refl _, hl, by intro s h1 h2; simp only at h2; omega⟩
      · rename_i hpad
        have hle := hl e (by simp)
        obtain ⟨pre, r1, r2, r3, r4, r5⟩ := ih (if e.info.seq = last + 1 then e.info.seq else last) hp.2 (by
          intro x hx
          have := hp.1 x hx
          split <;> omega)
        refine ⟨e :: pre, by rw [List.cons_append, ← r1], ?_, ?_, r4, ?_⟩
        · intro x hx
          rcases List.mem_cons.mp hx with rfl | hx
          · simpa using hpad
          · exact r2 x hx
        · split at r3 <;> split <;> omega
        · intro s h1 h2
          by_cases hs : (if e.info.seq = last + 1 then e.info.seq else last) < s
          · obtain ⟨x, hx, hxs⟩ := r5 s hs h2
            exact ⟨x, by simp [hx], hxs⟩
          · refine ⟨e, by simp, ?_⟩
            split at hs <;> omega
    · exact ⟨[], by simp, by simp, Nat.le_refl _, hl, by intro s h1 h2; simp only at h2; omega⟩

/-- Without any assumption: the rest is a suffix. -/
theorem dropFront_suffix (hb : Nat) (q : List RxEntry) : ∀ (last : Nat),
    (dropFront hb last q).2 <:+ q := by
  induction q with
  | nil => intro last; simp [dropFront]
  | cons e q ih =>
    intro last
    simp only [dropFront]
    split
    · split
      · exact List.suffix_rfl
      · exact (ih _).trans (List.suffix_cons _ _)
    · exact List.suffix_rfl

theorem discard_queue (b : RxBuffer c) : b.discardOldPadding.queue.Sublist b.queue := by
  unfold discardOldPadding
  cases b.lastEmitted with
  | none => exact dropPadding_sublist _ _
  | some last =>
    exact (dropPadding_sublist _ _).trans (dropFront_suffix _ _ _).sublist

/-- After discarding, the cache is either gone or everything is as before. -/
theorem discard_cache (b : RxBuffer c) :
    b.discardOldPadding.cache = none ∨
      (b.discardOldPadding.cache = b.cache ∧ b.discardOldPadding.queue = b.queue) := by
  have hs := discard_queue b
  by_cases h : b.discardOldPadding.queue.length = b.queue.length
  · right
    refine ⟨?_, hs.eq_of_length h⟩
    unfold discardOldPadding at h ⊢
    cases hl : b.lastEmitted with
    | none => rw [hl] at h; simp only at h ⊢; simp [h]
    | some last => rw [hl] at h; simp only at h ⊢; simp [h]
  · left
    unfold discardOldPadding at h ⊢
    cases hl : b.lastEmitted with
    | none => rw [hl] at h; simp only at h ⊢; simp [h]
    | some last => rw [hl] at h; simp only at h ⊢; simp [h]

@[simp] theorem discard_holdBack (b : RxBuffer c) : b.discardOldPadding.holdBack = b.holdBack := rfl
@[simp] theorem discard_cont (b : RxBuffer c) : b.discardOldPadding.cont = b.cont := rfl

/-- The last position only moves over consecutive padding, and stays below the queue. -/
theorem discard_last (b : RxBuffer c) (last : Nat) (hl : b.lastEmitted = some last)
    (hp : b.queue.Pairwise (fun a b => a.info.seq < b.info.seq)) (ha : ∀ e ∈ b.queue, last < e.info.seq) :
    ∃ last', b.discardOldPadding.lastEmitted = some last' ∧ last ≤ last' ∧
      (∀ e ∈ b.discardOldPadding.queue, last' < e.info.seq) ∧
      (∀ s, last < s → s ≤ last' → ∃ e ∈ b.queue, e.info.seq = s ∧ e.isPadding = true) := by
  obtain ⟨pre, r1, r2, r3, r4, r5⟩ := dropFront_spec b.holdBack b.queue last hp ha
  refine ⟨(dropFront b.holdBack last b.queue).1, ?_, r3, ?_, ?_⟩
  · simp [discardOldPadding, hl]
  · intro e he
    apply r4
    unfold discardOldPadding at he
    rw [hl] at he
    exact (dropPadding_sublist _ _).subset he
  · intro s h1 h2
    obtain ⟨e, he, hs⟩ := r5 s h1 h2
    exact ⟨e, by rw [r1]; simp [he], hs, r2 e he⟩

theorem discard_last_none (b : RxBuffer c) (hl : b.lastEmitted = none) :
    b.discardOldPadding.lastEmitted = none := by simp [discardOldPadding, hl]

/-- What a push does: nothing, or one insertion of a new number after the last delivered one. -/
theorem pushEntry_cases (b : RxBuffer c) (m : RxMeta) (data : List Byte) (p : Option (Bool × Bool)) :
    (b.pushEntry m data p = b) ∨
    (∃ hd tl, (∀ last, b.lastEmitted = some last → 0 < b.holdBack → last < m.seq) ∧
      (∀ x ∈ b.queue, x.info.seq ≠ m.seq) ∧ (p = none → hd = c.isHead b.st data) ∧
      (p = some (false, false) → hd = false) ∧
      b.pushEntry m data p = { b with queue := insertEntry { info := m, data := data, head := hd, tail := tl } b.queue }) := by
  by_cases h1 : b.tooOld m = true
  · left; unfold pushEntry; rw [if_pos h1]
  · by_cases h2 : b.queue.any (fun e => e.info.seq == m.seq) = true
    · left; unfold pushEntry; rw [if_neg h1, if_pos h2]
    · right
      have hlast : ∀ last, b.lastEmitted = some last → 0 < b.holdBack → last < m.seq := by
        intro last hl hb
        simp [tooOld, hl] at h1
        by_contra hc
        exact absurd (h1 (by omega)) (by omega)
      have hne : ∀ x ∈ b.queue, x.info.seq ≠ m.seq := by
        intro x hx he
        apply h2
        simp only [List.any_eq_true, beq_iff_eq]
        exact ⟨x, hx, he⟩
      cases p with
      | none =>
        refine ⟨c.isHead b.st data, c.isTail b.st m.marker data, hlast, hne, fun _ => rfl, by simp, ?_⟩
        unfold pushEntry; rw [if_neg h1, if_neg h2]
      | some p =>
        refine ⟨p.1, p.2, hlast, hne, by simp, by simp; intro h; rw [h], ?_⟩
        unfold pushEntry; rw [if_neg h1, if_neg h2]

end RxBuffer
end Str0m
