import Verif.Proofs.TwccTotal
/-
  Invariants of the TWCC receiver over its history.
-/
namespace Str0m.Twcc
open Res

/-- Everything that is known when a report was built. -/
structure ReportOk (s s' : Recv) (max : Nat) (rep : Report) (first : Receipt) (ts k p : Nat) (b : Built) : Prop where
  atFrom : s.queue[s.reportFrom]? = some first
  tsEq : ts = s.timeStart.getD first.time
  timeStart : s'.timeStart = some ts
  base : rep.baseSeq = first.seq % 65536
  count : rep.statusCount = k
  pos : 0 < k
  refTime : rep.referenceTime = (first.time - ts) / 1000 / 64000 % 2^32
  chunks : rep.chunks = b.chunks
  delta : rep.delta = b.delta
  built : BuildOk (max - 20) 0 (buildInterims first.seq (ts + rep.referenceTime * 64000 * 1000)
    (s.queue.drop s.reportFrom)) b k p
  queue : s'.queue = s.queue.drop (s.reportFrom + b.received - s.keep)
  from_ : s'.reportFrom = s.reportFrom + b.received - (s.reportFrom + b.received - s.keep)
  keep : s'.keep = s.keep
  size : 20 ≤ max

theorem buildReport_ok {s s' : Recv} {max : Nat} {o : Option Report}
    (h : s.buildReport max = .ok (o, s')) :
    (o = none ∧ s' = s) ∨ ∃ first ts k p b, s.queue[s.reportFrom]? = some first ∧
      ts = s.timeStart.getD first.time ∧ 20 ≤ max ∧
      BuildOk (max - 20) 0 (buildInterims first.seq
        (ts + (first.time - ts) / 1000 / 64000 % 2^32 * 64000 * 1000) (s.queue.drop s.reportFrom)) b k p ∧
      (o, s') = s.finish first ts ((first.time - ts) / 1000 / 64000 % 2^32) b := by
  unfold Recv.buildReport at h
  split at h
  · have := Res.ok.inj h; simp at this; exact Or.inl ⟨this.1.symm, this.2.symm⟩
  cases hq : s.queue[s.reportFrom]? with
  | none => rw [hq] at h; have := Res.ok.inj h; simp at this; exact Or.inl ⟨this.1.symm, this.2.symm⟩
  | some first =>
    rw [hq] at h
    simp only [Recv.reportOf] at h
    split at h
    · cases h
    generalize hb : buildChunks _ _ _ _ = bc at h
    cases bc with
    | err e => cases h
    | panic => cases h
    | ok b =>
      rw [bind_def, bind_ok] at h
      obtain ⟨k, p, hk⟩ := buildChunks_ok (buildInterims_ok _ _ _) hb
      exact Or.inr ⟨first, _, k, p, b, rfl, rfl, by omega, hk, (Res.ok.inj h).symm⟩

theorem buildReport_some {s s' : Recv} {max : Nat} {rep : Report}
    (h : s.buildReport max = .ok (some rep, s')) :
    ∃ first ts k p b, ReportOk s s' max rep first ts k p b := by
  rcases buildReport_ok h with ⟨h, _⟩ | ⟨first, ts, k, p, b, h1, h2, h3, hk, he⟩
  · cases h
  · unfold Recv.finish at he
    split at he
    · simp at he
    · rename_i hne
      simp only [Prod.mk.injEq, Option.some.injEq] at he
      obtain ⟨rfl, rfl⟩ := he
      refine ⟨first, ts, k, p, b, h1, h2, rfl, rfl, ?_, hk.some hne, rfl, rfl, rfl, hk,
        rfl, rfl, rfl, h3⟩
      have := hk.count; simp only; omega

theorem buildReport_none {s s' : Recv} {max : Nat} (h : s.buildReport max = .ok (none, s')) :
    s'.queue = s.queue ∧ s'.keep = s.keep ∧ s'.reportFrom = s.reportFrom ∧
    ∀ ts, s.timeStart = some ts → s'.timeStart = some ts := by
  rcases buildReport_ok h with ⟨_, rfl⟩ | ⟨first, ts, k, p, b, h1, h2, h3, hk, he⟩
  · exact ⟨rfl, rfl, rfl, fun _ h => h⟩
  · unfold Recv.finish at he
    split at he
    · rename_i hne
      simp only [Prod.mk.injEq, true_and] at he
      subst he
      refine ⟨rfl, rfl, ?_, fun ts' h' => by simp [h2, h']⟩
      simp only
      have h0 := hk.statuses
      have hd := hk.delta
      rw [hne] at h0
      have h0 := congrArg List.length h0
      generalize expand _ = E at h0 hd
      have : b.delta = [] := by
        rw [hd, List.eq_nil_of_length_eq_zero (l := E.take k) (by
          simp only [List.flatMap_nil, List.length_nil, List.length_append, List.length_map, List.length_take] at h0 ⊢
          omega)]
        rfl
      rw [hk.received, this]; rfl
    · simp at he

/-- The queue from the first unreported entry. -/
theorem drop_cons {s : Recv} {first : Receipt} (h : s.queue[s.reportFrom]? = some first) :
    ∃ rest, s.queue.drop s.reportFrom = first :: rest := by
  have hlt : s.reportFrom < s.queue.length := by
    by_contra hc
    rw [List.getElem?_eq_none (by omega)] at h; cases h
  rw [List.getElem?_eq_getElem hlt] at h
  injection h with h
  exact ⟨s.queue.drop (s.reportFrom + 1), by rw [List.drop_eq_getElem_cons hlt, h]⟩

def Sorted (q : List Receipt) : Prop := q.Pairwise (fun a b => a.seq < b.seq)

/-! ### Insertion -/

theorem insertAt_le (q : List Receipt) (seq : Nat) : insertAt q seq ≤ q.length := List.findIdx_le_length

theorem take_lt {q : List Receipt} {seq : Nat} : ∀ r ∈ q.take (insertAt q seq), r.seq < seq := by
  intro r hr
  obtain ⟨i, hi, rfl⟩ := List.getElem_of_mem hr
  rw [List.length_take] at hi
  have hi' : i < insertAt q seq := by omega
  have := List.not_of_lt_findIdx (xs := q) (p := fun r => decide (seq ≤ r.seq)) hi'
  rw [List.getElem_take]
  simpa using this

theorem drop_ge {q : List Receipt} {seq : Nat} (hs : Sorted q) : ∀ r ∈ q.drop (insertAt q seq), seq ≤ r.seq := by
  intro r hr
  by_cases hlt : insertAt q seq < q.length
  · have hget := List.findIdx_getElem (xs := q) (p := fun r : Receipt => decide (seq ≤ r.seq)) (w := hlt)
    rw [List.drop_eq_getElem_cons hlt] at hr
    have h0 : seq ≤ (q[insertAt q seq]'hlt).seq := of_decide_eq_true hget
    have hs' : Sorted (q.drop (insertAt q seq)) := List.Pairwise.sublist (List.drop_sublist _ _) hs
    rw [Sorted, List.drop_eq_getElem_cons hlt, List.pairwise_cons] at hs'
    rcases List.mem_cons.1 hr with rfl | hr
    · exact h0
    · have := hs'.1 r hr; omega
  · rw [List.drop_of_length_le (by omega)] at hr; simp at hr

theorem found_iff {q : List Receipt} {seq : Nat} (hs : Sorted q) :
    (q[insertAt q seq]?).map (·.seq) = some seq ↔ ∃ r ∈ q, r.seq = seq := by
  constructor
  · intro h
    cases h1 : q[insertAt q seq]? with
    | none => rw [h1] at h; cases h
    | some r =>
      rw [h1] at h
      exact ⟨r, List.mem_of_getElem? h1, by simpa using h⟩
  · rintro ⟨r, hr, rfl⟩
    rw [← List.take_append_drop (insertAt q r.seq) q] at hr
    rcases List.mem_append.1 hr with hr | hr
    · have := take_lt r hr; omega
    · have hlt : insertAt q r.seq < q.length := by
        by_contra hc
        rw [List.drop_of_length_le (by omega)] at hr; simp at hr
      rw [List.getElem?_eq_getElem hlt]
      have hs' : Sorted (q.drop (insertAt q r.seq)) := List.Pairwise.sublist (List.drop_sublist _ _) hs
      have hge := drop_ge (seq := r.seq) hs
      rw [List.drop_eq_getElem_cons hlt] at hr hge
      rw [Sorted, List.drop_eq_getElem_cons hlt, List.pairwise_cons] at hs'
      have h0 := hge _ (List.mem_cons_self ..)
      rcases List.mem_cons.1 hr with hr | hr
      · rw [← hr]; rfl
      · have := hs'.1 r hr; omega

theorem insert_sorted {q : List Receipt} {seq time : Nat} (hs : Sorted q)
    (h : ¬ (q[insertAt q seq]?).map (·.seq) = some seq) :
    Sorted (q.take (insertAt q seq) ++ [⟨seq, time⟩] ++ q.drop (insertAt q seq)) := by
  rw [found_iff hs] at h
  unfold Sorted
  rw [List.append_assoc, List.pairwise_append, List.singleton_append, List.pairwise_cons]
  refine ⟨List.Pairwise.sublist (List.take_sublist _ _) hs,
    ⟨?_, List.Pairwise.sublist (List.drop_sublist _ _) hs⟩, ?_⟩
  · intro r hr
    have h1 := drop_ge hs r hr
    have : r.seq ≠ seq := fun hc => h ⟨r, List.mem_of_mem_drop hr, hc⟩
    simp only; omega
  · intro a ha b hb
    have h1 := take_lt a ha
    rcases List.mem_cons.1 hb with rfl | hb
    · exact h1
    · have := drop_ge hs b hb; omega

/-! ### The invariant -/

structure HInv (keep : Nat) (arr : List (Nat × Nat)) (sent : List (Nat × Report)) (s : Recv) : Prop where
  keep : s.keep = keep
  sorted : Sorted s.queue
  le : s.reportFrom ≤ s.queue.length
  mem : ∀ r ∈ s.queue, (r.seq, r.time) ∈ arr
  done : ∀ r ∈ s.queue.take s.reportFrom, ∃ p ∈ sent, SaysReceived p r.seq
  all : ∀ a ∈ arr, (∃ r ∈ s.queue, r.seq = a.1) ∨ (∃ p ∈ sent, SaysReceived p a.1) ∨
    ∃ ts, s.timeStart = some ts ∧ a.2 + 8192 * 1000000 ≤ ts

theorem statuses_get {b : Built} {bytes cnt k p : Nat} {is : List Interim} (hk : BuildOk bytes cnt is b k p)
    {j : Nat} {e : Status × Option Delta} (hj : j < k) (he : (expand is)[j]? = some e) :
    (b.chunks.flatMap Chunk.statuses)[j]? = some e.1 := by
  rw [hk.statuses, List.getElem?_append_left (by simp; have := hk.le; omega), List.getElem?_map,
    List.getElem?_take_of_lt hj, he]
  rfl

theorem history_inv {keep : Nat} {arr : List (Nat × Nat)} {sent : List (Nat × Report)} {s : Recv}
    (h : History keep arr sent s) : HInv keep arr sent s := by
  induction h with
  | new => exact ⟨rfl, by simp [Recv.new, Sorted], by simp [Recv.new], by simp [Recv.new], by simp [Recv.new], by simp⟩
  | @arrive arr sent s seq time _ ih =>
    by_cases hf : (s.queue[insertAt s.queue seq]?).map (·.seq) = some seq
    · rw [Recv.update, if_pos hf]
      refine ⟨ih.keep, ih.sorted, ih.le, fun r hr => by simp [ih.mem r hr], ih.done, ?_⟩
      intro a ha
      rcases List.mem_append.1 ha with ha | ha
      · exact ih.all a ha
      · simp only [List.mem_singleton] at ha
        subst ha
        exact Or.inl ((found_iff ih.sorted).1 hf)
    · by_cases ho : s.tooOld time = true
      · rw [Recv.update, if_neg hf, if_pos ho]
        refine ⟨ih.keep, ih.sorted, ih.le, fun r hr => by simp [ih.mem r hr], ih.done, ?_⟩
        intro a ha
        rcases List.mem_append.1 ha with ha | ha
        · exact ih.all a ha
        · simp only [List.mem_singleton] at ha
          subst ha
          right; right
          unfold Recv.tooOld at ho
          split at ho
          · rename_i ts hts
            exact ⟨ts, hts, by simp only [decide_eq_true_eq] at ho; simp only; omega⟩
          · cases ho
      · rw [Recv.update, if_neg hf, if_neg ho]
        have hle := insertAt_le s.queue seq
        have hil := ih.le
        refine ⟨ih.keep, insert_sorted ih.sorted hf, ?_, ?_, ?_, ?_⟩
        · simp only [List.length_append, List.length_take, List.length_drop, List.length_singleton]
          split <;> omega
        · intro r hr
          simp only [List.mem_append, List.mem_singleton] at hr ⊢
          rcases hr with (hr | hr) | hr
          · exact Or.inl (ih.mem r (List.mem_of_mem_take hr))
          · subst hr; exact Or.inr rfl
          · exact Or.inl (ih.mem r (List.mem_of_mem_drop hr))
        · intro r hr
          apply ih.done
          simp only at hr
          split at hr
          · rename_i hlt
            rw [List.append_assoc, List.take_append_of_le_length (by simp; omega), List.take_take] at hr
            rw [Nat.min_self] at hr
            have : (s.queue.take (insertAt s.queue seq)) = (s.queue.take s.reportFrom).take (insertAt s.queue seq) := by
              rw [List.take_take, Nat.min_eq_left (by omega)]
            rw [this] at hr
            exact List.mem_of_mem_take hr
          · rename_i hlt
            rw [List.append_assoc, List.take_append_of_le_length (by simp; omega), List.take_take] at hr
            rw [Nat.min_eq_left (by omega)] at hr
            exact hr
        · intro a ha
          rcases List.mem_append.1 ha with ha | ha
          · rcases ih.all a ha with ⟨r, hr, hra⟩ | h | h
            · left
              refine ⟨r, ?_, hra⟩
              rw [← List.take_append_drop (insertAt s.queue seq) s.queue] at hr
              rcases List.mem_append.1 hr with hr | hr
              · simp [hr]
              · simp [hr]
            · exact Or.inr (Or.inl h)
            · exact Or.inr (Or.inr h)
          · simp only [List.mem_singleton] at ha
            subst ha
            left
            exact ⟨⟨seq, time⟩, by simp, rfl⟩
  | @nothing arr sent s s' max _ hb ih =>
    obtain ⟨h1, h2, h3, h4⟩ := buildReport_none hb
    refine ⟨h2.trans ih.keep, h1 ▸ ih.sorted, by rw [h1, h3]; exact ih.le, by rw [h1]; exact ih.mem,
      by rw [h1, h3]; exact ih.done, ?_⟩
    intro a ha
    rcases ih.all a ha with h | h | ⟨ts, hts, h⟩
    · exact Or.inl (h1 ▸ h)
    · exact Or.inr (Or.inl h)
    · exact Or.inr (Or.inr ⟨ts, h4 ts hts, h⟩)
  | @report arr sent s s' rep max base _ hb hbase ih =>
    obtain ⟨first, ts, k, p, b, hr⟩ := buildReport_some hb
    obtain ⟨rest, hdrop⟩ := drop_cons hr.atFrom
    have hfs : first.seq = base := by rw [hr.atFrom] at hbase; simpa using hbase
    have hsd : Sorted (s.queue.drop s.reportFrom) := List.Pairwise.sublist (List.drop_sublist _ _) ih.sorted
    have hge : ∀ r ∈ s.queue.drop s.reportFrom, first.seq ≤ r.seq := by
      intro r hr
      rw [hdrop] at hr hsd
      rcases List.mem_cons.1 hr with rfl | hr
      · exact le_refl _
      · exact le_of_lt ((List.pairwise_cons.1 hsd).1 r hr)
    obtain ⟨hlen, hrep⟩ := reported (s.queue.drop s.reportFrom) first.seq (ts + rep.referenceTime * 64000 * 1000) first.seq k
      hge hsd (Or.inr ⟨rfl, by rw [hdrop]; simp⟩)
    rw [← hr.built.delta, ← hr.built.received] at hlen hrep
    rw [List.length_drop] at hlen
    have hil := ih.le
    -- everything before the new `reportFrom` is reported
    have hdone : ∀ r ∈ s.queue.take (s.reportFrom + b.received), ∃ q ∈ sent ++ [(base, rep)], SaysReceived q r.seq := by
      intro r hmem
      rw [List.take_add] at hmem
      rcases List.mem_append.1 hmem with hmem | hmem
      · obtain ⟨q, hq, hs⟩ := ih.done r hmem
        exact ⟨q, by simp [hq], hs⟩
      · refine ⟨(base, rep), by simp, ?_⟩
        obtain ⟨h1, e, he, hce⟩ := hrep r hmem
        have hg := hge r (List.mem_of_mem_take hmem)
        refine ⟨by simp only; omega, by simp only; rw [hr.count]; omega, e.1, ?_, hce⟩
        simp only
        rw [hr.chunks, ← hfs]
        exact statuses_get hr.built h1 he
    refine ⟨hr.keep.trans ih.keep, ?_, ?_, ?_, ?_, ?_⟩
    · rw [hr.queue]; exact List.Pairwise.sublist (List.drop_sublist _ _) ih.sorted
    · rw [hr.queue, hr.from_, List.length_drop]; omega
    · rw [hr.queue]; exact fun r hmem => ih.mem r (List.mem_of_mem_drop hmem)
    · rw [hr.queue, hr.from_]
      intro r hmem
      apply hdone
      rw [List.take_drop] at hmem
      have := List.mem_of_mem_drop hmem
      rw [show s.reportFrom + b.received - s.keep + (s.reportFrom + b.received - (s.reportFrom + b.received - s.keep)) =
        s.reportFrom + b.received by omega] at this
      exact this
    · intro a ha
      rcases ih.all a ha with ⟨r, hmem, hra⟩ | ⟨q, hq, hs⟩ | ⟨ts', hts, h⟩
      · rw [← List.take_append_drop (s.reportFrom + b.received - s.keep) s.queue] at hmem
        rcases List.mem_append.1 hmem with hmem | hmem
        · right; left
          rw [← hra]
          apply hdone
          have : (s.queue.take (s.reportFrom + b.received - s.keep)) =
              (s.queue.take (s.reportFrom + b.received)).take (s.reportFrom + b.received - s.keep) := by
            rw [List.take_take, Nat.min_eq_left (by omega)]
          rw [this] at hmem
          exact List.mem_of_mem_take hmem
        · left; rw [hr.queue]; exact ⟨r, hmem, hra⟩
      · exact Or.inr (Or.inl ⟨q, by simp [hq], hs⟩)
      · refine Or.inr (Or.inr ⟨ts', ?_, h⟩)
        rw [hr.timeStart, hr.tsEq, hts]; rfl

end Str0m.Twcc
