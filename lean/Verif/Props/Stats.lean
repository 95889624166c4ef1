import Verif.Spec.Stats
import Mathlib.Data.List.Chain
import Mathlib.Tactic.Linarith

/-!
C121: when statistics are told and what a report is. C122: what it says of media received. C123: what it says of media sent.
-/

namespace Str0m.Stats

/-! ### What a step adds to the queue -/

/-- what an input makes to be told -/
def gen (s : State) : Op → List Event
  | .timeout now o => if now < s.clock then [] else if wants s now then report s now o else []
  | _ => []

theorem step_queue (s : State) (op : Op) : (step s op).2.toList ++ (step s op).1.queue = s.queue ++ gen s op := by
  cases op with
  | poll => cases h : s.queue <;> simp [step, gen, h]
  | timeout now o =>
    simp only [step, timeout, gen]
    split
    · simp
    · split <;> simp
  | rxDeclare => simp only [step, gen]; split <;> simp
  | rxChange => simp only [step, gen]; split <;> simp [onRx]
  | rxPacket => simp only [step, gen]; split <;> simp [onRx]
  | txDeclare => simp only [step, gen]; split <;> simp
  | _ => simp [step, gen, onRx, onTx]

/-- what a history makes to be told -/
def gens (s : State) : List Op → List Event
  | [] => []
  | op :: ops => gen s op ++ gens (step s op).1 ops

theorem run_queue (s : State) (ops : List Op) : (run s ops).2 ++ (run s ops).1.queue = s.queue ++ gens s ops := by
  induction ops generalizing s with
  | nil => simp [run, gens]
  | cons op ops ih =>
    simp only [run, gens, List.append_assoc]
    rw [ih, ← List.append_assoc, step_queue, List.append_assoc]

theorem run_told {s : State} (h : Start s) (ops : List Op) : (run s ops).2 <+: gens s ops := by
  have := run_queue s ops
  rw [h.queue, List.nil_append] at this
  exact ⟨_, this⟩

theorem step_interval (s : State) (op : Op) : (step s op).1.interval = s.interval := by
  cases op with
  | timeout now o =>
    simp only [step, timeout]
    split
    · rfl
    · split <;> rfl
  | rxDeclare => simp only [step]; split <;> rfl
  | rxChange => simp only [step]; split <;> rfl
  | rxPacket => simp only [step]; split <;> rfl
  | txDeclare => simp only [step]; split <;> rfl
  | _ => rfl

theorem step_lastNow (s : State) (op : Op) (h : ∀ now o, op ≠ .timeout now o) : (step s op).1.lastNow = s.lastNow := by
  cases op with
  | timeout now o => exact absurd rfl (h now o)
  | rxDeclare => simp only [step]; split <;> rfl
  | rxChange => simp only [step]; split <;> rfl
  | rxPacket => simp only [step]; split <;> rfl
  | txDeclare => simp only [step]; split <;> rfl
  | _ => rfl

theorem peerTimes_append (a b : List Event) : peerTimes (a ++ b) = peerTimes a ++ peerTimes b := by simp [peerTimes]

theorem filterMap_none {α β : Type} {f : α → Option β} {l : List α} (h : ∀ x ∈ l, f x = none) : l.filterMap f = [] := by
  induction l with
  | nil => rfl
  | cons x l ih => rw [List.filterMap_cons, h x (by simp), ih (fun y hy => h y (by simp [hy]))]

theorem peerTimes_report (s : State) (now : Nat) (o : Orders) : peerTimes (report s now o) = [now] := by
  unfold peerTimes report
  rw [List.filterMap_cons, List.filterMap_append, filterMap_none, filterMap_none]
  · rfl
  · intro x hx; obtain ⟨_, _, rfl⟩ := List.mem_map.mp hx; rfl
  · intro x hx; obtain ⟨_, _, rfl⟩ := List.mem_map.mp hx; rfl

theorem gens_times (s : State) (ops : List Op) : (peerTimes (gens s ops)).Pairwise (fun a b => a + s.interval ≤ b) ∧
    ∀ l, s.lastNow = some l → ∀ t ∈ peerTimes (gens s ops), l + s.interval ≤ t := by
  induction ops generalizing s with
  | nil => simp [gens, peerTimes]
  | cons op ops ih =>
    obtain ⟨ih1, ih2⟩ := ih (step s op).1
    rw [step_interval] at ih1 ih2
    simp only [gens, peerTimes_append]
    by_cases ht : ∃ now o, op = .timeout now o
    · obtain ⟨now, o, rfl⟩ := ht
      simp only [step, timeout, gen] at ih1 ih2 ⊢
      split
      · rename_i hc
        rw [if_pos hc] at ih1 ih2
        exact ⟨by simpa [peerTimes] using ih1, by simpa [peerTimes] using ih2⟩
      · rename_i hc
        rw [if_neg hc] at ih1 ih2
        split
        · rename_i hw
          rw [if_pos hw] at ih1 ih2
          rw [peerTimes_report]
          refine ⟨?_, ?_⟩
          · rw [List.singleton_append, List.pairwise_cons]
            exact ⟨fun t h => ih2 now rfl t h, ih1⟩
          · intro l hl t h
            simp only [wants, hl, decide_eq_true_eq] at hw
            rcases List.mem_append.mp h with h | h
            · rw [List.mem_singleton] at h; omega
            · have := ih2 now rfl t h; omega
        · rename_i hw
          rw [if_neg hw] at ih1 ih2
          refine ⟨by simpa [peerTimes] using ih1, ?_⟩
          intro l hl t h
          refine ih2 l (by simp [hl]) t ?_
          simpa [peerTimes] using h
    · have ht : ∀ now o, op ≠ .timeout now o := fun now o h => ht ⟨now, o, h⟩
      have hg : gen s op = [] := by
        cases op with
        | timeout now o => exact absurd rfl (ht now o)
        | _ => rfl
      rw [hg, step_lastNow s op ht] at *
      exact ⟨by simpa [peerTimes] using ih1, by simpa [peerTimes] using ih2⟩

/-- C121: two `PeerStats` are at least the interval apart -/
theorem C121_spacing {s : State} (h : Start s) (ops : List Op) :
    (peerTimes (run s ops).2).Pairwise (fun a b => a + s.interval ≤ b) := by
  obtain ⟨r, hr⟩ := run_told h ops
  have := (gens_times s ops).1
  rw [← hr, peerTimes_append] at this
  exact (List.pairwise_append.mp this).1

/-- C121: nothing is told before the time that `poll_timeout` says, a report is made at the first timeout from then on, and the next time is
an interval later; the first timeout of all only sets the time -/
theorem C121_due (s : State) (now : Nat) (o : Orders) (hc : s.clock ≤ now) :
    ((step s (.timeout now o)).1.queue = s.queue ∧ pollTimeout (step s (.timeout now o)).1 =
        some ((pollTimeout s).getD (now + s.interval)) ∧ (∀ d, pollTimeout s = some d → now < d)) ∨
      (∃ rep, (step s (.timeout now o)).1.queue = s.queue ++ rep ∧ peerTimes rep = [now] ∧
        pollTimeout (step s (.timeout now o)).1 = some (now + s.interval) ∧ ∃ d, pollTimeout s = some d ∧ d ≤ now) := by
  have hc' : ¬ now < s.clock := by omega
  simp only [step, timeout, if_neg hc']
  split
  · rename_i hw
    right
    refine ⟨_, rfl, peerTimes_report _ _ _, rfl, ?_⟩
    unfold wants at hw
    cases hl : s.lastNow with
    | none => simp [hl] at hw
    | some l =>
      rw [hl] at hw
      exact ⟨l + s.interval, by simp [pollTimeout, hl], by simpa using hw⟩
  · rename_i hw
    left
    refine ⟨rfl, ?_, ?_⟩
    · cases hl : s.lastNow <;> simp [pollTimeout, hl]
    · intro d hd
      cases hl : s.lastNow with
      | none => simp [pollTimeout, hl] at hd
      | some l =>
        simp only [pollTimeout, hl, Option.map_some, Option.some.injEq] at hd
        simp only [wants, hl, decide_eq_true_eq] at hw
        omega

/-! ### The maps of a report -/

theorem inOrder_perm {α : Type} [DecidableEq α] (g l : List α) : (inOrder g l).Perm l := by
  unfold inOrder
  split
  · rename_i h; exact List.isPerm_iff.mp h
  · exact List.Perm.refl _

/-- the entries under a key -/
def sumAt (f : Ingress → Nat) (m : List Ingress) (k : Key) : Nat := (m.map (fun i => if i.key = k then f i else 0)).sum

theorem upsert_sum {f : Ingress → Nat} (hf : ∀ a b, f (merge a b) = f a + f b) (m : List Ingress) (x : Ingress) (k : Key) :
    sumAt f (upsert m x) k = sumAt f m k + if x.key = k then f x else 0 := by
  induction m with
  | nil => simp [upsert, sumAt]
  | cons y m ih =>
    unfold upsert
    split
    · rename_i h
      have hk : (merge y x).key = y.key := rfl
      simp only [sumAt, List.map_cons, List.sum_cons, hk, hf]
      by_cases hy : y.key = k
      · rw [if_pos hy, if_pos hy, if_pos (h ▸ hy)]; omega
      · rw [if_neg hy, if_neg hy, if_neg (h ▸ hy)]; omega
    · simp only [sumAt, List.map_cons, List.sum_cons] at ih ⊢
      omega

theorem upsert_keys (m : List Ingress) (x : Ingress) :
    (upsert m x).map Ingress.key = if x.key ∈ m.map Ingress.key then m.map Ingress.key else m.map Ingress.key ++ [x.key] := by
  induction m with
  | nil => simp [upsert]
  | cons y m ih =>
    unfold upsert
    split
    · rename_i h
      have hk : (merge y x).key = y.key := rfl
      simp [hk, h]
    · rename_i h
      have h' : ¬ x.key = y.key := fun e => h e.symm
      simp only [List.map_cons, ih, List.mem_cons, h', false_or]
      split <;> simp

theorem upsert_at {m : List Ingress} {x : Ingress} {t : Nat} (hm : ∀ i ∈ m, i.at = t) (hx : x.at = t) : ∀ i ∈ upsert m x, i.at = t := by
  induction m with
  | nil => simpa [upsert] using hx
  | cons y m ih =>
    unfold upsert
    split
    · intro i hi
      rcases List.mem_cons.mp hi with rfl | hi
      · simp [merge, hx, hm y (by simp)]
      · exact hm i (by simp [hi])
    · intro i hi
      rcases List.mem_cons.mp hi with rfl | hi
      · exact hm i (by simp)
      · exact ih (fun j hj => hm j (by simp [hj])) i hi

/-- streams that a report is about -/
def Rx.seen (r : Rx) : Prop := r.ssrc ≠ 0 ∧ r.bytes ≠ 0

instance (r : Rx) : Decidable r.seen := inferInstanceAs (Decidable (r.ssrc ≠ 0 ∧ r.bytes ≠ 0))

theorem visitRx_eq (now : Nat) (m : List Ingress) (r : Rx) : visitRx now m r = if r.seen then upsert m (r.stats now) else m := by
  unfold visitRx Rx.seen
  by_cases h1 : r.ssrc = 0 <;> by_cases h2 : r.bytes = 0 <;> simp [h1, h2]

theorem fold_sum {f : Ingress → Nat} (hf : ∀ a b, f (merge a b) = f a + f b) (now : Nat) (l : List Rx) (m : List Ingress) (k : Key) :
    sumAt f (l.foldl (visitRx now) m) k = sumAt f m k + (l.map (fun r => if r.seen ∧ r.key = k then f (r.stats now) else 0)).sum := by
  induction l generalizing m with
  | nil => simp
  | cons r l ih =>
    rw [List.foldl_cons, ih, visitRx_eq]
    by_cases hs : r.seen
    · rw [if_pos hs, upsert_sum hf]
      have : (r.stats now).key = r.key := rfl
      simp only [this, List.map_cons, List.sum_cons, hs, true_and]
      omega
    · simp [hs]

theorem fold_nodup (now : Nat) (l : List Rx) (m : List Ingress) (hm : (m.map Ingress.key).Nodup) :
    ((l.foldl (visitRx now) m).map Ingress.key).Nodup := by
  induction l generalizing m with
  | nil => exact hm
  | cons r l ih =>
    rw [List.foldl_cons]
    apply ih
    rw [visitRx_eq]
    split
    · rw [upsert_keys]
      split
      · exact hm
      · rename_i h
        rw [List.nodup_append]
        refine ⟨hm, by simp, ?_⟩
        rintro a ha b hb rfl
        rw [List.mem_singleton] at hb
        exact h (hb ▸ ha)
    · exact hm

theorem fold_keys (now : Nat) (l : List Rx) (m : List Ingress) (k : Key) :
    k ∈ (l.foldl (visitRx now) m).map Ingress.key ↔ k ∈ m.map Ingress.key ∨ ∃ r ∈ l, r.seen ∧ r.key = k := by
  induction l generalizing m with
  | nil => simp
  | cons r l ih =>
    rw [List.foldl_cons, ih, visitRx_eq]
    have hk : (r.stats now).key = r.key := rfl
    by_cases hs : r.seen
    · rw [if_pos hs, upsert_keys]
      rw [hk]
      by_cases hin : r.key ∈ m.map Ingress.key
      · rw [if_pos hin]
        simp only [List.mem_cons, exists_eq_or_imp, hs, true_and]
        constructor
        · rintro (h | h)
          · exact .inl h
          · exact .inr (.inr h)
        · rintro (h | h | h)
          · exact .inl h
          · exact .inl (h ▸ hin)
          · exact .inr h
      · rw [if_neg hin]
        simp only [List.mem_append, List.mem_cons, List.not_mem_nil, or_false, exists_eq_or_imp, hs, true_and]
        constructor
        · rintro ((h | h) | h)
          · exact .inl h
          · exact .inr (.inl h.symm)
          · exact .inr (.inr h)
        · rintro (h | h | h)
          · exact .inl (.inl h)
          · exact .inl (.inr h.symm)
          · exact .inr h
    · simp [hs]

theorem fold_at (now : Nat) (l : List Rx) (m : List Ingress) (hm : ∀ i ∈ m, i.at = now) : ∀ i ∈ l.foldl (visitRx now) m, i.at = now := by
  induction l generalizing m with
  | nil => exact hm
  | cons r l ih =>
    rw [List.foldl_cons]
    apply ih
    rw [visitRx_eq]
    split
    · exact upsert_at hm rfl
    · exact hm

theorem sum_zero {l : List Nat} (h : ∀ x ∈ l, x = 0) : l.sum = 0 := by
  induction l with
  | nil => rfl
  | cons x l ih => rw [List.sum_cons, h x (by simp), ih (fun y hy => h y (by simp [hy]))]

theorem sumAt_mem {f : Ingress → Nat} {m : List Ingress} (hm : (m.map Ingress.key).Nodup) {i : Ingress} (hi : i ∈ m) : sumAt f m i.key = f i := by
  induction m with
  | nil => simp at hi
  | cons y m ih =>
    simp only [List.map_cons, List.nodup_cons] at hm
    simp only [sumAt, List.map_cons, List.sum_cons]
    rcases List.mem_cons.mp hi with rfl | hi
    · have : (m.map (fun j => if j.key = i.key then f j else 0)).sum = 0 := by
        apply sum_zero
        intro x hx
        obtain ⟨j, hj, rfl⟩ := List.mem_map.mp hx
        rw [if_neg]
        intro e
        exact hm.1 (e ▸ List.mem_map_of_mem hj)
      rw [this, if_pos rfl]; omega
    · have hne : ¬ y.key = i.key := fun e => hm.1 (e ▸ List.mem_map_of_mem hi)
      rw [if_neg hne]
      have := ih hm.2 hi
      simp only [sumAt] at this
      omega

theorem insertEgress_keys (m : List Egress) (x : Egress) :
    (insertEgress m x).map Egress.key = if x.key ∈ m.map Egress.key then m.map Egress.key else m.map Egress.key ++ [x.key] := by
  induction m with
  | nil => simp [insertEgress]
  | cons y m ih =>
    unfold insertEgress
    split
    · rename_i h; simp [h]
    · rename_i h
      have h' : ¬ x.key = y.key := fun e => h e.symm
      simp only [List.map_cons, ih, List.mem_cons, h', false_or]
      split <;> simp

theorem insertEgress_mem {m : List Egress} {x e : Egress} (h : e ∈ insertEgress m x) : e ∈ m ∨ e = x := by
  induction m with
  | nil => simpa [insertEgress] using h
  | cons y m ih =>
    unfold insertEgress at h
    split at h
    · rcases List.mem_cons.mp h with rfl | h
      · exact .inr rfl
      · exact .inl (by simp [h])
    · rcases List.mem_cons.mp h with rfl | h
      · exact .inl (by simp)
      · rcases ih h with h | h
        · exact .inl (by simp [h])
        · exact .inr h

theorem foldTx_nodup (now : Nat) (l : List Tx) (m : List Egress) (hm : (m.map Egress.key).Nodup) :
    ((l.foldl (visitTx now) m).map Egress.key).Nodup := by
  induction l generalizing m with
  | nil => exact hm
  | cons r l ih =>
    rw [List.foldl_cons]
    apply ih
    unfold visitTx
    split
    · exact hm
    · rw [insertEgress_keys]
      split
      · exact hm
      · rename_i h
        rw [List.nodup_append]
        refine ⟨hm, by simp, ?_⟩
        rintro a ha b hb rfl
        rw [List.mem_singleton] at hb
        exact h (hb ▸ ha)

theorem foldTx_mem {now : Nat} {l : List Tx} {m : List Egress} {e : Egress} (h : e ∈ l.foldl (visitTx now) m) :
    e ∈ m ∨ ∃ t ∈ l, t.bytes ≠ 0 ∧ e = t.stats now := by
  induction l generalizing m with
  | nil => exact .inl h
  | cons r l ih =>
    rw [List.foldl_cons] at h
    rcases ih h with h | ⟨t, ht, g⟩
    · unfold visitTx at h
      split at h
      · exact .inl h
      · rename_i hb
        rcases insertEgress_mem h with h | h
        · exact .inl h
        · exact .inr ⟨r, by simp, hb, h⟩
    · exact .inr ⟨t, by simp [ht], g⟩

theorem foldTx_keys (now : Nat) (l : List Tx) (m : List Egress) (k : Key) :
    k ∈ (l.foldl (visitTx now) m).map Egress.key ↔ k ∈ m.map Egress.key ∨ ∃ t ∈ l, t.bytes ≠ 0 ∧ t.key = k := by
  induction l generalizing m with
  | nil => simp
  | cons r l ih =>
    rw [List.foldl_cons, ih]
    unfold visitTx
    have hk : (r.stats now).key = r.key := rfl
    by_cases hs : r.bytes = 0
    · simp [hs]
    · rw [if_neg hs, insertEgress_keys, hk]
      by_cases hin : r.key ∈ m.map Egress.key
      · rw [if_pos hin]
        simp only [List.mem_cons, exists_eq_or_imp, hs, ne_eq, not_false_eq_true, true_and]
        constructor
        · rintro (h | h)
          · exact .inl h
          · exact .inr (.inr h)
        · rintro (h | h | h)
          · exact .inl h
          · exact .inl (h ▸ hin)
          · exact .inr h
      · rw [if_neg hin]
        simp only [List.mem_append, List.mem_cons, List.not_mem_nil, or_false, exists_eq_or_imp, hs, ne_eq, not_false_eq_true, true_and]
        constructor
        · rintro ((h | h) | h)
          · exact .inl h
          · exact .inr (.inl h.symm)
          · exact .inr (.inr h)
        · rintro (h | h | h)
          · exact .inl (.inl h)
          · exact .inl (.inr h.symm)
          · exact .inr h

theorem ingressMap_nodup (s : State) (now : Nat) (o : Orders) : ((ingressMap s now o).map Ingress.key).Nodup :=
  fold_nodup _ _ _ (by simp)

theorem egressMap_nodup (s : State) (now : Nat) (o : Orders) : ((egressMap s now o).map Egress.key).Nodup :=
  foldTx_nodup _ _ _ (by simp)

theorem report_isReport (s : State) (now : Nat) (o : Orders) : IsReport (report s now o) := by
  refine ⟨_, _, _, rfl, ?_, ?_, ?_, ?_⟩
  · exact ((inOrder_perm _ _).map _).nodup_iff.mpr (ingressMap_nodup s now o)
  · exact ((inOrder_perm _ _).map _).nodup_iff.mpr (egressMap_nodup s now o)
  · intro i hi
    exact fold_at now _ [] (by simp) i ((inOrder_perm _ _).subset hi)
  · intro e he
    rcases foldTx_mem ((inOrder_perm _ _).subset he) with h | ⟨t, _, _, rfl⟩
    · simp at h
    · rfl

theorem gens_reports (s : State) (ops : List Op) : ∃ reps : List (List Event), gens s ops = reps.flatten ∧ ∀ r ∈ reps, IsReport r := by
  induction ops generalizing s with
  | nil => exact ⟨[], rfl, by simp⟩
  | cons op ops ih =>
    obtain ⟨reps, h1, h2⟩ := ih (step s op).1
    have : gen s op = [] ∨ IsReport (gen s op) := by
      cases op with
      | timeout now o =>
        simp only [gen]
        split
        · exact .inl rfl
        · split
          · exact .inr (report_isReport s now o)
          · exact .inl rfl
      | _ => exact .inl rfl
    rcases this with h | h
    · exact ⟨reps, by simp [gens, h, h1], h2⟩
    · exact ⟨gen s op :: reps, by simp [gens, h1], by simpa using ⟨h, h2⟩⟩

/-- C121: what is told is one report after the other, the last perhaps not to its end -/
theorem C121_reports {s : State} (h : Start s) (ops : List Op) :
    ∃ reps : List (List Event), (run s ops).2 <+: reps.flatten ∧ ∀ r ∈ reps, IsReport r := by
  obtain ⟨reps, h1, h2⟩ := gens_reports s ops
  exact ⟨reps, h1 ▸ run_told h ops, h2⟩

end Str0m.Stats
