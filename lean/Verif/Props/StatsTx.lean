import Verif.Props.StatsRx
import Mathlib.Tactic.NormNum
import Mathlib.Tactic.Positivity
import Mathlib.Algebra.Order.Field.Basic

/-!
C123: what a report says of media sent; then examples of C121-C123 and what does not hold.
-/

namespace Str0m.Stats

theorem egresses_report (s : State) (now : Nat) (o : Orders) : egresses (report s now o) = inOrder o.egs (egressMap s now o) := by
  unfold egresses report
  rw [List.filterMap_cons, List.filterMap_append, filterMap_none (l := (inOrder o.ins _).map _)]
  · have : ∀ l : List Egress, (l.map Event.egress).filterMap Event.egress? = l := by
      intro l; induction l with
      | nil => rfl
      | cons x l ih => rw [List.map_cons, List.filterMap_cons]; simp [Event.egress?, ih]
    rw [this]
    simp [Event.egress?]
  · intro x hx; obtain ⟨_, _, rfl⟩ := List.mem_map.mp hx; rfl

theorem mem_egresses_gen {s : State} {op : Op} {e : Egress} (h : e ∈ egresses (gen s op)) :
    ∃ now o, op = .timeout now o ∧ ∃ t ∈ s.txs, t.bytes ≠ 0 ∧ e = t.stats now := by
  cases op with
  | timeout now o =>
    refine ⟨now, o, rfl, ?_⟩
    simp only [gen] at h
    split at h
    · simp [egresses] at h
    · split at h
      · rw [egresses_report] at h
        rcases foldTx_mem ((inOrder_perm _ _).subset h) with h | ⟨t, ht, g⟩
        · simp at h
        · exact ⟨t, (inOrder_perm _ _).subset ht, g⟩
      · simp [egresses] at h
  | _ => simp [gen, egresses] at h

/-! ### The counters and the history -/

theorem sender_declared {past : List Op} {x : Nat} {k : Key} (h : sender past x = some k) : .txDeclare x k ∈ past := by
  induction past with
  | nil => simp [sender] at h
  | cons op past ih =>
    cases op with
    | txDeclare s k' =>
      simp only [sender] at h
      split at h
      · rename_i e
        subst e
        cases hs : sender past x with
        | none =>
          rw [hs] at h
          simp only [Option.none_or, Option.some.injEq] at h
          simp [h]
        | some k2 =>
          rw [hs] at h
          simp only [Option.some_or, Option.some.injEq] at h
          exact List.mem_cons_of_mem _ (ih (by rw [hs, h]))
      · exact List.mem_cons_of_mem _ (ih h)
    | txRemove s =>
      simp only [sender] at h
      split at h
      · cases h
      · exact List.mem_cons_of_mem _ (ih h)
    | _ => exact List.mem_cons_of_mem _ (ih h)

theorem declared_sender {past : List Op} (hk : ∀ op ∈ past, op.KeepsTx) {x : Nat} {k : Key} (h : .txDeclare x k ∈ past) :
    (sender past x).isSome := by
  induction past with
  | nil => simp at h
  | cons op past ih =>
    have hk' := fun o ho => hk o (List.mem_cons_of_mem _ ho)
    rcases List.mem_cons.mp h with h | h
    · subst h
      simp only [sender, if_pos]
      cases sender past x <;> simp
    · have := ih hk' h
      cases op with
      | txDeclare s k' =>
        simp only [sender]
        split
        · rename_i e; subst e; cases sender past x <;> simp
        · exact this
      | txRemove s => exact absurd (hk (.txRemove s) (by simp)) id
      | _ => exact this

theorem sent_none {past : List Op} {k : Key} (h : ∀ x, .txDeclare x k ∉ past) : sent past k = 0 ∧ sentPackets past k = 0 := by
  induction past with
  | nil => exact ⟨rfl, rfl⟩
  | cons op past ih =>
    have ih := ih (fun x hx => h x (List.mem_cons_of_mem _ hx))
    cases op with
    | txPacket s len =>
      have : ¬ sender past s = some k := fun e => h s (List.mem_cons_of_mem _ (sender_declared e))
      simp only [sent, sentPackets, if_neg this]
      exact ih
    | _ => exact ih

/-- the senders under the history that made them -/
structure TxLedger (past : List Op) (l : List Tx) : Prop where
  owned : ∀ t ∈ l, sender past t.ssrc = some t.key
  known : ∀ x, (sender past x).isSome → ∃ t ∈ l, t.ssrc = x
  bytes : ∀ t ∈ l, t.bytes = sent past t.key
  packets : ∀ t ∈ l, t.packets = sentPackets past t.key

theorem TxLedger.skip {past : List Op} {l l' : List Tx} (h : TxLedger past l) (op : Op) (h1 : ∀ x, sender (op :: past) x = sender past x)
    (h2 : ∀ k, sent (op :: past) k = sent past k) (h3 : ∀ k, sentPackets (op :: past) k = sentPackets past k)
    (hl : ∀ t ∈ l', ∃ u ∈ l, t.ssrc = u.ssrc ∧ t.key = u.key ∧ t.bytes = u.bytes ∧ t.packets = u.packets)
    (hl' : ∀ u ∈ l, ∃ t ∈ l', t.ssrc = u.ssrc) :
    TxLedger (op :: past) l' where
  owned t ht := by obtain ⟨u, hu, e1, e2, _, _⟩ := hl t ht; rw [h1, e1, e2]; exact h.owned u hu
  known x hx := by
    rw [h1] at hx
    obtain ⟨u, hu, e⟩ := h.known x hx
    obtain ⟨t, ht, e'⟩ := hl' u hu
    exact ⟨t, ht, e'.trans e⟩
  bytes t ht := by obtain ⟨u, hu, _, e2, e3, _⟩ := hl t ht; rw [h2, e2, e3]; exact h.bytes u hu
  packets t ht := by obtain ⟨u, hu, _, e2, _, e4⟩ := hl t ht; rw [h3, e2, e4]; exact h.packets u hu

theorem hasTx_iff (s : State) (x : Nat) : hasTx s x = true ↔ ∃ t ∈ s.txs, t.ssrc = x := by
  simp only [hasTx, List.any_eq_true, beq_iff_eq]

theorem onTx_same {s : State} {x : Nat} {f : Tx → Tx} (hf : ∀ t, (f t).ssrc = t.ssrc ∧ (f t).key = t.key ∧ (f t).bytes = t.bytes ∧ (f t).packets = t.packets) :
    (∀ t ∈ (onTx s x f).txs, ∃ u ∈ s.txs, t.ssrc = u.ssrc ∧ t.key = u.key ∧ t.bytes = u.bytes ∧ t.packets = u.packets) ∧
    (∀ u ∈ s.txs, ∃ t ∈ (onTx s x f).txs, t.ssrc = u.ssrc) := by
  constructor
  · intro t ht
    obtain ⟨u, hu, rfl⟩ := List.mem_map.mp ht
    refine ⟨u, hu, ?_⟩
    split
    · exact hf u
    · exact ⟨rfl, rfl, rfl, rfl⟩
  · intro u hu
    refine ⟨_, List.mem_map_of_mem hu, ?_⟩
    split
    · exact (hf u).1
    · rfl

theorem same_refl {l : List Tx} : (∀ t ∈ l, ∃ u ∈ l, t.ssrc = u.ssrc ∧ t.key = u.key ∧ t.bytes = u.bytes ∧ t.packets = u.packets) ∧
    (∀ u ∈ l, ∃ t ∈ l, t.ssrc = u.ssrc) :=
  ⟨fun t ht => ⟨t, ht, rfl, rfl, rfl, rfl⟩, fun u hu => ⟨u, hu, rfl⟩⟩

theorem reported_same (t : Tx) : t.reported.ssrc = t.ssrc ∧ t.reported.key = t.key ∧ t.reported.bytes = t.bytes ∧ t.reported.packets = t.packets := by
  unfold Tx.reported
  split <;> exact ⟨rfl, rfl, rfl, rfl⟩

theorem timeout_same (s : State) (now : Nat) (o : Orders) :
    (∀ t ∈ (timeout s now o).txs, ∃ u ∈ s.txs, t.ssrc = u.ssrc ∧ t.key = u.key ∧ t.bytes = u.bytes ∧ t.packets = u.packets) ∧
    (∀ u ∈ s.txs, ∃ t ∈ (timeout s now o).txs, t.ssrc = u.ssrc) := by
  unfold timeout
  split
  · exact same_refl
  · split
    · constructor
      · intro t ht
        obtain ⟨u, hu, rfl⟩ := List.mem_map.mp ht
        exact ⟨u, hu, reported_same u⟩
      · exact fun u hu => ⟨_, List.mem_map_of_mem hu, (reported_same u).1⟩
    · exact same_refl

theorem step_txLedger {past : List Op} {s : State} (h : TxLedger past s.txs) {op : Op} (hk : ∀ o ∈ op :: past, o.KeepsTx)
    (ho : OneSender (op :: past)) : TxLedger (op :: past) (step s op).1.txs := by
  have hkp : ∀ o ∈ past, o.KeepsTx := fun o h => hk o (List.mem_cons_of_mem _ h)
  cases op with
  | txRemove x => exact absurd (hk (.txRemove x) (by simp)) id
  | txReset x => exact absurd (hk (.txReset x) (by simp)) id
  | timeout now o => exact h.skip _ (fun _ => rfl) (fun _ => rfl) (fun _ => rfl) (timeout_same s now o).1 (timeout_same s now o).2
  | txDeclare x k =>
    simp only [step]
    split
    · rename_i e
      obtain ⟨t, ht, rfl⟩ := (hasTx_iff s x).mp e
      refine h.skip _ ?_ (fun _ => rfl) (fun _ => rfl) same_refl.1 same_refl.2
      intro y
      simp only [sender]
      split
      · rename_i e; rw [e, h.owned t ht]; rfl
      · rfl
    · rename_i e
      have hx : sender past x = none := by
        cases hs : sender past x with
        | none => rfl
        | some _ => exact absurd ((hasTx_iff s x).mpr (h.known x (by simp [hs]))) e
      have hno : ∀ y, .txDeclare y k ∉ past := by
        intro y hy
        have : y = x := ho y x k (List.mem_cons_of_mem _ hy) (by simp)
        subst this
        have := declared_sender hkp hy
        rw [hx] at this
        simp at this
      refine ⟨?_, ?_, ?_, ?_⟩
      · intro t ht
        simp only [sender]
        rcases List.mem_append.mp ht with ht | ht
        · have : t.ssrc ≠ x := fun g => e ((hasTx_iff s x).mpr ⟨t, ht, g⟩)
          rw [if_neg this]; exact h.owned t ht
        · rw [List.mem_singleton] at ht; subst ht
          simp [hx]
      · intro y hy
        simp only [sender] at hy
        split at hy
        · rename_i g; exact ⟨_, List.mem_append_right _ (List.mem_singleton.mpr rfl), g.symm⟩
        · obtain ⟨t, ht, g⟩ := h.known y hy
          exact ⟨t, List.mem_append_left _ ht, g⟩
      · intro t ht
        rcases List.mem_append.mp ht with ht | ht
        · exact h.bytes t ht
        · rw [List.mem_singleton] at ht; subst ht
          exact (sent_none hno).1.symm
      · intro t ht
        rcases List.mem_append.mp ht with ht | ht
        · exact h.packets t ht
        · rw [List.mem_singleton] at ht; subst ht
          exact (sent_none hno).2.symm
  | txPacket x len =>
    have hdec : ∀ t ∈ s.txs, (sender past x = some t.key ↔ t.ssrc = x) := by
      intro t ht
      constructor
      · intro e
        exact ho _ _ t.key (List.mem_cons_of_mem _ (sender_declared (h.owned t ht))) (List.mem_cons_of_mem _ (sender_declared e))
      · rintro rfl; exact h.owned t ht
    have hmem : ∀ t ∈ (step s (.txPacket x len)).1.txs, ∃ u ∈ s.txs,
        t = if u.ssrc = x then { u with bytes := u.bytes + len, packets := u.packets + 1 } else u := by
      intro t ht
      obtain ⟨u, hu, rfl⟩ := List.mem_map.mp ht
      exact ⟨u, hu, rfl⟩
    refine ⟨?_, ?_, ?_, ?_⟩
    · intro t ht
      obtain ⟨u, hu, rfl⟩ := hmem t ht
      have := h.owned u hu
      split <;> exact this
    · intro y hy
      obtain ⟨u, hu, g⟩ := h.known y hy
      refine ⟨_, List.mem_map_of_mem hu, ?_⟩
      split <;> exact g
    · intro t ht
      obtain ⟨u, hu, rfl⟩ := hmem t ht
      have := h.bytes u hu
      simp only [sent]
      split
      · rename_i e; rw [if_pos ((hdec u hu).mpr e)]; simp only; omega
      · rename_i e; rw [if_neg (fun g => e ((hdec u hu).mp g))]; omega
    · intro t ht
      obtain ⟨u, hu, rfl⟩ := hmem t ht
      have := h.packets u hu
      simp only [sentPackets]
      split
      · rename_i e; rw [if_pos ((hdec u hu).mpr e)]; simp only; omega
      · rename_i e; rw [if_neg (fun g => e ((hdec u hu).mp g))]; omega
  | txFir | txPli | txNack =>
    exact h.skip _ (fun _ => rfl) (fun _ => rfl) (fun _ => rfl)
      (onTx_same (by intro t; exact ⟨rfl, rfl, rfl, rfl⟩)).1 (onTx_same (by intro t; exact ⟨rfl, rfl, rfl, rfl⟩)).2
  | txRr =>
    exact h.skip _ (fun _ => rfl) (fun _ => rfl) (fun _ => rfl)
      (onTx_same (by intro t; exact ⟨rfl, rfl, rfl, rfl⟩)).1 (onTx_same (by intro t; exact ⟨rfl, rfl, rfl, rfl⟩)).2
  | rxDeclare | rxChange | rxPacket =>
    simp only [step]
    split <;> exact h.skip _ (fun _ => rfl) (fun _ => rfl) (fun _ => rfl) same_refl.1 same_refl.2
  | _ => exact h.skip _ (fun _ => rfl) (fun _ => rfl) (fun _ => rfl) same_refl.1 same_refl.2

theorem run_txLedger {s : State} (h : Start s) (ops : List Op) (hk : ∀ op ∈ ops, op.KeepsTx) (ho : OneSender ops) :
    TxLedger ops.reverse (run s ops).1.txs := by
  induction ops using List.reverseRecOn with
  | nil =>
    simp only [run, h.txs, List.reverse_nil]
    exact ⟨by simp, by simp [sender], by simp, by simp⟩
  | append_singleton ops op ih =>
    rw [run_snoc, List.reverse_append, List.reverse_singleton, List.singleton_append]
    refine step_txLedger (ih (fun o h => hk o (by simp [h])) (fun a b k h1 h2 => ho a b k (by simp [h1]) (by simp [h2]))) ?_ ?_
    · intro o h
      apply hk
      simpa [or_comm] using h
    · intro a b k h1 h2
      refine ho a b k ?_ ?_
      · simpa [or_comm] using h1
      · simpa [or_comm] using h2

/-- C123: the bytes and packets of a mid/rid in a report are all that was sent for it since the start, and every mid/rid that something was
sent for is told -/
theorem C123_sent {s : State} (h : Start s) (ops : List Op) (hk : ∀ op ∈ ops, op.KeepsTx) (ho : OneSender ops) (now : Nat) (o : Orders)
    (rep : List Event) (hr : (step (run s ops).1 (.timeout now o)).1.queue = (run s ops).1.queue ++ rep) :
    (∀ e ∈ egresses rep, e.bytes = sent ops.reverse e.key ∧ e.packets = sentPackets ops.reverse e.key) ∧
    (rep ≠ [] → ∀ k, sent ops.reverse k ≠ 0 → ∃ e ∈ egresses rep, e.key = k) := by
  have hl := run_txLedger h ops hk ho
  have hrep := timeout_rep hr
  subst hrep
  constructor
  · intro e he
    obtain ⟨_, _, _, t, ht, _, rfl⟩ := mem_egresses_gen he
    exact ⟨hl.bytes t ht, hl.packets t ht⟩
  · intro hne k hk0
    simp only [gen] at hne ⊢
    split
    · rename_i hc; simp [hc] at hne
    · rename_i hc
      split
      · rw [egresses_report]
        have hx : ∃ x, .txDeclare x k ∈ ops.reverse := by
          by_contra hno
          push Not at hno
          exact hk0 (sent_none hno).1
        obtain ⟨x, hx⟩ := hx
        have hkr : ∀ op ∈ ops.reverse, op.KeepsTx := fun op h => hk op (List.mem_reverse.mp h)
        obtain ⟨t, ht, htx⟩ := hl.known x (declared_sender hkr hx)
        have hor : t.key = k := by
          have h1 := hl.owned t ht
          rw [htx] at h1
          have h2 : ∃ y, sender ops.reverse y = some k := by
            by_contra hno
            push Not at hno
            apply hk0
            have : ∀ past : List Op, (∀ op ∈ past, op.KeepsTx) → (∀ y, sender past y ≠ some k) → sent past k = 0 := by
              intro past
              induction past with
              | nil => intro _ _; rfl
              | cons op past ih =>
                intro hkp hn
                have hkp' := fun o ho => hkp o (List.mem_cons_of_mem _ ho)
                have hn' : ∀ y, sender past y ≠ some k := by
                  intro y e
                  cases op with
                  | txDeclare a b =>
                    refine hn y ?_
                    simp only [sender]
                    split
                    · rw [e]; rfl
                    · exact e
                  | txRemove a => exact absurd (hkp (.txRemove a) (by simp)) id
                  | _ => exact hn y e
                cases op with
                | txPacket a b =>
                  simp only [sent, if_neg (hn' a)]
                  exact ih hkp' hn'
                | _ => exact ih hkp' hn'
            exact this _ hkr hno
          obtain ⟨y, hy⟩ := h2
          have hyx : y = x := ho y x k (List.mem_reverse.mp (sender_declared hy)) (List.mem_reverse.mp hx)
          rw [hyx, h1] at hy
          exact Option.some.inj hy
        have hb : t.bytes ≠ 0 := by rw [hl.bytes t ht, hor]; exact hk0
        have : k ∈ (egressMap (run s ops).1 now o).map Egress.key := by
          unfold egressMap
          rw [foldTx_keys]
          exact .inr ⟨t, (inOrder_perm _ _).symm.subset ht, hb, hor⟩
        obtain ⟨e, he, hek⟩ := List.mem_map.mp this
        exact ⟨e, (inOrder_perm _ _).symm.subset he, hek⟩
      · rename_i hw; simp [hw] at hne

theorem sent_mono (op : Op) (past : List Op) (k : Key) : sent past k ≤ sent (op :: past) k ∧ sentPackets past k ≤ sentPackets (op :: past) k := by
  cases op <;> simp [sent, sentPackets]

theorem gens_sent {s : State} (h : Start s) (a b : List Op) (hk : ∀ op ∈ a ++ b, op.KeepsTx) (ho : OneSender (a ++ b)) :
    (∀ e ∈ egresses (gens (run s a).1 b), sent a.reverse e.key ≤ e.bytes ∧ sentPackets a.reverse e.key ≤ e.packets) ∧
    (egresses (gens (run s a).1 b)).Pairwise (fun x y => x.key = y.key → x.bytes ≤ y.bytes ∧ x.packets ≤ y.packets) := by
  induction b generalizing a with
  | nil => simp [gens, egresses]
  | cons op b ih =>
    have e : a ++ op :: b = (a ++ [op]) ++ b := by simp
    rw [e] at hk ho
    obtain ⟨ih1, ih2⟩ := ih (a ++ [op]) hk ho
    rw [run_snoc] at ih1 ih2
    rw [List.reverse_append, List.reverse_singleton, List.singleton_append] at ih1
    have hl := run_txLedger h a (fun o ho => hk o (by simp [ho])) (fun x y k h1 h2 => ho x y k (by simp [h1]) (by simp [h2]))
    have h0 : ∀ e ∈ egresses (gen (run s a).1 op), e.bytes = sent a.reverse e.key ∧ e.packets = sentPackets a.reverse e.key := by
      intro e he
      obtain ⟨_, _, _, t, ht, _, rfl⟩ := mem_egresses_gen he
      exact ⟨hl.bytes t ht, hl.packets t ht⟩
    have hle : ∀ e ∈ egresses (gens (step (run s a).1 op).1 b), sent a.reverse e.key ≤ e.bytes ∧ sentPackets a.reverse e.key ≤ e.packets := by
      intro e he
      exact ⟨Nat.le_trans (sent_mono op _ _).1 (ih1 e he).1, Nat.le_trans (sent_mono op _ _).2 (ih1 e he).2⟩
    simp only [gens, egresses, List.filterMap_append, List.pairwise_append, List.mem_append]
    refine ⟨?_, ?_, ih2, ?_⟩
    · rintro e (he | he)
      · exact ⟨(h0 e he).1.ge, (h0 e he).2.ge⟩
      · exact hle e he
    · refine List.Pairwise.imp_of_mem (R := fun _ _ => True) ?_ (List.pairwise_of_forall (fun _ _ => trivial))
      intro x y hx hy _ g
      rw [(h0 x hx).1, (h0 x hx).2, (h0 y hy).1, (h0 y hy).2, g]
      exact ⟨Nat.le_refl _, Nat.le_refl _⟩
    · intro x hx y hy g
      rw [(h0 x hx).1, (h0 x hx).2, g]
      exact hle y hy

/-- C123: in what is told of a mid/rid bytes and packets do not go back -/
theorem C123_monotone {s : State} (h : Start s) (ops : List Op) (hk : ∀ op ∈ ops, op.KeepsTx) (ho : OneSender ops) :
    (egresses (run s ops).2).Pairwise (fun x y => x.key = y.key → x.bytes ≤ y.bytes ∧ x.packets ≤ y.packets) :=
  (gens_sent h [] ops hk ho).2.sublist ((run_told h ops).sublist.filterMap _)

/-! ### Loss -/

theorem sorted_perm (l : List (Nat × ℚ)) : (sorted l).Perm l := List.perm_insertionSort _ l

theorem windows_mem {l : List (Nat × ℚ)} {p : Nat × ℚ} (h : p ∈ windows l) : ∃ q ∈ l, q.2 = p.2 := by
  induction l with
  | nil => simp [windows] at h
  | cons a l ih =>
    cases l with
    | nil => simp [windows] at h
    | cons b l =>
      simp only [windows, List.mem_cons] at h
      rcases h with rfl | h
      · exact ⟨b, by simp, rfl⟩
      · obtain ⟨q, hq, g⟩ := ih h
        exact ⟨q, List.mem_cons_of_mem _ hq, g⟩

theorem weighted {l : List (Nat × ℚ)} {lo hi : ℚ} (h : ∀ p ∈ l, lo ≤ p.2 ∧ p.2 ≤ hi) :
    lo * ((l.map (·.1)).sum : ℕ) ≤ (l.map (fun p => p.2 * (p.1 : ℚ))).sum ∧
    (l.map (fun p => p.2 * (p.1 : ℚ))).sum ≤ hi * ((l.map (·.1)).sum : ℕ) := by
  induction l with
  | nil => simp
  | cons p l ih =>
    obtain ⟨i1, i2⟩ := ih (fun q hq => h q (by simp [hq]))
    obtain ⟨h1, h2⟩ := h p (by simp)
    have hp : (0 : ℚ) ≤ (p.1 : ℚ) := Nat.cast_nonneg _
    simp only [List.map_cons, List.sum_cons, Nat.cast_add, mul_add]
    constructor
    · have := mul_le_mul_of_nonneg_right h1 hp
      linarith
    · have := mul_le_mul_of_nonneg_right h2 hp
      linarith

theorem avgLoss_between {l : List (Nat × ℚ)} {lo hi q : ℚ} (h : ∀ p ∈ l, lo ≤ p.2 ∧ p.2 ≤ hi) (hq : avgLoss l = some q) : lo ≤ q ∧ q ≤ hi := by
  unfold avgLoss at hq
  dsimp only at hq
  split at hq
  · cases hq
  · rename_i hne
    have hw : ∀ p ∈ windows (sorted l), lo ≤ p.2 ∧ p.2 ≤ hi := by
      intro p hp
      obtain ⟨r, hr, g⟩ := windows_mem hp
      rw [← g]
      exact h r ((sorted_perm l).subset hr)
    obtain ⟨h1, h2⟩ := weighted hw
    have hpos : (0 : ℚ) < (((windows (sorted l)).map (·.1)).sum : ℕ) := by
      exact_mod_cast Nat.pos_of_ne_zero hne
    have hq := Option.some.inj hq
    rw [← hq]
    exact ⟨by rw [le_div_iff₀ hpos]; exact h1, by rw [div_le_iff₀ hpos]; exact h2⟩

/-- every report on losses is between two bounds -/
def Op.LossIn (lo hi : ℚ) : Op → Prop
  | .txRr _ _ f _ _ _ => lo ≤ (f.val : ℚ) / 255 ∧ (f.val : ℚ) / 255 ≤ hi
  | _ => True

theorem step_losses {s : State} {lo hi : ℚ} (h : ∀ t ∈ s.txs, ∀ p ∈ t.losses, lo ≤ p.2 ∧ p.2 ≤ hi) {op : Op} (ho : op.LossIn lo hi) :
    ∀ t ∈ (step s op).1.txs, ∀ p ∈ t.losses, lo ≤ p.2 ∧ p.2 ≤ hi := by
  have hon : ∀ (x : Nat) (f : Tx → Tx), (∀ t, t ∈ s.txs → ∀ p ∈ (f t).losses, lo ≤ p.2 ∧ p.2 ≤ hi) →
      ∀ t ∈ (onTx s x f).txs, ∀ p ∈ t.losses, lo ≤ p.2 ∧ p.2 ≤ hi := by
    intro x f hf t ht
    obtain ⟨q, hq, rfl⟩ := List.mem_map.mp ht
    split
    · exact hf q hq
    · exact h q hq
  cases op with
  | timeout now o =>
    simp only [step, timeout]
    split
    · exact h
    · split
      · intro t ht
        obtain ⟨u, hu, rfl⟩ := List.mem_map.mp ht
        unfold Tx.reported
        split
        · exact h u hu
        · intro p hp
          exact h u hu p ((sorted_perm _).subset (List.drop_subset _ _ hp))
      · exact h
  | txDeclare x k =>
    simp only [step]
    split
    · exact h
    · intro t ht
      rcases List.mem_append.mp ht with ht | ht
      · exact h t ht
      · rw [List.mem_singleton] at ht; subst ht; simp
  | txRemove x => exact fun t ht => h t (List.mem_filter.mp ht).1
  | txReset x => exact hon _ _ (fun t _ => by simp)
  | txPacket | txFir | txPli | txNack => exact hon _ _ (fun t ht => h t ht)
  | txRr x q f d j l =>
    refine hon _ _ (fun t ht p hp => ?_)
    rcases List.mem_append.mp hp with hp | hp
    · exact h t ht p hp
    · rw [List.mem_singleton] at hp; subst hp; exact ho
  | rxDeclare | rxChange | rxPacket =>
    simp only [step]
    split <;> exact h
  | _ => exact h

theorem gens_loss {lo hi : ℚ} {s : State} (h : ∀ t ∈ s.txs, ∀ p ∈ t.losses, lo ≤ p.2 ∧ p.2 ≤ hi) (ops : List Op)
    (ho : ∀ op ∈ ops, op.LossIn lo hi) : ∀ e ∈ egresses (gens s ops), ∀ q, e.loss = some q → lo ≤ q ∧ q ≤ hi := by
  induction ops generalizing s with
  | nil => simp [gens, egresses]
  | cons op ops ih =>
    intro e he q hq
    simp only [gens, egresses, List.filterMap_append, List.mem_append] at he
    rcases he with he | he
    · obtain ⟨_, _, _, t, ht, _, rfl⟩ := mem_egresses_gen he
      exact avgLoss_between (h t ht) hq
    · exact ih (step_losses h (ho op (by simp))) (fun o h => ho o (by simp [h])) e he q hq

/-- C123: a loss that is told is an average: between any bounds that all the receiver reports are between -/
theorem C123_loss {s : State} (h : Start s) (ops : List Op) (lo hi : ℚ)
    (hb : ∀ ssrc seq f rtt j l, .txRr ssrc seq f rtt j l ∈ ops → lo ≤ (f.val : ℚ) / 255 ∧ (f.val : ℚ) / 255 ≤ hi) :
    ∀ e ∈ egresses (run s ops).2, ∀ q, e.loss = some q → lo ≤ q ∧ q ≤ hi := by
  intro e he
  refine gens_loss (s := s) (by simp [h.txs]) ops ?_ e (((run_told h ops).sublist.filterMap _).subset he)
  intro op hop
  cases op with
  | txRr => exact hb _ _ _ _ _ _ hop
  | _ => trivial

/-- C123: so it is a fraction -/
theorem C123_fraction {s : State} (h : Start s) (ops : List Op) : ∀ e ∈ egresses (run s ops).2, ∀ q, e.loss = some q → 0 ≤ q ∧ q ≤ 1 := by
  refine C123_loss h ops 0 1 ?_
  intro _ _ f _ _ _ _
  have hf : (f.val : ℚ) ≤ 255 := by exact_mod_cast Nat.le_of_lt_succ f.isLt
  constructor
  · positivity
  · rw [div_le_one (by norm_num)]; exact hf

/-! ### Examples -/

/-- a new `Rtc` that tells statistics every second -/
def fresh : State := { interval := 1000 }

theorem fresh_start : Start fresh := ⟨rfl, rfl, rfl, rfl⟩

/-- a stream that another SSRC takes over, a simulcast layer, and one stream that sends; two reports are told -/
def day : List Op :=
  [.timeout 5 {}, .rxDeclare 11 (1, none), .rxDeclare 21 (2, some 7), .rxPacket 11 100, .rxPacket 21 30, .rxPli 11, .rxChange 11 12, .rxPacket 12 50,
   .txDeclare 31 (1, none), .txPacket 31 400, .txRr 31 10 51 none 0 0, .txRr 31 20 102 none 0 0, .timeout 900 {}, .timeout 1005 {},
   .poll, .poll, .poll, .poll, .poll, .rxPacket 12 1, .txPacket 31 4, .timeout 2005 {}, .poll, .poll, .poll, .poll]

theorem day_told : peerTimes (run fresh day).2 = [1005, 2005] ∧
    (ingresses (run fresh day).2).map (fun i => (i.key, i.bytes, i.packets, i.plis)) =
      [((1, none), 150, 2, 1), ((2, some 7), 30, 1, 0), ((1, none), 151, 3, 1), ((2, some 7), 30, 1, 0)] ∧
    (egresses (run fresh day).2).map (fun e => (e.key, e.bytes, e.packets, e.loss)) =
      [((1, none), 400, 1, some (2 / 5)), ((1, none), 404, 2, none)] := by
  decide +kernel

/-- C121-C123 are about this history -/
theorem C121_example : Start fresh ∧ (∀ op ∈ day, op.KeepsRx ∧ op.Filled ∧ op.KeepsTx) ∧ OneSender day ∧
    received day.reverse (1, none) = 151 ∧ sent day.reverse (1, none) = 404 := by
  refine ⟨fresh_start, ?_, ?_, by decide +kernel, by decide +kernel⟩
  · simp [day, Op.KeepsRx, Op.Filled, Op.KeepsTx]
  · intro a b k h1 h2
    simp only [day, List.mem_cons, Op.txDeclare.injEq, reduceCtorEq, false_or, or_false, List.not_mem_nil] at h1 h2
    rw [h1.1, h2.1]

/-! ### What does not hold -/

/-- a second SSRC with its own loss for one mid -/
def takenOver : State :=
  (run fresh [.timeout 5 {}, .rxDeclare 11 (1, none), .rxPacket 11 100, .rxRr 11 0 3, .rxDeclare 12 (1, none), .rxPacket 12 100, .rxRr 12 255 90]).1

/-- What is told of jitter and loss is that of whichever stream comes last in the map: the same moment has two reports, and one of them says
that nothing is lost when all is lost on the stream in use -/
theorem C122_violation_stale :
    (ingresses (step takenOver (.timeout 1005 { rxs := takenOver.rxs })).1.queue).map (fun i => (i.jitter, i.loss)) = [(90, some 1)] ∧
    (ingresses (step takenOver (.timeout 1005 { rxs := takenOver.rxs.reverse })).1.queue).map (fun i => (i.jitter, i.loss)) = [(3, some 0)] := by
  decide +kernel

/-- PLIs asked for a stream that nothing came on are not told with those of its mid -/
theorem C122_violation_plis :
    let s := (run fresh [.timeout 5 {}, .rxDeclare 11 (1, none), .rxPacket 11 100, .rxDeclare 12 (1, none), .rxPli 12, .timeout 1005 {}]).1
    (ingresses s.queue).map (fun i => (i.key, i.plis)) = [((1, none), 0)] := by
  decide +kernel

/-- The first receiver report of a stream does not make a loss: `None` though a report came -/
theorem C123_violation_loss :
    let s := (run fresh [.timeout 5 {}, .txDeclare 31 (1, none), .txPacket 31 400, .txRr 31 10 255 none 0 0, .timeout 1005 {}]).1
    (egresses s.queue).map (fun e => (e.bytes, e.loss)) = [(400, none)] := by
  decide +kernel

/-- After `reset_stream_tx` the totals of a mid start again -/
theorem C123_violation_reset :
    let s := (run fresh [.timeout 5 {}, .txDeclare 31 (1, none), .txPacket 31 400, .timeout 1005 {}, .txReset 31, .txPacket 31 1, .timeout 2005 {}]).1
    (egresses s.queue).map Egress.bytes = [400, 1] := by
  decide +kernel

/-- Two streams that send one mid/rid: the report is on one of them, which one is not known -/
theorem C123_violation_two :
    let s := (run fresh [.timeout 5 {}, .txDeclare 31 (1, none), .txPacket 31 400, .txDeclare 32 (1, none), .txPacket 32 1]).1
    (egresses (step s (.timeout 1005 {})).1.queue).map Egress.bytes = [1] ∧
    (egresses (step s (.timeout 1005 { txs := s.txs.reverse })).1.queue).map Egress.bytes = [400] := by
  decide +kernel

end Str0m.Stats
