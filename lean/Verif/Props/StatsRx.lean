import Verif.Props.Stats

/-!
C122: what a report says of media received.
-/

namespace Str0m.Stats

theorem run_append (s : State) (a b : List Op) : (run s (a ++ b)).1 = (run (run s a).1 b).1 := by
  induction a generalizing s with
  | nil => rfl
  | cons op a ih => exact ih _

theorem run_snoc (s : State) (a : List Op) (op : Op) : (run s (a ++ [op])).1 = (step (run s a).1 op).1 := by
  rw [run_append]; rfl

theorem timeout_rep {s : State} {now : Nat} {o : Orders} {rep : List Event} (h : (step s (.timeout now o)).1.queue = s.queue ++ rep) :
    rep = gen s (.timeout now o) := by
  have := step_queue s (.timeout now o)
  rw [h] at this
  simpa [step] using this

theorem ingresses_report (s : State) (now : Nat) (o : Orders) : ingresses (report s now o) = inOrder o.ins (ingressMap s now o) := by
  unfold ingresses report
  rw [List.filterMap_cons, List.filterMap_append, filterMap_none (l := (inOrder o.egs _).map _)]
  · have : ∀ l : List Ingress, (l.map Event.ingress).filterMap Event.ingress? = l := by
      intro l; induction l with
      | nil => rfl
      | cons x l ih => rw [List.map_cons, List.filterMap_cons]; simp [Event.ingress?, ih]
    rw [this]
    simp [Event.ingress?]
  · intro x hx; obtain ⟨_, _, rfl⟩ := List.mem_map.mp hx; rfl

theorem mem_ingresses_gen {s : State} {op : Op} {i : Ingress} (h : i ∈ ingresses (gen s op)) :
    ∃ now o, op = .timeout now o ∧ i ∈ ingressMap s now o := by
  cases op with
  | timeout now o =>
    refine ⟨now, o, rfl, ?_⟩
    simp only [gen] at h
    split at h
    · simp [ingresses] at h
    · split at h
      · rw [ingresses_report] at h
        exact (inOrder_perm _ _).subset h
      · simp [ingresses] at h
  | _ => simp [gen, ingresses] at h

theorem sum_filter {α : Type} (p : α → Prop) [DecidablePred p] (f : α → Nat) (l : List α) :
    (l.map (fun r => if p r then f r else 0)).sum = ((l.filter p).map f).sum := by
  induction l with
  | nil => rfl
  | cons x l ih =>
    by_cases h : p x
    · simp [h, ih]
    · simp [h, ih]

theorem map_sum {f : Ingress → Nat} (hf : ∀ a b, f (merge a b) = f a + f b) {s : State} {now : Nat} {o : Orders} {i : Ingress}
    (h : i ∈ ingressMap s now o) : f i = (s.rxs.map (fun r => if r.seen ∧ r.key = i.key then f (r.stats now) else 0)).sum := by
  rw [← sumAt_mem (f := f) (ingressMap_nodup s now o) h]
  unfold ingressMap
  rw [fold_sum hf, ((inOrder_perm o.rxs s.rxs).map _).sum_nat]
  simp [sumAt]

theorem mem_map_key {s : State} {now : Nat} {o : Orders} {k : Key} :
    k ∈ (ingressMap s now o).map Ingress.key ↔ ∃ r ∈ s.rxs, r.seen ∧ r.key = k := by
  unfold ingressMap
  rw [fold_keys]
  simp only [List.map_nil, List.not_mem_nil, false_or]
  constructor
  · rintro ⟨r, hr, g⟩; exact ⟨r, (inOrder_perm _ _).subset hr, g⟩
  · rintro ⟨r, hr, g⟩; exact ⟨r, (inOrder_perm _ _).symm.subset hr, g⟩

/-- the streams of a mid/rid that something came on, but for that of probes -/
def streamsOf (s : State) (k : Key) : List Rx := s.rxs.filter (fun r => (r.ssrc ≠ 0 ∧ 0 < r.bytes) ∧ r.key = k)

theorem le_sum {l : List Nat} {x : Nat} (h : x ∈ l) : x ≤ l.sum := by
  induction l with
  | nil => simp at h
  | cons y l ih =>
    rw [List.sum_cons]
    rcases List.mem_cons.mp h with rfl | h
    · omega
    · have := ih h; omega

theorem streamsOf_sum (s : State) (k : Key) (f : Rx → Nat) :
    (s.rxs.map (fun r => if r.seen ∧ r.key = k then f r else 0)).sum = ((streamsOf s k).map f).sum := by
  rw [sum_filter (fun r : Rx => r.seen ∧ r.key = k)]
  unfold streamsOf
  congr 3
  funext r
  rw [decide_eq_decide]
  simp only [Rx.seen, Nat.pos_iff_ne_zero]

/-- C122: whatever order the streams come in, the counters of a mid/rid are the sums over its streams, and every mid/rid with a stream that
something came on is told -/
theorem C122_sum (s : State) (now : Nat) (o : Orders) (rep : List Event) (h : (step s (.timeout now o)).1.queue = s.queue ++ rep) :
    (∀ i ∈ ingresses rep,
      i.bytes = ((streamsOf s i.key).map Rx.bytes).sum ∧ i.packets = ((streamsOf s i.key).map Rx.packets).sum ∧
      i.firs = ((streamsOf s i.key).map Rx.firs).sum ∧ i.plis = ((streamsOf s i.key).map Rx.plis).sum ∧
      i.nacks = ((streamsOf s i.key).map Rx.nacks).sum ∧ streamsOf s i.key ≠ []) ∧
    (rep ≠ [] → ∀ k, streamsOf s k ≠ [] → ∃ i ∈ ingresses rep, i.key = k) := by
  have hrep := timeout_rep h
  subst hrep
  constructor
  · intro i hi
    obtain ⟨now', o', he, hm⟩ := mem_ingresses_gen hi
    cases he
    refine ⟨?_, ?_, ?_, ?_, ?_, ?_⟩
    · rw [← streamsOf_sum]; exact map_sum (f := Ingress.bytes) (fun _ _ => rfl) hm
    · rw [← streamsOf_sum]; exact map_sum (f := Ingress.packets) (fun _ _ => rfl) hm
    · rw [← streamsOf_sum]; exact map_sum (f := Ingress.firs) (fun _ _ => rfl) hm
    · rw [← streamsOf_sum]; exact map_sum (f := Ingress.plis) (fun _ _ => rfl) hm
    · rw [← streamsOf_sum]; exact map_sum (f := Ingress.nacks) (fun _ _ => rfl) hm
    · obtain ⟨r, hr, hs, hk⟩ := mem_map_key.mp (List.mem_map_of_mem hm)
      intro e
      have : r ∈ streamsOf s i.key := by
        unfold streamsOf
        rw [List.mem_filter]
        exact ⟨hr, by simpa [hk, Rx.seen, Nat.pos_iff_ne_zero] using hs⟩
      rw [e] at this
      simp at this
  · intro hne k hk
    simp only [gen] at hne ⊢
    split
    · rename_i hc; simp [hc] at hne
    · rename_i hc
      split
      · rw [ingresses_report]
        obtain ⟨r, hr⟩ := List.exists_mem_of_ne_nil _ hk
        unfold streamsOf at hr
        rw [List.mem_filter] at hr
        have : k ∈ (ingressMap s now o).map Ingress.key := by
          rw [mem_map_key]
          refine ⟨r, hr.1, ?_⟩
          simpa [Rx.seen, Nat.pos_iff_ne_zero] using hr.2
        obtain ⟨i, hi, hik⟩ := List.mem_map.mp this
        exact ⟨i, (inOrder_perm _ _).symm.subset hi, hik⟩
      · rename_i hw; simp [hw] at hne

/-! ### The counters and the history -/

/-- what of a stream the history decides -/
structure View where
  ssrc : Nat
  key : Key
  bytes : Nat
  packets : Nat

/-- a stream -/
def Rx.view (r : Rx) : View := ⟨r.ssrc, r.key, r.bytes, r.packets⟩

/-- the streams under the history that made them -/
structure Ledger (past : List Op) (l : List View) : Prop where
  nodup : (l.map View.ssrc).Nodup
  owned : ∀ v ∈ l, owner past v.ssrc = some v.key
  known : ∀ x, (owner past x).isSome → x ∈ l.map View.ssrc
  bytes : ∀ k, (l.map (fun v => if v.ssrc ≠ 0 ∧ v.key = k then v.bytes else 0)).sum = received past k
  packets : ∀ k, (l.map (fun v => if v.ssrc ≠ 0 ∧ v.key = k then v.packets else 0)).sum = receivedPackets past k

theorem view_same {s : State} {x : Nat} {f : Rx → Rx} (hf : ∀ r, (f r).view = r.view) :
    (onRx s x f).rxs.map Rx.view = s.rxs.map Rx.view := by
  simp only [onRx, List.map_map]
  apply List.map_congr_left
  intro r _
  simp only [Function.comp]
  split
  · exact hf r
  · rfl

theorem Ledger.skip {past : List Op} {l : List View} (h : Ledger past l) (op : Op) (h1 : ∀ x, owner (op :: past) x = owner past x)
    (h2 : ∀ k, received (op :: past) k = received past k) (h3 : ∀ k, receivedPackets (op :: past) k = receivedPackets past k) :
    Ledger (op :: past) l where
  nodup := h.nodup
  owned v hv := by rw [h1]; exact h.owned v hv
  known x hx := by rw [h1] at hx; exact h.known x hx
  bytes k := by rw [h2]; exact h.bytes k
  packets k := by rw [h3]; exact h.packets k

theorem bump_sum (g : View → Nat) (f : View → View) (x : Nat) {l : List View} (hn : (l.map View.ssrc).Nodup) {v : View} (hv : v ∈ l)
    (hx : v.ssrc = x) : (l.map (fun w => g (if w.ssrc = x then f w else w))).sum + g v = (l.map g).sum + g (f v) := by
  induction l with
  | nil => simp at hv
  | cons w l ih =>
    simp only [List.map_cons, List.nodup_cons] at hn
    simp only [List.map_cons, List.sum_cons]
    rcases List.mem_cons.mp hv with rfl | hv
    · rw [if_pos hx]
      have : (l.map (fun w => g (if w.ssrc = x then f w else w))) = l.map g := by
        apply List.map_congr_left
        intro w hw
        rw [if_neg]
        intro e
        exact hn.1 (hx ▸ e ▸ List.mem_map_of_mem hw)
      rw [this]; omega
    · have : ¬ w.ssrc = x := fun e => hn.1 (e ▸ hx ▸ List.mem_map_of_mem hv)
      rw [if_neg this]
      have := ih hn.2 hv
      omega

theorem ledger_declare {past : List Op} {l : List View} (h : Ledger past l) {x : Nat} (k : Key) (hx : x ∉ l.map View.ssrc) :
    Ledger (.rxDeclare x k :: past) (l ++ [⟨x, k, 0, 0⟩]) where
  nodup := by
    rw [List.map_append, List.nodup_append]
    refine ⟨h.nodup, by simp, ?_⟩
    rintro a ha b hb rfl
    simp only [List.map_cons, List.map_nil, List.mem_singleton] at hb
    exact hx (hb ▸ ha)
  owned v hv := by
    have hno : owner past x = none := by
      cases e : owner past x with
      | none => rfl
      | some _ => exact absurd (h.known x (by simp [e])) hx
    simp only [owner]
    rcases List.mem_append.mp hv with hv | hv
    · have : v.ssrc ≠ x := fun e => hx (e ▸ List.mem_map_of_mem hv)
      rw [if_neg this]; exact h.owned v hv
    · rw [List.mem_singleton] at hv
      subst hv
      simp [hno]
  known y hy := by
    simp only [owner] at hy
    rw [List.map_append, List.mem_append]
    split at hy
    · rename_i e; right; simp [e]
    · exact .inl (h.known y hy)
  bytes k' := by simpa [received] using h.bytes k'
  packets k' := by simpa [receivedPackets] using h.packets k'

theorem ledger_declared {past : List Op} {l : List View} (h : Ledger past l) {x : Nat} (k : Key) (hx : x ∈ l.map View.ssrc) :
    Ledger (.rxDeclare x k :: past) l := by
  refine h.skip _ ?_ (fun _ => rfl) (fun _ => rfl)
  intro y
  simp only [owner]
  split
  · rename_i e
    subst e
    obtain ⟨v, hv, rfl⟩ := List.mem_map.mp hx
    rw [h.owned v hv]; rfl
  · rfl

theorem ledger_change {past : List Op} {l : List View} (h : Ledger past l) {a b : Nat} (hb : b ∉ l.map View.ssrc) (ha : a ≠ 0) (hb0 : b ≠ 0) :
    Ledger (.rxChange a b :: past) (l.map (fun v => if v.ssrc = a then { v with ssrc := b } else v)) := by
  have hno : owner past b = none := by
    cases e : owner past b with
    | none => rfl
    | some _ => exact absurd (h.known b (by simp [e])) hb
  have hsum : ∀ (f : View → Nat), (∀ v : View, f { v with ssrc := b } = f v) → ∀ k,
      ((l.map (fun v => if v.ssrc = a then { v with ssrc := b } else v)).map (fun v => if v.ssrc ≠ 0 ∧ v.key = k then f v else 0)).sum =
      (l.map (fun v => if v.ssrc ≠ 0 ∧ v.key = k then f v else 0)).sum := by
    intro f hf k
    rw [List.map_map]
    congr 1
    apply List.map_congr_left
    intro v _
    simp only [Function.comp]
    by_cases e : v.ssrc = a
    · simp only [if_pos e, hf]
      simp [hb0, e, ha]
    · simp only [if_neg e]
  refine ⟨?_, ?_, ?_, ?_, ?_⟩
  · rw [List.map_map]
    refine List.Nodup.map_on ?_ (List.Nodup.of_map _ h.nodup)
    intro v hv w hw e
    have hinj := List.inj_on_of_nodup_map h.nodup hv hw
    simp only [Function.comp] at e
    have hvb : v.ssrc ≠ b := fun e => hb (e ▸ List.mem_map_of_mem hv)
    have hwb : w.ssrc ≠ b := fun e => hb (e ▸ List.mem_map_of_mem hw)
    split at e <;> split at e
    · rename_i e1 e2; exact hinj (e1.trans e2.symm)
    · exact absurd e.symm hwb
    · exact absurd e hvb
    · exact hinj e
  · intro v hv
    obtain ⟨w, hw, rfl⟩ := List.mem_map.mp hv
    have hwb : w.ssrc ≠ b := fun e => hb (e ▸ List.mem_map_of_mem hw)
    simp only [owner, hno, Option.isSome_none, Bool.false_eq_true, if_false]
    by_cases e : w.ssrc = a
    · simp only [if_pos e]
      rw [← e]; exact h.owned w hw
    · simp only [if_neg e, if_neg hwb]
      exact h.owned w hw
  · intro x hx
    simp only [owner, hno, Option.isSome_none, Bool.false_eq_true, if_false] at hx
    have hab : ∀ y, y ∈ l.map View.ssrc → y ≠ a →
        y ∈ (l.map (fun v => if v.ssrc = a then { v with ssrc := b } else v)).map View.ssrc := by
      intro y hy hya
      obtain ⟨v, hv, rfl⟩ := List.mem_map.mp hy
      refine List.mem_map.mpr ⟨v, List.mem_map.mpr ⟨v, hv, by rw [if_neg hya]⟩, rfl⟩
    split at hx
    · rename_i e
      obtain ⟨v, hv, hva⟩ := List.mem_map.mp (h.known a hx)
      refine List.mem_map.mpr ⟨{ v with ssrc := b }, List.mem_map.mpr ⟨v, hv, by rw [if_pos hva]⟩, ?_⟩
      exact e.symm
    · split at hx
      · simp at hx
      · rename_i e; exact hab x (h.known x hx) e
  · intro k; rw [hsum View.bytes (fun _ => rfl)]; exact h.bytes k
  · intro k; rw [hsum View.packets (fun _ => rfl)]; exact h.packets k

theorem ledger_no_change {past : List Op} {l : List View} (h : Ledger past l) {a b : Nat} (hb : b ∈ l.map View.ssrc) :
    Ledger (.rxChange a b :: past) l := by
  refine h.skip _ ?_ (fun _ => rfl) (fun _ => rfl)
  intro y
  obtain ⟨v, hv, rfl⟩ := List.mem_map.mp hb
  simp [owner, h.owned v hv]

theorem ledger_packet {past : List Op} {l : List View} (h : Ledger past l) {x : Nat} (len : Nat) (hx : x ∈ l.map View.ssrc) (h0 : x ≠ 0) :
    Ledger (.rxPacket x len :: past)
      (l.map (fun v => if v.ssrc = x then { v with bytes := v.bytes + len, packets := v.packets + 1 } else v)) := by
  obtain ⟨v, hv, hvx⟩ := List.mem_map.mp hx
  have hview : (l.map (fun v => if v.ssrc = x then { v with bytes := v.bytes + len, packets := v.packets + 1 } else v)).map View.ssrc =
      l.map View.ssrc := by
    rw [List.map_map]
    apply List.map_congr_left
    intro w _
    simp only [Function.comp]
    split <;> rfl
  have ho := h.owned v hv
  rw [hvx] at ho
  refine ⟨?_, ?_, ?_, ?_, ?_⟩
  · rw [hview]; exact h.nodup
  · intro w hw
    obtain ⟨u, hu, rfl⟩ := List.mem_map.mp hw
    have := h.owned u hu
    split <;> exact this
  · intro y hy
    rw [hview]; exact h.known y hy
  · intro k
    have := bump_sum (fun v => if v.ssrc ≠ 0 ∧ v.key = k then v.bytes else 0)
      (fun v => { v with bytes := v.bytes + len, packets := v.packets + 1 }) x h.nodup hv hvx
    rw [List.map_map]
    simp only [Function.comp_def] at this ⊢
    simp only [received, ho, h0, ne_eq, not_false_eq_true, true_and, Option.some.injEq]
    rw [h.bytes k] at this
    simp only [hvx, h0, ne_eq, not_false_eq_true, true_and] at this
    split at this <;> simp_all; omega
  · intro k
    have := bump_sum (fun v => if v.ssrc ≠ 0 ∧ v.key = k then v.packets else 0)
      (fun v => { v with bytes := v.bytes + len, packets := v.packets + 1 }) x h.nodup hv hvx
    rw [List.map_map]
    simp only [Function.comp_def] at this ⊢
    simp only [receivedPackets, ho, h0, ne_eq, not_false_eq_true, true_and, Option.some.injEq]
    rw [h.packets k] at this
    simp only [hvx, h0, ne_eq, not_false_eq_true, true_and] at this
    split at this <;> simp_all; omega

theorem ledger_no_packet {past : List Op} {l : List View} (h : Ledger past l) {x : Nat} (len : Nat) (hx : x ∉ l.map View.ssrc ∨ x = 0) :
    Ledger (.rxPacket x len :: past) l := by
  have hno : ¬ (x ≠ 0 ∧ ∃ k, owner past x = some k) := by
    rintro ⟨h0, k, e⟩
    rcases hx with hx | hx
    · exact hx (h.known x (by simp [e]))
    · exact h0 hx
  refine h.skip _ (fun _ => rfl) ?_ ?_
  · intro k
    simp only [received]
    rw [if_neg]; · rfl
    exact fun g => hno ⟨g.1, k, g.2⟩
  · intro k
    simp only [receivedPackets]
    rw [if_neg]; · rfl
    exact fun g => hno ⟨g.1, k, g.2⟩

theorem hasRx_iff (s : State) (x : Nat) : hasRx s x = true ↔ x ∈ (s.rxs.map Rx.view).map View.ssrc := by
  simp only [hasRx, List.any_eq_true, beq_iff_eq, List.map_map, List.mem_map, Function.comp]
  rfl

theorem timeout_rxs (s : State) (now : Nat) (o : Orders) : (timeout s now o).rxs = s.rxs := by
  unfold timeout
  split
  · rfl
  · split <;> rfl

theorem step_ledger {past : List Op} {s : State} (h : Ledger past (s.rxs.map Rx.view)) {op : Op} (hk : op.KeepsRx) :
    Ledger (op :: past) ((step s op).1.rxs.map Rx.view) := by
  cases op with
  | rxRemove => exact absurd hk id
  | timeout now o =>
    simp only [step, timeout_rxs]
    exact h.skip _ (fun _ => rfl) (fun _ => rfl) (fun _ => rfl)
  | rxDeclare x k =>
    simp only [step]
    split
    · rename_i e; exact ledger_declared h k ((hasRx_iff s x).mp e)
    · rename_i e
      rw [List.map_append]
      exact ledger_declare h k (fun g => e ((hasRx_iff s x).mpr g))
  | rxChange a b =>
    simp only [step]
    split
    · rename_i e; exact ledger_no_change h ((hasRx_iff s b).mp e)
    · rename_i e
      have := ledger_change h (a := a) (b := b) (fun g => e ((hasRx_iff s b).mpr g)) hk.1 hk.2
      simp only [onRx, List.map_map] at this ⊢
      convert this using 1
      apply List.map_congr_left
      intro r _
      simp only [Function.comp]
      have : r.view.ssrc = r.ssrc := rfl
      rw [this]
      split <;> rfl
  | rxPacket x len =>
    simp only [step]
    split
    · rename_i e
      have := ledger_packet h len ((hasRx_iff s x).mp e.1) e.2
      simp only [onRx, List.map_map] at this ⊢
      convert this using 1
      apply List.map_congr_left
      intro r _
      simp only [Function.comp]
      have : r.view.ssrc = r.ssrc := rfl
      rw [this]
      split <;> rfl
    · rename_i e
      refine ledger_no_packet h len ?_
      by_cases h0 : x = 0
      · exact .inr h0
      · exact .inl (fun g => e ⟨(hasRx_iff s x).mpr g, h0⟩)
  | rxFir | rxPli | rxNack | rxRr | rxDlrr | rxSr =>
    simp only [step]
    rw [view_same (by intro r; rfl)]
    exact h.skip _ (fun _ => rfl) (fun _ => rfl) (fun _ => rfl)
  | txDeclare x k =>
    simp only [step]
    split <;> exact h.skip _ (fun _ => rfl) (fun _ => rfl) (fun _ => rfl)
  | _ => exact h.skip _ (fun _ => rfl) (fun _ => rfl) (fun _ => rfl)

theorem run_ledger {s : State} (h : Start s) (ops : List Op) (hk : ∀ op ∈ ops, op.KeepsRx) :
    Ledger ops.reverse ((run s ops).1.rxs.map Rx.view) := by
  induction ops using List.reverseRecOn with
  | nil =>
    simp only [run, h.rxs, List.map_nil, List.reverse_nil]
    exact ⟨by simp, by simp, by simp [owner], by simp [received], by simp [receivedPackets]⟩
  | append_singleton ops op ih =>
    rw [run_snoc, List.reverse_append, List.reverse_singleton, List.singleton_append]
    exact step_ledger (ih (fun o ho => hk o (by simp [ho]))) (hk op (by simp))

/-- nothing came, no packet came -/
theorem step_filled {s : State} (h : ∀ r ∈ s.rxs, r.bytes = 0 → r.packets = 0) {op : Op} (hf : op.Filled) :
    ∀ r ∈ (step s op).1.rxs, r.bytes = 0 → r.packets = 0 := by
  have hon : ∀ (x : Nat) (f : Rx → Rx), (∀ r, r ∈ s.rxs → (f r).bytes = 0 → (f r).packets = 0) →
      ∀ r ∈ (onRx s x f).rxs, r.bytes = 0 → r.packets = 0 := by
    intro x f hf r hr
    obtain ⟨q, hq, rfl⟩ := List.mem_map.mp hr
    split
    · exact hf q hq
    · exact h q hq
  cases op with
  | timeout now o => simpa only [step, timeout_rxs] using h
  | rxDeclare x k =>
    simp only [step]
    split
    · exact h
    · intro r hr
      rcases List.mem_append.mp hr with hr | hr
      · exact h r hr
      · rw [List.mem_singleton] at hr; subst hr; exact fun _ => rfl
  | rxRemove x => exact fun r hr => h r (List.mem_filter.mp hr).1
  | rxChange a b =>
    simp only [step]
    split
    · exact h
    · exact hon _ _ (fun r hr => h r hr)
  | rxPacket x len =>
    simp only [step]
    split
    · refine hon _ _ (fun r hr hb => ?_)
      have : 0 < len := hf
      simp only at hb
      omega
    · exact h
  | rxFir | rxPli | rxNack | rxRr | rxDlrr | rxSr => exact hon _ _ (fun r hr => h r hr)
  | txDeclare x k =>
    simp only [step]
    split <;> exact h
  | _ => exact h

theorem run_filled {s : State} (h : Start s) (ops : List Op) (hf : ∀ op ∈ ops, op.Filled) :
    ∀ r ∈ (run s ops).1.rxs, r.bytes = 0 → r.packets = 0 := by
  induction ops using List.reverseRecOn with
  | nil => simp [run, h.rxs]
  | append_singleton ops op ih =>
    rw [run_snoc]
    exact step_filled (ih (fun o ho => hf o (by simp [ho]))) (hf op (by simp))

/-- C122: the bytes of a mid/rid in a report are all that came for it since the start, over all its SSRCs, and every mid/rid that something
came for is told -/
theorem C122_received {s : State} (h : Start s) (ops : List Op) (hk : ∀ op ∈ ops, op.KeepsRx) (now : Nat) (o : Orders) (rep : List Event)
    (hr : (step (run s ops).1 (.timeout now o)).1.queue = (run s ops).1.queue ++ rep) :
    (∀ i ∈ ingresses rep, i.bytes = received ops.reverse i.key ∧ 0 < i.bytes) ∧
    (rep ≠ [] → ∀ k, received ops.reverse k ≠ 0 → ∃ i ∈ ingresses rep, i.key = k) := by
  have hl := run_ledger h ops hk
  have hsum : ∀ k, ((streamsOf (run s ops).1 k).map Rx.bytes).sum = received ops.reverse k := by
    intro k
    rw [← hl.bytes k, ← streamsOf_sum, List.map_map]
    congr 1
    apply List.map_congr_left
    intro r _
    simp only [Function.comp, Rx.view, Rx.seen]
    by_cases hb : r.bytes = 0 <;> by_cases h0 : r.ssrc = 0 <;> by_cases hq : r.key = k <;> simp [hb, h0, hq]
  obtain ⟨h1, h2⟩ := C122_sum _ now o rep hr
  constructor
  · intro i hi
    obtain ⟨hb, _, _, _, _, hne⟩ := h1 i hi
    refine ⟨hb.trans (hsum _), ?_⟩
    rw [hb]
    obtain ⟨r, hr⟩ := List.exists_mem_of_ne_nil _ hne
    have hrb : 0 < r.bytes := by
      unfold streamsOf at hr
      have := (List.mem_filter.mp hr).2
      simp only [decide_eq_true_eq] at this
      exact this.1.2
    exact Nat.lt_of_lt_of_le hrb (le_sum (List.mem_map_of_mem hr))
  · intro hne k hk
    apply h2 hne
    intro e
    rw [← hsum, e] at hk
    simp at hk

/-- C122: so with the packets, if none is without a payload -/
theorem C122_packets_partial {s : State} (h : Start s) (ops : List Op) (hk : ∀ op ∈ ops, op.KeepsRx) (hf : ∀ op ∈ ops, op.Filled) (now : Nat)
    (o : Orders) (rep : List Event) (hr : (step (run s ops).1 (.timeout now o)).1.queue = (run s ops).1.queue ++ rep) :
    ∀ i ∈ ingresses rep, i.packets = receivedPackets ops.reverse i.key := by
  have hl := run_ledger h ops hk
  have hfl := run_filled h ops hf
  intro i hi
  rw [((C122_sum _ now o rep hr).1 i hi).2.1, ← hl.packets i.key, ← streamsOf_sum, List.map_map]
  congr 1
  apply List.map_congr_left
  intro r hr
  simp only [Function.comp, Rx.view, Rx.seen]
  by_cases hb : r.bytes = 0
  · simp [hb, hfl r hr hb]
  · by_cases h0 : r.ssrc = 0 <;> by_cases hq : r.key = i.key <;> simp [hb, h0, hq]

/-! ### Counters never go back -/

/-- the counters a report would have -/
def visible (f : Rx → Nat) (s : State) (k : Key) : Nat := (s.rxs.map (fun r => if r.seen ∧ r.key = k then f r else 0)).sum

/-- a counter of a stream and where it is told -/
structure Counter (f : Rx → Nat) (g : Ingress → Nat) : Prop where
  told : ∀ r now, g (r.stats now) = f r
  sum : ∀ a b, g (merge a b) = g a + g b
  ssrc : ∀ r x m, f { r with ssrc := x, remote := m } = f r
  packet : ∀ r b p, r.bytes ≤ b → r.packets ≤ p → f r ≤ f { r with bytes := b, packets := p }
  fir : ∀ r : Rx, f r ≤ f { r with firs := r.firs + 1 }
  pli : ∀ r : Rx, f r ≤ f { r with plis := r.plis + 1 }
  nack : ∀ r : Rx, f r ≤ f { r with nacks := r.nacks + 1 }
  rr : ∀ (r : Rx) l j, f { r with loss := l, jitter := j } = f r
  rtt : ∀ (r : Rx) d, f { r with rtt := d } = f r
  sr : ∀ (r : Rx) d, f { r with remote := d } = f r

theorem sum_le_sum {α : Type} {f g : α → Nat} {l : List α} (h : ∀ x ∈ l, f x ≤ g x) : (l.map f).sum ≤ (l.map g).sum := by
  induction l with
  | nil => simp
  | cons x l ih =>
    simp only [List.map_cons, List.sum_cons]
    have := h x (by simp)
    have := ih (fun y hy => h y (by simp [hy]))
    omega

theorem onRx_visible {f : Rx → Nat} {s : State} {x : Nat} {u : Rx → Rx} {k : Key}
    (hu : ∀ r, r.ssrc = x → f r ≤ f (u r) ∧ (r.seen → (u r).seen) ∧ (u r).key = r.key) : visible f s k ≤ visible f (onRx s x u) k := by
  unfold visible onRx
  simp only [List.map_map]
  apply sum_le_sum
  intro r _
  simp only [Function.comp]
  by_cases e : r.ssrc = x
  · obtain ⟨h1, h2, h3⟩ := hu r e
    rw [if_pos e, h3]
    by_cases hs : r.seen ∧ r.key = k
    · rw [if_pos hs, if_pos ⟨h2 hs.1, hs.2⟩]; exact h1
    · rw [if_neg hs]; omega
  · rw [if_neg e]

theorem step_visible {f : Rx → Nat} {g : Ingress → Nat} (hc : Counter f g) (s : State) {op : Op} (hk : op.KeepsRx) (k : Key) :
    visible f s k ≤ visible f (step s op).1 k := by
  cases op with
  | rxRemove => exact absurd hk id
  | timeout now o => simp only [step, visible, timeout_rxs]; exact Nat.le_refl _
  | rxDeclare x k' =>
    simp only [step]
    split
    · exact Nat.le_refl _
    · simp [visible]
  | rxChange a b =>
    simp only [step]
    split
    · exact Nat.le_refl _
    · refine onRx_visible (fun r hr => ⟨(hc.ssrc r b none).ge, fun hs => ⟨hk.2, hs.2⟩, rfl⟩)
  | rxPacket x len =>
    simp only [step]
    split
    · rename_i e
      exact onRx_visible (fun r hr => ⟨hc.packet r _ _ (by omega) (by omega), fun hs => ⟨hs.1, by have := hs.2; simp only; omega⟩, rfl⟩)
    · exact Nat.le_refl _
  | rxFir x => exact onRx_visible (fun r _ => ⟨hc.fir r, id, rfl⟩)
  | rxPli x => exact onRx_visible (fun r _ => ⟨hc.pli r, id, rfl⟩)
  | rxNack x => exact onRx_visible (fun r _ => ⟨hc.nack r, id, rfl⟩)
  | rxRr x fr j => exact onRx_visible (fun r _ => ⟨(hc.rr r _ _).ge, id, rfl⟩)
  | rxDlrr x d => exact onRx_visible (fun r _ => ⟨(hc.rtt r _).ge, id, rfl⟩)
  | rxSr x a b => exact onRx_visible (fun r _ => ⟨(hc.sr r _).ge, id, rfl⟩)
  | txDeclare x k' =>
    simp only [step]
    split <;> exact Nat.le_refl _
  | _ => exact Nat.le_refl _

theorem run_visible {f : Rx → Nat} {g : Ingress → Nat} (hc : Counter f g) (s : State) (ops : List Op) (hk : ∀ op ∈ ops, op.KeepsRx) (k : Key) :
    ∀ i ∈ ingresses (gens s ops), i.key = k → visible f s k ≤ g i := by
  induction ops generalizing s with
  | nil => simp [gens, ingresses]
  | cons op ops ih =>
    intro i hi e
    simp only [gens, ingresses, List.filterMap_append, List.mem_append] at hi
    rcases hi with hi | hi
    · obtain ⟨now, o, rfl, hm⟩ := mem_ingresses_gen hi
      rw [map_sum hc.sum hm, e]
      simp only [hc.told]
      exact Nat.le_refl _
    · exact Nat.le_trans (step_visible hc s (hk op (by simp)) k) (ih _ (fun o ho => hk o (by simp [ho])) i hi e)

theorem gens_monotone {f : Rx → Nat} {g : Ingress → Nat} (hc : Counter f g) (s : State) (ops : List Op) (hk : ∀ op ∈ ops, op.KeepsRx) :
    (ingresses (gens s ops)).Pairwise (fun a b => a.key = b.key → g a ≤ g b) := by
  induction ops generalizing s with
  | nil => simp [gens, ingresses]
  | cons op ops ih =>
    simp only [gens, ingresses, List.filterMap_append, List.pairwise_append]
    refine ⟨?_, ih _ (fun o ho => hk o (by simp [ho])), ?_⟩
    · by_cases ht : ∃ now o, op = .timeout now o
      · obtain ⟨now, o, rfl⟩ := ht
        simp only [gen]
        split
        · simp
        · split
          · have := ingresses_report s now o
            unfold ingresses at this
            rw [this]
            have hn := ((inOrder_perm o.ins (ingressMap s now o)).map Ingress.key).nodup_iff.mpr (ingressMap_nodup s now o)
            rw [List.Nodup, List.pairwise_map] at hn
            exact hn.imp (fun h e => absurd e h)
          · simp
      · cases op with
        | timeout now o => exact absurd ⟨now, o, rfl⟩ ht
        | _ => simp [gen]
    · intro a ha b hb e
      have ha' : a ∈ ingresses (gen s op) := ha
      obtain ⟨now, o, rfl, hm⟩ := mem_ingresses_gen ha'
      have hb' := run_visible hc _ ops (fun o ho => hk o (by simp [ho])) a.key b hb e.symm
      have := step_visible hc s (op := .timeout now o) trivial a.key
      rw [map_sum hc.sum hm]
      simp only [hc.told]
      exact Nat.le_trans this hb'

/-- C122: in what is told of a mid/rid no counter goes back -/
theorem C122_monotone {s : State} (h : Start s) (ops : List Op) (hk : ∀ op ∈ ops, op.KeepsRx) :
    (ingresses (run s ops).2).Pairwise (fun a b => a.key = b.key →
      a.bytes ≤ b.bytes ∧ a.packets ≤ b.packets ∧ a.firs ≤ b.firs ∧ a.plis ≤ b.plis ∧ a.nacks ≤ b.nacks) := by
  have hsub : (ingresses (run s ops).2).Sublist (ingresses (gens s ops)) := (run_told h ops).sublist.filterMap _
  have h1 := (gens_monotone (f := Rx.bytes) (g := Ingress.bytes) (by constructor <;> simp_all [Rx.stats, merge]) s ops hk).sublist hsub
  have h2 := (gens_monotone (f := Rx.packets) (g := Ingress.packets) (by constructor <;> simp_all [Rx.stats, merge]) s ops hk).sublist hsub
  have h3 := (gens_monotone (f := Rx.firs) (g := Ingress.firs) (by constructor <;> simp_all [Rx.stats, merge]) s ops hk).sublist hsub
  have h4 := (gens_monotone (f := Rx.plis) (g := Ingress.plis) (by constructor <;> simp_all [Rx.stats, merge]) s ops hk).sublist hsub
  have h5 := (gens_monotone (f := Rx.nacks) (g := Ingress.nacks) (by constructor <;> simp_all [Rx.stats, merge]) s ops hk).sublist hsub
  exact ((((h1.and h2).and h3).and h4).and h5).imp (fun ⟨⟨⟨⟨a, b⟩, c⟩, d⟩, e⟩ k => ⟨a k, b k, c k, d k, e k⟩)

end Str0m.Stats
