import Verif.Props.BweTiming
import Mathlib.Tactic.FieldSimp
import Mathlib.Tactic.Positivity

/-! C109 and C110: what is measured of a probe. -/

namespace Str0m.BwEst
open Str0m.Pacer (Bitrate SEC MS mulDur divDur satSub alreadyHappened notHappening)

/-- take in some packets -/
def EState.fold (s : EState) (ps : List Arrival) : EState := ps.foldl (fun s p => s.update p.size p.sent p.recv) s

theorem fold_append (s : EState) (ps qs : List Arrival) : s.fold (ps ++ qs) = (s.fold ps).fold qs := by
  simp [EState.fold, List.foldl_append]

theorem fold_snoc (s : EState) (ps : List Arrival) (q : Arrival) : s.fold (ps ++ [q]) = (s.fold ps).update q.size q.sent q.recv := by
  simp [EState.fold, List.foldl_append]

/-- without the times that say how long to keep it -/
def EState.bare (s : EState) : EState := { s with createdAt := 0, finalizeAt := 0 }

theorem bare_update (s : EState) (a b c : Nat) : (s.update a b c).bare = s.bare.update a b c := rfl

theorem bare_fold (s : EState) (ps : List Arrival) : (s.fold ps).bare = s.bare.fold ps := by
  induction ps using List.reverseRecOn with
  | nil => rfl
  | append_singleton ps p ih => rw [fold_snoc, fold_snoc, bare_update, ih]

theorem fold_config (s : EState) (ps : List Arrival) :
    (s.fold ps).config = s.config ∧ (s.fold ps).createdAt = s.createdAt ∧ (s.fold ps).finalizeAt = s.finalizeAt := by
  induction ps using List.reverseRecOn with
  | nil => exact ⟨rfl, rfl, rfl⟩
  | append_singleton ps p ih => rw [fold_snoc]; exact ih

/-- What the sums and the extremes say -/
structure Stats (ps : List Arrival) (s : EState) : Prop where
  count : s.count = ps.length
  total : (s.total : ℚ) = bytesOf ps
  none : ps = [] → s.firstSend = none ∧ s.lastSend = none ∧ s.firstRecv = none ∧ s.lastRecv = none
  some : ps ≠ [] → ∃ a ∈ ps, ∃ b ∈ ps, ∃ f ∈ ps, ∃ l ∈ ps,
    s.firstSend = some a.sent ∧ s.lastSend = some b.sent ∧ s.sizeLastSend = b.size ∧ s.firstRecv = some f.recv ∧
    s.sizeFirstRecv = f.size ∧ s.lastRecv = some l.recv ∧
    ∀ p ∈ ps, a.sent ≤ p.sent ∧ p.sent ≤ b.sent ∧ f.recv ≤ p.recv ∧ p.recv ≤ l.recv

theorem stats_update (ps : List Arrival) (q : Arrival) (s : EState) (h : Stats ps s) :
    Stats (ps ++ [q]) (s.update q.size q.sent q.recv) := by
  refine ⟨by simp [EState.update, h.count], by simp [EState.update, h.total, bytesOf], by simp, fun _ => ?_⟩
  by_cases hp : ps = []
  · obtain ⟨h1, h2, h3, h4⟩ := h.none hp
    subst hp
    refine ⟨q, by simp, q, by simp, q, by simp, q, by simp, ?_⟩
    simp [EState.update, h1, h2, h3, h4]
  · obtain ⟨a, ha, b, hb, f, hf, l, hl, e1, e2, e3, e4, e5, e6, hall⟩ := h.some hp
    refine ⟨if q.sent < a.sent then q else a, ?_, if b.sent ≤ q.sent then q else b, ?_, if q.recv ≤ f.recv then q else f, ?_,
      if l.recv < q.recv then q else l, ?_, ?_⟩
    · split <;> simp [ha]
    · split <;> simp [hb]
    · split <;> simp [hf]
    · split <;> simp [hl]
    · simp only [EState.update, e1, e2, e3, e4, e5, e6, Option.getD_some]
      refine ⟨?_, ?_, ?_, ?_, ?_, ?_, ?_⟩
      · split <;> congr 1 <;> omega
      · split <;> simp
      · split <;> simp
      · split <;> simp
      · split <;> simp
      · split <;> congr 1 <;> omega
      · intro p hp
        simp only [List.mem_append, List.mem_singleton] at hp
        rcases hp with hp | rfl
        · obtain ⟨g1, g2, g3, g4⟩ := hall p hp
          refine ⟨?_, ?_, ?_, ?_⟩ <;> split <;> omega
        · refine ⟨?_, ?_, ?_, ?_⟩ <;> split <;> omega

/-- a measurement that has not begun -/
def EState.empty (c : Cluster) : EState := { config := c, createdAt := 0, finalizeAt := 0 }

theorem stats_fold (c : Cluster) (ps : List Arrival) : Stats ps ((EState.empty c).fold ps) := by
  induction ps using List.reverseRecOn with
  | nil => exact ⟨rfl, by simp [EState.fold, EState.empty, bytesOf], fun _ => ⟨rfl, rfl, rfl, rfl⟩, fun h => absurd rfl h⟩
  | append_singleton ps q ih => rw [fold_snoc]; exact stats_update ps q _ ih

theorem calculate_bare (s : EState) : s.bare.calculate = s.calculate := rfl

theorem calculate_sound (c : Cluster) (ps : List Arrival) (s : EState) (h : Stats ps s) (hc : s.config = c) (r : Bitrate)
    (hr : s.calculate = some r) : Measured c ps r := by
  unfold EState.calculate at hr
  split at hr
  · exact absurd hr (by simp)
  rename_i hcount
  split at hr
  · exact absurd hr (by simp)
  split at hr
  · exact absurd hr (by simp)
  rename_i hbytes
  have hne : ps ≠ [] := by
    rintro rfl
    rw [h.count] at hcount
    simp at hcount
  obtain ⟨a, ha, b, hb, f, hf, l, hl, e1, e2, e3, e4, e5, e6, hall⟩ := h.some hne
  rw [e1, e2, e3, e4, e5, e6] at hr
  simp only at hr
  split at hr
  · exact absurd hr (by simp)
  split at hr
  · exact absurd hr (by simp)
  split at hr
  · exact absurd hr (by simp)
  split at hr
  · exact absurd hr (by simp)
  rename_i g1 g2 g3 g4
  split at hr
  · exact absurd hr (by simp)
  rename_i g5
  push Not at g3 g4 g5 hbytes hcount
  have hab : a.sent < b.sent := by omega
  have hfl : f.recv < l.recv := by omega
  have hS : (0 : ℚ) < (b.sent : ℚ) - a.sent := by
    have : (a.sent : ℚ) < b.sent := by exact_mod_cast hab
    linarith
  have hR : (0 : ℚ) < (l.recv : ℚ) - f.recv := by
    have : (f.recv : ℚ) < l.recv := by exact_mod_cast hfl
    linarith
  have hsec : (0 : ℚ) < (SEC : ℚ) := by norm_num [SEC]
  have t1 : satSub s.total b.size = s.total - b.size := by
    have := g4.1
    unfold satSub at this ⊢
    omega
  have t2 : satSub s.total f.size = s.total - f.size := by
    have := g4.2
    unfold satSub at this ⊢
    omega
  have p1 : (0 : ℚ) < bytesOf ps - b.size := by
    have := g4.1
    rw [t1] at this
    rw [← h.total]
    exact_mod_cast this
  have p2 : (0 : ℚ) < bytesOf ps - f.size := by
    have := g4.2
    rw [t2] at this
    rw [← h.total]
    exact_mod_cast this
  have es : divDur (satSub s.total b.size) (b.sent - a.sent) = (bytesOf ps - b.size) * 8 * SEC / ((b.sent : ℚ) - a.sent) := by
    unfold divDur
    rw [if_neg (by omega), t1, Nat.cast_sub (le_of_lt hab), ← h.total]
    push_cast
    field_simp
  have er : divDur (satSub s.total f.size) (l.recv - f.recv) = (bytesOf ps - f.size) * 8 * SEC / ((l.recv : ℚ) - f.recv) := by
    unfold divDur
    rw [if_neg (by omega), t2, Nat.cast_sub (le_of_lt hfl), ← h.total]
    push_cast
    field_simp
  rw [es, er] at hr g5
  have q1 : (0 : ℚ) < (bytesOf ps - b.size) * 8 * SEC / ((b.sent : ℚ) - a.sent) := by positivity
  have q2 : (0 : ℚ) < (bytesOf ps - f.size) * 8 * SEC / ((l.recv : ℚ) - f.recv) := by positivity
  refine ⟨by rw [← h.count]; exact hcount, ?_, a, ha, b, hb, f, hf, l, hl, hall, hab, by omega, hfl, by omega, _, _, rfl, rfl, q1, q2, ?_, ?_⟩
  · have f1 := Int.lt_floor_add_one ((s.config.targetBytes : ℚ) * (8 / 10))
    have f2 : ((⌊((s.config.targetBytes : ℚ) * (8 / 10))⌋ : Int) : ℚ) ≤ s.total := by exact_mod_cast hbytes
    have f3 := Int.lt_floor_add_one (s.config.target * ((s.config.duration : ℚ) / SEC) / 8 + 1 / 2)
    have f4 : (s.config.targetBytes : ℚ) = ((⌊s.config.target * ((s.config.duration : ℚ) / SEC) / 8 + 1 / 2⌋ : Int) : ℚ) := rfl
    rw [hc] at *
    have f5 : c.target * ((c.duration : ℚ) / SEC) / 8 = c.target * c.duration / SEC / 8 := by ring
    rw [f5] at f3 f4
    rw [← f4] at f3
    rw [← h.total]
    linarith
  · rw [div_le_iff₀ q1] at g5
    exact g5
  · split at hr
    · rename_i hh
      rw [if_pos hh]; exact (Option.some.inj hr).symm
    · rename_i hh
      rw [if_neg hh]; exact (Option.some.inj hr).symm

/-! ### The states of the estimator -/

theorem updateFirst_map (id : Nat) (g : EState → EState) (l : List EState) (hn : (l.map (·.config.id)).Nodup) :
    updateFirst id g l = l.map (fun s => if s.config.id = id then g s else s) := by
  induction l with
  | nil => rfl
  | cons s ss ih =>
    simp only [List.map_cons, List.nodup_cons] at hn
    simp only [updateFirst, List.map_cons]
    split
    · rename_i hs
      congr 1
      symm
      conv_rhs => rw [← List.map_id ss]
      apply List.map_congr_left
      intro x hx
      have : x.config.id ≠ id := fun hh => hn.1 (by rw [hs, ← hh]; exact List.mem_map_of_mem hx)
      simp [this]
    · rw [ih hn.2]

theorem updateFirst_same {α : Type} (h : EState → α) (id : Nat) (g : EState → EState) (hg : ∀ s, h (g s) = h s) (l : List EState) :
    (updateFirst id g l).map h = l.map h := by
  induction l with
  | nil => rfl
  | cons s ss ih =>
    simp only [updateFirst]
    split
    · simp [hg]
    · simp [ih]

theorem nodup_of_config {l l' : List EState} (h : l'.map (·.config) = l.map (·.config)) (hn : (l.map (·.config.id)).Nodup) :
    (l'.map (·.config.id)).Nodup := by
  have e : ∀ m : List EState, m.map (·.config.id) = (m.map (·.config)).map (·.id) := by intro m; simp
  rw [e, h, ← e]; exact hn

theorem one_same {α : Type} (h : EState → α) (hu : ∀ s a b c, h (EState.update s a b c) = h s) (e : Estimator) (r : Rec) :
    (e.one r).states.map h = e.states.map h := by
  unfold Estimator.one
  split
  · rfl
  · split
    · rfl
    · split
      · rfl
      · exact updateFirst_same h _ (fun s => s.update r.size r.sent _) (fun _ => hu _ _ _ _) _

theorem one_config (e : Estimator) (r : Rec) : (e.one r).states.map (·.config) = e.states.map (·.config) :=
  one_same _ (fun _ _ _ _ => rfl) e r

theorem one_map (e : Estimator) (r : Rec) (hn : (e.states.map (·.config.id)).Nodup) :
    (e.one r).states = e.states.map (fun s => s.fold (arrivals s.config.id [r])) := by
  unfold Estimator.one
  split
  · rename_i hc
    conv_lhs => rw [← List.map_id e.states]
    apply List.map_congr_left
    intro s _
    simp [arrivals, hc, EState.fold]
  · rename_i id hc
    split
    · rename_i hf
      conv_lhs => rw [← List.map_id e.states]
      apply List.map_congr_left
      intro s hs
      have : id ≠ s.config.id := by
        intro hh
        have := List.find?_eq_none.mp hf s hs
        simp [hh] at this
      simp [arrivals, hc, EState.fold, this]
    · split
      · rename_i hr
        conv_lhs => rw [← List.map_id e.states]
        apply List.map_congr_left
        intro s _
        by_cases hi : id = s.config.id <;> simp [arrivals, hc, EState.fold, hr, hi]
      · rename_i t hr
        rw [updateFirst_map _ _ _ hn]
        apply List.map_congr_left
        intro s _
        by_cases hi : id = s.config.id
        · simp [arrivals, hc, EState.fold, hr, hi]
        · rw [if_neg (fun h => hi h.symm)]
          simp [arrivals, hc, EState.fold, hi]

theorem arrivals_cons (id : Nat) (r : Rec) (rs : List Rec) : arrivals id (r :: rs) = arrivals id [r] ++ arrivals id rs := by
  rw [show r :: rs = [r] ++ rs from rfl, arrivals, List.filterMap_append]; rfl

theorem foldl_same {α : Type} (h : EState → α) (hu : ∀ s a b c, h (EState.update s a b c) = h s) (e : Estimator) (rs : List Rec) :
    (rs.foldl Estimator.one e).states.map h = e.states.map h := by
  induction rs generalizing e with
  | nil => rfl
  | cons r rs ih => rw [List.foldl_cons, ih, one_same h hu]

theorem foldl_map (e : Estimator) (rs : List Rec) (hn : (e.states.map (·.config.id)).Nodup) :
    (rs.foldl Estimator.one e).states = e.states.map (fun s => s.fold (arrivals s.config.id rs)) := by
  induction rs generalizing e with
  | nil =>
    conv_lhs => rw [← List.map_id (List.foldl Estimator.one e []).states]
    rfl
  | cons r rs ih =>
    rw [List.foldl_cons, ih _ (nodup_of_config (one_config e r) hn), one_map e r hn, List.map_map]
    apply List.map_congr_left
    intro s _
    simp only [Function.comp_apply]
    rw [(fold_config _ _).1, arrivals_cons _ r rs, fold_append]

/-- `probe_start`: there is room, perhaps after dropping what is older than five seconds; or there is not -/
theorem start_cases (e : Estimator) (x : Cluster) (now : Nat) :
    ∃ l, l.Sublist e.states ∧
      ((e.start x now = ({ e with states := l ++ [{ config := x, createdAt := now }] }, true) ∧ l.length < 20) ∨
       (e.start x now = ({ e with states := l }, false) ∧ 20 ≤ l.length ∧ ∀ s ∈ l, now - s.createdAt < 5 * SEC)) := by
  unfold Estimator.start
  simp only
  split
  · split
    · rename_i h
      refine ⟨_, List.filter_sublist, .inr ⟨rfl, h, ?_⟩⟩
      intro s hs
      simpa using (List.mem_filter.mp hs).2
    · rename_i h
      exact ⟨_, List.filter_sublist, .inl ⟨rfl, by omega⟩⟩
  · rename_i h
    exact ⟨_, List.Sublist.refl _, .inl ⟨rfl, by omega⟩⟩

/-- What a wake-up does to what is being measured: it drops some, and adds the probe it puts out -/
theorem timeout_states (b : Bwe) (now : Nat) (p : Bool) (o : Oracle) :
    ∃ l, l.Sublist b.estimator.states ∧ (∀ s ∈ l, now < s.finalizeAt) ∧
      (((step b (.timeout now p o)).1.estimator.states = l ∧ (∀ c, (step b (.timeout now p o)).2 ≠ .probe c) ∧
        ∀ c, (step b (.timeout now p o)).2 = .refused c → 20 ≤ l.length ∧ ∀ s ∈ l, now - s.createdAt < 5 * SEC) ∨
       ∃ c, (step b (.timeout now p o)).2 = .probe c ∧
        (step b (.timeout now p o)).1.estimator.states = l ++ [{ config := c, createdAt := now }] ∧ l.length < 20) := by
  have hprop : ∀ (x : Bwe), (x.propagate o).estimator = x.estimator := by
    intro x
    unfold Bwe.propagate
    split
    · rfl
    · split <;> rfl
  have hpre : (b.prepared p now o).estimator.states.Sublist (b.estimator.handleTimeout now).states := by
    unfold Bwe.prepared
    simp only
    split
    · simp [Estimator.clear]
    · simp [hprop]
  have hfin : ∀ s ∈ (b.estimator.handleTimeout now).states, now < s.finalizeAt := by
    intro s hs
    simp only [Estimator.handleTimeout, List.mem_filter, decide_eq_true_eq] at hs
    exact hs.2
  have hsub : (b.estimator.handleTimeout now).states.Sublist b.estimator.states := by
    simp only [Estimator.handleTimeout]
    exact List.filter_sublist
  have hE : (b.handleTimeout p now o).1.estimator = (b.prepared p now o).estimator := by
    unfold Bwe.handleTimeout
    rw [sendSideTimeout_eq]
    simp only
    split <;> rfl
  unfold step
  simp only
  generalize b.handleTimeout p now o = r at *
  obtain ⟨B, r2⟩ := r
  simp only at hE
  rw [← hE] at hpre
  cases r2 with
  | none =>
    exact ⟨B.estimator.states, hpre.trans hsub, fun s hs => hfin s (hpre.subset hs), .inl ⟨rfl, by simp, by simp⟩⟩
  | some x =>
    simp only
    obtain ⟨l, hl, ⟨h1, h2⟩ | ⟨h1, h2, h3⟩⟩ := start_cases B.estimator x now
    · rw [h1]
      exact ⟨l, (hl.trans hpre).trans hsub, fun s hs => hfin s (hpre.subset (hl.subset hs)), .inr ⟨x, rfl, rfl, h2⟩⟩
    · rw [h1]
      exact ⟨l, (hl.trans hpre).trans hsub, fun s hs => hfin s (hpre.subset (hl.subset hs)), .inl ⟨rfl, by simp, fun _ _ => ⟨h2, h3⟩⟩⟩

theorem propagate_estimator (b : Bwe) (o : Oracle) : (b.propagate o).estimator = b.estimator := by
  unfold Bwe.propagate
  split
  · rfl
  · split <;> rfl

theorem report_estimator (b : Bwe) (rs : List Rec) (now : Nat) (o : Oracle) :
    (step b (.report rs now o)).1.estimator = (b.estimator.update rs).1 := by
  simp only [step, Bwe.update]
  split
  · rfl
  · split
    · rfl
    · rw [propagate_estimator]

theorem poll_estimator (b : Bwe) : (step b .poll).1.estimator = b.estimator := by
  simp only [step]
  split <;> rfl

theorem states_sublist (i : Bitrate) (es : List Event) :
    ((run (Bwe.new i) es).estimator.states.map (·.config)).Sublist (probes (Bwe.new i) es) := by
  induction es using List.reverseRecOn with
  | nil => simp [run, Bwe.new]
  | append_singleton es e ih =>
    rw [run_snoc, probes_snoc]
    cases e with
    | timeout now p o =>
      obtain ⟨l, hl, _, ⟨hs, _⟩ | ⟨c, hc, hs, _⟩⟩ := timeout_states (run (Bwe.new i) es) now p o
      · rw [hs]
        exact ((hl.map _).trans ih).trans (List.sublist_append_left _ _)
      · rw [hs, hc]
        simp only [List.map_append, List.map_cons, List.map_nil, Out.cluster?, Option.toList_some]
        exact ((hl.map _).trans ih).append (List.Sublist.refl _)
    | report rs now o =>
      rw [report_estimator]
      simp only [Estimator.update]
      rw [foldl_same _ (fun _ _ _ _ => rfl)]
      exact ih.trans (List.sublist_append_left _ _)
    | completed now id =>
      simp only [step, Estimator.finish]
      rw [updateFirst_same]
      · exact ih.trans (List.sublist_append_left _ _)
      · intro _; rfl
    | desired v => exact ih.trans (List.sublist_append_left _ _)
    | reset j => simp [step, Bwe.reset]
    | poll => rw [poll_estimator]; exact ih.trans (List.sublist_append_left _ _)

theorem states_nodup (i : Bitrate) (es : List Event) (hr : NoReset es) (hn : calls es < 2 ^ 62) :
    ((run (Bwe.new i) es).estimator.states.map (·.config.id)).Nodup := by
  have h := C105_ids i es hr hn
  have s := (states_sublist i es).map (·.id)
  rw [List.map_map] at s
  exact (h.sublist s).imp (fun h => Nat.ne_of_lt h)

theorem arrivedIn_append (id : Nat) (es fs : List Event) : arrivedIn id (es ++ fs) = arrivedIn id es ++ arrivedIn id fs := by
  induction es with
  | nil => rfl
  | cons e es ih => cases e <;> simp [arrivedIn, ih]

/-- Every measurement is of a probe that was put out, and of all its packets reported since -/
def Tracked (i : Bitrate) (es : List Event) (s : EState) : Prop :=
  ∃ pre now p o post, es = pre ++ .timeout now p o :: post ∧ (step (run (Bwe.new i) pre) (.timeout now p o)).2 = .probe s.config ∧
    s.createdAt = now ∧ s.bare = (EState.empty s.config).fold (arrivedIn s.config.id post)

theorem Tracked.snoc {i : Bitrate} {es : List Event} {s s' : EState} {e : Event} (h : Tracked i es s) (hc : s'.config = s.config)
    (ht : s'.createdAt = s.createdAt) (hb : s'.bare = s.bare.fold (arrivedIn s.config.id [e])) : Tracked i (es ++ [e]) s' := by
  obtain ⟨pre, now, p, o, post, h1, h2, h3, h4⟩ := h
  refine ⟨pre, now, p, o, post ++ [e], by rw [h1]; simp, by rw [hc]; exact h2, by rw [ht]; exact h3, ?_⟩
  rw [hb, h4, hc, arrivedIn_append, fold_append]

theorem tracked (i : Bitrate) (es : List Event) (hr : NoReset es) (hn : calls es < 2 ^ 62) :
    ∀ s ∈ (run (Bwe.new i) es).estimator.states, Tracked i es s := by
  induction es using List.reverseRecOn with
  | nil => simp [run, Bwe.new]
  | append_singleton es e ih =>
    have hr' : NoReset es := fun x hx => hr x (List.mem_append_left _ hx)
    have hn' : calls es < 2 ^ 62 := by rw [calls_append] at hn; omega
    have ih := ih hr' hn'
    have hnd := states_nodup i es hr' hn'
    rw [run_snoc]
    intro s hs
    cases e with
    | timeout now p o =>
      obtain ⟨l, hl, _, ⟨hs', _⟩ | ⟨c, hc, hs', _⟩⟩ := timeout_states (run (Bwe.new i) es) now p o
      · rw [hs'] at hs
        exact (ih s (hl.subset hs)).snoc rfl rfl rfl
      · rw [hs'] at hs
        simp only [List.mem_append, List.mem_singleton] at hs
        rcases hs with hs | rfl
        · exact (ih s (hl.subset hs)).snoc rfl rfl rfl
        · exact ⟨es, now, p, o, [], rfl, hc, rfl, rfl⟩
    | report rs now o =>
      rw [report_estimator] at hs
      simp only [Estimator.update] at hs
      rw [foldl_map ⟨(run (Bwe.new i) es).estimator.states, []⟩ _ hnd] at hs
      simp only [List.mem_map] at hs
      obtain ⟨s0, h0, rfl⟩ := hs
      have hf := fold_config s0 (arrivals s0.config.id rs)
      refine (ih s0 h0).snoc hf.1 hf.2.1 ?_
      rw [bare_fold]
      simp [arrivedIn]
    | completed now id =>
      simp only [step, Estimator.finish] at hs
      rw [updateFirst_map _ _ _ hnd] at hs
      simp only [List.mem_map] at hs
      obtain ⟨s0, h0, rfl⟩ := hs
      by_cases hi : s0.config.id = id
      · rw [if_pos hi]; exact (ih s0 h0).snoc rfl rfl rfl
      · rw [if_neg hi]; exact (ih s0 h0).snoc rfl rfl rfl
    | desired v => exact (ih s hs).snoc rfl rfl rfl
    | reset j => exact absurd rfl (hr _ (by simp) j)
    | poll =>
      rw [poll_estimator] at hs
      exact (ih s hs).snoc rfl rfl rfl

/-! ### C109 -/

/-- C109: a report yields a result for a probe only when that probe was put out before, and then the result is what all its packets
that were reported to have arrived since tell: see `Measured`. Packets that were lost or belong to no probe or to another one do not
count. -/
theorem C109_result (i : Bitrate) (es : List Event) (rs : List Rec) (now : Nat) (o : Oracle) (c : Cluster) (r : Bitrate)
    (hr : NoReset es) (hn : calls es < 2 ^ 62) (h : (c, r) ∈ ((run (Bwe.new i) es).estimator.update rs).2) :
    ∃ pre t p q post, es = pre ++ .timeout t p q :: post ∧ (step (run (Bwe.new i) pre) (.timeout t p q)).2 = .probe c ∧
      Measured c (arrivedIn c.id (post ++ [.report rs now o])) r := by
  have hnr : NoReset (es ++ [.report rs now o]) := by
    intro x hx
    simp only [List.mem_append, List.mem_singleton] at hx
    rcases hx with hx | rfl
    · exact hr x hx
    · simp
  have hcalls : calls (es ++ [.report rs now o]) < 2 ^ 62 := by
    rw [calls_append]; exact hn
  have ht := tracked i (es ++ [.report rs now o]) hnr hcalls
  rw [run_snoc, report_estimator] at ht
  simp only [Estimator.update, List.mem_filterMap] at h ht
  obtain ⟨id, _, hb⟩ := h
  rw [Option.bind_eq_some_iff] at hb
  obtain ⟨s, hs, hcalc⟩ := hb
  rw [Option.map_eq_some_iff] at hcalc
  obtain ⟨r', hr', heq⟩ := hcalc
  cases heq
  obtain ⟨pre, t, p, q, post, h1, h2, h3, h4⟩ := ht s (List.mem_of_find?_eq_some hs)
  rcases List.eq_nil_or_concat post with rfl | ⟨post', x, rfl⟩
  · have := congrArg List.getLast? h1
    simp at this
  · rw [List.concat_eq_append] at h1 h4
    rw [show pre ++ Event.timeout t p q :: (post' ++ [x]) = (pre ++ Event.timeout t p q :: post') ++ [x] by simp] at h1
    obtain ⟨h5, h6⟩ := List.append_inj' h1 rfl
    cases h6
    refine ⟨pre, t, p, q, post', h5, h2, ?_⟩
    exact calculate_sound s.config _ s.bare (by rw [h4]; exact stats_fold _ _) rfl r (by rw [calculate_bare]; exact hr')

/-- four packets of the first probe of `twoProbes`, sent 3 ms apart and received 4 ms apart, one packet that was lost, one of
no probe and one of another -/
def answers : List Rec :=
  [⟨some 0, 1200, 1001 * MS, some (11 * MS)⟩, ⟨some 0, 1200, 1004 * MS, some (15 * MS)⟩, ⟨none, 1000, 1005 * MS, some (16 * MS)⟩,
   ⟨some 0, 1200, 1007 * MS, some (19 * MS)⟩, ⟨some 0, 1200, 1008 * MS, none⟩, ⟨some 1, 1200, 1009 * MS, some (20 * MS)⟩,
   ⟨some 0, 1200, 1010 * MS, some (23 * MS)⟩]

/-- The hypotheses of `C109_result` are met -/
theorem C109_example :
    ((run (Bwe.new 300000) twoProbes).estimator.update answers).2 = [(⟨0, 900000, 15 * MS, 5, 2 * MS, .initial⟩, 2280000)] ∧
    NoReset twoProbes ∧ calls twoProbes < 2 ^ 62 := by
  refine ⟨by decide +kernel, ?_, by decide⟩
  intro e he i
  simp only [twoProbes, List.mem_cons, List.not_mem_nil, or_false] at he
  rcases he with rfl | rfl | rfl <;> simp

/-! ### C110 -/

theorem putOut_snoc (b : Bwe) (es : List Event) (e : Event) :
    putOut b (es ++ [e]) = putOut b es ++ putOut (run b es) [e] := by
  induction es generalizing b with
  | nil => rfl
  | cons x es ih => cases x <;> simp only [List.cons_append, putOut, run, ih, List.append_assoc]

theorem states_put (i : Bitrate) (es : List Event) :
    ((run (Bwe.new i) es).estimator.states.map (fun s => (s.createdAt, s.config))).Sublist (putOut (Bwe.new i) es) := by
  induction es using List.reverseRecOn with
  | nil => simp [run, Bwe.new]
  | append_singleton es e ih =>
    rw [run_snoc, putOut_snoc]
    cases e with
    | timeout now p o =>
      obtain ⟨l, hl, _, ⟨hs, _⟩ | ⟨c, hc, hs, _⟩⟩ := timeout_states (run (Bwe.new i) es) now p o
      · rw [hs]
        exact ((hl.map _).trans ih).trans (List.sublist_append_left _ _)
      · rw [hs]
        simp only [putOut, hc, List.map_append, List.map_cons, List.map_nil, List.append_nil]
        exact ((hl.map _).trans ih).append (List.Sublist.refl _)
    | report rs now o =>
      rw [report_estimator]
      simp only [Estimator.update]
      rw [foldl_same _ (fun _ _ _ _ => rfl)]
      exact ih.trans (List.sublist_append_left _ _)
    | completed now id =>
      simp only [step, Estimator.finish]
      rw [updateFirst_same]
      · exact ih.trans (List.sublist_append_left _ _)
      · intro _; rfl
    | desired v => exact ih.trans (List.sublist_append_left _ _)
    | reset j => simp [step, Bwe.reset]
    | poll => rw [poll_estimator]; exact ih.trans (List.sublist_append_left _ _)

/-- C110: at most twenty probes are being measured -/
theorem C110_twenty (i : Bitrate) (es : List Event) : (run (Bwe.new i) es).estimator.states.length ≤ 20 := by
  induction es using List.reverseRecOn with
  | nil => simp [run, Bwe.new]
  | append_singleton es e ih =>
    rw [run_snoc]
    cases e with
    | timeout now p o =>
      obtain ⟨l, hl, _, ⟨hs, _⟩ | ⟨c, hc, hs, hlt⟩⟩ := timeout_states (run (Bwe.new i) es) now p o
      · rw [hs]; exact hl.length_le.trans ih
      · rw [hs, List.length_append]; simp; omega
    | report rs now o =>
      rw [report_estimator]
      simp only [Estimator.update]
      have := congrArg List.length (foldl_same (fun _ => ()) (fun _ _ _ _ => rfl) ⟨(run (Bwe.new i) es).estimator.states, []⟩ rs)
      simp only [List.length_map] at this
      omega
    | completed now id =>
      simp only [step, Estimator.finish]
      have := congrArg List.length (updateFirst_same (fun _ => ()) id (fun s => { s with finalizeAt := now + SEC }) (fun _ => rfl)
        (run (Bwe.new i) es).estimator.states)
      simp only [List.length_map] at this
      omega
    | desired v => exact ih
    | reset j => simp [step, Bwe.reset]
    | poll => rw [poll_estimator]; exact ih

/-- C110: a probe is refused only when twenty others were put out in the five seconds before -/
theorem C110_refused (i : Bitrate) (es : List Event) (now : Nat) (p : Bool) (o : Oracle) (c : Cluster)
    (h : (step (run (Bwe.new i) es) (.timeout now p o)).2 = .refused c) :
    20 ≤ ((putOut (Bwe.new i) es).filter (fun x => now - x.1 < 5 * SEC)).length := by
  obtain ⟨l, hl, _, ⟨_, _, hr⟩ | ⟨c', hc, _⟩⟩ := timeout_states (run (Bwe.new i) es) now p o
  · obtain ⟨h20, hfresh⟩ := hr c h
    have hs := ((hl.map (fun s => (s.createdAt, s.config))).trans (states_put i es)).filter (fun x => decide (now - x.1 < 5 * SEC))
    have hall : (l.map (fun s => (s.createdAt, s.config))).filter (fun x => decide (now - x.1 < 5 * SEC)) = l.map (fun s => (s.createdAt, s.config)) := by
      rw [List.filter_eq_self]
      intro x hx
      obtain ⟨s, hs, rfl⟩ := List.mem_map.mp hx
      simpa using hfresh s hs
    rw [hall] at hs
    have := hs.length_le
    rw [List.length_map] at this
    omega
  · rw [h] at hc; exact absurd hc (by simp)

theorem probes_append (b : Bwe) (es fs : List Event) : probes b (es ++ fs) = probes b es ++ probes (run b es) fs := by
  simp [probes, outs_append]

theorem noReset_append {es fs : List Event} (h : NoReset (es ++ fs)) : NoReset es ∧ NoReset fs :=
  ⟨fun x hx => h x (List.mem_append_left _ hx), fun x hx => h x (List.mem_append_right _ hx)⟩

/-- What holds of the measurement of a probe that was put out goes on to hold -/
theorem keep (i : Bitrate) (es fs : List Event) (k : Nat) (Q : EState → Prop) (hr : NoReset (es ++ fs)) (hn : calls (es ++ fs) < 2 ^ 62)
    (hc : ∃ c ∈ probes (Bwe.new i) es, c.id = k) (hu : ∀ s ps, Q s → Q (EState.fold s ps))
    (hf : ∀ u, Event.completed u k ∈ fs → ∀ s, Q s → Q { s with finalizeAt := u + SEC })
    (h : ∀ s ∈ (run (Bwe.new i) es).estimator.states, s.config.id = k → Q s) :
    ∀ s ∈ (run (Bwe.new i) (es ++ fs)).estimator.states, s.config.id = k → Q s := by
  induction fs using List.reverseRecOn with
  | nil => rw [List.append_nil]; exact h
  | append_singleton fs e ih =>
    rw [← List.append_assoc] at hr hn ⊢
    obtain ⟨hr1, _⟩ := noReset_append hr
    have hn1 : calls (es ++ fs) < 2 ^ 62 := by rw [calls_append] at hn; omega
    have ih := ih hr1 hn1 (fun u hu => hf u (List.mem_append_left _ hu))
    have hnd := states_nodup i (es ++ fs) hr1 hn1
    have hids := C105_ids i _ hr hn
    rw [run_snoc]
    intro s hs hk
    cases e with
    | timeout now p o =>
      obtain ⟨l, hl, _, ⟨hs', _⟩ | ⟨c, hc', hs', _⟩⟩ := timeout_states (run (Bwe.new i) (es ++ fs)) now p o
      · rw [hs'] at hs
        exact ih s (hl.subset hs) hk
      · rw [hs'] at hs
        simp only [List.mem_append, List.mem_singleton] at hs
        rcases hs with hs | rfl
        · exact ih s (hl.subset hs) hk
        · exfalso
          rw [probes_snoc, probes_append, hc', List.append_assoc, List.map_append, List.pairwise_append] at hids
          obtain ⟨c0, h0, h1⟩ := hc
          have := hids.2.2 c0.id (List.mem_map_of_mem h0) c.id (by simp [Out.cluster?])
          simp only at hk
          omega
    | report rs now o =>
      rw [report_estimator] at hs
      simp only [Estimator.update] at hs
      rw [foldl_map ⟨(run (Bwe.new i) (es ++ fs)).estimator.states, []⟩ _ hnd] at hs
      simp only [List.mem_map] at hs
      obtain ⟨s0, h0, rfl⟩ := hs
      exact hu _ _ (ih s0 h0 (by rw [← hk, (fold_config _ _).1]))
    | completed now id =>
      simp only [step, Estimator.finish] at hs
      rw [updateFirst_map _ _ _ hnd] at hs
      simp only [List.mem_map] at hs
      obtain ⟨s0, h0, rfl⟩ := hs
      by_cases hi : s0.config.id = id
      · rw [if_pos hi] at hk ⊢
        simp only at hk
        exact hf now (by rw [← hk, hi]; simp) s0 (ih s0 h0 hk)
      · rw [if_neg hi] at hk ⊢
        exact ih s0 h0 hk
    | desired v => exact ih s hs hk
    | reset j => exact absurd rfl (hr _ (by simp) j)
    | poll =>
      rw [poll_estimator] at hs
      exact ih s hs hk

/-- C110: a probe that was completed is no longer measured after a wake-up a second later: no report yields a result for it -/
theorem C110_forgotten (i : Bitrate) (pre mid post : List Event) (t t' : Nat) (p : Bool) (o : Oracle) (c c' : Cluster) (rs : List Rec)
    (r : Bitrate) (hr : NoReset (pre ++ .completed t c.id :: mid ++ .timeout t' p o :: post))
    (hn : calls (pre ++ .completed t c.id :: mid ++ .timeout t' p o :: post) < 2 ^ 62)
    (hc : c ∈ probes (Bwe.new i) pre) (hm : ∀ u, Event.completed u c.id ∉ mid) (ht : t + SEC ≤ t') (hi : c'.id = c.id) :
    (c', r) ∉ ((run (Bwe.new i) (pre ++ .completed t c.id :: mid ++ .timeout t' p o :: post)).estimator.update rs).2 := by
  have e1 : pre ++ .completed t c.id :: mid ++ .timeout t' p o :: post = ((pre ++ [.completed t c.id]) ++ mid ++ [.timeout t' p o]) ++ post := by
    simp
  rw [e1] at hr hn ⊢
  obtain ⟨hr3, _⟩ := noReset_append hr
  obtain ⟨hr2, _⟩ := noReset_append hr3
  obtain ⟨hr1, _⟩ := noReset_append hr2
  obtain ⟨hr0, _⟩ := noReset_append hr1
  have hn3 : calls ((pre ++ [.completed t c.id]) ++ mid ++ [.timeout t' p o]) < 2 ^ 62 := by rw [calls_append] at hn; omega
  have hn2 : calls ((pre ++ [.completed t c.id]) ++ mid) < 2 ^ 62 := by rw [calls_append] at hn3; omega
  have hn1 : calls (pre ++ [.completed t c.id]) < 2 ^ 62 := by rw [calls_append] at hn2; omega
  have hn0 : calls pre < 2 ^ 62 := by rw [calls_append] at hn1; omega
  have hp1 : c ∈ probes (Bwe.new i) (pre ++ [.completed t c.id]) := by
    rw [probes_append]; exact List.mem_append_left _ hc
  have hp2 : c ∈ probes (Bwe.new i) (pre ++ [.completed t c.id] ++ mid ++ [.timeout t' p o]) := by
    rw [List.append_assoc, probes_append]; exact List.mem_append_left _ hp1
  have q1 : ∀ s ∈ (run (Bwe.new i) (pre ++ [.completed t c.id])).estimator.states, s.config.id = c.id → s.finalizeAt = t + SEC := by
    intro s hs hk
    rw [run_snoc] at hs
    simp only [step, Estimator.finish] at hs
    rw [updateFirst_map _ _ _ (states_nodup i pre hr0 hn0)] at hs
    simp only [List.mem_map] at hs
    obtain ⟨s0, h0, rfl⟩ := hs
    by_cases hi : s0.config.id = c.id
    · rw [if_pos hi]
    · rw [if_neg hi] at hk; exact absurd hk hi
  have q2 := keep i (pre ++ [.completed t c.id]) mid c.id (fun s => s.finalizeAt = t + SEC) hr2 hn2 ⟨c, hp1, rfl⟩
    (fun s ps h => by rw [(fold_config s ps).2.2]; exact h) (fun u hu => absurd hu (hm u)) q1
  have q3 : ∀ s ∈ (run (Bwe.new i) (pre ++ [.completed t c.id] ++ mid ++ [.timeout t' p o])).estimator.states, s.config.id = c.id → False := by
    intro s hs hk
    rw [run_snoc] at hs
    obtain ⟨l, hl, hfin, ⟨hs', _⟩ | ⟨c2, hc', hs', _⟩⟩ := timeout_states (run (Bwe.new i) (pre ++ [.completed t c.id] ++ mid)) t' p o
    · rw [hs'] at hs
      have := hfin s hs
      have := q2 s (hl.subset hs) hk
      omega
    · rw [hs'] at hs
      simp only [List.mem_append, List.mem_singleton] at hs
      rcases hs with hs | rfl
      · have := hfin s hs
        have := q2 s (hl.subset hs) hk
        omega
      · have hids := C105_ids i _ hr3 hn3
        rw [probes_snoc, probes_append, hc', List.append_assoc, List.map_append, List.pairwise_append] at hids
        have := hids.2.2 c.id (List.mem_map_of_mem hp1) c2.id (by simp [Out.cluster?])
        simp only at hk
        omega
  have q4 := keep i _ post c.id (fun _ => False) hr hn ⟨c, hp2, rfl⟩ (fun _ _ h => h) (fun _ _ _ h => h) q3
  intro h
  simp only [Estimator.update, List.mem_filterMap] at h
  obtain ⟨id, _, hb⟩ := h
  rw [Option.bind_eq_some_iff] at hb
  obtain ⟨s, hs, hcalc⟩ := hb
  rw [Option.map_eq_some_iff] at hcalc
  obtain ⟨r', hr', heq⟩ := hcalc
  cases heq
  have hmem := List.mem_of_find?_eq_some hs
  have hm2 := List.mem_map_of_mem (f := fun s => s.config) hmem
  rw [foldl_same (fun s : EState => s.config) (fun _ _ _ _ => rfl)] at hm2
  obtain ⟨s0, h0, h1⟩ := List.mem_map.mp hm2
  exact q4 s0 h0 (by rw [h1]; exact hi)

/-- a history in which the application asks for more and more, twenty times within a tenth of a second -/
def eager (k : Nat) : List Event :=
  [.desired 1000000, .timeout (1000 * MS) true limited, .timeout (1001 * MS) true limited, .timeout (3000 * MS) true limited] ++
    (List.range k).flatMap (fun n => [.desired (1000000 + 10000 * ((n : ℚ) + 1)), .timeout ((3001 + 5 * n) * MS) true limited])

/-- The hypothesis of `C110_refused` is met -/
theorem C110_example_refused :
    ∃ c, (step (run (Bwe.new 300000) (eager 20 ++ [.desired 1500000])) (.timeout (3500 * MS) true limited)).2 = .refused c := by
  refine ⟨⟨22, 600000, 15 * MS, 5, 2 * MS, .increaseAlr⟩, ?_⟩
  decide +kernel

/-- The hypotheses of `C110_forgotten` are met: in this history the report yields a result at first, and none after the wake-up a
second later -/
theorem C110_example_forgotten :
    NoReset (twoProbes ++ .completed (1020 * MS) 0 :: [.poll] ++ .timeout (2020 * MS) true calm :: [.poll]) ∧
    (⟨0, 900000, 15 * MS, 5, 2 * MS, .initial⟩ : Cluster) ∈ probes (Bwe.new 300000) twoProbes ∧
    ((run (Bwe.new 300000) (twoProbes ++ .completed (1020 * MS) 0 :: [.poll])).estimator.update answers).2 ≠ [] ∧
    ((run (Bwe.new 300000) (twoProbes ++ .completed (1020 * MS) 0 :: [.poll] ++ .timeout (2020 * MS) true calm :: [.poll])).estimator.update
      answers).2 = [] := by
  refine ⟨?_, by decide +kernel, by decide +kernel, by decide +kernel⟩
  intro e he i
  simp only [twoProbes, List.mem_append, List.mem_cons, List.not_mem_nil, or_false] at he
  rcases he with ((rfl | rfl | rfl) | rfl | rfl) | rfl | rfl <;> simp

end Str0m.BwEst
