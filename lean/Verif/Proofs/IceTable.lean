import Verif.Proofs.IceFrame
/-
  Invariants of the candidate pair table.
-/
namespace Str0m.Ice

/-- The part of a pair that identifies and orders it. -/
structure Key where
  id : Nat
  l : Nat
  r : Nat
  prio : Nat
deriving DecidableEq

def Pair.key (p : Pair) : Key := ⟨p.id, p.localIdx, p.remoteIdx, p.prio⟩

/-- Pairs sorted by descending priority. -/
def Sorted (ps : List Pair) : Prop := ps.Pairwise (fun p q => q.prio ≤ p.prio)

/-- The candidate at index `i` exists and is not discarded. -/
def Live (cs : List Cand) (i : Nat) : Prop := ∃ c, cs[i]? = some c ∧ c.discarded = false

/-- Identity and index invariant of the table (independent of the order of the pairs). -/
structure Ok (ls rs : List Cand) (n : Nat) (ps : List Pair) : Prop where
  ids : (ps.map Pair.id).Nodup
  each : ∀ p ∈ ps, p.id < n ∧ Live ls p.localIdx ∧ Live rs p.remoteIdx

/-- At most one pair per (local, remote) combination. -/
def Uniq (ps : List Pair) : Prop := (ps.map (fun p => (p.localIdx, p.remoteIdx))).Nodup

theorem Ok.perm {ls rs n ps ps'} (h : Ok ls rs n ps) (hp : ps'.Perm ps) : Ok ls rs n ps' :=
  ⟨(hp.map _).nodup_iff.mpr h.ids, fun p hm => h.each p (hp.subset hm)⟩

theorem Ok.sublist {ls rs n ps ps'} (h : Ok ls rs n ps) (hs : ps'.Sublist ps) : Ok ls rs n ps' :=
  ⟨(hs.map _).nodup h.ids, fun p hm => h.each p (hs.subset hm)⟩

theorem Ok.keys {ls rs n ps ps'} (h : Ok ls rs n ps) (hk : ps'.map Pair.key = ps.map Pair.key) :
    Ok ls rs n ps' := by
  constructor
  · have e : ∀ l : List Pair, l.map Pair.id = (l.map Pair.key).map Key.id := by
      intro l; simp [Pair.key]
    rw [e, hk, ← e]; exact h.ids
  · intro p hp
    have : p.key ∈ ps.map Pair.key := by rw [← hk]; exact List.mem_map_of_mem hp
    obtain ⟨q, hq, e⟩ := List.mem_map.1 this
    have := h.each q hq
    simp only [Pair.key, Key.mk.injEq] at e
    obtain ⟨e1, e2, e3, -⟩ := e
    rw [← e1, ← e2, ← e3]; exact this

theorem Ok.mono {ls rs n n' ps} (h : Ok ls rs n ps) (hn : n ≤ n') : Ok ls rs n' ps :=
  ⟨h.ids, fun p hp => ⟨Nat.lt_of_lt_of_le (h.each p hp).1 hn, (h.each p hp).2⟩⟩

theorem Sorted.sublist {ps ps' : List Pair} (h : Sorted ps) (hs : ps'.Sublist ps) : Sorted ps' :=
  List.Pairwise.sublist hs h

theorem Sorted.keys {ps ps' : List Pair} (h : Sorted ps)
    (hk : ps'.map Pair.key = ps.map Pair.key) : Sorted ps' := by
  have e : ∀ l : List Pair, Sorted l ↔ (l.map Pair.key).Pairwise (fun p q => q.prio ≤ p.prio) := by
    intro l; simp [Sorted, List.pairwise_map, Pair.key]
  rw [e, hk, ← e]; exact h

theorem Uniq.perm {ps ps' : List Pair} (h : Uniq ps) (hp : ps'.Perm ps) : Uniq ps' :=
  (hp.map _).nodup_iff.mpr h

theorem Uniq.sublist {ps ps' : List Pair} (h : Uniq ps) (hs : ps'.Sublist ps) : Uniq ps' :=
  (hs.map _).nodup h

theorem Uniq.keys {ps ps' : List Pair} (h : Uniq ps)
    (hk : ps'.map Pair.key = ps.map Pair.key) : Uniq ps' := by
  have e : ∀ l : List Pair, l.map (fun p => (p.localIdx, p.remoteIdx))
      = (l.map Pair.key).map (fun k => (k.l, k.r)) := by
    intro l; simp [Pair.key]
  unfold Uniq; rw [e, hk, ← e]; exact h

theorem sortPairs_perm (ps : List Pair) : (sortPairs ps).Perm ps := List.perm_insertionSort _ _

theorem sortPairs_sorted (ps : List Pair) : Sorted (sortPairs ps) := by
  have : Std.Total (fun a b : Pair => b.prio ≤ a.prio) := ⟨fun a b => Nat.le_total _ _⟩
  have : IsTrans Pair (fun a b : Pair => b.prio ≤ a.prio) := ⟨fun a b c h1 h2 => Nat.le_trans h2 h1⟩
  exact List.pairwise_insertionSort _ ps

theorem replacement_key (b : Bool) (p c : Pair) : (replacement b p c).key = p.key := by
  unfold replacement Pair.copyNominated
  split <;> split <;> rfl

/-- The three outcomes of pruning a new pair against the list. -/
theorem insertPair_cases (a : Agent) (l r : Cand) (pair : Pair) (ps : List Pair) :
    insertPair a l r pair ps = ps ∨
    (∃ pre c post, ps = pre ++ c :: post ∧ redundant a l r c = true ∧ c.prio < pair.prio ∧
      insertPair a l r pair ps = pre ++ replacement a.iceLite pair c :: post) ∨
    (insertPair a l r pair ps = ps ++ [pair] ∧ ∀ c ∈ ps, redundant a l r c = false) := by
  induction ps with
  | nil => right; right; simp [insertPair]
  | cons c cs ih =>
    simp only [insertPair]
    by_cases hr : redundant a l r c = true
    · simp only [hr, if_true]
      by_cases hp : pair.prio ≤ c.prio
      · left; simp [hp]
      · right; left
        exact ⟨[], c, cs, rfl, hr, by omega, by simp [hp]⟩
    · simp only [hr]
      rcases ih with h | ⟨pre, c', post, h1, h2, h3, h4⟩ | ⟨h, h'⟩
      · left; simp [h]
      · right; left
        exact ⟨c :: pre, c', post, by simp [h1], h2, h3, by simp [h4]⟩
      · right; right
        refine ⟨by simp [h], ?_⟩
        intro d hd
        rcases List.mem_cons.1 hd with rfl | hd
        · simpa using hr
        · exact h' d hd

theorem insertPair_keys (a : Agent) (l r : Cand) (pair : Pair) (ps : List Pair) :
    ∃ qs, qs.Sublist ps ∧ ((insertPair a l r pair ps).map Pair.key = ps.map Pair.key ∨
      ((insertPair a l r pair ps).map Pair.key).Perm ((pair :: qs).map Pair.key)) := by
  rcases insertPair_cases a l r pair ps with h | ⟨pre, c, post, h1, h2, h3, h4⟩ | ⟨h, -⟩
  · exact ⟨ps, List.Sublist.refl _, Or.inl (by rw [h])⟩
  · refine ⟨pre ++ post, ?_, Or.inr ?_⟩
    · rw [h1]; exact List.Sublist.append (List.Sublist.refl _) (List.sublist_cons_self _ _)
    · rw [h4]
      simp only [List.map_append, List.map_cons, replacement_key]
      exact List.perm_middle
  · refine ⟨ps, List.Sublist.refl _, Or.inr ?_⟩
    rw [h]
    simp only [List.map_append, List.map_cons, List.map_nil]
    exact List.perm_append_comm

theorem insertPair_ok {a : Agent} {l r : Cand} {pair : Pair} {n : Nat} {ps : List Pair}
    (h : Ok a.locals a.remotes n ps) (hid : pair.id = n) (hl : Live a.locals pair.localIdx)
    (hr : Live a.remotes pair.remoteIdx) :
    Ok a.locals a.remotes (n + 1) (insertPair a l r pair ps) := by
  obtain ⟨qs, hs, hk | hk⟩ := insertPair_keys a l r pair ps
  · exact (h.keys hk).mono (by omega)
  · have hq := (h.sublist hs).mono (Nat.le_succ n)
    have h2 : Ok a.locals a.remotes (n + 1) (pair :: qs) := by
      constructor
      · simp only [List.map_cons, List.nodup_cons]
        refine ⟨?_, hq.ids⟩
        intro hm
        obtain ⟨q, hq', e⟩ := List.mem_map.1 hm
        have := (h.each q (hs.subset hq')).1
        omega
      · intro p hp
        rcases List.mem_cons.1 hp with rfl | hp
        · exact ⟨by omega, hl, hr⟩
        · exact hq.each p hp
    have e : ∀ l : List Pair, l.map Pair.id = (l.map Pair.key).map Key.id := by
      intro l; simp [Pair.key]
    constructor
    · rw [e]
      refine (hk.map Key.id).nodup_iff.mpr ?_
      rw [← e]; exact h2.ids
    · intro p hp
      have : p.key ∈ (pair :: qs).map Pair.key := hk.subset (List.mem_map_of_mem hp)
      obtain ⟨q, hq, e⟩ := List.mem_map.1 this
      have := h2.each q hq
      simp only [Pair.key, Key.mk.injEq] at e
      obtain ⟨e1, e2, e3, -⟩ := e
      rw [← e1, ← e2, ← e3]; exact this

theorem insertPair_uniq {a : Agent} {l r : Cand} {pair : Pair} {ps : List Pair} (h : Uniq ps)
    (hn : ∀ p ∈ ps, ¬ (p.localIdx = pair.localIdx ∧ p.remoteIdx = pair.remoteIdx)) :
    Uniq (insertPair a l r pair ps) := by
  obtain ⟨qs, hs, hk | hk⟩ := insertPair_keys a l r pair ps
  · exact h.keys hk
  · have e : ∀ l : List Pair, l.map (fun p => (p.localIdx, p.remoteIdx))
        = (l.map Pair.key).map (fun k => (k.l, k.r)) := by
      intro l; simp [Pair.key]
    unfold Uniq
    rw [e]
    refine (hk.map _).nodup_iff.mpr ?_
    rw [← e]
    simp only [List.map_cons, List.nodup_cons]
    refine ⟨?_, h.sublist hs⟩
    intro hm
    obtain ⟨q, hq, e⟩ := List.mem_map.1 hm
    simp only [Prod.mk.injEq] at e
    exact hn q (hs.subset hq) e

theorem insertPair_mem {a : Agent} {l r : Cand} {pair : Pair} {ps : List Pair} {p : Pair}
    (h : p ∈ insertPair a l r pair ps) : p ∈ ps ∨ p = pair ∨
      ∃ c ∈ ps, redundant a l r c = true ∧ p = replacement a.iceLite pair c := by
  rcases insertPair_cases a l r pair ps with h' | ⟨pre, c, post, h1, h2, h3, h4⟩ | ⟨h', -⟩
  · rw [h'] at h; exact Or.inl h
  · rw [h4] at h
    simp only [List.mem_append, List.mem_cons] at h
    rcases h with h | h | h
    · left; rw [h1]; simp [h]
    · right; right; exact ⟨c, by rw [h1]; simp, h2, h⟩
    · left; rw [h1]; simp [h]
  · rw [h'] at h
    simp only [List.mem_append, List.mem_singleton] at h
    rcases h with h | h
    · exact Or.inl h
    · exact Or.inr (Or.inl h)

/-- All priorities of the candidates can be computed. -/
structure PrioOk (a : Agent) : Prop where
  l : ∀ c ∈ a.locals, (c.doPrio false).isSome ∧ (c.doPrio true).isSome
  r : ∀ c ∈ a.remotes, (c.doPrio false).isSome

/-! ### form_pairs -/

theorem formOne_ok {a : Agent} {ij : Nat × Nat} (h : Ok a.locals a.remotes a.nextId a.pairs)
    (hl : Live a.locals ij.1) (hr : Live a.remotes ij.2) :
    Ok a.locals a.remotes (formOne a ij).nextId (formOne a ij).pairs := by
  unfold formOne
  split
  · split
    · exact h
    · split
      · exact insertPair_ok h rfl hl hr
      · exact h
  · exact h

theorem foldl_formOne_ok {l : List (Nat × Nat)} {a : Agent}
    (h : Ok a.locals a.remotes a.nextId a.pairs)
    (hl : ∀ ij ∈ l, Live a.locals ij.1 ∧ Live a.remotes ij.2) :
    Ok a.locals a.remotes (l.foldl formOne a).nextId (l.foldl formOne a).pairs := by
  induction l generalizing a with
  | nil => exact h
  | cons x xs ih =>
    have hx := hl x (by simp)
    have := ih (a := formOne a x) (by simpa using formOne_ok h hx.1 hx.2)
      (fun ij hm => by simpa using hl ij (by simp [hm]))
    simpa using this

theorem formPairs_ok {a : Agent} {is js : List Nat} (h : Ok a.locals a.remotes a.nextId a.pairs)
    (hi : ∀ i ∈ is, Live a.locals i) (hj : ∀ j ∈ js, Live a.remotes j) :
    Ok a.locals a.remotes (formPairs a is js).nextId (formPairs a is js).pairs := by
  have := foldl_formOne_ok (l := is.flatMap (fun i => js.map (fun j => (i, j)))) h (by
    intro ij hm
    simp only [List.mem_flatMap, List.mem_map] at hm
    obtain ⟨i, hi', j, hj', rfl⟩ := hm
    exact ⟨hi i hi', hj j hj'⟩)
  exact (this.perm (sortPairs_perm _)).sublist (List.take_sublist _ _)

theorem formPairs_sorted (a : Agent) (is js : List Nat) : Sorted (formPairs a is js).pairs :=
  (sortPairs_sorted _).sublist (List.take_sublist _ _)

theorem formPairs_max (a : Agent) (is js : List Nat) :
    (formPairs a is js).pairs.length ≤ a.max := by
  simp only [formPairs, List.length_take, Agent.max, formOne_foldl_maxPairs]
  omega

theorem formOne_crash {a : Agent} {ij : Nat × Nat} (hp : PrioOk a) (h : a.crash = false)
    (hl : Live a.locals ij.1) (hr : Live a.remotes ij.2) : (formOne a ij).crash = false := by
  obtain ⟨l, el, -⟩ := hl
  obtain ⟨r, er, -⟩ := hr
  obtain ⟨lp, hlp⟩ := Option.isSome_iff_exists.1 (hp.l l (List.mem_of_getElem? el)).1
  obtain ⟨rp, hrp⟩ := Option.isSome_iff_exists.1 (hp.r r (List.mem_of_getElem? er))
  unfold formOne
  simp only [el, er, hlp, hrp]
  split <;> exact h

theorem formPairs_crash {a : Agent} {is js : List Nat} (hp : PrioOk a) (h : a.crash = false)
    (hi : ∀ i ∈ is, Live a.locals i) (hj : ∀ j ∈ js, Live a.remotes j) :
    (formPairs a is js).crash = false := by
  have key : ∀ (l : List (Nat × Nat)) (a : Agent), PrioOk a → a.crash = false →
      (∀ ij ∈ l, Live a.locals ij.1 ∧ Live a.remotes ij.2) → (l.foldl formOne a).crash = false := by
    intro l
    induction l with
    | nil => intro a _ h _; exact h
    | cons x xs ih =>
      intro a hp h hl
      have hx := hl x (by simp)
      refine ih (formOne a x) ⟨by simpa using hp.l, by simpa using hp.r⟩
        (formOne_crash hp h hx.1 hx.2) (fun ij hm => by simpa using hl ij (by simp [hm]))
  refine key _ a hp h ?_
  intro ij hm
  simp only [List.mem_flatMap, List.mem_map] at hm
  obtain ⟨i, hi', j, hj', rfl⟩ := hm
  exact ⟨hi i hi', hj j hj'⟩

/-- Uniqueness survives forming pairs for combinations that are new. -/
theorem foldl_formOne_uniq (l : List (Nat × Nat)) (a : Agent) (h : Uniq a.pairs) (hl : l.Nodup)
    (hn : ∀ ij ∈ l, ∀ p ∈ a.pairs, ¬ (p.localIdx = ij.1 ∧ p.remoteIdx = ij.2)) :
    Uniq (l.foldl formOne a).pairs := by
  induction l generalizing a with
  | nil => exact h
  | cons x xs ih =>
    have hx := hn x (by simp)
    have hstep : Uniq (formOne a x).pairs ∧ ∀ p ∈ (formOne a x).pairs,
        p ∈ a.pairs ∨ (p.localIdx = x.1 ∧ p.remoteIdx = x.2) := by
      unfold formOne
      split
      · split
        · exact ⟨h, fun p hp => Or.inl hp⟩
        · split
          · refine ⟨insertPair_uniq h hx, ?_⟩
            intro p hp
            rcases insertPair_mem hp with h' | h' | ⟨c, -, -, h'⟩
            · exact Or.inl h'
            · right; subst h'; exact ⟨rfl, rfl⟩
            · right; subst h'
              have := replacement_key a.iceLite
              simp only [Pair.key, Key.mk.injEq] at this
              exact ⟨(this _ c).2.1, (this _ c).2.2.1⟩
          · exact ⟨h, fun p hp => Or.inl hp⟩
      · exact ⟨h, fun p hp => Or.inl hp⟩
    refine ih (formOne a x) hstep.1 (List.nodup_cons.1 hl).2 ?_
    intro ij hm p hp hc
    rcases hstep.2 p hp with h' | h'
    · exact hn ij (by simp [hm]) p h' hc
    · have : ij = x := Prod.ext (by omega) (by omega)
      subst this
      exact (List.nodup_cons.1 hl).1 hm

theorem formPairs_uniq {a : Agent} {is js : List Nat} (h : Uniq a.pairs) (hi : is.Nodup)
    (hj : js.Nodup) (hn : ∀ p ∈ a.pairs, ¬ (p.localIdx ∈ is ∧ p.remoteIdx ∈ js)) :
    Uniq (formPairs a is js).pairs := by
  have := foldl_formOne_uniq (is.flatMap (fun i => js.map (fun j => (i, j)))) a h (by
    rw [List.nodup_flatMap]
    refine ⟨fun i _ => hj.map (fun x y hxy => (Prod.mk.inj hxy).2), ?_⟩
    refine hi.imp ?_
    intro x y hxy
    simp only [Function.onFun, List.disjoint_left, List.mem_map]
    rintro _ ⟨j, -, rfl⟩ ⟨j', -, e⟩
    exact hxy (Prod.mk.inj e).1.symm) (by
    intro ij hm p hp hc
    simp only [List.mem_flatMap, List.mem_map] at hm
    obtain ⟨i, hi', j, hj', rfl⟩ := hm
    exact hn p hp ⟨hc.1 ▸ hi', hc.2 ▸ hj'⟩)
  exact (this.perm (sortPairs_perm _)).sublist (List.take_sublist _ _)

theorem idxsWhere_nodup {α : Type} (q : α → Bool) (l : List α) : (idxsWhere q l).Nodup :=
  List.nodup_range.filter _

theorem mem_idxsWhere {α : Type} {q : α → Bool} {l : List α} {i : Nat} (h : i ∈ idxsWhere q l) :
    ∃ c, l[i]? = some c ∧ q c = true := by
  simp only [idxsWhere, List.mem_filter] at h
  obtain ⟨-, h⟩ := h
  cases e : l[i]? with
  | none => simp [e] at h
  | some c => exact ⟨c, rfl, by simpa [e] using h⟩

theorem liveSame_live {cs : List Cand} {v6 : Bool} {i : Nat} (h : i ∈ idxsWhere (liveSame v6) cs) :
    Live cs i := by
  obtain ⟨c, e, h⟩ := mem_idxsWhere h
  simp [liveSame] at h
  exact ⟨c, e, h.1⟩

/-! ### updates that keep the keys -/

theorem updFirst_keys {q : Pair → Bool} {f : Pair → Pair} (hf : ∀ p, q p = true → (f p).key = p.key)
    (ps : List Pair) : (updFirst q f ps).map Pair.key = ps.map Pair.key := by
  induction ps with
  | nil => rfl
  | cons p ps ih =>
    simp only [updFirst]
    split
    · rename_i h; simp [hf p h]
    · simp [ih]

theorem set_keys {ps : List Pair} {i : Nat} {p p' : Pair} (h : ps[i]? = some p)
    (hk : p'.key = p.key) : (ps.set i p').map Pair.key = ps.map Pair.key := by
  rw [List.map_set, hk]
  apply List.ext_getElem?
  intro j
  rw [List.getElem?_set]
  split
  · rename_i e; subst e
    split
    · simp [h]
    · rename_i hlt
      rw [List.getElem?_eq_none (by simpa using hlt)]
  · rfl

theorem lastMax_go_spec {α : Type} (q : α → Bool) (key : α → Nat) (full : List α) :
    ∀ (l : List α) (i : Nat) (best : Option (Nat × α)),
      (∀ k, l[k]? = full[i + k]?) →
      (∀ j b, best = some (j, b) → full[j]? = some b ∧ q b = true) →
      ∀ j b, lastMax.go q key i best l = some (j, b) → full[j]? = some b ∧ q b = true := by
  intro l
  induction l with
  | nil => intro i best _ hb j b h; exact hb j b h
  | cons x xs ih =>
    intro i best hl hb j b h
    have hx : full[i]? = some x := by simpa using (hl 0).symm
    have hl' : ∀ k, xs[k]? = full[i + 1 + k]? := by
      intro k
      have := hl (k + 1)
      simp only [List.getElem?_cons_succ] at this
      rw [this]; congr 1; omega
    have hnew : q x = true → ∀ j b, some (i, x) = some (j, b) → full[j]? = some b ∧ q b = true := by
      intro hq j b e
      simp only [Option.some.injEq, Prod.mk.injEq] at e
      obtain ⟨rfl, rfl⟩ := e
      exact ⟨hx, hq⟩
    simp only [lastMax.go] at h
    split at h
    · rename_i hq
      split at h
      · exact ih _ _ hl' (hnew hq) j b h
      · split at h
        · exact ih _ _ hl' (hnew hq) j b h
        · exact ih _ _ hl' hb j b h
    · exact ih _ _ hl' hb j b h

theorem lastMax_spec {α : Type} {q : α → Bool} {key : α → Nat} {l : List α} {j : Nat} {b : α}
    (h : lastMax q key l = some (j, b)) : l[j]? = some b ∧ q b = true :=
  lastMax_go_spec q key l l 0 Option.none (by simp) (by simp) j b h

theorem nominate_key (p : Pair) (b : Bool) : (p.nominate b).key = p.key := rfl

theorem choosePair_keys {a : Agent} {i : Nat} {b : Pair} (h : a.pairs[i]? = some b) :
    (choosePair a i b).pairs.map Pair.key = a.pairs.map Pair.key := by
  unfold choosePair
  dsimp only
  split
  · apply set_keys h
    split <;> rfl
  · rfl

theorem evalNomination_keys (a : Agent) :
    (evalNomination a).pairs.map Pair.key = a.pairs.map Pair.key := by
  unfold evalNomination
  split
  · rfl
  · rename_i i b h
    split
    · rfl
    · exact choosePair_keys (lastMax_spec h).1

@[simp] theorem setState_pairs (a : Agent) (s : ConnState) : (setState a s).pairs = a.pairs := by
  unfold setState; split <;> rfl

@[simp] theorem setState_crash (a : Agent) (s : ConnState) : (setState a s).crash = a.crash := by
  unfold setState; split <;> rfl

@[simp] theorem evalState_pairs (a : Agent) (now : Nat) : (evalState a now).pairs = a.pairs := by
  unfold evalState; dsimp only; split <;> simp

theorem newAttempt_key (p : Pair) (now : Nat) (t : Timing) (b : Bool) (n : Nat) :
    (p.newAttempt now t b n).key = p.key := rfl

theorem recordResponse_key (p : Pair) (now t v : Nat) : (p.recordResponse now t v).key = p.key := rfl

theorem nextBindingAttempt_key (p : Pair) (now : Nat) (t : Timing) :
    (p.nextBindingAttempt now t).1.key = p.key := by
  unfold Pair.nextBindingAttempt; split <;> rfl

theorem sendCheck_keys (a : Agent) (now i : Nat) :
    (sendCheck a now i).pairs.map Pair.key = a.pairs.map Pair.key := by
  unfold sendCheck
  split
  · rfl
  · rename_i p h
    split
    · split
      · rfl
      · exact set_keys h (newAttempt_key _ _ _ _ _)
    · rfl

theorem map_keys {f : Pair → Pair} (hf : ∀ p, (f p).key = p.key) (ps : List Pair) :
    (ps.map f).map Pair.key = ps.map Pair.key := by
  simp [hf]

theorem runChecks_keys (a : Agent) (now : Nat) :
    (runChecks a now).pairs.map Pair.key = a.pairs.map Pair.key := by
  unfold runChecks
  dsimp only
  split
  · exact map_keys (fun p => nextBindingAttempt_key p _ _) _
  · split
    · rw [sendCheck_keys]; exact map_keys (fun p => nextBindingAttempt_key p _ _) _
    · exact map_keys (fun p => nextBindingAttempt_key p _ _) _

theorem pollTimeout_keys (a : Agent) :
    (pollTimeout a).1.pairs.map Pair.key = a.pairs.map Pair.key := by
  unfold pollTimeout
  split
  · rfl
  · split
    · rfl
    · split
      · rfl
      · exact map_keys (fun p => nextBindingAttempt_key p _ _) _

theorem timeoutChecks_keys (a : Agent) (now : Nat) :
    (timeoutChecks a now).pairs.map Pair.key = a.pairs.map Pair.key := by
  unfold timeoutChecks
  dsimp only
  split
  · rfl
  · split
    · exact map_keys (fun p => by split <;> rfl) _
    · exact runChecks_keys a now

theorem recordOn_keys (a : Agent) (now t v : Nat) :
    (recordOn a now t v).pairs.map Pair.key = a.pairs.map Pair.key := by
  unfold recordOn
  dsimp only
  rw [evalState_pairs]
  split
  · rw [evalNomination_keys]
    exact updFirst_keys (fun p _ => recordResponse_key p _ _ _) _
  · exact updFirst_keys (fun p _ => recordResponse_key p _ _ _) _

theorem updFirst_const_keys {q : Pair → Bool} {p f : Pair} {ps : List Pair}
    (h : ps.find? q = some p) (hk : f.key = p.key) :
    (updFirst q (fun _ => f) ps).map Pair.key = ps.map Pair.key := by
  induction ps with
  | nil => rfl
  | cons x xs ih =>
    simp only [updFirst]
    by_cases hx : q x = true
    · rw [List.find?_cons_of_pos hx] at h
      obtain rfl := Option.some.inj h
      simp [hx, hk]
    · rw [List.find?_cons_of_neg hx] at h
      simp only [hx]
      simp [ih h]

theorem requested_key (a : Agent) (req : Req) (p : Pair) : (requested a req p).key = p.key := by
  unfold requested; dsimp only; split <;> rfl

theorem afterRequest_keys (a : Agent) (p : Pair) :
    (afterRequest a p).pairs.map Pair.key = a.pairs.map Pair.key := by
  unfold afterRequest
  split
  · exact evalNomination_keys a
  · rfl

theorem answerRequest_keys (a : Agent) (req : Req) (li ri : Nat) :
    (answerRequest a req li ri).pairs.map Pair.key = a.pairs.map Pair.key := by
  unfold answerRequest
  split
  · rfl
  · rename_i p h
    show (afterRequest _ _).pairs.map Pair.key = _
    rw [afterRequest_keys]
    exact updFirst_const_keys h (requested_key _ _ _)

theorem reprio_spec {a : Agent} {b : Bool} {p q : Pair} (h : reprio a b p = some q) :
    q.id = p.id ∧ q.localIdx = p.localIdx ∧ q.remoteIdx = p.remoteIdx := by
  unfold reprio at h
  split at h
  · split at h
    · obtain rfl := Option.some.inj h; exact ⟨rfl, rfl, rfl⟩
    · cases h
  · cases h

theorem reprio_getD (a : Agent) (b : Bool) (p : Pair) :
    ((reprio a b p).getD p).id = p.id ∧ ((reprio a b p).getD p).localIdx = p.localIdx ∧
      ((reprio a b p).getD p).remoteIdx = p.remoteIdx := by
  cases h : reprio a b p with
  | none => exact ⟨rfl, rfl, rfl⟩
  | some q => exact reprio_spec h

theorem switchRole_ok {a : Agent} {b : Bool} {n : Nat} (h : Ok a.locals a.remotes n a.pairs) :
    Ok a.locals a.remotes n (switchRole a b).pairs := by
  unfold switchRole
  split
  · exact h
  · split
    · refine Ok.perm ?_ (sortPairs_perm _)
      constructor
      · have : (a.pairs.map (fun p => (reprio a b p).getD p)).map Pair.id = a.pairs.map Pair.id := by
          simp only [List.map_map]
          apply List.map_congr_left
          intro p _
          exact (reprio_getD a b p).1
        rw [this]; exact h.ids
      · intro p hp
        obtain ⟨q, hq, rfl⟩ := List.mem_map.1 hp
        have := reprio_getD a b q
        rw [this.1, this.2.1, this.2.2]
        exact h.each q hq
    · exact h

theorem switchRole_uniq {a : Agent} {b : Bool} (h : Uniq a.pairs) : Uniq (switchRole a b).pairs := by
  unfold switchRole
  split
  · exact h
  · split
    · refine Uniq.perm ?_ (sortPairs_perm _)
      unfold Uniq
      have : (a.pairs.map (fun p => (reprio a b p).getD p)).map (fun p => (p.localIdx, p.remoteIdx))
          = a.pairs.map (fun p => (p.localIdx, p.remoteIdx)) := by
        simp only [List.map_map]
        apply List.map_congr_left
        intro p _
        have := reprio_getD a b p
        simp [this.2.1, this.2.2]
      rw [this]; exact h
    · exact h

theorem switchRole_sorted {a : Agent} {b : Bool} (h : Sorted a.pairs) :
    Sorted (switchRole a b).pairs := by
  unfold switchRole
  split
  · exact h
  · split
    · exact sortPairs_sorted _
    · exact h

theorem switchRole_length (a : Agent) (b : Bool) : (switchRole a b).pairs.length = a.pairs.length := by
  unfold switchRole
  split
  · rfl
  · split
    · simp [(sortPairs_perm _).length_eq]
    · rfl

theorem live_prio {cs : List Cand} {i : Nat} {b : Bool} (h : Live cs i)
    (hp : ∀ c ∈ cs, (c.doPrio b).isSome) : ∃ c p, cs[i]? = some c ∧ c.doPrio b = some p := by
  obtain ⟨c, e, -⟩ := h
  obtain ⟨p, hp⟩ := Option.isSome_iff_exists.1 (hp c (List.mem_of_getElem? e))
  exact ⟨c, p, e, hp⟩

theorem switchRole_crash {a : Agent} {b : Bool} {n : Nat} (hp : PrioOk a)
    (h : Ok a.locals a.remotes n a.pairs) (hc : a.crash = false) :
    (switchRole a b).crash = false := by
  unfold switchRole
  split
  · exact hc
  · rw [if_pos]
    · exact hc
    · simp only [List.all_eq_true]
      intro p hm
      obtain ⟨l, lp, e1, e2⟩ := live_prio (h.each p hm).2.1 (fun c hc => (hp.l c hc).1)
      obtain ⟨r, rp, e3, e4⟩ := live_prio (h.each p hm).2.2 hp.r
      simp [reprio, e1, e2, e3, e4]

end Str0m.Ice
