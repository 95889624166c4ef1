import Verif.Props.IceTable
/-
  How nomination and check states of pairs evolve in one operation.
-/
namespace Str0m.Ice

/-- Progress of a nomination. -/
def Nom.rank : Nom → Nat
  | .none => 0 | .nominated => 1 | .attempt => 2 | .success => 3

/-- What may justify changes within one operation: `U l r`: the peer asked to use the pair of
candidates `l`, `r`; `C`: we are controlling; `L`: ICE-lite; `T`: the transaction answered. -/
structure Why where
  U : Nat → Nat → Prop
  C : Prop
  L : Prop
  T : Option Nat

/-- Pair `p'` is a justified successor of `p`. -/
structure Ev (w : Why) (p p' : Pair) : Prop where
  id : p'.id = p.id
  l : p'.localIdx = p.localIdx
  r : p'.remoteIdx = p.remoteIdx
  rank : p.nom.rank ≤ p'.nom.rank
  nominated : p'.nom ≠ .none → p.nom ≠ .none ∨ w.U p'.localIdx p'.remoteIdx ∨ (w.C ∧ p'.state = .succeeded)
  success : p'.nom = .success → p.nom = .success ∨ w.L ∨
    ∃ t, w.T = some t ∧ p.nom = .attempt ∧ ∃ at_ ∈ p.attempts, at_.trans = t ∧ at_.nominated = true
  keeps : p.state = .succeeded → p'.state = .succeeded
  succeeded : p'.state = .succeeded → p.state = .succeeded ∨
    ∃ t, w.T = some t ∧ ∃ at_ ∈ p.attempts, at_.trans = t

theorem Ev.refl (w : Why) (p : Pair) : Ev w p p :=
  ⟨rfl, rfl, rfl, Nat.le_refl _, fun h => Or.inl h, fun h => Or.inl h, fun h => h, fun h => Or.inl h⟩

/-- Without an answered transaction. -/
def Why.silent (w : Why) : Why := { w with T := Option.none }

theorem Ev.trans {w : Why} {p q r : Pair} (h : Ev w p q) (g : Ev w.silent q r) : Ev w p r := by
  refine ⟨g.id.trans h.id, g.l.trans h.l, g.r.trans h.r, Nat.le_trans h.rank g.rank, ?_, ?_,
    fun e => g.keeps (h.keeps e), ?_⟩
  · intro hn
    rcases g.nominated hn with h1 | h1 | ⟨h1, h2⟩
    · rcases h.nominated h1 with h3 | h3 | ⟨h3, h4⟩
      · exact Or.inl h3
      · right; left; rw [g.l, g.r]; exact h3
      · exact Or.inr (Or.inr ⟨h3, g.keeps h4⟩)
    · exact Or.inr (Or.inl h1)
    · exact Or.inr (Or.inr ⟨h1, h2⟩)
  · intro hn
    rcases g.success hn with h1 | h1 | ⟨t, h1, -⟩
    · exact h.success h1
    · exact Or.inr (Or.inl h1)
    · simp [Why.silent] at h1
  · intro hn
    rcases g.succeeded hn with h1 | ⟨t, h1, -⟩
    · exact h.succeeded h1
    · simp [Why.silent] at h1

/-- Weaken the justification. -/
theorem Ev.mono {w w' : Why} {p q : Pair} (h : Ev w p q) (hU : ∀ l r, w.U l r → w'.U l r)
    (hC : w.C → w'.C) (hL : w.L → w'.L) (hT : w.T = Option.none ∨ w.T = w'.T) : Ev w' p q := by
  refine ⟨h.id, h.l, h.r, h.rank, ?_, ?_, h.keeps, ?_⟩
  · intro hn
    rcases h.nominated hn with h1 | h1 | h1
    · exact Or.inl h1
    · exact Or.inr (Or.inl (hU _ _ h1))
    · exact Or.inr (Or.inr ⟨hC h1.1, h1.2⟩)
  · intro hn
    rcases h.success hn with h1 | h1 | ⟨t, h1, h2⟩
    · exact Or.inl h1
    · exact Or.inr (Or.inl (hL h1))
    · rcases hT with e | e
      · rw [e] at h1; cases h1
      · exact Or.inr (Or.inr ⟨t, e ▸ h1, h2⟩)
  · intro hn
    rcases h.succeeded hn with h1 | ⟨t, h1, h2⟩
    · exact Or.inl h1
    · rcases hT with e | e
      · rw [e] at h1; cases h1
      · exact Or.inr ⟨t, e ▸ h1, h2⟩

/-- Every pair of `ps'` is a successor of one of `ps`. -/
def Evs (w : Why) (ps ps' : List Pair) : Prop := ∀ p' ∈ ps', ∃ p ∈ ps, Ev w p p'

theorem Evs.refl (w : Why) (ps : List Pair) : Evs w ps ps := fun p hp => ⟨p, hp, Ev.refl w p⟩

theorem Evs.trans {w : Why} {ps qs rs : List Pair} (h : Evs w ps qs) (g : Evs w.silent qs rs) :
    Evs w ps rs := by
  intro r hr
  obtain ⟨q, hq, e⟩ := g r hr
  obtain ⟨p, hp, e'⟩ := h q hq
  exact ⟨p, hp, e'.trans e⟩

theorem Evs.subset {w : Why} {ps qs rs : List Pair} (h : Evs w ps qs) (g : rs ⊆ qs) : Evs w ps rs :=
  fun r hr => h r (g hr)

theorem Evs.mono {w w' : Why} {ps qs : List Pair} (h : Evs w ps qs) (hU : ∀ l r, w.U l r → w'.U l r)
    (hC : w.C → w'.C) (hL : w.L → w'.L) (hT : w.T = Option.none ∨ w.T = w'.T) : Evs w' ps qs :=
  fun q hq => let ⟨p, hp, e⟩ := h q hq; ⟨p, hp, e.mono hU hC hL hT⟩

theorem Evs.map {w : Why} {f : Pair → Pair} (hf : ∀ p, Ev w p (f p)) (ps : List Pair) :
    Evs w ps (ps.map f) := by
  intro p' hp'
  obtain ⟨p, hp, rfl⟩ := List.mem_map.1 hp'
  exact ⟨p, hp, hf p⟩

theorem Evs.set {w : Why} {ps : List Pair} {i : Nat} {p p' : Pair} (h : ps[i]? = some p) (e : Ev w p p') :
    Evs w ps (ps.set i p') := by
  intro q hq
  rcases List.mem_or_eq_of_mem_set hq with hq | rfl
  · exact ⟨q, hq, Ev.refl w q⟩
  · exact ⟨p, List.mem_of_getElem? h, e⟩

theorem Evs.updFirst {w : Why} {q : Pair → Bool} {f : Pair → Pair} (hf : ∀ p, q p = true → Ev w p (f p))
    (ps : List Pair) : Evs w ps (updFirst q f ps) := by
  induction ps with
  | nil => intro p hp; simp [Ice.updFirst] at hp
  | cons x xs ih =>
    intro p hp
    simp only [Ice.updFirst] at hp
    split at hp
    · rcases List.mem_cons.1 hp with rfl | hp
      · exact ⟨x, by simp, hf x (by assumption)⟩
      · exact ⟨p, by simp [hp], Ev.refl w p⟩
    · rcases List.mem_cons.1 hp with rfl | hp
      · exact ⟨p, by simp, Ev.refl w p⟩
      · obtain ⟨y, hy, e⟩ := ih p hp
        exact ⟨y, by simp [hy], e⟩

/-- Only fields that do not matter here changed. -/
theorem Ev.of_eq {w : Why} {p p' : Pair} (h1 : p'.id = p.id) (h2 : p'.localIdx = p.localIdx)
    (h3 : p'.remoteIdx = p.remoteIdx) (h4 : p'.nom = p.nom) (h5 : p'.state = p.state) : Ev w p p' := by
  refine ⟨h1, h2, h3, by rw [h4], ?_, ?_, ?_, ?_⟩
  · rw [h4]; exact fun h => Or.inl h
  · rw [h4]; exact fun h => Or.inl h
  · rw [h5]; exact fun h => h
  · rw [h5]; exact fun h => Or.inl h

/-! ### the functions -/

theorem choosePair_ev {a : Agent} {i : Nat} {b : Pair} {w : Why} (h : a.pairs[i]? = some b)
    (he : eligible a b = true) (hC : a.controlling = true → w.C) (hL : a.iceLite = true → w.L) :
    Evs w a.pairs (choosePair a i b).pairs := by
  unfold choosePair
  dsimp only
  split
  · refine Evs.set h ?_
    split
    · rename_i hb
      simp only [Bool.and_eq_true, Bool.not_eq_true', Bool.or_eq_true, Pair.isNominated, bne_eq_false_iff_eq] at hb
      obtain ⟨hn, hor⟩ := hb
      have hc : a.controlling = true := by
        by_contra hc
        simp only [eligible, hc, Pair.isNominated, hn] at he
        simp at he
      have hs : b.state = .succeeded := by simpa [eligible, hc] using he
      refine ⟨rfl, rfl, rfl, by simp [hn, Nom.rank], ?_, ?_, id, fun h => Or.inl h⟩
      · intro _; exact Or.inr (Or.inr ⟨hC hc, hs⟩)
      · intro hsu
        simp only [Pair.nominate] at hsu
        split at hsu
        · rename_i hl; exact Or.inr (Or.inl (hL hl))
        · cases hsu
    · exact Ev.refl _ _
  · exact Evs.refl _ _

theorem evalNomination_ev {a : Agent} {w : Why} (hC : a.controlling = true → w.C)
    (hL : a.iceLite = true → w.L) : Evs w a.pairs (evalNomination a).pairs := by
  unfold evalNomination
  split
  · exact Evs.refl _ _
  · rename_i i b h
    split
    · exact Evs.refl _ _
    · exact choosePair_ev (lastMax_spec h).1 (lastMax_spec h).2 hC hL

theorem switchRole_ev {a : Agent} {b : Bool} {w : Why} : Evs w a.pairs (switchRole a b).pairs := by
  unfold switchRole
  split
  · exact Evs.refl _ _
  · split
    · refine Evs.subset (Evs.map (f := fun p => (reprio a b p).getD p) ?_ a.pairs) (sortPairs_perm _).subset
      intro p
      cases h : reprio a b p with
      | none => exact Ev.refl _ _
      | some q =>
        unfold reprio at h
        split at h
        · split at h
          · obtain rfl := Option.some.inj h
            exact Ev.of_eq rfl rfl rfl rfl rfl
          · cases h
        · cases h
    · exact Evs.refl _ _

theorem requested_ev {a : Agent} {req : Req} {p : Pair} {w : Why}
    (hU : req.useCandidate = true → a.controlling = false → w.U p.localIdx p.remoteIdx)
    (hL : a.iceLite = true → w.L) : Ev w p (requested a req p) := by
  unfold requested
  dsimp only
  split
  · rename_i hb
    simp only [Bool.and_eq_true, Bool.not_eq_true', Pair.isNominated, bne_eq_false_iff_eq] at hb
    obtain ⟨⟨hc, hn⟩, hu⟩ := hb
    refine ⟨rfl, rfl, rfl, by simp [hn, Nom.rank], ?_, ?_, id, fun h => Or.inl h⟩
    · intro _; exact Or.inr (Or.inl (hU hu hc))
    · intro hsu
      simp only [Pair.nominate] at hsu
      split at hsu
      · rename_i hl; exact Or.inr (Or.inl (hL hl))
      · cases hsu
  · exact Ev.of_eq rfl rfl rfl rfl rfl

theorem updFirst_const_ev {w : Why} {q : Pair → Bool} {p f : Pair} {ps : List Pair}
    (h : ps.find? q = some p) (e : Ev w p f) : Evs w ps (Ice.updFirst q (fun _ => f) ps) := by
  induction ps with
  | nil => cases h
  | cons x xs ih =>
    intro r hr
    simp only [List.find?_cons] at h
    simp only [Ice.updFirst] at hr
    by_cases hx : q x = true
    · simp only [hx, if_true] at h hr
      obtain rfl := Option.some.inj h
      rcases List.mem_cons.1 hr with rfl | hr
      · exact ⟨x, by simp, e⟩
      · exact ⟨r, by simp [hr], Ev.refl w r⟩
    · simp only [hx, Bool.false_eq_true, if_false] at h hr
      rcases List.mem_cons.1 hr with rfl | hr
      · exact ⟨r, by simp, Ev.refl w r⟩
      · obtain ⟨y, hy, e'⟩ := ih h r hr
        exact ⟨y, by simp [hy], e'⟩

theorem answerRequest_ev {a : Agent} {req : Req} {li ri : Nat} {w : Why}
    (hU : req.useCandidate = true → a.controlling = false → w.U li ri)
    (hC : a.controlling = true → w.C) (hL : a.iceLite = true → w.L) :
    Evs w a.pairs (answerRequest a req li ri).pairs := by
  unfold answerRequest
  split
  · exact Evs.refl _ _
  · rename_i p hp
    have hk : isPair li ri p = true := List.find?_some hp
    simp only [isPair, Bool.and_eq_true, beq_iff_eq] at hk
    have h1 := updFirst_const_ev (w := w) hp
      (requested_ev (a := a) (req := req) (by rw [hk.1, hk.2]; exact hU) hL)
    refine h1.trans ?_
    unfold afterRequest
    dsimp only
    split
    · exact evalNomination_ev (a := { a with pairs := updFirst (isPair li ri) (fun _ => requested a req p) a.pairs })
        (w := w.silent) hC hL
    · exact Evs.refl _ _

/-- A pair of `ps'` is a successor of one of `ps`, or it is new: then no check succeeded on it,
and it is nominated only if the peer asked for it or it replaces (relation `R`) a nominated
one. -/
structure Fresh (w : Why) (R : Nat → Nat → Pair → Prop) (n : Nat) (ps : List Pair) (p' : Pair) : Prop where
  id : n ≤ p'.id
  state : p'.state ≠ .succeeded
  nominated : p'.nom ≠ .none → w.U p'.localIdx p'.remoteIdx ∨
    ∃ old ∈ ps, R p'.localIdx p'.remoteIdx old ∧ old.nom ≠ .none
  success : p'.nom = .success → w.L ∨ ∃ old ∈ ps, R p'.localIdx p'.remoteIdx old ∧ old.nom = .success

def Origs (w : Why) (R : Nat → Nat → Pair → Prop) (n : Nat) (ps ps' : List Pair) : Prop :=
  ∀ p' ∈ ps', (∃ p ∈ ps, Ev w p p') ∨ Fresh w R n ps p'

theorem Evs.origs {w : Why} {R : Nat → Nat → Pair → Prop} {n : Nat} {ps ps' : List Pair}
    (h : Evs w ps ps') : Origs w R n ps ps' := fun p hp => Or.inl (h p hp)

theorem Origs.subset {w : Why} {R : Nat → Nat → Pair → Prop} {n : Nat} {ps qs rs : List Pair}
    (h : Origs w R n ps qs) (hs : rs ⊆ qs) : Origs w R n ps rs := fun p hp => h p (hs hp)

theorem Origs.trans {w : Why} {R : Nat → Nat → Pair → Prop} {n : Nat} {ps qs rs : List Pair}
    (h : Origs w R n ps qs) (g : Evs w.silent qs rs) : Origs w R n ps rs := by
  intro r hr
  obtain ⟨q, hq, e⟩ := g r hr
  rcases h q hq with ⟨p, hp, e'⟩ | hf
  · exact Or.inl ⟨p, hp, e'.trans e⟩
  · right
    have hs : r.state ≠ .succeeded := by
      intro hs
      rcases e.succeeded hs with h1 | ⟨t, h1, -⟩
      · exact hf.state h1
      · cases h1
    refine ⟨by rw [e.id]; exact hf.id, hs, ?_, ?_⟩
    · intro hn
      rw [e.l, e.r]
      rcases e.nominated hn with h1 | h1 | h1
      · exact hf.nominated h1
      · left; rw [← e.l, ← e.r]; exact h1
      · exact absurd h1.2 hs
    · intro hn
      rw [e.l, e.r]
      rcases e.success hn with h1 | h1 | ⟨t, h1, -⟩
      · exact hf.success h1
      · exact Or.inl h1
      · cases h1

theorem Origs.pre {w : Why} {R : Nat → Nat → Pair → Prop} {n : Nat} {ps qs rs : List Pair}
    (h : qs ⊆ ps) (g : Origs w R n qs rs) : Origs w R n ps rs := by
  intro r hr
  rcases g r hr with ⟨p, hp, e⟩ | hf
  · exact Or.inl ⟨p, h hp, e⟩
  · right
    refine ⟨hf.id, hf.state, ?_, ?_⟩
    · intro hn
      rcases hf.nominated hn with h1 | ⟨o, h1, h2⟩
      · exact Or.inl h1
      · exact Or.inr ⟨o, h h1, h2⟩
    · intro hn
      rcases hf.success hn with h1 | ⟨o, h1, h2⟩
      · exact Or.inl h1
      · exact Or.inr ⟨o, h h1, h2⟩

theorem ensurePair_ev {a : Agent} {req : Req} {li ri : Nat} {w : Why} {R : Nat → Nat → Pair → Prop}
    (hU : req.useCandidate = true → a.controlling = false → w.U li ri)
    (hC : a.controlling = true → w.C) (hL : a.iceLite = true → w.L) :
    Origs w R a.nextId a.pairs (ensurePair a req li ri).pairs := by
  unfold ensurePair
  split
  · exact (answerRequest_ev hU hC hL).origs
  · split
    · split
      · exact (Evs.refl _ _).origs
      · split
        · refine Origs.trans (qs := sortPairs (a.pairs ++ [_])) ?_
            (answerRequest_ev (a := { a with nextId := _, pairs := sortPairs (a.pairs ++ [_]) }) (w := w.silent) hU hC hL)
          refine Origs.subset ?_ (sortPairs_perm _).subset
          intro p hp
          rcases List.mem_append.1 hp with hp | hp
          · exact Or.inl ⟨p, hp, Ev.refl _ _⟩
          · simp only [List.mem_singleton] at hp
            subst hp
            right
            exact ⟨Nat.le_refl _, by simp, by simp, by simp⟩
        · exact (Evs.refl _ _).origs
    · exact (Evs.refl _ _).origs

/-- The local candidate `l` has the destination address of the request and the remote candidate
`r` its source address. -/
def Route (ls rs : List Cand) (req : Req) (l r : Nat) : Prop :=
  ∃ cl cr, ls[l]? = some cl ∧ cl.addr = req.destination ∧ rs[r]? = some cr ∧ cr.addr = req.source

theorem ensurePair_remotes' (a : Agent) (req : Req) (li ri : Nat) :
    (ensurePair a req li ri).remotes = a.remotes := by simp

theorem ensurePair_controlling' (a : Agent) (req : Req) (li ri : Nat) :
    (ensurePair a req li ri).controlling = a.controlling := by simp

theorem findRemote_controlling' (a : Agent) (req : Req) (li : Nat) :
    (findRemote a req li).controlling = a.controlling := by simp

theorem findRemote_ev {a : Agent} {req : Req} {li : Nat} {w : Why} {R : Nat → Nat → Pair → Prop}
    {cl : Cand} (hl : a.locals[li]? = some cl) (hd : cl.addr = req.destination)
    (hU : ∀ l r, req.useCandidate = true → a.controlling = false →
      Route a.locals (findRemote a req li).remotes req l r → w.U l r)
    (hC : a.controlling = true → w.C) (hL : a.iceLite = true → w.L) :
    Origs w R a.nextId a.pairs (findRemote a req li).pairs := by
  revert hU
  unfold findRemote
  split
  · intro _; exact (Evs.refl _ _).origs
  · split
    · rename_i ri cr h
      intro hU
      refine ensurePair_ev (fun h1 h2 => hU li ri h1 h2 ?_) hC hL
      have hs := lastMax_spec h
      simp only [liveFrom, Bool.and_eq_true, beq_iff_eq] at hs
      exact ⟨cl, cr, hl, hd, by rw [ensurePair_remotes']; exact hs.1, hs.2.2⟩
    · split
      · intro _; exact (Evs.refl _ _).origs
      · intro hU
        refine ensurePair_ev (a := { a with remotes := a.remotes ++ [prflxOf req] })
          (fun h1 h2 => hU li a.remotes.length h1 h2 ?_) hC hL
        exact ⟨cl, prflxOf req, hl, hd, by rw [ensurePair_remotes']; simp, rfl⟩

/-- No replacement. -/
def noRepl : Nat → Nat → Pair → Prop := fun _ _ _ => False

theorem switchRole_same (a : Agent) (b : Bool) : ∀ q ∈ (switchRole a b).pairs, ∃ p ∈ a.pairs,
    ∃ prio, q = { p with prio := prio } := by
  intro q hq
  unfold switchRole at hq
  split at hq
  · exact ⟨q, hq, q.prio, rfl⟩
  · split at hq
    · have := (sortPairs_perm _).subset hq
      obtain ⟨p, hp, rfl⟩ := List.mem_map.1 this
      refine ⟨p, hp, ?_⟩
      cases h : reprio a b p with
      | none => exact ⟨p.prio, rfl⟩
      | some r =>
        unfold reprio at h
        split at h
        · split at h
          · obtain rfl := Option.some.inj h
            exact ⟨_, rfl⟩
          · cases h
        · cases h
    · exact ⟨q, hq, q.prio, rfl⟩

theorem Origs.switched {a : Agent} {b : Bool} {w : Why} {n : Nat} {ps : List Pair}
    (h : Origs w noRepl n (switchRole a b).pairs ps) : Origs w noRepl n a.pairs ps := by
  intro p hp
  rcases h p hp with ⟨q, hq, e⟩ | hf
  · left
    obtain ⟨o, ho, prio, rfl⟩ := switchRole_same a b q hq
    exact ⟨o, ho, e.id, e.l, e.r, e.rank, e.nominated, e.success, e.keeps, e.succeeded⟩
  · right
    refine ⟨hf.id, hf.state, ?_, ?_⟩
    · intro hn
      rcases hf.nominated hn with h1 | ⟨_, _, h2, _⟩
      · exact Or.inl h1
      · exact h2.elim
    · intro hn
      rcases hf.success hn with h1 | ⟨_, _, h2, _⟩
      · exact Or.inl h1
      · exact h2.elim

theorem handleRequest_ev {a : Agent} {req : Req} {w : Why}
    (hU : ∀ l r, req.useCandidate = true → (handleRequest a req).controlling = false →
      Route a.locals (handleRequest a req).remotes req l r → w.U l r)
    (hC : (handleRequest a req).controlling = true → w.C) (hL : a.iceLite = true → w.L) :
    Origs w noRepl a.nextId a.pairs (handleRequest a req).pairs := by
  revert hU hC
  unfold handleRequest
  split
  · intro _ _; exact (Evs.refl _ _).origs
  · split
    · intro _ _; exact (Evs.refl _ _).origs
    · split
      · intro _ _; exact (Evs.refl _ _).origs
      · rename_i li hli
        obtain ⟨cl, hcl, har⟩ : ∃ cl, a.locals[li]? = some cl ∧ arrivesOn req cl = true := by
          rw [List.findIdx?_eq_some_iff_getElem] at hli
          obtain ⟨h1, h2, -⟩ := hli
          exact ⟨_, List.getElem?_eq_getElem h1, h2⟩
        simp only [arrivesOn, Bool.and_eq_true, beq_iff_eq] at har
        split
        · split
          · intro _ _; exact (Evs.refl _ _).origs
          · intro hU hC
            rw [findRemote_controlling'] at hU hC
            have g := findRemote_ev (a := switchRole a (!a.controlling)) (req := req) (li := li) (w := w)
              (R := noRepl) (by simpa using hcl) har.1.2 (by simpa using hU) hC (by simpa using hL)
            have e : (switchRole a (!a.controlling)).nextId = a.nextId := by simp
            rw [e] at g
            exact g.switched
        · intro hU hC
          rw [findRemote_controlling'] at hU hC
          exact findRemote_ev hcl har.1.2 hU hC hL

/-! ### candidates -/

/-- The pair of candidates `l`, `r` uses the same base and the same remote address as `old`. -/
def SameRoute (ls rs : List Cand) (l r : Nat) (old : Pair) : Prop :=
  ∃ cl cr ol or_, ls[l]? = some cl ∧ rs[r]? = some cr ∧ ls[old.localIdx]? = some ol ∧
    rs[old.remoteIdx]? = some or_ ∧ cl.baseAddr = ol.baseAddr ∧ cr.addr = or_.addr

theorem replacement_nom (b : Bool) (pair check : Pair) (h : pair.nom = .none) :
    ((replacement b pair check).nom ≠ .none → check.nom ≠ .none) ∧
    ((replacement b pair check).nom = .success → check.nom = .success) := by
  unfold replacement Pair.copyRemoteReq Pair.copyNominated
  cases b <;> cases check.nom <;> simp [h]

theorem replacement_state (b : Bool) (pair check : Pair) :
    (replacement b pair check).state = pair.state ∧ (replacement b pair check).id = pair.id ∧
    (replacement b pair check).localIdx = pair.localIdx ∧
    (replacement b pair check).remoteIdx = pair.remoteIdx := by
  unfold replacement Pair.copyRemoteReq Pair.copyNominated
  cases b <;> cases check.nom <;> simp

/-- What may be in the list after inserting: an old pair, the new pair, or the new pair with
state copied from an old redundant one. -/
theorem insertPair_mem' {a : Agent} {l r : Cand} {pair p : Pair} {ps : List Pair}
    (h : p ∈ insertPair a l r pair ps) :
    p ∈ ps ∨ p = pair ∨ ∃ check ∈ ps, redundant a l r check = true ∧ p = replacement a.iceLite pair check := by
  induction ps with
  | nil => simp [insertPair] at h; exact Or.inr (Or.inl h)
  | cons c cs ih =>
    simp only [insertPair] at h
    split at h
    · rename_i hr
      rcases List.mem_cons.1 h with h | h
      · split at h
        · left; simp [h]
        · right; right; exact ⟨c, by simp, hr, h⟩
      · left; simp [h]
    · rcases List.mem_cons.1 h with h | h
      · left; simp [h]
      · rcases ih h with h | h | ⟨d, hd, h⟩
        · left; simp [h]
        · right; left; exact h
        · right; right; exact ⟨d, by simp [hd], h⟩

/-- No justification at all: only copying from replaced pairs. -/
def quiet : Why := ⟨fun _ _ => False, False, False, Option.none⟩

theorem formOne_ev {ps : List Pair} {n : Nat} {a : Agent} (ij : Nat × Nat)
    (hn : n ≤ a.nextId) (h : Origs quiet (SameRoute a.locals a.remotes) n ps a.pairs) :
    Origs quiet (SameRoute a.locals a.remotes) n ps (formOne a ij).pairs := by
  unfold formOne
  split
  · rename_i l r hl hr
    split
    · exact h
    · split
      · intro p hp
        rcases insertPair_mem' hp with hp | rfl | ⟨check, hc, hred, rfl⟩
        · exact h p hp
        · right; exact ⟨hn, by simp, by simp, by simp⟩
        · right
          obtain ⟨s1, s2, s3, s4⟩ := replacement_state a.iceLite
            { id := a.nextId, localIdx := ij.1, remoteIdx := ij.2, prio := calculatePrio a.controlling _ _ } check
          obtain ⟨t1, t2⟩ := replacement_nom a.iceLite
            { id := a.nextId, localIdx := ij.1, remoteIdx := ij.2, prio := calculatePrio a.controlling _ _ } check rfl
          have route : SameRoute a.locals a.remotes ij.1 ij.2 check := by
            simp only [redundant] at hred
            split at hred
            · rename_i cl cr h1 h2
              simp only [Bool.and_eq_true, beq_iff_eq] at hred
              exact ⟨l, r, cl, cr, hl, hr, h1, h2, hred.1.1.1, hred.1.1.2⟩
            · cases hred
          have move : ∀ x y o, SameRoute a.locals a.remotes check.localIdx check.remoteIdx o →
              x = ij.1 → y = ij.2 → SameRoute a.locals a.remotes x y o := by
            rintro x y o ⟨c1, c2, c3, c4, e1, e2, e3, e4, e5, e6⟩ rfl rfl
            obtain ⟨d1, d2, d3, d4, f1, f2, f3, f4, f5, f6⟩ := route
            rw [e1] at f3; rw [e2] at f4
            obtain rfl := Option.some.inj f3
            obtain rfl := Option.some.inj f4
            exact ⟨d1, d2, c3, c4, f1, f2, e3, e4, f5.trans e5, f6.trans e6⟩
          refine ⟨by rw [s2]; exact hn, by rw [s1]; simp, ?_, ?_⟩
          · intro hnom
            rw [s3, s4]
            right
            rcases h check hc with ⟨o, ho, e⟩ | hf
            · refine ⟨o, ho, ?_, ?_⟩
              · rw [SameRoute, ← e.l, ← e.r]; exact route
              · rcases e.nominated (t1 hnom) with h1 | h1 | h1
                · exact h1
                · exact h1.elim
                · exact h1.1.elim
            · rcases hf.nominated (t1 hnom) with h1 | ⟨o, ho, hR, h1⟩
              · exact h1.elim
              · exact ⟨o, ho, move _ _ o hR rfl rfl, h1⟩
          · intro hnom
            rw [s3, s4]
            right
            rcases h check hc with ⟨o, ho, e⟩ | hf
            · refine ⟨o, ho, ?_, ?_⟩
              · rw [SameRoute, ← e.l, ← e.r]; exact route
              · rcases e.success (t2 hnom) with h1 | h1 | ⟨t, h1, -⟩
                · exact h1
                · exact h1.elim
                · cases h1
            · rcases hf.success (t2 hnom) with h1 | ⟨o, ho, hR, h1⟩
              · exact h1.elim
              · exact ⟨o, ho, move _ _ o hR rfl rfl, h1⟩
      · exact h
  · exact h

theorem formOne_nextId_le (a : Agent) (ij : Nat × Nat) : a.nextId ≤ (formOne a ij).nextId := by
  unfold formOne
  split
  · split
    · omega
    · split
      · simp
      · simp
  · simp

theorem formPairs_ev (a : Agent) (is js : List Nat) :
    Origs quiet (SameRoute a.locals a.remotes) a.nextId a.pairs (formPairs a is js).pairs := by
  have key : ∀ (l : List (Nat × Nat)) (n : Nat) (ps : List Pair) (b : Agent), n ≤ b.nextId →
      Origs quiet (SameRoute b.locals b.remotes) n ps b.pairs →
      Origs quiet (SameRoute b.locals b.remotes) n ps (l.foldl formOne b).pairs := by
    intro l
    induction l with
    | nil => intro n ps b _ h; exact h
    | cons ij l ih =>
      intro n ps b hn h
      have := ih n ps (formOne b ij) (Nat.le_trans hn (formOne_nextId_le b ij))
        (by rw [formOne_locals, formOne_remotes]; exact formOne_ev ij hn h)
      rw [formOne_locals, formOne_remotes] at this
      exact this
  have := key (is.flatMap (fun i => js.map (fun j => (i, j)))) a.nextId a.pairs a (Nat.le_refl _)
    (Evs.refl _ _).origs
  refine this.subset ?_
  intro p hp
  exact (sortPairs_perm _).subset (List.mem_of_mem_take hp)

theorem pushLocal_ev (a : Agent) (c : Cand) :
    Origs quiet (SameRoute (pushLocal a c).locals (pushLocal a c).remotes) a.nextId a.pairs (pushLocal a c).pairs := by
  have := formPairs_ev { a with locals := a.locals ++ [c] } [a.locals.length]
    (idxsWhere (liveSame c.addr.v6) a.remotes)
  unfold pushLocal
  simp only [formPairs_locals, formPairs_remotes]
  exact this

theorem addLocal_ev (pref : Cand → Nat → Option Nat) (a : Agent) (c : Cand) :
    Origs quiet (SameRoute (addLocal pref a c).locals (addLocal pref a c).remotes) a.nextId a.pairs
      (addLocal pref a c).pairs := by
  unfold addLocal
  split
  · exact (Evs.refl _ _).origs
  · split
    · exact (Evs.refl _ _).origs
    · dsimp only
      split
      · exact pushLocal_ev _ _
      · split
        · exact (Evs.refl _ _).origs
        · rename_i o ho
          split
          · simp only [formPairs_locals, formPairs_remotes]
            exact formPairs_ev { a with locals := _ } _ _
          · split
            · split
              · exact (Evs.refl _ _).origs
              · exact Origs.pre (by simp only [discardByLocal]; exact List.filter_sublist.subset)
                  (pushLocal_ev (discardByLocal { a with locals := _ } _) _)
            · exact (Evs.refl _ _).origs

theorem addRemote_ev (a : Agent) (c : Cand) :
    Origs quiet (SameRoute (addRemote a c).locals (addRemote a c).remotes) a.nextId a.pairs
      (addRemote a c).pairs := by
  have h1 : ∀ ex c, Origs quiet (SameRoute (addRemoteAccepted.addIt a c ex).locals
      (addRemoteAccepted.addIt a c ex).remotes) a.nextId a.pairs (addRemoteAccepted.addIt a c ex).pairs := by
    intro ex c
    unfold addRemoteAccepted.addIt
    split
    · simp only [pairRemote, formPairs_locals, formPairs_remotes]
      exact formPairs_ev { a with remotes := _ } _ _
    · split <;>
      · simp only [pairRemote, formPairs_locals, formPairs_remotes]
        exact formPairs_ev { a with remotes := _ } _ _
  have h2 : Origs quiet (SameRoute (addRemoteAccepted a c).locals (addRemoteAccepted a c).remotes)
      a.nextId a.pairs (addRemoteAccepted a c).pairs := by
    unfold addRemoteAccepted
    dsimp only
    split
    · split
      · exact (Evs.refl _ _).origs
      · exact h1 _ _
    · exact h1 _ _
  unfold addRemote
  split
  · exact (Evs.refl _ _).origs
  · split
    · split
      · exact (Evs.refl _ _).origs
      · exact h2
    · exact h2

theorem invalidate_subset (a : Agent) (c : Cand) : (invalidate a c).pairs ⊆ a.pairs := by
  have h : (invalidateRemote a c).pairs ⊆ a.pairs := by
    unfold invalidateRemote
    split
    · simp
    · split
      · split
        · exact List.filter_sublist.subset
        · simp
      · simp
  unfold invalidate
  split
  · exact h
  · split
    · split
      · exact List.filter_sublist.subset
      · exact h
    · exact h

/-! ### checks -/

theorem newAttempt_ev {w : Why} (p : Pair) (now : Nat) (t : Timing) (b : Bool) (n : Nat) :
    Ev w p (p.newAttempt now t b n) := by
  have e : (p.newAttempt now t b n).nom = if p.nom = .nominated then .attempt else p.nom := rfl
  have e2 : (p.newAttempt now t b n).state = if p.state = .waiting then .inProgress else p.state := rfl
  refine ⟨rfl, rfl, rfl, ?_, ?_, ?_, ?_, ?_⟩
  · rw [e]; split
    · rename_i h; rw [h]; decide
    · exact Nat.le_refl _
  · rw [e]; split
    · rename_i h; intro _; left; rw [h]; decide
    · exact fun h => Or.inl h
  · rw [e]; split
    · intro h; cases h
    · exact fun h => Or.inl h
  · rw [e2]; intro h; rw [h]; rfl
  · rw [e2]; split
    · intro h; cases h
    · exact fun h => Or.inl h

theorem sendCheck_ev {w : Why} (a : Agent) (now i : Nat) : Evs w a.pairs (sendCheck a now i).pairs := by
  unfold sendCheck
  split
  · exact Evs.refl _ _
  · rename_i p hp
    split
    · split
      · exact Evs.refl _ _
      · exact Evs.set hp (newAttempt_ev _ _ _ _ _)
    · exact Evs.refl _ _

theorem runChecks_ev {w : Why} (a : Agent) (now : Nat) : Evs w a.pairs (runChecks a now).pairs := by
  have h1 : Evs w a.pairs (a.pairs.map (fun p => (p.nextBindingAttempt now a.timing).1)) := by
    apply Evs.map
    intro p
    unfold Pair.nextBindingAttempt
    split <;> exact Ev.of_eq rfl rfl rfl rfl rfl
  unfold runChecks
  dsimp only
  split
  · exact h1
  · split
    · exact h1.trans (sendCheck_ev { a with pairs := _ } _ _)
    · exact h1

theorem pollTimeout_ev {w : Why} (a : Agent) : Evs w a.pairs (pollTimeout a).1.pairs := by
  unfold pollTimeout
  split
  · exact Evs.refl _ _
  · split
    · exact Evs.refl _ _
    · split
      · exact Evs.refl _ _
      · apply Evs.map
        intro p
        unfold Pair.nextBindingAttempt
        split <;> exact Ev.of_eq rfl rfl rfl rfl rfl

theorem timeoutChecks_ev {w : Why} (a : Agent) (now : Nat) :
    Evs w a.pairs (timeoutChecks a now).pairs := by
  unfold timeoutChecks
  split
  · exact Evs.refl _ _
  · split
    · apply Evs.map
      intro p
      split <;> exact Ev.of_eq rfl rfl rfl rfl rfl
    · exact runChecks_ev a now

theorem pruneFailed_ev {w : Why} {a : Agent} {now : Nat} (hC : a.controlling = true → w.C)
    (hL : a.iceLite = true → w.L) : Evs w a.pairs (pruneFailed a now).pairs := by
  have h1 : Evs w a.pairs (evalNomination a).pairs := evalNomination_ev hC hL
  have h2 : Evs w a.pairs ((evalNomination a).pairs.filter (keepPair (evalNomination a) now)) :=
    h1.subset (List.filter_sublist.subset)
  unfold pruneFailed
  dsimp only
  split
  · exact h2
  · rw [evalState_pairs]
    refine h2.trans ?_
    exact evalNomination_ev (a := { evalNomination a with pairs := _, crash := _ })
      (w := w.silent) (by simpa [Why.silent] using hC) (by simpa [Why.silent] using hL)

theorem recordResponse_ev {w : Why} {p : Pair} {now t v : Nat} (hT : w.T = some t)
    (h : (p.bindingAttempt t).isSome) : Ev w p (p.recordResponse now t v) := by
  obtain ⟨at_, hat⟩ := Option.isSome_iff_exists.1 h
  have hm : at_ ∈ p.attempts := List.mem_of_find?_eq_some hat
  have ht : at_.trans = t := by simpa using List.find?_some hat
  have e : (p.recordResponse now t v).nom = if at_.nominated && p.nom == .attempt then .success else p.nom := by
    simp [Pair.recordResponse, hat]
  have e2 : (p.recordResponse now t v).state = if p.state = .inProgress then .succeeded else p.state := rfl
  refine ⟨rfl, rfl, rfl, ?_, ?_, ?_, ?_, ?_⟩
  · rw [e]; split
    · cases p.nom <;> decide
    · exact Nat.le_refl _
  · rw [e]; split
    · rename_i h; intro _; left
      simp only [Bool.and_eq_true, beq_iff_eq] at h
      rw [h.2]; decide
    · exact fun h => Or.inl h
  · rw [e]; split
    · rename_i h; intro _
      simp only [Bool.and_eq_true, beq_iff_eq] at h
      exact Or.inr (Or.inr ⟨t, hT, h.2, at_, hm, ht, h.1⟩)
    · exact fun h => Or.inl h
  · rw [e2]; intro h; rw [h]; rfl
  · rw [e2]; split
    · intro _; exact Or.inr ⟨t, hT, at_, hm, ht⟩
    · exact fun h => Or.inl h

theorem recordOn_ev {w : Why} {a : Agent} {now t v : Nat} (hT : w.T = some t)
    (hC : a.controlling = true → w.C) (hL : a.iceLite = true → w.L) :
    Evs w a.pairs (recordOn a now t v).pairs := by
  have h1 : Evs w a.pairs (Ice.updFirst (fun p => (p.bindingAttempt t).isSome)
      (fun p => p.recordResponse now t v) a.pairs) :=
    Evs.updFirst (fun p hp => recordResponse_ev hT hp) a.pairs
  unfold recordOn
  dsimp only
  rw [evalState_pairs]
  split
  · exact h1.trans (evalNomination_ev (a := { a with pairs := _ }) (w := w.silent) hC hL)
  · exact h1

theorem response_ev {w : Why} {a : Agent} {now t : Nat} {m : Addr} (hT : w.T = some t)
    (hC : a.controlling = true → w.C) (hL : a.iceLite = true → w.L) :
    Evs w a.pairs (response a now t m).pairs := by
  unfold response
  split
  · exact Evs.refl _ _
  · split
    · exact recordOn_ev hT hC hL
    · split
      · exact Evs.refl _ _
      · split
        · exact Evs.refl _ _
        · exact recordOn_ev (a := { a with locals := _ }) hT hC hL

theorem errorResponse_ev {w : Why} {a : Agent} {t c : Nat} :
    Evs w a.pairs (errorResponse a t c).pairs := by
  unfold errorResponse
  split
  · exact Evs.refl _ _
  · split
    · exact Evs.refl _ _
    · split
      · exact Evs.refl _ _
      · exact switchRole_ev

theorem mem_dropOld {t now : Nat} {l : List Req} {r : Req} (h : r ∈ dropOld t now l) : r ∈ l := by
  induction l with
  | nil => simp [dropOld] at h
  | cons x xs ih =>
    simp only [dropOld] at h
    split at h
    · simp [ih h]
    · exact h


end Str0m.Ice
