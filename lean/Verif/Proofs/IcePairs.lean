import Verif.Props.IceNom
/-
  Lifting an invariant of single pairs to every operation of the agent.
-/
namespace Str0m.Ice

/-- `P` is preserved by everything the agent does to a pair; `att` restricts the attempts made
(time, role, transaction). -/
structure Closed (P : Pair → Prop) (t : Timing) (att : Nat → Option (Bool × Nat) → Prop) : Prop where
  new : ∀ id l r prio, P { id := id, localIdx := l, remoteIdx := r, prio := prio }
  copied : ∀ id l r prio nom req,
    P { id := id, localIdx := l, remoteIdx := r, prio := prio, nom := nom, remoteReqTime := req }
  prio : ∀ p x, P p → P { p with prio := x }
  nominate : ∀ p b, P p → p.nom = .none → P (p.nominate b)
  requested : ∀ p x, P p → P { p with remoteReqTime := some x }
  response : ∀ p now n v, P p → (p.bindingAttempt n).isSome → P (p.recordResponse now n v)
  cache : ∀ p now, att now Option.none → P p → P (p.nextBindingAttempt now t).1
  attempt : ∀ p now ctl n, att now (some (ctl, n)) → P p → (p.nextBindingAttempt now t).2 ≤ now →
    P ((p.nextBindingAttempt now t).1.newAttempt now t ctl n)

/-- Every pair satisfies `P`. -/
def All (P : Pair → Prop) (ps : List Pair) : Prop := ∀ p ∈ ps, P p

variable {P : Pair → Prop} {t : Timing} {att : Nat → Option (Bool × Nat) → Prop}

theorem All.subset {ps qs : List Pair} (h : All P ps) (hs : qs ⊆ ps) : All P qs := fun p hp => h p (hs hp)

theorem All.set {ps : List Pair} {i : Nat} {p : Pair} (h : All P ps) (hp : P p) : All P (ps.set i p) := by
  intro q hq
  rcases List.mem_or_eq_of_mem_set hq with hq | rfl
  · exact h q hq
  · exact hp

theorem All.updFirst {q : Pair → Bool} {f : Pair → Pair} {ps : List Pair} (h : All P ps)
    (hf : ∀ p, q p = true → P p → P (f p)) : All P (updFirst q f ps) := by
  induction ps with
  | nil => exact h
  | cons x xs ih =>
    simp only [Ice.updFirst]
    split
    · rename_i hx
      intro p hp
      rcases List.mem_cons.1 hp with rfl | hp
      · exact hf x hx (h x (by simp))
      · exact h p (by simp [hp])
    · intro p hp
      rcases List.mem_cons.1 hp with rfl | hp
      · exact h p (by simp)
      · exact ih (h.subset (by simp)) p hp

theorem copied_replacement (hc : Closed P t att) (b : Bool) (id l r prio : Nat) (check : Pair) :
    P (replacement b { id := id, localIdx := l, remoteIdx := r, prio := prio } check) := by
  unfold replacement Pair.copyRemoteReq Pair.copyNominated
  cases b <;> cases check.nom <;>
    simp only [if_true, if_false, Bool.false_eq_true] <;> apply hc.copied

theorem formOne_all (hc : Closed P t att) {a : Agent} (ij : Nat × Nat) (h : All P a.pairs) :
    All P (formOne a ij).pairs := by
  unfold formOne
  split
  · split
    · exact h
    · split
      · intro p hp
        rcases insertPair_mem' hp with hp | rfl | ⟨check, _, _, rfl⟩
        · exact h p hp
        · exact hc.new _ _ _ _
        · exact copied_replacement hc _ _ _ _ _ _
      · exact h
  · exact h

theorem formPairs_all (hc : Closed P t att) {a : Agent} (is js : List Nat) (h : All P a.pairs) :
    All P (formPairs a is js).pairs := by
  have key : ∀ (l : List (Nat × Nat)) (b : Agent), All P b.pairs → All P (l.foldl formOne b).pairs := by
    intro l
    induction l with
    | nil => intro b h; exact h
    | cons ij l ih => intro b h; exact ih _ (formOne_all hc ij h)
  refine (key (is.flatMap (fun i => js.map (fun j => (i, j)))) a h).subset ?_
  intro p hp
  exact (sortPairs_perm _).subset (List.mem_of_mem_take hp)

theorem addLocal_all (hc : Closed P t att) (pref : Cand → Nat → Option Nat) {a : Agent} (c : Cand)
    (h : All P a.pairs) : All P (addLocal pref a c).pairs := by
  unfold addLocal
  split
  · exact h
  · split
    · exact h
    · dsimp only
      split
      · exact formPairs_all hc (a := { a with locals := _ }) _ _ h
      · split
        · exact h
        · split
          · exact formPairs_all hc (a := { a with locals := _ }) _ _ h
          · split
            · split
              · exact h
              · refine formPairs_all hc (a := { discardByLocal { a with locals := _ } _ with locals := _ }) _ _ ?_
                exact h.subset List.filter_sublist.subset
            · exact h

theorem addRemote_all (hc : Closed P t att) {a : Agent} (c : Cand)
    (h : All P a.pairs) : All P (addRemote a c).pairs := by
  have h1 : ∀ ex c, All P (addRemoteAccepted.addIt a c ex).pairs := by
    intro ex c
    unfold addRemoteAccepted.addIt
    split
    · exact formPairs_all hc (a := { a with remotes := _ }) _ _ h
    · split
      · exact formPairs_all hc (a := { a with remotes := _ }) _ _ h
      · exact formPairs_all hc (a := { a with remotes := _ }) _ _ h
  have h2 : All P (addRemoteAccepted a c).pairs := by
    unfold addRemoteAccepted
    dsimp only
    split
    · split
      · exact h
      · exact h1 _ _
    · exact h1 _ _
  unfold addRemote
  split
  · exact h
  · split
    · split
      · exact h
      · exact h2
    · exact h2

theorem switchRole_all (hc : Closed P t att) {a : Agent} {b : Bool} (h : All P a.pairs) :
    All P (switchRole a b).pairs := by
  intro q hq
  obtain ⟨p, hp, x, rfl⟩ := switchRole_same a b q hq
  exact hc.prio p x (h p hp)

theorem choosePair_all (hc : Closed P t att) {a : Agent} {i : Nat} {b : Pair} (h : All P a.pairs) (hb : P b) :
    All P (choosePair a i b).pairs := by
  unfold choosePair
  dsimp only
  split
  · apply h.set
    split
    · rename_i hn
      simp only [Bool.and_eq_true, Bool.not_eq_true', Pair.isNominated, bne_eq_false_iff_eq] at hn
      exact hc.nominate b _ hb hn.1
    · exact hb
  · exact h

theorem evalNomination_all (hc : Closed P t att) {a : Agent} (h : All P a.pairs) :
    All P (evalNomination a).pairs := by
  unfold evalNomination
  split
  · exact h
  · rename_i i b hb
    split
    · exact h
    · exact choosePair_all hc h (h b (List.mem_of_getElem? (lastMax_spec hb).1))

theorem answerRequest_all (hc : Closed P t att) {a : Agent} {req : Req} {li ri : Nat} (h : All P a.pairs) :
    All P (answerRequest a req li ri).pairs := by
  unfold answerRequest
  split
  · exact h
  · rename_i p hp
    have hP : P (requested a req p) := by
      unfold requested
      dsimp only
      have h0 := hc.requested p req.now (h p (List.mem_of_find?_eq_some hp))
      split
      · rename_i hn
        simp only [Bool.and_eq_true, Bool.not_eq_true', Pair.isNominated, bne_eq_false_iff_eq] at hn
        exact hc.nominate _ _ h0 hn.1.2
      · exact h0
    have h1 : All P (updFirst (isPair li ri) (fun _ => requested a req p) a.pairs) :=
      h.updFirst (fun _ _ _ => hP)
    show All P (afterRequest { a with pairs := _ } _).pairs
    unfold afterRequest
    split
    · exact evalNomination_all hc (a := { a with pairs := _ }) h1
    · exact h1

theorem ensurePair_all (hc : Closed P t att) {a : Agent} {req : Req} {li ri : Nat} (h : All P a.pairs) :
    All P (ensurePair a req li ri).pairs := by
  unfold ensurePair
  split
  · exact answerRequest_all hc h
  · split
    · split
      · exact h
      · split
        · apply answerRequest_all hc
          refine All.subset ?_ (sortPairs_perm _).subset
          intro p hp
          rcases List.mem_append.1 hp with hp | hp
          · exact h p hp
          · simp only [List.mem_singleton] at hp
            subst hp
            exact hc.new _ _ _ _
        · exact h
    · exact h

theorem handleRequest_all (hc : Closed P t att) {a : Agent} {req : Req} (h : All P a.pairs) :
    All P (handleRequest a req).pairs := by
  have hf : ∀ b li, All P b.pairs → All P (findRemote b req li).pairs := by
    intro b li hb
    unfold findRemote
    split
    · exact hb
    · split
      · exact ensurePair_all hc hb
      · split
        · exact hb
        · exact ensurePair_all hc (a := { b with remotes := _ }) hb
  unfold handleRequest
  split
  · exact h
  · split
    · exact h
    · split
      · exact h
      · split
        · split
          · exact h
          · exact hf _ _ (switchRole_all hc h)
        · exact hf _ _ h

theorem response_all (hc : Closed P t att) {a : Agent} {now n : Nat} {m : Addr} (h : All P a.pairs) :
    All P (response a now n m).pairs := by
  have hr : ∀ (b : Agent) v, All P b.pairs → All P (recordOn b now n v).pairs := by
    intro b v hb
    have h1 : All P (updFirst (fun p => (p.bindingAttempt n).isSome)
      (fun p => p.recordResponse now n v) b.pairs) := hb.updFirst (fun p hp hP => hc.response p now n v hP hp)
    unfold recordOn
    dsimp only
    rw [evalState_pairs]
    split
    · exact evalNomination_all hc (a := { b with pairs := _ }) h1
    · exact h1
  unfold response
  split
  · exact h
  · split
    · exact hr _ _ h
    · split
      · exact h
      · split
        · exact h
        · exact hr { a with locals := _ } _ h

theorem pruneFailed_all (hc : Closed P t att) {a : Agent} {now : Nat} (h : All P a.pairs) :
    All P (pruneFailed a now).pairs := by
  have h1 := evalNomination_all hc h
  unfold pruneFailed
  dsimp only
  split
  · exact h1.subset List.filter_sublist.subset
  · rw [evalState_pairs]
    exact evalNomination_all hc (a := { evalNomination a with pairs := _, crash := _ })
      (h1.subset List.filter_sublist.subset)

theorem firstMin_spec : ∀ (l : List Nat) (i x : Nat), firstMin l = some (i, x) → l[i]? = some x := by
  intro l
  induction l with
  | nil => intro i x h; cases h
  | cons y ys ih =>
    intro i x h
    simp only [firstMin] at h
    split at h
    · obtain ⟨rfl, rfl⟩ := Prod.mk.inj (Option.some.inj h); rfl
    · rename_i j z hj
      split at h
      · obtain ⟨rfl, rfl⟩ := Prod.mk.inj (Option.some.inj h); rfl
      · obtain ⟨rfl, rfl⟩ := Prod.mk.inj (Option.some.inj h)
        simpa using ih _ _ hj

theorem sendCheck_cases (a : Agent) (now i : Nat) :
    (sendCheck a now i).pairs = a.pairs ∨
    ((sendCheck a now i).nextTrans = a.nextTrans + 1 ∧ ∃ p, a.pairs[i]? = some p ∧
      (sendCheck a now i).pairs = a.pairs.set i (p.newAttempt now a.timing a.controlling a.nextTrans)) := by
  unfold sendCheck
  split
  · exact Or.inl rfl
  · rename_i p hp
    split
    · split
      · exact Or.inl rfl
      · exact Or.inr ⟨rfl, p, hp, rfl⟩
    · exact Or.inl rfl

theorem runChecks_all (hc : Closed P t att) {a : Agent} {now : Nat} (ht : a.timing = t)
    (hca : att now Option.none)
    (ha : (runChecks a now).nextTrans = a.nextTrans + 1 → att now (some (a.controlling, a.nextTrans)))
    (h : All P a.pairs) : All P (runChecks a now).pairs := by
  subst ht
  have h1 : All P (a.pairs.map (fun p => (p.nextBindingAttempt now a.timing).1)) := by
    intro q hq
    obtain ⟨p, hp, rfl⟩ := List.mem_map.1 hq
    exact hc.cache p now hca (h p hp)
  revert ha
  unfold runChecks
  dsimp only
  split
  · intro _; exact h1
  · rename_i idx d hm
    split
    · rename_i hd
      intro ha
      have hg := firstMin_spec _ _ _ hm
      rw [List.getElem?_map] at hg
      obtain ⟨p, hp, he⟩ := Option.map_eq_some_iff.1 hg
      rcases sendCheck_cases { a with pairs := a.pairs.map (fun p => (p.nextBindingAttempt now a.timing).1) } now idx with
        e | ⟨e1, q, hq, e2⟩
      · rw [e]; exact h1
      · rw [e2]
        simp only [List.getElem?_map, hp, Option.map_some, Option.some.injEq] at hq
        subst hq
        refine h1.set ?_
        refine hc.attempt p now _ _ (ha e1) (h p (List.mem_of_getElem? hp)) ?_
        rw [he]; exact hd
    · intro _; exact h1

theorem timeoutChecks_all (hc : Closed P t att) {a : Agent} {now : Nat} (ht : a.timing = t)
    (hca : att now Option.none)
    (ha : (timeoutChecks a now).nextTrans = a.nextTrans + 1 → att now (some (a.controlling, a.nextTrans))) (h : All P a.pairs) : All P (timeoutChecks a now).pairs := by
  revert ha
  unfold timeoutChecks
  split
  · intro _; exact h
  · split
    · intro _ q hq
      obtain ⟨p, hp, rfl⟩ := List.mem_map.1 hq
      split
      · exact hc.requested p now (h p hp)
      · exact h p hp
    · intro ha; exact runChecks_all hc ht hca ha h

/-- One operation preserves `P` on all pairs. -/
theorem step_all (hc : Closed P t att) {a : Agent} {op : Op} (ht : a.timing = t)
    (ha : ∀ now, op = .timeout now → (step a op).lastNow = some now →
      att now Option.none ∧
      ((step a op).nextTrans = a.nextTrans + 1 → att now (some (a.controlling, a.nextTrans))))
    (hpoll : ∀ now, op = .poll → a.lastNow = some now → att now Option.none)
    (h : All P a.pairs) :
    All P (step a op).pairs := by
  cases op with
  | addLocal pref c => exact addLocal_all hc pref c h
  | addRemote c => exact addRemote_all hc c h
  | invalidate c => exact h.subset (invalidate_subset a c)
  | restart k => intro p hp; simp [step, iceRestart] at hp
  | recreate =>
    simp only [step, recreatePairs, setState_pairs]
    exact formPairs_all hc (a := { a with pairs := [] }) _ _ (by intro p hp; cases hp)
  | setRemoteCreds u => exact h
  | setMaxPairs n => exact h
  | request r =>
    show All P (request a r).pairs
    unfold request
    split
    · exact handleRequest_all hc h
    · exact h
  | response now n m => exact response_all hc h
  | error n c =>
    show All P (errorResponse a n c).pairs
    unfold errorResponse
    split
    · exact h
    · split
      · exact h
      · split
        · exact h
        · exact switchRole_all hc h
  | timeout now =>
    have h1 : All P (evalState a now).pairs := by rw [evalState_pairs]; exact h
    have ha := ha now rfl
    revert ha
    show ((timeout a now).lastNow = some now → att now Option.none ∧ ((timeout a now).nextTrans = a.nextTrans + 1 →
      att now (some (a.controlling, a.nextTrans)))) → All P (timeout a now).pairs
    unfold timeout
    dsimp only
    split
    · split
      · intro _
        exact handleRequest_all hc (a := { evalState a now with queue := _ }) h1
      · intro ha
        have ha' := ha (by simp)
        exact timeoutChecks_all hc (by simpa using ht) ha'.1 (by simpa using ha'.2)
          (pruneFailed_all hc (a := { evalState a now with queue := [], lastNow := some now }) h1)
    · intro ha
      have ha' := ha (by simp)
      exact timeoutChecks_all hc (by simpa using ht) ha'.1 (by simpa using ha'.2)
        (pruneFailed_all hc (a := { evalState a now with lastNow := some now }) h1)
  | poll =>
    show All P (pollTimeout a).1.pairs
    unfold pollTimeout
    split
    · exact h
    · rename_i now hl
      split
      · exact h
      · split
        · exact h
        · subst ht
          intro q hq
          obtain ⟨p, hp, rfl⟩ := List.mem_map.1 hq
          exact hc.cache p now (hpoll now rfl hl) (h p hp)
  | pollTransmit => exact h

end Str0m.Ice
