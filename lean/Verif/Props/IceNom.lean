import Verif.Proofs.IceNom
/-
  C33: nomination of candidate pairs.
-/
namespace Str0m.Ice

/-- The peer asked, in a request processed by this operation (just received, or queued earlier),
to use the pair of candidates `l`, `r`: the request carries USE-CANDIDATE, we are the
controlled side, and it travelled from the address of `r` to the address of `l`. -/
def PeerAsked (a : Agent) (op : Op) (l r : Nat) : Prop :=
  ∃ req : Req, (op = .request req ∨ ((∃ now, op = .timeout now) ∧ req ∈ a.queue)) ∧
    req.useCandidate = true ∧ (step a op).controlling = false ∧
    Route (step a op).locals (step a op).remotes req l r

def answered : Op → Option Nat
  | .response _ t _ => some t
  | _ => Option.none

def why (a : Agent) (op : Op) : Why :=
  ⟨PeerAsked a op, (step a op).controlling = true, a.iceLite = true, answered op⟩

theorem Origs.mono {w w' : Why} {R R' : Nat → Nat → Pair → Prop} {n : Nat} {ps qs : List Pair}
    (h : Origs w R n ps qs) (hU : ∀ l r, w.U l r → w'.U l r)
    (hC : w.C → w'.C) (hL : w.L → w'.L) (hT : w.T = Option.none ∨ w.T = w'.T)
    (hR : ∀ l r o, R l r o → R' l r o) : Origs w' R' n ps qs := by
  intro p hp
  rcases h p hp with ⟨q, hq, e⟩ | hf
  · exact Or.inl ⟨q, hq, e.mono hU hC hL hT⟩
  · right
    refine ⟨hf.id, hf.state, ?_, ?_⟩
    · intro hn
      rcases hf.nominated hn with h1 | ⟨o, h1, h2, h3⟩
      · exact Or.inl (hU _ _ h1)
      · exact Or.inr ⟨o, h1, hR _ _ _ h2, h3⟩
    · intro hn
      rcases hf.success hn with h1 | ⟨o, h1, h2, h3⟩
      · exact Or.inl (hL h1)
      · exact Or.inr ⟨o, h1, hR _ _ _ h2, h3⟩

theorem Origs.loud {w' : Why} {R : Nat → Nat → Pair → Prop} {n : Nat} {ps qs : List Pair}
    (h : Origs quiet R n ps qs) : Origs w' R n ps qs :=
  h.mono (fun _ _ h => h.elim) (fun h => h.elim) (fun h => h.elim) (Or.inl rfl) (fun _ _ _ h => h)

theorem step_origs (a : Agent) (op : Op) :
    Origs (why a op) (SameRoute (step a op).locals (step a op).remotes) a.nextId a.pairs
      (step a op).pairs := by
  cases op with
  | addLocal pref c => exact (addLocal_ev pref a c).loud
  | addRemote c => exact (addRemote_ev a c).loud
  | invalidate c => exact Origs.subset (Evs.refl _ _).origs (invalidate_subset a c)
  | restart k => intro p hp; simp [step, iceRestart] at hp
  | recreate =>
    refine Origs.pre (qs := []) (by simp) ?_
    refine Origs.mono (formPairs_ev { a with pairs := [] } (idxsWhere (fun c => !c.discarded) a.locals)
      (idxsWhere (fun c => !c.discarded) a.remotes)) (fun _ _ h => h.elim) (fun h => h.elim) (fun h => h.elim)
      (Or.inl rfl) ?_ |>.subset ?_
    · intro l r o h
      simpa [step, recreatePairs] using h
    · simp [step, recreatePairs]
  | setRemoteCreds u => exact (Evs.refl _ _).origs
  | setMaxPairs n => exact (Evs.refl _ _).origs
  | request req =>
    have key : ∀ b : Agent, b = step a (.request req) → Origs (why a (.request req)) noRepl a.nextId a.pairs b.pairs := by
      intro b hb
      have hb' : b = request a req := hb
      unfold request at hb'
      split at hb'
      · subst hb'
        refine handleRequest_ev ?_ ?_ (fun h => h)
        · intro l r hu hc hr
          refine ⟨req, Or.inl rfl, hu, ?_, ?_⟩
          · rw [← hb]; exact hc
          · rw [← hb, handleRequest_locals]; exact hr
        · intro hc
          show (step a (.request req)).controlling = true
          rw [← hb]; exact hc
      · subst hb'
        exact (Evs.refl _ _).origs
    exact (key _ rfl).mono (fun _ _ h => h) (fun h => h) (fun h => h) (Or.inr rfl) (fun _ _ _ h => h.elim)
  | response now t m =>
    refine (response_ev (w := why a (.response now t m)) rfl ?_ (fun h => h)).origs
    intro hc
    show (response a now t m).controlling = true
    have e : (response a now t m).controlling = a.controlling := by
      unfold response
      repeat' split
      all_goals simp
    rw [e]; exact hc
  | error t c => exact errorResponse_ev.origs
  | timeout now =>
    have key : ∀ b : Agent, b = step a (.timeout now) → Origs (why a (.timeout now)) noRepl a.nextId a.pairs b.pairs := by
      intro b hb
      have hb' : b = timeout a now := hb
      unfold timeout at hb'
      dsimp only at hb'
      split at hb'
      · split at hb'
        · rename_i r rs hq
          subst hb'
          have g := handleRequest_ev (a := { evalState a now with queue := rs }) (req := r)
            (w := why a (.timeout now)) ?_ ?_ ?_
          · simpa using g
          · intro l r' hu hc hr
            refine ⟨r, Or.inr ⟨⟨now, rfl⟩, ?_⟩, hu, ?_, ?_⟩
            · have : r ∈ dropOld (evalState a now).timing.timeout now (evalState a now).queue := by
                rw [hq]; simp
              simpa using mem_dropOld this
            · rw [← hb]; exact hc
            · rw [← hb, handleRequest_locals]; exact hr
          · intro hc
            show (step a (.timeout now)).controlling = true
            rw [← hb]; exact hc
          · intro hl; simpa [why] using hl
        · subst hb'
          apply Evs.origs
          have g1 := pruneFailed_ev (w := why a (.timeout now)) (a := { evalState a now with queue := [], lastNow := some now })
            (now := now) ?_ ?_
          · have g2 := g1.trans (timeoutChecks_ev (w := (why a (.timeout now)).silent) _ now)
            simpa using g2
          · intro hc
            show (step a (.timeout now)).controlling = true
            rw [← hb]; simpa using hc
          · intro hl; simpa [why] using hl
      · subst hb'
        apply Evs.origs
        have g1 := pruneFailed_ev (w := why a (.timeout now)) (a := { evalState a now with lastNow := some now })
          (now := now) ?_ ?_
        · have g2 := g1.trans (timeoutChecks_ev (w := (why a (.timeout now)).silent) _ now)
          simpa using g2
        · intro hc
          show (step a (.timeout now)).controlling = true
          rw [← hb]; simpa using hc
        · intro hl; simpa [why] using hl
    exact (key _ rfl).mono (fun _ _ h => h) (fun h => h) (fun h => h) (Or.inr rfl) (fun _ _ _ h => h.elim)
  | poll => exact (pollTimeout_ev a).origs
  | pollTransmit => exact (Evs.refl _ _).origs

theorem formPairs_nextId_le (a : Agent) (is js : List Nat) : a.nextId ≤ (formPairs a is js).nextId := by
  have key : ∀ (l : List (Nat × Nat)) (b : Agent), b.nextId ≤ (l.foldl formOne b).nextId := by
    intro l
    induction l with
    | nil => intro b; exact Nat.le_refl _
    | cons ij l ih => intro b; exact Nat.le_trans (formOne_nextId_le b ij) (ih _)
  exact key _ a

theorem formPairs_nextId_le' {a b : Agent} (h : b.nextId = a.nextId) (is js : List Nat) :
    a.nextId ≤ (formPairs b is js).nextId := h ▸ formPairs_nextId_le b is js

theorem handleRequest_nextId_le (a : Agent) (req : Req) : a.nextId ≤ (handleRequest a req).nextId := by
  have h1 : ∀ (b : Agent) li ri, b.nextId ≤ (ensurePair b req li ri).nextId := by
    intro b li ri
    unfold ensurePair
    repeat' split
    all_goals simp
  have h2 : ∀ (b : Agent) li, b.nextId ≤ (findRemote b req li).nextId := by
    intro b li
    unfold findRemote
    repeat' split
    · simp
    · exact h1 _ _ _
    · simp
    · exact h1 { b with remotes := b.remotes ++ [prflxOf req] } _ _
  unfold handleRequest
  repeat' split
  · simp
  · simp
  · simp
  · simp
  · rename_i li _ _ _ _ _
    have := h2 (switchRole a (!a.controlling)) li
    simpa using this
  · exact h2 _ _

theorem step_nextId_le (a : Agent) (op : Op) : a.nextId ≤ (step a op).nextId := by
  cases op with
  | addLocal pref c =>
    show _ ≤ (addLocal pref a c).nextId
    unfold addLocal
    repeat' split
    all_goals first
      | exact Nat.le_refl _
      | ((try unfold pushLocal); (try unfold pairRemote); refine Nat.le_trans (Nat.le_of_eq ?_) (formPairs_nextId_le _ _ _); rfl)
      | (dsimp only; repeat' split
         all_goals first
          | exact Nat.le_refl _
          | ((try unfold pushLocal); (try unfold pairRemote); refine Nat.le_trans (Nat.le_of_eq ?_) (formPairs_nextId_le _ _ _); rfl))
  | addRemote c =>
    have h1 : ∀ ex c, a.nextId ≤ (addRemoteAccepted.addIt a c ex).nextId := by
      intro ex c
      unfold addRemoteAccepted.addIt
      repeat' split
      all_goals ((try unfold pushLocal); (try unfold pairRemote); refine Nat.le_trans (Nat.le_of_eq ?_) (formPairs_nextId_le _ _ _); rfl)
    have h2 : a.nextId ≤ (addRemoteAccepted a c).nextId := by
      unfold addRemoteAccepted
      dsimp only
      repeat' split
      all_goals first | exact h1 _ _ | exact Nat.le_refl _
    show _ ≤ (addRemote a c).nextId
    unfold addRemote
    repeat' split
    all_goals first | exact h2 | exact Nat.le_refl _
  | invalidate c =>
    have h1 : (invalidateRemote a c).nextId = a.nextId := by
      unfold invalidateRemote
      repeat' split
      all_goals first | rfl | simp
    show _ ≤ (invalidate a c).nextId
    unfold invalidate
    repeat' split
    all_goals first | exact Nat.le_of_eq h1.symm | simp
  | restart k => simp [step, iceRestart]
  | recreate =>
    simp only [step, recreatePairs, setState_nextId]
    exact formPairs_nextId_le { a with pairs := [] } _ _
  | setRemoteCreds u => exact Nat.le_refl _
  | setMaxPairs n => exact Nat.le_refl _
  | request r =>
    show _ ≤ (request a r).nextId
    unfold request
    split
    · exact handleRequest_nextId_le _ _
    · exact Nat.le_refl _
  | response now t m =>
    show _ ≤ (response a now t m).nextId
    unfold response
    repeat' split
    all_goals simp
  | error t c =>
    show _ ≤ (errorResponse a t c).nextId
    unfold errorResponse
    repeat' split
    all_goals simp
  | timeout now =>
    show _ ≤ (timeout a now).nextId
    unfold timeout
    dsimp only
    repeat' split
    · rename_i r rs _
      have := handleRequest_nextId_le { evalState a now with queue := rs } r
      simpa using this
    · simp
    · simp
  | poll => simp [step]
  | pollTransmit => exact Nat.le_refl _

/-- Nomination never moves backwards on a pair: take any history, a pair in the state it leads
to, and any continuation of the history; if the pair (identified by its id) is still there, its
nomination has progressed or stayed (none, nominated, attempt, success). -/
theorem C33_never_backwards (a : Agent) (pre post : List Op) (h : Start a)
    (hpre : ∀ op ∈ pre, op.Fresh) (p p' : Pair)
    (hp : p ∈ (run a pre).pairs) (hp' : p' ∈ (run a (pre ++ post)).pairs) (hid : p'.id = p.id) :
    p.nom.rank ≤ p'.nom.rank := by
  have ht : Table (run a pre) := run_table h.table hpre
  have e : run a (pre ++ post) = run (run a pre) post := by simp [run, List.foldl_append]
  rw [e] at hp'
  generalize run a pre = s at ht hp hp'
  have key : ∀ (post : List Op) (s : Agent) (q : Pair), q ∈ (run s post).pairs → q.id < s.nextId →
      ∃ o ∈ s.pairs, o.id = q.id ∧ o.nom.rank ≤ q.nom.rank := by
    intro post
    induction post with
    | nil => intro s q hq _; exact ⟨q, hq, rfl, Nat.le_refl _⟩
    | cons op ops ih =>
      intro s q hq hlt
      obtain ⟨o, ho, h1, h2⟩ := ih (step s op) q hq (Nat.lt_of_lt_of_le hlt (step_nextId_le s op))
      rcases step_origs s op o ho with ⟨o', ho', ev⟩ | hf
      · exact ⟨o', ho', by rw [← ev.id, h1], Nat.le_trans ev.rank h2⟩
      · have := hf.id; omega
  obtain ⟨o, ho, h1, h2⟩ := key post s p' hp' (by rw [hid]; exact (ht.ok.each p hp).1)
  have : o = p := by
    have hinj := List.inj_on_of_nodup_map ht.ok.ids
    exact hinj ho hp (by rw [h1, hid])
  rw [this] at h2; exact h2

/-- A pair is nominated after an operation only if it was nominated before, or the peer asked
for it with USE-CANDIDATE, or we are controlling and a check on this pair has succeeded, or it
replaces a nominated pair between the same base and remote address. -/
theorem C33_nominated_only_if (a : Agent) (op : Op) (p' : Pair) (hp' : p' ∈ (step a op).pairs)
    (hn : p'.nom ≠ .none) :
    (∃ p ∈ a.pairs, p.id = p'.id ∧ p.nom ≠ .none) ∨
    PeerAsked a op p'.localIdx p'.remoteIdx ∨
    ((step a op).controlling = true ∧ p'.state = .succeeded) ∨
    (∃ old ∈ a.pairs, old.nom ≠ .none ∧
      SameRoute (step a op).locals (step a op).remotes p'.localIdx p'.remoteIdx old) := by
  rcases step_origs a op p' hp' with ⟨p, hp, ev⟩ | hf
  · rcases ev.nominated hn with h1 | h1 | h1
    · exact Or.inl ⟨p, hp, ev.id.symm, h1⟩
    · exact Or.inr (Or.inl h1)
    · exact Or.inr (Or.inr (Or.inl h1))
  · rcases hf.nominated hn with h1 | ⟨o, h1, h2, h3⟩
    · exact Or.inr (Or.inl h1)
    · exact Or.inr (Or.inr (Or.inr ⟨o, h1, h3, h2⟩))

/-- The check state of a pair becomes "succeeded" only by a response to a transaction that was
sent on this very pair. -/
theorem C33_succeeded_only_by_response (a : Agent) (op : Op) (p' : Pair)
    (hp' : p' ∈ (step a op).pairs) (hs : p'.state = .succeeded) :
    ∃ p ∈ a.pairs, p.id = p'.id ∧ (p.state = .succeeded ∨
      ∃ now t m, op = .response now t m ∧ ∃ at_ ∈ p.attempts, at_.trans = t) := by
  rcases step_origs a op p' hp' with ⟨p, hp, ev⟩ | hf
  · refine ⟨p, hp, ev.id.symm, ?_⟩
    rcases ev.succeeded hs with h1 | ⟨t, h1, h2⟩
    · exact Or.inl h1
    · right
      cases op <;> simp only [why, answered, Option.some.injEq] at h1 <;> try exact absurd h1 (by simp)
      subst h1
      exact ⟨_, _, _, rfl, h2⟩
  · exact absurd hs hf.state

/-- The nomination of a pair is confirmed only by a response to a check sent on this pair with
the nomination flag (or on ICE-lite, or by copying from the replaced pair). -/
theorem C33_confirmed_only_if (a : Agent) (op : Op) (p' : Pair) (hp' : p' ∈ (step a op).pairs)
    (hs : p'.nom = .success) :
    (∃ p ∈ a.pairs, p.id = p'.id ∧ (p.nom = .success ∨
      ∃ now t m, op = .response now t m ∧ p.nom = .attempt ∧
        ∃ at_ ∈ p.attempts, at_.trans = t ∧ at_.nominated = true)) ∨
    a.iceLite = true ∨
    (∃ old ∈ a.pairs, old.nom = .success ∧
      SameRoute (step a op).locals (step a op).remotes p'.localIdx p'.remoteIdx old) := by
  rcases step_origs a op p' hp' with ⟨p, hp, ev⟩ | hf
  · rcases ev.success hs with h1 | h1 | ⟨t, h1, h2⟩
    · exact Or.inl ⟨p, hp, ev.id.symm, Or.inl h1⟩
    · exact Or.inr (Or.inl h1)
    · refine Or.inl ⟨p, hp, ev.id.symm, Or.inr ?_⟩
      cases op <;> simp only [why, answered, Option.some.injEq] at h1 <;> try exact absurd h1 (by simp)
      subst h1
      exact ⟨_, _, _, rfl, h2⟩
  · rcases hf.success hs with h1 | ⟨o, h1, h2, h3⟩
    · exact Or.inr (Or.inl h1)
    · exact Or.inr (Or.inr ⟨o, h1, h3, h2⟩)

/-- A success or error response for a transaction we have not sent (or no longer remember)
changes nothing at all. -/
theorem C33_unknown_transaction (a : Agent) (t : Nat)
    (h : ∀ p ∈ a.pairs, ∀ at_ ∈ p.attempts, at_.trans ≠ t) (now : Nat) (m : Addr) (code : Nat) :
    step a (.response now t m) = a ∧ step a (.error t code) = a := by
  have hb : ∀ p ∈ a.pairs, p.bindingAttempt t = Option.none := by
    intro p hp
    rw [Pair.bindingAttempt, List.find?_eq_none]
    intro at_ ha
    simpa using h p hp at_ ha
  constructor
  · have : a.pairs.find? (fun p => (p.bindingAttempt t).isSome) = Option.none := by
      rw [List.find?_eq_none]
      intro p hp
      simp [hb p hp]
    simp [step, response, this]
  · have : a.pairs.findSome? (fun p => p.bindingAttempt t) = Option.none := by
      rw [List.findSome?_eq_none_iff]
      exact hb
    simp [step, errorResponse, this]

/-- The operation brings no evidence: it is not a response and not a request with
USE-CANDIDATE. -/
def Op.NoEvidence : Op → Prop
  | .response _ _ _ => False
  | .request r => r.useCandidate = false
  | _ => True

/-- No pair is nominated or has a succeeded check. -/
def Blank (a : Agent) : Prop := ∀ p ∈ a.pairs, p.nom = .none ∧ p.state ≠ .succeeded

theorem Blank.evalNomination {a : Agent} (h : Blank a) : evalNomination a = a := by
  unfold Ice.evalNomination
  split
  · rfl
  · rename_i i b hb
    have h1 := lastMax_spec hb
    have h2 := h b (List.mem_of_getElem? h1.1)
    have h3 := h1.2
    simp [eligible, Pair.isNominated, h2.1, h2.2] at h3

/-- Not reported as connected. -/
def Down (a : Agent) : Prop := a.connState ≠ .connected ∧ a.connState ≠ .completed

theorem Blank.evalState {a : Agent} (now : Nat) (h : Blank a) (hd : Down a) : Down (evalState a now) := by
  have hn : anyNomination a = false := by
    simp only [anyNomination, List.any_eq_false]
    intro p hp
    simp [Pair.isNominated, (h p hp).1]
  have hs : ∀ c, nextState { a with crash := c } false (anyPossible { a with crash := c } now) ≠ .connected ∧
      nextState { a with crash := c } false (anyPossible { a with crash := c } now) ≠ .completed := by
    intro c
    generalize anyPossible { a with crash := c } now = b
    unfold nextState
    have h1 := hd.1; have h2 := hd.2
    cases hh : a.connState <;> simp [hh] at h1 h2 ⊢ <;> cases b <;> simp
  have hset : ∀ (b : Agent) st, Down b → (st ≠ .connected ∧ st ≠ .completed) → Down (setState b st) := by
    intro b st hb hst
    unfold setState
    split
    · exact hb
    · exact hst
  unfold Ice.evalState
  dsimp only
  have hn2 : ∀ c, anyNomination { a with crash := c } = false := fun c => hn
  by_cases hp : possibleCrash a now = true
  · simp only [hp, if_true]
    rw [hn2]
    exact hset _ _ hd (hs true)
  · simp only [hp]
    rw [if_neg (by simp), hn]
    exact hset _ _ hd (hs a.crash)

theorem Blank.pairs {a b : Agent} (h : Blank a) (e : b.pairs ⊆ a.pairs) : Blank b := fun p hp => h p (e hp)

theorem queue_quiet {s : Agent} {op : Op} (hop : op.NoEvidence)
    (h : ∀ r ∈ s.queue, r.useCandidate = false) : ∀ r ∈ (step s op).queue, r.useCandidate = false := by
  cases op with
  | addLocal pref c =>
    intro r hr
    have e : (step s (.addLocal pref c)).queue = s.queue := (addLocal_length pref s c).2.2
    rw [e] at hr; exact h r hr
  | addRemote c =>
    intro r hr
    have e : (step s (.addRemote c)).queue = s.queue := (addRemote_length s c).2.2
    rw [e] at hr; exact h r hr
  | invalidate c =>
    intro r hr
    have e : (step s (.invalidate c)).queue = s.queue := (invalidate_length s c).2.2
    rw [e] at hr; exact h r hr
  | restart k => simpa [step, iceRestart] using h
  | recreate => simpa [step, recreatePairs] using h
  | setRemoteCreds u => exact h
  | setMaxPairs n => exact h
  | request req =>
    show ∀ r ∈ (request s req).queue, _
    unfold request
    split
    · simpa using h
    · intro r hr
      have := List.mem_of_mem_drop hr
      rcases List.mem_append.1 this with h1 | h1
      · exact h r h1
      · simp at h1; subst h1; exact hop
  | response now t m => exact hop.elim
  | error t c =>
    show ∀ r ∈ (errorResponse s t c).queue, _
    unfold errorResponse
    repeat' split
    all_goals simpa using h
  | timeout now =>
    show ∀ r ∈ (timeout s now).queue, _
    unfold timeout
    dsimp only
    split
    · split
      · rename_i r rs hq
        intro x hx
        simp only [handleRequest_queue] at hx
        have : x ∈ dropOld (evalState s now).timing.timeout now (evalState s now).queue := by
          rw [hq]; simp [hx]
        have := mem_dropOld this
        simp at this
        exact h x this
      · simp
    · simpa using h
  | poll => simpa [step] using h
  | pollTransmit => exact h

theorem Down.eq {a b : Agent} (h : Down a) (e : b.connState = a.connState) : Down b := by
  unfold Down; rw [e]; exact h

theorem Blank.pruneFailed {a : Agent} (now : Nat) (h : Blank a) (hd : Down a) : Down (pruneFailed a now) := by
  unfold Ice.pruneFailed
  rw [h.evalNomination]
  dsimp only
  split
  · exact hd
  · have hb : Blank { a with pairs := a.pairs.filter (keepPair a now), crash := a.crash || (!a.iceLite && possibleCrash a now) } :=
      h.pairs List.filter_sublist.subset
    rw [hb.evalNomination]
    exact hb.evalState now hd

theorem handleRequest_connState' (a : Agent) (r : Req) : (handleRequest a r).connState = a.connState := by
  simp

theorem state_quiet {s : Agent} {op : Op} (hop : op.NoEvidence) (h : Blank s) (hd : Down s) :
    Down (step s op) := by
  cases op with
  | addLocal pref c =>
    refine hd.eq ?_
    show (addLocal pref s c).connState = _
    unfold addLocal pushLocal
    repeat' split
    all_goals first | rfl | simp
    all_goals (repeat' split) <;> first | rfl | simp
  | addRemote c =>
    have h1 : ∀ ex c, (addRemoteAccepted.addIt s c ex).connState = s.connState := by
      intro ex c
      unfold addRemoteAccepted.addIt pairRemote
      repeat' split
      all_goals simp
    have h2 : (addRemoteAccepted s c).connState = s.connState := by
      unfold addRemoteAccepted
      dsimp only
      repeat' split
      all_goals first | rfl | exact h1 _ _
    refine hd.eq ?_
    show (addRemote s c).connState = _
    unfold addRemote
    repeat' split
    all_goals first | rfl | exact h2
  | invalidate c =>
    refine hd.eq ?_
    show (invalidate s c).connState = _
    unfold invalidate invalidateRemote
    repeat' split
    all_goals rfl
  | restart k =>
    simp only [step, iceRestart, setState]
    split
    · exact hd
    · exact ⟨by simp, by simp⟩
  | recreate =>
    simp only [step, recreatePairs, setState]
    split
    · exact hd.eq (by simp)
    · exact ⟨by simp, by simp⟩
  | setRemoteCreds u => exact hd
  | setMaxPairs n => exact hd
  | request req =>
    refine hd.eq ?_
    show (request s req).connState = _
    unfold request
    split
    · simp
    · rfl
  | response now t m => exact hop.elim
  | error t c =>
    refine hd.eq ?_
    show (errorResponse s t c).connState = _
    unfold errorResponse
    repeat' split
    all_goals simp
  | timeout now =>
    have h0 : Down (evalState s now) := h.evalState now hd
    have hb : ∀ q l, Blank { evalState s now with queue := q, lastNow := l } := fun q l => h.pairs (by simp)
    show Down (timeout s now)
    unfold timeout
    dsimp only
    split
    · split
      · exact h0.eq (by simp)
      · exact ((hb [] (some now)).pruneFailed now h0).eq (timeoutChecks_connState _ _)
    · exact ((hb (evalState s now).queue (some now)).pruneFailed now h0).eq (timeoutChecks_connState _ _)
  | poll => exact hd.eq (by simp [step])
  | pollTransmit => exact hd

/-- In a history without any success response and without any USE-CANDIDATE request no pair is
ever nominated, and the agent never reports connected or completed. -/
theorem C33_no_evidence_no_connection (a : Agent) (ops : List Op) (h : Start a)
    (hc : a.connState = .new) (hops : ∀ op ∈ ops, op.NoEvidence) :
    (∀ p ∈ (run a ops).pairs, p.nom = .none) ∧
    (run a ops).connState ≠ .connected ∧ (run a ops).connState ≠ .completed := by
  have key : ∀ (ops : List Op) (s : Agent), (∀ op ∈ ops, op.NoEvidence) →
      (∀ p ∈ s.pairs, p.nom = .none ∧ p.state ≠ .succeeded) → (∀ r ∈ s.queue, r.useCandidate = false) →
      (s.connState ≠ .connected ∧ s.connState ≠ .completed) →
      (∀ p ∈ (run s ops).pairs, p.nom = .none ∧ p.state ≠ .succeeded) ∧
        ((run s ops).connState ≠ .connected ∧ (run s ops).connState ≠ .completed) := by
    intro ops
    induction ops with
    | nil => intro s _ h1 _ h3; exact ⟨h1, h3⟩
    | cons op ops ih =>
      intro s hk h1 h2 h3
      have hop := hk op (by simp)
      have n1 : ∀ p ∈ (step s op).pairs, p.nom = .none ∧ p.state ≠ .succeeded := by
        intro p hp
        have hs : p.state ≠ .succeeded := by
          intro hs
          obtain ⟨q, hq, -, h4 | ⟨now, t, m, h4, -⟩⟩ := C33_succeeded_only_by_response s op p hp hs
          · exact (h1 q hq).2 h4
          · subst h4; exact hop
        refine ⟨?_, hs⟩
        by_contra hn
        rcases C33_nominated_only_if s op p hp hn with ⟨q, hq, -, h4⟩ | ⟨req, h4, h5, -⟩ | ⟨-, h4⟩ | ⟨q, hq, h4, -⟩
        · exact h4 (h1 q hq).1
        · rcases h4 with h4 | ⟨-, h4⟩
          · subst h4
            simp only [Op.NoEvidence] at hop
            rw [hop] at h5; cases h5
          · rw [h2 req h4] at h5; cases h5
        · exact hs h4
        · exact h4 (h1 q hq).1
      exact ih (step s op) (fun o ho => hk o (by simp [ho])) n1 (queue_quiet hop h2)
        (state_quiet hop h1 h3)
  obtain ⟨k1, k2⟩ := key ops a hops (by simp [h.pairs]) (by simp [h.queue]) (by simp [hc])
  exact ⟨fun p hp => (k1 p hp).1, k2⟩

/-! Non-vacuity: a controlling agent whose check is answered, that nominates, and whose nomination
is confirmed by the second response; then the peer's USE-CANDIDATE on the controlled side. -/

def nomOps : List Op :=
  [ .setRemoteCreds 7, .addLocal defaultLocalPreference (hostCand 1), .addRemote (hostCand 11),
    .timeout 1000, .response 1010 0 (adr 1), .timeout 1400, .response 1410 1 (adr 1) ]

example : (run { controlling := true } (nomOps.take 4)).pairs.map (fun p => (p.nom, p.state)) = [(.none, .inProgress)] ∧
    (run { controlling := true } (nomOps.take 5)).pairs.map (fun p => (p.nom, p.state)) = [(.nominated, .succeeded)] ∧
    (run { controlling := true } (nomOps.take 6)).pairs.map (fun p => (p.nom, p.state)) = [(.attempt, .succeeded)] ∧
    (run { controlling := true } nomOps).pairs.map (fun p => (p.nom, p.state)) = [(.success, .succeeded)] ∧
    (run { controlling := true } nomOps).connState = .completed := by decide +kernel

example : ((run {} [ .setRemoteCreds 7, .addLocal defaultLocalPreference (hostCand 1),
    .addRemote (hostCand 11), .request { reqFrom 11 1 0 99 with useCandidate := true } ]).pairs.map (·.nom))
    = [.nominated] := by decide +kernel

example : ∀ op ∈ exOps, op.NoEvidence := by simp [exOps, Op.NoEvidence, reqFrom]

end Str0m.Ice
