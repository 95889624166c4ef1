import Verif.Props.IceSchedule
/-
  C32 (agent level): which pairs `handle_timeout` gives up.
  C53: `poll_timeout`: when it asks to be called again, and that due checks are sent.
-/
namespace Str0m.Ice

/-! ### what evaluate_nomination leaves alone -/

theorem evalNomination_pairs (a : Agent) :
    ∀ (k : Nat) (p : Pair), a.pairs[k]? = some p → ∃ q, (evalNomination a).pairs[k]? = some q ∧
      (q = p ∨ (p.nom = .none ∧ ∃ b, q = p.nominate b)) := by
  intro k p hk
  unfold evalNomination
  split
  · exact ⟨p, hk, Or.inl rfl⟩
  · rename_i idx best hbest
    have hb := (lastMax_spec hbest).1
    split
    · exact ⟨p, hk, Or.inl rfl⟩
    · unfold choosePair
      dsimp only
      split
      · simp only [List.getElem?_set]
        by_cases e : idx = k
        · subst e
          rw [hk] at hb
          obtain rfl := Option.some.inj hb
          have hlt : idx < a.pairs.length := by
            rcases Nat.lt_or_ge idx a.pairs.length with h | h
            · exact h
            · rw [List.getElem?_eq_none h] at hk; cases hk
          simp only [hlt, if_true, Option.some.injEq]
          refine ⟨_, rfl, ?_⟩
          split
          · rename_i hc
            refine Or.inr ⟨?_, _, rfl⟩
            simp only [Pair.isNominated, Bool.and_eq_true, Bool.not_eq_true',
              bne_eq_false_iff_eq] at hc
            exact hc.1
          · exact Or.inl rfl
        · simp only [e, if_false]
          exact ⟨p, hk, Or.inl rfl⟩
      · exact ⟨p, hk, Or.inl rfl⟩

theorem evalNomination_length (a : Agent) : (evalNomination a).pairs.length = a.pairs.length := by
  have := congrArg List.length (evalNomination_keys a)
  simpa using this

/-- A function of pairs that does not look at the nomination is not changed. -/
theorem evalNomination_map {β : Type} (f : Pair → β) (hf : ∀ p b, f (p.nominate b) = f p) (a : Agent) :
    (evalNomination a).pairs.map f = a.pairs.map f := by
  apply List.ext_getElem?
  intro k
  simp only [List.getElem?_map]
  cases hk : a.pairs[k]? with
  | none =>
    have : a.pairs.length ≤ k := List.getElem?_eq_none_iff.1 hk
    rw [List.getElem?_eq_none (by rw [evalNomination_length]; exact this)]
  | some p =>
    obtain ⟨q, hq, h⟩ := evalNomination_pairs a k p hk
    rw [hq]
    rcases h with rfl | ⟨-, b, rfl⟩
    · rfl
    · simp [hf]

theorem filter_ids (l m : List Pair) (q : Pair → Bool) (h : l.map (fun p => (p.id, q p)) = m.map (fun p => (p.id, q p))) :
    (l.filter q).map (·.id) = (m.filter q).map (·.id) := by
  have key : ∀ l : List Pair, (l.filter q).map (·.id) =
      ((l.map (fun p => (p.id, q p))).filter (·.2)).map (·.1) := by
    intro l
    induction l with
    | nil => rfl
    | cons x xs ih =>
      by_cases hx : q x = true
      · simp [hx, ih]
      · simp [hx, ih]
  rw [key l, key m, h]

open Classical in
/-- `handle_timeout` gives up exactly the pairs whose checks are exhausted and on which the peer
was not heard recently: after any history (monotone clock, at least one attempt configured) a
full agent with no queued request keeps all other pairs, in order. -/
theorem C32_given_up_exactly (s : Agent) (ops : List Op) (c now : Nat) (h : Start s)
    (hm : Monotone c ops) (ht : s.timing.maxRetransmits ≠ 0) (a : Agent) (ha : a = run s ops)
    (hl : a.iceLite = false) (hq : a.queue = []) :
    (step a (.timeout now)).pairs.map (·.id) =
      (a.pairs.filter (fun p => decide (HeardRecently p now ∨ ¬ Exhausted p now s.timing))).map (·.id) := by
  have htime : a.timing = s.timing := by
    rw [ha]
    have : ∀ (ops : List Op) (x : Agent), (run x ops).timing = x.timing := by
      intro ops
      induction ops with
      | nil => intro x; rfl
      | cons o os ih => intro x; exact (ih (step x o)).trans (step_timing x o)
    exact this ops s
  have hlen : ∀ p ∈ a.pairs, p.attempts.length ≤ s.timing.maxRetransmits := by
    rw [ha]; exact C32_attempts_bounded s ops c h hm
  have hsame : ∀ p ∈ a.pairs, keepPair a now p =
      decide (HeardRecently p now ∨ ¬ Exhausted p now s.timing) := by
    intro p hp
    unfold keepPair
    rw [hl, htime]
    simp only [Bool.false_eq_true, if_false]
    have h1 := C32_failed_iff p now s.timing ht (hlen p hp)
    have h2 := stillPossible_isSome (p := p) (now := now) ht
    cases hx : p.isStillPossible now s.timing with
    | none => rw [hx] at h2; cases h2
    | some b =>
      cases b with
      | true =>
        rw [hx] at h1
        simp only [Option.some.injEq, Bool.true_eq_false, false_iff, not_and_or, not_not] at h1
        simp [h1]
      | false =>
        rw [hx] at h1
        have h3 := h1.1 rfl
        symm
        simp only [show (some false == some true) = false from rfl, decide_eq_false_iff_not, not_or, not_not]
        exact h3
  have hfil : a.pairs.filter (fun p => decide (HeardRecently p now ∨ ¬ Exhausted p now s.timing)) =
      a.pairs.filter (keepPair a now) := List.filter_congr (fun p hp => (hsame p hp).symm)
  rw [hfil]
  have hprune : ∀ b : Agent, b.pairs = a.pairs → b.iceLite = a.iceLite → b.timing = a.timing →
      (pruneFailed b now).pairs.map (·.id) = (a.pairs.filter (keepPair a now)).map (·.id) := by
    intro b hb hbl hbt
    have hk : keepPair (evalNomination b) now = keepPair a now := by
      funext p; simp [keepPair, hbl, hbt]
    have e1 : ((evalNomination b).pairs.filter (keepPair (evalNomination b) now)).map (·.id) =
        (a.pairs.filter (keepPair a now)).map (·.id) := by
      rw [hk]
      apply filter_ids
      rw [evalNomination_map (fun p => (p.id, keepPair a now p)) (by
        intro p x
        simp only [Pair.nominate]
        rfl) b, hb]
    unfold pruneFailed
    dsimp only
    split
    · exact e1
    · rw [evalState_pairs, evalNomination_map (·.id) (fun _ _ => rfl)]
      exact e1
  have hchecks : ∀ b : Agent, (timeoutChecks b now).pairs.map (·.id) = b.pairs.map (·.id) := by
    intro b
    have := congrArg (List.map Key.id) (timeoutChecks_keys b now)
    simpa [List.map_map, Function.comp_def, Pair.key] using this
  show (timeout a now).pairs.map (·.id) = _
  unfold timeout
  dsimp only
  split
  · have hd : dropOld (evalState a now).timing.timeout now (evalState a now).queue = [] := by
      rw [evalState_queue, hq]; rfl
    rw [hd]
    dsimp only
    rw [hchecks]
    exact hprune _ (by simp) (by simp) (by simp)
  · rw [hchecks]
    exact hprune _ (by simp) (by simp) (by simp)

/-! ### poll_timeout -/

/-- Cached deadlines are never further away than the maximum RTO from the last time step. -/
def CacheBound (t : Timing) (clock : Nat) (p : Pair) : Prop :=
  ∀ c, p.cached = some c → c ≤ clock + t.maxRto

theorem cacheBound_closed (t : Timing) (clock : Nat) :
    Closed (CacheBound t clock) t (fun now _ => now = clock) := by
  refine ⟨?_, ?_, ?_, ?_, ?_, ?_, ?_, ?_⟩
  · intro _ _ _ _ c h; cases h
  · intro _ _ _ _ _ _ c h; cases h
  · intro p x h; exact h
  · intro p b h _; exact h
  · intro p x h; exact h
  · intro p now n v _ _ c h; cases h
  · intro p now hnow h
    unfold Pair.nextBindingAttempt
    split
    · exact h
    · intro c hc
      simp only [Option.some.injEq] at hc
      subst hc hnow
      simp only [Pair.nextAttemptTime]
      omega
  · intro p now ctl n _ _ _ c h; cases h

theorem run_cacheBound (ops : List Op) : ∀ (a : Agent) (c : Nat), Monotone c ops →
    a.lastNow.getD 0 ≤ c → All (CacheBound a.timing (a.lastNow.getD 0)) a.pairs →
    All (CacheBound a.timing ((run a ops).lastNow.getD 0)) (run a ops).pairs := by
  induction ops with
  | nil => intro a c _ _ h; exact h
  | cons op ops ih =>
    intro a c hm hc h
    have hl := step_lastNow a op
    have hmono : a.lastNow.getD 0 ≤ (step a op).lastNow.getD 0 ∧
        (step a op).lastNow.getD 0 ≤ op.time.getD c := by
      rcases hl with e | ⟨now, rfl, e⟩
      · rw [e]; exact ⟨Nat.le_refl _, Nat.le_trans hc hm.1⟩
      · rw [e]; exact ⟨Nat.le_trans hc hm.1, Nat.le_refl _⟩
    have h1 : All (CacheBound a.timing ((step a op).lastNow.getD 0)) a.pairs := by
      intro p hp x hx
      have := h p hp x hx
      omega
    have h2 := step_all (cacheBound_closed a.timing ((step a op).lastNow.getD 0)) (op := op) rfl
      (by intro now _ e; rw [e]; exact ⟨rfl, fun _ => rfl⟩) (by rintro now rfl e; simp [step, e]) h1
    have e := step_timing a op
    rw [← e] at h2
    have h3 := ih (step a op) _ hm.2 hmono.2 h2
    rw [e] at h3
    exact h3

/-- Before the first `handle_timeout` there is nothing to wait for, afterwards there always is. -/
theorem C53_none_iff (a : Agent) : (pollTimeout a).2 = Option.none ↔ a.lastNow = Option.none := by
  unfold pollTimeout
  split
  · simp [*]
  · rename_i now h
    rw [h]
    split
    · simp
    · split <;> simp

/-- The agent never asks to be called back earlier than its pacing interval after the last time
step (3 s if there is nothing to check), so a caller that obeys never spins; and never later
than the largest of the pacing interval, the maximum RTO and 3 s, so it never sleeps through. -/
theorem C53_bounds (s : Agent) (ops : List Op) (c : Nat) (h : Start s) (hm : Monotone c ops)
    (last t : Nat) (hl : (run s ops).lastNow = some last) (ht : (pollTimeout (run s ops)).2 = some t) :
    last + min (run s ops).timingAdvance 3000 ≤ t ∧
    t ≤ last + max (run s ops).timingAdvance (max s.timing.maxRto 3000) := by
  have hb := run_cacheBound ops s c hm (by rw [h.lastNow]; simp) (by intro p hp; rw [h.pairs] at hp; cases hp)
  have htime : (run s ops).timing = s.timing := by
    have : ∀ (ops : List Op) (x : Agent), (run x ops).timing = x.timing := by
      intro ops
      induction ops with
      | nil => intro x; rfl
      | cons o os ih => intro x; exact (ih (step x o)).trans (step_timing x o)
    exact this ops s
  generalize run s ops = a at *
  rw [hl] at hb
  have hnext : ∀ i d, firstMin (a.pairs.map (fun p => (p.nextBindingAttempt last a.timing).2)) = some (i, d) →
      d ≤ last + s.timing.maxRto := by
    intro i d hm
    have hg := firstMin_spec _ _ _ hm
    rw [List.getElem?_map] at hg
    obtain ⟨p, hp, he⟩ := Option.map_eq_some_iff.1 hg
    have hp' := hb p (List.mem_of_getElem? hp)
    subst he
    rw [htime]
    cases hc : p.cached with
    | none => exact C32_next_bounded p last s.timing hc
    | some x =>
      simp only [Pair.nextBindingAttempt, hc]
      exact hp' x hc
  have hdead : last + min a.timingAdvance 3000 ≤ nextDeadline a last ∧
      nextDeadline a last ≤ last + max a.timingAdvance (max s.timing.maxRto 3000) := by
    unfold nextDeadline
    split
    · rename_i i d hd
      split at hd
      · cases hd
      · have := hnext i d hd
        split <;> omega
    · omega
  unfold pollTimeout at ht
  rw [hl] at ht
  dsimp only at ht
  split at ht
  · obtain rfl := Option.some.inj ht
    omega
  · split at ht <;>
    · obtain rfl := Option.some.inj ht
      exact hdead

/-! ### due checks are sent -/

/-- The next check of the pair is due. -/
def Due (p : Pair) (now : Nat) (t : Timing) : Prop := (p.nextBindingAttempt now t).2 ≤ now

theorem Due.nominate {p : Pair} {now : Nat} {t : Timing} (h : Due p now t) (hn : p.nom = .none) (b : Bool) :
    Due (p.nominate b) now t := by
  unfold Due Pair.nextBindingAttempt at *
  cases hc : p.cached with
  | some c => simpa [Pair.nominate, hc] using h
  | none =>
    rw [hc] at h
    simp only [Pair.nominate, hc]
    cases b with
    | false =>
      simp only [Pair.nextAttemptTime, Bool.false_eq_true, if_false, if_true]
      split <;> omega
    | true =>
      have e : Pair.nextAttemptTime { p with nom := .success } now t = p.nextAttemptTime now t := by
        unfold Pair.nextAttemptTime
        simp only [hn, reduceCtorEq, if_false]
        rfl
      simp only [if_true]
      rw [hc] at e
      rw [e]
      exact h

theorem evalNomination_due {a : Agent} {now : Nat} {p : Pair} (hp : p ∈ a.pairs) (hd : Due p now a.timing)
    (hk : p.isStillPossible now a.timing = some true) :
    ∃ q ∈ (evalNomination a).pairs, Due q now a.timing ∧ q.isStillPossible now a.timing = some true := by
  obtain ⟨k, hk'⟩ := List.mem_iff_getElem?.1 hp
  obtain ⟨q, hq, h⟩ := evalNomination_pairs a k p hk'
  refine ⟨q, List.mem_of_getElem? hq, ?_⟩
  rcases h with rfl | ⟨hn, b, rfl⟩
  · exact ⟨hd, hk⟩
  · exact ⟨hd.nominate hn b, hk⟩

theorem firstMin_le {l : List Nat} {d : Nat} (h : d ∈ l) : ∃ i m, firstMin l = some (i, m) ∧ m ≤ d := by
  induction l with
  | nil => cases h
  | cons x xs ih =>
    simp only [firstMin]
    cases hx : firstMin xs with
    | none =>
      have : xs = [] := by
        cases xs with
        | nil => rfl
        | cons y ys => simp only [firstMin] at hx; split at hx <;> (try split at hx) <;> cases hx
      subst this
      simp only [List.mem_singleton] at h
      exact ⟨0, x, rfl, by omega⟩
    | some im =>
      obtain ⟨i, m⟩ := im
      rcases List.mem_cons.1 h with rfl | h
      · dsimp only
        split
        · exact ⟨_, _, rfl, Nat.le_refl _⟩
        · exact ⟨_, _, rfl, by omega⟩
      · obtain ⟨i', m', e, hle⟩ := ih h
        rw [hx] at e
        obtain ⟨rfl, rfl⟩ := Prod.mk.inj (Option.some.inj e)
        dsimp only
        split
        · exact ⟨_, _, rfl, by omega⟩
        · exact ⟨_, _, rfl, hle⟩

/-- No due check is ever forgotten: in every history, when `handle_timeout` runs on a full agent
that knows the peer's credentials, with no request queued, and some pair that is not given up
is due, one new binding request is handed out for transmission (carrying the agent's role and
tie breaker), after anything that was waiting. -/
theorem C53_due_check_sent (s : Agent) (ops : List Op) (now : Nat) (h : Start s)
    (ht : s.timing.maxRetransmits ≠ 0) (hd : During (fun a op => op.Legal a) s ops)
    (a : Agent) (ha : a = run s ops) (hl : a.iceLite = false) (hq : a.queue = [])
    (hc : a.remoteCreds.isSome) (p : Pair) (hp : p ∈ a.pairs)
    (hpos : HeardRecently p now ∨ ¬ Exhausted p now a.timing)
    (hlen : p.attempts.length ≤ a.timing.maxRetransmits)
    (hdue : (p.nextBindingAttempt now a.timing).2 ≤ now) :
    ∃ trans prio use src dst, (step a (.timeout now)).transmit =
      a.transmit ++ [.request trans a.controlling a.tieBreaker prio use src dst] := by
  have hsafe : Safe a := by
    rw [ha]
    exact run_invariant (I := Safe) (fun a op hi hq => step_safe hi hq)
      (⟨h.table, ⟨by simp [h.locals], by simp [h.remotes]⟩, ht, h.crash⟩ : Safe s) hd
  have hposs : p.isStillPossible now a.timing = some true := by
    have h1 := C32_failed_iff p now a.timing hsafe.timing hlen
    have h2 := stillPossible_isSome (p := p) (now := now) hsafe.timing
    cases hx : p.isStillPossible now a.timing with
    | none => rw [hx] at h2; cases h2
    | some b =>
      cases b with
      | true => rfl
      | false =>
        rw [hx] at h1
        obtain ⟨e1, e2⟩ := h1.1 rfl
        rcases hpos with hpos | hpos
        · exact absurd hpos e1
        · exact absurd e2 hpos
  have h1 := evalState_safe (now := now) hsafe
  have hb : ∀ (b : Agent), b.pairs = a.pairs → b.timing = a.timing → b.iceLite = false → Safe b →
      b.remoteCreds.isSome → b.transmit = a.transmit → b.controlling = a.controlling →
      b.tieBreaker = a.tieBreaker →
      ∃ trans prio use src dst, (timeoutChecks (pruneFailed b now) now).transmit =
        a.transmit ++ [.request trans a.controlling a.tieBreaker prio use src dst] := by
    intro b e1 e2 e3 hs e4 e5 e6 e7
    have hdue' : ∃ q ∈ (pruneFailed b now).pairs, Due q now a.timing := by
      obtain ⟨q, hq, hqd, hqk⟩ := evalNomination_due (a := b) (now := now) (p := p) (by rw [e1]; exact hp)
        (by rw [e2]; exact hdue) (by rw [e2]; exact hposs)
      rw [e2] at hqd hqk
      have hmem : q ∈ (evalNomination b).pairs.filter (keepPair (evalNomination b) now) := by
        rw [List.mem_filter]
        refine ⟨hq, ?_⟩
        simp [keepPair, e3, e2, hqk]
      unfold pruneFailed
      dsimp only
      split
      · exact ⟨q, hmem, hqd⟩
      · rw [evalState_pairs]
        obtain ⟨r, hr, hrd, -⟩ := evalNomination_due (now := now)
          (a := { evalNomination b with pairs := (evalNomination b).pairs.filter (keepPair (evalNomination b) now), crash := (evalNomination b).crash || (!(evalNomination b).iceLite && possibleCrash (evalNomination b) now) })
          (p := q) hmem (by simpa [e2] using hqd) (by simpa [e2] using hqk)
        exact ⟨r, hr, by simpa [e2] using hrd⟩
    have hsp := pruneFailed_safe (now := now) hs
    have f1 : (pruneFailed b now).timing = a.timing := by simp [e2]
    have f2 : (pruneFailed b now).iceLite = false := by simp [e3]
    have f3 : (pruneFailed b now).remoteCreds.isNone = false := by
      simp only [pruneFailed_remoteCreds]
      cases hx : b.remoteCreds <;> simp [hx] at e4 ⊢
    have f4 : (pruneFailed b now).transmit = a.transmit := by simp [e5]
    have f5 : (pruneFailed b now).controlling = a.controlling := by simp [e6]
    have f6 : (pruneFailed b now).tieBreaker = a.tieBreaker := by simp [e7]
    generalize pruneFailed b now = x at *
    obtain ⟨q, hqm, hqd⟩ := hdue'
    unfold timeoutChecks
    rw [f2, f3]
    simp only [Bool.false_eq_true, if_false]
    unfold runChecks
    dsimp only
    obtain ⟨i, m, hfm, hle⟩ := firstMin_le (l := x.pairs.map (fun p => (p.nextBindingAttempt now x.timing).2))
      (d := (q.nextBindingAttempt now x.timing).2) (List.mem_map.2 ⟨q, hqm, rfl⟩)
    rw [hfm]
    have hle' : m ≤ now := by unfold Due at hqd; rw [f1] at hle; omega
    simp only [hle', if_true]
    have hi := firstMin_lt hfm
    simp only [List.length_map] at hi
    have hs' : Safe { x with pairs := x.pairs.map (fun p => (p.nextBindingAttempt now x.timing).1) } :=
      hsp.of (hsp.table.keys rfl rfl rfl (map_keys (fun p => nextBindingAttempt_key p _ _) _))
        rfl rfl rfl hsp.crash
    have hpi : ({ x with pairs := x.pairs.map (fun p => (p.nextBindingAttempt now x.timing).1) } : Agent).pairs[i]? =
        some (x.pairs[i].nextBindingAttempt now x.timing).1 := by
      simp [hi]
    obtain ⟨l, lp, el, elp⟩ := live_prio (hs'.table.ok.each _ (List.mem_of_getElem? hpi)).2.1
      (b := true) (fun c hc => (hs'.prio.l c hc).2)
    obtain ⟨r, er, -⟩ := (hs'.table.ok.each _ (List.mem_of_getElem? hpi)).2.2
    unfold sendCheck
    rw [hpi]
    dsimp only at el er ⊢
    rw [el, er]
    dsimp only
    rw [elp]
    dsimp only
    rw [f4, f5, f6]
    exact ⟨_, _, _, _, _, rfl⟩
  show ∃ trans prio use src dst, (timeout a now).transmit = _
  unfold timeout
  dsimp only
  have hcr : (evalState a now).remoteCreds.isSome = true := by simpa using hc
  rw [if_pos hcr]
  have hdr : dropOld (evalState a now).timing.timeout now (evalState a now).queue = [] := by
    rw [evalState_queue, hq]; rfl
  rw [hdr]
  dsimp only
  exact hb _ (by simp) (by simp) (by simpa using hl)
    ⟨⟨h1.table.sorted, h1.table.ok⟩, ⟨h1.prio.l, h1.prio.r⟩, h1.timing, h1.crash⟩
    hcr (by simp) (by simp) (by simp)

/-! ### concrete cases -/

/-- One pair, at most two attempts, nobody answers: checks at 1000 and 1250. -/
def silentOps : List Op :=
  [ .setRemoteCreds 7, .addLocal defaultLocalPreference (hostCand 1), .addRemote (hostCand 11),
    .timeout 1000, .pollTransmit, .poll, .timeout 1250, .pollTransmit, .poll ]
def silentStart : Agent := { timing := { maxRetransmits := 2 }, controlling := true }

example : Start silentStart := ⟨rfl, rfl, rfl, rfl, rfl, rfl⟩
example : Monotone 0 silentOps := by simp [silentOps, Monotone, Op.time]
example : During (fun a op => op.Legal a) silentStart silentOps := by
  simp only [silentOps, During, Op.Legal]
  refine ⟨trivial, ⟨rfl, by decide, by decide, 65534, rfl, by decide⟩,
    ⟨rfl, by decide, by decide, rfl⟩, trivial, trivial, trivial, trivial, trivial, trivial, trivial⟩
-- one millisecond before the final wait (500 ms) is over the pair is kept, then it is given up
example : (step (run silentStart silentOps) (.timeout 1749)).pairs.length = 1 ∧
    (step (run silentStart silentOps) (.timeout 1750)).pairs.length = 0 := by decide +kernel
-- the check due at 1250 is sent there and not earlier
example : (run silentStart (silentOps.take 6 ++ [.timeout 1249])).transmit.length = 0 ∧
    (run silentStart (silentOps.take 6 ++ [.timeout 1250])).transmit.length = 1 := by decide +kernel
example : (pollTimeout (run silentStart (silentOps.take 5))).2 = some 1250 := by decide +kernel

end Str0m.Ice
