import Verif.Proofs.IceRole
/-
  C30: two agents and a network that delays, reorders, duplicates and loses messages (but does not
  forge or alter them) - the role conflict is resolved once, in favour of the higher tie breaker.
-/
namespace Str0m.Ice

/-! ### the system: specification -/

/-- Two agents; `netA` are the messages A has put on the wire so far (any of them can arrive at B
any number of times, in any order, or never), `netB` those of B. -/
structure Sys where
  a : Agent
  b : Agent
  netA : List Msg
  netB : List Msg

/-- The request `r` is what the receiver sees of the wire message `m`: transaction, role and tie
breaker, priority and USE-CANDIDATE are as sent; addresses and arrival time are up to the
network. -/
def Carries (m : Msg) (r : Req) : Prop :=
  ∃ n ctl tb prio use src dst, m = .request n ctl tb prio use src dst ∧ r.trans = n ∧
    r.iceControlling = (if ctl then some tb else Option.none) ∧
    r.iceControlled = (if ctl then Option.none else some tb) ∧ r.prio = prio ∧ r.useCandidate = use

/-- What may happen at an agent whose peer has put `peer` on the wire: a request or a 487 reply
must come from the peer; everything else (candidates, restarts, timeouts, polls, success
replies, other errors) is unrestricted. -/
def Allowed (peer : List Msg) : Op → Prop
  | .request r => ∃ m ∈ peer, Carries m r
  | .error n c => c = 487 → .roleConflict n ∈ peer
  | _ => True

/-- A step of one agent: an allowed operation, or handing its next message to the network. -/
inductive Half (peer : List Msg) (x : Agent) (net : List Msg) : Agent → List Msg → Prop
  | op (o : Op) (h : Allowed peer o) : Half peer x net (step x o) net
  | send (m : Msg) (h : x.transmit.head? = some m) : Half peer x net (step x .pollTransmit) (net ++ [m])

/-- A step of the system. -/
inductive Sys.Step (s : Sys) : Sys → Prop
  | left (a' : Agent) (net' : List Msg) (h : Half s.netB s.a s.netA a' net') :
      Step s { s with a := a', netA := net' }
  | right (b' : Agent) (net' : List Msg) (h : Half s.netA s.b s.netB b' net') :
      Step s { s with b := b', netB := net' }

/-- Executions. -/
inductive Sys.Reach : Sys → Sys → Prop
  | refl (s : Sys) : Reach s s
  | step {s t u : Sys} (h : Reach s t) (hs : t.Step u) : Reach s u

/-- Two new agents, in any roles and configuration, A with the higher tie breaker. -/
structure Sys.Init (s : Sys) : Prop where
  a : Start s.a
  b : Start s.b
  sent : s.a.transmit = [] ∧ s.b.transmit = [] ∧ s.netA = [] ∧ s.netB = []
  tie : s.b.tieBreaker < s.a.tieBreaker

/-! ### invariant -/

/-- Message waiting in the agent or on the wire. -/
def Sent (x : Agent) (net : List Msg) (m : Msg) : Prop := m ∈ x.transmit ∨ m ∈ net

theorem half_cases {peer : List Msg} {x : Agent} {net : List Msg} {x' : Agent} {net' : List Msg}
    (h : Half peer x net x' net') :
    ∃ o, Allowed peer o ∧ x' = step x o ∧ net ⊆ net' ∧
      ∀ m, Sent x' net' m → Sent x net m ∨ (∃ t y, m = .success t y) ∨
        (∃ r tb, o.Processes x r ∧ m = .roleConflict r.trans ∧
          r.conflictTieBreaker x.controlling = some tb ∧ tb ≤ x.tieBreaker) ∨
        (NewRequest x m ∧ x'.nextTrans = x.nextTrans + 1) := by
  cases h with
  | op o ho =>
    refine ⟨o, ho, rfl, fun _ h => h, ?_⟩
    rintro m (hm | hm)
    · rcases (step_sent x o).2 m hm with h | h
      · exact Or.inl (Or.inl h)
      · exact Or.inr h
    · exact Or.inl (Or.inr hm)
  | send m hm =>
    have hmem : m ∈ x.transmit := List.mem_of_head? hm
    refine ⟨.pollTransmit, trivial, rfl, List.subset_append_left _ _, ?_⟩
    rintro y (hy | hy)
    · exact Or.inl (Or.inl (List.mem_of_mem_drop hy))
    · rcases List.mem_append.1 hy with hy | hy
      · exact Or.inl (Or.inr hy)
      · simp only [List.mem_singleton] at hy
        subst hy
        exact Or.inl (Or.inl hmem)

/-- A statement about transaction and role of all recorded attempts is preserved. -/
theorem attempts_closed (R : Nat → Bool → Prop) (t : Timing) :
    Closed (fun p => ∀ x ∈ p.attempts, R x.trans x.controlling) t
      (fun _ o => ∀ c n, o = some (c, n) → R n c) := by
  refine ⟨by simp, by simp, fun p x h => h, fun p b h _ => h, fun p x h => h, ?_, ?_, ?_⟩
  · intro p now n v h _ x hx
    rcases mem_updFirst hx with hx | ⟨y, hy, rfl⟩
    · exact h x hx
    · exact h y hy
  · intro p now _ h
    unfold Pair.nextBindingAttempt
    split <;> exact h
  · intro p now ctl n hr h _ x hx
    have := List.mem_of_mem_drop hx
    rcases List.mem_append.1 this with hx | hx
    · have e : (p.nextBindingAttempt now t).1.attempts = p.attempts := by
        unfold Pair.nextBindingAttempt; split <;> rfl
      rw [e] at hx
      exact h x hx
    · simp only [List.mem_singleton] at hx
      subst hx
      exact hr ctl n rfl

/-- The invariant: A is in role `ra` and never claimed another one. -/
structure Inv (ra : Bool) (s : Sys) : Prop where
  roleA : s.a.controlling = ra
  tie : s.b.tieBreaker < s.a.tieBreaker
  reqA : ∀ n c tb p u x d, Sent s.a s.netA (.request n c tb p u x d) → tb = s.a.tieBreaker ∧ c = ra
  reqB : ∀ n c tb p u x d, Sent s.b s.netB (.request n c tb p u x d) →
    tb = s.b.tieBreaker ∧ n < s.b.nextTrans
  confB : ∀ n, ¬ Sent s.b s.netB (.roleConflict n)
  confA : ∀ n, Sent s.a s.netA (.roleConflict n) → ∃ tb p u x d, .request n ra tb p u x d ∈ s.netB
  att : ∀ p ∈ s.b.pairs, ∀ x ∈ p.attempts, x.trans < s.b.nextTrans ∧
    ∀ c tb p u y d, Sent s.b s.netB (.request x.trans c tb p u y d) → c = x.controlling
  queueA : ∀ r ∈ s.a.queue, ∃ m ∈ s.netB, Carries m r
  queueB : ∀ r ∈ s.b.queue, ∃ m ∈ s.netA, Carries m r

theorem carries_conflict {n : Nat} {ctl : Bool} {tb prio : Nat} {use : Bool} {src dst : Addr} {r : Req}
    (h : Carries (.request n ctl tb prio use src dst) r) {mine : Bool} {tb' : Nat}
    (hc : r.conflictTieBreaker mine = some tb') : r.trans = n ∧ tb' = tb ∧ ctl = mine := by
  obtain ⟨n', ctl', tb'', p, u, s, d, e, h1, h2, h3, -⟩ := h
  cases e
  refine ⟨h1, ?_⟩
  unfold Req.conflictTieBreaker at hc
  rw [h2, h3] at hc
  cases mine <;> cases ctl <;> simp at hc <;> exact ⟨hc.symm, rfl⟩

theorem processed_carried {peer : List Msg} {x : Agent} {o : Op} {r : Req} (ho : Allowed peer o)
    (hq : ∀ r ∈ x.queue, ∃ m ∈ peer, Carries m r) (hp : o.Processes x r) : ∃ m ∈ peer, Carries m r := by
  rcases hp with rfl | ⟨-, h⟩
  · exact ho
  · exact hq r h

theorem queue_carried {peer : List Msg} {x : Agent} {o : Op} (ho : Allowed peer o)
    (hq : ∀ r ∈ x.queue, ∃ m ∈ peer, Carries m r) : ∀ r ∈ (step x o).queue, ∃ m ∈ peer, Carries m r := by
  intro r hr
  rcases step_queue x o r hr with h | rfl
  · exact hq r h
  · exact ho

/-- A does not change its role. -/
theorem Inv.keepsA {ra : Bool} {s : Sys} (h : Inv ra s) {o : Op} (ho : Allowed s.netB o) :
    (step s.a o).controlling = ra := by
  rcases step_role s.a o with e | ⟨-, ⟨r, tb, hp, hc, hlt⟩ | ⟨n, rfl, -⟩⟩
  · rw [e]; exact h.roleA
  · exfalso
    obtain ⟨m, hm, hcar⟩ := processed_carried ho h.queueA hp
    obtain ⟨n, ctl, tb', p, u, x, d, rfl, -⟩ := id hcar
    have h1 := carries_conflict hcar hc
    have h2 := h.reqB _ _ _ _ _ _ _ (Or.inr hm)
    have h3 := h.tie
    omega
  · exact absurd (Or.inr (ho rfl)) (h.confB n)

/-- B changes its role only when it is the same as A's, to the opposite of A's. -/
theorem Inv.roleB {ra : Bool} {s : Sys} (h : Inv ra s) {o : Op} (ho : Allowed s.netA o) :
    (step s.b o).controlling = s.b.controlling ∨
    (s.b.controlling = ra ∧ (step s.b o).controlling = !ra) := by
  rcases step_role s.b o with e | ⟨e, ⟨r, tb, hp, hc, hlt⟩ | ⟨n, rfl, p, hp, x, hx, hn, hxc⟩⟩
  · exact Or.inl e
  · right
    obtain ⟨m, hm, hcar⟩ := processed_carried ho h.queueB hp
    obtain ⟨n, ctl, tb', p, u, x, d, rfl, -⟩ := id hcar
    have h1 := carries_conflict hcar hc
    have h2 := (h.reqA _ _ _ _ _ _ _ (Or.inr hm)).2
    have : s.b.controlling = ra := h1.2.2.symm.trans h2
    exact ⟨this, by rw [e, this]⟩
  · right
    obtain ⟨tb, pr, u, y, d, hreq⟩ := h.confA n (Or.inr (ho rfl))
    have := (h.att p hp x hx).2 ra tb pr u y d (by rw [hn]; exact Or.inr hreq)
    have hb : s.b.controlling = ra := by rw [this]; exact hxc.symm
    exact ⟨hb, by rw [e, hb]⟩

theorem Inv.step {ra : Bool} {s t : Sys} (h : Inv ra s) (hs : s.Step t) : Inv ra t := by
  cases hs with
  | left a' net' hh =>
    obtain ⟨o, ho, rfl, hsub, hnew⟩ := half_cases hh
    refine ⟨h.keepsA ho, ?_, ?_, h.reqB, h.confB, ?_, h.att, queue_carried ho h.queueA, ?_⟩
    · simpa [step_tieBreaker] using h.tie
    · intro n c tb p u x d hsent
      simp only [step_tieBreaker]
      rcases hnew _ hsent with h1 | ⟨_, _, e⟩ | ⟨_, _, _, e, _⟩ | ⟨⟨_, _, _, _, e⟩, _⟩
      · exact h.reqA _ _ _ _ _ _ _ h1
      · cases e
      · cases e
      · cases e; exact ⟨rfl, h.roleA⟩
    · intro n hsent
      rcases hnew _ hsent with h1 | ⟨_, _, e⟩ | ⟨r, tb, hp, e, hc, -⟩ | ⟨⟨_, _, _, _, e⟩, _⟩
      · exact h.confA n h1
      · cases e
      · cases e
        obtain ⟨m, hm, hcar⟩ := processed_carried ho h.queueA hp
        obtain ⟨n, ctl, tb', p, u, x, d, rfl, -⟩ := id hcar
        have h1 := carries_conflict hcar hc
        rw [h1.1]
        have h2 : ctl = ra := h1.2.2.trans h.roleA
        subst h2
        exact ⟨_, _, _, _, _, hm⟩
      · cases e
    · intro r hr
      obtain ⟨m, hm, hcar⟩ := h.queueB r hr
      exact ⟨m, hsub hm, hcar⟩
  | right b' net' hh =>
    obtain ⟨o, ho, rfl, hsub, hnew⟩ := half_cases hh
    have hle := (step_sent s.b o).1
    refine ⟨h.roleA, ?_, h.reqA, ?_, ?_, ?_, ?_, ?_, queue_carried ho h.queueB⟩
    · simpa [step_tieBreaker] using h.tie
    · intro n c tb p u x d hsent
      simp only [step_tieBreaker]
      rcases hnew _ hsent with h1 | ⟨_, _, e⟩ | ⟨_, _, _, e, _⟩ | ⟨⟨_, _, _, _, e⟩, hn⟩
      · have := h.reqB _ _ _ _ _ _ _ h1
        exact ⟨this.1, by omega⟩
      · cases e
      · cases e
      · cases e; exact ⟨rfl, by omega⟩
    · intro n hsent
      rcases hnew _ hsent with h1 | ⟨_, _, e⟩ | ⟨r, tb, hp, e, hc, hlt⟩ | ⟨⟨_, _, _, _, e⟩, _⟩
      · exact h.confB n h1
      · cases e
      · obtain ⟨m, hm, hcar⟩ := processed_carried ho h.queueB hp
        obtain ⟨n, ctl, tb', p, u, x, d, rfl, -⟩ := id hcar
        have h1 := carries_conflict hcar hc
        have h2 := (h.reqA _ _ _ _ _ _ _ (Or.inr hm)).1
        have h3 := h.tie
        omega
      · cases e
    · intro n hsent
      obtain ⟨tb, p, u, x, d, hm⟩ := h.confA n hsent
      exact ⟨tb, p, u, x, d, hsub hm⟩
    · refine step_all (t := s.b.timing) (attempts_closed (fun n c => n < (Ice.step s.b o).nextTrans ∧
        ∀ c' tb p u y d, Sent (Ice.step s.b o) net' (.request n c' tb p u y d) → c' = c) s.b.timing)
        rfl ?_ ?_ ?_
      · intro now _ _
        refine ⟨fun c n e => (by cases e), ?_⟩
        intro hn c n e
        cases e
        refine ⟨by omega, ?_⟩
        intro c' tb p u y d hsent
        rcases hnew _ hsent with h1 | ⟨_, _, e⟩ | ⟨_, _, _, e, _⟩ | ⟨⟨_, _, _, _, e⟩, _⟩
        · have := (h.reqB _ _ _ _ _ _ _ h1).2
          omega
        · cases e
        · cases e
        · cases e; rfl
      · intro now _ _ c n e; cases e
      · intro p hp x hx
        have hx' := h.att p hp x hx
        refine ⟨by omega, ?_⟩
        intro c' tb pr u y d hsent
        rcases hnew _ hsent with h1 | ⟨_, _, e⟩ | ⟨_, _, _, e, _⟩ | ⟨⟨_, _, _, _, e⟩, _⟩
        · exact hx'.2 _ _ _ _ _ _ h1
        · cases e
        · cases e
        · injection e with e1; omega
    · intro r hr
      obtain ⟨m, hm, hcar⟩ := h.queueA r hr
      exact ⟨m, hsub hm, hcar⟩

theorem Sys.Init.inv {s : Sys} (h : s.Init) : Inv s.a.controlling s := by
  obtain ⟨h1, h2, h3, h4⟩ := h.sent
  refine ⟨rfl, h.tie, ?_, ?_, ?_, ?_, ?_, ?_, ?_⟩
  · rintro n c tb p u x d (hm | hm) <;> simp [h1, h3] at hm
  · rintro n c tb p u x d (hm | hm) <;> simp [h2, h4] at hm
  · rintro n (hm | hm) <;> simp [h2, h4] at hm
  · rintro n (hm | hm) <;> simp [h1, h3] at hm
  · intro p hp; rw [h.b.pairs] at hp; cases hp
  · intro r hr; rw [h.a.queue] at hr; cases hr
  · intro r hr; rw [h.b.queue] at hr; cases hr

theorem reach_inv {s t : Sys} (h : s.Init) (hr : s.Reach t) : Inv s.a.controlling t := by
  induction hr with
  | refl => exact h.inv
  | step _ hs ih => exact ih.step hs

theorem Sys.Reach.trans {s t u : Sys} (h : s.Reach t) (h' : t.Reach u) : s.Reach u := by
  induction h' with
  | refl => exact h
  | step _ hs ih => exact ih.step hs

/-! ### C30 -/

/-- In every execution the agent with the higher tie breaker keeps its role. -/
theorem C30_higher_keeps_role (s t : Sys) (h : s.Init) (hr : s.Reach t) :
    t.a.controlling = s.a.controlling := (reach_inv h hr).roleA

/-- No flip-flop: once the roles are opposite they stay opposite (and neither changes any more),
whatever requests and replies are still in flight. -/
theorem C30_stable (s t u : Sys) (h : s.Init) (hr : s.Reach t) (ho : t.b.controlling ≠ t.a.controlling)
    (hu : t.Reach u) : u.b.controlling = t.b.controlling ∧ u.a.controlling = t.a.controlling := by
  induction hu with
  | refl => exact ⟨rfl, rfl⟩
  | step hx hs ih =>
    rename_i x y
    have hinv := reach_inv h (hr.trans hx)
    have hinv' := hinv.step hs
    have ht := reach_inv h hr
    refine ⟨?_, by rw [hinv'.roleA, ht.roleA]⟩
    cases hs with
    | left a' net' hh => exact ih.1
    | right b' net' hh =>
      obtain ⟨o, ho', rfl, -⟩ := half_cases hh
      rcases hinv.roleB ho' with e | ⟨e, -⟩
      · exact e.trans ih.1
      · exfalso
        apply ho
        rw [← ih.1, e, ht.roleA]

/-- The lower agent switches at most once: if between two points of an execution its role was
inverted, then the roles are opposite from there on. -/
theorem C30_switches_to_opposite (s t u : Sys) (h : s.Init) (hr : s.Reach t) (hu : t.Step u)
    (hsw : u.b.controlling ≠ t.b.controlling) :
    t.b.controlling = t.a.controlling ∧ u.b.controlling ≠ u.a.controlling := by
  have hinv := reach_inv h hr
  have hinv' := hinv.step hu
  cases hu with
  | left a' net' hh => exact absurd rfl hsw
  | right b' net' hh =>
    obtain ⟨o, ho', rfl, -⟩ := half_cases hh
    rcases hinv.roleB ho' with e | ⟨e, e'⟩
    · exact absurd e hsw
    · have ha := hinv.roleA
      dsimp only
      rw [ha, e, e']
      refine ⟨rfl, ?_⟩
      cases s.a.controlling <;> simp

/-- The request is not dropped: the agent has the peer's credentials, the user name matches and
the destination is one of its host or relayed candidates. -/
def Heard (x : Agent) (r : Req) : Prop :=
  x.remoteCreds = some r.remoteUfrag ∧ ∃ c ∈ x.locals, arrivesOn r c = true

theorem Heard.find {x : Agent} {r : Req} (h : Heard x r) : ∃ i, x.locals.findIdx? (arrivesOn r) = some i := by
  obtain ⟨-, c, hc, h⟩ := h
  cases hf : x.locals.findIdx? (arrivesOn r) with
  | some i => exact ⟨i, rfl⟩
  | none =>
    rw [List.findIdx?_eq_none_iff] at hf
    rw [hf c hc] at h
    cases h

/-- Convergence by a request: as soon as the lower agent processes any request of the higher one,
the roles are opposite. -/
theorem C30_resolved_by_request (s t : Sys) (h : s.Init) (hr : s.Reach t) (m : Msg) (hm : m ∈ t.netA)
    (r : Req) (hc : Carries m r) (hh : Heard t.b r) :
    (step t.b (.request r)).controlling ≠ t.a.controlling := by
  have hinv := reach_inv h hr
  obtain ⟨n, ctl, tb, p, u, x, d, rfl, -⟩ := id hc
  have h1 := hinv.reqA _ _ _ _ _ _ _ (Or.inr hm)
  have hstep : step t.b (.request r) = handleRequest t.b r := by
    show request t.b r = _
    unfold request
    rw [hh.1]; rfl
  rcases hinv.roleB (o := .request r) ⟨_, hm, hc⟩ with e | ⟨-, e⟩
  · by_cases hsame : t.b.controlling = t.a.controlling
    · exfalso
      obtain ⟨i, hi⟩ := hh.find
      obtain ⟨n', ctl', tb', p', u', s', d', e', h2, h3, h4, -⟩ := hc
      cases e'
      have hconf : r.conflictTieBreaker t.b.controlling = some tb := by
        unfold Req.conflictTieBreaker
        rw [h3, h4, hsame, hinv.roleA, h1.2]
        cases s.a.controlling <;> rfl
      have hlt : ¬ tb ≤ t.b.tieBreaker := by have := hinv.tie; omega
      rw [hstep] at e
      unfold handleRequest at e
      rw [hh.1] at e
      simp only [hi, hconf, hlt, if_false, ne_eq, not_true] at e
      simp only [findRemote_controlling, switchRole_not] at e
      cases hb : t.b.controlling <;> simp [hb] at e
    · rw [e]; exact hsame
  · rw [e, hinv.roleA]
    cases s.a.controlling <;> simp

/-- Convergence by a 487 reply: if the lower agent receives a role conflict reply of the higher
agent for a check it still remembers, the roles are opposite. -/
theorem C30_resolved_by_reply (s t : Sys) (h : s.Init) (hr : s.Reach t) (n : Nat)
    (hm : .roleConflict n ∈ t.netA) (p : Pair) (hp : p ∈ t.b.pairs) (x : Attempt) (hx : x ∈ p.attempts)
    (hn : x.trans = n) : (step t.b (.error n 487)).controlling ≠ t.a.controlling := by
  have hinv := reach_inv h hr
  rcases hinv.roleB (o := .error n 487) (fun _ => hm) with e | ⟨-, e⟩
  · by_cases hsame : t.b.controlling = t.a.controlling
    · exfalso
      have e' : (errorResponse t.b n 487).controlling = t.b.controlling := e
      unfold errorResponse at e'
      rw [if_neg (by simp)] at e'
      have hsome : (t.b.pairs.findSome? (fun p => p.bindingAttempt n)).isSome := by
        rw [List.findSome?_isSome_iff]
        refine ⟨p, hp, ?_⟩
        unfold Pair.bindingAttempt
        rw [List.find?_isSome]
        exact ⟨x, hx, by simp [hn]⟩
      obtain ⟨y, hy⟩ := Option.isSome_iff_exists.1 hsome
      obtain ⟨q, hq, hqy⟩ := List.exists_of_findSome?_eq_some hy
      have hmy := mem_bindingAttempt hqy
      obtain ⟨tb, pr, u, z, d, hreq⟩ := hinv.confA n (Or.inr hm)
      have hctl := (hinv.att q hq y hmy.1).2 _ tb pr u z d (by rw [hmy.2]; exact Or.inr hreq)
      have hyc : y.controlling = t.b.controlling := by rw [← hctl, hsame, hinv.roleA]
      simp only [hy, hyc, ne_eq, not_true, if_false, switchRole_not] at e'
      cases hb : t.b.controlling <;> simp [hb] at e'
    · rw [e]; exact hsame
  · rw [e, hinv.roleA]
    cases s.a.controlling <;> simp

/-- And the reply is sent: a request of the lower agent claiming the higher agent's role is
answered with a role conflict reply (and does not change the higher agent otherwise). -/
theorem C30_conflict_is_answered (s t : Sys) (h : s.Init) (hr : s.Reach t) (n tb prio : Nat) (use : Bool)
    (src dst : Addr) (hm : .request n t.a.controlling tb prio use src dst ∈ t.netB)
    (r : Req) (hc : Carries (.request n t.a.controlling tb prio use src dst) r) (hh : Heard t.a r) :
    step t.a (.request r) = { t.a with transmit := t.a.transmit ++ [.roleConflict n] } := by
  have hinv := reach_inv h hr
  have h1 := (hinv.reqB _ _ _ _ _ _ _ (Or.inr hm)).1
  obtain ⟨i, hi⟩ := hh.find
  obtain ⟨n', ctl', tb', p', u', s', d', e', h2, h3, h4, -⟩ := hc
  cases e'
  have hconf : r.conflictTieBreaker t.a.controlling = some tb := by
    unfold Req.conflictTieBreaker
    rw [h3, h4]
    cases t.a.controlling <;> rfl
  show request t.a r = _
  unfold request
  rw [hh.1]
  simp only [Option.isSome_some, if_true]
  unfold handleRequest
  rw [hh.1]
  have hle : tb ≤ t.a.tieBreaker := by have := hinv.tie; omega
  simp only [hi, hconf, hle, if_true, ne_eq, not_true, if_false, h2]

/-! ### concrete cases -/

/-- Both controlling; A has the higher tie breaker. -/
def sys0 (ta tb : Nat) : Sys :=
  { a := { controlling := true, tieBreaker := ta }, b := { controlling := true, tieBreaker := tb },
    netA := [], netB := [] }

example : (sys0 9 5).Init := ⟨⟨rfl, rfl, rfl, rfl, rfl, rfl⟩, ⟨rfl, rfl, rfl, rfl, rfl, rfl⟩, ⟨rfl, rfl, rfl, rfl⟩, by decide⟩

def setup (l r now : Nat) : List Op :=
  [ .setRemoteCreds 7, .addLocal defaultLocalPreference (hostCand l), .addRemote (hostCand r), .timeout now ]

/-- Executable actions of one side, with their side conditions, for concrete executions. -/
inductive Act where
  | op (o : Op) | recv (m : Msg) (r : Req) | conflict (n : Nat) | send

def carriesB (m : Msg) (r : Req) : Bool :=
  match m with
  | .request n ctl tb prio use _ _ => r.trans == n && r.iceControlling == (if ctl then some tb else Option.none) &&
      r.iceControlled == (if ctl then Option.none else some tb) && r.prio == prio && r.useCandidate == use
  | _ => false

def Act.apply (peer : List Msg) (x : Agent) (net : List Msg) : Act → Option (Agent × List Msg)
  | .op (.request _) => Option.none
  | .op (.error _ _) => Option.none
  | .op o => some (step x o, net)
  | .recv m r => if m ∈ peer ∧ carriesB m r = true then some (step x (.request r), net) else Option.none
  | .conflict n => if .roleConflict n ∈ peer then some (step x (.error n 487), net) else Option.none
  | .send => x.transmit.head?.map (fun m => (step x .pollTransmit, net ++ [m]))

theorem Act.half {peer : List Msg} {x : Agent} {net : List Msg} {act : Act} {x' : Agent} {net' : List Msg}
    (h : act.apply peer x net = some (x', net')) : Half peer x net x' net' := by
  unfold Act.apply at h
  split at h
  · cases h
  · cases h
  · rename_i o h1 h2
    cases h
    refine .op o ?_
    cases o <;> first | trivial | exact absurd rfl (h1 _) | exact absurd rfl (h2 _ _)
  · rename_i m r
    split at h
    · rename_i hc
      cases h
      refine .op _ ⟨m, hc.1, ?_⟩
      have := hc.2
      unfold carriesB at this
      split at this
      · simp only [Bool.and_eq_true, beq_iff_eq] at this
        obtain ⟨⟨⟨⟨e1, e2⟩, e3⟩, e4⟩, e5⟩ := this
        exact ⟨_, _, _, _, _, _, _, rfl, e1, e2, e3, e4, e5⟩
      · cases this
    · cases h
  · split at h
    · rename_i hc
      cases h
      exact .op _ (fun _ => hc)
    · cases h
  · obtain ⟨m, hm, e⟩ := Option.map_eq_some_iff.1 h
    cases e
    exact .send m hm

/-- Run actions; `true` is agent A. -/
def exec (s : Sys) : List (Bool × Act) → Option Sys
  | [] => some s
  | (true, act) :: rest => (act.apply s.netB s.a s.netA).bind (fun x => exec { s with a := x.1, netA := x.2 } rest)
  | (false, act) :: rest => (act.apply s.netA s.b s.netB).bind (fun x => exec { s with b := x.1, netB := x.2 } rest)

theorem exec_reach {acts : List (Bool × Act)} : ∀ {s t : Sys}, exec s acts = some t → s.Reach t := by
  induction acts with
  | nil => intro s t h; cases h; exact .refl s
  | cons ba rest ih =>
    intro s t h
    obtain ⟨b, act⟩ := ba
    cases b with
    | true =>
      simp only [exec] at h
      obtain ⟨x, hx, h⟩ := Option.bind_eq_some_iff.1 h
      exact (Sys.Reach.step (.refl s) (.left _ _ (Act.half hx))).trans (ih h)
    | false =>
      simp only [exec] at h
      obtain ⟨x, hx, h⟩ := Option.bind_eq_some_iff.1 h
      exact (Sys.Reach.step (.refl s) (.right _ _ (Act.half hx))).trans (ih h)

def reqAtA (tb : Nat) : Req :=
  { now := 1020, proto := .udp, source := adr 2, destination := adr 1, trans := 0, prio := 1862270719,
    useCandidate := false, remoteUfrag := 7, iceControlling := some tb, iceControlled := Option.none }
def reqAtB (ta : Nat) : Req := { reqAtA ta with source := adr 1, destination := adr 2 }
def msgA (ta : Nat) : Msg := .request 0 true ta 1862270719 false (adr 1) (adr 2)
def msgB (tb : Nat) : Msg := .request 0 true tb 1862270719 false (adr 2) (adr 1)

/-- Both agents send their first check. -/
def firstChecks : List (Bool × Act) :=
  (setup 1 2 1000).map (fun o => (true, .op o)) ++ (setup 2 1 1000).map (fun o => (false, .op o)) ++
    [(true, .send), (false, .send)]

-- the hypotheses of the convergence theorems are met by the first messages
example : Carries (msgA 9) (reqAtB 9) := ⟨0, true, 9, _, _, _, _, rfl, rfl, rfl, rfl, rfl, rfl⟩
example : (exec (sys0 9 5) firstChecks).any (fun s => decide (s.netA = [msgA 9]) && decide (s.netB = [msgB 5]) &&
    decide (s.b.remoteCreds = some (reqAtB 9).remoteUfrag) && s.b.locals.any (arrivesOn (reqAtB 9))) = true := by
  decide +kernel
-- B switches when it processes A's request
example : (exec (sys0 9 5) (firstChecks ++ [(false, .recv (msgA 9) (reqAtB 9))])).any
    (fun s => s.a.controlling && !s.b.controlling) = true := by decide +kernel
-- A answers B's request with 487, which makes B switch; the late request of A changes nothing
example : (exec (sys0 9 5) (firstChecks ++ [(true, .recv (msgB 5) (reqAtA 5)), (true, .send), (false, .conflict 0),
    (false, .recv (msgA 9) (reqAtB 9)), (false, .conflict 0)])).any
    (fun s => s.a.controlling && !s.b.controlling) = true := by decide +kernel

/-- With equal tie breakers the conflict is not resolved: both agents send 487, both switch. -/
theorem C30_violation_equal_tie_breakers :
    ∃ s t : Sys, s.a.tieBreaker = s.b.tieBreaker ∧ s.Reach t ∧
      s.a.controlling = true ∧ s.b.controlling = true ∧
      t.a.controlling = false ∧ t.b.controlling = false := by
  have h : (exec (sys0 5 5) (firstChecks ++ [(true, .recv (msgB 5) (reqAtA 5)), (false, .recv (msgA 5) (reqAtB 5)),
    (true, .send), (false, .send), (true, .conflict 0), (false, .conflict 0)])).any
    (fun s => !s.a.controlling && !s.b.controlling) = true := by decide +kernel
  obtain ⟨h1, hp⟩ := (Option.any_eq_true_iff_get _ _).1 h
  have ht := (Option.some_get h1).symm
  generalize Option.get _ h1 = t at hp ht
  refine ⟨sys0 5 5, t, rfl, exec_reach ht, rfl, rfl, ?_⟩
  simpa using hp

end Str0m.Ice
