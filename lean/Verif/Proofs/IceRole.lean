import Verif.Props.IcePoll
/-
  What one operation can do to the role, the transmit queue, the request queue and the recorded
  attempts of an agent. Used for C30.
-/
namespace Str0m.Ice

/-- The operation makes the agent process this request (directly or from its queue). -/
def Op.Processes (a : Agent) (op : Op) (r : Req) : Prop :=
  op = .request r ∨ ((∃ now, op = .timeout now) ∧ r ∈ a.queue)

/-- Only success replies are added. -/
def OnlySuccess (old new : List Msg) : Prop :=
  ∀ m ∈ new, m ∈ old ∨ ∃ t x, m = .success t x

theorem OnlySuccess.refl (l : List Msg) : OnlySuccess l l := fun _ h => Or.inl h

theorem answerRequest_sent (a : Agent) (req : Req) (li ri : Nat) :
    OnlySuccess a.transmit (answerRequest a req li ri).transmit := by
  unfold answerRequest
  split
  · exact OnlySuccess.refl _
  · intro m hm
    simp only [afterRequest_transmit, List.mem_append, List.mem_singleton] at hm
    rcases hm with hm | rfl
    · exact Or.inl hm
    · exact Or.inr ⟨_, _, rfl⟩

theorem ensurePair_sent (a : Agent) (req : Req) (li ri : Nat) :
    OnlySuccess a.transmit (ensurePair a req li ri).transmit := by
  unfold ensurePair
  split
  · exact answerRequest_sent _ _ _ _
  · split
    · split
      · exact OnlySuccess.refl _
      · split
        · exact answerRequest_sent { a with nextId := _, pairs := _ } req li ri
        · exact OnlySuccess.refl _
    · exact OnlySuccess.refl _

theorem findRemote_sent (a : Agent) (req : Req) (li : Nat) :
    OnlySuccess a.transmit (findRemote a req li).transmit := by
  unfold findRemote
  split
  · exact OnlySuccess.refl _
  · split
    · exact ensurePair_sent _ _ _ _
    · split
      · exact OnlySuccess.refl _
      · exact ensurePair_sent { a with remotes := _ } req li _

theorem handleRequest_sent (a : Agent) (req : Req) :
    ∀ m ∈ (handleRequest a req).transmit, m ∈ a.transmit ∨ (∃ t x, m = .success t x) ∨
      (m = .roleConflict req.trans ∧ ∃ tb, req.conflictTieBreaker a.controlling = some tb ∧ tb ≤ a.tieBreaker) := by
  intro m hm
  unfold handleRequest at hm
  split at hm
  · exact Or.inl hm
  · split at hm
    · exact Or.inl hm
    · split at hm
      · exact Or.inl hm
      · split at hm
        · rename_i tb htb
          split at hm
          · simp only [List.mem_append, List.mem_singleton] at hm
            rcases hm with hm | rfl
            · exact Or.inl hm
            · exact Or.inr (Or.inr ⟨rfl, tb, htb, by assumption⟩)
          · rcases findRemote_sent _ _ _ m hm with h | h
            · simp only [switchRole_transmit] at h
              exact Or.inl h
            · exact Or.inr (Or.inl h)
        · rcases findRemote_sent _ _ _ m hm with h | h
          · exact Or.inl h
          · exact Or.inr (Or.inl h)

theorem switchRole_not (a : Agent) : (switchRole a (!a.controlling)).controlling = !a.controlling := by
  unfold switchRole
  split
  · rename_i h; cases hc : a.controlling <;> simp [hc] at h
  · split <;> rfl

theorem handleRequest_role (a : Agent) (req : Req) :
    (handleRequest a req).controlling = a.controlling ∨
    ((handleRequest a req).controlling = !a.controlling ∧
      ∃ tb, req.conflictTieBreaker a.controlling = some tb ∧ a.tieBreaker < tb) := by
  unfold handleRequest
  split
  · exact Or.inl rfl
  · split
    · exact Or.inl rfl
    · split
      · exact Or.inl rfl
      · split
        · rename_i tb htb
          split
          · exact Or.inl rfl
          · rename_i hlt
            refine Or.inr ⟨?_, tb, htb, by omega⟩
            simp [switchRole_not]
        · exact Or.inl (by simp)

theorem mem_bindingAttempt {p : Pair} {n : Nat} {x : Attempt} (h : p.bindingAttempt n = some x) :
    x ∈ p.attempts ∧ x.trans = n := by
  unfold Pair.bindingAttempt at h
  exact ⟨List.mem_of_find?_eq_some h, by simpa using List.find?_some h⟩

/-- When the role changes, it is inverted, and either a request claiming our role with a higher
tie breaker was processed, or a 487 arrived for a recorded attempt made in our current role. -/
theorem step_role (a : Agent) (op : Op) :
    (step a op).controlling = a.controlling ∨
    ((step a op).controlling = !a.controlling ∧
      ((∃ r tb, op.Processes a r ∧ r.conflictTieBreaker a.controlling = some tb ∧ a.tieBreaker < tb) ∨
       (∃ n, op = .error n 487 ∧ ∃ p ∈ a.pairs, ∃ x ∈ p.attempts, x.trans = n ∧
         x.controlling = a.controlling))) := by
  cases op with
  | addLocal pref c =>
    left
    show (addLocal pref a c).controlling = _
    unfold addLocal pushLocal
    repeat' split
    all_goals first | rfl | simp
    all_goals (repeat' split) <;> first | rfl | simp
  | addRemote c =>
    left
    have h1 : ∀ ex c, (addRemoteAccepted.addIt a c ex).controlling = a.controlling := by
      intro ex c
      unfold addRemoteAccepted.addIt pairRemote
      repeat' split
      all_goals simp
    have h2 : (addRemoteAccepted a c).controlling = a.controlling := by
      unfold addRemoteAccepted
      dsimp only
      repeat' split
      all_goals first | rfl | exact h1 _ _
    show (addRemote a c).controlling = _
    unfold addRemote
    repeat' split
    all_goals first | rfl | exact h2
  | invalidate c =>
    left
    show (invalidate a c).controlling = _
    unfold invalidate invalidateRemote
    repeat' split
    all_goals rfl
  | restart k => left; simp [step, iceRestart]
  | recreate => left; simp [step, recreatePairs]
  | setRemoteCreds u => exact Or.inl rfl
  | setMaxPairs n => exact Or.inl rfl
  | request r =>
    show (request a r).controlling = _ ∨ ((request a r).controlling = _ ∧ _)
    unfold request
    split
    · rcases handleRequest_role a r with h | ⟨h, tb, h1, h2⟩
      · exact Or.inl h
      · exact Or.inr ⟨h, Or.inl ⟨r, tb, Or.inl rfl, h1, h2⟩⟩
    · exact Or.inl rfl
  | response now n m =>
    left
    show (response a now n m).controlling = _
    unfold response
    repeat' split
    all_goals simp
  | error n c =>
    show (errorResponse a n c).controlling = _ ∨ ((errorResponse a n c).controlling = _ ∧ _)
    unfold errorResponse
    split
    · exact Or.inl rfl
    · rename_i hc
      split
      · exact Or.inl rfl
      · rename_i x hx
        split
        · exact Or.inl rfl
        · rename_i hr
          obtain ⟨p, hp, hpx⟩ := List.exists_of_findSome?_eq_some hx
          have hm := mem_bindingAttempt hpx
          refine Or.inr ⟨switchRole_not a, Or.inr ⟨n, ?_, p, hp, x, hm.1, hm.2, ?_⟩⟩
          · have : c = 487 := by omega
            rw [this]
          · simpa using hr
  | timeout now =>
    show (timeout a now).controlling = _ ∨ ((timeout a now).controlling = _ ∧ _)
    unfold timeout
    dsimp only
    split
    · split
      · rename_i r rs hq
        have hmem : r ∈ a.queue := by
          have : r ∈ dropOld (evalState a now).timing.timeout now (evalState a now).queue := by
            rw [hq]; simp
          simpa using mem_dropOld this
        rcases handleRequest_role { evalState a now with queue := rs } r with h | ⟨h, tb, h1, h2⟩
        · exact Or.inl (by simpa using h)
        · refine Or.inr ⟨by simpa using h, Or.inl ⟨r, tb, Or.inr ⟨⟨now, rfl⟩, hmem⟩, ?_, ?_⟩⟩
          · simpa using h1
          · simpa using h2
      · exact Or.inl (by simp)
    · exact Or.inl (by simp)
  | poll => left; simp [step]
  | pollTransmit => exact Or.inl rfl

theorem step_tieBreaker (a : Agent) (op : Op) : (step a op).tieBreaker = a.tieBreaker := by
  cases op with
  | addLocal pref c =>
    show (addLocal pref a c).tieBreaker = _
    unfold addLocal pushLocal
    repeat' split
    all_goals first | rfl | simp
    all_goals (repeat' split) <;> first | rfl | simp
  | addRemote c =>
    have h1 : ∀ ex c, (addRemoteAccepted.addIt a c ex).tieBreaker = a.tieBreaker := by
      intro ex c
      unfold addRemoteAccepted.addIt pairRemote
      repeat' split
      all_goals simp
    have h2 : (addRemoteAccepted a c).tieBreaker = a.tieBreaker := by
      unfold addRemoteAccepted
      dsimp only
      repeat' split
      all_goals first | rfl | exact h1 _ _
    show (addRemote a c).tieBreaker = _
    unfold addRemote
    repeat' split
    all_goals first | rfl | exact h2
  | invalidate c =>
    show (invalidate a c).tieBreaker = _
    unfold invalidate invalidateRemote
    repeat' split
    all_goals rfl
  | restart k => simp [step, iceRestart]
  | recreate => simp [step, recreatePairs]
  | setRemoteCreds u => rfl
  | setMaxPairs n => rfl
  | request req =>
    show (request a req).tieBreaker = _
    unfold request
    split
    · simp
    · rfl
  | response now t m =>
    show (response a now t m).tieBreaker = _
    unfold response
    repeat' split
    all_goals simp
  | error t c =>
    show (errorResponse a t c).tieBreaker = _
    unfold errorResponse
    repeat' split
    all_goals simp
  | timeout now =>
    show (timeout a now).tieBreaker = _
    unfold timeout
    dsimp only
    repeat' split
    all_goals simp
  | poll => simp [step]
  | pollTransmit => rfl

theorem step_queue (a : Agent) (op : Op) : ∀ r ∈ (step a op).queue, r ∈ a.queue ∨ op = .request r := by
  cases op with
  | addLocal pref c =>
    intro r hr
    have e : (step a (.addLocal pref c)).queue = a.queue := (addLocal_length pref a c).2.2
    rw [e] at hr; exact Or.inl hr
  | addRemote c =>
    intro r hr
    have e : (step a (.addRemote c)).queue = a.queue := (addRemote_length a c).2.2
    rw [e] at hr; exact Or.inl hr
  | invalidate c =>
    intro r hr
    have e : (step a (.invalidate c)).queue = a.queue := (invalidate_length a c).2.2
    rw [e] at hr; exact Or.inl hr
  | restart k => intro r hr; left; simpa [step, iceRestart] using hr
  | recreate => intro r hr; left; simpa [step, recreatePairs] using hr
  | setRemoteCreds u => exact fun r h => Or.inl h
  | setMaxPairs n => exact fun r h => Or.inl h
  | request req =>
    show ∀ r ∈ (request a req).queue, _
    unfold request
    split
    · intro r hr; left; simpa using hr
    · intro r hr
      have := List.mem_of_mem_drop hr
      rcases List.mem_append.1 this with h1 | h1
      · exact Or.inl h1
      · simp at h1; subst h1; exact Or.inr rfl
  | response now t m =>
    intro r hr
    have : (response a now t m).queue = a.queue := by
      unfold response
      repeat' split
      all_goals simp
    left; rw [← this]; exact hr
  | error t c =>
    show ∀ r ∈ (errorResponse a t c).queue, _
    unfold errorResponse
    repeat' split
    all_goals (intro r hr; left; simpa using hr)
  | timeout now =>
    show ∀ r ∈ (timeout a now).queue, _
    unfold timeout
    dsimp only
    split
    · split
      · rename_i r rs hq
        intro x hx
        simp only [handleRequest_queue] at hx
        have : x ∈ dropOld (evalState a now).timing.timeout now (evalState a now).queue := by
          rw [hq]; simp [hx]
        have := mem_dropOld this
        simp at this
        exact Or.inl this
      · simp
    · intro r hr; left; simpa using hr
  | poll => intro r hr; left; simpa [step] using hr
  | pollTransmit => exact fun r h => Or.inl h

/-- The new message is a request with a new transaction number, our role and tie breaker. -/
def NewRequest (a : Agent) (m : Msg) : Prop :=
  ∃ prio use src dst, m = .request a.nextTrans a.controlling a.tieBreaker prio use src dst

theorem sendCheck_sent (a : Agent) (now i : Nat) :
    ((sendCheck a now i).nextTrans = a.nextTrans ∧ (sendCheck a now i).transmit = a.transmit ∧
      (sendCheck a now i).pairs = a.pairs) ∨
    ((sendCheck a now i).nextTrans = a.nextTrans + 1 ∧
      ∃ m, NewRequest a m ∧ (sendCheck a now i).transmit = a.transmit ++ [m]) := by
  unfold sendCheck
  split
  · exact Or.inl ⟨rfl, rfl, rfl⟩
  · split
    · split
      · exact Or.inl ⟨rfl, rfl, rfl⟩
      · exact Or.inr ⟨rfl, _, ⟨_, _, _, _, rfl⟩, rfl⟩
    · exact Or.inl ⟨rfl, rfl, rfl⟩

theorem timeoutChecks_sent (a : Agent) (now : Nat) :
    ((timeoutChecks a now).nextTrans = a.nextTrans ∧ (timeoutChecks a now).transmit = a.transmit) ∨
    ((timeoutChecks a now).nextTrans = a.nextTrans + 1 ∧
      ∃ m, NewRequest a m ∧ (timeoutChecks a now).transmit = a.transmit ++ [m]) := by
  unfold timeoutChecks
  split
  · exact Or.inl ⟨rfl, rfl⟩
  · split
    · exact Or.inl ⟨rfl, rfl⟩
    · unfold runChecks
      dsimp only
      split
      · exact Or.inl ⟨rfl, rfl⟩
      · split
        · rcases sendCheck_sent { a with pairs := a.pairs.map (fun p => (p.nextBindingAttempt now a.timing).1) } now _ with h | h
          · exact Or.inl ⟨h.1, h.2.1⟩
          · exact Or.inr h
        · exact Or.inl ⟨rfl, rfl⟩

/-- What one operation adds to the transmit queue. -/
theorem step_sent (a : Agent) (op : Op) :
    (a.nextTrans ≤ (step a op).nextTrans) ∧
    ∀ m ∈ (step a op).transmit, m ∈ a.transmit ∨ (∃ t x, m = .success t x) ∨
      (∃ r tb, op.Processes a r ∧ m = .roleConflict r.trans ∧
        r.conflictTieBreaker a.controlling = some tb ∧ tb ≤ a.tieBreaker) ∨
      (NewRequest a m ∧ (step a op).nextTrans = a.nextTrans + 1) := by
  have same : ∀ b : Agent, b.nextTrans = a.nextTrans → b.transmit = a.transmit →
      (a.nextTrans ≤ b.nextTrans) ∧
      ∀ m ∈ b.transmit, m ∈ a.transmit ∨ (∃ t x, m = .success t x) ∨
      (∃ r tb, op.Processes a r ∧ m = .roleConflict r.trans ∧
        r.conflictTieBreaker a.controlling = some tb ∧ tb ≤ a.tieBreaker) ∨
      (NewRequest a m ∧ b.nextTrans = a.nextTrans + 1) := by
    intro b h1 h2
    exact ⟨by rw [h1], fun m hm => Or.inl (by rw [← h2]; exact hm)⟩
  cases op with
  | addLocal pref c =>
    have key : (addLocal pref a c).nextTrans = a.nextTrans ∧ (addLocal pref a c).transmit = a.transmit := by
      unfold addLocal pushLocal
      repeat' split
      all_goals first | exact ⟨rfl, rfl⟩ | simp
      all_goals (repeat' split) <;> first | exact ⟨rfl, rfl⟩ | simp
    exact same _ key.1 key.2
  | addRemote c =>
    have h1 : ∀ ex c, (addRemoteAccepted.addIt a c ex).nextTrans = a.nextTrans ∧
        (addRemoteAccepted.addIt a c ex).transmit = a.transmit := by
      intro ex c
      unfold addRemoteAccepted.addIt pairRemote
      repeat' split
      all_goals simp
    have h2 : (addRemoteAccepted a c).nextTrans = a.nextTrans ∧ (addRemoteAccepted a c).transmit = a.transmit := by
      unfold addRemoteAccepted
      dsimp only
      repeat' split
      all_goals first | exact ⟨rfl, rfl⟩ | exact h1 _ _
    have key : (addRemote a c).nextTrans = a.nextTrans ∧ (addRemote a c).transmit = a.transmit := by
      unfold addRemote
      repeat' split
      all_goals first | exact ⟨rfl, rfl⟩ | exact h2
    exact same _ key.1 key.2
  | invalidate c =>
    have key : (invalidate a c).nextTrans = a.nextTrans ∧ (invalidate a c).transmit = a.transmit := by
      unfold invalidate invalidateRemote
      repeat' split
      all_goals exact ⟨rfl, rfl⟩
    exact same _ key.1 key.2
  | restart k =>
    refine ⟨by simp [step, iceRestart], ?_⟩
    intro m hm
    simp [step, iceRestart] at hm
  | recreate => exact same _ (by simp [step, recreatePairs]) (by simp [step, recreatePairs])
  | setRemoteCreds u => exact same _ rfl rfl
  | setMaxPairs n => exact same _ rfl rfl
  | request r =>
    show (a.nextTrans ≤ (request a r).nextTrans) ∧ ∀ m ∈ (request a r).transmit, _ ∨ _ ∨ _ ∨ (_ ∧ (request a r).nextTrans = _)
    unfold request
    split
    · refine ⟨by simp, ?_⟩
      intro m hm
      rcases handleRequest_sent a r m hm with h | h | ⟨h, tb, h1, h2⟩
      · exact Or.inl h
      · exact Or.inr (Or.inl h)
      · exact Or.inr (Or.inr (Or.inl ⟨r, tb, Or.inl rfl, h, h1, h2⟩))
    · exact same _ rfl rfl
  | response now n m =>
    have key : (response a now n m).nextTrans = a.nextTrans ∧ (response a now n m).transmit = a.transmit := by
      unfold response
      repeat' split
      all_goals first | exact ⟨rfl, rfl⟩ | simp
    exact same _ key.1 key.2
  | error n c =>
    have key : (errorResponse a n c).nextTrans = a.nextTrans ∧ (errorResponse a n c).transmit = a.transmit := by
      unfold errorResponse
      repeat' split
      all_goals first | exact ⟨rfl, rfl⟩ | simp
    exact same _ key.1 key.2
  | timeout now =>
    have key : ∀ b : Agent, b = timeout a now →
        (a.nextTrans ≤ b.nextTrans) ∧ ∀ m ∈ b.transmit, m ∈ a.transmit ∨ (∃ t x, m = .success t x) ∨
        (∃ r tb, (Op.timeout now).Processes a r ∧ m = .roleConflict r.trans ∧
          r.conflictTieBreaker a.controlling = some tb ∧ tb ≤ a.tieBreaker) ∨
        (NewRequest a m ∧ b.nextTrans = a.nextTrans + 1) := by
      intro b hb
      unfold timeout at hb
      dsimp only at hb
      have tail : ∀ x : Agent, x.nextTrans = a.nextTrans → x.transmit = a.transmit →
          x.controlling = a.controlling → x.tieBreaker = a.tieBreaker → b = timeoutChecks x now →
          (a.nextTrans ≤ b.nextTrans) ∧ ∀ m ∈ b.transmit, m ∈ a.transmit ∨ (∃ t x, m = .success t x) ∨
          (∃ r tb, (Op.timeout now).Processes a r ∧ m = .roleConflict r.trans ∧
            r.conflictTieBreaker a.controlling = some tb ∧ tb ≤ a.tieBreaker) ∨
          (NewRequest a m ∧ b.nextTrans = a.nextTrans + 1) := by
        intro x h1 h2 h3 h4 hx
        subst hx
        rcases timeoutChecks_sent x now with ⟨e1, e2⟩ | ⟨e1, m, hm, e2⟩
        · rw [e1, e2, h1, h2]
          exact ⟨Nat.le_refl _, fun m hm => Or.inl hm⟩
        · rw [e1, e2, h1, h2]
          refine ⟨Nat.le_succ _, ?_⟩
          intro y hy
          rcases List.mem_append.1 hy with hy | hy
          · exact Or.inl hy
          · simp only [List.mem_singleton] at hy
            subst hy
            refine Or.inr (Or.inr (Or.inr ⟨?_, rfl⟩))
            obtain ⟨p, u, s, d, rfl⟩ := hm
            exact ⟨p, u, s, d, by rw [h1, h3, h4]⟩
      split at hb
      · split at hb
        · rename_i r rs hq
          subst hb
          have hmem : r ∈ a.queue := by
            have : r ∈ dropOld (evalState a now).timing.timeout now (evalState a now).queue := by
              rw [hq]; simp
            simpa using mem_dropOld this
          refine ⟨by simp, ?_⟩
          intro m hm
          rcases handleRequest_sent _ r m hm with h | h | ⟨h, tb, h1, h2⟩
          · exact Or.inl (by simpa using h)
          · exact Or.inr (Or.inl h)
          · exact Or.inr (Or.inr (Or.inl ⟨r, tb, Or.inr ⟨⟨now, rfl⟩, hmem⟩, h, by simpa using h1, by simpa using h2⟩))
        · exact tail _ (by simp) (by simp) (by simp) (by simp) hb
      · exact tail _ (by simp) (by simp) (by simp) (by simp) hb
    exact key _ rfl
  | poll => exact same _ (by simp [step]) (by simp [step])
  | pollTransmit =>
    exact ⟨Nat.le_refl _, fun m hm => Or.inl (List.mem_of_mem_drop hm)⟩

end Str0m.Ice
