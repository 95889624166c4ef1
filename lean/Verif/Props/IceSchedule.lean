import Verif.Proofs.IcePairs
/-
  C32: when checks are repeated and when a pair is given up.
-/
namespace Str0m.Ice

/-- The peer sent a request on this pair within the last 15 seconds. -/
def HeardRecently (p : Pair) (now : Nat) : Prop := ∃ r, p.remoteReqTime = some r ∧ now - r < 15000

/-- Given up: as many unanswered attempts as configured, nothing else, and the final wait after
the last one has passed. -/
def Exhausted (p : Pair) (now : Nat) (t : Timing) : Prop :=
  p.attempts.length = t.maxRetransmits ∧ (∀ x ∈ p.attempts, x.resp = Option.none) ∧
  ∃ last, p.attempts.getLast? = some last ∧ last.sent + t.resendDelay t.maxRetransmits ≤ now

/-- Every wait is bounded by the maximum RTO. -/
theorem C32_delay_bounded (t : Timing) (n : Nat) : t.resendDelay n ≤ t.maxRto := by
  unfold Timing.resendDelay; split <;> omega

/-- The wait doubles from the initial RTO up to the cap. -/
theorem C32_delay_value (t : Timing) (n : Nat) (h1 : 1 ≤ n) (h2 : n ≤ t.maxRetransmits + 1) :
    t.resendDelay n = min (t.initialRto * 2 ^ (n - 1)) t.maxRto := by
  unfold Timing.resendDelay
  have e : min (n - 1) t.maxRetransmits = n - 1 := by omega
  rw [if_neg (by omega), e]

theorem resendDelay_mono (t : Timing) {m n : Nat} (h : m ≤ n) : t.resendDelay m ≤ t.resendDelay n := by
  unfold Timing.resendDelay
  by_cases hm : m = 0
  · simp [hm]
  · rw [if_neg hm, if_neg (by omega)]
    have h1 : min (m - 1) t.maxRetransmits ≤ min (n - 1) t.maxRetransmits := by omega
    have h2 : 2 ^ (min (m - 1) t.maxRetransmits) ≤ 2 ^ (min (n - 1) t.maxRetransmits) :=
      Nat.pow_le_pow_right (by omega) h1
    have h3 := Nat.mul_le_mul_left t.initialRto h2
    omega

/-- The next check of a pair is never scheduled further away than the maximum RTO. -/
theorem C32_next_bounded (p : Pair) (now : Nat) (t : Timing) (hc : p.cached = Option.none) :
    (p.nextBindingAttempt now t).2 ≤ now + t.maxRto := by
  simp only [Pair.nextBindingAttempt, hc, Pair.nextAttemptTime]
  omega

theorem recent_iff (p : Pair) (now : Nat) : p.recentRequest now = true ↔ HeardRecently p now := by
  unfold Pair.recentRequest HeardRecently recentBindingRequest
  cases p.remoteReqTime <;> simp

theorem takeWhile_self_iff {α : Type} (q : α → Bool) (l : List α) :
    l.takeWhile q = l ↔ ∀ x ∈ l, q x = true := by
  induction l with
  | nil => simp
  | cons x xs ih =>
    by_cases h : q x = true
    · simp [h, ih]
    · simp only [List.takeWhile_cons, h]
      constructor
      · intro e; cases e
      · intro e; exact absurd (e x (by simp)) h

theorem takeWhile_all_length {α : Type} (q : α → Bool) (l : List α) :
    (l.takeWhile q).length = l.length ↔ ∀ x ∈ l, q x = true := by
  constructor
  · intro h
    have e : l.takeWhile q = l := (List.takeWhile_prefix q).eq_of_length h
    exact (takeWhile_self_iff q l).1 e
  · intro h
    rw [(takeWhile_self_iff q l).2 h]

theorem unanswered_count (p : Pair) : (p.unanswered.map (·.1)).getD 0 = p.unansweredRun.length := by
  unfold Pair.unanswered
  cases h : p.unansweredRun with
  | nil => simp
  | cons x xs => simp [List.getLast?_cons]

/-- A pair counts as failed exactly when all configured attempts were made, none of the recorded
ones was answered, the final wait is over, and the peer has not been heard recently. -/
theorem C32_failed_iff (p : Pair) (now : Nat) (t : Timing) (ht : t.maxRetransmits ≠ 0)
    (hl : p.attempts.length ≤ t.maxRetransmits) :
    p.isStillPossible now t = some false ↔ (¬ HeardRecently p now ∧ Exhausted p now t) := by
  have hrun : p.unansweredRun.length ≤ p.attempts.length := by
    have := (List.takeWhile_prefix (fun a : Attempt => a.resp.isNone) (l := p.attempts.reverse)).length_le
    simpa [Pair.unansweredRun] using this
  have hall : p.unansweredRun.length = p.attempts.length ↔ ∀ x ∈ p.attempts, x.resp = Option.none := by
    have := takeWhile_all_length (fun a : Attempt => a.resp.isNone) p.attempts.reverse
    simpa [Pair.unansweredRun] using this
  unfold Pair.isStillPossible
  rw [unanswered_count]
  dsimp only
  split
  · rename_i hr
    rw [recent_iff] at hr
    simp [hr]
  · rename_i hr
    rw [recent_iff] at hr
    split
    · rename_i hlt
      constructor
      · intro h; cases h
      · rintro ⟨-, e1, e2, -⟩
        rw [← hall] at e2
        omega
    · rename_i hge
      split
      · rename_i last hlast
        simp only [Pair.lastAttemptTime, Option.map_eq_some_iff] at hlast
        obtain ⟨x, hx, rfl⟩ := hlast
        simp only [Option.some.injEq, decide_eq_false_iff_not, Nat.not_lt]
        constructor
        · intro h
          exact ⟨hr, by omega, hall.1 (by omega), x, hx, h⟩
        · rintro ⟨-, -, -, y, hy, h⟩
          rw [hx] at hy
          obtain rfl := Option.some.inj hy
          exact h
      · rename_i hlast
        simp only [Pair.lastAttemptTime, Option.map_eq_none_iff, List.getLast?_eq_none_iff] at hlast
        simp [hlast] at hge
        omega

/-! ### the schedule over histories -/

/-- Consecutive attempts are separated by at least the scheduled wait: the wait after the
first is `resendDelay 1`, after the second `resendDelay 2`, ... -/
def Spaced (t : Timing) (as : List Attempt) : Prop :=
  ∀ i x y, as[i]? = some x → as[i+1]? = some y → x.sent + t.resendDelay (i + 1) ≤ y.sent

/-- Invariant of a pair; `clock` is the latest time seen. -/
structure Sched (t : Timing) (clock : Nat) (p : Pair) : Prop where
  len : p.attempts.length ≤ t.maxRetransmits
  past : ∀ x ∈ p.attempts, x.sent ≤ clock
  started : p.attempts ≠ [] → p.state ≠ .waiting
  silent : p.state ≠ .succeeded → ∀ x ∈ p.attempts, x.resp = Option.none
  spaced : p.state ≠ .succeeded → p.nom = .none → Spaced t p.attempts
  cached : p.state ≠ .succeeded → p.nom = .none → ∀ c last, p.cached = some c →
    p.attempts.getLast? = some last → c = last.sent + t.resendDelay p.attempts.length

theorem next_unanswered {t : Timing} {clock now : Nat} {p : Pair} (h : Sched t clock p) (hc : clock ≤ now)
    (hs : p.state ≠ .succeeded) (hn : p.nom = .none) {last : Attempt}
    (hl : p.attempts.getLast? = some last) :
    (p.nextBindingAttempt now t).2 = last.sent + t.resendDelay p.attempts.length := by
  unfold Pair.nextBindingAttempt
  split
  · rename_i c hcached
    exact h.cached hs hn c last hcached hl
  · have hall := h.silent hs
    have hrun : p.unansweredRun = p.attempts.reverse := by
      rw [Pair.unansweredRun, takeWhile_self_iff]
      intro x hx
      simp [hall x (List.mem_reverse.1 hx)]
    have hp := h.past last (List.mem_of_getLast? hl)
    have hb := C32_delay_bounded t p.attempts.length
    have hcount : p.unanswered = Option.none ∨ ∃ s, p.unanswered = some (p.attempts.length, s) := by
      unfold Pair.unanswered
      rw [hrun]
      cases p.attempts.reverse.getLast? with
      | none => exact Or.inl rfl
      | some y => exact Or.inr ⟨y.sent, by simp⟩
    unfold Pair.nextAttemptTime Pair.lastAttemptTime
    rw [hl]
    rcases hcount with e | ⟨s, e⟩
    · rw [e]; simp only [hn, reduceCtorEq, if_false, Option.map_some]; omega
    · rw [e]; simp only [hn, reduceCtorEq, if_false, Option.map_some, ite_self]; omega

theorem Spaced.drop {t : Timing} {as : List Attempt} (h : Spaced t as) (k : Nat) : Spaced t (as.drop k) := by
  intro i x y hx hy
  rw [List.getElem?_drop] at hx hy
  have := h (k + i) x y hx (by rw [← hy]; congr 1)
  have m := resendDelay_mono t (m := i + 1) (n := k + i + 1) (by omega)
  omega

theorem Spaced.append {t : Timing} {as : List Attempt} (h : Spaced t as) (a : Attempt)
    (hl : ∀ last, as.getLast? = some last → last.sent + t.resendDelay as.length ≤ a.sent) :
    Spaced t (as ++ [a]) := by
  intro i x y hx hy
  rcases Nat.lt_trichotomy (i + 1) as.length with hlt | heq | hgt
  · rw [List.getElem?_append_left (by omega)] at hx
    rw [List.getElem?_append_left hlt] at hy
    exact h i x y hx hy
  · rw [List.getElem?_append_left (by omega)] at hx
    rw [List.getElem?_append_right (by omega)] at hy
    have : i + 1 - as.length = 0 := by omega
    rw [this] at hy
    simp at hy
    subst hy
    have := hl x (by rw [List.getLast?_eq_getElem?, ← hx]; congr 1; omega)
    rw [heq]; exact this
  · rw [List.getElem?_append_right (by omega)] at hy
    rw [List.getElem?_eq_none (by simp; omega)] at hy
    cases hy

theorem mem_updFirst {α : Type} {q : α → Bool} {f : α → α} {l : List α} {y : α} (h : y ∈ updFirst q f l) :
    y ∈ l ∨ ∃ x ∈ l, y = f x := by
  induction l with
  | nil => cases h
  | cons x xs ih =>
    simp only [updFirst] at h
    split at h
    · rcases List.mem_cons.1 h with rfl | h
      · exact Or.inr ⟨x, by simp, rfl⟩
      · exact Or.inl (by simp [h])
    · rcases List.mem_cons.1 h with rfl | h
      · exact Or.inl (by simp)
      · rcases ih h with h | ⟨z, hz, e⟩
        · exact Or.inl (by simp [h])
        · exact Or.inr ⟨z, by simp [hz], e⟩

theorem updFirst_length {α : Type} (q : α → Bool) (f : α → α) (l : List α) :
    (updFirst q f l).length = l.length := by
  induction l with
  | nil => rfl
  | cons x xs ih => simp only [updFirst]; split <;> simp [ih]

theorem sched_closed (t : Timing) (clock : Nat) :
    Closed (Sched t clock) t (fun now _ => now = clock) := by
  have fresh : ∀ id l r prio nom req, Sched t clock
      { id := id, localIdx := l, remoteIdx := r, prio := prio, nom := nom, remoteReqTime := req } := by
    intro id l r prio nom req
    refine ⟨by simp, by simp, by simp, by simp, ?_, by simp⟩
    intro _ _ i x y h; simp at h
  have cache : ∀ p now, now = clock → Sched t clock p →
      Sched t clock (p.nextBindingAttempt now t).1 := by
    intro p now hnow h
    have key := @next_unanswered t clock now p h (by omega)
    revert key
    unfold Pair.nextBindingAttempt
    split
    · intro _; exact h
    · intro key
      refine ⟨h.len, h.past, h.started, h.silent, h.spaced, ?_⟩
      intro hs hn c last hcached hl
      simp only [Option.some.injEq] at hcached
      rw [← hcached]
      exact key hs hn hl
  refine ⟨fun id l r prio => fresh id l r prio _ _, fresh, ?_, ?_, ?_, ?_, cache, ?_⟩
  · intro p x h; exact ⟨h.len, h.past, h.started, h.silent, h.spaced, h.cached⟩
  · intro p b h hn
    refine ⟨h.len, h.past, h.started, h.silent, ?_, ?_⟩ <;>
    · intro _ hn'
      simp only [Pair.nominate] at hn'
      split at hn' <;> cases hn'
  · intro p x h; exact ⟨h.len, h.past, h.started, h.silent, h.spaced, h.cached⟩
  · intro p now n v h hb
    have hne : p.attempts ≠ [] := by
      intro e; simp [Pair.bindingAttempt, e] at hb
    have hst : (p.recordResponse now n v).state = .succeeded := by
      have h1 := h.started hne
      simp only [Pair.recordResponse]
      cases hh : p.state <;> simp [hh] at h1 ⊢
    refine ⟨?_, ?_, ?_, ?_, ?_, ?_⟩
    · simp only [Pair.recordResponse, updFirst_length]; exact h.len
    · intro x hx
      rcases mem_updFirst hx with hx | ⟨y, hy, rfl⟩
      · exact h.past x hx
      · exact h.past y hy
    · intro _; rw [hst]; simp
    · intro hs; exact absurd hst hs
    · intro hs; exact absurd hst hs
    · intro hs; exact absurd hst hs
  · intro p now ctl n hnow h hd
    have hq := cache p now hnow h
    have key := @next_unanswered t clock now p h (by omega)
    have ea : (p.nextBindingAttempt now t).1.attempts = p.attempts := by
      unfold Pair.nextBindingAttempt; split <;> rfl
    have es : (p.nextBindingAttempt now t).1.state = p.state := by
      unfold Pair.nextBindingAttempt; split <;> rfl
    have en : (p.nextBindingAttempt now t).1.nom = p.nom := by
      unfold Pair.nextBindingAttempt; split <;> rfl
    generalize (p.nextBindingAttempt now t).2 = d at hd key
    generalize (p.nextBindingAttempt now t).1 = q at hq ea es en
    have hst : ∀ s : CheckState, (if s = .waiting then CheckState.inProgress else s) = .succeeded → s = .succeeded := by
      intro s; cases s <;> simp
    refine ⟨?_, ?_, ?_, ?_, ?_, ?_⟩
    · simp [Pair.newAttempt]; omega
    · intro x hx
      have := List.mem_of_mem_drop hx
      rcases List.mem_append.1 this with hx | hx
      · exact hq.past x hx
      · simp at hx; subst hx; simp; omega
    · intro _
      show (if q.state = .waiting then CheckState.inProgress else q.state) ≠ .waiting
      cases q.state <;> simp
    · intro hs x hx
      have hs' : q.state ≠ .succeeded := by
        intro e; apply hs
        show (if q.state = .waiting then CheckState.inProgress else q.state) = .succeeded
        rw [e]; rfl
      have := List.mem_of_mem_drop hx
      rcases List.mem_append.1 this with hx | hx
      · exact hq.silent hs' x hx
      · simp at hx; subst hx; rfl
    · intro hs hn
      have hs' : q.state ≠ .succeeded := by
        intro e; apply hs
        show (if q.state = .waiting then CheckState.inProgress else q.state) = .succeeded
        rw [e]; rfl
      have hn' : q.nom = .none := by
        have : (if q.nom = .nominated then Nom.attempt else q.nom) = .none := hn
        split at this
        · cases this
        · exact this
      refine (Spaced.append (hq.spaced hs' hn') _ ?_).drop _
      intro last hl
      have := key (by rw [← es]; exact hs') (by rw [← en]; exact hn') (by rw [← ea]; exact hl)
      rw [ea]
      simp only
      omega
    · intro _ _ c last hc
      simp [Pair.newAttempt] at hc

theorem Sched.mono {t : Timing} {c d : Nat} {p : Pair} (h : Sched t c p) (hcd : c ≤ d) : Sched t d p :=
  ⟨h.len, fun x hx => Nat.le_trans (h.past x hx) hcd, h.started, h.silent, h.spaced, h.cached⟩

/-- Time given to the operation, if it is a timeout. -/
def Op.time : Op → Option Nat
  | .timeout now => some now
  | _ => Option.none

/-- The clock never goes backwards within the history, starting from `c`. -/
def Monotone (c : Nat) : List Op → Prop
  | [] => True
  | op :: ops => c ≤ op.time.getD c ∧ Monotone (op.time.getD c) ops

theorem step_timing (a : Agent) (op : Op) : (step a op).timing = a.timing := by
  cases op with
  | addLocal pref c =>
    show (addLocal pref a c).timing = _
    unfold addLocal pushLocal
    repeat' split
    all_goals first | rfl | simp
    all_goals (repeat' split) <;> first | rfl | simp
  | addRemote c =>
    have h1 : ∀ ex c, (addRemoteAccepted.addIt a c ex).timing = a.timing := by
      intro ex c
      unfold addRemoteAccepted.addIt pairRemote
      repeat' split
      all_goals simp
    have h2 : (addRemoteAccepted a c).timing = a.timing := by
      unfold addRemoteAccepted
      dsimp only
      repeat' split
      all_goals first | rfl | exact h1 _ _
    show (addRemote a c).timing = _
    unfold addRemote
    repeat' split
    all_goals first | rfl | exact h2
  | invalidate c =>
    show (invalidate a c).timing = _
    unfold invalidate invalidateRemote
    repeat' split
    all_goals rfl
  | restart k => simp [step, iceRestart]
  | recreate => simp [step, recreatePairs]
  | setRemoteCreds u => rfl
  | setMaxPairs n => rfl
  | request req =>
    show (request a req).timing = _
    unfold request
    split
    · simp
    · rfl
  | response now t m =>
    show (response a now t m).timing = _
    unfold response
    repeat' split
    all_goals simp
  | error t c =>
    show (errorResponse a t c).timing = _
    unfold errorResponse
    repeat' split
    all_goals simp
  | timeout now =>
    show (timeout a now).timing = _
    unfold timeout
    dsimp only
    repeat' split
    all_goals simp
  | poll => simp [step]
  | pollTransmit => rfl

theorem step_lastNow0 (a : Agent) (op : Op) (hop : ∀ now, op ≠ .timeout now) : (step a op).lastNow = a.lastNow := by
  cases op with
  | addLocal pref c =>
    show (addLocal pref a c).lastNow = _
    unfold addLocal pushLocal
    repeat' split
    all_goals first | rfl | simp
    all_goals (repeat' split) <;> first | rfl | simp
  | addRemote c =>
    have h1 : ∀ ex c, (addRemoteAccepted.addIt a c ex).lastNow = a.lastNow := by
      intro ex c
      unfold addRemoteAccepted.addIt pairRemote
      repeat' split
      all_goals simp
    have h2 : (addRemoteAccepted a c).lastNow = a.lastNow := by
      unfold addRemoteAccepted
      dsimp only
      repeat' split
      all_goals first | rfl | exact h1 _ _
    show (addRemote a c).lastNow = _
    unfold addRemote
    repeat' split
    all_goals first | rfl | exact h2
  | invalidate c =>
    show (invalidate a c).lastNow = _
    unfold invalidate invalidateRemote
    repeat' split
    all_goals rfl
  | restart k => simp [step, iceRestart]
  | recreate => simp [step, recreatePairs]
  | setRemoteCreds u => rfl
  | setMaxPairs n => rfl
  | request req =>
    show (request a req).lastNow = _
    unfold request
    split
    · simp
    · rfl
  | response now t m =>
    show (response a now t m).lastNow = _
    unfold response
    repeat' split
    all_goals simp
  | error t c =>
    show (errorResponse a t c).lastNow = _
    unfold errorResponse
    repeat' split
    all_goals simp
  | timeout now => exact absurd rfl (hop now)
  | poll => simp [step]
  | pollTransmit => rfl

theorem step_lastNow (a : Agent) (op : Op) : (step a op).lastNow = a.lastNow ∨
    ∃ now, op = .timeout now ∧ (step a op).lastNow = some now := by
  by_cases h : ∃ now, op = .timeout now
  · obtain ⟨now, rfl⟩ := h
    show (timeout a now).lastNow = _ ∨ _
    by_cases e : (timeout a now).lastNow = a.lastNow
    · exact Or.inl e
    · refine Or.inr ⟨now, rfl, ?_⟩
      revert e
      show (timeout a now).lastNow ≠ a.lastNow → (timeout a now).lastNow = _
      unfold timeout
      dsimp only
      repeat' split
      all_goals simp
  · exact Or.inl (step_lastNow0 a op (fun now e => h ⟨now, e⟩))

theorem run_sched (ops : List Op) : ∀ (a : Agent) (c : Nat), Monotone c ops →
    a.lastNow.getD 0 ≤ c → All (Sched a.timing (a.lastNow.getD 0)) a.pairs →
    ∃ c', All (Sched a.timing c') (run a ops).pairs := by
  induction ops with
  | nil => intro a c _ _ h; exact ⟨_, h⟩
  | cons op ops ih =>
    intro a c hm hc h
    have hl := step_lastNow a op
    have hmono : a.lastNow.getD 0 ≤ (step a op).lastNow.getD 0 ∧
        (step a op).lastNow.getD 0 ≤ op.time.getD c := by
      rcases hl with e | ⟨now, rfl, e⟩
      · rw [e]; exact ⟨Nat.le_refl _, Nat.le_trans hc hm.1⟩
      · rw [e]; exact ⟨Nat.le_trans hc hm.1, Nat.le_refl _⟩
    have h1 : All (Sched a.timing ((step a op).lastNow.getD 0)) a.pairs := fun p hp => (h p hp).mono hmono.1
    have h2 := step_all (sched_closed a.timing ((step a op).lastNow.getD 0)) (op := op) rfl
      (by intro now _ e; rw [e]; exact ⟨rfl, fun _ => rfl⟩) (by rintro now rfl e; simp [step, e]) h1
    have e := step_timing a op
    rw [← e] at h2
    obtain ⟨c', h3⟩ := ih (step a op) _ hm.2 hmono.2 h2
    rw [e] at h3
    exact ⟨c', h3⟩

/-- In every history with a monotone clock: a pair on which no response was ever received and
that is not nominated has made at most the configured number of (remembered) attempts, all
unanswered, and its checks were never repeated earlier than scheduled. -/
theorem C32_never_early (a : Agent) (ops : List Op) (c : Nat) (h : Start a) (hm : Monotone c ops)
    (p : Pair) (hp : p ∈ (run a ops).pairs) (hs : p.state ≠ .succeeded) (hn : p.nom = .none) :
    p.attempts.length ≤ a.timing.maxRetransmits ∧ (∀ x ∈ p.attempts, x.resp = Option.none) ∧
    ∀ i x y, p.attempts[i]? = some x → p.attempts[i+1]? = some y →
      x.sent + a.timing.resendDelay (i + 1) ≤ y.sent := by
  obtain ⟨c', hc⟩ := run_sched ops a c hm (by rw [h.lastNow]; simp) (by intro p hp; rw [h.pairs] at hp; cases hp)
  have := hc p hp
  exact ⟨this.len, this.silent hs, this.spaced hs hn⟩

/-- The attempts of a pair never exceed the configured number. -/
theorem C32_attempts_bounded (a : Agent) (ops : List Op) (c : Nat) (h : Start a) (hm : Monotone c ops)
    (p : Pair) (hp : p ∈ (run a ops).pairs) : p.attempts.length ≤ a.timing.maxRetransmits := by
  obtain ⟨c', hc⟩ := run_sched ops a c hm (by rw [h.lastNow]; simp) (by intro p hp; rw [h.pairs] at hp; cases hp)
  exact (hc p hp).len

theorem spaced_sum {t : Timing} {as : List Attempt} (h : Spaced t as) :
    ∀ n x y, as[0]? = some x → as[n]? = some y →
      x.sent + ((List.range n).map (fun i => t.resendDelay (i + 1))).sum ≤ y.sent := by
  intro n
  induction n with
  | zero => intro x y hx hy; rw [hx] at hy; obtain rfl := Option.some.inj hy; simp
  | succ n ih =>
    intro x y hx hy
    have hlt : n < as.length := by
      rcases Nat.lt_or_ge (n+1) as.length with h | h
      · omega
      · rw [List.getElem?_eq_none h] at hy; cases hy
    have hz := List.getElem?_eq_getElem hlt
    have h1 := ih x _ hx hz
    have h2 := h n _ y hz hy
    rw [List.range_succ, List.map_append, List.sum_append]
    simp
    omega

/-- When such a pair is given up, at least the sum of all scheduled waits has passed since its
first attempt. -/
theorem C32_total_wait (a : Agent) (ops : List Op) (c : Nat) (h : Start a) (hm : Monotone c ops)
    (p : Pair) (hp : p ∈ (run a ops).pairs) (hs : p.state ≠ .succeeded) (hn : p.nom = .none)
    (now : Nat) (he : Exhausted p now a.timing) (first : Attempt) (hf : p.attempts.head? = some first) :
    first.sent + ((List.range a.timing.maxRetransmits).map (fun i => a.timing.resendDelay (i + 1))).sum
      ≤ now := by
  obtain ⟨-, -, hsp⟩ := C32_never_early a ops c h hm p hp hs hn
  obtain ⟨hlen, -, last, hlast, hend⟩ := he
  have hpos : a.timing.maxRetransmits ≠ 0 := by
    intro e; rw [e] at hlen; simp [List.length_eq_zero_iff.1 hlen] at hf
  obtain ⟨m, hm⟩ : ∃ m, a.timing.maxRetransmits = m + 1 := ⟨a.timing.maxRetransmits - 1, by omega⟩
  have h1 := spaced_sum hsp m first last (by rw [← List.head?_eq_getElem?]; exact hf)
    (by rw [← hlast, List.getLast?_eq_getElem?]; congr 1; omega)
  rw [hm] at hend ⊢
  rw [List.range_succ, List.map_append, List.sum_append]
  simp
  omega

end Str0m.Ice
