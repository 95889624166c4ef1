import Verif.Proofs.IceFrame2
/-
  The table invariant over every operation.
-/
namespace Str0m.Ice

/-- Sorted table whose pairs have distinct ids and refer to existing, live candidates. -/
structure Table (a : Agent) : Prop where
  sorted : Sorted a.pairs
  ok : Ok a.locals a.remotes a.nextId a.pairs

theorem Table.keys {a a' : Agent} (h : Table a) (hl : a'.locals = a.locals)
    (hr : a'.remotes = a.remotes) (hn : a'.nextId = a.nextId)
    (hk : a'.pairs.map Pair.key = a.pairs.map Pair.key) : Table a' :=
  ⟨h.sorted.keys hk, by rw [hl, hr, hn]; exact h.ok.keys hk⟩

theorem Live.append {cs : List Cand} {i : Nat} (h : Live cs i) (d : Cand) : Live (cs ++ [d]) i := by
  obtain ⟨c, e, hd⟩ := h
  refine ⟨c, ?_, hd⟩
  have : i < cs.length := by
    rcases Nat.lt_or_ge i cs.length with h | h
    · exact h
    · rw [List.getElem?_eq_none h] at e; cases e
  rw [List.getElem?_append_left this]; exact e

theorem Live.last (cs : List Cand) {d : Cand} (hd : d.discarded = false) :
    Live (cs ++ [d]) cs.length := ⟨d, by simp, hd⟩

theorem Live.set_ne {cs : List Cand} {i j : Nat} (h : Live cs i) (hij : j ≠ i) (d : Cand) :
    Live (cs.set j d) i := by
  obtain ⟨c, e, hd⟩ := h
  exact ⟨c, by rw [List.getElem?_set_ne hij]; exact e, hd⟩

theorem Live.lt {cs : List Cand} {i : Nat} (h : Live cs i) : i < cs.length := by
  obtain ⟨c, e, -⟩ := h
  rcases Nat.lt_or_ge i cs.length with h | h
  · exact h
  · rw [List.getElem?_eq_none h] at e; cases e

theorem Live.set_self {cs : List Cand} {i : Nat} (h : i < cs.length) {d : Cand}
    (hd : d.discarded = false) : Live (cs.set i d) i :=
  ⟨d, by simp [h], hd⟩

theorem Live.set_any {cs : List Cand} {i j : Nat} (h : Live cs i) {d : Cand}
    (hd : d.discarded = false) : Live (cs.set j d) i := by
  by_cases e : j = i
  · subst e; exact Live.set_self h.lt hd
  · exact h.set_ne e d

theorem formPairs_table {a : Agent} {is js : List Nat} (h : Ok a.locals a.remotes a.nextId a.pairs)
    (hi : ∀ i ∈ is, Live a.locals i) (hj : ∀ j ∈ js, Live a.remotes j) :
    Table (formPairs a is js) :=
  ⟨formPairs_sorted _ _ _, by
    have := formPairs_ok h hi hj
    simpa using this⟩

theorem pushLocal_table {a : Agent} {c : Cand} (h : Ok a.locals a.remotes a.nextId a.pairs)
    (hc : c.discarded = false) : Table (pushLocal a c) := by
  unfold pushLocal
  apply formPairs_table
  · exact ⟨h.ids, fun p hp => ⟨(h.each p hp).1, (h.each p hp).2.1.append c, (h.each p hp).2.2⟩⟩
  · intro i hi
    simp only [List.mem_singleton] at hi
    subst hi
    exact Live.last _ hc
  · intro j hj; exact liveSame_live hj

/-- Discarding the local candidate `idx` and its pairs. -/
theorem discardLocal_ok {a : Agent} {idx : Nat} {c : Cand}
    (h : Ok a.locals a.remotes a.nextId a.pairs) :
    Ok (a.locals.set idx c) a.remotes a.nextId (a.pairs.filter (fun p => p.localIdx != idx)) := by
  have h2 := h.sublist (List.filter_sublist (p := fun p => p.localIdx != idx) (l := a.pairs))
  refine ⟨h2.ids, fun p hp => ?_⟩
  have h3 := h2.each p hp
  have : idx ≠ p.localIdx := by
    have := (List.mem_filter.1 hp).2
    simp at this; omega
  exact ⟨h3.1, h3.2.1.set_ne this c, h3.2.2⟩

theorem discardRemote_ok {a : Agent} {idx : Nat} {c : Cand}
    (h : Ok a.locals a.remotes a.nextId a.pairs) :
    Ok a.locals (a.remotes.set idx c) a.nextId (a.pairs.filter (fun p => p.remoteIdx != idx)) := by
  have h2 := h.sublist (List.filter_sublist (p := fun p => p.remoteIdx != idx) (l := a.pairs))
  refine ⟨h2.ids, fun p hp => ?_⟩
  have h3 := h2.each p hp
  have : idx ≠ p.remoteIdx := by
    have := (List.mem_filter.1 hp).2
    simp at this; omega
  exact ⟨h3.1, h3.2.1, h3.2.2.set_ne this c⟩

theorem setLocal_ok {a : Agent} {idx : Nat} {c : Cand} (hc : c.discarded = false)
    (h : Ok a.locals a.remotes a.nextId a.pairs) :
    Ok (a.locals.set idx c) a.remotes a.nextId a.pairs :=
  ⟨h.ids, fun p hp => ⟨(h.each p hp).1, (h.each p hp).2.1.set_any hc, (h.each p hp).2.2⟩⟩

theorem setRemote_ok {a : Agent} {idx : Nat} {c : Cand} (hc : c.discarded = false)
    (h : Ok a.locals a.remotes a.nextId a.pairs) :
    Ok a.locals (a.remotes.set idx c) a.nextId a.pairs :=
  ⟨h.ids, fun p hp => ⟨(h.each p hp).1, (h.each p hp).2.1, (h.each p hp).2.2.set_any hc⟩⟩

theorem addLocal_table {pref : Cand → Nat → Option Nat} {a : Agent} {c : Cand} (h : Table a)
    (hc : c.discarded = false) : Table (addLocal pref a c) := by
  unfold addLocal
  split
  · exact h
  · split
    · exact ⟨h.sorted, h.ok⟩
    · dsimp only
      split
      · exact pushLocal_table h.ok hc
      · rename_i idx hidx
        split
        · exact ⟨h.sorted, h.ok⟩
        · rename_i other ho
          have hlt : idx < a.locals.length := by
            rcases Nat.lt_or_ge idx a.locals.length with h | h
            · exact h
            · rw [List.getElem?_eq_none h] at ho; cases ho
          split
          · apply formPairs_table
            · exact setLocal_ok rfl h.ok
            · intro i hi
              simp only [List.mem_singleton] at hi
              subst hi
              exact Live.set_self hlt rfl
            · intro j hj; exact liveSame_live hj
          · split
            · split
              · exact h
              · exact pushLocal_table (discardLocal_ok h.ok) hc
            · exact ⟨h.sorted, h.ok⟩

theorem pairRemote_table {a : Agent} {c : Cand} {idx : Nat}
    (h : Ok a.locals a.remotes a.nextId a.pairs) (hi : Live a.remotes idx) :
    Table (pairRemote a c idx) := by
  unfold pairRemote
  apply formPairs_table h
  · intro i hi; exact liveSame_live hi
  · intro j hj
    simp only [List.mem_singleton] at hj
    subst hj; exact hi

theorem findIdx?_lt {α : Type} {q : α → Bool} {l : List α} {i : Nat} (h : l.findIdx? q = some i) :
    i < l.length := by
  rw [List.findIdx?_eq_some_iff_getElem] at h
  exact h.1

theorem addRemoteAccepted_table {a : Agent} {c : Cand} (h : Table a) (hc : c.discarded = false) :
    Table (addRemoteAccepted a c) := by
  have key : ∀ ex : Option (Nat × Cand), (∀ i o, ex = some (i, o) → i < a.remotes.length) →
      Table (addRemoteAccepted.addIt a { c with ufrag := Option.none } ex) := by
    intro ex hex
    unfold addRemoteAccepted.addIt
    split
    · rename_i idx hidx
      exact pairRemote_table (setRemote_ok (c := { c with ufrag := Option.none }) hc h.ok)
        (Live.set_self (findIdx?_lt hidx) hc)
    · split
      · rename_i idx o
        exact pairRemote_table (setRemote_ok rfl h.ok) (Live.set_self (hex idx o rfl) rfl)
      · refine pairRemote_table ⟨h.ok.ids, fun p hp => ?_⟩ (Live.last _ hc)
        have := h.ok.each p hp
        exact ⟨this.1, this.2.1, this.2.2.append _⟩
  unfold addRemoteAccepted
  dsimp only
  split
  · rename_i i o hex
    split
    · exact h
    · apply key
      intro i o he
      simp only [Option.bind_eq_some_iff, Option.map_eq_some_iff, Prod.mk.injEq] at he
      obtain ⟨p, -, o', ho, rfl, -⟩ := he
      rcases Nat.lt_or_ge p.remoteIdx a.remotes.length with h | h
      · exact h
      · rw [List.getElem?_eq_none h] at ho; cases ho
  · rename_i hex
    apply key
    intro i o he
    rw [hex] at he
    cases he

theorem addRemote_table {a : Agent} {c : Cand} (h : Table a) (hc : c.discarded = false) :
    Table (addRemote a c) := by
  unfold addRemote
  split
  · exact h
  · split
    · split
      · exact h
      · exact addRemoteAccepted_table h hc
    · exact addRemoteAccepted_table h hc

theorem invalidateRemote_table {a : Agent} {c : Cand} (h : Table a) :
    Table (invalidateRemote a c) := by
  unfold invalidateRemote
  split
  · exact h
  · split
    · split
      · exact ⟨h.sorted.sublist List.filter_sublist, discardRemote_ok h.ok⟩
      · exact h
    · exact h

theorem invalidate_table {a : Agent} {c : Cand} (h : Table a) : Table (invalidate a c) := by
  unfold invalidate
  split
  · exact invalidateRemote_table h
  · split
    · split
      · exact ⟨h.sorted.sublist List.filter_sublist, discardLocal_ok h.ok⟩
      · exact invalidateRemote_table h
    · exact invalidateRemote_table h

theorem setState_table {a : Agent} {s : ConnState} (h : Table a) : Table (setState a s) := by
  apply h.keys <;> simp

theorem evalState_table {a : Agent} {now : Nat} (h : Table a) : Table (evalState a now) := by
  apply h.keys <;> simp

theorem evalNomination_table {a : Agent} (h : Table a) : Table (evalNomination a) := by
  apply h.keys <;> simp [evalNomination_keys]

theorem iceRestart_table {a : Agent} {k : Bool} : Table (iceRestart a k) := by
  unfold iceRestart
  apply setState_table
  exact ⟨List.Pairwise.nil, List.nodup_nil, by simp⟩

theorem recreate_table {a : Agent} : Table (recreatePairs a) := by
  unfold recreatePairs
  apply setState_table
  apply formPairs_table
  · exact ⟨List.nodup_nil, by simp⟩
  · intro i hi
    obtain ⟨c, e, h⟩ := mem_idxsWhere hi
    exact ⟨c, e, by simpa using h⟩
  · intro i hi
    obtain ⟨c, e, h⟩ := mem_idxsWhere hi
    exact ⟨c, e, by simpa using h⟩

theorem switchRole_table {a : Agent} {b : Bool} (h : Table a) : Table (switchRole a b) :=
  ⟨switchRole_sorted h.sorted, by simpa using switchRole_ok h.ok⟩

theorem answerRequest_table {a : Agent} {req : Req} {li ri : Nat} (h : Table a) :
    Table (answerRequest a req li ri) := by
  apply h.keys <;> simp [answerRequest_keys]

theorem ensurePair_table {a : Agent} {req : Req} {li ri : Nat} (h : Table a)
    (hr : Live a.remotes ri) : Table (ensurePair a req li ri) := by
  unfold ensurePair
  split
  · exact answerRequest_table h
  · split
    · rename_i l r hl hr'
      split
      · exact h
      · rename_i hd
        split
        · apply answerRequest_table
          refine ⟨sortPairs_sorted _, Ok.perm ?_ (sortPairs_perm _)⟩
          constructor
          · simp only [List.map_append, List.map_cons, List.map_nil]
            rw [List.nodup_append]
            refine ⟨h.ok.ids, by simp, ?_⟩
            intro x hx y hy
            obtain ⟨p, hp, rfl⟩ := List.mem_map.1 hx
            simp only [List.mem_singleton] at hy
            have := (h.ok.each p hp).1
            omega
          · intro p hp
            simp only [List.mem_append, List.mem_singleton] at hp
            rcases hp with hp | rfl
            · have := h.ok.each p hp
              exact ⟨Nat.lt_succ_of_lt this.1, this.2⟩
            · exact ⟨by simp, ⟨l, hl, by simpa using hd⟩, hr⟩
        · exact ⟨h.sorted, h.ok⟩
    · exact ⟨h.sorted, h.ok⟩

theorem findRemote_table {a : Agent} {req : Req} {li : Nat} (h : Table a) :
    Table (findRemote a req li) := by
  unfold findRemote
  split
  · exact h
  · split
    · rename_i ri c hm
      have := lastMax_spec hm
      apply ensurePair_table h
      refine ⟨c, this.1, ?_⟩
      have := this.2
      simp [liveFrom] at this
      exact this.1.1
    · split
      · exact h
      · apply ensurePair_table
        · refine ⟨h.sorted, h.ok.ids, fun p hp => ?_⟩
          have := h.ok.each p hp
          exact ⟨this.1, this.2.1, this.2.2.append _⟩
        · exact Live.last _ rfl

theorem handleRequest_table {a : Agent} {req : Req} (h : Table a) : Table (handleRequest a req) := by
  unfold handleRequest
  split
  · exact ⟨h.sorted, h.ok⟩
  · split
    · exact h
    · split
      · exact h
      · split
        · split
          · exact ⟨h.sorted, h.ok⟩
          · exact findRemote_table (switchRole_table h)
        · exact findRemote_table h

theorem request_table {a : Agent} {req : Req} (h : Table a) : Table (request a req) := by
  unfold request
  split
  · exact handleRequest_table h
  · exact ⟨h.sorted, h.ok⟩

@[simp] theorem recordOn_nextId' (a : Agent) (now t v : Nat) :
    (recordOn a now t v).nextId = a.nextId := by simp

theorem recordOn_table {a : Agent} {now t v : Nat} (h : Table a) : Table (recordOn a now t v) := by
  apply h.keys <;> simp [recordOn_keys]

theorem response_table {a : Agent} {now t : Nat} {m : Addr} (h : Table a) :
    Table (response a now t m) := by
  unfold response
  split
  · exact h
  · split
    · exact recordOn_table h
    · split
      · exact ⟨h.sorted, h.ok⟩
      · split
        · exact ⟨h.sorted, h.ok⟩
        · apply recordOn_table
          refine ⟨h.sorted, h.ok.ids, fun p hp => ?_⟩
          have := h.ok.each p hp
          exact ⟨this.1, this.2.1.append _, this.2.2⟩

theorem errorResponse_table {a : Agent} {t c : Nat} (h : Table a) : Table (errorResponse a t c) := by
  unfold errorResponse
  split
  · exact h
  · split
    · exact h
    · split
      · exact h
      · exact switchRole_table h

theorem pruneFailed_table {a : Agent} {now : Nat} (h : Table a) : Table (pruneFailed a now) := by
  have h1 := evalNomination_table h
  have h2 : ∀ cr : Bool, Table { evalNomination a with
      pairs := (evalNomination a).pairs.filter (keepPair (evalNomination a) now), crash := cr } :=
    fun cr => ⟨h1.sorted.sublist List.filter_sublist, h1.ok.sublist List.filter_sublist⟩
  unfold pruneFailed
  dsimp only
  split
  · exact h2 _
  · exact evalState_table (evalNomination_table (h2 _))

theorem timeoutChecks_table {a : Agent} {now : Nat} (h : Table a) : Table (timeoutChecks a now) := by
  apply h.keys <;> simp [timeoutChecks_keys]

theorem timeout_table {a : Agent} {now : Nat} (h : Table a) : Table (timeout a now) := by
  have h1 := evalState_table (now := now) h
  unfold timeout
  dsimp only
  split
  · split
    · exact handleRequest_table ⟨h1.sorted, h1.ok⟩
    · apply timeoutChecks_table
      apply pruneFailed_table
      exact ⟨h1.sorted, h1.ok⟩
  · apply timeoutChecks_table
    apply pruneFailed_table
    exact ⟨h1.sorted, h1.ok⟩

/-- Candidates handed to the agent by the user are not marked discarded (the flag is private
and false in every candidate a user can construct). -/
def Op.Fresh : Op → Prop
  | .addLocal _ c => c.discarded = false
  | .addRemote c => c.discarded = false
  | _ => True

theorem step_table {a : Agent} {op : Op} (h : Table a) (hop : op.Fresh) : Table (step a op) := by
  cases op with
  | addLocal pref c => exact addLocal_table h hop
  | addRemote c => exact addRemote_table h hop
  | invalidate c => exact invalidate_table h
  | restart k => exact iceRestart_table
  | recreate => exact recreate_table
  | setRemoteCreds u => exact ⟨h.sorted, h.ok⟩
  | setMaxPairs n => exact ⟨h.sorted, h.ok⟩
  | request r => exact request_table h
  | response now t m => exact response_table h
  | error t c => exact errorResponse_table h
  | timeout now => exact timeout_table h
  | poll => apply h.keys <;> simp [step, pollTimeout_keys]
  | pollTransmit => exact ⟨h.sorted, h.ok⟩

theorem run_table {a : Agent} {ops : List Op} (h : Table a) (hop : ∀ op ∈ ops, op.Fresh) :
    Table (run a ops) := by
  induction ops generalizing a with
  | nil => exact h
  | cons op ops ih =>
    exact ih (step_table h (hop op (by simp))) (fun o ho => hop o (by simp [ho]))

end Str0m.Ice
