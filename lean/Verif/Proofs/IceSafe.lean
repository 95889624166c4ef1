import Verif.Proofs.IceInv
import Verif.Props.IcePrio
/-
  The agent never panics: no lookup fails, no `assert!`/`unwrap` is violated.
-/
namespace Str0m.Ice

structure Safe (a : Agent) : Prop where
  table : Table a
  prio : PrioOk a
  timing : a.timing.maxRetransmits ≠ 0
  crash : a.crash = false

theorem stillPossible_isSome {p : Pair} {now : Nat} {t : Timing} (h : t.maxRetransmits ≠ 0) :
    (p.isStillPossible now t).isSome := by
  unfold Pair.isStillPossible
  dsimp only
  split
  · rfl
  · split
    · rfl
    · rename_i hn
      split
      · rfl
      · rename_i hl
        simp only [Pair.lastAttemptTime, Option.map_eq_none_iff, List.getLast?_eq_none_iff] at hl
        simp [hl] at hn
        omega

theorem possibleCrash_false {a : Agent} {now : Nat} (h : a.timing.maxRetransmits ≠ 0) :
    possibleCrash a now = false := by
  simp only [possibleCrash, List.any_eq_false]
  intro p _
  have := stillPossible_isSome (p := p) (now := now) h
  simp [Option.isSome_iff_ne_none] at this ⊢
  exact this

theorem evalState_crash {a : Agent} {now : Nat} (h : a.timing.maxRetransmits ≠ 0) :
    (evalState a now).crash = a.crash := by
  simp [evalState, possibleCrash_false h]

theorem choosePair_crash {a : Agent} {i : Nat} {b : Pair} (ht : Table a) (h : a.pairs[i]? = some b) :
    (choosePair a i b).crash = a.crash := by
  obtain ⟨l, el, -⟩ := (ht.ok.each b (List.mem_of_getElem? h)).2.1
  obtain ⟨r, er, -⟩ := (ht.ok.each b (List.mem_of_getElem? h)).2.2
  simp [choosePair, el, er]

theorem evalNomination_crash {a : Agent} (ht : Table a) :
    (evalNomination a).crash = a.crash := by
  unfold evalNomination
  split
  · rfl
  · rename_i i b h
    split
    · rfl
    · exact choosePair_crash ht (lastMax_spec h).1

theorem sendCheck_crash {a : Agent} {now i : Nat} (hs : Safe a) (hi : i < a.pairs.length) :
    (sendCheck a now i).crash = false := by
  have hp : a.pairs[i]? = some a.pairs[i] := List.getElem?_eq_getElem hi
  obtain ⟨l, lp, el, elp⟩ := live_prio (hs.table.ok.each _ (List.mem_of_getElem? hp)).2.1
    (b := true) (fun c hc => (hs.prio.l c hc).2)
  obtain ⟨r, er, -⟩ := (hs.table.ok.each _ (List.mem_of_getElem? hp)).2.2
  simp [sendCheck, hp, el, er, elp, hs.crash, hs.timing]

theorem firstMin_lt {l : List Nat} {i x : Nat} (h : firstMin l = some (i, x)) : i < l.length := by
  induction l generalizing i x with
  | nil => simp [firstMin] at h
  | cons y ys ih =>
    simp only [firstMin] at h
    split at h
    · simp only [Option.some.injEq, Prod.mk.injEq] at h; simp; omega
    · rename_i j z hj
      have := ih hj
      split at h <;> simp only [Option.some.injEq, Prod.mk.injEq] at h <;> simp <;> omega

theorem Safe.of {a a' : Agent} (h : Safe a) (ht : Table a') (hl : a'.locals = a.locals)
    (hr : a'.remotes = a.remotes) (hti : a'.timing = a.timing) (hc : a'.crash = false) : Safe a' :=
  ⟨ht, ⟨by rw [hl]; exact h.prio.l, by rw [hr]; exact h.prio.r⟩, by rw [hti]; exact h.timing, hc⟩

theorem runChecks_safe {a : Agent} {now : Nat} (h : Safe a) : Safe (runChecks a now) := by
  refine h.of (h.table.keys ?_ ?_ ?_ (runChecks_keys a now)) ?_ ?_ ?_ ?_ <;> try simp
  unfold runChecks
  dsimp only
  split
  · exact h.crash
  · rename_i i d hm
    split
    · have hs : Safe { a with pairs := a.pairs.map (fun p => (p.nextBindingAttempt now a.timing).1) } :=
        h.of (h.table.keys rfl rfl rfl (map_keys (fun p => nextBindingAttempt_key p _ _) _))
          rfl rfl rfl h.crash
      apply sendCheck_crash hs
      have := firstMin_lt hm
      simpa using this
    · exact h.crash

theorem timeoutChecks_safe {a : Agent} {now : Nat} (h : Safe a) : Safe (timeoutChecks a now) := by
  unfold timeoutChecks
  dsimp only
  split
  · exact h
  · split
    · exact h.of (h.table.keys rfl rfl rfl (map_keys (fun p => by split <;> rfl) _)) rfl rfl rfl h.crash
    · exact runChecks_safe h

theorem evalState_safe {a : Agent} {now : Nat} (h : Safe a) : Safe (evalState a now) :=
  h.of (evalState_table h.table) (by simp) (by simp) (by simp) (by rw [evalState_crash h.timing, h.crash])

theorem evalNomination_safe {a : Agent} (h : Safe a) : Safe (evalNomination a) :=
  h.of (evalNomination_table h.table) (by simp) (by simp) (by simp)
    (by rw [evalNomination_crash h.table, h.crash])

theorem pruneFailed_safe {a : Agent} {now : Nat} (h : Safe a) : Safe (pruneFailed a now) := by
  have h1 := evalNomination_safe h
  have h2 : Safe { evalNomination a with
      pairs := (evalNomination a).pairs.filter (keepPair (evalNomination a) now)
      crash := (evalNomination a).crash || (!(evalNomination a).iceLite && possibleCrash (evalNomination a) now) } :=
    ⟨⟨h1.table.sorted.sublist List.filter_sublist, h1.table.ok.sublist List.filter_sublist⟩,
      ⟨h1.prio.l, h1.prio.r⟩, h1.timing, by simp [h1.crash, possibleCrash_false h1.timing]⟩
  unfold pruneFailed
  dsimp only
  split
  · exact h2
  · exact evalState_safe (evalNomination_safe h2)

theorem switchRole_safe {a : Agent} {b : Bool} (h : Safe a) : Safe (switchRole a b) :=
  h.of (switchRole_table h.table) (by simp) (by simp) (by simp)
    (switchRole_crash h.prio h.table.ok h.crash)

theorem afterRequest_safe {a : Agent} {p : Pair} (h : Safe a) : Safe (afterRequest a p) := by
  unfold afterRequest
  split
  · exact evalNomination_safe h
  · exact h

theorem answerRequest_safe {a : Agent} {req : Req} {li ri : Nat} (h : Safe a)
    (hp : a.pairs.any (isPair li ri) = true) : Safe (answerRequest a req li ri) := by
  have ht := answerRequest_table (req := req) (li := li) (ri := ri) h.table
  unfold answerRequest at ht ⊢
  split at ht
  · rename_i hn
    rw [List.find?_eq_none] at hn
    simp only [List.any_eq_true] at hp
    obtain ⟨p, hm, hq⟩ := hp
    exact absurd hq (hn p hm)
  · rename_i p hf
    have h1 : Safe { a with pairs := updFirst (isPair li ri) (fun _ => requested a req p) a.pairs } :=
      h.of (h.table.keys rfl rfl rfl (updFirst_const_keys hf (requested_key _ _ _))) rfl rfl rfl h.crash
    have h2 := afterRequest_safe (p := requested a req p) h1
    exact ⟨⟨h2.table.sorted, h2.table.ok⟩, ⟨h2.prio.l, h2.prio.r⟩, h2.timing, h2.crash⟩

theorem ensurePair_safe {a : Agent} {req : Req} {li ri : Nat} (h : Safe a) (hl : li < a.locals.length)
    (hr : Live a.remotes ri) : Safe (ensurePair a req li ri) := by
  have ht := ensurePair_table (req := req) (li := li) h.table hr
  unfold ensurePair at ht ⊢
  obtain ⟨r, rp, er, erp⟩ := live_prio hr h.prio.r
  have el : a.locals[li]? = some a.locals[li] := List.getElem?_eq_getElem hl
  obtain ⟨lp, elp⟩ := Option.isSome_iff_exists.1 (h.prio.l _ (List.mem_of_getElem? el)).1
  by_cases hp : a.pairs.any (isPair li ri) = true
  · rw [if_pos hp]; exact answerRequest_safe h hp
  · rw [if_neg hp] at ht ⊢
    simp only [el, er, elp, erp] at ht ⊢
    by_cases hd : a.locals[li].discarded = true
    · rw [if_pos hd]; exact h
    · rw [if_neg hd] at ht ⊢
      apply answerRequest_safe
      · refine h.of ⟨sortPairs_sorted _, Ok.perm ?_ (sortPairs_perm _)⟩ rfl rfl rfl h.crash
        constructor
        · simp only [List.map_append, List.map_cons, List.map_nil]
          rw [List.nodup_append]
          refine ⟨h.table.ok.ids, by simp, ?_⟩
          intro x hx y hy
          obtain ⟨p, hp, rfl⟩ := List.mem_map.1 hx
          simp only [List.mem_singleton] at hy
          have := (h.table.ok.each p hp).1
          omega
        · intro p hp
          simp only [List.mem_append, List.mem_singleton] at hp
          rcases hp with hp | rfl
          · have := h.table.ok.each p hp
            exact ⟨Nat.lt_succ_of_lt this.1, this.2⟩
          · exact ⟨by simp, ⟨_, el, by simpa using hd⟩, hr⟩
      · rw [List.any_eq_true]
        exact ⟨{ id := a.nextId, localIdx := li, remoteIdx := ri, prio := calculatePrio a.controlling rp lp },
          (sortPairs_perm _).symm.subset (by simp), by simp [isPair]⟩

theorem prflx_prio (req : Req) : ((prflxOf req).doPrio false).isSome := by simp [prflxOf, Cand.doPrio]

theorem findRemote_safe {a : Agent} {req : Req} {li : Nat} (h : Safe a) (hl : li < a.locals.length) :
    Safe (findRemote a req li) := by
  unfold findRemote
  split
  · exact h
  · split
    · rename_i ri c hm
      have := lastMax_spec hm
      apply ensurePair_safe h hl
      refine ⟨c, this.1, ?_⟩
      have := this.2
      simp [liveFrom] at this
      exact this.1.1
    · split
      · exact h
      · apply ensurePair_safe
        · refine ⟨⟨h.table.sorted, h.table.ok.ids, fun p hp => ?_⟩, ⟨h.prio.l, ?_⟩, h.timing, h.crash⟩
          · have := h.table.ok.each p hp
            exact ⟨this.1, this.2.1, this.2.2.append _⟩
          · intro c hc
            simp only [List.mem_append, List.mem_singleton] at hc
            rcases hc with hc | rfl
            · exact h.prio.r c hc
            · exact prflx_prio req
        · exact hl
        · exact Live.last _ rfl

theorem handleRequest_safe {a : Agent} {req : Req} (h : Safe a) (hr : a.remoteCreds.isSome) :
    Safe (handleRequest a req) := by
  unfold handleRequest
  split
  · rename_i hn; simp [hn] at hr
  · split
    · exact h
    · split
      · exact h
      · rename_i li hli
        have hlt := findIdx?_lt hli
        split
        · split
          · exact ⟨⟨h.table.sorted, h.table.ok⟩, ⟨h.prio.l, h.prio.r⟩, h.timing, h.crash⟩
          · exact findRemote_safe (switchRole_safe h) (by simpa using hlt)
        · exact findRemote_safe h hlt

theorem recordOn_safe {a : Agent} {now t v : Nat} (h : Safe a) : Safe (recordOn a now t v) := by
  unfold recordOn
  dsimp only
  have h1 : Safe { a with pairs := (updFirst (fun p => (p.bindingAttempt t).isSome)
      (fun p => p.recordResponse now t v) a.pairs) } :=
    h.of (h.table.keys rfl rfl rfl (updFirst_keys (fun p _ => recordResponse_key p _ _ _) _))
      rfl rfl rfl h.crash
  split
  · exact evalState_safe (evalNomination_safe h1)
  · exact evalState_safe h1

theorem response_safe {a : Agent} {now t : Nat} {m : Addr} (h : Safe a) : Safe (response a now t m) := by
  unfold response
  split
  · exact h
  · rename_i pair hp
    split
    · exact recordOn_safe h
    · have hm := List.mem_of_find?_eq_some hp
      obtain ⟨l, lp, el, elp⟩ := live_prio (h.table.ok.each _ hm).2.1
        (b := true) (fun c hc => (h.prio.l c hc).2)
      simp only [el, elp]
      apply recordOn_safe
      refine ⟨⟨h.table.sorted, h.table.ok.ids, fun p hp => ?_⟩, ⟨?_, h.prio.r⟩, h.timing, h.crash⟩
      · have := h.table.ok.each p hp
        exact ⟨this.1, this.2.1.append _, this.2.2⟩
      · intro c hc
        simp only [List.mem_append, List.mem_singleton] at hc
        rcases hc with hc | rfl
        · exact h.prio.l c hc
        · simp [localPrflx, Cand.doPrio]

theorem pushLocal_safe {a : Agent} {c : Cand} (h : Ok a.locals a.remotes a.nextId a.pairs)
    (hp : PrioOk a) (ht : a.timing.maxRetransmits ≠ 0) (hcr : a.crash = false)
    (hc : c.discarded = false) (hcp : (c.doPrio false).isSome ∧ (c.doPrio true).isSome) :
    Safe (pushLocal a c) := by
  have h1 := pushLocal_table h hc
  have hp' : PrioOk { a with locals := a.locals ++ [c] } := by
    refine ⟨?_, hp.r⟩
    intro d hd
    simp only [List.mem_append, List.mem_singleton] at hd
    rcases hd with hd | rfl
    · exact hp.l d hd
    · exact hcp
  unfold pushLocal at h1 ⊢
  refine ⟨h1, ⟨by simpa using hp'.l, by simpa using hp'.r⟩, by simpa using ht, ?_⟩
  apply formPairs_crash hp' hcr
  · intro i hi
    simp only [List.mem_singleton] at hi
    subst hi
    exact Live.last _ hc
  · intro j hj; exact liveSame_live hj

theorem doPrio_discarded (c : Cand) (d b : Bool) : ({ c with discarded := d }).doPrio b = c.doPrio b := rfl

theorem set_prio {cs : List Cand} {i : Nat} {c : Cand} {q : Cand → Prop} (h : ∀ c ∈ cs, q c) (hc : q c) :
    ∀ d ∈ cs.set i c, q d := by
  intro d hd
  rcases List.mem_or_eq_of_mem_set hd with hd | rfl
  · exact h d hd
  · exact hc

theorem addLocal_safe {pref : Cand → Nat → Option Nat} {a : Agent} {c : Cand} (h : Safe a)
    (hc : c.discarded = false)
    (hp : ∃ p, pref c (sameKindCount a c) = some p ∧
      (({ c with localPref := some p }).doPrio false).isSome ∧
      (({ c with localPref := some p }).doPrio true).isSome) : Safe (addLocal pref a c) := by
  obtain ⟨p, hp, hd⟩ := hp
  unfold addLocal
  split
  · exact h
  · simp only [hp]
    split
    · exact pushLocal_safe h.table.ok h.prio h.timing h.crash hc hd
    · rename_i idx hidx
      have hlt := findIdx?_lt hidx
      have el : a.locals[idx]? = some a.locals[idx] := List.getElem?_eq_getElem hlt
      have hop := h.prio.l _ (List.mem_of_getElem? el)
      simp only [el]
      split
      · have ht := formPairs_table (a := { a with locals := a.locals.set idx { a.locals[idx] with discarded := false } })
          (is := [idx]) (js := idxsWhere (liveSame c.addr.v6) a.remotes) (setLocal_ok rfl h.table.ok)
          (by intro i hi
              simp only [List.mem_singleton] at hi
              subst hi
              exact Live.set_self hlt rfl) (fun j hj => liveSame_live hj)
        have hp' : PrioOk { a with locals := a.locals.set idx { a.locals[idx] with discarded := false } } :=
          ⟨set_prio h.prio.l hop, h.prio.r⟩
        refine ⟨ht, ⟨by simpa using hp'.l, by simpa using hp'.r⟩, by simpa using h.timing, ?_⟩
        apply formPairs_crash hp' h.crash
        · intro i hi
          simp only [List.mem_singleton] at hi
          subst hi
          exact Live.set_self hlt rfl
        · intro j hj; exact liveSame_live hj
      · obtain ⟨cp, hcp⟩ := Option.isSome_iff_exists.1 hd.1
        obtain ⟨op, hop'⟩ := Option.isSome_iff_exists.1 hop.1
        simp only [hcp, hop']
        split
        · exact h
        · refine pushLocal_safe (a := discardByLocal { a with locals := a.locals.set idx { a.locals[idx] with discarded := true } } idx)
            (discardLocal_ok h.table.ok) ?_ h.timing h.crash hc hd
          exact ⟨set_prio h.prio.l hop, h.prio.r⟩

theorem pairRemote_safe {a : Agent} {c : Cand} {idx : Nat} (h : Ok a.locals a.remotes a.nextId a.pairs)
    (hp : PrioOk a) (ht : a.timing.maxRetransmits ≠ 0) (hcr : a.crash = false)
    (hi : Live a.remotes idx) : Safe (pairRemote a c idx) := by
  have h1 := pairRemote_table (c := c) h hi
  unfold pairRemote at h1 ⊢
  refine ⟨h1, ⟨by simpa using hp.l, by simpa using hp.r⟩, by simpa using ht, ?_⟩
  apply formPairs_crash hp hcr
  · intro i hi; exact liveSame_live hi
  · intro j hj
    simp only [List.mem_singleton] at hj
    subst hj; exact hi

theorem addRemoteAccepted_safe {a : Agent} {c : Cand} (h : Safe a) (hc : c.discarded = false)
    (hcp : (c.doPrio false).isSome) : Safe (addRemoteAccepted a c) := by
  have key : ∀ ex : Option (Nat × Cand), (∀ i o, ex = some (i, o) → a.remotes[i]? = some o) →
      Safe (addRemoteAccepted.addIt a { c with ufrag := Option.none } ex) := by
    intro ex hex
    unfold addRemoteAccepted.addIt
    split
    · rename_i idx hidx
      exact pairRemote_safe (setRemote_ok (c := { c with ufrag := Option.none }) hc h.table.ok)
        ⟨h.prio.l, set_prio h.prio.r hcp⟩ h.timing h.crash (Live.set_self (findIdx?_lt hidx) hc)
    · split
      · rename_i idx o
        have ho := hex idx o rfl
        have hlt : idx < a.remotes.length := by
          rcases Nat.lt_or_ge idx a.remotes.length with h | h
          · exact h
          · rw [List.getElem?_eq_none h] at ho; cases ho
        exact pairRemote_safe (setRemote_ok rfl h.table.ok)
          ⟨h.prio.l, set_prio h.prio.r (h.prio.r o (List.mem_of_getElem? ho))⟩ h.timing h.crash
          (Live.set_self hlt rfl)
      · refine pairRemote_safe ⟨h.table.ok.ids, fun p hp => ?_⟩ ⟨h.prio.l, ?_⟩ h.timing h.crash (Live.last _ hc)
        · have := h.table.ok.each p hp
          exact ⟨this.1, this.2.1, this.2.2.append _⟩
        · intro d hd
          simp only [List.mem_append, List.mem_singleton] at hd
          rcases hd with hd | rfl
          · exact h.prio.r d hd
          · exact hcp
  unfold addRemoteAccepted
  dsimp only
  split
  · rename_i i o hex
    split
    · exact h
    · apply key
      intro i o he
      simp only [Option.bind_eq_some_iff, Option.map_eq_some_iff, Prod.mk.injEq] at he
      obtain ⟨p, -, o', ho, rfl, rfl⟩ := he
      exact ho
  · rename_i hex
    apply key
    intro i o he
    rw [hex] at he
    cases he

theorem addRemote_safe {a : Agent} {c : Cand} (h : Safe a) (hc : c.discarded = false)
    (hcp : (c.doPrio false).isSome) : Safe (addRemote a c) := by
  unfold addRemote
  split
  · exact h
  · split
    · split
      · exact h
      · exact addRemoteAccepted_safe h hc hcp
    · exact addRemoteAccepted_safe h hc hcp

theorem invalidateRemote_safe {a : Agent} {c : Cand} (h : Safe a) : Safe (invalidateRemote a c) := by
  have ht := invalidateRemote_table (c := c) h.table
  unfold invalidateRemote at ht ⊢
  split
  · exact h
  · split
    · rename_i o ho
      split
      · refine ⟨⟨h.table.sorted.sublist List.filter_sublist, discardRemote_ok h.table.ok⟩,
          ⟨h.prio.l, set_prio h.prio.r (h.prio.r o (List.mem_of_getElem? ho))⟩, h.timing, h.crash⟩
      · exact h
    · exact h

theorem invalidate_safe {a : Agent} {c : Cand} (h : Safe a) : Safe (invalidate a c) := by
  unfold invalidate
  split
  · exact invalidateRemote_safe h
  · split
    · rename_i o ho
      split
      · exact ⟨⟨h.table.sorted.sublist List.filter_sublist, discardLocal_ok h.table.ok⟩,
          ⟨set_prio h.prio.l (h.prio.l o (List.mem_of_getElem? ho)), h.prio.r⟩, h.timing, h.crash⟩
      · exact invalidateRemote_safe h
    · exact invalidateRemote_safe h

theorem timeout_safe {a : Agent} {now : Nat} (h : Safe a) : Safe (timeout a now) := by
  have h1 := evalState_safe (now := now) h
  have hq : ∀ (q : List Req) (l : Option Nat), Safe { evalState a now with queue := q, lastNow := l } := fun q l =>
    ⟨⟨h1.table.sorted, h1.table.ok⟩, ⟨h1.prio.l, h1.prio.r⟩, h1.timing, h1.crash⟩
  unfold timeout
  dsimp only
  split
  · rename_i hr
    split
    · exact handleRequest_safe (hq _ _) hr
    · exact timeoutChecks_safe (pruneFailed_safe (hq _ _))
  · exact timeoutChecks_safe (pruneFailed_safe (hq _ _))

/-- What a user must respect in a state: constructed candidates are not marked discarded, their
priority is computable (signalled, or RTP component with a legal local preference). -/
def Op.Legal (a : Agent) : Op → Prop
  | .addLocal pref c => c.discarded = false ∧ 1 ≤ c.componentId ∧ c.componentId ≤ 255 ∧
      ∃ p, pref c (sameKindCount a c) = some p ∧ p < 2^16
  | .addRemote c => c.discarded = false ∧ 1 ≤ c.componentId ∧ c.componentId ≤ 255 ∧
      c.localPref = Option.none
  | _ => True

theorem doPrio_isSome {c : Cand} (b : Bool) (h1 : 1 ≤ c.componentId) (h2 : c.componentId ≤ 255)
    (h3 : c.localPreference < 2^16) : (c.doPrio b).isSome := by
  cases hp : c.prio with
  | some p => simp [Cand.doPrio, hp]
  | none =>
    obtain ⟨p, e, -⟩ := C26_range c b ⟨hp, h3, h1, h2⟩
    simp [e]

theorem step_safe {a : Agent} {op : Op} (h : Safe a) (hop : op.Legal a) : Safe (step a op) := by
  cases op with
  | addLocal pref c =>
    obtain ⟨h1, h2, h3, p, hp, hlt⟩ := hop
    exact addLocal_safe h h1 ⟨p, hp, doPrio_isSome _ h2 h3 (by simpa [Cand.localPreference] using hlt),
      doPrio_isSome _ h2 h3 (by simpa [Cand.localPreference] using hlt)⟩
  | addRemote c =>
    obtain ⟨h1, h2, h3, h4⟩ := hop
    refine addRemote_safe h h1 (doPrio_isSome _ h2 h3 ?_)
    simp only [Cand.localPreference, h4, Option.getD_none]
    split <;> decide
  | invalidate c => exact invalidate_safe h
  | restart k =>
    refine ⟨iceRestart_table, ?_, ?_, ?_⟩
    · constructor
      · simp only [step, iceRestart, setState_locals]
        split
        · exact h.prio.l
        · simp
      · simp [step, iceRestart]
    · simpa [step, iceRestart] using h.timing
    · simpa [step, iceRestart] using h.crash
  | recreate =>
    refine ⟨recreate_table, ?_, ?_, ?_⟩
    · exact ⟨by simpa [step, recreatePairs] using h.prio.l, by simpa [step, recreatePairs] using h.prio.r⟩
    · simpa [step, recreatePairs] using h.timing
    · simp only [step, recreatePairs, setState_crash]
      refine formPairs_crash (a := { a with pairs := [] }) ⟨h.prio.l, h.prio.r⟩ h.crash ?_ ?_
      · intro i hi
        obtain ⟨c, e, h⟩ := mem_idxsWhere hi
        exact ⟨c, e, by simpa using h⟩
      · intro i hi
        obtain ⟨c, e, h⟩ := mem_idxsWhere hi
        exact ⟨c, e, by simpa using h⟩
  | setRemoteCreds u => exact ⟨⟨h.table.sorted, h.table.ok⟩, ⟨h.prio.l, h.prio.r⟩, h.timing, h.crash⟩
  | setMaxPairs n => exact ⟨⟨h.table.sorted, h.table.ok⟩, ⟨h.prio.l, h.prio.r⟩, h.timing, h.crash⟩
  | request r =>
    show Safe (request a r)
    unfold request
    split
    · rename_i hr; exact handleRequest_safe h hr
    · exact ⟨⟨h.table.sorted, h.table.ok⟩, ⟨h.prio.l, h.prio.r⟩, h.timing, h.crash⟩
  | response now t m => exact response_safe h
  | error t c =>
    show Safe (errorResponse a t c)
    unfold errorResponse
    split
    · exact h
    · split
      · exact h
      · split
        · exact h
        · exact switchRole_safe h
  | timeout now => exact timeout_safe h
  | poll =>
    exact ⟨by apply h.table.keys <;> simp [step, pollTimeout_keys],
      ⟨by simpa [step] using h.prio.l, by simpa [step] using h.prio.r⟩,
      by simpa [step] using h.timing, by simpa [step] using h.crash⟩
  | pollTransmit => exact ⟨⟨h.table.sorted, h.table.ok⟩, ⟨h.prio.l, h.prio.r⟩, h.timing, h.crash⟩

end Str0m.Ice
