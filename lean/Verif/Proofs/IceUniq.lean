import Verif.Proofs.IceSafe
/-
  Uniqueness of (local, remote) combinations and the size of the pair table.
-/
namespace Str0m.Ice

/-! ### uniqueness -/

/-- The operation does not add a remote candidate at the address of a peer reflexive candidate
that was discovered from a request before. -/
def Op.NoPrflxHit (a : Agent) : Op → Prop
  | .addRemote c => ∀ v ∈ a.remotes, isTempPrflx c v = false
  | _ => True

theorem pushLocal_uniq {a : Agent} {c : Cand} (h : Ok a.locals a.remotes a.nextId a.pairs)
    (hu : Uniq a.pairs) : Uniq (pushLocal a c).pairs := by
  unfold pushLocal
  apply formPairs_uniq (a := { a with locals := a.locals ++ [c] }) hu (by simp) (idxsWhere_nodup _ _)
  intro p hp hc
  have := (h.each p hp).2.1.lt
  simp at hc
  omega

theorem addLocal_uniq {pref : Cand → Nat → Option Nat} {a : Agent} {c : Cand} (h : Table a)
    (hu : Uniq a.pairs) : Uniq (addLocal pref a c).pairs := by
  unfold addLocal
  split
  · exact hu
  · split
    · exact hu
    · dsimp only
      split
      · exact pushLocal_uniq h.ok hu
      · rename_i idx hidx
        split
        · exact hu
        · rename_i other ho
          split
          · rename_i hd
            simp only [Bool.and_eq_true] at hd
            refine formPairs_uniq (a := { a with locals := a.locals.set idx { other with discarded := false } })
              hu (by simp) (idxsWhere_nodup _ _) ?_
            intro p hp hc
            obtain ⟨v, ev, hv⟩ := (h.ok.each p hp).2.1
            simp only [List.mem_singleton] at hc
            rw [hc.1, ho] at ev
            obtain rfl := Option.some.inj ev
            rw [hv] at hd
            simp at hd
          · split
            · split
              · exact hu
              · exact pushLocal_uniq
                  (a := discardByLocal { a with locals := a.locals.set idx { other with discarded := true } } idx)
                  (discardLocal_ok h.ok) (hu.sublist List.filter_sublist)
            · exact hu

theorem pairRemote_uniq {a : Agent} {c : Cand} {idx : Nat} (hu : Uniq a.pairs)
    (hn : ∀ p ∈ a.pairs, p.remoteIdx ≠ idx) : Uniq (pairRemote a c idx).pairs := by
  unfold pairRemote
  apply formPairs_uniq hu (idxsWhere_nodup _ _) (by simp)
  intro p hp hc
  simp only [List.mem_singleton] at hc
  exact hn p hp hc.2

theorem addRemoteAccepted_uniq {a : Agent} {c : Cand} (h : Table a) (hu : Uniq a.pairs)
    (hn : ∀ v ∈ a.remotes, isTempPrflx c v = false) : Uniq (addRemoteAccepted a c).pairs := by
  have hf : a.remotes.findIdx? (isTempPrflx { c with ufrag := Option.none }) = Option.none := by
    rw [List.findIdx?_eq_none_iff]
    intro v hv
    exact hn v hv
  have key : Uniq (addRemoteAccepted.addIt a { c with ufrag := Option.none } Option.none).pairs := by
    unfold addRemoteAccepted.addIt
    simp only [hf]
    refine pairRemote_uniq (a := { a with remotes := a.remotes ++ [{ c with ufrag := Option.none }] }) hu ?_
    intro p hp
    have := (h.ok.each p hp).2.2.lt
    omega
  unfold addRemoteAccepted
  dsimp only
  split
  · rename_i i o hex
    split
    · exact hu
    · rename_i hd
      simp only [Option.bind_eq_some_iff, Option.map_eq_some_iff, Prod.mk.injEq] at hex
      obtain ⟨p, hp, o', ho, rfl, rfl⟩ := hex
      obtain ⟨v, ev, hv⟩ := (h.ok.each p (List.mem_of_find?_eq_some hp)).2.2
      rw [ho] at ev
      obtain rfl := Option.some.inj ev
      simp [hv] at hd
  · rename_i hex
    rw [hex]; exact key

theorem addRemote_uniq {a : Agent} {c : Cand} (h : Table a) (hu : Uniq a.pairs)
    (hn : ∀ v ∈ a.remotes, isTempPrflx c v = false) : Uniq (addRemote a c).pairs := by
  unfold addRemote
  split
  · exact hu
  · split
    · split
      · exact hu
      · exact addRemoteAccepted_uniq h hu hn
    · exact addRemoteAccepted_uniq h hu hn

theorem invalidateRemote_uniq {a : Agent} {c : Cand} (hu : Uniq a.pairs) :
    Uniq (invalidateRemote a c).pairs := by
  unfold invalidateRemote
  split
  · exact hu
  · split
    · split
      · exact hu.sublist List.filter_sublist
      · exact hu
    · exact hu

theorem invalidate_uniq {a : Agent} {c : Cand} (hu : Uniq a.pairs) : Uniq (invalidate a c).pairs := by
  unfold invalidate
  split
  · exact invalidateRemote_uniq hu
  · split
    · split
      · exact hu.sublist List.filter_sublist
      · exact invalidateRemote_uniq hu
    · exact invalidateRemote_uniq hu

theorem ensurePair_uniq {a : Agent} {req : Req} {li ri : Nat} (hu : Uniq a.pairs) :
    Uniq (ensurePair a req li ri).pairs := by
  unfold ensurePair
  split
  · exact hu.keys (answerRequest_keys _ _ _ _)
  · rename_i hp
    split
    · split
      · exact hu
      · split
        · refine Uniq.keys ?_ (answerRequest_keys _ _ _ _)
          refine Uniq.perm ?_ (sortPairs_perm _)
          unfold Uniq
          simp only [List.map_append, List.map_cons, List.map_nil]
          rw [List.nodup_append]
          refine ⟨hu, by simp, ?_⟩
          intro x hx y hy
          obtain ⟨p, hm, rfl⟩ := List.mem_map.1 hx
          simp only [List.mem_singleton] at hy
          subst hy
          intro he
          apply hp
          rw [List.any_eq_true]
          simp only [Prod.mk.injEq] at he
          exact ⟨p, hm, by simp [isPair, he.1, he.2]⟩
        · exact hu
    · exact hu

theorem findRemote_uniq {a : Agent} {req : Req} {li : Nat} (hu : Uniq a.pairs) :
    Uniq (findRemote a req li).pairs := by
  unfold findRemote
  split
  · exact hu
  · split
    · exact ensurePair_uniq hu
    · split
      · exact hu
      · exact ensurePair_uniq (a := { a with remotes := a.remotes ++ [prflxOf req] }) hu

theorem handleRequest_uniq {a : Agent} {req : Req} (hu : Uniq a.pairs) :
    Uniq (handleRequest a req).pairs := by
  unfold handleRequest
  split
  · exact hu
  · split
    · exact hu
    · split
      · exact hu
      · split
        · split
          · exact hu
          · exact findRemote_uniq (switchRole_uniq hu)
        · exact findRemote_uniq hu

theorem pruneFailed_uniq {a : Agent} {now : Nat} (hu : Uniq a.pairs) :
    Uniq (pruneFailed a now).pairs := by
  have h1 : Uniq (evalNomination a).pairs := hu.keys (evalNomination_keys a)
  unfold pruneFailed
  dsimp only
  split
  · exact h1.sublist List.filter_sublist
  · rw [evalState_pairs]
    exact Uniq.keys (h1.sublist List.filter_sublist) (evalNomination_keys _)

theorem timeout_uniq {a : Agent} {now : Nat} (hu : Uniq a.pairs) : Uniq (timeout a now).pairs := by
  have h1 : Uniq (evalState a now).pairs := by simpa using hu
  unfold timeout
  dsimp only
  split
  · split
    · exact handleRequest_uniq (a := { evalState a now with queue := _ }) h1
    · exact Uniq.keys (pruneFailed_uniq (a := { evalState a now with queue := [], lastNow := some now }) h1)
        (timeoutChecks_keys _ _)
  · exact Uniq.keys (pruneFailed_uniq (a := { evalState a now with lastNow := some now }) h1) (timeoutChecks_keys _ _)

theorem recordOn_uniq {a : Agent} {now t v : Nat} (hu : Uniq a.pairs) : Uniq (recordOn a now t v).pairs :=
  hu.keys (recordOn_keys _ _ _ _)

theorem step_uniq {a : Agent} {op : Op} (h : Table a) (hu : Uniq a.pairs) (hop : op.NoPrflxHit a) :
    Uniq (step a op).pairs := by
  cases op with
  | addLocal pref c => exact addLocal_uniq h hu
  | addRemote c => exact addRemote_uniq h hu hop
  | invalidate c => exact invalidate_uniq hu
  | restart k => simp [step, iceRestart, Uniq]
  | recreate =>
    simp only [step, recreatePairs, setState_pairs]
    exact formPairs_uniq (a := { a with pairs := [] }) List.nodup_nil (idxsWhere_nodup _ _) (idxsWhere_nodup _ _) (by simp)
  | setRemoteCreds u => exact hu
  | setMaxPairs n => exact hu
  | request r =>
    show Uniq (request a r).pairs
    unfold request
    split
    · exact handleRequest_uniq hu
    · exact hu
  | response now t m =>
    show Uniq (response a now t m).pairs
    unfold response
    split
    · exact hu
    · split
      · exact recordOn_uniq hu
      · split
        · exact hu
        · split
          · exact hu
          · exact recordOn_uniq (a := { a with locals := _ }) hu
  | error t c =>
    show Uniq (errorResponse a t c).pairs
    unfold errorResponse
    split
    · exact hu
    · split
      · exact hu
      · split
        · exact hu
        · exact switchRole_uniq hu
  | timeout now => exact timeout_uniq hu
  | poll => exact hu.keys (pollTimeout_keys a)
  | pollTransmit => exact hu

/-! ### size -/

theorem keys_length {ps ps' : List Pair} (h : ps'.map Pair.key = ps.map Pair.key) :
    ps'.length = ps.length := by
  have := congrArg List.length h
  simpa using this

theorem ensurePair_length (a : Agent) (req : Req) (li ri : Nat) :
    (ensurePair a req li ri).pairs.length ≤ a.pairs.length + 1 := by
  unfold ensurePair
  split
  · rw [keys_length (answerRequest_keys _ _ _ _)]; omega
  · split
    · split
      · omega
      · split
        · rw [keys_length (answerRequest_keys _ _ _ _)]
          simp [(sortPairs_perm _).length_eq]
        · simp
    · simp

theorem findRemote_length (a : Agent) (req : Req) (li : Nat) :
    (findRemote a req li).pairs.length ≤ a.pairs.length + 1 := by
  unfold findRemote
  split
  · omega
  · split
    · exact ensurePair_length _ _ _ _
    · split
      · omega
      · exact ensurePair_length { a with remotes := a.remotes ++ [prflxOf req] } req li _

theorem handleRequest_length (a : Agent) (req : Req) :
    (handleRequest a req).pairs.length ≤ a.pairs.length + 1 := by
  unfold handleRequest
  split
  · simp
  · split
    · omega
    · split
      · omega
      · split
        · split
          · simp
          · rw [← switchRole_length a (!a.controlling)]
            exact findRemote_length _ _ _
        · exact findRemote_length _ _ _

theorem pruneFailed_length (a : Agent) (now : Nat) :
    (pruneFailed a now).pairs.length ≤ a.pairs.length := by
  have h1 := keys_length (evalNomination_keys a)
  unfold pruneFailed
  dsimp only
  split
  · have := List.length_filter_le (keepPair (evalNomination a) now) (evalNomination a).pairs
    show (List.filter _ _).length ≤ _
    omega
  · rw [evalState_pairs, keys_length (evalNomination_keys _)]
    have := List.length_filter_le (keepPair (evalNomination a) now) (evalNomination a).pairs
    show (List.filter _ _).length ≤ _
    omega

theorem dropOld_length (t now : Nat) (l : List Req) : (dropOld t now l).length ≤ l.length := by
  induction l with
  | nil => simp [dropOld]
  | cons r rs ih => simp only [dropOld]; split <;> (simp; try omega)

/-- The limit is never changed within the history. -/
def Op.KeepsMax : Op → Prop
  | .setMaxPairs _ => False
  | _ => True

/-- 1 for an incoming request, 0 otherwise. -/
def Op.requests : Op → Nat
  | .request _ => 1
  | _ => 0

theorem pushLocal_length (a : Agent) (c : Cand) : (pushLocal a c).pairs.length ≤ a.max :=
  formPairs_max _ _ _

theorem addLocal_length (pref : Cand → Nat → Option Nat) (a : Agent) (c : Cand) :
    (addLocal pref a c).pairs.length ≤ max a.max a.pairs.length ∧
    (addLocal pref a c).max = a.max ∧ (addLocal pref a c).queue = a.queue := by
  unfold addLocal
  split
  · exact ⟨by omega, rfl, rfl⟩
  · split
    · exact ⟨by simp, rfl, rfl⟩
    · dsimp only
      split
      · refine ⟨?_, by simp [Agent.max, pushLocal], by simp [pushLocal]⟩
        exact Nat.le_trans (pushLocal_length _ _) (Nat.le_max_left _ _)
      · split
        · exact ⟨by simp, rfl, rfl⟩
        · rename_i idx _ other _
          split
          · refine ⟨?_, by simp [Agent.max], by simp⟩
            exact Nat.le_trans (formPairs_max _ _ _) (Nat.le_max_left _ _)
          · split
            · split
              · exact ⟨by omega, rfl, rfl⟩
              · refine ⟨?_, by simp [Agent.max, pushLocal], by simp [pushLocal]⟩
                exact Nat.le_trans (pushLocal_length _ _) (Nat.le_max_left _ _)
            · exact ⟨by simp, rfl, rfl⟩

theorem pairRemote_length (a : Agent) (c : Cand) (i : Nat) : (pairRemote a c i).pairs.length ≤ a.max :=
  formPairs_max _ _ _

theorem addRemote_length (a : Agent) (c : Cand) :
    (addRemote a c).pairs.length ≤ max a.max a.pairs.length ∧
    (addRemote a c).max = a.max ∧ (addRemote a c).queue = a.queue := by
  have h1 : ∀ ex c, (addRemoteAccepted.addIt a c ex).pairs.length ≤ max a.max a.pairs.length ∧
      (addRemoteAccepted.addIt a c ex).max = a.max ∧ (addRemoteAccepted.addIt a c ex).queue = a.queue := by
    intro ex c
    unfold addRemoteAccepted.addIt
    split
    · exact ⟨Nat.le_trans (pairRemote_length _ _ _) (Nat.le_max_left _ _), by simp [Agent.max, pairRemote], by simp [pairRemote]⟩
    · split
      · exact ⟨Nat.le_trans (pairRemote_length _ _ _) (Nat.le_max_left _ _), by simp [Agent.max, pairRemote], by simp [pairRemote]⟩
      · exact ⟨Nat.le_trans (pairRemote_length _ _ _) (Nat.le_max_left _ _), by simp [Agent.max, pairRemote], by simp [pairRemote]⟩
  have h2 : (addRemoteAccepted a c).pairs.length ≤ max a.max a.pairs.length ∧
      (addRemoteAccepted a c).max = a.max ∧ (addRemoteAccepted a c).queue = a.queue := by
    unfold addRemoteAccepted
    dsimp only
    split
    · split
      · exact ⟨by omega, rfl, rfl⟩
      · exact h1 _ _
    · exact h1 _ _
  unfold addRemote
  split
  · exact ⟨by omega, rfl, rfl⟩
  · split
    · split
      · exact ⟨by omega, rfl, rfl⟩
      · exact h2
    · exact h2

theorem invalidate_length (a : Agent) (c : Cand) :
    (invalidate a c).pairs.length ≤ a.pairs.length ∧
    (invalidate a c).max = a.max ∧ (invalidate a c).queue = a.queue := by
  have h1 : (invalidateRemote a c).pairs.length ≤ a.pairs.length ∧
      (invalidateRemote a c).max = a.max ∧ (invalidateRemote a c).queue = a.queue := by
    unfold invalidateRemote
    split
    · exact ⟨by omega, rfl, rfl⟩
    · split
      · split
        · exact ⟨List.length_filter_le _ _, rfl, rfl⟩
        · exact ⟨by omega, rfl, rfl⟩
      · exact ⟨by omega, rfl, rfl⟩
  unfold invalidate
  split
  · exact h1
  · split
    · split
      · exact ⟨List.length_filter_le _ _, rfl, rfl⟩
      · exact h1
    · exact h1

/-- How one operation changes the sizes of the table and of the queue of early requests. -/
structure Grows (a b : Agent) (r : Nat) : Prop where
  max : b.max = a.max
  queue : b.queue.length ≤ a.queue.length + r
  sum : b.pairs.length + b.queue.length ≤
    Max.max (a.pairs.length + a.queue.length + r) (a.max + a.queue.length)

theorem Grows.rfl' (a : Agent) (r : Nat) : Grows a a r := ⟨rfl, by omega, by omega⟩

theorem step_length (a : Agent) (op : Op) (hk : op.KeepsMax) : Grows a (step a op) op.requests := by
  have hmax : ∀ b : Agent, b.maxPairs = a.maxPairs → b.max = a.max := by
    intro b e; simp [Agent.max, e]
  cases op with
  | addLocal pref c =>
    obtain ⟨h1, h2, h3⟩ := addLocal_length pref a c
    refine ⟨h2, ?_, ?_⟩
    · show (addLocal pref a c).queue.length ≤ _
      rw [h3]; omega
    · show (addLocal pref a c).pairs.length + (addLocal pref a c).queue.length ≤ _
      rw [h3]; omega
  | addRemote c =>
    obtain ⟨h1, h2, h3⟩ := addRemote_length a c
    refine ⟨h2, ?_, ?_⟩
    · show (addRemote a c).queue.length ≤ _
      rw [h3]; omega
    · show (addRemote a c).pairs.length + (addRemote a c).queue.length ≤ _
      rw [h3]; omega
  | invalidate c =>
    obtain ⟨h1, h2, h3⟩ := invalidate_length a c
    refine ⟨h2, ?_, ?_⟩
    · show (invalidate a c).queue.length ≤ _
      rw [h3]; omega
    · show (invalidate a c).pairs.length + (invalidate a c).queue.length ≤ _
      rw [h3]; omega
  | restart k =>
    refine ⟨hmax _ (by simp [step, iceRestart]), ?_, ?_⟩ <;> simp [step, iceRestart, Op.requests]
  | recreate =>
    have := formPairs_max { a with pairs := [] } (idxsWhere (fun c => !c.discarded) a.locals)
      (idxsWhere (fun c => !c.discarded) a.remotes)
    have e : ({ a with pairs := [] } : Agent).max = a.max := rfl
    refine ⟨hmax _ (by simp [step, recreatePairs]), ?_, ?_⟩ <;>
      simp only [step, recreatePairs, setState_pairs, setState_queue, formPairs_queue] <;> omega
  | setRemoteCreds u => exact ⟨rfl, by simp only [step]; omega, by simp only [step]; omega⟩
  | setMaxPairs n => exact hk.elim
  | request r =>
    show Grows a (request a r) 1
    unfold request
    split
    · have := handleRequest_length a r
      exact ⟨hmax _ (by simp), by rw [handleRequest_queue]; omega, by rw [handleRequest_queue]; omega⟩
    · refine ⟨rfl, ?_, ?_⟩ <;>
        simp only [List.length_drop, List.length_append, List.length_singleton] <;> omega
  | response now t m =>
    show Grows a (response a now t m) 0
    unfold response
    split
    · exact Grows.rfl' _ _
    · split
      · exact ⟨hmax _ (by simp), by simp, by rw [keys_length (recordOn_keys _ _ _ _), recordOn_queue]; omega⟩
      · split
        · exact ⟨rfl, by simp, by simp⟩
        · split
          · exact ⟨rfl, by simp, by simp⟩
          · exact ⟨hmax _ (by simp), by simp, by rw [keys_length (recordOn_keys _ _ _ _), recordOn_queue]; simp⟩
  | error t c =>
    show Grows a (errorResponse a t c) 0
    unfold errorResponse
    split
    · exact Grows.rfl' _ _
    · split
      · exact Grows.rfl' _ _
      · split
        · exact Grows.rfl' _ _
        · exact ⟨hmax _ (by simp), by simp, by rw [switchRole_length]; simp⟩
  | timeout now =>
    show Grows a (timeout a now) 0
    unfold timeout
    dsimp only
    split
    · have hd := dropOld_length (evalState a now).timing.timeout now (evalState a now).queue
      split
      · rename_i r rs hq
        have := handleRequest_length { evalState a now with queue := rs } r
        rw [hq] at hd
        refine ⟨hmax _ (by simp), ?_, ?_⟩ <;>
          simp only [evalState_pairs, handleRequest_queue, evalState_queue, List.length_cons] at this hd ⊢ <;>
          omega
      · refine ⟨hmax _ (by simp), by simp, ?_⟩
        rw [keys_length (timeoutChecks_keys _ _)]
        have := pruneFailed_length { evalState a now with queue := [], lastNow := some now } now
        simp only [evalState_pairs, timeoutChecks_queue, pruneFailed_queue, List.length_nil] at this ⊢
        omega
    · refine ⟨hmax _ (by simp), by simp, ?_⟩
      rw [keys_length (timeoutChecks_keys _ _)]
      have := pruneFailed_length { evalState a now with lastNow := some now } now
      simp only [evalState_pairs, timeoutChecks_queue, pruneFailed_queue, evalState_queue] at this ⊢
      omega
  | poll =>
    have := keys_length (pollTimeout_keys a)
    refine ⟨hmax _ (by simp [step]), ?_, ?_⟩ <;> simp only [step, pollTimeout_queue] <;> omega
  | pollTransmit => exact ⟨rfl, by simp only [step]; omega, by simp only [step]; omega⟩

end Str0m.Ice
