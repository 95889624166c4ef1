import Verif.Proofs.IceUniq
/-
  C31: the table of candidate pairs; C52: the agent never panics; C26: local preferences of
  a history are distinct.
-/
namespace Str0m.Ice

/-- A newly created agent, in any configuration (role, tie breaker, ICE-lite, limit, timing). -/
structure Start (a : Agent) : Prop where
  locals : a.locals = []
  remotes : a.remotes = []
  pairs : a.pairs = []
  queue : a.queue = []
  crash : a.crash = false
  lastNow : a.lastNow = Option.none

theorem Start.table {a : Agent} (h : Start a) : Table a := by
  refine ⟨?_, ?_, ?_⟩
  · rw [h.pairs]; exact List.Pairwise.nil
  · rw [h.pairs]; simp
  · rw [h.pairs]; simp

/-! ### C31 -/

/-- After every history of operations (candidates added, invalidated, restarts, requests,
responses, timeouts ...) the pair list is sorted by descending priority. -/
theorem C31_sorted (a : Agent) (ops : List Op) (h : Start a) (hops : ∀ op ∈ ops, op.Fresh) :
    (run a ops).pairs.Pairwise (fun p q => q.prio ≤ p.prio) :=
  (run_table h.table hops).sorted

/-- ... and every pair has its own id and refers to a local and a remote candidate that exist
and were not discarded. -/
theorem C31_refers_to_live_candidates (a : Agent) (ops : List Op) (h : Start a)
    (hops : ∀ op ∈ ops, op.Fresh) :
    ((run a ops).pairs.map (·.id)).Nodup ∧
    ∀ p ∈ (run a ops).pairs,
      (∃ l, (run a ops).locals[p.localIdx]? = some l ∧ l.discarded = false) ∧
      (∃ r, (run a ops).remotes[p.remoteIdx]? = some r ∧ r.discarded = false) :=
  ⟨(run_table h.table hops).ok.ids, fun p hp => ((run_table h.table hops).ok.each p hp).2⟩

/-- Number of requests received in a history. -/
def requestsIn (ops : List Op) : Nat := (ops.map Op.requests).sum

theorem run_length (ops : List Op) : ∀ (a : Agent) (r : Nat), (∀ op ∈ ops, op.KeepsMax) →
    a.queue.length ≤ r → a.pairs.length + a.queue.length ≤ a.max + r →
    (run a ops).pairs.length ≤ a.max + (r + requestsIn ops) := by
  induction ops with
  | nil => intro a r _ h1 h2; simp [run, requestsIn]; omega
  | cons op ops ih =>
    intro a r hk h1 h2
    have hg := step_length a op (hk op (by simp))
    have e := ih (step a op) (r + op.requests) (fun o ho => hk o (by simp [ho]))
      (by have := hg.queue; omega) (by have := hg.sum; have := hg.max; omega)
    rw [hg.max] at e
    have e2 : requestsIn (op :: ops) = op.requests + requestsIn ops := by simp [requestsIn]
    show (run (step a op) ops).pairs.length ≤ _
    rw [e2]; omega

/-- The pair list never exceeds the configured maximum by more than the number of binding
requests the peer has sent. -/
theorem C31_size (a : Agent) (ops : List Op) (h : Start a) (hk : ∀ op ∈ ops, op.KeepsMax) :
    (run a ops).pairs.length ≤ a.max + requestsIn ops := by
  have := run_length ops a 0 hk (by simp [h.queue]) (by simp [h.queue, h.pairs])
  omega

/-- Without incoming requests the maximum holds in every state. -/
theorem C31_max_without_requests (a : Agent) (ops : List Op) (h : Start a)
    (hk : ∀ op ∈ ops, op.KeepsMax) (hr : ∀ op ∈ ops, ∀ r, op ≠ .request r) :
    (run a ops).pairs.length ≤ a.max := by
  have := C31_size a ops h hk
  have e : requestsIn ops = 0 := by
    unfold requestsIn
    clear this hk
    induction ops with
    | nil => rfl
    | cons op ops ih =>
      have h1 : op.requests = 0 := by
        have := hr op (by simp)
        cases op <;> first | rfl | exact absurd rfl (this _)
      simp [h1, ih (fun o ho => hr o (by simp [ho]))]
  omega

/-- Adding candidates never makes a table that respects the maximum exceed it, and re-creating
the pairs always brings it back under the maximum. -/
theorem C31_max_on_forming (a : Agent) (pref : Cand → Nat → Option Nat) (c : Cand) :
    (a.pairs.length ≤ a.max → (step a (.addLocal pref c)).pairs.length ≤ a.max) ∧
    (a.pairs.length ≤ a.max → (step a (.addRemote c)).pairs.length ≤ a.max) ∧
    (step a .recreate).pairs.length ≤ a.max := by
  refine ⟨fun h => ?_, fun h => ?_, ?_⟩
  · have := (addLocal_length pref a c).1
    show (addLocal pref a c).pairs.length ≤ _
    omega
  · have := (addRemote_length a c).1
    show (addRemote a c).pairs.length ≤ _
    omega
  · have := formPairs_max { a with pairs := [] } (idxsWhere (fun c => !c.discarded) a.locals)
      (idxsWhere (fun c => !c.discarded) a.remotes)
    simp only [step, recreatePairs, setState_pairs]
    exact this

/-- Every operation satisfies a condition that may depend on the state it is applied in. -/
def During (q : Agent → Op → Prop) : Agent → List Op → Prop
  | _, [] => True
  | a, op :: ops => q a op ∧ During q (step a op) ops

theorem run_invariant {q : Agent → Op → Prop} {I : Agent → Prop}
    (hI : ∀ a op, I a → q a op → I (step a op)) {a : Agent} {ops : List Op} (h : I a)
    (hd : During q a ops) : I (run a ops) := by
  induction ops generalizing a with
  | nil => exact h
  | cons op ops ih => exact ih (hI a op h hd.1) hd.2

/-- At most one pair per (local, remote) candidate combination, in every history in which no
remote candidate is added at the address of a peer reflexive candidate learnt from a request.
(Partial: `C31_violation_duplicate` shows that without this the code can create a duplicate.) -/
theorem C31_unique_partial (a : Agent) (ops : List Op) (h : Start a)
    (hd : During (fun a op => op.Fresh ∧ op.NoPrflxHit a) a ops) :
    ((run a ops).pairs.map (fun p => (p.localIdx, p.remoteIdx))).Nodup := by
  have := run_invariant (I := fun a => Table a ∧ Uniq a.pairs)
    (fun a op hi hq => ⟨step_table hi.1 hq.1, step_uniq hi.1 hi.2 hq.2⟩)
    ⟨h.table, by rw [h.pairs]; exact List.nodup_nil⟩ hd
  exact this.2

/-! A history used in the examples below. -/

def adr (n : Nat) : Addr := ⟨false, n⟩
def hostCand (n : Nat) : Cand := { addr := adr n, localAddr := adr n }
def reqFrom (src dst trans prio : Nat) : Req :=
  { now := 0, proto := .udp, source := adr src, destination := adr dst, trans, prio,
    useCandidate := false, remoteUfrag := 7, iceControlling := some 5, iceControlled := Option.none }

/-- A controlled agent with a limit of one pair: two hosts, two remote hosts, then a request on
the second local host. -/
def exOps : List Op :=
  [ .setRemoteCreds 7, .addLocal defaultLocalPreference (hostCand 1),
    .addLocal defaultLocalPreference (hostCand 2),
    .addRemote (hostCand 11), .addRemote (hostCand 12), .timeout 1000,
    .request (reqFrom 12 2 0 99), .timeout 2000 ]

def exStart : Agent := { maxPairs := some 1, tieBreaker := 3 }

example : Start exStart := ⟨rfl, rfl, rfl, rfl, rfl, rfl⟩
example : ∀ op ∈ exOps, op.Fresh ∧ op.KeepsMax := by
  simp [exOps, Op.Fresh, Op.KeepsMax, hostCand]
example : During (fun a op => op.Fresh ∧ op.NoPrflxHit a) exStart exOps := by
  simp only [exOps, During, Op.Fresh, Op.NoPrflxHit]
  decide +kernel

/-- The limit is not enforced for pairs created by incoming requests: with a limit of one, one
request makes the table hold two pairs. -/
theorem C31_violation_max :
    Start exStart ∧ exStart.max = 1 ∧ (run exStart exOps).pairs.length = 2 := by
  refine ⟨⟨rfl, rfl, rfl, rfl, rfl, rfl⟩, rfl, by decide +kernel⟩

/-- Hosts 1 and 2, a peer reflexive candidate learnt from a request on host 2, a server
reflexive candidate with base 1 and the same (user given) priority as host 1, a request on
host 1, and then the peer's real candidate, with a higher priority. -/
def dupOps : List Op :=
  [ .setRemoteCreds 7, .addLocal defaultLocalPreference { hostCand 1 with prio := some 1000 },
    .addLocal defaultLocalPreference (hostCand 2),
    .request (reqFrom 11 2 0 500),
    .addLocal defaultLocalPreference
      { addr := adr 3, localAddr := adr 1, base := some (adr 1), kind := .srflx, prio := some 1000 },
    .request (reqFrom 11 1 1 500),
    .addRemote { hostCand 11 with prio := some 2000 } ]

/-- The same (local, remote) combination is present twice. -/
theorem C31_violation_duplicate :
    (∀ op ∈ dupOps, op.Fresh) ∧
    ¬ ((run {} dupOps).pairs.map (fun p => (p.localIdx, p.remoteIdx))).Nodup := by
  constructor
  · simp [dupOps, Op.Fresh, hostCand]
  · decide +kernel

/-! ### C52 -/

/-- The agent never panics: whatever messages arrive and whatever the user does within the
documented ranges (priorities computable), in any order, no lookup fails and no assertion is
violated. `Op.Legal` constrains only the candidates the user adds. -/
theorem C52_never_panics (a : Agent) (ops : List Op) (h : Start a)
    (ht : a.timing.maxRetransmits ≠ 0) (hd : During (fun a op => op.Legal a) a ops) :
    (run a ops).crash = false := by
  have := run_invariant (I := Safe) (fun a op hi hq => step_safe hi hq)
    (⟨h.table, ⟨by simp [h.locals], by simp [h.remotes]⟩, ht, h.crash⟩ : Safe a) hd
  exact this.crash

example : During (fun a op => op.Legal a) exStart exOps := by
  simp only [exOps, During, Op.Legal]
  refine ⟨trivial, ⟨rfl, by decide, by decide, 65534, rfl, by decide⟩,
    ⟨rfl, by decide, by decide, 65532, by decide +kernel, by decide⟩,
    ⟨rfl, by decide, by decide, rfl⟩, ⟨rfl, by decide, by decide, rfl⟩, trivial, trivial, trivial, trivial⟩

/-- With `max_retransmits` configured to zero the first check panics. -/
theorem C52_violation_zero_retransmits :
    ∃ (a : Agent) (ops : List Op), Start a ∧ a.timing.maxRetransmits = 0 ∧
      During (fun a op => op.Legal a) a ops ∧ (run a ops).crash = true := by
  refine ⟨{ timing := { maxRetransmits := 0 } },
    [ .setRemoteCreds 7, .addLocal defaultLocalPreference (hostCand 1), .addRemote (hostCand 11), .timeout 1000 ],
    ⟨rfl, rfl, rfl, rfl, rfl, rfl⟩, rfl, ?_, by decide +kernel⟩
  simp only [During, Op.Legal]
  refine ⟨trivial, ⟨rfl, by decide, by decide, 65534, rfl, by decide⟩,
    ⟨rfl, by decide, by decide, rfl⟩, trivial, trivial⟩

/-! ### C26: local preferences over a history -/

/-- All local candidates are added with the default preference algorithm. -/
def Op.DefaultPref : Op → Prop
  | .addLocal pref _ => pref = defaultLocalPreference
  | _ => True

/-- Number of candidates of the kind and IP version of `c`. -/
def sameCount (ls : List Cand) (c : Cand) : Nat :=
  (ls.filter (fun v => v.kind == c.kind && v.addr.v6 == c.addr.v6)).length

/-- Every assigned preference is the default one for the position among its own kind. -/
def Prefs (ls : List Cand) : Prop :=
  ∀ i c p, ls[i]? = some c → c.localPref = some p →
    defaultLocalPreference c (sameCount (ls.take i) c) = some p

theorem Prefs.nil : Prefs [] := by intro i c p h; simp at h

theorem Prefs.append {ls : List Cand} {c : Cand} (h : Prefs ls)
    (hc : ∀ p, c.localPref = some p → defaultLocalPreference c (sameCount ls c) = some p) :
    Prefs (ls ++ [c]) := by
  intro i d p hi hp
  rcases Nat.lt_or_ge i ls.length with hlt | hge
  · rw [List.getElem?_append_left hlt] at hi
    rw [List.take_append_of_le_length (by omega)]
    exact h i d p hi hp
  · rw [List.getElem?_append_right hge] at hi
    have : i - ls.length = 0 := by
      rcases Nat.eq_zero_or_pos (i - ls.length) with h0 | h0
      · exact h0
      · rw [List.getElem?_eq_none (by simp; omega)] at hi; cases hi
    rw [this] at hi
    simp at hi
    subst hi
    have e : i = ls.length := by omega
    rw [e, List.take_left]
    exact hc p hp

theorem sameCount_congr {ls ls' : List Cand} (h : ls'.map (fun c => (c.kind, c.addr)) = ls.map (fun c => (c.kind, c.addr)))
    (c : Cand) : sameCount ls' c = sameCount ls c := by
  have : ∀ l : List Cand, sameCount l c =
      ((l.map (fun c => (c.kind, c.addr))).filter (fun v => v.1 == c.kind && v.2.v6 == c.addr.v6)).length := by
    intro l
    rw [List.filter_map, List.length_map]
    rfl
  rw [this, this, h]

theorem map_set_same {α β : Type} (f : α → β) (l : List α) (i : Nat) (x y : α) (h : l[i]? = some x)
    (hf : f y = f x) : (l.set i y).map f = l.map f := by
  rw [List.map_set, hf]
  apply List.ext_getElem?
  intro j
  rw [List.getElem?_set]
  split
  · rename_i e
    subst e
    simp only [List.length_map, List.getElem?_map, h, Option.map_some]
    split
    · rfl
    · rename_i hn
      rw [List.getElem?_eq_none (by omega)] at h; cases h
  · rfl

theorem Prefs.setDiscarded {ls : List Cand} {i : Nat} {o : Cand} {b : Bool} (h : Prefs ls)
    (ho : ls[i]? = some o) : Prefs (ls.set i { o with discarded := b }) := by
  have hm := map_set_same (fun c : Cand => (c.kind, c.addr)) ls i o { o with discarded := b } ho rfl
  intro j d p hj hp
  have hm2 : ((ls.set i { o with discarded := b }).take j).map (fun c : Cand => (c.kind, c.addr))
      = (ls.take j).map (fun c : Cand => (c.kind, c.addr)) := by
    rw [List.map_take, List.map_take, hm]
  rw [sameCount_congr hm2]
  rw [List.getElem?_set] at hj
  split at hj
  · rename_i e
    subst e
    split at hj
    · obtain rfl := Option.some.inj hj
      exact h i o p ho hp
    · cases hj
  · exact h j d p hj hp

theorem addLocal_prefs {a : Agent} {c : Cand} (h : Prefs a.locals) :
    Prefs (addLocal defaultLocalPreference a c).locals := by
  unfold addLocal
  split
  · exact h
  · split
    · exact h
    · rename_i p hp
      have push : ∀ b : Agent, Prefs b.locals → sameCount b.locals c = sameCount a.locals c →
          Prefs (pushLocal b { c with localPref := some p }).locals := by
        intro b hb he
        simp only [pushLocal, formPairs_locals]
        apply hb.append
        intro q hq
        simp only [Option.some.injEq] at hq
        subst hq
        show defaultLocalPreference c (sameCount b.locals c) = _
        rw [he]; exact hp
      dsimp only
      split
      · exact push a h rfl
      · split
        · exact h
        · rename_i o ho
          split
          · simp only [formPairs_locals]
            exact h.setDiscarded ho
          · split
            · split
              · exact h
              · refine push _ (h.setDiscarded ho) ?_
                exact sameCount_congr (map_set_same (fun c : Cand => (c.kind, c.addr)) a.locals _ o { o with discarded := true } ho rfl) c
            · exact h

theorem addRemote_locals (a : Agent) (c : Cand) : (addRemote a c).locals = a.locals := by
  have h1 : ∀ ex c, (addRemoteAccepted.addIt a c ex).locals = a.locals := by
    intro ex c
    unfold addRemoteAccepted.addIt
    split
    · simp [pairRemote]
    · split <;> simp [pairRemote]
  have h2 : (addRemoteAccepted a c).locals = a.locals := by
    unfold addRemoteAccepted
    dsimp only
    split
    · split
      · rfl
      · exact h1 _ _
    · exact h1 _ _
  unfold addRemote
  split
  · rfl
  · split
    · split
      · rfl
      · exact h2
    · exact h2

theorem invalidateRemote_locals (a : Agent) (c : Cand) : (invalidateRemote a c).locals = a.locals := by
  unfold invalidateRemote
  split
  · rfl
  · split
    · split <;> rfl
    · rfl

theorem step_prefs {a : Agent} {op : Op} (h : Prefs a.locals) (hop : op.DefaultPref) :
    Prefs (step a op).locals := by
  cases op with
  | addLocal pref c => subst hop; exact addLocal_prefs h
  | addRemote c =>
    simpa [step, addRemote_locals] using h
  | invalidate c =>
    show Prefs (invalidate a c).locals
    unfold invalidate
    split
    · simpa [invalidateRemote_locals] using h
    · split
      · split
        · rename_i ho _
          exact h.setDiscarded ho
        · simpa [invalidateRemote_locals] using h
      · simpa [invalidateRemote_locals] using h
  | restart k =>
    simp only [step, iceRestart, setState_locals]
    split
    · exact h
    · exact Prefs.nil
  | recreate => simpa [step, recreatePairs] using h
  | setRemoteCreds u => exact h
  | setMaxPairs n => exact h
  | request r =>
    show Prefs (request a r).locals
    unfold request
    split
    · simpa using h
    · exact h
  | response now t m =>
    show Prefs (response a now t m).locals
    unfold response
    split
    · exact h
    · split
      · simpa using h
      · split
        · exact h
        · split
          · exact h
          · simp only [recordOn_locals]
            apply h.append
            intro p hp
            simp [localPrflx] at hp
  | error t c =>
    show Prefs (errorResponse a t c).locals
    unfold errorResponse
    repeat' split
    all_goals first | exact h | simpa using h
  | timeout now =>
    show Prefs (timeout a now).locals
    unfold timeout
    dsimp only
    repeat' split
    all_goals simpa using h
  | poll => simpa [step] using h
  | pollTransmit => exact h

/-- Over every history (candidates added with the default preference algorithm, invalidated,
re-added, restarts, network input), two local candidates of the same kind that are both in
the agent have different local preferences - unless both are relayed, one allocated across
IP versions and the other not (see `C26_violation_relayed`). -/
theorem C26_preferences_distinct (a : Agent) (ops : List Op) (h : a.locals = [])
    (hops : ∀ op ∈ ops, op.DefaultPref) (i j : Nat) (c d : Cand) (p q : Nat) (hij : i ≠ j)
    (hc : (run a ops).locals[i]? = some c) (hd : (run a ops).locals[j]? = some d)
    (hk : c.kind = d.kind)
    (hr : c.kind = .relayed → (c.localAddr.v6 = c.addr.v6 ↔ d.localAddr.v6 = d.addr.v6))
    (hp : c.localPref = some p) (hq : d.localPref = some q) : p ≠ q := by
  have inv : Prefs (run a ops).locals := by
    have h0 : Prefs a.locals := by rw [h]; exact Prefs.nil
    have gen : ∀ (ops : List Op) (a : Agent), Prefs a.locals → (∀ op ∈ ops, op.DefaultPref) →
        Prefs (run a ops).locals := by
      intro ops
      induction ops with
      | nil => intro a h _; exact h
      | cons o os ih => intro a h hk; exact ih _ (step_prefs h (hk o (by simp))) (fun x hx => hk x (by simp [hx]))
    exact gen _ a h0 hops
  generalize (run a ops).locals = ls at inv hc hd
  clear hops h
  have hpun : prefPunish c = prefPunish d := by
    simp only [prefPunish, ← hk]
    split
    · rename_i e
      have := hr e
      by_cases h1 : c.localAddr.v6 = c.addr.v6 <;> by_cases h2 : d.localAddr.v6 = d.addr.v6 <;>
        simp [h1, h2] at this ⊢
    · rfl
  have ep := inv i c p hc hp
  have eq := inv j d q hd hq
  have hev : prefPunish d % 2 = 0 := by
    simp only [prefPunish]; split <;> (try split) <;> rfl
  simp only [defaultLocalPreference, hpun] at ep eq
  split at ep
  · split at eq
    · simp only [Option.some.injEq] at ep eq
      rename_i g1 g2
      by_cases hv : c.addr.v6 = d.addr.v6
      · have hs : prefStart c = prefStart d := by simp [prefStart, hk, hv]
        have hcnt : sameCount (ls.take i) c ≠ sameCount (ls.take j) d := by
          have hsame : ∀ l, sameCount l d = sameCount l c := by intro l; simp [sameCount, hk, hv]
          have mono : ∀ (x y : Nat) (e : Cand), x < y → ls[x]? = some e → e.kind = c.kind → e.addr.v6 = c.addr.v6 →
              sameCount (ls.take x) c < sameCount (ls.take y) c := by
            intro x y e hxy he hk' hv'
            have hlt : x < ls.length := by
              rcases Nat.lt_or_ge x ls.length with h | h
              · exact h
              · rw [List.getElem?_eq_none h] at he; cases he
            have h1 : (ls.take (x+1)).Sublist (ls.take y) := (List.take_sublist_take_left (by omega))
            have h2 : ls.take (x+1) = ls.take x ++ [e] := by
              rw [List.take_add_one, he]; rfl
            have h3 : sameCount (ls.take (x+1)) c = sameCount (ls.take x) c + 1 := by
              simp [sameCount, h2, List.filter_append, hk', hv']
            have h4 : sameCount (ls.take (x+1)) c ≤ sameCount (ls.take y) c :=
              (h1.filter _).length_le
            omega
          rw [hsame]
          rcases Nat.lt_or_gt_of_ne hij with hlt | hlt
          · have := mono i j c hlt hc rfl rfl; omega
          · have := mono j i d hlt hd hk.symm hv.symm; omega
        omega
      · have hs : prefStart c = prefStart d + 1 ∨ prefStart d = prefStart c + 1 := by
          simp only [prefStart, hk]
          cases h1 : c.addr.v6 <;> cases h2 : d.addr.v6 <;> simp [h1, h2] at hv ⊢ <;>
            cases d.kind <;> simp
        omega
    · cases eq
  · cases ep

example : (∀ op ∈ exOps, op.DefaultPref) ∧
    ((run exStart exOps).locals.map (·.localPref)) = [some 65534, some 65532] := by
  constructor
  · simp [exOps, Op.DefaultPref]
  · decide +kernel

/-- The exception is real: the 501st IPv4 relayed candidate gets the same preference as the
first one if that was allocated across IP versions. -/
theorem C26_violation_relayed :
    ∃ c d : Cand, c.kind = .relayed ∧ d.kind = .relayed ∧ c.addr.v6 = d.addr.v6 ∧
      defaultLocalPreference c 0 = some 15382 ∧ defaultLocalPreference d 500 = some 15382 :=
  ⟨{ addr := adr 1, localAddr := ⟨true, 2⟩, kind := .relayed },
   { addr := adr 3, localAddr := adr 4, kind := .relayed }, rfl, rfl, rfl, by decide +kernel, by decide +kernel⟩

end Str0m.Ice
