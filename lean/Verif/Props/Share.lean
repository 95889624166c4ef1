import Verif.Spec.Share
import Verif.Props.IceTable
import Verif.Props.IceNom
import Verif.Props.Stun

/-!
C119: of several `Rtc` on one socket the right one gets a datagram. C120: only the peer makes an address accepted.
-/

namespace Str0m.Share

/-! ### The table of pairs through a history -/

theorem table_events {a : Ice.Agent} (h : Ice.Table a) (es : List Ice.Event) : Ice.Table { a with events := es } :=
  h.keys rfl rfl rfl rfl

theorem step_table {r : Rtc} {op : Op} (h : Ice.Table r.agent) (hs : op.Sane) : Ice.Table (r.step op).agent := by
  cases op with
  | ice o => exact Ice.step_table h (by cases o <;> exact hs)
  | restart k c => exact Ice.step_table (op := .restart k) h trivial
  | poll => exact table_events h []

theorem run_table {r : Rtc} (h : Ice.Table r.agent) : ∀ ops : List Op, (∀ op ∈ ops, op.Sane) → Ice.Table (r.run ops).agent := by
  intro ops
  induction ops generalizing r with
  | nil => intro _; exact h
  | cons op ops ih =>
    intro hs
    exact ih (step_table h (hs op (by simp))) (fun o ho => hs o (by simp [ho]))

theorem start_table {r : Rtc} (h : Start r) : Ice.Table r.agent :=
  Ice.Start.table ⟨h.locals, h.remotes, h.pairs, h.queue, h.crash, h.lastNow⟩

theorem viableIn_spec (remotes : List Ice.Cand) (addr : Ice.Addr) (ps : List Ice.Pair) (h : ∀ p ∈ ps, ∃ c, remotes[p.remoteIdx]? = some c) :
    ∃ b, viableIn remotes addr ps = .ok b ∧
      (b = true ↔ ∃ p ∈ ps, p.state = .succeeded ∧ ∃ c, remotes[p.remoteIdx]? = some c ∧ c.addr = addr) := by
  induction ps with
  | nil => exact ⟨false, rfl, by simp⟩
  | cons p ps ih =>
    obtain ⟨b, hb, hi⟩ := ih (fun q hq => h q (by simp [hq]))
    obtain ⟨c, hc⟩ := h p (by simp)
    unfold viableIn
    by_cases hp : p.state = .succeeded
    · rw [if_pos hp, hc]
      simp only
      by_cases ha : c.addr = addr
      · rw [if_pos ha]
        exact ⟨true, rfl, by simpa using .inl ⟨hp, c, hc, ha⟩⟩
      · rw [if_neg ha]
        refine ⟨b, hb, ?_⟩
        rw [hi]
        constructor
        · rintro ⟨q, hq, g⟩; exact ⟨q, by simp [hq], g⟩
        · rintro ⟨q, hq, g1, d, g2, g3⟩
          rcases List.mem_cons.mp hq with rfl | hq
          · rw [hc] at g2; cases g2; exact absurd g3 ha
          · exact ⟨q, hq, g1, d, g2, g3⟩
    · rw [if_neg hp]
      refine ⟨b, hb, ?_⟩
      rw [hi]
      constructor
      · rintro ⟨q, hq, g⟩; exact ⟨q, by simp [hq], g⟩
      · rintro ⟨q, hq, g1, g2⟩
        rcases List.mem_cons.mp hq with rfl | hq
        · exact absurd g1 hp
        · exact ⟨q, hq, g1, g2⟩

/-! ### C120 -/

/-- C120: in every history DTLS, RTP and RTCP are accepted exactly from the address last nominated and from the remote addresses of pairs
whose check was answered; nothing panics -/
theorem C120_media (env : Stun.Env) (n : Names) (r : Rtc) (h : Start r) (ops : List Op) (hs : ∀ op ∈ ops, op.Sane) (src : Ice.Addr) :
    ∃ b, (r.run ops).accepts env n ⟨src, .media⟩ = .ok b ∧
      (b = true ↔ (r.run ops).sendTo = some src ∨ Answered (r.run ops).agent src) := by
  have ht := run_table (start_table h) ops hs
  obtain ⟨b, hb, hi⟩ := viableIn_spec (r.run ops).agent.remotes src (r.run ops).agent.pairs (by
    intro p hp
    obtain ⟨-, -, c, hc, -⟩ := ht.ok.each p hp
    exact ⟨c, hc⟩)
  unfold Rtc.accepts
  by_cases hx : (r.run ops).sendTo = some src
  · rw [if_pos hx]
    exact ⟨true, rfl, by simp [hx]⟩
  · rw [if_neg hx]
    refine ⟨b, hb, ?_⟩
    rw [hi]
    simp only [hx, false_or]
    exact Iff.rfl

/-- no nomination among these events -/
def Mute (es : List Ice.Event) : Prop := ∀ e ∈ es, nominatedTo e = none

theorem Mute.append {es : List Ice.Event} (h : Mute es) {e : Ice.Event} (he : nominatedTo e = none) : Mute (es ++ [e]) := by
  intro x hx
  rcases List.mem_append.mp hx with hx | hx
  · exact h x hx
  · rw [List.mem_singleton.mp hx]; exact he

theorem setState_mute {a : Ice.Agent} (s : Ice.ConnState) (h : Mute a.events) : Mute (Ice.setState a s).events := by
  unfold Ice.setState
  split
  · exact h
  · exact h.append rfl

theorem evalState_mute {a : Ice.Agent} (now : Nat) (h : Mute a.events) : Mute (Ice.evalState a now).events := by
  unfold Ice.evalState
  apply setState_mute
  split <;> exact h

theorem formPairs_events (a : Ice.Agent) (is js : List Nat) : (Ice.formPairs a is js).events = a.events := by
  have key : ∀ (l : List (Nat × Nat)) (b : Ice.Agent), (l.foldl Ice.formOne b).events = b.events := by
    intro l
    induction l with
    | nil => intro b; rfl
    | cons x l ih =>
      intro b
      rw [List.foldl_cons, ih]
      unfold Ice.formOne
      repeat' split
      all_goals rfl
  unfold Ice.formPairs
  simp only [key]

theorem switchRole_events (a : Ice.Agent) (b : Bool) : (Ice.switchRole a b).events = a.events := by
  unfold Ice.switchRole
  repeat' split
  all_goals rfl

theorem sendCheck_events (a : Ice.Agent) (now i : Nat) : (Ice.sendCheck a now i).events = a.events := by
  unfold Ice.sendCheck
  repeat' split
  all_goals rfl

theorem runChecks_events (a : Ice.Agent) (now : Nat) : (Ice.runChecks a now).events = a.events := by
  unfold Ice.runChecks
  simp only
  split
  · rfl
  · split
    · rw [sendCheck_events]
    · rfl

theorem timeoutChecks_events (a : Ice.Agent) (now : Nat) : (Ice.timeoutChecks a now).events = a.events := by
  unfold Ice.timeoutChecks
  split
  · rfl
  · split
    · rfl
    · exact runChecks_events a now

theorem pruneFailed_mute {a : Ice.Agent} (now : Nat) (hb : Ice.Blank a) (h : Mute a.events) : Mute (Ice.pruneFailed a now).events := by
  unfold Ice.pruneFailed
  rw [hb.evalNomination]
  simp only
  split
  · exact h
  · have hb' : Ice.Blank { a with pairs := a.pairs.filter (Ice.keepPair a now), crash := a.crash || (!a.iceLite && Ice.possibleCrash a now) } :=
      hb.pairs List.filter_sublist.subset
    rw [hb'.evalNomination]
    exact evalState_mute now h

theorem answerRequest_events {a : Ice.Agent} (req : Ice.Req) (li ri : Nat) (hb : ∀ p ∈ a.pairs, p.state ≠ .succeeded) :
    (Ice.answerRequest a req li ri).events = a.events := by
  unfold Ice.answerRequest
  split
  · rfl
  · rename_i p hp
    have hps := hb p (List.mem_of_find?_eq_some hp)
    have hst : (Ice.requested a req p).state ≠ .succeeded := by
      unfold Ice.requested Ice.Pair.nominate
      dsimp only
      repeat' split
      all_goals exact hps
    unfold Ice.afterRequest
    simp only
    rw [if_neg]
    simp only [Bool.and_eq_true, beq_iff_eq, not_and]
    intro _; exact hst

theorem ensurePair_events {a : Ice.Agent} (req : Ice.Req) (li ri : Nat) (hb : ∀ p ∈ a.pairs, p.state ≠ .succeeded) :
    (Ice.ensurePair a req li ri).events = a.events := by
  unfold Ice.ensurePair
  split
  · exact answerRequest_events req li ri hb
  · split
    · split
      · rfl
      · split
        · rw [answerRequest_events]
          intro p hp
          rcases List.mem_append.mp ((Ice.sortPairs_perm _).subset hp) with hp | hp
          · exact hb p hp
          · rw [List.mem_singleton.mp hp]; simp
        · rfl
    · rfl

theorem findRemote_events {a : Ice.Agent} (req : Ice.Req) (li : Nat) (hb : ∀ p ∈ a.pairs, p.state ≠ .succeeded) :
    (Ice.findRemote a req li).events = a.events := by
  unfold Ice.findRemote
  split
  · rfl
  · split
    · exact ensurePair_events req li _ hb
    · split
      · rfl
      · exact ensurePair_events (a := { a with remotes := a.remotes ++ [Ice.prflxOf req] }) req li _ hb

theorem switchRole_states {a : Ice.Agent} (b : Bool) (hb : ∀ p ∈ a.pairs, p.state ≠ .succeeded) :
    ∀ p ∈ (Ice.switchRole a b).pairs, p.state ≠ .succeeded := by
  unfold Ice.switchRole
  split
  · exact hb
  · split
    · intro p hp
      have hp := (Ice.sortPairs_perm _).subset hp
      obtain ⟨q, hq, rfl⟩ := List.mem_map.mp hp
      have := hb q hq
      unfold Ice.reprio
      repeat' split
      all_goals simpa using this
    · exact hb

theorem handleRequest_events {a : Ice.Agent} (req : Ice.Req) (hb : ∀ p ∈ a.pairs, p.state ≠ .succeeded) :
    (Ice.handleRequest a req).events = a.events := by
  unfold Ice.handleRequest
  split
  · rfl
  · split
    · rfl
    · split
      · rfl
      · split
        · split
          · rfl
          · rw [findRemote_events _ _ (switchRole_states _ hb), switchRole_events]
        · exact findRemote_events _ _ hb

theorem timeout_mute {a : Ice.Agent} (now : Nat) (hb : Ice.Blank a) (h : Mute a.events) : Mute (Ice.timeout a now).events := by
  have he := evalState_mute now h
  have hb1 : Ice.Blank (Ice.evalState a now) := hb.pairs (by simp)
  unfold Ice.timeout
  dsimp only
  split
  · split
    · rename_i r rs _
      rw [handleRequest_events (a := { Ice.evalState a now with queue := rs }) r (fun p hp => (hb1 p hp).2)]
      exact he
    · rw [timeoutChecks_events]
      exact pruneFailed_mute now (a := { Ice.evalState a now with queue := [], lastNow := some now }) hb1 he
  · rw [timeoutChecks_events]
    exact pruneFailed_mute now (a := { Ice.evalState a now with lastNow := some now }) hb1 he

theorem step_mute {a : Ice.Agent} {op : Ice.Op} (hop : op.NoEvidence) (hb : Ice.Blank a) (h : Mute a.events) : Mute (Ice.step a op).events := by
  have keep : ∀ b : Ice.Agent, b.events = a.events → Mute b.events := fun b e => by rw [e]; exact h
  cases op with
  | addLocal pref c =>
    refine keep _ ?_
    show (Ice.addLocal pref a c).events = _
    have hp : ∀ (b : Ice.Agent) c, (Ice.pushLocal b c).events = b.events := fun b c => formPairs_events _ _ _
    unfold Ice.addLocal
    split
    · rfl
    · split
      · rfl
      · dsimp only
        split
        · exact hp _ _
        · split
          · rfl
          · split
            · exact formPairs_events _ _ _
            · split
              · split
                · rfl
                · rw [hp]; rfl
              · rfl
  | addRemote c =>
    refine keep _ ?_
    have h1 : ∀ ex c, (Ice.addRemoteAccepted.addIt a c ex).events = a.events := by
      intro ex c
      unfold Ice.addRemoteAccepted.addIt Ice.pairRemote
      repeat' split
      all_goals (rw [formPairs_events])
    have h2 : ∀ c, (Ice.addRemoteAccepted a c).events = a.events := by
      intro c
      unfold Ice.addRemoteAccepted
      dsimp only
      repeat' split
      all_goals first | rfl | exact h1 _ _
    show (Ice.addRemote a c).events = _
    unfold Ice.addRemote
    repeat' split
    all_goals first | rfl | exact h2 _
  | invalidate c =>
    refine keep _ ?_
    show (Ice.invalidate a c).events = _
    unfold Ice.invalidate Ice.invalidateRemote
    repeat' split
    all_goals rfl
  | restart k =>
    apply setState_mute
    intro e he
    rw [List.mem_singleton.mp he]; rfl
  | recreate =>
    apply setState_mute
    rw [formPairs_events]
    exact h
  | setRemoteCreds u => exact h
  | setMaxPairs n => exact h
  | request req =>
    refine keep _ ?_
    show (Ice.request a req).events = _
    unfold Ice.request
    split
    · exact handleRequest_events _ (fun p hp => (hb p hp).2)
    · rfl
  | response now t m => exact hop.elim
  | error t c =>
    refine keep _ ?_
    show (Ice.errorResponse a t c).events = _
    unfold Ice.errorResponse
    repeat' split
    all_goals first | rfl | exact switchRole_events _ _
  | timeout now => exact timeout_mute now hb h
  | poll => simpa [Ice.step] using h
  | pollTransmit => exact h

/-- nothing was shown by the peer so far -/
structure Silent (r : Rtc) : Prop where
  blank : Ice.Blank r.agent
  queue : ∀ q ∈ r.agent.queue, q.useCandidate = false
  mute : Mute r.agent.events
  sendTo : r.sendTo = none

theorem ice_silent {a : Ice.Agent} {op : Ice.Op} (hop : op.NoEvidence) (h1 : Ice.Blank a) (h2 : ∀ q ∈ a.queue, q.useCandidate = false) :
    Ice.Blank (Ice.step a op) := by
  intro p hp
  have hs : p.state ≠ .succeeded := by
    intro hs
    obtain ⟨q, hq, -, h4 | ⟨now, t, m, h4, -⟩⟩ := Ice.C33_succeeded_only_by_response a op p hp hs
    · exact (h1 q hq).2 h4
    · subst h4; exact hop
  refine ⟨?_, hs⟩
  by_contra hn
  rcases Ice.C33_nominated_only_if a op p hp hn with ⟨q, hq, -, h4⟩ | ⟨req, h4, h5, -⟩ | ⟨-, h4⟩ | ⟨q, hq, h4, -⟩
  · exact h4 (h1 q hq).1
  · rcases h4 with h4 | ⟨-, h4⟩
    · subst h4
      simp only [Ice.Op.NoEvidence] at hop
      rw [hop] at h5; cases h5
    · rw [h2 req h4] at h5; cases h5
  · exact hs h4
  · exact h4 (h1 q hq).1

theorem silent_step {r : Rtc} {op : Op} (h : Silent r) (hop : ¬ op.Evidence) : Silent (r.step op) := by
  cases op with
  | ice o =>
    have hn : o.NoEvidence := by
      cases o with
      | response now t m => exact absurd trivial hop
      | request q => simpa [Op.Evidence, Ice.Op.NoEvidence] using hop
      | _ => trivial
    exact ⟨ice_silent hn h.blank h.queue, Ice.queue_quiet hn h.queue, step_mute hn h.blank h.mute, h.sendTo⟩
  | restart k c =>
    have hn : (Ice.Op.restart k).NoEvidence := trivial
    exact ⟨ice_silent hn h.blank h.queue, Ice.queue_quiet hn h.queue, step_mute hn h.blank h.mute, h.sendTo⟩
  | poll =>
    refine ⟨h.blank, h.queue, ?_, ?_⟩
    · intro e he; exact absurd he (by simp [Rtc.step, Rtc.poll])
    · have : r.agent.events.filterMap nominatedTo = [] := by
        rw [List.filterMap_eq_nil_iff]
        exact h.mute
      show (match (r.agent.events.filterMap nominatedTo).getLast? with
        | some d => some d
        | none => r.sendTo) = none
      rw [this]
      exact h.sendTo

/-- C120: as long as the peer has not answered a check and has not asked for a pair to be used, nothing that is not STUN is accepted,
from any address -/
theorem C120_needs_peer (env : Stun.Env) (n : Names) (r : Rtc) (h : Start r) (ops : List Op) (hs : ∀ op ∈ ops, op.Sane) (src : Ice.Addr)
    (ha : (r.run ops).accepts env n ⟨src, .media⟩ = .ok true) : ∃ op ∈ ops, op.Evidence := by
  by_contra hc
  push Not at hc
  have key : ∀ (ops : List Op) (r : Rtc), Silent r → (∀ op ∈ ops, ¬ op.Evidence) → Silent (r.run ops) := by
    intro ops
    induction ops with
    | nil => intro r h _; exact h
    | cons op ops ih =>
      intro r h hk
      exact ih (r.step op) (silent_step h (hk op (by simp))) (fun o ho => hk o (by simp [ho]))
  have hsil := key ops r ⟨by intro p hp; rw [h.pairs] at hp; simp at hp, by rw [h.queue]; simp, by rw [h.events]; intro e he; simp at he,
    h.sendTo⟩ hc
  obtain ⟨b, hb, hi⟩ := C120_media env n r h ops hs src
  rw [ha] at hb
  simp only [Res.ok.injEq] at hb
  rcases hi.mp hb.symm with g | ⟨p, hp, g, -⟩
  · rw [hsil.sendTo] at g; simp at g
  · exact (hsil.blank p hp).2 g

/-! ### Examples and where it fails -/

def adr (n : Nat) : Ice.Addr := ⟨false, n⟩

def host (n : Nat) : Ice.Cand := { addr := adr n, localAddr := adr n }

/-- A new instance with a local candidate at 1, and the peer's candidate at 11 -/
def met (loc : Stun.Creds) (peer : Nat) (lite : Bool) : Rtc :=
  (Rtc.run { agent := { iceLite := lite }, loc } [.ice (.setRemoteCreds peer), .ice (.addLocal Ice.defaultLocalPreference (host 1)),
    .ice (.addRemote (host 11))])

def ask (source now peer : Nat) (use : Bool) : Ice.Req :=
  { now, proto := .udp, source := adr source, destination := adr 1, trans := 1000 + now, prio := 99, useCandidate := use, remoteUfrag := peer
    iceControlling := some 5, iceControlled := none }

/-- C120, the hypotheses: an instance whose check is answered, and a lite instance that is asked to use a pair, accept media -/
theorem C120_example :
    (((met ⟨[97], [1]⟩ 7 false).run [.ice (.timeout 1000), .ice (.response 1010 0 (adr 1)), .poll]).accepts Stun.toyEnv ⟨fun _ => ⟨[98], [2]⟩, fun _ => 0⟩
      ⟨adr 11, .media⟩ = .ok true) ∧
    (((met ⟨[97], [1]⟩ 7 true).run [.ice (.request (ask 11 1000 7 true)), .ice (.timeout 1010), .poll]).accepts Stun.toyEnv
      ⟨fun _ => ⟨[98], [2]⟩, fun _ => 0⟩ ⟨adr 11, .media⟩ = .ok true) ∧
    (((met ⟨[97], [1]⟩ 7 true).run [.ice (.request (ask 11 1000 7 true)), .ice (.timeout 1010), .poll]).accepts Stun.toyEnv
      ⟨fun _ => ⟨[98], [2]⟩, fun _ => 0⟩ ⟨adr 12, .media⟩ = .ok false) := by
  refine ⟨?_, ?_, ?_⟩ <;> decide +kernel

/-! ### C119 -/

theorem accepts_request {env : Stun.Env} {loc : Stun.Creds} {remote : Option Stun.Creds} {m : Stun.Msg}
    (h : Stun.acceptsMessage env loc remote (fun _ => false) m = .ok true) :
    (m.method = .binding ∧ m.cls = .request) ∧ ∃ r, Stun.splitUsername m.attrs = some (loc.ufrag, r) := by
  unfold Stun.acceptsMessage at h
  split at h
  · rename_i hc
    refine ⟨hc, ?_⟩
    split at h
    · simp at h
    · rename_i l r hs
      split at h
      · simp [pure] at h
      · rename_i hl
        exact ⟨r, by rw [hs]; simpa using hl⟩
  · split at h <;> simp [pure] at h

theorem accepts_same {env : Stun.Env} {loc : Stun.Creds} {remote : Option Stun.Creds} {m : Stun.Msg} (o o' : List Byte → Bool)
    (hc : m.method = .binding ∧ m.cls = .request) :
    Stun.acceptsMessage env loc remote o m = Stun.acceptsMessage env loc remote o' m := by
  unfold Stun.acceptsMessage
  rw [if_pos hc, if_pos hc]

theorem accepts_other {env : Stun.Env} {loc : Stun.Creds} {remote : Option Stun.Creds} {m : Stun.Msg} (o : List Byte → Bool)
    (hc : m.method = .binding ∧ m.cls = .request) {l r : List Byte} (hs : Stun.splitUsername m.attrs = some (l, r)) (hl : l ≠ loc.ufrag) :
    Stun.acceptsMessage env loc remote o m = .ok false := by
  unfold Stun.acceptsMessage
  rw [if_pos hc, hs]
  simp only
  rw [if_pos hl]
  rfl

/-- C119: a binding request that a peer makes for one of the instances reaches this instance, from whatever address it comes, as long as
no instance has this address nominated and none before has the same user fragment -/
theorem C119_request_partial (env : Stun.Env) (n : Names) (pre post : List Rtc) (r : Rtc) (a : Stun.Creds) (src : Ice.Addr)
    (tid : List Byte) (ctl uc : Bool) (tb prio cap : Nat) (hcred : Stun.Compatible env a r.loc) (ht : tid.length = 12) (htb : tb < 2^64)
    (hprio : prio < 2^32) (hcap : 208 ≤ cap) (hrem : r.agent.remoteCreds.map n.creds = some a)
    (huf : ∀ x ∈ pre, x.loc.ufrag ≠ r.loc.ufrag) (hsend : ∀ x ∈ pre ++ r :: post, x.sendTo ≠ some src) :
    ∃ out m, Stun.toBytes env (Stun.bindingRequest (Stun.requestUsername a r.loc) tid ctl tb prio uc) (some r.loc.pass) cap = .ok out ∧
      Stun.parse env out = .ok m ∧ pick env n ⟨src, .stun m⟩ (pre ++ r :: post) = .ok (some r) := by
  obtain ⟨out, m, h1, h2, h3, -⟩ := Stun.C56_request_accepted (ctl := ctl) (uc := uc) hcred ht htb hprio hcap (fun _ => false)
  refine ⟨out, m, h1, h2, ?_⟩
  obtain ⟨hc, q, hs⟩ := accepts_request h3
  have hr : r.accepts env n ⟨src, .stun m⟩ = .ok true := by
    unfold Rtc.accepts
    rw [if_neg (hsend r (by simp))]
    simp only
    rw [hrem, accepts_same _ (fun _ => false) hc]
    exact h3
  clear h1 h2
  induction pre with
  | nil =>
    show pick env n _ (r :: post) = _
    unfold pick
    rw [hr]
  | cons x pre ih =>
    have hx : x.accepts env n ⟨src, .stun m⟩ = .ok false := by
      unfold Rtc.accepts
      rw [if_neg (hsend x (by simp))]
      exact accepts_other _ hc hs (fun e => huf x (by simp) e.symm)
    show pick env n _ (x :: (pre ++ r :: post)) = _
    unfold pick
    rw [hx]
    exact ih (fun y hy => huf y (by simp [hy])) (fun y hy => hsend y (by
      rw [List.cons_append]; exact List.mem_cons_of_mem _ hy))

/-- C119: an instance that accepts a STUN message from an address it has not nominated is the one with the user fragment of the request,
or the one that has sent the request that is answered -/
theorem C119_stun_owner (env : Stun.Env) (n : Names) (r : Rtc) (src : Ice.Addr) (m : Stun.Msg) (hn : r.sendTo ≠ some src)
    (h : r.accepts env n ⟨src, .stun m⟩ = .ok true) :
    m.method = .binding ∧
    ((m.cls = .request ∧ ∃ q, Stun.splitUsername m.attrs = some (r.loc.ufrag, q)) ∨
     ((m.cls = .success ∨ m.cls = .failure) ∧ ∃ p ∈ r.agent.pairs, ∃ x ∈ p.attempts, x.trans = n.trans m.transId)) := by
  unfold Rtc.accepts at h
  rw [if_neg hn] at h
  simp only at h
  unfold Stun.acceptsMessage at h
  split at h
  · rename_i hc
    refine ⟨hc.1, .inl ⟨hc.2, ?_⟩⟩
    split at h
    · simp at h
    · rename_i l q hs
      split at h
      · simp [pure] at h
      · rename_i hl
        exact ⟨q, by rw [hs]; simpa using hl⟩
  · split at h
    · rename_i hc
      refine ⟨hc.1, .inr ⟨hc.2, ?_⟩⟩
      split at h
      · rename_i ho
        unfold outstanding at ho
        rw [List.any_eq_true] at ho
        obtain ⟨p, hp, g⟩ := ho
        obtain ⟨x, hx⟩ := Option.isSome_iff_exists.mp g
        unfold Ice.Pair.bindingAttempt at hx
        exact ⟨p, hp, x, List.mem_of_find?_eq_some hx, by simpa using List.find?_some hx⟩
      · simp [pure] at h
    · simp [pure] at h

/-- C119: so two instances that both accept one request have the same user fragment -/
theorem C119_one_partial (env : Stun.Env) (n : Names) (x y : Rtc) (src : Ice.Addr) (m : Stun.Msg) (hq : m.cls = .request)
    (hx : x.sendTo ≠ some src) (hy : y.sendTo ≠ some src) (h1 : x.accepts env n ⟨src, .stun m⟩ = .ok true)
    (h2 : y.accepts env n ⟨src, .stun m⟩ = .ok true) : x.loc.ufrag = y.loc.ufrag := by
  obtain ⟨-, g1⟩ := C119_stun_owner env n x src m hx h1
  obtain ⟨-, g2⟩ := C119_stun_owner env n y src m hy h2
  rw [hq] at g1 g2
  simp only [true_and, reduceCtorEq, or_self, false_and, or_false] at g1 g2
  obtain ⟨q, g1⟩ := g1
  obtain ⟨q', g2⟩ := g2
  rw [g1] at g2
  simp only [Option.some.injEq, Prod.mk.injEq] at g2
  exact g2.1

/-- C119: media from an address that is nominated or has answered a check at one of the instances, and at none before, reaches this one -/
theorem C119_media (env : Stun.Env) (n : Names) (pre post : List Rtc) (r : Rtc) (src : Ice.Addr)
    (hreach : ∀ x ∈ pre ++ [r], ∃ x0 ops, Start x0 ∧ (∀ op ∈ ops, op.Sane) ∧ x = x0.run ops)
    (hr : r.sendTo = some src ∨ Answered r.agent src) (hpre : ∀ x ∈ pre, x.sendTo ≠ some src ∧ ¬ Answered x.agent src) :
    pick env n ⟨src, .media⟩ (pre ++ r :: post) = .ok (some r) := by
  induction pre with
  | nil =>
    obtain ⟨x0, ops, g1, g2, g3⟩ := hreach r (by simp)
    obtain ⟨b, hb, hi⟩ := C120_media env n x0 g1 ops g2 src
    rw [← g3] at hb hi
    show pick env n _ (r :: post) = _
    unfold pick
    rw [hb, hi.mpr hr]
  | cons x pre ih =>
    obtain ⟨x0, ops, g1, g2, g3⟩ := hreach x (by simp)
    obtain ⟨b, hb, hi⟩ := C120_media env n x0 g1 ops g2 src
    rw [← g3] at hb hi
    have hbf : b = false := by
      cases b with
      | false => rfl
      | true =>
        rcases hi.mp rfl with g | g
        · exact absurd g (hpre x (by simp)).1
        · exact absurd g (hpre x (by simp)).2
    show pick env n _ (x :: (pre ++ r :: post)) = _
    unfold pick
    rw [hb, hbf]
    exact ih (fun y hy => hreach y (by rw [List.cons_append]; exact List.mem_cons_of_mem _ hy)) (fun y hy => hpre y (by simp [hy]))

/-- A lite instance that was connected to 11, and has lost the connection since -/
def lost : Rtc :=
  (met ⟨[97], [1]⟩ 7 true).run [.ice (.request (ask 11 1000 7 true)), .ice (.timeout 1010), .poll, .ice (.timeout 60000), .ice (.timeout 60050), .poll]

/-- C119: an instance keeps everything from the address it nominated last, also after the connection is lost: a new instance that comes
after it gets nothing from a peer at this address, whatever it sends -/
theorem C119_violation_stale (env : Stun.Env) (n : Names) (c : Contents) (rs : List Rtc) :
    lost.agent.connState = .disconnected ∧ lost.agent.pairs = [] ∧ pick env n ⟨adr 11, c⟩ (lost :: rs) = .ok (some lost) := by
  refine ⟨by decide +kernel, by decide +kernel, ?_⟩
  have h : lost.sendTo = some (adr 11) := by decide +kernel
  unfold pick Rtc.accepts
  rw [if_pos h]

/-- An instance that has answered a request of the peer at 11, which is a candidate it knows -/
def early : Rtc := (met ⟨[97], [1]⟩ 7 false).run [.ice (.request (ask 11 1000 7 false)), .ice (.timeout 1010), .poll]

/-- C119: a peer at a known candidate whose check was answered may send DTLS; it is accepted by no one before the own check is answered too -/
theorem C119_violation_early :
    (∃ t, .success t (adr 11) ∈ early.agent.transmit) ∧ early.agent.remotes.map (·.addr) = [adr 11] ∧
    ∀ env n, early.accepts env n ⟨adr 11, .media⟩ = .ok false := by
  refine ⟨⟨2000, by decide +kernel⟩, by decide +kernel, ?_⟩
  intro env n
  have h : early.sendTo ≠ some (adr 11) := by decide +kernel
  unfold Rtc.accepts
  rw [if_neg h]
  show viable early.agent (adr 11) = _
  decide +kernel

/-- The hypotheses of `C119_request_partial` are met by two instances -/
theorem C119_example :
    Stun.Compatible Stun.toyEnv ⟨[99], [3]⟩ (met ⟨[98], [2]⟩ 7 false).loc ∧
    (met ⟨[98], [2]⟩ 7 false).agent.remoteCreds.map (fun _ => (⟨[99], [3]⟩ : Stun.Creds)) = some ⟨[99], [3]⟩ ∧
    (∀ x ∈ [met ⟨[97], [1]⟩ 7 false], x.loc.ufrag ≠ (met ⟨[98], [2]⟩ 7 false).loc.ufrag) ∧
    (∀ x ∈ [met ⟨[97], [1]⟩ 7 false] ++ met ⟨[98], [2]⟩ 7 false :: [], x.sendTo ≠ some (adr 11)) := by
  refine ⟨⟨by decide, by decide, by decide, rfl⟩, by decide +kernel, ?_, ?_⟩
  · intro x hx; rw [List.mem_singleton.mp hx]; decide +kernel
  · intro x hx
    simp only [List.cons_append, List.nil_append, List.mem_cons, List.not_mem_nil, or_false] at hx
    rcases hx with rfl | rfl <;> decide +kernel

end Str0m.Share
