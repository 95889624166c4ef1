import Verif.Model.RtcLoop
import Mathlib.Logic.Relation
/-
  Every call of the top level is a sequence of small changes of what matters below (`Core`), each with what is
  known where it happens. Invariants are then proved over these.
-/
namespace Str0m.RtcLoop
open Str0m.Channel (Handler)

variable {W : Type}

/-- The fields the theorems are about. -/
structure Core where
  state : State
  lastNow : Nat
  dtlsConnected : Bool
  active : Option Bool
  pending : List (List Byte)
  chan : Handler
  expected : Option Fingerprint
  verify : Bool
  sendAddr : Option SendAddr
  peerRx : Nat
  peerTx : Nat
  log : List Note

def Rtc.core (r : Rtc W) : Core :=
  { state := r.state, lastNow := r.lastNow, dtlsConnected := r.dtlsConnected, active := r.active, pending := r.pending, chan := r.chan,
    expected := r.expected, verify := r.verify, sendAddr := r.sendAddr, peerRx := r.peerRx, peerTx := r.peerTx, log := r.log }

/-- How many bytes an outcome sends. -/
def sentLen : Outcome → Nat
  | .transmit t => t.contents.length
  | _ => 0

/-- Events that do not name a channel. -/
def Event.plain : Event → Prop
  | .channelOpen _ _ | .channelClose _ | .channelData _ _ _ | .channelLow _ => False
  | _ => True

def certOf (env : Env W) (der : List Byte) : Fingerprint := { hash := "sha-256", bytes := env.sha256 der }

/-- What is expected lets the certificate pass. -/
def Passes (env : Env W) (c : Core) (der : List Byte) : Prop :=
  ∃ f, c.expected = some f ∧ (c.verify = true → f = certOf env der)

/-- The last change of a poll. -/
inductive Fin (env : Env W) : Core → Outcome → Core → Prop
  | quiet (c) (h : c.state = .closed) : Fin env c (.timeout env.never) c
  | event (c e) (h : c.state ≠ .closed) (he : e.plain) (hc : e = .connected → c.dtlsConnected = true) : Fin env c (.event e) c
  | error (c e) : Fin env c (.error e) c
  | panic (c) (hs : c.state ≠ .closed) (h : (c.active = none ∧ ∃ k, c.log.getLast? = some (.dtls (.keying k))) ∨ ∃ w, (env.sessionMedia w).1 = .panic) : Fin env c .panic c
  | opened (c s id label) (h : c.state ≠ .closed) (hid : (c.chan.ensure s).byStream s = some id) :
      Fin env c (.event (.channelOpen id label)) { c with chan := c.chan.ensure s }
  | closed (c s id pending) (h : c.state ≠ .closed) (hid : c.chan.byStream s = some id) :
      Fin env c (.event (.channelClose id)) { c with chan := c.chan.remove id pending }
  | data (c s id binary d) (h : c.state ≠ .closed) (hid : c.chan.byStream s = some id) : Fin env c (.event (.channelData id binary d)) c
  | low (c s id) (h : c.state ≠ .closed) (hid : c.chan.byStream s = some id) : Fin env c (.event (.channelLow id)) c
  | ice (c t) (h : c.state ≠ .closed) : Fin env c (.transmit t) { c with log := c.log ++ [.iceSend t] }
  | dtls (c a p rest) (h : c.state ≠ .closed) (ha : c.sendAddr = some a) (hp : c.pending = p :: rest) :
      Fin env c (.transmit { addr := a, contents := p }) { c with pending := rest }
  | session (c a p) (h : c.state ≠ .closed) (ha : c.sendAddr = some a) : Fin env c (.transmit { addr := a, contents := p }) c
  | timeout (c t) (h : c.state ≠ .closed) (ht : c.lastNow ≤ t) : Fin env c (.timeout t) c
  | drained (c) (h : c.state = .closing) (hp : c.pending = []) : Fin env c (.timeout env.never) { c with state := .closed }

/-- A small change. -/
inductive Micro (env : Env W) : Core → Core → Prop
  | ice (c e) (h : c.state ≠ .closed) (hn : ∀ a, e ≠ .nominated a) : Micro env c { c with log := c.log ++ [.ice e] }
  | nominated (c a) (h : c.state ≠ .closed) : Micro env c { c with sendAddr := some a, log := c.log ++ [.ice (.nominated a)] }
  | dtls (c o) (h : c.state ≠ .closed) (h1 : ∀ p, o ≠ .packet p) (h2 : ∀ d, o ≠ .peerCert d) (h3 : o ≠ .connected) :
      Micro env c { c with log := c.log ++ [.dtls o] }
  | packet (c p) (h : c.state ≠ .closed) : Micro env c { c with pending := c.pending ++ [p], log := c.log ++ [.dtls (.packet p)] }
  | connected (c) (h : c.state ≠ .closed) : Micro env c { c with dtlsConnected := true, log := c.log ++ [.dtls .connected] }
  | certOk (c der) (h : c.state ≠ .closed) (hp : Passes env c der) : Micro env c { c with log := c.log ++ [.dtls (.peerCert der)] }
  | certBad (c der) (h : c.state ≠ .closed) (hp : ¬ Passes env c der) :
      Micro env c { c with state := .closed, log := c.log ++ [.dtls (.peerCert der)] }
  | sctp (c e) (h : c.state ≠ .closed) : Micro env c { c with log := c.log ++ [.sctp e] }
  | reset (c s) (h : c.state ≠ .closed) : Micro env c { c with chan := c.chan.resetComplete s }
  | lost (c) (h : c.state ≠ .closed) : Micro env c { c with chan := c.chan.lost }
  | close (c) (h : c.state = .alive) : Micro env c { c with state := .closing }
  | disconnect (c) : Micro env c { c with state := .closed, log := c.log ++ [.ended] }
  | final (c o c') (h : Fin env c o c') : Micro env c { c' with peerTx := c'.peerTx + sentLen o, log := c'.log ++ [.out o] }
  | time (c t chan) (h : c.state ≠ .closed) (hc : chan = c.chan ∨ ∃ b, chan = (c.chan.timeout b).1) :
      Micro env c { c with lastNow := max c.lastNow t, chan := chan, log := c.log ++ [.time t] }
  | arrived (c stun len) (h : c.state ≠ .closed) :
      Micro env c { c with peerRx := c.peerRx + (if stun then 0 else len), log := c.log ++ [.arrived stun len] }
  | expects (c f) : Micro env c { c with expected := some f, log := c.log ++ [.expects f] }
  | created (c wanted h id) (hn : c.chan.newChannel wanted = .ok (h, id)) : Micro env c { c with chan := h, log := c.log ++ [.created id] }
  | confirm (c id h) (hn : c.chan.confirm id = .ok h) : Micro env c { c with chan := h }
  | active (c a) (h : c.active = none) : Micro env c { c with active := some a }

abbrev Steps (env : Env W) : Core → Core → Prop := Relation.ReflTransGen (Micro env)

theorem Steps.one {env : Env W} {c c' : Core} (h : Micro env c c') : Steps env c c' := .single h

/-- The state only moves on, and a change after the end keeps it. -/
theorem startDtlsClose_core (env : Env W) (r : Rtc W) : (startDtlsClose env r).2.core = r.core := by
  unfold startDtlsClose
  split
  · rfl
  · dsimp only
    split <;> rfl

theorem startClose_steps (env : Env W) (r : Rtc W) : Steps env r.core (startClose env r).2.core ∧
    (r.state ≠ .closed → (startClose env r).2.state ≠ .closed) := by
  unfold startClose
  cases hs : r.state with
  | closed => exact ⟨.refl, fun h => absurd rfl h⟩
  | closing =>
    dsimp only
    rw [startDtlsClose_core]
    refine ⟨.refl, fun _ => ?_⟩
    have := congrArg Core.state (startDtlsClose_core env r)
    have e : (startDtlsClose env r).2.state = r.state := this
    rw [e, hs]; simp
  | alive =>
    dsimp only
    split
    · rw [startDtlsClose_core]
      refine ⟨.one (Micro.close r.core hs), fun _ => ?_⟩
      have := congrArg Core.state (startDtlsClose_core env { r with world := (env.sctpClose (env.closeRtp r.world)).2, state := .closing })
      have e : (startDtlsClose env { r with world := (env.sctpClose (env.closeRtp r.world)).2, state := .closing }).2.state = .closing := this
      rw [e]; simp
    · refine ⟨?_, fun _ => by simp⟩
      have : ({ r with state := State.alive, world := (env.sctpClose (env.closeRtp r.world)).2 } : Rtc W).core = r.core := by
        simp [Rtc.core, hs]
      exact this ▸ .refl

theorem startClose_connected (env : Env W) (r : Rtc W) : (startClose env r).2.dtlsConnected = r.dtlsConnected := by
  have e := fun r : Rtc W => congrArg Core.dtlsConnected (startDtlsClose_core env r)
  unfold startClose
  split
  · rfl
  · exact e r
  · dsimp only
    split
    · exact e _
    · rfl

theorem iceLoop_steps (env : Env W) : ∀ (fuel : Nat) (r : Rtc W) (o : Option Event) (r' : Rtc W), r.state ≠ .closed →
    iceLoop env fuel r = some (o, r') → Steps env r.core r'.core ∧ r'.state ≠ .closed ∧ r'.dtlsConnected = r.dtlsConnected ∧
      (∀ e, o = some e → ∃ v, e = .iceState v) := by
  intro fuel
  induction fuel with
  | zero => intro r o r' hs h; simp [iceLoop] at h
  | succ n ih =>
    intro r o r' hs h
    rw [iceLoop] at h
    split at h
    · cases h
      exact ⟨.refl, hs, rfl, by simp⟩
    · rename_i e w _
      cases e with
      | restart =>
        dsimp only at h
        obtain ⟨a, b, c, d⟩ := ih _ _ _ (by exact hs) h
        exact ⟨.head (Micro.ice r.core .restart hs (by simp)) a, b, c, d⟩
      | stateChange v =>
        cases h
        exact ⟨.one (Micro.ice r.core (.stateChange v) hs (by simp)), hs, rfl, by rintro e ⟨⟩; exact ⟨_, rfl⟩⟩
      | discovered s =>
        dsimp only at h
        obtain ⟨a, b, c, d⟩ := ih _ _ _ (by exact hs) h
        exact ⟨.head (Micro.ice r.core (.discovered s) hs (by simp)) a, b, c, d⟩
      | nominated x =>
        dsimp only at h
        obtain ⟨a, b, c, d⟩ := ih _ _ _ (by exact hs) h
        exact ⟨.head (Micro.nominated r.core x hs) a, b, c, d⟩

theorem dtlsTimer_steps (env : Env W) (r : Rtc W) (hs : r.state ≠ .closed) : Steps env r.core (dtlsTimer env r).2.core ∧
    ((dtlsTimer env r).1 = true → (dtlsTimer env r).2.state ≠ .closed) ∧ (dtlsTimer env r).2.dtlsConnected = r.dtlsConnected := by
  unfold dtlsTimer
  split
  · split
    · dsimp only
      split
      · exact ⟨.refl, fun _ => hs, rfl⟩
      · exact ⟨.one (Micro.disconnect r.core), by simp, rfl⟩
    · exact ⟨.refl, fun _ => hs, rfl⟩
  · exact ⟨.refl, fun _ => hs, rfl⟩

/-- What the wrapper answers. -/
theorem dtlsNext_spec (env : Env W) (r : Rtc W) : (∃ p, dtlsNext env r = (.timeout env.past, (dtlsNext env r).2) ∧
      (dtlsNext env r).2.core = { r.core with pending := r.pending ++ [p], log := r.log ++ [.dtls (.packet p)] }) ∨
    ((∀ p, (dtlsNext env r).1 ≠ .packet p) ∧ (dtlsNext env r).2.core = { r.core with log := r.log ++ [.dtls (dtlsNext env r).1] }) := by
  unfold dtlsNext
  rcases h : env.dtlsPoll r.world with ⟨o, w⟩
  cases o with
  | packet p => exact .inl ⟨p, rfl, rfl⟩
  | _ => exact .inr ⟨by simp, rfl⟩

theorem certCheck_none (env : Env W) (r : Rtc W) (der : List Byte) : certCheck env r der = none ↔ Passes env r.core der := by
  unfold certCheck Passes
  show _ ↔ ∃ f, r.expected = some f ∧ (r.verify = true → f = certOf env der)
  cases h : r.expected with
  | none => simp
  | some f =>
    cases hv : r.verify with
    | false => simp
    | true =>
      simp only [Option.some.injEq, exists_eq_left', forall_const, certOf]
      constructor
      · intro h
        by_contra hne
        rw [if_neg (by simp), if_pos (fun e => hne e.symm)] at h
        simp at h
      · intro h
        subst h
        simp

/-- The outcomes with which the loop over DTLS stops. -/
theorem dtlsLoop_steps (env : Env W) : ∀ (fuel : Nat) (just : Bool) (r : Rtc W) (o : DtlsEnd) (r' : Rtc W), r.state ≠ .closed →
    (just = true → r.dtlsConnected = true) →
    dtlsLoop env fuel just r = some (o, r') →
    Steps env r.core r'.core ∧ (∀ j, o = .done j → r'.state ≠ .closed ∧ (j = true → r'.dtlsConnected = true) ∧
        (j = true → just = false → r.dtlsConnected = false)) ∧
      (∀ x, o = .stop x → Fin env r'.core x r'.core ∧ x ≠ .event .connected) ∧ (r.dtlsConnected = true → r'.dtlsConnected = true) := by
  intro fuel
  induction fuel with
  | zero => intro just r o r' hs hj h; simp [dtlsLoop] at h
  | succ n ih =>
    intro just r o r' hs hj h
    rw [dtlsLoop] at h
    rcases dtlsNext_spec env r with ⟨p, h1, h2⟩ | ⟨hnp, h2⟩
    · rw [h1] at h
      dsimp only at h
      cases h
      refine ⟨.one ?_, ?_, by simp, ?_⟩
      · have := Micro.packet (env := env) r.core p hs
        rw [show ({ (dtlsNext env r).2 with nextDtls := some env.past } : Rtc W).core = (dtlsNext env r).2.core from rfl, h2]
        exact this
      · have e1 : (dtlsNext env r).2.state = r.state := congrArg Core.state h2
        have e2 : (dtlsNext env r).2.dtlsConnected = r.dtlsConnected := congrArg Core.dtlsConnected h2
        rintro j ⟨⟩
        refine ⟨by show (dtlsNext env r).2.state ≠ _; rw [e1]; exact hs, fun hj' => ?_, fun a b => ?_⟩
        · show (dtlsNext env r).2.dtlsConnected = true
          rw [e2]; exact hj hj'
        · rw [a] at b; cases b
      · have e2 : (dtlsNext env r).2.dtlsConnected = r.dtlsConnected := congrArg Core.dtlsConnected h2
        intro hc
        show (dtlsNext env r).2.dtlsConnected = true
        rw [e2]; exact hc
    · revert h hnp h2
      generalize hx : dtlsNext env r = x
      obtain ⟨y, q⟩ := x
      intro h hnp h2
      have e1 : q.state = r.state := congrArg Core.state h2
      have e2 : q.dtlsConnected = r.dtlsConnected := congrArg Core.dtlsConnected h2
      have e3 : q.active = r.active := congrArg Core.active h2
      have e4 : q.log = r.log ++ [.dtls y] := congrArg Core.log h2
      have hqs : q.state ≠ .closed := by rw [e1]; exact hs
      cases y with
      | packet p => exact absurd rfl (hnp p)
      | connected =>
        dsimp only at h
        have hm : Steps env r.core ({ q with dtlsConnected := true } : Rtc W).core := by
          have : ({ q with dtlsConnected := true } : Rtc W).core = { q.core with dtlsConnected := true } := rfl
          rw [this, h2]
          exact .one (Micro.connected r.core hs)
        split at h
        · rename_i hc
          obtain ⟨a, b, c, d⟩ := ih _ _ _ _ hqs (fun _ => hc) h
          refine ⟨.trans ?_ a, fun j hj' => ?_, c, fun _ => d hc⟩
          · have : q.core = { q.core with dtlsConnected := true } := by
              have : q.core.dtlsConnected = true := hc
              cases hq : q.core
              rw [hq] at this
              simp_all
            rw [this]; exact hm
          · obtain ⟨x1, x2, x3⟩ := b j hj'
            exact ⟨x1, x2, fun u v => by have := x3 u v; rw [hc] at this; cases this⟩
        · rename_i hc
          obtain ⟨a, b, c, d⟩ := ih _ _ _ _ (by exact hqs) (fun _ => rfl) h
          refine ⟨.trans hm a, fun j hj' => ?_, c, fun _ => d rfl⟩
          obtain ⟨x1, x2, x3⟩ := b j hj'
          refine ⟨x1, x2, fun u v => ?_⟩
          rw [← e2]
          simpa using hc
      | keying k =>
        dsimp only at h
        have hm : Steps env r.core q.core := by rw [h2]; exact .one (Micro.dtls r.core _ hs (by simp) (by simp) (by simp))
        split at h
        · rename_i ha
          cases h
          refine ⟨hm, by simp, ?_, fun hc => by rw [e2]; exact hc⟩
          rintro x ⟨⟩
          exact ⟨Fin.panic _ hqs (.inl ⟨ha, k, by rw [show r'.core.log = r'.log from rfl, e4]; simp⟩), by simp⟩
        · obtain ⟨a, b, c, d⟩ := ih _ _ _ _ (by exact hqs) (fun hj' => by show q.dtlsConnected = true; rw [e2]; exact hj hj') h
          refine ⟨.trans hm a, fun j hj' => ?_, c, fun hc => d (by show q.dtlsConnected = true; rw [e2]; exact hc)⟩
          obtain ⟨x1, x2, x3⟩ := b j hj'
          exact ⟨x1, x2, fun u v => by rw [← e2]; exact x3 u v⟩
      | peerCert der =>
        dsimp only at h
        have hpass : Passes env q.core der ↔ Passes env r.core der := by
          rw [h2]; rfl
        split at h
        · rename_i e he
          cases h
          have hnp' : ¬ Passes env r.core der := by
            rw [← hpass, ← certCheck_none]; rw [he]; simp
          refine ⟨.one ?_, by simp, ?_, fun hc => by show q.dtlsConnected = true; rw [e2]; exact hc⟩
          · have := Micro.certBad (env := env) r.core der hs hnp'
            rw [show q.disconnect.core = { q.core with state := .closed } from rfl, h2]
            exact this
          · rintro x ⟨⟩
            exact ⟨Fin.error _ _, by simp⟩
        · rename_i he
          have hp : Passes env r.core der := by rw [← hpass, ← certCheck_none]; exact he
          have hm : Steps env r.core q.core := by rw [h2]; exact .one (Micro.certOk r.core der hs hp)
          obtain ⟨a, b, c, d⟩ := ih _ _ _ _ hqs (fun hj' => by rw [e2]; exact hj hj') h
          refine ⟨.trans hm a, fun j hj' => ?_, c, fun hc => d (by rw [e2]; exact hc)⟩
          obtain ⟨x1, x2, x3⟩ := b j hj'
          exact ⟨x1, x2, fun u v => by rw [← e2]; exact x3 u v⟩
      | appData dd =>
        dsimp only at h
        have hm : Steps env r.core q.core := by rw [h2]; exact .one (Micro.dtls r.core _ hs (by simp) (by simp) (by simp))
        obtain ⟨a, b, c, d⟩ := ih _ _ _ _ (by exact hqs) (fun hj' => by show q.dtlsConnected = true; rw [e2]; exact hj hj') h
        refine ⟨.trans hm a, fun j hj' => ?_, c, fun hc => d (by show q.dtlsConnected = true; rw [e2]; exact hc)⟩
        obtain ⟨x1, x2, x3⟩ := b j hj'
        exact ⟨x1, x2, fun u v => by rw [← e2]; exact x3 u v⟩
      | timeout t =>
        dsimp only at h
        cases h
        have hm : Steps env r.core q.core := by rw [h2]; exact .one (Micro.dtls r.core _ hs (by simp) (by simp) (by simp))
        refine ⟨hm, ?_, by simp, fun hc => by show q.dtlsConnected = true; rw [e2]; exact hc⟩
        rintro j ⟨⟩
        exact ⟨hqs, fun hj' => by show q.dtlsConnected = true; rw [e2]; exact hj hj', fun a b => by rw [a] at b; cases b⟩
      | closeNotify =>
        dsimp only at h
        cases h
        have hm : Steps env r.core q.core := by rw [h2]; exact .one (Micro.dtls r.core _ hs (by simp) (by simp) (by simp))
        obtain ⟨s1, s2⟩ := startClose_steps env q
        refine ⟨.trans hm s1, by simp, ?_, ?_⟩
        · rintro x ⟨⟩
          split
          · exact ⟨Fin.event _ _ (s2 hqs) trivial (by simp), by simp⟩
          · exact ⟨Fin.error _ _, by simp⟩
        · intro hc
          rw [startClose_connected, e2]; exact hc
      | other =>
        dsimp only at h
        have hm : Steps env r.core q.core := by rw [h2]; exact .one (Micro.dtls r.core _ hs (by simp) (by simp) (by simp))
        cases h
        refine ⟨hm, by simp, ?_, fun hc => by rw [e2]; exact hc⟩
        intro x hx
        cases hx
        exact ⟨Fin.error _ _, by simp⟩

theorem sctpNext_core (env : Env W) (r : Rtc W) : (sctpNext env r).2.core = r.core ∧
    (∀ p, (sctpNext env r).1 = some (.transmit p) → (sctpNext env r).2.pushed = none) := by
  unfold sctpNext
  split
  · split
    · exact ⟨rfl, fun _ _ => rfl⟩
    · rename_i h
      exact ⟨rfl, fun _ _ => h⟩
  · exact ⟨rfl, by simp⟩

theorem sctpTransmit_spec (env : Env W) (r : Rtc W) (packets : List (List Byte)) (hp : r.pushed = none) :
    (sctpTransmit env r packets).2.core = r.core ∧
    (∀ x, (sctpTransmit env r packets).1 = some (.stop x) → x = .error .dtlsSend) := by
  unfold sctpTransmit
  cases packets with
  | nil => exact ⟨rfl, by simp⟩
  | cons v rest =>
    dsimp only
    rcases env.dtlsSend v r.world with ⟨o, w⟩
    cases o with
    | wouldBlock => simp [pushBack, hp, Rtc.core]
    | failed =>
      dsimp only
      split
      · split
        · exact ⟨rfl, by simp⟩
        · simp [pushBack, hp, Rtc.core]
      · exact ⟨rfl, by simp⟩
    | ok =>
      dsimp only
      split
      · exact ⟨rfl, by simp⟩
      · simp [pushBack, hp, Rtc.core]

theorem ensure_byStream (h : Handler) (s : Nat) : (h.ensure s).byStream s ≠ none := by
  unfold Handler.ensure Handler.byStream
  split
  · rename_i hx
    simp only [List.any_eq_true, decide_eq_true_eq] at hx
    obtain ⟨a, ha, hs⟩ := hx
    simp only [ne_eq, Option.map_eq_none_iff, List.find?_eq_none, decide_eq_true_eq, not_forall, not_not]
    exact ⟨a, ha, hs⟩
  · simp only [ne_eq, Option.map_eq_none_iff, List.find?_eq_none, decide_eq_true_eq, not_forall, not_not]
    exact ⟨_, List.mem_append_right _ (List.mem_singleton_self _), rfl⟩

theorem sctpLoop_steps (env : Env W) : ∀ (fuel : Nat) (r : Rtc W) (o : SctpEnd) (r' : Rtc W), r.state ≠ .closed →
    sctpLoop env fuel r = some (o, r') →
    (∃ c, Steps env r.core c ∧ c.dtlsConnected = r.dtlsConnected ∧ (∀ x, o = .stop x → Fin env c x r'.core ∧ x ≠ .event .connected) ∧
      ((∀ x, o ≠ .stop x) → c = r'.core ∧ r'.state ≠ .closed)) ∧ r'.dtlsConnected = r.dtlsConnected := by
  intro fuel
  induction fuel with
  | zero => intro r o r' hs h; simp [sctpLoop] at h
  | succ n ih =>
    intro r o r' hs h
    rw [sctpLoop] at h
    obtain ⟨e1, e2⟩ := sctpNext_core env r
    revert h e1 e2
    generalize sctpNext env r = x
    obtain ⟨ev, q⟩ := x
    intro h e1 e2
    dsimp only at e1 e2
    have hqs : q.state ≠ .closed := by rw [show q.state = r.state from congrArg Core.state e1]; exact hs
    have hqc : q.dtlsConnected = r.dtlsConnected := congrArg Core.dtlsConnected e1
    cases ev with
    | none =>
      dsimp only at h
      cases h
      exact ⟨⟨r.core, .refl, rfl, by simp, fun _ => ⟨e1.symm, hqs⟩⟩, hqc⟩
    | some e =>
      dsimp only at h
      have hm : Steps env r.core (q.say (.sctp e)).core := by
        rw [show (q.say (.sctp e)).core = { q.core with log := q.core.log ++ [.sctp e] } from rfl, e1]
        exact .one (Micro.sctp r.core e hs)
      have hcs : (q.say (.sctp e)).core.state ≠ .closed := hqs
      -- going on
      have go : ∀ (q' : Rtc W), Steps env r.core q'.core → q'.state ≠ .closed → q'.dtlsConnected = r.dtlsConnected →
          sctpLoop env n q' = some (o, r') →
          (∃ c, Steps env r.core c ∧ c.dtlsConnected = r.dtlsConnected ∧ (∀ x, o = .stop x → Fin env c x r'.core ∧ x ≠ .event .connected) ∧
            ((∀ x, o ≠ .stop x) → c = r'.core ∧ r'.state ≠ .closed)) ∧ r'.dtlsConnected = r.dtlsConnected := by
        intro q' h1 h2 h3 h4
        obtain ⟨⟨c, s1, s2, s3, s4⟩, s5⟩ := ih q' o r' h2 h4
        exact ⟨⟨c, .trans h1 s1, by rw [s2, h3], s3, s4⟩, by rw [s5, h3]⟩
      cases e with
      | transmit packets =>
        dsimp only at h
        have hpu : (q.say (.sctp (.transmit packets))).pushed = none := e2 packets rfl
        obtain ⟨t1, t2⟩ := sctpTransmit_spec env (q.say (.sctp (.transmit packets))) packets hpu
        revert h t1 t2
        generalize sctpTransmit env (q.say (.sctp (.transmit packets))) packets = y
        obtain ⟨oo, q'⟩ := y
        intro h t1 t2
        dsimp only at t1 t2
        have hq's : q'.state ≠ .closed := by rw [show q'.state = q.state from congrArg Core.state t1]; exact hqs
        have hq'c : q'.dtlsConnected = r.dtlsConnected := (congrArg Core.dtlsConnected t1).trans hqc
        cases oo with
        | none => exact go q' (by rw [t1]; exact hm) hq's hq'c h
        | some x =>
          dsimp only at h
          cases h
          refine ⟨⟨r'.core, by rw [t1]; exact hm, hq'c, ?_, fun _ => ⟨rfl, hq's⟩⟩, hq'c⟩
          rintro z rfl
          rw [t2 z rfl]
          exact ⟨Fin.error _ _, by simp⟩
      | opened s label =>
        dsimp only at h
        split at h
        · rename_i id hid
          cases h
          refine ⟨⟨_, hm, hqc, ?_, by simp⟩, hqc⟩
          rintro x ⟨⟩
          exact ⟨Fin.opened _ s id label hcs hid, by simp⟩
        · rename_i hid
          exact absurd hid (ensure_byStream _ s)
      | closed s pending =>
        dsimp only at h
        split at h
        · exact go _ hm hqs hqc h
        · rename_i id hid
          cases h
          refine ⟨⟨_, hm, hqc, ?_, by simp⟩, hqc⟩
          rintro x ⟨⟩
          exact ⟨Fin.closed _ s id pending hcs hid, by simp⟩
      | resetComplete s =>
        dsimp only at h
        refine go _ (.trans hm (Steps.one ?_)) ?_ ?_ h
        · exact Micro.reset _ s hcs
        · exact hqs
        · exact hqc
      | lost =>
        dsimp only at h
        cases h
        have hl : Steps env (q.say (.sctp .lost)).core ({ q.say (.sctp .lost) with chan := (q.say (.sctp .lost)).chan.lost } : Rtc W).core :=
          .one (Micro.lost _ hcs)
        obtain ⟨s1, s2⟩ := startClose_steps env { q.say (.sctp .lost) with chan := (q.say (.sctp .lost)).chan.lost }
        refine ⟨⟨_, .trans hm (.trans hl s1), ?_, ?_, by simp⟩, ?_⟩
        · show (startClose env _).2.dtlsConnected = _
          rw [startClose_connected]; exact hqc
        · rintro x ⟨⟩
          split
          · exact ⟨Fin.event _ _ (s2 hqs) trivial (by simp), by simp⟩
          · exact ⟨Fin.error _ _, by simp⟩
        · rw [startClose_connected]; exact hqc
      | data s binary d =>
        dsimp only at h
        split at h
        · exact go _ hm hqs hqc h
        · rename_i id hid
          cases h
          refine ⟨⟨_, hm, hqc, ?_, by simp⟩, hqc⟩
          rintro x ⟨⟩
          exact ⟨Fin.data _ s id binary d hcs hid, by simp⟩
      | low s =>
        dsimp only at h
        split at h
        · exact go _ hm hqs hqc h
        · rename_i id hid
          cases h
          refine ⟨⟨_, hm, hqc, ?_, by simp⟩, hqc⟩
          rintro x ⟨⟩
          exact ⟨Fin.low _ s id hcs hid, by simp⟩

theorem pollTimeout_fin (env : Env W) (r : Rtc W) (hs : r.state ≠ .closed) :
    Fin env r.core (pollTimeout env r).1 (pollTimeout env r).2.core := by
  unfold pollTimeout
  dsimp only
  split
  · rename_i h
    simp only [Bool.and_eq_true, decide_eq_true_eq, drained, List.isEmpty_iff] at h
    exact Fin.drained _ h.1 h.2.1.2.1
  · refine Fin.timeout _ _ hs ?_
    have key : ∀ x y : Nat, y ≤ if x < y then y else x := by
      intro x y
      split <;> omega
    exact key _ _

theorem pollTimeout_w (env : Env W) (r : Rtc W) (w : W) (hs : r.state ≠ .closed) :
    Fin env r.core (pollTimeout env { r with world := w }).1 (pollTimeout env { r with world := w }).2.core := pollTimeout_fin env { r with world := w } hs

theorem pollDatagram_fin (env : Env W) (r : Rtc W) (hs : r.state ≠ .closed) :
    Fin env r.core (pollDatagram env r).1 (pollDatagram env r).2.core := by
  unfold pollDatagram
  split
  · rename_i a ha
    split
    · rename_i p rest hp
      exact Fin.dtls _ a p rest hs ha hp
    · rename_i hp
      split
      · rename_i p w _
        exact Fin.session _ a p hs ha
      · exact pollTimeout_w env r _ hs
  · exact pollTimeout_w env r _ hs

theorem pollDatagram_w (env : Env W) (r : Rtc W) (w : W) (hs : r.state ≠ .closed) :
    Fin env r.core (pollDatagram env { r with world := w }).1 (pollDatagram env { r with world := w }).2.core := pollDatagram_fin env { r with world := w } hs

theorem pollIce_fin (env : Env W) (r : Rtc W) (hs : r.state ≠ .closed) : Fin env r.core (pollIce env r).1 (pollIce env r).2.core := by
  unfold pollIce
  split
  · exact Fin.ice _ _ hs
  · exact pollDatagram_w env r _ hs

theorem pollIce_w (env : Env W) (r : Rtc W) (w : W) (hs : r.state ≠ .closed) :
    Fin env r.core (pollIce env { r with world := w }).1 (pollIce env { r with world := w }).2.core := pollIce_fin env { r with world := w } hs

theorem pollRest_fin (env : Env W) (r : Rtc W) (hs : r.state ≠ .closed) : Fin env r.core (pollRest env r).1 (pollRest env r).2.core := by
  unfold pollRest
  split
  · exact Fin.event _ _ hs trivial (by simp)
  · split
    · exact Fin.event _ _ hs trivial (by simp)
    · exact Fin.error _ _
    · rename_i w' _ w h
      exact Fin.panic _ hs (.inr ⟨_, by rw [h]⟩)
    · split
      · exact Fin.event _ _ hs trivial (by simp)
      · exact pollIce_w env r _ hs

theorem pollRest_quiet (env : Env W) (r : Rtc W) : (pollRest env r).2.dtlsConnected = r.dtlsConnected ∧ (pollRest env r).1 ≠ .event .connected := by
  unfold pollRest pollIce pollDatagram pollTimeout
  dsimp only
  repeat' split
  all_goals first | exact ⟨rfl, by simp⟩ | exact ⟨rfl, by intro h; cases h⟩

/-- `do_poll_output` as small changes. -/
theorem doPoll_steps (env : Env W) : ∀ (fuel : Nat) (r : Rtc W) (o : Outcome) (r' : Rtc W), doPoll env fuel r = some (o, r') →
    (∃ c, Steps env r.core c ∧ Fin env c o r'.core) ∧ (r.dtlsConnected = true → r'.dtlsConnected = true) ∧
      (o = .event .connected → r.dtlsConnected = false) := by
  intro fuel
  induction fuel with
  | zero => intro r o r' h; simp [doPoll] at h
  | succ n ih =>
    intro r o r' h
    rw [doPoll] at h
    split at h
    · rename_i hc
      cases h
      exact ⟨⟨r.core, .refl, Fin.quiet _ hc⟩, id, by simp⟩
    · rename_i hs
      split at h
      · cases h
      · rename_i e r1 h1
        cases h
        obtain ⟨a, b, c, d⟩ := iceLoop_steps env _ _ _ _ hs h1
        obtain ⟨v, rfl⟩ := d e rfl
        exact ⟨⟨_, a, Fin.event _ _ b trivial (by simp)⟩, fun hh => by rw [c]; exact hh, by simp⟩
      · rename_i r1 h1
        obtain ⟨a, b, c, d⟩ := iceLoop_steps env _ _ _ _ hs h1
        obtain ⟨t1, t2, t3⟩ := dtlsTimer_steps env r1 b
        revert h t1 t2 t3
        generalize dtlsTimer env r1 = x
        obtain ⟨ok, r2⟩ := x
        intro h t1 t2 t3
        dsimp only at t1 t2 t3
        cases ok with
        | false =>
          dsimp only at h
          cases h
          exact ⟨⟨_, .trans a t1, Fin.error _ _⟩, fun hh => by rw [t3, c]; exact hh, by simp⟩
        | true =>
          dsimp only at h
          split at h
          · cases h
          · rename_i x r3 h3
            cases h
            obtain ⟨d1, d2, d3, d4⟩ := dtlsLoop_steps env _ _ _ _ _ (t2 rfl) (by simp) h3
            exact ⟨⟨_, .trans a (.trans t1 d1), (d3 _ rfl).1⟩, fun hh => d4 (by rw [t3, c]; exact hh),
              fun hh => absurd hh (d3 _ rfl).2⟩
          · rename_i r3 h3
            cases h
            obtain ⟨d1, d2, d3, d4⟩ := dtlsLoop_steps env _ _ _ _ _ (t2 rfl) (by simp) h3
            obtain ⟨x1, x2, x3⟩ := d2 true rfl
            exact ⟨⟨_, .trans a (.trans t1 d1), Fin.event _ _ x1 trivial (fun _ => x2 rfl)⟩, fun _ => x2 rfl,
              fun _ => by rw [← c, ← t3]; exact x3 rfl rfl⟩
          · rename_i r3 h3
            obtain ⟨d1, d2, d3, d4⟩ := dtlsLoop_steps env _ _ _ _ _ (t2 rfl) (by simp) h3
            obtain ⟨x1, x2, x3⟩ := d2 false rfl
            have hmono : r.dtlsConnected = true → r3.dtlsConnected = true := fun hh => d4 (by rw [t3, c]; exact hh)
            split at h
            · cases h
            · rename_i x r4 h4
              cases h
              obtain ⟨⟨cc, s1, s2, s3, s4⟩, s5⟩ := sctpLoop_steps env _ _ _ _ x1 h4
              exact ⟨⟨cc, .trans a (.trans t1 (.trans d1 s1)), (s3 _ rfl).1⟩, fun hh => by rw [s5]; exact hmono hh,
                fun hh => absurd hh (s3 _ rfl).2⟩
            · rename_i r4 h4
              obtain ⟨⟨cc, s1, s2, s3, s4⟩, s5⟩ := sctpLoop_steps env _ _ _ _ x1 h4
              obtain ⟨rfl, u2⟩ := s4 (by simp)
              obtain ⟨⟨c5, v1, v2⟩, v3, v4⟩ := ih _ _ _ h
              refine ⟨⟨c5, .trans a (.trans t1 (.trans d1 (.trans s1 v1))), v2⟩, fun hh => v3 (by rw [s5]; exact hmono hh), fun hh => ?_⟩
              have := v4 hh
              cases hr : r.dtlsConnected with
              | false => rfl
              | true => rw [s5, hmono hr] at this; cases this
            · rename_i r4 h4
              obtain ⟨⟨cc, s1, s2, s3, s4⟩, s5⟩ := sctpLoop_steps env _ _ _ _ x1 h4
              obtain ⟨rfl, u2⟩ := s4 (by simp)
              have e := Option.some.inj h
              have ho : o = (pollRest env r4).1 := (congrArg Prod.fst e).symm
              have hr' : r' = (pollRest env r4).2 := (congrArg Prod.snd e).symm
              subst ho hr'
              obtain ⟨q1, q2⟩ := pollRest_quiet env r4
              exact ⟨⟨_, .trans a (.trans t1 (.trans d1 s1)), pollRest_fin env r4 u2⟩, fun hh => by rw [q1, s5]; exact hmono hh,
                fun hh => absurd hh q2⟩

theorem poll_steps (env : Env W) (fuel : Nat) (r : Rtc W) (o : Outcome) (r' : Rtc W) (h : poll env fuel r = some (o, r')) :
    (∃ c c', Steps env r.core c ∧ Fin env c o c' ∧ r'.core = { c' with peerTx := c'.peerTx + sentLen o, log := c'.log ++ [.out o] }) ∧
    (r.dtlsConnected = true → r'.dtlsConnected = true) ∧ (o = .event .connected → r.dtlsConnected = false) := by
  unfold poll at h
  split at h
  · cases h
  · rename_i t q hq
    cases h
    obtain ⟨⟨c, a, b⟩, d, e⟩ := doPoll_steps env _ _ _ _ hq
    exact ⟨⟨c, _, a, b, rfl⟩, d, by simp⟩
  · rename_i x q hne hq
    cases h
    obtain ⟨⟨c, a, b⟩, d, e⟩ := doPoll_steps env _ _ _ _ hq
    refine ⟨⟨c, _, a, b, ?_⟩, d, e⟩
    have : sentLen o = 0 := by
      cases o with
      | transmit t => exact absurd rfl (hne t)
      | _ => rfl
    rw [this]; rfl

theorem handleTimeout_steps (env : Env W) (t : Nat) (r : Rtc W) (hs : r.state ≠ .closed) :
    Steps env r.core (handleTimeout env t r).2.core ∧ (handleTimeout env t r).2.dtlsConnected = r.dtlsConnected := by
  unfold handleTimeout
  split
  · rename_i ht
    refine ⟨.one ?_, rfl⟩
    have := Micro.time (env := env) r.core t r.chan hs (.inl rfl)
    rw [show max r.core.lastNow t = r.lastNow from by show max r.lastNow t = _; omega] at this
    exact this
  · rename_i ht
    dsimp only
    have key : ∀ chan, (chan = r.chan ∨ ∃ b, chan = (r.chan.timeout b).1) →
        Micro env r.core { r.core with lastNow := t, chan := chan, log := r.log ++ [.time t] } := by
      intro chan hc
      have := Micro.time (env := env) r.core t chan hs hc
      rw [show max r.core.lastNow t = t from by show max r.lastNow t = _; omega] at this
      exact this
    split
    · split
      · refine ⟨Steps.one ?_, rfl⟩
        exact key _ (.inr ⟨_, rfl⟩)
      · refine ⟨Steps.one ?_, rfl⟩
        exact key _ (.inr ⟨_, rfl⟩)
    · split
      · refine ⟨Steps.one ?_, rfl⟩
        exact key _ (.inl rfl)
      · refine ⟨Steps.one ?_, rfl⟩
        exact key _ (.inl rfl)

theorem handleReceive_steps (env : Env W) (t : Nat) (d : Datagram) (r : Rtc W) (hs : r.state ≠ .closed) :
    Steps env r.core (handleReceive env t d r).2.core ∧ (handleReceive env t d r).2.dtlsConnected = r.dtlsConnected ∧
      (handleReceive env t d r).2.state = r.state := by
  unfold handleReceive
  split
  · exact ⟨.one (Micro.arrived r.core true _ hs), rfl, rfl⟩
  · exact ⟨.one (Micro.arrived r.core false _ hs), rfl, rfl⟩
  · split
    · exact ⟨.one (Micro.arrived r.core false _ hs), rfl, rfl⟩
    · exact ⟨.one (Micro.arrived r.core false _ hs), rfl, rfl⟩

theorem initDtls_steps (env : Env W) (active : Bool) (r : Rtc W) : Steps env r.core (initDtls env active r).2.core ∧
    (initDtls env active r).2.dtlsConnected = r.dtlsConnected := by
  unfold initDtls
  split
  · exact ⟨.refl, rfl⟩
  · rename_i h
    dsimp only
    split <;> exact ⟨.one (Micro.active r.core active h), rfl⟩

theorem takeFingerprint_steps (env : Env W) (f : Option Fingerprint) (r : Rtc W) : Steps env r.core (takeFingerprint f r).2.core ∧
    (takeFingerprint f r).2.dtlsConnected = r.dtlsConnected := by
  unfold takeFingerprint
  split
  · exact ⟨.refl, rfl⟩
  · exact ⟨.one (Micro.expects r.core _), rfl⟩
  · exact ⟨.one (Micro.disconnect r.core), rfl⟩

/-- A call is small changes, and DTLS stays connected. -/
theorem step_steps (env : Env W) (fuel : Nat) (r r' : Rtc W) (op : Op W) (o : Option Outcome) (h : step env fuel r op = some (o, r')) :
    Steps env r.core r'.core ∧ (r.dtlsConnected = true → r'.dtlsConnected = true) := by
  cases op with
  | poll =>
    simp only [step, Option.map_eq_some_iff] at h
    obtain ⟨⟨x, q⟩, h1, h2⟩ := h
    cases h2
    obtain ⟨⟨c, c', a, b, e⟩, d, _⟩ := poll_steps env fuel r x q h1
    rw [e]
    exact ⟨.tail a (Micro.final c x c' b), d⟩
  | timeout t =>
    rw [step] at h
    split at h
    · cases h; exact ⟨.refl, id⟩
    · rename_i hs
      have e := Option.some.inj h
      have hr' : r' = (handleTimeout env t r).2 := (congrArg Prod.snd e).symm
      subst hr'
      obtain ⟨a, b⟩ := handleTimeout_steps env t r hs
      exact ⟨a, fun hh => by rw [b]; exact hh⟩
  | receive t d =>
    rw [step] at h
    split at h
    · cases h; exact ⟨.refl, id⟩
    · rename_i hs
      obtain ⟨a, b, c⟩ := handleReceive_steps env t d r hs
      dsimp only at h
      split at h
      · have e := Option.some.inj h
        have hr' : r' = (handleTimeout env t (handleReceive env t d r).2).2 := (congrArg Prod.snd e).symm
        subst hr'
        obtain ⟨a', b'⟩ := handleTimeout_steps env t (handleReceive env t d r).2 (by rw [c]; exact hs)
        exact ⟨.trans a a', fun hh => by rw [b', b]; exact hh⟩
      · have e := Option.some.inj h
        have hr' : r' = (handleReceive env t d r).2 := (congrArg Prod.snd e).symm
        subst hr'
        exact ⟨a, fun hh => by rw [b]; exact hh⟩
  | close =>
    have e := Option.some.inj h
    have hr' : r' = (startClose env r).2 := (congrArg Prod.snd e).symm
    subst hr'
    exact ⟨(startClose_steps env r).1, fun hh => by rw [startClose_connected]; exact hh⟩
  | disconnect =>
    cases h
    exact ⟨.one (Micro.disconnect r.core), id⟩
  | setFingerprint f =>
    cases h
    exact ⟨.one (Micro.expects r.core f), id⟩
  | startDtls active =>
    have e := Option.some.inj h
    have hr' : r' = (initDtls env active r).2 := (congrArg Prod.snd e).symm
    subst hr'
    obtain ⟨a, b⟩ := initDtls_steps env active r
    exact ⟨a, fun hh => by rw [b]; exact hh⟩
  | remoteSdp offer f active =>
    rw [step] at h
    split at h
    · obtain ⟨a, b⟩ := takeFingerprint_steps env f r
      dsimp only at h
      split at h
      · have e := Option.some.inj h
        have hr' : r' = (initDtls env active (takeFingerprint f r).2).2 := (congrArg Prod.snd e).symm
        subst hr'
        obtain ⟨a', b'⟩ := initDtls_steps env active (takeFingerprint f r).2
        exact ⟨.trans a a', fun hh => by rw [b', b]; exact hh⟩
      · cases h
        exact ⟨a, fun hh => by rw [b]; exact hh⟩
    · obtain ⟨a, b⟩ := initDtls_steps env active r
      dsimp only at h
      split at h
      · have e := Option.some.inj h
        have hr' : r' = (takeFingerprint f (initDtls env active r).2).2 := (congrArg Prod.snd e).symm
        subst hr'
        obtain ⟨a', b'⟩ := takeFingerprint_steps env f (initDtls env active r).2
        exact ⟨.trans a a', fun hh => by rw [b', b]; exact hh⟩
      · cases h
        exact ⟨a, fun hh => by rw [b]; exact hh⟩
  | newChannel wanted =>
    rw [step] at h
    split at h
    · rename_i hh id hn
      cases h
      exact ⟨.one (Micro.created r.core wanted hh id hn), fun x => x⟩
    · cases h
      exact ⟨.refl, id⟩
  | confirm id =>
    rw [step] at h
    split at h
    · rename_i hh hn
      cases h
      exact ⟨.one (Micro.confirm r.core id hh hn), fun x => x⟩
    · cases h
      exact ⟨.refl, fun x => x⟩
  | closeChannel id =>
    rw [step] at h
    split at h <;> cases h <;> exact ⟨.refl, fun x => x⟩
  | api f =>
    cases h
    exact ⟨.refl, fun x => x⟩

theorem run_steps (env : Env W) (fuel : Nat) : ∀ (ops : List (Op W)) (r r' : Rtc W), run env fuel r ops = some r' →
    Steps env r.core r'.core ∧ (r.dtlsConnected = true → r'.dtlsConnected = true) := by
  intro ops
  induction ops with
  | nil => intro r r' h; cases h; exact ⟨.refl, id⟩
  | cons op ops ih =>
    intro r r' h
    rw [run] at h
    split at h
    · cases h
    · rename_i o q hq
      obtain ⟨a, b⟩ := step_steps env fuel r q op o hq
      obtain ⟨c, d⟩ := ih q r' h
      exact ⟨.trans a c, fun hh => d (b hh)⟩

/-- Invariants of the small changes are invariants of histories. -/
theorem Steps.inv {env : Env W} {P : Core → Prop} (hstep : ∀ c c', P c → Micro env c c' → P c') {c c' : Core} (h : Steps env c c') (hp : P c) :
    P c' := by
  induction h with
  | refl => exact hp
  | tail _ hm ih => exact hstep _ _ ih hm

end Str0m.RtcLoop
