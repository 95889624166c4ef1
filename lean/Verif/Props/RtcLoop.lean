import Verif.Proofs.RtcLoop
import Verif.Spec.RtcLoop
import Verif.Props.Channel
/-
  C90 life cycle, C91 certificates, C92 time, C93 channel events, C94 addresses, C95 connected and closed,
  C96 byte counters, C97 panics.
-/
namespace Str0m.RtcLoop
open Str0m.Channel (Handler)

variable {W : Type}

/-! ### Logs -/

theorem snoc_split {α : Type _} {l pre post : List α} {n x : α} (h : l ++ [n] = pre ++ x :: post) :
    (pre = l ∧ x = n ∧ post = []) ∨ ∃ p, post = p ++ [n] ∧ l = pre ++ x :: p := by
  rcases List.eq_nil_or_concat post with rfl | ⟨p, y, rfl⟩
  · left
    have := List.append_inj' h rfl
    exact ⟨this.1.symm, by simpa using this.2.symm, rfl⟩
  · right
    rw [List.concat_eq_append, ← List.cons_append, ← List.append_assoc] at h
    have := List.append_inj' h rfl
    refine ⟨p, ?_, this.1⟩
    rw [List.concat_eq_append]
    rw [this.2]

theorem Always.snoc {Q : List Note → Note → Prop} {l : List Note} {n : Note} (h : Always Q l) (hn : Q l n) : Always Q (l ++ [n]) := by
  intro pre x post e
  rcases snoc_split e with ⟨rfl, rfl, _⟩ | ⟨p, _, e'⟩
  · exact hn
  · exact h pre x p e'

theorem Always.nil {Q : List Note → Note → Prop} : Always Q [] := by
  intro pre n post h
  simp at h

theorem nominated_snoc {l : List Note} {a : SendAddr} {n : Note} (hn : ∀ b, n ≠ .ice (.nominated b)) (h : NominatedLast l a) :
    NominatedLast (l ++ [n]) a := by
  obtain ⟨l₁, l₂, rfl, h2⟩ := h
  refine ⟨l₁, l₂ ++ [n], by simp, fun b hb => ?_⟩
  rcases List.mem_append.1 hb with hb | hb
  · exact h2 b hb
  · exact hn b (List.mem_singleton.1 hb).symm

theorem nominated_last (l : List Note) (a : SendAddr) : NominatedLast (l ++ [.ice (.nominated a)]) a := ⟨l, [], by simp, by simp⟩

theorem expecting_snoc {l : List Note} {n : Note} (hn : ∀ b, n ≠ .expects b) (f : Fingerprint) : Expecting (l ++ [n]) f ↔ Expecting l f := by
  constructor
  · rintro ⟨l₁, l₂, h, h2⟩
    rcases snoc_split h with ⟨_, e, _⟩ | ⟨p, rfl, e⟩
    · exact absurd e.symm (hn f)
    · exact ⟨l₁, p, e, fun g hg => h2 g (List.mem_append_left _ hg)⟩
  · rintro ⟨l₁, l₂, rfl, h2⟩
    refine ⟨l₁, l₂ ++ [n], by simp, fun b hb => ?_⟩
    rcases List.mem_append.1 hb with hb | hb
    · exact h2 b hb
    · exact hn b (List.mem_singleton.1 hb).symm

theorem expecting_last (l : List Note) (f g : Fingerprint) : Expecting (l ++ [.expects f]) g ↔ g = f := by
  constructor
  · rintro ⟨l₁, l₂, h, h2⟩
    rcases snoc_split h with ⟨_, e, _⟩ | ⟨p, rfl, e⟩
    · exact (Note.expects.inj e)
    · exact absurd (List.mem_append_right p (List.mem_singleton_self _)) (h2 f)
  · rintro rfl
    exact ⟨l, [], by simp, by simp⟩

theorem badCert_snoc {sha : List Byte → List Byte} {v : Bool} {l : List Note} {n : Note} (h : BadCert sha v (l ++ [n])) :
    BadCert sha v l ∨ ∃ der, n = .dtls (.peerCert der) ∧ ¬ ∃ f, Expecting l f ∧ (v = true → f.hash = "sha-256" ∧ f.bytes = sha der) := by
  obtain ⟨l₁, der, l₂, h, hb⟩ := h
  rcases snoc_split h with ⟨rfl, e, _⟩ | ⟨p, rfl, e⟩
  · exact .inr ⟨der, e.symm, hb⟩
  · exact .inl ⟨l₁, der, p, e, hb⟩

/-- A history of an instance from its start. -/
def From (env : Env W) (start : Nat) (verify : Bool) (w : W) (r : Rtc W) : Prop :=
  ∃ fuel ops, run env fuel (Rtc.new start verify w) ops = some r

theorem From.inv {env : Env W} {start : Nat} {verify : Bool} {w : W} {r : Rtc W} (h : From env start verify w r) {P : Core → Prop}
    (h0 : P (Rtc.new start verify w).core) (hstep : ∀ c c', P c → Micro env c c' → P c') : P r.core := by
  obtain ⟨fuel, ops, hr⟩ := h
  exact (run_steps env fuel ops _ _ hr).1.inv hstep h0

theorem From.new {env : Env W} {start : Nat} {verify : Bool} {w : W} : From env start verify w (Rtc.new start verify w) := ⟨0, [], rfl⟩

/-! ### C94 -/

/-- **C94.** In every history, a datagram that is handed out was made by the ICE agent, or goes from and to the addresses nominated
last; before a nomination there is no other. -/
theorem C94_addresses (env : Env W) (start : Nat) (verify : Bool) (w : W) (r : Rtc W) (h : From env start verify w r) :
    Always (fun pre n => ∀ t, n = .out (.transmit t) → pre.getLast? = some (.iceSend t) ∨ NominatedLast pre t.addr) r.log := by
  have := h.inv (P := fun c => (∀ a, c.sendAddr = some a → NominatedLast c.log a) ∧
    Always (fun pre n => ∀ t, n = .out (.transmit t) → pre.getLast? = some (.iceSend t) ∨ NominatedLast pre t.addr) c.log)
    ⟨by simp [Rtc.new, Rtc.core], Always.nil⟩ (by
      rintro c c' ⟨h1, h2⟩ hm
      have other : ∀ n, (∀ t, n ≠ .out (.transmit t)) → (∀ b, n ≠ .ice (.nominated b)) →
          (∀ a, c.sendAddr = some a → NominatedLast (c.log ++ [n]) a) ∧
          Always (fun pre n => ∀ t, n = .out (.transmit t) → pre.getLast? = some (.iceSend t) ∨ NominatedLast pre t.addr) (c.log ++ [n]) :=
        fun n hn hb => ⟨fun a ha => nominated_snoc hb (h1 a ha), h2.snoc (fun t ht => absurd ht (hn t))⟩
      have same : (∀ a, c.sendAddr = some a → NominatedLast c.log a) ∧
          Always (fun pre n => ∀ t, n = .out (.transmit t) → pre.getLast? = some (.iceSend t) ∨ NominatedLast pre t.addr) c.log := ⟨h1, h2⟩
      cases hm with
      | ice e hs hn => exact other _ (by simp) (fun b hb => hn b (Note.ice.inj hb))
      | nominated a hs =>
        refine ⟨?_, h2.snoc (by simp)⟩
        rintro b ⟨⟩
        exact nominated_last _ _
      | dtls | packet | connected | certOk | certBad | sctp | time | arrived | expects | created | disconnect => exact other _ (by simp) (by simp)
      | reset | lost | close | confirm | active => exact same
      | final o c'' hf =>
        cases hf with
        | quiet | event | error | panic | opened | closed | data | low | timeout | drained => exact other _ (by simp) (by simp)
        | ice t hs =>
          refine ⟨fun a ha => ?_, ?_⟩
          · exact nominated_snoc (by simp) (nominated_snoc (by simp) (h1 a ha))
          · refine Always.snoc (h2.snoc (by simp)) ?_
            rintro t' ⟨⟩
            left; simp
        | dtls a p rest hs ha hp =>
          refine ⟨fun b hb => nominated_snoc (by simp) (h1 b hb), h2.snoc ?_⟩
          rintro t ⟨⟩
          exact .inr (h1 _ ha)
        | session a p hs ha =>
          refine ⟨fun b hb => nominated_snoc (by simp) (h1 b hb), h2.snoc ?_⟩
          rintro t ⟨⟩
          exact .inr (h1 _ ha))
  exact this.2

/-! ### C91 -/

/-- What may still be in the log after a bad certificate. -/
def Silent (never : Nat) (n : Note) : Prop :=
  (∃ e, n = .out (.error e)) ∨ n = .out (.timeout never) ∨ (∃ f, n = .expects f) ∨ (∃ id, n = .created id) ∨ n = .ended

/-- **C91.** In every history, once the peer has shown a certificate that is not the expected one, nothing is sent, no event is given and no
part of the library is asked or given anything again: `poll_output` returns errors or that nothing will happen, and the instance is not alive. -/
theorem C91_bad_certificate (env : Env W) (start : Nat) (verify : Bool) (w : W) (r : Rtc W) (h : From env start verify w r) :
    Always (fun pre n => BadCert env.sha256 verify pre → Silent env.never n) r.log ∧
    (BadCert env.sha256 verify r.log → r.isAlive = false) := by
  have := h.inv (P := fun c => (c.verify = verify ∧ (∀ f, c.expected = some f ↔ Expecting c.log f)) ∧
    (BadCert env.sha256 verify c.log → c.state = .closed) ∧
    Always (fun pre n => BadCert env.sha256 verify pre → Silent env.never n) c.log)
    ⟨⟨rfl, by intro f; simp [Rtc.new, Rtc.core, Expecting]⟩, by simp [Rtc.new, Rtc.core, BadCert], Always.nil⟩ (by
      rintro c c' ⟨⟨hv, he⟩, hb, ha⟩ hm
      have passes : ∀ der, Passes env c der ↔ ∃ f, Expecting c.log f ∧ (verify = true → f.hash = "sha-256" ∧ f.bytes = env.sha256 der) := by
        intro der
        unfold Passes
        rw [hv]
        constructor
        · rintro ⟨f, h1, h2⟩
          exact ⟨f, (he f).1 h1, fun x => by rw [h2 x]; exact ⟨rfl, rfl⟩⟩
        · rintro ⟨f, h1, h2⟩
          refine ⟨f, (he f).2 h1, fun x => ?_⟩
          obtain ⟨y1, y2⟩ := h2 x
          cases f
          simp only at y1 y2
          subst y1 y2
          rfl
      -- a note of a part, while not closed
      have alive : ∀ n, c.state ≠ .closed → (∀ f, n ≠ .expects f) → (∀ der, n ≠ .dtls (.peerCert der)) →
          (∀ f, c.expected = some f ↔ Expecting (c.log ++ [n]) f) ∧ (BadCert env.sha256 verify (c.log ++ [n]) → False) ∧
          Always (fun pre n => BadCert env.sha256 verify pre → Silent env.never n) (c.log ++ [n]) := by
        intro n hs h1 h2
        refine ⟨fun f => by rw [expecting_snoc h1]; exact he f, fun hbad => ?_, ha.snoc (fun hbad => absurd (hb hbad) hs)⟩
        rcases badCert_snoc hbad with hbad | ⟨der, hd, _⟩
        · exact hs (hb hbad)
        · exact h2 der hd
      -- a silent note
      have silent : ∀ n, Silent env.never n → (∀ f, n ≠ .expects f) →
          (∀ f, c.expected = some f ↔ Expecting (c.log ++ [n]) f) ∧ (BadCert env.sha256 verify (c.log ++ [n]) → c.state = .closed) ∧
          Always (fun pre n => BadCert env.sha256 verify pre → Silent env.never n) (c.log ++ [n]) := by
        intro n hn h1
        refine ⟨fun f => by rw [expecting_snoc h1]; exact he f, fun hbad => ?_, ha.snoc (fun _ => hn)⟩
        rcases badCert_snoc hbad with hbad | ⟨der, hd, _⟩
        · exact hb hbad
        · subst hd
          rcases hn with ⟨e, h⟩ | h | ⟨f, h⟩ | ⟨id, h⟩ | h <;> cases h
      cases hm with
      | ice e hs hn => obtain ⟨a, b, d⟩ := alive (.ice e) hs (by simp) (by simp); exact ⟨⟨hv, a⟩, fun x => (b x).elim, d⟩
      | nominated x hs => obtain ⟨a, b, d⟩ := alive (.ice (.nominated x)) hs (by simp) (by simp); exact ⟨⟨hv, a⟩, fun x => (b x).elim, d⟩
      | dtls o hs h1 h2 h3 =>
        obtain ⟨a, b, d⟩ := alive (.dtls o) hs (by simp) (fun der hd => h2 der (Note.dtls.inj hd)); exact ⟨⟨hv, a⟩, fun x => (b x).elim, d⟩
      | packet p hs => obtain ⟨a, b, d⟩ := alive (.dtls (.packet p)) hs (by simp) (by simp); exact ⟨⟨hv, a⟩, fun x => (b x).elim, d⟩
      | connected hs => obtain ⟨a, b, d⟩ := alive (.dtls .connected) hs (by simp) (by simp); exact ⟨⟨hv, a⟩, fun x => (b x).elim, d⟩
      | sctp e hs => obtain ⟨a, b, d⟩ := alive (.sctp e) hs (by simp) (by simp); exact ⟨⟨hv, a⟩, fun x => (b x).elim, d⟩
      | time t chan hs hc => obtain ⟨a, b, d⟩ := alive (.time t) hs (by simp) (by simp); exact ⟨⟨hv, a⟩, fun x => (b x).elim, d⟩
      | arrived st len hs => obtain ⟨a, b, d⟩ := alive (.arrived st len) hs (by simp) (by simp); exact ⟨⟨hv, a⟩, fun x => (b x).elim, d⟩
      | certOk der hs hp =>
        refine ⟨⟨hv, fun f => by rw [expecting_snoc (by simp)]; exact he f⟩, fun hbad => ?_, ha.snoc (fun hbad => absurd (hb hbad) hs)⟩
        rcases badCert_snoc hbad with hbad | ⟨der', hd, hno⟩
        · exact hb hbad
        · cases hd
          exact absurd ((passes der).1 hp) hno
      | certBad der hs hp =>
        exact ⟨⟨hv, fun f => by rw [expecting_snoc (by simp)]; exact he f⟩, fun _ => rfl, ha.snoc (fun hbad => absurd (hb hbad) hs)⟩
      | expects f =>
        refine ⟨⟨hv, fun g => ?_⟩, fun hbad => ?_, ha.snoc (fun _ => .inr (.inr (.inl ⟨f, rfl⟩)))⟩
        · rw [expecting_last]
          show some f = some g ↔ g = f
          simp [eq_comm]
        · rcases badCert_snoc hbad with hbad | ⟨der', hd, hno⟩
          · exact hb hbad
          · cases hd
      | created wanted hh id hn =>
        obtain ⟨a, b, d⟩ := silent (.created id) (.inr (.inr (.inr (.inl ⟨id, rfl⟩)))) (by simp)
        exact ⟨⟨hv, a⟩, b, d⟩
      | reset | lost | confirm | active => exact ⟨⟨hv, he⟩, hb, ha⟩
      | close hs => exact ⟨⟨hv, he⟩, fun hbad => (by rw [hb hbad] at hs; cases hs), ha⟩
      | disconnect =>
        obtain ⟨a, b, d⟩ := silent .ended (.inr (.inr (.inr (.inr rfl)))) (by simp)
        exact ⟨⟨hv, a⟩, fun _ => rfl, d⟩
      | final o c'' hf =>
        cases hf with
        | quiet hs =>
          obtain ⟨a, b, d⟩ := silent (.out (.timeout env.never)) (.inr (.inl rfl)) (by simp)
          exact ⟨⟨hv, a⟩, b, d⟩
        | error e =>
          obtain ⟨a, b, d⟩ := silent (.out (.error e)) (.inl ⟨e, rfl⟩) (by simp)
          exact ⟨⟨hv, a⟩, b, d⟩
        | drained hs hp =>
          obtain ⟨a, b, d⟩ := alive (.out (.timeout env.never)) (by rw [hs]; simp) (by simp) (by simp)
          exact ⟨⟨hv, a⟩, fun x => (b x).elim, d⟩
        | panic hs hh =>
          obtain ⟨a, b, d⟩ := alive (.out .panic) hs (by simp) (by simp)
          exact ⟨⟨hv, a⟩, fun x => (b x).elim, d⟩
        | event e hs _ _ =>
          obtain ⟨a, b, d⟩ := alive (.out (.event e)) hs (by simp) (by simp)
          exact ⟨⟨hv, a⟩, fun x => (b x).elim, d⟩
        | opened s id label hs hid =>
          obtain ⟨a, b, d⟩ := alive (.out (.event (.channelOpen id label))) hs (by simp) (by simp)
          exact ⟨⟨hv, a⟩, fun x => (b x).elim, d⟩
        | closed s id pend hs hid =>
          obtain ⟨a, b, d⟩ := alive (.out (.event (.channelClose id))) hs (by simp) (by simp)
          exact ⟨⟨hv, a⟩, fun x => (b x).elim, d⟩
        | data s id bin dd hs hid =>
          obtain ⟨a, b, d⟩ := alive (.out (.event (.channelData id bin dd))) hs (by simp) (by simp)
          exact ⟨⟨hv, a⟩, fun x => (b x).elim, d⟩
        | low s id hs hid =>
          obtain ⟨a, b, d⟩ := alive (.out (.event (.channelLow id))) hs (by simp) (by simp)
          exact ⟨⟨hv, a⟩, fun x => (b x).elim, d⟩
        | dtls x p rest hs hx hp =>
          obtain ⟨a, b, d⟩ := alive (.out (.transmit { addr := x, contents := p })) hs (by simp) (by simp)
          exact ⟨⟨hv, a⟩, fun x => (b x).elim, d⟩
        | session x p hs hx =>
          obtain ⟨a, b, d⟩ := alive (.out (.transmit { addr := x, contents := p })) hs (by simp) (by simp)
          exact ⟨⟨hv, a⟩, fun x => (b x).elim, d⟩
        | timeout t hs ht =>
          obtain ⟨a, b, d⟩ := alive (.out (.timeout t)) hs (by simp) (by simp)
          exact ⟨⟨hv, a⟩, fun x => (b x).elim, d⟩
        | ice t hs =>
          obtain ⟨a, b, d⟩ := alive (.iceSend t) hs (by simp) (by simp)
          refine ⟨⟨hv, fun f => by rw [expecting_snoc (by simp)]; exact a f⟩, fun hbad => ?_, d.snoc (fun hbad => (b hbad).elim)⟩
          rcases badCert_snoc hbad with hbad | ⟨der', hd, hno⟩
          · exact (b hbad).elim
          · cases hd)
  refine ⟨this.2.2, fun hbad => ?_⟩
  have := this.2.1 hbad
  show decide (r.state ≠ .closed) = false
  rw [show r.state = .closed from this]
  rfl

/-- **C91** (contrapositive). What is sent, every event and `Connected` in particular come while each certificate shown so far was the
expected one at its time. -/
theorem C91_connected (env : Env W) (start : Nat) (verify : Bool) (w : W) (r : Rtc W) (h : From env start verify w r) :
    Always (fun pre n => ((∃ e, n = .out (.event e)) ∨ ∃ t, n = .out (.transmit t)) → ¬ BadCert env.sha256 verify pre) r.log := by
  intro pre n post e hn hbad
  have := (C91_bad_certificate env start verify w r h).1 pre n post e hbad
  rcases hn with ⟨x, rfl⟩ | ⟨x, rfl⟩ <;> rcases this with ⟨_, h⟩ | h | ⟨_, h⟩ | ⟨_, h⟩ | h <;> cases h

/-- **C91** (pinned). Once a fingerprint is known, no later offer or answer changes it. -/
theorem C91_pinned (env : Env W) (fuel : Nat) (r r' : Rtc W) (offer : Bool) (f : Option Fingerprint) (active : Bool) (o : Option Outcome)
    (g : Fingerprint) (hg : r.expected = some g) (h : step env fuel r (.remoteSdp offer f active) = some (o, r')) : r'.expected = some g := by
  have h1 : ∀ q : Rtc W, (initDtls env active q).2.expected = q.expected := by
    intro q
    unfold initDtls
    split
    · rfl
    · dsimp only
      split <;> rfl
  have h2 : ∀ q : Rtc W, q.expected = some g → takeFingerprint f q = (true, q) := by
    intro q hq
    unfold takeFingerprint
    rw [hq]
  rw [step] at h
  split at h
  · rw [h2 r hg] at h
    dsimp only at h
    simp only [if_true] at h
    have e := Option.some.inj h
    have hr' : r' = (initDtls env active r).2 := (congrArg Prod.snd e).symm
    rw [hr', h1, hg]
  · dsimp only at h
    split at h
    · rw [h2 _ ((h1 r).trans hg)] at h
      have e := Option.some.inj h
      have hr' : r' = (initDtls env active r).2 := (congrArg Prod.snd e).symm
      rw [hr', h1, hg]
    · cases h
      rw [h1, hg]

/-- **C91, violated by other names of the hash.** A fingerprint is compared as text: one whose hash is not written `sha-256` in lower
case, be it `SHA-256` or a longer hash, is matched by no certificate at all, the peer's own included. -/
theorem C91_violation_hash_name (env : Env W) (r : Rtc W) (f : Fingerprint) (hf : r.expected = some f) (hv : r.verify = true)
    (hh : f.hash ≠ "sha-256") (der : List Byte) : certCheck env r der = some .noMatch := by
  unfold certCheck
  rw [hf]
  dsimp only
  rw [if_neg (by simp [hv]), if_pos]
  intro e
  exact hh (by rw [← e])

/-! ### C92 -/

theorem micro_clock {env : Env W} {t : Nat} (c c' : Core) (h : t ≤ c.lastNow ∨ c.state = .closed) (hm : Micro env c c') :
    t ≤ c'.lastNow ∨ c'.state = .closed := by
  cases hm with
  | ice | nominated | dtls | packet | connected | certOk | sctp | reset | lost | arrived | expects | created | confirm | active => exact h
  | certBad | disconnect => exact .inr rfl
  | close hs => exact h.imp_right (fun hc => by rw [hc] at hs; cases hs)
  | final o c'' hf =>
    cases hf with
    | drained => exact .inr rfl
    | _ => exact h
  | time t' chan hs hc =>
    rcases h with h | h
    · exact .inl (le_trans h (le_max_left _ _))
    · exact absurd h hs

theorem poll_clock (env : Env W) (fuel : Nat) (r r' : Rtc W) (t u : Nat) (h : t ≤ r.lastNow ∨ r.state = .closed)
    (hp : poll env fuel r = some (.timeout u, r')) : t ≤ u ∨ (u = env.never ∧ r'.isAlive = false) := by
  obtain ⟨⟨c, c', a, b, e⟩, _, _⟩ := poll_steps env fuel r _ r' hp
  have hc : t ≤ c.lastNow ∨ c.state = .closed := a.inv micro_clock h
  have hst : r'.state = c'.state := congrArg Core.state e
  cases b with
  | quiet hs => exact .inr ⟨rfl, by simp [Rtc.isAlive, hst, hs]⟩
  | timeout _ hs ht =>
    rcases hc with hc | hc
    · left; omega
    · exact absurd hc hs
  | drained hs hp => exact .inr ⟨rfl, by simp [Rtc.isAlive, hst]⟩

theorem handleTimeout_clock (env : Env W) (t : Nat) (r : Rtc W) : t ≤ (handleTimeout env t r).2.lastNow := by
  unfold handleTimeout
  split
  · rename_i h
    show t ≤ r.lastNow
    omega
  · dsimp only
    repeat' split
    all_goals exact le_refl t

/-- **C92.** Time does not go back: after `handle_input` with a time, by a timeout or with a datagram that was taken, every timeout that
`poll_output` returns later is at that time or after, or the instance is over and nothing will happen. -/
theorem C92_timeouts_ahead (env : Env W) (fuel : Nat) (r₀ r₁ r₂ r₃ : Rtc W) (op : Op W) (o : Option Outcome) (t u : Nat) (ops : List (Op W))
    (hop : op = .timeout t ∨ ∃ d, op = .receive t d ∧ o ≠ some (.error .dtlsReceive))
    (h1 : step env fuel r₀ op = some (o, r₁)) (h2 : run env fuel r₁ ops = some r₂) (h3 : poll env fuel r₂ = some (.timeout u, r₃)) :
    t ≤ u ∨ (u = env.never ∧ r₃.isAlive = false) := by
  have k : t ≤ r₁.lastNow ∨ r₁.state = .closed := by
    rcases hop with rfl | ⟨d, rfl, ho⟩
    · rw [step] at h1
      split at h1
      · rename_i hc
        cases h1
        exact .inr hc
      · have e := Option.some.inj h1
        have hr' : r₁ = (handleTimeout env t r₀).2 := (congrArg Prod.snd e).symm
        rw [hr']
        exact .inl (handleTimeout_clock env t r₀)
    · rw [step] at h1
      split at h1
      · rename_i hc
        cases h1
        exact .inr hc
      · dsimp only at h1
        split at h1
        · have e := Option.some.inj h1
          have hr' : r₁ = (handleTimeout env t (handleReceive env t d r₀).2).2 := (congrArg Prod.snd e).symm
          rw [hr']
          exact .inl (handleTimeout_clock env t _)
        · have e := Option.some.inj h1
          exact absurd (congrArg Prod.fst e).symm ho
  have k2 : t ≤ r₂.lastNow ∨ r₂.state = .closed := (run_steps env fuel ops r₁ r₂ h2).1.inv (P := fun c => t ≤ c.lastNow ∨ c.state = .closed) micro_clock k
  exact poll_clock env fuel r₂ r₃ t u k2 h3

/-- **C92** (start). The same from the time the instance was made with. -/
theorem C92_after_start (env : Env W) (fuel : Nat) (start : Nat) (verify : Bool) (w : W) (ops : List (Op W)) (r r' : Rtc W) (u : Nat)
    (h : run env fuel (Rtc.new start verify w) ops = some r) (hp : poll env fuel r = some (.timeout u, r')) :
    start ≤ u ∨ (u = env.never ∧ r'.isAlive = false) := by
  have k : start ≤ r.lastNow ∨ r.state = .closed :=
    (run_steps env fuel ops _ r h).1.inv (P := fun c => start ≤ c.lastNow ∨ c.state = .closed) micro_clock (.inl (le_refl _))
  exact poll_clock env fuel r r' start u k hp

/-- **C92** (early). A timeout earlier than a time already given changes nothing but the ghost. -/
theorem C92_early (env : Env W) (fuel : Nat) (r : Rtc W) (t : Nat) (ht : t < r.lastNow) (ha : r.state ≠ .closed) :
    step env fuel r (.timeout t) = some (none, { r with log := r.log ++ [.time t] }) := by
  rw [step, if_neg ha]
  dsimp only
  rw [handleTimeout, if_pos ht]
  rfl

/-! ### C90 -/

/-- How far the life has come. -/
def State.age : State → Nat
  | .alive => 0
  | .closing => 1
  | .closed => 2

/-- **C90** (forward). Whatever is called, an instance never becomes younger: alive, then closing, then closed. -/
theorem C90_forward (env : Env W) (fuel : Nat) (r r' : Rtc W) (ops : List (Op W)) (h : run env fuel r ops = some r') :
    r.state.age ≤ r'.state.age := by
  refine (run_steps env fuel ops r r' h).1.inv (P := fun c => r.state.age ≤ c.state.age) ?_ (le_refl _)
  intro c c' hc hm
  have le2 : ∀ s : State, s.age ≤ 2 := by intro s; cases s <;> simp [State.age]
  cases hm with
  | ice | nominated | dtls | packet | connected | certOk | sctp | reset | lost | arrived | expects | created | confirm | active | time => exact hc
  | certBad | disconnect => exact le2 _
  | close hs =>
    rw [hs] at hc
    simp only [State.age] at hc ⊢
    omega
  | final o c'' hf =>
    cases hf with
    | drained => exact le2 _
    | _ => exact hc

/-- **C90** (over). Once `is_alive` is false it stays so, whatever is called; every poll says that nothing will happen, inputs change nothing,
no part of the library is asked for anything, and there is no writer and no channel. -/
theorem C90_over (env : Env W) (fuel : Nat) (r r' : Rtc W) (ops : List (Op W)) (hc : r.isAlive = false) (h : run env fuel r ops = some r') :
    r'.isAlive = false ∧
    (∃ added, r'.log = r.log ++ added ∧ ∀ n ∈ added, n = .out (.timeout env.never) ∨ (∃ f, n = .expects f) ∨ (∃ id, n = .created id) ∨ n = .ended) ∧
    (∀ o q, poll env fuel r' = some (o, q) → o = .timeout env.never ∧ q.world = r'.world) ∧
    (∀ t d, step env fuel r' (.timeout t) = some (none, r') ∧ step env fuel r' (.receive t d) = some (none, r')) ∧
    (∀ media isOpen id, r'.writer media = false ∧ r'.channel isOpen id = false) := by
  have closed_of : ∀ q : Rtc W, q.isAlive = false → q.state = .closed := by
    intro q hq
    simpa [Rtc.isAlive] using hq
  have alive_of : ∀ q : Rtc W, q.state = .closed → q.isAlive = false := by
    intro q hq
    simp [Rtc.isAlive, hq]
  have pollc : ∀ (q q' : Rtc W) (o : Outcome), q.state = .closed → poll env fuel q = some (o, q') →
      o = .timeout env.never ∧ q'.world = q.world ∧ q'.state = .closed ∧ q'.log = q.log ++ [.out (.timeout env.never)] := by
    intro q q' o hq hp
    unfold poll at hp
    cases fuel with
    | zero => simp [doPoll] at hp
    | succ n =>
      rw [doPoll, if_pos hq] at hp
      dsimp only at hp
      cases hp
      exact ⟨rfl, rfl, hq, rfl⟩
  have stepc : ∀ (q q' : Rtc W) (op : Op W) (o : Option Outcome), q.state = .closed → step env fuel q op = some (o, q') →
      q'.state = .closed ∧ ∃ added, q'.log = q.log ++ added ∧
        ∀ n ∈ added, n = .out (.timeout env.never) ∨ (∃ f, n = .expects f) ∨ (∃ id, n = .created id) ∨ n = .ended := by
    have hinit : ∀ (a : Bool) (q : Rtc W), (initDtls env a q).2.state = q.state ∧ (initDtls env a q).2.log = q.log := by
      intro a q
      unfold initDtls
      split
      · exact ⟨rfl, rfl⟩
      · dsimp only
        split <;> exact ⟨rfl, rfl⟩
    have htake : ∀ (f : Option Fingerprint) (q : Rtc W), q.state = .closed → (takeFingerprint f q).2.state = .closed ∧
        ∃ added, (takeFingerprint f q).2.log = q.log ++ added ∧
          ∀ n ∈ added, n = .out (.timeout env.never) ∨ (∃ f, n = .expects f) ∨ (∃ id, n = .created id) ∨ n = .ended := by
      intro f q hq
      unfold takeFingerprint
      split
      · exact ⟨hq, [], by simp, by simp⟩
      · rename_i f _
        exact ⟨hq, [.expects f], rfl, by simp⟩
      · exact ⟨rfl, [.ended], rfl, by simp⟩
    intro q q' op o hq hs
    cases op with
    | poll =>
      simp only [step, Option.map_eq_some_iff] at hs
      obtain ⟨⟨x, y⟩, hp, he⟩ := hs
      cases he
      obtain ⟨_, _, a, b⟩ := pollc q y x hq hp
      exact ⟨a, _, b, by simp⟩
    | timeout t =>
      rw [step, if_pos hq] at hs
      cases hs
      exact ⟨hq, [], by simp, by simp⟩
    | receive t d =>
      rw [step, if_pos hq] at hs
      cases hs
      exact ⟨hq, [], by simp, by simp⟩
    | close =>
      have e := Option.some.inj hs
      have hr' : q' = (startClose env q).2 := (congrArg Prod.snd e).symm
      rw [hr', startClose, hq]
      exact ⟨hq, [], by simp, by simp⟩
    | disconnect => cases hs; exact ⟨rfl, [.ended], rfl, by simp⟩
    | setFingerprint f => cases hs; exact ⟨hq, [.expects f], rfl, by simp⟩
    | startDtls a =>
      have e := Option.some.inj hs
      have hr' : q' = (initDtls env a q).2 := (congrArg Prod.snd e).symm
      rw [hr', (hinit a q).1, (hinit a q).2]
      exact ⟨hq, [], by simp, by simp⟩
    | remoteSdp offer f a =>
      rw [step] at hs
      obtain ⟨t1, added, t2, t3⟩ := htake f q hq
      split at hs
      · dsimp only at hs
        split at hs
        · have e := Option.some.inj hs
          have hr' : q' = (initDtls env a (takeFingerprint f q).2).2 := (congrArg Prod.snd e).symm
          rw [hr', (hinit a _).1, (hinit a _).2]
          exact ⟨t1, added, t2, t3⟩
        · cases hs
          exact ⟨t1, added, t2, t3⟩
      · dsimp only at hs
        split at hs
        · have e := Option.some.inj hs
          have hr' : q' = (takeFingerprint f (initDtls env a q).2).2 := (congrArg Prod.snd e).symm
          obtain ⟨u1, added, u2, u3⟩ := htake f (initDtls env a q).2 ((hinit a q).1.trans hq)
          rw [hr']
          exact ⟨u1, added, by rw [u2, (hinit a q).2], u3⟩
        · cases hs
          exact ⟨(hinit a q).1.trans hq, [], by rw [(hinit a q).2]; simp, by simp⟩
    | newChannel wanted =>
      rw [step] at hs
      split at hs
      · rename_i hh id _
        cases hs
        exact ⟨hq, [.created id], rfl, by simp⟩
      · cases hs
        exact ⟨hq, [], by simp, by simp⟩
    | confirm id =>
      rw [step] at hs
      split at hs <;> cases hs <;> exact ⟨hq, [], by simp, by simp⟩
    | closeChannel id =>
      rw [step] at hs
      split at hs <;> cases hs <;> exact ⟨hq, [], by simp, by simp⟩
    | api f => cases hs; exact ⟨hq, [], by simp, by simp⟩
  have key : ∀ (ops : List (Op W)) (q q' : Rtc W), q.state = .closed → run env fuel q ops = some q' →
      q'.state = .closed ∧ ∃ added, q'.log = q.log ++ added ∧
        ∀ n ∈ added, n = .out (.timeout env.never) ∨ (∃ f, n = .expects f) ∨ (∃ id, n = .created id) ∨ n = .ended := by
    intro ops
    induction ops with
    | nil => intro q q' hq hr; cases hr; exact ⟨hq, [], by simp, by simp⟩
    | cons op ops ih =>
      intro q q' hq hr
      rw [run] at hr
      split at hr
      · cases hr
      · rename_i o x hx
        obtain ⟨a, ad1, b, c⟩ := stepc q x op o hq hx
        obtain ⟨a', ad2, b', c'⟩ := ih x q' a hr
        refine ⟨a', ad1 ++ ad2, by rw [b', b, List.append_assoc], fun n hn => ?_⟩
        rcases List.mem_append.1 hn with hn | hn
        · exact c n hn
        · exact c' n hn
  obtain ⟨k1, k2⟩ := key ops r r' (closed_of r hc) h
  refine ⟨alive_of r' k1, k2, fun o q hp => ?_, fun t d => ⟨?_, ?_⟩, fun media isOpen id => ⟨?_, ?_⟩⟩
  · obtain ⟨a, b, _, _⟩ := pollc r' q o k1 hp
    exact ⟨a, b⟩
  · rw [step, if_pos k1]
  · rw [step, if_pos k1]
  · simp [Rtc.writer, k1]
  · simp [Rtc.channel, k1]

/-- **C90** (application). While closing, the application can write nothing. -/
theorem C90_no_writes_while_closing (r : Rtc W) (h : r.state ≠ .alive) (media : Bool) (isOpen : Nat → Bool) (id : Nat) :
    r.writer media = false ∧ r.channel isOpen id = false := by
  simp [Rtc.writer, Rtc.channel, h]

theorem pollTimeout_drained (env : Env W) (r r' : Rtc W) (t : Nat) (h : pollTimeout env r = (.timeout t, r')) (hs : r'.state = .closing) :
    drained env r' = false := by
  unfold pollTimeout at h
  dsimp only at h
  split at h
  · cases h; cases hs
  · rename_i hd
    cases h
    have hs' : r.state = .closing := hs
    have : drained env r = false := by
      rw [hs'] at hd
      simpa using hd
    exact this

theorem pollRest_drained (env : Env W) (r r' : Rtc W) (t : Nat) (h : pollRest env r = (.timeout t, r')) (hs : r'.state = .closing) :
    drained env r' = false := by
  unfold pollRest pollIce pollDatagram at h
  repeat' split at h
  all_goals first | (cases h; done) | exact pollTimeout_drained env _ r' t h hs

theorem dtlsLoop_stop (env : Env W) : ∀ (fuel : Nat) (just : Bool) (r r' : Rtc W) (x : Outcome), dtlsLoop env fuel just r = some (.stop x, r') →
    ∀ t, x ≠ .timeout t := by
  intro fuel
  induction fuel with
  | zero => intro just r r' x h; simp [dtlsLoop] at h
  | succ n ih =>
    intro just r r' x h t
    rw [dtlsLoop] at h
    repeat' split at h
    all_goals first
      | exact ih _ _ _ _ h t
      | (cases h; simp; done)
      | (dsimp only at h; cases h; split <;> simp; done)
      | (cases h; done)

theorem sctpTransmit_stop (env : Env W) (r : Rtc W) (ps : List (List Byte)) (x : Outcome) (h : (sctpTransmit env r ps).1 = some (.stop x)) (t : Nat) :
    x ≠ .timeout t := by
  unfold sctpTransmit at h
  repeat' split at h
  all_goals first
    | (cases h; done)
    | (simp only [Option.some.injEq, SctpEnd.stop.injEq] at h; subst h; simp; done)

theorem sctpLoop_stop (env : Env W) : ∀ (fuel : Nat) (r r' : Rtc W) (x : Outcome), sctpLoop env fuel r = some (.stop x, r') → ∀ t, x ≠ .timeout t := by
  intro fuel
  induction fuel with
  | zero => intro r r' x h; simp [sctpLoop] at h
  | succ n ih =>
    intro r r' x h t
    rw [sctpLoop] at h
    split at h
    · cases h
    · rename_i e r₀ _
      dsimp only at h
      cases e with
      | transmit ps =>
        dsimp only at h
        split at h
        · rename_i o q hq
          cases h
          exact sctpTransmit_stop env _ _ x (by rw [hq]) t
        · exact ih _ _ _ h t
      | lost =>
        dsimp only at h
        cases h
        split <;> simp
      | _ =>
        dsimp only at h
        repeat' split at h
        all_goals first
          | exact ih _ _ _ h t
          | (cases h; simp; done)

/-- **C90** (drain). A closing instance that has nothing more to say, with the closing of DTLS under way, its packets taken and
the last RTCP sent, is over: if a poll returns a timeout and the instance is still closing, then something of that is missing. -/
theorem C90_drain (env : Env W) : ∀ (fuel : Nat) (r r' : Rtc W) (t : Nat), poll env fuel r = some (.timeout t, r') → r'.state = .closing →
    ¬ (r'.closeStarted = true ∧ r'.pending = [] ∧ env.dtlsClosed r'.world = true ∧ env.rtpClosed r'.world = true) := by
  have key : ∀ (fuel : Nat) (r r' : Rtc W) (t : Nat), doPoll env fuel r = some (.timeout t, r') → r'.state = .closing → drained env r' = false := by
    intro fuel
    induction fuel with
    | zero => intro r r' t h; simp [doPoll] at h
    | succ n ih =>
      intro r r' t h hs
      rw [doPoll] at h
      split at h
      · rename_i hc
        cases h
        have : r.state = .closing := hs
        rw [hc] at this
        cases this
      · split at h
        · cases h
        · cases h
        · split at h
          · cases h
          · split at h
            · cases h
            · rename_i o q hq
              cases h
              exact absurd rfl (dtlsLoop_stop env n false _ _ _ hq t)
            · cases h
            · split at h
              · cases h
              · rename_i hq
                cases h
                exact absurd rfl (sctpLoop_stop env n _ _ _ hq t)
              · exact ih _ _ _ h hs
              · exact pollRest_drained env _ r' t (Option.some.inj h) hs
  intro fuel r r' t h hs hd
  unfold poll at h
  split at h
  · cases h
  · cases h
  · rename_i o q hne hq
    cases h
    have := key fuel r q t hq hs
    unfold drained at this
    obtain ⟨a, b, c, d⟩ := hd
    rw [show q.closeStarted = true from a, show q.pending = [] from b, show env.dtlsClosed q.world = true from c,
      show env.rtpClosed q.world = true from d] at this
    cases this

/-- **C90, violated before there is an address.** A packet of DTLS that waits for a nomination keeps a closing instance alive: in every history
from a state with such a packet, however long it is polled and whatever comes, as long as no address is nominated, no certificate is shown
and the instance is not disconnected, `is_alive` is true: `close()` comes to no end. -/
theorem C90_violation_never_over (env : Env W) (fuel : Nat) (r r' : Rtc W) (ops : List (Op W)) (hs : r.isAlive = true) (ha : r.sendAddr = none)
    (hp : r.pending ≠ []) (h : run env fuel r ops = some r') :
    ∃ added, r'.log = r.log ++ added ∧
      ((∀ a, Note.ice (.nominated a) ∉ added) → (∀ d, Note.dtls (.peerCert d) ∉ added) → Note.ended ∉ added → r'.isAlive = true) := by
  have := (run_steps env fuel ops r r' h).1.inv (P := fun c => ∃ added, c.log = r.log ++ added ∧
      ((∀ a, Note.ice (.nominated a) ∉ added) → (∀ d, Note.dtls (.peerCert d) ∉ added) → Note.ended ∉ added →
        c.state ≠ .closed ∧ c.sendAddr = none ∧ c.pending ≠ [])) (by
      rintro c c' ⟨added, hl, hc⟩ hm
      have add : ∀ (ns : List Note) (d : Core), d.log = c.log ++ ns → ((∀ a, Note.ice (.nominated a) ∉ ns) → (∀ d, Note.dtls (.peerCert d) ∉ ns) →
          Note.ended ∉ ns → (c.state ≠ .closed ∧ c.sendAddr = none ∧ c.pending ≠ []) → (d.state ≠ .closed ∧ d.sendAddr = none ∧ d.pending ≠ [])) →
          ∃ added, d.log = r.log ++ added ∧ ((∀ a, Note.ice (.nominated a) ∉ added) → (∀ d, Note.dtls (.peerCert d) ∉ added) → Note.ended ∉ added →
            d.state ≠ .closed ∧ d.sendAddr = none ∧ d.pending ≠ []) := by
        intro ns d hd hk
        refine ⟨added ++ ns, by rw [hd, hl, List.append_assoc], fun h1 h2 h3 => ?_⟩
        simp only [List.mem_append, not_or] at h1 h2 h3
        exact hk (fun a => (h1 a).2) (fun a => (h2 a).2) h3.2 (hc (fun a => (h1 a).1) (fun a => (h2 a).1) h3.1)
      cases hm with
      | ice e _ _ => exact add [.ice e] _ rfl (fun _ _ _ k => k)
      | dtls o _ _ _ _ => exact add [.dtls o] _ rfl (fun _ _ _ k => k)
      | connected _ => exact add [.dtls .connected] _ rfl (fun _ _ _ k => k)
      | certOk der _ _ => exact add [.dtls (.peerCert der)] _ rfl (fun _ _ _ k => k)
      | sctp e _ => exact add [.sctp e] _ rfl (fun _ _ _ k => k)
      | time t _ _ _ => exact add [.time t] _ rfl (fun _ _ _ k => k)
      | arrived s n _ => exact add [.arrived s n] _ rfl (fun _ _ _ k => k)
      | expects f => exact add [.expects f] _ rfl (fun _ _ _ k => k)
      | created _ _ id _ => exact add [.created id] _ rfl (fun _ _ _ k => k)
      | reset | lost | confirm | active => exact add [] _ (by simp) (fun _ _ _ k => k)
      | close hs => exact add [] _ (by simp) (fun _ _ _ k => ⟨by simp, k.2⟩)
      | nominated a _ => exact add [.ice (.nominated a)] _ rfl (fun k => absurd (List.mem_singleton_self _) (k a))
      | packet p _ => exact add [.dtls (.packet p)] _ rfl (fun _ _ _ k => ⟨k.1, k.2.1, by simp⟩)
      | certBad der _ _ => exact add [.dtls (.peerCert der)] _ rfl (fun _ k => absurd (List.mem_singleton_self _) (k der))
      | disconnect => exact add [.ended] _ rfl (fun _ _ k => absurd (List.mem_singleton_self _) k)
      | final o c'' hf =>
        cases hf with
        | quiet | event | error | panic | opened | closed | data | low | timeout | session =>
          exact add [.out _] _ rfl (fun _ _ _ k => k)
        | ice t _ => exact add [.iceSend t, .out (.transmit t)] _ (by simp) (fun _ _ _ k => k)
        | dtls a p rest _ ha' _ =>
          exact add [.out (.transmit { addr := a, contents := p })] _ rfl (fun _ _ _ k => by rw [k.2.1] at ha'; cases ha')
        | drained _ hp' => exact add [.out (.timeout env.never)] _ rfl (fun _ _ _ k => absurd hp' k.2.2))
    ⟨[], by simp [Rtc.core], fun _ _ _ => ⟨by show r.state ≠ .closed; simpa [Rtc.isAlive] using hs, ha, hp⟩⟩
  obtain ⟨added, hl, hk⟩ := this
  refine ⟨added, hl, fun h1 h2 h3 => ?_⟩
  have : r'.state ≠ .closed := (hk h1 h2 h3).1
  simpa [Rtc.isAlive] using this

/-- **C90, violated by a failing close.** If SCTP cannot shut down, as it cannot while its handshake is under way, `close()` returns an error and
leaves the instance as alive as before, with the RTP side closed for good: no close of DTLS is begun, and every later `close()` meets the same. -/
theorem C90_violation_failed_close (env : Env W) (fuel : Nat) (r : Rtc W) (h : r.state = .alive)
    (hf : ∀ w, env.sctpClose w = (false, w)) :
    step env fuel r .close = some (some (.error .close), { r with world := env.closeRtp r.world }) := by
  simp [step, startClose, h, hf]

/-! ### C95 -/

/-- **C95** (once). `Event::Connected` is given at most once in a life: after it, no later poll gives it again. -/
theorem C95_connected_once (env : Env W) (fuel : Nat) (r r₁ r₂ r₃ : Rtc W) (ops : List (Op W)) (o : Outcome)
    (h1 : poll env fuel r = some (.event .connected, r₁)) (h2 : run env fuel r₁ ops = some r₂) (h3 : poll env fuel r₂ = some (o, r₃)) :
    o ≠ .event .connected := by
  rintro rfl
  obtain ⟨⟨c, c', a, b, e⟩, _, _⟩ := poll_steps env fuel r _ r₁ h1
  have hc : c.dtlsConnected = true ∧ c' = c := by
    cases b with
    | event _ _ _ hh => exact ⟨hh rfl, rfl⟩
  have k1 : r₁.dtlsConnected = true := by
    have : r₁.dtlsConnected = c'.dtlsConnected := congrArg Core.dtlsConnected e
    rw [this, hc.2, hc.1]
  have k2 := (run_steps env fuel ops r₁ r₂ h2).2 k1
  have := (poll_steps env fuel r₂ _ r₃ h3).2.2 rfl
  rw [k2] at this
  cases this

/-- **C95** (after). `Event::Connected` is given only after DTLS has said that it is connected. -/
theorem C95_connected_after (env : Env W) (start : Nat) (verify : Bool) (w : W) (r : Rtc W) (h : From env start verify w r) :
    Always (fun pre n => n = .out (.event .connected) → Note.dtls .connected ∈ pre) r.log := by
  have := h.inv (P := fun c => (c.dtlsConnected = true → Note.dtls .connected ∈ c.log) ∧
    Always (fun pre n => n = .out (.event .connected) → Note.dtls .connected ∈ pre) c.log)
    ⟨by simp [Rtc.new, Rtc.core], Always.nil⟩ (by
      rintro c c' ⟨h1, h2⟩ hm
      have other : ∀ n, n ≠ .out (.event .connected) → (c.dtlsConnected = true → Note.dtls .connected ∈ c.log ++ [n]) ∧
          Always (fun pre n => n = .out (.event .connected) → Note.dtls .connected ∈ pre) (c.log ++ [n]) :=
        fun n hn => ⟨fun hd => List.mem_append_left _ (h1 hd), h2.snoc (fun e => absurd e hn)⟩
      cases hm with
      | connected _ => exact ⟨fun _ => List.mem_append_right _ (List.mem_singleton_self _), h2.snoc (by simp)⟩
      | ice | nominated | dtls | packet | certOk | certBad | sctp | time | arrived | expects | created | disconnect => exact other _ (by simp)
      | reset | lost | close | confirm | active => exact ⟨h1, h2⟩
      | final o c'' hf =>
        cases hf with
        | quiet | error | panic | opened | closed | data | low | timeout | drained | dtls | session => exact other _ (by simp)
        | event e hs hp hc =>
          refine ⟨fun hd => List.mem_append_left _ (h1 hd), h2.snoc (fun he => ?_)⟩
          cases he
          exact h1 (hc rfl)
        | ice t hs =>
          obtain ⟨a, b⟩ := other (.iceSend t) (by simp)
          exact ⟨fun hd => List.mem_append_left _ (a hd), b.snoc (by simp)⟩)
  exact this.2

/-! ### C96 -/

theorem sentBytes_append (l m : List Note) : sentBytes (l ++ m) = sentBytes l + sentBytes m := by
  simp [sentBytes]

theorem arrivedBytes_append (b : Bool) (l m : List Note) : arrivedBytes b (l ++ m) = arrivedBytes b l + arrivedBytes b m := by
  simp [arrivedBytes]

/-- **C96.** In every history, the counters the statistics are made of are the bytes of the datagrams handed out by `poll_output`, and the
bytes of the datagrams that came in while the instance was not closed and are not STUN. -/
theorem C96_counters (env : Env W) (start : Nat) (verify : Bool) (w : W) (r : Rtc W) (h : From env start verify w r) :
    r.peerTx = sentBytes r.log ∧ r.peerRx = arrivedBytes false r.log := by
  have := h.inv (P := fun c => c.peerTx = sentBytes c.log ∧ c.peerRx = arrivedBytes false c.log)
    ⟨rfl, rfl⟩ (by
      rintro c c' ⟨h1, h2⟩ hm
      cases hm with
      | reset | lost | close | confirm | active => exact ⟨h1, h2⟩
      | ice | nominated | dtls | packet | connected | certOk | certBad | sctp | time | expects | created | disconnect =>
        exact ⟨by rw [sentBytes_append]; simpa [sentBytes] using h1, by rw [arrivedBytes_append]; simpa [arrivedBytes] using h2⟩
      | arrived stun len _ =>
        refine ⟨by rw [sentBytes_append]; simpa [sentBytes] using h1, ?_⟩
        rw [arrivedBytes_append]
        show c.peerRx + _ = _
        rw [h2]
        cases stun <;> simp [arrivedBytes]
      | final o c'' hf =>
        cases hf <;> refine ⟨?_, ?_⟩ <;>
          simp_all [sentBytes, arrivedBytes, sentLen])
  exact this

/-! ### C93 -/

theorem timeout_keeps (h : Handler) (b : Bool) : (h.timeout b).1.allocs.map (·.id) = h.allocs.map (·.id) ∧ (h.timeout b).1.nextId = h.nextId := by
  unfold Handler.timeout Handler.openChannels Handler.doAllocations
  dsimp only
  rw [Channel.map_map_id (fun a => by split <;> rfl)]
  split
  · exact ⟨Channel.allocate_ids _ (Channel.base_le b) _ _, rfl⟩
  · exact ⟨rfl, rfl⟩

theorem byStream_mem {h : Handler} {s id : Nat} (hb : h.byStream s = some id) : id ∈ h.allocs.map (·.id) := by
  unfold Handler.byStream at hb
  rw [Option.map_eq_some_iff] at hb
  obtain ⟨a, ha, rfl⟩ := hb
  exact List.mem_map_of_mem (List.mem_of_find?_eq_some ha)

/-- What is known of the channels: those in the table are announced, those closed are not in the table, and no number is new that was used. -/
structure Known (c : Core) : Prop where
  mine : ∀ id ∈ c.chan.allocs.map (·.id), Announced c.log id
  old : ∀ id, Announced c.log id → id < c.chan.nextId
  gone : ∀ id, Note.out (.event (.channelClose id)) ∈ c.log → Announced c.log id ∧ id ∉ c.chan.allocs.map (·.id)

theorem Announced.more {l m : List Note} {id : Nat} (h : Announced l id) : Announced (l ++ m) id := by
  rcases h with h | ⟨label, h⟩
  · exact .inl (List.mem_append_left _ h)
  · exact .inr ⟨label, List.mem_append_left _ h⟩

/-- Of a note that says nothing of channels. -/
theorem announced_other {l m : List Note} (h1 : ∀ i, Note.created i ∉ m) (h2 : ∀ i x, Note.out (.event (.channelOpen i x)) ∉ m) {id : Nat} :
    Announced (l ++ m) id ↔ Announced l id := by
  constructor
  · rintro (h | ⟨label, h⟩)
    · rcases List.mem_append.1 h with h | h
      · exact .inl h
      · exact absurd h (h1 _)
    · rcases List.mem_append.1 h with h | h
      · exact .inr ⟨label, h⟩
      · exact absurd h (h2 _ _)
  · exact Announced.more

theorem Known.other {c c' : Core} {m : List Note} (k : Known c) (hl : c'.log = c.log ++ m) (hi : c'.chan.allocs.map (·.id) = c.chan.allocs.map (·.id))
    (hn : c'.chan.nextId = c.chan.nextId) (h1 : ∀ i, Note.created i ∉ m) (h2 : ∀ i x, Note.out (.event (.channelOpen i x)) ∉ m)
    (h3 : ∀ i, Note.out (.event (.channelClose i)) ∉ m) : Known c' := by
  constructor
  · intro id hid
    rw [hl, announced_other h1 h2]
    exact k.mine id (hi ▸ hid)
  · intro id hid
    rw [hl, announced_other h1 h2] at hid
    rw [hn]
    exact k.old id hid
  · intro id hid
    rw [hl] at hid
    rcases List.mem_append.1 hid with hid | hid
    · obtain ⟨a, b⟩ := k.gone id hid
      exact ⟨by rw [hl, announced_other h1 h2]; exact a, by rw [hi]; exact b⟩
    · exact absurd hid (h3 _)

theorem micro_known {env : Env W} {c c' : Core} (k : Known c) (hm : Micro env c c') : Known c' := by
  cases hm with
  | ice | nominated | dtls | packet | connected | certOk | certBad | sctp | arrived | expects | disconnect =>
    exact k.other rfl rfl rfl (by simp) (by simp) (by simp)
  | close | active => exact k.other (m := []) (by simp) rfl rfl (by simp) (by simp) (by simp)
  | reset s hs => exact k.other (m := []) (by simp) rfl rfl (by simp) (by simp) (by simp)
  | lost hs => exact k.other (m := []) (by simp) rfl rfl (by simp) (by simp) (by simp)
  | confirm id h hn =>
    unfold Handler.confirm at hn
    split at hn
    · cases hn
      exact k.other (m := []) (by simp) (Channel.map_map_id (fun a => by split <;> rfl) _) rfl (by simp) (by simp) (by simp)
    · cases hn
  | time t chan hs hc =>
    rcases hc with rfl | ⟨b, rfl⟩
    · exact k.other rfl rfl rfl (by simp) (by simp) (by simp)
    · exact k.other rfl (timeout_keeps _ _).1 (timeout_keeps _ _).2 (by simp) (by simp) (by simp)
  | created wanted h id hn =>
    unfold Handler.newChannel at hn
    split at hn
    · cases hn
    · cases hn
      constructor
      · intro i hi
        simp only [List.map_append, List.map_cons, List.map_nil, List.mem_append, List.mem_singleton] at hi
        rcases hi with hi | rfl
        · exact (k.mine i hi).more
        · exact .inl (List.mem_append_right _ (List.mem_singleton_self _))
      · intro i hi
        show i < c.chan.nextId + 1
        rcases hi with hi | ⟨label, hi⟩
        · rcases List.mem_append.1 hi with hi | hi
          · exact Nat.lt_succ_of_lt (k.old i (.inl hi))
          · rw [List.mem_singleton] at hi
            cases hi; exact Nat.lt_succ_self _
        · rcases List.mem_append.1 hi with hi | hi
          · exact Nat.lt_succ_of_lt (k.old i (.inr ⟨label, hi⟩))
          · simp at hi
      · intro i hi
        rcases List.mem_append.1 hi with hi | hi
        · obtain ⟨a, b⟩ := k.gone i hi
          refine ⟨a.more, ?_⟩
          simp only [List.map_append, List.map_cons, List.map_nil, List.mem_append, List.mem_singleton, not_or]
          exact ⟨b, fun e => by have := k.old i a; omega⟩
        · simp at hi
  | final o c'' hf =>
    cases hf with
    | quiet | error | panic | timeout | drained | session | dtls =>
      exact k.other rfl rfl rfl (by simp) (by simp) (by simp)
    | ice t hs => exact k.other (m := [.iceSend t, .out (.transmit t)]) (by simp) rfl rfl (by simp) (by simp) (by simp)
    | event e hs hp hc =>
      refine k.other rfl rfl rfl (by simp) ?_ ?_
      · intro i x h
        simp only [List.mem_singleton, Note.out.injEq, Outcome.event.injEq] at h
        subst h; exact hp
      · intro i h
        simp only [List.mem_singleton, Note.out.injEq, Outcome.event.injEq] at h
        subst h; exact hp
    | data s id bin d hs hid => exact k.other rfl rfl rfl (by simp) (by simp) (by simp)
    | low s id hs hid => exact k.other rfl rfl rfl (by simp) (by simp) (by simp)
    | closed s id pend hs hid =>
      have hin := byStream_mem hid
      have hch : (c.chan.remove id pend).allocs.map (·.id) = (c.chan.allocs.map (·.id)).filter (fun i => decide (i ≠ id)) := by
        rw [List.filter_map]; rfl
      constructor
      · intro i hi
        have hi' : i ∈ (c.chan.remove id pend).allocs.map (·.id) := hi
        rw [hch, List.mem_filter] at hi'
        exact (k.mine i hi'.1).more
      · intro i hi
        have : Announced (c.log ++ [.out (.event (.channelClose id))]) i := hi
        rw [announced_other (by simp) (by simp)] at this
        exact k.old i this
      · intro i hi
        have hi' : Note.out (.event (.channelClose i)) ∈ c.log ++ [.out (.event (.channelClose id))] := hi
        show Announced (c.log ++ [.out (.event (.channelClose id))]) i ∧ i ∉ (c.chan.remove id pend).allocs.map (·.id)
        rw [hch, announced_other (by simp) (by simp)]
        rcases List.mem_append.1 hi' with h | h
        · obtain ⟨a, b⟩ := k.gone i h
          exact ⟨a, fun hm => b (List.mem_filter.1 hm).1⟩
        · simp only [List.mem_singleton, Note.out.injEq, Outcome.event.injEq, Event.channelClose.injEq] at h
          subst h
          exact ⟨k.mine _ hin, fun hm => by simpa using (List.mem_filter.1 hm).2⟩
    | opened s id label hs hid =>
      have hgoal : ∀ i, Note.out (.event (.channelClose i)) ∈ c.log ++ [.out (.event (.channelOpen id label))] →
          Note.out (.event (.channelClose i)) ∈ c.log := by
        intro i hi
        rcases List.mem_append.1 hi with h | h
        · exact h
        · simp at h
      unfold Handler.ensure at hid ⊢
      split at hid
      · rename_i hh
        rw [if_pos hh]
        constructor
        · intro i hi
          exact (k.mine i hi).more
        · rintro i (hi | ⟨x, hi⟩)
          · rcases List.mem_append.1 hi with hi | hi
            · exact k.old i (.inl hi)
            · simp at hi
          · rcases List.mem_append.1 hi with hi | hi
            · exact k.old i (.inr ⟨x, hi⟩)
            · simp only [List.mem_singleton, Note.out.injEq, Outcome.event.injEq, Event.channelOpen.injEq] at hi
              rw [hi.1]
              exact k.old _ (k.mine _ (byStream_mem hid))
        · intro i hi
          obtain ⟨a, b⟩ := k.gone i (hgoal i hi)
          exact ⟨a.more, b⟩
      · rename_i hh
        rw [if_neg hh]
        have hidn : id = c.chan.nextId := by
          unfold Handler.byStream at hid
          dsimp only at hid
          rw [List.find?_append] at hid
          have hnone : c.chan.allocs.find? (fun a => decide (a.stream = some s)) = none := by
            rw [List.find?_eq_none]
            intro a ha
            simp only [List.any_eq_true, not_exists, not_and] at hh
            exact hh a ha
          rw [hnone] at hid
          simp at hid
          exact hid.symm
        subst hidn
        constructor
        · intro i hi
          simp only [List.map_append, List.map_cons, List.map_nil, List.mem_append, List.mem_singleton] at hi
          rcases hi with hi | rfl
          · exact (k.mine i hi).more
          · exact .inr ⟨label, List.mem_append_right _ (List.mem_singleton_self _)⟩
        · intro i hi
          show i < c.chan.nextId + 1
          rcases hi with hi | ⟨x, hi⟩
          · rcases List.mem_append.1 hi with hi | hi
            · exact Nat.lt_succ_of_lt (k.old i (.inl hi))
            · simp at hi
          · rcases List.mem_append.1 hi with hi | hi
            · exact Nat.lt_succ_of_lt (k.old i (.inr ⟨x, hi⟩))
            · simp only [List.mem_singleton, Note.out.injEq, Outcome.event.injEq, Event.channelOpen.injEq] at hi
              rw [hi.1]; exact Nat.lt_succ_self _
        · intro i hi
          obtain ⟨a, b⟩ := k.gone i (hgoal i hi)
          refine ⟨a.more, ?_⟩
          simp only [List.map_append, List.map_cons, List.map_nil, List.mem_append, List.mem_singleton, not_or]
          exact ⟨b, fun e => by have := k.old i a; omega⟩

/-- What an event of a channel comes with. -/
theorem final_known {env : Env W} {c c' : Core} {o : Outcome} (k : Known c) (hf : Fin env c o c') {e : Event} {id : Nat} (he : o = .event e)
    (hn : names e = some id) : ((∃ label, e = .channelOpen id label) ∨ Announced c.log id) ∧ Note.out (.event (.channelClose id)) ∉ c.log := by
  cases hf with
  | quiet | error | panic | timeout | drained | session | dtls | ice => cases he
  | event e' hs hp hc =>
    cases he
    cases e <;> simp_all [names, Event.plain]
  | data s i bin d hs hid =>
    cases he; cases hn
    exact ⟨.inr (k.mine _ (byStream_mem hid)), fun h => (k.gone _ h).2 (byStream_mem hid)⟩
  | low s i hs hid =>
    cases he; cases hn
    exact ⟨.inr (k.mine _ (byStream_mem hid)), fun h => (k.gone _ h).2 (byStream_mem hid)⟩
  | closed s i pend hs hid =>
    cases he; cases hn
    exact ⟨.inr (k.mine _ (byStream_mem hid)), fun h => (k.gone _ h).2 (byStream_mem hid)⟩
  | opened s i label hs hid =>
    cases he; cases hn
    refine ⟨.inl ⟨_, rfl⟩, fun h => ?_⟩
    obtain ⟨a, b⟩ := k.gone _ h
    have hin := byStream_mem hid
    unfold Handler.ensure at hin
    split at hin
    · exact b hin
    · simp only [List.map_append, List.map_cons, List.map_nil, List.mem_append, List.mem_singleton] at hin
      rcases hin with hin | rfl
      · exact b hin
      · exact absurd (k.old _ a) (lt_irrefl _)

/-- **C93.** In every history, each event of a data channel is about a channel the application made or was told of before (or tells of it
now), and about none whose `ChannelClose` was given before: nothing comes after the close, and no number of a closed channel is used again. -/
theorem C93_channel_events (env : Env W) (start : Nat) (verify : Bool) (w : W) (r : Rtc W) (h : From env start verify w r) :
    Always (fun pre n => ∀ e id, n = .out (.event e) → names e = some id →
      ((∃ label, e = .channelOpen id label) ∨ Announced pre id) ∧ Note.out (.event (.channelClose id)) ∉ pre) r.log ∧
    Always (fun pre n => ∀ id, n = .created id → ¬ Announced pre id ∧ Note.out (.event (.channelClose id)) ∉ pre) r.log := by
  have := h.inv (P := fun c => Known c ∧ Always (fun pre n => ∀ e id, n = .out (.event e) → names e = some id →
      ((∃ label, e = .channelOpen id label) ∨ Announced pre id) ∧ Note.out (.event (.channelClose id)) ∉ pre) c.log ∧
    Always (fun pre n => ∀ id, n = .created id → ¬ Announced pre id ∧ Note.out (.event (.channelClose id)) ∉ pre) c.log)
    ⟨⟨by simp [Rtc.new, Rtc.core, Handler.empty], by simp [Rtc.new, Rtc.core, Announced], by simp [Rtc.new, Rtc.core]⟩, Always.nil, Always.nil⟩ (by
      rintro c c' ⟨k, h1, h2⟩ hm
      refine ⟨micro_known k hm, ?_⟩
      cases hm with
      | reset | lost | close | confirm | active => exact ⟨h1, h2⟩
      | ice | nominated | dtls | packet | connected | certOk | certBad | sctp | arrived | time | expects | disconnect =>
        exact ⟨h1.snoc (by simp), h2.snoc (by simp)⟩
      | created wanted hh id hn =>
        refine ⟨h1.snoc (by simp), h2.snoc ?_⟩
        rintro i ⟨⟩
        unfold Handler.newChannel at hn
        split at hn
        · cases hn
        · cases hn
          exact ⟨fun ha => absurd (k.old _ ha) (lt_irrefl _), fun hc => absurd (k.old _ (k.gone _ hc).1) (lt_irrefl _)⟩
      | final o c'' hf =>
        have hl : (c''.log = c.log ∨ ∃ t, c''.log = c.log ++ [.iceSend t] ∧ o = .transmit t) := by
          cases hf with
          | ice t hs => exact .inr ⟨t, rfl, rfl⟩
          | _ => exact .inl rfl
        rcases hl with hl | ⟨t, hl, rfl⟩
        · show Always _ (c''.log ++ [.out o]) ∧ Always _ (c''.log ++ [.out o])
          rw [hl]
          refine ⟨h1.snoc ?_, h2.snoc (by simp)⟩
          intro e id he hn
          exact final_known k hf (Note.out.inj he) hn
        · show Always _ (c''.log ++ [.out _]) ∧ Always _ (c''.log ++ [.out _])
          rw [hl]
          exact ⟨Always.snoc (h1.snoc (by simp)) (by simp), Always.snoc (h2.snoc (by simp)) (by simp)⟩)
  exact this.2

/-! ### C97 -/

theorem micro_active {env : Env W} {c c' : Core} (hm : Micro env c c') (h : c'.active = none) : c.active = none := by
  cases hm with
  | active a hh => exact hh
  | final o c'' hf => cases hf <;> exact h
  | _ => exact h

theorem steps_active {env : Env W} {c c' : Core} (h : Steps env c c') (ha : c'.active = none) : c.active = none := by
  induction h with
  | refl => exact ha
  | tail _ m ih => exact ih (micro_active m ha)

/-- **C97.** `poll_output` panics only if the DTLS instance gives keys although neither an offer, an answer nor `start_dtls` has told it
its role, or if the depacketizers of the session do: not for any packet, any order of calls or anything else ICE, SCTP or DTLS say. -/
theorem C97_no_panic (env : Env W) (fuel : Nat) (r r' : Rtc W) (h : poll env fuel r = some (.panic, r'))
    (hm : ∀ w, (env.sessionMedia w).1 ≠ .panic) : r.active = none ∧ ∃ k l, r'.log = l ++ [.dtls (.keying k), .out .panic] := by
  obtain ⟨⟨c, c', a, b, e⟩, _, _⟩ := poll_steps env fuel r _ r' h
  cases b with
  | panic hs hh =>
    rcases hh with ⟨h1, k, h2⟩ | ⟨w, hw⟩
    · refine ⟨steps_active a h1, k, ?_⟩
      have : r'.log = c.log ++ [.out .panic] := congrArg Core.log e
      obtain ⟨l, hl⟩ := List.getLast?_eq_some_iff.1 h2
      exact ⟨l, by rw [this, hl]; simp⟩
    · exact absurd hw (hm w)

/-- **C97** (the other calls). Of the other calls modelled here, only making a channel with a stream number that is taken panics, as is
documented, and taking the answer to an offer with a channel that is no longer there. -/
theorem C97_calls (env : Env W) (fuel : Nat) (r r' : Rtc W) (op : Op W) (h : step env fuel r op = some (some .panic, r')) :
    op = .poll ∨ (∃ n, op = .newChannel (some n) ∧ ∃ a ∈ r.chan.allocs, a.stream = some n ∨ a.wanted = some n) ∨
      ∃ id, op = .confirm id ∧ ∀ a ∈ r.chan.allocs, a.id ≠ id := by
  cases op with
  | poll => exact .inl rfl
  | newChannel wanted =>
    rw [step] at h
    split at h
    · cases h
    · rename_i hne
      right; left
      unfold Handler.newChannel at hne
      split at hne
      · rename_i hh
        obtain ⟨h1, h2⟩ := hh
        obtain ⟨n, rfl⟩ := Option.isSome_iff_exists.1 h1
        obtain ⟨a, ha, hd⟩ := List.any_eq_true.1 h2
        exact ⟨n, rfl, a, ha, by simpa using hd⟩
      · exact absurd rfl (hne _ _)
  | confirm id =>
    rw [step] at h
    split at h
    · cases h
    · rename_i hne
      right; right
      unfold Handler.confirm at hne
      split at hne
      · exact absurd rfl (hne _)
      · rename_i hh
        exact ⟨id, rfl, by simpa using hh⟩
  | timeout t =>
    rw [step] at h
    split at h
    · cases h
    · have := congrArg Prod.fst (Option.some.inj h)
      dsimp only at this
      split at this <;> cases this
  | receive t d =>
    rw [step] at h
    split at h
    · cases h
    · dsimp only at h
      split at h
      · have := congrArg Prod.fst (Option.some.inj h)
        dsimp only at this
        split at this <;> cases this
      · cases h
  | close =>
    have := congrArg Prod.fst (Option.some.inj h)
    dsimp only at this
    split at this <;> cases this
  | startDtls a =>
    have := congrArg Prod.fst (Option.some.inj h)
    dsimp only at this
    split at this <;> cases this
  | remoteSdp offer f a =>
    rw [step] at h
    split at h
    all_goals
      dsimp only at h
      split at h
      · have := congrArg Prod.fst (Option.some.inj h)
        dsimp only at this
        split at this <;> cases this
      · cases h
  | closeChannel id =>
    rw [step] at h
    split at h <;> cases h
  | disconnect | setFingerprint | api => cases h

/-! ### An example -/

/-- Parts that say what is in their scripts. -/
structure Script where
  ice : List IceEvent := []
  dtls : List DtlsOut := []
  sctp : List SctpEvent := []
  datagrams : List (List Byte) := []
  opened : List (Nat × Nat) := []
  inited : Bool := true
  canClose : Bool := true
  rtpClosed : Bool := true
  dtlsClosed : Bool := true

def scripted : Env Script where
  never := 10^30
  past := 0
  sha256 := fun d => d ++ d
  icePoll := fun w => match w.ice with | [] => (none, w) | e :: l => (some e, { w with ice := l })
  iceTransmit := fun w => (none, w)
  iceTimeout := fun _ => some 500
  dtlsTimer := fun _ w => (true, w)
  dtlsPoll := fun w => match w.dtls with | [] => (.timeout 700, w) | e :: l => (e, { w with dtls := l })
  dtlsReceive := fun _ w => (true, w)
  dtlsSend := fun _ w => (.ok, w)
  dtlsClose := fun w => (true, { w with dtls := w.dtls ++ [.packet [21, 0]] })
  dtlsClosed := fun w => w.dtlsClosed
  dtlsActive := fun _ w => w
  sctpInput := fun _ _ w => w
  sctpPoll := fun w => match w.sctp with | [] => (none, w) | e :: l => (some e, { w with sctp := l })
  sctpClose := fun w => (w.canClose, w)
  sctpInited := fun w => w.inited
  sctpClient := fun _ => true
  sctpOpen := fun l w => { w with opened := w.opened ++ l }
  sctpCloseStream := fun _ w => w
  sctpTimeout := fun _ => none
  setKeying := fun _ _ w => w
  sessionEvent := fun w => (none, w)
  sessionMedia := fun w => (.ok none, w)
  sessionDatagram := fun _ w => match w.datagrams with | [] => (none, w) | e :: l => (some e, { w with datagrams := l })
  clearFeedback := fun w => w
  closeRtp := fun w => w
  rtpClosed := fun w => w.rtpClosed
  sessionTimeout := fun _ => (some 300, 8)
  stats := fun w => (none, w)
  statsTimeout := fun _ => none
  tick := fun _ w => w
  sessionTick := fun _ w => (true, w)
  statsTick := fun _ _ _ w => w
  receive := fun _ _ w => w

/-- The log of a history. -/
def history (w : Script) (ops : List (Op Script)) : Option (List Note × State × Bool) :=
  (run scripted 20 (Rtc.new 100 true w) ops).map (fun r => (r.log, r.state, r.sendAddr.isSome && r.pending.isEmpty))

def finger : Fingerprint := { hash := "sha-256", bytes := [7, 7] }

def path : SendAddr := { proto := 0, source := 1, destination := 2 }

def call : Script where
  ice := [.nominated path]
  dtls := [.packet [22], .connected, .peerCert [7], .keying 3, .timeout 900]
  sctp := [.opened 1 [65], .data 1 false [66], .closed 1 false]
  datagrams := [[1, 2, 3]]

/-- A connection: an address, a certificate, keys, a channel of the peer with data, and its end. The hypotheses of C90-C97 are met. -/
example : history call
    [.remoteSdp true (some finger) true, .poll, .poll, .poll, .poll, .poll, .poll, .timeout 300, .receive 400 (.media [9, 9]), .close, .poll,
      .poll] =
    some ([.expects finger, .ice (.nominated path), .dtls (.packet [22]), .sctp (.opened 1 [65]), .out (.event (.channelOpen 0 [65])),
      .dtls .connected, .dtls (.peerCert [7]), .dtls (.keying 3), .dtls (.timeout 900), .out (.event .connected),
      .dtls (.timeout 700), .sctp (.data 1 false [66]), .out (.event (.channelData 0 false [66])),
      .dtls (.timeout 700), .sctp (.closed 1 false), .out (.event (.channelClose 0)),
      .dtls (.timeout 700), .out (.transmit { addr := path, contents := [22] }),
      .dtls (.timeout 700), .out (.transmit { addr := path, contents := [1, 2, 3] }),
      .time 300, .arrived false 2, .time 400,
      .dtls (.packet [21, 0]), .out (.transmit { addr := path, contents := [21, 0] }),
      .dtls (.timeout 700), .out (.timeout (10^30))], .closed, true) := by decide +kernel

/-- A certificate that is not the expected one: an error, and nothing more. -/
example : history { ice := [.nominated path], dtls := [.peerCert [8], .connected, .packet [22]], datagrams := [[1, 2, 3]] }
    [.remoteSdp true (some finger) true, .poll, .poll, .timeout 300, .poll] =
    some ([.expects finger, .ice (.nominated path), .dtls (.peerCert [8]), .out (.error .noMatch), .out (.timeout (10^30)),
      .out (.timeout (10^30))], .closed, true) := by decide +kernel

/-- **C91, violated without a certificate.** Nothing makes `Connected` wait for a certificate: if DTLS says that it is connected before it
has shown one, the application is told so, whatever certificate comes later. -/
theorem C91_violation_no_certificate : history { ice := [.nominated path], dtls := [.connected, .timeout 900, .peerCert [8]] }
    [.remoteSdp true (some finger) true, .poll, .poll] =
    some ([.expects finger, .ice (.nominated path), .dtls .connected, .dtls (.timeout 900), .out (.event .connected), .dtls (.peerCert [8]),
      .out (.error .noMatch)], .closed, true) := by decide +kernel

/-- **C93, violated by a closed channel that opens.** A channel that is closed by the application before it has a stream number is not
closed: it opens afterwards all the same (the close is ignored). -/
theorem C93_violation_close_ignored : (run scripted 20 (Rtc.new 100 true {})
      [.newChannel none, .confirm 0, .closeChannel 0, .timeout 200]).map (fun r => (r.log, r.world.opened, r.chan.byId 0)) =
    some ([.created 0, .time 200], [(0, 0)], some 0) := by decide +kernel

/-- **C97, violated by a peer.** A channel that is in an offer gets its stream number while the answer is awaited; if the peer opens a
channel with that number and closes it, its answer makes the instance panic. -/
theorem C97_violation_answer_panics : ((run scripted 20 (Rtc.new 100 true { sctp := [.opened 0 [], .closed 0 false] })
      [.newChannel none, .timeout 200, .poll, .poll]).bind (fun r => (step scripted 20 r (.confirm 0)).map (fun p => (r.log, p.1)))) =
    some ([.created 0, .time 200, .dtls (.timeout 700), .sctp (.opened 0 []), .out (.event (.channelOpen 0 [])),
      .dtls (.timeout 700), .sctp (.closed 0 false), .out (.event (.channelClose 0))], some .panic) := by decide +kernel

/-- **C97**: the panic of the other kind needs keys from a DTLS instance that was not started. -/
example : (poll scripted 20 (Rtc.new 100 true { dtls := [.keying 1] })).map (fun p => p.1) = some .panic := by decide +kernel

/-- **C95, violated: a connection that is never told of.** If DTLS says that it is connected and, before it asks for a timeout, that the
peer closes, `Connected` is not given, then or ever. -/
theorem C95_violation_lost (fuel : Nat) (ops : List (Op Script)) (r r₂ r₃ : Rtc Script) (o : Outcome)
    (h1 : run scripted 20 (Rtc.new 100 true { dtls := [.peerCert [7], .connected, .closeNotify] }) [.remoteSdp true (some finger) true, .poll] = some r)
    (h2 : run scripted fuel r ops = some r₂) (h3 : poll scripted fuel r₂ = some (o, r₃)) :
    r.log = [.expects finger, .dtls (.peerCert [7]), .dtls .connected, .dtls .closeNotify, .out (.event .closed)] ∧ o ≠ .event .connected := by
  have e : (run scripted 20 (Rtc.new 100 true { dtls := [.peerCert [7], .connected, .closeNotify] })
      [.remoteSdp true (some finger) true, .poll]).map (fun r => (r.log, r.dtlsConnected)) =
      some ([.expects finger, .dtls (.peerCert [7]), .dtls .connected, .dtls .closeNotify, .out (.event .closed)], true) := by decide +kernel
  rw [h1] at e
  have e' := Option.some.inj e
  refine ⟨congrArg Prod.fst e', ?_⟩
  rintro rfl
  have k2 := (run_steps scripted fuel ops r r₂ h2).2 (congrArg Prod.snd e')
  have := (poll_steps scripted fuel r₂ _ r₃ h3).2.2 rfl
  rw [k2] at this
  cases this

/-- **C95, violated: closed twice.** `Event::Closed` is given for the close of DTLS and again for the end of SCTP. -/
theorem C95_violation_closed_twice : history { dtls := [.closeNotify, .timeout 900], sctp := [.lost] } [.poll, .poll] =
    some ([.dtls .closeNotify, .out (.event .closed), .dtls (.timeout 900), .sctp .lost, .out (.event .closed)], .closing, false) := by
  decide +kernel

/-- **C96, violated: STUN counts one way.** What is sent counts in full, STUN included (`C96_counters`); of what comes STUN does not count. -/
theorem C96_violation_stun : ((run scripted 20 (Rtc.new 100 true {}) [.receive 200 (.stun (List.replicate 20 0)), .receive 300 (.media [1, 2])]).map
    (fun r => (r.peerRx, arrivedBytes true r.log))) = some (2, 22) := by decide +kernel

/-- **C90**: a closing instance with a packet and no address, as `C90_violation_never_over` has it. -/
example : ((run scripted 20 (Rtc.new 100 true {}) [.startDtls true, .close, .poll, .timeout 500, .poll]).map
    (fun r => (r.isAlive, r.state, r.sendAddr, r.pending))) = some (true, .closing, none, [[21, 0]]) := by decide +kernel

/-! ### C92, the timers -/

theorem soonest_left (a b : Option Nat × Nat) {t : Nat} (h : a.1 = some t) : ∃ u, (soonest a b).1 = some u ∧ u ≤ t := by
  obtain ⟨_ | x, s⟩ := a <;> obtain ⟨_ | y, s'⟩ := b <;> simp_all [soonest]
  split <;> simp <;> omega

theorem soonest_right (a b : Option Nat × Nat) {t : Nat} (h : b.1 = some t) : ∃ u, (soonest a b).1 = some u ∧ u ≤ t := by
  obtain ⟨_ | x, s⟩ := a <;> obtain ⟨_ | y, s'⟩ := b <;> simp_all [soonest]
  split <;> simp <;> omega

theorem soonest_chain (a b : Option Nat × Nat) {t u : Nat} (h : ∃ u, a.1 = some u ∧ u ≤ t) : ∃ u, (soonest a b).1 = some u ∧ u ≤ t := by
  obtain ⟨x, hx, hxt⟩ := h
  obtain ⟨y, hy, hyx⟩ := soonest_left a b hx
  exact ⟨y, hy, le_trans hyx hxt⟩

/-- The times the parts ask for. -/
def asked (env : Env W) (r : Rtc W) : List (Option Nat) :=
  [r.nextDtls, env.iceTimeout r.world, (env.sessionTimeout r.world).1, env.sctpTimeout r.world, env.statsTimeout r.world]

theorem nextTimer_le (env : Env W) (r : Rtc W) (t : Nat) (h : some t ∈ asked env r) : ∃ u, (nextTimer env r).1 = some u ∧ u ≤ t := by
  unfold nextTimer
  simp only [asked, List.mem_cons, List.not_mem_nil, or_false] at h
  rcases h with h | h | h | h | h
  · exact soonest_chain (u := 0) _ _ (soonest_chain (u := 0) _ _ (soonest_chain (u := 0) _ _ (soonest_chain (u := 0) _ _ (soonest_chain (u := 0) _ _
      (soonest_right _ _ h.symm)))))
  · exact soonest_chain (u := 0) _ _ (soonest_chain (u := 0) _ _ (soonest_chain (u := 0) _ _ (soonest_chain (u := 0) _ _ (soonest_right _ _ h.symm))))
  · exact soonest_chain (u := 0) _ _ (soonest_chain (u := 0) _ _ (soonest_chain (u := 0) _ _ (soonest_right _ _ h.symm)))
  · exact soonest_chain (u := 0) _ _ (soonest_chain (u := 0) _ _ (soonest_right _ _ h.symm))
  · exact soonest_right _ _ h.symm

theorem soonest_mem (a b : Option Nat × Nat) {u : Nat} (h : (soonest a b).1 = some u) : a.1 = some u ∨ b.1 = some u := by
  obtain ⟨_ | x, s⟩ := a <;> obtain ⟨_ | y, s'⟩ := b <;> simp_all [soonest]
  split at h <;> simp_all

/-- Where a timeout comes from. -/
theorem nextTimer_mem (env : Env W) (r : Rtc W) (u : Nat) (h : (nextTimer env r).1 = some u) :
    some u ∈ asked env r ∨ (u = env.past ∧ env.sctpInited r.world = true ∧ r.chan.wantsTimeout = true) := by
  unfold nextTimer at h
  simp only [asked, List.mem_cons, List.not_mem_nil, or_false]
  rcases soonest_mem _ _ h with h | h
  · rcases soonest_mem _ _ h with h | h
    · rcases soonest_mem _ _ h with h | h
      · rcases soonest_mem _ _ h with h | h
        · rcases soonest_mem _ _ h with h | h
          · rcases soonest_mem _ _ h with h | h
            · cases h
            · exact .inl (.inl h.symm)
          · exact .inl (.inr (.inl h.symm))
        · exact .inl (.inr (.inr (.inl h.symm)))
      · exact .inl (.inr (.inr (.inr (.inl h.symm))))
    · dsimp only at h
      split at h
      · rename_i hh
        simp only [Bool.and_eq_true] at hh
        exact .inr ⟨(Option.some.inj h).symm, hh⟩
      · cases h
  · exact .inl (.inr (.inr (.inr (.inr h.symm))))

/-- What a timeout is, of a poll that is not the last. -/
def Soon (env : Env W) (u : Nat) (r : Rtc W) : Prop :=
  (∀ t, some t ∈ asked env r → u ≤ max t r.lastNow) ∧
  (env.sctpInited r.world = true → r.chan.wantsTimeout = true → u ≤ max env.past r.lastNow) ∧
  (u = r.lastNow ∨ u = env.never ∨ some u ∈ asked env r ∨ u = env.past)

theorem pollTimeout_soon (env : Env W) (r r' : Rtc W) (u : Nat) (h : pollTimeout env r = (.timeout u, r')) (ha : r'.state ≠ .closed) :
    Soon env u r' := by
  unfold pollTimeout at h
  dsimp only at h
  split at h
  · cases h
    exact absurd rfl ha
  · have e := Prod.mk.inj h
    obtain ⟨e1, e2⟩ := e
    have e1 := Outcome.timeout.inj e1
    subst e2
    have key : ∀ t v, (nextTimer env r).1 = some v → v ≤ t → u ≤ max t r.lastNow := by
      intro t v hv hvt
      rw [hv] at e1
      dsimp only at e1
      split at e1 <;> omega
    refine ⟨fun t ht => ?_, fun h1 h2 => ?_, ?_⟩
    · obtain ⟨v, hv, hvt⟩ := nextTimer_le env r t ht
      exact key t v hv hvt
    · have : ∃ v, (nextTimer env r).1 = some v ∧ v ≤ env.past := by
        unfold nextTimer
        refine soonest_chain (u := 0) _ _ (soonest_right _ _ ?_)
        rw [show env.sctpInited r.world = true from h1, show r.chan.wantsTimeout = true from h2]
        rfl
      obtain ⟨v, hv, hvt⟩ := this
      exact key _ v hv hvt
    · cases hv : (nextTimer env r).1 with
      | none =>
        rw [hv] at e1
        dsimp only at e1
        split at e1
        · exact .inl e1.symm
        · exact .inr (.inl e1.symm)
      | some v =>
        rw [hv] at e1
        dsimp only at e1
        split at e1
        · exact .inl e1.symm
        · subst e1
          rcases nextTimer_mem env r v hv with h | h
          · exact .inr (.inr (.inl h))
          · exact .inr (.inr (.inr h.1))

theorem pollRest_soon (env : Env W) (r r' : Rtc W) (u : Nat) (h : pollRest env r = (.timeout u, r')) (ha : r'.state ≠ .closed) :
    Soon env u r' := by
  unfold pollRest pollIce pollDatagram at h
  repeat' split at h
  all_goals first | (cases h; done) | exact pollTimeout_soon env _ r' u h ha

theorem doPoll_soon (env : Env W) : ∀ (fuel : Nat) (r r' : Rtc W) (u : Nat), doPoll env fuel r = some (.timeout u, r') → r'.state ≠ .closed →
    Soon env u r' := by
  intro fuel
  induction fuel with
  | zero => intro r r' t h; simp [doPoll] at h
  | succ n ih =>
    intro r r' t h hs
    rw [doPoll] at h
    split at h
    · rename_i hc
      cases h
      exact absurd hc hs
    · split at h
      · cases h
      · cases h
      · split at h
        · cases h
        · split at h
          · cases h
          · rename_i o q hq
            cases h
            exact absurd rfl (dtlsLoop_stop env n false _ _ _ hq t)
          · cases h
          · split at h
            · cases h
            · rename_i hq
              cases h
              exact absurd rfl (sctpLoop_stop env n _ _ _ hq t)
            · exact ih _ _ _ h hs
            · exact pollRest_soon env _ r' t (Option.some.inj h) hs

/-- **C92** (soonest). A timeout of a living instance is not later than the time any of its parts asks for (or than now, where that has
passed), nor than now while a channel waits for a stream number or to be opened; and it is one of those times, now, or the time that stands
for never. -/
theorem C92_soonest (env : Env W) (fuel : Nat) (r r' : Rtc W) (u : Nat) (h : poll env fuel r = some (.timeout u, r')) (ha : r'.isAlive = true) :
    (∀ t, some t ∈ [r'.nextDtls, env.iceTimeout r'.world, (env.sessionTimeout r'.world).1, env.sctpTimeout r'.world, env.statsTimeout r'.world] →
      u ≤ max t r'.lastNow) ∧
    (env.sctpInited r'.world = true → r'.chan.wantsTimeout = true → u ≤ max env.past r'.lastNow) ∧
    (u = r'.lastNow ∨ u = env.never ∨ u = env.past ∨
      some u ∈ [r'.nextDtls, env.iceTimeout r'.world, (env.sessionTimeout r'.world).1, env.sctpTimeout r'.world, env.statsTimeout r'.world]) := by
  have hs : r'.state ≠ .closed := by simpa [Rtc.isAlive] using ha
  unfold poll at h
  split at h
  · cases h
  · cases h
  · rename_i o q hne hq
    cases h
    obtain ⟨a, b, c⟩ := doPoll_soon env fuel r q u hq hs
    refine ⟨a, b, ?_⟩
    rcases c with c | c | c | c
    · exact .inl c
    · exact .inr (.inl c)
    · exact .inr (.inr (.inr c))
    · exact .inr (.inr (.inl c))

/-- The soonest of ICE at 500, DTLS at 700 and the session at 300; and now, while a channel waits. -/
example : ((poll scripted 20 (Rtc.new 100 true {})).map (fun p => (p.1, p.2.isAlive)) = some (.timeout 300, true)) ∧
    ((run scripted 20 (Rtc.new 100 true {}) [.newChannel none]).bind (fun r => (poll scripted 20 r).map (fun p => p.1)) = some (.timeout 100)) := by
  decide +kernel

end Str0m.RtcLoop
