import Verif.Model.SctpStreams
import Verif.Props.Channel
import Mathlib.Logic.Relation
import Mathlib.Data.List.Forall2
/-
  Every call is a sequence of small changes of the entries and the log, as in Proofs/RtcLoop.
-/
namespace Str0m.SctpStreams
open Str0m.Channel (Config DcepOpen Ppi)
open Str0m.RtcLoop (SctpEvent)

variable {W : Type}

structure Core where
  conn : Conn
  hasAssoc : Bool
  entries : List Entry
  pending : List Nat
  complete : List Nat
  now : Nat
  log : List Note

def Sctp.core (s : Sctp W) : Core :=
  { conn := s.conn, hasAssoc := s.hasAssoc, entries := s.entries, pending := s.pending, complete := s.complete, now := s.now, log := s.log }

/-- What a quiet change leaves of an entry. -/
structure Same (e e' : Entry) : Prop where
  hid : e'.id = e.id
  state : e'.state = e.state ∨ (e.state = .awaitOpen ∧ e'.state = .awaitAck ∧ e.config.isSome)
  config : e'.config = e.config ∨ (e.config = none ∧ ((e.state = .awaitConfig ∧ e'.doClose = true) ∨ e.state ≠ .awaitConfig))
  doClose : e.doClose = true → e'.doClose = true
  deadline : ∀ d, e.deadline = some d → e'.state = .awaitOpen → e'.deadline = some d

theorem Same.refl (e : Entry) : Same e e := ⟨rfl, .inl rfl, .inl rfl, id, fun _ h _ => h⟩

/-- Why there is a panic. -/
def Broken (env : Env W) (e : Entry) : Prop :=
  (e.state = .awaitOpen ∨ e.state = .awaitAck) ∧
    (e.config = none ∨ (e.state = .awaitOpen ∧ ∃ c, e.config = some c ∧ ∀ b, Channel.openMessage c ≠ .ok b) ∨
      (∃ w, (env.open_ e.id w).1 = .exists_ false ∧ env.stream e.id (env.open_ e.id w).2 = false))

/-- The peer sent the message that opens the stream. -/
def Offered (env : Env W) (e : Entry) (label : List Byte) (cfg : Config) : Prop :=
  ∃ w buf d, (env.read e.id w).1 = .data buf .dcep ∧ DcepOpen.parse env.utf8 buf = .ok d ∧ label = d.label ∧ (e.config = none → cfg = Config.ofDcep d)

/-- The stream had the message. -/
def Read (env : Env W) (id : Nat) (b : Bool) (d : List Byte) : Prop :=
  ∃ w buf ppi, (env.read id w).1 = .data buf ppi ∧ ppi ≠ .dcep ∧ Channel.deliver ppi buf = some (b, d)

/-- The last change of a poll. -/
inductive Fin (env : Env W) : Core → Polled → Core → Prop
  | nothing (c) : Fin env c .nothing c
  | transmit (c p) : Fin env c (.event (.transmit p)) c
  | low (c id) : Fin env c (.event (.low id)) c
  | lost (c) : Fin env c (.event .lost) { c with pending := [], complete := [] }
  | reset (c id rest) (h : c.complete = id :: rest) : Fin env c (.event (.resetComplete id)) { c with complete := rest }
  | data (c e b d) (h : e ∈ c.entries) (hs : e.state ≠ .awaitOpen ∧ e.state ≠ .closed) (hr : Read env e.id b d) : Fin env c (.event (.data e.id b d)) c
  | opened (c es₁ e e' es₂ cfg label) (hl : (e.state ≠ .awaitConfig ∧ label = cfg.label) ∨ (e.state = .awaitConfig ∧ Offered env e label cfg)) (h : c.entries = es₁ ++ e :: es₂) (hs : e.state = .awaitOpen ∨ ((e.state = .awaitConfig ∨ e.state = .awaitAck) ∧ e.doClose = false))
      (hi : e'.id = e.id) (hs' : e'.state = .opened) (hc : e'.config = some cfg) (hk : ∀ x, e.config = some x → x = cfg) (hm : e.doClose = true → e'.doClose = true) :
      Fin env c (.event (.opened e.id label)) { c with entries := es₁ ++ e' :: es₂ }
  | closed (c es₁ e e' es₂ pending) (h : c.entries = es₁ ++ e :: es₂) (hs : e.state ≠ .closed) (hi : e'.id = e.id) (hs' : e'.state = .closed)
      (hp : pending = c.pending ∨ pending = c.pending ++ [e.id]) :
      Fin env c (.event (.closed e.id (decide (e.id ∈ pending)))) { c with entries := es₁ ++ e' :: es₂, pending := pending }
  | panic (c e) (h : e ∈ c.entries) (hb : Broken env e) (c') (hl : c'.log = c.log) : Fin env c .panic c'

/-- A small change. -/
inductive Micro (env : Env W) : Core → Core → Prop
  | conn (c x b t) (h : x = .established ∨ c.conn ≠ .established) : Micro env c { c with conn := x, hasAssoc := b, now := t }
  /-- a new association: there was none (or it was established and there is none; that does not happen) -/
  | conn2 (c) (h : c.hasAssoc = false) : Micro env c { c with conn := .awaitEstablished, hasAssoc := true }
  | time (c t) : Micro env c { c with now := t }
  | touch (c es) (h : List.Forall₂ Same c.entries es) : Micro env c { c with entries := es }
  | drop (c) : Micro env c { c with entries := retain c.entries }
  | found (c id) : Micro env c { c with entries := insert id .awaitConfig c.entries }
  | hold (c id) : Micro env c { c with pending := c.pending ++ [id] }
  | release (c id) : Micro env c { c with pending := c.pending.filter (fun x => decide (x ≠ id)), complete := c.complete ++ [id] }
  | called (c id cfg) : Micro env c { c with log := c.log ++ [.openCall id cfg] }
  | closeCall (c id) (h : ∀ e ∈ c.entries, e.id = id → e.doClose = true) : Micro env c { c with log := c.log ++ [.closeCall id] }
  | new (c id cfg) (h : find c.entries id = none) (hl : Note.openCall id cfg ∈ c.log) :
      Micro env c { c with entries := update id (fun e => { e with config := some cfg }) (insert id .awaitOpen c.entries) }
  | adopted (c id cfg e) (h : find c.entries id = some e) (hs : e.state = .awaitConfig) (hc : e.config = none) :
      Micro env c { c with entries := update id (fun e => { e with config := some cfg, state := .opened }) c.entries, log := c.log ++ [.adopted id] }
  | event (c e c') (h : Fin env c (.event e) c') : Micro env c { c' with log := c'.log ++ [.event e] }

abbrev Steps (env : Env W) : Core → Core → Prop := Relation.ReflTransGen (Micro env)

theorem Steps.one {env : Env W} {c c' : Core} (h : Micro env c c') : Steps env c c' := .single h

theorem forall₂_update (id : Nat) (f : Entry → Entry) (es : List Entry) (h : ∀ e ∈ es, e.id = id → Same e (f e)) :
    List.Forall₂ Same es (update id f es) := by
  induction es with
  | nil => exact .nil
  | cons e es ih =>
    refine .cons ?_ (ih (fun x hx => h x (List.mem_cons_of_mem _ hx)))
    show Same e (if e.id = id then f e else e)
    split
    · rename_i hi
      exact h e (List.mem_cons_self) hi
    · exact Same.refl e

theorem Same.rfl' (es : List Entry) : List.Forall₂ Same es es := by
  induction es with
  | nil => exact .nil
  | cons e es ih => exact .cons (Same.refl e) ih

/-- What an entry of the loop does. -/
inductive EntryDone (env : Env W) (e : Entry) (pending : List Nat) : Next → Entry → List Nat → Prop
  | go (e') (h : Same e e') : EntryDone env e pending .go e' pending
  | restart (e') (h : Same e e') : EntryDone env e pending .restart e' pending
  | data (e' b d) (h : Same e e') (hs : e.state ≠ .awaitOpen ∧ e.state ≠ .closed) (hs' : e'.state = e.state) (hr : Read env e.id b d) : EntryDone env e pending (.stop (.data e.id b d)) e' pending
  | opened (e' cfg label) (hl : (e.state ≠ .awaitConfig ∧ label = cfg.label) ∨ (e.state = .awaitConfig ∧ Offered env e label cfg)) (hs : e.state = .awaitOpen ∨ ((e.state = .awaitConfig ∨ e.state = .awaitAck) ∧ e.doClose = false))
      (hi : e'.id = e.id) (hs' : e'.state = .opened) (hc : e'.config = some cfg) (hk : ∀ x, e.config = some x → x = cfg) (hm : e.doClose = true → e'.doClose = true) :
      EntryDone env e pending (.stop (.opened e.id label)) e' pending
  | closed (e' p) (hs : e.state ≠ .closed) (hi : e'.id = e.id) (hs' : e'.state = .closed) (hp : p = pending ∨ p = pending ++ [e.id]) :
      EntryDone env e pending (.stop (.closed e.id (decide (e.id ∈ p)))) e' p
  | panic (e' p) (hb : Broken env e) : EntryDone env e pending .panic e' p

theorem propagateClose_spec (env : Env W) (b : Bool) (id : Nat) (pending : List Nat) (w : W) :
    ((propagateClose env b id pending w).2.1 = pending ∨ (propagateClose env b id pending w).2.1 = pending ++ [id]) ∧
    (propagateClose env b id pending w).1 = decide (id ∈ (propagateClose env b id pending w).2.1) := by
  unfold propagateClose
  split
  · dsimp only
    refine ⟨?_, rfl⟩
    split
    · split
      · exact .inl rfl
      · exact .inr rfl
    · exact .inl rfl
  · exact ⟨.inl rfl, rfl⟩

theorem closeEntry_done (env : Env W) (e x : Entry) (pending : List Nat) (w : W) (hx : x.id = e.id) (hs : e.state ≠ .closed) :
    EntryDone env e pending (closeEntry env x pending w).1 (closeEntry env x pending w).2.1 (closeEntry env x pending w).2.2.1 := by
  obtain ⟨h1, h2⟩ := propagateClose_spec env true x.id pending w
  unfold closeEntry
  dsimp only
  rw [h2, hx]
  rw [hx] at h1
  exact EntryDone.closed _ _ hs rfl rfl h1

theorem considerOpen_done (env : Env W) (e x : Entry) (pending : List Nat) (w : W) (c : Config) (hx : x.id = e.id) (hc : x.config = some c)
    (hn : c.negotiated.isNone = false) (hs : e.state = .awaitOpen) (he : e.config = some c) (hxd : e.doClose = true → x.doClose = true) :
    EntryDone env e pending (considerOpen x pending w).1 (considerOpen x pending w).2.1 (considerOpen x pending w).2.2.1 := by
  unfold considerOpen
  rw [hc]
  dsimp only
  rw [hn]
  simp only [Bool.false_eq_true, if_false]
  rw [hx]
  exact EntryDone.opened _ c _ (.inl ⟨by rw [hs]; simp, rfl⟩) (.inl hs) rfl rfl rfl (fun y hy => by rw [he] at hy; exact (Option.some.inj hy).symm) hxd

theorem openEntry_done (env : Env W) (now : Nat) (e : Entry) (pending : List Nat) (w : W) (hs : e.state = .awaitOpen) :
    EntryDone env e pending (openEntry env now e pending w).1 (openEntry env now e pending w).2.1 (openEntry env now e pending w).2.2.1 := by
  have hnc : e.state ≠ .closed := by rw [hs]; simp
  cases hc : e.config with
  | none =>
    have hb : Broken env e := ⟨.inl hs, .inl hc⟩
    unfold openEntry configure
    rw [hc]
    dsimp only
    split
    · exact EntryDone.panic _ _ hb
    · exact closeEntry_done env e _ pending _ rfl hnc
    · exact EntryDone.panic _ _ hb
    · exact EntryDone.panic _ _ hb
  | some c =>
    unfold openEntry configure
    rw [hc]
    dsimp only
    have retry : ∀ w, EntryDone env e pending
        (if now < e.deadline.getD (now + 10 * 10 ^ 9) then
          (Next.go, { e with config := some c, deadline := some (e.deadline.getD (now + 10 * 10 ^ 9)) }, pending, w)
        else closeEntry env { e with config := some c, deadline := some (e.deadline.getD (now + 10 * 10 ^ 9)), doClose := true } pending w).1
        (if now < e.deadline.getD (now + 10 * 10 ^ 9) then
          (Next.go, { e with config := some c, deadline := some (e.deadline.getD (now + 10 * 10 ^ 9)) }, pending, w)
        else closeEntry env { e with config := some c, deadline := some (e.deadline.getD (now + 10 * 10 ^ 9)), doClose := true } pending w).2.1
        (if now < e.deadline.getD (now + 10 * 10 ^ 9) then
          (Next.go, { e with config := some c, deadline := some (e.deadline.getD (now + 10 * 10 ^ 9)) }, pending, w)
        else closeEntry env { e with config := some c, deadline := some (e.deadline.getD (now + 10 * 10 ^ 9)), doClose := true } pending w).2.2.1 := by
      intro w
      split
      · exact EntryDone.go _ ⟨rfl, .inl rfl, .inl hc.symm, id, fun d hd _ => by show some (e.deadline.getD _) = some d; rw [hd]; rfl⟩
      · exact closeEntry_done env e _ pending _ rfl hnc
    split
    · rename_i w' _
      split
      · rename_i h; cases h
      · exact closeEntry_done env e _ pending _ rfl hnc
      · split
        · split
          · split
            · exact EntryDone.restart _ ⟨rfl, .inr ⟨hs, rfl, by rw [hc]; rfl⟩, .inl hc.symm, id, fun _ _ h => by cases h⟩
            · exact closeEntry_done env e _ pending _ rfl hnc
          · rename_i hne
            exact EntryDone.panic _ _ ⟨.inl hs, .inr (.inl ⟨hs, c, hc, hne⟩)⟩
        · rename_i hn
          exact considerOpen_done env e _ pending _ c rfl rfl (by simpa only [Bool.not_eq_true] using hn) hs hc (fun h => h)
    · exact closeEntry_done env e _ pending _ rfl hnc
    · rename_i stale w' ho
      split
      · have := retry w'
        rw [hc] at *
        simpa [hc] using this
      · rename_i hn
        simp only [Bool.or_eq_true, not_or, Bool.not_eq_true] at hn
        split
        · rename_i hst
          refine EntryDone.panic _ _ ⟨.inl hs, .inr (.inr ⟨w, ?_, ?_⟩)⟩
          · rw [ho, hn.2]
          · rw [ho]; exact hst
        · split
          · rename_i h; cases h
          · exact closeEntry_done env e _ pending _ rfl hnc
          · exact considerOpen_done env e _ pending _ c rfl hc hn.1 hs hc (fun h => h)
    · rename_i w' ho
      have := retry w'
      simpa [hc] using this

theorem parse_no_panic (utf8 : List Byte → Bool) (buf : List Byte) : DcepOpen.parse utf8 buf ≠ .panic := by
  intro h
  have := (Channel.C35_total utf8 buf).1
  rw [h] at this
  exact this

theorem ack_no_panic (buf : List Byte) : Channel.ackParse buf ≠ .panic := by
  intro h
  have := (Channel.C35_ack [] buf).2
  rw [h] at this
  exact this

/-- The same but for the threshold. -/
structure Near (e x : Entry) : Prop where
  hid : x.id = e.id
  state : x.state = e.state
  config : x.config = e.config
  doClose : x.doClose = e.doClose
  deadline : x.deadline = e.deadline

theorem Near.late {e x : Entry} (h : Near e x) (d : Nat) (hd : e.deadline = some d) (_ : x.state = .awaitOpen) : x.deadline = some d := h.deadline.trans hd

theorem Near.same {e x : Entry} (h : Near e x) : Same e x := ⟨h.hid, .inl h.state, .inl h.config, fun hh => by rw [h.doClose]; exact hh, h.late⟩

theorem dcepEntry_done (env : Env W) (e x : Entry) (buf : List Byte) (pending : List Nat) (w : W) (hx : Near e x) (hd : e.doClose = false) (hn : e.state ≠ .closed)
    (hr : ∃ w, (env.read e.id w).1 = .data buf .dcep) :
    EntryDone env e pending (dcepEntry env x buf pending w).1 (dcepEntry env x buf pending w).2.1 (dcepEntry env x buf pending w).2.2.1 := by
  unfold dcepEntry
  have hst := hx.state
  split
  · rename_i hs
    rw [hs] at hst
    split
    · rename_i d hp
      dsimp only
      unfold configure
      dsimp only
      have hnew : ∀ y, e.config = some y → y = x.config.getD (Config.ofDcep d) := by
        intro y hy
        rw [hx.config, hy]; rfl
      split
      · rename_i h; cases h
      · refine EntryDone.go _ ⟨hx.hid, .inl hx.state, ?_, fun _ => rfl, hx.late⟩
        cases hc : e.config with
        | none => exact .inr ⟨rfl, .inl ⟨hst.symm, rfl⟩⟩
        | some y => exact .inl (by show some _ = some y; rw [hnew y hc])
      · split
        · dsimp only
          rw [hx.hid]
          refine EntryDone.opened _ (x.config.getD (Config.ofDcep d)) _ ?_ (.inr ⟨.inl hst.symm, hd⟩) rfl rfl rfl hnew (fun h => by rw [hd] at h; cases h)
          obtain ⟨w0, hr⟩ := hr
          exact .inr ⟨hst.symm, w0, buf, d, hr, hp, rfl, fun hc => by rw [hx.config, hc]; rfl⟩
        · exact closeEntry_done env e _ pending _ hx.hid hn
    · exact EntryDone.go _ ⟨hx.hid, .inl hx.state, .inl hx.config, fun _ => rfl, hx.late⟩
    · rename_i hp
      exact absurd hp (parse_no_panic env.utf8 buf)
  · rename_i hs
    rw [hs] at hst
    split
    · split
      · rename_i hc
        exact EntryDone.panic _ _ ⟨.inr hst.symm, .inl (by rw [← hx.config]; exact hc)⟩
      · rename_i c hc
        dsimp only
        rw [hx.hid]
        exact EntryDone.opened _ c _ (.inl ⟨by rw [← hst]; simp, rfl⟩) (.inr ⟨.inr hst.symm, hd⟩) rfl rfl hc (fun y hy => by rw [← hx.config, hc] at hy; exact (Option.some.inj hy).symm) (fun h => by rw [hd] at h; cases h)
    · exact EntryDone.go _ ⟨hx.hid, .inl hx.state, .inl hx.config, fun _ => rfl, hx.late⟩
    · rename_i hp
      exact absurd hp (ack_no_panic buf)
  · exact EntryDone.go _ ⟨hx.hid, .inl hx.state, .inl hx.config, fun _ => rfl, hx.late⟩

theorem readEntry_done (env : Env W) (e x : Entry) (pending : List Nat) (w : W) (hx : Near e x) (hd : e.doClose = false) (hn : e.state ≠ .closed)
    (ho : e.state ≠ .awaitOpen) :
    EntryDone env e pending (readEntry env x pending w).1 (readEntry env x pending w).2.1 (readEntry env x pending w).2.2.1 := by
  unfold readEntry
  split
  · exact EntryDone.go _ hx.same
  · exact EntryDone.go _ ⟨hx.hid, .inl hx.state, .inl hx.config, fun _ => rfl, hx.late⟩
  · rename_i buf ppi w' hr
    split
    · rename_i hp
      exact dcepEntry_done env e x _ pending _ hx hd hn ⟨w, by rw [← hx.hid, hr, hp]⟩
    · rename_i hp
      split
      · rename_i hv
        dsimp only
        rw [hx.hid]
        exact EntryDone.data _ _ _ hx.same ⟨ho, hn⟩ hx.state ⟨w, buf, ppi, by rw [← hx.hid, hr], hp, hv⟩
      · exact EntryDone.go _ ⟨hx.hid, .inl hx.state, .inl hx.config, fun _ => rfl, hx.late⟩

theorem stepEntry_done (env : Env W) (now : Nat) (e : Entry) (pending : List Nat) (w : W) (hn : e.state ≠ .closed) :
    EntryDone env e pending (stepEntry env now e pending w).1 (stepEntry env now e pending w).2.1 (stepEntry env now e pending w).2.2.1 := by
  unfold stepEntry
  split
  · rename_i hs
    exact openEntry_done env now e pending w hs
  · rename_i hs
    split
    · exact closeEntry_done env e e pending w rfl hn
    · rename_i hd
      have hd : e.doClose = false := by
        cases h : e.doClose with
        | false => rfl
        | true => exact absurd (by rw [h]; simp [hn]) hd
      split
      · exact EntryDone.go _ ⟨rfl, .inl rfl, .inl rfl, fun _ => rfl, fun _ h _ => h⟩
      · split
        · split
          · exact EntryDone.go _ ⟨rfl, .inl rfl, .inl rfl, fun _ => rfl, fun _ h _ => h⟩
          · exact readEntry_done env e _ pending _ ⟨rfl, rfl, rfl, rfl, rfl⟩ hd hn hs
        · exact readEntry_done env e e pending _ ⟨rfl, rfl, rfl, rfl, rfl⟩ hd hn hs

/-- What the loop over the entries does. -/
inductive LoopDone (env : Env W) (es : List Entry) (pending : List Nat) : Next → List Entry → List Nat → Prop
  | go (es') (h : List.Forall₂ Same es es') : LoopDone env es pending .go es' pending
  | restart (es') (h : List.Forall₂ Same es es') : LoopDone env es pending .restart es' pending
  | stop (es₁ e es₂ es₁' e' ev p) (h : es = es₁ ++ e :: es₂) (hs : List.Forall₂ Same es₁ es₁') (hd : EntryDone env e pending (.stop ev) e' p) :
      LoopDone env es pending (.stop ev) (es₁' ++ e' :: es₂) p
  | panic (es' p e) (h : e ∈ es) (hb : Broken env e) : LoopDone env es pending .panic es' p

theorem loopEntries_done (env : Env W) (now : Nat) : ∀ (es : List Entry) (pending : List Nat) (w : W), (∀ e ∈ es, e.state ≠ .closed) →
    LoopDone env es pending (loopEntries env now es pending w).1 (loopEntries env now es pending w).2.1 (loopEntries env now es pending w).2.2.1 := by
  intro es
  induction es with
  | nil => intro pending w _; exact LoopDone.go _ .nil
  | cons e es ih =>
    intro pending w hn
    have hd := stepEntry_done env now e pending w (hn e List.mem_cons_self)
    rw [loopEntries]
    revert hd
    generalize stepEntry env now e pending w = x
    obtain ⟨n, e', p, w'⟩ := x
    intro hd
    dsimp only at hd
    cases n with
    | go =>
      dsimp only
      cases hd with
      | go _ hs =>
        have := ih pending w' (fun y hy => hn y (List.mem_cons_of_mem _ hy))
        revert this
        generalize loopEntries env now es pending w' = r
        obtain ⟨m, es', q, w''⟩ := r
        intro this
        dsimp only at this ⊢
        cases this with
        | go _ h => exact LoopDone.go _ (.cons hs h)
        | restart _ h => exact LoopDone.restart _ (.cons hs h)
        | stop a b c a' b' ev _ h1 h2 h3 =>
          exact LoopDone.stop (e :: a) b c (e' :: a') b' ev q (by rw [h1]; rfl) (.cons hs h2) h3
        | panic _ _ y h1 h2 => exact LoopDone.panic _ _ y (List.mem_cons_of_mem _ h1) h2
    | restart =>
      dsimp only
      cases hd with
      | restart _ hs => exact LoopDone.restart _ (.cons hs (Same.rfl' es))
    | stop ev =>
      dsimp only
      exact LoopDone.stop [] e es [] e' ev p rfl .nil hd
    | panic =>
      dsimp only
      cases hd with
      | panic _ _ hb => exact LoopDone.panic _ _ e List.mem_cons_self hb

/-- None of the entries is closed. -/
def Fresh (es : List Entry) : Prop := ∀ e ∈ es, e.state ≠ .closed

theorem insert_mem (id : Nat) (st : EState) : ∀ (es : List Entry) (e : Entry), e ∈ insert id st es → e ∈ es ∨ e = SctpStreams.fresh id st := by
  intro es
  induction es with
  | nil => intro e he; exact .inr (List.mem_singleton.1 he)
  | cons x es ih =>
    intro e he
    rw [insert] at he
    split at he
    · exact .inl he
    · split at he
      · rcases List.mem_cons.1 he with he | he
        · exact .inr he
        · exact .inl he
      · rcases List.mem_cons.1 he with he | he
        · exact .inl (he ▸ List.mem_cons_self)
        · exact (ih e he).imp_left (List.mem_cons_of_mem _)

theorem Fresh.insert {es : List Entry} (h : Fresh es) (id : Nat) : Fresh (insert id .awaitConfig es) := by
  intro e he
  rcases insert_mem id _ es e he with he | rfl
  · exact h e he
  · simp [SctpStreams.fresh]

theorem Fresh.update {es : List Entry} (h : Fresh es) (id : Nat) (f : Entry → Entry) (hf : ∀ e ∈ es, (f e).state = e.state) : Fresh (update id f es) := by
  intro e he
  obtain ⟨x, hx, rfl⟩ := List.mem_map.1 he
  split
  · rw [hf x hx]; exact h x hx
  · exact h x hx

theorem Fresh.retain (es : List Entry) : Fresh (retain es) := by
  intro e he
  simpa using (List.mem_filter.1 he).2

theorem Fresh.same {es es' : List Entry} (h : Fresh es) (hs : List.Forall₂ Same es es') : Fresh es' := by
  induction hs with
  | nil => intro e he; cases he
  | cons hh _ ih =>
    intro e he
    rcases List.mem_cons.1 he with rfl | he
    · rcases hh.state with hs | ⟨_, hs, _⟩
      · rw [hs]; exact h _ List.mem_cons_self
      · rw [hs]; simp
    · exact ih (fun y hy => h y (List.mem_cons_of_mem _ hy)) e he

/-- The loop over the events of the association. -/
theorem events_steps (env : Env W) : ∀ (fuel : Nat) (s s' : Sctp W) (n : Next), Fresh s.entries → events env fuel s = some (n, s') →
    (∃ c, Steps env s.core c ∧ (∀ e, n = .stop e → Fin env c (.event e) s'.core) ∧ ((∀ e, n ≠ .stop e) → s'.core = c)) ∧ Fresh s'.entries ∧ n ≠ .panic ∧
      s'.hasAssoc = s.hasAssoc := by
  intro fuel
  induction fuel with
  | zero => intro s s' n _ h; simp [events] at h
  | succ k ih =>
    intro s s' n hf h
    rw [events] at h
    rcases hp : env.poll s.world with ⟨o, w⟩
    rw [hp] at h
    cases o with
    | none => cases h; exact ⟨⟨_, .refl, by simp, fun _ => rfl⟩, hf, by simp, rfl⟩
    | some ev =>
      cases ev with
      | connected =>
        cases h
        exact ⟨⟨_, .one (Micro.conn s.core .established s.hasAssoc s.now (.inl rfl)), by simp, fun _ => rfl⟩, hf, by simp, rfl⟩
      | lost =>
        cases h
        refine ⟨⟨s.core, .refl, ?_, fun hh => absurd rfl (hh _)⟩, hf, by simp, rfl⟩
        rintro e ⟨⟩
        exact Fin.lost s.core
      | low id =>
        cases h
        refine ⟨⟨s.core, .refl, ?_, fun hh => absurd rfl (hh _)⟩, hf, by simp, rfl⟩
        rintro e ⟨⟩
        exact Fin.low s.core id
      | other =>
        dsimp only at h
        obtain ⟨⟨c, a, b⟩, d⟩ := ih _ _ _ (by exact hf) h
        exact ⟨⟨c, a, b⟩, d⟩
      | readable id =>
        dsimp only at h
        obtain ⟨⟨c, a, b⟩, d⟩ := ih _ _ _ (by exact hf.insert id) h
        exact ⟨⟨c, .head (Micro.found s.core id) a, b⟩, d⟩
      | resetComplete id =>
        dsimp only at h
        obtain ⟨⟨c, a, b⟩, d⟩ := ih _ _ _ (by exact hf) h
        exact ⟨⟨c, .head (Micro.release s.core id) a, b⟩, d⟩
      | finished id =>
        have hsame : List.Forall₂ Same s.entries (update id (fun e => if e.state ≠ .closed ∧ e.state ≠ .awaitOpen then { e with doClose := true } else e) s.entries) := by
          refine forall₂_update id _ _ (fun e _ _ => ?_)
          split
          · exact ⟨rfl, .inl rfl, .inl rfl, fun _ => rfl, fun _ h _ => h⟩
          · exact Same.refl e
        dsimp only at h
        obtain ⟨⟨c, a, b⟩, d⟩ := ih _ _ _ (by exact hf.same hsame) h
        refine ⟨⟨c, ?_, b⟩, d⟩
        refine .head (Micro.touch s.core _ hsame) ?_
        by_cases hin : id ∈ s.pending
        · rw [if_pos hin] at a
          exact a
        · rw [if_neg hin] at a
          exact .head (Micro.hold _ id) a

/-- `do_poll` as small changes. -/
theorem doPoll_steps (env : Env W) : ∀ (fuel : Nat) (s s' : Sctp W) (o : Polled), doPoll env fuel s = some (o, s') →
    ∃ c, Steps env s.core c ∧ Fin env c o s'.core := by
  intro fuel
  induction fuel with
  | zero => intro s s' o h; simp [doPoll] at h
  | succ k ih =>
    intro s s' o h
    rw [doPoll] at h
    split at h
    · cases h; exact ⟨_, .refl, Fin.nothing _⟩
    · dsimp only at h
      have hdrop : Steps env s.core ({ s with entries := retain s.entries } : Sctp W).core := .one (Micro.drop s.core)
      split at h
      · cases h
        exact ⟨_, hdrop, Fin.transmit _ _⟩
      · rename_i w _
        split at h
        · cases h; exact ⟨_, hdrop, Fin.nothing _⟩
        · split at h
          · cases h; exact ⟨_, hdrop, Fin.nothing _⟩
          · split at h
            · cases h
            · rename_i s1 he
              obtain ⟨⟨c, a, b, d⟩, _⟩ := events_steps env _ _ _ _ (by exact Fresh.retain s.entries) he
              obtain ⟨c', x, y⟩ := ih _ _ _ h
              exact ⟨c', hdrop.trans (a.trans ((d (by simp)) ▸ x)), y⟩
            · rename_i e s1 he
              cases h
              obtain ⟨⟨c, a, b, d⟩, _⟩ := events_steps env _ _ _ _ (by exact Fresh.retain s.entries) he
              exact ⟨c, hdrop.trans a, b _ rfl⟩
            · rename_i s1 he
              obtain ⟨_, _, hp, _⟩ := events_steps env _ _ _ _ (by exact Fresh.retain s.entries) he
              exact absurd rfl hp
            · rename_i s1 he
              obtain ⟨⟨c, a, b, d⟩, hf, _⟩ := events_steps env _ _ _ _ (by exact Fresh.retain s.entries) he
              have hsc : s1.core = c := d (by simp)
              have a' : Steps env s.core s1.core := hdrop.trans (hsc ▸ a)
              split at h
              · cases h; exact ⟨_, a', Fin.nothing _⟩
              · have hl := loopEntries_done env s1.now s1.entries s1.pending s1.world hf
                revert h hl
                generalize loopEntries env s1.now s1.entries s1.pending s1.world = r
                obtain ⟨n, es, p, w'⟩ := r
                intro h hl
                dsimp only at hl
                cases n with
                | restart =>
                  dsimp only at h
                  cases hl with
                  | restart _ hs =>
                    obtain ⟨c', x, y⟩ := ih _ _ _ h
                    exact ⟨c', a'.trans (.head (Micro.touch s1.core _ hs) x), y⟩
                | go =>
                  dsimp only at h
                  cases hl with
                  | go _ hs =>
                    have t : Steps env s.core { s1.core with entries := es } := a'.trans (.single (Micro.touch s1.core _ hs))
                    split at h
                    · rename_i id rest hc
                      cases h
                      exact ⟨_, t, Fin.reset _ id rest hc⟩
                    · cases h
                      exact ⟨_, t, Fin.nothing _⟩
                | panic =>
                  dsimp only at h
                  cases h
                  cases hl with
                  | panic _ _ e h1 h2 => exact ⟨_, a', Fin.panic _ e h1 h2 _ rfl⟩
                | stop ev =>
                  dsimp only at h
                  cases h
                  generalize hen : s1.entries = ens at hl
                  cases hl with
                  | stop es₁ e es₂ es₁' e' _ _ h1 h2 h3 =>
                    have t : ∀ e', Same e e' → Steps env s.core { s1.core with entries := es₁' ++ e' :: es₂ } := by
                      intro e' he'
                      refine a'.trans (.single (Micro.touch s1.core _ ?_))
                      show List.Forall₂ Same s1.entries _
                      rw [hen, h1]
                      exact List.rel_append h2 (.cons he' (Same.rfl' es₂))
                    cases h3 with
                    | data _ b d hs ho hst hr =>
                      rw [← hs.hid] at hr ⊢
                      exact ⟨_, t e' hs, Fin.data _ e' b d (by simp) (by rw [hst]; exact ho) hr⟩
                    | opened _ cfg label hl hs hi hs' hc hk hm =>
                      exact ⟨_, t e (Same.refl e), Fin.opened _ es₁' e e' es₂ cfg label hl rfl hs hi hs' hc hk hm⟩
                    | closed _ _ hs hi hs' hp => exact ⟨_, t e (Same.refl e), Fin.closed _ es₁' e e' es₂ p rfl hs hi hs' hp⟩

theorem poll_steps (env : Env W) (fuel : Nat) (s s' : Sctp W) (o : Polled) (h : poll env fuel s = some (o, s')) (ho : o ≠ .panic) :
    Steps env s.core s'.core := by
  unfold poll at h
  split at h
  · cases h
  · rename_i e s1 hd
    cases h
    obtain ⟨c, a, b⟩ := doPoll_steps env fuel s s1 _ hd
    exact a.tail (Micro.event c e s1.core b)
  · rename_i o' s1 hne hd
    cases h
    obtain ⟨c, a, b⟩ := doPoll_steps env fuel s s' _ hd
    generalize s'.core = k at b
    cases b with
    | nothing => exact a
    | panic => exact absurd rfl ho
    | transmit | low | lost | reset | data | opened | closed => exact absurd rfl (hne _)

theorem events_log (env : Env W) : ∀ (fuel : Nat) (s s' : Sctp W) (n : Next), events env fuel s = some (n, s') → s'.log = s.log := by
  intro fuel
  induction fuel with
  | zero => intro s s' n h; simp [events] at h
  | succ k ih =>
    intro s s' n h
    rw [events] at h
    split at h
    · cases h; rfl
    · cases h; rfl
    · cases h; rfl
    · have := ih _ _ _ h; exact this
    · have := ih _ _ _ h; exact this
    · have := ih _ _ _ h; exact this
    · cases h; rfl
    · have := ih _ _ _ h; exact this

theorem doPoll_log (env : Env W) : ∀ (fuel : Nat) (s s' : Sctp W) (o : Polled), doPoll env fuel s = some (o, s') → s'.log = s.log := by
  intro fuel
  induction fuel with
  | zero => intro s s' n h; simp [doPoll] at h
  | succ k ih =>
    intro s s' o h
    rw [doPoll] at h
    split at h
    · cases h; rfl
    · dsimp only at h
      split at h
      · cases h; rfl
      · split at h
        · cases h; rfl
        · split at h
          · cases h; rfl
          · split at h
            · cases h
            · rename_i s1 he
              have h1 := ih _ _ _ h; have h2 := events_log env _ _ _ _ he; exact h1.trans h2
            · rename_i s1 he
              cases h
              have h2 := events_log env _ _ _ _ he; exact h2
            · rename_i s1 he
              cases h
              have h2 := events_log env _ _ _ _ he; exact h2
            · rename_i s1 he
              have hl := events_log env _ _ _ _ he
              split at h
              · cases h; exact hl
              · split at h
                · have h1 := ih _ _ _ h; exact h1.trans hl
                · cases h; exact hl
                · cases h; exact hl
                · split at h
                  · cases h; exact hl
                  · cases h; exact hl

theorem poll_panic (env : Env W) (fuel : Nat) (s s' : Sctp W) (h : poll env fuel s = some (.panic, s')) :
    ∃ c e, Steps env s.core c ∧ e ∈ c.entries ∧ Broken env e ∧ c.log = s.log := by
  unfold poll at h
  split at h
  · cases h
  · cases h
  · rename_i o' s1 hne hd
    cases h
    obtain ⟨c, a, b⟩ := doPoll_steps env fuel s s' _ hd
    have hlog := doPoll_log env fuel s s' _ hd
    generalize hk : s'.core = k at b
    cases b with
    | panic e he hb _ hl => exact ⟨c, e, a, he, hb, by rw [← hl, ← hk]; exact hlog⟩

def ids (es : List Entry) : List Nat := es.map (·.id)

def Sorted (es : List Entry) : Prop := (ids es).Pairwise (· < ·)

theorem find_some {es : List Entry} {id : Nat} {e : Entry} (h : find es id = some e) : e ∈ es ∧ e.id = id := by
  unfold find at h
  exact ⟨List.mem_of_find?_eq_some h, by simpa using List.find?_some h⟩

theorem find_none {es : List Entry} {id : Nat} (h : find es id = none) : ∀ e ∈ es, e.id ≠ id := by
  unfold find at h
  intro e he
  simpa using List.find?_eq_none.1 h e he

theorem Sorted.find {es : List Entry} (hs : Sorted es) {e : Entry} (he : e ∈ es) : find es e.id = some e := by
  induction es with
  | nil => cases he
  | cons x es ih =>
    unfold SctpStreams.find
    rw [List.find?_cons]
    obtain ⟨h1, h2⟩ := List.pairwise_cons.1 hs
    rcases List.mem_cons.1 he with rfl | he
    · simp
    · have : x.id < e.id := h1 _ (List.mem_map.2 ⟨e, he, rfl⟩)
      have hne : x.id ≠ e.id := by omega
      simp only [hne, decide_false]
      exact ih h2 he

theorem Sorted.uniq {es : List Entry} (hs : Sorted es) {e e' : Entry} (he : e ∈ es) (he' : e' ∈ es) (h : e.id = e'.id) : e = e' := by
  have a := hs.find he
  have b := hs.find he'
  rw [h, b] at a
  exact (Option.some.inj a).symm

theorem insert_same (id : Nat) (st : EState) : ∀ es : List Entry, Sorted es → (∃ e ∈ es, e.id = id) → insert id st es = es := by
  intro es
  induction es with
  | nil => rintro _ ⟨e, he, _⟩; cases he
  | cons x es ih =>
    rintro hs ⟨e, he, hi⟩
    obtain ⟨h1, h2⟩ := List.pairwise_cons.1 hs
    rw [insert]
    rcases List.mem_cons.1 he with rfl | he
    · rw [if_pos hi]
    · have : x.id < e.id := h1 _ (List.mem_map.2 ⟨e, he, rfl⟩)
      rw [if_neg (by omega), if_neg (by omega), ih h2 ⟨e, he, hi⟩]

theorem insert_has (id : Nat) (st : EState) : ∀ es : List Entry, (∀ e ∈ es, e.id ≠ id) → fresh id st ∈ insert id st es := by
  intro es
  induction es with
  | nil => intro _; simp [insert]
  | cons x es ih =>
    intro h
    rw [insert, if_neg (h x List.mem_cons_self)]
    split
    · exact List.mem_cons_self
    · exact List.mem_cons_of_mem _ (ih (fun e he => h e (List.mem_cons_of_mem _ he)))

theorem insert_keeps (id : Nat) (st : EState) : ∀ (es : List Entry) (e : Entry), e ∈ es → e ∈ insert id st es := by
  intro es
  induction es with
  | nil => intro e he; cases he
  | cons x es ih =>
    intro e he
    rw [insert]
    split
    · exact he
    · split
      · exact List.mem_cons_of_mem _ he
      · rcases List.mem_cons.1 he with rfl | he
        · exact List.mem_cons_self
        · exact List.mem_cons_of_mem _ (ih e he)

theorem Sorted.insert {es : List Entry} (hs : Sorted es) (id : Nat) (st : EState) : Sorted (insert id st es) := by
  induction es with
  | nil => simp [SctpStreams.insert, Sorted, ids]
  | cons x es ih =>
    obtain ⟨h1, h2⟩ := List.pairwise_cons.1 hs
    rw [SctpStreams.insert]
    split
    · exact hs
    · rename_i hne
      split
      · rename_i hlt
        refine List.pairwise_cons.2 ⟨?_, hs⟩
        intro y hy
        rcases List.mem_cons.1 hy with rfl | hy
        · exact hlt
        · exact lt_trans hlt (h1 y hy)
      · rename_i hlt
        refine List.pairwise_cons.2 ⟨?_, ih h2⟩
        intro y hy
        obtain ⟨e, he, rfl⟩ := List.mem_map.1 hy
        rcases insert_mem id st es e he with he | rfl
        · exact h1 _ (List.mem_map.2 ⟨e, he, rfl⟩)
        · show x.id < id
          omega

theorem ids_update (id : Nat) (f : Entry → Entry) (es : List Entry) (hf : ∀ e, (f e).id = e.id) : ids (update id f es) = ids es := by
  unfold ids update
  rw [List.map_map]
  refine List.map_congr_left (fun e _ => ?_)
  show (if e.id = id then f e else e).id = e.id
  split
  · exact hf e
  · rfl

theorem ids_same {es es' : List Entry} (h : List.Forall₂ Same es es') : ids es' = ids es := by
  induction h with
  | nil => rfl
  | cons hh _ ih => exact congrArg₂ List.cons hh.hid ih

theorem Fin.sorted {env : Env W} {c c' : Core} {o : Polled} (h : Fin env c o c') (ho : o ≠ .panic) (hs : Sorted c.entries) : Sorted c'.entries := by
  cases h with
  | nothing | transmit | low | lost | reset | data => exact hs
  | opened es₁ e e' es₂ cfg label _ h _ hi =>
    show Sorted (es₁ ++ e' :: es₂)
    rw [h] at hs
    unfold Sorted ids at *
    simpa [hi] using hs
  | closed es₁ e e' es₂ p h _ hi =>
    show Sorted (es₁ ++ e' :: es₂)
    rw [h] at hs
    unfold Sorted ids at *
    simpa [hi] using hs
  | panic => exact absurd rfl ho

theorem Micro.sorted {env : Env W} {c c' : Core} (h : Micro env c c') (hs : Sorted c.entries) : Sorted c'.entries := by
  cases h with
  | conn | conn2 | time | hold | release | called | closeCall => exact hs
  | touch es h => show Sorted es; unfold Sorted at *; rw [ids_same h]; exact hs
  | drop =>
    show Sorted (retain c.entries)
    unfold Sorted ids retain
    exact List.Pairwise.sublist (List.Sublist.map _ List.filter_sublist) hs
  | found id => exact hs.insert id _
  | new id cfg h hl =>
    show Sorted (update _ _ _)
    unfold Sorted
    rw [ids_update]
    · exact hs.insert id _
    · exact fun _ => rfl
  | adopted id cfg e h hs' hc =>
    show Sorted (update _ _ _)
    unfold Sorted
    rw [ids_update]
    · exact hs
    · exact fun _ => rfl
  | event e c' h => exact h.sorted (by simp) hs

theorem Steps.sorted {env : Env W} {c c' : Core} (h : Steps env c c') (hs : Sorted c.entries) : Sorted c'.entries := by
  induction h with
  | refl => exact hs
  | tail _ hm ih => exact hm.sorted ih

theorem find_update (id : Nat) (f : Entry → Entry) (hf : ∀ e, (f e).id = e.id) : ∀ es : List Entry, find (update id f es) id = (find es id).map f := by
  intro es
  induction es with
  | nil => rfl
  | cons x es ih =>
    unfold find update at *
    rw [List.map_cons, List.find?_cons, List.find?_cons]
    by_cases h : x.id = id
    · simp [h, hf]
    · simp only [h, if_false, decide_false]
      exact ih

theorem update_update (id : Nat) (f g : Entry → Entry) (es : List Entry) (hf : ∀ e, (f e).id = e.id) : update id g (update id f es) = update id (fun e => g (f e)) es := by
  unfold update
  rw [List.map_map]
  refine List.map_congr_left (fun e _ => ?_)
  show (if (if e.id = id then f e else e).id = id then g (if e.id = id then f e else e) else (if e.id = id then f e else e)) = _
  by_cases h : e.id = id
  · simp [h, hf]
  · simp [h]

theorem find_unique {es : List Entry} (hs : Sorted es) {id : Nat} {e x : Entry} (h : find es id = some e) (hx : x ∈ es) (hi : x.id = id) : x = e := by
  have := hs.find hx
  rw [hi, h] at this
  exact (Option.some.inj this).symm

theorem openStream_steps (env : Env W) (s : Sctp W) (id : Nat) (cfg : Config) (hs : Sorted s.entries) : Steps env s.core (openStream env s id cfg).core := by
  have hcall : Micro env s.core { s.core with log := s.core.log ++ [.openCall id cfg] } := Micro.called s.core id cfg
  refine .head hcall ?_
  cases hf : find s.entries id with
  | none =>
    have hfi : find (insert id .awaitOpen s.entries) id = some (fresh id .awaitOpen) := by
      have := (hs.insert id .awaitOpen).find (insert_has id .awaitOpen _ (find_none hf))
      exact this
    have : openStream env s id cfg = ({ s with entries := update id (fun e => { e with config := some cfg }) (insert id .awaitOpen s.entries) } : Sctp W).say (.openCall id cfg) := by
      unfold openStream
      dsimp only [Sctp.say]
      rw [hfi]
      simp only [fresh, Option.isSome_none, Bool.false_eq_true, if_false, reduceCtorEq]
    rw [this]
    exact .single (Micro.new { s.core with log := s.core.log ++ [.openCall id cfg] } id cfg hf (by simp))
  | some e =>
    obtain ⟨he, hi⟩ := find_some hf
    have hins : insert id .awaitOpen s.entries = s.entries := insert_same id _ _ hs ⟨e, he, hi⟩
    unfold openStream
    dsimp only [Sctp.say]
    rw [hins, hf]
    dsimp only
    have touch : ∀ f : Entry → Entry, Same e (f e) → Steps env { s.core with log := s.core.log ++ [.openCall id cfg] }
        { s.core with log := s.core.log ++ [.openCall id cfg], entries := update id f s.entries } := by
      intro f hsame
      exact .one (Micro.touch { s.core with log := s.core.log ++ [.openCall id cfg] } _
        (forall₂_update id f s.entries (fun x hx hxi => by rw [find_unique hs hf hx hxi]; exact hsame)))
    split
    · exact touch (fun e => { e with doClose := true }) ⟨rfl, .inl rfl, .inl rfl, fun _ => rfl, fun _ h _ => h⟩
    · rename_i hc
      have hc : e.config = none := by simpa using hc
      have both : e.state = .awaitConfig → Same e { e with config := some cfg, doClose := true } := fun h =>
        ⟨rfl, .inl rfl, .inr ⟨hc, .inl ⟨h, rfl⟩⟩, fun _ => rfl, fun _ h _ => h⟩
      split
      · rename_i hst
        have t := touch (fun e => { e with config := some cfg, doClose := true }) (both hst)
        rw [update_update id (fun e => { e with config := some cfg }) (fun e => { e with doClose := true }) _ (fun _ => rfl),
          update_update id (fun e => { e with config := some cfg }) (fun e => { e with state := .opened }) _ (fun _ => rfl)]
        split
        · exact t
        · split
          · exact t
          · split
            · refine .single ?_
              exact Micro.adopted { s.core with log := s.core.log ++ [.openCall id cfg] } id cfg e hf hst hc
            · exact t
      · rename_i hst
        exact touch (fun e => { e with config := some cfg }) ⟨rfl, .inl rfl, .inr ⟨hc, .inr hst⟩, fun h => h, fun _ h _ => h⟩

theorem closeStream_steps (env : Env W) (s : Sctp W) (id : Nat) : Steps env s.core (closeStream env s id).core := by
  unfold closeStream
  split
  · exact .refl
  · dsimp only [Sctp.say]
    have h := (propagateClose_spec env s.hasAssoc id s.pending s.world).1
    have ht : Steps env s.core { s.core with entries := update id (fun e => { e with doClose := true }) s.entries } :=
      .one (Micro.touch s.core _ (forall₂_update id _ _ (fun e _ _ => ⟨rfl, .inl rfl, .inl rfl, fun _ => rfl, fun _ h _ => h⟩)))
    have hall : ∀ e ∈ update id (fun e => { e with doClose := true }) s.entries, e.id = id → e.doClose = true := by
      intro e he hi
      obtain ⟨y, hy, rfl⟩ := List.mem_map.1 he
      by_cases hyi : y.id = id
      · simp [hyi]
      · simp [hyi] at hi
    refine .trans ht ?_
    unfold Sctp.core
    dsimp only
    rcases h with h | h
    · rw [h]
      exact .single (Micro.closeCall { s.core with entries := update id (fun e => { e with doClose := true }) s.entries } id hall)
    · rw [h]
      exact .tail (.single (Micro.hold _ id))
        (Micro.closeCall { s.core with entries := update id (fun e => { e with doClose := true }) s.entries, pending := s.pending ++ [id] } id hall)

theorem step_steps (env : Env W) (fuel : Nat) (s s' : Sctp W) (op : Op W) (hs : Sorted s.entries) (h : step env fuel s op = some s') :
    Steps env s.core s'.core := by
  cases op with
  | init client snap now =>
    simp only [step, Option.some.injEq] at h
    subst h
    unfold init
    split
    · exact .refl
    · rename_i hu
      have hu : s.conn = .uninited := by simpa using hu
      have hne : s.core.conn ≠ .established := by show s.conn ≠ _; rw [hu]; simp
      have key : ∀ x b, Steps env s.core { s.core with conn := x, hasAssoc := b, now := now } := fun x b => .one (Micro.conn s.core x b now (.inr hne))
      have t : Steps env s.core { s.core with now := now } := .one (Micro.time s.core now)
      dsimp only
      split
      · split
        · exact key .established true
        · exact t
      · split
        · split
          · exact key .awaitEstablished true
          · exact t
        · exact key .awaitRemote s.hasAssoc
  | openStream id cfg =>
    simp only [step, Option.some.injEq] at h
    subst h
    exact openStream_steps env s id cfg hs
  | closeStream id =>
    simp only [step, Option.some.injEq] at h
    subst h
    exact closeStream_steps env s id
  | write id binary buf =>
    simp only [step, write] at h
    split at h
    · cases h; exact .refl
    · split at h
      · cases h
      · split at h
        · cases h; exact .refl
        · split at h
          · cases h; exact .refl
          · cases h; exact .refl
  | threshold id n =>
    simp only [step, setThreshold] at h
    split at h
    · cases h
    · cases h
      exact .one (Micro.touch s.core _ (forall₂_update id _ _ (fun e _ _ => ⟨rfl, .inl rfl, .inl rfl, fun h => h, fun _ h _ => h⟩)))
  | input now data =>
    simp only [step, handleInput] at h
    split at h
    · cases h; exact .refl
    · split at h
      · cases h; exact .refl
      · rename_i hna
        cases h
        exact .one (Micro.conn2 s.core (by show s.hasAssoc = false; simpa using hna))
    · split at h
      · cases h; exact .refl
      · cases h
  | timeout now =>
    simp only [step, Option.some.injEq] at h
    subst h
    unfold handleTimeout
    split
    · exact .refl
    · dsimp only
      have t : Steps env s.core { s.core with now := now, entries := retain s.entries } := .tail (.single (Micro.time s.core now)) (Micro.drop _)
      split <;> exact t
  | poll =>
    simp only [step] at h
    split at h
    · cases h
    · rename_i o s1 hne hp
      cases h
      exact poll_steps env fuel s s' o hp (by rintro rfl; exact hne rfl)
    · cases h
  | other f =>
    cases h
    exact .refl

theorem run_steps (env : Env W) (fuel : Nat) : ∀ (ops : List (Op W)) (s s' : Sctp W), Sorted s.entries → run env fuel s ops = some s' →
    Steps env s.core s'.core := by
  intro ops
  induction ops with
  | nil => intro s s' _ h; cases h; exact .refl
  | cons op ops ih =>
    intro s s' hs h
    rw [run] at h
    split at h
    · cases h
    · rename_i s1 h1
      have a := step_steps env fuel s s1 op hs h1
      exact a.trans (ih s1 s' (a.sorted hs) h)

theorem Steps.inv {env : Env W} {P : Core → Prop} (hP : ∀ c c', Micro env c c' → P c → P c') {c c' : Core} (h : Steps env c c') (hc : P c) : P c' := by
  induction h with
  | refl => exact hc
  | tail _ hm ih => exact hP _ _ hm ih

end Str0m.SctpStreams
