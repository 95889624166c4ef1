import Verif.Props.SctpStreams
/-
  C103: what the streams hand out is told to the application, once and in order. And what is not as one would expect.
-/
namespace Str0m.SctpStreams
open Str0m.Channel (Config DcepOpen Ppi)
open Str0m.RtcLoop (SctpEvent)

variable {W : Type}

/-- What the next thing tells. -/
def tells : Next → List (Nat × Bool × List Byte)
  | .stop (.data id b d) => [(id, b, d)]
  | _ => []

theorem messages_append (a b : List (Nat × List Byte × Ppi)) : messages (a ++ b) = messages a ++ messages b := by
  unfold messages
  rw [List.filterMap_append]

section
variable {env : Env W} {g : W → List (Nat × List Byte × Ppi)} (hr : Records env g)
include hr

theorem propagate_g (b : Bool) (id : Nat) (p : List Nat) (w : W) : g (propagateClose env b id p w).2.2 = g w := by
  unfold propagateClose
  split
  · exact hr.close id w
  · rfl

theorem closeEntry_g (e : Entry) (p : List Nat) (w : W) : g (closeEntry env e p w).2.2.2 = g w ∧ tells (closeEntry env e p w).1 = [] :=
  ⟨propagate_g hr true e.id p w, rfl⟩

omit hr in
theorem considerOpen_g (e : Entry) (p : List Nat) (w : W) : (considerOpen e p w).2.2.2 = w ∧ tells (considerOpen e p w).1 = [] := by
  unfold considerOpen
  split
  · exact ⟨rfl, rfl⟩
  · split <;> exact ⟨rfl, rfl⟩

theorem openEntry_g (now : Nat) (e : Entry) (p : List Nat) (w : W) :
    g (openEntry env now e p w).2.2.2 = g w ∧ tells (openEntry env now e p w).1 = [] := by
  have ho := hr.open_ e.id w
  unfold openEntry
  split
  · rename_i w1 h1
    rw [h1] at ho
    dsimp only
    unfold configure
    cases hc : e.config with
    | none => exact ⟨ho, rfl⟩
    | some c =>
      dsimp only
      have h2 := hr.reliability e.id c.toDcep w1
      rcases hq : env.reliability e.id c.toDcep w1 with ⟨ok, w2⟩
      rw [hq] at h2
      dsimp only at h2 ho
      cases ok with
      | false =>
        dsimp only
        obtain ⟨a, b⟩ := closeEntry_g hr { e with config := some c, deadline := none, doClose := true } p w2
        exact ⟨by rw [a, h2, ho], b⟩
      | true =>
        dsimp only
        split
        · split
          · rename_i msg _
            split
            · rename_i w3 h3
              have h4 := hr.write e.id msg Ppi.dcep w2
              rw [h3] at h4
              exact ⟨by rw [h4, h2, ho], rfl⟩
            · rename_i w3 h3
              have h4 := hr.write e.id msg Ppi.dcep w2
              rw [h3] at h4
              obtain ⟨a, b⟩ := closeEntry_g hr { e with config := some c, deadline := none, doClose := true } p w3
              exact ⟨by rw [a, h4, h2, ho], b⟩
          · exact ⟨by rw [h2, ho], rfl⟩
        · obtain ⟨a, b⟩ := considerOpen_g { e with config := some c, deadline := none } p w2
          exact ⟨by rw [a, h2, ho], b⟩
  · rename_i w1 h1
    rw [h1] at ho
    obtain ⟨a, b⟩ := closeEntry_g hr { e with doClose := true } p w1
    exact ⟨by rw [a]; exact ho, b⟩
  · rename_i stale w1 h1
    rw [h1] at ho
    dsimp only at ho
    split
    · exact ⟨ho, rfl⟩
    · rename_i c hc
      split
      · dsimp only
        split
        · exact ⟨ho, rfl⟩
        · obtain ⟨a, b⟩ := closeEntry_g hr { e with deadline := some (e.deadline.getD (now + 10 * 10 ^ 9)), doClose := true } p w1
          exact ⟨by rw [a]; exact ho, b⟩
      · split
        · exact ⟨ho, rfl⟩
        · unfold configure
          rw [hc]
          dsimp only
          have h2 := hr.reliability e.id c.toDcep w1
          rcases hq : env.reliability e.id c.toDcep w1 with ⟨ok, w2⟩
          rw [hq] at h2
          dsimp only at h2
          cases ok with
          | false =>
            dsimp only
            obtain ⟨a, b⟩ := closeEntry_g hr { e with doClose := true } p w2
            rw [hc] at a b
            exact ⟨by rw [a, h2, ho], b⟩
          | true =>
            dsimp only
            obtain ⟨a, b⟩ := considerOpen_g e p w2
            exact ⟨by rw [a, h2, ho], b⟩
  · rename_i w1 h1
    rw [h1] at ho
    dsimp only at ho
    split
    · exact ⟨ho, rfl⟩
    · dsimp only
      split
      · exact ⟨ho, rfl⟩
      · obtain ⟨a, b⟩ := closeEntry_g hr { e with deadline := some (e.deadline.getD (now + 10 * 10 ^ 9)), doClose := true } p w1
        exact ⟨by rw [a]; exact ho, b⟩

theorem dcepEntry_g (e : Entry) (buf : List Byte) (p : List Nat) (w : W) :
    g (dcepEntry env e buf p w).2.2.2 = g w ∧ tells (dcepEntry env e buf p w).1 = [] := by
  unfold dcepEntry
  split
  · split
    · rename_i d _
      dsimp only
      unfold configure
      dsimp only
      have h2 := hr.reliability e.id (e.config.getD (Config.ofDcep d)).toDcep w
      rcases hq : env.reliability e.id (e.config.getD (Config.ofDcep d)).toDcep w with ⟨ok, w2⟩
      rw [hq] at h2
      dsimp only at h2
      cases ok with
      | false => exact ⟨h2, rfl⟩
      | true =>
        dsimp only
        have h4 := hr.write e.id Channel.ackMarshal Ppi.dcep w2
        split
        · rename_i w3 h3
          rw [h3] at h4
          exact ⟨by rw [← h2]; exact h4, rfl⟩
        · rename_i w3 h3
          rw [h3] at h4
          obtain ⟨a, b⟩ := closeEntry_g hr { e with config := some (e.config.getD (Config.ofDcep d)), doClose := true } p w3
          exact ⟨by rw [a]; exact h4.trans h2, b⟩
    · exact ⟨rfl, rfl⟩
    · exact ⟨rfl, rfl⟩
  · split
    · split
      · exact ⟨rfl, rfl⟩
      · exact ⟨rfl, rfl⟩
    · exact ⟨rfl, rfl⟩
    · exact ⟨rfl, rfl⟩
  · exact ⟨rfl, rfl⟩

theorem readEntry_g (e : Entry) (p : List Nat) (w : W) :
    messages (g (readEntry env e p w).2.2.2) = messages (g w) ++ tells (readEntry env e p w).1 := by
  have h := hr.read e.id w
  unfold readEntry
  split
  · rename_i w1 h1
    rw [h1] at h
    simp only [List.append_nil] at h
    rw [h]
    exact (List.append_nil _).symm
  · rename_i w1 h1
    rw [h1] at h
    simp only [List.append_nil] at h
    rw [h]
    exact (List.append_nil _).symm
  · rename_i buf ppi w1 h1
    rw [h1] at h
    dsimp only at h
    split
    · rename_i hp
      subst hp
      obtain ⟨a, b⟩ := dcepEntry_g hr e buf p w1
      rw [a, b, h, messages_append]
      rfl
    · rename_i hp
      cases ppi with
      | dcep => exact absurd rfl hp
      | string | stringEmpty | binary | binaryEmpty => dsimp only [Channel.deliver]; rw [h, messages_append]; rfl
      | unknown => dsimp only [Channel.deliver]; rw [h, messages_append]; rfl

theorem stepEntry_g (now : Nat) (e : Entry) (p : List Nat) (w : W) :
    messages (g (stepEntry env now e p w).2.2.2) = messages (g w) ++ tells (stepEntry env now e p w).1 := by
  have quiet : ∀ {r : Next × Entry × List Nat × W}, g r.2.2.2 = g w ∧ tells r.1 = [] → messages (g r.2.2.2) = messages (g w) ++ tells r.1 := by
    rintro r ⟨a, b⟩
    rw [a, b, List.append_nil]
  unfold stepEntry
  split
  · exact quiet (openEntry_g hr now e p w)
  · split
    · exact quiet (closeEntry_g hr e p w)
    · split
      · exact quiet ⟨rfl, rfl⟩
      · split
        · rename_i x _
          have h := hr.threshold e.id x w
          split
          · rename_i w1 h1
            rw [h1] at h
            exact quiet ⟨h, rfl⟩
          · rename_i w1 h1
            rw [h1] at h
            dsimp only at h
            rw [readEntry_g hr _ p w1, h]
        · exact readEntry_g hr e p w

theorem loop_g (now : Nat) : ∀ (es : List Entry) (p : List Nat) (w : W),
    messages (g (loopEntries env now es p w).2.2.2) = messages (g w) ++ tells (loopEntries env now es p w).1 := by
  intro es
  induction es with
  | nil => intro p w; exact (List.append_nil _).symm
  | cons e es ih =>
    intro p w
    have h := stepEntry_g hr now e p w
    rw [loopEntries]
    revert h
    generalize stepEntry env now e p w = x
    obtain ⟨n, e', p', w'⟩ := x
    intro h
    cases n with
    | go =>
      dsimp only at h ⊢
      rw [ih p' w', h]
      simp [tells]
    | restart => exact h
    | stop ev => exact h
    | panic => exact h

theorem events_g : ∀ (fuel : Nat) (s s' : Sctp W) (n : Next), events env fuel s = some (n, s') → g s'.world = g s.world ∧ tells n = [] := by
  intro fuel
  induction fuel with
  | zero => intro s s' n h; simp [events] at h
  | succ k ih =>
    intro s s' n h
    have hg := hr.poll s.world
    rw [events] at h
    split at h <;> (rename_i hp; rw [hp] at hg; dsimp only at hg)
    · cases h; exact ⟨hg, rfl⟩
    · cases h; exact ⟨hg, rfl⟩
    · cases h; exact ⟨hg, rfl⟩
    · obtain ⟨a, b⟩ := ih _ _ _ h; exact ⟨a.trans hg, b⟩
    · obtain ⟨a, b⟩ := ih _ _ _ h; exact ⟨a.trans hg, b⟩
    · obtain ⟨a, b⟩ := ih _ _ _ h; exact ⟨a.trans hg, b⟩
    · cases h; exact ⟨hg, rfl⟩
    · obtain ⟨a, b⟩ := ih _ _ _ h; exact ⟨a.trans hg, b⟩

theorem doPoll_g : ∀ (fuel : Nat) (s s' : Sctp W) (o : Polled), doPoll env fuel s = some (o, s') →
    messages (g s'.world) = messages (g s.world) ++ (match o with | .event e => tells (.stop e) | _ => []) := by
  intro fuel
  induction fuel with
  | zero => intro s s' n h; simp [doPoll] at h
  | succ k ih =>
    intro s s' o h
    rw [doPoll] at h
    split at h
    · cases h; simp
    · dsimp only at h
      have ht := hr.transmit s.world
      split at h
      · rename_i w1 h1
        rw [h1] at ht
        dsimp only at ht
        cases h
        show messages (g w1) = _
        rw [ht]
        simp [tells]
      · rename_i w1 h1
        rw [h1] at ht
        dsimp only at ht
        split at h
        · cases h
          show messages (g w1) = _
          rw [ht]
          simp
        · split at h
          · cases h
            show messages (g w1) = _
            rw [ht]
            simp
          · split at h
            · cases h
            · rename_i s1 he
              obtain ⟨a, b⟩ := events_g hr _ _ _ _ he
              have a : g s1.world = g s.world := a.trans ht
              have := ih _ _ _ h
              rw [this, a]
            · rename_i s1 he
              obtain ⟨a, b⟩ := events_g hr _ _ _ _ he
              have a : g s1.world = g s.world := a.trans ht
              cases h
              rw [a]
              dsimp only
              rw [b, List.append_nil]
            · rename_i s1 he
              obtain ⟨a, b⟩ := events_g hr _ _ _ _ he
              have a : g s1.world = g s.world := a.trans ht
              cases h
              rw [a]
              simp
            · rename_i s1 he
              obtain ⟨a, b⟩ := events_g hr _ _ _ _ he
              have a : g s1.world = g s.world := a.trans ht
              split at h
              · cases h; rw [a]; simp
              · have hl := loop_g hr s1.now s1.entries s1.pending s1.world
                revert h hl
                generalize loopEntries env s1.now s1.entries s1.pending s1.world = r
                obtain ⟨n, es, p, w'⟩ := r
                intro h hl
                dsimp only at hl
                cases n with
                | restart =>
                  dsimp only at h
                  have := ih _ _ _ h
                  rw [this]
                  show messages (g w') ++ _ = _
                  rw [hl, a]
                  simp [tells]
                | go =>
                  dsimp only at h
                  split at h
                  · cases h
                    show messages (g w') = _
                    rw [hl, a]
                    simp [tells]
                  · cases h
                    show messages (g w') = _
                    rw [hl, a]
                    simp [tells]
                | panic =>
                  cases h
                  show messages (g w') = _
                  rw [hl, a]
                  simp [tells]
                | stop ev =>
                  cases h
                  show messages (g w') = _
                  rw [hl, a]

theorem step_g (fuel : Nat) (s s' : Sctp W) (op : Op W) (ho : ∀ f, op = .other f → ∀ w, g (f w) = g w) (h : step env fuel s op = some s')
    (hi : told s.log = messages (g s.world)) : told s'.log = messages (g s'.world) := by
  have snoc : ∀ (l : List Note) (n : Note), (∀ id b d, n ≠ .event (.data id b d)) → told (l ++ [n]) = told l := by
    intro l n hn
    unfold told
    rw [List.filterMap_append]
    cases n with
    | event e => cases e <;> first | exact absurd rfl (hn _ _ _) | simp
    | openCall | closeCall | adopted => simp
  cases op with
  | init client snap now =>
    simp only [step, Option.some.injEq] at h
    subst h
    have hc := hr.connect s.world
    unfold init
    split
    · exact hi
    · dsimp only
      split
      · split <;> (show told s.log = messages (g (env.connect s.world).2); rw [hc]; exact hi)
      · split
        · split <;> (show told s.log = messages (g (env.connect s.world).2); rw [hc]; exact hi)
        · exact hi
  | openStream id cfg =>
    simp only [step, Option.some.injEq] at h
    subst h
    have hc := hr.reliability id cfg.toDcep s.world
    have hq := snoc s.log (.openCall id cfg) (by simp)
    unfold openStream
    dsimp only [Sctp.say]
    split
    · exact hq.trans hi
    · split
      · exact hq.trans hi
      · split
        · split
          · exact hq.trans hi
          · split
            · exact hq.trans hi
            · split
              · show told (s.log ++ [.openCall id cfg] ++ [.adopted id]) = messages (g (env.reliability id cfg.toDcep s.world).2)
                rw [snoc _ _ (by simp), hq, hc]
                exact hi
              · show told (s.log ++ [.openCall id cfg]) = messages (g (env.reliability id cfg.toDcep s.world).2)
                rw [hq, hc]
                exact hi
        · exact hq.trans hi
  | closeStream id =>
    simp only [step, Option.some.injEq] at h
    subst h
    unfold closeStream
    split
    · exact hi
    · show told (s.log ++ [.closeCall id]) = messages (g (propagateClose env s.hasAssoc id s.pending s.world).2.2)
      rw [snoc _ _ (by simp), propagate_g hr]
      exact hi
  | write id binary buf =>
    simp only [step, write] at h
    split at h
    · cases h; exact hi
    · split at h
      · cases h
      · split at h
        · cases h; exact hi
        · split at h
          · cases h; exact hi
          · cases h
            show told s.log = messages (g (env.write id buf _ s.world).2)
            rw [hr.write]
            exact hi
  | threshold id n =>
    simp only [step, setThreshold] at h
    split at h
    · cases h
    · cases h; exact hi
  | input now data =>
    have hc := hr.arrive now data s.world
    simp only [step, handleInput] at h
    split at h <;> (rename_i w1 h1; rw [h1] at hc; dsimp only at hc)
    · cases h
      show told s.log = messages (g w1)
      rw [hc]; exact hi
    · split at h
      · cases h
        show told s.log = messages (g w1)
        rw [hc]; exact hi
      · cases h
        show told s.log = messages (g w1)
        rw [hc]; exact hi
    · split at h
      · cases h
        show told s.log = messages (g w1)
        rw [hc]; exact hi
      · cases h
  | timeout now =>
    simp only [step, Option.some.injEq] at h
    subst h
    unfold handleTimeout
    split
    · exact hi
    · dsimp only
      split
      · show told s.log = messages (g (env.tick now s.world))
        rw [hr.tick]; exact hi
      · exact hi
  | poll =>
    simp only [step] at h
    split at h
    · cases h
    · rename_i o s1 hne hp
      cases h
      unfold poll at hp
      split at hp
      · cases hp
      · rename_i e s2 hd
        cases hp
        have hg := doPoll_g hr fuel s s2 _ hd
        have hl := doPoll_log env fuel s s2 _ hd
        show told (s2.log ++ [.event e]) = messages (g s2.world)
        rw [hg, hl, ← hi]
        unfold told
        rw [List.filterMap_append]
        cases e <;> simp [tells]
      · rename_i o' s2 hne' hd
        cases hp
        have hg := doPoll_g hr fuel s s' _ hd
        have hl := doPoll_log env fuel s s' _ hd
        rw [hg, hl, hi]
        cases o with
        | event e => exact absurd rfl (hne' e)
        | nothing => simp
        | panic => simp
    · cases h
  | other f =>
    cases h
    show told s.log = messages (g (f s.world))
    rw [ho f rfl]
    exact hi

/-- **C103**. In any history, with an sctp-proto that counts what it hands out: the `Data` told are exactly the messages of the application that
were handed out, of the same stream and kind and with the same bytes, in the same order: none is lost, repeated or altered. -/
theorem C103_exactly (fuel : Nat) (w : W) (hw : g w = []) (ops : List (Op W)) (hop : ∀ f, Op.other f ∈ ops → ∀ w, g (f w) = g w)
    (s : Sctp W) (h : run env fuel (Sctp.new w) ops = some s) : told s.log = messages (g s.world) := by
  have key : ∀ (ops : List (Op W)) (s₀ : Sctp W), (∀ f, Op.other f ∈ ops → ∀ w, g (f w) = g w) → told s₀.log = messages (g s₀.world) →
      run env fuel s₀ ops = some s → told s.log = messages (g s.world) := by
    intro ops
    induction ops with
    | nil => intro s₀ _ hi h; cases h; exact hi
    | cons op ops ih =>
      intro s₀ ho hi h
      rw [run] at h
      split at h
      · cases h
      · rename_i s1 h1
        exact ih s1 (fun f hf => ho f (List.mem_cons_of_mem _ hf)) (step_g hr fuel s₀ s1 op (fun f hf => ho f (hf ▸ List.mem_cons_self)) h1 hi) h
  exact key ops (Sctp.new w) hop (by show told [] = messages (g w); rw [hw]; rfl) h
end

/-- Where the deadlines come from. -/
def Dl (now : Nat) (es es' : List Entry) : Prop :=
  ∀ x ∈ es', ∀ d, x.deadline = some d → d = now + 10 * 10^9 ∨ ∃ e ∈ es, e.id = x.id ∧ e.deadline = some d

/-- The same for one. -/
def Dl1 (now : Nat) (e x : Entry) : Prop := x.id = e.id ∧ ∀ d, x.deadline = some d → d = now + 10 * 10^9 ∨ e.deadline = some d

theorem Dl.rfl' (now : Nat) (es : List Entry) : Dl now es es := fun x hx d hd => .inr ⟨x, hx, rfl, hd⟩

theorem Dl.trans {now : Nat} {a b c : List Entry} (h : Dl now a b) (h' : Dl now b c) : Dl now a c := by
  intro x hx d hd
  rcases h' x hx d hd with h1 | ⟨e, he, hi, hd'⟩
  · exact .inl h1
  · rcases h e he d hd' with h1 | ⟨e', he', hi', hd''⟩
    · exact .inl h1
    · exact .inr ⟨e', he', hi'.trans hi, hd''⟩

theorem closeEntry_dl (env : Env W) (now : Nat) (e x : Entry) (p : List Nat) (w : W) (h : Dl1 now e x) : Dl1 now e (closeEntry env x p w).2.1 := h

theorem considerOpen_dl (now : Nat) (e x : Entry) (p : List Nat) (w : W) (h : Dl1 now e x) : Dl1 now e (considerOpen x p w).2.1 := by
  unfold considerOpen
  split
  · exact h
  · split <;> exact h

theorem openEntry_dl (env : Env W) (now : Nat) (e : Entry) (p : List Nat) (w : W) : Dl1 now e (openEntry env now e p w).2.1 := by
  have none_ : ∀ x : Entry, x.id = e.id → x.deadline = none → Dl1 now e x := fun x hi h => ⟨hi, fun d hd => by rw [h] at hd; cases hd⟩
  have same : ∀ x : Entry, x.id = e.id → x.deadline = e.deadline → Dl1 now e x := fun x hi h => ⟨hi, fun d hd => .inr (h ▸ hd)⟩
  have get : ∀ x : Entry, x.id = e.id → x.deadline = some (e.deadline.getD (now + 10 * 10^9)) → Dl1 now e x := by
    intro x hi h
    refine ⟨hi, fun d hd => ?_⟩
    rw [h] at hd
    cases hd
    cases e.deadline with
    | none => exact .inl rfl
    | some y => exact .inr rfl
  unfold openEntry
  split
  · dsimp only
    split
    · exact none_ _ rfl rfl
    · exact closeEntry_dl env now e _ p _ (none_ _ rfl rfl)
    · split
      · exact none_ _ rfl rfl
      · split
        · split
          · split
            · exact none_ _ rfl rfl
            · exact closeEntry_dl env now e _ p _ (none_ _ rfl rfl)
          · exact none_ _ rfl rfl
        · exact considerOpen_dl now e _ p _ (none_ _ rfl rfl)
  · exact closeEntry_dl env now e _ p _ (same _ rfl rfl)
  · split
    · exact same _ rfl rfl
    · split
      · dsimp only
        split
        · exact get _ rfl rfl
        · exact closeEntry_dl env now e _ p _ (get _ rfl rfl)
      · split
        · exact same _ rfl rfl
        · split
          · exact same _ rfl rfl
          · exact closeEntry_dl env now e _ p _ (same _ rfl rfl)
          · exact considerOpen_dl now e _ p _ (same _ rfl rfl)
  · split
    · exact same _ rfl rfl
    · dsimp only
      split
      · exact get _ rfl rfl
      · exact closeEntry_dl env now e _ p _ (get _ rfl rfl)

theorem dcepEntry_dl (env : Env W) (e : Entry) (buf : List Byte) (p : List Nat) (w : W) :
    (dcepEntry env e buf p w).2.1.id = e.id ∧ (dcepEntry env e buf p w).2.1.deadline = e.deadline := by
  unfold dcepEntry closeEntry
  dsimp only
  repeat' (split <;> try exact ⟨rfl, rfl⟩)

theorem readEntry_dl (env : Env W) (e : Entry) (p : List Nat) (w : W) :
    (readEntry env e p w).2.1.id = e.id ∧ (readEntry env e p w).2.1.deadline = e.deadline := by
  unfold readEntry
  split
  · exact ⟨rfl, rfl⟩
  · exact ⟨rfl, rfl⟩
  · split
    · exact dcepEntry_dl env e _ p _
    · split <;> exact ⟨rfl, rfl⟩

theorem stepEntry_dl (env : Env W) (now : Nat) (e : Entry) (p : List Nat) (w : W) : Dl1 now e (stepEntry env now e p w).2.1 := by
  have same : ∀ x : Entry, x.id = e.id ∧ x.deadline = e.deadline → Dl1 now e x := fun x h => ⟨h.1, fun d hd => .inr (h.2 ▸ hd)⟩
  unfold stepEntry
  split
  · exact openEntry_dl env now e p w
  · split
    · exact same _ ⟨rfl, rfl⟩
    · split
      · exact same _ ⟨rfl, rfl⟩
      · split
        · rename_i x _
          split
          · exact same _ ⟨rfl, rfl⟩
          · exact same _ (readEntry_dl env { e with threshold := .configured x } p _)
        · exact same _ (readEntry_dl env e p w)

theorem loop_dl (env : Env W) (now : Nat) : ∀ (es : List Entry) (p : List Nat) (w : W), Dl now es (loopEntries env now es p w).2.1 := by
  intro es
  induction es with
  | nil =>
    intro p w x hx
    cases hx
  | cons e es ih =>
    intro p w
    have h := stepEntry_dl env now e p w
    rw [loopEntries]
    revert h
    generalize stepEntry env now e p w = r
    obtain ⟨n, e', p', w'⟩ := r
    intro h
    dsimp only at h
    have h0 : ∀ d, e'.deadline = some d → d = now + 10 * 10^9 ∨ ∃ y ∈ e :: es, y.id = e'.id ∧ y.deadline = some d := fun d hd =>
      (h.2 d hd).imp (fun h => h) (fun hh => ⟨e, List.mem_cons_self, h.1.symm, hh⟩)
    have rest : Dl now (e :: es) (e' :: es) := by
      intro x hx d hd
      rcases List.mem_cons.1 hx with rfl | hx
      · exact h0 d hd
      · exact .inr ⟨x, List.mem_cons_of_mem _ hx, rfl, hd⟩
    cases n with
    | go =>
      intro x hx d hd
      rcases List.mem_cons.1 hx with rfl | hx
      · exact h0 d hd
      · rcases ih p' w' x hx d hd with h1 | ⟨y, hy, hh⟩
        · exact .inl h1
        · exact .inr ⟨y, List.mem_cons_of_mem _ hy, hh⟩
    | restart => exact rest
    | stop => exact rest
    | panic => exact rest

theorem insert_dl (now : Nat) (id : Nat) (st : EState) (es : List Entry) : Dl now es (insert id st es) := by
  intro x hx d hd
  rcases insert_mem id st es x hx with h | rfl
  · exact .inr ⟨x, h, rfl, hd⟩
  · cases hd

theorem update_dl (now : Nat) (id : Nat) (f : Entry → Entry) (es : List Entry) (hf : ∀ e, (f e).id = e.id ∧ (f e).deadline = e.deadline) : Dl now es (update id f es) := by
  intro x hx d hd
  rcases update_mem hx with ⟨h, _⟩ | ⟨y, hy, _, rfl⟩
  · exact .inr ⟨x, h, rfl, hd⟩
  · exact .inr ⟨y, hy, (hf y).1.symm, (hf y).2 ▸ hd⟩

theorem retain_dl (now : Nat) (es : List Entry) : Dl now es (retain es) := fun x hx d hd => .inr ⟨x, (List.mem_filter.1 hx).1, rfl, hd⟩

theorem events_dl (env : Env W) : ∀ (fuel : Nat) (s s' : Sctp W) (n : Next), events env fuel s = some (n, s') → Dl s.now s.entries s'.entries ∧ s'.now = s.now := by
  intro fuel
  induction fuel with
  | zero => intro s s' n h; simp [events] at h
  | succ k ih =>
    intro s s' n h
    rw [events] at h
    split at h
    · cases h; exact ⟨Dl.rfl' _ _, rfl⟩
    · cases h; exact ⟨Dl.rfl' _ _, rfl⟩
    · cases h; exact ⟨Dl.rfl' _ _, rfl⟩
    · obtain ⟨a, b⟩ := ih _ _ _ h; exact ⟨(insert_dl _ _ _ _).trans a, b⟩
    · obtain ⟨a, b⟩ := ih _ _ _ h
      exact ⟨(update_dl _ _ _ _ (fun e => by split <;> exact ⟨rfl, rfl⟩)).trans a, b⟩
    · obtain ⟨a, b⟩ := ih _ _ _ h; exact ⟨a, b⟩
    · cases h; exact ⟨Dl.rfl' _ _, rfl⟩
    · obtain ⟨a, b⟩ := ih _ _ _ h; exact ⟨a, b⟩

theorem doPoll_dl (env : Env W) : ∀ (fuel : Nat) (s s' : Sctp W) (o : Polled), doPoll env fuel s = some (o, s') → Dl s.now s.entries s'.entries := by
  intro fuel
  induction fuel with
  | zero => intro s s' n h; simp [doPoll] at h
  | succ k ih =>
    intro s s' o h
    rw [doPoll] at h
    have h0 := retain_dl s.now s.entries
    split at h
    · cases h; exact Dl.rfl' _ _
    · dsimp only at h
      split at h
      · cases h; exact h0
      · split at h
        · cases h; exact h0
        · split at h
          · cases h; exact h0
          · split at h
            · cases h
            · rename_i s1 he
              obtain ⟨a, b⟩ := events_dl env _ _ _ _ he
              have b : s1.now = s.now := b
              have c := ih _ _ _ h
              rw [b] at c
              exact h0.trans (a.trans c)
            · rename_i s1 he
              obtain ⟨a, b⟩ := events_dl env _ _ _ _ he
              cases h
              exact h0.trans a
            · rename_i s1 he
              obtain ⟨a, b⟩ := events_dl env _ _ _ _ he
              cases h
              exact h0.trans a
            · rename_i s1 he
              obtain ⟨a, b⟩ := events_dl env _ _ _ _ he
              have b : s1.now = s.now := b
              have a : Dl s.now s.entries s1.entries := h0.trans a
              split at h
              · cases h; exact a
              · have hl := loop_dl env s1.now s1.entries s1.pending s1.world
                revert h hl
                generalize loopEntries env s1.now s1.entries s1.pending s1.world = r
                obtain ⟨n, es, p, w'⟩ := r
                intro h hl
                dsimp only at hl
                rw [b] at hl
                cases n with
                | restart =>
                  dsimp only at h
                  have c := ih _ _ _ h
                  rw [show ({ s1 with entries := es, pending := p, world := w' } : Sctp W).now = s.now from b] at c
                  exact a.trans (hl.trans c)
                | go =>
                  dsimp only at h
                  split at h
                  · cases h; exact a.trans hl
                  · cases h; exact a.trans hl
                | panic => cases h; exact a.trans hl
                | stop ev => cases h; exact a.trans hl

/-- **C100** (ten seconds). The deadline of a stream that waits is ten seconds after the poll that first found its number in use: whatever the call, a
deadline was there before, for the same number, or is ten seconds from the time of the state that is polled. -/
theorem C100_ten_seconds (env : Env W) (fuel : Nat) (s s' : Sctp W) (op : Op W) (h : step env fuel s op = some s')
    (x : Entry) (hx : x ∈ s'.entries) (d : Nat) (hd : x.deadline = some d) : d = s.now + 10 * 10^9 ∨ ∃ e ∈ s.entries, e.id = x.id ∧ e.deadline = some d := by
  suffices hh : Dl s.now s.entries s'.entries from hh x hx d hd
  cases op with
  | init client snap now =>
    simp only [step, Option.some.injEq] at h
    subst h
    unfold init
    split
    · exact Dl.rfl' _ _
    · dsimp only
      repeat' (split <;> try exact Dl.rfl' _ _)
  | openStream id cfg =>
    simp only [step, Option.some.injEq] at h
    subst h
    have a := insert_dl s.now id .awaitOpen s.entries
    unfold openStream
    dsimp only [Sctp.say]
    have up : ∀ (f : Entry → Entry) (es : List Entry), (∀ e, (f e).id = e.id ∧ (f e).deadline = e.deadline) → Dl s.now s.entries es → Dl s.now s.entries (update id f es) :=
      fun f es hf h => h.trans (update_dl _ _ _ _ hf)
    have b := up (fun e => { e with config := some cfg }) _ (fun _ => ⟨rfl, rfl⟩) a
    have c : Dl s.now s.entries (update id (fun e => { e with doClose := true }) (update id (fun e => { e with config := some cfg }) (insert id .awaitOpen s.entries))) :=
      up (fun e => { e with doClose := true }) _ (fun _ => ⟨rfl, rfl⟩) b
    split
    · exact a
    · split
      · exact up (fun e => { e with doClose := true }) _ (fun _ => ⟨rfl, rfl⟩) a
      · split
        · split
          · exact c
          · split
            · exact c
            · split
              · exact up (fun e => { e with state := .opened }) _ (fun _ => ⟨rfl, rfl⟩) b
              · exact c
        · exact b
  | closeStream id =>
    simp only [step, Option.some.injEq] at h
    subst h
    unfold closeStream
    split
    · exact Dl.rfl' _ _
    · exact update_dl s.now id (fun e => { e with doClose := true }) s.entries (fun _ => ⟨rfl, rfl⟩)
  | write id binary buf =>
    simp only [step, write] at h
    split at h
    · cases h; exact Dl.rfl' _ _
    · split at h
      · cases h
      · split at h
        · cases h; exact Dl.rfl' _ _
        · split at h
          · cases h; exact Dl.rfl' _ _
          · cases h; exact Dl.rfl' _ _
  | threshold id n =>
    simp only [step, setThreshold] at h
    split at h
    · cases h
    · cases h
      exact update_dl s.now id (fun e => { e with threshold := e.threshold.set n }) s.entries (fun _ => ⟨rfl, rfl⟩)
  | input now data =>
    simp only [step, handleInput] at h
    split at h
    · cases h; exact Dl.rfl' _ _
    · split at h
      · cases h; exact Dl.rfl' _ _
      · cases h; exact Dl.rfl' _ _
    · split at h
      · cases h; exact Dl.rfl' _ _
      · cases h
  | timeout now =>
    simp only [step, Option.some.injEq] at h
    subst h
    unfold handleTimeout
    split
    · exact Dl.rfl' _ _
    · dsimp only
      split <;> exact retain_dl _ _
  | poll =>
    simp only [step] at h
    split at h
    · cases h
    · rename_i o s1 hne hp
      cases h
      unfold poll at hp
      split at hp
      · cases hp
      · rename_i e s2 hd
        cases hp
        exact doPoll_dl env fuel s s2 _ hd
      · rename_i o' s2 hne' hd
        cases hp
        exact doPoll_dl env fuel s s' _ hd
    · cases h
  | other f =>
    cases h
    exact Dl.rfl' _ _

/-- Any sctp-proto can be made to count. -/
def recording (env : Env W) : Env (W × List (Nat × List Byte × Ppi)) where
  utf8 := env.utf8
  connect w := let a := env.connect w.1; (a.1, a.2, w.2)
  transmit w := let a := env.transmit w.1; (a.1, a.2, w.2)
  poll w := let a := env.poll w.1; (a.1, a.2, w.2)
  open_ id w := let a := env.open_ id w.1; (a.1, a.2, w.2)
  stream id w := env.stream id w.1
  reliability id d w := let a := env.reliability id d w.1; (a.1, a.2, w.2)
  write id b p w := let a := env.write id b p w.1; (a.1, a.2, w.2)
  threshold id n w := let a := env.threshold id n w.1; (a.1, a.2, w.2)
  read id w := let a := env.read id w.1; (a.1, a.2, w.2 ++ (match a.1 with | .data buf ppi => [(id, buf, ppi)] | _ => []))
  close id w := let a := env.close id w.1; (a.1, a.2, w.2)
  arrive n d w := let a := env.arrive n d w.1; (a.1, a.2, w.2)
  tick n w := (env.tick n w.1, w.2)
  closing w := env.closing w.1

theorem recording_records (env : Env W) : Records (recording env) (·.2) where
  connect _ := rfl
  transmit _ := rfl
  poll _ := rfl
  open_ _ _ := rfl
  reliability _ _ _ := rfl
  write _ _ _ _ := rfl
  threshold _ _ _ := rfl
  close _ _ := rfl
  arrive _ _ _ := rfl
  tick _ _ := rfl
  read _ _ := rfl

/-! ### Histories -/

/-- An sctp-proto that answers from lists. -/
structure Script where
  events : List AssocEvent
  reads : List (Nat × List Byte × Ppi)
  opens : List OpenRes
  streams : List Nat
deriving Repr, DecidableEq

def scripted : Env Script where
  utf8 _ := true
  connect w := (true, w)
  transmit w := (none, w)
  poll w := match w.events with | [] => (none, w) | e :: es => (some e, { w with events := es })
  open_ _ w := match w.opens with | [] => (.ok, w) | o :: os => (o, { w with opens := os })
  stream id w := decide (id ∈ w.streams)
  reliability _ _ w := (true, w)
  write _ _ _ w := (true, w)
  threshold _ _ w := (true, w)
  read id w := match w.reads with | [] => (.nothing, w) | (i, b, p) :: rs => if i = id then (.data b p, { w with reads := rs }) else (.nothing, w)
  close _ w := (true, w)
  arrive _ _ w := (.newAssociation, w)
  tick _ w := w
  closing _ := false

def plain (negotiated : Option Nat) : Config where
  label := [104, 105]
  ordered := true
  reliability := .reliable
  negotiated := negotiated
  protocol := []

/-- The stream 4: asked for, opened by the acknowledgement, a message, closed, reset. -/
def story : List (Op Script) :=
  [.init true false 0, .openStream 4 (plain none), .poll, .poll, .write 4 true [1], .closeStream 4, .poll, .other (fun w => { w with events := [.resetComplete 4] }), .poll, .poll]

def world : Script where
  events := [.connected]
  reads := [(4, [2], .dcep), (4, [9, 9], .binary)]
  opens := [.ok]
  streams := [4]

/-- The whole life of a stream. -/
theorem C98_example : (run scripted 9 (Sctp.new world) story).map (·.log) =
    some [.openCall 4 (plain none), .event (.opened 4 [104, 105]), .event (.data 4 true [9, 9]), .closeCall 4, .event (.closed 4 true), .event (.resetComplete 4)] := by
  decide +kernel

/-- The hypotheses of C98 to C103 hold of it. -/
theorem C98_example_open : ∃ s, run scripted 9 (Sctp.new world) (story.take 4) = some s ∧ isOpen s 4 = true ∧ Fits s.log ∧ Live s.log 4 := by
  refine ⟨_, rfl, by decide +kernel, ?_, ?_⟩
  · intro id cfg h
    have : (Note.openCall id cfg) ∈ [Note.openCall 4 (plain none), .event (.opened 4 [104, 105]), .event (.data 4 true [9, 9])] := h
    simp at this
    obtain ⟨rfl, rfl⟩ := this
    decide
  · exact ⟨[.openCall 4 (plain none)], .event (.opened 4 [104, 105]), [.event (.data 4 true [9, 9])], rfl, .inr ⟨_, rfl⟩, by simp⟩

theorem C101_example : Honest scripted ↔ ∀ id w, (scripted.open_ id w).1 = .exists_ false → id ∈ (scripted.open_ id w).2.streams := by
  unfold Honest
  refine forall_congr' (fun id => forall_congr' (fun w => ?_))
  show (_ → decide _ = true) ↔ _
  rw [decide_eq_true_iff]

/-- With all streams there it is honest. -/
theorem C101_example_honest : Honest { scripted with stream := fun _ _ => true } := fun _ _ _ => rfl

/-- The stream of the closed one: `C99_told` and `C102_held` are of such a history. -/
theorem C99_example : ∃ s s', run scripted 9 (Sctp.new world) (story.take 7) = some s ∧ poll scripted 9 s = some (.nothing, s') ∧
    s.conn = .established ∧ s.hasAssoc = true ∧ ∃ l₁ l₂, s.log = l₁ ++ .closeCall 4 :: l₂ ∧ Live l₁ 4 := by
  refine ⟨_, _, rfl, rfl, rfl, rfl, [.openCall 4 (plain none), .event (.opened 4 [104, 105]), .event (.data 4 true [9, 9])], _, rfl, ?_⟩
  exact ⟨[.openCall 4 (plain none)], .event (.opened 4 [104, 105]), [.event (.data 4 true [9, 9])], rfl, .inr ⟨_, rfl⟩, by simp⟩

/-- A number whose reset is not over: asked again each time, given up after ten seconds. -/
theorem C100_example : ((run scripted 9 (Sctp.new { world with opens := [.resetPending, .resetPending, .resetPending] })
      [.init true false 0, .openStream 4 (plain none), .poll, .timeout (5 * 10^9), .poll, .timeout (10 * 10^9), .poll]).map (·.log)) =
    some [.openCall 4 (plain none), .event (.closed 4 true)] ∧
    ∃ s, run scripted 9 (Sctp.new { world with opens := [.resetPending, .resetPending, .resetPending] }) [.init true false 0, .openStream 4 (plain none), .poll] = some s ∧
      s.entries.map (fun e => (e.id, e.state, e.deadline)) = [(4, .awaitOpen, some (10 * 10^9))] := by
  refine ⟨by decide +kernel, _, rfl, by decide +kernel⟩

/-- **Violation** (C98, `Open` is not told). The application negotiates stream 5 by itself; the peer's data comes before `open_stream`. `open_stream` then
opens the stream at once, and `Open` is never told: mod.rs 552 sets the state without the event. -/
theorem C98_violation_adopted : ∃ s s', run scripted 9 (Sctp.new { world with events := [.connected, .readable 5], streams := [5], reads := [] })
      [.init true false 0, .poll, .openStream 5 (plain (some 5)), .poll] = some s ∧ isOpen s 5 = true ∧
    (∀ label, Note.event (.opened 5 label) ∉ s.log) ∧ poll scripted 9 s = some (.nothing, s') := by
  refine ⟨_, _, rfl, by decide +kernel, ?_, rfl⟩
  intro label h
  have : (Note.event (.opened 5 label)) ∈ [Note.openCall 5 (plain (some 5)), .adopted 5] := h
  simp at this

/-- **Violation** (C98, before the handshake). With SNAP the association counts as established before anything was exchanged: a negotiated stream is said to be
open, and can be written to, though no datagram has come. The comment at mod.rs 383 names a guard in `do_poll_output` that is not there. -/
theorem C98_violation_snap : (run scripted 9 (Sctp.new { world with events := [] }) [.init true true 0, .openStream 5 (plain (some 5)), .poll]).map
      (fun s => (s.log, isOpen s 5)) = some ([.openCall 5 (plain (some 5)), .event (.opened 5 [104, 105])], true) := by decide +kernel

/-- **Violation** (C98, uninvited). A peer that starts an association is let in though SCTP was never initialised (no `m=application`, mod.rs 670-690); the
initialisation that follows fails, and the side is not what it was told to be. -/
theorem C98_violation_uninvited : (step scripted 9 (Sctp.new { world with events := [.connected, .readable 7], streams := [7], reads := [(7, [3, 0, 0, 0, 0, 0, 0, 0, 0, 0, 0, 0], .dcep)] })
      (.input 0 [])).bind (fun s => (poll scripted 9 s).map (fun r => (r.1, (init scripted r.2 true false 0).1, (init scripted r.2 true false 0).2.client))) =
    some (.event (.opened 7 []), false, false) := by decide +kernel

/-- **Violation** (C99, late). A stream that is gone is marked, `poll` has nothing to tell and there is no timer: `Close` is told only after some other cause
makes the application poll again (mod.rs 993-1001, 1007-1011: `continue`). -/
theorem C99_violation_late : ∃ s s' s'', run scripted 9 (Sctp.new { world with reads := [(4, [2], .dcep)] }) [.init true false 0, .openStream 4 (plain none), .poll, .other (fun w => { w with streams := [] })] = some s ∧
    poll scripted 9 s = some (.nothing, s') ∧ pollTimeout s' none = none ∧ poll scripted 9 s' = some (.event (.closed 4 false), s'') :=
  ⟨_, _, _, rfl, rfl, by decide +kernel, rfl⟩

/-- **Violation** (C103, early). Data on a stream that was not said to be open, and that the application did not open, is told all the same. (Rtc drops it,
lib.rs 1766-1771: it is lost.) -/
theorem C103_violation_early : (run scripted 9 (Sctp.new { world with events := [.connected, .readable 5], streams := [5], reads := [(5, [1], .binary)] })
      [.init true false 0, .poll]).map (·.log) = some [.event (.data 5 true [1])] := by decide +kernel

/-- The counting sctp-proto in the story. -/
theorem C103_example : ∃ s, run (recording scripted) 9 (Sctp.new (world, [])) [.init true false 0, .openStream 4 (plain none), .poll, .poll] = some s ∧
    told s.log = [(4, true, [9, 9])] ∧ s.world.2 = [(4, [2], .dcep), (4, [9, 9], .binary)] :=
  ⟨_, rfl, by decide +kernel, by decide +kernel⟩

end Str0m.SctpStreams
