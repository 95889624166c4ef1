import Verif.Spec.Bwe
import Verif.Proofs.Bwe
import Mathlib.Data.List.Induction
import Mathlib.Tactic.Linarith

/-! C104 to C108: when and how hard the sender probes. -/

namespace Str0m.BwEst
open Str0m.Pacer (Bitrate SEC MS mulDur divDur satSub alreadyHappened notHappening)

theorem desiredAt_snoc (es : List Event) (e : Event) :
    desiredAt (es ++ [e]) = match e with | .desired v => v | _ => desiredAt es := by
  cases e <;> simp [desiredAt]

theorem calls_append (es fs : List Event) : calls (es ++ fs) = calls es + calls fs := by simp [calls]

theorem probes_snoc (b : Bwe) (es : List Event) (e : Event) :
    probes b (es ++ [e]) = probes b es ++ ((step (run b es) e).2.cluster?).toList := by
  simp only [probes, outs_append, List.filterMap_append, outs]
  cases h : (step (run b es) e).2.cluster? <;> simp [h]

/-- The controller and the desired bitrate after a wake-up -/
theorem timeout_step (b : Bwe) (now : Nat) (p : Bool) (o : Oracle) :
    (step b (.timeout now p o)).1.control = (((b.told now o).enable p).handleTimeout now).1 ∧
    (step b (.timeout now p o)).2.cluster? = (((b.told now o).enable p).handleTimeout now).2 ∧
    (step b (.timeout now p o)).1.desired = b.desired := by
  have hc := prepared_control b p now o
  have hd : (b.prepared p now o).desired = b.desired := by
    unfold Bwe.prepared
    simp only
    have hp : ∀ (x : Bwe), (x.propagate o).desired = x.desired := by
      intro x
      unfold Bwe.propagate
      split
      · rfl
      · split <;> rfl
    split <;> simp [hp]
  unfold step
  simp only [Bwe.handleTimeout, sendSideTimeout_eq, hc]
  generalize (((b.told now o).enable p).handleTimeout now) = r
  obtain ⟨r1, r2⟩ := r
  cases r2 with
  | none => simp only; split <;> simp [hd, Out.cluster?]
  | some x =>
    simp only
    have hs : ∀ (e : Estimator), (e.start x now) = ((e.start x now).1, (e.start x now).2) := fun _ => rfl
    split
    · rename_i e heq
      split <;> simp [hd, Out.cluster?]
    · rename_i e heq
      split <;> simp [hd, Out.cluster?]

/-- Everything else leaves the probes alone, or starts again -/
theorem other_step (b : Bwe) (e : Event) (h : ∀ now p o, e ≠ .timeout now p o) :
    (step b e).2.cluster? = none ∧ ((∃ i, e = .reset i ∧ (step b e).1.control = {}) ∨ ((∀ i, e ≠ .reset i) ∧ Kept b.control (step b e).1.control)) := by
  cases e with
  | timeout now p o => exact absurd rfl (h now p o)
  | report rs now o =>
    refine ⟨rfl, .inr ⟨by simp, ?_⟩⟩
    simp only [step, Bwe.update]
    split
    · exact .refl _
    · split
      · exact .refl _
      · exact propagate_kept ({ b with
          delay := b.delay.update o (Option.map Prod.snd (b.estimator.update rs).2.getLast?) now
          estimator := (b.estimator.update rs).1
          startedAt := some (b.startedAt.getD now)
          link := List.foldl (fun l x => if x.1.kind.isAlr = true then l.update x.2 now else l) b.link (b.estimator.update rs).2 }) o
  | completed now id => exact ⟨rfl, .inr ⟨by simp, .refl _⟩⟩
  | desired v => exact ⟨rfl, .inr ⟨by simp, .refl _⟩⟩
  | reset i => exact ⟨rfl, .inl ⟨i, rfl, rfl⟩⟩
  | poll =>
    simp only [step]
    split <;> exact ⟨rfl, .inr ⟨by simp, .refl _⟩⟩

/-! ### The wake-up seen from the controller -/

/-- At most one probe is left over, and only while probing is going on -/
structure Core (c : Control) : Prop where
  short : c.pending.length ≤ 1
  live : c.pending ≠ [] → c.enabled = true ∧ c.desired ≠ none ∧ c.lastEstimate ≠ none ∧ c.lastProbe ≠ none

theorem Core.kept {c c' : Control} (h : Core c) (k : Kept c c') : Core c' :=
  ⟨by rw [k.pending]; exact h.short, fun hp => by
    obtain ⟨h1, h2, h3, h4⟩ := h.live (by rwa [k.pending] at hp)
    exact ⟨by rw [k.enabled]; exact h1, k.desired h2, k.lastEstimate h3, by rw [k.lastProbe]; exact h4⟩⟩

/-- Nothing came out -/
structure Silent (b : Bwe) (now : Nat) (p : Bool) (c' : Control) : Prop where
  pending : c'.pending = []
  nextId : c'.nextId = b.control.nextId
  lastProbe : c'.lastProbe = b.control.lastProbe ∨ p = false ∧ c'.lastProbe = none
  lastStagnant : c'.lastStagnant = b.control.lastStagnant ∨ c'.lastStagnant = some now ∨ p = false

/-- What was left over came out -/
structure Leftover (b : Bwe) (now : Nat) (o : Oracle) (x : Cluster) (c' : Control) : Prop where
  was : b.control.pending = [x]
  pending : c'.pending = []
  nextId : c'.nextId = b.control.nextId
  lastProbe : c'.lastProbe = b.control.lastProbe
  lastStagnant : c'.lastStagnant = b.control.lastStagnant
  prevDesired : c'.prevDesired = b.control.prevDesired
  enabled : b.control.enabled = true
  probed : b.control.lastProbe ≠ none
  lastEstimate : c'.lastEstimate = (b.told now o).lastEstimate

/-- Something new came out -/
structure Fresh (b : Bwe) (now : Nat) (o : Oracle) (k : Kind) (x : Cluster) (xs : List Cluster) (c' : Control) : Prop where
  was : b.control.pending = []
  can : (b.told now o).canProbe = true
  decided : ∃ e, (b.told now o).lastEstimate = some e ∧ Decided ((b.told now o).enable true) now b.desired e k x xs c' ∧
    Considered ((b.told now o).enable true) b.desired e c'
  core : Core c'

theorem wake (b : Bwe) (now : Nat) (p : Bool) (o : Oracle) (h : Core b.control) :
    ((step b (.timeout now p o)).2.cluster? = none ∧ Silent b now p (step b (.timeout now p o)).1.control) ∨
    (p = true ∧ ∃ x, (step b (.timeout now p o)).2.cluster? = some x ∧
      (Leftover b now o x (step b (.timeout now p o)).1.control ∨
        ∃ k xs, Fresh b now o k x xs (step b (.timeout now p o)).1.control)) := by
  obtain ⟨hc, ho, _⟩ := timeout_step b now p o
  rw [hc, ho]
  have kt := told_kept' b now o
  have ht := h.kept kt
  generalize hT : b.told now o = T at *
  have hdes := told_desired b now o
  rw [hT] at hdes
  rcases enable_cases T p with ⟨rfl, ke, e1, e2, e3, e4, e5, e6⟩ | ⟨rfl, hen, e1⟩ | ⟨rfl, hen, e1, e2, e3, e4, e5, e6, e7, e8⟩
  · -- enabled
    rcases control_cases (T.enable true) now with ⟨n, g, hn, why⟩ | ⟨g1, d, e, hd, he, g⟩
    · rw [g]
      refine .inl ⟨rfl, ?_, ?_, .inl ?_, .inl ?_⟩
      · by_contra hp
        have hp' : T.pending ≠ [] := by rw [← ke.pending]; exact hp
        obtain ⟨l1, l2, l3, l4⟩ := ht.live hp'
        have hnx : (T.enable true).next = alreadyHappened := by
          rcases hdes with ⟨_, hx⟩ | ⟨hx, _⟩
          · exact e6 hx
          · exact absurd hx l2
        rcases why with w | w | w | w | ⟨w, _⟩
        · rw [hnx] at w; exact absurd w (by simp [alreadyHappened])
        · rw [ke.enabled] at w; exact absurd w (by simp)
        · rw [e1] at w; exact l2 w
        · rw [e2] at w; exact l3 w
        · exact hp w
      · exact ke.nextId.trans kt.nextId
      · exact ke.lastProbe.trans kt.lastProbe
      · exact ke.lastStagnant.trans kt.lastStagnant
    · refine Or.imp (fun g => g) (fun g => ⟨rfl, g⟩) ?_
      have hTd : T.desired = some b.desired := by
        rcases hdes with ⟨hx, _⟩ | ⟨hx, _⟩
        · exact hx
        · rw [e1, hx] at hd; exact absurd hd (by simp)
      have hdd : d = b.desired := by rw [e1, hTd] at hd; exact (Option.some.inj hd).symm
      subst hdd
      rcases g with ⟨x, xs, hp, g⟩ | ⟨hp, hcan, c', out, g, hcons, g'⟩
      · rw [g]
        have hpT : T.pending = x :: xs := by rw [← hp]; exact ke.pending.symm
        have hxs : xs = [] := by
          have := ht.short
          rw [hpT] at this
          simpa using this
        subst hxs
        obtain ⟨l1, l2, l3, l4⟩ := ht.live (by rw [hpT]; simp)
        exact .inr ⟨x, rfl, .inl ⟨kt.pending ▸ hpT, rfl, ke.nextId.trans kt.nextId, ke.lastProbe.trans kt.lastProbe,
          ke.lastStagnant.trans kt.lastStagnant, ke.prevDesired.trans kt.prevDesired, kt.enabled ▸ l1, kt.lastProbe ▸ l4, by rw [hT]; exact e2⟩⟩
      · rw [g]
        have hpT : T.pending = [] := by rw [← hp]; exact ke.pending.symm
        have hpb : b.control.pending = [] := kt.pending ▸ hpT
        rcases g' with ⟨rfl, gi⟩ | ⟨k, x, xs, rfl, gd⟩
        · exact .inl ⟨rfl, gi.pending, gi.nextId.trans (ke.nextId.trans kt.nextId), .inl (gi.lastProbe.trans (ke.lastProbe.trans kt.lastProbe)), by
            rcases gi.lastStagnant with h | h
            · exact .inl (h.trans (ke.lastStagnant.trans kt.lastStagnant))
            · exact .inr (.inl h)⟩
        · refine .inr ⟨x, rfl, .inr ⟨k, xs, hpb, ?_, ⟨e, ?_, ?_, ?_⟩, ?_⟩⟩
          · rw [hT]
            simpa [Control.canProbe, e3] using hcan
          · rw [hT, ← e2]; exact he
          · rw [hT]; exact gd
          · rw [hT]; exact hcons
          · refine ⟨by rw [gd.pending]; exact gd.short, fun _ => ⟨hcons.enabled.trans g1, ?_, ?_, ?_⟩⟩
            · rw [hcons.desired, hd]; simp
            · rw [hcons.lastEstimate, he]; simp
            · obtain ⟨f, hf⟩ := gd.lastProbe
              rw [hf]; simp
  · -- not enabled before or after
    rw [e1]
    have hpT : T.pending = [] := by
      by_contra hp
      rw [(ht.live hp).1] at hen
      exact absurd hen (by simp)
    rcases control_cases T now with ⟨n, g, hn, why⟩ | ⟨g1, _⟩
    · rw [g]
      exact .inl ⟨rfl, hpT, kt.nextId, .inl kt.lastProbe, .inl kt.lastStagnant⟩
    · rw [hen] at g1; exact absurd g1 (by simp)
  · rcases control_cases (T.enable false) now with ⟨n, g, hn, why⟩ | ⟨g1, _⟩
    · rw [g]
      exact .inl ⟨rfl, e2, e6.trans kt.nextId, .inr ⟨rfl, e5⟩, .inr (.inr rfl)⟩
    · rw [e1] at g1; exact absurd g1 (by simp)

theorem core_step (b : Bwe) (e : Event) (h : Core b.control) : Core (step b e).1.control := by
  by_cases ht : ∃ now p o, e = .timeout now p o
  · obtain ⟨now, p, o, rfl⟩ := ht
    rcases wake b now p o h with ⟨_, s⟩ | ⟨_, x, _, l | ⟨k, xs, f⟩⟩
    · exact ⟨by rw [s.pending]; simp, fun hp => absurd s.pending hp⟩
    · exact ⟨by rw [l.pending]; simp, fun hp => absurd l.pending hp⟩
    · exact f.core
  · rcases (other_step b e (fun now p o hh => ht ⟨now, p, o, hh⟩)).2 with ⟨i, _, hc⟩ | ⟨_, k⟩
    · rw [hc]; exact ⟨by simp, fun hp => absurd rfl hp⟩
    · exact h.kept k

theorem core_run (i : Bitrate) (es : List Event) : Core (run (Bwe.new i) es).control := by
  induction es using List.reverseRecOn with
  | nil => exact ⟨by simp [run, Bwe.new], fun hp => absurd rfl hp⟩
  | append_singleton es e ih => rw [run_snoc]; exact core_step _ _ ih

/-! ### C104 -/

theorem desired_run (i : Bitrate) (es : List Event) : (run (Bwe.new i) es).desired = desiredAt es := by
  induction es using List.reverseRecOn with
  | nil => rfl
  | append_singleton es e ih =>
    rw [run_snoc, desiredAt_snoc, ← ih]
    cases e with
    | timeout now p o => exact (timeout_step _ now p o).2.2
    | report rs now o =>
      simp only [step, Bwe.update]
      split
      · rfl
      · split
        · rfl
        · unfold Bwe.propagate
          split
          · rfl
          · split <;> rfl
    | completed now id => rfl
    | desired v => rfl
    | reset i => rfl
    | poll =>
      simp only [step]
      split <;> rfl

/-- A probe is worth sending, and was decided at the last wake-up or the one before -/
def Sized (es : List Event) (x : Cluster) : Prop :=
  5000 ≤ x.target ∧ x.duration = 15 * MS ∧ x.minPackets = 5 ∧ x.minDelta = 2 * MS ∧
    ∃ pre post, es = pre ++ post ∧ calls post ≤ 1 ∧ x.target ≤ 2 * desiredAt pre

theorem pending_sized (i : Bitrate) (es : List Event) : ∀ x ∈ (run (Bwe.new i) es).control.pending, Sized es x := by
  induction es using List.reverseRecOn with
  | nil => intro x hx; simp [run, Bwe.new] at hx
  | append_singleton es e ih =>
    rw [run_snoc]
    by_cases ht : ∃ now p o, e = .timeout now p o
    · obtain ⟨now, p, o, rfl⟩ := ht
      rcases wake (run (Bwe.new i) es) now p o (core_run i es) with ⟨_, s⟩ | ⟨_, x, _, l | ⟨k, xs, f⟩⟩
      · rw [s.pending]; simp
      · rw [l.pending]; simp
      · obtain ⟨e, he, d, _⟩ := f.decided
        intro y hy
        rw [d.pending] at hy
        have fit := d.fit y (List.mem_cons_of_mem _ hy)
        refine ⟨fit.low, fit.duration, fit.packets, fit.delta, es, [.timeout now p o], rfl, by simp [calls], ?_⟩
        have := fit.high
        rw [desired_run] at this
        linarith
    · intro x hx
      rcases (other_step (run (Bwe.new i) es) e (fun now p o hh => ht ⟨now, p, o, hh⟩)).2 with ⟨i, _, hc⟩ | ⟨_, k⟩
      · rw [hc] at hx; simp at hx
      · rw [k.pending] at hx
        obtain ⟨h1, h2, h3, h4, pre, post, h5, h6, h7⟩ := ih x hx
        refine ⟨h1, h2, h3, h4, pre, post ++ [e], by rw [h5, List.append_assoc], ?_, h7⟩
        have : calls [e] = 0 := by
          cases e with
          | timeout now p o => exact absurd ⟨now, p, o, rfl⟩ ht
          | _ => rfl
        rw [calls_append, this]; exact h6

/-- C104: a probe only ever comes out of a wake-up at which the session may probe. It lasts 15 ms and five packets at least, runs at
5 kbit/s or more, and at no more than twice the bitrate the application desired when it was decided, which was at this wake-up or
the one before. -/
theorem C104_size (i : Bitrate) (es : List Event) (now : Nat) (p : Bool) (o : Oracle) (x : Cluster)
    (h : (step (run (Bwe.new i) es) (.timeout now p o)).2 = .probe x) :
    p = true ∧ 5000 ≤ x.target ∧ x.duration = 15 * MS ∧ x.minPackets = 5 ∧ x.minDelta = 2 * MS ∧
      ∃ pre post, es = pre ++ post ∧ calls post ≤ 1 ∧ x.target ≤ 2 * desiredAt pre := by
  have hx : (step (run (Bwe.new i) es) (.timeout now p o)).2.cluster? = some x := by rw [h]; rfl
  rcases wake (run (Bwe.new i) es) now p o (core_run i es) with ⟨hn, _⟩ | ⟨hp, y, hy, l | ⟨k, xs, f⟩⟩
  · rw [hx] at hn; exact absurd hn (by simp)
  · rw [hx] at hy
    obtain rfl := Option.some.inj hy
    exact ⟨hp, pending_sized i es x (by rw [l.was]; simp)⟩
  · rw [hx] at hy
    obtain rfl := Option.some.inj hy
    obtain ⟨e, he, d, _⟩ := f.decided
    have fit := d.fit x List.mem_cons_self
    refine ⟨hp, fit.low, fit.duration, fit.packets, fit.delta, es, [], by simp, by simp [calls], ?_⟩
    have := fit.high
    rw [desired_run] at this
    linarith

/-- C104: with no more than zero desired, nothing is probed from the second wake-up on -/
theorem C104_nothing_desired (i : Bitrate) (es : List Event) (now : Nat) (p : Bool) (o : Oracle) (x : Cluster)
    (hz : ∀ pre post, es = pre ++ post → calls post ≤ 1 → desiredAt pre ≤ 0) :
    (step (run (Bwe.new i) es) (.timeout now p o)).2 ≠ .probe x := by
  intro h
  obtain ⟨_, h1, _, _, _, pre, post, h2, h3, h4⟩ := C104_size i es now p o x h
  have := hz pre post h2 h3
  linarith

/-- an oracle for the examples: no overuse, no loss, nothing acknowledged -/
def calm : Oracle := ⟨.normal, none, none, 0, none, none, none⟩

/-- C104: the second of two probes is handed out as it was decided, though the application has since asked for much less -/
theorem C104_violation_lowered :
    ∃ x, (step (run (Bwe.new 300000) [.desired 2000000, .timeout (1000 * MS) true calm, .desired 50000])
      (.timeout (1001 * MS) true calm)).2 = .probe x ∧ x.target > 2 * 50000 := by
  refine ⟨⟨1, 1800000, 15 * MS, 5, 2 * MS, .initial⟩, by decide +kernel, by decide +kernel⟩

end Str0m.BwEst
