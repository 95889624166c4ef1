import Mathlib.Data.List.Induction
import Verif.Spec.Snap

/-!
C131: SCTP is started without the handshake on both sides or on none.
-/

namespace Str0m.Snap
variable {Chunk : Type}

/-- What is kept of both sides between exchanges -/
inductive Inv (c : Code Chunk) : Side Chunk → Side Chunk → Prop where
  | idle (ea eb : Bool) (ma mb : Option Chunk) (ha : ∀ x, ma = some x → ea = true ∧ c.takes x = true)
      (hb : ∀ x, mb = some x → eb = true ∧ c.takes x = true) : Inv c ⟨ea, false, none, ma, none⟩ ⟨eb, false, none, mb, none⟩
  | handshake (ea eb : Bool) (ma mb : Option Chunk) :
      Inv c ⟨ea, true, some .handshake, ma, none⟩ ⟨eb, true, some .handshake, mb, none⟩
  | snap (ea eb : Bool) (x y : Chunk) :
      Inv c ⟨ea, true, some (.snap x y), some x, some y⟩ ⟨eb, true, some (.snap y x), some y, some x⟩

theorem Inv.symm {c : Code Chunk} {a b : Side Chunk} (h : Inv c a b) : Inv c b a := by
  cases h with
  | idle ea eb ma mb ha hb => exact .idle eb ea mb ma hb ha
  | handshake ea eb ma mb => exact .handshake eb ea mb ma
  | snap ea eb x y => exact .snap eb ea y x

theorem Inv.together {c : Code Chunk} {a b : Side Chunk} (h : Inv c a b) : Together a.mode b.mode := by
  cases h with
  | idle => exact .none
  | handshake => exact .handshake
  | snap ea eb x y => exact .snap x y

/-- An offer that is not sent -/
theorem inv_offer {c : Code Chunk} {a b : Side Chunk} (h : Inv c a b) (add : Bool) {made : Option Chunk}
    (hm : ∀ x, made = some x → c.takes x = true) : Inv c (createOffer c a add made).1 b := by
  cases h with
  | handshake ea eb ma mb => simpa [createOffer] using Inv.handshake ea eb ma mb
  | snap ea eb x y => simpa [createOffer] using Inv.snap ea eb x y
  | idle ea eb ma mb ha hb =>
    cases ea <;> cases add
    · simpa [createOffer] using Inv.idle false eb ma mb ha hb
    · simpa [createOffer] using Inv.idle false eb ma mb ha hb
    · simpa [createOffer] using Inv.idle true eb ma mb ha hb
    · cases ma with
      | some x => simpa [createOffer, Side.ensure] using Inv.idle true eb (some x) mb ha hb
      | none =>
        cases made with
        | none => simpa [createOffer, Side.ensure] using Inv.idle true eb none mb ha hb
        | some x =>
          simpa [createOffer, Side.ensure] using
            Inv.idle true eb (some x) mb (fun z hz => ⟨rfl, hm z hz⟩) hb

/-- What an exchange makes of the sides -/
theorem exchange_spec {c : Code Chunk} (hc : c.Fair) {a b : Side Chunk} (h : Inv c a b) (add : Bool) {made made' : Option Chunk}
    (hm : ∀ x, made = some x → c.takes x = true) (hm' : ∀ x, made' = some x → c.takes x = true) :
    Inv c (exchange c a b add made made').1 (exchange c a b add made made').2.1 ∧ (exchange c a b add made made').2.2 = true := by
  cases h with
  | handshake ea eb ma mb =>
    have : exchange c ⟨ea, true, some .handshake, ma, none⟩ ⟨eb, true, some .handshake, mb, none⟩ add made made' =
        (⟨ea, true, some .handshake, ma, none⟩, ⟨eb, true, some .handshake, mb, none⟩, true) := by
      simp [exchange, createOffer, acceptOffer, acceptAnswer, Side.process, Side.attribute, Side.startApp, Side.start]
    rw [this]
    exact ⟨.handshake ea eb ma mb, rfl⟩
  | snap ea eb x y =>
    have : exchange c ⟨ea, true, some (.snap x y), some x, some y⟩ ⟨eb, true, some (.snap y x), some y, some x⟩ add made made' =
        (⟨ea, true, some (.snap x y), some x, some y⟩, ⟨eb, true, some (.snap y x), some y, some x⟩, true) := by
      simp [exchange, createOffer, acceptOffer, acceptAnswer, Side.process, Side.attribute, Side.startApp, Side.start]
    rw [this]
    exact ⟨.snap ea eb x y, rfl⟩
  | idle ea eb ma mb ha hb =>
    cases add with
    | false =>
      have : exchange c ⟨ea, false, none, ma, none⟩ ⟨eb, false, none, mb, none⟩ false made made' =
          (⟨ea, false, none, none, none⟩, ⟨eb, false, none, mb, none⟩, true) := by
        cases ma <;>
          simp [exchange, createOffer, acceptOffer, acceptAnswer, Side.process, Side.attribute, Side.startApp, Side.drop]
      rw [this]
      exact ⟨.idle ea eb none mb (fun x hx => by cases hx) hb, rfl⟩
    | true =>
      -- the offer: with a chunk, or without
      have hoff : (∃ x, c.takes x = true ∧ createOffer c ⟨ea, false, none, ma, none⟩ true made =
            (⟨ea, false, none, some x, none⟩, ⟨true, some (c.encode x)⟩)) ∨
          createOffer c ⟨ea, false, none, ma, none⟩ true made = (⟨ea, false, none, none, none⟩, ⟨true, none⟩) := by
        cases ma with
        | some x => left; exact ⟨x, (ha x rfl).2, by cases ea <;> simp [createOffer, Side.ensure, Side.attribute]⟩
        | none =>
          cases ea with
          | false => right; simp [createOffer, Side.attribute]
          | true =>
            cases made with
            | none => right; simp [createOffer, Side.ensure, Side.attribute]
            | some x => left; exact ⟨x, hm x rfl, by simp [createOffer, Side.ensure, Side.attribute]⟩
      rcases hoff with ⟨x, hx, ho⟩ | ho
      · -- the answerer makes a chunk, or not
        cases mb with
        | some y =>
          have hy := (hb y rfl).2
          have : exchange c ⟨ea, false, none, ma, none⟩ ⟨eb, false, none, some y, none⟩ true made made' =
              (⟨ea, true, some (.snap x y), some x, some y⟩, ⟨eb, true, some (.snap y x), some y, some x⟩, true) := by
            simp [exchange, ho, acceptOffer, acceptAnswer, Side.process, Side.attribute, Side.startApp, Side.start, Side.ensure, hc.back, hx, hy]
          rw [this]
          exact ⟨.snap ea eb x y, rfl⟩
        | none =>
          cases made' with
          | some y =>
            have hy := hm' y rfl
            have : exchange c ⟨ea, false, none, ma, none⟩ ⟨eb, false, none, none, none⟩ true made (some y) =
                (⟨ea, true, some (.snap x y), some x, some y⟩, ⟨eb, true, some (.snap y x), some y, some x⟩, true) := by
              simp [exchange, ho, acceptOffer, acceptAnswer, Side.process, Side.attribute, Side.startApp, Side.start, Side.ensure, hc.back, hx, hy]
            rw [this]
            exact ⟨.snap ea eb x y, rfl⟩
          | none =>
            have : exchange c ⟨ea, false, none, ma, none⟩ ⟨eb, false, none, none, none⟩ true made none =
                (⟨ea, true, some .handshake, none, none⟩, ⟨eb, true, some .handshake, none, none⟩, true) := by
              simp [exchange, ho, acceptOffer, acceptAnswer, Side.process, Side.attribute, Side.startApp, Side.start, Side.ensure, Side.drop, hc.back]
            rw [this]
            exact ⟨.handshake ea eb none none, rfl⟩
      · have : exchange c ⟨ea, false, none, ma, none⟩ ⟨eb, false, none, mb, none⟩ true made made' =
            (⟨ea, true, some .handshake, none, none⟩, ⟨eb, true, some .handshake, mb, none⟩, true) := by
          cases mb <;>
            simp [exchange, ho, acceptOffer, acceptAnswer, Side.process, Side.attribute, Side.startApp, Side.start]
        rw [this]
        exact ⟨.handshake ea eb none mb, rfl⟩

/-- Kept by each step, which also accepts -/
theorem inv_run {c : Code Chunk} (hc : c.Fair) (ea eb : Bool) (ops : List (Op Chunk)) (hh : ∀ op ∈ ops, Honest c op) :
    Inv c (run c ea eb ops).1 (run c ea eb ops).2.1 ∧ (run c ea eb ops).2.2 = true := by
  induction ops using List.reverseRecOn with
  | nil => exact ⟨.idle ea eb none none (fun x hx => by cases hx) (fun x hx => by cases hx), rfl⟩
  | append_singleton ops op ih =>
    obtain ⟨h1, h2⟩ := ih (fun o ho => hh o (by simp [ho]))
    have hop := hh op (by simp)
    have hrun : run c ea eb (ops ++ [op]) = step c (run c ea eb ops) op := by simp [run, List.foldl_append]
    rw [hrun]
    cases op with
    | exchange first add m m' =>
      cases first with
      | true => exact exchange_spec hc h1 add hop.1 hop.2
      | false =>
        obtain ⟨g1, g2⟩ := exchange_spec hc h1.symm add hop.1 hop.2
        exact ⟨g1.symm, g2⟩
    | unsent first add m =>
      cases first with
      | true => exact ⟨inv_offer h1 add hop, h2⟩
      | false => exact ⟨(inv_offer h1.symm add hop).symm, h2⟩

/-- **C131** (both or none): after any exchanges of offers and answers, in either direction, with offers that are not sent in between, SCTP
was started on both sides the same way: with the handshake, or without it and each side with the chunk of the other, or not yet -/
theorem C131_both {c : Code Chunk} (hc : c.Fair) (ea eb : Bool) (ops : List (Op Chunk)) (hh : ∀ op ∈ ops, Honest c op) :
    Together (run c ea eb ops).1.mode (run c ea eb ops).2.1.mode := (inv_run hc ea eb ops hh).1.together

/-- **C131** (nothing is refused for it): both sides accept each description of the other, as to this attribute -/
theorem C131_accepted {c : Code Chunk} (hc : c.Fair) (ea eb : Bool) (ops : List (Op Chunk)) (hh : ∀ op ∈ ops, Honest c op) :
    (run c ea eb ops).2.2 = true := (inv_run hc ea eb ops hh).2

/-! ### When the handshake is left out -/

/-- The library makes a chunk each time -/
def Makes (op : Op Chunk) : Prop := match op with
  | .exchange _ _ m m' => m.isSome ∧ m'.isSome
  | .unsent _ _ m => m.isSome

/-- How it stands with an opening -/
def Opened (ea eb : Bool) (o : Option (Bool × Option Chunk × Option Chunk)) (a b : Side Chunk) : Prop :=
  a.enabled = ea ∧ b.enabled = eb ∧
  match o with
  | none => a.mode = none ∧ b.mode = none
  | some (first, _, _) => (a.mode.isSome ∧ b.mode.isSome) ∧
      ((∃ x y, a.mode = some (.snap x y)) ↔ (if first then ea else eb) = true)

theorem opening_snoc (ops : List (Op Chunk)) (op : Op Chunk) :
    opening (ops ++ [op]) = (opening ops).or (opening [op]) := by
  induction ops with
  | nil => simp [opening]
  | cons o ops ih =>
    cases o with
    | exchange f add m m' => cases add <;> simp [opening, ih]
    | unsent f add m => simpa [opening] using ih

theorem ensure_enabled (s : Side Chunk) (m : Option Chunk) : (s.ensure m).enabled = s.enabled ∧ (s.ensure m).mode = s.mode := by
  unfold Side.ensure
  split
  · exact ⟨rfl, rfl⟩
  · split <;> exact ⟨rfl, rfl⟩

theorem createOffer_keeps (c : Code Chunk) (s : Side Chunk) (add : Bool) (m : Option Chunk) :
    (createOffer c s add m).1.enabled = s.enabled ∧ (createOffer c s add m).1.mode = s.mode := by
  unfold createOffer
  dsimp only
  split
  · exact ensure_enabled s m
  · exact ⟨rfl, rfl⟩

/-- One exchange: which mode, and what stays -/
theorem exchange_mode {c : Code Chunk} (hc : c.Fair) {a b : Side Chunk} (h : Inv c a b) (add : Bool) {x' y' : Chunk}
    (hx' : c.takes x' = true) (hy' : c.takes y' = true) :
    (exchange c a b add (some x') (some y')).1.enabled = a.enabled ∧ (exchange c a b add (some x') (some y')).2.1.enabled = b.enabled ∧
    (a.mode.isSome → (exchange c a b add (some x') (some y')).1.mode = a.mode ∧ (exchange c a b add (some x') (some y')).2.1.mode = b.mode) ∧
    (a.mode = none → add = false →
      (exchange c a b add (some x') (some y')).1.mode = none ∧ (exchange c a b add (some x') (some y')).2.1.mode = none) ∧
    (a.mode = none → add = true → ((exchange c a b add (some x') (some y')).1.mode.isSome ∧ (exchange c a b add (some x') (some y')).2.1.mode.isSome) ∧
      ((∃ x y, (exchange c a b add (some x') (some y')).1.mode = some (.snap x y)) ↔ a.enabled = true)) := by
  cases h with
  | handshake ea eb ma mb =>
    simp [exchange, createOffer, acceptOffer, acceptAnswer, Side.process, Side.attribute, Side.startApp, Side.start]
  | snap ea eb x y =>
    simp [exchange, createOffer, acceptOffer, acceptAnswer, Side.process, Side.attribute, Side.startApp, Side.start]
  | idle ea eb ma mb ha hb =>
    cases add with
    | false =>
      cases ma <;>
        simp [exchange, createOffer, acceptOffer, acceptAnswer, Side.process, Side.attribute, Side.startApp, Side.drop]
    | true =>
      cases ea with
      | false =>
        have hma : ma = none := by
          cases ma with
          | none => rfl
          | some x => exact absurd (ha x rfl).1 (by decide)
        subst hma
        cases mb <;>
          simp [exchange, createOffer, acceptOffer, acceptAnswer, Side.process, Side.attribute, Side.startApp, Side.start]
      | true =>
        cases ma with
        | none =>
          cases mb with
          | none =>
            simp [exchange, createOffer, acceptOffer, acceptAnswer, Side.process, Side.attribute, Side.startApp, Side.start, Side.ensure, hc.back, hx', hy']
          | some y =>
            have := (hb y rfl).2
            simp [exchange, createOffer, acceptOffer, acceptAnswer, Side.process, Side.attribute, Side.startApp, Side.start, Side.ensure, hc.back, hx', this]
        | some x =>
          have hx := (ha x rfl).2
          cases mb with
          | none =>
            simp [exchange, createOffer, acceptOffer, acceptAnswer, Side.process, Side.attribute, Side.startApp, Side.start, Side.ensure, hc.back, hx, hy']
          | some y =>
            have := (hb y rfl).2
            simp [exchange, createOffer, acceptOffer, acceptAnswer, Side.process, Side.attribute, Side.startApp, Side.start, Side.ensure, hc.back, hx, this]

theorem snap_swap {m n : Option (Mode Chunk)} (h : Together m n) : (∃ x y, m = some (.snap x y)) ↔ (∃ x y, n = some (.snap x y)) := by
  cases h with
  | none => simp
  | handshake => simp
  | snap x y => exact ⟨fun _ => ⟨y, x, rfl⟩, fun _ => ⟨x, y, rfl⟩⟩

/-- **C131** (when): the handshake is left out exactly when the side that made the first offer with an application line enabled this, if the
library makes chunks; before that SCTP is not started -/
theorem C131_when {c : Code Chunk} (hc : c.Fair) (ea eb : Bool) (ops : List (Op Chunk)) (hh : ∀ op ∈ ops, Honest c op)
    (hk : ∀ op ∈ ops, Makes op) : Opened ea eb (opening ops) (run c ea eb ops).1 (run c ea eb ops).2.1 := by
  induction ops using List.reverseRecOn with
  | nil => exact ⟨rfl, rfl, rfl, rfl⟩
  | append_singleton ops op ih =>
    have hi := ih (fun o ho => hh o (by simp [ho])) (fun o ho => hk o (by simp [ho]))
    have hv := (inv_run hc ea eb ops (fun o ho => hh o (by simp [ho]))).1
    have hop := hh op (by simp)
    have hkp := hk op (by simp)
    have hrun : run c ea eb (ops ++ [op]) = step c (run c ea eb ops) op := by simp [run, List.foldl_append]
    rw [hrun, opening_snoc]
    obtain ⟨h1, h2, h3⟩ := hi
    generalize run c ea eb ops = p at *
    cases op with
    | unsent first add m =>
      have ho : (opening ops).or (opening [Op.unsent first add m]) = opening ops := by simp [opening]
      rw [ho]
      cases first with
      | true =>
        have hk2 := createOffer_keeps c p.1 add m
        refine ⟨hk2.1.trans h1, h2, ?_⟩
        simp only [step, hk2.2]
        exact h3
      | false =>
        have hk2 := createOffer_keeps c p.2.1 add m
        refine ⟨h1, hk2.1.trans h2, ?_⟩
        simp only [step, hk2.2]
        exact h3
    | exchange first add m m' =>
      obtain ⟨hm, hm'⟩ := hkp
      obtain ⟨x', rfl⟩ := Option.isSome_iff_exists.mp hm
      obtain ⟨y', rfl⟩ := Option.isSome_iff_exists.mp hm'
      have hx' := hop.1 x' rfl
      have hy' := hop.2 y' rfl
      cases first with
      | true =>
        obtain ⟨e1, e2, e3, e4, e5⟩ := exchange_mode hc hv add hx' hy'
        refine ⟨e1.trans h1, e2.trans h2, ?_⟩
        cases ho : opening ops with
        | some o =>
          rw [ho] at h3
          obtain ⟨h4, h5⟩ := h3
          have e6 := e3 h4.1
          simp only [Option.some_or, step]
          rw [e6.1, e6.2]
          exact ⟨h4, h5⟩
        | none =>
          rw [ho] at h3
          cases add with
          | false =>
            simp only [opening, Option.none_or, step]
            exact e4 h3.1 rfl
          | true =>
            obtain ⟨e7, e8⟩ := e5 h3.1 rfl
            simp only [opening, Option.none_or, step]
            refine ⟨e7, ?_⟩
            rw [← h1]
            simpa using e8
      | false =>
        obtain ⟨e1, e2, e3, e4, e5⟩ := exchange_mode hc hv.symm add hx' hy'
        refine ⟨e2.trans h1, e1.trans h2, ?_⟩
        cases ho : opening ops with
        | some o =>
          rw [ho] at h3
          obtain ⟨h4, h5⟩ := h3
          have e6 := e3 h4.2
          simp only [Option.some_or, step]
          rw [e6.1, e6.2]
          exact ⟨h4, h5⟩
        | none =>
          rw [ho] at h3
          cases add with
          | false =>
            simp only [opening, Option.none_or, step]
            exact (e4 h3.2 rfl).symm
          | true =>
            obtain ⟨e7, e8⟩ := e5 h3.2 rfl
            simp only [opening, Option.none_or, step]
            refine ⟨e7.symm, ?_⟩
            have ht := (exchange_spec hc hv.symm true (made := some x') (made' := some y') (fun z hz => by cases hz; exact hx')
              (fun z hz => by cases hz; exact hy')).1.together
            rw [← snap_swap ht, e8, h2]
            simp

/-! ### One side and any other -/

/-- **C131** (another attribute): when SCTP was started without the handshake, a description with another attribute, or with an application
line and none, is refused, and changes nothing of this -/
theorem C131_changed {c : Code Chunk} (s : Side Chunk) {x y : Chunk} (hm : s.mode = some (.snap x y)) (hy : s.yours = some y) (d : Desc)
    (hd : d.init ≠ some (c.encode y)) (bad : Bool) (made : Option Chunk) :
    acceptOffer c s d bad made = (s, none) ∧ acceptAnswer c s d bad = (s, false) := by
  have : s.process c d.init = none := by
    cases hi : d.init with
    | none => simp [Side.process, hm, hy]
    | some str =>
      rw [hi] at hd
      have hne : ¬ c.encode y = str := fun he => hd (by rw [he])
      simp [Side.process, hm, hy, hne]
  simp [acceptOffer, acceptAnswer, this]

/-- No chunk of the peer is kept before the start -/
def Clean (s : Side Chunk) : Prop := s.mode = none → s.yours = none

/-- An attribute is in an application line -/
def Desc.Sound (d : Desc) : Prop := d.init.isSome = true → d.app = true

/-- Reached from a new side by offers, and by descriptions of any peer that were all accepted -/
inductive Reached (c : Code Chunk) (e : Bool) : Side Chunk → Prop where
  | new : Reached c e { enabled := e }
  | offer {s : Side Chunk} (h : Reached c e s) (add : Bool) (made : Option Chunk) : Reached c e (createOffer c s add made).1
  | acceptOffer {s s' : Side Chunk} (h : Reached c e s) (d d' : Desc) (hd : d.Sound) (made : Option Chunk)
      (ha : acceptOffer c s d false made = (s', some d')) : Reached c e s'
  | acceptAnswer {s s' : Side Chunk} (h : Reached c e s) (d : Desc) (hd : d.Sound) (ha : acceptAnswer c s d false = (s', true)) : Reached c e s'

theorem ensure_clean {s : Side Chunk} (h : Clean s) (m : Option Chunk) : Clean (s.ensure m) := by
  intro hm
  rw [(ensure_enabled s m).2] at hm
  have := h hm
  unfold Side.ensure
  split
  · exact this
  · split
    · exact this
    · rfl

/-- What an accepted start leaves -/
theorem startApp_mode {c : Code Chunk} {s s' : Side Chunk} (h : s.startApp c = (s', true)) (ha : s.app = true) : s'.mode ≠ none := by
  unfold Side.startApp at h
  rw [if_pos ha] at h
  unfold Side.start at h
  split at h
  · next hm =>
    injection h with h _
    rw [← h]
    intro hn
    rw [hn] at hm
    cases hm
  · split at h
    · split at h
      · injection h with h _
        rw [← h]
        simp
      · injection h with _ h
        cases h
    · injection h with h _
      rw [← h]
      simp

theorem reached_clean {c : Code Chunk} {e : Bool} {s : Side Chunk} (h : Reached c e s) : Clean s := by
  induction h with
  | new => intro _; rfl
  | offer h add made ih =>
    unfold createOffer
    dsimp only
    split
    · exact ensure_clean ih made
    · exact ih
  | @acceptOffer s s' h d d' hd made ha ih =>
    unfold Snap.acceptOffer at ha
    split at ha
    · cases ha
    · next s1 hasSnap hp =>
      simp only [Bool.false_eq_true, if_false] at ha
      generalize hs2 : (if (hasSnap && s1.mode.isNone) = true then ({ s1 with app := s1.app || d.app } : Side Chunk).ensure made
        else ({ s1 with app := s1.app || d.app } : Side Chunk)) = s2 at ha
      split at ha
      · next hr =>
        injection ha with h1 h2
        intro hm
        have happ : s2.app = (s1.app || d.app) := by
          rw [← hs2]
          split
          · unfold Side.ensure
            split
            · rfl
            · split <;> rfl
          · rfl
        by_cases hap : s2.app = true
        · exact absurd hm (startApp_mode (c := c) (s := s2) (s' := s') (Prod.ext h1 hr) hap)
        · -- no application line: no attribute either
          have hs : s2.startApp c = (s2, true) := by unfold Side.startApp; rw [if_neg hap]
          rw [hs] at h1
          have hd2 : d.app = false := by
            rw [happ] at hap
            cases hda : d.app with
            | false => rfl
            | true => rw [hda] at hap; simp at hap
          have hi : d.init = none := by
            cases hi : d.init with
            | none => rfl
            | some x => have := hd (by rw [hi]; rfl); rw [hd2] at this; cases this
          rw [hi] at hp
          unfold Side.process at hp
          simp only at hp
          split at hp
          · cases hp
          · injection hp with hp
            injection hp with hp1 hp2
            subst hp1
            subst hp2
            simp only [Bool.false_and, Bool.false_eq_true, if_false] at hs2
            have hm2 : s.mode = none := by rw [← h1, ← hs2] at hm; exact hm
            rw [← h1, ← hs2]
            exact ih hm2
      · cases ha
  | @acceptAnswer s s' h d hd ha ih =>
    unfold Snap.acceptAnswer at ha
    dsimp only at ha
    split at ha
    · cases ha
    · next s1 hasSnap hp =>
      simp only [Bool.false_eq_true, if_false] at ha
      intro hm
      generalize hs2 : (if (s.mode.isNone && (s.attribute c).isSome && !hasSnap) = true then ({ s1 with app := s1.app || d.app } : Side Chunk).drop
          else ({ s1 with app := s1.app || d.app } : Side Chunk)) = s2 at *
      have happ : s2.app = (s1.app || d.app) := by
        rw [← hs2]
        split
        · unfold Side.drop
          split <;> rfl
        · rfl
      by_cases hap : s2.app = true
      · exact absurd hm (startApp_mode ha hap)
      · have hs : s2.startApp c = (s2, true) := by unfold Side.startApp; rw [if_neg hap]
        rw [hs] at ha
        injection ha with h1 _
        have hd2 : d.app = false := by
          rw [happ] at hap
          cases hda : d.app with
          | false => rfl
          | true => rw [hda] at hap; simp at hap
        have hi : d.init = none := by
          cases hi : d.init with
          | none => rfl
          | some x => have := hd (by rw [hi]; rfl); rw [hd2] at this; cases this
        rw [hi] at hp
        unfold Side.process at hp
        simp only at hp
        split at hp
        · cases hp
        · injection hp with hp
          injection hp with hp1 hp2
          subst hp1
          rw [← h1, ← hs2] at hm ⊢
          split at hm
          · next hc =>
            rw [if_pos hc]
            unfold Side.drop at hm ⊢
            split
            · rfl
            · next hn =>
              exfalso
              rw [if_neg hn] at hm
              apply hn
              rw [hm]
              rfl
          · next hc =>
            rw [if_neg hc]
            exact ih hm

/-- **C131** (with the peer's own chunk): whatever the peer sends, while none of it was refused: when an offer makes this side start SCTP
without the handshake, it had the attribute, with the chunk that is used, and the answer tells the chunk of this side -/
theorem C131_own_offer {c : Code Chunk} (hc : c.Fair) {e : Bool} {s s' : Side Chunk} (h : Reached c e s) {d d' : Desc} {made : Option Chunk}
    (ha : acceptOffer c s d false made = (s', some d')) (hm : s.mode = none) {l r : Chunk} (hs : s'.mode = some (.snap l r)) :
    d.init = some (c.encode r) ∧ d'.init = some (c.encode l) := by
  have hcl := reached_clean h hm
  obtain ⟨en, app, mode, mine, yours⟩ := s
  simp only at hm hcl
  subst hm hcl
  cases hi : d.init with
  | none =>
    cases mine <;> cases hap : (app || d.app) <;>
      simp [Snap.acceptOffer, Side.process, hi, Side.startApp, Side.start, hap] at ha <;> (obtain ⟨rfl, _⟩ := ha; simp at hs)
  | some str =>
    cases hdec : c.decode str with
    | none =>
      cases hap : (app || d.app) <;>
        simp [Snap.acceptOffer, Side.process, hi, hdec, Side.drop, Side.startApp, Side.start, hap] at ha <;>
        (obtain ⟨rfl, _⟩ := ha; simp at hs)
    | some r' =>
      have hstr := hc.only str r' hdec
      cases mine with
      | some x =>
        cases hap : (app || d.app) <;> cases ht : c.takes r' <;>
          simp [Snap.acceptOffer, Side.process, hi, hdec, Side.ensure, Side.startApp, Side.start, hap, ht, Side.attribute] at ha
        all_goals (obtain ⟨rfl, hd⟩ := ha; simp at hs)
        obtain ⟨rfl, rfl⟩ := hs
        exact ⟨by rw [hstr], by rw [← hd]⟩
      | none =>
        cases made with
        | none =>
          cases hap : (app || d.app) <;>
            simp [Snap.acceptOffer, Side.process, hi, hdec, Side.ensure, Side.startApp, Side.start, hap, Side.attribute] at ha
          all_goals (obtain ⟨rfl, hd⟩ := ha; simp at hs)
        | some x =>
          cases hap : (app || d.app) <;> cases ht : c.takes r' <;>
            simp [Snap.acceptOffer, Side.process, hi, hdec, Side.ensure, Side.startApp, Side.start, hap, ht, Side.attribute] at ha
          all_goals (obtain ⟨rfl, hd⟩ := ha; simp at hs)
          obtain ⟨rfl, rfl⟩ := hs
          exact ⟨by rw [hstr], by rw [← hd]⟩

/-- **C131** (with the peer's own chunk): the same of an answer; the chunk of this side is the one that its offer told -/
theorem C131_own_answer {c : Code Chunk} (hc : c.Fair) {e : Bool} {s s' : Side Chunk} (h : Reached c e s) {d : Desc}
    (ha : acceptAnswer c s d false = (s', true)) (hm : s.mode = none) {l r : Chunk} (hs : s'.mode = some (.snap l r)) :
    d.init = some (c.encode r) ∧ s.attribute c = some (c.encode l) := by
  have hcl := reached_clean h hm
  obtain ⟨en, app, mode, mine, yours⟩ := s
  simp only at hm hcl
  subst hm hcl
  cases hi : d.init with
  | none =>
    cases mine <;> cases hap : (app || d.app) <;>
      simp [Snap.acceptAnswer, Side.process, hi, Side.startApp, Side.start, Side.attribute, Side.drop, hap] at ha <;>
      (subst ha; simp at hs)
  | some str =>
    cases hdec : c.decode str with
    | none =>
      cases mine <;> cases hap : (app || d.app) <;>
        simp [Snap.acceptAnswer, Side.process, hi, hdec, Side.drop, Side.startApp, Side.start, Side.attribute, hap] at ha <;>
        (subst ha; simp at hs)
    | some r' =>
      have hstr := hc.only str r' hdec
      cases mine with
      | some x =>
        cases hap : (app || d.app) <;> cases ht : c.takes r' <;>
          simp [Snap.acceptAnswer, Side.process, hi, hdec, Side.startApp, Side.start, hap, ht, Side.attribute] at ha
        all_goals (subst ha; simp at hs)
        obtain ⟨rfl, rfl⟩ := hs
        exact ⟨by rw [hstr], rfl⟩
      | none =>
        cases hap : (app || d.app) <;>
          simp [Snap.acceptAnswer, Side.process, hi, hdec, Side.startApp, Side.start, hap, Side.attribute] at ha
        all_goals (subst ha; simp at hs)

/-! ### Examples, and what breaks the full claim -/

/-- Chunks are numbers; even ones are taken -/
def exCode : Code Nat where
  encode n := String.ofList (List.replicate n 'a')
  decode s := if s.toList = List.replicate s.toList.length 'a' then some s.toList.length else none
  takes n := n % 2 == 0

theorem exCode_fair : exCode.Fair where
  back x := by simp [exCode]
  only s x h := by
    simp only [exCode] at h ⊢
    split at h
    · next h2 =>
      injection h with h
      subst h
      rw [← h2]
      exact String.ofList_toList
    · cases h

/-- The second side enabled it and makes the first offer with an application line, after others -/
def exOps : List (Op Nat) :=
  [.unsent true true (some 2), .exchange true false (some 2) (some 4), .unsent false true (some 6), .exchange false true (some 8) (some 10),
    .exchange true true (some 12) (some 14)]

theorem C131_example : (∀ op ∈ exOps, Honest exCode op) ∧ (∀ op ∈ exOps, Makes op) ∧ opening exOps = some (false, some 8, some 10) ∧
    (run exCode false true exOps).1.mode = some (.snap 10 6) ∧ (run exCode false true exOps).2.1.mode = some (.snap 6 10) ∧
    (run exCode true false exOps).1.mode = some .handshake ∧ (run exCode true false exOps).2.1.mode = some .handshake ∧
    Reached exCode true ((createOffer exCode { enabled := true } true (some 2)).1) := by
  refine ⟨?_, ?_, rfl, by decide +kernel, by decide +kernel, by decide +kernel, by decide +kernel, .offer .new true (some 2)⟩
  · intro op ho
    simp only [exOps, List.mem_cons, List.not_mem_nil, or_false] at ho
    rcases ho with rfl | rfl | rfl | rfl | rfl <;> simp [Honest, exCode]
  · intro op ho
    simp only [exOps, List.mem_cons, List.not_mem_nil, or_false] at ho
    rcases ho with rfl | rfl | rfl | rfl | rfl <;> simp [Makes]

/-- **C131** is false after a refusal: an offer with the attribute is refused for another reason, and its chunk stays. The next offer, without
the attribute, makes a side that made an offer before (which was not sent) start without the handshake, with the chunk of the refused
offer; the answer has the attribute. The peer, that did not offer this, waits for the handshake -/
theorem C131_violation_stale {c : Code Chunk} (hc : c.Fair) (x y : Chunk) (hy : c.takes y = true) :
    let s := (createOffer c { enabled := true } true (some x)).1
    let s1 := acceptOffer c s ⟨true, some (c.encode y)⟩ true none
    let s2 := acceptOffer c s1.1 ⟨true, none⟩ false none
    s1.2 = none ∧ s2.1.mode = some (.snap x y) ∧ s2.2 = some ⟨true, some (c.encode x)⟩ ∧
    (acceptAnswer c (createOffer c { enabled := false } true none).1 ⟨true, some (c.encode x)⟩ false).1.mode = some .handshake := by
  simp [createOffer, acceptOffer, acceptAnswer, Side.process, Side.attribute, Side.startApp, Side.start, Side.ensure, hc.back, hy]

/-- **C131** is false of a chunk that the library does not take: the offer is refused, and so is each later offer without the attribute, for
ever -/
theorem C131_violation_poison {c : Code Chunk} (hc : c.Fair) (e : Bool) (x y : Chunk) (hy : c.takes y = false) (ds : List (Desc × Option Chunk))
    (hd : ∀ d ∈ ds, d.1.init = none) :
    let s1 := acceptOffer c { enabled := e } ⟨true, some (c.encode y)⟩ false (some x)
    s1.2 = none ∧ ∀ d made, d.init = none → (acceptOffer c (ds.foldl (fun s d => (acceptOffer c s d.1 false d.2).1) s1.1) d false made).2 = none := by
  have h1 : acceptOffer c { enabled := e } ⟨true, some (c.encode y)⟩ false (some x) = (⟨e, true, none, some x, some y⟩, none) := by
    simp [acceptOffer, Side.process, Side.startApp, Side.start, Side.ensure, hc.back, hy]
  have h2 : ∀ (d : Desc) (made : Option Chunk), d.init = none →
      acceptOffer c (⟨e, true, none, some x, some y⟩ : Side Chunk) d false made = (⟨e, true, none, some x, some y⟩, none) := by
    intro d made hi
    simp [acceptOffer, Side.process, hi, Side.startApp, Side.start, hy]
  dsimp only
  rw [h1]
  refine ⟨rfl, ?_⟩
  intro d made hi
  have h3 : ds.foldl (fun s d => (acceptOffer c s d.1 false d.2).1) (⟨e, true, none, some x, some y⟩ : Side Chunk) = ⟨e, true, none, some x, some y⟩ := by
    clear hi
    induction ds with
    | nil => rfl
    | cons q ds ih =>
      rw [List.foldl_cons, h2 q.1 q.2 (hd q (by simp))]
      exact ih (fun r hr => hd r (List.mem_cons_of_mem _ hr))
  rw [h3, h2 d made hi]

/-- **C131** is false of an answer with an attribute that was not offered: SCTP starts with the handshake, but each later description without
the attribute is refused -/
theorem C131_violation_unsolicited {c : Code Chunk} (hc : c.Fair) (y : Chunk) (d : Desc) (hd : d.init = none) (bad : Bool) (made : Option Chunk) :
    let s := acceptAnswer c (createOffer c { enabled := false } true none).1 ⟨true, some (c.encode y)⟩ false
    s.2 = true ∧ s.1.mode = some .handshake ∧ acceptOffer c s.1 d bad made = (s.1, none) := by
  simp [createOffer, acceptOffer, acceptAnswer, Side.process, Side.attribute, Side.startApp, Side.start, hc.back, hd]

end Str0m.Snap
