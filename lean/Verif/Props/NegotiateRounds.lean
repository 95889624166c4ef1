import Verif.Props.NegotiateExchange
/-
  C42, C43, C61: rounds of offers and answers between two peers, and what may go wrong.
-/
namespace Str0m.Negotiate

/-! ### Offers -/

/-- What the changes add. -/
def newAbouts (changes : List Change) : List (Kind × Nat) :=
  changes.filterMap (fun c => match c with
    | .addMedia mid _ _ => some (.media, mid)
    | .addApp mid => some (.app, mid)
    | _ => none)

theorem newLines_about : ∀ (changes : List Change) (start : Nat), ((newLines start changes).map (·.line)).map Line.about = newAbouts changes
  | [], _ => rfl
  | c :: cs, start => by
    have ih1 := newLines_about cs (start + 1)
    have ih0 := newLines_about cs start
    unfold newAbouts at ih0 ih1 ⊢
    unfold newLines
    cases c with
    | addMedia mid dir pts => simpa [Change.newLine, Line.about] using ih1
    | addApp mid => simpa [Change.newLine, Line.about, appPlaced] using ih1
    | addChannel id => simpa [Change.newLine] using ih0
    | direction mid dir => simpa [Change.newLine] using ih0
    | iceRestart => simpa [Change.newLine] using ih0

theorem updateFirst_about {f : Line → Line} (hf : ∀ l, (f l).about = l.about) (p : Line → Bool) :
    ∀ ls : List Line, (updateFirst p f ls).map Line.about = ls.map Line.about
  | [] => rfl
  | a :: as => by
    unfold updateFirst
    split
    · simp [hf a]
    · rw [List.map_cons, List.map_cons, updateFirst_about hf p as]

theorem applyTo_about (c : Change) (ls : List Line) : (Change.applyTo ls c).map Line.about = ls.map Line.about := by
  unfold Change.applyTo
  split
  · split
    · split
      · refine updateFirst_about (fun l => ?_) _ _; rfl
      · rfl
    · rfl
  · rfl

theorem foldl_applyTo_about : ∀ (cs : List Change) (ls : List Line), (cs.foldl Change.applyTo ls).map Line.about = ls.map Line.about
  | [], _ => rfl
  | c :: cs, ls => by
    rw [List.foldl_cons, foldl_applyTo_about cs, applyTo_about]

/-- **C61** An offer has the session's lines, in the order of their indices, followed by one for everything that is added. -/
theorem C61_offer {s s' : Sess} {changes : List Change} {offer : Sdp} {p : Pending} (h : s.apply changes = (s', some (offer, p))) :
    offer.lines.map Line.about = (s.asLines.map (·.line)).map Line.about ++ newAbouts changes ∧
    (s.Wf → ∀ e ∈ s.slots, (offer.lines[e.1]?).map Line.about = some e.2) ∧
    s' = { s with changeCounter := s.changeCounter + 1 } ∧ p = { changeId := s.changeCounter, changes := changes } ∧ offer.setup = some .actPass ∧
    ∃ b, offer.bundle = some b := by
  unfold Sess.apply at h
  split at h
  · cases h
  · split at h
    · cases h
      have h1 : (Sess.offerOf { s with changeCounter := s.changeCounter + 1 } changes).lines.map Line.about =
          (s.asLines.map (·.line)).map Line.about ++ newAbouts changes := by
        unfold Sess.offerOf
        dsimp only
        rw [foldl_applyTo_about, List.map_append, List.map_append, newLines_about]
        rfl
      refine ⟨h1, ?_, rfl, rfl, rfl, _, rfl⟩
      intro hw e he
      have hm := (asLines_slots s).symm.subset he
      obtain ⟨q, hq, rfl⟩ := List.mem_map.1 hm
      obtain ⟨i, hi⟩ := List.mem_iff_getElem?.1 hq
      have hidx := asLines_getElem hw hi
      obtain ⟨k, -⟩ := List.getElem?_eq_some_iff.1 hi
      rw [← List.getElem?_map, h1]
      show _ = some q.line.about
      show (List.map Line.about (List.map (fun x => x.line) s.asLines) ++ newAbouts changes)[q.index]? = some q.line.about
      rw [hidx, List.getElem?_append_left (by simpa using k), List.getElem?_map, List.getElem?_map, hi]
      rfl
    · cases h

/-! ### A whole exchange -/

/-- What the changes add is new to the session: mids that are not in use and differ, and an application only if there is none. -/
structure Fresh (s : Sess) (new : List (Kind × Nat)) : Prop where
  distinct : (new.map (·.2)).Nodup
  fresh : ∀ a ∈ new, ∀ e ∈ s.slots, e.2.2 ≠ a.2
  app : ∀ a ∈ new, a.1 = .app → s.app = none
  oneApp : new.Pairwise (fun p q => ¬ (p.1 = .app ∧ q.1 = .app))

/-- Two peers that have negotiated the same lines, and different DTLS roles. -/
structure InSync (a b : Sess) : Prop where
  wfA : a.Wf
  wfB : b.Wf
  slots : a.slots.Perm b.slots
  roles : (a.active = none ∧ b.active = none) ∨ ∃ r, a.active = some r ∧ b.active = some (!r)

theorem InSync.symm {a b : Sess} (h : InSync a b) : InSync b a := by
  refine ⟨h.wfB, h.wfA, h.slots.symm, ?_⟩
  rcases h.roles with ⟨h1, h2⟩ | ⟨r, h1, h2⟩
  · exact .inl ⟨h2, h1⟩
  · exact .inr ⟨!r, h2, by rw [Bool.not_not]; exact h1⟩

theorem newAbouts_kind {changes : List Change} {a : Kind × Nat} (h : a ∈ newAbouts changes) : a.1 ≠ .unknown := by
  unfold newAbouts at h
  obtain ⟨c, -, e⟩ := List.mem_filterMap.1 h
  cases c <;> simp at e <;> subst e <;> simp

theorem slotsOf_length (ls : List Line) : (slotsOf ls).length = ls.length := by
  unfold slotsOf; rw [List.length_map, List.length_zipIdx]

theorem slotsOf_congr {x y : List Line} (h : x.map Line.about = y.map Line.about) : slotsOf x = slotsOf y := by
  apply List.ext_getElem?
  intro i
  unfold slotsOf
  rw [List.getElem?_map, List.getElem?_map, List.getElem?_zipIdx, List.getElem?_zipIdx, Option.map_map, Option.map_map, Nat.zero_add]
  have := congrArg (fun l => l[i]?) h
  simp only [List.getElem?_map] at this
  have h2 := congrArg (Option.map (fun e : Kind × Nat => (i, e))) this
  rw [Option.map_map, Option.map_map] at h2
  exact h2

theorem wf_slots {s : Sess} (h : s.Wf) : s.slots.Perm (slotsOf (s.asLines.map (·.line))) := by
  refine (asLines_slots s).symm.trans (List.Perm.of_eq ?_)
  apply List.ext_getElem?
  intro i
  unfold slotsOf
  rw [List.getElem?_map, List.getElem?_map, List.getElem?_zipIdx, List.getElem?_map, Option.map_map, Option.map_map, Nat.zero_add]
  cases hp : s.asLines[i]? with
  | none => rfl
  | some p =>
    have := asLines_getElem h hp
    simp only [Option.map_some, Function.comp_apply, Placed.slot]
    rw [this]

theorem follows_of {s : Sess} {l0 ls : List Line} {new : List (Kind × Nat)} (hs : s.slots.Perm (slotsOf l0)) (hf : Fresh s new)
    (hk : ∀ a ∈ new, a.1 ≠ .unknown) (h : ls.map Line.about = l0.map Line.about ++ new) :
    Follows s (ls.take l0.length) (ls.drop l0.length) := by
  have e1 : (ls.take l0.length).map Line.about = l0.map Line.about := by
    rw [List.map_take, h, List.take_left' (by simp)]
  have e2 : (ls.drop l0.length).map Line.about = new := by
    rw [List.map_drop, h, List.drop_left' (by simp)]
  have hmem : ∀ l ∈ ls.drop l0.length, l.about ∈ new := by
    intro l hl
    rw [← e2]
    exact List.mem_map.2 ⟨l, hl, rfl⟩
  refine ⟨?_, ?_, ?_, ?_, ?_, ?_⟩
  · rw [slotsOf_congr e1]; exact hs
  · intro l hl; exact hk _ (hmem l hl)
  · intro l hl; exact hf.fresh _ (hmem l hl)
  · have := hf.distinct
    rw [← e2, List.map_map] at this
    exact this
  · intro l hl; exact hf.app _ (hmem l hl)
  · have := hf.oneApp
    rw [← e2, List.pairwise_map] at this
    exact this

/-- Every line for a thing that was added is right. -/
theorem correctLine_new {l : Line} : ∀ {changes : List Change}, ((newAbouts changes).map (·.2)).Nodup → l.about ∈ newAbouts changes →
    correctLine l changes = none
  | [], _, h => by cases h
  | c :: cs, hn, h => by
    unfold newAbouts at hn h
    unfold correctLine
    cases c with
    | addMedia mid dir pts =>
      simp only [List.filterMap_cons, List.map_cons, List.nodup_cons, List.mem_cons] at hn h
      dsimp only
      by_cases hm : mid = l.mid
      · rw [if_pos hm]
        rcases h with h | h
        · have hk := congrArg Prod.fst h
          exact if_pos hk
        · exact absurd (List.mem_map.2 ⟨_, h, hm.symm⟩) hn.1
      · rw [if_neg hm]
        rcases h with h | h
        · exact absurd (congrArg Prod.snd h).symm hm
        · exact correctLine_new hn.2 h
    | addApp mid =>
      simp only [List.filterMap_cons, List.map_cons, List.nodup_cons, List.mem_cons] at hn h
      dsimp only
      by_cases hm : mid = l.mid
      · rw [if_pos hm]
        rcases h with h | h
        · have hk := congrArg Prod.fst h
          exact if_pos hk
        · exact absurd (List.mem_map.2 ⟨_, h, hm.symm⟩) hn.1
      · rw [if_neg hm]
        rcases h with h | h
        · exact absurd (congrArg Prod.snd h).symm hm
        · exact correctLine_new hn.2 h
    | addChannel id =>
      simp only [List.filterMap_cons] at hn h
      exact correctLine_new hn h
    | direction mid dir =>
      simp only [List.filterMap_cons] at hn h
      exact correctLine_new hn h
    | iceRestart =>
      simp only [List.filterMap_cons] at hn h
      exact correctLine_new hn h

theorem newLine_count : ∀ changes : List Change, (changes.filter isNewLine).length = (newAbouts changes).length
  | [] => rfl
  | c :: cs => by
    have ih := newLine_count cs
    unfold newAbouts at ih ⊢
    cases c <;> simpa [List.filter_cons, isNewLine] using ih

/-- What accepting does to the role. -/
theorem initDtls_active (s : Sess) (r : Option Setup) : ∃ x, (s.initDtls r).active = some x := by
  unfold Sess.initDtls; cases s.active <;> exact ⟨_, rfl⟩

theorem initDtls_keep {s : Sess} {r : Option Setup} {x : Bool} (h : s.active = some x) : (s.initDtls r).active = some x := by
  unfold Sess.initDtls; rw [h]

/-- How the directions of a media fit on the two sides: `a` offered last, `b` answered. -/
structure Fit (a b : Media) : Prop where
  sends : a.dir.sending = true → b.dir.receiving = true
  receives : a.dir.receiving = true → b.dir.sending = true
  answered : b.disabled = false → b.dir.sending = true → a.dir.receiving = true

/-- **C61**, **C42**, **C43** A whole exchange between two peers that are in sync: whatever the changes, if what they add is
new, the offer is accepted, the answer to it is accepted, and the peers are in sync again. The DTLS roles are then set, they
differ, and those that were set before are kept. A media sends only if the other side receives, and receives only if the
other side sends. -/
theorem C61_exchange {a b : Sess} {changes : List Change} (h : InSync a b) (hf : Fresh a (newAbouts changes))
    (hn : changes.any Change.requiresNegotiation = true) (hne : a.slots ≠ [] ∨ newAbouts changes ≠ []) :
    ∃ a1 offer p b' answer a', a.apply changes = (a1, some (offer, p)) ∧ b.acceptOffer offer = (b', .ok answer) ∧
      a1.acceptAnswer p answer = some (a', .ok ()) ∧ InSync a' b' ∧ a'.slots.Perm (slotsOf offer.lines) ∧
      (∃ r, a'.active = some r) ∧ (∀ r, a.active = some r → a'.active = some r) ∧ (∀ r, b.active = some r → b'.active = some r) ∧
      (∀ x ∈ a'.medias, ∀ y ∈ b'.medias, x.index = y.index → x.mid = y.mid ∧ Fit x y) := by
  -- the offer
  have hap : a.apply changes = ({ a with changeCounter := a.changeCounter + 1 },
      some (Sess.offerOf { a with changeCounter := a.changeCounter + 1 } changes, { changeId := a.changeCounter, changes := changes })) := by
    unfold Sess.apply
    rw [if_neg (by intro hc; subst hc; cases hn), if_pos hn]
  obtain ⟨o1, -, -, -, o5, bo, o6⟩ := C61_offer hap
  generalize hoff : Sess.offerOf { a with changeCounter := a.changeCounter + 1 } changes = offer at hap o1 o5 o6
  have hsA := wf_slots h.wfA
  have hsB : b.slots.Perm (slotsOf (a.asLines.map (·.line))) := h.slots.symm.trans hsA
  have hfB : Fresh b (newAbouts changes) := by
    refine ⟨hf.distinct, fun x hx e he => hf.fresh x hx e (h.slots.symm.subset he), fun x hx hk => ?_, hf.oneApp⟩
    cases hb : b.app with
    | none => rfl
    | some y =>
      have := h.slots.symm.subset (mem_slots_app.2 hb)
      rw [mem_slots_app, hf.app x hx hk] at this
      cases this
  have hkn : ∀ x ∈ newAbouts changes, x.1 ≠ .unknown := fun x hx => newAbouts_kind hx
  have honil : offer.lines ≠ [] := by
    intro hc
    rw [hc, List.map_nil] at o1
    have := List.append_eq_nil_iff.1 o1.symm
    rcases hne with hne | hne
    · rw [List.map_eq_nil_iff] at this
      have h2 := this.1
      rw [h2] at hsA
      exact hne hsA.eq_nil
    · exact hne this.2
  -- the answer
  have FB := follows_of (s := Sess.initDtls { b with changeCounter := b.changeCounter + 1 } offer.setup) hsB
    ⟨hfB.distinct, hfB.fresh, hfB.app, hfB.oneApp⟩ hkn o1
  have wB : (Sess.initDtls { b with changeCounter := b.changeCounter + 1 } offer.setup).Wf := initDtls_wf h.wfB
  obtain ⟨b1, b', t1, t2⟩ := FB.taken (isOffer := true) (b := offer.bundle) wB
  have PB := FB.proper wB
  rw [List.take_append_drop] at t1 PB
  obtain ⟨c1, c2, c3, c4, c5⟩ := accept_core wB PB t1 t2
  have hacc : b.acceptOffer offer = (b', .ok { lines := b'.asLines.map (·.line), bundle := some (bundleOf (b'.asLines.map (·.line))), setup := some b'.answerSetup }) := by
    unfold Sess.acceptOffer
    rw [if_neg honil]
    unfold Sess.applyOffer assertConsistency
    rw [o6] at t1 t2 ⊢
    dsimp only
    rw [t1]
    dsimp only
    rw [t2]
  have hsl := asLines_of_slots c1
  have a1e : (b'.asLines.map (·.line)).map Line.about = offer.lines.map Line.about := by
    rw [← slotsOf_about offer.lines, ← hsl, List.map_map, List.map_map]
    rfl
  generalize hans : ({ lines := b'.asLines.map (·.line), bundle := some (bundleOf (b'.asLines.map (·.line))), setup := some b'.answerSetup } : Sdp) = answer at hacc
  have an1 : answer.lines = b'.asLines.map (·.line) := by rw [← hans]
  have an2 : ∃ x, answer.bundle = some x := by rw [← hans]; exact ⟨_, rfl⟩
  have an3 : answer.setup = some b'.answerSetup := by rw [← hans]
  obtain ⟨ab, hab⟩ := an2
  -- accepting the answer
  have FA := follows_of (s := Sess.initDtls { a with changeCounter := a.changeCounter + 1 } answer.setup) (ls := answer.lines) hsA
    ⟨hf.distinct, hf.fresh, hf.app, hf.oneApp⟩ hkn (by rw [an1, a1e, o1])
  have wA : (Sess.initDtls { a with changeCounter := a.changeCounter + 1 } answer.setup).Wf := initDtls_wf h.wfA
  obtain ⟨a2, a', u1, u2⟩ := FA.taken (isOffer := false) (b := answer.bundle) wA
  have PA := FA.proper wA
  rw [List.take_append_drop] at u1 PA
  obtain ⟨d1, d2, d3, d4, d5⟩ := accept_core wA PA u1 u2
  have hsame : slotsOf answer.lines = slotsOf offer.lines := slotsOf_congr (by rw [an1, a1e])
  have hens : ensureCorrectAnswer changes (placesFrom (List.take (a.asLines.map (·.line)).length answer.lines).length (answer.lines.drop (a.asLines.map (·.line)).length)) = none := by
    have e2 : (answer.lines.drop (a.asLines.map (·.line)).length).map Line.about = newAbouts changes := by
      rw [List.map_drop, an1, a1e, o1, List.drop_left' (by simp)]
    unfold ensureCorrectAnswer
    rw [if_neg]
    · rw [List.findSome?_eq_none_iff]
      intro q hq
      refine correctLine_new hf.distinct ?_
      rw [← e2]
      exact List.mem_map.2 ⟨_, placesFrom_mem hq, rfl⟩
    · rw [placesFrom_length, newLine_count, ← e2, List.length_map]
      simp
  have hpt : pendingThere a' changes = true := by
    unfold pendingThere
    rw [List.all_eq_true]
    intro c hc
    cases c with
    | addMedia mid dir pts =>
      dsimp only
      rw [List.any_eq_true]
      have hm : ((Kind.media, mid) : Kind × Nat) ∈ newAbouts changes := List.mem_filterMap.2 ⟨_, hc, rfl⟩
      have hm2 : ((Kind.media, mid) : Kind × Nat) ∈ answer.lines.map Line.about := by
        rw [an1, a1e, o1]; exact List.mem_append_right _ hm
      obtain ⟨l, hl, e⟩ := List.mem_map.1 hm2
      obtain ⟨i, hi⟩ := List.mem_iff_getElem?.1 hl
      have e1 : l.kind = .media := congrArg Prod.fst e
      have e2 : l.mid = mid := congrArg Prod.snd e
      have : (i, Kind.media, mid) ∈ a'.slots := d1.symm.subset (mem_slotsOf.2 ⟨l, hi, e1, e2⟩)
      rw [mem_slots_media] at this
      obtain ⟨m, hm, e⟩ := List.mem_map.1 this
      exact ⟨m, hm, by simpa using congrArg Prod.snd e⟩
    | _ => rfl
  have haa : Sess.acceptAnswer { a with changeCounter := a.changeCounter + 1 } { changeId := a.changeCounter, changes := changes } answer =
      some (a', .ok ()) := by
    unfold Sess.acceptAnswer
    rw [if_neg (by simp)]
    unfold assertConsistency
    rw [hab] at u1 u2 ⊢
    dsimp only
    rw [u1]
    dsimp only
    rw [hens]
    dsimp only
    rw [u2]
    dsimp only
    rw [if_pos hpt]
  refine ⟨_, offer, _, b', answer, a', hap, hacc, haa, ⟨d2, c2, ?_, ?_⟩, ?_, ?_, ?_, ?_, ?_⟩
  · exact d1.trans (by rw [hsame]; exact c1.symm)
  · right
    rw [d3, c3]
    rcases h.roles with ⟨r1, r2⟩ | ⟨r, r1, r2⟩
    · have hb' : b'.active = some false := by
        rw [c3, o5]
        unfold Sess.initDtls
        dsimp only
        rw [r2]
      refine ⟨true, ?_, by rw [← c3]; exact hb'⟩
      rw [an3]
      unfold Sess.initDtls Sess.answerSetup
      dsimp only
      rw [r1, hb']
      rfl
    · exact ⟨r, initDtls_keep r1, initDtls_keep r2⟩
  · rw [← hsame]; exact d1
  · rw [d3]; exact initDtls_active _ _
  · intro r hr; rw [d3]; exact initDtls_keep hr
  · intro r hr; rw [c3]; exact initDtls_keep hr
  · intro x hx y hy hxy
    obtain ⟨l, m0, q1, q2, q3⟩ := d5 x hx
    rw [an1, List.getElem?_map, Option.map_eq_some_iff] at q1
    obtain ⟨p, hp1, rfl⟩ := q1
    have hpi := asLines_getElem c2 hp1
    obtain ⟨y', hy', rfl⟩ := asLines_media (List.mem_of_getElem? hp1) q2
    have hyy : y' = y := List.inj_on_of_nodup_map c2.media_index_nodup hy' hy (by
      show y'.index = y.index
      exact (hpi : y'.index = x.index).trans hxy)
    subst hyy
    constructor
    · have e1 : (x.index, Kind.media, x.mid) ∈ a'.slots := mem_slots_media.2 (List.mem_map.2 ⟨x, hx, rfl⟩)
      obtain ⟨l, f1, f2, f3⟩ := mem_slotsOf.1 (d1.subset e1)
      rw [an1, List.getElem?_map, hp1] at f1
      cases f1
      exact f3.symm
    · rw [q3]
      have key : ∀ d : Dir, (d.sending = true ↔ d.invert.receiving = true) ∧ (d.receiving = true ↔ d.invert.sending = true) := by
        intro d; cases d <;> decide
      have hline : y'.placed.line.dir = y'.dir := rfl
      unfold updateMedia
      by_cases hr : rejected answer.bundle y'.placed.line = true
      · rw [if_pos hr]
        refine ⟨(fun hc => by cases hc), (fun hc => by cases hc), fun hd => ?_⟩
        unfold rejected at hr
        rw [Bool.and_eq_true] at hr
        have : y'.disabled = true := hr.1
        rw [hd] at this
        cases this
      · rw [if_neg hr]
        rw [hline]
        split
        · rename_i hx
          simp only [Bool.and_eq_true, decide_eq_true_eq] at hx
          refine ⟨?_, ?_, ?_⟩
          · dsimp only; rw [hx.1.2]; intro hc; cases hc
          · dsimp only; rw [hx.1.2]; intro hc; cases hc
          · intro _ hs
            rw [(key _).1, hx.2] at hs
            cases hs
        · refine ⟨fun hc => (key _).2.2 hc, fun hc => (key _).1.2 hc, fun _ hc => (key _).1.1 hc⟩

/-! ### Rounds -/

theorem stop_keys (s : Sess) (mid : Nat) : (s.stopMedia mid).slots = s.slots ∧ (s.stopMedia mid).medias.map (·.mid) = s.medias.map (·.mid) := by
  have h : (s.stopMedia mid).keys = s.keys :=
    updateFirst_keys (fun m => by unfold Media.stop; split <;> exact ⟨rfl, rfl⟩) _ _
  have e : ∀ t : Sess, t.medias.map (fun m => (m.index, Kind.media, m.mid)) = t.keys.map (fun k => (k.1, Kind.media, k.2)) := by
    intro t; unfold Sess.keys; rw [List.map_map]; rfl
  refine ⟨?_, by rw [← keys_mids, h, keys_mids]⟩
  unfold Sess.slots
  rw [e, e, h]
  rfl

theorem stop_wf {s : Sess} {mid : Nat} (h : s.Wf) : (s.stopMedia mid).Wf := by
  obtain ⟨h1, h2⟩ := stop_keys s mid
  refine ⟨by rw [h1]; exact h.indices, by rw [h2]; exact h.mids⟩

/-- One peer offers, the other answers, the answer is accepted. -/
def Exchange (a b a' b' : Sess) : Prop :=
  ∃ changes a1 offer p answer, Fresh a (newAbouts changes) ∧ (a.slots ≠ [] ∨ newAbouts changes ≠ []) ∧ a.apply changes = (a1, some (offer, p)) ∧
    b.acceptOffer offer = (b', .ok answer) ∧ a1.acceptAnswer p answer = some (a', .ok ())

/-- Two peers after any number of exchanges, either offering, and medias stopped in between. -/
inductive Rounds : Sess → Sess → Prop where
  | start : Rounds .empty .empty
  | left {a b a' b' : Sess} : Rounds a b → Exchange a b a' b' → Rounds a' b'
  | right {a b a' b' : Sess} : Rounds a b → Exchange b a b' a' → Rounds a' b'
  | stopLeft {a b : Sess} (mid : Nat) : Rounds a b → Rounds (a.stopMedia mid) b
  | stopRight {a b : Sess} (mid : Nat) : Rounds a b → Rounds a (b.stopMedia mid)

theorem Exchange.inSync {a b a' b' : Sess} (h : InSync a b) (he : Exchange a b a' b') :
    InSync a' b' ∧ (∃ r, a'.active = some r) ∧ (∀ r, a.active = some r → a'.active = some r) ∧ (∀ r, b.active = some r → b'.active = some r) := by
  obtain ⟨changes, a1, offer, p, answer, hf, hne, h1, h2, h3⟩ := he
  have hn : changes.any Change.requiresNegotiation = true := by
    unfold Sess.apply at h1
    split at h1
    · cases h1
    · split at h1
      · assumption
      · cases h1
  obtain ⟨a1', offer', p', b'', answer', a'', e1, e2, e3, e4, e5, e6, e7, e8, -⟩ := C61_exchange h hf hn hne
  rw [h1] at e1; cases e1
  rw [h2] at e2; cases e2
  rw [h3] at e3; cases e3
  exact ⟨e4, e6, e7, e8⟩

/-- **C61**, **C43** After any number of exchanges the two peers have the same lines in the same order, and either both have
no DTLS role or one is active and the other passive. -/
theorem C61_rounds {a b : Sess} (h : Rounds a b) :
    (a.asLines.map (·.line)).map Line.about = (b.asLines.map (·.line)).map Line.about ∧ InSync a b := by
  have hs : InSync a b := by
    induction h with
    | start => exact ⟨⟨by decide, by decide⟩, ⟨by decide, by decide⟩, .refl _, .inl ⟨rfl, rfl⟩⟩
    | left _ he ih => exact (he.inSync ih).1
    | right _ he ih => exact (he.inSync ih.symm).1.symm
    | @stopLeft a b mid _ ih => exact ⟨stop_wf ih.wfA, ih.wfB, by rw [(stop_keys a mid).1]; exact ih.slots, ih.roles⟩
    | @stopRight a b mid _ ih => exact ⟨ih.wfA, stop_wf ih.wfB, by rw [(stop_keys b mid).1]; exact ih.slots, ih.roles⟩
  refine ⟨?_, hs⟩
  have := asLines_of_slots (hs.slots.trans (wf_slots hs.wfB))
  rw [← slotsOf_about (b.asLines.map _), ← this, List.map_map, List.map_map]
  rfl

/-- **C43** After the first exchange the roles are set and complementary, and no later exchange changes them. -/
theorem C43_rounds {a b a' b' : Sess} (h : Rounds a b) (he : Exchange a b a' b' ∨ Exchange b a b' a') :
    (∃ r, a'.active = some r ∧ b'.active = some (!r)) ∧ (∀ r, a.active = some r → a'.active = some r) ∧ (∀ r, b.active = some r → b'.active = some r) := by
  have hs := (C61_rounds h).2
  rcases he with he | he
  · obtain ⟨q1, ⟨r, q2⟩, q3, q4⟩ := he.inSync hs
    refine ⟨?_, q3, q4⟩
    rcases q1.roles with ⟨r1, -⟩ | hr
    · rw [q2] at r1; cases r1
    · exact hr
  · obtain ⟨q1, ⟨r, q2⟩, q3, q4⟩ := he.inSync hs.symm
    refine ⟨?_, q4, q3⟩
    rcases q1.symm.roles with ⟨-, r1⟩ | hr
    · rw [q2] at r1; cases r1
    · exact hr

/-! ### Anything that may be called -/

/-- A call on one session. -/
inductive Op where
  | apply (changes : List Change)
  | acceptOffer (offer : Sdp)
  | acceptAnswer (p : Pending) (answer : Sdp)
  | setDirection (mid : Nat) (dir : Dir)
  | stop (mid : Nat)

/-- The session after a call, also one that failed; `none` if it panicked. -/
def Op.run (s : Sess) : Op → Option Sess
  | .apply changes => some (s.apply changes).1
  | .acceptOffer offer => some (s.acceptOffer offer).1
  | .acceptAnswer p answer => (s.acceptAnswer p answer).map (·.1)
  | .setDirection mid dir => some (s.setDirection mid dir)
  | .stop mid => some (s.stopMedia mid)

/-- A call that makes pending offers invalid: applying changes, or taking an offer. -/
def Op.invalidates : Op → Bool
  | .apply changes => !changes.isEmpty
  | .acceptOffer _ => true
  | _ => false

/-- The sessions after each of the calls. -/
def runAll (s : Sess) : List Op → Option Sess
  | [] => some s
  | o :: os => (o.run s).bind (fun s' => runAll s' os)

theorem syncLine_frame (isOffer : Bool) (b : Option (List Nat)) (s : Sess) (idx : Nat) (l : Line) :
    (syncLine isOffer b s idx l).1.active = s.active ∧ (syncLine isOffer b s idx l).1.changeCounter = s.changeCounter := by
  unfold syncLine
  cases l.kind with
  | unknown => exact ⟨rfl, rfl⟩
  | app =>
    dsimp only
    cases s.app with
    | none => exact ⟨rfl, rfl⟩
    | some a =>
      dsimp only
      split <;> exact ⟨rfl, rfl⟩
  | media =>
    dsimp only
    cases s.medias.find? (fun m => decide (m.mid = l.mid)) with
    | some m =>
      dsimp only
      split <;> exact ⟨rfl, rfl⟩
    | none =>
      dsimp only
      cases s.medias.findIdx? (fun m => decide (m.index = idx)) with
      | none => exact ⟨rfl, rfl⟩
      | some pos =>
        dsimp only
        split
        · exact ⟨rfl, rfl⟩
        · cases s.medias[pos]? with
          | none => exact ⟨rfl, rfl⟩
          | some m =>
            dsimp only
            split <;> exact ⟨rfl, rfl⟩

theorem syncFrom_frame (isOffer : Bool) (b : Option (List Nat)) : ∀ (ls : List Line) (s : Sess) (idx : Nat),
    (syncFrom isOffer b s idx ls).1.active = s.active ∧ (syncFrom isOffer b s idx ls).1.changeCounter = s.changeCounter
  | [], _, _ => ⟨rfl, rfl⟩
  | l :: ls, s, idx => by
    unfold syncFrom
    have h := syncLine_frame isOffer b s idx l
    cases h1 : syncLine isOffer b s idx l with
    | mk s1 r1 =>
    rw [h1] at h
    cases r1 with
    | error e => exact h
    | ok isNew =>
      dsimp only
      have h' := syncFrom_frame isOffer b ls s1 (idx + 1)
      cases h2 : syncFrom isOffer b s1 (idx + 1) ls with
      | mk s2 r2 =>
      rw [h2] at h'
      cases r2 with
      | error e => exact ⟨h'.1.trans h.1, h'.2.trans h.2⟩
      | ok new => exact ⟨h'.1.trans h.1, h'.2.trans h.2⟩

theorem addNewLines_frame (isOffer : Bool) (b : Option (List Nat)) : ∀ (new : List (Nat × Line)) (s : Sess),
    (addNewLines isOffer b s new).1.active = s.active ∧ (addNewLines isOffer b s new).1.changeCounter = s.changeCounter
  | [], _ => ⟨rfl, rfl⟩
  | (idx, l) :: new, s => by
    unfold addNewLines
    cases l.kind with
    | unknown => exact ⟨rfl, rfl⟩
    | media =>
      dsimp only
      exact addNewLines_frame isOffer b new _
    | app =>
      dsimp only
      cases h : s.setApp l.mid idx with
      | error e => exact ⟨rfl, rfl⟩
      | ok s' =>
        dsimp only
        have h' := addNewLines_frame isOffer b new s'
        have : s'.active = s.active ∧ s'.changeCounter = s.changeCounter := by
          unfold Sess.setApp at h
          cases ha : s.app with
          | none => rw [ha] at h; cases h; exact ⟨rfl, rfl⟩
          | some a =>
            rw [ha] at h
            dsimp only at h
            split at h
            · cases h
            · split at h
              · cases h
              · cases h; exact ⟨rfl, rfl⟩
        exact ⟨h'.1.trans this.1, h'.2.trans this.2⟩

theorem initDtls_counter (s : Sess) (r : Option Setup) : (s.initDtls r).changeCounter = s.changeCounter := rfl

/-- What any call does to the counter and the role. -/
theorem run_frame {s s' : Sess} {o : Op} (h : o.run s = some s') :
    s.changeCounter ≤ s'.changeCounter ∧ (o.invalidates = true → s.changeCounter < s'.changeCounter) ∧
    (∀ r, s.active = some r → s'.active = some r) := by
  cases o with
  | apply changes =>
    cases h
    show _ ≤ (s.apply changes).1.changeCounter ∧ (_ → _ < (s.apply changes).1.changeCounter) ∧ _
    unfold Sess.apply Op.invalidates
    cases changes with
    | nil => exact ⟨Nat.le_refl _, (fun hc => by cases hc), fun _ h => h⟩
    | cons c cs =>
      rw [if_neg (by simp)]
      split <;> exact ⟨Nat.le_succ _, fun _ => Nat.lt_succ_self _, fun _ h => h⟩
  | acceptOffer offer =>
    cases h
    unfold Sess.acceptOffer
    split
    · exact ⟨Nat.le_succ _, fun _ => Nat.lt_succ_self _, fun _ h => h⟩
    · have key : (Sess.applyOffer (Sess.initDtls { s with changeCounter := s.changeCounter + 1 } offer.setup) offer).1.changeCounter = s.changeCounter + 1 ∧
          (Sess.applyOffer (Sess.initDtls { s with changeCounter := s.changeCounter + 1 } offer.setup) offer).1.active =
            (Sess.initDtls { s with changeCounter := s.changeCounter + 1 } offer.setup).active := by
        unfold Sess.applyOffer
        cases assertConsistency offer with
        | error e => exact ⟨rfl, rfl⟩
        | ok _ =>
          dsimp only
          have h1 := syncFrom_frame true offer.bundle offer.lines (Sess.initDtls { s with changeCounter := s.changeCounter + 1 } offer.setup) 0
          cases hs : syncFrom true offer.bundle (Sess.initDtls { s with changeCounter := s.changeCounter + 1 } offer.setup) 0 offer.lines with
          | mk t r =>
          rw [hs] at h1
          cases r with
          | error e => exact ⟨h1.2, h1.1⟩
          | ok new =>
            have h2 := addNewLines_frame true offer.bundle new t
            exact ⟨h2.2.trans h1.2, h2.1.trans h1.1⟩
      cases ha : Sess.applyOffer (Sess.initDtls { s with changeCounter := s.changeCounter + 1 } offer.setup) offer with
      | mk t r =>
      rw [ha] at key
      have e1 : t.changeCounter = s.changeCounter + 1 := key.1
      have e2 := key.2
      cases r with
      | error e =>
        refine ⟨?_, fun _ => ?_, fun r hr => ?_⟩
        · show _ ≤ t.changeCounter; omega
        · show _ < t.changeCounter; omega
        · exact e2.trans (initDtls_keep hr)
      | ok u =>
        refine ⟨?_, fun _ => ?_, fun r hr => ?_⟩
        · show _ ≤ t.changeCounter; omega
        · show _ < t.changeCounter; omega
        · exact e2.trans (initDtls_keep hr)
  | acceptAnswer p answer =>
    refine ⟨?_, (fun hc => by cases hc), ?_⟩ <;>
    · unfold Op.run at h
      dsimp only at h
      rw [Option.map_eq_some_iff] at h
      obtain ⟨x, hx, rfl⟩ := h
      unfold Sess.acceptAnswer at hx
      split at hx
      · cases hx
        first | exact Nat.le_refl _ | exact fun _ h => h
      · cases hc : assertConsistency answer with
        | error e =>
          rw [hc] at hx; cases hx
          first | exact Nat.le_refl _ | exact fun r h => initDtls_keep h
        | ok _ =>
          rw [hc] at hx
          dsimp only at hx
          have h1 := syncFrom_frame false answer.bundle answer.lines (Sess.initDtls s answer.setup) 0
          cases hs : syncFrom false answer.bundle (Sess.initDtls s answer.setup) 0 answer.lines with
          | mk t r =>
          rw [hs] at h1 hx
          cases r with
          | error e =>
            cases hx
            first | exact Nat.le_of_eq h1.2.symm | exact fun r h => h1.1.trans (initDtls_keep h)
          | ok new =>
            dsimp only at hx
            cases he : ensureCorrectAnswer p.changes new with
            | some e =>
              rw [he] at hx; cases hx
              first | exact Nat.le_of_eq h1.2.symm | exact fun r h => h1.1.trans (initDtls_keep h)
            | none =>
              rw [he] at hx
              dsimp only at hx
              have h2 := addNewLines_frame false answer.bundle new t
              cases hb : addNewLines false answer.bundle t new with
              | mk t2 r2 =>
              rw [hb] at h2 hx
              cases r2 with
              | error e =>
                cases hx
                first | exact Nat.le_of_eq (h2.2.trans h1.2).symm | exact fun r h => h2.1.trans (h1.1.trans (initDtls_keep h))
              | ok u =>
                dsimp only at hx
                split at hx
                · cases hx
                  first | exact Nat.le_of_eq (h2.2.trans h1.2).symm | exact fun r h => h2.1.trans (h1.1.trans (initDtls_keep h))
                · cases hx
  | setDirection mid dir => cases h; exact ⟨Nat.le_refl _, (fun hc => by cases hc), fun _ h => h⟩
  | stop mid => cases h; exact ⟨Nat.le_refl _, (fun hc => by cases hc), fun _ h => h⟩

theorem runAll_frame : ∀ {os : List Op} {s s' : Sess}, runAll s os = some s' →
    s.changeCounter ≤ s'.changeCounter ∧ (os.any Op.invalidates = true → s.changeCounter < s'.changeCounter) ∧
    (∀ r, s.active = some r → s'.active = some r)
  | [], s, s', h => by cases h; exact ⟨Nat.le_refl _, (fun hc => by cases hc), fun _ h => h⟩
  | o :: os, s, s', h => by
    unfold runAll at h
    obtain ⟨t, h1, h2⟩ := Option.bind_eq_some_iff.1 h
    obtain ⟨a1, a2, a3⟩ := run_frame h1
    obtain ⟨b1, b2, b3⟩ := runAll_frame h2
    refine ⟨by omega, fun hany => ?_, fun r hr => b3 r (a3 r hr)⟩
    rw [List.any_cons, Bool.or_eq_true] at hany
    rcases hany with hc | hc
    · have := a2 hc; omega
    · have := b2 hc; omega

/-- **C43** Once set the role is never changed, whatever is called and whatever the other side sends. -/
theorem C43_fixed {os : List Op} {s s' : Sess} {r : Bool} (h : runAll s os = some s') (hr : s.active = some r) : s'.active = some r :=
  (runAll_frame h).2.2 r hr

/-- **C61** An answer for an offer that was overtaken by a later change or by an offer of the other side is refused, and
changes nothing. -/
theorem C61_stale {s s1 s2 : Sess} {changes : List Change} {offer answer : Sdp} {p : Pending} {os : List Op}
    (h : s.apply changes = (s1, some (offer, p))) (hr : runAll s1 os = some s2) (hi : os.any Op.invalidates = true) :
    s2.acceptAnswer p answer = some (s2, .error .changesOutOfOrder) := by
  obtain ⟨-, -, h3, h4, -⟩ := C61_offer h
  have := (runAll_frame hr).2.1 hi
  unfold Sess.acceptAnswer
  rw [if_pos]
  rw [h4]
  rw [h3] at this
  dsimp only at this ⊢
  omega

/-! ### A concrete exchange -/

/-- Two peers; the left adds a media, then the right another and a data channel. -/
example :
    let a0 := Sess.empty
    let r1 := a0.apply [.addMedia 10 .sendRecv [96]]
    let o1 := (r1.2.getD (⟨[], none, none⟩, ⟨0, []⟩))
    let b1 := Sess.empty.acceptOffer o1.1
    (b1.2.toOption.map (fun an => (r1.1.acceptAnswer o1.2 an).map (fun x => (x.1.active, x.1.medias.map (·.dir), x.1.asLines.map (·.line.mid))))) =
      some (some (some true, [.sendRecv], [10])) ∧ b1.1.active = some false := by
  decide +kernel

example : Fresh (Sess.empty.acceptOffer ⟨[⟨.media, 5, false, .sendOnly, [96]⟩], some [5], some .actPass⟩).1 (newAbouts [.addApp 7, .addMedia 8 .recvOnly [97]]) := by
  refine ⟨?_, ?_, ?_, ?_⟩ <;> decide +kernel

/-! ### What may go wrong -/

/-- Both peers make their first offer at the same time, and both accept the other's. -/
def glareOffer (mid : Nat) : Sdp := ((Sess.empty.apply [.addMedia mid .sendRecv [96]]).2.getD (⟨[], none, none⟩, ⟨0, []⟩)).1

/-- **C43**, not as the property says: when both sides offer at the same time and each accepts the offer of the other, both
become passive, both answer passive, and this never changes, whatever is called afterwards: neither starts the DTLS handshake. -/
theorem C43_violation_glare (osA osB : List Op) (a b : Sess)
    (ha : runAll (((Sess.empty.apply [.addMedia 1 .sendRecv [96]]).1.acceptOffer (glareOffer 2)).1) osA = some a)
    (hb : runAll (((Sess.empty.apply [.addMedia 2 .sendRecv [96]]).1.acceptOffer (glareOffer 1)).1) osB = some b) :
    a.active = some false ∧ b.active = some false :=
  ⟨C43_fixed ha (by decide +kernel), C43_fixed hb (by decide +kernel)⟩

/-- **C61**, not as the property says: an answer from the network that names one of two added medias twice makes the
session panic: the number of new lines is right, each is of a media that was added, but one of the added ones is missing. -/
theorem C61_violation_panic :
    ∃ (offer : Sdp) (p : Pending) (s1 : Sess) (answer : Sdp),
      Sess.empty.apply [.addMedia 1 .sendRecv [96], .addMedia 2 .sendRecv [96]] = (s1, some (offer, p)) ∧
      s1.acceptAnswer p answer = none := by
  refine ⟨_, _, _, ⟨[⟨.media, 1, false, .sendRecv, [96]⟩, ⟨.media, 1, false, .sendRecv, [96]⟩], some [1], some .active⟩, rfl, ?_⟩
  decide +kernel

/-- **C61**, not as the property says: an offer that has the same mid twice is accepted, and then there are two medias with one mid. -/
theorem C61_violation_duplicate :
    ((Sess.empty.acceptOffer ⟨[⟨.media, 1, false, .sendRecv, [96]⟩, ⟨.media, 1, false, .sendRecv, [96]⟩], some [1], some .actPass⟩).1.medias.map (·.mid)) = [1, 1] ∧
    (Sess.empty.acceptOffer ⟨[⟨.media, 1, false, .sendRecv, [96]⟩, ⟨.media, 1, false, .sendRecv, [96]⟩], some [1], some .actPass⟩).2.isOk = true := by
  decide +kernel

/-- A session with a refused media at 0 and a media at 1. -/
def holeSess : Sess :=
  { medias := [⟨1, 0, .inactive, true, true, [96]⟩, ⟨2, 1, .sendRecv, false, true, [96]⟩], app := none, active := some false, changeCounter := 2 }

/-- **C61**, not as the property says: an offer that reuses the place of a refused media and then fails (here the second
line is not where it was) has already removed that media; the session has a hole, and its own next offer moves all later
m-lines up: the media at index 1 stands at 0. -/
theorem C61_violation_hole :
    holeSess.Wf ∧
    (holeSess.acceptOffer ⟨[⟨.media, 3, false, .sendRecv, [96]⟩, ⟨.media, 4, false, .sendRecv, [96]⟩], some [3, 4], some .actPass⟩).2.isOk = false ∧
    ((holeSess.acceptOffer ⟨[⟨.media, 3, false, .sendRecv, [96]⟩, ⟨.media, 4, false, .sendRecv, [96]⟩], some [3, 4], some .actPass⟩).1.offerOf
      [.direction 2 .sendOnly]).lines.map (·.mid) = [2] := by
  refine ⟨⟨by decide +kernel, by decide +kernel⟩, ?_, ?_⟩ <;> decide +kernel

/-- **C42**, not as the property says: the answer to an offer is not compared with the offer: a media that was offered as
send only becomes receiving when the answer says so, and one the application set to receive only sends when the other side
re-offers it. -/
theorem C42_violation_widen :
    ((Sess.empty.apply [.addMedia 1 .sendOnly [96]]).1.acceptAnswer ⟨0, [.addMedia 1 .sendOnly [96]]⟩
        ⟨[⟨.media, 1, false, .sendRecv, [96]⟩], some [1], some .active⟩).map (fun x => x.1.medias.map (·.dir)) = some [.sendRecv] ∧
    ((({ Sess.empty with medias := [⟨1, 0, .recvOnly, false, false, [96]⟩] } : Sess).acceptOffer
        ⟨[⟨.media, 1, false, .sendRecv, [96]⟩], some [1], some .actPass⟩).1.medias.map (·.dir)) = [.sendRecv] := by
  decide +kernel

end Str0m.Negotiate
