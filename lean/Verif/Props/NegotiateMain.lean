import Verif.Props.Negotiate
/-
  C42 (directions), C43 (DTLS roles), C61 (order of the m-lines): the main theorems.
-/
namespace Str0m.Negotiate

/-! ### The lines that are written -/

theorem insertPlaced_perm (p : Placed) : ∀ l : List Placed, (insertPlaced p l).Perm (p :: l)
  | [] => .refl _
  | q :: qs => by
    unfold insertPlaced
    split
    · exact .refl _
    · exact ((insertPlaced_perm p qs).cons q).trans (.swap _ _ _)

theorem insertPlaced_sorted (p : Placed) : ∀ l : List Placed, l.Pairwise (fun a b => a.index ≤ b.index) →
    (insertPlaced p l).Pairwise (fun a b => a.index ≤ b.index)
  | [], _ => by simp [insertPlaced]
  | q :: qs, h => by
    have h' := List.pairwise_cons.1 h
    unfold insertPlaced
    split
    · rename_i hlt
      refine List.pairwise_cons.2 ⟨fun x hx => ?_, h⟩
      rcases List.mem_cons.1 hx with hx | hx
      · subst hx; omega
      · have := h'.1 x hx; omega
    · rename_i hge
      refine List.pairwise_cons.2 ⟨fun x hx => ?_, insertPlaced_sorted p qs h'.2⟩
      rcases List.mem_cons.1 ((insertPlaced_perm p qs).subset hx) with hx | hx
      · subst hx; omega
      · exact h'.1 x hx

theorem sortPlaced_aux : ∀ (l acc : List Placed), acc.Pairwise (fun a b => a.index ≤ b.index) →
    (l.foldl (fun acc p => insertPlaced p acc) acc).Perm (l ++ acc) ∧
    (l.foldl (fun acc p => insertPlaced p acc) acc).Pairwise (fun a b => a.index ≤ b.index)
  | [], acc, h => ⟨.refl _, h⟩
  | p :: l, acc, h => by
    obtain ⟨h1, h2⟩ := sortPlaced_aux l (insertPlaced p acc) (insertPlaced_sorted p acc h)
    refine ⟨h1.trans ?_, h2⟩
    exact ((insertPlaced_perm p acc).append_left l).trans List.perm_middle

theorem sortPlaced_perm (l : List Placed) : (sortPlaced l).Perm l := by
  have := (sortPlaced_aux l [] List.Pairwise.nil).1
  rwa [List.append_nil] at this

theorem sortPlaced_sorted (l : List Placed) : (sortPlaced l).Pairwise (fun a b => a.index ≤ b.index) :=
  (sortPlaced_aux l [] List.Pairwise.nil).2

/-- The slot of a line that is written. -/
def Placed.slot (p : Placed) : Nat × Kind × Nat := (p.index, p.line.kind, p.line.mid)

theorem asLines_slots (s : Sess) : (s.asLines.map Placed.slot).Perm s.slots := by
  unfold Sess.asLines Sess.slots
  refine ((sortPlaced_perm _).map _).trans ?_
  rw [List.map_append, List.map_map]
  refine List.Perm.of_eq ?_
  congr 1
  cases s.app <;> rfl

theorem slotsOf_fst (ls : List Line) : (slotsOf ls).map (·.1) = List.range ls.length := by
  unfold slotsOf
  rw [List.map_map]
  show ls.zipIdx.map Prod.snd = _
  rw [List.zipIdx_map_snd, List.range_eq_range']

/-- Lists of slots, sorted by the index, with the same slots. -/
theorem slots_eq {a b : List (Nat × Kind × Nat)} (hp : a.Perm b) (ha : (a.map (·.1)).Pairwise (· < ·)) (hb : (b.map (·.1)).Pairwise (· < ·)) :
    a = b := by
  rw [List.pairwise_map] at ha hb
  refine List.Perm.eq_of_pairwise (le := fun x y => x.1 < y.1) ?_ ha hb hp
  intro x y _ _ h1 h2
  omega

theorem asLines_strict {s : Sess} (h : (s.slots.map (·.1)).Nodup) : ((s.asLines.map Placed.slot).map (·.1)).Pairwise (· < ·) := by
  have hn : ((s.asLines.map Placed.slot).map (·.1)).Nodup := ((asLines_slots s).map _).nodup_iff.2 h
  have hs : ((s.asLines.map Placed.slot).map (·.1)).Pairwise (· ≤ ·) := by
    rw [List.map_map, List.pairwise_map]
    exact sortPlaced_sorted _
  have hb := List.Pairwise.and hs hn
  exact hb.imp (fun h => Nat.lt_of_le_of_ne h.1 h.2)

theorem slotsOf_strict (ls : List Line) : ((slotsOf ls).map (·.1)).Pairwise (· < ·) := by
  rw [slotsOf_fst]; exact List.pairwise_lt_range

/-- The lines of a session that has the slots of an SDP. -/
theorem asLines_of_slots {s : Sess} {ls : List Line} (h : s.slots.Perm (slotsOf ls)) : s.asLines.map Placed.slot = slotsOf ls := by
  refine slots_eq ((asLines_slots s).trans h) (asLines_strict ?_) (slotsOf_strict ls)
  rw [(h.map _).nodup_iff]
  exact (slotsOf_strict ls).imp (fun h => Nat.ne_of_lt h)

/-- Of a well-formed session: the lines stand at their index. -/
theorem asLines_index {s : Sess} (h : s.Wf) : s.asLines.map (·.index) = List.range s.asLines.length := by
  have hl : s.asLines.length = s.slots.length := by
    have := (asLines_slots s).length_eq
    rwa [List.length_map] at this
  have e : s.asLines.map (·.index) = (s.asLines.map Placed.slot).map (·.1) := by rw [List.map_map]; rfl
  rw [hl, e]
  refine List.Perm.eq_of_pairwise (le := fun x y => x < y) ?_ (asLines_strict h.index_nodup) List.pairwise_lt_range
    (((asLines_slots s).map _).trans h.indices)
  intro x y _ _ h1 h2
  omega

theorem asLines_getElem {s : Sess} (h : s.Wf) {i : Nat} {p : Placed} (hp : s.asLines[i]? = some p) : p.index = i := by
  have := congrArg (fun l => l[i]?) (asLines_index h)
  simp only [List.getElem?_map, hp, Option.map_some] at this
  obtain ⟨k1, -⟩ := List.getElem?_eq_some_iff.1 hp
  rw [List.getElem?_range k1] at this
  exact Option.some.inj this

/-- A media line that is written is that of a media. -/
theorem asLines_media {s : Sess} {p : Placed} (hp : p ∈ s.asLines) (hk : p.line.kind = .media) : ∃ m ∈ s.medias, p = m.placed := by
  have := (sortPlaced_perm _).subset hp
  rcases List.mem_append.1 this with h | h
  · cases ha : s.app with
    | none => rw [ha] at h; cases h
    | some a =>
      rw [ha, List.mem_singleton] at h
      subst h
      cases hk
  · obtain ⟨m, hm, e⟩ := List.mem_map.1 h
    exact ⟨m, hm, e.symm⟩

/-! ### Accepting an offer -/

/-- What an m-line is about: the same kind, with the same mid. -/
def Line.about (l : Line) : Kind × Nat := (l.kind, l.mid)

theorem slotsOf_about (ls : List Line) : (slotsOf ls).map (·.2) = ls.map Line.about := by
  unfold slotsOf
  rw [List.map_map]
  have : ((fun x : Nat × Kind × Nat => x.2) ∘ fun p : Line × Nat => (p.2, p.1.kind, p.1.mid)) = Line.about ∘ Prod.fst := rfl
  rw [this, ← List.map_map, List.zipIdx_map_fst]

theorem initDtls_wf {s : Sess} {r : Option Setup} {n : Nat} (h : s.Wf) : (Sess.initDtls { s with changeCounter := n } r).Wf := ⟨h.indices, h.mids⟩

theorem initDtls_proper {s : Sess} {r : Option Setup} {n : Nat} {ls : List Line} (h : Proper s ls) :
    Proper (Sess.initDtls { s with changeCounter := n } r) ls := ⟨h.known, h.distinct, h.medias, h.app⟩

/-- **C61**, **C42** An offer that is accepted is answered with the same m-lines in the same order, and the session stays
well-formed. In every media line of the answer: sends only if the offer receives, receives only if the offer sends; the line
of one that was refused by the offerer (port 0 and not bundled) stays refused and inactive. -/
theorem C61_answer {s s' : Sess} {offer answer : Sdp} (hw : s.Wf) (hp : Proper s offer.lines) (h : s.acceptOffer offer = (s', .ok answer)) :
    answer.lines.map Line.about = offer.lines.map Line.about ∧ s'.Wf ∧
    ∀ (i : Nat) (o a : Line), offer.lines[i]? = some o → answer.lines[i]? = some a → o.kind = .media →
      (a.dir.sending = true → o.dir.receiving = true) ∧ (a.dir.receiving = true → o.dir.sending = true) ∧
      (rejected offer.bundle o = true → a.disabled = true ∧ a.dir = .inactive) ∧
      (rejected offer.bundle o = false → a.pts = o.pts ∧ (o.pts = [] → a.disabled = true)) := by
  unfold Sess.acceptOffer at h
  split at h
  · cases h
  · cases ha : Sess.applyOffer (Sess.initDtls { s with changeCounter := s.changeCounter + 1 } offer.setup) offer with
    | mk t r =>
    rw [ha] at h
    cases r with
    | error e => cases h
    | ok u =>
      cases h
      unfold Sess.applyOffer at ha
      cases hc : assertConsistency offer with
      | error e => rw [hc] at ha; cases ha
      | ok _ =>
      rw [hc] at ha
      dsimp only at ha
      cases hs : syncFrom true offer.bundle (Sess.initDtls { s with changeCounter := s.changeCounter + 1 } offer.setup) 0 offer.lines with
      | mk t1 r1 =>
      rw [hs] at ha
      cases r1 with
      | error e => cases ha
      | ok new =>
        obtain ⟨c1, c2, c3, c4, c5⟩ := accept_core (initDtls_wf hw) (initDtls_proper hp) hs ha
        have hslots := asLines_of_slots c1
        have hab : (s'.asLines.map (·.line)).map Line.about = offer.lines.map Line.about := by
          rw [← slotsOf_about offer.lines, ← hslots, List.map_map, List.map_map]
          rfl
        refine ⟨hab, c2, ?_⟩
        intro i o a ho hal hk
        dsimp only at hal
        rw [List.getElem?_map, Option.map_eq_some_iff] at hal
        obtain ⟨p, hp1, rfl⟩ := hal
        have hidx := asLines_getElem c2 hp1
        have hpk : p.line.kind = .media := by
          have := congrArg (fun l => l[i]?) hab
          simp only [List.getElem?_map, hp1, ho, Option.map_some, Option.some.injEq] at this
          have := congrArg Prod.fst this
          exact this.trans hk
        obtain ⟨m, hm, rfl⟩ := asLines_media (List.mem_of_getElem? hp1) hpk
        obtain ⟨l, m0, q1, q2, q3⟩ := c5 m hm
        have hmi : m.index = i := hidx
        rw [hmi, ho] at q1
        cases q1
        show (m.dir.sending = true → o.dir.receiving = true) ∧ (m.dir.receiving = true → o.dir.sending = true) ∧
          (rejected offer.bundle o = true → m.disabled = true ∧ m.dir = .inactive) ∧
          (rejected offer.bundle o = false → m.pts = o.pts ∧ (o.pts = [] → m.disabled = true))
        rw [q3]
        unfold updateMedia
        by_cases hr : rejected offer.bundle o = true
        · rw [if_pos hr]
          refine ⟨(fun hc => by cases hc), (fun hc => by cases hc), fun _ => ⟨rfl, rfl⟩, fun hc => ?_⟩
          rw [hr] at hc; cases hc
        · rw [if_neg hr]
          dsimp only
          refine ⟨?_, ?_, fun hc => absurd hc hr, fun _ => ⟨rfl, fun e => ?_⟩⟩
          · split
            · rename_i hx
              simp only [Bool.and_eq_true, decide_eq_true_eq] at hx
              rw [hx.1.2]
              intro hc; cases hc
            · intro hc; rwa [(C42_invert o.dir).2.1] at hc
          · split
            · rename_i hx
              simp only [Bool.and_eq_true, decide_eq_true_eq] at hx
              rw [hx.1.2]
              intro hc; cases hc
            · intro hc; rwa [(C42_invert o.dir).2.2.1] at hc
          · unfold Media.disabled
            rw [e]; simp

end Str0m.Negotiate
