import Verif.Props.NegotiateMain
/-
  C42, C43, C61: whole exchanges between two peers.
-/
namespace Str0m.Negotiate

/-! ### SDPs that follow what was negotiated are taken -/

/-- The lines of the session's medias: index and mid. -/
def Sess.keys (s : Sess) : List (Nat × Nat) := s.medias.map (fun m => (m.index, m.mid))

theorem updateFirst_keys {f : Media → Media} (hf : ∀ m, (f m).index = m.index ∧ (f m).mid = m.mid) (p : Media → Bool) :
    ∀ l : List Media, (updateFirst p f l).map (fun m => (m.index, m.mid)) = l.map (fun m => (m.index, m.mid))
  | [] => rfl
  | a :: as => by
    unfold updateFirst
    split
    · simp [(hf a).1, (hf a).2]
    · rw [List.map_cons, List.map_cons, updateFirst_keys hf p as]

/-- A line that the session has at this index. -/
def Has (s : Sess) (idx : Nat) (l : Line) : Prop :=
  (l.kind = .media ∧ (idx, l.mid) ∈ s.keys) ∨ (l.kind = .app ∧ ∃ a, s.app = some (a, idx))

theorem keys_mids (s : Sess) : s.keys.map (·.2) = s.medias.map (·.mid) := by
  unfold Sess.keys; rw [List.map_map]; rfl

theorem syncLine_has {isOffer : Bool} {b : Option (List Nat)} {s : Sess} {idx : Nat} {l : Line} (hm : (s.keys.map (·.2)).Nodup)
    (h : Has s idx l) : ∃ s', syncLine isOffer b s idx l = (s', .ok false) ∧ s'.keys = s.keys ∧ s'.app = s.app := by
  unfold syncLine
  rcases h with ⟨hk, hmem⟩ | ⟨hk, a, ha⟩
  · rw [hk]
    dsimp only
    obtain ⟨m, hmm, e0⟩ := List.mem_map.1 hmem
    have ei : m.index = idx := congrArg Prod.fst e0
    have e : m.mid = l.mid := congrArg Prod.snd e0
    subst ei
    cases hf : s.medias.find? (fun x => decide (x.mid = l.mid)) with
    | none =>
      have := List.find?_eq_none.1 hf m hmm
      simp only [decide_eq_true_eq] at this
      exact absurd e this
    | some m' =>
      have e1 : m'.mid = l.mid := by simpa using List.find?_some hf
      have : m' = m := by
        rw [keys_mids] at hm
        exact List.inj_on_of_nodup_map hm (List.mem_of_find?_eq_some hf) hmm (e1.trans e.symm)
      subst this
      dsimp only
      rw [if_neg (by simp)]
      refine ⟨_, rfl, ?_, rfl⟩
      exact updateFirst_keys (fun m => ⟨updateMedia_index _ _ _, updateMedia_mid _ _ _⟩) _ _
  · rw [hk]
    dsimp only
    rw [ha]
    dsimp only
    rw [if_neg (by simp)]
    exact ⟨s, rfl, rfl, ha⟩

theorem syncFrom_has {isOffer : Bool} {b : Option (List Nat)} : ∀ {ls : List Line} {s : Sess} {idx : Nat}, (s.keys.map (·.2)).Nodup →
    (∀ (i : Nat) (l : Line), ls[i]? = some l → Has s (idx + i) l) →
    ∃ s', syncFrom isOffer b s idx ls = (s', .ok []) ∧ s'.keys = s.keys ∧ s'.app = s.app
  | [], s, idx, _, _ => ⟨s, rfl, rfl, rfl⟩
  | l :: ls, s, idx, hm, h => by
    obtain ⟨s1, e1, k1, a1⟩ := syncLine_has (isOffer := isOffer) (b := b) hm (h 0 l rfl)
    have hh : ∀ (i : Nat) (x : Line), ls[i]? = some x → Has s1 (idx + 1 + i) x := by
      intro i x hx
      have := h (i + 1) x hx
      unfold Has at this ⊢
      rw [k1, a1, show idx + 1 + i = idx + (i + 1) from by omega]
      exact this
    obtain ⟨s2, e2, k2, a2⟩ := syncFrom_has (isOffer := isOffer) (b := b) (by rw [k1]; exact hm) hh
    refine ⟨s2, ?_, k2.trans k1, a2.trans a1⟩
    unfold syncFrom
    rw [show idx = idx + 0 from rfl] 
    rw [e1]
    dsimp only
    rw [Nat.add_zero, e2]
    rfl

/-- A line for a place that is free. -/
def Free (s : Sess) (idx : Nat) (l : Line) : Prop :=
  (l.kind = .media ∧ ∀ k ∈ s.keys, k.1 ≠ idx ∧ k.2 ≠ l.mid) ∨ (l.kind = .app ∧ s.app = none)

theorem syncLine_free {isOffer : Bool} {b : Option (List Nat)} {s : Sess} {idx : Nat} {l : Line} (h : Free s idx l) :
    syncLine isOffer b s idx l = (s, .ok true) := by
  unfold syncLine
  rcases h with ⟨hk, hno⟩ | ⟨hk, ha⟩
  · rw [hk]
    dsimp only
    have h1 : s.medias.find? (fun x => decide (x.mid = l.mid)) = none := by
      rw [List.find?_eq_none]
      intro m hm
      have := (hno (m.index, m.mid) (List.mem_map.2 ⟨m, hm, rfl⟩)).2
      simpa using this
    have h2 : s.medias.findIdx? (fun m => decide (m.index = idx)) = none := by
      rw [List.findIdx?_eq_none_iff]
      intro m hm
      have := (hno (m.index, m.mid) (List.mem_map.2 ⟨m, hm, rfl⟩)).1
      simpa using this
    rw [h1, h2]
  · rw [hk]
    dsimp only
    rw [ha]

/-- Lines with their places. -/
def placesFrom (idx : Nat) : List Line → List (Nat × Line)
  | [] => []
  | l :: ls => (idx, l) :: placesFrom (idx + 1) ls

theorem syncFrom_free {isOffer : Bool} {b : Option (List Nat)} : ∀ {ls : List Line} {s : Sess} {idx : Nat},
    (∀ (i : Nat) (l : Line), ls[i]? = some l → Free s (idx + i) l) → syncFrom isOffer b s idx ls = (s, .ok (placesFrom idx ls))
  | [], s, idx, _ => rfl
  | l :: ls, s, idx, h => by
    have e1 := syncLine_free (isOffer := isOffer) (b := b) (h 0 l rfl)
    have e2 := syncFrom_free (isOffer := isOffer) (b := b) (ls := ls) (s := s) (idx := idx + 1) (fun i x hx => by
      have := h (i + 1) x hx
      rwa [show idx + (i + 1) = idx + 1 + i from by omega] at this)
    unfold syncFrom
    rw [Nat.add_zero] at e1
    rw [e1]
    dsimp only
    rw [e2]
    rfl

theorem syncFrom_append {isOffer : Bool} {b : Option (List Nat)} : ∀ {pre post : List Line} {s s' : Sess} {idx : Nat},
    syncFrom isOffer b s idx pre = (s', .ok []) → syncFrom isOffer b s idx (pre ++ post) = syncFrom isOffer b s' (idx + pre.length) post
  | [], post, s, s', idx, h => by cases h; rfl
  | l :: pre, post, s, s', idx, h => by
    unfold syncFrom at h
    rw [List.cons_append]
    conv_lhs => unfold syncFrom
    cases h1 : syncLine isOffer b s idx l with
    | mk s1 r1 =>
    rw [h1] at h
    cases r1 with
    | error e => cases h
    | ok isNew =>
    dsimp only at h ⊢
    cases h2 : syncFrom isOffer b s1 (idx + 1) pre with
    | mk s2 r2 =>
    rw [h2] at h
    cases r2 with
    | error e => cases h
    | ok new =>
    dsimp only at h
    cases isNew with
    | true => cases h
    | false =>
      cases h
      rw [syncFrom_append h2, List.length_cons, show idx + 1 + pre.length = idx + (pre.length + 1) from by omega]
      cases syncFrom isOffer b s' (idx + (pre.length + 1)) post with
      | mk s3 r3 => cases r3 <;> rfl

/-- New lines are added, if there is at most one application among them and only if there was none. -/
theorem addNewLines_free {isOffer : Bool} {b : Option (List Nat)} : ∀ {new : List (Nat × Line)} {s : Sess},
    (∀ p ∈ new, p.2.kind ≠ .unknown) → (∀ p ∈ new, p.2.kind = .app → s.app = none) →
    new.Pairwise (fun p q => ¬ (p.2.kind = .app ∧ q.2.kind = .app)) →
    ∃ s', addNewLines isOffer b s new = (s', .ok ())
  | [], s, _, _, _ => ⟨s, rfl⟩
  | (idx, l) :: new, s, hk, ha, hp => by
    have hp' := List.pairwise_cons.1 hp
    unfold addNewLines
    cases h : l.kind with
    | unknown => exact absurd h (hk _ (List.mem_cons_self ..))
    | media =>
      exact addNewLines_free (fun p hp => hk p (List.mem_cons_of_mem _ hp)) (fun p hp => ha p (List.mem_cons_of_mem _ hp)) hp'.2
    | app =>
      dsimp only
      have : s.setApp l.mid idx = .ok { s with app := some (l.mid, idx) } := by
        unfold Sess.setApp
        rw [ha _ (List.mem_cons_self ..) h]
      rw [this]
      dsimp only
      refine addNewLines_free (fun p hp => hk p (List.mem_cons_of_mem _ hp)) (fun p hp hpk => ?_) hp'.2
      exact absurd ⟨h, hpk⟩ (hp'.1 p hp)

theorem placesFrom_mem : ∀ {ls : List Line} {idx : Nat} {p : Nat × Line}, p ∈ placesFrom idx ls → p.2 ∈ ls
  | l :: ls, idx, p, h => by
    rcases List.mem_cons.1 h with h | h
    · subst h; exact List.mem_cons_self ..
    · exact List.mem_cons_of_mem _ (placesFrom_mem h)

theorem placesFrom_snd : ∀ (ls : List Line) (idx : Nat), (placesFrom idx ls).map (·.2) = ls
  | [], _ => rfl
  | l :: ls, idx => by
    unfold placesFrom
    rw [List.map_cons, placesFrom_snd ls (idx + 1)]

theorem placesFrom_length (ls : List Line) (idx : Nat) : (placesFrom idx ls).length = ls.length := by
  have := congrArg List.length (placesFrom_snd ls idx)
  rwa [List.length_map] at this

/-- An SDP that begins with the lines the session has, in their order, and goes on with new ones. -/
structure Follows (s : Sess) (old new : List Line) : Prop where
  slots : s.slots.Perm (slotsOf old)
  known : ∀ l ∈ new, l.kind ≠ .unknown
  fresh : ∀ l ∈ new, ∀ e ∈ s.slots, e.2.2 ≠ l.mid
  distinct : (new.map (·.mid)).Nodup
  app : ∀ l ∈ new, l.kind = .app → s.app = none
  oneApp : new.Pairwise (fun p q => ¬ (p.kind = .app ∧ q.kind = .app))

theorem mem_slotsOf {ls : List Line} {e : Nat × Kind × Nat} : e ∈ slotsOf ls ↔ ∃ l, ls[e.1]? = some l ∧ l.kind = e.2.1 ∧ l.mid = e.2.2 := by
  unfold slotsOf
  rw [List.mem_map]
  constructor
  · rintro ⟨⟨l, i⟩, h, rfl⟩
    rw [List.mem_zipIdx_iff_getElem?] at h
    exact ⟨l, h, rfl, rfl⟩
  · rintro ⟨l, h, h1, h2⟩
    refine ⟨(l, e.1), by rw [List.mem_zipIdx_iff_getElem?]; exact h, ?_⟩
    obtain ⟨i, k, x⟩ := e
    dsimp only at h1 h2 ⊢
    rw [h1, h2]

theorem mem_slots_media {s : Sess} {i x : Nat} : (i, Kind.media, x) ∈ s.slots ↔ (i, x) ∈ s.keys := by
  unfold Sess.slots Sess.keys
  constructor
  · intro h
    rcases List.mem_append.1 h with h | h
    · cases ha : s.app with
      | none => rw [ha] at h; cases h
      | some a => rw [ha, List.mem_singleton] at h; cases h
    · obtain ⟨m, hm, e⟩ := List.mem_map.1 h
      cases e
      exact List.mem_map.2 ⟨m, hm, rfl⟩
  · intro h
    obtain ⟨m, hm, e⟩ := List.mem_map.1 h
    cases e
    exact List.mem_append_right _ (List.mem_map.2 ⟨m, hm, rfl⟩)

theorem mem_slots_app {s : Sess} {i x : Nat} : (i, Kind.app, x) ∈ s.slots ↔ s.app = some (x, i) := by
  unfold Sess.slots
  constructor
  · intro h
    rcases List.mem_append.1 h with h | h
    · cases ha : s.app with
      | none => rw [ha] at h; cases h
      | some a => rw [ha, List.mem_singleton] at h; cases h; rfl
    · obtain ⟨m, hm, e⟩ := List.mem_map.1 h
      cases e
  · intro h
    rw [h]
    exact List.mem_append_left _ (List.mem_singleton.2 rfl)

theorem slots_no_unknown {s : Sess} {i x : Nat} : (i, Kind.unknown, x) ∉ s.slots := by
  unfold Sess.slots
  intro h
  rcases List.mem_append.1 h with h | h
  · cases ha : s.app with
    | none => rw [ha] at h; cases h
    | some a => rw [ha, List.mem_singleton] at h; cases h
  · obtain ⟨m, hm, e⟩ := List.mem_map.1 h
    cases e

theorem Follows.proper {s : Sess} {old new : List Line} (hw : s.Wf) (h : Follows s old new) : Proper s (old ++ new) := by
  have hold : ∀ (i : Nat) (l : Line), old[i]? = some l → (i, l.kind, l.mid) ∈ s.slots := by
    intro i l hl
    exact h.slots.symm.subset (mem_slotsOf.2 ⟨l, hl, rfl, rfl⟩)
  have hget : ∀ {i : Nat} {l : Line}, old[i]? = some l → (old ++ new)[i]? = some l := by
    intro i l hl
    obtain ⟨k, -⟩ := List.getElem?_eq_some_iff.1 hl
    rw [List.getElem?_append_left k]; exact hl
  refine ⟨?_, ?_, ?_, ?_⟩
  · intro l hl
    rcases List.mem_append.1 hl with hl | hl
    · obtain ⟨i, hi⟩ := List.mem_iff_getElem?.1 hl
      intro hc
      have := hold i l hi
      rw [hc] at this
      exact slots_no_unknown this
    · exact h.known l hl
  · unfold Distinct
    rw [List.pairwise_append]
    refine ⟨?_, ?_, ?_⟩
    · rw [List.pairwise_iff_getElem]
      intro i j hi hj hij k1 k2 e
      have e1 := hold i _ (List.getElem?_eq_getElem hi)
      have e2 := hold j _ (List.getElem?_eq_getElem hj)
      rw [k1, mem_slots_media] at e1
      rw [k2, mem_slots_media, ← e] at e2
      have hm := hw.mids
      rw [← keys_mids] at hm
      have := List.inj_on_of_nodup_map hm e1 e2 rfl
      have := congrArg Prod.fst this
      simp only at this
      omega
    · have hd := h.distinct
      rw [List.Nodup, List.pairwise_map] at hd
      exact hd.imp (fun h _ _ => h)
    · intro a ha b hb _ _ e
      obtain ⟨i, hi⟩ := List.mem_iff_getElem?.1 ha
      exact h.fresh b hb _ (hold i a hi) e
  · intro m hm
    have : (m.index, Kind.media, m.mid) ∈ s.slots := mem_slots_media.2 (List.mem_map.2 ⟨m, hm, rfl⟩)
    obtain ⟨l, h1, h2, h3⟩ := mem_slotsOf.1 (h.slots.subset this)
    exact ⟨l, hget h1, h2⟩
  · intro a i ha
    obtain ⟨l, h1, h2, h3⟩ := mem_slotsOf.1 (h.slots.subset (mem_slots_app.2 ha))
    exact ⟨l, hget h1, h2, h3⟩

/-- Such an SDP is taken. -/
theorem Follows.taken {isOffer : Bool} {b : Option (List Nat)} {s : Sess} {old new : List Line} (hw : s.Wf) (h : Follows s old new) :
    ∃ s' s'', syncFrom isOffer b s 0 (old ++ new) = (s', .ok (placesFrom old.length new)) ∧
      addNewLines isOffer b s' (placesFrom old.length new) = (s'', .ok ()) := by
  have hnd : (s.keys.map (·.2)).Nodup := by rw [keys_mids]; exact hw.mids
  obtain ⟨s1, e1, k1, a1⟩ := syncFrom_has (isOffer := isOffer) (b := b) (ls := old) (idx := 0) hnd (fun i l hl => by
    rw [Nat.zero_add]
    have := h.slots.symm.subset (mem_slotsOf.2 ⟨l, hl, rfl, rfl⟩ : (i, l.kind, l.mid) ∈ slotsOf old)
    cases hk : l.kind with
    | unknown => rw [hk] at this; exact absurd this slots_no_unknown
    | media => rw [hk, mem_slots_media] at this; exact .inl ⟨hk, this⟩
    | app => rw [hk, mem_slots_app] at this; exact .inr ⟨hk, _, this⟩)
  have e2 : syncFrom isOffer b s1 old.length new = (s1, .ok (placesFrom old.length new)) := by
    refine syncFrom_free (fun i l hl => ?_)
    have hlm := List.mem_of_getElem? hl
    unfold Free
    rw [k1, a1]
    cases hk : l.kind with
    | unknown => exact absurd hk (h.known l hlm)
    | app => exact .inr ⟨rfl, h.app l hlm hk⟩
    | media =>
      refine .inl ⟨rfl, fun k hkm => ⟨?_, ?_⟩⟩
      · have hm : (k.1, Kind.media, k.2) ∈ s.slots := mem_slots_media.2 hkm
        obtain ⟨l', h1, -⟩ := mem_slotsOf.1 (h.slots.subset hm)
        obtain ⟨k', -⟩ := List.getElem?_eq_some_iff.1 h1
        dsimp only at k'
        omega
      · exact h.fresh l hlm _ (mem_slots_media.2 hkm : (k.1, Kind.media, k.2) ∈ s.slots)
  obtain ⟨s2, e3⟩ := addNewLines_free (isOffer := isOffer) (b := b) (new := placesFrom old.length new) (s := s1)
    (fun p hp => h.known _ (placesFrom_mem hp)) (fun p hp hk => by rw [a1]; exact h.app _ (placesFrom_mem hp) hk) (by
      have := h.oneApp
      rw [← placesFrom_snd new old.length, List.pairwise_map] at this
      exact this)
  refine ⟨s1, s2, ?_, e3⟩
  rw [syncFrom_append e1, Nat.zero_add, e2]

end Str0m.Negotiate
