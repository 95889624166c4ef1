import Verif.Model.Negotiate
/-
  C42 (directions), C43 (DTLS roles), C61 (order of the m-lines).
-/
namespace Str0m.Negotiate

/-! ### Directions and roles by themselves -/

/-- **C42**: inverting twice is nothing, and exchanges sending and receiving; the text form is read back. -/
theorem C42_invert (d : Dir) :
    d.invert.invert = d ∧ d.invert.sending = d.receiving ∧ d.invert.receiving = d.sending ∧ Dir.ofString d.toStr = d := by
  cases d <;> decide

/-- **C43**: comparing is symmetric: one side gets the opposite of the other, and neither gets actpass. -/
theorem C43_compare (a b : Setup) :
    (∀ r, a.compareToRemote b = some r → b.compareToRemote a = some r.invert ∧ r ≠ .actPass) ∧
    (a.compareToRemote b = none ↔ a = b) ∧ a.invert.invert = a := by
  cases a <;> cases b <;> decide

/-! ### Lists -/

theorem updateFirst_eq {f : Media → Media} {x : Nat} : ∀ {l : List Media}, (l.map (·.mid)).Nodup →
    updateFirst (fun m => decide (m.mid = x)) f l = l.map (fun m => if m.mid = x then f m else m)
  | [], _ => rfl
  | a :: as, h => by
    have h' := List.nodup_cons.1 h
    unfold updateFirst
    by_cases ha : a.mid = x
    · rw [if_pos (by simpa using ha), List.map_cons, if_pos ha]
      congr 1
      have : ∀ m ∈ as, (if m.mid = x then f m else m) = m := by
        intro m hm
        rw [if_neg]
        intro hc
        exact h'.1 (List.mem_map.2 ⟨m, hm, hc.trans ha.symm⟩)
      rw [List.map_congr_left this, List.map_id']
    · rw [if_neg (by simpa using ha), List.map_cons, if_neg ha, updateFirst_eq h'.2]

theorem swapRemove_perm {α : Type} {l : List α} {i : Nat} (h : i < l.length) : (swapRemove l i).Perm (l.eraseIdx i) := by
  have hne : l ≠ [] := by intro hc; subst hc; simp at h
  unfold swapRemove
  rw [List.getLast?_eq_some_getLast hne]
  dsimp only
  split
  · rename_i hi
    rw [List.eraseIdx_eq_take_drop_succ, List.drop_of_length_le (by omega), List.append_nil, List.dropLast_eq_take]
    rw [show l.length - 1 = i from by omega]
  · rename_i hi
    obtain ⟨pre, x, post, rfl, rfl⟩ : ∃ pre x post, l = pre ++ x :: post ∧ i = pre.length :=
      ⟨l.take i, l[i], l.drop (i + 1), by simp, by rw [List.length_take]; omega⟩
    have hp : post ≠ [] := by
      intro hc; subst hc; simp at hi
    have e1 : ((pre ++ x :: post).set pre.length ((pre ++ x :: post).getLast hne)) = pre ++ post.getLast hp :: post := by
      rw [List.set_append_right _ _ (Nat.le_refl _), Nat.sub_self, List.set_cons_zero, List.getLast_append_of_ne_nil (h₂ := List.cons_ne_nil _ _), List.getLast_cons hp]
    have e2 : (pre ++ post.getLast hp :: post).dropLast = pre ++ post.getLast hp :: post.dropLast := by
      rw [List.dropLast_append_of_ne_nil (by simp), List.dropLast_cons_of_ne_nil hp]
    have e3 : (pre ++ x :: post).eraseIdx pre.length = pre ++ post := by
      rw [List.eraseIdx_append_of_length_le (Nat.le_refl _), Nat.sub_self]; rfl
    rw [e1, e2, e3]
    refine List.Perm.append_left _ ?_
    calc (post.getLast hp :: post.dropLast).Perm (post.dropLast ++ [post.getLast hp]) := (List.perm_append_singleton _ _).symm
      _ = post := List.dropLast_append_getLast hp

theorem eraseIdx_eq_filter {idx : Nat} : ∀ {l : List Media} {pos : Nat}, (l.map (·.index)).Nodup →
    l.findIdx? (fun m => decide (m.index = idx)) = some pos → pos < l.length ∧ l.eraseIdx pos = l.filter (fun m => decide (m.index ≠ idx))
  | [], _, _, h => by simp at h
  | a :: as, pos, hn, h => by
    have hn' := List.nodup_cons.1 hn
    rw [List.findIdx?_cons] at h
    by_cases ha : a.index = idx
    · rw [if_pos (by simpa using ha)] at h
      cases h
      refine ⟨by simp, ?_⟩
      rw [List.eraseIdx_cons_zero, List.filter_cons_of_neg (by simpa using ha)]
      symm
      rw [List.filter_eq_self]
      intro m hm
      have : m.index ≠ idx := fun hc => hn'.1 (List.mem_map.2 ⟨m, hm, hc.trans ha.symm⟩)
      simpa using this
    · rw [if_neg (by simpa using ha)] at h
      cases hf : as.findIdx? (fun m => decide (m.index = idx)) with
      | none => rw [hf] at h; cases h
      | some p =>
        rw [hf] at h
        cases h
        obtain ⟨h1, h2⟩ := eraseIdx_eq_filter hn'.2 hf
        refine ⟨by simp only [List.length_cons]; omega, ?_⟩
        rw [List.eraseIdx_cons_succ, h2, List.filter_cons_of_pos (by simpa using ha)]

/-! ### One line -/

/-- What becomes of a media that is there. -/
def proc1 (bundle : Option (List Nat)) (idx : Nat) (l : Line) (m : Media) : Option Media :=
  if l.kind ≠ .media then some m
  else if m.mid = l.mid then some (updateMedia bundle l m)
  else if m.index = idx then none
  else some m

@[simp] theorem updateMedia_index (b : Option (List Nat)) (l : Line) (m : Media) : (updateMedia b l m).index = m.index := by
  unfold updateMedia; split <;> rfl

@[simp] theorem updateMedia_mid (b : Option (List Nat)) (l : Line) (m : Media) : (updateMedia b l m).mid = m.mid := by
  unfold updateMedia; split <;> rfl

theorem proc1_key {b : Option (List Nat)} {idx : Nat} {l : Line} {m m' : Media} (h : proc1 b idx l m = some m') :
    m'.index = m.index ∧ m'.mid = m.mid := by
  unfold proc1 at h
  split at h
  · cases h; exact ⟨rfl, rfl⟩
  · split at h
    · cases h; simp
    · split at h
      · cases h
      · cases h; exact ⟨rfl, rfl⟩

theorem proc1_none {b : Option (List Nat)} {idx : Nat} {l : Line} (hl : l.kind ≠ .media) : proc1 b idx l = some := by
  funext m; unfold proc1; rw [if_pos hl]

/-- What a line does to the session. -/
theorem syncLine_ok {isOffer : Bool} {b : Option (List Nat)} {s s' : Sess} {idx : Nat} {l : Line} {isNew : Bool}
    (hi : (s.medias.map (·.index)).Nodup) (hm : (s.medias.map (·.mid)).Nodup)
    (h : syncLine isOffer b s idx l = (s', .ok isNew)) :
    s'.app = s.app ∧ s'.active = s.active ∧ s'.changeCounter = s.changeCounter ∧
    s'.medias.Perm (s.medias.filterMap (proc1 b idx l)) ∧
    (l.kind = .media → (isNew = true ∧ ∀ m ∈ s'.medias, m.index ≠ idx ∧ m.mid ≠ l.mid) ∨
      (isNew = false ∧ ∃ m ∈ s'.medias, m.index = idx ∧ m.mid = l.mid)) ∧
    (l.kind = .app → (isNew = true ∧ s.app = none) ∨ (isNew = false ∧ ∃ a, s.app = some (a, idx))) ∧
    (l.kind = .unknown → isNew = false) := by
  unfold syncLine at h
  cases hk : l.kind with
  | unknown =>
    rw [hk] at h
    cases h
    refine ⟨rfl, rfl, rfl, ?_, ?_, ?_, fun _ => rfl⟩
    · rw [proc1_none (by rw [hk]; simp), List.filterMap_some]
    · intro hc; cases hc
    · intro hc; cases hc
  | app =>
    rw [hk] at h
    dsimp only at h
    cases ha : s.app with
    | none =>
      rw [ha] at h
      cases h
      refine ⟨ha, rfl, rfl, ?_, ?_, fun _ => .inl ⟨rfl, rfl⟩, ?_⟩
      · rw [proc1_none (by rw [hk]; simp), List.filterMap_some]
      · intro hc; cases hc
      · intro hc; cases hc
    | some a =>
      obtain ⟨a, i⟩ := a
      rw [ha] at h
      dsimp only at h
      split at h
      · cases h
      · rename_i hne
        have hne : idx = i := by simpa using hne
        subst hne
        cases h
        refine ⟨ha, rfl, rfl, ?_, ?_, fun _ => .inr ⟨rfl, a, rfl⟩, ?_⟩
        · rw [proc1_none (by rw [hk]; simp), List.filterMap_some]
        · intro hc; cases hc
        · intro hc; cases hc
  | media =>
    rw [hk] at h
    dsimp only at h
    cases hf : s.medias.find? (fun m => decide (m.mid = l.mid)) with
    | some m =>
      rw [hf] at h
      dsimp only at h
      split at h
      · cases h
      · rename_i hne
        have hne : idx = m.index := by simpa using hne
        cases h
        have hmm := List.mem_of_find?_eq_some hf
        have hmid : m.mid = l.mid := by simpa using List.find?_some hf
        refine ⟨rfl, rfl, rfl, ?_, ?_, (fun hc => by cases hc), (fun hc => by cases hc)⟩
        · show (updateFirst _ _ s.medias).Perm _
          rw [updateFirst_eq hm]
          rw [show s.medias.filterMap (proc1 b idx l) = s.medias.map (fun m => if m.mid = l.mid then updateMedia b l m else m) from ?_]
          rw [← List.filterMap_eq_map]
          refine List.filterMap_congr (fun x hx => ?_)
          unfold proc1
          rw [if_neg (by rw [hk]; simp)]
          by_cases hx2 : x.mid = l.mid
          · rw [if_pos hx2, Function.comp_apply, if_pos hx2]
          · rw [if_neg hx2, if_neg, Function.comp_apply, if_neg hx2]
            intro hc
            have : x = m := List.inj_on_of_nodup_map hi hx hmm (hc.trans hne)
            exact hx2 (by rw [this, hmid])
        · intro _
          right
          refine ⟨rfl, updateMedia b l m, ?_, by simp [hne], by simp [hmid]⟩
          show _ ∈ updateFirst _ _ s.medias
          rw [updateFirst_eq hm]
          exact List.mem_map.2 ⟨m, hmm, by rw [if_pos hmid]⟩
    | none =>
      rw [hf] at h
      dsimp only at h
      have hno : ∀ x ∈ s.medias, x.mid ≠ l.mid := by
        intro x hx hc
        have := List.find?_eq_none.1 hf x hx
        exact this (by simpa using hc)
      cases hp : s.medias.findIdx? (fun m => decide (m.index = idx)) with
      | none =>
        rw [hp] at h
        cases h
        have hno2 : ∀ x ∈ s.medias, x.index ≠ idx := by
          intro x hx hc
          have := List.findIdx?_eq_none_iff.1 hp x hx
          simp [hc] at this
        refine ⟨rfl, rfl, rfl, ?_, fun _ => .inl ⟨rfl, fun x hx => ⟨hno2 x hx, hno x hx⟩⟩, (fun hc => by cases hc), (fun hc => by cases hc)⟩
        rw [show s.medias.filterMap (proc1 b idx l) = s.medias.filterMap some from ?_, List.filterMap_some]
        refine List.filterMap_congr (fun x hx => ?_)
        unfold proc1
        rw [if_neg (by rw [hk]; simp), if_neg (hno x hx), if_neg (hno2 x hx)]
      | some pos =>
        rw [hp] at h
        dsimp only at h
        split at h
        · cases h
        · obtain ⟨q1, q2⟩ := eraseIdx_eq_filter hi hp
          rw [List.getElem?_eq_getElem q1] at h
          dsimp only at h
          split at h
          · cases h
          · cases h
            have hperm := swapRemove_perm q1
            rw [q2] at hperm
            refine ⟨rfl, rfl, rfl, ?_, ?_, (fun hc => by cases hc), (fun hc => by cases hc)⟩
            · show (swapRemove s.medias pos).Perm _
              refine hperm.trans ?_
              rw [← List.filterMap_eq_filter]
              refine List.Perm.of_eq (List.filterMap_congr (fun x hx => ?_))
              unfold proc1
              rw [if_neg (by rw [hk]; simp), if_neg (hno x hx)]
              by_cases hx2 : x.index = idx
              · rw [if_pos hx2]; simp [Option.guard, hx2]
              · rw [if_neg hx2]; simp [Option.guard, hx2]
            · intro _
              left
              refine ⟨rfl, fun x hx => ?_⟩
              have hx' := hperm.subset hx
              rw [List.mem_filter] at hx'
              exact ⟨by simpa using hx'.2, hno x hx'.1⟩

/-! ### All lines -/

/-- What becomes of a media over all lines from `idx` on. -/
def procFrom (b : Option (List Nat)) : (idx : Nat) → List Line → Media → Option Media
  | _, [], m => some m
  | idx, l :: ls, m => (proc1 b idx l m).bind (procFrom b (idx + 1) ls)

theorem procFrom_key {b : Option (List Nat)} : ∀ {ls : List Line} {idx : Nat} {m m' : Media}, procFrom b idx ls m = some m' →
    m'.index = m.index ∧ m'.mid = m.mid
  | [], _, m, m', h => by cases h; exact ⟨rfl, rfl⟩
  | l :: ls, idx, m, m', h => by
    unfold procFrom at h
    obtain ⟨x, h1, h2⟩ := Option.bind_eq_some_iff.1 h
    obtain ⟨a1, a2⟩ := proc1_key h1
    obtain ⟨b1, b2⟩ := procFrom_key h2
    exact ⟨b1.trans a1, b2.trans a2⟩

/-- The media lines have different mids. -/
def Distinct (ls : List Line) : Prop := ls.Pairwise (fun a b => a.kind = .media → b.kind = .media → a.mid ≠ b.mid)

/-- Lines that are not for this media leave it alone. -/
theorem procFrom_other {b : Option (List Nat)} : ∀ {ls : List Line} {idx : Nat} {m : Media},
    (∀ l ∈ ls, l.kind = .media → l.mid ≠ m.mid) → m.index < idx → procFrom b idx ls m = some m
  | [], _, _, _, _ => rfl
  | l :: ls, idx, m, h, hi => by
    unfold procFrom
    have : proc1 b idx l m = some m := by
      unfold proc1
      split
      · rfl
      · rename_i hk
        have hk : l.kind = .media := by simpa using hk
        rw [if_neg (fun hc => h l (by simp) hk hc.symm), if_neg (by omega)]
    rw [this, Option.bind_some]
    exact procFrom_other (fun l hl => h l (List.mem_cons_of_mem _ hl)) (by omega)

/-- A media that is left has the mid of the line at its index, and was set from that line. -/
theorem procFrom_spec {b : Option (List Nat)} : ∀ {ls : List Line} {idx : Nat} {m m' : Media}, Distinct ls →
    procFrom b idx ls m = some m' → ∀ (i : Nat) (l : Line), ls[i]? = some l → l.kind = .media → m.index = idx + i →
    l.mid = m.mid ∧ ∃ m0, m' = updateMedia b l m0
  | [], _, _, _, _, _, i, l, hl, _, _ => by simp at hl
  | x :: ls, idx, m, m', hd, h, i, l, hl, hk, hi => by
    unfold procFrom at h
    obtain ⟨y, h1, h2⟩ := Option.bind_eq_some_iff.1 h
    obtain ⟨a1, a2⟩ := proc1_key h1
    have hd' := List.pairwise_cons.1 hd
    cases i with
    | zero =>
      simp only [List.getElem?_cons_zero, Option.some.injEq] at hl
      subst hl
      unfold proc1 at h1
      rw [if_neg (by simpa using hk)] at h1
      split at h1
      · rename_i hmid
        cases h1
        refine ⟨hmid.symm, m, ?_⟩
        rw [procFrom_other (fun l hl hlk => ?_) (by simp; omega)] at h2
        · cases h2; rfl
        · rw [updateMedia_mid, hmid]
          exact (hd'.1 l hl hk hlk).symm
      · split at h1
        · cases h1
        · omega
    | succ i =>
      rw [List.getElem?_cons_succ] at hl
      obtain ⟨c1, c2⟩ := procFrom_spec hd'.2 h2 i l hl hk (by omega)
      exact ⟨c1.trans a2, c2⟩

/-- What all lines together do. -/
theorem syncFrom_ok {isOffer : Bool} {b : Option (List Nat)} : ∀ {ls : List Line} {s s' : Sess} {idx : Nat} {new : List (Nat × Line)},
    (s.medias.map (·.index)).Nodup → (s.medias.map (·.mid)).Nodup → Distinct ls →
    syncFrom isOffer b s idx ls = (s', .ok new) →
    s'.app = s.app ∧ s'.active = s.active ∧ s'.changeCounter = s.changeCounter ∧
    s'.medias.Perm (s.medias.filterMap (procFrom b idx ls)) ∧
    (∀ p ∈ new, idx ≤ p.1 ∧ ls[p.1 - idx]? = some p.2) ∧ (new.map (·.1)).Pairwise (· < ·) ∧
    (∀ (i : Nat) (l : Line), ls[i]? = some l →
      (l.kind = .media → ((idx + i, l) ∈ new ∧ ∀ m ∈ s'.medias, m.index ≠ idx + i ∧ m.mid ≠ l.mid) ∨
        ((∀ p ∈ new, p.1 ≠ idx + i) ∧ ∃ m ∈ s'.medias, m.index = idx + i ∧ m.mid = l.mid)) ∧
      (l.kind = .app → ((idx + i, l) ∈ new ∧ s.app = none) ∨ ((∀ p ∈ new, p.1 ≠ idx + i) ∧ ∃ a, s.app = some (a, idx + i))) ∧
      (l.kind = .unknown → ∀ p ∈ new, p.1 ≠ idx + i))
  | [], s, s', idx, new, hi, hm, hd, h => by
    cases h
    refine ⟨rfl, rfl, rfl, ?_, by simp, by simp, by simp⟩
    rw [show procFrom b idx [] = some from rfl, List.filterMap_some]
  | x :: ls, s, s', idx, new, hi, hm, hd, h => by
    have hd' := List.pairwise_cons.1 hd
    unfold syncFrom at h
    cases h1 : syncLine isOffer b s idx x with
    | mk s1 r1 =>
    cases r1 with
    | error e => rw [h1] at h; cases h
    | ok isNew =>
    rw [h1] at h
    dsimp only at h
    cases h2 : syncFrom isOffer b s1 (idx + 1) ls with
    | mk s2 r2 =>
    cases r2 with
    | error e => rw [h2] at h; cases h
    | ok new2 =>
    rw [h2] at h
    dsimp only at h
    cases h
    obtain ⟨a1, a2, a3, a4, a5, a6, a7⟩ := syncLine_ok hi hm h1
    have key1 : ∀ {m' : Media}, m' ∈ s1.medias → ∃ m ∈ s.medias, m'.index = m.index ∧ m'.mid = m.mid := by
      intro m' hm'
      obtain ⟨m, e1, e2⟩ := List.mem_filterMap.1 (a4.subset hm')
      exact ⟨m, e1, proc1_key e2⟩
    have hsub : ∀ f : Media → Nat, (∀ m m', proc1 b idx x m = some m' → f m' = f m) → (s.medias.map f).Nodup → (s1.medias.map f).Nodup := by
      intro f hf hn
      have e : (s1.medias.map f).Perm ((s.medias.filterMap (proc1 b idx x)).map f) := a4.map f
      rw [e.nodup_iff]
      have : ∀ l : List Media, ((l.filterMap (proc1 b idx x)).map f).Sublist (l.map f) := by
        intro l
        induction l with
        | nil => exact .slnil
        | cons y l ih =>
          rw [List.filterMap_cons]
          cases hy : proc1 b idx x y with
          | none => exact .cons _ ih
          | some z => rw [List.map_cons, List.map_cons, hf y z hy]; exact .cons₂ _ ih
      exact hn.sublist (this _)
    have hi1 := hsub (·.index) (fun m m' e => (proc1_key e).1) hi
    have hm1 := hsub (·.mid) (fun m m' e => (proc1_key e).2) hm
    obtain ⟨b1, b2, b3, b4, b5, b6, b7⟩ := syncFrom_ok hi1 hm1 hd'.2 h2
    refine ⟨b1.trans a1, b2.trans a2, b3.trans a3, ?_, ?_, ?_, ?_⟩
    · refine b4.trans ((a4.filterMap _).trans ?_)
      rw [List.filterMap_filterMap]
      exact .of_eq rfl
    · intro p hp
      have : p ∈ new2 → idx ≤ p.1 ∧ (x :: ls)[p.1 - idx]? = some p.2 := by
        intro hp
        obtain ⟨c1, c2⟩ := b5 p hp
        refine ⟨by omega, ?_⟩
        rw [show p.1 - idx = (p.1 - (idx + 1)) + 1 from by omega, List.getElem?_cons_succ]
        exact c2
      split at hp
      · rcases List.mem_cons.1 hp with hp | hp
        · subst hp; exact ⟨Nat.le_refl _, by simp⟩
        · exact this hp
      · exact this hp
    · split
      · rw [List.map_cons, List.pairwise_cons]
        refine ⟨?_, b6⟩
        intro j hj
        obtain ⟨p, hp, rfl⟩ := List.mem_map.1 hj
        have := (b5 p hp).1
        dsimp only
        omega
      · exact b6
    · intro i l hl
      have hnew2 : ∀ p ∈ new2, p.1 ≠ idx := by
        intro p hp
        have := (b5 p hp).1
        omega
      cases i with
      | zero =>
        simp only [List.getElem?_cons_zero, Option.some.injEq] at hl
        subst hl
        rw [Nat.add_zero]
        refine ⟨fun hk => ?_, fun hk => ?_, fun hk => ?_⟩
        · rcases a5 hk with ⟨e, hall⟩ | ⟨e, m, hm1', e1, e2⟩
          · subst e
            refine .inl ⟨by simp, fun m hm' => ?_⟩
            obtain ⟨y, e1, e2⟩ := List.mem_filterMap.1 (b4.subset hm')
            obtain ⟨k1, k2⟩ := procFrom_key e2
            rw [k1, k2]
            exact hall y e1
          · subst e
            refine .inr ⟨by simpa using hnew2, m, ?_, e1, e2⟩
            refine b4.symm.subset (List.mem_filterMap.2 ⟨m, hm1', procFrom_other (fun l hl hlk => ?_) (by omega)⟩)
            rw [e2]
            exact (hd'.1 l hl hk hlk).symm
        · rcases a6 hk with ⟨e, hall⟩ | ⟨e, hall⟩
          · subst e; exact .inl ⟨by simp, hall⟩
          · subst e; exact .inr ⟨by simpa using hnew2, hall⟩
        · rw [a7 hk]; simpa using hnew2
      | succ i =>
        rw [List.getElem?_cons_succ] at hl
        obtain ⟨c1, c2, c3⟩ := b7 i l hl
        rw [show idx + (i + 1) = idx + 1 + i from by omega]
        have hmem : ∀ p, p ∈ new2 → p ∈ (if isNew = true then (idx, x) :: new2 else new2) := by
          intro p hp; split
          · exact List.mem_cons_of_mem _ hp
          · exact hp
        have hno : (∀ p ∈ new2, p.1 ≠ idx + 1 + i) → ∀ p ∈ (if isNew = true then (idx, x) :: new2 else new2), p.1 ≠ idx + 1 + i := by
          intro hall p hp
          split at hp
          · rcases List.mem_cons.1 hp with hp | hp
            · subst hp; dsimp only; omega
            · exact hall p hp
          · exact hall p hp
        refine ⟨fun hk => ?_, fun hk => ?_, fun hk => hno (c3 hk)⟩
        · rcases c1 hk with ⟨e, hall⟩ | ⟨e, hall⟩
          · exact .inl ⟨hmem _ e, hall⟩
          · exact .inr ⟨hno e, hall⟩
        · rcases c2 hk with ⟨e, hall⟩ | ⟨e, hall⟩
          · exact .inl ⟨hmem _ e, by rw [← a1]; exact hall⟩
          · exact .inr ⟨hno e, by rw [← a1]; exact hall⟩

/-- What adding the new lines does. -/
theorem addNewLines_ok {isOffer : Bool} {b : Option (List Nat)} : ∀ {new : List (Nat × Line)} {s s' : Sess},
    addNewLines isOffer b s new = (s', .ok ()) →
    s'.active = s.active ∧ s'.changeCounter = s.changeCounter ∧
    s'.medias = s.medias ++ (new.filter (fun p => decide (p.2.kind = .media))).map (fun p => updateMedia b p.2 (Media.ofLine p.2 p.1 isOffer)) ∧
    (∀ p ∈ new, p.2.kind = .app → s'.app = some (p.2.mid, p.1)) ∧
    (s'.app = s.app ∨ ∃ p ∈ new, p.2.kind = .app ∧ s'.app = some (p.2.mid, p.1)) ∧
    (∀ a, s.app = some a → s'.app = some a)
  | [], s, s', h => by cases h; simp
  | (idx, l) :: new, s, s', h => by
    unfold addNewLines at h
    cases hk : l.kind with
    | unknown => rw [hk] at h; cases h
    | media =>
      rw [hk] at h
      dsimp only at h
      obtain ⟨a1, a2, a3, a4, a5, a6⟩ := addNewLines_ok h
      refine ⟨a1, a2, ?_, ?_, ?_, a6⟩
      · rw [a3, List.filter_cons_of_pos (by simpa using hk), List.map_cons, List.append_assoc]; rfl
      · intro p hp hpk
        rcases List.mem_cons.1 hp with hp | hp
        · subst hp; rw [hk] at hpk; cases hpk
        · exact a4 p hp hpk
      · rcases a5 with e | ⟨p, hp, e⟩
        · exact .inl e
        · exact .inr ⟨p, List.mem_cons_of_mem _ hp, e⟩
    | app =>
      rw [hk] at h
      dsimp only at h
      have hset : ∀ s1, s.setApp l.mid idx = .ok s1 → s1.medias = s.medias ∧ s1.active = s.active ∧ s1.changeCounter = s.changeCounter ∧
          s1.app = some (l.mid, idx) ∧ (∀ a, s.app = some a → s1.app = some a) := by
        intro s1 h1
        unfold Sess.setApp at h1
        cases ha : s.app with
        | none => rw [ha] at h1; cases h1; simp
        | some a =>
          obtain ⟨m, i⟩ := a
          rw [ha] at h1
          dsimp only at h1
          split at h1
          · cases h1
          · split at h1
            · cases h1
            · rename_i e1 e2
              cases h1
              have e1 : m = l.mid := by simpa using e1
              have e2 : i = idx := by simpa using e2
              subst e1; subst e2
              simp [ha]
      cases h1 : s.setApp l.mid idx with
      | error e => rw [h1] at h; cases h
      | ok s1 =>
        rw [h1] at h
        dsimp only at h
        obtain ⟨b1, b2, b3, b4, b5⟩ := hset s1 h1
        obtain ⟨a1, a2, a3, a4, a5, a6⟩ := addNewLines_ok h
        refine ⟨a1.trans b2, a2.trans b3, ?_, ?_, ?_, fun a ha => a6 a (b5 a ha)⟩
        · rw [a3, List.filter_cons_of_neg (by simp [hk]), b1]
        · intro p hp hpk
          rcases List.mem_cons.1 hp with hp | hp
          · subst hp; exact a6 _ b4
          · exact a4 p hp hpk
        · exact .inr ⟨(idx, l), by simp, hk, a6 _ b4⟩

/-- The slots of a session: index, kind and mid of its lines. -/
def Sess.slots (s : Sess) : List (Nat × Kind × Nat) :=
  (match s.app with | some a => [(a.2, Kind.app, a.1)] | none => []) ++ s.medias.map (fun m => (m.index, Kind.media, m.mid))

/-- The slots of an SDP. -/
def slotsOf (ls : List Line) : List (Nat × Kind × Nat) := ls.zipIdx.map (fun p => (p.2, p.1.kind, p.1.mid))

/-- The session occupies the indices from 0 on, each once, and no mid twice. -/
structure Sess.Wf (s : Sess) : Prop where
  indices : (s.slots.map (·.1)).Perm (List.range s.slots.length)
  mids : (s.medias.map (·.mid)).Nodup

/-- An SDP that keeps to what was negotiated: only kinds that are known, no mid twice among the media lines, and a line
of the same kind wherever the session has one (for the application with the same mid). A media may be replaced by another. -/
structure Proper (s : Sess) (ls : List Line) : Prop where
  known : ∀ l ∈ ls, l.kind ≠ .unknown
  distinct : Distinct ls
  medias : ∀ m ∈ s.medias, ∃ l, ls[m.index]? = some l ∧ l.kind = .media
  app : ∀ a i, s.app = some (a, i) → ∃ l, ls[i]? = some l ∧ l.kind = .app ∧ l.mid = a

theorem Sess.Wf.index_nodup {s : Sess} (h : s.Wf) : (s.slots.map (·.1)).Nodup := h.indices.nodup_iff.2 List.nodup_range

theorem Sess.Wf.media_index_nodup {s : Sess} (h : s.Wf) : (s.medias.map (·.index)).Nodup := by
  have := h.index_nodup
  unfold Sess.slots at this
  rw [List.map_append, List.map_map] at this
  exact (List.nodup_append.1 this).2.1

/-- After an SDP was applied: the slots are those of the SDP, and every media was set from its line. -/
theorem accept_core {isOffer : Bool} {b : Option (List Nat)} {ls : List Line} {s s' s'' : Sess} {new : List (Nat × Line)}
    (hw : s.Wf) (hp : Proper s ls) (h1 : syncFrom isOffer b s 0 ls = (s', .ok new)) (h2 : addNewLines isOffer b s' new = (s'', .ok ())) :
    s''.slots.Perm (slotsOf ls) ∧ s''.Wf ∧ s''.active = s.active ∧ s''.changeCounter = s.changeCounter ∧
    ∀ m ∈ s''.medias, ∃ l m0, ls[m.index]? = some l ∧ l.kind = .media ∧ m = updateMedia b l m0 := by
  obtain ⟨a1, a2, a3, a4, a5, a6, a7⟩ := syncFrom_ok hw.media_index_nodup hw.mids hp.distinct h1
  obtain ⟨b1, b2, b3, b4, b5, b6⟩ := addNewLines_ok h2
  simp only [Nat.zero_add] at a7
  simp only [Nat.sub_zero] at a5
  -- the medias that were there
  have hold : ∀ m ∈ s'.medias, ∃ l m0, ls[m.index]? = some l ∧ l.kind = .media ∧ l.mid = m.mid ∧ m = updateMedia b l m0 := by
    intro m hm
    obtain ⟨x, hx, e⟩ := List.mem_filterMap.1 (a4.subset hm)
    obtain ⟨k1, k2⟩ := procFrom_key e
    obtain ⟨l, hl, hk⟩ := hp.medias x hx
    obtain ⟨c1, m0, c2⟩ := procFrom_spec hp.distinct e x.index l hl hk (by omega)
    exact ⟨l, m0, by rw [k1]; exact hl, hk, by rw [k2]; exact c1, c2⟩
  have hnewmem : ∀ m, m ∈ (new.filter (fun p => decide (p.2.kind = .media))).map (fun p => updateMedia b p.2 (Media.ofLine p.2 p.1 isOffer)) →
      ∃ p ∈ new, p.2.kind = .media ∧ m = updateMedia b p.2 (Media.ofLine p.2 p.1 isOffer) ∧ m.index = p.1 ∧ m.mid = p.2.mid ∧
        (∀ x ∈ s'.medias, x.index ≠ p.1 ∧ x.mid ≠ p.2.mid) := by
    intro m hm
    obtain ⟨p, hp', e⟩ := List.mem_map.1 hm
    rw [List.mem_filter] at hp'
    obtain ⟨hp1, hp2⟩ := hp'
    have hp2 : p.2.kind = .media := by simpa using hp2
    refine ⟨p, hp1, hp2, e.symm, by rw [← e]; simp [Media.ofLine], by rw [← e]; simp [Media.ofLine], ?_⟩
    rcases (a7 p.1 p.2 (a5 p hp1).2).1 hp2 with ⟨-, hall⟩ | ⟨hall, -⟩
    · exact hall
    · exact absurd rfl (hall p hp1)
  have hall : ∀ m ∈ s''.medias, ∃ l m0, ls[m.index]? = some l ∧ l.kind = .media ∧ l.mid = m.mid ∧ m = updateMedia b l m0 := by
    intro m hm
    rw [b3] at hm
    rcases List.mem_append.1 hm with hm | hm
    · exact hold m hm
    · obtain ⟨p, q1, q2, q3, q4, q5, q6⟩ := hnewmem m hm
      exact ⟨p.2, _, by rw [q4]; exact (a5 p q1).2, q2, q5.symm, q3⟩
  have happ : ∀ a i, s''.app = some (a, i) → ∃ l, ls[i]? = some l ∧ l.kind = .app ∧ l.mid = a := by
    intro a i h
    rcases b5 with e | ⟨p, hp1, hk, e⟩
    · exact hp.app a i (by rw [← a1, ← e]; exact h)
    · rw [e] at h; cases h
      exact ⟨p.2, (a5 p hp1).2, hk, rfl⟩
  -- mids
  have filt : ∀ f : Media → Nat, (∀ m m', procFrom b 0 ls m = some m' → f m' = f m) → (s.medias.map f).Nodup → (s'.medias.map f).Nodup := by
    intro f hf hn
    have e : (s'.medias.map f).Perm ((s.medias.filterMap (procFrom b 0 ls)).map f) := a4.map f
    rw [e.nodup_iff]
    have : ∀ l : List Media, ((l.filterMap (procFrom b 0 ls)).map f).Sublist (l.map f) := by
      intro l
      induction l with
      | nil => exact .slnil
      | cons y l ih =>
        rw [List.filterMap_cons]
        cases hy : procFrom b 0 ls y with
        | none => exact .cons _ ih
        | some z => rw [List.map_cons, List.map_cons, hf y z hy]; exact .cons₂ _ ih
    exact hn.sublist (this _)
  have hi' := filt (·.index) (fun m m' e => (procFrom_key e).1) hw.media_index_nodup
  have hnewidx : (((new.filter (fun p => decide (p.2.kind = .media))).map (fun p => updateMedia b p.2 (Media.ofLine p.2 p.1 isOffer))).map (·.index)).Nodup := by
    rw [List.map_map]
    have e : ((fun m : Media => m.index) ∘ fun p : Nat × Line => updateMedia b p.2 (Media.ofLine p.2 p.1 isOffer)) = fun p => p.1 := by
      funext p; simp [Media.ofLine]
    rw [e]
    have hn : (new.map (·.1)).Nodup := a6.imp (fun h => Nat.ne_of_lt h)
    exact hn.sublist (List.Sublist.map _ List.filter_sublist)
  have hidx : (s''.medias.map (·.index)).Nodup := by
    rw [b3, List.map_append, List.nodup_append]
    refine ⟨hi', hnewidx, ?_⟩
    intro i h1 j h2 e
    subst e
    obtain ⟨x, hx, ex⟩ := List.mem_map.1 h1
    obtain ⟨y, hy, ey⟩ := List.mem_map.1 h2
    obtain ⟨p, q1, q2, q3, q4, q5, q6⟩ := hnewmem y hy
    exact (q6 x hx).1 (by rw [ex, ← ey, q4])
  have hslotidx : (s''.slots.map (·.1)).Nodup := by
    unfold Sess.slots
    cases ha : s''.app with
    | none => simpa [List.map_map, Function.comp_def] using hidx
    | some a =>
      obtain ⟨a, i⟩ := a
      simp only [List.cons_append, List.nil_append, List.map_cons, List.map_map, Function.comp_def, List.nodup_cons]
      refine ⟨?_, hidx⟩
      intro hc
      obtain ⟨m, hm, e⟩ := List.mem_map.1 hc
      obtain ⟨l, m0, q1, q2, -⟩ := hall m hm
      obtain ⟨l', q1', q2', -⟩ := happ a i ha
      rw [e] at q1
      rw [q1] at q1'
      cases q1'
      rw [q2] at q2'
      cases q2'
  have hmem : ∀ e, e ∈ s''.slots → e ∈ slotsOf ls := by
    intro e he
    unfold Sess.slots at he
    have gen : ∀ (i : Nat) (l : Line), ls[i]? = some l → (i, l.kind, l.mid) ∈ slotsOf ls := by
      intro i l hl
      exact List.mem_map.2 ⟨(l, i), by rw [List.mem_zipIdx_iff_getElem?]; exact hl, rfl⟩
    rcases List.mem_append.1 he with he | he
    · cases ha : s''.app with
      | none => rw [ha] at he; cases he
      | some a =>
        obtain ⟨a, i⟩ := a
        rw [ha] at he
        simp only [List.mem_singleton] at he
        obtain ⟨l, q1, q2, q3⟩ := happ a i ha
        rw [he, ← q2, ← q3]
        exact gen i l q1
    · obtain ⟨m, hm, e1⟩ := List.mem_map.1 he
      obtain ⟨l, m0, q1, q2, q3, -⟩ := hall m hm
      rw [← e1, ← q2, ← q3]
      exact gen _ l q1
  have hexists : ∀ i, i < ls.length → ∃ e ∈ s''.slots, e.1 = i := by
    intro i hi
    have hl := List.getElem?_eq_getElem hi
    obtain ⟨c1, c2, c3⟩ := a7 i _ hl
    have inApp : ∀ a, s''.app = some (a, i) → ∃ e ∈ s''.slots, e.1 = i := by
      intro a ha
      refine ⟨(i, .app, a), ?_, rfl⟩
      unfold Sess.slots
      rw [ha]
      simp
    have inMed : ∀ m ∈ s''.medias, m.index = i → ∃ e ∈ s''.slots, e.1 = i := by
      intro m hm e
      refine ⟨(m.index, .media, m.mid), ?_, e⟩
      unfold Sess.slots
      exact List.mem_append_right _ (List.mem_map.2 ⟨m, hm, rfl⟩)
    cases hk : ls[i].kind with
    | unknown => exact absurd hk (hp.known _ (List.getElem_mem hi))
    | app =>
      rcases c2 hk with ⟨e1, e2⟩ | ⟨e1, a, e2⟩
      · exact inApp _ (b4 _ e1 hk)
      · exact inApp a (b6 _ (by rw [a1]; exact e2))
    | media =>
      rcases c1 hk with ⟨e1, e2⟩ | ⟨e1, m, e2, e3, e4⟩
      · refine inMed _ (by rw [b3]; exact List.mem_append_right _ (List.mem_map.2 ⟨_, List.mem_filter.2 ⟨e1, by simpa using hk⟩, rfl⟩)) ?_
        simp [Media.ofLine]
      · exact inMed m (by rw [b3]; exact List.mem_append_left _ e2) e3
  have hsn : (slotsOf ls).map (·.1) = List.range ls.length := by
    unfold slotsOf
    rw [List.map_map]
    show ls.zipIdx.map Prod.snd = _
    rw [List.zipIdx_map_snd, List.range_eq_range']
  have hperm : s''.slots.Perm (slotsOf ls) := by
    rw [List.perm_ext_iff_of_nodup (List.Nodup.of_map _ hslotidx) (List.Nodup.of_map (·.1) (by rw [hsn]; exact List.nodup_range))]
    intro e
    refine ⟨hmem e, fun he => ?_⟩
    have hi : e.1 < ls.length := by
      have : e.1 ∈ (slotsOf ls).map (·.1) := List.mem_map.2 ⟨e, he, rfl⟩
      rw [hsn, List.mem_range] at this
      exact this
    obtain ⟨e', he', heq⟩ := hexists e.1 hi
    have : e' = e := List.inj_on_of_nodup_map (by rw [hsn]; exact List.nodup_range) (hmem e' he') he heq
    rw [← this]
    exact he'
  refine ⟨hperm, ⟨?_, ?_⟩, b1.trans a2, b2.trans a3, ?_⟩
  · rw [hperm.length_eq]
    refine (hperm.map _).trans ?_
    rw [hsn]
    unfold slotsOf
    rw [List.length_map, List.length_zipIdx]
  · refine (List.nodup_map_iff_inj_on (List.Nodup.of_map _ hidx)).2 (fun x hx y hy e => ?_)
    obtain ⟨l, m0, q1, q2, q3, -⟩ := hall x hx
    obtain ⟨l', m0', q1', q2', q3', -⟩ := hall y hy
    refine List.inj_on_of_nodup_map hidx hx hy ?_
    obtain ⟨k1, k2⟩ := List.getElem?_eq_some_iff.1 q1
    obtain ⟨k1', k2'⟩ := List.getElem?_eq_some_iff.1 q1'
    rcases Nat.lt_trichotomy x.index y.index with hlt | he | hlt
    · exact absurd (by rw [k2, k2', q3, q3', e]) (List.pairwise_iff_getElem.1 hp.distinct _ _ k1 k1' hlt (by rw [k2]; exact q2) (by rw [k2']; exact q2'))
    · exact he
    · exact absurd (by rw [k2, k2', q3, q3', e]) (List.pairwise_iff_getElem.1 hp.distinct _ _ k1' k1 hlt (by rw [k2']; exact q2') (by rw [k2]; exact q2))
  · intro m hm
    obtain ⟨l, m0, q1, q2, -, q4⟩ := hall m hm
    exact ⟨l, m0, q1, q2, q4⟩

end Str0m.Negotiate
