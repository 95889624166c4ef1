import Verif.Spec.SsrcLines
import Mathlib.Data.List.Nodup
import Mathlib.Data.List.Induction
/-
  C133: one side expects the SSRCs that the other told.
-/
namespace Str0m.SsrcLines

/-! ### Closed form of `ssrc_info` -/

/-- Append what is not there yet. -/
def addAll (m : List Nat) (xs : List Nat) : List Nat := xs.foldl (fun m x => if x ∈ m then m else m ++ [x]) m

/-- SSRCs of the `a=ssrc` lines -/
def lines : List Attr → List Nat := List.filterMap (fun a => match a with | .ssrc s => some s | _ => none)

/-- the FID groups -/
def fids : List Attr → List (Nat × Nat) := List.filterMap (fun a => match a with | .group true [m, x] => some (m, x) | _ => none)

/-- the last FID group that has it second -/
def repaired (gs : List (Nat × Nat)) (s : Nat) : Option Nat := ((gs.filter (fun g => g.2 = s)).getLast?).map (·.1)

theorem addAll_snoc (m xs : List Nat) (x : Nat) : addAll m (xs ++ [x]) = if x ∈ addAll m xs then addAll m xs else addAll m xs ++ [x] := by
  unfold addAll; rw [List.foldl_append]; rfl

theorem mem_addAll {m xs : List Nat} {y : Nat} : y ∈ addAll m xs ↔ y ∈ m ∨ y ∈ xs := by
  induction xs using List.reverseRecOn generalizing y with
  | nil => simp [addAll]
  | append_singleton xs x ih =>
    rw [addAll_snoc]
    split
    · rename_i h
      rw [ih, List.mem_append, List.mem_singleton]
      rw [ih] at h
      constructor
      · rintro (h | h); exacts [Or.inl h, Or.inr (Or.inl h)]
      · rintro (h' | h' | rfl); exacts [Or.inl h', Or.inr h', h]
    · rw [List.mem_append, List.mem_append, ih, List.mem_singleton, or_assoc]

theorem addAll_nodup {m xs : List Nat} (h : m.Nodup) : (addAll m xs).Nodup := by
  induction xs using List.reverseRecOn with
  | nil => exact h
  | append_singleton xs x ih =>
    rw [addAll_snoc]
    split
    · exact ih
    · rename_i hx
      rw [List.nodup_append]
      exact ⟨ih, List.nodup_singleton _, fun a ha b hb e => hx (by rw [List.mem_singleton] at hb; rw [← hb, ← e]; exact ha)⟩

theorem bySsrc_map (m : List Nat) (f : Nat → Option Nat) (x : Nat) (hf : x ∉ m → f x = none) :
    bySsrc (m.map (fun s => { ssrc := s, repairs := f s })) x =
      (if x ∈ m then m else m ++ [x]).map (fun s => { ssrc := s, repairs := f s }) := by
  unfold bySsrc
  by_cases h : x ∈ m
  · rw [if_pos h, if_pos]
    rw [List.any_eq_true]
    exact ⟨_, List.mem_map.2 ⟨x, h, rfl⟩, decide_eq_true rfl⟩
  · rw [if_neg h, if_neg]
    · rw [List.map_append, List.map_cons, List.map_nil, hf h]
    · rw [List.any_eq_true]
      rintro ⟨i, hi, e⟩
      obtain ⟨s, hs, rfl⟩ := List.mem_map.1 hi
      exact h (of_decide_eq_true e ▸ hs)

theorem first_pass (attrs : List Attr) : attrs.foldl lineOf [] = (addAll [] (lines attrs)).map (fun s => { ssrc := s }) := by
  induction attrs using List.reverseRecOn with
  | nil => rfl
  | append_singleton attrs a ih =>
    rw [List.foldl_append, List.foldl_cons, List.foldl_nil, ih]
    have hl : lines (attrs ++ [a]) = lines attrs ++ lines [a] := List.filterMap_append
    rw [hl]
    cases a with
    | ssrc s =>
      show bySsrc _ s = _
      rw [show lines [.ssrc s] = [s] from rfl, addAll_snoc, bySsrc_map _ (fun _ => none) s (fun _ => rfl)]
    | group f l => rw [show lines [.group f l] = [] from rfl, List.append_nil]; rfl
    | other n => rw [show lines [.other n] = [] from rfl, List.append_nil]; rfl

theorem repaired_snoc (gs : List (Nat × Nat)) (g : Nat × Nat) (s : Nat) :
    repaired (gs ++ [g]) s = if g.2 = s then some g.1 else repaired gs s := by
  unfold repaired
  rw [List.filter_append]
  by_cases h : g.2 = s
  · rw [if_pos h]
    have : [g].filter (fun g => decide (g.2 = s)) = [g] := by simp [h]
    rw [this, List.getLast?_append]; rfl
  · rw [if_neg h]
    have : [g].filter (fun g => decide (g.2 = s)) = [] := by simp [h]
    rw [this, List.append_nil]

theorem repaired_none {gs : List (Nat × Nat)} {s : Nat} (h : ∀ g ∈ gs, g.2 ≠ s) : repaired gs s = none := by
  unfold repaired
  rw [List.filter_eq_nil_iff.2 (fun g hg => by simpa using h g hg)]; rfl

theorem repaired_some {gs : List (Nat × Nat)} {s m : Nat} (h : repaired gs s = some m) : (m, s) ∈ gs := by
  unfold repaired at h
  rw [Option.map_eq_some_iff] at h
  obtain ⟨⟨a, b⟩, hg, rfl⟩ := h
  have := List.mem_of_getLast? hg
  obtain ⟨h1, h2⟩ := List.mem_filter.1 this
  have : b = s := of_decide_eq_true h2
  subst this; exact h1

theorem repaired_isSome {gs : List (Nat × Nat)} {s m : Nat} (h : (m, s) ∈ gs) : ∃ m', repaired gs s = some m' := by
  cases hr : repaired gs s with
  | some m' => exact ⟨m', rfl⟩
  | none =>
    unfold repaired at hr
    rw [Option.map_eq_none_iff, List.getLast?_eq_none_iff, List.filter_eq_nil_iff] at hr
    exact absurd (decide_eq_true rfl) (hr (m, s) h)

theorem fids_step (v : List Info) (a : Attr) :
    groupOf v a = (match fids [a] with | [] => v | g :: _ => setRepairs (bySsrc v g.2) g.2 g.1) ∧ (fids [a]).length ≤ 1 := by
  cases a with
  | ssrc s => exact ⟨rfl, Nat.zero_le _⟩
  | other n => exact ⟨rfl, Nat.zero_le _⟩
  | group f l =>
    cases f with
    | false => exact ⟨rfl, Nat.zero_le _⟩
    | true =>
      rcases l with _ | ⟨a, _ | ⟨b, _ | ⟨c, l⟩⟩⟩
      · exact ⟨rfl, Nat.zero_le _⟩
      · exact ⟨rfl, Nat.zero_le _⟩
      · exact ⟨rfl, Nat.le_refl _⟩
      · exact ⟨rfl, Nat.zero_le _⟩

theorem second_pass (m : List Nat) (attrs : List Attr) :
    attrs.foldl groupOf (m.map (fun s => { ssrc := s })) =
      (addAll m ((fids attrs).map (·.2))).map (fun s => { ssrc := s, repairs := repaired (fids attrs) s }) := by
  induction attrs using List.reverseRecOn with
  | nil => rfl
  | append_singleton attrs a ih =>
    rw [List.foldl_append, List.foldl_cons, List.foldl_nil, ih]
    have hl : fids (attrs ++ [a]) = fids attrs ++ fids [a] := List.filterMap_append
    rw [hl]
    obtain ⟨h1, h2⟩ := fids_step ((addAll m ((fids attrs).map (·.2))).map (fun s => { ssrc := s, repairs := repaired (fids attrs) s })) a
    rw [h1]
    cases hf : fids [a] with
    | nil => rw [List.append_nil]
    | cons g gs =>
      rw [hf] at h2
      have hgs : gs = [] := by cases gs with
        | nil => rfl
        | cons _ _ => simp at h2
      subst hgs
      dsimp only
      rw [bySsrc_map _ (repaired (fids attrs)) g.2 ?_, List.map_append, List.map_cons, List.map_nil, addAll_snoc]
      · unfold setRepairs
        rw [List.map_map]
        apply List.map_congr_left
        intro s _
        dsimp only [Function.comp]
        rw [repaired_snoc]
        by_cases e : s = g.2
        · rw [if_pos e, if_pos e.symm]
        · rw [if_neg e, if_neg (fun h => e h.symm)]
      · intro hn
        rw [mem_addAll] at hn
        exact repaired_none (fun g' hg' e => hn (Or.inr (List.mem_map.2 ⟨g', hg', e⟩)))

theorem ssrcInfo_eq (attrs : List Attr) : ssrcInfo attrs =
    (addAll (addAll [] (lines attrs)) ((fids attrs).map (·.2))).map (fun s => { ssrc := s, repairs := repaired (fids attrs) s }) := by
  unfold ssrcInfo
  rw [first_pass, second_pass]

/-! ### What the lines of any peer mean -/

theorem mem_fids {attrs : List Attr} {m x : Nat} : (m, x) ∈ fids attrs ↔ Attr.group true [m, x] ∈ attrs := by
  unfold fids
  rw [List.mem_filterMap]
  constructor
  · rintro ⟨a, ha, h⟩
    cases a with
    | ssrc s => cases h
    | other n => cases h
    | group f l =>
      cases f with
      | false => cases h
      | true =>
        rcases l with _ | ⟨a, _ | ⟨b, _ | ⟨c, l⟩⟩⟩
        · cases h
        · cases h
        · cases h; exact ha
        · cases h
  · intro h; exact ⟨_, h, rfl⟩

theorem mem_lines {attrs : List Attr} {s : Nat} : s ∈ lines attrs ↔ Attr.ssrc s ∈ attrs := by
  unfold lines
  rw [List.mem_filterMap]
  constructor
  · rintro ⟨a, ha, h⟩
    cases a with
    | ssrc s => cases h; exact ha
    | other n => cases h
    | group f l => cases h
  · intro h; exact ⟨_, h, rfl⟩

theorem mem_mains {attrs : List Attr} {p : Nat × Option Nat} (h : p ∈ mains (ssrcInfo attrs)) :
    p.1 ∈ lines attrs ∧ repaired (fids attrs) p.1 = none ∧
      p.2 = ((ssrcInfo attrs).find? (fun r => r.repairs = some p.1)).map (·.ssrc) := by
  obtain ⟨i, hi, rfl⟩ := List.mem_map.1 h
  obtain ⟨h1, h2⟩ := List.mem_filter.1 hi
  rw [ssrcInfo_eq] at h1
  obtain ⟨s, hs, rfl⟩ := List.mem_map.1 h1
  have hr : repaired (fids attrs) s = none := by simpa using h2
  refine ⟨?_, hr, rfl⟩
  rw [mem_addAll, mem_addAll] at hs
  rcases hs with (hs | hs) | hs
  · cases hs
  · exact hs
  · obtain ⟨g, hg, e⟩ := List.mem_map.1 hs
    obtain ⟨m', hm'⟩ := repaired_isSome (show (g.1, s) ∈ fids attrs from e ▸ hg)
    rw [hr] at hm'; cases hm'

/-- **C133, any peer**: the streams expected are those with an `a=ssrc` line that no FID group has second, each once. -/
theorem C133_meaning (attrs : List Attr) : ((mains (ssrcInfo attrs)).map Prod.fst).Nodup ∧
    ∀ s, s ∈ (mains (ssrcInfo attrs)).map Prod.fst ↔ (Attr.ssrc s ∈ attrs ∧ ∀ m, Attr.group true [m, s] ∉ attrs) := by
  constructor
  · have : (mains (ssrcInfo attrs)).map Prod.fst = ((ssrcInfo attrs).filter (fun i => i.repairs.isNone)).map (·.ssrc) := by
      unfold mains; rw [List.map_map]; rfl
    rw [this]
    refine List.Nodup.sublist (List.Sublist.map _ List.filter_sublist) ?_
    rw [ssrcInfo_eq, List.map_map]
    have hid : ((fun i : Info => i.ssrc) ∘ fun s => ({ ssrc := s, repairs := repaired (fids attrs) s } : Info)) = id := rfl
    rw [hid, List.map_id]
    exact addAll_nodup (addAll_nodup List.nodup_nil)
  · intro s
    constructor
    · intro h
      obtain ⟨p, hp, rfl⟩ := List.mem_map.1 h
      obtain ⟨h1, h2, -⟩ := mem_mains hp
      refine ⟨mem_lines.1 h1, fun m hm => ?_⟩
      obtain ⟨m', hm'⟩ := repaired_isSome (mem_fids.2 hm)
      rw [h2] at hm'; cases hm'
    · rintro ⟨h1, h2⟩
      have hr : repaired (fids attrs) s = none := repaired_none (fun g hg e => h2 g.1 (mem_fids.1 (e ▸ hg)))
      refine List.mem_map.2 ⟨(s, _), List.mem_map.2 ⟨{ ssrc := s }, List.mem_filter.2 ⟨?_, rfl⟩, rfl⟩, rfl⟩
      rw [ssrcInfo_eq]
      refine List.mem_map.2 ⟨s, ?_, by rw [hr]⟩
      rw [mem_addAll, mem_addAll]
      exact Or.inl (Or.inr (mem_lines.2 h1))

/-- **C133, any peer**: the RTX SSRC of a stream is one that a FID group has after it; and there is one if some FID group
has one after it that no group has after another SSRC. -/
theorem C133_meaning_rtx (attrs : List Attr) (s : Nat) (r : Option Nat) (h : (s, r) ∈ mains (ssrcInfo attrs)) :
    (∀ x, r = some x → Attr.group true [s, x] ∈ attrs) ∧
    (∀ x, Attr.group true [s, x] ∈ attrs → (∀ m, Attr.group true [m, x] ∈ attrs → m = s) → r ≠ none) := by
  obtain ⟨-, -, h3⟩ := mem_mains h
  dsimp only at h3
  constructor
  · rintro x rfl
    cases hf : (ssrcInfo attrs).find? (fun r => r.repairs = some s) with
    | none => rw [hf] at h3; cases h3
    | some i =>
      rw [hf] at h3
      injection h3 with h3
      have h1 := List.mem_of_find?_eq_some hf
      have h2 : i.repairs = some s := of_decide_eq_true (List.find?_some (p := fun r : Info => decide (r.repairs = some s)) hf)
      rw [ssrcInfo_eq] at h1
      obtain ⟨y, -, rfl⟩ := List.mem_map.1 h1
      have h3 : x = y := h3
      subst h3
      exact mem_fids.1 (repaired_some h2)
  · intro x hx ho hr
    rw [hr] at h3
    have hf : (ssrcInfo attrs).find? (fun r => r.repairs = some s) = none := by
      cases hf : (ssrcInfo attrs).find? (fun r => r.repairs = some s) with
      | none => rfl
      | some i => rw [hf] at h3; cases h3
    rw [List.find?_eq_none] at hf
    obtain ⟨m, hm⟩ := repaired_isSome (mem_fids.2 hx)
    have := ho m (mem_fids.1 (repaired_some hm))
    subst this
    refine hf { ssrc := x, repairs := some m } ?_ (decide_eq_true rfl)
    rw [ssrcInfo_eq]
    refine List.mem_map.2 ⟨x, ?_, by rw [hm]⟩
    rw [mem_addAll]
    exact Or.inr (List.mem_map.2 ⟨(m, x), mem_fids.2 hx, rfl⟩)

/-! ### What str0m tells -/

theorem lines_announce (l : List (Nat × Option Nat)) : lines (announce l) = l.flatMap (fun p => p.1 :: p.1 :: p.2.toList.flatMap (fun x => [x, x])) := by
  unfold announce lines
  rw [List.filterMap_append]
  have h2 : (l.filterMap fidOf).filterMap (fun a => match a with | Attr.ssrc s => some s | _ => none) = [] := by
    rw [List.filterMap_eq_nil_iff]
    intro a ha
    obtain ⟨p, -, hp⟩ := List.mem_filterMap.1 ha
    unfold fidOf at hp
    rw [Option.map_eq_some_iff] at hp
    obtain ⟨x, -, rfl⟩ := hp
    rfl
  rw [h2, List.append_nil, List.filterMap_flatMap]
  congr 1
  funext p
  obtain ⟨s, r⟩ := p
  cases r <;> rfl

theorem fids_announce (l : List (Nat × Option Nat)) : fids (announce l) = l.filterMap (fun p => p.2.map (fun x => (p.1, x))) := by
  unfold announce fids
  rw [List.filterMap_append]
  have h1 : (l.flatMap linesOf).filterMap (fun a => match a with | Attr.group true [m, x] => some (m, x) | _ => none) = [] := by
    rw [List.filterMap_eq_nil_iff]
    intro a ha
    obtain ⟨p, -, hp⟩ := List.mem_flatMap.1 ha
    obtain ⟨s, r⟩ := p
    cases r with
    | none => simp [linesOf] at hp; subst hp; rfl
    | some x => simp [linesOf] at hp; rcases hp with rfl | rfl <;> rfl
  rw [h1, List.nil_append, List.filterMap_filterMap]
  congr 1
  funext p
  obtain ⟨s, r⟩ := p
  cases r <;> rfl

theorem addAll_append (m xs ys : List Nat) : addAll m (xs ++ ys) = addAll (addAll m xs) ys := by
  unfold addAll; rw [List.foldl_append]

theorem addAll_old {m xs : List Nat} (h : ∀ x ∈ xs, x ∈ m) : addAll m xs = m := by
  induction xs with
  | nil => rfl
  | cons x xs ih =>
    show addAll (if x ∈ m then m else m ++ [x]) xs = m
    rw [if_pos (h x (List.mem_cons_self ..))]
    exact ih (fun y hy => h y (List.mem_cons_of_mem _ hy))

theorem addAll_doubled (l : List (Nat × Option Nat)) : ∀ m : List Nat, (m ++ ssrcsOf l).Nodup →
    addAll m (l.flatMap (fun p => p.1 :: p.1 :: p.2.toList.flatMap (fun x => [x, x]))) = m ++ ssrcsOf l := by
  induction l with
  | nil => intro m _; simp [ssrcsOf, addAll]
  | cons p l ih =>
    intro m h
    obtain ⟨s, r⟩ := p
    have hs : ssrcsOf ((s, r) :: l) = s :: r.toList ++ ssrcsOf l := rfl
    rw [hs, ← List.append_assoc] at h
    rw [hs, List.flatMap_cons, addAll_append]
    have : addAll m (s :: s :: r.toList.flatMap (fun x => [x, x])) = m ++ s :: r.toList := by
      have hd := (List.nodup_append.1 h).1
      have hsm : s ∉ m := fun hm => (List.nodup_append.1 hd).2.2 s hm s (List.mem_cons_self ..) rfl
      cases r with
      | none => simp [addAll, hsm]
      | some x =>
        have hxm : x ∉ m := fun hm => (List.nodup_append.1 hd).2.2 x hm x (by simp) rfl
        have hsx : s ≠ x := by
          have := (List.nodup_append.1 hd).2.1
          intro e; subst e; simp at this
        simp [addAll, hsm, hxm, hsx.symm]
    dsimp only
    rw [this, ih _ h, List.append_assoc]

theorem ssrc_owner {l : List (Nat × Option Nat)} (h : (ssrcsOf l).Nodup) {p q : Nat × Option Nat} (hp : p ∈ l) (hq : q ∈ l) {y : Nat}
    (h1 : y ∈ p.1 :: p.2.toList) (h2 : y ∈ q.1 :: q.2.toList) : p = q := by
  induction l with
  | nil => cases hp
  | cons a l ih =>
    have hs : ssrcsOf (a :: l) = (a.1 :: a.2.toList) ++ ssrcsOf l := rfl
    rw [hs] at h
    obtain ⟨-, hl, hd⟩ := List.nodup_append.1 h
    rcases List.mem_cons.1 hp with rfl | hp' <;> rcases List.mem_cons.1 hq with e | hq'
    · exact e.symm
    · exact absurd rfl (hd y h1 y (List.mem_flatMap.2 ⟨q, hq', h2⟩))
    · subst e; exact absurd rfl (hd y h2 y (List.mem_flatMap.2 ⟨p, hp', h1⟩))
    · exact ih hl hp' hq'

/-- **C133**: what one str0m tells is what another one reads: the same streams, each with its own RTX SSRC, in the same
order, whatever else stands in the m-line. -/
theorem C133_pairs (attrs : List Attr) (l : List (Nat × Option Nat)) (hd : (ssrcsOf l).Nodup)
    (ha : attrs.filter aboutSsrc = announce l) : mains (ssrcInfo attrs) = l := by
  have hlines : lines attrs = lines (announce l) := by
    rw [← ha]; unfold lines; rw [List.filterMap_filter]; congr 1; funext a; cases a <;> rfl
  have hfids : fids attrs = fids (announce l) := by
    rw [← ha]; unfold fids; rw [List.filterMap_filter]; congr 1; funext a; cases a <;> rfl
  have hinfo : ssrcInfo attrs = (ssrcsOf l).map (fun s => { ssrc := s, repairs := repaired (fids attrs) s }) := by
    rw [ssrcInfo_eq, hlines, lines_announce, addAll_doubled l [] hd, List.nil_append, addAll_old]
    intro x hx
    rw [hfids, fids_announce] at hx
    obtain ⟨g, hg, rfl⟩ := List.mem_map.1 hx
    obtain ⟨p, hp, e⟩ := List.mem_filterMap.1 hg
    obtain ⟨s, r⟩ := p
    cases r with
    | none => cases e
    | some x => cases e; exact List.mem_flatMap.2 ⟨_, hp, by simp⟩
  have hg : ∀ m x, (m, x) ∈ fids attrs ↔ (m, some x) ∈ l := by
    intro m x
    rw [hfids, fids_announce, List.mem_filterMap]
    constructor
    · rintro ⟨⟨s, r⟩, hp, e⟩
      cases r with
      | none => cases e
      | some y => cases e; exact hp
    · intro h; exact ⟨_, h, rfl⟩
  have hmain : ∀ p ∈ l, repaired (fids attrs) p.1 = none := by
    intro p hp
    refine repaired_none (fun g hgm e => ?_)
    obtain ⟨m, x⟩ := g
    dsimp only at e
    have hq := (hg m x).1 hgm
    have := ssrc_owner hd hp hq (y := x) (by rw [e]; exact List.mem_cons_self ..) (by simp)
    subst this
    dsimp only at e
    subst e
    have hn := (List.nodup_flatMap.1 hd).1 _ hq
    simp at hn
  have hrtx : ∀ s x, (s, some x) ∈ l → repaired (fids attrs) x = some s := by
    intro s x h
    obtain ⟨m, hm⟩ := repaired_isSome ((hg s x).2 h)
    have := ssrc_owner hd h ((hg m x).1 (repaired_some hm)) (y := x) (by simp) (by simp)
    rw [hm, (Prod.mk.inj this).1]
  have hfind : ∀ p ∈ l, (((ssrcInfo attrs).find? (fun r => r.repairs = some p.1)).map (·.ssrc)) = p.2 := by
    rintro ⟨s, r⟩ hp
    dsimp only
    cases hf : (ssrcInfo attrs).find? (fun r => r.repairs = some s) with
    | some i =>
      have h1 := List.mem_of_find?_eq_some hf
      have h2 : i.repairs = some s := of_decide_eq_true (List.find?_some (p := fun r : Info => decide (r.repairs = some s)) hf)
      rw [hinfo] at h1
      obtain ⟨y, -, rfl⟩ := List.mem_map.1 h1
      have hq := (hg s y).1 (repaired_some h2)
      have := ssrc_owner hd hp hq (y := s) (by simp) (by simp)
      exact (Prod.mk.inj this).2.symm
    | none =>
      cases r with
      | none => rfl
      | some x =>
        rw [List.find?_eq_none] at hf
        refine absurd (decide_eq_true (hrtx s x hp)) (hf { ssrc := x, repairs := repaired (fids attrs) x } ?_)
        rw [hinfo]
        exact List.mem_map.2 ⟨x, List.mem_flatMap.2 ⟨_, hp, by simp⟩, rfl⟩
  have key : ∀ l' : List (Nat × Option Nat), (∀ p ∈ l', p ∈ l) →
      (((ssrcsOf l').map (fun s => ({ ssrc := s, repairs := repaired (fids attrs) s } : Info))).filter (fun i => i.repairs.isNone)).map
        (fun i => (i.ssrc, ((ssrcInfo attrs).find? (fun r => r.repairs = some i.ssrc)).map (·.ssrc))) = l' := by
    intro l'
    induction l' with
    | nil => intro _; rfl
    | cons p l' ih =>
      intro hin
      have hpl := hin p (List.mem_cons_self ..)
      have hs : ssrcsOf (p :: l') = p.1 :: (p.2.toList ++ ssrcsOf l') := rfl
      have h1 : List.filter (fun i : Info => i.repairs.isNone) [{ ssrc := p.1, repairs := repaired (fids attrs) p.1 }] =
          [{ ssrc := p.1, repairs := repaired (fids attrs) p.1 }] := by
        rw [hmain p hpl]; rfl
      rw [hs, List.map_cons, ← List.singleton_append, List.filter_append, h1, List.singleton_append, List.map_cons, List.map_append,
        List.filter_append, List.map_append, ih (fun q hq => hin q (List.mem_cons_of_mem _ hq))]
      have h2 : (p.2.toList.map (fun s => ({ ssrc := s, repairs := repaired (fids attrs) s } : Info))).filter (fun i => i.repairs.isNone) = [] := by
        obtain ⟨s, r⟩ := p
        cases r with
        | none => rfl
        | some x =>
          rw [List.filter_eq_nil_iff]
          intro i hi
          obtain ⟨y, hy, rfl⟩ := List.mem_map.1 hi
          have : y = x := by simpa using hy
          subst this
          rw [hrtx s y hpl]; exact fun h => (by cases h)
      rw [h2]
      dsimp only
      rw [hfind p hpl]; rfl
  unfold mains
  rw [hinfo]
  rw [hinfo] at key
  exact key l (fun _ h => h)

/-! ### Streams expected -/

theorem any_ssrc {t : List Rx} {s : Nat} : t.any (fun r => r.ssrc = s) = true ↔ ∃ r ∈ t, r.ssrc = s := by
  rw [List.any_eq_true]
  exact ⟨fun ⟨r, h, e⟩ => ⟨r, h, of_decide_eq_true e⟩, fun ⟨r, h, e⟩ => ⟨r, h, decide_eq_true e⟩⟩

theorem expectRx_new {mid : Nat} {t : List Rx} {p : Nat × Option Nat} (h : ∀ r ∈ t, r.ssrc ≠ p.1) :
    expectRx mid t p = t ++ [wanted mid p] := by
  unfold expectRx
  rw [if_neg (fun ha => by obtain ⟨r, hr, e⟩ := any_ssrc.1 ha; exact h r hr e)]
  obtain ⟨s, r⟩ := p
  cases r <;> rfl

theorem expectRx_old {mid : Nat} {t : List Rx} {p : Nat × Option Nat} (hex : ∃ r ∈ t, r.ssrc = p.1)
    (h : ∀ r ∈ t, r.ssrc = p.1 → p.2 = none ∨ r.rtx = p.2) : expectRx mid t p = t := by
  unfold expectRx
  rw [if_pos (any_ssrc.2 hex)]
  conv => rhs; rw [← List.map_id t]
  apply List.map_congr_left
  intro r hr
  by_cases e : r.ssrc = p.1
  · rw [if_pos e]
    unfold setRtx
    rcases h r hr e with h | h
    · rw [h]; rfl
    · rw [← h]
      cases hx : r.rtx with
      | none => rfl
      | some x => dsimp only; rw [← hx]; rfl
  · rw [if_neg e]; rfl

theorem mains_nodup {p : Nat × Option Nat} {l : List (Nat × Option Nat)} (h : (ssrcsOf (p :: l)).Nodup) : ∀ q ∈ l, q.1 ≠ p.1 := by
  intro q hq e
  have hs : ssrcsOf (p :: l) = (p.1 :: p.2.toList) ++ ssrcsOf l := rfl
  rw [hs] at h
  exact (List.nodup_append.1 h).2.2 p.1 (List.mem_cons_self ..) q.1 (List.mem_flatMap.2 ⟨q, hq, List.mem_cons_self ..⟩) e.symm

theorem ssrcsOf_tail {p : Nat × Option Nat} {l : List (Nat × Option Nat)} (h : (ssrcsOf (p :: l)).Nodup) : (ssrcsOf l).Nodup := by
  have hs : ssrcsOf (p :: l) = (p.1 :: p.2.toList) ++ ssrcsOf l := rfl
  rw [hs] at h
  exact (List.nodup_append.1 h).2.1

theorem expect_all (mid : Nat) (l : List (Nat × Option Nat)) : ∀ t : List Rx, (ssrcsOf l).Nodup →
    (∀ p ∈ l, ∀ r ∈ t, r.ssrc = p.1 → p.2 = none ∨ r.rtx = p.2) →
    l.foldl (expectRx mid) t = t ++ (l.filter (fun p => ∀ r ∈ t, r.ssrc ≠ p.1)).map (wanted mid) := by
  induction l with
  | nil => intro t _ _; simp
  | cons p l ih =>
    intro t hd h
    have hne := mains_nodup hd
    rw [List.foldl_cons]
    by_cases hx : ∃ r ∈ t, r.ssrc = p.1
    · rw [expectRx_old hx (h p (List.mem_cons_self ..)), ih t (ssrcsOf_tail hd) (fun q hq => h q (List.mem_cons_of_mem _ hq)),
        List.filter_cons_of_neg]
      rw [decide_eq_true_eq]
      intro hn
      obtain ⟨r, hr, e⟩ := hx
      exact hn r hr e
    · have hn : ∀ r ∈ t, r.ssrc ≠ p.1 := fun r hr e => hx ⟨r, hr, e⟩
      rw [expectRx_new hn, ih _ (ssrcsOf_tail hd) ?_, List.filter_cons_of_pos (by rw [decide_eq_true_eq]; exact hn), List.map_cons,
        List.append_assoc, List.singleton_append]
      · congr 2
        congr 1
        apply List.filter_congr
        intro q hq
        rw [decide_eq_decide]
        constructor
        · intro hh r hr; exact hh r (List.mem_append_left _ hr)
        · intro hh r hr
          rcases List.mem_append.1 hr with hr | hr
          · exact hh r hr
          · rw [List.mem_singleton] at hr
            subst hr
            exact fun e => hne q hq e.symm
      · intro q hq r hr e
        rcases List.mem_append.1 hr with hr | hr
        · exact h q (List.mem_cons_of_mem _ hq) r hr e
        · rw [List.mem_singleton] at hr
          subst hr
          exact absurd e.symm (hne q hq)

/-- **C133, streams**: str0m expects exactly the streams that the other str0m told and that it does not yet have, with this
media's name and their RTX SSRCs, and changes no other: those already there were told with the same RTX SSRC. -/
theorem C133_streams (mid : Nat) (attrs : List Attr) (l : List (Nat × Option Nat)) (t : List Rx) (hd : (ssrcsOf l).Nodup)
    (ha : attrs.filter aboutSsrc = announce l) (h : ∀ p ∈ l, ∀ r ∈ t, r.ssrc = p.1 → p.2 = none ∨ r.rtx = p.2) :
    updateMedia true false mid attrs t = t ++ (l.filter (fun p => ∀ r ∈ t, r.ssrc ≠ p.1)).map (wanted mid) := by
  show (mains (ssrcInfo attrs)).foldl (expectRx mid) t = _
  rw [C133_pairs attrs l hd ha, expect_all mid l t hd h]

/-- **C133, streams, the first time**. -/
theorem C133_first (mid : Nat) (attrs : List Attr) (l : List (Nat × Option Nat)) (hd : (ssrcsOf l).Nodup)
    (ha : attrs.filter aboutSsrc = announce l) : updateMedia true false mid attrs [] = l.map (wanted mid) := by
  rw [C133_streams mid attrs l [] hd ha (fun _ _ _ hr => by cases hr), List.nil_append, List.filter_eq_self.2]
  intro p _
  rw [decide_eq_true_eq]
  exact fun _ hr => by cases hr

/-- **C133, again**: telling the same again changes nothing; telling more adds what is new. -/
theorem C133_again (mid : Nat) (attrs attrs' : List Attr) (l l' : List (Nat × Option Nat)) (hd : (ssrcsOf (l ++ l')).Nodup)
    (ha : attrs.filter aboutSsrc = announce l) (ha' : attrs'.filter aboutSsrc = announce (l ++ l')) :
    updateMedia true false mid attrs' (updateMedia true false mid attrs []) = (l ++ l').map (wanted mid) := by
  have hs : ssrcsOf (l ++ l') = ssrcsOf l ++ ssrcsOf l' := List.flatMap_append
  have hdl : (ssrcsOf l).Nodup := by rw [hs] at hd; exact (List.nodup_append.1 hd).1
  rw [C133_first mid attrs l hdl ha]
  rw [C133_streams mid attrs' (l ++ l') _ hd ha', List.map_append]
  · congr 1
    congr 1
    rw [List.filter_append]
    rw [List.filter_eq_nil_iff.2, List.nil_append, List.filter_eq_self.2]
    · intro p hp
      rw [decide_eq_true_eq]
      intro r hr e
      obtain ⟨q, hq, rfl⟩ := List.mem_map.1 hr
      rw [hs] at hd
      exact (List.nodup_append.1 hd).2.2 q.1 (List.mem_flatMap.2 ⟨q, hq, List.mem_cons_self ..⟩) p.1
        (List.mem_flatMap.2 ⟨p, hp, List.mem_cons_self ..⟩) e
    · intro p hp hn
      rw [decide_eq_true_eq] at hn
      exact hn (wanted mid p) (List.mem_map.2 ⟨p, hp, rfl⟩) rfl
  · intro p hp r hr e
    obtain ⟨q, hq, rfl⟩ := List.mem_map.1 hr
    have : q = p := ssrc_owner hd (List.mem_append_left _ hq) hp (y := q.1) (List.mem_cons_self ..)
      (by rw [show q.1 = p.1 from e]; exact List.mem_cons_self ..)
    subst this
    exact Or.inr rfl

/-- **C133, off**: nothing is expected for a media that does not receive, or with simulcast. -/
theorem C133_off (receiving simulcast : Bool) (mid : Nat) (attrs : List Attr) (t : List Rx) (h : receiving = false ∨ simulcast = true) :
    updateMedia receiving simulcast mid attrs t = t := by
  unfold updateMedia
  rw [if_neg]
  rcases h with rfl | rfl <;> simp

/-- What does not change about a stream. -/
def fixed (r : Rx) : Nat × Nat × Bool := (r.ssrc, r.mid, r.suppress)

theorem expectRx_fixed (mid : Nat) (t : List Rx) (p : Nat × Option Nat) :
    t.map fixed <+: (expectRx mid t p).map fixed ∧ ((t.map (·.ssrc)).Nodup → ((expectRx mid t p).map (·.ssrc)).Nodup) := by
  by_cases hx : ∃ r ∈ t, r.ssrc = p.1
  · have he : expectRx mid t p = t.map (fun r => if r.ssrc = p.1 then setRtx p.2 r else r) := by
      unfold expectRx; rw [if_pos (any_ssrc.2 hx)]
    have h1 : (expectRx mid t p).map fixed = t.map fixed := by
      rw [he, List.map_map]
      apply List.map_congr_left
      intro r _
      dsimp only [Function.comp]
      split
      · unfold setRtx; split <;> rfl
      · rfl
    have h2 : (expectRx mid t p).map (·.ssrc) = t.map (·.ssrc) := by
      have := congrArg (List.map Prod.fst) h1
      rw [List.map_map, List.map_map] at this
      exact this
    exact ⟨by rw [h1]; exact List.prefix_rfl, fun h => by rw [h2]; exact h⟩
  · rw [expectRx_new (fun r hr e => hx ⟨r, hr, e⟩), List.map_append, List.map_append]
    refine ⟨List.prefix_append .., fun h => ?_⟩
    rw [List.nodup_append]
    refine ⟨h, List.nodup_singleton _, fun a ha b hb e => ?_⟩
    obtain ⟨r, hr, rfl⟩ := List.mem_map.1 ha
    rw [List.map_singleton, List.mem_singleton] at hb
    exact hx ⟨r, hr, e.trans hb⟩

/-- **C133, any peer**: whatever it tells, no SSRC gets two streams, and no stream goes away or moves to another media. -/
theorem C133_kept (receiving simulcast : Bool) (mid : Nat) (attrs : List Attr) (t : List Rx) :
    t.map (fun r => (r.ssrc, r.mid)) <+: (updateMedia receiving simulcast mid attrs t).map (fun r => (r.ssrc, r.mid)) ∧
      ((t.map (·.ssrc)).Nodup → ((updateMedia receiving simulcast mid attrs t).map (·.ssrc)).Nodup) := by
  have key : ∀ l : List (Nat × Option Nat), ∀ t : List Rx, t.map fixed <+: (l.foldl (expectRx mid) t).map fixed ∧
      ((t.map (·.ssrc)).Nodup → ((l.foldl (expectRx mid) t).map (·.ssrc)).Nodup) := by
    intro l
    induction l with
    | nil => intro t; exact ⟨List.prefix_rfl, id⟩
    | cons p l ih =>
      intro t
      have h1 := expectRx_fixed mid t p
      have h2 := ih (expectRx mid t p)
      exact ⟨h1.1.trans h2.1, fun h => h2.2 (h1.2 h)⟩
  have hp : ∀ t' : List Rx, t.map fixed <+: t'.map fixed → t.map (fun r => (r.ssrc, r.mid)) <+: t'.map (fun r => (r.ssrc, r.mid)) := by
    intro t' h
    have := h.map (fun x : Nat × Nat × Bool => (x.1, x.2.1))
    rw [List.map_map, List.map_map] at this
    exact this
  unfold updateMedia
  split
  · exact ⟨hp _ (key _ t).1, (key _ t).2⟩
  · exact ⟨List.prefix_rfl, id⟩

/-! ### Where the code does not do it -/

/-- An FEC stream (`a=ssrc-group:FEC-FR`, RFC 5956) becomes a stream of the media by itself: only FID is looked at. -/
theorem C133_violation_fec : updateMedia true false 5 [.ssrc 1, .ssrc 2, .group false [1, 2]] [] =
    [{ ssrc := 1, mid := 5, rtx := none, suppress := true }, { ssrc := 2, mid := 5, rtx := none, suppress := true }] := by
  decide +kernel

/-- A stream that is first told without RTX and later with it is never NACKed. -/
theorem C133_violation_late : ∃ l l' : List (Nat × Option Nat), (ssrcsOf l).Nodup ∧ (ssrcsOf l').Nodup ∧
    updateMedia true false 5 (announce l') (updateMedia true false 5 (announce l) []) =
      [{ ssrc := 1, mid := 5, rtx := some 2, suppress := true }] ∧ l'.map (wanted 5) = [{ ssrc := 1, mid := 5, rtx := some 2, suppress := false }] :=
  ⟨[(1, none)], [(1, some 2)], by decide +kernel, by decide +kernel, by decide +kernel, by decide +kernel⟩

/-- An SSRC that is told no more keeps its stream. -/
theorem C133_violation_changed : updateMedia true false 5 (announce [(3, some 4)]) (updateMedia true false 5 (announce [(1, some 2)]) []) =
    [{ ssrc := 1, mid := 5, rtx := some 2, suppress := false }, { ssrc := 3, mid := 5, rtx := some 4, suppress := false }] := by
  decide +kernel

/-- An SSRC told for two medias stays with the first. -/
theorem C133_violation_mid : updateMedia true false 6 (announce [(1, some 2)]) (updateMedia true false 5 (announce [(1, some 2)]) []) =
    [{ ssrc := 1, mid := 5, rtx := some 2, suppress := false }] := by
  decide +kernel

/-- A case that meets the hypotheses of the theorems above: two streams, one without RTX, told between other attributes. -/
theorem C133_example : (ssrcsOf [(1, some 2), (3, none)]).Nodup ∧
    ([Attr.other 0] ++ announce [(1, some 2), (3, none)] ++ [Attr.other 1]).filter aboutSsrc = announce [(1, some 2), (3, none)] ∧
    updateMedia true false 5 ([Attr.other 0] ++ announce [(1, some 2), (3, none)] ++ [Attr.other 1]) [{ ssrc := 9, mid := 4, rtx := none, suppress := true }] =
      [{ ssrc := 9, mid := 4, rtx := none, suppress := true }, { ssrc := 1, mid := 5, rtx := some 2, suppress := false },
        { ssrc := 3, mid := 5, rtx := none, suppress := true }] := by
  decide +kernel

end Str0m.SsrcLines
