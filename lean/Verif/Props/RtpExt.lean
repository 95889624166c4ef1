import Verif.Spec.RtpHeader
import Verif.Props.RtpHeader
/-
  C41, C58: negotiation of extension ids, and absolute send times.
-/
namespace Str0m.Rtp
open Res

/-- The slots of a map as the extensions they hold. -/
def exts (m : ExtMap) : List (Option Ext) := m.map (Option.map Entry.ext)

/-- No extension has two ids. -/
def Injective (m : ExtMap) : Prop := ∀ i j e, m.lookup i = some e → m.lookup j = some e → i = j

/-- A remote description that can be honoured: ids 1 to 16, each id and each extension once. -/
structure RemoteOk (remote : List (Nat × Ext)) : Prop where
  range : ∀ p ∈ remote, 1 ≤ p.1 ∧ p.1 ≤ 16
  ids : (remote.map (·.1)).Nodup
  exts : (remote.map (·.2)).Nodup

/-- What was locked by an earlier negotiation is not moved, and its id is not given to another
extension. -/
def Consistent (m : ExtMap) (remote : List (Nat × Ext)) : Prop :=
  ∀ i ent, m[i]? = some (some ent) → ent.locked = true → ∀ p ∈ remote, (p.1 = i + 1 ↔ p.2 = ent.ext)

theorem swap_cases (m : ExtMap) (id : Nat) (e : Ext) :
    (m.swap id e = m ∧ (id < 1 ∨ id > 16 ∨ Maps m e = false ∨
      ∃ old ent, m[old]? = some (some ent) ∧ ent.ext = e ∧ ent.locked = true ∧ id ≠ old + 1)) ∨
    ∃ old ent, m[old]? = some (some ent) ∧ ent.ext = e ∧ 1 ≤ id ∧ id ≤ 16 ∧ old < m.length ∧
      ((id = old + 1 ∧ m.swap id e = List.set m old (some { ent with locked := true })) ∨
       (id ≠ old + 1 ∧ ent.locked = false ∧
        m.swap id e = List.set (List.set m old ((m[id - 1]?).join)) (id - 1) (some { ent with locked := true }))) := by
  unfold ExtMap.swap
  split
  · rename_i hid
    refine Or.inl ⟨rfl, ?_⟩
    omega
  · rename_i hid
    split
    · rename_i hn
      refine Or.inl ⟨rfl, Or.inr (Or.inr (Or.inl ?_))⟩
      unfold Maps
      rw [List.any_eq_false]
      intro x hx
      have := List.findIdx?_eq_none_iff.1 hn x hx
      simpa using this
    · rename_i old hold
      have hfind := List.findIdx?_eq_some_iff_getElem.1 hold
      obtain ⟨hlt, hp, -⟩ := hfind
      split
      · rename_i ent hent
        have he : ent.ext = e := by
          rw [List.getElem?_eq_getElem hlt] at hent
          simp only [Option.some.injEq] at hent
          rw [hent] at hp
          simpa using hp
        split
        · rename_i hl
          exact Or.inl ⟨rfl, Or.inr (Or.inr (Or.inr ⟨old, ent, hent, he, hl.2, by omega⟩))⟩
        · rename_i hl
          right
          refine ⟨old, ent, hent, he, by omega, by omega, hlt, ?_⟩
          split
          · left; exact ⟨by omega, rfl⟩
          · rename_i hne
            right
            refine ⟨by omega, ?_, rfl⟩
            cases hlk : ent.locked with
            | false => rfl
            | true => exact absurd ⟨hne, hlk⟩ hl
      · rename_i hno
        exfalso
        cases hme : m[old] with
        | none => rw [hme] at hp; simp at hp
        | some ent => exact hno ent (by rw [List.getElem?_eq_getElem hlt, hme])

theorem swap_length (m : ExtMap) (id : Nat) (e : Ext) : (m.swap id e).length = List.length m := by
  rcases swap_cases m id e with ⟨h, -⟩ | ⟨old, ent, -, -, -, -, -, ⟨-, h⟩ | ⟨-, -, h⟩⟩ <;> rw [h]
  · exact List.length_set
  · rw [List.length_set, List.length_set]

theorem set_set_perm {α : Type} (l : List α) (i j : Nat) (hi : i < l.length) (hj : j < l.length) (hij : i ≠ j) :
    List.Perm ((l.set i l[j]).set j l[i]) l := by
  induction l generalizing i j with
  | nil => simp at hi
  | cons a l ih =>
    cases i with
    | zero =>
      cases j with
      | zero => exact absurd rfl hij
      | succ j =>
        simp only [List.set_cons_zero, List.set_cons_succ, List.getElem_cons_zero, List.getElem_cons_succ]
        simp only [List.length_cons] at hj
        have hj' : j < l.length := by omega
        have h1 := List.set_perm_cons_eraseIdx hj' a
        have h2 := List.getElem_cons_eraseIdx_perm hj'
        exact (List.Perm.cons _ h1).trans ((List.Perm.swap _ _ _).trans (List.Perm.cons _ h2))
    | succ i =>
      cases j with
      | zero =>
        simp only [List.set_cons_zero, List.set_cons_succ, List.getElem_cons_zero, List.getElem_cons_succ]
        simp only [List.length_cons] at hi
        have hi' : i < l.length := by omega
        have h1 := List.set_perm_cons_eraseIdx hi' a
        have h2 := List.getElem_cons_eraseIdx_perm hi'
        exact (List.Perm.cons _ h1).trans ((List.Perm.swap _ _ _).trans (List.Perm.cons _ h2))
      | succ j =>
        simp only [List.set_cons_succ, List.getElem_cons_succ]
        simp only [List.length_cons] at hi hj
        exact List.Perm.cons _ (ih i j (by omega) (by omega) (by omega))

theorem exts_set (m : ExtMap) (i : Nat) (x : Option Entry) : exts (List.set m i x) = (exts m).set i (x.map Entry.ext) := by
  unfold exts; rw [List.map_set]

theorem swap_perm (m : ExtMap) (hm : m.length = 16) (id : Nat) (e : Ext) : (exts (m.swap id e)).Perm (exts m) := by
  rcases swap_cases m id e with ⟨h, -⟩ | ⟨old, ent, hent, he, h1, h2, hlt, ⟨-, h⟩ | ⟨hne, -, h⟩⟩
  · rw [h]
  · rw [h, exts_set]
    have : (exts m)[old]'(by simp [exts]; omega) = some ent.ext := by
      simp only [exts, List.getElem_map]
      rw [List.getElem?_eq_getElem hlt, Option.some.injEq] at hent
      rw [hent]; rfl
    have h3 : (exts m).set old (Option.map Entry.ext (some { ent with locked := true })) = exts m := by
      simp only [Option.map_some, ← this]
      exact List.set_getElem_self _
    rw [h3]
  · rw [h, exts_set, exts_set]
    have hi : old < (exts m).length := by simp [exts]; omega
    have hj : id - 1 < (exts m).length := by simp [exts]; omega
    have e1 : some ent.ext = (exts m)[old] := by
      simp only [exts, List.getElem_map]
      rw [List.getElem?_eq_getElem hlt, Option.some.injEq] at hent
      rw [hent]; rfl
    have e2 : Option.map Entry.ext (m[id - 1]?).join = (exts m)[id - 1] := by
      simp only [exts, List.getElem_map]
      rw [List.getElem?_eq_getElem (by omega)]
      rfl
    rw [e2]
    simp only [Option.map_some, e1]
    exact set_set_perm _ _ _ hi hj (by omega)

theorem remap_length (remote : List (Nat × Ext)) (m : ExtMap) : (m.remap remote).length = List.length m := by
  unfold ExtMap.remap
  induction remote generalizing m with
  | nil => rfl
  | cons p remote ih => rw [List.foldl_cons, ih, swap_length]

/-- **C41**, a permutation: remapping moves extensions between ids, and neither loses nor doubles
any. -/
theorem C41_permutation (m : ExtMap) (hm : m.length = 16) (remote : List (Nat × Ext)) :
    (exts (m.remap remote)).Perm (exts m) := by
  unfold ExtMap.remap
  induction remote generalizing m with
  | nil => exact List.Perm.refl _
  | cons p remote ih =>
    rw [List.foldl_cons]
    exact (ih (m.swap p.1 p.2) (by rw [swap_length]; exact hm)).trans (swap_perm m hm p.1 p.2)

theorem lookup_exts (m : ExtMap) (hm : m.length = 16) (i : Nat) (e : Ext) :
    m.lookup i = some e ↔ 1 ≤ i ∧ (exts m)[i - 1]? = some (some e) := by
  unfold ExtMap.lookup exts
  rw [List.getElem?_map]
  by_cases hi : i ≥ 1 ∧ i ≤ 16
  · rw [if_pos hi, List.getElem?_eq_getElem (by omega)]
    simp only [Option.join_some, Option.map_some, Option.some.injEq]
    tauto
  · rw [if_neg hi]
    constructor
    · intro h; cases h
    · rintro ⟨h1, h2⟩
      rw [List.getElem?_eq_none (by omega)] at h2
      cases h2

theorem count_le_one {α : Type} [BEq α] [LawfulBEq α] (l : List α) (a : α)
    (h : ∀ i j : Nat, l[i]? = some a → l[j]? = some a → i = j) : l.count a ≤ 1 := by
  induction l with
  | nil => simp
  | cons b l ih =>
    have hl := ih (fun i j hi hj => by
      have := h (i + 1) (j + 1) (by simpa using hi) (by simpa using hj)
      omega)
    by_cases hb : b = a
    · subst hb
      have h0 : l.count b = 0 := by
        rw [List.count_eq_zero]
        intro hm
        obtain ⟨j, hj⟩ := List.mem_iff_getElem?.1 hm
        have := h 0 (j + 1) (by simp) (by simpa using hj)
        omega
      rw [List.count_cons_self, h0]
    · rw [List.count_cons_of_ne hb]
      exact hl

theorem injective_iff (m : ExtMap) (hm : m.length = 16) : Injective m ↔ ∀ e : Ext, (exts m).count (some e) ≤ 1 := by
  constructor
  · intro h e
    refine count_le_one _ _ (fun i j hi hj => ?_)
    have := h (i + 1) (j + 1) e ((lookup_exts m hm _ _).2 ⟨by omega, by rw [Nat.add_sub_cancel]; exact hi⟩)
      ((lookup_exts m hm _ _).2 ⟨by omega, by rw [Nat.add_sub_cancel]; exact hj⟩)
    omega
  · intro h i j e hi hj
    obtain ⟨h1, hi⟩ := (lookup_exts m hm _ _).1 hi
    obtain ⟨h2, hj⟩ := (lookup_exts m hm _ _).1 hj
    by_contra hne
    have key : ∀ a b : Nat, a < b → (exts m)[a]? = some (some e) → (exts m)[b]? = some (some e) → False := by
      intro a b hab ha hb
      have c1 : some e ∈ (exts m).take b := by
        refine List.mem_iff_getElem?.2 ⟨a, ?_⟩
        rw [List.getElem?_take, if_pos hab]
        exact ha
      have c2 : some e ∈ (exts m).drop b := by
        refine List.mem_iff_getElem?.2 ⟨0, ?_⟩
        rw [List.getElem?_drop]
        exact hb
      have := h e
      rw [← List.take_append_drop b (exts m), List.count_append] at this
      have c1 := List.count_pos_iff.2 c1
      have c2 := List.count_pos_iff.2 c2
      omega
    rcases Nat.lt_or_gt_of_ne (show i - 1 ≠ j - 1 by omega) with hlt | hlt
    · exact key _ _ hlt hi hj
    · exact key _ _ hlt hj hi

/-- **C41**, uniqueness. Whatever the remote sends, remapping keeps every extension at one id at
most (an id has one extension at most by the type). -/
theorem C41_injective (m : ExtMap) (hm : m.length = 16) (remote : List (Nat × Ext)) (h : Injective m) :
    Injective (m.remap remote) := by
  rw [injective_iff _ (by rw [remap_length]; exact hm)]
  intro e
  rw [(C41_permutation m hm remote).count_eq]
  exact (injective_iff m hm).1 h e

/-- The state while going through the remote list: what is done is in place and locked, and the
rest is consistent with the locks. -/
structure Inv (m : ExtMap) (done todo : List (Nat × Ext)) : Prop where
  len : m.length = 16
  inj : Injective m
  placed : ∀ p ∈ done, Maps m p.2 = true → m[p.1 - 1]? = some (some ⟨p.2, true⟩)
  locks : Consistent m todo

theorem maps_exts (m : ExtMap) (e : Ext) : Maps m e = true ↔ some e ∈ exts m := by
  unfold Maps exts
  rw [List.any_eq_true, List.mem_map]
  constructor
  · rintro ⟨x, hx, h⟩; exact ⟨x, hx, by simpa using h⟩
  · rintro ⟨x, hx, h⟩; exact ⟨x, hx, by simpa using h⟩

theorem swap_maps (m : ExtMap) (hm : m.length = 16) (id : Nat) (e e' : Ext) : Maps (m.swap id e) e' = Maps m e' := by
  have := (swap_perm m hm id e).mem_iff (a := some e')
  rw [← maps_exts, ← maps_exts] at this
  cases h1 : Maps (m.swap id e) e' <;> cases h2 : Maps m e' <;> simp_all

theorem slot_lookup {m : ExtMap} (hm : m.length = 16) {i : Nat} {ent : Entry} (h : m[i]? = some (some ent)) :
    m.lookup (i + 1) = some ent.ext := by
  have : i < m.length := by
    by_contra hh
    rw [List.getElem?_eq_none (by omega)] at h
    cases h
  unfold ExtMap.lookup
  rw [if_pos (by omega), Nat.add_sub_cancel, h]
  rfl

theorem inv_step {m : ExtMap} {done todo : List (Nat × Ext)} {p : Nat × Ext} (h : Inv m done (p :: todo))
    (hr : RemoteOk (done ++ p :: todo)) : Inv (m.swap p.1 p.2) (done ++ [p]) todo := by
  obtain ⟨id, e⟩ := p
  have hlen := h.len
  have hid := hr.range (id, e) (by simp)
  simp only at hid
  have hdi : ∀ q ∈ done, q.1 ≠ id ∧ q.2 ≠ e ∧ 1 ≤ q.1 := by
    intro q hq
    have h1 := hr.ids
    have h2 := hr.exts
    rw [List.map_append, List.map_cons] at h1 h2
    have h1 := (List.nodup_append.1 h1).2.2
    have h2 := (List.nodup_append.1 h2).2.2
    exact ⟨h1 _ (List.mem_map_of_mem hq) _ (by simp), h2 _ (List.mem_map_of_mem hq) _ (by simp),
      (hr.range q (by simp [hq])).1⟩
  have hti : ∀ q ∈ todo, q.1 ≠ id ∧ q.2 ≠ e := by
    intro q hq
    have h1 := hr.ids
    have h2 := hr.exts
    rw [List.map_append, List.map_cons] at h1 h2
    have h1 := (List.nodup_cons.1 (List.nodup_append.1 h1).2.1).1
    have h2 := (List.nodup_cons.1 (List.nodup_append.1 h2).2.1).1
    exact ⟨fun hh => h1 (List.mem_map.2 ⟨q, hq, hh⟩), fun hh => h2 (List.mem_map.2 ⟨q, hq, hh⟩)⟩
  have hlocks' : Consistent m todo := fun i ent a b p hp => h.locks i ent a b p (List.mem_cons_of_mem _ hp)
  have hcons := swap_cases m id e
  have hinj : Injective (m.swap id e) := by
    have := C41_injective m hlen [(id, e)] h.inj
    exact this
  refine ⟨by rw [swap_length]; exact hlen, hinj, ?_, ?_⟩
  · intro q hq hmq
    rw [swap_maps m hlen] at hmq
    rw [List.mem_append, List.mem_singleton] at hq
    rcases hcons with ⟨hs, hwhy⟩ | ⟨old, ent, hent, he, h1, h2, hlt, ⟨heq, hs⟩ | ⟨hne, hun, hs⟩⟩
    · simp only
      rw [hs]
      rcases hq with hq | hq
      · exact h.placed q hq hmq
      · subst hq
        exfalso
        rcases hwhy with hw | hw | hw | ⟨old, ent, hent, he, hlk, hne⟩
        · omega
        · omega
        · rw [hw] at hmq; cases hmq
        · exact hne ((h.locks old ent hent hlk (id, e) List.mem_cons_self).2 he.symm)
    · simp only
      rw [hs]
      rcases hq with hq | hq
      · have := hdi q hq
        rw [List.getElem?_set_ne (by omega)]
        exact h.placed q hq hmq
      · subst hq
        have : id - 1 = old := by omega
        simp only
        rw [this, List.getElem?_set_self hlt, ← he]
    · simp only
      rw [hs]
      rcases hq with hq | hq
      · have hd := hdi q hq
        have hp := h.placed q hq hmq
        have hoq : old ≠ q.1 - 1 := by
          intro hh
          rw [← hh, hent] at hp
          simp only [Option.some.injEq] at hp
          rw [hp] at he
          exact hd.2.1 he
        rw [List.getElem?_set_ne (by omega), List.getElem?_set_ne hoq]
        exact hp
      · subst hq
        simp only
        rw [List.getElem?_set_self (by rw [List.length_set]; omega), ← he]
  · intro i ent' hi hlk q hq
    have hq' := hti q hq
    have self : i = id - 1 → ent'.ext = e → (q.1 = i + 1 ↔ q.2 = ent'.ext) := by
      intro a b
      rw [b]
      constructor
      · intro hh; omega
      · intro hh; exact absurd hh hq'.2
    simp only at hi
    rcases hcons with ⟨hs, hwhy⟩ | ⟨old, ent, hent, he, h1, h2, hlt, ⟨heq, hs⟩ | ⟨hne, hun, hs⟩⟩
    · rw [hs] at hi
      exact hlocks' i ent' hi hlk q hq
    · rw [hs] at hi
      by_cases hio : i = old
      · subst hio
        rw [List.getElem?_set_self hlt] at hi
        simp only [Option.some.injEq] at hi
        exact self (by omega) (by rw [← hi]; exact he)
      · rw [List.getElem?_set_ne (Ne.symm hio)] at hi
        exact hlocks' i ent' hi hlk q hq
    · rw [hs] at hi
      by_cases hin : i = id - 1
      · subst hin
        rw [List.getElem?_set_self (by rw [List.length_set]; omega)] at hi
        simp only [Option.some.injEq] at hi
        exact self rfl (by rw [← hi]; exact he)
      · rw [List.getElem?_set_ne (Ne.symm hin)] at hi
        by_cases hio : i = old
        · exfalso
          subst hio
          rw [List.getElem?_set_self hlt] at hi
          simp only [Option.some.injEq] at hi
          have hslot : m[id - 1]? = some (some ent') := by
            rw [List.getElem?_eq_getElem (by omega)] at hi ⊢
            rw [Option.join_some] at hi
            rw [hi]
          have hee := (h.locks (id - 1) ent' hslot hlk (id, e) List.mem_cons_self).1 (by simp only; omega)
          simp only at hee
          have l1 := slot_lookup hlen hslot
          have l2 := slot_lookup hlen hent
          rw [← hee] at l1
          rw [he] at l2
          have := h.inj _ _ _ l1 l2
          omega
        · rw [List.getElem?_set_ne (Ne.symm hio)] at hi
          exact hlocks' i ent' hi hlk q hq

theorem inv_all {todo : List (Nat × Ext)} : ∀ {m : ExtMap} {done : List (Nat × Ext)}, Inv m done todo →
    RemoteOk (done ++ todo) → Inv (m.remap todo) (done ++ todo) [] := by
  induction todo with
  | nil => intro m done h _; rw [List.append_nil]; exact h
  | cons p todo ih =>
    intro m done h hr
    have hs := inv_step h hr
    have := ih (m := m.swap p.1 p.2) (done := done ++ [p]) hs (by rw [List.append_assoc]; exact hr)
    rw [List.append_assoc] at this
    exact this

theorem remap_maps (m : ExtMap) (hm : m.length = 16) (remote : List (Nat × Ext)) (e : Ext) :
    Maps (m.remap remote) e = Maps m e := by
  have := (C41_permutation m hm remote).mem_iff (a := some e)
  rw [← maps_exts, ← maps_exts] at this
  cases h1 : Maps (m.remap remote) e <;> cases h2 : Maps m e <;> simp_all

/-- **C41** (partial). When the remote gives each id and each extension once, and honours what was
negotiated before, every extension that both have ends up at the remote's id.

Partial: a remote that does not honour an earlier negotiation can move a locked extension, see the
violation. -/
theorem C41_remote_ids_partial (m : ExtMap) (hm : m.length = 16) (hinj : Injective m) (remote : List (Nat × Ext))
    (hr : RemoteOk remote) (hc : Consistent m remote) :
    ∀ p ∈ remote, Maps m p.2 = true → (m.remap remote).lookup p.1 = some p.2 := by
  intro p hp hmaps
  have h0 : Inv m [] remote := ⟨hm, hinj, by simp, hc⟩
  have h := inv_all h0 hr
  rw [List.nil_append] at h
  have hplace := h.placed p hp (by rw [remap_maps m hm]; exact hmaps)
  have := slot_lookup h.len hplace
  have hrange := hr.range p hp
  rw [Nat.sub_add_cancel hrange.1] at this
  exact this

/-- With nothing negotiated yet no condition on locks is needed. -/
theorem C41_first_negotiation (m : ExtMap) (hm : m.length = 16) (hinj : Injective m)
    (hun : ∀ (i : Nat) (ent : Entry), m[i]? = some (some ent) → ent.locked = false) (remote : List (Nat × Ext)) (hr : RemoteOk remote) :
    ∀ p ∈ remote, Maps m p.2 = true → (m.remap remote).lookup p.1 = some p.2 :=
  C41_remote_ids_partial m hm hinj remote hr (by
    intro i ent h hl
    rw [hun i ent h] at hl
    cases hl)

/-- Negotiating the same again changes nothing. -/
theorem C41_stable (m : ExtMap) (hm : m.length = 16) (hinj : Injective m) (remote : List (Nat × Ext))
    (hr : RemoteOk remote) (hc : Consistent m remote) : (m.remap remote).remap remote = m.remap remote := by
  have h0 : Inv m [] remote := ⟨hm, hinj, by simp, hc⟩
  have h := inv_all h0 hr
  rw [List.nil_append] at h
  have hfix : ∀ p ∈ remote, (m.remap remote).swap p.1 p.2 = m.remap remote := by
    intro p hp
    rcases swap_cases (m.remap remote) p.1 p.2 with ⟨hs, -⟩ | ⟨old, ent, hent, he, h1, h2, hlt, hs⟩
    · exact hs
    · have hmp : Maps (m.remap remote) p.2 = true := by
        rw [maps_exts]
        unfold exts
        rw [List.mem_map]
        exact ⟨some ent, List.mem_of_getElem? hent, by rw [← he]; rfl⟩
      have hplace := h.placed p hp hmp
      have l1 := slot_lookup h.len hplace
      have l2 := slot_lookup h.len hent
      rw [he] at l2
      have := h.inj _ _ _ l1 l2
      rcases hs with ⟨heq, hs⟩ | ⟨hne, -, -⟩
      · rw [hs]
        have e1 : old = p.1 - 1 := by omega
        rw [e1] at hent ⊢
        rw [hent] at hplace
        simp only [Option.some.injEq] at hplace
        have hlt' : p.1 - 1 < (m.remap remote).length := by omega
        rw [List.getElem?_eq_getElem hlt', Option.some.injEq] at hent
        have : some { ent with locked := true } = (m.remap remote)[p.1 - 1] := by
          rw [hent, hplace]
        rw [this]
        exact List.set_getElem_self _
      · omega
  have : ∀ (l : List (Nat × Ext)), (∀ p ∈ l, p ∈ remote) → (m.remap remote).remap l = m.remap remote := by
    intro l
    induction l with
    | nil => intro _; rfl
    | cons p l ih =>
      intro hl
      show ExtMap.remap ((m.remap remote).swap p.1 p.2) l = _
      rw [hfix p (hl p List.mem_cons_self)]
      exact ih (fun q hq => hl q (List.mem_cons_of_mem _ hq))
  exact this remote (fun _ h => h)

/-- An extension locked by a negotiation stays where it is, whatever a later description says, as
long as that does not give its id to another one. -/
theorem C41_locked_stays (remote : List (Nat × Ext)) : ∀ (m : ExtMap), m.length = 16 → Injective m →
    ∀ (i : Nat) (ent : Entry), m[i]? = some (some ent) → ent.locked = true → (∀ p ∈ remote, p.1 = i + 1 → p.2 = ent.ext) →
      (m.remap remote)[i]? = some (some ent) := by
  induction remote with
  | nil => intro m _ _ i ent h _ _; exact h
  | cons p remote ih =>
    intro m hm hinj i ent h hl hr
    show (ExtMap.remap (m.swap p.1 p.2) remote)[i]? = _
    refine ih (m.swap p.1 p.2) (by rw [swap_length]; exact hm) (C41_injective m hm [p] hinj) i ent ?_ hl
      (fun q hq => hr q (List.mem_cons_of_mem _ hq))
    rcases swap_cases m p.1 p.2 with ⟨hs, -⟩ | ⟨old, e2, hent, he, h1, h2, hlt, ⟨heq, hs⟩ | ⟨hne, hun, hs⟩⟩
    · rw [hs]; exact h
    · rw [hs]
      by_cases hio : i = old
      · subst hio
        rw [h] at hent
        simp only [Option.some.injEq] at hent
        subst hent
        rw [List.getElem?_set_self hlt, ← hl]
      · rw [List.getElem?_set_ne (Ne.symm hio)]
        exact h
    · have hio : i ≠ old := by
        intro hh
        subst hh
        rw [h] at hent
        simp only [Option.some.injEq] at hent
        subst hent
        rw [hl] at hun
        cases hun
      have hid : i ≠ p.1 - 1 := by
        intro hh
        have hee := hr p List.mem_cons_self (by omega)
        have l1 := slot_lookup hm h
        have l2 := slot_lookup hm hent
        rw [he, hee] at l2
        have := hinj _ _ _ l1 l2
        omega
      rw [hs, List.getElem?_set_ne (Ne.symm hid), List.getElem?_set_ne (Ne.symm hio)]
      exact h

/-- What was negotiated is kept: after a negotiation, a later description that does not give the
id to another extension leaves each shared extension at the id agreed before. -/
theorem C41_kept (m : ExtMap) (hm : m.length = 16) (hinj : Injective m) (remote later : List (Nat × Ext))
    (hr : RemoteOk remote) (hc : Consistent m remote) :
    ∀ p ∈ remote, Maps m p.2 = true → (∀ q ∈ later, q.1 = p.1 → q.2 = p.2) →
      ((m.remap remote).remap later).lookup p.1 = some p.2 := by
  intro p hp hmaps hlater
  have h0 : Inv m [] remote := ⟨hm, hinj, by simp, hc⟩
  have h := inv_all h0 hr
  rw [List.nil_append] at h
  have hplace := h.placed p hp (by rw [remap_maps m hm]; exact hmaps)
  have hrange := hr.range p hp
  have h2 := C41_locked_stays later (m.remap remote) h.len h.inj (p.1 - 1) _ hplace rfl
    (fun q hq hh => hlater q hq (by omega))
  have := slot_lookup (by rw [remap_length]; exact h.len) h2
  rw [Nat.sub_add_cancel hrange.1] at this
  exact this

/-- **Violation**: an extension that was negotiated at id 1 is moved when a later description
gives id 1 to another one. -/
theorem C41_violation_locked : ∃ (m : ExtMap) (remote : List (Nat × Ext)),
    m = ExtMap.standard.remap [(1, .audioLevel)] ∧ m.lookup 1 = some .audioLevel ∧
    RemoteOk remote ∧ (m.remap remote).lookup 1 = some .mid ∧ (m.remap remote).lookup 4 = some .audioLevel :=
  ⟨_, [(1, .mid)], rfl, by decide +kernel, ⟨by decide, by decide, by decide⟩, by decide +kernel, by decide +kernel⟩

example : ExtMap.standard.length = 16 ∧ Injective ExtMap.standard ∧
    RemoteOk [(3, .mid), (4, .transportCc), (14, .audioLevel), (7, .frameMarking)] ∧
    (ExtMap.standard.remap [(3, .mid), (4, .transportCc), (14, .audioLevel), (7, .frameMarking)]).lookup 14 = some .audioLevel := by
  refine ⟨by decide, ?_, ⟨by decide, by decide, by decide⟩, by decide +kernel⟩
  rw [injective_iff _ (by decide)]
  intro e
  cases e <;> try decide
  rename_i uri
  have h0 : List.count (some (Ext.user uri)) (exts ExtMap.standard) = 0 := by
    rw [List.count_eq_zero]
    intro hh
    simp [exts, ExtMap.standard, ExtMap.empty, ExtMap.set, List.replicate] at hh
  omega

/-- **C58** (partial). Let a packet be sent at `sent` and received at `now` on the same clock
(microseconds since the epoch), less than 64 s later (by the 4 µs of the precision), and let the
"beginning of time" (time_tricks.rs 15-42: an hour before the first use, or less where instants
before boot cannot be represented) be before the last multiple of 64 s. Then the send time found
is the send time, at most 4 µs early.

Partial: for a more recent beginning (a machine just booted), see the violation. -/
theorem C58_send_time_partial (sent now beginning : Nat) (h1 : sent ≤ now) (h2 : now + 4 < sent + 64000000)
    (hs : 64000000 ≤ sent) (hb : beginning ≤ now - now % 64000000) :
    ∃ t, absoluteSendTime now beginning (wireSendTime sent) = .ok t ∧ t ≤ sent ∧ sent ≤ t + 4 := by
  obtain ⟨w1, w2⟩ := C11_send_time sent
  have hr : wireSendTime sent ≤ 64000000 := by omega
  unfold absoluteSendTime
  rw [if_neg (by omega)]
  refine ⟨_, rfl, ?_⟩
  split
  · split <;> omega
  · omega

/-- **Violation**: with the beginning of time at 100 s after the epoch, a packet received at 101 s
and sent at 100.5 s (36.5 s into the period) is taken for one sent almost half a minute ago. -/
theorem C58_violation_start : absoluteSendTime 101000000 100000000 (wireSendTime 100500000) = .ok 72500000 := by
  decide +kernel

example : absoluteSendTime 1700000130000000 1700000000000000 (wireSendTime 1700000129990000) = .ok 1700000129989997 := by
  decide +kernel

end Str0m.Rtp
