import Verif.Model.StreamTable
/-
  The invariant of the table of streams.
-/
namespace Str0m.Routing
open Str0m

theorem get_mem {α : Type} {l : List (Nat × α)} {k : Nat} {v : α} (h : get l k = some v) : (k, v) ∈ l := by
  unfold get at h
  obtain ⟨e, he, rfl⟩ := Option.map_eq_some_iff.mp h
  have h1 := List.find?_some he
  have h2 := List.mem_of_find?_eq_some he
  simp at h1
  subst h1
  exact h2

theorem get_none {α : Type} {l : List (Nat × α)} {k : Nat} (h : get l k = none) : ∀ e ∈ l, e.1 ≠ k := by
  unfold get at h
  rw [Option.map_eq_none_iff, List.find?_eq_none] at h
  intro e he hk
  exact h e he (by simpa using hk)

theorem get_of_mem {α : Type} {l : List (Nat × α)} {k : Nat} {v : α} (hn : (l.map (·.1)).Nodup) (h : (k, v) ∈ l) :
    get l k = some v := by
  induction l with
  | nil => cases h
  | cons e l ih =>
    simp only [List.map_cons, List.nodup_cons] at hn
    rcases List.mem_cons.mp h with rfl | h'
    · simp [get]
    · have hne : e.1 ≠ k := by
        rintro rfl
        exact hn.1 (List.mem_map.mpr ⟨_, h', rfl⟩)
      have := ih hn.2 h'
      unfold get at this ⊢
      rw [List.find?_cons_of_neg (by simpa using hne)]
      exact this

theorem get_isSome_of_mem {α : Type} {l : List (Nat × α)} {e : Nat × α} (h : e ∈ l) : (get l e.1).isSome := by
  cases hg : get l e.1 with
  | none => exact absurd rfl (get_none hg e h)
  | some v => rfl

theorem filter_keys_nodup {α : Type} {l : List (Nat × α)} (p : Nat × α → Bool) (h : (l.map (·.1)).Nodup) :
    ((l.filter p).map (·.1)).Nodup := h.sublist (List.filter_sublist.map _)

theorem put_keys_nodup {α : Type} {l : List (Nat × α)} (k : Nat) (v : α) (h : (l.map (·.1)).Nodup) :
    ((put l k v).map (·.1)).Nodup := by
  unfold put del
  simp only [List.map_cons, List.nodup_cons]
  refine ⟨?_, filter_keys_nodup _ h⟩
  simp [List.mem_map, List.mem_filter]

theorem upd_keys {α : Type} (l : List (Nat × α)) (k : Nat) (f : α → α) : (upd l k f).map (·.1) = l.map (·.1) := by
  unfold upd
  rw [List.map_map]
  apply List.map_congr_left
  intro e _
  simp only [Function.comp]
  split <;> rfl

theorem updFirst_keys {α : Type} (p : α → Bool) (f : α → α) (l : List (Nat × α)) :
    (updFirst p f l).map (·.1) = l.map (·.1) := by
  induction l with
  | nil => rfl
  | cons e l ih =>
    unfold updFirst
    split <;> simp [ih]

theorem mem_upd {α : Type} {l : List (Nat × α)} {k : Nat} {f : α → α} {e : Nat × α} :
    e ∈ upd l k f ↔ ∃ d ∈ l, e = if d.1 = k then (d.1, f d.2) else d := by
  unfold upd
  simp only [List.mem_map]
  constructor
  · rintro ⟨d, h1, h2⟩; exact ⟨d, h1, h2.symm⟩
  · rintro ⟨d, h1, h2⟩; exact ⟨d, h1, h2.symm⟩

theorem mem_updFirst {α : Type} {p : α → Bool} {f : α → α} {l : List (Nat × α)} {e : Nat × α} (h : e ∈ updFirst p f l) :
    e ∈ l ∨ ∃ d ∈ l, p d.2 = true ∧ e = (d.1, f d.2) := by
  induction l with
  | nil => exact Or.inl h
  | cons a l ih =>
    unfold updFirst at h
    split at h
    · rename_i hp
      rcases List.mem_cons.mp h with rfl | h
      · exact Or.inr ⟨a, by simp, hp, rfl⟩
      · exact Or.inl (List.mem_cons_of_mem _ h)
    · rcases List.mem_cons.mp h with rfl | h
      · exact Or.inl (by simp)
      · rcases ih h with h | ⟨d, h1, h2, h3⟩
        · exact Or.inl (List.mem_cons_of_mem _ h)
        · exact Or.inr ⟨d, List.mem_cons_of_mem _ h1, h2, h3⟩

theorem updFirst_mem {α : Type} {p : α → Bool} {f : α → α} {l : List (Nat × α)} {e : Nat × α} (h : e ∈ l) :
    e ∈ updFirst p f l ∨ (p e.2 = true ∧ (e.1, f e.2) ∈ updFirst p f l) := by
  induction l with
  | nil => cases h
  | cons a l ih =>
    unfold updFirst
    rcases List.mem_cons.mp h with rfl | h
    · split
      · rename_i hp; exact Or.inr ⟨hp, by simp⟩
      · exact Or.inl (by simp)
    · split
      · exact Or.inl (List.mem_cons_of_mem _ h)
      · rcases ih h with h | ⟨h1, h2⟩
        · exact Or.inl (List.mem_cons_of_mem _ h)
        · exact Or.inr ⟨h1, List.mem_cons_of_mem _ h2⟩

/-- A cached route is right: its stream exists and has the MID of the route; and, if `strict`, the SSRC of the route
is the stream's or its RTX SSRC. -/
def RouteOk (strict : Bool) (rx : List (Nat × Rx)) (e : Nat × Look) : Prop :=
  ∃ s, (e.2.main, s) ∈ rx ∧ s.mid = e.2.mid ∧ (strict = true → e.1 = e.2.main ∨ s.rtx = some e.1)

/-- The invariant -/
structure Good (strict : Bool) (t : Table) : Prop where
  rxKeys : (t.rx.map (·.1)).Nodup
  rxSsrc : ∀ e ∈ t.rx, e.2.ssrc = e.1
  lookKeys : (t.look.map (·.1)).Nodup
  routes : ∀ e ∈ t.look, RouteOk strict t.rx e

theorem Good.get {b : Bool} {t : Table} (g : Good b t) {e : Nat × Rx} (h : e ∈ t.rx) : Routing.get t.rx e.1 = some e.2 :=
  get_of_mem g.rxKeys h

/-- The streams change, the routes do not -/
theorem Good.setRx {b : Bool} {t : Table} (g : Good b t) (rx : List (Nat × Rx)) (h1 : (rx.map (·.1)).Nodup)
    (h2 : ∀ e ∈ rx, e.2.ssrc = e.1) (h3 : ∀ e ∈ t.look, RouteOk b rx e) : Good b { t with rx := rx } :=
  ⟨h1, h2, g.lookKeys, h3⟩

theorem Good.filterLook {b : Bool} {t : Table} (g : Good b t) (p : Nat × Look → Bool) :
    Good b { t with look := t.look.filter p } :=
  ⟨g.rxKeys, g.rxSsrc, filter_keys_nodup p g.lookKeys, fun e h => g.routes e (List.mem_of_mem_filter h)⟩

theorem orInsert_nodup {l : List (Nat × Rx)} {ssrc mid : Nat} {rid : Option Nat} {n : Bool} (h : (l.map (·.1)).Nodup) :
    ((orInsert l ssrc mid rid n).map (·.1)).Nodup := by
  unfold orInsert
  split
  · exact h
  · rename_i hg
    simp only [List.map_cons, List.nodup_cons]
    refine ⟨?_, h⟩
    intro hm
    obtain ⟨e, he, rfl⟩ := List.mem_map.mp hm
    exact hg (get_isSome_of_mem he)

theorem mem_orInsert {l : List (Nat × Rx)} {ssrc mid : Nat} {rid : Option Nat} {n : Bool} {e : Nat × Rx}
    (h : e ∈ orInsert l ssrc mid rid n) :
    e ∈ l ∨ e = (ssrc, { ssrc := ssrc, mid := mid, rid := rid, suppressNack := n }) := by
  unfold orInsert at h
  split at h
  · exact Or.inl h
  · exact (List.mem_cons.mp h).symm

theorem orInsert_mem {l : List (Nat × Rx)} {ssrc mid : Nat} {rid : Option Nat} {n : Bool} {e : Nat × Rx}
    (h : e ∈ l) : e ∈ orInsert l ssrc mid rid n := by
  unfold orInsert
  split
  · exact h
  · exact List.mem_cons_of_mem _ h

theorem fillRtx_keys (l : List (Nat × Rx)) (ssrc : Nat) (rtx : Option Nat) :
    (fillRtx l ssrc rtx).map (·.1) = l.map (·.1) := by
  cases rtx with
  | none => rfl
  | some r => exact upd_keys l ssrc (fun s => s.setRtx r)

/-- What an entry of the table becomes when an RTX SSRC is filled in -/
theorem fillRtx_mem {l : List (Nat × Rx)} {ssrc : Nat} {rtx : Option Nat} {e : Nat × Rx} (h : e ∈ l) :
    ∃ s, (e.1, s) ∈ fillRtx l ssrc rtx ∧ s.mid = e.2.mid ∧ s.rid = e.2.rid ∧ s.ssrc = e.2.ssrc ∧
      (s.rtx = e.2.rtx ∨ (e.1 = ssrc ∧ s.rtx = rtx)) := by
  cases rtx with
  | none => exact ⟨e.2, h, rfl, rfl, rfl, Or.inl rfl⟩
  | some r =>
    by_cases hk : e.1 = ssrc
    · refine ⟨e.2.setRtx r, mem_upd (f := fun s => s.setRtx r) |>.mpr ⟨e, h, by rw [if_pos hk]⟩, rfl, rfl, rfl, Or.inr ⟨hk, rfl⟩⟩
    · exact ⟨e.2, mem_upd (f := fun s => s.setRtx r) |>.mpr ⟨e, h, by rw [if_neg hk]⟩, rfl, rfl, rfl, Or.inl rfl⟩

theorem mem_fillRtx {l : List (Nat × Rx)} {ssrc : Nat} {rtx : Option Nat} {e : Nat × Rx} (h : e ∈ fillRtx l ssrc rtx) :
    ∃ s, (e.1, s) ∈ l ∧ e.2.mid = s.mid ∧ e.2.rid = s.rid ∧ e.2.ssrc = s.ssrc ∧
      ((e.2 = s ∧ (e.1 ≠ ssrc ∨ rtx = none)) ∨ (e.1 = ssrc ∧ e.2.rtx = rtx)) := by
  cases rtx with
  | none => exact ⟨e.2, h, rfl, rfl, rfl, Or.inl ⟨rfl, Or.inr rfl⟩⟩
  | some r =>
    obtain ⟨d, hd, rfl⟩ := (mem_upd (f := fun (s : Rx) => s.setRtx r)).mp h
    split
    · rename_i hk
      exact ⟨d.2, hd, rfl, rfl, rfl, Or.inr ⟨hk, rfl⟩⟩
    · rename_i hk
      exact ⟨d.2, hd, rfl, rfl, rfl, Or.inl ⟨rfl, Or.inl hk⟩⟩

/-- `expect_stream_rx` keeps the invariant, if (strictly) it does not replace an RTX SSRC that has a route. -/
theorem Good.expect {b : Bool} {t : Table} (g : Good b t) {ssrc mid : Nat} {rtx rid : Option Nat} {n : Bool}
    (h : b = true → ∀ s, (ssrc, s) ∈ t.rx → ∀ e ∈ t.look, e.2.main = ssrc → rtx ≠ none → s.rtx = some e.1 → rtx = s.rtx ∨ e.1 = ssrc) :
    Good b (expectRx t ssrc rtx mid rid n) := by
  apply g.setRx
  · rw [fillRtx_keys]
    exact orInsert_nodup g.rxKeys
  · intro e he
    obtain ⟨s, hs, _, _, h3, _⟩ := mem_fillRtx he
    rw [h3]
    rcases mem_orInsert hs with hs | hs
    · exact g.rxSsrc _ hs
    · cases hs
      rfl
  · intro e he
    obtain ⟨s, hs, hm, hb⟩ := g.routes e he
    obtain ⟨s', h1, h2, _, _, h4⟩ := fillRtx_mem (ssrc := ssrc) (rtx := rtx) (orInsert_mem (ssrc := ssrc) (mid := mid) (rid := rid) (n := n) hs)
    refine ⟨s', h1, h2.trans hm, fun hbt => ?_⟩
    rcases hb hbt with hb' | hb'
    · exact Or.inl hb'
    · rcases h4 with h4 | ⟨h4, h5⟩
      · exact Or.inr (h4.trans hb')
      · simp only at h4
        by_cases hr : rtx = none
        · subst hr
          obtain ⟨s'', g1, _, _, _, g2⟩ := mem_fillRtx h1
          rcases g2 with ⟨g2, _⟩ | ⟨g2, g3⟩
          · simp only at g2 g1
            have hs2 : s'' = s := by
              have e1 := get_of_mem (orInsert_nodup (ssrc := ssrc) (mid := mid) (rid := rid) (n := n) g.rxKeys) g1
              have e2 := get_of_mem (orInsert_nodup (ssrc := ssrc) (mid := mid) (rid := rid) (n := n) g.rxKeys) (orInsert_mem (ssrc := ssrc) (mid := mid) (rid := rid) (n := n) hs)
              rw [e1] at e2
              exact Option.some.inj e2
            right
            rw [g2, hs2, hb']
          · simp only at h1
            have e1 := get_of_mem (orInsert_nodup (ssrc := ssrc) (mid := mid) (rid := rid) (n := n) g.rxKeys) h1
            have e2 := get_of_mem (orInsert_nodup (ssrc := ssrc) (mid := mid) (rid := rid) (n := n) g.rxKeys) (orInsert_mem (ssrc := ssrc) (mid := mid) (rid := rid) (n := n) hs)
            rw [e1] at e2
            right
            rw [Option.some.inj e2, hb']
        · rcases h hbt s (h4 ▸ hs) e he h4 hr hb' with h6 | h6
          · right
            rw [h5, h6, hb']
          · left
            rw [h6, h4]

theorem Good.removeRx {b : Bool} {t : Table} (g : Good b t) (ssrc : Nat) : Good b (Routing.removeRx t ssrc) := by
  refine ⟨filter_keys_nodup _ g.rxKeys, fun e he => g.rxSsrc e (List.mem_of_mem_filter he), filter_keys_nodup _ g.lookKeys, ?_⟩
  intro e he
  obtain ⟨h1, h2⟩ := List.mem_filter.mp he
  obtain ⟨s, hs, hm, hb⟩ := g.routes e h1
  simp only [bne_iff_ne, Bool.and_eq_true, ne_eq] at h2
  exact ⟨s, List.mem_filter.mpr ⟨hs, by simpa using h2.2⟩, hm, hb⟩

theorem Good.removeMid {b : Bool} {t : Table} (g : Good b t) (mid : Nat) : Good b (Routing.removeMid t mid) := by
  refine ⟨filter_keys_nodup _ g.rxKeys, fun e he => g.rxSsrc e (List.mem_of_mem_filter he), filter_keys_nodup _ g.lookKeys, ?_⟩
  intro e he
  obtain ⟨h1, h2⟩ := List.mem_filter.mp he
  obtain ⟨s, hs, hm, hb⟩ := g.routes e h1
  exact ⟨s, List.mem_filter.mpr ⟨hs, by simpa [hm] using h2⟩, hm, hb⟩

theorem Good.timeout {b : Bool} {t : Table} (g : Good b t) (now : Nat) : Good b (Routing.timeout t now) := by
  unfold Routing.timeout
  split
  · have := g.filterLook (fun e => decide (now - e.2.lastUsed ≤ 30000))
    exact ⟨this.rxKeys, this.rxSsrc, this.lookKeys, this.routes⟩
  · exact g

theorem Good.setTx {b : Bool} {t : Table} (g : Good b t) (tx : List (Nat × Tx)) : Good b { t with tx := tx } :=
  ⟨g.rxKeys, g.rxSsrc, g.lookKeys, g.routes⟩

theorem reorder_perm {α : Type} [DecidableEq α] (l l' : List (Nat × α)) : (reorder l l').Perm l := by
  unfold reorder
  split
  · assumption
  · exact List.Perm.refl l

theorem Good.reorder {b : Bool} {t : Table} (g : Good b t) (rx : List (Nat × Rx)) (look : List (Nat × Look)) (tx : List (Nat × Tx)) :
    Good b { t with rx := Routing.reorder t.rx rx, look := Routing.reorder t.look look, tx := Routing.reorder t.tx tx } := by
  have h1 := reorder_perm t.rx rx
  have h2 := reorder_perm t.look look
  refine ⟨((h1.map _).nodup_iff).mpr g.rxKeys, fun e he => g.rxSsrc e (h1.mem_iff.mp he), ((h2.map _).nodup_iff).mpr g.lookKeys, ?_⟩
  intro e he
  obtain ⟨s, hs, hm, hb⟩ := g.routes e (h2.mem_iff.mp he)
  exact ⟨s, h1.mem_iff.mpr hs, hm, hb⟩

/-- Nothing in the table has this SSRC, and there is no route for it. -/
structure Fresh (t : Table) (ssrc : Nat) : Prop where
  look : ∀ e ∈ t.look, e.1 ≠ ssrc
  rx : ∀ e ∈ t.rx, e.2.ssrc ≠ ssrc ∧ e.2.rtx ≠ some ssrc

theorem bySsrcOrRtx_none {t : Table} {ssrc : Nat} (h : bySsrcOrRtx t ssrc = none) :
    ∀ e ∈ t.rx, e.2.ssrc ≠ ssrc ∧ e.2.rtx ≠ some ssrc := by
  unfold bySsrcOrRtx at h
  rw [Option.map_eq_none_iff, List.find?_eq_none] at h
  intro e he
  have := h e he
  simpa using this

theorem bySsrcOrRtx_some {t : Table} {ssrc : Nat} {s : Rx} (h : bySsrcOrRtx t ssrc = some s) :
    (∃ k, (k, s) ∈ t.rx) ∧ (s.ssrc = ssrc ∨ s.rtx = some ssrc) := by
  unfold bySsrcOrRtx at h
  obtain ⟨e, he, rfl⟩ := Option.map_eq_some_iff.mp h
  have h1 := List.find?_some he
  refine ⟨⟨e.1, List.mem_of_find?_eq_some he⟩, by simpa using h1⟩

theorem rxByMidRid_some {t : Table} {mid : Nat} {rid : Option Nat} {s : Rx} (h : rxByMidRid t mid rid = some s) :
    (∃ k, (k, s) ∈ t.rx) ∧ s.mid = mid ∧ (rid = none ∨ rid = s.rid) := by
  unfold rxByMidRid at h
  obtain ⟨e, he, rfl⟩ := Option.map_eq_some_iff.mp h
  have h1 := List.find?_some he
  refine ⟨⟨e.1, List.mem_of_find?_eq_some he⟩, ?_⟩
  simp [matchesMidRid] at h1
  exact ⟨h1.1.symm, h1.2⟩

/-- What `mid_ssrc_rx_by_ssrc_or_rtx` does: nothing is known, or the answer is a stream of the table. -/
theorem lookup_spec {b : Bool} {t : Table} (g : Good b t) (now ssrc : Nat) :
    (lookup t now ssrc = (t, none) ∧ Fresh t ssrc) ∨
    ∃ (s : Rx) (look : List (Nat × Look)), lookup t now ssrc = ({ t with look := look }, some (s.mid, s.ssrc)) ∧
      Good b { t with look := look } ∧ (s.ssrc, s) ∈ t.rx ∧ (b = true → s.ssrc = ssrc ∨ s.rtx = some ssrc) ∧
      ((∀ e ∈ t.look, e.1 ≠ ssrc) → s.ssrc = ssrc ∨ s.rtx = some ssrc) := by
  unfold lookup
  cases hg : get t.look ssrc with
  | some l =>
    right
    have hm := get_mem hg
    obtain ⟨s, hs, hmid, hb⟩ := g.routes _ hm
    have hs' := g.rxSsrc _ hs
    simp only at hs' hs hmid hb
    refine ⟨s, upd t.look ssrc fun l => { l with lastUsed := now }, ?_, ?_, ?_, ?_, ?_⟩
    · simp only [hmid, hs']
    · refine ⟨g.rxKeys, g.rxSsrc, by rw [upd_keys]; exact g.lookKeys, ?_⟩
      intro e he
      obtain ⟨d, hd, rfl⟩ := (mem_upd (f := fun (l : Look) => { l with lastUsed := now })).mp he
      split
      · exact g.routes d hd
      · exact g.routes d hd
    · rw [hs']; exact hs
    · intro hbt
      rcases hb hbt with h | h
      · left; rw [hs']; exact h.symm
      · exact Or.inr h
    · intro hn
      exact absurd rfl (hn _ hm)
  | none =>
    cases hr : bySsrcOrRtx t ssrc with
    | none => exact Or.inl ⟨rfl, get_none hg, bySsrcOrRtx_none hr⟩
    | some s =>
      right
      obtain ⟨⟨k, hk⟩, hor⟩ := bySsrcOrRtx_some hr
      have hs' := g.rxSsrc _ hk
      simp only at hs'
      refine ⟨s, put t.look ssrc { mid := s.mid, main := s.ssrc, lastUsed := now }, rfl, ?_, ?_, fun _ => hor, fun _ => hor⟩
      · refine ⟨g.rxKeys, g.rxSsrc, put_keys_nodup _ _ g.lookKeys, ?_⟩
        intro e he
        rcases List.mem_cons.mp he with rfl | he
        · refine ⟨s, ?_, rfl, fun _ => ?_⟩
          · simp only [hs']; exact hk
          · rcases hor with h | h
            · left; exact h.symm
            · right; exact h
        · exact g.routes e (List.mem_of_mem_filter he)
      · rw [hs']; exact hk

/-- `change_ssrc` -/
theorem Rx.change_some {s s' : Rx} {d : Nat} (h : s.change d = some s') :
    s'.ssrc = d ∧ s'.mid = s.mid ∧ s'.rid = s.rid ∧ s'.rtx = s.rtx ∧ s'.prev = some s.ssrc ∧ d ≠ s.ssrc ∧ s.prev ≠ some d := by
  unfold Rx.change at h
  split at h
  · cases h
  · rename_i hn
    cases h
    push Not at hn
    exact ⟨rfl, rfl, rfl, rfl, rfl, hn.1, fun h => hn.2 h.symm⟩

theorem Rx.change_none {s : Rx} {d : Nat} (h : s.change d = none) : d = s.ssrc ∨ s.prev = some d := by
  unfold Rx.change at h
  split at h
  · rename_i hn
    rcases hn with h | h
    · exact Or.inl h
    · exact Or.inr h.symm
  · cases h

theorem mem_del {α : Type} {l : List (Nat × α)} {k : Nat} {e : Nat × α} : e ∈ del l k ↔ e ∈ l ∧ e.1 ≠ k := by
  simp [del, List.mem_filter]

/-- After a switch of SSRC: the invariant holds, and no route leads to the new SSRC. -/
theorem Good.move {b : Bool} {t : Table} (g : Good b t) {src dst : Nat} {s s' : Rx} (hs : (src, s) ∈ t.rx)
    (hc : s.change dst = some s') (hf : ∀ e ∈ t.rx, e.1 ≠ dst) :
    Good b (moveRx t src dst (some s')) ∧ ∀ e ∈ (moveRx t src dst (some s')).look, e.2.main ≠ dst ∧ e ∈ t.look := by
  obtain ⟨h1, h2, h3, h4, h5, h6, h7⟩ := Rx.change_some hc
  refine ⟨⟨put_keys_nodup _ _ (filter_keys_nodup _ g.rxKeys), ?_, filter_keys_nodup _ g.lookKeys, ?_⟩, ?_⟩
  · intro e he
    rcases List.mem_cons.mp he with rfl | he
    · exact h1
    · exact g.rxSsrc e (mem_del.mp (mem_del.mp he).1).1
  · intro e he
    obtain ⟨he1, he2⟩ := List.mem_filter.mp he
    obtain ⟨u, hu, hm, hb⟩ := g.routes e he1
    simp only [bne_iff_ne, Bool.and_eq_true, ne_eq] at he2
    exact ⟨u, List.mem_cons_of_mem _ (mem_del.mpr ⟨mem_del.mpr ⟨hu, he2.2⟩, hf _ hu⟩), hm, hb⟩
  · intro e he
    obtain ⟨he1, _⟩ := List.mem_filter.mp he
    obtain ⟨u, hu, _⟩ := g.routes e he1
    exact ⟨hf _ hu, he1⟩

/-- The streams of all other MIDs are as they were. -/
def OthersSame (mid : Nat) (t t' : Table) : Prop := ∀ e : Nat × Rx, e.2.mid ≠ mid → (e ∈ t'.rx ↔ e ∈ t.rx)

/-- What the dynamic mapping of a main SSRC gives -/
structure Mapped (b : Bool) (t t' : Table) (ssrc mid : Nat) (rid : Option Nat) (isMain : Bool) : Prop where
  good : Good b t'
  look : ∀ e ∈ t'.look, e ∈ t.look
  tx : t'.tx = t.tx
  main : isMain = true → ∀ e ∈ t'.rx, e.2.rtx ≠ some ssrc
  keys : isMain = false → ∀ e ∈ t'.rx, e.1 ≠ ssrc
  stream : ∃ s, (s.ssrc, s) ∈ t'.rx ∧ s.mid = mid ∧ (rid = none ∨ rid = s.rid) ∧ (if isMain then s.ssrc = ssrc else s.rtx = some ssrc)
  same : (∀ d ∈ t.rx, ∀ e ∈ t.rx, d.2.rtx ≠ none → d.2.rtx = e.2.rtx → d.2.mid = e.2.mid) → OthersSame mid t t'

theorem expect_others {t : Table} {ssrc mid : Nat} {rtx rid : Option Nat} {n : Bool}
    (h : ∀ s, (ssrc, s) ∈ t.rx → s.mid = mid) : OthersSame mid t (expectRx t ssrc rtx mid rid n) := by
  intro e he
  constructor
  · intro hm
    obtain ⟨s, hs, h1, _, _, h2⟩ := mem_fillRtx hm
    rcases h2 with ⟨h2, _⟩ | ⟨h2, _⟩
    · rcases mem_orInsert hs with hs | hs
      · rw [← h2] at hs; exact hs
      · cases hs
        rw [h2] at he
        exact absurd rfl he
    · rcases mem_orInsert hs with hs | hs
      · rw [h2] at hs
        exact absurd (h1.trans (h s hs)) he
      · cases hs
        exact absurd h1 he
  · intro hm
    have hne : e.1 ≠ ssrc := by
      rintro rfl
      exact he (h e.2 hm)
    have h1 := orInsert_mem (ssrc := ssrc) (mid := mid) (rid := rid) (n := n) hm
    show e ∈ fillRtx _ _ _
    cases rtx with
    | none => exact h1
    | some r => exact (mem_upd (f := fun (s : Rx) => s.setRtx r)).mpr ⟨e, h1, by rw [if_neg hne]⟩

theorem expect_stream {t : Table} {ssrc mid : Nat} {rtx rid : Option Nat} {n : Bool} {b : Bool} (g : Good b t)
    (h : ∀ s, (ssrc, s) ∈ t.rx → s.mid = mid ∧ (rid = none ∨ rid = s.rid)) :
    ∃ s, (ssrc, s) ∈ (expectRx t ssrc rtx mid rid n).rx ∧ s.ssrc = ssrc ∧ s.mid = mid ∧ (rid = none ∨ rid = s.rid) ∧
      (rtx ≠ none → s.rtx = rtx) := by
  have key : ∃ s, (ssrc, s) ∈ orInsert t.rx ssrc mid rid n ∧ s.ssrc = ssrc ∧ s.mid = mid ∧ (rid = none ∨ rid = s.rid) := by
    unfold orInsert
    cases hg : get t.rx ssrc with
    | none => exact ⟨_, by simp; left; rfl, rfl, rfl, Or.inr rfl⟩
    | some s =>
      have := get_mem hg
      exact ⟨s, by simpa using this, g.rxSsrc _ this, (h s this).1, (h s this).2⟩
  obtain ⟨s, h1, h2, h3, h4⟩ := key
  show ∃ u, (ssrc, u) ∈ fillRtx _ _ _ ∧ _
  cases rtx with
  | none => exact ⟨s, h1, h2, h3, h4, fun h => absurd rfl h⟩
  | some r =>
    exact ⟨s.setRtx r, (mem_upd (f := fun (s : Rx) => s.setRtx r)).mpr ⟨_, h1, by simp⟩, h2, h3, h4, fun _ => rfl⟩

theorem expect_rtx {t : Table} {ssrc mid x : Nat} {rtx rid : Option Nat} {n : Bool} (h : ∀ e ∈ t.rx, e.2.rtx ≠ some x)
    (hr : rtx ≠ some x) : ∀ e ∈ (expectRx t ssrc rtx mid rid n).rx, e.2.rtx ≠ some x := by
  intro e he
  obtain ⟨s, hs, _, _, _, h2⟩ := mem_fillRtx he
  rcases h2 with ⟨h2, _⟩ | ⟨_, h2⟩
  · rw [h2]
    rcases mem_orInsert hs with hs | hs
    · exact h _ hs
    · cases hs
      simp
  · rw [h2]; exact hr

theorem expect_keys {t : Table} {ssrc mid x : Nat} {rtx rid : Option Nat} {n : Bool} (hx : ssrc ≠ x) (h : ∀ e ∈ t.rx, e.1 ≠ x) :
    ∀ e ∈ (expectRx t ssrc rtx mid rid n).rx, e.1 ≠ x := by
  intro e he
  obtain ⟨s, hs, _⟩ := mem_fillRtx he
  rcases mem_orInsert hs with hs | hs
  · exact h (e.1, s) hs
  · rw [(Prod.mk.inj hs).1]; exact hx

/-- A main SSRC nothing is known of is mapped to the MID and RID its packet names. -/
theorem mapFinish_main {b : Bool} {t : Table} (g : Good b t) {ssrc : Nat} (hf : Fresh t ssrc) (mid : Nat) (rid : Option Nat) (p : Param) :
    ∃ t', mapFinish t mid rid ssrc ((rxByMidRid t mid rid).bind (·.rtx)) p = some t' ∧ Mapped b t t' ssrc mid rid true := by
  have hkey : ∀ e ∈ t.rx, e.1 ≠ ssrc := fun e he h => (hf.rx e he).1 ((g.rxSsrc e he).trans h)
  have hmain : ∀ e ∈ t.look, e.2.main ≠ ssrc := by
    intro e he
    obtain ⟨s, hs, _⟩ := g.routes e he
    exact hkey _ hs
  cases hr : rxByMidRid t mid rid with
  | none =>
    refine ⟨_, by simp only [mapFinish, hr, rebind, Option.map_some]; rfl, ?_⟩
    have hno : ∀ s, (ssrc, s) ∈ t.rx → False := fun s hs => hkey _ hs rfl
    refine ⟨g.expect (fun _ s hs => (hno s hs).elim), fun e he => he, rfl, fun _ => expect_rtx (fun e he => (hf.rx e he).2) (by simp), fun h => (by cases h), ?_, fun _ => expect_others fun s hs => (hno s hs).elim⟩
    obtain ⟨s, h1, h2, h3, h4, h5⟩ := expect_stream (ssrc := ssrc) (mid := mid) (rid := rid) (rtx := (none : Option Rx).bind (·.rtx)) (n := p.resend.isNone) g (fun s hs => (hno s hs).elim)
    exact ⟨s, by rw [h2]; exact h1, h3, h4, h2⟩
  | some s =>
    obtain ⟨⟨k, hk⟩, hmid, hrid⟩ := rxByMidRid_some hr
    have hks := g.rxSsrc _ hk
    simp only at hks
    subst hks
    have hne : s.ssrc ≠ ssrc := (hf.rx _ hk).1
    have hcr : ∀ u : Table, changeRtxOpt u s.rtx s.rtx = u := by
      intro u
      cases s.rtx with
      | none => rfl
      | some r => simp [changeRtxOpt]
    cases hc : s.change ssrc with
    | none =>
      have e1 : mapFinish t mid rid ssrc ((some s).bind (·.rtx)) p = some (expectRx t ssrc s.rtx mid rid p.resend.isNone) := by
        simp only [mapFinish, hr, rebind, changeSsrcIf, if_neg hne, changeSsrc, g.get hk, Option.map_some, hc, moveRx, Option.bind_some, hcr]
      refine ⟨_, e1, ?_⟩
      have hno : ∀ s, (ssrc, s) ∈ t.rx → False := fun s hs => hkey _ hs rfl
      refine ⟨g.expect (fun _ s hs => (hno s hs).elim), fun e he => he, rfl, fun _ => expect_rtx (fun e he => (hf.rx e he).2) (hf.rx _ hk).2, fun h => (by cases h), ?_, fun _ => expect_others fun s hs => (hno s hs).elim⟩
      obtain ⟨u, h1, h2, h3, h4, h5⟩ := expect_stream (ssrc := ssrc) (mid := mid) (rid := rid) (rtx := s.rtx) (n := p.resend.isNone) g (fun s hs => (hno s hs).elim)
      exact ⟨u, by rw [h2]; exact h1, h3, h4, h2⟩
    | some s' =>
      obtain ⟨g1, g2⟩ := g.move hk hc hkey
      obtain ⟨c1, c2, c3, c4, _⟩ := Rx.change_some hc
      have e1 : mapFinish t mid rid ssrc ((some s).bind (·.rtx)) p = some (expectRx (moveRx t s.ssrc ssrc (some s')) ssrc s.rtx mid rid p.resend.isNone) := by
        simp only [mapFinish, hr, rebind, changeSsrcIf, if_neg hne, changeSsrc, g.get hk, Option.map_some, hc, Option.bind_some, hcr]
      refine ⟨_, e1, ?_⟩
      have hown : ∀ u, (ssrc, u) ∈ (moveRx t s.ssrc ssrc (some s')).rx → u = s' := by
        intro u hu
        rcases List.mem_cons.mp hu with hu | hu
        · exact (Prod.mk.inj hu).2
        · exact absurd rfl (mem_del.mp hu).2
      refine ⟨g1.expect (fun _ u hu e he hm => absurd hm (g2 e he).1), fun e he => (g2 e he).2, rfl, fun _ => expect_rtx ?_ (hf.rx _ hk).2, fun h => (by cases h), ?_, fun _ => ?_⟩
      · intro e he
        rcases List.mem_cons.mp he with rfl | he
        · rw [c4]; exact (hf.rx _ hk).2
        · exact (hf.rx e (mem_del.mp (mem_del.mp he).1).1).2
      · obtain ⟨u, h1, h2, h3, h4, h5⟩ := expect_stream (ssrc := ssrc) (mid := mid) (rid := rid) (rtx := s.rtx) (n := p.resend.isNone) g1
          (fun u hu => by
            rw [hown u hu, c2, c3]
            exact ⟨hmid, hrid⟩)
        exact ⟨u, by rw [h2]; exact h1, h3, h4, h2⟩
      · intro e he
        rw [expect_others (fun u hu => by rw [hown u hu, c2]; exact hmid) e he]
        constructor
        · intro hm
          rcases List.mem_cons.mp hm with rfl | hm
          · exact absurd (c2.trans hmid) he
          · exact (mem_del.mp (mem_del.mp hm).1).1
        · intro hm
          refine List.mem_cons_of_mem _ (mem_del.mpr ⟨mem_del.mpr ⟨hm, ?_⟩, hkey e hm⟩)
          intro hk2
          have h3 := g.get hm
          rw [hk2, g.get hk] at h3
          exact he ((Option.some.inj h3) ▸ hmid)

/-- An RTX SSRC nothing is known of is mapped to the stream its packet names. -/
theorem mapFinish_rtx {b : Bool} {t : Table} (g : Good b t) {ssrc : Nat} (hf : Fresh t ssrc) {mid : Nat} {rid : Option Nat} (p : Param)
    {s : Rx} (hr : rxByMidRid t mid rid = some s) :
    ∃ t', mapFinish t mid rid s.ssrc (some ssrc) p = some t' ∧ Mapped b t t' ssrc mid rid false := by
  obtain ⟨⟨k, hk⟩, hmid, hrid⟩ := rxByMidRid_some hr
  have hks := g.rxSsrc _ hk
  simp only at hks
  subst hks
  have huniq : ∀ u, (s.ssrc, u) ∈ t.rx → u = s := by
    intro u hu
    have h1 := g.get hu
    rw [g.get hk] at h1
    exact (Option.some.inj h1).symm
  have hbase : mapFinish t mid rid s.ssrc (some ssrc) p =
      some (expectRx (changeRtxOpt t s.rtx (some ssrc)) s.ssrc (some ssrc) mid rid p.resend.isNone) := by
    simp only [mapFinish, hr, rebind, changeSsrcIf, if_true, Option.map_some]
  have hkey : ∀ e ∈ t.rx, e.1 ≠ ssrc := fun e he h => (hf.rx e he).1 ((g.rxSsrc e he).trans h)
  have hne0 : s.ssrc ≠ ssrc := (hf.rx _ hk).1
  refine ⟨_, hbase, ?_⟩
  cases hrtx : s.rtx with
  | none =>
    show Mapped b t (expectRx t s.ssrc (some ssrc) mid rid p.resend.isNone) ssrc mid rid false
    refine ⟨g.expect ?_, fun e he => he, rfl, fun h => (by cases h), fun _ => expect_keys hne0 hkey, ?_, fun _ => expect_others fun u hu => by rw [huniq u hu]; exact hmid⟩
    · intro _ u hu e _ _ _ h
      rw [huniq u hu, hrtx] at h
      cases h
    · obtain ⟨u, h1, h2, h3, h4, h5⟩ := expect_stream (ssrc := s.ssrc) (mid := mid) (rid := rid) (rtx := some ssrc) (n := p.resend.isNone) g
        (fun u hu => by rw [huniq u hu]; exact ⟨hmid, hrid⟩)
      exact ⟨u, by rw [h2]; exact h1, h3, h4, h5 (by simp)⟩
  | some a =>
    have hne : a ≠ ssrc := by
      rintro rfl
      exact (hf.rx _ hk).2 hrtx
    have hco : changeRtxOpt t (some a) (some ssrc) = changeRtx t a ssrc := by
      simp only [changeRtxOpt, if_neg hne]
    rw [hco]
    have hfst : (changeRtx t a ssrc).rx = updFirst (fun s => s.rtx == some a) (fun s => s.setRtx ssrc) t.rx := rfl
    have back : ∀ e ∈ (changeRtx t a ssrc).rx, ∃ u, (e.1, u) ∈ t.rx ∧ e.2.mid = u.mid ∧ e.2.rid = u.rid ∧ e.2.ssrc = u.ssrc ∧
        (e.2 = u ∨ u.rtx = some a) := by
      intro e he
      rw [hfst] at he
      rcases mem_updFirst he with h | ⟨d, h1, h2, rfl⟩
      · exact ⟨e.2, h, rfl, rfl, rfl, Or.inl rfl⟩
      · exact ⟨d.2, h1, rfl, rfl, rfl, Or.inr (by simpa using h2)⟩
    have hkey1 : ∀ e ∈ (changeRtx t a ssrc).rx, e.1 ≠ ssrc := by
      intro e he
      obtain ⟨u, h1, _⟩ := back e he
      exact hkey (e.1, u) h1
    have g1 : Good b (changeRtx t a ssrc) := by
      refine ⟨by rw [hfst, updFirst_keys]; exact g.rxKeys, ?_, filter_keys_nodup _ g.lookKeys, ?_⟩
      · intro e he
        obtain ⟨u, h1, _, _, h2, _⟩ := back e he
        rw [h2]
        exact g.rxSsrc _ h1
      · intro e he
        obtain ⟨he1, he2⟩ := mem_del.mp he
        obtain ⟨u, hu, hm, hb⟩ := g.routes e he1
        rw [hfst]
        rcases updFirst_mem (p := fun s : Rx => s.rtx == some a) (f := fun s => s.setRtx ssrc) hu with h | ⟨h1, h2⟩
        · exact ⟨u, h, hm, hb⟩
        · refine ⟨_, h2, hm, fun hbt => ?_⟩
          rcases hb hbt with hb | hb
          · exact Or.inl hb
          · simp only [beq_iff_eq] at h1
            rw [h1] at hb
            exact absurd (Option.some.inj hb).symm he2
    have hown : ∀ u, (s.ssrc, u) ∈ (changeRtx t a ssrc).rx → u.mid = mid ∧ (rid = none ∨ rid = u.rid) := by
      intro u hu
      obtain ⟨v, h1, h2, h3, _⟩ := back _ hu
      simp only at h1 h2 h3
      rw [huniq v h1] at h2 h3
      rw [h2, h3]
      exact ⟨hmid, hrid⟩
    refine ⟨g1.expect ?_, fun e he => (mem_del.mp he).1, rfl, fun h => (by cases h), fun _ => expect_keys hne0 hkey1, ?_, ?_⟩
    · intro hbt u hu e he hm _ hue
      obtain ⟨he1, he2⟩ := mem_del.mp he
      obtain ⟨v, hv, _, hb⟩ := g.routes e he1
      rw [hm] at hv
      rw [huniq v hv] at hb
      rcases hb hbt with hb | hb
      · right
        rw [hb, hm]
      · rw [hrtx] at hb
        exact absurd (Option.some.inj hb).symm he2
    · obtain ⟨u, h1, h2, h3, h4, h5⟩ := expect_stream (ssrc := s.ssrc) (mid := mid) (rid := rid) (rtx := some ssrc) (n := p.resend.isNone) g1 hown
      exact ⟨u, by rw [h2]; exact h1, h3, h4, h5 (by simp)⟩
    · intro hs e he
      rw [expect_others (fun u hu => (hown u hu).1) e he]
      constructor
      · intro hm
        obtain ⟨u, h1, h2, h3, h4, h5⟩ := back e hm
        rcases h5 with h5 | h5
        · rw [← h5] at h1; exact h1
        · exact absurd (h2.trans ((hs _ h1 _ hk (by simp [h5]) (by simp [h5, hrtx])).trans hmid)) he
      · intro hm
        rw [hfst]
        rcases updFirst_mem (p := fun s : Rx => s.rtx == some a) (f := fun s => s.setRtx ssrc) hm with h | ⟨h1, _⟩
        · exact h
        · simp only [beq_iff_eq] at h1
          exact absurd ((hs _ hm _ hk (by simp [h1]) (by simp [h1, hrtx])).trans hmid) he

/-- What an incoming packet of an unknown SSRC asks for: MID, RID and whether it is a main stream. `none` if it is not
of a media, payload type and RID that are expected. -/
def wanted (medias : List Media) (codecs : List Param) (h : Header) : Option (Nat × Option Nat × Bool) :=
  h.mid.bind fun mid => (medias.find? fun m => m.mid == mid).bind fun m => (findParam codecs h.pt).bind fun p =>
    match h.rid.or h.ridRepair with
    | some rid => if m.rids.has rid then some (mid, some rid, h.rid.isSome) else none
    | none => if m.rids.isSpecific then none else some (mid, none, p.pt == h.pt)

theorem mapStream_eq {b : Bool} {t : Table} (g : Good b t) {ssrc : Nat} (hf : Fresh t ssrc) (mid : Nat) (rid : Option Nat) (p : Param) (isMain : Bool) :
    (mapStream t ssrc mid rid p isMain (rxByMidRid t mid rid) = some t ∧ isMain = false ∧ rxByMidRid t mid rid = none) ∨
    ∃ t', mapStream t ssrc mid rid p isMain (rxByMidRid t mid rid) = some t' ∧ Mapped b t t' ssrc mid rid isMain := by
  cases isMain with
  | true =>
    right
    obtain ⟨t', h1, h2⟩ := mapFinish_main g hf mid rid p
    refine ⟨t', ?_, h2⟩
    rw [← h1]
    cases hr : rxByMidRid t mid rid <;> simp [mapStream]
  | false =>
    cases hr : rxByMidRid t mid rid with
    | none => left; exact ⟨by simp [mapStream], rfl, rfl⟩
    | some s =>
      right
      obtain ⟨t', h1, h2⟩ := mapFinish_rtx g hf p hr
      exact ⟨t', by simpa [mapStream] using h1, h2⟩

/-- The dynamic mapping of an SSRC nothing is known of: nothing happens, or the packet gets its stream. -/
theorem mapDynamic_spec {b : Bool} {t : Table} (g : Good b t) (medias : List Media) (codecs : List Param) (h : Header) (hf : Fresh t h.ssrc) :
    (mapDynamic t medias codecs h = some t ∧ ∀ mid rid m, wanted medias codecs h = some (mid, rid, m) → m = false ∧ rxByMidRid t mid rid = none) ∨
    ∃ t' mid rid m, mapDynamic t medias codecs h = some t' ∧ wanted medias codecs h = some (mid, rid, m) ∧ Mapped b t t' h.ssrc mid rid m := by
  unfold mapDynamic wanted
  cases h.mid with
  | none => left; simp
  | some mid =>
    simp only [Option.bind_some]
    cases hm : medias.find? fun m => m.mid == mid with
    | none => left; simp [mapMid]
    | some m =>
      cases hp : findParam codecs h.pt with
      | none => left; simp [mapMid]
      | some p =>
        simp only [mapMid, mapKnown, Option.bind_some]
        cases hrr : h.rid.or h.ridRepair with
        | some rid =>
          simp only [mapByRid]
          cases hc : m.rids.has rid with
          | false => left; simp
          | true =>
            simp only [if_true]
            rcases mapStream_eq g hf mid (some rid) p h.rid.isSome with ⟨h1, h2, h3⟩ | ⟨t', h1, h2⟩
            · left
              refine ⟨h1, fun a c d hh => ?_⟩
              simp only [Option.some.injEq, Prod.mk.injEq] at hh
              obtain ⟨rfl, rfl, rfl⟩ := hh
              exact ⟨h2, h3⟩
            · right
              exact ⟨t', mid, some rid, _, h1, rfl, h2⟩
        | none =>
          simp only [mapByPt]
          cases hc : m.rids.isSpecific with
          | true => left; simp
          | false =>
            simp only [Bool.false_eq_true, if_false]
            rcases mapStream_eq g hf mid none p (p.pt == h.pt) with ⟨h1, h2, h3⟩ | ⟨t', h1, h2⟩
            · left
              refine ⟨h1, fun a c d hh => ?_⟩
              simp only [Option.some.injEq, Prod.mk.injEq] at hh
              obtain ⟨rfl, rfl, rfl⟩ := hh
              exact ⟨h2, h3⟩
            · right
              exact ⟨t', mid, none, _, h1, rfl, h2⟩

/-- The three ways an incoming packet goes -/
inductive Way (b : Bool) (t : Table) (medias : List Media) (codecs : List Param) (h : Header) : Table → Option (Nat × Rx) → Prop where
  /-- the SSRC is known -/
  | known {look : List (Nat × Look)} {s : Rx} (hs : (s.ssrc, s) ∈ t.rx) (hn : ¬ Fresh t h.ssrc)
      (hl : (∀ e ∈ t.look, e.1 ≠ h.ssrc) → s.ssrc = h.ssrc ∨ s.rtx = some h.ssrc) : Way b t medias codecs h { t with look := look } (some (s.mid, s))
  /-- nothing is known, and the packet says nothing useful -/
  | dropped (hf : Fresh t h.ssrc) (h0 : h.ssrc ≠ 0)
      (hw : ∀ mid rid m, wanted medias codecs h = some (mid, rid, m) → m = false ∧ rxByMidRid t mid rid = none) : Way b t medias codecs h t none
  /-- nothing is known, and the packet is a probe -/
  | probe (hf : Fresh t h.ssrc) (h0 : h.ssrc = 0)
      (hw : ∀ mid rid m, wanted medias codecs h = some (mid, rid, m) → m = false ∧ rxByMidRid t mid rid = none) {s : Rx} (hs : s.ssrc = 0 ∧ s.mid = midProbe) :
      Way b t medias codecs h (expectRx t 0 none midProbe none true) (some (midProbe, s))
  /-- nothing is known of the SSRC, but the packet names a stream -/
  | named (hf : Fresh t h.ssrc) {mid : Nat} {rid : Option Nat} {m : Bool} (hw : wanted medias codecs h = some (mid, rid, m))
      {u : Table} (hm : Mapped b t u h.ssrc mid rid m) {look : List (Nat × Look)} {s : Rx} (hs : s.ssrc = h.ssrc ∨ s.rtx = some h.ssrc) (hu : (s.ssrc, s) ∈ u.rx) :
      Way b t medias codecs h { u with look := look } (some (s.mid, s))

theorem Fresh.lookup {b : Bool} {t : Table} (g : Good b t) {ssrc : Nat} (hf : Fresh t ssrc) (now : Nat) : lookup t now ssrc = (t, none) := by
  rcases lookup_spec g now ssrc with ⟨h, _⟩ | ⟨s, look, _, _, h1, _, h2⟩
  · exact h
  · rcases h2 hf.look with h | h
    · exact absurd h (hf.rx _ h1).1
    · exact absurd h (hf.rx _ h1).2

/-- Routing never panics, keeps the invariant and goes one of the ways. -/
theorem route_spec {b : Bool} {t : Table} (g : Good b t) (now : Nat) (medias : List Media) (codecs : List Param) (h : Header) :
    ∃ t' r, route t now medias codecs h = some (t', r) ∧ Good b t' ∧ Way b t medias codecs h t' r ∧
      ∀ mid s, r = some (mid, s) → (s.ssrc, s) ∈ t'.rx ∧ s.mid = mid ∧ (b = true → s.ssrc = h.ssrc ∨ s.rtx = some h.ssrc) := by
  unfold route forHeader
  rcases lookup_spec g now h.ssrc with ⟨h1, hf⟩ | ⟨s, look, h1, h2, h3, h4, h5⟩
  · rw [h1]
    simp only [Option.isSome_none, Bool.false_eq_true, if_false]
    rcases mapDynamic_spec g medias codecs h hf with ⟨hd, hw⟩ | ⟨u, mid, rid, m, hd, hw, hm⟩
    · rw [hd]
      simp only [Option.map_some, Option.bind_some, h1]
      by_cases h0 : h.ssrc = 0
      · have hno : ∀ s, (0, s) ∈ t.rx → False := by
          intro s hs
          exact (hf.rx _ hs).1 (by rw [g.rxSsrc _ hs]; exact h0.symm)
        obtain ⟨s, g1, g2, g3, _, _⟩ := expect_stream (ssrc := 0) (mid := midProbe) (rid := none) (rtx := none) (n := true) g (fun s hs => (hno s hs).elim)
        have ge : Good b (expectRx t 0 none midProbe none true) := g.expect (fun _ s hs => (hno s hs).elim)
        have hget := ge.get g1
        refine ⟨_, some (midProbe, s), ?_, ge, Way.probe hf h0 hw ⟨g2, g3⟩, ?_⟩
        · simp [orProbe, Routing.probe, h0, mustExist, hget]
        · intro mid s' hh
          cases hh
          exact ⟨by rw [g2]; exact g1, g3, fun _ => Or.inl (by rw [g2, h0])⟩
      · refine ⟨t, none, ?_, g, Way.dropped hf h0 hw, fun _ _ hh => by cases hh⟩
        simp [orProbe, Routing.probe, h0, mustExist]
    · rw [hd]
      simp only [Option.map_some, Option.bind_some]
      rcases lookup_spec hm.good now h.ssrc with ⟨k1, kf⟩ | ⟨s, look, k1, k2, k3, k4, k5⟩
      · exfalso
        obtain ⟨s, s1, _, _, s2⟩ := hm.stream
        cases m with
        | true => exact (kf.rx _ s1).1 (by simpa using s2)
        | false => exact (kf.rx _ s1).2 (by simpa using s2)
      · have hs := k5 (fun e he => hf.look e (hm.look e he))
        refine ⟨_, some (s.mid, s), ?_, k2, Way.named hf hw hm hs k3, ?_⟩
        · rw [k1]
          simp [orProbe, mustExist, hm.good.get k3]
        · intro mid s' hh
          cases hh
          exact ⟨k3, rfl, fun _ => hs⟩
  · refine ⟨{ t with look := look }, some (s.mid, s), ?_, h2, Way.known h3 ?_ h5, ?_⟩
    · rw [h1]
      simp [mustExist, g.get h3]
    · intro hf
      rw [hf.lookup g now] at h1
      exact absurd (Prod.mk.inj h1).2 (by simp)
    · intro mid s' hh
      cases hh
      exact ⟨h3, rfl, h4⟩

/-- What is assumed of the API, for the strict invariant: the RTX SSRC of a known stream is not replaced. -/
def Calm (t : Table) : Op → Prop
  | .expect ssrc (some r) _ _ _ => ∀ s, (ssrc, s) ∈ t.rx → s.rtx = none ∨ s.rtx = some r
  | _ => True

theorem step_good {b : Bool} {t : Table} (g : Good b t) (op : Op) (hc : b = true → Calm t op) : ∃ t', step t op = some t' ∧ Good b t' := by
  cases op with
  | packet now medias codecs h =>
    obtain ⟨t', r, h1, h2, _⟩ := route_spec g now medias codecs h
    exact ⟨t', by simp [step, h1], h2⟩
  | expect ssrc rtx mid rid n =>
    refine ⟨_, rfl, g.expect ?_⟩
    intro hb s hs e he hm hr hse
    cases rtx with
    | none => exact absurd rfl hr
    | some r =>
      rcases hc hb s hs with h | h
      · rw [h] at hse; cases hse
      · exact Or.inl h.symm
  | removeRx ssrc => exact ⟨_, rfl, g.removeRx ssrc⟩
  | declareTx ssrc rtx mid rid => exact ⟨_, rfl, g.setTx _⟩
  | removeTx ssrc => exact ⟨_, rfl, g.setTx _⟩
  | resetTx mid rid ssrc rtx => exact ⟨_, rfl, g.setTx _⟩
  | removeMid mid => exact ⟨_, rfl, g.removeMid mid⟩
  | timeout now => exact ⟨_, rfl, g.timeout now⟩
  | reorder rx look tx => exact ⟨_, rfl, g.reorder rx look tx⟩

theorem good_new (b : Bool) : Good b {} := ⟨List.nodup_nil, fun _ h => (by cases h), List.nodup_nil, fun _ h => (by cases h)⟩

theorem run_good {b : Bool} : ∀ (ops : List Op) (t : Table), Good b t →
    (b = true → ∀ pre op post u, ops = pre ++ op :: post → run t pre = some u → Calm u op) → ∃ t', run t ops = some t' ∧ Good b t' := by
  intro ops
  induction ops with
  | nil => intro t g _; exact ⟨t, rfl, g⟩
  | cons op ops ih =>
    intro t g hc
    obtain ⟨u, h1, h2⟩ := step_good g op (fun hb => hc hb [] op ops t rfl rfl)
    obtain ⟨v, h3, h4⟩ := ih u h2 (fun hb pre op' post w he hr => hc hb (op :: pre) op' post w (by simp [he]) (by simp [run, h1, hr]))
    exact ⟨v, by simp [run, h1, h3], h4⟩

end Str0m.Routing
