import Mathlib.Data.List.Nodup
import Mathlib.Data.List.Perm.Subperm
import Verif.Model.Dlrr
/-
  C88: receiver reference times are answered.
-/
namespace Str0m.Dlrr

/-- The operation is a reference time of this SSRC -/
def Op.of (s : Nat) : Op → Prop
  | .rrtr ssrc _ _ => ssrc = s
  | .timeout _ _ => False

/-- No report of these has an item for the SSRC -/
def Silent (s : Nat) (reports : List (List Item)) : Prop := ∀ r ∈ reports, ∀ j ∈ r, j.ssrc ≠ s

theorem run_append (l : List Pending) (a b : List Op) : run l (a ++ b) = ((run (run l a).1 b).1, (run l a).2 ++ (run (run l a).1 b).2) := by
  induction a generalizing l with
  | nil => rfl
  | cons op a ih => simp only [List.cons_append, run, ih]

/-- What waits is the last word of its SSRC -/
structure Good (ops : List Op) (l : List Pending) : Prop where
  nodup : (l.map (·.ssrc)).Nodup
  short : l.length ≤ 300
  last : ∀ p ∈ l, ∃ pre post, ops = pre ++ .rrtr p.ssrc p.lrr p.receivedAt :: post ∧ (∀ op ∈ post, ¬ op.of p.ssrc) ∧
    Silent p.ssrc (run (run [] (pre ++ [.rrtr p.ssrc p.lrr p.receivedAt])).1 post).2

theorem replace_none {p : Pending} {l : List Pending} : replace p l = none ↔ p.ssrc ∉ l.map (·.ssrc) := by
  induction l with
  | nil => simp [replace]
  | cons q l ih =>
    unfold replace
    split
    · rename_i h; simp [h]
    · rename_i h
      simp only [Option.map_eq_none_iff, ih, List.map_cons, List.mem_cons, not_or]
      exact ⟨fun h' => ⟨fun e => h e.symm, h'⟩, fun h' => h'.2⟩

theorem replace_some {p : Pending} {l l' : List Pending} (h : replace p l = some l') : l'.map (·.ssrc) = l.map (·.ssrc) ∧
    (∀ q ∈ l', q = p ∨ q ∈ l) ∧ p ∈ l' := by
  induction l generalizing l' with
  | nil => cases h
  | cons q l ih =>
    unfold replace at h
    split at h
    · rename_i e
      cases h
      refine ⟨by simp [e], fun x hx => ?_, List.mem_cons_self ..⟩
      rcases List.mem_cons.1 hx with rfl | hx
      · exact .inl rfl
      · exact .inr (List.mem_cons_of_mem _ hx)
    · cases hr : replace p l with
      | none => rw [hr] at h; cases h
      | some l2 =>
        rw [hr] at h
        cases h
        obtain ⟨a, b, c⟩ := ih hr
        refine ⟨by simp [a], fun x hx => ?_, List.mem_cons_of_mem _ c⟩
        rcases List.mem_cons.1 hx with rfl | hx
        · exact .inr (List.mem_cons_self ..)
        · exact (b x hx).imp id (List.mem_cons_of_mem _)

theorem room_sub (l : List Pending) : ∃ n, room l = l.drop n := by
  unfold room
  split
  · exact ⟨1, rfl⟩
  · exact ⟨0, rfl⟩

theorem good_nil : Good [] [] := ⟨List.nodup_nil, by simp, fun p hp => by cases hp⟩

/-- What was last and is left is still last -/
theorem last_step {ops : List Op} {p : Pending} (op : Op) (hl : (run [] ops).1 = l) (h : ∃ pre post, ops = pre ++ .rrtr p.ssrc p.lrr p.receivedAt :: post ∧
    (∀ op ∈ post, ¬ op.of p.ssrc) ∧ Silent p.ssrc (run (run [] (pre ++ [.rrtr p.ssrc p.lrr p.receivedAt])).1 post).2)
    (h1 : ¬ op.of p.ssrc) (h2 : ∀ j ∈ (step l op).2, j.ssrc ≠ p.ssrc) :
    ∃ pre post, ops ++ [op] = pre ++ .rrtr p.ssrc p.lrr p.receivedAt :: post ∧
      (∀ op ∈ post, ¬ op.of p.ssrc) ∧ Silent p.ssrc (run (run [] (pre ++ [.rrtr p.ssrc p.lrr p.receivedAt])).1 post).2 := by
  obtain ⟨pre, post, e, h3, h4⟩ := h
  refine ⟨pre, post ++ [op], by rw [e]; simp, ?_, ?_⟩
  · intro o ho
    rcases List.mem_append.1 ho with ho | ho
    · exact h3 o ho
    · rw [List.mem_singleton.1 ho]; exact h1
  · rw [run_append]
    intro r hr
    rcases List.mem_append.1 hr with hr | hr
    · exact h4 r hr
    · have : (run (run [] (pre ++ [.rrtr p.ssrc p.lrr p.receivedAt])).1 post).1 = l := by
        rw [← hl, e, show pre ++ Op.rrtr p.ssrc p.lrr p.receivedAt :: post = (pre ++ [.rrtr p.ssrc p.lrr p.receivedAt]) ++ post by simp]
        exact (congrArg Prod.fst (run_append [] (pre ++ [.rrtr p.ssrc p.lrr p.receivedAt]) post)).symm
      rw [this] at hr
      simp only [run, List.mem_singleton] at hr
      rw [hr]; exact h2

theorem good_step {ops : List Op} {l : List Pending} (hl : (run [] ops).1 = l) (g : Good ops l) (op : Op) : Good (ops ++ [op]) (step l op).1 := by
  cases op with
  | rrtr s r now =>
    obtain ⟨p, hp⟩ : ∃ p : Pending, p = { ssrc := s, lrr := r, receivedAt := now } := ⟨_, rfl⟩
    have hst : (step l (.rrtr s r now)).1 = remember p l := by rw [hp]; rfl
    have hnew : ∃ pre post, ops ++ [.rrtr s r now] = pre ++ .rrtr p.ssrc p.lrr p.receivedAt :: post ∧
        (∀ op ∈ post, ¬ op.of p.ssrc) ∧ Silent p.ssrc (run (run [] (pre ++ [.rrtr p.ssrc p.lrr p.receivedAt])).1 post).2 := by
      rw [hp]
      refine ⟨ops, [], rfl, fun o ho => ?_, fun r hr => ?_⟩
      · cases ho
      · cases hr
    rw [hst]
    unfold remember
    cases hr : replace p l with
    | some l2 =>
      dsimp only
      obtain ⟨a, b, c⟩ := replace_some hr
      refine ⟨by rw [a]; exact g.nodup, by have := congrArg List.length a; simp only [List.length_map] at this; rw [this]; exact g.short, fun q hq => ?_⟩
      have hnd : (l2.map (·.ssrc)).Nodup := by rw [a]; exact g.nodup
      by_cases hqp : q = p
      · rw [hqp]; exact hnew
      · have hql := (b q hq).resolve_left hqp
        have hne : p.ssrc ≠ q.ssrc := fun e => hqp ((List.inj_on_of_nodup_map hnd c hq e).symm)
        refine last_step _ hl (g.last q hql) (by rw [hp] at hne; exact hne) (fun j hj => by cases hj)
    | none =>
      dsimp only
      have hnot := replace_none.1 hr
      obtain ⟨n, hn⟩ := room_sub l
      have hsub : (room l).Sublist l := by rw [hn]; exact List.drop_sublist n l
      refine ⟨?_, ?_, fun q hq => ?_⟩
      · rw [List.map_append, List.nodup_append]
        refine ⟨g.nodup.sublist (hsub.map _), by simp, ?_⟩
        intro x hx y hy
        simp only [List.map_cons, List.map_nil, List.mem_singleton] at hy
        rintro rfl
        exact hnot (hy ▸ (hsub.map _).subset hx)
      · have := g.short
        rw [List.length_append]
        unfold room MAX_PENDING
        split
        · simp; omega
        · simp; omega
      · rcases List.mem_append.1 hq with hq | hq
        · have hql := hsub.subset hq
          refine last_step _ hl (g.last q hql) ?_ (fun j hj => by cases hj)
          intro e
          have e : s = q.ssrc := e
          refine hnot (List.mem_map.2 ⟨q, hql, ?_⟩)
          rw [hp]; exact e.symm
        · rw [List.mem_singleton.1 hq]; exact hnew
  | timeout now sr =>
    by_cases hc : (!l.isEmpty && sr) = true
    · have hst : step l (.timeout now sr) = flush now l := by simp only [step]; rw [if_pos hc]
      rw [hst]
      refine ⟨?_, ?_, fun q hq => ?_⟩
      · exact g.nodup.sublist ((List.drop_sublist _ l).map _)
      · exact (List.drop_sublist _ l).length_le.trans g.short
      · have hql := (List.drop_sublist _ l).subset hq
        refine last_step _ hl (g.last q hql) (fun e => e) ?_
        rw [hst]
        intro j hj
        obtain ⟨p, hp, rfl⟩ := List.mem_map.1 hj
        have hnd := g.nodup
        rw [← List.take_append_drop (min l.length MAX_PER_REPORT) l, List.map_append, List.nodup_append] at hnd
        exact hnd.2.2 _ (List.mem_map.2 ⟨p, hp, rfl⟩) _ (List.mem_map.2 ⟨q, hq, rfl⟩)
    · have hst : step l (.timeout now sr) = (l, []) := by simp only [step]; rw [if_neg hc]
      rw [hst]
      refine ⟨g.nodup, g.short, fun q hq => ?_⟩
      exact last_step _ hl (g.last q hq) (fun e => e) (by rw [hst]; intro j hj; cases hj)

theorem good_run (ops : List Op) : Good ops (run [] ops).1 := by
  induction h : ops.length generalizing ops with
  | zero =>
    rw [List.length_eq_zero_iff.1 h]
    exact good_nil
  | succ n ih =>
    obtain ⟨pre, op, e⟩ : ∃ pre op, ops = pre ++ [op] := ⟨ops.dropLast, ops.getLast (by intro e; rw [e] at h; cases h), (List.dropLast_append_getLast _).symm⟩
    subst e
    rw [run_append]
    exact good_step rfl (ih pre (by simpa using h)) op

/-- **C88**: each item of a report answers the last reference time of its SSRC, which was not answered before, with its middle 32 bits and the
time since it came (in 1/65536 seconds); a report has at most 50 items, no two for the same SSRC, and goes with a sender report. -/
theorem C88_answers (ops : List Op) (now : Nat) (sr : Bool) (r : List Item) (h : (step (run [] ops).1 (.timeout now sr)).2 = r) :
    r.length ≤ 50 ∧ (r.map (·.ssrc)).Nodup ∧ (r ≠ [] → sr = true) ∧
    ∀ j ∈ r, ∃ pre at_ post, ops = pre ++ .rrtr j.ssrc j.lastRr at_ :: post ∧ (∀ op ∈ post, ¬ op.of j.ssrc) ∧
      Silent j.ssrc (run (run [] (pre ++ [.rrtr j.ssrc j.lastRr at_])).1 post).2 ∧ j.delay = (now - at_) / 1000 * 65536 / 1000000 % 2 ^ 32 := by
  subst h
  have g := good_run ops
  generalize (run [] ops).1 = l at g
  by_cases hc : (!l.isEmpty && sr) = true
  · have hst : step l (.timeout now sr) = flush now l := by simp only [step]; rw [if_pos hc]
    rw [hst]
    refine ⟨?_, ?_, fun _ => ?_, fun j hj => ?_⟩
    · simp [flush, MAX_PER_REPORT]
    · have : ((l.take (min l.length MAX_PER_REPORT)).map (answer now)).map (·.ssrc) = (l.take (min l.length MAX_PER_REPORT)).map (·.ssrc) := by
        rw [List.map_map]; rfl
      show (List.map _ (flush now l).2).Nodup
      rw [show (flush now l).2 = (l.take (min l.length MAX_PER_REPORT)).map (answer now) from rfl, this]
      exact g.nodup.sublist ((List.take_sublist _ l).map _)
    · simp only [Bool.and_eq_true] at hc; exact hc.2
    · obtain ⟨p, hp, rfl⟩ := List.mem_map.1 hj
      obtain ⟨pre, post, e, h1, h2⟩ := g.last p ((List.take_sublist _ l).subset hp)
      exact ⟨pre, p.receivedAt, post, e, h1, h2, rfl⟩
  · have hst : step l (.timeout now sr) = (l, []) := by simp only [step]; rw [if_neg hc]
    rw [hst]
    exact ⟨by simp, by simp, fun h => absurd rfl h, fun j hj => by cases hj⟩

/-! ### Every reference time is answered -/

/-- How many timeouts come with a sender report -/
def reports : List Op → Nat
  | [] => 0
  | .timeout _ true :: ops => reports ops + 1
  | _ :: ops => reports ops

theorem index_append {l : List Pending} {s i : Nat} {l' : List Pending} (h : (l.map (·.ssrc))[i]? = some s) : ((l ++ l').map (·.ssrc))[i]? = some s := by
  rw [List.map_append, List.getElem?_append_left]
  · exact h
  · exact (List.getElem?_eq_some_iff.1 h).1

theorem nearer {S : List Nat} (hS : S.length ≤ 300) (ops : List Op) : ∀ (l : List Pending) (s i : Nat), (l.map (·.ssrc)).Nodup → (∀ p ∈ l, p.ssrc ∈ S) →
    (∀ op ∈ ops, ∀ x, op.of x → x ∈ S) → (l.map (·.ssrc))[i]? = some s → i < 50 * reports ops → ¬ Silent s (run l ops).2 := by
  induction ops with
  | nil => intro l s i _ _ _ _ h; simp [reports] at h
  | cons op ops ih =>
    intro l s i hnd hsub hin hi hlt hsil
    have hin' : ∀ op ∈ ops, ∀ x, op.of x → x ∈ S := fun o ho => hin o (List.mem_cons_of_mem _ ho)
    have hsil1 : ∀ j ∈ (step l op).2, j.ssrc ≠ s := hsil _ (List.mem_cons_self ..)
    have hsil2 : Silent s (run (step l op).1 ops).2 := fun r hr => hsil r (List.mem_cons_of_mem _ hr)
    cases op with
    | rrtr x r now =>
      obtain ⟨p, hp⟩ : ∃ p : Pending, p = { ssrc := x, lrr := r, receivedAt := now } := ⟨_, rfl⟩
      have hst : (step l (.rrtr x r now)).1 = remember p l := by rw [hp]; rfl
      have hps : p.ssrc ∈ S := by rw [hp]; exact hin _ (List.mem_cons_self ..) x rfl
      rw [hst] at hsil2
      have hlt' : i < 50 * reports ops := hlt
      unfold remember at hsil2
      cases hr : replace p l with
      | some l2 =>
        rw [hr] at hsil2
        obtain ⟨a, b, c⟩ := replace_some hr
        refine ih l2 s i (by rw [a]; exact hnd) (fun q hq => ?_) hin' (by rw [a]; exact hi) hlt' hsil2
        rcases b q hq with rfl | hq
        · exact hps
        · exact hsub q hq
      | none =>
        rw [hr] at hsil2
        have hnot := replace_none.1 hr
        have hroom : room l = l := by
          unfold room MAX_PENDING
          rw [if_neg]
          have h1 : (p.ssrc :: l.map (·.ssrc)).Nodup := List.nodup_cons.2 ⟨hnot, hnd⟩
          have h2 : p.ssrc :: l.map (·.ssrc) ⊆ S := by
            intro y hy
            rcases List.mem_cons.1 hy with rfl | hy
            · exact hps
            · obtain ⟨q, hq, rfl⟩ := List.mem_map.1 hy
              exact hsub q hq
          have := (h1.subperm h2).length_le
          simp only [List.length_cons, List.length_map] at this
          omega
        dsimp only at hsil2
        rw [hroom] at hsil2
        refine ih _ s i ?_ (fun q hq => ?_) hin' (index_append hi) hlt' hsil2
        · rw [List.map_append, List.nodup_append]
          refine ⟨hnd, by simp, ?_⟩
          intro y hy z hz
          simp only [List.map_cons, List.map_nil, List.mem_singleton] at hz
          rintro rfl
          exact hnot (hz ▸ hy)
        · rcases List.mem_append.1 hq with hq | hq
          · exact hsub q hq
          · rw [List.mem_singleton.1 hq]; exact hps
    | timeout now sr =>
      have hil := (List.getElem?_eq_some_iff.1 hi).1
      rw [List.length_map] at hil
      cases sr with
      | false =>
        have hst : step l (.timeout now false) = (l, []) := by simp [step]
        rw [hst] at hsil2
        exact ih l s i hnd hsub hin' hi hlt hsil2
      | true =>
        have hne : (!l.isEmpty && true) = true := by
          cases l with
          | nil => simp at hil
          | cons => rfl
        have hst : step l (.timeout now true) = flush now l := by simp only [step]; rw [if_pos hne]
        rw [hst] at hsil1 hsil2
        have hr : reports (.timeout now true :: ops) = reports ops + 1 := rfl
        rw [hr] at hlt
        by_cases hi50 : i < min l.length MAX_PER_REPORT
        · obtain ⟨p, hp⟩ : ∃ p, l[i]? = some p := ⟨l[i], List.getElem?_eq_getElem hil⟩
          rw [List.getElem?_map, hp] at hi
          have hps : p.ssrc = s := by simpa using hi
          refine hsil1 (answer now p) (List.mem_map.2 ⟨p, ?_, rfl⟩) hps
          refine List.mem_iff_getElem?.2 ⟨i, ?_⟩
          rw [List.getElem?_take_of_lt hi50, hp]
        · have hmin : min l.length MAX_PER_REPORT = 50 := by unfold MAX_PER_REPORT at hi50 ⊢; omega
          refine ih _ s (i - 50) ?_ ?_ hin' ?_ (by rw [hmin] at hi50; omega) hsil2
          · exact hnd.sublist ((List.drop_sublist _ l).map _)
          · exact fun p hp => hsub p ((List.drop_sublist _ l).subset hp)
          · show ((l.drop (min l.length MAX_PER_REPORT)).map (·.ssrc))[i - 50]? = some s
            rw [hmin] at hi50 ⊢
            rw [List.map_drop, List.getElem?_drop, show 50 + (i - 50) = i by omega]
            exact hi

/-- **C88**: if at most 300 SSRCs ask, each reference time, or a later one of the same SSRC, is answered with the sixth sender report after it
at the latest. -/
theorem C88_answered (S : List Nat) (hS : S.length ≤ 300) (pre post : List Op) (s lrr at_ : Nat)
    (hin : ∀ op ∈ pre ++ .rrtr s lrr at_ :: post, ∀ x, op.of x → x ∈ S) (hr : 6 ≤ reports post) :
    ∃ r ∈ (run (run [] (pre ++ [.rrtr s lrr at_])).1 post).2, ∃ j ∈ r, j.ssrc = s := by
  by_contra hno
  have hsil : Silent s (run (run [] (pre ++ [.rrtr s lrr at_])).1 post).2 := by
    intro r hr j hj e
    exact hno ⟨r, hr, j, hj, e⟩
  have g := good_run (pre ++ [.rrtr s lrr at_])
  have hsub : ∀ p ∈ (run [] (pre ++ [.rrtr s lrr at_])).1, p.ssrc ∈ S := by
    intro p hp
    obtain ⟨a, b, e, -, -⟩ := g.last p hp
    refine hin (.rrtr p.ssrc p.lrr p.receivedAt) ?_ p.ssrc rfl
    have : Op.rrtr p.ssrc p.lrr p.receivedAt ∈ pre ++ [.rrtr s lrr at_] := by rw [e]; simp
    rcases List.mem_append.1 this with h | h
    · exact List.mem_append_left _ h
    · exact List.mem_append_right _ (by rw [List.mem_singleton.1 h]; exact List.mem_cons_self ..)
  have hmem : s ∈ (run [] (pre ++ [.rrtr s lrr at_])).1.map (·.ssrc) := by
    rw [run_append]
    show s ∈ (remember { ssrc := s, lrr := lrr, receivedAt := at_ } (run [] pre).1).map (·.ssrc)
    unfold remember
    cases hr : replace { ssrc := s, lrr := lrr, receivedAt := at_ } (run [] pre).1 with
    | some l2 => exact List.mem_map.2 ⟨_, (replace_some hr).2.2, rfl⟩
    | none => simp
  obtain ⟨i, hi⟩ := List.mem_iff_getElem?.1 hmem
  have hilt := (List.getElem?_eq_some_iff.1 hi).1
  rw [List.length_map] at hilt
  have := g.short
  exact nearer hS post _ s i g.nodup hsub (fun op ho x hx => hin op (List.mem_append_right _ (List.mem_cons_of_mem _ ho)) x hx) hi (by omega) hsil

/-- Two sources, one asks twice -/
example : (run [] [.rrtr 7 100 0, .rrtr 9 200 1000000, .timeout 1500000 false, .rrtr 7 150 2000000, .timeout 3000000 true, .timeout 4000000 true]).2 =
    [[], [], [], [], [⟨7, 150, 65⟩, ⟨9, 200, 131⟩], []] := by decide

/-- With more than 300 sources the oldest is forgotten: source 0 asks first, and nothing answers it. -/
example : ¬ Silent 1 (run [] ((List.range 301).map (fun n => Op.rrtr n 5 0) ++ List.replicate 7 (.timeout 1 true))).2 ∧
    Silent 0 (run [] ((List.range 301).map (fun n => Op.rrtr n 5 0) ++ List.replicate 7 (.timeout 1 true))).2 := by
  have h1 : (run [] ((List.range 301).map (fun n => Op.rrtr n 5 0) ++ List.replicate 7 (.timeout 1 true))).2.all (fun r => r.all fun j => decide (j.ssrc ≠ 0)) = true := by
    decide +kernel
  have h2 : (run [] ((List.range 301).map (fun n => Op.rrtr n 5 0) ++ List.replicate 7 (.timeout 1 true))).2.any (fun r => r.any fun j => decide (j.ssrc = 1)) = true := by
    decide +kernel
  constructor
  · intro h
    obtain ⟨r, hr, h2⟩ := List.any_eq_true.1 h2
    obtain ⟨j, hj, h2⟩ := List.any_eq_true.1 h2
    exact h r hr j hj (by simpa using h2)
  · intro r hr j hj
    simpa using List.all_eq_true.1 (List.all_eq_true.1 h1 r hr) j hj

end Str0m.Dlrr
