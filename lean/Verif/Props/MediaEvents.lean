import Verif.Spec.MediaEvents

/-!
C126 and C127: what the application is told about medias, and stopped medias.
-/

namespace Str0m.MediaEv
open Str0m.Negotiate

/-! ### Lists of medias -/

theorem onMid_mids {f : Media → Media} (hf : ∀ m, (f m).mid = m.mid) (mid : Nat) (ms : List Media) : (onMid mid f ms).map (·.mid) = ms.map (·.mid) := by
  induction ms with
  | nil => rfl
  | cons m ms ih =>
    unfold onMid
    split
    · rw [List.map_cons, hf, List.map_cons]
    · rw [List.map_cons, ih, List.map_cons]

theorem onMid_mem {f : Media → Media} {mid : Nat} {ms : List Media} (hn : (ms.map (·.mid)).Nodup) {x : Media} (hx : x ∈ onMid mid f ms) :
    (x ∈ ms ∧ x.mid ≠ mid) ∨ ∃ m ∈ ms, m.mid = mid ∧ x = f m := by
  induction ms with
  | nil => cases hx
  | cons m ms ih =>
    rw [List.map_cons, List.nodup_cons] at hn
    unfold onMid at hx
    split at hx
    · rename_i he
      rcases List.mem_cons.mp hx with rfl | hx
      · exact .inr ⟨m, List.mem_cons_self .., he, rfl⟩
      · left
        refine ⟨List.mem_cons_of_mem _ hx, ?_⟩
        intro h
        exact hn.1 (List.mem_map.mpr ⟨x, hx, by rw [h, he]⟩)
    · rename_i he
      rcases List.mem_cons.mp hx with rfl | hx
      · exact .inl ⟨List.mem_cons_self .., he⟩
      · rcases ih hn.2 hx with ⟨h1, h2⟩ | ⟨m', h1, h2⟩
        · exact .inl ⟨List.mem_cons_of_mem _ h1, h2⟩
        · exact .inr ⟨m', List.mem_cons_of_mem _ h1, h2⟩

theorem onMid_other {f : Media → Media} {mid : Nat} {ms : List Media} {x : Media} (hx : x ∈ ms) (h : x.mid ≠ mid) : x ∈ onMid mid f ms := by
  induction ms with
  | nil => cases hx
  | cons m ms ih =>
    unfold onMid
    split
    · rename_i he
      rcases List.mem_cons.mp hx with rfl | hx
      · exact absurd he h
      · exact List.mem_cons_of_mem _ hx
    · rcases List.mem_cons.mp hx with rfl | hx
      · exact List.mem_cons_self ..
      · exact List.mem_cons_of_mem _ (ih hx)

theorem onMid_self {f : Media → Media} {ms : List Media} (hn : (ms.map (·.mid)).Nodup) {x : Media} (hx : x ∈ ms) : f x ∈ onMid x.mid f ms := by
  induction ms with
  | nil => cases hx
  | cons m ms ih =>
    rw [List.map_cons, List.nodup_cons] at hn
    unfold onMid
    split
    · rename_i he
      rcases List.mem_cons.mp hx with rfl | hx
      · exact List.mem_cons_self ..
      · exact absurd (List.mem_map.mpr ⟨x, hx, he.symm⟩) hn.1
    · rename_i he
      rcases List.mem_cons.mp hx with rfl | hx
      · exact absurd rfl he
      · exact List.mem_cons_of_mem _ (ih hn.2 hx)

theorem unique {ms : List Media} (hn : (ms.map (·.mid)).Nodup) {a b : Media} (ha : a ∈ ms) (hb : b ∈ ms) (h : a.mid = b.mid) : a = b :=
  List.inj_on_of_nodup_map hn ha hb h

theorem setPts_eq (m : Media) (b : Bool) : ∃ p, m.setPts b = { m with hasPts := p } := by
  unfold Media.setPts
  split
  · exact ⟨m.hasPts, rfl⟩
  · exact ⟨b, rfl⟩

/-- What an update does to the direction and the flags. -/
theorem update_eq (m : Media) (l : Line) : ∃ p st,
    m.update l = { m with hasPts := p, stopped := st } ∧ st = m.stopped ∧ l.rejected = false ∨
    m.update l = { m with hasPts := p, stopped := st, needChanged := decide (m.dir ≠ .inactive), dir := .inactive } ∧ st = true ∧ l.rejected = true ∨
    m.update l = { m with hasPts := p, stopped := st, needChanged := decide (m.dir ≠ l.dir.invert), dir := l.dir.invert } ∧ st = m.stopped ∧ l.rejected = false := by
  unfold Media.update
  by_cases h : l.rejected = true
  · rw [if_pos h]
    exact ⟨m.hasPts, true, .inr (.inl ⟨rfl, rfl, h⟩)⟩
  · have h' : l.rejected = false := by simpa using h
    rw [if_neg h]
    split
    · obtain ⟨p, hp⟩ := setPts_eq m l.matched
      exact ⟨p, m.stopped, .inl ⟨by rw [hp], rfl, h'⟩⟩
    · obtain ⟨p, hp⟩ := setPts_eq (m.setDirection l.dir.invert) l.matched
      exact ⟨p, m.stopped, .inr (.inr ⟨by rw [hp]; rfl, rfl, h'⟩)⟩

/-- What changes a media: the mid and the flag "to be opened" stay, stopped medias stay so, and a change of direction sets the flag. -/
structure Honest (f : Media → Media) : Prop where
  mid : ∀ m, (f m).mid = m.mid
  openFlag : ∀ m, (f m).needOpen = m.needOpen
  stopped : ∀ m, m.stopped = true → (f m).stopped = true
  tells : ∀ m, m.needChanged = false → (f m).needChanged = true ∨ (f m).dir = m.dir

theorem honest_setLocal (d : Dir) : Honest (fun m => m.setLocal d) := by
  constructor <;> intro m <;> unfold Media.setLocal Media.setDirection
  · split <;> rfl
  · split <;> rfl
  · intro h; split <;> exact h
  · intro h
    split
    · exact .inr rfl
    · rename_i hd
      exact .inl (by simpa using hd)

theorem honest_stop : Honest Media.stop := by
  constructor <;> intro m <;> unfold Media.stop
  · split
    · rfl
    · exact (honest_setLocal .inactive).mid _
  · split
    · rfl
    · exact (honest_setLocal .inactive).openFlag _
  · intro h
    split
    · exact h
    · exact (honest_setLocal .inactive).stopped _ rfl
  · intro h
    split
    · exact .inr rfl
    · exact (honest_setLocal .inactive).tells _ h

theorem honest_update (l : Line) : Honest (fun m => m.update l) := by
  constructor <;> intro m <;> obtain ⟨p, st, h | h | h⟩ := update_eq m l <;> obtain ⟨h1, h2, h3⟩ := h
  · show (m.update l).mid = _; rw [h1]
  · show (m.update l).mid = _; rw [h1]
  · show (m.update l).mid = _; rw [h1]
  · show (m.update l).needOpen = _; rw [h1]
  · show (m.update l).needOpen = _; rw [h1]
  · show (m.update l).needOpen = _; rw [h1]
  · intro h; show (m.update l).stopped = _; rw [h1]; show st = true; rw [h2]; exact h
  · intro h; show (m.update l).stopped = _; rw [h1]; exact h2
  · intro h; show (m.update l).stopped = _; rw [h1]; show st = true; rw [h2]; exact h
  · intro h; right; show (m.update l).dir = _; rw [h1]
  · intro h
    show (m.update l).needChanged = true ∨ (m.update l).dir = _
    rw [h1]
    by_cases hd : m.dir = .inactive
    · exact .inr hd.symm
    · exact .inl (decide_eq_true hd)
  · intro h
    show (m.update l).needChanged = true ∨ (m.update l).dir = _
    rw [h1]
    by_cases hd : m.dir = l.dir.invert
    · exact .inr hd.symm
    · exact .inl (decide_eq_true hd)

theorem new_mid (o : Bool) (l : Line) : (Media.new o l).mid = l.mid := (honest_update l).mid _

theorem new_open (o : Bool) (l : Line) : (Media.new o l).needOpen = (o && !l.rejected) := (honest_update l).openFlag _

/-! ### Polling -/

/-- What a poll does: nothing is left, or the first media with something to tell is told about. -/
theorem poll_cases (ms : List Media) :
    ((pollMedias ms).2 = .quiet ∧ (pollMedias ms).1 = ms ∧ ∀ m ∈ ms, m.needOpen = false ∧ m.needChanged = false) ∨
    ∃ a m b, ms = a ++ m :: b ∧
      ((m.needOpen = true ∧ pollMedias ms = (a ++ { m with needOpen := false } :: b, .added m.mid m.dir)) ∨
       (m.needOpen = false ∧ m.needChanged = true ∧ pollMedias ms = (a ++ { m with needChanged := false } :: b, .changed m.mid m.dir))) := by
  induction ms with
  | nil => exact .inl ⟨rfl, rfl, by simp⟩
  | cons m ms ih =>
    by_cases h1 : m.needOpen = true
    · exact .inr ⟨[], m, ms, rfl, .inl ⟨h1, by unfold pollMedias; rw [if_pos h1]; rfl⟩⟩
    · have h1' : m.needOpen = false := by simpa using h1
      by_cases h2 : m.needChanged = true
      · exact .inr ⟨[], m, ms, rfl, .inr ⟨h1', h2, by unfold pollMedias; rw [if_neg h1, if_pos h2]; rfl⟩⟩
      · have h2' : m.needChanged = false := by simpa using h2
        have hp : pollMedias (m :: ms) = (m :: (pollMedias ms).1, (pollMedias ms).2) := by
          conv_lhs => unfold pollMedias
          rw [if_neg h1, if_neg h2]
        rw [hp]
        rcases ih with ⟨i1, i2, i3⟩ | ⟨a, x, b, i1, i2⟩
        · left
          refine ⟨i1, by rw [i2], ?_⟩
          intro x hx
          rcases List.mem_cons.mp hx with rfl | hx
          · exact ⟨h1', h2'⟩
          · exact i3 x hx
        · right
          refine ⟨m :: a, x, b, by rw [i1]; rfl, ?_⟩
          rcases i2 with ⟨j1, j2⟩ | ⟨j1, j2, j3⟩
          · exact .inl ⟨j1, by rw [j2]; rfl⟩
          · exact .inr ⟨j1, j2, by rw [j3]; rfl⟩

theorem split_mem {a b : List Media} {m x : Media} (hn : ((a ++ m :: b).map (·.mid)).Nodup) (m' : Media) (hm : m'.mid = m.mid) (hx : x ∈ a ++ m' :: b) :
    x = m' ∨ (x ∈ a ++ m :: b ∧ x.mid ≠ m.mid) := by
  rw [List.map_append, List.map_cons, List.nodup_append] at hn
  obtain ⟨_, h2, h3⟩ := hn
  rw [List.nodup_cons] at h2
  rcases List.mem_append.mp hx with hx | hx
  · right
    refine ⟨List.mem_append.mpr (.inl hx), ?_⟩
    exact fun h => h3 _ (List.mem_map.mpr ⟨x, hx, rfl⟩) _ (List.mem_cons_self ..) h
  · rcases List.mem_cons.mp hx with rfl | hx
    · exact .inl rfl
    · right
      refine ⟨List.mem_append.mpr (.inr (List.mem_cons_of_mem _ hx)), ?_⟩
      exact fun h => h2.1 (List.mem_map.mpr ⟨x, hx, h⟩)

theorem poll_mids (ms : List Media) : (pollMedias ms).1.map (·.mid) = ms.map (·.mid) := by
  rcases poll_cases ms with ⟨_, h, _⟩ | ⟨a, m, b, h1, ⟨_, h2⟩ | ⟨_, _, h2⟩⟩
  · rw [h]
  · rw [h2, h1]
    simp
  · rw [h2, h1]
    simp

/-- **C126** What is told is so: each event has the direction the media has then. -/
theorem C126_truth (ms : List Media) :
    (∀ mid d, (pollMedias ms).2 = .added mid d → ∃ m ∈ ms, m.mid = mid ∧ m.dir = d) ∧
    (∀ mid d, (pollMedias ms).2 = .changed mid d → ∃ m ∈ ms, m.mid = mid ∧ m.dir = d) := by
  rcases poll_cases ms with ⟨h, _, _⟩ | ⟨a, m, b, h1, ⟨_, h2⟩ | ⟨_, _, h2⟩⟩
  · rw [h]
    exact ⟨fun _ _ h => (by cases h), fun _ _ h => (by cases h)⟩
  · rw [h2]
    refine ⟨?_, fun _ _ h => by cases h⟩
    intro mid d h
    injection h with h3 h4
    exact ⟨m, by rw [h1]; simp, h3, h4⟩
  · rw [h2]
    refine ⟨fun _ _ h => (by cases h), ?_⟩
    intro mid d h
    injection h with h3 h4
    exact ⟨m, by rw [h1]; simp, h3, h4⟩

/-- Polls one after the other. -/
def polls : Nat → List Media → List Media
  | 0, ms => ms
  | n + 1, ms => polls n (pollMedias ms).1

/-- The events that wait. -/
def pending (ms : List Media) : Nat := (ms.map (fun m => m.needOpen.toNat + m.needChanged.toNat)).sum

theorem poll_pending (ms : List Media) : (pollMedias ms).2 = .quiet ∨ pending (pollMedias ms).1 + 1 = pending ms := by
  rcases poll_cases ms with ⟨h, _, _⟩ | ⟨a, m, b, h1, ⟨h3, h2⟩ | ⟨_, h3, h2⟩⟩
  · exact .inl h
  · right
    rw [h2, h1]
    simp only [pending, List.map_append, List.map_cons, List.sum_append, List.sum_cons, h3, Bool.toNat_true, Bool.toNat_false]
    omega
  · right
    rw [h2, h1]
    simp only [pending, List.map_append, List.map_cons, List.sum_append, List.sum_cons, h3, Bool.toNat_true, Bool.toNat_false]
    omega

theorem quiet_stays (ms : List Media) (h : (pollMedias ms).2 = .quiet) : ∀ n, (pollMedias (polls n ms)).2 = .quiet := by
  intro n
  induction n with
  | zero => exact h
  | succ n ih =>
    rcases poll_cases ms with ⟨_, h2, _⟩ | ⟨a, m, b, _, ⟨_, h2⟩ | ⟨_, _, h2⟩⟩
    · unfold polls
      rw [h2]
      exact ih
    · rw [h2] at h; cases h
    · rw [h2] at h; cases h

theorem polls_end : ∀ (n : Nat) (ms : List Media), pending ms ≤ n → (pollMedias (polls n ms)).2 = .quiet := by
  intro n
  induction n with
  | zero =>
    intro ms h
    rcases poll_pending ms with h1 | h1
    · exact h1
    · omega
  | succ n ih =>
    intro ms h
    rcases poll_pending ms with h1 | h1
    · exact quiet_stays ms h1 _
    · exact ih _ (by omega)

/-- **C126** The events end: after at most two polls for each media there is nothing left to tell. -/
theorem C126_ends (ms : List Media) : (pollMedias (polls (2 * ms.length) ms)).2 = .quiet := by
  apply polls_end
  unfold pending
  induction ms with
  | nil => exact Nat.le_refl _
  | cons m ms ih =>
    rw [List.map_cons, List.sum_cons, List.length_cons]
    have h1 : m.needOpen.toNat ≤ 1 := by cases m.needOpen <;> simp
    have h2 : m.needChanged.toNat ≤ 1 := by cases m.needChanged <;> simp
    omega

/-! ### Steps -/

theorem applyLine_cases (o : Bool) (l : Line) (ms : List Media) :
    (l.mid ∈ ms.map (·.mid) ∧ applyLine o l ms = onMid l.mid (fun m => m.update l) ms) ∨ (l.mid ∉ ms.map (·.mid) ∧ applyLine o l ms = ms ++ [Media.new o l]) := by
  unfold applyLine
  by_cases h : ms.any (fun m => m.mid == l.mid) = true
  · left
    rw [if_pos h]
    obtain ⟨m, hm, he⟩ := List.any_eq_true.mp h
    exact ⟨List.mem_map.mpr ⟨m, hm, by simpa using he⟩, rfl⟩
  · right
    rw [if_neg h]
    refine ⟨?_, rfl⟩
    intro hx
    obtain ⟨m, hm, he⟩ := List.mem_map.mp hx
    exact h (List.any_eq_true.mpr ⟨m, hm, by simpa using he⟩)

theorem append_nodup {ms : List Media} (hn : (ms.map (·.mid)).Nodup) {x : Media} (h : x.mid ∉ ms.map (·.mid)) : ((ms ++ [x]).map (·.mid)).Nodup := by
  rw [List.map_append, List.nodup_append]
  refine ⟨hn, by simp, ?_⟩
  intro a ha b hb
  simp only [List.map_cons, List.map_nil, List.mem_singleton] at hb
  subst hb
  exact fun e => h (e ▸ ha)

theorem step_nodup {ms : List Media} (hn : (ms.map (·.mid)).Nodup) {op : Op} (hf : Fresh ms op) : ((step ms op).1.map (·.mid)).Nodup := by
  cases op with
  | declare mid => exact append_nodup hn hf
  | setDirection mid d =>
    show ((onMid mid (fun m => m.setLocal d) ms).map _).Nodup
    rw [onMid_mids (honest_setLocal d).mid]
    exact hn
  | stop mid =>
    show ((onMid mid Media.stop ms).map _).Nodup
    rw [onMid_mids honest_stop.mid]
    exact hn
  | line o l =>
    show ((applyLine o l ms).map _).Nodup
    rcases applyLine_cases o l ms with ⟨_, h2⟩ | ⟨h1, h2⟩
    · rw [h2, onMid_mids (honest_update l).mid]
      exact hn
    · rw [h2]
      exact append_nodup hn (by rw [new_mid]; exact h1)
  | remove mid => exact hn.sublist (List.filter_sublist.map _)
  | poll =>
    show ((pollMedias ms).1.map _).Nodup
    rw [poll_mids]
    exact hn

/-- `told`, going on from what was told before. -/
def toldFrom (t : Option Dir) (mid : Nat) (evs : List Ev) : Option Dir := evs.foldl (tell mid) t

theorem told_append (mid : Nat) (a b : List Ev) : told mid (a ++ b) = toldFrom (told mid a) mid b := by
  unfold told toldFrom
  rw [List.foldl_append]

/-- The state after a history: what waits is of a media touched since, and what was told is so, or a change waits. -/
structure Inv (dirty : List Nat) (ms : List Media) (T : Nat → Option Dir) : Prop where
  nodup : (ms.map (·.mid)).Nodup
  flags : ∀ m ∈ ms, m.needOpen = true ∨ m.needChanged = true → m.mid ∈ dirty
  right : ∀ m ∈ ms, ∀ d, T m.mid = some d → m.dir = d ∨ m.needOpen = true ∨ m.needChanged = true
  none : ∀ mid, mid ∉ ms.map (·.mid) → T mid = none

theorem inv_onMid {dirty : List Nat} {ms : List Media} {T : Nat → Option Dir} (h : Inv dirty ms T) {f : Media → Media} (hf : Honest f) {mid : Nat} (hd : mid ∉ dirty) :
    Inv (mid :: dirty) (onMid mid f ms) T := by
  refine ⟨?_, ?_, ?_, ?_⟩
  · rw [onMid_mids hf.mid]
    exact h.nodup
  · intro x hx hfl
    rcases onMid_mem h.nodup hx with ⟨h1, h2⟩ | ⟨m, h1, h2, h3⟩
    · exact List.mem_cons_of_mem _ (h.flags x h1 hfl)
    · rw [h3, hf.mid, h2]
      exact List.mem_cons_self ..
  · intro x hx d ht
    rcases onMid_mem h.nodup hx with ⟨h1, h2⟩ | ⟨m, h1, h2, h3⟩
    · exact h.right x h1 d ht
    · subst h3
      rw [hf.mid] at ht
      have hno : ¬ (m.needOpen = true ∨ m.needChanged = true) := fun hx => hd (h2 ▸ h.flags m h1 hx)
      have hc : m.needChanged = false := by
        cases hcc : m.needChanged with
        | false => rfl
        | true => exact absurd (.inr hcc) hno
      rcases h.right m h1 d ht with h4 | h4
      · rcases hf.tells m hc with h5 | h5
        · exact .inr (.inr h5)
        · exact .inl (by rw [h5, h4])
      · exact absurd h4 hno
  · intro k hk
    rw [onMid_mids hf.mid] at hk
    exact h.none k hk

theorem inv_append {dirty : List Nat} {ms : List Media} {T : Nat → Option Dir} (h : Inv dirty ms T) {x : Media} (hx : x.mid ∉ ms.map (·.mid)) :
    Inv (x.mid :: dirty) (ms ++ [x]) T := by
  refine ⟨append_nodup h.nodup hx, ?_, ?_, ?_⟩
  · intro m hm hfl
    rcases List.mem_append.mp hm with hm | hm
    · exact List.mem_cons_of_mem _ (h.flags m hm hfl)
    · rw [List.mem_singleton.mp hm]
      exact List.mem_cons_self ..
  · intro m hm d ht
    rcases List.mem_append.mp hm with hm | hm
    · exact h.right m hm d ht
    · rw [List.mem_singleton.mp hm, h.none x.mid hx] at ht
      cases ht
  · intro k hk
    rw [List.map_append, List.mem_append, not_or] at hk
    exact h.none k hk.1

theorem inv_step {dirty : List Nat} {ms : List Media} {evs : List Ev} {op : Op} (h : Inv dirty ms (fun k => told k evs)) (hf : Fresh ms op)
    (hp : ∀ mid, op.touches = some mid → mid ∉ dirty) : Inv (since dirty op (step ms op).2) (step ms op).1 (fun k => told k (evs ++ (step ms op).2)) := by
  cases op with
  | declare mid =>
    show Inv (since dirty _ []) (ms ++ [_]) (fun k => told k (evs ++ []))
    rw [List.append_nil]
    exact inv_append (x := { mid := mid, dir := .sendRecv }) h hf
  | setDirection mid d =>
    show Inv (since dirty _ []) (onMid mid _ ms) (fun k => told k (evs ++ []))
    rw [List.append_nil]
    exact inv_onMid h (honest_setLocal d) (hp mid rfl)
  | stop mid =>
    show Inv (since dirty _ []) (onMid mid _ ms) (fun k => told k (evs ++ []))
    rw [List.append_nil]
    exact inv_onMid h honest_stop (hp mid rfl)
  | line o l =>
    show Inv (since dirty _ []) (applyLine o l ms) (fun k => told k (evs ++ []))
    rw [List.append_nil]
    rcases applyLine_cases o l ms with ⟨h1, h2⟩ | ⟨h1, h2⟩
    · rw [h2]
      exact inv_onMid h (honest_update l) (hp l.mid rfl)
    · rw [h2]
      have := inv_append (x := Media.new o l) h (by rw [new_mid]; exact h1)
      rw [new_mid] at this
      exact this
  | remove mid =>
    show Inv (since dirty _ [.removed mid]) (ms.filter (fun m => m.mid != mid)) (fun k => told k (evs ++ [.removed mid]))
    have hs : since dirty (.remove mid) [.removed mid] = dirty := rfl
    rw [hs]
    have ht : ∀ k, told k (evs ++ [.removed mid]) = if mid = k then none else told k evs := fun k => told_append k evs [.removed mid]
    refine ⟨h.nodup.sublist (List.filter_sublist.map _), fun m hm => h.flags m (List.mem_filter.mp hm).1, ?_, ?_⟩
    · intro m hm d hd
      rw [ht] at hd
      split at hd
      · cases hd
      · exact h.right m (List.mem_filter.mp hm).1 d hd
    · intro k hk
      rw [ht]
      split
      · rfl
      · rename_i hne
        apply h.none k
        intro hx
        apply hk
        obtain ⟨m, hm, he⟩ := List.mem_map.mp hx
        refine List.mem_map.mpr ⟨m, List.mem_filter.mpr ⟨hm, ?_⟩, he⟩
        simpa [he] using fun e => hne (by rw [← e])
  | poll =>
    show Inv (since dirty _ [(pollMedias ms).2]) (pollMedias ms).1 (fun k => told k (evs ++ [(pollMedias ms).2]))
    rcases poll_cases ms with ⟨h1, h2, h3⟩ | ⟨a, m, b, h1, h2⟩
    · rw [h1, h2]
      have ht : ∀ k, told k (evs ++ [.quiet]) = told k evs := fun k => told_append k evs [.quiet]
      refine ⟨h.nodup, ?_, ?_, ?_⟩
      · intro m hm hfl
        obtain ⟨f1, f2⟩ := h3 m hm
        rw [f1, f2] at hfl
        rcases hfl with h | h <;> cases h
      · intro m hm d hd
        rw [ht] at hd
        exact h.right m hm d hd
      · intro k hk
        rw [ht]
        exact h.none k hk
    · have hm : m ∈ ms := by rw [h1]; simp
      have key : ∀ (m' : Media) (e : Ev), m'.mid = m.mid → m'.dir = m.dir → (m'.needOpen = true ∨ m'.needChanged = true → m.needOpen = true ∨ m.needChanged = true) →
          (∀ k, told k (evs ++ [e]) = if m.mid = k then some m.dir else told k evs) → e ≠ .quiet →
          Inv (since dirty .poll [e]) (a ++ m' :: b) (fun k => told k (evs ++ [e])) := by
        intro m' e e1 e2 e3 ht he
        have hs : since dirty .poll [e] = dirty := by
          unfold since
          rw [if_neg (by simpa using he)]
          rfl
        rw [hs]
        have hn := h.nodup
        rw [h1] at hn
        have hmids : (a ++ m' :: b).map (·.mid) = ms.map (·.mid) := by rw [h1]; simp [e1]
        refine ⟨by rw [hmids]; exact h.nodup, ?_, ?_, ?_⟩
        · intro x hx hfl
          rcases split_mem hn m' e1 hx with rfl | ⟨hx, _⟩
          · rw [e1]
            exact h.flags m hm (e3 hfl)
          · exact h.flags x (by rw [h1]; exact hx) hfl
        · intro x hx d hd
          rw [ht] at hd
          rcases split_mem hn m' e1 hx with rfl | ⟨hx, hne⟩
          · rw [if_pos e1.symm] at hd
            injection hd with hd
            exact .inl (by rw [e2, hd])
          · rw [if_neg (fun e => hne e.symm)] at hd
            exact h.right x (by rw [h1]; exact hx) d hd
        · intro k hk
          rw [ht]
          rw [hmids] at hk
          rw [if_neg (fun e => hk (List.mem_map.mpr ⟨m, hm, e⟩))]
          exact h.none k hk
      rcases h2 with ⟨h3, h4⟩ | ⟨h3, h4, h5⟩
      · rw [h4]
        exact key _ _ rfl rfl (fun _ => .inl h3) (fun k => told_append k evs [.added m.mid m.dir]) (by simp)
      · rw [h5]
        exact key _ _ rfl rfl (fun _ => .inr h4) (fun k => told_append k evs [.changed m.mid m.dir]) (by simp)

theorem inv_run : ∀ (ops : List Op) (dirty : List Nat) (ms : List Media) (evs : List Ev), Inv dirty ms (fun k => told k evs) → AllFresh ms ops → Patient dirty ms ops →
    ∃ dirty', Inv dirty' (run ms ops).1 (fun k => told k (evs ++ (run ms ops).2)) := by
  intro ops
  induction ops with
  | nil =>
    intro dirty ms evs h _ _
    exact ⟨dirty, by show Inv dirty ms (fun k => told k (evs ++ [])); rw [List.append_nil]; exact h⟩
  | cons op ops ih =>
    intro dirty ms evs h hf hp
    obtain ⟨d, hd⟩ := ih _ _ _ (inv_step h hf.1 hp.1) hf.2 hp.2
    refine ⟨d, ?_⟩
    show Inv d (run (step ms op).1 ops).1 (fun k => told k (evs ++ ((step ms op).2 ++ (run (step ms op).1 ops).2)))
    rw [← List.append_assoc]
    exact hd

/-- **C126** If no media is changed twice before the application polled until nothing was left, then, when nothing is left, what the application was told
last about a media is its direction. -/
theorem C126_told (ops : List Op) (hf : AllFresh [] ops) (hp : Patient [] [] ops) (hq : (pollMedias (run [] ops).1).2 = .quiet) :
    ∀ m ∈ (run [] ops).1, ∀ d, told m.mid (run [] ops).2 = some d → m.dir = d := by
  obtain ⟨dirty, h⟩ := inv_run ops [] [] [] ⟨by simp, by simp, by simp, fun _ _ => rfl⟩ hf hp
  intro m hm d ht
  rcases poll_cases (run [] ops).1 with ⟨_, _, h3⟩ | ⟨a, x, b, h1, ⟨_, h2⟩ | ⟨_, _, h2⟩⟩
  · rcases h.right m hm d ht with h4 | h4
    · exact h4
    · obtain ⟨f1, f2⟩ := h3 m hm
      rw [f1, f2] at h4
      rcases h4 with h4 | h4 <;> cases h4
  · rw [h2] at hq; cases hq
  · rw [h2] at hq; cases hq

end Str0m.MediaEv
