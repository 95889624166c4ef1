import Verif.Props.MediaEvents

/-!
C126 and C127, continued: how often a media is told as added, stopped medias, and what the code violates.
-/

namespace Str0m.MediaEv
open Str0m.Negotiate

theorem about_append (mid : Nat) (a b : List Ev) : about mid (a ++ b) = about mid a ++ about mid b := List.filter_append ..

theorem about_added (mid k : Nat) (d : Dir) : about mid [.added k d] = if k = mid then [.added k d] else [] := by
  by_cases h : k = mid
  · rw [if_pos h]; simp [about, h]
  · rw [if_neg h]; simp [about, h]

theorem about_changed (mid k : Nat) (d : Dir) : about mid [.changed k d] = if k = mid then [.changed k d] else [] := by
  by_cases h : k = mid
  · rw [if_pos h]; simp [about, h]
  · rw [if_neg h]; simp [about, h]

/-- What an operation changes at a media. -/
def Changes (op : Op) (x x' : Media) : Prop :=
  x' = x ∨ (∃ d, op = .setDirection x.mid d ∧ x' = x.setLocal d) ∨ (op = .stop x.mid ∧ x' = x.stop) ∨ ∃ o l, op = .line o l ∧ l.mid = x.mid ∧ x' = x.update l

/-- What a step does to a media that is not removed, and what is told about it. -/
def Moves (op : Op) (x x' : Media) (evs : List Ev) : Prop :=
  (about x.mid evs = [] ∧ Changes op x x') ∨
  (x.needOpen = true ∧ about x.mid evs = [.added x.mid x.dir] ∧ x' = { x with needOpen := false }) ∨
  (x.needOpen = false ∧ about x.mid evs = [.changed x.mid x.dir] ∧ x' = { x with needChanged := false })

theorem mid_of_moves {op : Op} {x x' : Media} {evs : List Ev} (h : Moves op x x' evs) : x'.mid = x.mid := by
  rcases h with ⟨_, h | ⟨d, _, h⟩ | ⟨_, h⟩ | ⟨o, l, _, _, h⟩⟩ | ⟨_, _, h⟩ | ⟨_, _, h⟩
  · rw [h]
  · rw [h]; exact (honest_setLocal d).mid x
  · rw [h]; exact honest_stop.mid x
  · rw [h]; exact (honest_update l).mid x
  · rw [h]
  · rw [h]

theorem onMid_moves {ms : List Media} (hn : (ms.map (·.mid)).Nodup) {x : Media} (hx : x ∈ ms) (f : Media → Media) (mid : Nat) :
    (x.mid = mid ∧ f x ∈ onMid mid f ms) ∨ (x ∈ onMid mid f ms) := by
  by_cases h : x.mid = mid
  · left
    exact ⟨h, h ▸ onMid_self hn hx⟩
  · exact .inr (onMid_other hx h)

theorem step_media {ms : List Media} (hn : (ms.map (·.mid)).Nodup) {op : Op} {x : Media} (hx : x ∈ ms) (hr : op ≠ .remove x.mid) :
    ∃ x' ∈ (step ms op).1, Moves op x x' (step ms op).2 := by
  cases op with
  | declare mid => exact ⟨x, List.mem_append.mpr (.inl hx), .inl ⟨rfl, .inl rfl⟩⟩
  | setDirection mid d =>
    rcases onMid_moves hn hx (fun m => m.setLocal d) mid with ⟨h1, h2⟩ | h
    · exact ⟨_, h2, .inl ⟨rfl, .inr (.inl ⟨d, by rw [h1], rfl⟩)⟩⟩
    · exact ⟨x, h, .inl ⟨rfl, .inl rfl⟩⟩
  | stop mid =>
    rcases onMid_moves hn hx Media.stop mid with ⟨h1, h2⟩ | h
    · exact ⟨_, h2, .inl ⟨rfl, .inr (.inr (.inl ⟨by rw [h1], rfl⟩))⟩⟩
    · exact ⟨x, h, .inl ⟨rfl, .inl rfl⟩⟩
  | line o l =>
    show ∃ x' ∈ applyLine o l ms, Moves (.line o l) x x' []
    rcases applyLine_cases o l ms with ⟨_, h⟩ | ⟨_, h⟩
    · rw [h]
      rcases onMid_moves hn hx (fun m => m.update l) l.mid with ⟨h1, h2⟩ | h
      · exact ⟨_, h2, .inl ⟨rfl, .inr (.inr (.inr ⟨o, l, rfl, h1.symm, rfl⟩))⟩⟩
      · exact ⟨x, h, .inl ⟨rfl, .inl rfl⟩⟩
    · rw [h]
      exact ⟨x, List.mem_append.mpr (.inl hx), .inl ⟨rfl, .inl rfl⟩⟩
  | remove mid =>
    refine ⟨x, List.mem_filter.mpr ⟨hx, ?_⟩, .inl ⟨rfl, .inl rfl⟩⟩
    have : x.mid ≠ mid := fun e => hr (by rw [e])
    simpa using this
  | poll =>
    show ∃ x' ∈ (pollMedias ms).1, Moves .poll x x' [(pollMedias ms).2]
    rcases poll_cases ms with ⟨h1, h2, _⟩ | ⟨a, m, b, h1, h2⟩
    · rw [h1, h2]
      exact ⟨x, hx, .inl ⟨rfl, .inl rfl⟩⟩
    · have other : ∀ m' : Media, x.mid ≠ m.mid → x ∈ a ++ m' :: b := by
        intro m' hne
        rw [h1] at hx
        rcases List.mem_append.mp hx with h | h
        · exact List.mem_append.mpr (.inl h)
        · rcases List.mem_cons.mp h with rfl | h
          · exact absurd rfl hne
          · exact List.mem_append.mpr (.inr (List.mem_cons_of_mem _ h))
      by_cases he : x.mid = m.mid
      · have hxm : x = m := unique hn hx (by rw [h1]; simp) he
        subst hxm
        rcases h2 with ⟨h3, h4⟩ | ⟨h3, _, h5⟩
        · rw [h4]
          exact ⟨_, List.mem_append.mpr (.inr (List.mem_cons_self ..)), .inr (.inl ⟨h3, by rw [about_added, if_pos rfl], rfl⟩)⟩
        · rw [h5]
          exact ⟨_, List.mem_append.mpr (.inr (List.mem_cons_self ..)), .inr (.inr ⟨h3, by rw [about_changed, if_pos rfl], rfl⟩)⟩
      · rcases h2 with ⟨_, h4⟩ | ⟨_, _, h5⟩
        · rw [h4]
          exact ⟨x, other _ he, .inl ⟨by rw [about_added, if_neg (fun e => he e.symm)], .inl rfl⟩⟩
        · rw [h5]
          exact ⟨x, other _ he, .inl ⟨by rw [about_changed, if_neg (fun e => he e.symm)], .inl rfl⟩⟩

/-- A property of the media and what was told about it that all steps keep holds in all histories. -/
theorem run_media (P : Media → List Ev → Prop) (allowed : Op → Prop)
    (hP : ∀ x evs op x' evs', P x evs → allowed op → Moves op x x' evs' → P x' (evs ++ about x.mid evs')) :
    ∀ (ops : List Op) (ms : List Media) (x : Media) (evs : List Ev), (ms.map (·.mid)).Nodup → AllFresh ms ops → x ∈ ms → (∀ op ∈ ops, op ≠ .remove x.mid) →
      (∀ op ∈ ops, allowed op) → P x evs → ∃ x' ∈ (run ms ops).1, x'.mid = x.mid ∧ P x' (evs ++ about x.mid (run ms ops).2) := by
  intro ops
  induction ops with
  | nil =>
    intro ms x evs _ _ hx _ _ h
    exact ⟨x, hx, rfl, by show P x (evs ++ []); rw [List.append_nil]; exact h⟩
  | cons op ops ih =>
    intro ms x evs hn hf hx hr hal h
    obtain ⟨x1, h1, h2⟩ := step_media hn hx (hr op (List.mem_cons_self ..))
    have hmid := mid_of_moves h2
    obtain ⟨x2, h3, h4, h5⟩ := ih _ x1 _ (step_nodup hn hf.1) hf.2 h1 (fun o ho => hmid ▸ hr o (List.mem_cons_of_mem _ ho))
      (fun o ho => hal o (List.mem_cons_of_mem _ ho)) (hP x evs op x1 _ h (hal op (List.mem_cons_self ..)) h2)
    refine ⟨x2, h3, h4.trans hmid, ?_⟩
    show P x2 (evs ++ about x.mid ((step ms op).2 ++ (run (step ms op).1 ops).2))
    rw [about_append, ← List.append_assoc]
    rw [hmid] at h5
    exact h5

theorem open_of_changes {op : Op} {x x' : Media} (h : Changes op x x') : x'.needOpen = x.needOpen := by
  rcases h with h | ⟨d, _, h⟩ | ⟨_, h⟩ | ⟨o, l, _, _, h⟩
  · rw [h]
  · rw [h]; exact (honest_setLocal d).openFlag x
  · rw [h]; exact honest_stop.openFlag x
  · rw [h]; exact (honest_update l).openFlag x

/-- Told as added once and before all else, or still to be. -/
def AddedOnce (mid : Nat) (x : Media) (evs : List Ev) : Prop :=
  x.mid = mid ∧ ((x.needOpen = true ∧ evs = []) ∨ (x.needOpen = false ∧ ∃ d rest, evs = .added mid d :: rest ∧ ∀ e ∈ rest, ∃ d', e = .changed mid d'))

theorem addedOnce_moves (mid : Nat) (x : Media) (evs : List Ev) (op : Op) (x' : Media) (evs' : List Ev) (h : AddedOnce mid x evs) (hm : Moves op x x' evs') :
    AddedOnce mid x' (evs ++ about x.mid evs') := by
  obtain ⟨h1, h2⟩ := h
  refine ⟨(mid_of_moves hm).trans h1, ?_⟩
  rcases hm with ⟨ha, hc⟩ | ⟨ho, ha, he⟩ | ⟨ho, ha, he⟩
  · rw [ha, List.append_nil, open_of_changes hc]
    exact h2
  · rw [ha, he, h1]
    rcases h2 with ⟨_, h3⟩ | ⟨h3, _⟩
    · rw [h3]
      exact .inr ⟨rfl, x.dir, [], rfl, by simp⟩
    · rw [ho] at h3; cases h3
  · rw [ha, he, h1]
    rcases h2 with ⟨h3, _⟩ | ⟨_, d, rest, h3, h4⟩
    · rw [ho] at h3; cases h3
    · rw [h3]
      refine .inr ⟨ho, d, rest ++ [.changed mid x.dir], rfl, ?_⟩
      intro e hm
      rcases List.mem_append.mp hm with hm | hm
      · exact h4 e hm
      · exact ⟨x.dir, List.mem_singleton.mp hm⟩

theorem announced {ms : List Media} {op : Op} {mid : Nat} (h : op.Announces ms mid) :
    ∃ x ∈ (step ms op).1, x.mid = mid ∧ x.needOpen = true ∧ (step ms op).2 = [] ∧ Fresh ms op := by
  obtain ⟨h1, rfl | ⟨l, rfl, rfl, h2⟩⟩ := h
  · exact ⟨{ mid := mid, dir := .sendRecv }, List.mem_append.mpr (.inr (List.mem_cons_self ..)), rfl, rfl, rfl, h1⟩
  · show ∃ x ∈ applyLine true l ms, _
    rcases applyLine_cases true l ms with ⟨h, _⟩ | ⟨_, h⟩
    · exact absurd h h1
    · rw [h]
      refine ⟨_, List.mem_append.mpr (.inr (List.mem_cons_self ..)), new_mid true l, ?_, rfl, trivial⟩
      rw [new_open]
      have : l.rejected = false := by
        unfold Line.rejected
        cases hd : l.disabled <;> cases hb : l.bundled <;> simp_all
      rw [this]
      rfl

/-- **C126** A media that is declared, or that the peer offers, is told as added once, before any of its changes; and it was told when nothing is left to tell. -/
theorem C126_added {ms : List Media} (hn : (ms.map (·.mid)).Nodup) {mid : Nat} {op : Op} (ha : op.Announces ms mid) (ops : List Op) (hf : AllFresh ms (op :: ops))
    (hr : ∀ o ∈ ops, o ≠ .remove mid) :
    (about mid (run ms (op :: ops)).2 = [] ∨
      ∃ d rest, about mid (run ms (op :: ops)).2 = .added mid d :: rest ∧ ∀ e ∈ rest, ∃ d', e = .changed mid d') ∧
    ((pollMedias (run ms (op :: ops)).1).2 = .quiet → about mid (run ms (op :: ops)).2 ≠ []) := by
  obtain ⟨x, hx, h1, h2, h3, h4⟩ := announced ha
  obtain ⟨x', hx', h5, h6⟩ := run_media (AddedOnce mid) (fun _ => True) (fun x evs op x' evs' h _ hm => addedOnce_moves mid x evs op x' evs' h hm) ops _ x []
    (step_nodup hn h4) hf.2 hx (by rw [h1]; exact hr) (fun _ _ => trivial) ⟨h1, .inl ⟨h2, rfl⟩⟩
  have he : (run ms (op :: ops)).2 = (run (step ms op).1 ops).2 := by
    show (step ms op).2 ++ _ = _
    rw [h3]; rfl
  rw [he]
  rw [List.nil_append, h1] at h6
  obtain ⟨_, h7⟩ := h6
  refine ⟨?_, ?_⟩
  · rcases h7 with ⟨_, h8⟩ | ⟨_, h8⟩
    · exact .inl h8
    · exact .inr h8
  · intro hq
    rcases h7 with ⟨h8, _⟩ | ⟨_, d, rest, h8, _⟩
    · exfalso
      have hx'' : x' ∈ (run ms (op :: ops)).1 := hx'
      rcases poll_cases (run ms (op :: ops)).1 with ⟨_, _, h9⟩ | ⟨a, m, b, _, ⟨_, h9⟩ | ⟨_, _, h9⟩⟩
      · rw [(h9 x' hx'').1] at h8; cases h8
      · rw [h9] at hq; cases hq
      · rw [h9] at hq; cases hq
    · rw [h8]
      simp

/-- Never told as added. -/
def NotAdded (mid : Nat) (x : Media) (evs : List Ev) : Prop := x.mid = mid ∧ x.needOpen = false ∧ ∀ e ∈ evs, ∃ d', e = .changed mid d'

theorem notAdded_moves (mid : Nat) (x : Media) (evs : List Ev) (op : Op) (x' : Media) (evs' : List Ev) (h : NotAdded mid x evs) (hm : Moves op x x' evs') :
    NotAdded mid x' (evs ++ about x.mid evs') := by
  obtain ⟨h1, h2, h3⟩ := h
  have hmid := (mid_of_moves hm).trans h1
  rcases hm with ⟨ha, hc⟩ | ⟨ho, ha, he⟩ | ⟨ho, ha, he⟩
  · rw [ha, List.append_nil]
    exact ⟨hmid, (open_of_changes hc).trans h2, h3⟩
  · rw [ho] at h2; cases h2
  · refine ⟨hmid, by rw [he]; exact h2, ?_⟩
    rw [ha, h1]
    intro e hm
    rcases List.mem_append.mp hm with hm | hm
    · exact h3 e hm
    · exact ⟨x.dir, List.mem_singleton.mp hm⟩

/-- **C126** A media that the application offered itself is never told as added. -/
theorem C126_own {ms : List Media} (hn : (ms.map (·.mid)).Nodup) {mid : Nat} {op : Op} (ha : op.Answers ms mid) (ops : List Op) (hf : AllFresh ms (op :: ops))
    (hr : ∀ o ∈ ops, o ≠ .remove mid) : ∀ e ∈ about mid (run ms (op :: ops)).2, ∃ d, e = .changed mid d := by
  obtain ⟨h1, l, rfl, rfl⟩ := ha
  have hs : (step ms (.line false l)).1 = ms ++ [Media.new false l] := by
    show applyLine false l ms = _
    rcases applyLine_cases false l ms with ⟨h, _⟩ | ⟨_, h⟩
    · exact absurd h h1
    · exact h
  obtain ⟨x', _, _, h6⟩ := run_media (NotAdded l.mid) (fun _ => True) (fun x evs op x' evs' h _ hm => notAdded_moves l.mid x evs op x' evs' h hm) ops _
    (Media.new false l) [] (step_nodup hn hf.1) hf.2 (by rw [hs]; simp) (by rw [new_mid]; exact hr) (fun _ _ => trivial)
    ⟨new_mid false l, by rw [new_open]; rfl, by simp⟩
  rw [List.nil_append, new_mid] at h6
  exact h6.2.2

/-! ### Stopped medias -/

theorem stopped_moves (x : Media) (_evs : List Ev) (op : Op) (x' : Media) (evs' : List Ev) (h : x.stopped = true) (hm : Moves op x x' evs') : x'.stopped = true := by
  rcases hm with ⟨_, hc | ⟨d, _, hc⟩ | ⟨_, hc⟩ | ⟨o, l, _, _, hc⟩⟩ | ⟨_, _, hc⟩ | ⟨_, _, hc⟩ <;> rw [hc]
  · exact h
  · exact (honest_setLocal d).stopped x h
  · exact honest_stop.stopped x h
  · exact (honest_update l).stopped x h
  · exact h
  · exact h

/-- **C127** A stopped media stays stopped, until it is removed. -/
theorem C127_stays {ms : List Media} (hn : (ms.map (·.mid)).Nodup) (ops : List Op) (hf : AllFresh ms ops) {x : Media} (hx : x ∈ ms) (hs : x.stopped = true)
    (hr : ∀ o ∈ ops, o ≠ .remove x.mid) : ∃ x' ∈ (run ms ops).1, x'.mid = x.mid ∧ x'.stopped = true :=
  run_media (fun x _ => x.stopped = true) (fun _ => True) (fun x evs op x' evs' h _ hm => stopped_moves x evs op x' evs' h hm) ops ms x [] hn hf hx hr
    (fun _ _ => trivial) hs

theorem inactive_moves (mid : Nat) (x : Media) (op : Op) (x' : Media) (evs' : List Ev) (h : x.mid = mid ∧ x.stopped = true ∧ x.dir = .inactive)
    (ha : ¬ op.Directs mid) (hm : Moves op x x' evs') : x'.mid = mid ∧ x'.stopped = true ∧ x'.dir = .inactive := by
  obtain ⟨h1, h2, h3⟩ := h
  refine ⟨(mid_of_moves hm).trans h1, stopped_moves x [] op x' evs' h2 hm, ?_⟩
  rcases hm with ⟨_, hc | ⟨d, ho, hc⟩ | ⟨_, hc⟩ | ⟨o, l, ho, hl, hc⟩⟩ | ⟨_, _, hc⟩ | ⟨_, _, hc⟩
  · rw [hc]; exact h3
  · subst ho
    exact absurd h1 ha
  · have : x.stop = x := by
      unfold Media.stop Media.disabled
      rw [h2]
      rfl
    rw [hc, this]
    exact h3
  · subst ho
    have hrej : l.rejected = true := by
      by_contra hne
      apply ha
      refine ⟨hl.trans h1, ?_⟩
      intro ⟨h4, h5⟩
      apply hne
      unfold Line.rejected
      rw [h4, h5]
      rfl
    rw [hc]
    unfold Media.update
    rw [if_pos hrej]
    rfl
  · rw [hc]; exact h3
  · rw [hc]; exact h3

theorem inactive_run {ms : List Media} (hn : (ms.map (·.mid)).Nodup) (ops : List Op) (hf : AllFresh ms ops) {x : Media} (hx : x ∈ ms) (hs : x.stopped = true)
    (hi : x.dir = .inactive) (hr : ∀ o ∈ ops, o ≠ .remove x.mid) (hd : ∀ o ∈ ops, ¬ o.Directs x.mid) :
    ∃ x' ∈ (run ms ops).1, x'.mid = x.mid ∧ x'.stopped = true ∧ x'.dir = .inactive := by
  obtain ⟨x', h1, h2, h3⟩ := run_media (fun y _ => y.mid = x.mid ∧ y.stopped = true ∧ y.dir = .inactive) (fun o => ¬ o.Directs x.mid)
    (fun y _ op y' evs' h ha hm => inactive_moves x.mid y op y' evs' h ha hm) ops ms x [] hn hf hx hr hd ⟨rfl, hs, hi⟩
  exact ⟨x', h1, h2, h3.2⟩

/-- **C127** The application stops a media that agreed on a payload type: it is stopped and inactive from then on, until one gives it a direction. -/
theorem C127_stop {ms : List Media} (hn : (ms.map (·.mid)).Nodup) {x : Media} (hx : x ∈ ms) (hp : x.hasPts = true) (hs : x.stopped = false) (ops : List Op)
    (hf : AllFresh ms (.stop x.mid :: ops)) (hr : ∀ o ∈ ops, o ≠ .remove x.mid) (hd : ∀ o ∈ ops, ¬ o.Directs x.mid) :
    ∃ x' ∈ (run ms (.stop x.mid :: ops)).1, x'.mid = x.mid ∧ x'.stopped = true ∧ x'.dir = .inactive := by
  have h1 : x.stop ∈ (step ms (.stop x.mid)).1 := onMid_self hn hx
  have hmid : x.stop.mid = x.mid := honest_stop.mid x
  have h2 : x.stop.stopped = true ∧ x.stop.dir = .inactive := by
    unfold Media.stop Media.disabled
    rw [hp, hs]
    simp only [Bool.not_true, Bool.or_self, Bool.false_eq_true, if_false]
    unfold Media.setLocal
    split
    · rename_i h
      exact ⟨rfl, h⟩
    · exact ⟨rfl, rfl⟩
  obtain ⟨x', h3, h4, h5⟩ := inactive_run (step_nodup hn hf.1) ops hf.2 h1 h2.1 h2.2 (by rw [hmid]; exact hr) (by rw [hmid]; exact hd)
  exact ⟨x', h3, h4.trans hmid, h5⟩

theorem update_rejected (m : Media) {l : Line} (h1 : l.disabled = true) (h2 : l.bundled = false) : (m.update l).stopped = true ∧ (m.update l).dir = .inactive := by
  unfold Media.update Line.rejected
  rw [h1, h2]
  exact ⟨rfl, rfl⟩

/-- **C127** The peer rejects a media (port 0, not in the bundle), one that is there or not: it is stopped and inactive from then on, until one gives it a direction. -/
theorem C127_rejected {ms : List Media} (hn : (ms.map (·.mid)).Nodup) (o : Bool) {l : Line} (h1 : l.disabled = true) (h2 : l.bundled = false) (ops : List Op)
    (hf : AllFresh ms (.line o l :: ops)) (hr : ∀ op ∈ ops, op ≠ .remove l.mid) (hd : ∀ op ∈ ops, ¬ op.Directs l.mid) :
    ∃ x' ∈ (run ms (.line o l :: ops)).1, x'.mid = l.mid ∧ x'.stopped = true ∧ x'.dir = .inactive := by
  have key : ∃ x ∈ (step ms (.line o l)).1, x.mid = l.mid ∧ x.stopped = true ∧ x.dir = .inactive := by
    show ∃ x ∈ applyLine o l ms, _
    rcases applyLine_cases o l ms with ⟨h, he⟩ | ⟨_, he⟩
    · rw [he]
      obtain ⟨m, hm, hmid⟩ := List.mem_map.mp h
      refine ⟨m.update l, ?_, ((honest_update l).mid m).trans hmid, update_rejected m h1 h2⟩
      have := onMid_self (f := fun m => m.update l) hn hm
      rw [show m.mid = l.mid from hmid] at this
      exact this
    · rw [he]
      exact ⟨Media.new o l, by simp, new_mid o l, update_rejected _ h1 h2⟩
  obtain ⟨x, hx, hmid, hst, hi⟩ := key
  obtain ⟨x', h3, h4, h5⟩ := inactive_run (step_nodup hn hf.1) ops hf.2 hx hst hi (by rw [hmid]; exact hr) (by rw [hmid]; exact hd)
  exact ⟨x', h3, h4.trans hmid, h5⟩

/-! ### It happens, and what the code violates -/

/-- The peer offers two medias, the application polls, changes and stops one. -/
def history : List Op :=
  [.line true { mid := 1, dir := .sendRecv }, .line true { mid := 2, dir := .sendOnly }, .poll, .poll, .poll, .setDirection 1 .sendOnly, .poll, .poll, .stop 2, .poll, .poll]

instance : ∀ (ms : List Media) (op : Op), Decidable (Fresh ms op)
  | ms, .declare mid => inferInstanceAs (Decidable (mid ∉ ms.map (·.mid)))
  | _, .setDirection _ _ => .isTrue trivial
  | _, .stop _ => .isTrue trivial
  | _, .line _ _ => .isTrue trivial
  | _, .remove _ => .isTrue trivial
  | _, .poll => .isTrue trivial

instance decFresh : ∀ (ops : List Op) (ms : List Media), Decidable (AllFresh ms ops)
  | [], _ => .isTrue trivial
  | op :: ops, ms => @instDecidableAnd _ _ inferInstance (decFresh ops (step ms op).1)

instance : ∀ (t : Option Nat) (l : List Nat), Decidable (∀ mid, t = some mid → mid ∉ l)
  | none, _ => .isTrue (fun _ h => (by cases h))
  | some m, l => if h : m ∈ l then .isFalse (fun k => k m rfl h) else .isTrue (fun k e => by injection e with e; rw [← e]; exact h)

instance decPatient : ∀ (ops : List Op) (dirty : List Nat) (ms : List Media), Decidable (Patient dirty ms ops)
  | [], _, _ => .isTrue trivial
  | op :: ops, dirty, ms => @instDecidableAnd _ _ inferInstance (decPatient ops (since dirty op (step ms op).2) (step ms op).1)

/-- The history meets the hypotheses of `C126_told`; what is told there. -/
theorem C126_example : AllFresh [] history ∧ Patient [] [] history ∧ (pollMedias (run [] history).1).2 = .quiet ∧
    (run [] history).2 = [.added 1 .sendRecv, .added 2 .recvOnly, .quiet, .changed 1 .sendOnly, .quiet, .changed 2 .inactive, .quiet] ∧
    told 1 (run [] history).2 = some .sendOnly ∧ told 2 (run [] history).2 = some .inactive := by decide +kernel

/-- The hypotheses of `C126_added` are met: a declared and an offered media. -/
theorem C126_example_added : Op.Announces [] 1 (.declare 1) ∧ Op.Announces [] 1 (.line true { mid := 1, dir := .sendRecv }) ∧
    Op.Answers [] 1 (.line false { mid := 1, dir := .sendRecv }) :=
  ⟨⟨by simp, .inl rfl⟩, ⟨by simp, .inr ⟨_, rfl, rfl, by simp⟩⟩, by simp, _, rfl, rfl⟩

/-- Told as `sendRecv`; then the peer makes it `recvOnly`, and says it once more before the application polls. -/
def lostChange : List Op :=
  [.line true { mid := 1, dir := .sendRecv }, .poll, .line true { mid := 1, dir := .sendOnly }, .line true { mid := 1, dir := .sendOnly }, .poll]

/-- A second renegotiation that keeps the direction, before the poll, makes the session forget that the direction changed: it is never told. -/
theorem C126_violation_lost : AllFresh [] lostChange ∧ (pollMedias (run [] lostChange).1).2 = .quiet ∧
    told 1 (run [] lostChange).2 = some .sendRecv ∧ (run [] lostChange).1.map (·.dir) = [.recvOnly] := by decide +kernel

/-- The direction goes there and back before the application polls. -/
def thereAndBack : List Op :=
  [.line true { mid := 1, dir := .sendRecv }, .poll, .poll, .setDirection 1 .inactive, .setDirection 1 .sendRecv, .poll, .poll]

/-- Changes are told that are none: a media whose direction went there and back is told as changed, and one the peer offers with port 0 in the bundle
("max-bundle") is told as added and as changed. -/
theorem C126_violation_spurious :
    (∃ d, about 1 (run [] thereAndBack).2 = [.added 1 d, .changed 1 d]) ∧
    (run [] [.line true { mid := 1, disabled := true, dir := .sendOnly }, .poll, .poll]).2 = [.added 1 .recvOnly, .changed 1 .recvOnly] := by
  refine ⟨⟨.sendRecv, ?_⟩, ?_⟩ <;> decide +kernel

/-- "For locally added media, this event never fires … If the direct API is used on both sides … the event never fires": it does, for every declared media. -/
theorem C126_violation_declared (mid : Nat) : (run [] [.declare mid, .poll]).2 = [.added mid .sendRecv] := rfl

/-- A media the application offered, and the peer answers it with another direction or rejects it: nothing at all is told. -/
theorem C126_violation_rejected :
    (run [] [.line false { mid := 1, disabled := true, bundled := false, dir := .inactive, matched := false }, .poll]).1.map (fun m => (m.stopped, m.dir)) =
      [(true, .inactive)] ∧
    (run [] [.line false { mid := 1, disabled := true, bundled := false, dir := .inactive, matched := false }, .poll]).2 = [.quiet] ∧
    (run [] [.line false { mid := 1, dir := .inactive }, .poll]).2 = [.quiet] := by decide +kernel

/-- An agreed media is stopped, and the peer says `sendrecv` again. -/
def revived : List Op := [.line true { mid := 1, dir := .sendRecv }, .stop 1, .line true { mid := 1, dir := .sendRecv }]

/-- "A stopped media cannot be reactivated": a line of the peer gives it a direction again, and the session tells so. -/
theorem C127_violation_revived : (run [] revived).1.map (fun m => (m.stopped, m.dir)) = [(true, .sendRecv)] ∧
    (run [] (revived ++ [.poll, .poll])).2 = [.added 1 .sendRecv, .changed 1 .sendRecv] := by decide +kernel

/-- So does `set_direction`; and a second `stop_media` does not stop it again. -/
theorem C127_violation_direction : (run [] [.line true { mid := 1, dir := .sendRecv }, .stop 1, .setDirection 1 .sendRecv, .stop 1]).1.map (fun m => (m.stopped, m.dir)) =
    [(true, .sendRecv)] := by decide +kernel

/-- `stop_media` does nothing to a media without an agreed payload type: it keeps its direction, and a later offer can agree on one. -/
theorem C127_violation_unmatched : (run [] [.line true { mid := 1, dir := .sendRecv, matched := false }, .stop 1]).1.map (fun m => (m.stopped, m.dir)) = [(false, .sendRecv)] ∧
    (run [] [.line true { mid := 1, dir := .sendRecv, matched := false }, .stop 1, .line true { mid := 1, dir := .sendRecv }]).1.map (fun m => (m.stopped, m.hasPts, m.dir)) = [(false, true, .sendRecv)] := by decide +kernel

/-- The hypotheses of `C127_stop` and `C127_stays` are met by an agreed media. -/
theorem C127_example : ∃ x ∈ (run [] [.line true { mid := 1, dir := .sendRecv }]).1, x.mid = 1 ∧ x.hasPts = true ∧ x.stopped = false ∧
    (step (run [] [.line true { mid := 1, dir := .sendRecv }]).1 (.stop 1)).1.map (fun m => (m.stopped, m.dir)) = [(true, .inactive)] :=
  ⟨Media.new true { mid := 1, dir := .sendRecv }, by decide +kernel⟩

end Str0m.MediaEv
