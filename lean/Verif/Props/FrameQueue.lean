import Verif.Spec.FrameQueue
import Verif.Proofs.PayloadType

/-!
C125: what becomes of the frames the application writes.
-/

namespace Str0m.Frames
open Str0m Str0m.Tx Str0m.Pts

variable {σ : Type}

/-! ### Lists of medias -/

/-- The frames waiting for a mid in a list of medias. -/
def waitL (mid : Nat) (ms : List (Media σ)) : List Item := (ms.filter (fun m => m.mid == mid)).flatMap (·.queue)

theorem waitL_cons (mid : Nat) (m : Media σ) (ms : List (Media σ)) : waitL mid (m :: ms) = (if m.mid = mid then m.queue else []) ++ waitL mid ms := by
  unfold waitL
  rw [List.filter_cons]
  by_cases h : m.mid = mid
  · simp [h]
  · simp [h]

theorem waitL_append (mid : Nat) (a b : List (Media σ)) : waitL mid (a ++ b) = waitL mid a ++ waitL mid b := by
  unfold waitL
  rw [List.filter_append, List.flatMap_append]

theorem waitL_none (mid : Nat) (ms : List (Media σ)) (h : mid ∉ ms.map (·.mid)) : waitL mid ms = [] := by
  unfold waitL
  rw [List.filter_eq_nil_iff.mpr]
  · rfl
  · intro m hm
    simp only [beq_iff_eq]
    intro he
    exact h (List.mem_map.mpr ⟨m, hm, he⟩)

/-! ### Writing -/

theorem accept_spec (params : List (Nat × Codec σ)) (m : Media σ) (it : Item) :
    (∃ e, accept params m it = .error e ∧
      ((e = .unknownPt ∧ it.pt ∉ params.map (·.1)) ∨
       (e = .unknownRid ∧ it.pt ∈ params.map (·.1) ∧ ∃ r, it.rid = some r ∧ (m.ridsTx = .none ∨ ∃ l, m.ridsTx = .specific l ∧ r ∉ l)) ∨
       (e = .withoutPoll ∧ it.pt ∈ params.map (·.1) ∧ (∀ r, it.rid = some r → ¬ (m.ridsTx = .none ∨ ∃ l, m.ridsTx = .specific l ∧ r ∉ l)) ∧ 100 < m.queue.length))) ∨
    (accept params m it = .ok { m with queue := m.queue ++ [it] } ∧ it.pt ∈ params.map (·.1) ∧
      (∀ r, it.rid = some r → ¬ (m.ridsTx = .none ∨ ∃ l, m.ridsTx = .specific l ∧ r ∉ l)) ∧ m.queue.length ≤ 100) := by
  have hpt : params.any (fun p => p.1 == it.pt) = true ↔ it.pt ∈ params.map (·.1) := by
    rw [List.any_eq_true, List.mem_map]
    constructor
    · rintro ⟨p, hp, he⟩
      exact ⟨p, hp, by simpa using he⟩
    · rintro ⟨p, hp, he⟩
      exact ⟨p, hp, by simpa using he⟩
  have hrid : ridAllowed m.ridsTx it.rid = true ↔ ∀ r, it.rid = some r → ¬ (m.ridsTx = .none ∨ ∃ l, m.ridsTx = .specific l ∧ r ∉ l) := by
    cases hr : it.rid with
    | none => simp [ridAllowed]
    | some r =>
      cases hx : m.ridsTx with
      | none => simp [ridAllowed, Rids.contains]
      | any => simp [ridAllowed, Rids.contains]
      | specific l => simp [ridAllowed, Rids.contains]
  unfold accept
  by_cases h1 : params.any (fun p => p.1 == it.pt) = true
  · rw [h1]
    by_cases h2 : ridAllowed m.ridsTx it.rid = true
    · rw [h2]
      unfold Media.enqueue
      by_cases h3 : m.queue.length > 100
      · rw [if_pos h3]
        exact .inl ⟨_, rfl, .inr (.inr ⟨rfl, hpt.mp h1, hrid.mp h2, h3⟩)⟩
      · rw [if_neg h3]
        exact .inr ⟨rfl, hpt.mp h1, hrid.mp h2, by omega⟩
    · have h2' : ridAllowed m.ridsTx it.rid = false := by simpa using h2
      rw [h2']
      have h4 : ¬ ∀ r, it.rid = some r → ¬ (m.ridsTx = .none ∨ ∃ l, m.ridsTx = .specific l ∧ r ∉ l) := fun h => h2 (hrid.mpr h)
      push Not at h4
      exact .inl ⟨_, rfl, .inr (.inl ⟨rfl, hpt.mp h1, h4⟩)⟩
  · have h1' : params.any (fun p => p.1 == it.pt) = false := Bool.eq_false_iff.mpr h1
    rw [h1']
    exact .inl ⟨_, rfl, .inl ⟨rfl, fun h => h1 (hpt.mpr h)⟩⟩

theorem writeTo_spec (params : List (Nat × Codec σ)) (mid : Nat) (it : Item) : ∀ ms : List (Media σ),
    (writeTo params mid it ms = .error .noMedia ∧ mid ∉ ms.map (·.mid)) ∨
    ∃ a m b, ms = a ++ m :: b ∧ m.mid = mid ∧ mid ∉ a.map (·.mid) ∧
      ((∃ e, accept params m it = .error e ∧ writeTo params mid it ms = .error e) ∨
       ∃ m', accept params m it = .ok m' ∧ writeTo params mid it ms = .ok (a ++ m' :: b)) := by
  intro ms
  induction ms with
  | nil => exact .inl ⟨rfl, by simp⟩
  | cons m ms ih =>
    by_cases hm : m.mid = mid
    · right
      refine ⟨[], m, ms, rfl, hm, by simp, ?_⟩
      unfold writeTo
      rw [if_pos hm]
      cases accept params m it with
      | error e => exact .inl ⟨e, rfl, rfl⟩
      | ok m' => exact .inr ⟨m', rfl, rfl⟩
    · unfold writeTo
      rw [if_neg hm]
      rcases ih with ⟨h1, h2⟩ | ⟨a, m0, b, h1, h2, h3, h4⟩
      · left
        rw [h1]
        refine ⟨rfl, ?_⟩
        simp only [List.map_cons, List.mem_cons, not_or]
        exact ⟨fun h => hm h.symm, h2⟩
      · right
        refine ⟨m :: a, m0, b, by rw [h1]; rfl, h2, ?_, ?_⟩
        · simp only [List.map_cons, List.mem_cons, not_or]
          exact ⟨fun h => hm h.symm, h3⟩
        · rcases h4 with ⟨e, h5, h6⟩ | ⟨m', h5, h6⟩
          · exact .inl ⟨e, h5, by rw [h6]⟩
          · exact .inr ⟨m', h5, by rw [h6]; rfl⟩

theorem waiting_at {s : Sess σ} {a b : List (Media σ)} {m : Media σ} (hd : Distinct s) (h : s.medias = a ++ m :: b) :
    waitingFor m.mid s = m.queue ∧ ∀ x ∈ s.medias, x.mid = m.mid → x = m := by
  have hn : ((a ++ m :: b).map (·.mid)).Nodup := by rw [← h]; exact hd
  rw [List.map_append, List.map_cons, List.nodup_append] at hn
  obtain ⟨_, h2, h3⟩ := hn
  rw [List.nodup_cons] at h2
  have ha : m.mid ∉ a.map (·.mid) := fun hx => h3 _ hx _ (List.mem_cons_self ..) rfl
  constructor
  · show waitL m.mid s.medias = _
    rw [h, waitL_append, waitL_cons, waitL_none _ a ha, waitL_none _ b h2.1]
    simp
  · intro x hx he
    rw [h] at hx
    rcases List.mem_append.mp hx with hx | hx
    · exact absurd (List.mem_map.mpr ⟨x, hx, he⟩) ha
    · rcases List.mem_cons.mp hx with hx | hx
      · exact hx
      · exact absurd (List.mem_map.mpr ⟨x, hx, he⟩) h2.1

/-- **C125** Writing a frame succeeds exactly if there is none of the reasons against it, and then it waits behind the media's other frames; if
not, one of the reasons is told, and nothing changes. -/
theorem C125_refused (s : Sess σ) (mid : Nat) (it : Item) (hd : Distinct s) :
    (∃ s', s.step (.write mid it) = .ok (s', [.accepted mid it]) ∧ (∀ e, ¬ Refusal s mid it e) ∧ waitingFor mid s' = waitingFor mid s ++ [it]) ∨
    (∃ e, s.step (.write mid it) = .ok (s, [.rejected mid it e]) ∧ Refusal s mid it e) := by
  have hs : s.step (.write mid it) = if s.closing then .ok (s, [.rejected mid it .noMedia]) else
      match writeTo s.params mid it s.medias with
      | .ok ms => .ok ({ s with medias := ms }, [.accepted mid it])
      | .error e => .ok (s, [.rejected mid it e]) := rfl
  by_cases hc : s.closing = true
  · right
    exact ⟨.noMedia, by rw [hs, if_pos hc], .inl hc⟩
  rw [if_neg hc] at hs
  rcases writeTo_spec s.params mid it s.medias with ⟨h1, h2⟩ | ⟨a, m, b, h1, h2, h3, h4⟩
  · right
    rw [h1] at hs
    exact ⟨.noMedia, hs, .inr h2⟩
  · subst h2
    obtain ⟨hw, hu⟩ := waiting_at hd h1
    have hin : m ∈ s.medias := by rw [h1]; simp
    rcases h4 with ⟨e, h5, h6⟩ | ⟨m', h5, h6⟩
    · right
      rw [h6] at hs
      refine ⟨e, hs, ?_⟩
      rcases accept_spec s.params m it with ⟨e', ha, hb⟩ | ⟨ha, _⟩
      · rw [h5] at ha
        injection ha with ha
        subst ha
        rcases hb with ⟨rfl, hb⟩ | ⟨rfl, _, hb⟩ | ⟨rfl, _, _, hb⟩
        · exact hb
        · exact ⟨m, hin, rfl, hb⟩
        · show 100 < _
          rw [hw]
          exact hb
      · rw [h5] at ha
        cases ha
    · left
      rw [h6] at hs
      rcases accept_spec s.params m it with ⟨e', ha, _⟩ | ⟨ha, hb, hcr, hl⟩
      · rw [h5] at ha
        cases ha
      · rw [h5] at ha
        injection ha with ha
        subst ha
        refine ⟨_, hs, ?_, ?_⟩
        · intro e he
          cases e with
          | noMedia => exact he.elim hc (fun h => h (List.mem_map.mpr ⟨m, hin, rfl⟩))
          | unknownPt => exact he hb
          | unknownRid =>
            obtain ⟨x, hx, hxm, r, hr, hno⟩ := he
            rw [hu x hx hxm] at hno
            exact hcr r hr hno
          | withoutPoll =>
            have he' : 100 < (waitingFor m.mid s).length := he
            rw [hw] at he'
            omega
        · show waitL m.mid (a ++ { m with queue := m.queue ++ [it] } :: b) = _
          rw [hw, waitL_append, waitL_cons, waitL_none _ a h3]
          have hn : ((a ++ m :: b).map (·.mid)).Nodup := by rw [← h1]; exact hd
          rw [List.map_append, List.map_cons, List.nodup_append] at hn
          rw [waitL_none _ b (List.nodup_cons.mp hn.2.1).1]
          simp

/-! ### Packetizing -/

theorem payItem_mid {params : List (Nat × Codec σ)} {mtu : Nat} {streams : List Tx} {m : Media σ} {it : Item} {r : Media σ × List Tx × Fate}
    (h : payItem params mtu streams m it = .ok r) : r.1.mid = m.mid ∧ r.1.queue = m.queue := by
  unfold payItem at h
  split at h
  · injection h with h
    subst h
    exact ⟨rfl, rfl⟩
  · split at h
    · cases h
    · injection h with h
      subst h
      unfold pay
      split <;> exact ⟨rfl, rfl⟩

theorem doPayload_spec {params : List (Nat × Codec σ)} {mtu : Nat} {streams : List Tx} {m : Media σ} {r : Media σ × List Tx × Option Done}
    (h : m.doPayload params mtu streams = .ok r) :
    r.1.mid = m.mid ∧
    ((m.queue = [] ∧ r = (m, streams, none)) ∨
     ∃ it f, m.queue = it :: r.1.queue ∧ r.2.2 = some ⟨m.mid, it, f⟩ ∧ payItem params mtu streams { m with queue := r.1.queue } it = .ok (r.1, r.2.1, f)) := by
  unfold Media.doPayload at h
  split at h
  · rename_i hq
    injection h with h
    subst h
    exact ⟨rfl, .inl ⟨hq, rfl⟩⟩
  · rename_i it q hq
    obtain ⟨x, hx, h⟩ := bind_eq_ok h
    injection h with h
    subst h
    obtain ⟨e1, e2⟩ := payItem_mid hx
    have e2' : x.1.queue = q := e2
    refine ⟨e1, .inr ⟨it, x.2.2, ?_, rfl, ?_⟩⟩
    · rw [hq]
      show it :: q = it :: x.1.queue
      rw [e2']
    · show payItem params mtu streams { m with queue := x.1.queue } it = _
      rw [e2']
      exact hx

theorem leftOf_append (mid : Nat) (a b : List Ev) : leftOf mid (a ++ b) = leftOf mid a ++ leftOf mid b := by
  unfold leftOf
  rw [List.flatMap_append]

theorem acceptedFor_append (mid : Nat) (a b : List Ev) : acceptedFor mid (a ++ b) = acceptedFor mid a ++ acceptedFor mid b := by
  unfold acceptedFor
  rw [List.filterMap_append]

theorem accepted_done (mid : Nat) (ds : List Done) : acceptedFor mid (ds.map .done) = [] := by
  unfold acceptedFor
  rw [List.filterMap_eq_nil_iff]
  intro e he
  obtain ⟨d, _, rfl⟩ := List.mem_map.mp he
  rfl

theorem payAll_spec (params : List (Nat × Codec σ)) (mtu : Nat) : ∀ (ms : List (Media σ)) (streams : List Tx) (r : List (Media σ) × List Tx × List Done),
    payAll params mtu streams ms = .ok r → r.1.map (·.mid) = ms.map (·.mid) ∧
      ((ms.map (·.mid)).Nodup → ∀ mid, waitL mid ms = leftOf mid (r.2.2.map .done) ++ waitL mid r.1) := by
  intro ms
  induction ms with
  | nil =>
    intro streams r h
    injection h with h
    subst h
    exact ⟨rfl, fun _ mid => rfl⟩
  | cons m ms ih =>
    intro streams r h
    unfold payAll at h
    obtain ⟨x, hx, h⟩ := bind_eq_ok h
    obtain ⟨hm, hq⟩ := doPayload_spec hx
    have hhead : ∀ mid, (if m.mid = mid then m.queue else []) = leftOf mid (x.2.2.toList.map .done) ++ (if x.1.mid = mid then x.1.queue else []) := by
      intro mid
      rcases hq with ⟨h1, h2⟩ | ⟨it, f, h1, h2, _⟩
      · rw [h2]
        rfl
      · rw [h2, hm, h1]
        by_cases e : m.mid = mid
        · simp [leftOf, e]
        · simp [leftOf, e]
    split at h
    · injection h with h
      subst h
      refine ⟨by rw [List.map_cons, List.map_cons, hm], ?_⟩
      intro hn mid
      rw [waitL_cons, waitL_cons, hhead mid]
      simp only [List.append_assoc]
    · obtain ⟨t, ht, h⟩ := bind_eq_ok h
      injection h with h
      subst h
      obtain ⟨i1, i2⟩ := ih _ _ ht
      refine ⟨by rw [List.map_cons, List.map_cons, hm, i1], ?_⟩
      intro hn mid
      rw [List.map_cons, List.nodup_cons] at hn
      have hi := i2 hn.2 mid
      rw [waitL_cons, waitL_cons, hhead mid, List.map_append, leftOf_append]
      by_cases e : m.mid = mid
      · have hz : waitL mid ms = [] := waitL_none _ _ (by rw [← e]; exact hn.1)
        rw [hz] at hi
        have hi' := hi.symm
        rw [List.append_eq_nil_iff] at hi'
        rw [hz, hi'.1, hi'.2]
        simp
      · rw [hi, hm, if_neg e]
        have : leftOf mid (x.2.2.toList.map .done) = [] := by
          have := hhead mid
          rw [if_neg e, hm, if_neg e] at this
          exact (List.append_eq_nil_iff.mp this.symm).1
        rw [this]
        simp

theorem map_filter_nodup (ms : List (Media σ)) (p : Media σ → Bool) (h : (ms.map (·.mid)).Nodup) : ((ms.filter p).map (·.mid)).Nodup :=
  h.sublist (List.filter_sublist.map _)

theorem setRids_mid (mid : Nat) (r : Rids) (ms : List (Media σ)) : (setRids mid r ms).map (·.mid) = ms.map (·.mid) := by
  unfold setRids
  rw [List.map_map]
  apply List.map_congr_left
  intro m _
  show (if m.mid = mid then { m with ridsTx := r } else m).mid = m.mid
  split <;> rfl

theorem setRids_wait (mid : Nat) (r : Rids) (ms : List (Media σ)) (k : Nat) : waitL k (setRids mid r ms) = waitL k ms := by
  induction ms with
  | nil => rfl
  | cons m ms ih =>
    have : setRids mid r (m :: ms) = (if m.mid = mid then { m with ridsTx := r } else m) :: setRids mid r ms := rfl
    rw [this, waitL_cons, waitL_cons, ih]
    by_cases h : m.mid = mid
    · rw [if_pos h]
    · rw [if_neg h]

theorem filter_wait (mid k : Nat) (ms : List (Media σ)) :
    waitL k (ms.filter (fun m => m.mid != mid)) = if mid = k then [] else waitL k ms := by
  induction ms with
  | nil => simp [waitL]
  | cons m ms ih =>
    rw [List.filter_cons, waitL_cons]
    by_cases h : m.mid = mid
    · have : (m.mid != mid) = false := by simp [h]
      rw [this, if_neg (by simp), ih]
      by_cases hk : mid = k
      · rw [if_pos hk, if_pos hk]
      · rw [if_neg hk, if_neg hk, if_neg (by rw [h]; exact hk)]
        rfl
    · have : (m.mid != mid) = true := by simp [h]
      rw [this, if_pos rfl, waitL_cons, ih]
      by_cases hk : mid = k
      · rw [if_pos hk, if_pos hk, if_neg (by rw [← hk]; exact h)]
        rfl
      · rw [if_neg hk, if_neg hk]

theorem step_balance {s : Sess σ} {op : Op σ} {r : Sess σ × List Ev} (hd : Distinct s) (hf : Fresh s op) (h : s.step op = .ok r) :
    Distinct r.1 ∧ ∀ mid, waitingFor mid s ++ acceptedFor mid r.2 = leftOf mid r.2 ++ waitingFor mid r.1 := by
  cases op with
  | write mid it =>
    have hs : s.step (.write mid it) = if s.closing then .ok (s, [.rejected mid it .noMedia]) else
      match writeTo s.params mid it s.medias with
      | .ok ms => .ok ({ s with medias := ms }, [.accepted mid it])
      | .error e => .ok (s, [.rejected mid it e]) := rfl
    rw [hs] at h
    split at h
    · injection h with h
      subst h
      exact ⟨hd, fun k => by simp [acceptedFor, leftOf]⟩
    · rcases writeTo_spec s.params mid it s.medias with ⟨h1, h2⟩ | ⟨a, m, b, h1, h2, h3, h4⟩
      · rw [h1] at h
        injection h with h
        subst h
        exact ⟨hd, fun k => by simp [acceptedFor, leftOf]⟩
      · rcases h4 with ⟨e, h5, h6⟩ | ⟨m', h5, h6⟩
        · rw [h6] at h
          injection h with h
          subst h
          exact ⟨hd, fun k => by simp [acceptedFor, leftOf]⟩
        · rw [h6] at h
          injection h with h
          subst h
          rcases accept_spec s.params m it with ⟨e', ha, _⟩ | ⟨ha, _⟩
          · rw [h5] at ha
            cases ha
          · rw [h5] at ha
            injection ha with ha
            subst ha
            have hn : ((a ++ m :: b).map (·.mid)).Nodup := by rw [← h1]; exact hd
            refine ⟨by show ((a ++ _ :: b).map _).Nodup; simpa using hn, ?_⟩
            intro k
            show waitL k s.medias ++ _ = _ ++ waitL k (a ++ _ :: b)
            rw [h1, waitL_append, waitL_cons, waitL_append, waitL_cons]
            by_cases hk : m.mid = k
            · have hb : waitL k b = [] := by
                rw [List.map_append, List.map_cons, List.nodup_append] at hn
                exact waitL_none _ _ (by rw [← hk]; exact (List.nodup_cons.mp hn.2.1).1)
              have hmk : mid = k := h2 ▸ hk
              rw [hb]
              simp [hk, acceptedFor, leftOf, hmk]
            · have hmk : ¬ mid = k := h2 ▸ hk
              simp [hk, acceptedFor, leftOf, hmk]
  | timeout =>
    obtain ⟨x, hx, h⟩ := bind_eq_ok h
    injection h with h
    subst h
    unfold Sess.timeout at hx
    split at hx
    · injection hx with hx
      subst hx
      exact ⟨hd, fun k => by simp [acceptedFor, leftOf]⟩
    · obtain ⟨y, hy, hx⟩ := bind_eq_ok hx
      injection hx with hx
      subst hx
      obtain ⟨h1, h2⟩ := payAll_spec _ _ _ _ _ hy
      refine ⟨by show (y.1.map _).Nodup; rw [h1]; exact hd, ?_⟩
      intro k
      show waitL k s.medias ++ acceptedFor k (y.2.2.map .done) = leftOf k (y.2.2.map .done) ++ waitL k y.1
      rw [accepted_done, h2 hd k, List.append_nil]
  | params l =>
    injection h with h
    subst h
    exact ⟨hd, fun k => by simp [acceptedFor, leftOf]; rfl⟩
  | streams l =>
    injection h with h
    subst h
    exact ⟨hd, fun k => by simp [acceptedFor, leftOf]; rfl⟩
  | close =>
    injection h with h
    subst h
    exact ⟨hd, fun k => by simp [acceptedFor, leftOf]; rfl⟩
  | rids mid r' =>
    injection h with h
    subst h
    refine ⟨by show ((setRids mid r' s.medias).map _).Nodup; rw [setRids_mid]; exact hd, ?_⟩
    intro k
    show waitL k s.medias ++ acceptedFor k [] = leftOf k [] ++ waitL k (setRids mid r' s.medias)
    rw [setRids_wait]
    simp [acceptedFor, leftOf]
  | addMedia mid audio pts =>
    injection h with h
    subst h
    refine ⟨?_, ?_⟩
    · show ((s.medias ++ [_]).map _).Nodup
      rw [List.map_append, List.nodup_append]
      refine ⟨hd, by simp, ?_⟩
      intro a ha b hb
      simp only [List.map_cons, List.map_nil, List.mem_singleton] at hb
      subst hb
      exact fun h => hf (h ▸ ha)
    · intro k
      show waitL k s.medias ++ _ = _ ++ waitL k (s.medias ++ [_])
      rw [waitL_append]
      simp [acceptedFor, leftOf, waitL]
  | removeMedia mid =>
    injection h with h
    subst h
    refine ⟨map_filter_nodup _ _ hd, ?_⟩
    intro k
    show waitL k s.medias ++ _ = leftOf k [.gone mid (waitL mid s.medias)] ++ waitL k (s.medias.filter (fun m => m.mid != mid))
    rw [filter_wait]
    by_cases hk : mid = k
    · subst hk
      simp [acceptedFor, leftOf]
    · simp [acceptedFor, leftOf, hk]

/-- **C125** Every frame accepted is dealt with exactly once, in the order written to its media: packetized, reported by an error, or gone with
the media. The others are still waiting. -/
theorem C125_once : ∀ (ops : List (Op σ)) (s : Sess σ) (r : Sess σ × List Ev), Distinct s → AllFresh s ops → s.run ops = .ok r →
    ∀ mid, waitingFor mid s ++ acceptedFor mid r.2 = leftOf mid r.2 ++ waitingFor mid r.1 := by
  intro ops
  induction ops with
  | nil =>
    intro s r _ _ h mid
    injection h with h
    subst h
    simp [acceptedFor, leftOf]
  | cons op ops ih =>
    intro s r hd hf h mid
    obtain ⟨x, hx, h⟩ := bind_eq_ok h
    obtain ⟨t, ht, h⟩ := bind_eq_ok h
    injection h with h
    subst h
    obtain ⟨d1, b1⟩ := step_balance hd hf.1 hx
    have b2 := ih _ _ d1 (hf.2 _ hx) ht mid
    show waitingFor mid s ++ acceptedFor mid (x.2 ++ t.2) = leftOf mid (x.2 ++ t.2) ++ waitingFor mid t.1
    rw [acceptedFor_append, leftOf_append, ← List.append_assoc, b1 mid, List.append_assoc, b2, List.append_assoc]

end Str0m.Frames
