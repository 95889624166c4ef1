import Mathlib.Data.List.Induction
import Verif.Spec.Requests

/-!
C129: the application is told of the keyframes that the peer asks, each request once, and asks the peer for what was wanted.
-/

namespace Str0m.Requests

/-! ### The side that is asked -/

/-- The stream -/
def Tx.stream (t : Tx) : Stream := ⟨t.ssrc, t.mid, t.rid⟩

/-- What is kept -/
def Good (xs : List Stream) (log : List Log) (s : State) : Prop :=
  s.txs.map Tx.stream = xs ∧ ∀ t ∈ s.txs, t.kf = waiting t.stream log

theorem waiting_snoc (x : Stream) (log : List Log) (l : Log) : waiting x (log ++ [l]) = waitingStep x (waiting x log) l := by
  simp [waiting, List.foldl_append]

theorem good_start (xs : List Stream) : Good xs [] (start xs) := by
  constructor
  · simp only [start, List.map_map]
    conv_rhs => rw [← List.map_id xs]
    apply List.map_congr_left
    intro x _
    rfl
  · intro t ht
    simp only [start, List.mem_map] at ht
    obtain ⟨x, _, rfl⟩ := ht
    rfl

/-- What a FIR does to one stream -/
def firOne (es : List (Nat × Nat)) (t : Tx) : Tx := if t.ssrc ∈ es.map (·.1) then { t with kf := some .fir } else t

theorem fir_map (es : List (Nat × Nat)) (txs : List Tx) :
    es.foldl (fun txs e => onTx e.1 (fun t => { t with kf := some .fir }) txs) txs = txs.map (firOne es) := by
  induction es generalizing txs with
  | nil =>
    conv_lhs => rw [List.foldl_nil, ← List.map_id txs]
    apply List.map_congr_left
    intro t _
    rfl
  | cons e es ih =>
    rw [List.foldl_cons, ih, onTx, List.map_map]
    apply List.map_congr_left
    intro t _
    simp only [Function.comp, firOne, List.map_cons, List.mem_cons]
    by_cases h1 : t.ssrc = e.1 <;> by_cases h2 : t.ssrc ∈ es.map (·.1) <;> simp [h1, h2]

/-- One item, one stream -/
def itemOne (i : Item) (t : Tx) : Tx := match i with
  | .pli ssrc => if t.ssrc = ssrc then { t with kf := some .pli } else t
  | .fir es => firOne es t
  | .remb ssrcs b => if t.ssrc = ssrcs.headD 0 then { t with remb := some b } else t
  | .app _ => t

theorem receive_map (s : State) (i : Item) : (receive s i).txs = s.txs.map (itemOne i) := by
  cases i with
  | pli ssrc => rfl
  | fir es => exact fir_map es s.txs
  | remb ssrcs b => rfl
  | app p =>
    conv_lhs => rw [← List.map_id (receive s (.app p)).txs]
    apply List.map_congr_left
    intro t _
    rfl

theorem itemOne_stream (i : Item) (t : Tx) : (itemOne i t).stream = t.stream := by
  cases i <;> simp only [itemOne, firOne] <;> (try split) <;> rfl

theorem itemOne_kf (i : Item) (t : Tx) : (itemOne i t).kf = (i.asks t.ssrc).or t.kf := by
  cases i with
  | pli ssrc =>
    simp only [itemOne, Item.asks]
    by_cases h : t.ssrc = ssrc
    · simp [h]
    · simp [h, Ne.symm h]
  | fir es =>
    simp only [itemOne, firOne, Item.asks]
    by_cases h : t.ssrc ∈ es.map (·.1)
    · rw [if_pos h, if_pos h]; rfl
    · rw [if_neg h, if_neg h]; rfl
  | remb ssrcs b =>
    simp only [itemOne, Item.asks]
    split <;> rfl
  | app p => rfl

theorem good_receive {xs : List Stream} {log : List Log} {s : State} (h : Good xs log s) (i : Item) :
    Good xs (log ++ [.item i]) (receive s i) := by
  constructor
  · rw [receive_map, List.map_map, ← h.1]
    apply List.map_congr_left
    intro t _
    exact itemOne_stream i t
  · intro t ht
    rw [receive_map, List.mem_map] at ht
    obtain ⟨u, hu, rfl⟩ := ht
    rw [waiting_snoc, itemOne_stream, itemOne_kf, h.2 u hu]
    rfl

/-- What one look for keyframe requests does -/
theorem pollKeyframe_cases (txs : List Tx) :
    (pollKeyframe txs = (txs, none) ∧ ∀ t ∈ txs, t.kf = none) ∨
    ∃ a t b k, txs = a ++ t :: b ∧ t.kf = some k ∧ pollKeyframe txs = (a ++ { t with kf := none } :: b, some (.keyframe t.mid t.rid k)) := by
  induction txs with
  | nil => exact .inl ⟨rfl, by simp⟩
  | cons t ts ih =>
    cases hk : t.kf with
    | some k => exact .inr ⟨[], t, ts, k, rfl, hk, by simp [pollKeyframe, hk]⟩
    | none =>
      rcases ih with ⟨h1, h2⟩ | ⟨a, u, b, k, h1, h2, h3⟩
      · refine .inl ⟨by simp [pollKeyframe, hk, h1], ?_⟩
        intro x hx
        rcases List.mem_cons.mp hx with rfl | hx
        · exact hk
        · exact h2 x hx
      · exact .inr ⟨t :: a, u, b, k, by rw [h1]; rfl, h2, by simp [pollKeyframe, hk, h3]⟩

/-- What one look for bitrates does -/
theorem pollRemb_cases (txs : List Tx) :
    (pollRemb txs = (txs, none) ∧ ∀ t ∈ txs, t.remb = none) ∨
    ∃ a t b k, txs = a ++ t :: b ∧ t.remb = some k ∧ pollRemb txs = (a ++ { t with remb := none } :: b, some (.remb t.mid k)) := by
  induction txs with
  | nil => exact .inl ⟨rfl, by simp⟩
  | cons t ts ih =>
    cases hk : t.remb with
    | some k => exact .inr ⟨[], t, ts, k, rfl, hk, by simp [pollRemb, hk]⟩
    | none =>
      rcases ih with ⟨h1, h2⟩ | ⟨a, u, b, k, h1, h2, h3⟩
      · refine .inl ⟨by simp [pollRemb, hk, h1], ?_⟩
        intro x hx
        rcases List.mem_cons.mp hx with rfl | hx
        · exact hk
        · exact h2 x hx
      · exact .inr ⟨t :: a, u, b, k, by rw [h1]; rfl, h2, by simp [pollRemb, hk, h3]⟩

/-- What one poll does -/
theorem poll_cases (s : State) :
    (∃ p, s.app = some p ∧ poll s = ({ s with app := none }, .app p)) ∨
    (∃ a t b k, s.app = none ∧ s.txs = a ++ t :: b ∧ t.kf = some k ∧
      poll s = ({ s with txs := a ++ { t with kf := none } :: b }, .keyframe t.mid t.rid k)) ∨
    (∃ a t b k, s.app = none ∧ (∀ u ∈ s.txs, u.kf = none) ∧ s.txs = a ++ t :: b ∧ t.remb = some k ∧
      poll s = ({ s with txs := a ++ { t with remb := none } :: b }, .remb t.mid k)) ∨
    (s.app = none ∧ (∀ u ∈ s.txs, u.kf = none) ∧ (∀ u ∈ s.txs, u.remb = none) ∧ poll s = (s, .quiet)) := by
  cases ha : s.app with
  | some p => exact .inl ⟨p, rfl, by simp [poll, ha]⟩
  | none =>
    rcases pollKeyframe_cases s.txs with ⟨h1, h2⟩ | ⟨a, t, b, k, h1, h2, h3⟩
    · rcases pollRemb_cases s.txs with ⟨g1, g2⟩ | ⟨a, t, b, k, g1, g2, g3⟩
      · exact .inr (.inr (.inr ⟨rfl, h2, g2, by simp [poll, ha, h1, g1]⟩))
      · exact .inr (.inr (.inl ⟨a, t, b, k, rfl, h2, g1, g2, by simp [poll, ha, h1, g3]⟩))
    · exact .inr (.inl ⟨a, t, b, k, rfl, h1, h2, by simp [poll, ha, h3]⟩)

theorem good_poll {xs : List Stream} {log : List Log} {s : State} (hd : Distinct xs) (h : Good xs log s) :
    Good xs (log ++ [.told (poll s).2]) (poll s).1 := by
  rcases poll_cases s with ⟨p, _, hp⟩ | ⟨a, t, b, k, _, hs, hk, hp⟩ | ⟨a, t, b, k, _, _, hs, hk, hp⟩ | ⟨_, _, _, hp⟩
  · rw [hp]
    refine ⟨h.1, ?_⟩
    intro u hu
    rw [waiting_snoc]
    exact h.2 u hu
  · rw [hp]
    have hn : ((a ++ t :: b).map (fun u => (u.mid, u.rid))).Nodup := by
      have := hd.2
      rw [← h.1, hs, List.map_map] at this
      exact this
    refine ⟨by rw [← h.1, hs]; simp [Tx.stream], ?_⟩
    intro u hu
    rw [waiting_snoc]
    show u.kf = if t.mid = u.mid ∧ t.rid = u.rid then none else waiting u.stream log
    have hne : ∀ w, w ∈ a ∨ w ∈ b → ¬ (t.mid = w.mid ∧ t.rid = w.rid) := by
      rintro w hw ⟨h1, h2⟩
      rw [List.map_append, List.map_cons, List.nodup_append, List.nodup_cons] at hn
      rcases hw with hw | hw
      · exact hn.2.2 _ (List.mem_map_of_mem hw) (t.mid, t.rid) (by simp) (by simp [h1, h2])
      · exact hn.2.1.1 (List.mem_map.mpr ⟨w, hw, by simp [h1, h2]⟩)
    rcases List.mem_append.mp hu with hu | hu
    · rw [if_neg (hne u (.inl hu))]
      exact h.2 u (by rw [hs]; simp [hu])
    · rcases List.mem_cons.mp hu with rfl | hu
      · simp
      · rw [if_neg (hne u (.inr hu))]
        exact h.2 u (by rw [hs]; simp [hu])
  · rw [hp]
    refine ⟨by rw [← h.1, hs]; simp [Tx.stream], ?_⟩
    intro u hu
    rw [waiting_snoc]
    show u.kf = waiting u.stream log
    rcases List.mem_append.mp hu with hu | hu
    · exact h.2 u (by rw [hs]; simp [hu])
    · rcases List.mem_cons.mp hu with rfl | hu
      · exact h.2 t (by rw [hs]; simp)
      · exact h.2 u (by rw [hs]; simp [hu])
  · rw [hp]
    refine ⟨h.1, ?_⟩
    intro u hu
    rw [waiting_snoc]
    exact h.2 u hu

theorem good_step {xs : List Stream} {log : List Log} {s : State} (hd : Distinct xs) (h : Good xs log s) (op : Op) :
    Good xs (log ++ [(step s op).2]) (step s op).1 := by
  cases op with
  | item i => exact good_receive h i
  | poll => exact good_poll hd h

theorem good_run {xs : List Stream} {log : List Log} {s : State} (hd : Distinct xs) (h : Good xs log s) (ops : List Op) :
    Good xs (log ++ (run s ops).2) (run s ops).1 := by
  induction ops generalizing s log with
  | nil => simpa [run] using h
  | cons op ops ih =>
    have := ih (good_step hd h op)
    rw [List.append_assoc] at this
    exact this

theorem good_all {xs : List Stream} (hd : Distinct xs) (ops : List Op) : Good xs (run (start xs) ops).2 (run (start xs) ops).1 := by
  have := good_run hd (good_start xs) ops
  simpa using this

theorem good_mem {xs : List Stream} {log : List Log} {s : State} (h : Good xs log s) {x : Stream} (hx : x ∈ xs) :
    ∃ t ∈ s.txs, t.stream = x ∧ t.kf = waiting x log := by
  rw [← h.1, List.mem_map] at hx
  obtain ⟨t, ht, rfl⟩ := hx
  exact ⟨t, ht, rfl, h.2 t ht⟩

theorem run_append (s : State) (a b : List Op) :
    run s (a ++ b) = ((run (run s a).1 b).1, (run s a).2 ++ (run (run s a).1 b).2) := by
  induction a generalizing s with
  | nil => simp [run]
  | cons op a ih => simp [run, ih]

theorem log_item {s : State} {ops : List Op} {i : Item} : Log.item i ∈ (run s ops).2 ↔ Op.item i ∈ ops := by
  induction ops generalizing s with
  | nil => simp [run]
  | cons op ops ih =>
    simp only [run, List.mem_cons, ih]
    cases op <;> simp [step]

theorem waiting_asked {x : Stream} {log : List Log} {k : Kind} (h : waiting x log = some k) :
    ∃ i, Log.item i ∈ log ∧ i.asks x.ssrc = some k := by
  induction log using List.reverseRecOn with
  | nil => cases h
  | append_singleton log l ih =>
    rw [waiting_snoc] at h
    have hold : ∀ {w}, w = waiting x log → w = some k → ∃ i, Log.item i ∈ log ++ [l] ∧ i.asks x.ssrc = some k := by
      rintro w rfl hw
      obtain ⟨i, h1, h2⟩ := ih hw
      exact ⟨i, by simp [h1], h2⟩
    cases l with
    | item i =>
      simp only [waitingStep] at h
      cases hi : i.asks x.ssrc with
      | none => rw [hi] at h; exact hold rfl (by simpa using h)
      | some k' =>
        rw [hi] at h
        exact ⟨i, by simp, by rw [hi]; simpa using h⟩
    | told e =>
      cases e with
      | keyframe mid rid k' =>
        simp only [waitingStep] at h
        split at h
        · cases h
        · exact hold rfl h
      | remb mid b => exact hold rfl h
      | app p => exact hold rfl h
      | quiet => exact hold rfl h

/-- **C129** (what the application is told is true): it is told of a request for a keyframe only when the peer asked it of a stream of that
mid and RID and the application was not told yet; the kind is that of the latest request -/
theorem C129_truth {xs : List Stream} (hd : Distinct xs) (ops : List Op) {mid : Nat} {rid : Option Nat} {k : Kind}
    (hp : (poll (run (start xs) ops).1).2 = .keyframe mid rid k) :
    ∃ x ∈ xs, x.mid = mid ∧ x.rid = rid ∧ waiting x (run (start xs) ops).2 = some k ∧
      ∃ i, Op.item i ∈ ops ∧ i.asks x.ssrc = some k := by
  have hg := good_all hd ops
  rcases poll_cases (run (start xs) ops).1 with ⟨p, _, h⟩ | ⟨a, t, b, k', _, hs, hk, h⟩ | ⟨a, t, b, k', _, _, hs, hk, h⟩ | ⟨_, _, _, h⟩ <;>
    rw [h] at hp <;> simp only [Ev.keyframe.injEq, reduceCtorEq] at hp
  obtain ⟨h1, h2, h3⟩ := hp
  have ht : t ∈ (run (start xs) ops).1.txs := by rw [hs]; simp
  have hw : waiting t.stream (run (start xs) ops).2 = some k := by rw [← hg.2 t ht, hk, h3]
  obtain ⟨i, hi, hi2⟩ := waiting_asked hw
  exact ⟨t.stream, hg.1 ▸ List.mem_map_of_mem ht, h1, h2, hw, i, log_item.mp hi, hi2⟩

/-- **C129** (nothing is kept back): when a poll has nothing to tell, each request of the peer was told -/
theorem C129_told {xs : List Stream} (hd : Distinct xs) (ops : List Op) (hp : (poll (run (start xs) ops).1).2 = .quiet) :
    ∀ x ∈ xs, waiting x (run (start xs) ops).2 = none := by
  intro x hx
  have hg := good_all hd ops
  obtain ⟨t, ht, _, hk⟩ := good_mem hg hx
  rcases poll_cases (run (start xs) ops).1 with ⟨p, _, h⟩ | ⟨a, t, b, k', _, hs, hk', h⟩ | ⟨a, t, b, k', _, _, hs, hk', h⟩ | ⟨_, h2, _, h⟩ <;>
    rw [h] at hp <;> try cases hp
  rw [← hk]
  exact h2 t ht

/-! ### Polls end -/

/-- How much waits -/
def pending (s : State) : Nat :=
  (if s.app.isSome then 1 else 0) + (s.txs.countP (fun t => t.kf.isSome)) + (s.txs.countP (fun t => t.remb.isSome))

theorem pending_poll (s : State) : pending (poll s).1 = pending s - 1 ∧ ((poll s).2 = .quiet ↔ pending s = 0) := by
  rcases poll_cases s with ⟨p, ha, h⟩ | ⟨a, t, b, k, ha, hs, hk, h⟩ | ⟨a, t, b, k, ha, _, hs, hk, h⟩ | ⟨ha, h1, h2, h⟩
  · rw [h]; simp [pending, ha]; omega
  · rw [h]
    simp only [pending, hs, ha, List.countP_append, List.countP_cons, hk]
    cases t.remb <;> simp <;> omega
  · rw [h]
    simp only [pending, hs, ha, List.countP_append, List.countP_cons, hk]
    cases t.kf <;> simp <;> omega
  · rw [h]
    have e1 : s.txs.countP (fun t => t.kf.isSome) = 0 := by
      rw [List.countP_eq_zero]; intro t ht; simp [h1 t ht]
    have e2 : s.txs.countP (fun t => t.remb.isSome) = 0 := by
      rw [List.countP_eq_zero]; intro t ht; simp [h2 t ht]
    simp [pending, ha, e1, e2]

theorem pending_le (s : State) : pending s ≤ 2 * s.txs.length + 1 := by
  have h1 := List.countP_le_length (p := fun t : Tx => t.kf.isSome) (l := s.txs)
  have h2 := List.countP_le_length (p := fun t : Tx => t.remb.isSome) (l := s.txs)
  simp only [pending]
  split <;> omega

theorem pending_polls (s : State) (n : Nat) : pending (run s (List.replicate n .poll)).1 = pending s - n := by
  induction n generalizing s with
  | zero => simp [run]
  | succ n ih =>
    rw [List.replicate_succ]
    show pending (run (poll s).1 _).1 = _
    rw [ih, (pending_poll s).1]
    omega

theorem txs_length {xs : List Stream} {log : List Log} {s : State} (h : Good xs log s) : s.txs.length = xs.length := by
  rw [← h.1]; simp

/-- **C129** (telling ends): after any history, twice as many polls as there are streams, and one more, leave nothing to tell -/
theorem C129_ends {xs : List Stream} (hd : Distinct xs) (ops : List Op) :
    (poll (run (start xs) (ops ++ List.replicate (2 * xs.length + 1) .poll)).1).2 = .quiet := by
  rw [(pending_poll _).2, run_append, pending_polls]
  have h1 := pending_le (run (start xs) ops).1
  rw [txs_length (good_all hd ops)] at h1
  omega

/-- A request that waits stays until it is told -/
theorem waits_told {xs : List Stream} (hd : Distinct xs) {x : Stream} (hx : x ∈ xs) {k : Kind} (n : Nat) {log : List Log} {s : State}
    (h : Good xs log s) (hw : waiting x log = some k) :
    Log.told (.keyframe x.mid x.rid k) ∈ (run s (List.replicate n .poll)).2 ∨
      waiting x (log ++ (run s (List.replicate n .poll)).2) = some k := by
  induction n generalizing log s with
  | zero => right; simpa [run] using hw
  | succ n ih =>
    rw [List.replicate_succ]
    show _ ∈ (Log.told (poll s).2 :: _) ∨ waiting x (log ++ (Log.told (poll s).2 :: _)) = some k
    by_cases ht : (poll s).2 = .keyframe x.mid x.rid k
    · left; rw [ht]; simp
    · have hg := good_poll hd h
      have hw2 : waiting x (log ++ [.told (poll s).2]) = some k := by
        rw [waiting_snoc]
        rcases poll_cases s with ⟨p, _, hp⟩ | ⟨a, t, b, k', _, hs, hk, hp⟩ | ⟨a, t, b, k', _, _, hs, hk, hp⟩ | ⟨_, _, _, hp⟩
        · rw [hp]; exact hw
        · rw [hp]
          show (if t.mid = x.mid ∧ t.rid = x.rid then none else waiting x log) = some k
          rw [if_neg, hw]
          rintro ⟨e1, e2⟩
          apply ht
          rw [hp]
          have htm : t ∈ s.txs := by rw [hs]; simp
          have hxt : t.stream = x := by
            have hm : t.stream ∈ xs := h.1 ▸ List.mem_map_of_mem htm
            exact List.inj_on_of_nodup_map hd.2 hm hx (by simp [Tx.stream, e1, e2])
          have := h.2 t htm
          rw [hxt, hw, hk] at this
          injection this with this
          simp [e1, e2, this]
        · rw [hp]; exact hw
        · rw [hp]; exact hw
      rcases ih hg hw2 with h1 | h1
      · left; exact List.mem_cons_of_mem _ h1
      · right; rw [List.append_assoc] at h1; exact h1

/-- **C129** (a request is told): whatever happened before, a request for a keyframe of a stream is told, with its mid, RID and kind, by
the polls that follow, when no other request for the stream comes between -/
theorem C129_reaches {xs : List Stream} (hd : Distinct xs) (ops : List Op) {x : Stream} (hx : x ∈ xs) {k : Kind} (items : List Item)
    (before after : List Item) {i : Item} (hi : items = before ++ i :: after) (hk : i.asks x.ssrc = some k)
    (ha : ∀ j ∈ after, j.asks x.ssrc = none) :
    Log.told (.keyframe x.mid x.rid k) ∈
      (run (run (start xs) (ops ++ items.map .item)).1 (List.replicate (2 * xs.length + 1) .poll)).2 := by
  have hg := good_all hd (ops ++ items.map .item)
  have hmap : ∀ (l : List Item) (s : State), (run s (l.map .item)).2 = l.map .item := by
    intro l
    induction l with
    | nil => intro s; rfl
    | cons a l ih => intro s; simp [run, step, ih]
  have hw : waiting x (run (start xs) (ops ++ items.map .item)).2 = some k := by
    rw [run_append]
    show waiting x ((run (start xs) ops).2 ++ _) = _
    rw [hmap, hi, List.map_append, List.map_cons, ← List.append_assoc]
    generalize (run (start xs) ops).2 ++ List.map Log.item before = l0
    rw [List.append_cons]
    have h0 : waiting x (l0 ++ [Log.item i]) = some k := by rw [waiting_snoc]; simp [waitingStep, hk]
    revert h0
    generalize l0 ++ [Log.item i] = l1
    clear hi
    intro h0
    induction after generalizing l1 with
    | nil => simpa using h0
    | cons j after ih =>
      rw [List.map_cons, List.append_cons]
      apply ih (fun j' h' => ha j' (List.mem_cons_of_mem _ h'))
      rw [waiting_snoc, waitingStep, ha j (by simp), h0]
      rfl
  rcases waits_told hd hx (2 * xs.length + 1) hg hw with h | h
  · exact h
  · have hq := C129_told hd _ (C129_ends hd (ops ++ items.map .item)) x hx
    rw [run_append, h] at hq
    cases hq

end Str0m.Requests
