import Verif.Spec.Arrival
import Mathlib.Data.List.Basic
import Mathlib.Data.List.Induction
import Mathlib.Algebra.Order.Group.Int
/-
  C134: packets are grouped by the rule, and the deltas are those between the groups.
-/
namespace Str0m.Arrival

theorem latest_snoc {l : List Int} (h : l ≠ []) (x : Int) : latest (l ++ [x]) = max (latest l) x := by
  cases l with
  | nil => exact absurd rfl h
  | cons a l => show (l ++ [x]).foldl max a = _; rw [List.foldl_append]; rfl

theorem lastSent_snoc {g : List Pkt} (h : g ≠ []) (p : Pkt) : lastSent (g ++ [p]) = max (lastSent g) p.send := by
  unfold lastSent
  rw [List.map_append]
  exact latest_snoc (by simpa using h) _

theorem lastArrived_snoc {g : List Pkt} (h : g ≠ []) (p : Pkt) : lastArrived (g ++ [p]) = max (lastArrived g) p.recv := by
  unfold lastArrived
  rw [List.map_append]
  exact latest_snoc (by simpa using h) _

theorem firstSent_snoc {g : List Pkt} (h : g ≠ []) (p : Pkt) : firstSent (g ++ [p]) = firstSent g := by
  cases g with
  | nil => exact absurd rfl h
  | cons a l => rfl

theorem firstArrived_snoc {g : List Pkt} (h : g ≠ []) (p : Pkt) : firstArrived (g ++ [p]) = firstArrived g := by
  cases g with
  | nil => exact absurd rfl h
  | cons a l => rfl

theorem lastSent_mem {g : List Pkt} (h : g ≠ []) : ∃ p ∈ g, lastSent g = p.send := by
  induction g using List.reverseRecOn with
  | nil => exact absurd rfl h
  | append_singleton g p ih =>
    by_cases hg : g = []
    · subst hg; exact ⟨p, by simp, rfl⟩
    · rw [lastSent_snoc hg]
      obtain ⟨q, hq, e⟩ := ih hg
      rcases le_total (lastSent g) p.send with hle | hle
      · exact ⟨p, by simp, max_eq_right hle⟩
      · exact ⟨q, List.mem_append_left _ hq, by rw [max_eq_left hle, e]⟩

/-- The group as the code keeps it. -/
def view : List Pkt → Option Group
  | [] => none
  | p :: l => some { firstSend := p.send, firstRecv := p.recv, lastSend := lastSent (p :: l), lastRecv := lastArrived (p :: l) }

theorem view_some {g : List Pkt} (h : g ≠ []) : view g =
    some { firstSend := firstSent g, firstRecv := firstArrived g, lastSend := lastSent g, lastRecv := lastArrived g } := by
  cases g with
  | nil => exact absurd rfl h
  | cons a l => rfl

theorem split_snoc (gs : List (List Pkt)) (g : List Pkt) (p : Pkt) (l : List Pkt) (hn : ∀ h ∈ gs ++ [g], h ≠ []) :
    Split (gs ++ [g] ++ [p :: l]) ↔ Split (gs ++ [g]) ∧ ¬ GoesWith g p := by
  induction gs with
  | nil =>
    cases g with
    | nil => exact absurd rfl (hn [] (by simp))
    | cons q g => show (¬ GoesWith (q :: g) p ∧ True) ↔ True ∧ _; simp
  | cons h gs ih =>
    have ih := ih (fun x hx => hn x (List.mem_cons_of_mem _ hx))
    cases hgs : gs ++ [g] with
    | nil => simp at hgs
    | cons k ks =>
      have hk : k ≠ [] := hn k (by rw [List.cons_append, hgs]; simp)
      obtain ⟨q, k', rfl⟩ := List.exists_cons_of_ne_nil hk
      rw [hgs] at ih
      rw [List.cons_append, List.cons_append, hgs]
      show (¬ GoesWith h q ∧ Split ((q :: k') :: ks ++ [p :: l])) ↔ (¬ GoesWith h q ∧ Split ((q :: k') :: ks)) ∧ _
      rw [ih, and_assoc]

theorem differences_snoc (gs : List (List Pkt)) (g h : List Pkt) :
    differences (gs ++ [g] ++ [h]) = differences (gs ++ [g]) ++ [between g h] := by
  induction gs with
  | nil => rfl
  | cons k gs ih =>
    cases hgs : gs ++ [g] with
    | nil => simp at hgs
    | cons j js =>
      rw [hgs] at ih
      rw [List.cons_append, List.cons_append, hgs]
      show between k j :: differences (j :: js ++ [h]) = between k j :: differences (j :: js) ++ [between g h]
      rw [ih]; rfl

theorem run_snoc (s : Acc) (ps : List Pkt) (p : Pkt) : run s (ps ++ [p]) =
    ((accumulate (run s ps).1 p).1, (run s ps).2 ++ (accumulate (run s ps).1 p).2.toList) := by
  induction ps generalizing s with
  | nil => show (_, _) = _; simp [run]
  | cons q ps ih =>
    show ((run _ (ps ++ [p])).1, _ ++ (run _ (ps ++ [p])).2) = _
    rw [ih, ← List.append_assoc]; rfl

/-- After these packets: groups `closed`, and the one being filled. -/
structure Inv (ps : List Pkt) (s : Acc) (ds : List Delta) (closed : List (List Pkt)) (cur : List Pkt) : Prop where
  groups : Groups (closed ++ [cur])
  sub : (closed ++ [cur]).flatten.Sublist ps
  all : InOrder ps → (closed ++ [cur]).flatten = ps
  now : s.current = view cur
  prev : s.previous = closed.getLast?.bind view
  made : ds = differences closed
  up : InOrder ps → ((closed ++ [cur]).map lastSent).Pairwise (· < ·)

theorem belongs_yes {g : List Pkt} {p : Pkt} {G : Group}
    (hG : G = { firstSend := firstSent g, firstRecv := firstArrived g, lastSend := lastSent g, lastRecv := lastArrived g }) :
    belongs G p = if p.send < firstSent g then .skipped else (open Classical in if GoesWith g p then .yes else .newGroup) := by
  subst hG
  unfold belongs GoesWith BURST LENGTH MAX_BURST
  dsimp only
  split
  · rfl
  · split
    · rw [if_pos]; right; left; omega
    · split
      · rename_i h; rw [if_pos]; right; right; omega
      · split
        · rw [if_neg]; omega
        · rw [if_pos]; left; omega

theorem Inv.step {ps : List Pkt} {s : Acc} {ds : List Delta} {closed : List (List Pkt)} {cur : List Pkt} (h : Inv ps s ds closed cur) (p : Pkt) :
    ∃ closed' cur', Inv (ps ++ [p]) (accumulate s p).1 (ds ++ (accumulate s p).2.toList) closed' cur' ∧
      closed' ++ [cur'] = addTo (closed ++ [cur]) p := by
  have hadd : addTo (closed ++ [cur]) p = (open Classical in if p.send < firstSent cur then closed ++ [cur] else
      if GoesWith cur p then closed ++ [cur ++ [p]] else closed ++ [cur] ++ [[p]]) := by
    unfold addTo
    rw [List.getLast?_append, List.getLast?_singleton, Option.some_or, List.dropLast_concat]
  have hne : cur ≠ [] := h.groups.some cur (by simp)
  have hsub : ∀ q ∈ cur, q ∈ ps := fun q hq => h.sub.subset (by rw [List.flatten_append]; simp [hq])
  have hcur := h.now
  rw [view_some hne] at hcur
  have hb := belongs_yes (g := cur) (p := p) rfl
  have hord : InOrder (ps ++ [p]) → InOrder ps ∧ ∀ q ∈ ps, q.send ≤ p.send := by
    intro ho
    obtain ⟨h1, -, h2⟩ := List.pairwise_append.1 ho
    exact ⟨h1, fun q hq => h2 q hq p (by simp)⟩
  by_cases hsk : p.send < firstSent cur
  · rw [if_pos hsk] at hb
    have ha : accumulate s p = ({ s with current := s.current }, none) := by
      unfold accumulate addPacket
      rw [hcur]; dsimp only; rw [hb]; dsimp only; rw [← hcur]
    rw [ha]
    refine ⟨closed, cur, ⟨h.groups, h.sub.trans (List.sublist_append_left ..), fun ho => ?_, h.now, h.prev, ?_, fun ho => h.up (hord ho).1⟩,
      by rw [hadd, if_pos hsk]⟩
    · obtain ⟨q, l, rfl⟩ := List.exists_cons_of_ne_nil hne
      have := (hord ho).2 q (hsub q (by simp))
      exact absurd hsk (not_lt.2 this)
    · rw [h.made]; exact List.append_nil _
  · rw [if_neg hsk] at hb
    by_cases hg : GoesWith cur p
    · rw [if_pos hg] at hb
      have ha : accumulate s p = ({ s with current := view (cur ++ [p]) }, none) := by
        unfold accumulate addPacket
        rw [hcur, view_some (show cur ++ [p] ≠ [] by simp), lastSent_snoc hne, lastArrived_snoc hne, firstSent_snoc hne, firstArrived_snoc hne]
        dsimp only; rw [hb]
      rw [ha]
      refine ⟨closed, cur ++ [p], ⟨⟨?_, ?_, ?_⟩, ?_, ?_, rfl, h.prev, ?_, ?_⟩, by rw [hadd, if_neg hsk, if_pos hg]⟩
      · intro g hm
        rcases List.mem_append.1 hm with hm | hm
        · exact h.groups.some g (List.mem_append_left _ hm)
        · rw [List.mem_singleton] at hm; subst hm; simp
      · have hs := h.groups.split
        obtain ⟨q, l, rfl⟩ := List.exists_cons_of_ne_nil hne
        rcases List.eq_nil_or_concat' closed with rfl | ⟨cl, g, rfl⟩
        · trivial
        · rw [List.cons_append]
          have hn : ∀ x ∈ cl ++ [g], x ≠ [] := fun x hx => h.groups.some x (List.mem_append_left _ hx)
          rw [split_snoc _ _ _ _ hn] at hs ⊢
          exact hs
      · intro g hm a x b e hane
        rcases List.mem_append.1 hm with hm | hm
        · exact h.groups.goes g (List.mem_append_left _ hm) a x b e hane
        · rw [List.mem_singleton] at hm
          subst hm
          rw [firstSent_snoc hne]
          rcases List.eq_nil_or_concat' b with rfl | ⟨b', y, rfl⟩
          · obtain ⟨h1, h2⟩ := List.append_inj' e rfl
            injection h2 with h2
            subst h1 h2
            exact ⟨not_lt.1 hsk, hg⟩
          · rw [← List.cons_append, ← List.append_assoc] at e
            obtain ⟨h1, -⟩ := List.append_inj' e rfl
            exact h.groups.goes cur (by simp) a x b' h1 hane
      · have : (closed ++ [cur ++ [p]]).flatten = (closed ++ [cur]).flatten ++ [p] := by simp
        rw [this]
        exact h.sub.append (List.Sublist.refl _)
      · intro ho
        have : (closed ++ [cur ++ [p]]).flatten = (closed ++ [cur]).flatten ++ [p] := by simp
        rw [this, h.all (hord ho).1]
      · rw [h.made]; exact List.append_nil _
      · intro ho
        have hu := h.up (hord ho).1
        rw [List.map_append, List.pairwise_append] at hu ⊢
        refine ⟨hu.1, List.pairwise_singleton .., fun a ha b hbm => ?_⟩
        have h1 := hu.2.2 a ha (lastSent cur) (by simp)
        rw [List.map_singleton, List.mem_singleton] at hbm
        subst hbm
        rw [lastSent_snoc hne]
        exact lt_of_lt_of_le h1 (le_max_left ..)
    · rw [if_neg hg] at hb
      have ha : accumulate s p = ({ previous := view cur, current := view [p] },
          s.previous.map (fun q => { send := lastSent cur - q.lastSend, arrival := lastArrived cur - q.lastRecv, time := lastArrived cur })) := by
        unfold accumulate addPacket
        rw [hcur, view_some hne]
        dsimp only; rw [hb]; rfl
      rw [ha]
      refine ⟨closed ++ [cur], [p], ⟨⟨?_, ?_, ?_⟩, ?_, ?_, rfl, ?_, ?_, ?_⟩, by rw [hadd, if_neg hsk, if_neg hg]⟩
      · intro g hm
        rcases List.mem_append.1 hm with hm | hm
        · exact h.groups.some g hm
        · rw [List.mem_singleton] at hm; subst hm; simp
      · rw [split_snoc _ _ _ _ h.groups.some]
        exact ⟨h.groups.split, hg⟩
      · intro g hm a x b e hane
        rcases List.mem_append.1 hm with hm | hm
        · exact h.groups.goes g hm a x b e hane
        · rw [List.mem_singleton] at hm
          subst hm
          have := congrArg List.length e
          rw [List.length_append] at this
          have : 0 < a.length := List.length_pos_iff.2 hane
          simp at *
          omega
      · rw [List.flatten_append]
        exact h.sub.append (by simp)
      · intro ho
        rw [List.flatten_append, h.all (hord ho).1]; rfl
      · simp
      · rw [h.made]
        rcases List.eq_nil_or_concat' closed with hc | ⟨cl, g, rfl⟩
        · subst hc
          rw [h.prev]; rfl
        · have hp := h.prev
          have hg' : g ≠ [] := h.groups.some g (by simp)
          rw [differences_snoc, hp]
          simp only [List.getLast?_append, List.getLast?_singleton, Option.some_or, Option.bind_some, view_some hg', Option.map_some,
            Option.toList_some]
          rfl
      · intro ho
        obtain ⟨h1, h2⟩ := hord ho
        rw [List.map_append, List.pairwise_append]
        refine ⟨h.up h1, List.pairwise_singleton .., fun a ham b hbm => ?_⟩
        rw [List.map_singleton, List.mem_singleton] at hbm
        subst hbm
        show a < p.send
        have hlast : lastSent cur < p.send := by
          obtain ⟨q, hq, e⟩ := lastSent_mem hne
          have := h2 q (hsub q hq)
          rcases lt_or_eq_of_le this with hlt | heq
          · rw [e]; exact hlt
          · exact absurd (Or.inr (Or.inl (by rw [e, heq]))) hg
        have hu := h.up h1
        rw [List.map_append, List.pairwise_append] at hu
        rw [List.map_append] at ham
        rcases List.mem_append.1 ham with ham | ham
        · exact lt_trans (hu.2.2 a ham (lastSent cur) (by simp)) hlast
        · rw [List.map_singleton, List.mem_singleton] at ham
          subst ham; exact hlast

theorem inv' (ps : List Pkt) (h : ps ≠ []) : ∃ closed cur, Inv ps (run {} ps).1 (run {} ps).2 closed cur ∧
    closed ++ [cur] = ps.foldl addTo [] := by
  induction ps using List.reverseRecOn with
  | nil => exact absurd rfl h
  | append_singleton ps p ih =>
    rw [run_snoc]
    by_cases hps : ps = []
    · subst hps
      refine ⟨[], [p], ⟨⟨by simp, trivial, ?_⟩, by simp, fun _ => rfl, rfl, rfl, rfl, fun _ => by simp⟩, rfl⟩
      intro g hm a x b e hane
      rw [List.nil_append, List.mem_singleton] at hm
      subst hm
      have h1 := congrArg List.length e
      rw [List.length_append] at h1
      have : 0 < a.length := List.length_pos_iff.2 hane
      simp at *
      omega
    · obtain ⟨closed, cur, hi, he⟩ := ih hps
      rw [List.foldl_append, ← he]
      exact hi.step p

theorem inv (ps : List Pkt) (h : ps ≠ []) : ∃ closed cur, Inv ps (run {} ps).1 (run {} ps).2 closed cur := by
  obtain ⟨closed, cur, hi, -⟩ := inv' ps h
  exact ⟨closed, cur, hi⟩

/-- **C134, exactly**: the deltas are the differences between the finished groups of all packets, added one by one. -/
theorem C134_exact (ps : List Pkt) : (run {} ps).2 = differences (ps.foldl addTo []).dropLast := by
  by_cases h : ps = []
  · subst h; rfl
  · obtain ⟨closed, cur, hi, he⟩ := inv' ps h
    rw [← he, List.dropLast_concat, hi.made]

/-- **C134**: the packets, but those left out, make groups by the rule, and the deltas are the differences between each
two groups in a row that are over. -/
theorem C134_groups (ps : List Pkt) (h : ps ≠ []) : ∃ gs : List (List Pkt), Groups gs ∧ gs.flatten.Sublist ps ∧
    (run {} ps).2 = differences gs.dropLast := by
  obtain ⟨closed, cur, hi⟩ := inv ps h
  exact ⟨closed ++ [cur], hi.groups, hi.sub, by rw [hi.made, List.dropLast_concat]⟩

/-- **C134, in order**: when the packets come in the order they were sent, none is left out, and every delta between
groups was sent over a time that is more than 0. -/
theorem C134_in_order (ps : List Pkt) (h : ps ≠ []) (ho : InOrder ps) : (∃ gs : List (List Pkt), Groups gs ∧ gs.flatten = ps ∧
    (run {} ps).2 = differences gs.dropLast) ∧ ∀ d ∈ (run {} ps).2, 0 < d.send := by
  obtain ⟨closed, cur, hi⟩ := inv ps h
  refine ⟨⟨closed ++ [cur], hi.groups, hi.all ho, by rw [hi.made, List.dropLast_concat]⟩, ?_⟩
  rw [hi.made]
  have hu := hi.up ho
  rw [List.map_append, List.pairwise_append] at hu
  have key : ∀ gs : List (List Pkt), (gs.map lastSent).Pairwise (· < ·) → ∀ d ∈ differences gs, 0 < d.send := by
    intro gs
    induction gs with
    | nil => intro _ d hd; cases hd
    | cons g gs ih =>
      intro hp d hd
      rw [List.map_cons, List.pairwise_cons] at hp
      cases gs with
      | nil => cases hd
      | cons g' gs =>
        have hd : d ∈ between g g' :: differences (g' :: gs) := hd
        rcases List.mem_cons.1 hd with rfl | hd
        · have := hp.1 (lastSent g') (by simp)
          show 0 < lastSent g' - lastSent g
          omega
        · exact ih hp.2 d hd
  exact key closed hu.1

theorem split_spaced (gs : List (List Pkt)) (hn : ∀ g ∈ gs, g ≠ []) (hs : Split gs) : (gs.map firstSent).Pairwise (fun a b => a + 5000000 < b) := by
  induction gs with
  | nil => exact List.Pairwise.nil
  | cons g gs ih =>
    cases gs with
    | nil => exact List.pairwise_singleton ..
    | cons g' gs =>
      have hg' : g' ≠ [] := hn g' (by simp)
      obtain ⟨p, l, rfl⟩ := List.exists_cons_of_ne_nil hg'
      have ih := ih (fun x hx => hn x (List.mem_cons_of_mem _ hx)) hs.2
      rw [List.map_cons, List.pairwise_cons]
      refine ⟨fun b hb => ?_, ih⟩
      have h1 : firstSent g + 5000000 < p.send := by
        have := hs.1
        unfold GoesWith at this
        omega
      rw [List.map_cons, List.mem_cons] at hb
      rcases hb with rfl | hb
      · exact h1
      · rw [List.map_cons, List.pairwise_cons] at ih
        have h2 := ih.1 b hb
        have : firstSent (p :: l) = p.send := rfl
        omega

theorem spaced_length (l : List Int) (a b : Int) (ha : ∀ x ∈ l, a ≤ x) (hb : ∀ x ∈ l, x ≤ b) (hp : l.Pairwise (fun a b => a + 5000000 < b)) (hab : a ≤ b) :
    ((l.length : Int) - 1) * 5000000 ≤ b - a := by
  induction l generalizing a with
  | nil => simp only [List.length_nil]; omega
  | cons x l ih =>
    rw [List.pairwise_cons] at hp
    have hx := ha x (List.mem_cons_self ..)
    have hx' := hb x (List.mem_cons_self ..)
    cases l with
    | nil => simp only [List.length_cons, List.length_nil]; omega
    | cons y l =>
      have hy := hp.1 y (List.mem_cons_self ..)
      have hy' := hb y (by simp)
      have := ih (x + 5000000) (fun z hz => by have := hp.1 z hz; omega) (fun z hz => hb z (List.mem_cons_of_mem _ hz)) hp.2 (by omega)
      rw [List.length_cons]
      push_cast
      omega

/-- **C134, how many**: packets sent within some time make at most one delta per 5 ms of it. -/
theorem C134_count (ps : List Pkt) (a b : Int) (hab : a ≤ b) (h : ∀ p ∈ ps, a ≤ p.send ∧ p.send ≤ b) :
    ((run {} ps).2.length : Int) * 5000000 ≤ b - a := by
  by_cases hps : ps = []
  · subst hps; show (0 : Int) * _ ≤ _; omega
  · obtain ⟨closed, cur, hi⟩ := inv ps hps
    have hsp := split_spaced _ hi.groups.some hi.groups.split
    have hm : ∀ x ∈ (closed ++ [cur]).map firstSent, a ≤ x ∧ x ≤ b := by
      intro x hx
      obtain ⟨g, hg, rfl⟩ := List.mem_map.1 hx
      obtain ⟨p, l, rfl⟩ := List.exists_cons_of_ne_nil (hi.groups.some g hg)
      exact h p (hi.sub.subset (List.mem_flatten.2 ⟨_, hg, List.mem_cons_self ..⟩))
    have := spaced_length _ a b (fun x hx => (hm x hx).1) (fun x hx => (hm x hx).2) hsp hab
    have hl : (run {} ps).2.length ≤ closed.length := by
      rw [hi.made]
      unfold differences
      rw [List.length_zipWith]
      exact Nat.min_le_left ..
    rw [List.length_map, List.length_append, List.length_singleton] at this
    push_cast at this
    have hl' : ((run {} ps).2.length : Int) ≤ closed.length := by exact_mod_cast hl
    omega

theorem differences_sum (gs : List (List Pkt)) (g : List Pkt) : ((differences (g :: gs)).map Delta.send).sum = lastSent ((g :: gs).getLast (by simp)) - lastSent g ∧
    ((differences (g :: gs)).map Delta.arrival).sum = lastArrived ((g :: gs).getLast (by simp)) - lastArrived g := by
  induction gs generalizing g with
  | nil => constructor <;> (show (0 : Int) = _; simp)
  | cons h gs ih =>
    have e : differences (g :: h :: gs) = between g h :: differences (h :: gs) := rfl
    obtain ⟨h1, h2⟩ := ih h
    rw [e, List.map_cons, List.map_cons, List.sum_cons, List.sum_cons, h1, h2, List.getLast_cons (List.cons_ne_nil _ _)]
    constructor
    · show lastSent h - lastSent g + _ = _; omega
    · show lastArrived h - lastArrived g + _ = _; omega

/-- **C134, nothing is lost between deltas**: together they are the time from the first group that is over to the last. -/
theorem C134_sum (ps : List Pkt) (h : ps ≠ []) : ∃ gs : List (List Pkt), Groups gs ∧ gs.flatten.Sublist ps ∧
    ∀ a b, gs.dropLast.head? = some a → gs.dropLast.getLast? = some b →
      ((run {} ps).2.map Delta.send).sum = lastSent b - lastSent a ∧
      ((run {} ps).2.map Delta.arrival).sum = lastArrived b - lastArrived a := by
  obtain ⟨gs, hg, hs, hd⟩ := C134_groups ps h
  refine ⟨gs, hg, hs, fun a b ha hb => ?_⟩
  rw [hd]
  cases hgs : gs.dropLast with
  | nil => rw [hgs] at ha; cases ha
  | cons g l =>
    rw [hgs] at ha hb
    cases ha
    rw [List.getLast?_eq_some_getLast (List.cons_ne_nil _ _)] at hb
    injection hb with hb
    have := differences_sum l a
    rw [hb] at this
    exact this

/-- Out of the order they were sent, a delta can be sent over a time that is less than 0. -/
theorem C134_violation_back : ∃ ps : List Pkt, ∃ d ∈ (run {} ps).2, d.send < 0 :=
  ⟨[⟨0, 0⟩, ⟨50000000, 1000000⟩, ⟨6000000, 2000000⟩, ⟨20000000, 90000000⟩], { send := -44000000, arrival := 1000000, time := 2000000 },
    by decide +kernel, by decide⟩

/-- Five packets in order that make three groups: a burst, two sent close together, and the last. -/
theorem C134_example : InOrder [⟨0, 0⟩, ⟨7000000, 1000000⟩, ⟨20000000, 50000000⟩, ⟨23000000, 60000000⟩, ⟨40000000, 80000000⟩, ⟨60000000, 110000000⟩] ∧
    (run {} [⟨0, 0⟩, ⟨7000000, 1000000⟩, ⟨20000000, 50000000⟩, ⟨23000000, 60000000⟩, ⟨40000000, 80000000⟩, ⟨60000000, 110000000⟩]).2 =
      [{ send := 16000000, arrival := 59000000, time := 60000000 }, { send := 17000000, arrival := 20000000, time := 80000000 }] := by
  refine ⟨?_, by decide +kernel⟩
  unfold InOrder
  decide +kernel

end Str0m.Arrival
