import Verif.Proofs.TwccRecv
import Verif.Spec.TwccRecv
/-
  Decoding a report: the iterator reads back the entries; and what the entries built from a
  queue of arrivals say about sequence numbers and times.
-/
namespace Str0m.Twcc
open Res

/-! ### The iterator -/

/-- The time after a delta. -/
def tick (tb : Nat) : Delta → Nat
  | .small v => tb + 250 * v.val * 1000
  | .large v =>
    if v < 0 then (if 250 * v.natAbs * 1000 ≤ tb then tb - 250 * v.natAbs * 1000 else tb)
    else tb + 250 * v.natAbs * 1000

/-- What entries say, starting at a sequence number and time. -/
def decodeE : (seq tb : Nat) → List (Status × Option Delta) → List (Nat × Status × Option Nat)
  | _, _, [] => []
  | seq, tb, (s, none) :: es => (seq, s, none) :: decodeE (seq + 1) tb es
  | seq, tb, (s, some d) :: es => (seq, s, some (tick tb d)) :: decodeE (seq + 1) (tick tb d) es

def EntryOK (e : Status × Option Delta) : Prop :=
  e = (.notReceived, none) ∨ ∃ d, e.2 = some d ∧ Fits e.1 d

theorem expand_ok {is : List Interim} (ho : ∀ i ∈ is, i.OK) : ∀ e ∈ expand is, EntryOK e := by
  intro e he
  obtain ⟨i, hi, he⟩ := List.mem_flatMap.1 he
  cases i with
  | missing n => left; exact (List.mem_replicate.1 he).2
  | received s t =>
    obtain ⟨d, hd, hf, _⟩ := delta_ok (ho _ hi)
    right
    simp only [Interim.expand, List.mem_singleton] at he
    subst he
    exact ⟨d, hd, hf⟩

theorem takeDelta_ok {e : Status × Option Delta} (h : EntryOK e) (tb : Nat) (ds : List Delta) :
    takeDelta e.1 tb ((e.2.toList) ++ ds) = .ok (some (e.2.map (tick tb), (e.2.map (tick tb)).getD tb, ds)) := by
  rcases h with rfl | ⟨d, hd, hf⟩
  · rfl
  · obtain ⟨s, o⟩ := e
    simp only at hd hf
    subst hd
    cases s <;> cases d <;> simp_all [Fits, takeDelta, tick]

theorem chunkStatus_ok {c : Chunk} (hg : c.Good) {i : Nat} (hi : i < c.statuses.length) :
    chunkStatus c i = .ok (c.statuses[i], c.statuses.length) := by
  cases c with
  | run s n =>
    simp only [Chunk.statuses, List.getElem_replicate, List.length_replicate, chunkStatus]
    obtain ⟨_, _, hs⟩ := hg
    cases s <;> first | rfl | exact absurd rfl hs
  | single v f =>
    obtain ⟨_, rfl⟩ := hg
    simp only [Chunk.statuses, List.length_map, List.length_range] at hi ⊢
    rw [chunkStatus, if_pos (by omega)]
    simp
  | double v f =>
    obtain ⟨_, rfl⟩ := hg
    simp only [Chunk.statuses, List.length_map, List.length_range] at hi ⊢
    rw [chunkStatus, if_pos (by omega), doubleStatus_eq hi]
    simp

theorem Chunk.Good.pos {c : Chunk} (h : c.Good) : 0 < c.statuses.length := by
  cases c with
  | run s n => simp [Chunk.statuses]; exact h.1
  | single v f => simp [Chunk.statuses]
  | double v f => simp [Chunk.statuses]

theorem collect_ok : ∀ (E : List (Status × Option Delta)) (it : Iter) (P : List Status),
    (∀ e ∈ E, EntryOK e) → it.lastSeq = it.baseSeq + it.index + E.length →
    (∀ c ∈ it.chunks, c.Good) → (∀ c ∈ it.chunks.head?, it.index < c.statuses.length) →
    (it.chunks.flatMap Chunk.statuses).drop it.index = E.map Prod.fst ++ P →
    it.delta = E.filterMap Prod.snd →
    Iter.collect (E.length + 1) it = .ok (decodeE (it.baseSeq + it.index) it.timeBase E)
  | [], it, P, _, hl, _, _, _, _ => by
    simp only [List.length_nil, Iter.collect]
    rw [Iter.next]
    simp only
    rw [if_pos (by simpa using hl.symm)]
    rfl
  | e :: E, it, P, hE, hl, hg, hi, hs, hd => by
    obtain ⟨base, last, tb, index, chunks, delta⟩ := it
    simp only at hl hg hi hs hd
    have hlen : (E.length + 1) = (e :: E).length := rfl
    cases chunks with
    | nil => simp at hs
    | cons c cs =>
      have hgc := hg c (by simp)
      have hic : index < c.statuses.length := hi c (by simp)
      rw [List.flatMap_cons, List.drop_append_of_le_length (by omega), List.drop_eq_getElem_cons hic] at hs
      simp only [List.map_cons, List.cons_append] at hs
      injection hs with hs1 hs2
      have hde : delta = e.2.toList ++ E.filterMap Prod.snd := by
        rw [hd, List.filterMap_cons]
        cases h2 : e.2 <;> simp
      have hnext : Iter.next ⟨base, last, tb, index, c :: cs, delta⟩ =
          .ok (some ((base + index, e.1, e.2.map (tick tb)),
            if index + 1 = c.statuses.length then
              ⟨base + index + 1, last, (e.2.map (tick tb)).getD tb, 0, cs, E.filterMap Prod.snd⟩
            else ⟨base, last, (e.2.map (tick tb)).getD tb, index + 1, c :: cs, E.filterMap Prod.snd⟩)) := by
        rw [Iter.next]
        simp only
        rw [if_neg (by simp only [List.length_cons] at hl; omega)]
        simp only [chunkStatus_ok hgc hic, bind_def, bind_ok, hs1, hde, takeDelta_ok (hE e (by simp))]
        rfl
      rw [Iter.collect, hnext]
      have hdec : decodeE (base + index) tb (e :: E) = (base + index, e.1, e.2.map (tick tb)) ::
          decodeE (base + index + 1) ((e.2.map (tick tb)).getD tb) E := by
        obtain ⟨s, o⟩ := e
        cases o <;> rfl
      simp only at hdec ⊢
      rw [hdec]
      simp only [bind_def, bind_ok]
      have hE' : ∀ x ∈ E, EntryOK x := fun x hx => hE x (by simp [hx])
      split
      · rename_i hend
        have := collect_ok E ⟨base + index + 1, last, (e.2.map (tick tb)).getD tb, 0, cs, E.filterMap Prod.snd⟩ P hE'
          (by simp only [List.length_cons] at hl ⊢; omega) (fun d hd => hg d (by simp [hd]))
          (by
            intro d hd
            simp only at hd ⊢
            exact (hg d (by
              have := List.mem_of_mem_head? hd
              simp [this])).pos)
          (by
            simp only [List.drop_zero]
            rw [← hs2, List.drop_of_length_le (by omega)]; rfl) rfl
        rw [List.length_cons, this]
        rfl
      · rename_i hend
        have := collect_ok E ⟨base, last, (e.2.map (tick tb)).getD tb, index + 1, c :: cs, E.filterMap Prod.snd⟩ P hE'
          (by simp only [List.length_cons] at hl ⊢; omega) hg
          (by
            intro d hd
            simp only [List.head?_cons, Option.mem_def, Option.some.injEq] at hd ⊢
            subst hd; omega)
          (by
            simp only
            rw [← hs2, List.flatMap_cons, List.drop_append_of_le_length (by omega)]) rfl
        rw [List.length_cons, this]
        rfl

/-! ### What the interims of a queue say -/

theorem expand_append (a b : List Interim) : expand (a ++ b) = expand a ++ expand b := by
  simp [expand]

theorem expand_replicate : ∀ q, expand (List.replicate q (.missing 8192)) =
    List.replicate (q * 8192) (.notReceived, none)
  | 0 => by simp [expand]
  | q + 1 => by
    rw [List.replicate_succ, expand_cons, expand_replicate q, Interim.expand, List.replicate_append_replicate]
    congr 1; omega

theorem expand_splitMissing (n : Nat) : expand (splitMissing n) = List.replicate n (.notReceived, none) := by
  rw [splitMissing, expand_append, expand_replicate]
  split
  · rw [expand_cons, expand_nil, Interim.expand, List.append_nil, List.replicate_append_replicate]
    congr 1; omega
  · rw [expand_nil, List.append_nil]
    congr 1; omega

theorem splitMissing_ok (n : Nat) : ∀ i ∈ splitMissing n, i.OK := by
  intro i hi
  rw [splitMissing, List.mem_append] at hi
  rcases hi with hi | hi
  · rw [(List.mem_replicate.1 hi).2]; exact ⟨by omega, le_refl _⟩
  · split at hi
    · simp only [List.mem_singleton] at hi; subst hi; exact ⟨by assumption, by omega⟩
    · simp at hi

theorem classify_ok {d : Int} {s : Status} {t : Int} (h : classify d = some (s, t)) :
    (Interim.received s t).OK ∧ t = d.tdiv 250 := by
  unfold classify at h
  split at h
  · cases h
  split at h
  · injection h with h; injection h with ha hb; subst ha; subst hb
    refine ⟨Or.inr ⟨rfl, ?_, ?_⟩, rfl⟩
    · rcases lt_or_ge d 0 with h0 | h0
      · have := Int.neg_tdiv d 250; have h2 : (-d).tdiv 250 = (-d)/250 := Int.tdiv_eq_ediv_of_nonneg (by omega); omega
      · have h2 : d.tdiv 250 = d/250 := Int.tdiv_eq_ediv_of_nonneg h0; omega
    · rcases lt_or_ge d 0 with h0 | h0
      · have := Int.neg_tdiv d 250; have h2 : (-d).tdiv 250 = (-d)/250 := Int.tdiv_eq_ediv_of_nonneg (by omega); omega
      · have h2 : d.tdiv 250 = d/250 := Int.tdiv_eq_ediv_of_nonneg h0; omega
  · injection h with h; injection h with ha hb; subst ha; subst hb
    have h2 : d.tdiv 250 = d/250 := Int.tdiv_eq_ediv_of_nonneg (by omega)
    exact ⟨Or.inl ⟨rfl, by omega, by omega⟩, rfl⟩

theorem buildInterims_ok : ∀ (rs : List Receipt) (ps pt : Nat), ∀ i ∈ buildInterims ps pt rs, i.OK
  | [], _, _ => by simp [buildInterims]
  | r :: rs, ps, pt => by
    intro i hi
    rw [buildInterims, List.mem_append] at hi
    rcases hi with hi | hi
    · split at hi
      · exact splitMissing_ok _ i hi
      · simp at hi
    · split at hi
      · simp at hi
      · rename_i s t hc
        rcases List.mem_cons.1 hi with rfl | hi
        · exact (classify_ok hc).1
        · exact buildInterims_ok rs _ _ i hi

/-- One step of the clock is off by less than 250 us. -/
theorem tick_error {time pt tb : Nat} {s : Status} {t : Int} {d : Delta}
    (h : classify (diffTime time pt) = some (s, t)) (hd : (Interim.received s t).delta = some d)
    (hroom : pt ≤ tb + time) :
    -250000 < ((tick tb d : Nat) : Int) - tb - ((time : Int) - pt) ∧
    ((tick tb d : Nat) : Int) - tb - ((time : Int) - pt) < 250000 := by
  obtain ⟨hok, ht⟩ := classify_ok h
  have hneg : time < pt → t = -((((pt - time) / 1000 / 250 : Nat)) : Int) := by
    intro hlt
    rw [ht, diffTime, if_pos hlt, Int.neg_tdiv, Int.tdiv_eq_ediv_of_nonneg (by omega)]
    norm_cast
  have hpos : ¬ time < pt → t = ((((time - pt) / 1000 / 250 : Nat)) : Int) := by
    intro hlt
    rw [ht, diffTime, if_neg hlt, Int.tdiv_eq_ediv_of_nonneg (by omega)]
    norm_cast
  rcases hok with ⟨rfl, h0, h1⟩ | ⟨rfl, h0, h1⟩
  · simp only [Interim.delta, Option.some.injEq] at hd
    subst hd
    have hv : (u8 (t % 256).toNat).val = t.toNat := by
      rw [Int.emod_eq_of_lt h0 (by omega)]
      show t.toNat % 256 = t.toNat
      omega
    simp only [tick, hv]
    by_cases hlt : time < pt
    · have := hneg hlt; omega
    · have := hpos hlt; omega
  · simp only [Interim.delta, Option.some.injEq] at hd
    subst hd
    simp only [tick]
    by_cases hlt : time < pt
    · have := hneg hlt
      split
      · rw [if_pos (by omega)]; omega
      · omega
    · have := hpos hlt
      rw [if_neg (by omega)]
      omega

theorem decodeE_length : ∀ (E : List (Status × Option Delta)) (seq tb : Nat),
    (decodeE seq tb E).length = E.length
  | [], _, _ => rfl
  | (_, none) :: E, seq, tb => by simp [decodeE, decodeE_length E]
  | (_, some d) :: E, seq, tb => by simp [decodeE, decodeE_length E]

theorem decodeE_missing : ∀ (g : Nat) (E : List (Status × Option Delta)) (seq tb : Nat),
    decodeE seq tb (List.replicate g (.notReceived, none) ++ E) =
    (List.range g).map (fun i => (seq + i, .notReceived, none)) ++ decodeE (seq + g) tb E
  | 0, E, seq, tb => by simp
  | g + 1, E, seq, tb => by
    rw [List.replicate_succ, List.cons_append, decodeE, decodeE_missing g, List.range_succ_eq_map]
    simp only [List.map_cons, List.map_map, List.cons_append, Nat.add_zero]
    congr 2
    · apply List.map_congr_left
      intro i _
      simp only [Function.comp]
      congr 1; omega
    · congr 1; omega

/-- What an item must say about the arrivals `rs`: the `j`-th item of a report starting at
`seq`. `off` is the difference of the two clocks, `m` how many were received before. -/
structure Says (rs : List Receipt) (seq : Nat) (off : Int) (m : Nat)
    (items : List (Nat × Status × Option Nat)) (j : Nat) (x : Nat × Status × Option Nat) : Prop where
  seq : x.1 = seq + j
  none : x.2.2 = none → x.2.1 = .notReceived ∧ ∀ r ∈ rs, r.seq ≠ x.1
  some : ∀ t, x.2.2 = some t → (x.2.1 = .small ∨ x.2.1 = .large) ∧ ∃ r ∈ rs, r.seq = x.1 ∧
    |(t : Int) - r.time - off| < 250000 * (m + receivedUpTo items j : Nat)

theorem interims_say : ∀ (rs : List Receipt) (ps pt st tb k m : Nat) (off : Int),
    (∀ r ∈ rs, st ≤ r.seq) → rs.Pairwise (fun a b => a.seq < b.seq) →
    (st = ps + 1 ∨ (st = ps ∧ ∀ r ∈ rs.head?, r.seq = ps)) →
    (∀ r ∈ rs, pt + 250000 * rs.length ≤ tb + r.time) →
    |(tb : Int) - pt - off| ≤ 250000 * m →
    ∀ (j : Nat) (x : Nat × Status × Option Nat), 
      (decodeE st tb ((expand (buildInterims ps pt rs)).take k))[j]? = some x →
      Says rs st off m (decodeE st tb ((expand (buildInterims ps pt rs)).take k)) j x
  | [], ps, pt, st, tb, k, m, off, _, _, _, _, _, j, x, hx => by
    simp [buildInterims, expand, decodeE] at hx
  | r :: rs, ps, pt, st, tb, k, m, off, hst, hsort, hps, hroom, herr, j, x, hx => by
    have hr := hst r (by simp)
    have hsort' := (List.pairwise_cons.1 hsort)
    -- the gap
    have hgap : expand (if r.seq - ps > 1 then splitMissing (r.seq - ps - 1) else []) =
        List.replicate (r.seq - st) (.notReceived, Option.none) := by
      split
      · rw [expand_splitMissing]
        congr 1
        rcases hps with h | ⟨h, h2⟩
        · omega
        · have := h2 r (by simp); omega
      · rw [expand_nil]
        have : r.seq - st = 0 := by
          rcases hps with h | ⟨h, h2⟩
          · omega
          · have := h2 r (by simp); omega
        rw [this]; rfl
    generalize hg : r.seq - st = g at *
    have hex : expand (buildInterims ps pt (r :: rs)) = List.replicate g (.notReceived, Option.none) ++
        expand (match classify (diffTime r.time pt) with
         | Option.none => []
         | Option.some (s, t) => .received s t :: buildInterims r.seq r.time rs) := by
      rw [buildInterims, expand_append, hgap]
      rfl
    rw [hex] at hx ⊢
    rw [List.take_append, List.take_replicate, List.length_replicate, decodeE_missing] at hx ⊢
    have hcnt : ∀ (n : Nat) (l : List (Nat × Status × Option Nat)) (i : Nat),
        receivedUpTo ((List.range n).map (fun i => (st + i, Status.notReceived, Option.none)) ++ l) (n + i) =
        receivedUpTo l i := by
      intro n l i
      unfold receivedUpTo
      rw [List.take_append, List.countP_append]
      have : ((List.range n).map (fun i => (st + i, Status.notReceived, (Option.none : Option Nat)))).length = n := by simp
      rw [this, show n + i + 1 - n = i + 1 by omega]
      have h0 : List.countP (fun x : Nat × Status × Option Nat => x.2.2.isSome) (List.take (n + i + 1)
          ((List.range n).map (fun i => (st + i, Status.notReceived, (Option.none : Option Nat))))) = 0 := by
        rw [List.countP_eq_zero]
        intro a ha
        have := List.mem_of_mem_take ha
        obtain ⟨i, _, rfl⟩ := List.mem_map.1 this
        simp
      omega
    by_cases hj : j < min k g
    · rw [List.getElem?_append_left (by simpa using hj)] at hx
      simp only [List.getElem?_map, List.getElem?_range hj, Option.map_some, Option.some.injEq] at hx
      subst hx
      refine ⟨rfl, fun _ => ⟨rfl, ?_⟩, fun t ht => by simp at ht⟩
      intro a ha
      simp only
      have : r.seq ≤ a.seq := by
        rcases List.mem_cons.1 ha with rfl | ha
        · omega
        · exact le_of_lt (hsort'.1 a ha)
      omega
    · rw [List.getElem?_append_right (by simp only [List.length_map, List.length_range]; omega)] at hx
      simp only [List.length_map, List.length_range] at hx
      cases hc : classify (diffTime r.time pt) with
      | none => simp [hc, expand, decodeE] at hx
      | some p =>
        obtain ⟨s, t⟩ := p
        simp only [hc] at hx ⊢
        obtain ⟨hok, _⟩ := classify_ok hc
        obtain ⟨d, hd, hfit, _⟩ := delta_ok hok
        rcases Nat.eq_zero_or_pos (k - g) with h0 | h0
        · rw [h0] at hx; simp [decodeE] at hx
        obtain ⟨k', hk'⟩ : ∃ k', k - g = k' + 1 := ⟨k - g - 1, by omega⟩
        have hmin : min k g = g := by omega
        have hexp : expand (.received s t :: buildInterims r.seq r.time rs) =
            (s, some d) :: expand (buildInterims r.seq r.time rs) := by
          rw [expand_cons, Interim.expand, hd]; rfl
        rw [hmin, hexp, hk', List.take_succ_cons, decodeE] at hx ⊢
        have hsg : st + g = r.seq := by omega
        rw [hsg] at hx ⊢
        have hte := tick_error (tb := tb) hc hd (by have := hroom r (by simp); omega)
        have hroom0 := hroom r (by simp)
        simp only [List.length_cons] at hroom
        have herr2 : |((tick tb d : Nat) : Int) - r.time - off| < 250000 * ((m + 1 : Nat) : Int) := by
          have h1 := abs_le.1 herr
          rw [abs_lt]
          push_cast
          constructor
          · omega
          · omega
        obtain ⟨j', hj'⟩ : ∃ j', j = g + j' := ⟨j - g, by omega⟩
        subst hj'
        rw [show g + j' - g = j' by omega] at hx
        cases j' with
        | zero =>
          simp only [List.getElem?_cons_zero, Option.some.injEq] at hx
          subst hx
          refine ⟨by simp only; omega, fun h => by simp at h, fun t' ht' => ?_⟩
          simp only [Option.some.injEq] at ht'
          subst ht'
          refine ⟨by rcases hok with h | h <;> simp [h.1], r, by simp, rfl, ?_⟩
          rw [hcnt]
          exact lt_of_lt_of_le herr2 (by simp [receivedUpTo])
        | succ j' =>
          simp only [List.getElem?_cons_succ] at hx
          have ih := interims_say rs r.seq r.time (r.seq + 1) (tick tb d) k' (m + 1) off
            (fun a ha => hsort'.1 a ha) hsort'.2 (Or.inl rfl)
            (by
              intro a ha
              have := hroom a (by simp [ha])
              omega)
            (le_of_lt herr2) j' x hx
          refine ⟨by have := ih.seq; omega, fun h => ⟨(ih.none h).1, ?_⟩, fun t' ht' => ?_⟩
          · intro a ha
            rcases List.mem_cons.1 ha with rfl | ha
            · have := ih.seq; omega
            · exact (ih.none h).2 a ha
          · obtain ⟨h1, a, ha, h2, h3⟩ := ih.some t' ht'
            refine ⟨h1, a, by simp [ha], h2, lt_of_lt_of_le h3 ?_⟩
            rw [hcnt]
            have : receivedUpTo ((r.seq, s, some (tick tb d)) ::
                decodeE (r.seq + 1) (tick tb d) (List.take k' (expand (buildInterims r.seq r.time rs)))) (j' + 1) =
                receivedUpTo (decodeE (r.seq + 1) (tick tb d) (List.take k' (expand (buildInterims r.seq r.time rs)))) j' + 1 := by
              simp [receivedUpTo]
            rw [this]
            push_cast
            omega

end Str0m.Twcc
