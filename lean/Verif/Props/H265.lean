import Verif.Proofs.H265Run
import Verif.Proofs.PacketSafe
import Verif.Props.H264
import Mathlib.Tactic.FinCases
/-
  C23, C24, C64, C72 for H.265 (RFC 7798).
-/
namespace Str0m.H265
open Str0m.Packet
open Packet.Spec (FitsMtu)
open Spec
open H264.Spec (annexB delivered)

/-- C64, H.265: whatever mix of single unit packets, aggregates and fragments a sender uses (RFC 7798 4.4),
with or without decoding order numbers, and whatever came before, the receiver appends exactly the
units, in order, and says key frame iff one of them is a BLA, IDR or CRA slice (or it knew before). -/
theorem C64_h265 (items : List Item) (hl : ∀ i ∈ items, i.Legal) (d : D) (out : List Byte) (e : Option Bool) :
    ∃ d' k, runDepack depacketize (items.flatMap (Item.payloads d.donl)) d out e
      = .ok (d', out ++ delivered (items.flatMap Item.units), k) ∧ d'.donl = d.donl ∧
      (k = some true ↔ e = some true ∨ ∃ n ∈ items.flatMap Item.units, Irap n) := by
  obtain ⟨d', h1, h2⟩ := items_read items d hl out e
  exact ⟨d', _, h2, h1, keyOf_iff _ _⟩

/-! ### The packet level functions -/

theorem detectAp_read : ∀ (us : List (List Byte)) (pre : List Byte) (fuel : Nat), (∀ n ∈ us, Travels n ∧ n.length < 2 ^ 16) → us.length < fuel →
    detectAp (pre ++ us.flatMap (fun n => be16 n.length ++ n)) fuel pre.length = .ok (us.any (fun n => irap (unitType n))) := by
  intro us
  induction us with
  | nil =>
    intro pre fuel _ hf
    obtain ⟨f, rfl⟩ : ∃ f, fuel = f + 1 := ⟨fuel - 1, by simp at hf; omega⟩
    unfold detectAp
    rw [if_neg (by simp)]
    rfl
  | cons n ns ih =>
    intro pre fuel hu hf
    obtain ⟨f, rfl⟩ : ∃ f, fuel = f + 1 := ⟨fuel - 1, by simp at hf; omega⟩
    obtain ⟨ht, hlen⟩ := hu n (by simp)
    obtain ⟨b0, b1, t, hn, hb, hty⟩ := travels_head ht
    have hl2 : 2 ≤ n.length := ht.1
    generalize hN : ns.flatMap (fun n => be16 n.length ++ n) = N at ih
    have e0 : (n :: ns).flatMap (fun n => be16 n.length ++ n) = be16 n.length ++ n ++ N := by
      rw [List.flatMap_cons, hN]
    rw [e0]
    generalize hA : be16 n.length ++ n ++ N = A
    have e1 : pre ++ A = (pre ++ be16 n.length) ++ n ++ N := by
      rw [← hA]; simp only [List.append_assoc]
    have e2 : pre ++ A = pre ++ u8 (n.length / 2 ^ 8) :: u8 n.length :: (n ++ N) := by
      rw [e1]; unfold be16; simp
    have hl : (pre ++ A).length = pre.length + 2 + n.length + N.length := by
      rw [e2]; simp; omega
    have g0 : (Res.idx (pre ++ A) pre.length : Res PErr Byte) = .ok (u8 (n.length / 2 ^ 8)) := by
      rw [Res.idx_of_lt (by rw [hl]; omega)]
      simp only [e2]
      rw [List.getElem_append_right (by omega)]; simp
    have g1 : (Res.idx (pre ++ A) (pre.length + 1) : Res PErr Byte) = .ok (u8 n.length) := by
      rw [Res.idx_of_lt (by rw [hl]; omega)]
      simp only [e2]
      rw [List.getElem_append_right (by omega)]; simp
    have g3 : (Res.idx (pre ++ A) (pre.length + 2) : Res PErr Byte) = .ok b0 := by
      rw [Res.idx_of_lt (by rw [hl]; omega)]
      simp only [e2]
      rw [List.getElem_append_right (by omega)]; simp [hn]
    unfold detectAp
    rw [if_pos (by omega), g0, Res.bind_def, Res.bind_ok, g1, Res.bind_def, Res.bind_ok, rd16_be16 hlen, if_neg (by omega)]
    rw [g3, Res.bind_def, Res.bind_ok, Res.idx_of_lt (by omega), Res.bind_def, Res.bind_ok, List.any_cons, hty]
    by_cases hk : irap (ntype b0) = true
    · rw [if_pos hk]
      have : irap (b0.val / 2 % 64) = true := hk
      rw [this]; rfl
    · rw [if_neg hk]
      have := ih (pre ++ be16 n.length ++ n) f (fun m hm => hu m (List.mem_cons_of_mem _ hm)) (by simp at hf; omega)
      rw [show (pre ++ be16 n.length ++ n).length = pre.length + 2 + n.length by simp; omega, ← e1] at this
      rw [this]
      have : irap (b0.val / 2 % 64) = false := by simpa [ntype] using hk
      rw [this]; rfl

theorem frag_h (b0 : Byte) (hb : b0.val < 128) (s l : Bool) :
    (u8 ((if s then 128 else 0) + (if l then 64 else 0) + b0.val / 2)).val = (if s then 128 else 0) + (if l then 64 else 0) + b0.val / 2 := by
  rw [u8_val]; cases s <;> cases l <;> simp <;> omega

theorem detect_frag (b0 b1 : Byte) (hb : b0.val < 128) (s l : Bool) (x : List Byte) :
    detect (frag b0 b1 s l x) = .ok (s && irap (b0.val / 2)) := by
  obtain ⟨hF, hT⟩ := frag_hdr b0
  unfold frag
  have hh := frag_h b0 hb s l
  generalize u8 ((if s then 128 else 0) + (if l then 64 else 0) + b0.val / 2) = h at hh
  generalize u8 (49 * 2 + b0.val % 2) = i0 at hT
  unfold detect
  dsimp only
  rw [hT, if_neg (by omega), if_neg (by omega), if_pos rfl]
  have hm : ((if s then 128 else 0) + (if l then 64 else 0) + b0.val / 2) % 64 = b0.val / 2 := by
    cases s <;> cases l <;> simp <;> omega
  have hS : (if s then 128 else 0) + (if l then 64 else 0) + b0.val / 2 ≥ 128 ↔ s = true := by
    cases s <;> cases l <;> simp <;> omega
  rw [hh, hm]
  congr 2
  rw [Bool.eq_iff_iff, decide_eq_true_eq, hS]

theorem aggregated_plain : ∀ us : List (Byte × List Byte), aggregated false us = (us.map (·.2)).flatMap (fun n => be16 n.length ++ n) := by
  intro us
  induction us with
  | nil => rfl
  | cons x us ih => obtain ⟨a, n⟩ := x; simp [aggregated, dond, ih]

/-- C64, H.265: the packet level detector agrees with the units for every item without decoding order
numbers, and for single packets and fragments with them too. -/
theorem C64_h265_detect (i : Item) (hi : i.Legal) (donl : Bool) (hd : donl = true → ∀ v l h1 f os, i ≠ .ap v l h1 f os) :
    (∃ q ∈ i.payloads donl, detect q = .ok true) ↔ ∃ n ∈ i.units, Irap n := by
  cases i with
  | single v n =>
    obtain ⟨b0, b1, t, rfl, hb, hty⟩ := travels_head hi.2
    have hT := hi.2.2.2
    rw [hty] at hT
    have : detect (b0 :: b1 :: (don donl v ++ t)) = .ok (irap (b0.val / 2 % 64)) := by
      unfold detect
      dsimp only
      by_cases h47 : ntype b0 ≤ 47
      · rw [if_pos h47]; rfl
      · rw [if_neg h47, if_neg (show ¬ ntype b0 = 48 from hT.1), if_neg (show ¬ ntype b0 = 49 from hT.2.1)]
        have : irap (b0.val / 2 % 64) = false := by
          unfold ntype at h47
          unfold irap
          simp only [Bool.or_eq_false_iff, beq_eq_false_iff_ne]
          omega
        rw [this]
    simp only [Item.payloads, Item.units, List.mem_singleton, exists_eq_left, List.take_succ_cons, List.take_zero, List.drop_succ_cons, List.drop_zero, List.cons_append, List.nil_append]
    rw [this, ← irap_iff, hty]
    simp
  | ap v l h1 first others =>
    have hdf : donl = false := by
      by_contra h
      exact hd (by simpa using h) v l h1 first others rfl
    subst hdf
    obtain ⟨hne, hf, ho⟩ := hi
    have e1 : be16 first.length ++ first ++ aggregated false others = (first :: others.map (·.2)).flatMap (fun n => be16 n.length ++ n) := by
      rw [aggregated_plain, List.flatMap_cons]
    simp only [Item.payloads, Item.units, List.mem_singleton, exists_eq_left]
    generalize hb : u8 (48 * 2 + (if l then 1 else 0)) = b0
    have hv : b0.val = 96 ∨ b0.val = 97 := by rw [← hb, u8_val]; cases l <;> simp
    have hT : ntype b0 = 48 := by unfold ntype; omega
    have hlen : ∀ us : List (List Byte), us.length ≤ (us.flatMap (fun n => be16 n.length ++ n)).length := by
      intro us
      induction us with
      | nil => simp
      | cons n ns ih => rw [List.flatMap_cons]; simp only [List.length_append, be16_length, List.length_cons]; omega
    have := detectAp_read (first :: others.map (·.2)) [b0, h1] ((b0 :: h1 :: (don false v ++ (be16 first.length ++ first ++ aggregated false others))).length + 1) (by
      intro n hn
      rcases List.mem_cons.1 hn with rfl | hn
      · exact hf
      · obtain ⟨x, hx, rfl⟩ := List.mem_map.1 hn
        exact ho x hx) (by
      have := hlen (first :: others.map (·.2)); rw [e1]; simp only [List.length_cons, List.length_append] at *; omega)
    have hdet : detect (b0 :: h1 :: (don false v ++ (be16 first.length ++ first ++ aggregated false others)))
        = .ok ((first :: others.map (·.2)).any (fun n => irap (unitType n))) := by
      unfold detect
      dsimp only
      rw [hT, if_neg (by omega), if_pos rfl, ← this, e1]
      rfl
    rw [hdet]
    simp only [Res.ok.injEq, List.any_eq_true, irap_iff]
  | fu v b0 b1 first pieces =>
    obtain ⟨⟨hb, -⟩, -⟩ := hi
    have h64 : b0.val / 2 % 64 = b0.val / 2 := by omega
    have hu : (∃ n ∈ (Item.fu v b0 b1 first pieces).units, Irap n) ↔ irap (b0.val / 2) = true := by
      simp only [Item.units, List.mem_singleton, exists_eq_left]
      rw [← irap_iff]
      simp only [unitType, h64]
    rw [hu]
    constructor
    · rintro ⟨q, hq, hk⟩
      rcases List.mem_cons.1 hq with rfl | hq
      · rw [detect_frag _ _ hb] at hk
        simpa using hk
      · obtain ⟨l, x, hx, rfl, -⟩ := fragRest_mem _ _ _ _ hq
        rw [detect_frag _ _ hb] at hk
        simp at hk
    · intro h
      exact ⟨_, List.mem_cons_self, by rw [detect_frag _ _ hb, h]; rfl⟩

/-- With decoding order numbers the detector reads the number as a size: a key frame in an aggregate is
missed, and parameter sets are taken for a key frame. -/
theorem C64_h265_detect_violation :
    (∃ i : Item, i.Legal ∧ (∃ n ∈ i.units, Irap n) ∧ ∀ q ∈ i.payloads true, detect q = .ok false) ∧
    (∃ i : Item, i.Legal ∧ (∀ n ∈ i.units, ¬ Irap n) ∧ ∃ q ∈ i.payloads true, detect q = .ok true) := by
  refine ⟨⟨.ap 9999 false 1 [0x42, 1, 5] [(0, [0x26, 1, 7])], ⟨by simp, ⟨⟨by decide, ⟨_, _, rfl, by decide⟩, by decide⟩, by decide⟩, ?_⟩,
      ⟨[0x26, 1, 7], by simp [Item.units], by unfold Irap; decide⟩, ?_⟩,
    ⟨.ap 5 false 1 [0x42, 1, 5, 0, 2, 0x26, 1] [(0, [0x44, 1, 7])], ⟨by simp, ⟨⟨by decide, ⟨_, _, rfl, by decide⟩, by decide⟩, by decide⟩, ?_⟩, ?_,
      ⟨_, List.mem_singleton.2 rfl, by decide +kernel⟩⟩⟩
  · intro n hn
    fin_cases hn
    exact ⟨⟨by decide, ⟨_, _, rfl, by decide⟩, by decide⟩, by decide⟩
  · intro q hq
    rw [List.mem_singleton.1 hq]
    decide +kernel
  · intro n hn
    fin_cases hn
    exact ⟨⟨by decide, ⟨_, _, rfl, by decide⟩, by decide⟩, by decide⟩
  · intro n hn
    fin_cases hn
    · unfold Irap; decide
    · unfold Irap; decide

theorem head_frag (b0 b1 : Byte) (hb : b0.val < 128) (s l : Bool) (x : List Byte) : head (frag b0 b1 s l x) = s := by
  obtain ⟨hF, hT⟩ := frag_hdr b0
  unfold frag
  have hh := frag_h b0 hb s l
  generalize u8 ((if s then 128 else 0) + (if l then 64 else 0) + b0.val / 2) = h at hh
  generalize u8 (49 * 2 + b0.val % 2) = i0 at hT hF
  unfold head
  dsimp only
  rw [hF, hT, if_neg (by simp), if_neg (by simp)]
  show decide (h.val ≥ 128) = s
  rw [Bool.eq_iff_iff, decide_eq_true_eq, hh]
  cases s <;> cases l <;> simp <;> omega

theorem tail_frag (m : Bool) (b0 b1 : Byte) (hb : b0.val < 128) (s l : Bool) (x : List Byte) : tail m (frag b0 b1 s l x) = l := by
  obtain ⟨hF, hT⟩ := frag_hdr b0
  unfold frag
  have hh := frag_h b0 hb s l
  generalize u8 ((if s then 128 else 0) + (if l then 64 else 0) + b0.val / 2) = h at hh
  generalize u8 (49 * 2 + b0.val % 2) = i0 at hT hF
  unfold tail
  dsimp only
  rw [hT, if_pos rfl]
  show (h.val / 64 % 2 == 1) = l
  rw [Bool.eq_iff_iff, beq_iff_eq, hh]
  cases s <;> cases l <;> simp <;> omega

theorem fragRest_split (b0 b1 : Byte) : ∀ (ps : List (List Byte)), ps ≠ [] → ∃ a x, fragRest b0 b1 ps = a ++ [frag b0 b1 false true x] ∧
    ∀ q ∈ a, ∃ y, q = frag b0 b1 false false y := by
  intro ps
  induction ps with
  | nil => intro h; exact absurd rfl h
  | cons x xs ih =>
    intro _
    cases xs with
    | nil => exact ⟨[], x, rfl, by simp⟩
    | cons y ys =>
      obtain ⟨a, z, e, h⟩ := ih (by simp)
      refine ⟨frag b0 b1 false false x :: a, z, ?_, ?_⟩
      · rw [show fragRest b0 b1 (x :: y :: ys) = frag b0 b1 false false x :: fragRest b0 b1 (y :: ys) from rfl, e]; rfl
      · intro q hq
        rcases List.mem_cons.1 hq with rfl | hq
        · exact ⟨x, rfl⟩
        · exact h q hq

/-- C64, H.265: of the payloads of an item the first, and only the first, starts a partition; before the
last none ends one whatever the marker says; the last ends one if the marker is set, and always
if the unit was fragmented. -/
theorem C64_h265_partition (i : Item) (hi : i.Legal) (donl : Bool) :
    (∃ q qs, i.payloads donl = q :: qs ∧ head q = true ∧ ∀ r ∈ qs, head r = false) ∧
    ∃ qs q, i.payloads donl = qs ++ [q] ∧ tail true q = true ∧ (∀ m, ∀ r ∈ qs, tail m r = false) ∧ (qs ≠ [] → ∀ m, tail m q = true) := by
  cases i with
  | single v n =>
    obtain ⟨b0, b1, t, rfl, hb, hty⟩ := travels_head hi.2
    have hT := hi.2.2.2
    rw [hty] at hT
    have h1 : head (b0 :: b1 :: (don donl v ++ t)) = true := by
      unfold head
      dsimp only
      split
      · rfl
      · rw [if_pos (show ntype b0 ≠ 49 from hT.2.1)]
    have h2 : tail true (b0 :: b1 :: (don donl v ++ t)) = true := by
      unfold tail
      dsimp only
      rw [if_neg (show ¬ ntype b0 = 49 from hT.2.1)]
    exact ⟨⟨_, [], rfl, h1, by simp⟩, ⟨[], _, rfl, h2, by simp, by simp⟩⟩
  | ap v l h1 first others =>
    have hv : (u8 (48 * 2 + (if l then 1 else 0))).val = 96 ∨ (u8 (48 * 2 + (if l then 1 else 0))).val = 97 := by rw [u8_val]; cases l <;> simp
    have hT : ntype (u8 (48 * 2 + (if l then 1 else 0))) = 48 := by unfold ntype; omega
    have g1 : head (u8 (48 * 2 + (if l then 1 else 0)) :: h1 :: (don donl v ++ (be16 first.length ++ first ++ aggregated donl others))) = true := by
      generalize u8 (48 * 2 + (if l then 1 else 0)) = b0 at hT
      unfold head
      dsimp only
      split
      · rfl
      · rw [if_pos (by omega)]
    have g2 : tail true (u8 (48 * 2 + (if l then 1 else 0)) :: h1 :: (don donl v ++ (be16 first.length ++ first ++ aggregated donl others))) = true := by
      generalize u8 (48 * 2 + (if l then 1 else 0)) = b0 at hT
      unfold tail
      dsimp only
      rw [if_neg (by omega)]
    exact ⟨⟨_, [], rfl, g1, by simp⟩, ⟨[], _, rfl, g2, by simp, by simp⟩⟩
  | fu v b0 b1 first pieces =>
    obtain ⟨⟨hb, -⟩, -, hne, -⟩ := hi
    refine ⟨⟨_, _, rfl, head_frag b0 b1 hb _ _ _, ?_⟩, ?_⟩
    · intro r hr
      obtain ⟨l, x, -, rfl, -⟩ := fragRest_mem _ _ _ _ hr
      exact head_frag b0 b1 hb _ _ _
    · obtain ⟨a, x, e, h⟩ := fragRest_split b0 b1 pieces hne
      refine ⟨frag b0 b1 true false (don donl v ++ first) :: a, frag b0 b1 false true x, ?_, tail_frag _ _ _ hb _ _ _, ?_, fun _ m => tail_frag _ _ _ hb _ _ _⟩
      · show _ :: fragRest b0 b1 pieces = _
        rw [e]; rfl
      · intro m r hr
        rcases List.mem_cons.1 hr with rfl | hr
        · exact tail_frag _ _ _ hb _ _ _
        · obtain ⟨y, rfl⟩ := h r hr
          exact tail_frag _ _ _ hb _ _ _

/-! ### The packetizer -/

/-- C23, C72, H.265: for every Annex B frame of NAL units (start codes with two zeros or more), every MTU
that leaves room for a byte in a fragment and every state the packetizer can be in, if each
parameter set fits a packet: the packets fit the MTU (and 1200), but with decoding order numbers
single unit packets only with two bytes more (see the violation); they are what RFC 7798 allows, carrying exactly the
units that `sent` names, in order, the ids in aggregates being those of a unit of the frame; with
decoding order numbers the units are numbered one by one, counted on from frame to frame; and a
receiver in any state appends exactly these units and says key frame iff one is a BLA, IDR or
CRA (or it knew before). -/
theorem C23_h265 (mtu : Nat) (p : P) (hk : Kept p) (hm : 3 + donSize p.donl.isSome < mtu) (us : List (Nat × List Byte)) (hne : us ≠ [])
    (hus : ∀ x ∈ us, 2 ≤ x.1 ∧ ValidUnit x.2) (hfit : SetsFit (min mtu 1200) p (us.map (·.2))) :
    ∃ pkts p', ∃ items : List Item, packetize p mtu (annexB us) = .ok (pkts, p') ∧ FitsMtu (min mtu 1200 + donSize p.donl.isSome) pkts ∧
      Kept p' ∧ waits p' = (sent (waits p) (us.map (·.2))).2 ∧
      p'.donl = p.donl.map (fun v => (v + (sent (waits p) (us.map (·.2))).1.length) % 65536) ∧
      pkts = items.flatMap (Item.payloads p.donl.isSome) ∧ (∀ i ∈ items, i.Legal ∧ IdsFrom (us.map (·.2)) i ∧ FitsMtu (min mtu 1200 + i.over p.donl.isSome) (i.payloads p.donl.isSome)) ∧
      items.flatMap Item.units = (sent (waits p) (us.map (·.2))).1 ∧ (∀ v, p.donl = some v → Counts v (items.flatMap Item.dons)) ∧
      ∀ d out e, d.donl = p.donl.isSome → ∃ d' k, runDepack depacketize pkts d out e
          = .ok (d', out ++ delivered (sent (waits p) (us.map (·.2))).1, k) ∧ d'.donl = d.donl ∧
        (k = some true ↔ e = some true ∨ ∃ n ∈ (sent (waits p) (us.map (·.2))).1, Irap n) := by
  have hmem : ∀ n ∈ us.map (·.2), ValidUnit n := by
    intro n hn
    obtain ⟨x, hx, rfl⟩ := List.mem_map.1 hn
    exact (hus x hx).2
  have hm' : 3 + donSize p.donl.isSome < min mtu 1200 := by
    have : donSize p.donl.isSome ≤ 2 := by unfold donSize; split <;> omega
    omega
  obtain ⟨pkts, p', g1, g2, g3, g5, items, g6, g7, g8, g9⟩ := emitAll_emits (by omega) (us.map (·.2)) p (fun _ h => h) hk hm' hmem hfit
  rw [packetize_units mtu (by omega) us hne hus p]
  refine ⟨pkts, p', items, g1, ?_, g2, g3, g5, g6, g7, g8, g9, ?_⟩
  · intro q hq
    rw [g6] at hq
    obtain ⟨i, hi, hq⟩ := List.mem_flatMap.1 hq
    have h := (g7 i hi).2.2 q hq
    have : i.over p.donl.isSome ≤ donSize p.donl.isSome := by
      cases i <;> simp [Item.over]
    omega
  intro d out e hd
  have := C64_h265 items (fun i hi => (g7 i hi).1) d out e
  rw [hd, ← g6, g8] at this
  rw [hd]
  exact this

/-- C23, H.265: when all units have the same ids, as in a stream without layers, aggregates have the lowest. -/
theorem C23_h265_ids (i : Item) (all : List (List Byte)) (L T : Nat) (hi : IdsFrom all i)
    (h1 : ∀ n ∈ all, unitLayer n = L ∧ unitTid n = T) (h2 : ∀ n ∈ i.units, unitLayer n = L ∧ unitTid n = T) : LowestIds i := by
  cases i with
  | single v n => trivial
  | fu v b0 b1 first pieces => trivial
  | ap v l b first others =>
    obtain ⟨n, hn, e1, e2⟩ := hi
    rw [(h1 n hn).1] at e1
    rw [(h1 n hn).2] at e2
    refine ⟨⟨first, by simp, ?_⟩, ?_, ⟨first, by simp, ?_⟩, ?_⟩
    · rw [e1]; exact (h2 first (by simp [Item.units])).1
    · intro m hm; rw [e1]; exact Nat.le_of_eq (h2 m hm).1.symm
    · rw [e2]; exact (h2 first (by simp [Item.units])).2
    · intro m hm; rw [e2]; exact Nat.le_of_eq (h2 m hm).2.symm

/-- What travels of a usual frame when nothing waits is the frame without delimiters and filler, and nothing
waits afterwards. -/
theorem sent_usual (us : List (List Byte)) (hu : Usual us) :
    sent ⟨none, none, none⟩ us = (us.filter (fun n => ¬ Dropped n), ⟨none, none, none⟩) := by
  have hskip : ∀ (l : List (List Byte)) (w : Waiting), sent w l = sent w (l.filter (fun n => ¬ Dropped n)) := by
    intro l
    induction l with
    | nil => intro w; rfl
    | cons n ns ih =>
      intro w
      by_cases hd : Dropped n
      · rw [List.filter_cons_of_neg (by simpa using hd), ← ih w]
        rw [show sent w (n :: ns) = (if Dropped n then sent w ns else _) from rfl]
        exact if_pos hd
      · rw [List.filter_cons_of_pos (by simpa using hd)]
        unfold sent
        simp only [← ih]
  have hplain : ∀ (l : List (List Byte)), (∀ n ∈ l, ¬ Dropped n ∧ ¬ IsSet n) → sent ⟨none, none, none⟩ l = (l, ⟨none, none, none⟩) := by
    intro l
    induction l with
    | nil => intro _; rfl
    | cons n ns ih =>
      intro h
      obtain ⟨h1, h2⟩ := h n (by simp)
      unfold IsSet at h2
      unfold sent
      rw [if_neg h1, if_neg (by omega), if_neg (by omega), if_neg (by omega)]
      show (([] : List (List Byte)) ++ n :: (sent ⟨none, none, none⟩ ns).1, (sent ⟨none, none, none⟩ ns).2) = _
      rw [ih (fun m hm => h m (List.mem_cons_of_mem _ hm))]
      rfl
  have hslice : ∀ (vp : Option (List Byte)) (s q n : List Byte) (ns : List (List Byte)), (∀ m ∈ n :: ns, ¬ Dropped m ∧ ¬ IsSet m) →
      sent ⟨vp, some s, some q⟩ (n :: ns) = (setsOf vp s q ++ n :: ns, ⟨none, none, none⟩) := by
    intro vp s q n ns h
    obtain ⟨h1, h2⟩ := h n (by simp)
    unfold IsSet at h2
    unfold sent
    rw [if_neg h1, if_neg (by omega), if_neg (by omega), if_neg (by omega)]
    show (setsOf vp s q ++ n :: (sent ⟨none, none, none⟩ ns).1, (sent ⟨none, none, none⟩ ns).2) = _
    rw [hplain ns (fun m hm => h m (List.mem_cons_of_mem _ hm))]
  have step14 : ∀ n ns w, ¬ Dropped n → unitType n = 32 → sent w (n :: ns) = sent { w with vps := some n } ns := by
    intro n ns w h1 h2
    rw [show sent w (n :: ns) = (if Dropped n then _ else if unitType n = 32 then sent { w with vps := some n } ns else _) from rfl, if_neg h1, if_pos h2]
  have step15 : ∀ n ns w, ¬ Dropped n → unitType n = 33 → sent w (n :: ns) = sent { w with sps := some n } ns := by
    intro n ns w h1 h2
    rw [show sent w (n :: ns) = (if Dropped n then _ else if unitType n = 32 then _ else if unitType n = 33 then sent { w with sps := some n } ns else _) from rfl,
      if_neg h1, if_neg (by omega), if_pos h2]
  have step16 : ∀ n ns w, ¬ Dropped n → unitType n = 34 → sent w (n :: ns) = sent { w with pps := some n } ns := by
    intro n ns w h1 h2
    rw [show sent w (n :: ns) = (if Dropped n then _ else if unitType n = 32 then _ else if unitType n = 33 then _
      else if unitType n = 34 then sent { w with pps := some n } ns else _) from rfl,
      if_neg h1, if_neg (by omega), if_neg (by omega), if_pos h2]
  obtain ⟨ps, slices, e, hne, hs, hp⟩ := hu
  have hnd : ∀ n ∈ ps ++ slices, ¬ Dropped n := by
    intro n hn
    rw [← e] at hn
    simpa using (List.mem_filter.1 hn).2
  have hs' : ∀ n ∈ slices, ¬ Dropped n ∧ ¬ IsSet n := fun n hn => ⟨hnd n (List.mem_append_right _ hn), hs n hn⟩
  rw [hskip, e]
  rcases hp with rfl | ⟨s, q, rfl, h15, h16⟩ | ⟨v, s, q, rfl, h14, h15, h16⟩
  · exact hplain _ hs'
  · cases slices with
    | nil => exact absurd rfl hne
    | cons n ns =>
      show sent _ (s :: q :: n :: ns) = _
      rw [step15 _ _ _ (hnd s (by simp)) h15, step16 _ _ _ (hnd q (by simp)) h16, hslice none s q n ns hs']
      rfl
  · cases slices with
    | nil => exact absurd rfl hne
    | cons n ns =>
      show sent _ (v :: s :: q :: n :: ns) = _
      rw [step14 _ _ _ (hnd v (by simp)) h14, step15 _ _ _ (hnd s (by simp)) h15, step16 _ _ _ (hnd q (by simp)) h16, hslice (some v) s q n ns hs']
      rfl

/-- C23, H.265, usual frames, with or without decoding order numbers: the receiver gets the whole frame
except delimiters and filler. -/
theorem C23_h265_usual (mtu : Nat) (donl : Option Nat) (hd : ∀ v, donl = some v → v < 65536) (hm : 3 + donSize donl.isSome < mtu) (us : List (Nat × List Byte))
    (hus : ∀ x ∈ us, 2 ≤ x.1 ∧ ValidUnit x.2) (hu : Usual (us.map (·.2)))
    (hfit : ∀ x ∈ us, IsSet x.2 → x.2.length ≤ min mtu 1200) :
    ∃ pkts p', packetize ⟨none, none, none, donl⟩ mtu (annexB us) = .ok (pkts, p') ∧ FitsMtu (min mtu 1200 + donSize donl.isSome) pkts ∧
      p'.vps = none ∧ p'.sps = none ∧ p'.pps = none ∧
      ∀ d out e, d.donl = donl.isSome → ∃ d' k, runDepack depacketize pkts d out e
          = .ok (d', out ++ delivered ((us.map (·.2)).filter (fun n => ¬ Dropped n)), k) ∧
        (k = some true ↔ e = some true ∨ ∃ x ∈ us, Irap x.2) := by
  have hne : us ≠ [] := by
    rintro rfl
    obtain ⟨ps, sl, e, hs, -, -⟩ := hu
    have : ps ++ sl = [] := e.symm
    exact hs (List.append_eq_nil_iff.1 this).2
  obtain ⟨pkts, p', items, g1, g2, g3, g4, -, -, -, -, -, g6⟩ := C23_h265 mtu ⟨none, none, none, donl⟩
    ⟨(fun _ h => by cases h), (fun _ h => by cases h), (fun _ h => by cases h), hd⟩ hm us hne hus (by
      intro s hs his
      rcases hs with hs | hs | hs | hs
      · obtain ⟨x, hx, rfl⟩ := List.mem_map.1 hs
        exact hfit x hx his
      · cases hs
      · cases hs
      · cases hs)
  have hw : waits ⟨none, none, none, donl⟩ = ⟨none, none, none⟩ := rfl
  rw [hw, sent_usual _ hu] at g4 g6
  refine ⟨pkts, p', g1, g2, congrArg Waiting.vps g4, congrArg Waiting.sps g4, congrArg Waiting.pps g4, fun d out e hdd => ?_⟩
  obtain ⟨d', k, k1, -, k2⟩ := g6 d out e hdd
  refine ⟨d', k, k1, k2.trans (or_congr_right ⟨?_, ?_⟩)⟩
  · rintro ⟨n, hn, h5⟩
    obtain ⟨x, hx, rfl⟩ := List.mem_map.1 (List.mem_filter.1 hn).1
    exact ⟨x, hx, h5⟩
  · rintro ⟨x, hx, h5⟩
    refine ⟨x.2, List.mem_filter.2 ⟨List.mem_map.2 ⟨x, hx, rfl⟩, ?_⟩, h5⟩
    unfold Irap at h5
    simp [Dropped]
    omega

/-- A key frame with delimiter, parameter sets and a slice that needs three packets. -/
def exampleFrame : List (Nat × List Byte) :=
  [(3, [0x46, 1, 0x50]), (3, [0x40, 1, 9]), (3, [0x42, 1, 2]), (2, [0x44, 1, 3]),
   (5, [0x26, 1, 1, 0, 0, 2, 3, 4, 5, 6, 7, 8, 9, 10, 11, 12, 13, 14, 15, 16, 17, 18, 19, 20, 21, 22, 23, 24, 25])]

theorem valid_of (n : List Byte) (h1 : 3 ≤ n.length) (h2 : ∃ b rest, n = b :: rest ∧ b.val < 128) (h3 : unitType n ≠ 48 ∧ unitType n ≠ 49 ∧ unitType n ≠ 50)
    (h4 : ∀ i, i < n.length → (n.drop i).take 3 ≠ [0, 0, 1]) (h5 : n.getLast? ≠ some 0) : ValidUnit n := by
  refine ⟨h1, h2, h3, ?_, ?_⟩
  · rintro a c rfl
    refine h4 a.length (by simp) ?_
    rw [List.append_assoc, List.drop_left]
    rfl
  · rintro a rfl
    exact h5 (by simp)

theorem C23_h265_example : (∀ x ∈ exampleFrame, 2 ≤ x.1 ∧ ValidUnit x.2) ∧ Usual (exampleFrame.map (·.2)) ∧
    (∀ x ∈ exampleFrame, IsSet x.2 → x.2.length ≤ min 21 1200) ∧
    packetize ⟨none, none, none, some 65534⟩ 21 (annexB exampleFrame)
      = .ok ([[0x60, 1, 255, 254, 0, 3, 0x40, 1, 9, 0, 0, 3, 0x42, 1, 2, 0, 0, 3, 0x44, 1, 3],
        [0x62, 1, 0x93, 0, 1, 1, 0, 0, 2, 3, 4, 5, 6, 7, 8, 9, 10, 11, 12, 13, 14],
        [0x62, 1, 0x53, 15, 16, 17, 18, 19, 20, 21, 22, 23, 24, 25]], ⟨none, none, none, some 2⟩) := by
  refine ⟨?_, ?_, ?_, by decide +kernel⟩
  · intro x hx
    fin_cases hx
    all_goals exact ⟨by decide, valid_of _ (by decide) ⟨_, _, rfl, by decide⟩ (by decide) (by decide +kernel) (by decide)⟩
  · refine ⟨[[0x40, 1, 9], [0x42, 1, 2], [0x44, 1, 3]], [[0x26, 1, 1, 0, 0, 2, 3, 4, 5, 6, 7, 8, 9, 10, 11, 12, 13, 14, 15, 16, 17, 18, 19, 20, 21, 22, 23, 24, 25]],
      by decide +kernel, by simp, ?_, Or.inr (Or.inr ⟨_, _, _, rfl, by decide, by decide, by decide⟩)⟩
    intro n hn
    fin_cases hn
    unfold IsSet
    decide
  · intro x hx
    fin_cases hx
    all_goals first | (intro h; unfold IsSet at h; revert h; decide) | (intro _; decide)

/-! ### Several frames -/

/-- Frames packetized one after the other. -/
def packAll (mtu : Nat) : List (List Byte) → P → Res PErr (List (List Byte) × P)
  | [], p => .ok ([], p)
  | f :: fs, p => do
    let r ← packetize p mtu f
    let rest ← packAll mtu fs r.2
    pure (r.1 ++ rest.1, rest.2)

theorem emitAll_append (mtu : Nat) : ∀ (us vs : List (List Byte)) (p : P), emitAll mtu (us ++ vs) p
    = (emitAll mtu us p >>= fun r => emitAll mtu vs r.2 >>= fun t => pure (r.1 ++ t.1, t.2)) := by
  intro us
  induction us with
  | nil =>
    intro vs p
    show emitAll mtu vs p = (emitAll mtu vs p >>= fun t => pure (t.1, t.2))
    cases emitAll mtu vs p <;> rfl
  | cons n ns ih =>
    intro vs p
    show (emit p n mtu >>= fun r => emitAll mtu (ns ++ vs) r.2 >>= fun rest => pure (r.1 ++ rest.1, rest.2)) = _
    rw [show emitAll mtu (n :: ns) p = (emit p n mtu >>= fun r => emitAll mtu ns r.2 >>= fun rest => pure (r.1 ++ rest.1, rest.2)) from rfl]
    cases emit p n mtu with
    | err e => rfl
    | panic => rfl
    | ok r =>
      simp only [Res.bind_def, Res.bind_ok, ih]
      cases emitAll mtu ns r.2 with
      | err e => rfl
      | panic => rfl
      | ok s =>
        simp only [Res.bind_ok, Res.pure_def]
        cases emitAll mtu vs s.2 with
        | err e => rfl
        | panic => rfl
        | ok t => simp [List.append_assoc]

theorem packAll_units (mtu : Nat) (hm : 4 ≤ mtu) : ∀ (frames : List (List (Nat × List Byte))) (p : P),
    (∀ f ∈ frames, f ≠ [] ∧ ∀ x ∈ f, 2 ≤ x.1 ∧ ValidUnit x.2) →
    packAll mtu (frames.map annexB) p = emitAll (min mtu 1200) (frames.flatten.map (·.2)) p := by
  intro frames
  induction frames with
  | nil => intro p _; rfl
  | cons f fs ih =>
    intro p h
    obtain ⟨h1, h2⟩ := h f (by simp)
    rw [List.flatten_cons, List.map_append, emitAll_append, List.map_cons]
    show (packetize p mtu (annexB f) >>= _) = _
    rw [packetize_units mtu hm f h1 h2 p]
    cases emitAll (min mtu 1200) (f.map (·.2)) p with
    | err e => rfl
    | panic => rfl
    | ok r =>
      simp only [Res.bind_def, Res.bind_ok]
      rw [ih r.2 (fun g hg => h g (List.mem_cons_of_mem _ hg))]

/-- C72, H.265: for every sequence of frames and every starting number, the units that travel are numbered one
by one, modulo 2^16, over frame borders too, and a receiver that expects the numbers gets exactly
the units. -/
theorem C72_h265_frames (mtu v : Nat) (hv : v < 65536) (hm : 5 < mtu) (frames : List (List (Nat × List Byte)))
    (hf : ∀ f ∈ frames, f ≠ [] ∧ ∀ x ∈ f, 2 ≤ x.1 ∧ ValidUnit x.2)
    (hfit : ∀ f ∈ frames, ∀ x ∈ f, IsSet x.2 → x.2.length ≤ min mtu 1200) :
    ∃ pkts p', ∃ items : List Item, packAll mtu (frames.map annexB) ⟨none, none, none, some v⟩ = .ok (pkts, p') ∧
      pkts = items.flatMap (Item.payloads true) ∧ (∀ i ∈ items, i.Legal) ∧
      items.flatMap Item.units = (sent ⟨none, none, none⟩ (frames.flatten.map (·.2))).1 ∧ Counts v (items.flatMap Item.dons) ∧
      ∀ d out e, d.donl = true → ∃ d' k, runDepack depacketize pkts d out e
          = .ok (d', out ++ delivered (sent ⟨none, none, none⟩ (frames.flatten.map (·.2))).1, k) := by
  have hmem : ∀ n ∈ frames.flatten.map (·.2), ValidUnit n := by
    intro n hn
    obtain ⟨x, hx, rfl⟩ := List.mem_map.1 hn
    obtain ⟨f, hf1, hf2⟩ := List.mem_flatten.1 hx
    exact ((hf f hf1).2 x hf2).2
  have hsets : SetsFit (min mtu 1200) ⟨none, none, none, some v⟩ (frames.flatten.map (·.2)) := by
    intro s hs his
    rcases hs with hs | hs | hs | hs
    · obtain ⟨x, hx, rfl⟩ := List.mem_map.1 hs
      obtain ⟨f, hf1, hf2⟩ := List.mem_flatten.1 hx
      exact hfit f hf1 x hf2 his
    · cases hs
    · cases hs
    · cases hs
  obtain ⟨pkts, p', g1, g2, g3, g5, items, g6, g7, g8, g9⟩ := emitAll_emits (by omega) (frames.flatten.map (·.2)) ⟨none, none, none, some v⟩ (fun _ h => h)
    ⟨(fun _ h => by cases h), (fun _ h => by cases h), (fun _ h => by cases h), (fun w h => by cases h; exact hv)⟩ (by
      show 3 + 2 < min mtu 1200; omega) hmem hsets
  refine ⟨pkts, p', items, ?_, g6, fun i hi => (g7 i hi).1, g8, g9 v rfl, ?_⟩
  · rw [packAll_units mtu (by omega) frames _ hf]; exact g1
  · intro d out e hd
    obtain ⟨d', k, h1, -, -⟩ := C64_h265 items (fun i hi => (g7 i hi).1) d out e
    rw [hd, show items.flatMap (Item.payloads true) = pkts from g6.symm, g8] at h1
    exact ⟨d', k, h1⟩

/-! ### Totality -/

theorem fuGo_safe (b0 b1 : Byte) (ty : Nat) (payload dn : List Byte) (fm m : Nat) : ∀ (fuel off : Nat), off ≤ payload.length →
    (fuGo b0 b1 ty payload dn fm m fuel off).NoPanic := by
  intro fuel
  induction fuel with
  | zero => intro _ _; trivial
  | succ fuel ih =>
    intro off h
    unfold fuGo
    split
    · rw [slice_piece _ _ _ (by omega), Res.bind_def, Res.bind_ok]
      have := ih (off + min (payload.length - off) (if off = 0 then fm else m)) (by omega)
      revert this
      cases fuGo b0 b1 ty payload dn fm m fuel (off + min (payload.length - off) (if off = 0 then fm else m)) with
      | ok r => intro _; trivial
      | err e => intro _; trivial
      | panic => intro h; exact h.elim
    · trivial

/-- Every kept parameter set has its two header bytes. -/
def Long (p : P) : Prop :=
  (∀ s, p.vps = some s → 2 ≤ s.length) ∧ (∀ s, p.sps = some s → 2 ≤ s.length) ∧ (∀ s, p.pps = some s → 2 ≤ s.length)

theorem single_safe (n : List Byte) (h : 2 ≤ n.length) (donl : Option Nat) : (single n donl).NoPanic := by
  cases donl with
  | none => trivial
  | some v => unfold single; rw [Res.slice_of_le (by omega) h, Res.from_of_le h]; trivial

theorem singles_safe (mtu : Nat) : ∀ (us : List (List Byte)) (donl : Option Nat), (∀ n ∈ us, 2 ≤ n.length) → (singles us donl mtu).NoPanic := by
  intro us
  induction us with
  | nil => intro _ _; trivial
  | cons n ns ih =>
    intro donl h
    have h' : ∀ m ∈ ns, 2 ≤ m.length := fun m hm => h m (List.mem_cons_of_mem _ hm)
    unfold singles
    split
    · have h1 := single_safe n (h n (by simp)) donl
      have h2 := ih (bump donl 1) h'
      revert h1 h2
      cases single n donl <;> cases singles ns (bump donl 1) mtu <;> intro h1 h2 <;> first | trivial | exact h1.elim | exact h2.elim
    · exact ih _ h'

theorem flush_safe (b0 b1 : Byte) (us : List (List Byte)) (donl : Option Nat) (mtu : Nat) (h : ∀ n ∈ us, 2 ≤ n.length) : (flush b0 b1 us donl mtu).NoPanic := by
  unfold flush
  split
  · trivial
  · exact singles_safe _ _ _ h

theorem emitNalu_safe (b0 b1 : Byte) (body : List Byte) (donl : Option Nat) (mtu : Nat) : (emitNalu b0 b1 body donl mtu).NoPanic := by
  unfold emitNalu
  split
  · have := single_safe (b0 :: b1 :: body) (by simp) donl
    revert this
    cases single (b0 :: b1 :: body) donl with
    | ok r => intro _; trivial
    | err e => intro _; trivial
    | panic => intro h; exact h.elim
  · split
    · trivial
    · split
      · trivial
      · have := fuGo_safe (withType 49 b0) b1 (ntype b0) body (donlBytes donl) (min mtu 1200 - 3 - overhead donl) (min mtu 1200 - 3) (body.length + 1) 0 (by omega)
        revert this
        cases fuGo (withType 49 b0) b1 (ntype b0) body (donlBytes donl) (min mtu 1200 - 3 - overhead donl) (min mtu 1200 - 3) (body.length + 1) 0 with
        | ok r => intro _; trivial
        | err e => intro _; trivial
        | panic => intro h; exact h.elim

theorem emit_safe (p : P) (hp : Long p) (n : List Byte) (mtu : Nat) : Packet.Safe (emit p n mtu) (fun r => Long r.2) := by
  have nil_safe : Packet.Safe (.ok ([], p) : Res PErr (List (List Byte) × P)) (fun r => Long r.2) := Safe.ok hp
  unfold emit
  match n with
  | [] => exact nil_safe
  | [_] => exact nil_safe
  | b0 :: b1 :: body =>
    dsimp only
    split
    · exact nil_safe
    · split
      · exact nil_safe
      · split
        · exact Safe.ok ⟨fun s h => by cases h; simp, hp.2.1, hp.2.2⟩
        · split
          · exact Safe.ok ⟨hp.1, fun s h => by cases h; simp, hp.2.2⟩
          · split
            · exact Safe.ok ⟨hp.1, hp.2.1, fun s h => by cases h; simp⟩
            · split
              · rename_i s q hs hq
                have hset : ∀ n ∈ sets p s q, 2 ≤ n.length := by
                  intro n hn
                  unfold sets at hn
                  cases hv : p.vps with
                  | none =>
                    rw [hv] at hn
                    simp only [List.mem_cons, List.not_mem_nil, or_false] at hn
                    rcases hn with rfl | rfl
                    · exact hp.2.1 _ hs
                    · exact hp.2.2 _ hq
                  | some v =>
                    rw [hv] at hn
                    simp only [List.mem_cons, List.not_mem_nil, or_false] at hn
                    rcases hn with rfl | rfl | rfl
                    · exact hp.1 _ hv
                    · exact hp.2.1 _ hs
                    · exact hp.2.2 _ hq
                refine Safe.bind (P := fun _ => True) ⟨flush_safe _ _ _ _ _ hset, fun _ _ => trivial⟩ (fun a _ => ?_)
                refine Safe.bind (P := fun _ => True) ⟨emitNalu_safe _ _ _ _ _, fun _ _ => trivial⟩ (fun t _ => ?_)
                exact Safe.ok ⟨(fun _ h => by cases h), (fun _ h => by cases h), (fun _ h => by cases h)⟩
              · refine Safe.bind (P := fun _ => True) ⟨emitNalu_safe _ _ _ _ _, fun _ _ => trivial⟩ (fun t _ => ?_)
                exact Safe.ok hp

theorem packGo_safe (mtu : Nat) (payload : List Byte) : ∀ (fuel : Nat) (p : P) (a b : Nat), Long p → a + b ≤ payload.length →
    Packet.Safe (packGo mtu payload fuel p (a, b)) (fun r => Long r.2) := by
  intro fuel
  induction fuel with
  | zero => intro _ _ _ hp _; exact Safe.ok hp
  | succ fuel ih =>
    intro p a b hp h
    unfold packGo H264.nextInd
    rw [if_pos h, Res.bind_def, Res.bind_ok]
    cases hg : H264.nextIndGo (payload.drop (a + b)) (a + b) 0 with
    | none =>
      dsimp only
      rw [Res.from_of_le h]
      exact emit_safe _ hp _ _
    | some q =>
      obtain ⟨c, d⟩ := q
      have hb := H264.nextIndGo_bounds _ _ _ _ _ (by omega) hg
      rw [List.length_drop] at hb
      dsimp only
      rw [Res.slice_of_le (by omega) (by omega), Res.bind_def, Res.bind_ok]
      refine Safe.bind (emit_safe p hp _ mtu) (fun r hr => ?_)
      refine Safe.bind (ih r.2 c d hr (by omega)) (fun r2 hr2 => ?_)
      exact Safe.ok hr2

/-- C24, H.265 packetizer: no frame bytes, MTU or history panic it. -/
theorem C24_h265_packetizer (p : P) (hp : Long p) (mtu : Nat) (payload : List Byte) :
    (packetize p mtu payload).NoPanic ∧ ∀ r, packetize p mtu payload = .ok r → Long r.2 := by
  show Packet.Safe (packetize p mtu payload) (fun r => Long r.2)
  unfold packetize
  split
  · exact Safe.ok hp
  · split
    · exact Safe.ok hp
    · unfold H264.nextInd
      rw [if_pos (by omega), Res.bind_def, Res.bind_ok]
      cases hg : H264.nextIndGo (payload.drop 0) 0 0 with
      | none => exact emit_safe _ hp _ _
      | some q =>
        obtain ⟨a, b⟩ := q
        have hb := H264.nextIndGo_bounds _ _ _ _ _ (by omega) hg
        rw [List.drop_zero] at hb
        exact packGo_safe _ _ _ _ _ _ hp (by omega)

/-- The units the delivery loop and `payload()` find after the first are the same. -/
theorem apGo_more (donl : Bool) (packet : List Byte) : ∀ (fuel fuel2 off count : Nat) (out : List Byte) (e : Option Bool), 0 < count → off ≤ packet.length →
    packet.length - off < fuel → packet.length - off < fuel2 →
    ∃ us e', apMore donl fuel2 (packet.drop off) = .ok us ∧
      apGo donl packet fuel off count out e = .ok (out ++ delivered (us.map (·.2)), e', count + us.length) ∧ (e = some true → e' = some true) := by
  intro fuel
  induction fuel with
  | zero => intro _ _ _ _ _ _ _ h; omega
  | succ fuel ih =>
    intro fuel2 off count out e hc ho hf hf2
    obtain ⟨f2, rfl⟩ : ∃ f, fuel2 = f + 1 := ⟨fuel2 - 1, by omega⟩
    have hc0 : (count == 0) = false := by simp; omega
    have stop : apMore donl (f2 + 1) (packet.drop off) = .ok [] → apGo donl packet (fuel + 1) off count out e = .ok (out, e, count) →
        ∃ us e', apMore donl (f2 + 1) (packet.drop off) = .ok us ∧
          apGo donl packet (fuel + 1) off count out e = .ok (out ++ delivered (us.map (·.2)), e', count + us.length) ∧ (e = some true → e' = some true) := by
      intro h1 h2
      exact ⟨[], e, h1, by rw [h2]; simp [delivered], id⟩
    by_cases hlt : off < packet.length
    · have hsk : skip donl false ≤ 1 := by unfold skip; cases donl <;> simp
      -- what `apMore` does after the DOND
      obtain ⟨dd, hd⟩ : ∃ dd, dondOf donl (packet.drop off) = .ok dd := by
        cases donl with
        | false => exact ⟨none, rfl⟩
        | true => exact ⟨_, by unfold dondOf; rw [if_pos rfl, Res.idx_of_lt (by rw [List.length_drop]; omega)]; rfl⟩
      have hm : apMore donl (f2 + 1) (packet.drop off) = (if (packet.drop (off + skip donl false)).length < 2 then .ok []
          else do
            let a ← Res.idx (packet.drop (off + skip donl false)) 0
            let b ← Res.idx (packet.drop (off + skip donl false)) 1
            let t2 ← Res.from_ (packet.drop (off + skip donl false)) 2
            if t2.length < rd16 a b then .ok []
            else do
              let n ← Res.slice t2 0 (rd16 a b)
              let t3 ← Res.from_ t2 (rd16 a b)
              let us ← apMore donl f2 t3
              pure ((dd, n) :: us)) := by
        rw [show apMore donl (f2 + 1) (packet.drop off) = (if donl = true ∧ packet.drop off = [] then _ else _) from rfl, if_neg (by
          rintro ⟨-, h⟩
          have := congrArg List.length h
          rw [List.length_drop, List.length_nil] at this
          omega), hd, Res.bind_def, Res.bind_ok, Res.from_of_le (by rw [List.length_drop]; cases donl <;> simp; omega), Res.bind_def, Res.bind_ok, List.drop_drop]
        cases donl <;> rfl
      have hg : apGo donl packet (fuel + 1) off count out e = (if off + skip donl false > packet.length then .ok (out, e, count)
          else if off + skip donl false + 2 > packet.length then .ok (out, e, count)
          else do
            let a ← Res.idx packet (off + skip donl false)
            let b ← Res.idx packet (off + skip donl false + 1)
            if off + skip donl false + 2 + rd16 a b > packet.length then .ok (out, e, count)
            else do
              let n ← Res.slice packet (off + skip donl false + 2) (off + skip donl false + 2 + rd16 a b)
              apGo donl packet fuel (off + skip donl false + 2 + rd16 a b) (count + 1) (out ++ startCode ++ n) (markUnit e n)) := by
        rw [show apGo donl packet (fuel + 1) off count out e = (if off < packet.length then _ else _) from rfl, if_pos hlt, hc0]
      by_cases h2 : off + skip donl false + 2 > packet.length
      · refine stop ?_ ?_
        · rw [hm, if_pos (by rw [List.length_drop]; omega)]
        · rw [hg, if_neg (by omega), if_pos h2]
      · generalize hs : off + skip donl false = o at *
        have i0 : (Res.idx (packet.drop o) 0 : Res PErr Byte) = Res.idx packet o := by
          rw [Res.idx_of_lt (by rw [List.length_drop]; omega), Res.idx_of_lt (by omega)]
          simp
        have i1 : (Res.idx (packet.drop o) 1 : Res PErr Byte) = Res.idx packet (o + 1) := by
          rw [Res.idx_of_lt (by rw [List.length_drop]; omega), Res.idx_of_lt (by omega)]
          simp
        rw [i0, i1, Res.idx_of_lt (by omega), Res.bind_def, Res.bind_ok, Res.idx_of_lt (by omega), Res.bind_def, Res.bind_ok,
          if_neg (by rw [List.length_drop]; omega), Res.from_of_le (by rw [List.length_drop]; omega), Res.bind_def, Res.bind_ok, List.drop_drop] at hm
        rw [Res.idx_of_lt (by omega), Res.bind_def, Res.bind_ok, Res.idx_of_lt (by omega), Res.bind_def, Res.bind_ok, if_neg (by omega), if_neg h2] at hg
        generalize rd16 packet[o] packet[o + 1] = z at *
        by_cases h3 : o + 2 + z > packet.length
        · refine stop ?_ ?_
          · rw [hm, if_pos (by rw [List.length_drop]; omega)]
          · rw [hg, if_pos h3]
        · have hsl : (Res.slice packet (o + 2) (o + 2 + z) : Res PErr (List Byte)) = .ok ((packet.drop (o + 2)).take z) := slice_piece _ _ _ (by omega)
          rw [if_neg (by rw [List.length_drop]; omega), Res.slice_of_le (by omega) (by rw [List.length_drop]; omega), Res.bind_def, Res.bind_ok,
            Res.from_of_le (by rw [List.length_drop]; omega), Res.bind_def, Res.bind_ok, List.drop_drop, List.drop_zero] at hm
          rw [if_neg h3, hsl, Res.bind_def, Res.bind_ok] at hg
          obtain ⟨us, e', k1, k2, k3⟩ := ih f2 (o + 2 + z) (count + 1) (out ++ startCode ++ (packet.drop (o + 2)).take z) (markUnit e ((packet.drop (o + 2)).take z))
            (by omega) (by omega) (by omega) (by omega)
          rw [k1] at hm
          rw [k2] at hg
          refine ⟨(dd, (packet.drop (o + 2)).take z) :: us, e', hm, ?_, ?_⟩
          · rw [hg]
            simp only [List.map_cons, delivered, startCode, List.append_assoc, List.length_cons]
            rw [show count + 1 + us.length = count + (us.length + 1) by omega]
          · rintro rfl
            apply k3
            unfold markUnit
            split
            · simp [mark]
            · rfl
    · have h0 : packet.drop off = [] := List.drop_eq_nil_of_le (by omega)
      refine stop ?_ ?_
      · rw [h0]
        cases donl <;> rfl
      · rw [show apGo donl packet (fuel + 1) off count out e = (if off < packet.length then _ else _) from rfl, if_neg hlt]

/-- The delivery loop over a whole aggregate: either it finds less than two units, or `payload()` finds the same. -/
theorem apGo_all (donl : Bool) (packet : List Byte) (h2 : 2 ≤ packet.length) (out : List Byte) (e : Option Bool) :
    ∃ o' e' c, apGo donl packet (packet.length + 1) 2 0 out e = .ok (o', e', c) ∧ (e = some true → e' = some true) ∧ out <+: o' ∧
      (2 ≤ c → ∃ v t first others, apDonl donl (packet.drop 2) = .ok (v, t) ∧ v.isSome = donl ∧ apFirst donl t = .ok (first, others) ∧ others ≠ [] ∧
        o' = out ++ delivered (first :: others.map (·.2))) := by
  unfold apGo
  by_cases hlt : 2 < packet.length
  · rw [if_pos hlt]
    have hsk : skip donl (0 == 0) = if donl = true then 2 else 0 := by unfold skip; cases donl <;> rfl
    rw [hsk]
    by_cases h3 : 2 + (if donl = true then 2 else 0) > packet.length
    · rw [if_pos h3]; exact ⟨_, _, _, rfl, id, List.prefix_refl _, by omega⟩
    · rw [if_neg h3]
      by_cases h4 : 2 + (if donl = true then 2 else 0) + 2 > packet.length
      · rw [if_pos h4]; exact ⟨_, _, _, rfl, id, List.prefix_refl _, by omega⟩
      · rw [if_neg h4]
        obtain ⟨v, hv, hvs⟩ : ∃ v, apDonl donl (packet.drop 2) = .ok (v, packet.drop (2 + (if donl = true then 2 else 0))) ∧ v.isSome = donl := by
          cases donl with
          | false => exact ⟨none, rfl, rfl⟩
          | true =>
            simp only [if_true] at h4
            refine ⟨some (rd16 (packet.drop 2)[0]! (packet.drop 2)[1]!), ?_, rfl⟩
            unfold apDonl
            rw [if_pos rfl, if_neg (by rw [List.length_drop]; omega)]
            rw [Res.idx_of_lt (by rw [List.length_drop]; omega), Res.bind_def, Res.bind_ok, Res.idx_of_lt (by rw [List.length_drop]; omega), Res.bind_def, Res.bind_ok,
              Res.from_of_le (by rw [List.length_drop]; omega), Res.bind_def, Res.bind_ok, List.drop_drop]
            rw [getElem!_pos _ _ (by rw [List.length_drop]; omega), getElem!_pos _ _ (by rw [List.length_drop]; omega)]
            rfl
        generalize hs : 2 + (if donl = true then 2 else 0) = o at *
        have i0 : (Res.idx (packet.drop o) 0 : Res PErr Byte) = Res.idx packet o := by
          rw [Res.idx_of_lt (by rw [List.length_drop]; omega), Res.idx_of_lt (by omega)]
          simp
        have i1 : (Res.idx (packet.drop o) 1 : Res PErr Byte) = Res.idx packet (o + 1) := by
          rw [Res.idx_of_lt (by rw [List.length_drop]; omega), Res.idx_of_lt (by omega)]
          simp
        have hF : apFirst donl (packet.drop o) = (do
            let t2 ← Res.from_ (packet.drop o) 2
            if t2.length < rd16 packet[o] packet[o + 1] then .err .shortPacket
            else do
              let n ← Res.slice t2 0 (rd16 packet[o] packet[o + 1])
              let t3 ← Res.from_ t2 (rd16 packet[o] packet[o + 1])
              let us ← apMore donl (t3.length + 1) t3
              if us = [] then .err .shortPacket else pure (n, us)) := by
          unfold apFirst
          rw [if_neg (by rw [List.length_drop]; omega), i0, i1, Res.idx_of_lt (by omega), Res.bind_def, Res.bind_ok, Res.idx_of_lt (by omega), Res.bind_def, Res.bind_ok]
        rw [Res.from_of_le (by rw [List.length_drop]; omega), Res.bind_def, Res.bind_ok, List.drop_drop] at hF
        rw [Res.idx_of_lt (by omega), Res.bind_def, Res.bind_ok, Res.idx_of_lt (by omega), Res.bind_def, Res.bind_ok]
        generalize rd16 packet[o] packet[o + 1] = z at *
        by_cases h5 : o + 2 + z > packet.length
        · rw [if_pos h5]; exact ⟨_, _, _, rfl, id, List.prefix_refl _, by omega⟩
        · rw [if_neg h5, slice_piece _ _ _ (by omega), Res.bind_def, Res.bind_ok]
          obtain ⟨us, e', k1, k2, k3⟩ := apGo_more donl packet packet.length ((packet.drop (o + 2 + z)).length + 1) (o + 2 + z) (0 + 1) (out ++ startCode ++ (packet.drop (o + 2)).take z)
            (markUnit e ((packet.drop (o + 2)).take z)) (by omega) (by omega) (by omega) (by rw [List.length_drop]; omega)
          refine ⟨_, _, _, k2, ?_, ?_, ?_⟩
          · rintro rfl
            apply k3
            unfold markUnit
            split
            · simp [mark]
            · rfl
          · simp only [List.append_assoc]; exact List.prefix_append _ _
          · intro hc
            have hus : us ≠ [] := by rintro rfl; simp at hc
            refine ⟨v, _, (packet.drop (o + 2)).take z, us, hv, hvs, ?_, hus, ?_⟩
            · rw [hF, if_neg (by rw [List.length_drop]; omega), Res.slice_of_le (by omega) (by rw [List.length_drop]; omega), Res.bind_def, Res.bind_ok,
                Res.from_of_le (by rw [List.length_drop]; omega), Res.bind_def, Res.bind_ok, List.drop_drop, List.drop_zero, k1, Res.bind_def, Res.bind_ok, if_neg hus]
              rfl
            · simp only [delivered, startCode, List.append_assoc]
  · rw [if_neg hlt]; exact ⟨_, _, _, rfl, id, List.prefix_refl _, by omega⟩

theorem detectAp_safe (payload : List Byte) : ∀ (fuel off : Nat), (detectAp payload fuel off).NoPanic := by
  intro fuel
  induction fuel with
  | zero => intro _; trivial
  | succ fuel ih =>
    intro off
    unfold detectAp
    split
    · rename_i h
      rw [Res.idx_of_lt (by omega), Res.bind_def, Res.bind_ok, Res.idx_of_lt (by omega), Res.bind_def, Res.bind_ok]
      split
      · trivial
      · rename_i h2
        rw [Res.idx_of_lt (by omega), Res.bind_def, Res.bind_ok, Res.idx_of_lt (by omega), Res.bind_def, Res.bind_ok]
        split
        · trivial
        · exact ih _
    · trivial

theorem takeDonl_safe (t : List Byte) : (takeDonl t).NoPanic := by
  unfold takeDonl
  split
  · trivial
  · rw [Res.idx_of_lt (by omega), Res.bind_def, Res.bind_ok, Res.idx_of_lt (by omega), Res.bind_def, Res.bind_ok, Res.from_of_le (by omega)]
    trivial

theorem parsePaci_safe (p : List Byte) : (parsePaci p).NoPanic := by
  unfold parsePaci
  split
  · trivial
  · rw [Res.idx_of_lt (by omega), Res.bind_def, Res.bind_ok, Res.idx_of_lt (by omega), Res.bind_def, Res.bind_ok]
    split
    · trivial
    · split
      · trivial
      · rw [Res.idx_of_lt (by omega), Res.bind_def, Res.bind_ok, Res.idx_of_lt (by omega), Res.bind_def, Res.bind_ok, Res.from_of_le (by omega), Res.bind_def, Res.bind_ok]
        split
        · trivial
        · rw [Res.slice_of_le (by omega) (by omega), Res.bind_def, Res.bind_ok, Res.from_of_le (by omega)]
          trivial

theorem parseFu_safe (donl : Bool) (p : List Byte) : (parseFu donl p).NoPanic := by
  unfold parseFu
  split
  · trivial
  · rw [Res.idx_of_lt (by omega), Res.bind_def, Res.bind_ok, Res.idx_of_lt (by omega), Res.bind_def, Res.bind_ok]
    split
    · trivial
    · split
      · trivial
      · rw [Res.idx_of_lt (by omega), Res.bind_def, Res.bind_ok, Res.from_of_le (by omega), Res.bind_def, Res.bind_ok]
        split
        · have := takeDonl_safe (p.drop 3)
          revert this
          cases takeDonl (p.drop 3) with
          | ok r => intro _; trivial
          | err e => intro _; trivial
          | panic => intro h; exact h.elim
        · trivial

theorem parseSingle_safe (donl : Bool) (p : List Byte) : (parseSingle donl p).NoPanic := by
  unfold parseSingle
  split
  · trivial
  · rw [Res.idx_of_lt (by omega), Res.bind_def, Res.bind_ok, Res.idx_of_lt (by omega), Res.bind_def, Res.bind_ok]
    split
    · trivial
    · split
      · trivial
      · rw [Res.from_of_le (by omega), Res.bind_def, Res.bind_ok]
        split
        · have := takeDonl_safe (p.drop 2)
          revert this
          cases takeDonl (p.drop 2) with
          | ok r => intro _; trivial
          | err e => intro _; trivial
          | panic => intro h; exact h.elim
        · trivial

theorem orElse_safe {α} (r : Res PErr α) (d : D) (out : List Byte) (e : Option Bool) (k) (hr : r.NoPanic) (hk : ∀ a, (k a).NoPanic) : (orElse r d out e k).NoPanic := by
  unfold orElse
  cases r with
  | ok a => exact hk a
  | err _ => trivial
  | panic => exact hr.elim

/-- An aggregate, whatever its bytes: with less than two units an error after the units, else all of them,
and `payload()` shows them. -/
theorem depackAp_cases (d : D) (b0 b1 : Byte) (rest out : List Byte) (e : Option Bool) (hr : rest ≠ []) (hF : fbit b0 = false) (hT : ntype b0 = 48) :
    (∃ o' e', depackAp d (b0 :: b1 :: rest) out e = .ok (d, o', e', some .shortPacket) ∧ out <+: o' ∧ (e = some true → e' = some true)) ∨
    ∃ v first others e', others ≠ [] ∧ v.isSome = d.donl ∧ (e = some true → e' = some true) ∧
      depackAp d (b0 :: b1 :: rest) out e = .ok ({ d with payload := .ap v first others }, out ++ delivered (first :: others.map (·.2)), e', none) := by
  obtain ⟨o', e', c, h1, h2, h3, h4⟩ := apGo_all d.donl (b0 :: b1 :: rest) (by simp) out e
  unfold depackAp
  rw [h1, Res.bind_def, Res.bind_ok]
  by_cases hc : c < 2
  · rw [if_pos hc]
    exact Or.inl ⟨_, _, rfl, h3, h2⟩
  · rw [if_neg hc]
    obtain ⟨v, t, first, others, g1, g2, g3, g4, g5⟩ := h4 (by omega)
    refine Or.inr ⟨v, first, others, e', g4, g2, h2, ?_⟩
    have hp : parseAp d.donl (b0 :: b1 :: rest) = .ok (v, first, others) := by
      unfold parseAp
      have : 1 ≤ rest.length := by
        cases rest with
        | nil => exact absurd rfl hr
        | cons _ _ => simp
      rw [if_neg (by simp only [List.length_cons]; omega)]
      show (if fbit b0 = true then _ else if ntype b0 ≠ 48 then _ else _ : Res PErr _) = _
      rw [if_neg (by rw [hF]; simp), if_neg (by rw [hT]; simp), Res.from_of_le (by simp), Res.bind_def, Res.bind_ok, g1, Res.bind_def, Res.bind_ok, g3, Res.bind_def, Res.bind_ok]
      rfl
    rw [hp, g5]
    rfl

theorem depack_cons (d : D) (b0 b1 b2 : Byte) (rest out : List Byte) (e : Option Bool) : depack d (b0 :: b1 :: b2 :: rest) out e =
    if fbit b0 = true then .ok (d, out, e, some .h265Corrupted)
    else if ntype b0 = 50 then depackPaci d (b0 :: b1 :: b2 :: rest) out e
    else if ntype b0 = 49 then depackFu d (b0 :: b1 :: b2 :: rest) out e
    else if ntype b0 = 48 then depackAp d (b0 :: b1 :: b2 :: rest) out e
    else depackSingle d (b0 :: b1 :: b2 :: rest) out e (ntype b0) := by
  unfold depack
  rw [if_neg (by simp)]
  rfl

/-- C24, H.265: no bytes, in any state, panic the depacketizer or the key frame detector. -/
theorem C24_h265 (d : D) (packet out : List Byte) (e : Option Bool) :
    (depack d packet out e).NoPanic ∧ (depacketize d packet out e).NoPanic ∧ (detect packet).NoPanic := by
  have h1 : (depack d packet out e).NoPanic := by
    match packet with
    | [] => trivial
    | [_] => trivial
    | [_, _] => trivial
    | b0 :: b1 :: b2 :: rest =>
      rw [depack_cons]
      by_cases hF : fbit b0 = true
      · rw [if_pos hF]; trivial
      · rw [if_neg hF]
        split
        · exact orElse_safe _ _ _ _ _ (parsePaci_safe _) (fun _ => trivial)
        · split
          · refine orElse_safe _ _ _ _ _ (parseFu_safe _ _) (fun a => ?_)
            split
            · trivial
            · split <;> trivial
          · split
            · rename_i h48
              rcases depackAp_cases d b0 b1 (b2 :: rest) out e (by simp) (by simpa using hF) h48 with ⟨_, _, h, -⟩ | ⟨_, _, _, _, -, -, -, h⟩
              · rw [h]; trivial
              · rw [h]; trivial
            · exact orElse_safe _ _ _ _ _ (parseSingle_safe _ _) (fun _ => trivial)
  refine ⟨h1, ?_, ?_⟩
  · unfold depacketize
    revert h1
    cases depack d packet out e with
    | ok r => intro _; rw [Res.bind_def, Res.bind_ok]; split <;> trivial
    | err e => intro _; trivial
    | panic => intro h; exact h.elim
  · unfold detect
    match packet with
    | [] => trivial
    | [_] => trivial
    | b0 :: b1 :: rest =>
      dsimp only
      split
      · trivial
      · split
        · exact detectAp_safe _ _ _
        · split
          · cases rest <;> trivial
          · trivial

/-- C24, H.265: an error never takes anything of what was in `out` away and never turns a key frame flag off. -/
theorem C24_h265_keeps (d : D) (packet out : List Byte) (e : Option Bool) (d' : D) (out' : List Byte) (e' : Option Bool) (err : Option PErr)
    (h : depack d packet out e = .ok (d', out', e', err)) : out <+: out' ∧ (e = some true → e' = some true) := by
  have hmark : ∀ (e : Option Bool) k, e = some true → mark e k = some true := by
    rintro _ k rfl; simp [mark]
  have hunit : ∀ (e : Option Bool) n, e = some true → markUnit e n = some true := by
    intro e n he
    unfold markUnit
    split
    · exact hmark _ _ he
    · exact he
  have horElse : ∀ {α} (r : Res PErr α) (k : α → Res PErr (D × List Byte × Option Bool × Option PErr)),
      (∀ a d' out' e' err, k a = .ok (d', out', e', err) → out <+: out' ∧ (e = some true → e' = some true)) →
      orElse r d out e k = .ok (d', out', e', err) → out <+: out' ∧ (e = some true → e' = some true) := by
    intro α r k hk hh
    unfold orElse at hh
    cases r with
    | ok a => exact hk a _ _ _ _ hh
    | err x => cases hh; exact ⟨List.prefix_refl _, id⟩
    | panic => cases hh
  match packet, h with
  | [], h => cases h; exact ⟨List.prefix_refl _, id⟩
  | [_], h => cases h; exact ⟨List.prefix_refl _, id⟩
  | [_, _], h => cases h; exact ⟨List.prefix_refl _, id⟩
  | b0 :: b1 :: b2 :: rest, h =>
    rw [depack_cons] at h
    by_cases hF : fbit b0 = true
    · rw [if_pos hF] at h; cases h; exact ⟨List.prefix_refl _, id⟩
    · rw [if_neg hF] at h
      split at h
      · refine horElse _ _ ?_ h
        intro a d' out' e' err hh
        cases hh
        exact ⟨by simp only [List.append_assoc]; exact List.prefix_append _ _, hunit _ _⟩
      · split at h
        · refine horElse _ _ ?_ h
          intro a d' out' e' err hh
          split at hh
          · cases hh; exact ⟨List.prefix_refl _, id⟩
          · split at hh
            · cases hh
              exact ⟨by simp only [List.append_assoc]; exact List.prefix_append _ _, hmark _ _⟩
            · cases hh; exact ⟨List.prefix_refl _, id⟩
        · split at h
          · rename_i h48
            rcases depackAp_cases d b0 b1 (b2 :: rest) out e (by simp) (by simpa using hF) h48 with ⟨_, _, h1, h2, h3⟩ | ⟨_, _, _, _, -, -, h3, h1⟩
            · rw [h1] at h; cases h; exact ⟨h2, h3⟩
            · rw [h1] at h; cases h; exact ⟨List.prefix_append _ _, h3⟩
          · refine horElse _ _ ?_ h
            intro a d' out' e' err hh
            cases hh
            exact ⟨by simp only [List.append_assoc]; exact List.prefix_append _ _, hmark _ _⟩

/-! ### `payload()` -/

theorem parsePaci_len {p : List Byte} {c0 c1 : Byte} {f : Nat} {phes body : List Byte} (h : parsePaci p = .ok (c0, c1, f, phes, body)) :
    phes.length = paciSize f ∧ body ≠ [] := by
  unfold parsePaci at h
  split at h
  · cases h
  · rename_i hl
    rw [Res.idx_of_lt (by omega), Res.bind_def, Res.bind_ok, Res.idx_of_lt (by omega), Res.bind_def, Res.bind_ok] at h
    split at h
    · cases h
    · split at h
      · cases h
      · rw [Res.idx_of_lt (by omega), Res.bind_def, Res.bind_ok, Res.idx_of_lt (by omega), Res.bind_def, Res.bind_ok, Res.from_of_le (by omega), Res.bind_def, Res.bind_ok] at h
        split at h
        · cases h
        · rw [Res.slice_of_le (by omega) (by omega), Res.bind_def, Res.bind_ok, Res.from_of_le (by omega)] at h
          rename_i hs
          cases h
          refine ⟨by rw [List.length_drop, List.length_take]; omega, ?_⟩
          intro he
          have := congrArg List.length he
          rw [List.length_drop, List.length_nil] at this
          omega


/-- C64, H.265: whatever the bytes of an accepted packet that is not a fragment, `payload()` shows what was
delivered: the units of an aggregate (at least two), or the one unit. -/
theorem C64_h265_payload (d : D) (b0 : Byte) (rest out : List Byte) (e : Option Bool) (d' : D) (out' : List Byte) (e' : Option Bool)
    (h : depacketize d (b0 :: rest) out e = .ok (d', out', e')) :
    (unitType (b0 :: rest) = 48 → ∃ v first others, d'.payload = .ap v first others ∧ others ≠ [] ∧ v.isSome = d.donl ∧
      out' = out ++ delivered (first :: others.map (·.2))) ∧
    (unitType (b0 :: rest) ≠ 48 → unitType (b0 :: rest) ≠ 49 → unitType (b0 :: rest) ≠ 50 →
      ∃ c0 c1 v body, d'.payload = .single c0 c1 v body ∧ body ≠ [] ∧ v.isSome = d.donl ∧ out' = out ++ delivered [c0 :: c1 :: body]) ∧
    (unitType (b0 :: rest) = 50 → ∃ c0 c1 f phes body, d'.payload = .paci c0 c1 f phes body ∧ phes.length = paciSize f ∧ body ≠ [] ∧ out' = out ++ delivered [body]) := by
  match rest, h with
  | [], h => cases h
  | [_], h => cases h
  | b1 :: b2 :: rest, h =>
    unfold depacketize at h
    rw [depack_cons] at h
    by_cases hF : fbit b0 = true
    · rw [if_pos hF] at h; cases h
    · rw [if_neg hF] at h
      refine ⟨?_, ?_, ?_⟩
      · intro h48
        have h48 : ntype b0 = 48 := h48
        rw [if_neg (by omega), if_neg (by omega), if_pos h48] at h
        rcases depackAp_cases d b0 b1 (b2 :: rest) out e (by simp) (by simpa using hF) h48 with ⟨_, _, h1, h2, h3⟩ | ⟨v, first, others, _, h2, h4, -, h1⟩
        · rw [h1] at h; cases h
        · rw [h1] at h; cases h
          exact ⟨v, first, others, rfl, h2, h4, rfl⟩
      · intro n48 n49 n50
        have n48 : ntype b0 ≠ 48 := n48
        have n49 : ntype b0 ≠ 49 := n49
        have n50 : ntype b0 ≠ 50 := n50
        rw [if_neg n50, if_neg n49, if_neg n48] at h
        unfold depackSingle at h
        have hp : parseSingle d.donl (b0 :: b1 :: b2 :: rest) = ((if d.donl = true then takeDonl (b2 :: rest) else .ok (none, b2 :: rest)) >>= fun r => pure (b0, b1, r.1, r.2)) := by
          unfold parseSingle
          rw [if_neg (by simp)]
          show (if fbit b0 = true then _ else if ntype b0 = 49 ∨ ntype b0 = 50 ∨ ntype b0 = 48 then _ else _ : Res PErr _) = _
          rw [if_neg hF, if_neg (by omega)]
          rfl
        rw [hp] at h
        revert h
        cases hd : d.donl with
        | false =>
          intro h
          cases h
          exact ⟨b0, b1, none, b2 :: rest, rfl, by simp, rfl, by simp [delivered, startCode]⟩
        | true =>
          intro h
          rw [if_pos rfl] at h
          unfold takeDonl at h
          by_cases hl : (b2 :: rest).length ≤ 2
          · rw [if_pos hl] at h; cases h
          · rw [if_neg hl] at h
            match rest, hl, h with
            | [], hl, h => exact absurd (by simp) hl
            | [_], hl, h => exact absurd (by simp) hl
            | b3 :: b4 :: rest, _, h =>
              cases h
              exact ⟨b0, b1, some (rd16 b2 b3), b4 :: rest, rfl, by simp, rfl, by simp [delivered, startCode]⟩
      · intro h50
        have h50 : ntype b0 = 50 := h50
        rw [if_pos h50] at h
        unfold depackPaci at h
        cases hp : parsePaci (b0 :: b1 :: b2 :: rest) with
        | err x => rw [hp] at h; cases h
        | panic => rw [hp] at h; cases h
        | ok r =>
          obtain ⟨c0, c1, f, phes, body⟩ := r
          rw [hp] at h
          cases h
          obtain ⟨k1, k2⟩ := parsePaci_len hp
          exact ⟨c0, c1, f, phes, body, rfl, k1, k2, by simp [delivered, startCode]⟩

/-- The decoding order numbers `payload()` gives for a packet (RFC 7798 4.4.2, 4.4.3): DONL for the first
unit, DOND plus one more each for the others; nothing for a later fragment. -/
def shownDons : Payload → List (Option Nat)
  | .single _ _ v _ => [v]
  | .fu _ _ h v _ => if h.val ≥ 128 then [v] else []
  | .ap v _ others => v :: go v others
  | .paci _ _ _ _ _ => []
where
  /-- The numbers after `v`. -/
  go (v : Option Nat) : List (Option Byte × List Byte) → List (Option Nat)
    | [] => []
    | (x, _) :: r => (v.bind (fun w => x.map (fun y => (w + y.val + 1) % 65536))) :: go (v.bind (fun w => x.map (fun y => w + y.val + 1))) r

theorem shown_go : ∀ (os : List (Byte × List Byte)) (v w : Nat), v % 65536 = w % 65536 →
    shownDons.go (some v) (os.map (fun x => (some x.1, x.2))) = (after w os).map some := by
  intro os
  induction os with
  | nil => intro v w _; rfl
  | cons x os ih =>
    obtain ⟨x, n⟩ := x
    intro v w h
    show some ((v + x.val + 1) % 65536) :: shownDons.go (some (v + x.val + 1)) (os.map _) = some ((w + x.val + 1) % 65536) :: (after (w + x.val + 1) os).map some
    rw [ih (v + x.val + 1) (w + x.val + 1) (by omega), show (v + x.val + 1) % 65536 = (w + x.val + 1) % 65536 by omega]

/-- C72, H.265: with decoding order numbers, in any state, `payload()` gives after the first packet of an
item exactly the numbers of its units. -/
theorem C72_h265 (i : Item) (hi : i.Legal) (d : D) (hd : d.donl = true) (out : List Byte) (e : Option Bool) :
    ∃ q qs d' out' e', i.payloads true = q :: qs ∧ depacketize d q out e = .ok (d', out', e') ∧ shownDons d'.payload = i.dons.map some := by
  cases i with
  | single v n =>
    obtain ⟨b0, b1, t, -, h⟩ := single_read d v n hi.1 hi.2 out e
    rw [hd] at h
    exact ⟨_, [], _, _, _, rfl, h, rfl⟩
  | ap v l h1 first others =>
    have := ap_read d v l h1 first others hi out e
    rw [hd] at this
    refine ⟨_, [], _, _, _, rfl, this, ?_⟩
    show some (v % 65536) :: shownDons.go (some (v % 65536)) (others.map _) = some (v % 65536) :: (after v others).map some
    simp only [if_true]
    rw [shown_go others (v % 65536) v (by omega)]
  | fu v b0 b1 first pieces =>
    obtain ⟨⟨hb, -⟩, hf, -, -⟩ := hi
    obtain ⟨h, hh, hfu⟩ := fu_first' d v b0 b1 hb first hf out e
    rw [hd] at hfu
    refine ⟨_, _, _, _, _, rfl, hfu, ?_⟩
    show (if h.val ≥ 128 then _ else _) = _
    rw [if_pos hh]
    rfl

/-! ### PACI packets -/

/-- A PACI packet made by the sender is read back: the ids, the forbidden bit and the type of the unit inside,
the extension bytes and the bytes after the unit's header. -/
theorem C64_h265_paci (b0 b1 : Byte) (body phes : List Byte) (hb : body ≠ []) (hp : phes.length ≤ 31) :
    ∃ c0 c1 f pkt, buildPaci (b0 :: b1 :: body) phes = .ok pkt ∧ parsePaci pkt = .ok (c0, c1, f, phes, body) ∧
      ntype c0 = 50 ∧ layer c0 c1 = layer b0 b1 ∧ tid c1 = tid b1 ∧
      paciA f = fbit b0 ∧ paciType f = ntype b0 ∧ paciSize f = phes.length ∧ paciF0 f = decide (3 ≤ phes.length) := by
  have hl : layer b0 b1 < 64 := by unfold layer; have := b1.isLt; omega
  have ht : tid b1 < 8 := by unfold tid; omega
  have hn : ntype b0 < 64 := by unfold ntype; omega
  have hb1 : 1 ≤ body.length := by
    cases body with
    | nil => exact absurd rfl hb
    | cons _ _ => simp
  generalize hF : (if fbit b0 = true then 32768 else 0) + ntype b0 * 512 + phes.length * 16 + (if phes.length ≥ 3 then 8 else 0) = F
  have hFlt : F < 65536 := by rw [← hF]; split <;> split <;> omega
  have hcase : (fbit b0 = true → F = 32768 + ntype b0 * 512 + phes.length * 16 + (if phes.length ≥ 3 then 8 else 0)) ∧
      (fbit b0 = false → F = ntype b0 * 512 + phes.length * 16 + (if phes.length ≥ 3 then 8 else 0)) := by
    constructor
    · intro h; rw [← hF, if_pos h]
    · intro h; rw [← hF, if_neg (by simp [h])]; omega
  have h8 : (if phes.length ≥ 3 then 8 else 0) = 0 ∨ (if phes.length ≥ 3 then 8 else 0) = 8 := by split <;> simp
  have hsize : paciSize F = phes.length := by
    unfold paciSize
    cases hf : fbit b0 with
    | true => rw [hcase.1 hf]; omega
    | false => rw [hcase.2 hf]; omega
  refine ⟨u8 ((50 * 512 + layer b0 b1 * 8 + tid b1) / 2 ^ 8), u8 (50 * 512 + layer b0 b1 * 8 + tid b1), F,
    be16 (50 * 512 + layer b0 b1 * 8 + tid b1) ++ be16 F ++ phes ++ body, ?_, ?_, ?_, ?_, ?_, ?_, ?_, hsize, ?_⟩
  · unfold buildPaci
    rw [if_neg (by omega)]
    show Res.ok _ = _
    rw [hF, if_pos (by simp only [List.length_cons]; omega)]
    rfl
  · have hi : rd16 (u8 (F / 2 ^ 8)) (u8 F) = F := by rw [rd16_be16_mod]; omega
    have e1 : be16 (50 * 512 + layer b0 b1 * 8 + tid b1) ++ be16 F ++ phes ++ body
        = u8 ((50 * 512 + layer b0 b1 * 8 + tid b1) / 2 ^ 8) :: u8 (50 * 512 + layer b0 b1 * 8 + tid b1) :: u8 (F / 2 ^ 8) :: u8 F :: (phes ++ body) := by
      unfold be16; simp
    rw [e1]
    have hv : (u8 ((50 * 512 + layer b0 b1 * 8 + tid b1) / 2 ^ 8)).val = 100 + layer b0 b1 / 32 := by rw [u8_val]; omega
    unfold parsePaci
    rw [if_neg (by simp only [List.length_cons, List.length_append]; omega)]
    generalize u8 ((50 * 512 + layer b0 b1 * 8 + tid b1) / 2 ^ 8) = c0 at *
    generalize u8 (50 * 512 + layer b0 b1 * 8 + tid b1) = c1 at *
    show (if fbit c0 = true then _ else if ntype c0 ≠ 50 then _ else _ : Res PErr _) = _
    have hF0 : fbit c0 = false := by unfold fbit; simp; omega
    have hT0 : ntype c0 = 50 := by unfold ntype; omega
    rw [if_neg (by rw [hF0]; simp), if_neg (by rw [hT0]; simp)]
    rw [Res.idx_of_lt (by simp), Res.bind_def, Res.bind_ok, Res.idx_of_lt (by simp), Res.bind_def, Res.bind_ok, Res.from_of_le (by simp), Res.bind_def, Res.bind_ok]
    simp only [List.drop_succ_cons, List.drop_zero, List.getElem_cons_zero, List.getElem_cons_succ]
    rw [hi, hsize, if_neg (by simp only [List.length_append]; omega), Res.slice_of_le (by omega) (by simp), Res.bind_def, Res.bind_ok, Res.from_of_le (by simp), Res.bind_def, Res.bind_ok,
      List.drop_left, List.drop_zero, List.take_left]
    rfl
  · unfold ntype; rw [u8_val]; omega
  · show (u8 _).val % 2 * 32 + (u8 _).val / 8 = layer b0 b1
    rw [u8_val, u8_val]; omega
  · show (u8 _).val % 8 = tid b1
    rw [u8_val]; omega
  · unfold paciA
    cases hf : fbit b0 with
    | true => rw [hcase.1 hf, beq_iff_eq]; omega
    | false => rw [hcase.2 hf, beq_eq_false_iff_ne]; omega
  · unfold paciType
    cases hf : fbit b0 with
    | true => rw [hcase.1 hf]; omega
    | false => rw [hcase.2 hf]; omega
  · unfold paciF0
    rw [Bool.eq_iff_iff, beq_iff_eq, decide_eq_true_eq]
    by_cases h3 : 3 ≤ phes.length
    · have : (if phes.length ≥ 3 then 8 else 0) = 8 := if_pos h3
      cases hf : fbit b0 with
      | true => rw [hcase.1 hf]; omega
      | false => rw [hcase.2 hf]; omega
    · have : (if phes.length ≥ 3 then 8 else 0) = 0 := if_neg h3
      cases hf : fbit b0 with
      | true => rw [hcase.1 hf]; omega
      | false => rw [hcase.2 hf]; omega

/-- But the receiver hands on a PACI packet without the two header bytes of the unit inside: what is
delivered is not the unit, and the key frame flag is read from its body. -/
theorem C64_h265_paci_violation (b0 b1 : Byte) (body phes : List Byte) (hb : body ≠ []) (hp : phes.length ≤ 31) (d : D) (out : List Byte) (e : Option Bool) :
    ∃ pkt d', buildPaci (b0 :: b1 :: body) phes = .ok pkt ∧ depacketize d pkt out e = .ok (d', out ++ delivered [body], markUnit e body) := by
  obtain ⟨c0, c1, f, pkt, h1, h2, h3, -⟩ := C64_h265_paci b0 b1 body phes hb hp
  refine ⟨pkt, { d with payload := .paci c0 c1 f phes body }, h1, ?_⟩
  have hlen : ∃ x0 x1 x2 r, pkt = x0 :: x1 :: x2 :: r ∧ fbit x0 = false ∧ ntype x0 = 50 := by
    unfold parsePaci at h2
    split at h2
    · cases h2
    · rename_i hl
      match pkt, hl, h2 with
      | [], hl, h2 => exact absurd (by simp) hl
      | [_], hl, h2 => exact absurd (by simp) hl
      | [_, _], hl, h2 => exact absurd (by simp) hl
      | x0 :: x1 :: x2 :: r, hl, h2 =>
        refine ⟨x0, x1, x2, r, rfl, ?_⟩
        have h2 : (if fbit x0 = true then _ else if ntype x0 ≠ 50 then _ else _ : Res PErr _) = _ := h2
        split at h2
        · cases h2
        · rename_i hf
          split at h2
          · cases h2
          · rename_i hn
            exact ⟨by simpa using hf, by simpa using hn⟩
  obtain ⟨x0, x1, x2, r, rfl, hF, hT⟩ := hlen
  unfold depacketize
  rw [depack_cons, if_neg (by rw [hF]; simp), if_pos hT]
  unfold depackPaci
  rw [h2]
  show Res.ok _ = _
  simp [delivered, startCode]

/-- So an IDR slice in a PACI packet is not seen as a key frame, neither by the receiver nor by the detector, and
bytes of another slice are. -/
theorem C64_h265_paci_keyframe_violation (d : D) (out : List Byte) :
    (∃ pkt d', buildPaci [0x26, 1, 0xaf, 8] [] = .ok pkt ∧ depacketize d pkt out none = .ok (d', out ++ [0, 0, 0, 1, 0xaf, 8], some false) ∧ detect pkt = .ok false) ∧
    (∃ pkt d', buildPaci [2, 1, 0x26, 8] [] = .ok pkt ∧ depacketize d pkt out none = .ok (d', out ++ [0, 0, 0, 1, 0x26, 8], some true)) := by
  obtain ⟨p1, d1, h1, h2⟩ := C64_h265_paci_violation 0x26 1 [0xaf, 8] [] (by simp) (by simp) d out none
  obtain ⟨p2, d2, h3, h4⟩ := C64_h265_paci_violation 2 1 [0x26, 8] [] (by simp) (by simp) d out none
  refine ⟨⟨p1, d1, h1, h2, ?_⟩, ⟨p2, d2, h3, h4⟩⟩
  have : buildPaci [0x26, 1, 0xaf, 8] [] = .ok [100, 1, 0x26, 0, 0xaf, 8] := by decide +kernel
  rw [this] at h1
  cases h1
  decide +kernel

/-- The temporal scalability bytes (RFC 7798 4.5: TL0PICIDX, IrapPicID, S, E, 6 bits) are read wrong: TL0PICIDX is
always 0, `irap_pic_id` is the TL0PICIDX, and S, E and the rest are read from IrapPicID. -/
theorem C64_h265_tsci_violation (f : Nat) (hf : paciF0 f = true) (hs : 3 ≤ paciSize f) (tl irapId flags : Byte) (more : List Byte) :
    ∃ x, tsci f (tl :: irapId :: flags :: more) = .ok (some x) ∧ tl0picidx x = 0 ∧ irapPicId x = tl.val ∧
      tsciS x = decide (128 ≤ irapId.val) ∧ tsciE x = (irapId.val / 64 % 2 == 1) ∧ tsciRes x = irapId.val % 64 := by
  have h1 := tl.isLt
  have h2 := irapId.isLt
  have g8 : (tl.val * 65536 + irapId.val * 256 + tl.val) / 256 = tl.val * 256 + irapId.val := Nat.div_eq_of_lt_le (by omega) (by omega)
  have g16 : (tl.val * 65536 + irapId.val * 256 + tl.val) / 65536 = tl.val := Nat.div_eq_of_lt_le (by omega) (by omega)
  have g24 : (tl.val * 65536 + irapId.val * 256 + tl.val) / 16777216 = 0 := Nat.div_eq_of_lt (by omega)
  refine ⟨tl.val * 65536 + irapId.val * 256 + tl.val, ?_, ?_, ?_, ?_, ?_, ?_⟩
  · unfold tsci
    rw [if_neg (by rw [hf]; simp; omega)]
    rfl
  · unfold tl0picidx; rw [g24]
  · unfold irapPicId; rw [g16]; omega
  · unfold tsciS
    rw [show (tl.val * 65536 + irapId.val * 256 + tl.val) / 32768 = (tl.val * 65536 + irapId.val * 256 + tl.val) / 256 / 128 by rw [Nat.div_div_eq_div_mul], g8,
      Bool.eq_iff_iff, beq_iff_eq, decide_eq_true_eq]
    clear g8 g16 g24
    omega
  · unfold tsciE
    rw [show (tl.val * 65536 + irapId.val * 256 + tl.val) / 16384 = (tl.val * 65536 + irapId.val * 256 + tl.val) / 256 / 64 by rw [Nat.div_div_eq_div_mul], g8]
    clear g8 g16 g24
    congr 1
    omega
  · unfold tsciRes; rw [g8]; omega

/-- Making a PACI packet of a unit without its two header bytes panics. -/
theorem C24_h265_paci_violation (b : Byte) : buildPaci [] [] = .panic ∧ buildPaci [b] [] = .panic := ⟨rfl, rfl⟩

/-- A PACI packet read from the network never makes the accessor of the scalability bytes panic. -/
theorem C24_h265_tsci (p : List Byte) (c0 c1 : Byte) (f : Nat) (phes body : List Byte) (h : parsePaci p = .ok (c0, c1, f, phes, body)) : (tsci f phes).NoPanic := by
  have hl := (parsePaci_len h).1
  unfold tsci
  split
  · trivial
  · rename_i hc
    have : 3 ≤ phes.length := by rw [hl]; by_contra h; exact hc (Or.inr (by omega))
    rw [Res.idx_of_lt (by omega), Res.bind_def, Res.bind_ok, Res.idx_of_lt (by omega), Res.bind_def, Res.bind_ok]
    trivial

/-! ### Where the claims fail -/

/-- With decoding order numbers a single packet may be two bytes over the MTU. -/
theorem C23_h265_mtu_violation :
    packetize ⟨none, none, none, some 7⟩ 10 (annexB [(3, [0x26, 1, 1, 2, 3, 4, 5, 6, 7, 8])])
      = .ok ([[0x26, 1, 0, 7, 1, 2, 3, 4, 5, 6, 7, 8]], ⟨none, none, none, some 8⟩) := by decide +kernel

/-- The ids of the aggregate of parameter sets are those of the slice after them, not the lowest: parameter sets of
temporal id 1 are marked with temporal id 3. -/
theorem C23_h265_ids_violation :
    packetize ⟨none, none, none, none⟩ 100 (annexB [(3, [0x42, 1, 9]), (3, [0x44, 1, 9]), (3, [2, 3, 5])])
      = .ok ([[0x60, 3, 0, 3, 0x42, 1, 9, 0, 3, 0x44, 1, 9], [2, 3, 5]], ⟨none, none, none, none⟩) := by decide +kernel

/-- An aggregate with one unit is refused, but the unit stays in the output. -/
theorem C24_h265_aggregate_error_violation : depack ⟨none, false, .single 0 0 none []⟩ [0x60, 1, 0, 3, 0x26, 1, 9] [] none
      = .ok (⟨none, false, .single 0 0 none []⟩, [0, 0, 0, 1, 0x26, 1, 9], some true, some .shortPacket) := by decide +kernel

/-- Empty units and bytes after the last unit of an aggregate are accepted: a start code without a unit is delivered. -/
theorem C24_h265_aggregate_junk_violation : depack ⟨none, false, .single 0 0 none []⟩ [0x60, 1, 0, 0, 0, 1, 7, 0xff] [] none
      = .ok (⟨none, false, .ap none [] [(none, [7])]⟩, [0, 0, 0, 1, 0, 0, 0, 1, 7], none, none) := by decide +kernel

/-- A unit that is only its header (end of sequence, end of bitstream) is sent, but the receiver refuses it. -/
theorem C23_h265_header_only_violation (b0 b1 : Byte) (ht : ntype b0 = 36 ∨ ntype b0 = 37) (mtu : Nat) (hm : 2 ≤ mtu) (d : D) (out : List Byte) (e : Option Bool) :
    emit ⟨none, none, none, none⟩ [b0, b1] mtu = .ok ([[b0, b1]], ⟨none, none, none, none⟩) ∧ depacketize d [b0, b1] out e = .err .shortPacket := by
  refine ⟨?_, rfl⟩
  unfold emit
  dsimp only
  rw [if_neg (by omega), if_neg (by omega), if_neg (by omega), if_neg (by omega), if_neg (by omega)]
  unfold emitNalu
  rw [if_pos (by show 0 + 2 ≤ mtu; omega)]
  rfl

/-- A parameter set too big for one packet is dropped in silence. -/
theorem C23_h265_parameter_sets_violation :
    packetize ⟨none, none, none, none⟩ 10 (annexB [(3, 0x42 :: 1 :: List.replicate 20 7), (3, [0x44, 1, 3]), (3, [0x26, 1, 6])])
      = .ok ([[0x44, 1, 3], [0x26, 1, 6]], ⟨none, none, none, none⟩) := by decide +kernel

/-- Of two parameter sets of a kind before a slice only the last is sent: streams with several PPS lose them. -/
theorem C23_h265_many_sets_violation :
    packetize ⟨none, none, none, none⟩ 100 (annexB [(3, [0x42, 1, 1]), (3, [0x44, 1, 2]), (3, [0x44, 1, 3]), (3, [0x26, 1, 6])])
      = .ok ([[0x60, 1, 0, 3, 0x42, 1, 1, 0, 3, 0x44, 1, 3], [0x26, 1, 6]], ⟨none, none, none, none⟩) := by decide +kernel

/-- Bytes before the first start code are dropped in silence. -/
theorem C23_h265_leading_bytes_violation :
    packetize ⟨none, none, none, none⟩ 100 [0x26, 1, 1, 0, 0, 1, 2, 1, 7] = .ok ([[2, 1, 7]], ⟨none, none, none, none⟩) := by
  decide +kernel

/-- A unit of a type the payload format uses itself is sent as it is, and read as something else: here as an
aggregate of two units. -/
theorem C23_h265_reserved_type_violation :
    packetize ⟨none, none, none, none⟩ 100 (annexB [(3, [0x60, 1, 0, 1, 5, 0, 1, 6])]) = .ok ([[0x60, 1, 0, 1, 5, 0, 1, 6]], ⟨none, none, none, none⟩) ∧
    depacketize ⟨none, false, .single 0 0 none []⟩ [0x60, 1, 0, 1, 5, 0, 1, 6] [] none = .ok (⟨none, false, .ap none [5] [(none, [6])]⟩, [0, 0, 0, 1, 5, 0, 0, 0, 1, 6], none) :=
  ⟨by decide +kernel, by decide +kernel⟩

/-- An end fragment without a start brings the last unit again, with its own header: the buffer is not
cleared when a unit is delivered. -/
theorem C24_h265_stale_fragments_violation (d : D) (b0 b1 : Byte) (hb : b0.val < 128) (stale x out : List Byte) (hx : x ≠ []) (e : Option Bool) (hs : d.fu = some stale) :
    ∃ d', depacketize d (frag b0 b1 false true x) out e
      = .ok (d', out ++ ([0, 0, 0, 1] ++ b0 :: b1 :: (stale ++ x)), mark e (irap (b0.val / 2))) := by
  obtain ⟨pl, h⟩ := fu_next d stale hs b0 b1 hb true x hx out e
  exact ⟨_, h⟩

/-- Fragments without an end are kept for ever: any number of them, all their bytes. -/
theorem C24_h265_memory_violation (b0 b1 : Byte) (hb : b0.val < 128) (x : List Byte) (hx : x ≠ []) : ∀ (k : Nat) (d : D) (acc : List Byte), d.fu = some acc →
    ∃ d', runDepack depacketize (List.replicate k (frag b0 b1 false false x)) d [] none = .ok (d', [], none) ∧ d'.fu = some (acc ++ (List.replicate k x).flatten) := by
  intro k
  induction k with
  | zero => intro d acc h; exact ⟨d, rfl, by simpa using h⟩
  | succ k ih =>
    intro d acc h
    obtain ⟨pl, g⟩ := fu_next d acc h b0 b1 hb false x hx [] none
    obtain ⟨d', k1, k2⟩ := ih { d with fu := some (acc ++ x), payload := pl } (acc ++ x) rfl
    refine ⟨d', ?_, ?_⟩
    · rw [List.replicate_succ, run_cons, g, Res.bind_def, Res.bind_ok]
      exact k1
    · rw [k2]; simp [List.replicate_succ]

end Str0m.H265
