import Verif.Proofs.H266Run
import Mathlib.Tactic.FinCases
/-
  C23, C24, C64, C72 for H.266 (RFC 9328).
-/
namespace Str0m.H266
open Str0m.Packet
open Packet.Spec (FitsMtu)
open Spec
open H264.Spec (annexB delivered)

/-- C64, H.266: whatever mix of single unit packets, aggregates and fragments a sender uses (RFC 9328 4.3),
with or without decoding order numbers, and whatever came before, the receiver appends exactly the
units, in order, and says key frame iff one of them is an IDR or CRA slice (or it knew before). -/
theorem C64_h266 (items : List Item) (hl : ∀ i ∈ items, i.Legal) (d : D) (out : List Byte) (e : Option Bool) :
    ∃ d' k, runDepack depacketize (items.flatMap (Item.payloads d.donl)) d out e
      = .ok (d', out ++ delivered (items.flatMap Item.units), k) ∧ d'.donl = d.donl ∧
      (k = some true ↔ e = some true ∨ ∃ n ∈ items.flatMap Item.units, Irap n) := by
  obtain ⟨d', h1, h2⟩ := items_read items d hl out e
  exact ⟨d', _, h2, h1, keyOf_iff _ _⟩

/-! ### The packet level functions -/

theorem detectAp_read : ∀ (us : List (List Byte)) (pre : List Byte) (fuel : Nat), (∀ n ∈ us, Travels n ∧ n.length < 2 ^ 16) → us.length < fuel →
    detectAp (pre ++ aggregated us) fuel pre.length = .ok (us.any (fun n => irap (unitType n))) := by
  intro us
  induction us with
  | nil =>
    intro pre fuel _ hf
    obtain ⟨f, rfl⟩ : ∃ f, fuel = f + 1 := ⟨fuel - 1, by simp at hf; omega⟩
    unfold detectAp
    rw [if_neg (by simp [aggregated])]
    rfl
  | cons n ns ih =>
    intro pre fuel hu hf
    obtain ⟨f, rfl⟩ : ∃ f, fuel = f + 1 := ⟨fuel - 1, by simp at hf; omega⟩
    obtain ⟨ht, hlen⟩ := hu n (by simp)
    obtain ⟨b0, b1, t, hn, hb, hty⟩ := travels_head ht
    have hl2 : 2 ≤ n.length := ht.1
    have e1 : pre ++ aggregated (n :: ns) = (pre ++ be16 n.length) ++ n ++ aggregated ns := by
      show pre ++ (be16 n.length ++ n ++ aggregated ns) = _
      simp only [List.append_assoc]
    have e2 : pre ++ aggregated (n :: ns) = pre ++ u8 (n.length / 2 ^ 8) :: u8 n.length :: (n ++ aggregated ns) := by
      rw [e1]; unfold be16; simp
    have hl : (pre ++ aggregated (n :: ns)).length = pre.length + 2 + n.length + (aggregated ns).length := by
      rw [e2]; simp; omega
    have g0 : (Res.idx (pre ++ aggregated (n :: ns)) pre.length : Res PErr Byte) = .ok (u8 (n.length / 2 ^ 8)) := by
      rw [Res.idx_of_lt (by rw [hl]; omega)]
      simp only [e2]
      rw [List.getElem_append_right (by omega)]; simp
    have g1 : (Res.idx (pre ++ aggregated (n :: ns)) (pre.length + 1) : Res PErr Byte) = .ok (u8 n.length) := by
      rw [Res.idx_of_lt (by rw [hl]; omega)]
      simp only [e2]
      rw [List.getElem_append_right (by omega)]; simp
    have g4 : (Res.idx (pre ++ aggregated (n :: ns)) (pre.length + 3) : Res PErr Byte) = .ok b1 := by
      rw [Res.idx_of_lt (by rw [hl]; omega)]
      simp only [e2]
      rw [List.getElem_append_right (by omega)]; simp [hn]
    unfold detectAp
    rw [if_pos (by omega), g0, Res.bind_def, Res.bind_ok, g1, Res.bind_def, Res.bind_ok, rd16_be16 hlen, if_neg (by omega)]
    rw [g4, Res.bind_def, Res.bind_ok, List.any_cons, hty]
    by_cases hk : irap (ntype b1) = true
    · rw [if_pos hk]
      have : irap (b1.val / 8) = true := hk
      rw [this]; rfl
    · rw [if_neg hk]
      have := ih (pre ++ be16 n.length ++ n) f (fun m hm => hu m (List.mem_cons_of_mem _ hm)) (by simp at hf; omega)
      rw [show (pre ++ be16 n.length ++ n).length = pre.length + 2 + n.length by simp; omega, ← e1] at this
      rw [this]
      have : irap (b1.val / 8) = false := by simpa [ntype] using hk
      rw [this]; rfl

theorem detect_frag (b0 b1 : Byte) (s l p : Bool) (x : List Byte) :
    detect (frag b0 b1 s l p x) = .ok (s && irap (b1.val / 8)) := by
  have hb1 : b1.val < 256 := b1.isLt
  have hT : ntype (u8 (29 * 8 + b1.val % 8)) = 29 := by unfold ntype; rw [u8_val]; omega
  unfold frag
  show (if ntype (u8 (29 * 8 + b1.val % 8)) = 28 then _ else if ntype (u8 (29 * 8 + b1.val % 8)) = 29 then _ else _) = _
  rw [hT, if_neg (by omega), if_pos rfl]
  have hh : (u8 ((if s then 128 else 0) + (if l then 64 else 0) + (if p then 32 else 0) + b1.val / 8)).val
      = (if s then 128 else 0) + (if l then 64 else 0) + (if p then 32 else 0) + b1.val / 8 := by
    rw [u8_val]; cases s <;> cases l <;> cases p <;> simp <;> omega
  have hm : ((if s then 128 else 0) + (if l then 64 else 0) + (if p then 32 else 0) + b1.val / 8) % 32 = b1.val / 8 := by
    cases s <;> cases l <;> cases p <;> simp <;> omega
  have hS : (if s then 128 else 0) + (if l then 64 else 0) + (if p then 32 else 0) + b1.val / 8 ≥ 128 ↔ s = true := by
    cases s <;> cases l <;> cases p <;> simp <;> omega
  dsimp only
  rw [hh, hm]
  have hk : (decide (7 ≤ b1.val / 8) && decide (b1.val / 8 ≤ 9)) = irap (b1.val / 8) := by
    unfold irap
    rw [Bool.eq_iff_iff]
    simp only [Bool.and_eq_true, Bool.or_eq_true, decide_eq_true_eq, beq_iff_eq]
    omega
  rw [hk]
  congr 2
  rw [Bool.eq_iff_iff, decide_eq_true_eq, hS]

/-- C64, H.266: the packet level detector agrees with the units for every item without decoding order
numbers, and for single packets and fragments with them too. -/
theorem C64_h266_detect (i : Item) (hi : i.Legal) (donl : Bool) (hd : donl = true → ∀ v h0 tid us, i ≠ .ap v h0 tid us) :
    (∃ q ∈ i.payloads donl, detect q = .ok true) ↔ ∃ n ∈ i.units, Irap n := by
  cases i with
  | single v n =>
    obtain ⟨b0, b1, t, rfl, hb, hty⟩ := travels_head hi.2
    have hT := hi.2.2.2
    rw [hty] at hT
    have : detect (b0 :: b1 :: (don donl v ++ t)) = .ok (irap (b1.val / 8)) := by
      show (if ntype b1 = 28 then _ else if ntype b1 = 29 then _ else _) = _
      rw [if_neg (show ¬ ntype b1 = 28 from hT.1), if_neg (show ¬ ntype b1 = 29 from hT.2)]
      rfl
    simp only [Item.payloads, Item.units, List.mem_singleton, exists_eq_left, List.take_succ_cons, List.take_zero, List.drop_succ_cons, List.drop_zero, List.cons_append, List.nil_append]
    rw [this, ← irap_iff, hty]
    simp
  | ap v h0 tid us =>
    have hdf : donl = false := by
      by_contra h
      exact hd (by simpa using h) v h0 tid us rfl
    subst hdf
    obtain ⟨hb, htid, h2, hu⟩ := hi
    have hT : ntype (u8 (28 * 8 + tid)) = 28 := by unfold ntype; rw [u8_val]; omega
    have hlen : ∀ us : List (List Byte), us.length ≤ (aggregated us).length := by
      intro us
      induction us with
      | nil => simp [aggregated]
      | cons n ns ih => simp [aggregated]; omega
    have := detectAp_read us [h0, u8 (28 * 8 + tid)] ((h0 :: u8 (28 * 8 + tid) :: aggregated us).length + 1) hu (by
      have := hlen us; simp; omega)
    have hdet : detect (h0 :: u8 (28 * 8 + tid) :: (don false v ++ aggregated us)) = .ok (us.any (fun n => irap (unitType n))) := by
      show (if ntype (u8 (28 * 8 + tid)) = 28 then _ else _) = _
      rw [hT, if_pos rfl]
      exact this
    simp only [Item.payloads, Item.units, List.mem_singleton, exists_eq_left]
    rw [hdet]
    simp only [Res.ok.injEq, List.any_eq_true, irap_iff]
  | fu v b0 b1 p first pieces =>
    have hu : (∃ n ∈ (Item.fu v b0 b1 p first pieces).units, Irap n) ↔ irap (b1.val / 8) = true := by
      simp only [Item.units, List.mem_singleton, exists_eq_left]
      rw [← irap_iff]
      rfl
    rw [hu]
    constructor
    · rintro ⟨q, hq, hk⟩
      rcases List.mem_cons.1 hq with rfl | hq
      · rw [detect_frag] at hk
        simpa using hk
      · obtain ⟨l, pp, x, hx, rfl, -⟩ := fragRest_mem _ _ _ _ _ hq
        rw [detect_frag] at hk
        simp at hk
    · intro h
      exact ⟨_, List.mem_cons_self, by rw [detect_frag, h]; rfl⟩

/-- With decoding order numbers the detector reads the number as a size: a key frame in an aggregate is
missed, and parameter sets are taken for a key frame. -/
theorem C64_h266_detect_violation :
    (∃ i : Item, i.Legal ∧ (∃ n ∈ i.units, Irap n) ∧ ∀ q ∈ i.payloads true, detect q = .ok false) ∧
    (∃ i : Item, i.Legal ∧ (∀ n ∈ i.units, ¬ Irap n) ∧ ∃ q ∈ i.payloads true, detect q = .ok true) := by
  refine ⟨⟨.ap 9999 0 1 [[0, 0x79, 5], [0, 0x39, 7]], ⟨by decide, by decide, by decide, ?_⟩, ⟨[0, 0x39, 7], by simp [Item.units], by unfold Irap; decide⟩, ?_⟩,
    ⟨.ap 2 0 1 [0 :: 0x79 :: List.replicate 58 5, [0, 0x81, 7]], ⟨by decide, by decide, by decide, ?_⟩, ?_, ⟨_, List.mem_singleton.2 rfl, by decide +kernel⟩⟩⟩
  · intro n hn
    fin_cases hn
    · exact ⟨⟨by decide, ⟨_, _, rfl, by decide⟩, by decide, by decide⟩, by decide⟩
    · exact ⟨⟨by decide, ⟨_, _, rfl, by decide⟩, by decide, by decide⟩, by decide⟩
  · intro q hq
    rw [List.mem_singleton.1 hq]
    decide +kernel
  · intro n hn
    fin_cases hn
    · exact ⟨⟨by decide, ⟨_, _, rfl, by decide⟩, by decide, by decide⟩, by decide⟩
    · exact ⟨⟨by decide, ⟨_, _, rfl, by decide⟩, by decide, by decide⟩, by decide⟩
  · intro n hn
    fin_cases hn
    · unfold Irap; decide
    · unfold Irap; decide

theorem head_frag (b0 b1 : Byte) (hb : b0.val < 128) (s l p : Bool) (x : List Byte) : head (frag b0 b1 s l p x) = s := by
  have hb1 : b1.val < 256 := b1.isLt
  have hF : fbit b0 = false := by unfold fbit; simp; omega
  have hT : ntype (u8 (29 * 8 + b1.val % 8)) = 29 := by unfold ntype; rw [u8_val]; omega
  unfold frag head
  dsimp only
  rw [hF, hT, if_neg (by simp), if_neg (by simp)]
  show decide ((u8 ((if s then 128 else 0) + (if l then 64 else 0) + (if p then 32 else 0) + b1.val / 8)).val ≥ 128) = s
  rw [Bool.eq_iff_iff, decide_eq_true_eq, u8_val]
  cases s <;> cases l <;> cases p <;> simp <;> omega

theorem tail_frag (m : Bool) (b0 b1 : Byte) (s l p : Bool) (x : List Byte) : tail m (frag b0 b1 s l p x) = l := by
  have hb1 : b1.val < 256 := b1.isLt
  have hT : ntype (u8 (29 * 8 + b1.val % 8)) = 29 := by unfold ntype; rw [u8_val]; omega
  unfold frag tail
  dsimp only
  rw [hT, if_pos rfl]
  show ((u8 ((if s then 128 else 0) + (if l then 64 else 0) + (if p then 32 else 0) + b1.val / 8)).val / 64 % 2 == 1) = l
  rw [Bool.eq_iff_iff, beq_iff_eq, u8_val]
  cases s <;> cases l <;> cases p <;> simp <;> omega

theorem fragRest_split (b0 b1 : Byte) (p : Bool) : ∀ (ps : List (List Byte)), ps ≠ [] → ∃ a x, fragRest b0 b1 p ps = a ++ [frag b0 b1 false true p x] ∧
    ∀ q ∈ a, ∃ y, q = frag b0 b1 false false false y := by
  intro ps
  induction ps with
  | nil => intro h; exact absurd rfl h
  | cons x xs ih =>
    intro _
    cases xs with
    | nil => exact ⟨[], x, rfl, by simp⟩
    | cons y ys =>
      obtain ⟨a, z, e, h⟩ := ih (by simp)
      refine ⟨frag b0 b1 false false false x :: a, z, ?_, ?_⟩
      · rw [show fragRest b0 b1 p (x :: y :: ys) = frag b0 b1 false false false x :: fragRest b0 b1 p (y :: ys) from rfl, e]; rfl
      · intro q hq
        rcases List.mem_cons.1 hq with rfl | hq
        · exact ⟨x, rfl⟩
        · exact h q hq

/-- C64, H.266: of the payloads of an item the first, and only the first, starts a partition; before the
last none ends one whatever the marker says; the last ends one if the marker is set, and always
if the unit was fragmented. -/
theorem C64_h266_partition (i : Item) (hi : i.Legal) (donl : Bool) :
    (∃ q qs, i.payloads donl = q :: qs ∧ head q = true ∧ ∀ r ∈ qs, head r = false) ∧
    ∃ qs q, i.payloads donl = qs ++ [q] ∧ tail true q = true ∧ (∀ m, ∀ r ∈ qs, tail m r = false) ∧ (qs ≠ [] → ∀ m, tail m q = true) := by
  cases i with
  | single v n =>
    obtain ⟨b0, b1, t, rfl, hb, hty⟩ := travels_head hi.2
    have hT := hi.2.2.2
    rw [hty] at hT
    have h1 : head (b0 :: b1 :: (don donl v ++ t)) = true := by
      unfold head
      dsimp only
      split
      · rfl
      · rw [if_pos (show ntype b1 ≠ 29 from hT.2)]
    have h2 : tail true (b0 :: b1 :: (don donl v ++ t)) = true := by
      unfold tail
      dsimp only
      rw [if_neg (show ¬ ntype b1 = 29 from hT.2)]
    exact ⟨⟨_, [], rfl, h1, by simp⟩, ⟨[], _, rfl, h2, by simp, by simp⟩⟩
  | ap v h0 tid us =>
    obtain ⟨hb, htid, -, -⟩ := hi
    have hT : ntype (u8 (28 * 8 + tid)) = 28 := by unfold ntype; rw [u8_val]; omega
    have h1 : head (h0 :: u8 (28 * 8 + tid) :: (don donl v ++ aggregated us)) = true := by
      unfold head
      dsimp only
      split
      · rfl
      · rw [if_pos (by omega)]
    have h2 : tail true (h0 :: u8 (28 * 8 + tid) :: (don donl v ++ aggregated us)) = true := by
      unfold tail
      dsimp only
      rw [if_neg (by omega)]
    exact ⟨⟨_, [], rfl, h1, by simp⟩, ⟨[], _, rfl, h2, by simp, by simp⟩⟩
  | fu v b0 b1 p first pieces =>
    obtain ⟨hb, -, -, hne⟩ := hi
    refine ⟨⟨_, _, rfl, head_frag b0 b1 hb _ _ _ _, ?_⟩, ?_⟩
    · intro r hr
      obtain ⟨l, pp, x, -, rfl, -⟩ := fragRest_mem _ _ _ _ _ hr
      exact head_frag b0 b1 hb _ _ _ _
    · obtain ⟨a, x, e, h⟩ := fragRest_split b0 b1 p pieces hne
      refine ⟨frag b0 b1 true false false (don donl v ++ first) :: a, frag b0 b1 false true p x, ?_, tail_frag _ _ _ _ _ _ _, ?_, fun _ m => tail_frag _ _ _ _ _ _ _⟩
      · show _ :: fragRest b0 b1 p pieces = _
        rw [e]; rfl
      · intro m r hr
        rcases List.mem_cons.1 hr with rfl | hr
        · exact tail_frag _ _ _ _ _ _ _
        · obtain ⟨y, rfl⟩ := h r hr
          exact tail_frag _ _ _ _ _ _ _

/-! ### The packetizer -/

/-- C23, C72, H.266: for every Annex B frame of NAL units (start codes of 3 or 4 bytes), every MTU that
leaves room for a byte in a fragment and every state the packetizer can be in, if each parameter
set fits a packet: the packets fit the MTU (and 1200); they are what RFC 9328 allows, carrying
exactly the units that `sent` names, in order, with the lowest ids in aggregates; with decoding
order numbers each packet has the number of its first unit, counted on from frame to frame; and
a receiver in any state appends exactly these units and says key frame iff one is an IDR or CRA
(or it knew before). -/
theorem C23_h266 (mtu : Nat) (p : P) (hk : Kept p) (hm : 3 + donSize p.donl.isSome < mtu) (us : List (Nat × List Byte)) (hne : us ≠ [])
    (hus : ∀ x ∈ us, (x.1 = 2 ∨ x.1 = 3) ∧ ValidUnit x.2) (hfit : SetsFit (min mtu 1200) p (us.map (·.2))) :
    ∃ pkts p' items, packetize p mtu (annexB us) = .ok (pkts, p') ∧ FitsMtu (min mtu 1200) pkts ∧
      Kept p' ∧ waits p' = (sent (waits p) (us.map (·.2))).2 ∧
      p'.donl = p.donl.map (fun v => (v + (sent (waits p) (us.map (·.2))).1.length) % 65536) ∧
      pkts = items.flatMap (Item.payloads p.donl.isSome) ∧ (∀ i ∈ items, i.Legal ∧ LowestIds i) ∧
      items.flatMap Item.units = (sent (waits p) (us.map (·.2))).1 ∧ (∀ v, p.donl = some v → Numbered v items) ∧
      ∀ d out e, d.donl = p.donl.isSome → ∃ d' k, runDepack depacketize pkts d out e
          = .ok (d', out ++ delivered (sent (waits p) (us.map (·.2))).1, k) ∧ d'.donl = d.donl ∧
        (k = some true ↔ e = some true ∨ ∃ n ∈ (sent (waits p) (us.map (·.2))).1, Irap n) := by
  have hmem : ∀ n ∈ us.map (·.2), ValidUnit n := by
    intro n hn
    obtain ⟨x, hx, rfl⟩ := List.mem_map.1 hn
    exact (hus x hx).2
  have hm' : 3 + donSize p.donl.isSome < min mtu 1200 := by
    have : donSize p.donl.isSome ≤ 2 := by unfold donSize; split <;> omega
    omega
  obtain ⟨pkts, p', g1, g2, g3, g4, g5, items, g6, g7, g8, g9⟩ := emitAll_emits (by omega) (us.map (·.2)) p hk hm' hmem hfit
  rw [packetize_units mtu (by omega) us hne hus p]
  refine ⟨pkts, p', items, g1, g4, g2, g3, g5, g6, g7, g8, g9, ?_⟩
  intro d out e hd
  have := C64_h266 items (fun i hi => (g7 i hi).1) d out e
  rw [hd, ← g6, g8] at this
  rw [hd]
  exact this

/-- What travels of a usual frame when nothing waits is the frame without delimiters and filler, and nothing
waits afterwards. -/
theorem sent_usual (us : List (List Byte)) (hu : Usual us) :
    sent ⟨none, none, none⟩ us = (us.filter (fun n => ¬ Dropped n), ⟨none, none, none⟩) := by
  have hskip : ∀ (l : List (List Byte)) (w : Waiting), sent w l = sent w (l.filter (fun n => ¬ Dropped n)) := by
    intro l
    induction l with
    | nil => intro w; rfl
    | cons n ns ih =>
      intro w
      by_cases hd : Dropped n
      · rw [List.filter_cons_of_neg (by simpa using hd), ← ih w]
        rw [show sent w (n :: ns) = (if Dropped n then sent w ns else _) from rfl]
        exact if_pos hd
      · rw [List.filter_cons_of_pos (by simpa using hd)]
        unfold sent
        simp only [← ih]
  have hplain : ∀ (l : List (List Byte)), (∀ n ∈ l, ¬ Dropped n ∧ ¬ IsSet n) → sent ⟨none, none, none⟩ l = (l, ⟨none, none, none⟩) := by
    intro l
    induction l with
    | nil => intro _; rfl
    | cons n ns ih =>
      intro h
      obtain ⟨h1, h2⟩ := h n (by simp)
      unfold IsSet at h2
      unfold sent
      rw [if_neg h1, if_neg (by omega), if_neg (by omega), if_neg (by omega)]
      show (([] : List (List Byte)) ++ n :: (sent ⟨none, none, none⟩ ns).1, (sent ⟨none, none, none⟩ ns).2) = _
      rw [ih (fun m hm => h m (List.mem_cons_of_mem _ hm))]
      rfl
  have hslice : ∀ (vp : Option (List Byte)) (s q n : List Byte) (ns : List (List Byte)), (∀ m ∈ n :: ns, ¬ Dropped m ∧ ¬ IsSet m) →
      sent ⟨vp, some s, some q⟩ (n :: ns) = (setsOf vp s q ++ n :: ns, ⟨none, none, none⟩) := by
    intro vp s q n ns h
    obtain ⟨h1, h2⟩ := h n (by simp)
    unfold IsSet at h2
    unfold sent
    rw [if_neg h1, if_neg (by omega), if_neg (by omega), if_neg (by omega)]
    show (setsOf vp s q ++ n :: (sent ⟨none, none, none⟩ ns).1, (sent ⟨none, none, none⟩ ns).2) = _
    rw [hplain ns (fun m hm => h m (List.mem_cons_of_mem _ hm))]
  have step14 : ∀ n ns w, ¬ Dropped n → unitType n = 14 → sent w (n :: ns) = sent { w with vps := some n } ns := by
    intro n ns w h1 h2
    rw [show sent w (n :: ns) = (if Dropped n then _ else if unitType n = 14 then sent { w with vps := some n } ns else _) from rfl, if_neg h1, if_pos h2]
  have step15 : ∀ n ns w, ¬ Dropped n → unitType n = 15 → sent w (n :: ns) = sent { w with sps := some n } ns := by
    intro n ns w h1 h2
    rw [show sent w (n :: ns) = (if Dropped n then _ else if unitType n = 14 then _ else if unitType n = 15 then sent { w with sps := some n } ns else _) from rfl,
      if_neg h1, if_neg (by omega), if_pos h2]
  have step16 : ∀ n ns w, ¬ Dropped n → unitType n = 16 → sent w (n :: ns) = sent { w with pps := some n } ns := by
    intro n ns w h1 h2
    rw [show sent w (n :: ns) = (if Dropped n then _ else if unitType n = 14 then _ else if unitType n = 15 then _
      else if unitType n = 16 then sent { w with pps := some n } ns else _) from rfl,
      if_neg h1, if_neg (by omega), if_neg (by omega), if_pos h2]
  obtain ⟨ps, slices, e, hne, hs, hp⟩ := hu
  have hnd : ∀ n ∈ ps ++ slices, ¬ Dropped n := by
    intro n hn
    rw [← e] at hn
    simpa using (List.mem_filter.1 hn).2
  have hs' : ∀ n ∈ slices, ¬ Dropped n ∧ ¬ IsSet n := fun n hn => ⟨hnd n (List.mem_append_right _ hn), hs n hn⟩
  rw [hskip, e]
  rcases hp with rfl | ⟨s, q, rfl, h15, h16⟩ | ⟨v, s, q, rfl, h14, h15, h16⟩
  · exact hplain _ hs'
  · cases slices with
    | nil => exact absurd rfl hne
    | cons n ns =>
      show sent _ (s :: q :: n :: ns) = _
      rw [step15 _ _ _ (hnd s (by simp)) h15, step16 _ _ _ (hnd q (by simp)) h16, hslice none s q n ns hs']
      rfl
  · cases slices with
    | nil => exact absurd rfl hne
    | cons n ns =>
      show sent _ (v :: s :: q :: n :: ns) = _
      rw [step14 _ _ _ (hnd v (by simp)) h14, step15 _ _ _ (hnd s (by simp)) h15, step16 _ _ _ (hnd q (by simp)) h16, hslice (some v) s q n ns hs']
      rfl

/-- C23, H.266, usual frames, with or without decoding order numbers: the receiver gets the whole frame
except delimiters and filler. -/
theorem C23_h266_usual (mtu : Nat) (donl : Option Nat) (hd : ∀ v, donl = some v → v < 65536) (hm : 3 + donSize donl.isSome < mtu) (us : List (Nat × List Byte))
    (hus : ∀ x ∈ us, (x.1 = 2 ∨ x.1 = 3) ∧ ValidUnit x.2) (hu : Usual (us.map (·.2)))
    (hfit : ∀ x ∈ us, IsSet x.2 → x.2.length + donSize donl.isSome ≤ min mtu 1200) :
    ∃ pkts p', packetize ⟨none, none, none, donl⟩ mtu (annexB us) = .ok (pkts, p') ∧ FitsMtu (min mtu 1200) pkts ∧
      p'.vps = none ∧ p'.sps = none ∧ p'.pps = none ∧
      ∀ d out e, d.donl = donl.isSome → ∃ d' k, runDepack depacketize pkts d out e
          = .ok (d', out ++ delivered ((us.map (·.2)).filter (fun n => ¬ Dropped n)), k) ∧
        (k = some true ↔ e = some true ∨ ∃ x ∈ us, Irap x.2) := by
  have hne : us ≠ [] := by
    rintro rfl
    obtain ⟨ps, sl, e, hs, -, -⟩ := hu
    have : ps ++ sl = [] := e.symm
    exact hs (List.append_eq_nil_iff.1 this).2
  obtain ⟨pkts, p', items, g1, g2, g3, g4, -, -, -, -, -, g6⟩ := C23_h266 mtu ⟨none, none, none, donl⟩
    ⟨(fun _ h => by cases h), (fun _ h => by cases h), (fun _ h => by cases h), hd⟩ hm us hne hus (by
      intro s hs his
      rcases hs with hs | hs | hs | hs
      · obtain ⟨x, hx, rfl⟩ := List.mem_map.1 hs
        exact hfit x hx his
      · cases hs
      · cases hs
      · cases hs)
  have hw : waits ⟨none, none, none, donl⟩ = ⟨none, none, none⟩ := rfl
  rw [hw, sent_usual _ hu] at g4 g6
  refine ⟨pkts, p', g1, g2, congrArg Waiting.vps g4, congrArg Waiting.sps g4, congrArg Waiting.pps g4, fun d out e hdd => ?_⟩
  obtain ⟨d', k, k1, -, k2⟩ := g6 d out e hdd
  refine ⟨d', k, k1, k2.trans (or_congr_right ⟨?_, ?_⟩)⟩
  · rintro ⟨n, hn, h5⟩
    obtain ⟨x, hx, rfl⟩ := List.mem_map.1 (List.mem_filter.1 hn).1
    exact ⟨x, hx, h5⟩
  · rintro ⟨x, hx, h5⟩
    refine ⟨x.2, List.mem_filter.2 ⟨List.mem_map.2 ⟨x, hx, rfl⟩, ?_⟩, h5⟩
    unfold Irap at h5
    simp [Dropped]
    omega

/-- A key frame with delimiter, parameter sets and a slice that needs three packets. -/
def exampleFrame : List (Nat × List Byte) :=
  [(3, [0, 0xa1, 0xf0]), (3, [0, 0x71, 9]), (3, [0, 0x79, 1, 2]), (2, [0, 0x81, 3]),
   (3, [0, 0x39, 1, 0, 0, 2, 3, 4, 5, 6, 7, 8, 9, 10, 11, 12, 13, 14, 15, 16, 17, 18, 19, 20, 21, 22, 23, 24, 25])]

theorem valid_of (n : List Byte) (h1 : 3 ≤ n.length) (h2 : ∃ b rest, n = b :: rest ∧ b.val < 128)
    (h4 : ∀ i, i < n.length → (n.drop i).take 3 ≠ [0, 0, 1]) (h5 : n.getLast? ≠ some 0) : ValidUnit n := by
  refine ⟨h1, h2, ?_, ?_⟩
  · rintro a c rfl
    refine h4 a.length (by simp) ?_
    rw [List.append_assoc, List.drop_left]
    rfl
  · rintro a rfl
    exact h5 (by simp)

theorem C23_h266_example : (∀ x ∈ exampleFrame, (x.1 = 2 ∨ x.1 = 3) ∧ ValidUnit x.2) ∧ Usual (exampleFrame.map (·.2)) ∧
    (∀ x ∈ exampleFrame, IsSet x.2 → x.2.length + donSize true ≤ min 20 1200) ∧
    packetize ⟨none, none, none, some 65534⟩ 20 (annexB exampleFrame)
      = .ok ([[0, 0xe1, 255, 254, 0, 3, 0, 0x71, 9, 0, 4, 0, 0x79, 1, 2, 0, 3, 0, 0x81, 3],
        [0, 0xe9, 0x87, 0, 1, 1, 0, 0, 2, 3, 4, 5, 6, 7, 8, 9, 10, 11, 12, 13],
        [0, 0xe9, 0x47, 14, 15, 16, 17, 18, 19, 20, 21, 22, 23, 24, 25]], ⟨none, none, none, some 2⟩) := by
  refine ⟨?_, ?_, ?_, by decide +kernel⟩
  · intro x hx
    fin_cases hx
    all_goals exact ⟨by decide, valid_of _ (by decide) ⟨_, _, rfl, by decide⟩ (by decide +kernel) (by decide)⟩
  · refine ⟨[[0, 0x71, 9], [0, 0x79, 1, 2], [0, 0x81, 3]], [[0, 0x39, 1, 0, 0, 2, 3, 4, 5, 6, 7, 8, 9, 10, 11, 12, 13, 14, 15, 16, 17, 18, 19, 20, 21, 22, 23, 24, 25]],
      by decide +kernel, by simp, ?_, Or.inr (Or.inr ⟨_, _, _, rfl, by decide, by decide, by decide⟩)⟩
    intro n hn
    fin_cases hn
    unfold IsSet
    decide
  · intro x hx
    fin_cases hx
    all_goals first | (intro h; unfold IsSet at h; revert h; decide) | (intro _; decide)

/-! ### Several frames -/

/-- Frames packetized one after the other. -/
def packAll (mtu : Nat) : List (List Byte) → P → Res PErr (List (List Byte) × P)
  | [], p => .ok ([], p)
  | f :: fs, p => do
    let r ← packetize p mtu f
    let rest ← packAll mtu fs r.2
    pure (r.1 ++ rest.1, rest.2)

theorem emitAll_append (mtu : Nat) : ∀ (us vs : List (List Byte)) (p : P), emitAll mtu (us ++ vs) p
    = (emitAll mtu us p >>= fun r => emitAll mtu vs r.2 >>= fun t => pure (r.1 ++ t.1, t.2)) := by
  intro us
  induction us with
  | nil =>
    intro vs p
    show emitAll mtu vs p = (emitAll mtu vs p >>= fun t => pure (t.1, t.2))
    cases emitAll mtu vs p <;> rfl
  | cons n ns ih =>
    intro vs p
    show (emit p n mtu >>= fun r => emitAll mtu (ns ++ vs) r.2 >>= fun rest => pure (r.1 ++ rest.1, rest.2)) = _
    rw [show emitAll mtu (n :: ns) p = (emit p n mtu >>= fun r => emitAll mtu ns r.2 >>= fun rest => pure (r.1 ++ rest.1, rest.2)) from rfl]
    cases emit p n mtu with
    | err e => rfl
    | panic => rfl
    | ok r =>
      simp only [Res.bind_def, Res.bind_ok, ih]
      cases emitAll mtu ns r.2 with
      | err e => rfl
      | panic => rfl
      | ok s =>
        simp only [Res.bind_ok, Res.pure_def]
        cases emitAll mtu vs s.2 with
        | err e => rfl
        | panic => rfl
        | ok t => simp [List.append_assoc]

theorem packAll_units (mtu : Nat) (hm : 4 ≤ mtu) : ∀ (frames : List (List (Nat × List Byte))) (p : P),
    (∀ f ∈ frames, f ≠ [] ∧ ∀ x ∈ f, (x.1 = 2 ∨ x.1 = 3) ∧ ValidUnit x.2) →
    packAll mtu (frames.map annexB) p = emitAll (min mtu 1200) (frames.flatten.map (·.2)) p := by
  intro frames
  induction frames with
  | nil => intro p _; rfl
  | cons f fs ih =>
    intro p h
    obtain ⟨h1, h2⟩ := h f (by simp)
    rw [List.flatten_cons, List.map_append, emitAll_append, List.map_cons]
    show (packetize p mtu (annexB f) >>= _) = _
    rw [packetize_units mtu hm f h1 h2 p]
    cases emitAll (min mtu 1200) (f.map (·.2)) p with
    | err e => rfl
    | panic => rfl
    | ok r =>
      simp only [Res.bind_def, Res.bind_ok]
      rw [ih r.2 (fun g hg => h g (List.mem_cons_of_mem _ hg))]

/-- C72, H.266: for every sequence of frames and every starting number, the units that travel are numbered one
by one, modulo 2^16, over frame borders too, and a receiver that expects the numbers gets exactly
the units. -/
theorem C72_h266_frames (mtu v : Nat) (hv : v < 65536) (hm : 5 < mtu) (frames : List (List (Nat × List Byte)))
    (hf : ∀ f ∈ frames, f ≠ [] ∧ ∀ x ∈ f, (x.1 = 2 ∨ x.1 = 3) ∧ ValidUnit x.2)
    (hfit : ∀ f ∈ frames, ∀ x ∈ f, IsSet x.2 → x.2.length + donSize true ≤ min mtu 1200) :
    ∃ pkts p', ∃ items : List Item, packAll mtu (frames.map annexB) ⟨none, none, none, some v⟩ = .ok (pkts, p') ∧
      pkts = items.flatMap (Item.payloads true) ∧ (∀ i ∈ items, i.Legal) ∧
      items.flatMap Item.units = (sent ⟨none, none, none⟩ (frames.flatten.map (·.2))).1 ∧ Numbered v items ∧
      ∀ d out e, d.donl = true → ∃ d' k, runDepack depacketize pkts d out e
          = .ok (d', out ++ delivered (sent ⟨none, none, none⟩ (frames.flatten.map (·.2))).1, k) := by
  have hmem : ∀ n ∈ frames.flatten.map (·.2), ValidUnit n := by
    intro n hn
    obtain ⟨x, hx, rfl⟩ := List.mem_map.1 hn
    obtain ⟨f, hf1, hf2⟩ := List.mem_flatten.1 hx
    exact ((hf f hf1).2 x hf2).2
  have hsets : SetsFit (min mtu 1200) ⟨none, none, none, some v⟩ (frames.flatten.map (·.2)) := by
    intro s hs his
    rcases hs with hs | hs | hs | hs
    · obtain ⟨x, hx, rfl⟩ := List.mem_map.1 hs
      obtain ⟨f, hf1, hf2⟩ := List.mem_flatten.1 hx
      exact hfit f hf1 x hf2 his
    · cases hs
    · cases hs
    · cases hs
  obtain ⟨pkts, p', g1, g2, g3, g4, g5, items, g6, g7, g8, g9⟩ := emitAll_emits (by omega) (frames.flatten.map (·.2)) ⟨none, none, none, some v⟩
    ⟨(fun _ h => by cases h), (fun _ h => by cases h), (fun _ h => by cases h), (fun w h => by cases h; exact hv)⟩ (by
      show 3 + 2 < min mtu 1200; omega) hmem hsets
  refine ⟨pkts, p', items, ?_, g6, fun i hi => (g7 i hi).1, g8, g9 v rfl, ?_⟩
  · rw [packAll_units mtu (by omega) frames _ hf]; exact g1
  · intro d out e hd
    obtain ⟨d', k, h1, -, -⟩ := C64_h266 items (fun i hi => (g7 i hi).1) d out e
    rw [hd, show items.flatMap (Item.payloads true) = pkts from g6.symm, g8] at h1
    exact ⟨d', k, h1⟩

/-! ### Totality -/

theorem scGo_bounds : ∀ (l : List Byte) (i a b : Nat), scGo l i = some (a, b) → i ≤ a ∧ a + b ≤ i + l.length ∧ 0 < b := by
  intro l
  induction l with
  | nil => intro i a b h; cases h
  | cons x l ih =>
    intro i a b h
    match l, ih, h with
    | [], _, h => cases h
    | [_], _, h => cases h
    | y :: z :: rest, ih, h =>
      rw [show scGo (x :: y :: z :: rest) i = (if x.val = 0 ∧ y.val = 0 ∧ z.val = 1 then some (i, 3)
        else if x.val = 0 ∧ y.val = 0 ∧ z.val = 0 ∧ rest.head?.any (fun d => d.val == 1) then some (i, 4) else scGo (y :: z :: rest) (i + 1)) from rfl] at h
      split at h
      · simp only [Option.some.injEq, Prod.mk.injEq] at h
        simp only [List.length_cons]; omega
      · split at h
        · rename_i hc
          cases rest with
          | nil => simp at hc
          | cons d rest =>
            simp only [Option.some.injEq, Prod.mk.injEq] at h
            simp only [List.length_cons]; omega
        · have := ih _ _ _ h
          simp only [List.length_cons] at this ⊢; omega

theorem fuGo_safe (b0 b1 : Byte) (ty : Nat) (payload dn : List Byte) (fm m : Nat) : ∀ (fuel off : Nat), off ≤ payload.length →
    (fuGo b0 b1 ty payload dn fm m fuel off).NoPanic := by
  intro fuel
  induction fuel with
  | zero => intro _ _; trivial
  | succ fuel ih =>
    intro off h
    unfold fuGo
    split
    · rw [slice_piece _ _ _ (by omega), Res.bind_def, Res.bind_ok]
      have := ih (off + min (payload.length - off) (if off = 0 then fm else m)) (by omega)
      revert this
      cases fuGo b0 b1 ty payload dn fm m fuel (off + min (payload.length - off) (if off = 0 then fm else m)) with
      | ok r => intro _; trivial
      | err e => intro _; trivial
      | panic => intro h; exact h.elim
    · trivial

/-- Every kept parameter set has its two header bytes. -/
def Long (p : P) : Prop :=
  (∀ s, p.vps = some s → 2 ≤ s.length) ∧ (∀ s, p.sps = some s → 2 ≤ s.length) ∧ (∀ s, p.pps = some s → 2 ≤ s.length)

theorem single_safe (n : List Byte) (h : 2 ≤ n.length) (donl : Option Nat) : (single n donl).NoPanic := by
  cases donl with
  | none => trivial
  | some v => unfold single; rw [Res.slice_of_le (by omega) h, Res.from_of_le h]; trivial

theorem singles_safe (mtu : Nat) : ∀ (us : List (List Byte)) (donl : Option Nat), (∀ n ∈ us, 2 ≤ n.length) → (singles us donl mtu).NoPanic := by
  intro us
  induction us with
  | nil => intro _ _; trivial
  | cons n ns ih =>
    intro donl h
    have h' : ∀ m ∈ ns, 2 ≤ m.length := fun m hm => h m (List.mem_cons_of_mem _ hm)
    unfold singles
    split
    · have h1 := single_safe n (h n (by simp)) donl
      have h2 := ih (bump donl 1) h'
      revert h1 h2
      cases single n donl <;> cases singles ns (bump donl 1) mtu <;> intro h1 h2 <;> first | trivial | exact h1.elim | exact h2.elim
    · exact ih _ h'

theorem apHdr_safe : ∀ (us : List (List Byte)) (acc : Bool × Nat × Nat), (∀ n ∈ us, 2 ≤ n.length) → ∃ r, apHdr us acc = .ok r := by
  intro us
  induction us with
  | nil => intro acc _; exact ⟨acc, rfl⟩
  | cons n ns ih =>
    intro acc h
    have hn := h n (by simp)
    unfold apHdr
    rw [Res.idx_of_lt (by omega), Res.bind_def, Res.bind_ok, Res.idx_of_lt (by omega), Res.bind_def, Res.bind_ok]
    exact ih _ (fun m hm => h m (List.mem_cons_of_mem _ hm))

theorem flush_safe (us : List (List Byte)) (donl : Option Nat) (mtu : Nat) (h : ∀ n ∈ us, 2 ≤ n.length) : (flush us donl mtu).NoPanic := by
  unfold flush buildAp
  split
  · obtain ⟨r, e⟩ := apHdr_safe us (false, 63, 7) h
    rw [e, Res.bind_def, Res.bind_def, Res.bind_ok]
    split
    · exact singles_safe _ _ _ h
    · split
      · exact singles_safe _ _ _ h
      · trivial
  · exact singles_safe _ _ _ h

theorem emitNalu_safe (b0 b1 : Byte) (body : List Byte) (donl : Option Nat) (mtu : Nat) : (emitNalu b0 b1 body donl mtu).NoPanic := by
  unfold emitNalu
  split
  · have := single_safe (b0 :: b1 :: body) (by simp) donl
    revert this
    cases single (b0 :: b1 :: body) donl with
    | ok r => intro _; trivial
    | err e => intro _; trivial
    | panic => intro h; exact h.elim
  · split
    · trivial
    · split
      · trivial
      · have := fuGo_safe b0 (u8 (29 * 8 + tid b1)) (ntype b1) body (donlBytes donl) (min mtu 1200 - 3 - overhead donl) (min mtu 1200 - 3) (body.length + 1) 0 (by omega)
        revert this
        cases fuGo b0 (u8 (29 * 8 + tid b1)) (ntype b1) body (donlBytes donl) (min mtu 1200 - 3 - overhead donl) (min mtu 1200 - 3) (body.length + 1) 0 with
        | ok r => intro _; trivial
        | err e => intro _; trivial
        | panic => intro h; exact h.elim

theorem emit_safe (p : P) (hp : Long p) (n : List Byte) (mtu : Nat) : Packet.Safe (emit p n mtu) (fun r => Long r.2) := by
  have nil_safe : Packet.Safe (.ok ([], p) : Res PErr (List (List Byte) × P)) (fun r => Long r.2) := Safe.ok hp
  unfold emit
  match n with
  | [] => exact nil_safe
  | [_] => exact nil_safe
  | b0 :: b1 :: body =>
    dsimp only
    split
    · exact nil_safe
    · split
      · exact nil_safe
      · split
        · exact nil_safe
        · split
          · exact Safe.ok ⟨fun s h => by cases h; simp, hp.2.1, hp.2.2⟩
          · split
            · exact Safe.ok ⟨hp.1, fun s h => by cases h; simp, hp.2.2⟩
            · split
              · exact Safe.ok ⟨hp.1, hp.2.1, fun s h => by cases h; simp⟩
              · split
                · rename_i s q hs hq
                  have hset : ∀ n ∈ sets p s q, 2 ≤ n.length := by
                    intro n hn
                    unfold sets at hn
                    cases hv : p.vps with
                    | none =>
                      rw [hv] at hn
                      simp only [List.mem_cons, List.not_mem_nil, or_false] at hn
                      rcases hn with rfl | rfl
                      · exact hp.2.1 _ hs
                      · exact hp.2.2 _ hq
                    | some v =>
                      rw [hv] at hn
                      simp only [List.mem_cons, List.not_mem_nil, or_false] at hn
                      rcases hn with rfl | rfl | rfl
                      · exact hp.1 _ hv
                      · exact hp.2.1 _ hs
                      · exact hp.2.2 _ hq
                  refine Safe.bind (P := fun _ => True) ⟨flush_safe _ _ _ hset, fun _ _ => trivial⟩ (fun a _ => ?_)
                  refine Safe.bind (P := fun _ => True) ⟨emitNalu_safe _ _ _ _ _, fun _ _ => trivial⟩ (fun t _ => ?_)
                  exact Safe.ok ⟨(fun _ h => by cases h), (fun _ h => by cases h), (fun _ h => by cases h)⟩
                · refine Safe.bind (P := fun _ => True) ⟨emitNalu_safe _ _ _ _ _, fun _ _ => trivial⟩ (fun t _ => ?_)
                  exact Safe.ok hp

theorem packGo_safe (mtu : Nat) (payload : List Byte) : ∀ (fuel : Nat) (p : P) (a b : Nat), Long p → a + b ≤ payload.length →
    Packet.Safe (packGo mtu payload fuel p (a, b)) (fun r => Long r.2) := by
  intro fuel
  induction fuel with
  | zero => intro _ _ _ hp _; exact Safe.ok hp
  | succ fuel ih =>
    intro p a b hp h
    unfold packGo nextStart
    cases hg : scGo (payload.drop (a + b)) (a + b) with
    | none =>
      dsimp only
      rw [Res.from_of_le h]
      exact emit_safe _ hp _ _
    | some q =>
      obtain ⟨c, d⟩ := q
      have hb := scGo_bounds _ _ _ _ hg
      rw [List.length_drop] at hb
      dsimp only
      rw [Res.slice_of_le (by omega) (by omega), Res.bind_def, Res.bind_ok]
      refine Safe.bind (emit_safe p hp _ mtu) (fun r hr => ?_)
      refine Safe.bind (ih r.2 c d hr (by omega)) (fun r2 hr2 => ?_)
      exact Safe.ok hr2

/-- C24, H.266 packetizer: no frame bytes, MTU or history panic it. -/
theorem C24_h266_packetizer (p : P) (hp : Long p) (mtu : Nat) (payload : List Byte) :
    (packetize p mtu payload).NoPanic ∧ ∀ r, packetize p mtu payload = .ok r → Long r.2 := by
  show Packet.Safe (packetize p mtu payload) (fun r => Long r.2)
  unfold packetize
  split
  · exact Safe.ok hp
  · split
    · exact Safe.ok hp
    · unfold nextStart
      cases hg : scGo (payload.drop 0) 0 with
      | none => exact emit_safe _ hp _ _
      | some q =>
        obtain ⟨a, b⟩ := q
        have hb := scGo_bounds _ _ _ _ hg
        rw [List.drop_zero] at hb
        exact packGo_safe _ _ _ _ _ _ hp (by omega)

theorem apGo_safe (packet : List Byte) (start : Nat) : ∀ (fuel off count : Nat) (out : List Byte) (e : Option Bool),
    (apGo packet start fuel off count out e).NoPanic := by
  intro fuel
  induction fuel with
  | zero => intro _ _ _ _; trivial
  | succ fuel ih =>
    intro off count out e
    unfold apGo
    split
    · split
      · trivial
      · rename_i h
        rw [Res.idx_of_lt (by omega), Res.bind_def, Res.bind_ok, Res.idx_of_lt (by omega), Res.bind_def, Res.bind_ok]
        split
        · trivial
        · rename_i h2
          rw [Res.slice_of_le (by omega) (by omega), Res.bind_def, Res.bind_ok]
          rw [Res.idx_of_lt (by simp only [List.length_drop, List.length_take]; omega), Res.bind_def, Res.bind_ok]
          split
          · trivial
          · exact ih _ _ _ _
    · split <;> trivial

theorem detectAp_safe (payload : List Byte) : ∀ (fuel off : Nat), (detectAp payload fuel off).NoPanic := by
  intro fuel
  induction fuel with
  | zero => intro _; trivial
  | succ fuel ih =>
    intro off
    unfold detectAp
    split
    · rename_i h
      rw [Res.idx_of_lt (by omega), Res.bind_def, Res.bind_ok, Res.idx_of_lt (by omega), Res.bind_def, Res.bind_ok]
      split
      · trivial
      · rename_i h2
        rw [Res.idx_of_lt (by omega), Res.bind_def, Res.bind_ok]
        split
        · trivial
        · exact ih _
    · trivial

/-- C24, H.266: no bytes, in any state, panic the depacketizer or the key frame detector. -/
theorem C24_h266 (d : D) (packet out : List Byte) (e : Option Bool) :
    (depack d packet out e).NoPanic ∧ (depacketize d packet out e).NoPanic ∧ (detect packet).NoPanic := by
  have h1 : (depack d packet out e).NoPanic := by
    unfold depack
    split
    · trivial
    · rename_i h
      rw [Res.idx_of_lt (by omega), Res.bind_def, Res.bind_ok, Res.idx_of_lt (by omega), Res.bind_def, Res.bind_ok]
      split
      · trivial
      · split
        · unfold depackFu
          rw [Res.idx_of_lt (by omega), Res.bind_def, Res.bind_ok, Res.idx_of_lt (by omega), Res.bind_def, Res.bind_ok,
            Res.idx_of_lt (by omega), Res.bind_def, Res.bind_ok]
          split
          · trivial
          · rename_i hc
            rw [Res.from_of_le (by split <;> simp_all <;> omega), Res.bind_def, Res.bind_ok]
            split
            · trivial
            · split <;> trivial
        · split
          · unfold depackAp
            split
            · trivial
            · have := apGo_safe packet out.length (packet.length + 1) (if d.donl = true then 4 else 2) 0 out e
              revert this
              cases apGo packet out.length (packet.length + 1) (if d.donl = true then 4 else 2) 0 out e with
              | ok r => intro _; trivial
              | err e => intro _; trivial
              | panic => intro h; exact h.elim
          · unfold depackSingle
            split
            · split
              · trivial
              · rw [Res.slice_of_le (by omega) (by omega), Res.from_of_le (by omega)]; trivial
            · trivial
  refine ⟨h1, ?_, ?_⟩
  · unfold depacketize
    revert h1
    cases depack d packet out e with
    | ok r => intro _; rw [Res.bind_def, Res.bind_ok]; split <;> trivial
    | err e => intro _; trivial
    | panic => intro h; exact h.elim
  · unfold detect
    match packet with
    | [] => trivial
    | [_] => trivial
    | b0 :: b1 :: rest =>
      dsimp only
      split
      · exact detectAp_safe _ _ _
      · split
        · cases rest <;> trivial
        · trivial

/-! ### Errors -/

/-- C24, H.266: an error never takes anything of what was in `out` away and never turns a key frame flag off. -/
theorem C24_h266_keeps (d : D) (packet out : List Byte) (e : Option Bool) (d' : D) (out' : List Byte) (e' : Option Bool) (err : Option PErr)
    (h : depack d packet out e = .ok (d', out', e', err)) : out <+: out' ∧ (e = some true → e' = some true) := by
  have hmark : ∀ (e : Option Bool) k, e = some true → mark e k = some true := by
    rintro _ k rfl; simp [mark]
  have hap : ∀ (fuel off count : Nat) (o : List Byte) (e1 : Option Bool) o' e2 er, out <+: o → apGo packet out.length fuel off count o e1 = .ok (o', e2, er) →
      out <+: o' ∧ (e1 = some true → e2 = some true) := by
    intro fuel
    induction fuel with
    | zero => intro off count o e1 o' e2 er ho hh; cases hh; exact ⟨ho, id⟩
    | succ fuel ih =>
      intro off count o e1 o' e2 er ho hh
      have htake : out <+: o.take out.length := by
        obtain ⟨t, rfl⟩ := ho
        rw [List.take_left]
        exact List.prefix_refl _
      unfold apGo at hh
      split at hh
      · split at hh
        · cases hh; exact ⟨htake, id⟩
        · rename_i h
          rw [Res.idx_of_lt (by omega), Res.bind_def, Res.bind_ok, Res.idx_of_lt (by omega), Res.bind_def, Res.bind_ok] at hh
          split at hh
          · cases hh; exact ⟨htake, id⟩
          · rename_i h2
            rw [Res.slice_of_le (by omega) (by omega), Res.bind_def, Res.bind_ok] at hh
            rw [Res.idx_of_lt (by simp only [List.length_drop, List.length_take]; omega), Res.bind_def, Res.bind_ok] at hh
            split at hh
            · cases hh; exact ⟨htake, id⟩
            · obtain ⟨g1, g2⟩ := ih _ _ _ _ _ _ _ (by
                rw [List.append_assoc]; exact ho.trans (List.prefix_append _ _)) hh
              exact ⟨g1, fun he => g2 (hmark _ _ he)⟩
      · split at hh
        · cases hh; exact ⟨ho, id⟩
        · cases hh; exact ⟨ho, id⟩
  unfold depack at h
  split at h
  · cases h; exact ⟨List.prefix_refl _, id⟩
  · rename_i hl
    rw [Res.idx_of_lt (by omega), Res.bind_def, Res.bind_ok, Res.idx_of_lt (by omega), Res.bind_def, Res.bind_ok] at h
    split at h
    · cases h; exact ⟨List.prefix_refl _, id⟩
    · split at h
      · unfold depackFu at h
        rw [Res.idx_of_lt (by omega), Res.bind_def, Res.bind_ok, Res.idx_of_lt (by omega), Res.bind_def, Res.bind_ok,
          Res.idx_of_lt (by omega), Res.bind_def, Res.bind_ok] at h
        split at h
        · cases h; exact ⟨List.prefix_refl _, id⟩
        · rename_i hc
          rw [Res.from_of_le (by split <;> simp_all <;> omega), Res.bind_def, Res.bind_ok] at h
          split at h
          · cases h; exact ⟨List.prefix_refl _, id⟩
          · split at h
            · cases h
              exact ⟨by simp only [List.append_assoc]; exact List.prefix_append _ _, hmark _ _⟩
            · cases h; exact ⟨List.prefix_refl _, id⟩
      · split at h
        · unfold depackAp at h
          split at h
          · cases h; exact ⟨List.prefix_refl _, id⟩
          · cases hg : apGo packet out.length (packet.length + 1) (if d.donl = true then 4 else 2) 0 out e with
            | ok r =>
              rw [hg, Res.bind_def, Res.bind_ok] at h
              cases h
              exact hap _ _ _ _ _ _ _ _ (List.prefix_refl _) hg
            | err x => rw [hg] at h; cases h
            | panic => rw [hg] at h; cases h
        · unfold depackSingle at h
          split at h
          · split at h
            · cases h; exact ⟨List.prefix_append _ _, hmark _ _⟩
            · rw [Res.slice_of_le (by omega) (by omega), Res.from_of_le (by omega)] at h
              cases h
              exact ⟨by simp only [List.append_assoc]; exact List.prefix_append _ _, hmark _ _⟩
          · cases h
            exact ⟨by simp only [List.append_assoc]; exact List.prefix_append _ _, hmark _ _⟩

/-- An aggregate with one unit is refused, but the unit stays in the output: the clean up of the other
errors is missing. -/
theorem C24_h266_aggregate_error_violation (n : List Byte) (hn : Travels n) (hl : n.length < 2 ^ 16) (h0 : Byte) (hh : h0.val < 128) (tid : Nat) (ht : tid < 8)
    (fu : Option (List Byte)) (out : List Byte) (e : Option Bool) :
    depack ⟨fu, false⟩ (h0 :: u8 (28 * 8 + tid) :: (be16 n.length ++ n)) out e
      = .ok (⟨fu, false⟩, out ++ [0, 0, 0, 1] ++ n, mark e (irap (unitType n)), some .shortPacket) := by
  have hF : fbit h0 = false := by unfold fbit; simp; omega
  have hT : ntype (u8 (28 * 8 + tid)) = 28 := by unfold ntype; rw [u8_val]; omega
  have hb1' : (be16 n.length ++ n).length = n.length + 2 := by simp; omega
  unfold depack
  rw [if_neg (by have := hn.1; simp only [List.length_cons, hb1']; omega)]
  show (if fbit h0 = true then _ else if ntype (u8 (28 * 8 + tid)) = 29 then _ else if ntype (u8 (28 * 8 + tid)) = 28 then _ else _ : Res PErr _) = _
  rw [hF, hT, if_neg (by simp), if_neg (by omega), if_pos rfl]
  unfold depackAp
  rw [if_neg (by simp)]
  obtain ⟨b0, b1, t, en, hb, hty⟩ := travels_head hn
  have h28 : ¬ (ntype b1 = 28 ∨ ntype b1 = 29) := by
    have := hn.2.2
    rw [hty] at this
    unfold ntype
    omega
  have hlen : (h0 :: u8 (28 * 8 + tid) :: (be16 n.length ++ n)).length = n.length + 4 := by simp only [List.length_cons, hb1']
  have g3 : (Res.slice (h0 :: u8 (28 * 8 + tid) :: (be16 n.length ++ n)) 4 (4 + n.length) : Res PErr (List Byte)) = .ok n := by
    rw [Res.slice_of_le (by omega) (by omega)]
    have : List.take (4 + n.length) (h0 :: u8 (28 * 8 + tid) :: (be16 n.length ++ n)) = h0 :: u8 (28 * 8 + tid) :: (be16 n.length ++ n) :=
      List.take_of_length_le (by omega)
    rw [this]
    simp [be16]
  have g4 : (Res.idx n 1 : Res PErr Byte) = .ok b1 := by
    rw [Res.idx_of_lt (by have := hn.1; omega)]; subst en; rfl
  have hgo : apGo (h0 :: u8 (28 * 8 + tid) :: (be16 n.length ++ n)) out.length ((h0 :: u8 (28 * 8 + tid) :: (be16 n.length ++ n)).length + 1) 2 0 out e
      = .ok (out ++ startCode ++ n, mark e (irap (ntype b1)), some .shortPacket) := by
    rw [hlen]
    unfold apGo
    rw [if_pos (by omega), if_neg (by omega)]
    have i0 : (Res.idx (h0 :: u8 (28 * 8 + tid) :: (be16 n.length ++ n)) 2 : Res PErr Byte) = .ok (u8 (n.length / 2 ^ 8)) := rfl
    have i1 : (Res.idx (h0 :: u8 (28 * 8 + tid) :: (be16 n.length ++ n)) (2 + 1) : Res PErr Byte) = .ok (u8 n.length) := rfl
    rw [i0, Res.bind_def, Res.bind_ok, i1, Res.bind_def, Res.bind_ok, rd16_be16 hl, if_neg (by have := hn.1; omega)]
    rw [show 2 + 2 = 4 from rfl, g3, Res.bind_def, Res.bind_ok, g4, Res.bind_def, Res.bind_ok, if_neg h28]
    unfold apGo
    rw [if_neg (by omega), if_pos (by omega)]
  simp only [Bool.false_eq_true, if_false]
  rw [hgo]
  rw [hty]
  rfl

/-- With decoding order numbers a single unit packet without room for the number is refused, but a start code
stays in the output and a slice header counts as key frame. -/
theorem C24_h266_single_error_violation (fu : Option (List Byte)) (out : List Byte) (b c : Byte) :
    depack ⟨fu, true⟩ [0, 0x39, b, c] out none = .ok (⟨fu, true⟩, out ++ [0, 0, 0, 1], some true, some .shortPacket) := rfl

/-! ### Where frames are not delivered -/

/-- A unit that is only its header (end of sequence, end of bitstream) is sent, but the receiver refuses it. -/
theorem C23_h266_header_only_violation (b0 b1 : Byte) (ht : ntype b1 = 21 ∨ ntype b1 = 22) (mtu : Nat) (hm : 2 ≤ mtu) (d : D) (out : List Byte) (e : Option Bool) :
    emit ⟨none, none, none, none⟩ [b0, b1] mtu = .ok ([[b0, b1]], ⟨none, none, none, none⟩) ∧ depacketize d [b0, b1] out e = .err .shortPacket := by
  refine ⟨?_, rfl⟩
  unfold emit
  dsimp only
  rw [if_neg (by omega), if_neg (by omega), if_neg (by omega), if_neg (by omega), if_neg (by omega), if_neg (by omega)]
  unfold emitNalu
  rw [if_pos (by show 0 + 2 + 0 ≤ mtu; omega)]
  rfl

/-- A byte stream may have more zeros between units (`trailing_zero_8bits`): they are sent as part of the
unit before them. -/
theorem C23_h266_trailing_zeros_violation :
    packetize ⟨none, none, none, none⟩ 100 (annexB [(3, [0, 0x39, 5]), (5, [0, 0x41, 6])])
      = .ok ([[0, 0x39, 5, 0, 0], [0, 0x41, 6]], ⟨none, none, none, none⟩) := by decide +kernel

/-- A parameter set too big for one packet is dropped in silence. -/
theorem C23_h266_parameter_sets_violation :
    packetize ⟨none, none, none, none⟩ 10 (annexB [(3, 0 :: 0x79 :: List.replicate 20 7), (3, [0, 0x81, 3]), (3, [0, 0x39, 6])])
      = .ok ([[0, 0x81, 3], [0, 0x39, 6]], ⟨none, none, none, none⟩) := by decide +kernel

/-- Of two parameter sets of a kind before a slice only the last is sent: streams with several PPS lose them. -/
theorem C23_h266_many_sets_violation :
    packetize ⟨none, none, none, none⟩ 100 (annexB [(3, [0, 0x79, 1]), (3, [0, 0x81, 2]), (3, [0, 0x81, 3]), (3, [0, 0x39, 6])])
      = .ok ([[0, 0xe1, 0, 3, 0, 0x79, 1, 0, 3, 0, 0x81, 3], [0, 0x39, 6]], ⟨none, none, none, none⟩) := by decide +kernel

/-- Bytes before the first start code are dropped in silence. -/
theorem C23_h266_leading_bytes_violation :
    packetize ⟨none, none, none, none⟩ 100 [0, 0x39, 1, 0, 0, 1, 0, 0x41, 7] = .ok ([[0, 0x41, 7]], ⟨none, none, none, none⟩) := by
  decide +kernel

/-- An end fragment without a start brings the last unit again, with its own header: the buffer is not
cleared when a unit is delivered. -/
theorem C24_h266_stale_fragments_violation (dd : Bool) (b0 b1 : Byte) (hb : b0.val < 128) (stale x out : List Byte) (e : Option Bool) (p : Bool) :
    depacketize ⟨some stale, dd⟩ (frag b0 b1 false true p x) out e
      = .ok (⟨some (stale ++ x), dd⟩, out ++ ([0, 0, 0, 1] ++ b0 :: b1 :: (stale ++ x)), mark e (irap (b1.val / 8))) := by
  rw [fu_next dd stale b0 b1 hb]
  rfl

/-- Fragments without an end are kept for ever: any number of them, all their bytes. -/
theorem C24_h266_memory_violation (dd : Bool) (b0 b1 : Byte) (hb : b0.val < 128) (x : List Byte) : ∀ (k : Nat) (acc : List Byte),
    runDepack depacketize (List.replicate k (frag b0 b1 false false false x)) ⟨some acc, dd⟩ [] none
      = .ok (⟨some (acc ++ (List.replicate k x).flatten), dd⟩, [], none) := by
  intro k
  induction k with
  | zero => intro acc; simp [runDepack]
  | succ k ih =>
    intro acc
    rw [List.replicate_succ]
    simp only [runDepack, fu_next dd acc b0 b1 hb, Res.bind_def, Res.bind_ok, Bool.false_eq_true, if_false, ih, List.replicate_succ, List.flatten_cons, List.append_assoc]

end Str0m.H266
