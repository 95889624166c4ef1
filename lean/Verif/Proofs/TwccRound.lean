import Verif.Proofs.Rtcp
import Verif.Spec.Rtcp
/-
  The TWCC wire round trip.
-/
namespace Str0m.Twcc
open Res

@[simp] theorem idx_cons_zero {ε α : Type} (a : α) (l : List α) : (idx (a :: l) 0 : Res ε α) = .ok a := rfl
@[simp] theorem idx_cons_succ {ε α : Type} (a : α) (l : List α) (n : Nat) :
    (idx (a :: l) (n + 1) : Res ε α) = idx l n := rfl

theorem rd32At_be32 {n : Nat} (h : n < 2^32) (pre rest : List Byte) :
    rd32At (pre ++ (be32 n ++ rest)) pre.length = .ok n := by
  have h1 : ∀ k, (pre ++ (be32 n ++ rest))[pre.length + k]? = (be32 n ++ rest)[k]? := by
    intro k; rw [List.getElem?_append_right (by omega)]; congr 1; omega
  have h0 := h1 0
  simp only [rd32At, Res.idx, bind_def]
  rw [Nat.add_zero] at h0
  rw [h0, h1 1, h1 2, h1 3]
  simp only [be32, List.cons_append, List.getElem?_cons_succ, List.getElem?_cons_zero, bind_ok]
  show Res.ok (rd32 _ _ _ _) = _
  rw [rd32_be32 h]

/-- Read from a known place. -/
theorem rd32At_of {buf pre rest : List Byte} {i n : Nat} (h : n < 2^32)
    (hb : buf = pre ++ (be32 n ++ rest)) (hi : i = pre.length) : rd32At buf i = .ok n := by
  subst hb hi; exact rd32At_be32 h pre rest

theorem rd16At_cons {a b : Byte} {rest : List Byte} : rd16At (a :: b :: rest) 0 = .ok (rd16 a b) := rfl

theorem rd16At_be16 {n : Nat} (h : n < 2^16) (rest : List Byte) : rd16At (be16 n ++ rest) 0 = .ok n := by
  show Res.ok (rd16 _ _) = _
  rw [rd16_be16 h]

/-! ### Chunks -/

theorem or_add {a b k : Nat} (hb : b < 2^k) : (a <<< k) ||| b = a * 2^k + b := by
  rw [Nat.shiftLeft_eq, Nat.mul_comm, Nat.two_pow_add_eq_or_of_lt hb]

theorem and_pow_zero {x k : Nat} (h : x < 2^k) : x &&& 2^k = 0 := by
  by_contra hc
  have := Nat.ge_two_pow_of_testBit (Rtcp.testBit_of_and_two_pow hc)
  omega

theorem Status.ofCode_code (s : Status) : Status.ofCode s.code = s := by cases s <;> rfl
theorem Status.code_lt (s : Status) : s.code < 4 := by cases s <;> decide

theorem Status.ofCode_eq {n : Nat} : Status.ofCode n = symbol n := by
  unfold Status.ofCode
  match n with
  | 0 => rfl
  | 1 => rfl
  | 2 => rfl
  | n + 3 => simp [symbol]

theorem doubleStatus_eq {v i : Nat} (hi : i < 7) : doubleStatus v i = symbol (v / 4^(6 - i) % 4) := by
  unfold doubleStatus
  rw [Status.ofCode_eq, Nat.shiftRight_eq_div_pow, show (3:Nat) = 2^2 - 1 from rfl, Nat.and_two_pow_sub_one_eq_mod,
    show (4:Nat)^(6 - i) = 2^(12 - 2 * i) by
      rw [show (4:Nat) = 2^2 from rfl, ← Nat.pow_mul]; congr 1; omega]

theorem double_statuses {v f : Nat} : (Chunk.double v f).statuses = [0, 1, 2, 3, 4, 5, 6].map (doubleStatus v) := by
  rw [Chunk.statuses, show [0, 1, 2, 3, 4, 5, 6] = List.range 7 from rfl]
  apply List.map_congr_left
  intro i hi
  rw [doubleStatus_eq (by simpa using hi)]

theorem Chunk.statuses_length {c : Chunk} : c.statuses.length = c.maxStatus := by
  cases c <;> simp [Chunk.statuses, Chunk.maxStatus]

theorem Chunk.encode_wf {c : Chunk} (h : c.WF) :
    ∃ x, x < 2^16 ∧ c.encode = .ok (be16 x) ∧ ∀ rest, Chunk.parse (be16 x ++ rest) = .ok c := by
  cases c with
  | run s n =>
    simp only [Chunk.WF] at h
    have hs := s.code_lt
    have hx : (s.code <<< 13) ||| n = s.code * 2^13 + n := or_add h
    refine ⟨(s.code <<< 13) ||| n, by omega, by simp [Chunk.encode]; omega, fun rest => ?_⟩
    unfold Chunk.parse
    rw [if_neg (by simp), bind_def, rd16At_be16 (by omega), bind_ok]
    rw [if_neg (by rw [show 0x8000 = 2^15 from rfl, and_pow_zero (by omega)]; omega)]
    have h1 : ((s.code <<< 13) ||| n) >>> 13 % 256 = s.code := by
      rw [hx, Nat.shiftRight_eq_div_pow]; omega
    have h2 : ((s.code <<< 13) ||| n) &&& 0x1fff = n := by
      rw [hx, show 0x1fff = 2^13 - 1 from rfl, Nat.and_two_pow_sub_one_eq_mod]; omega
    rw [h1, h2, Status.ofCode_code]; rfl
  | single v f =>
    obtain ⟨hv, rfl⟩ := h
    have hx : (1 <<< 15) ||| v = 2^15 + v := by
      have : v < 2^15 := by omega
      rw [or_add this]; omega
    refine ⟨(1 <<< 15) ||| v, by omega, by simp only [Chunk.encode]; rw [if_pos ⟨trivial, by omega⟩], fun rest => ?_⟩
    unfold Chunk.parse
    rw [if_neg (by simp), bind_def, rd16At_be16 (by omega), bind_ok]
    have hb15 : ((1 <<< 15) ||| v) &&& 0x8000 > 0 := by
      apply Nat.pos_of_ne_zero
      apply Rtcp.and_two_pow_of_testBit (k := 15)
      rw [Nat.testBit_eq_decide_div_mod_eq, hx]
      simp; omega
    have hb14 : ¬ ((1 <<< 15) ||| v) &&& 0x4000 > 0 := by
      intro hc
      have := Rtcp.testBit_of_and_two_pow (k := 14) (Nat.pos_iff_ne_zero.1 hc)
      rw [Nat.testBit_eq_decide_div_mod_eq, hx] at this
      simp at this; omega
    rw [if_pos hb15, if_neg hb14]
    have h2 : ((1 <<< 15) ||| v) &&& 0x3fff = v := by
      rw [hx, show 0x3fff = 2^14 - 1 from rfl, Nat.and_two_pow_sub_one_eq_mod]; omega
    rw [h2]; rfl
  | double v f =>
    obtain ⟨hv, rfl⟩ := h
    have hx : ((1 <<< 15) ||| (1 <<< 14)) ||| v = 2^15 + 2^14 + v := by
      have h1 : (1 <<< 15) ||| (1 <<< 14) = 3 <<< 14 := by decide
      rw [h1, or_add hv]; omega
    refine ⟨((1 <<< 15) ||| (1 <<< 14)) ||| v, by omega,
      by simp only [Chunk.encode]; rw [if_pos ⟨trivial, by omega⟩], fun rest => ?_⟩
    unfold Chunk.parse
    rw [if_neg (by simp), bind_def, rd16At_be16 (by omega), bind_ok]
    rw [hx]
    have hb15 : (2^15 + 2^14 + v) &&& 0x8000 > 0 := by
      apply Nat.pos_of_ne_zero
      apply Rtcp.and_two_pow_of_testBit (k := 15)
      rw [Nat.testBit_eq_decide_div_mod_eq]
      simp; omega
    have hb14 : (2^15 + 2^14 + v) &&& 0x4000 > 0 := by
      apply Nat.pos_of_ne_zero
      apply Rtcp.and_two_pow_of_testBit (k := 14)
      rw [Nat.testBit_eq_decide_div_mod_eq]
      simp; omega
    rw [if_pos hb15, if_pos hb14]
    have h2 : (2^15 + 2^14 + v) &&& 0x3fff = v := by
      rw [show 0x3fff = 2^14 - 1 from rfl, Nat.and_two_pow_sub_one_eq_mod]; omega
    rw [h2]; rfl

theorem encodeChunks_wf : ∀ {cs : List Chunk}, (∀ c ∈ cs, c.WF) →
    ∃ b, encodeChunks cs = .ok b ∧ b.length = cs.length * 2 ∧
      ∀ (n : Nat) (rest : List Byte) (fuel : Nat), Covers cs n → b.length + rest.length < fuel →
        parseChunks fuel n (b ++ rest) = .ok (cs, rest)
  | [], _ => ⟨[], rfl, rfl, fun n rest fuel hc hf => by
      obtain ⟨fuel, rfl⟩ : ∃ f, fuel = f + 1 := ⟨fuel - 1, by simp at hf; omega⟩
      simp only [Covers] at hc; subst hc
      simp [parseChunks]⟩
  | c :: cs, h => by
    obtain ⟨x, hx, he, hp⟩ := Chunk.encode_wf (h c (by simp))
    obtain ⟨b, hb, hl, hr⟩ := encodeChunks_wf (cs := cs) (fun d hd => h d (by simp [hd]))
    refine ⟨be16 x ++ b, ?_, ?_, ?_⟩
    · simp only [encodeChunks, bind_def, he, hb, bind_ok]; rfl
    · simp [hl]; omega
    · intro n rest fuel hc hf
      obtain ⟨fuel, rfl⟩ : ∃ f, fuel = f + 1 := ⟨fuel - 1, by simp at hf; omega⟩
      obtain ⟨hn, hc⟩ := hc
      rw [parseChunks, if_neg (by omega), bind_def, List.append_assoc, hp, bind_ok, bind_def,
        from_of_le (by simp), bind_ok]
      have hd : (be16 x ++ (b ++ rest)).drop 2 = b ++ rest := List.drop_left' (by simp)
      rw [hd]
      by_cases hle : c.maxStatus ≤ n
      · have : (n : Int) - c.maxStatus = ((n - c.statuses.length : Nat) : Int) := by
          rw [Chunk.statuses_length]; omega
        rw [this, hr _ rest fuel hc (by simp at hf; omega)]
        rfl
      · -- the last chunk overshoots
        have h0 : n - c.statuses.length = 0 := by rw [Chunk.statuses_length]; omega
        rw [h0] at hc
        cases cs with
        | nil =>
          have hb0 : b = [] := by simpa using hl
          obtain ⟨fuel, rfl⟩ : ∃ f, fuel = f + 1 := ⟨fuel - 1, by simp at hf; omega⟩
          rw [parseChunks, if_pos (by omega)]
          simp [hb0]
        | cons d ds => exact absurd hc.1 (by omega)

/-! ### Deltas -/

theorem rdI16_beI16 {v : Int} (h1 : -32768 ≤ v) (h2 : v ≤ 32767) (rest : List Byte) :
    ∃ a b, beI16 v ++ rest = a :: b :: rest ∧ rdI16 a b = v := by
  refine ⟨_, _, rfl, ?_⟩
  unfold rdI16
  rw [rd16_be16 (by omega)]
  split <;> omega

/-- `encs ds` is what the deltas look like on the wire. -/
def encs (ds : List Delta) : List Byte := ds.flatMap Delta.encode

theorem encs_nil : encs [] = [] := rfl
theorem encs_cons (d : Delta) (ds : List Delta) : encs (d :: ds) = d.encode ++ encs ds := by
  simp [encs]
theorem encs_append (a b : List Delta) : encs (a ++ b) = encs a ++ encs b := by
  simp [encs]

theorem match_small : ∀ {n : Nat} {ds : List Delta}, List.Forall₂ Fits (List.replicate n .small) ds →
    ∃ bs : List Byte, ds = bs.map Delta.small ∧ encs ds = bs ∧ bs.length = n
  | 0, _, h => by cases h; exact ⟨[], rfl, rfl, rfl⟩
  | n + 1, _, h => by
    rw [List.replicate_succ] at h
    cases h with
    | @cons _ d _ ds hd ht =>
      obtain ⟨bs, h1, h2, h3⟩ := match_small ht
      cases d with
      | large v => exact absurd hd (by simp [Fits])
      | small v => exact ⟨v :: bs, by simp [h1], by simp [encs_cons, Delta.encode, h2], by simp [h3]⟩

theorem match_large : ∀ {n : Nat} {ds : List Delta}, List.Forall₂ Fits (List.replicate n .large) ds →
    (encs ds).length = n * 2 ∧ ∀ rest, largePairs n (encs ds ++ rest) = ds
  | 0, _, h => by cases h; exact ⟨rfl, fun _ => rfl⟩
  | n + 1, _, h => by
    rw [List.replicate_succ] at h
    cases h with
    | @cons _ d _ ds hd ht =>
      obtain ⟨h1, h2⟩ := match_large ht
      cases d with
      | small v => exact absurd hd (by simp [Fits])
      | large v =>
        refine ⟨?_, fun rest => ?_⟩
        · have : (beI16 v).length = 2 := rfl
          simp only [encs_cons, Delta.encode, List.length_append, this]; omega
        · obtain ⟨a, b, hab, hv⟩ := rdI16_beI16 hd.1 hd.2 (encs ds ++ rest)
          rw [encs_cons, Delta.encode, List.append_assoc, hab, largePairs, hv, h2]

theorem readSmall_of {bs rest : List Byte} : readSmall (bs ++ rest) bs.length = .ok (bs.map Delta.small) := by
  unfold readSmall; rw [if_neg (by simp)]; simp

theorem parseDouble_match (v : Nat) : ∀ {is : List Nat} {ds : List Delta} (rest : List Byte),
    List.Forall₂ Fits ((is.map (doubleStatus v)).filter carries) ds →
    parseDouble v is (encs ds ++ rest) = .ok (ds, rest)
  | [], _, rest, h => by cases h; rfl
  | i :: is, ds, rest, h => by
    rw [parseDouble]
    split
    · rename_i hs
      simp only [List.map_cons, hs, List.filter_cons, carries] at h
      simp at h
      obtain ⟨d, ds, hd, ht, rfl⟩ := List.forall₂_cons_left_iff.1 h
      cases d with
      | large v => exact absurd hd (by simp [Fits])
      | small b =>
        have e : encs (Delta.small b :: ds) ++ rest = [b] ++ (encs ds ++ rest) := by
          simp [encs_cons, Delta.encode]
        have hr : readSmall ([b] ++ (encs ds ++ rest)) 1 = .ok [.small b] :=
          readSmall_of (bs := [b])
        rw [e, bind_def, hr, bind_ok, bind_def, from_of_le (by simp), bind_ok]
        show ((parseDouble v is (encs ds ++ rest)).bind _) = _
        rw [parseDouble_match v rest (by simpa [carries] using ht)]
        rfl
    · rename_i hs
      simp only [List.map_cons, hs, List.filter_cons, carries] at h
      simp at h
      obtain ⟨d, ds, hd, ht, rfl⟩ := List.forall₂_cons_left_iff.1 h
      cases d with
      | small v => exact absurd hd (by simp [Fits])
      | large x =>
        obtain ⟨a, b, hab, hv⟩ := rdI16_beI16 hd.1 hd.2 (encs ds ++ rest)
        have e : encs (Delta.large x :: ds) ++ rest = a :: b :: (encs ds ++ rest) := by
          rw [encs_cons, Delta.encode, List.append_assoc, hab]
        have hr : readLarge (a :: b :: (encs ds ++ rest)) 1 = .ok [.large x] := by
          unfold readLarge
          rw [if_neg (by simp)]
          simp [largePairs, hv]
        rw [e, bind_def, hr, bind_ok, bind_def, from_of_le (by simp), bind_ok]
        show ((parseDouble v is (encs ds ++ rest)).bind _) = _
        rw [parseDouble_match v rest (by simpa [carries] using ht)]
        rfl
    · rename_i h1 h2
      refine parseDouble_match v rest ?_
      rw [List.map_cons, List.filter_cons, if_neg] at h
      · exact h
      · simp only [carries, decide_eq_true_eq]
        rintro (h' | h')
        · exact h1 h'
        · exact h2 h'

theorem single_count {v f : Nat} (hv : v < 2^14) :
    (Chunk.statuses (.single v f)).filter carries = List.replicate (countOnes v) .small := by
  have h14 : v.testBit 14 = false := Nat.testBit_lt_two_pow hv
  have h15 : v.testBit 15 = false := Nat.testBit_lt_two_pow (by omega)
  rw [List.eq_replicate_iff]
  constructor
  · rw [← List.countP_eq_length_filter, Chunk.statuses, List.countP_map, countOnes,
      ← List.countP_eq_length_filter]
    have hf : ∀ i, (carries ∘ fun i => if v.testBit (13 - i) = true then Status.small else .notReceived) i
        = v.testBit (13 - i) := by
      intro i; simp only [Function.comp]
      cases v.testBit (13 - i) <;> simp [carries]
    rw [List.countP_congr (q := fun i => v.testBit (13 - i)) (fun x _ => by rw [hf])]
    simp only [List.range_succ, List.range_zero, List.countP_append, List.countP_cons, List.countP_nil, h14, h15]
    simp
    omega
  · intro s hs
    rw [List.mem_filter] at hs
    obtain ⟨h1, h2⟩ := hs
    simp only [Chunk.statuses, List.mem_map] at h1
    obtain ⟨i, _, rfl⟩ := h1
    split at h2 <;> simp_all [carries]

theorem carries_replicate {n : Nat} {s : Status} :
    (List.replicate n s).filter carries = if carries s then List.replicate n s else [] := by
  rw [List.filter_replicate]

/-- The deltas of one chunk; after a run of large deltas the rest of the buffer is off. -/
theorem parseChunkDeltas_match {c : Chunk} {ds : List Delta} (hw : c.WF) (rest : List Byte)
    (h : Match c.statuses ds) :
    ∃ buf, parseChunkDeltas c (encs ds ++ rest) = .ok (ds, buf) ∧
      ((¬ ∃ n, 0 < n ∧ c = .run .large n) → buf = rest) := by
  unfold Match at h
  cases c with
  | run s n =>
    rw [Chunk.statuses, carries_replicate] at h
    cases s with
    | notReceived =>
      simp [carries] at h; subst h; exact ⟨rest, by simp [parseChunkDeltas, encs_nil], fun _ => rfl⟩
    | unknown =>
      simp [carries] at h; subst h; exact ⟨rest, by simp [parseChunkDeltas, encs_nil], fun _ => rfl⟩
    | small =>
      rw [if_pos (by simp [carries])] at h
      obtain ⟨bs, h1, h2, h3⟩ := match_small h
      refine ⟨rest, ?_, fun _ => rfl⟩
      rw [h2, h1, ← h3]
      simp only [parseChunkDeltas, bind_def, readSmall_of, bind_ok]
      rw [from_of_le (by simp), bind_ok]
      simp
    | large =>
      rw [if_pos (by simp [carries])] at h
      obtain ⟨h1, h2⟩ := match_large h
      refine ⟨(encs ds ++ rest).drop n, ?_, fun hc => ?_⟩
      · have hr : readLarge (encs ds ++ rest) n = .ok ds := by
          unfold readLarge
          rw [if_neg (by rw [List.length_append, h1]; omega), h2]
        simp only [parseChunkDeltas, bind_def, hr, bind_ok]
        rw [from_of_le (by rw [List.length_append, h1]; omega), bind_ok]
        rfl
      · have h0 : n = 0 := by
          by_contra hn; exact hc ⟨n, by omega, rfl⟩
        subst h0
        have : encs ds = [] := by simpa using h1
        simp [this]
  | single v f =>
    rw [single_count hw.1] at h
    obtain ⟨bs, h1, h2, h3⟩ := match_small h
    refine ⟨rest, ?_, fun _ => rfl⟩
    rw [h2, h1]
    simp only [parseChunkDeltas, bind_def, ← h3, readSmall_of, bind_ok]
    rw [from_of_le (by simp), bind_ok]
    simp
  | double v f =>
    rw [double_statuses] at h
    exact ⟨rest, parseDouble_match v rest h, fun _ => rfl⟩

theorem parseDeltas_none : ∀ {cs : List Chunk} (buf : List Byte), (∀ c ∈ cs, c.WF) →
    (∀ d ∈ cs, ∀ s ∈ d.statuses, carries s = false) → parseDeltas cs buf = .ok []
  | [], _, _, _ => rfl
  | c :: cs, buf, hw, h => by
    have hm : Match c.statuses [] := by
      unfold Match
      rw [List.filter_eq_nil_iff.2 (fun s hs => by simp [h c (by simp) s hs])]
      exact List.Forall₂.nil
    obtain ⟨b, hb, _⟩ := parseChunkDeltas_match (hw c (by simp)) buf hm
    rw [parseDeltas, bind_def]
    rw [show encs [] ++ buf = buf from rfl] at hb
    rw [hb, bind_ok]
    simp only
    rw [bind_def, parseDeltas_none b (fun d hd => hw d (by simp [hd])) (fun d hd => h d (by simp [hd]))]
    rfl

theorem forall₂_append_left {α β : Type} {R : α → β → Prop} : ∀ {a b : List α} {c : List β},
    List.Forall₂ R (a ++ b) c →
    ∃ c1 c2, List.Forall₂ R a c1 ∧ List.Forall₂ R b c2 ∧ c = c1 ++ c2
  | [], _, c, h => ⟨[], c, .nil, h, rfl⟩
  | x :: a, b, c, h => by
    cases h with
    | cons hx ht =>
      obtain ⟨c1, c2, h1, h2, h3⟩ := forall₂_append_left ht
      exact ⟨_ :: c1, c2, .cons hx h1, h2, by rw [h3]; rfl⟩

theorem parseDeltas_match : ∀ {cs : List Chunk} {ds : List Delta}, (∀ c ∈ cs, c.WF) →
    LargeRunLast cs → Match (cs.flatMap Chunk.statuses) ds → parseDeltas cs (encs ds) = .ok ds
  | [], ds, _, _, h => by cases h; rfl
  | c :: cs, ds, hw, hl, h => by
    unfold Match at h
    rw [List.flatMap_cons, List.filter_append] at h
    obtain ⟨d1, d2, h1, h2, hds⟩ := forall₂_append_left h
    obtain ⟨buf, hb, hbr⟩ := parseChunkDeltas_match (hw c (by simp)) (encs d2) h1
    have e : encs ds = encs d1 ++ encs d2 := by rw [hds, encs_append]
    rw [parseDeltas, bind_def, e, hb, bind_ok]
    simp only
    rw [bind_def]
    by_cases hlr : ∃ n, 0 < n ∧ c = .run .large n
    · have hno := hl.1 hlr
      have hd0 : d2 = [] := by
        rw [List.filter_eq_nil_iff.2] at h2
        · cases h2; rfl
        · intro s hs
          obtain ⟨d, hd, hs⟩ := List.mem_flatMap.1 hs
          simp [hno d hd s hs]
      rw [parseDeltas_none buf (fun d hd => hw d (by simp [hd])) hno, hds, hd0]
      simp
    · rw [hbr hlr, parseDeltas_match (fun d hd => hw d (by simp [hd])) hl.2 h2, hds]
      rfl

end Str0m.Twcc
