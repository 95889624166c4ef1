import Verif.Model.H265
import Verif.Proofs.H264
import Verif.Spec.H265
/-
  H.265: splitting a byte stream, reading payloads.
-/
namespace Str0m.H265
open Str0m.Packet
open Spec
open H264 (nextInd)
open H264.Spec (annexB delivered)

/-! ### Splitting -/

theorem nextInd_unit (pre n : List Byte) (hn : ValidUnit n) (tail : List (Nat × List Byte)) (ht : ∀ x ∈ tail, 2 ≤ x.1) :
    nextInd (pre ++ n ++ annexB tail) pre.length = .ok (match tail with
      | [] => none
      | (z, _) :: _ => some (pre.length + n.length, z + 1)) := by
  unfold nextInd
  rw [if_pos (by rw [List.length_append, List.length_append]; omega)]
  rw [List.append_assoc, List.drop_left, H264.go_unit n _ _ 0 (by simpa using hn.2.2.2.1) (by simpa using hn.2.2.2.2)]
  cases tail with
  | nil => rfl
  | cons x tail =>
    obtain ⟨z, m⟩ := x
    have := H264.go_code z (ht (z, m) (by simp)) (m ++ annexB tail) (pre.length + n.length)
    rw [show annexB ((z, m) :: tail) = List.replicate z 0 ++ [1] ++ (m ++ annexB tail) by simp [annexB], this]

/-- `emit` for each NAL unit. -/
def emitAll (mtu : Nat) : List (List Byte) → P → Res PErr (List (List Byte) × P)
  | [], p => .ok ([], p)
  | n :: ns, p => do
    let r ← emit p n mtu
    let rest ← emitAll mtu ns r.2
    pure (r.1 ++ rest.1, rest.2)

theorem packGo_units (mtu : Nat) : ∀ (tail : List (Nat × List Byte)) (fuel : Nat) (pre : List Byte) (z : Nat) (n : List Byte) (p : P),
    tail.length < fuel → ValidUnit n → (∀ x ∈ tail, 2 ≤ x.1 ∧ ValidUnit x.2) →
    packGo mtu (pre ++ (List.replicate z 0 ++ [1]) ++ n ++ annexB tail) fuel p (pre.length, z + 1)
      = emitAll mtu (n :: tail.map (·.2)) p := by
  intro tail
  induction tail with
  | nil =>
    intro fuel pre z n p hf hn ht
    cases fuel with
    | zero => simp at hf
    | succ fuel =>
      have hl : pre.length + (z + 1) = (pre ++ (List.replicate z 0 ++ [1])).length := by simp
      unfold packGo
      rw [hl, nextInd_unit _ n hn [] (by simp), Res.bind_def, Res.bind_ok]
      dsimp only
      rw [Res.from_of_le (by simp only [List.length_append]; omega)]
      rw [List.append_assoc, List.drop_left]
      simp only [annexB, List.append_nil, List.map_nil, emitAll, Res.bind_def, Res.bind_ok, Res.pure_def]
      cases emit p n mtu with
      | ok r => rfl
      | err e => rfl
      | panic => rfl
  | cons x tail ih =>
    obtain ⟨z2, n2⟩ := x
    intro fuel pre z n p hf hn ht
    cases fuel with
    | zero => simp at hf
    | succ fuel =>
      have hl : pre.length + (z + 1) = (pre ++ (List.replicate z 0 ++ [1])).length := by simp
      unfold packGo
      rw [hl, nextInd_unit _ n hn ((z2, n2) :: tail) (fun x hx => (ht x hx).1), Res.bind_def, Res.bind_ok]
      dsimp only
      have hsl : (Res.slice (pre ++ (List.replicate z 0 ++ [1]) ++ n ++ annexB ((z2, n2) :: tail)) (pre ++ (List.replicate z 0 ++ [1])).length
          ((pre ++ (List.replicate z 0 ++ [1])).length + n.length) : Res PErr _) = .ok n := by
        rw [slice_piece _ _ _ (by simp only [List.length_append]; omega)]
        rw [List.append_assoc, List.drop_left, List.take_left]
      rw [hsl, Res.bind_def, Res.bind_ok]
      have e : pre ++ (List.replicate z 0 ++ [1]) ++ n ++ annexB ((z2, n2) :: tail)
          = (pre ++ (List.replicate z 0 ++ [1]) ++ n) ++ (List.replicate z2 0 ++ [1]) ++ n2 ++ annexB tail := by
        simp [annexB]
      have hl2 : (pre ++ (List.replicate z 0 ++ [1])).length + n.length = (pre ++ (List.replicate z 0 ++ [1]) ++ n).length :=
        List.length_append.symm
      rw [e, hl2]
      show _ = (emit p n mtu >>= _)
      cases emit p n mtu with
      | err e => rfl
      | panic => rfl
      | ok r =>
        simp only [Res.bind_def, Res.bind_ok]
        rw [ih fuel _ z2 n2 r.2 (by simpa using hf) (ht (z2, n2) (by simp)).2 (fun x hx => ht x (List.mem_cons_of_mem _ hx))]
        rfl

/-- Packetizing an Annex B frame is emitting its NAL units in order. -/
theorem packetize_units (mtu : Nat) (hm : 4 ≤ mtu) (us : List (Nat × List Byte)) (hne : us ≠ [])
    (hus : ∀ x ∈ us, 2 ≤ x.1 ∧ ValidUnit x.2) (p : P) :
    packetize p mtu (annexB us) = emitAll (min mtu 1200) (us.map (·.2)) p := by
  cases us with
  | nil => exact absurd rfl hne
  | cons x tail =>
    obtain ⟨z, n⟩ := x
    obtain ⟨hz, hn⟩ := hus (z, n) (by simp)
    simp only at hz hn
    have hb : annexB ((z, n) :: tail) = List.replicate z 0 ++ [1] ++ (n ++ annexB tail) := by simp [annexB]
    unfold packetize
    rw [if_neg (by rw [hb]; simp), if_neg (by omega)]
    have h0 : nextInd (annexB ((z, n) :: tail)) 0 = .ok (some (0, z + 1)) := by
      unfold nextInd
      rw [if_pos (by omega), List.drop_zero, hb, H264.go_code z hz]
    rw [h0, Res.bind_def, Res.bind_ok]
    dsimp only
    have hlen : tail.length ≤ (annexB tail).length := by
      clear h0 hb hus hne
      induction tail with
      | nil => simp
      | cons y tail ih => obtain ⟨a, b⟩ := y; simp only [annexB, List.length_append, List.length_cons]; omega
    have := packGo_units (min mtu 1200) tail ((annexB ((z, n) :: tail)).length + 1) [] z n p (by
      rw [hb]; simp only [List.length_append]; omega) hn (fun x hx => hus x (List.mem_cons_of_mem _ hx))
    rw [List.nil_append] at this
    rw [show annexB ((z, n) :: tail) = List.replicate z 0 ++ [1] ++ n ++ annexB tail from rfl]
    exact this

/-! ### Reading -/

/-- What the receiver knows of key frames after some units. -/
def keyOf (e : Option Bool) : List (List Byte) → Option Bool
  | [] => e
  | n :: ns => keyOf (mark e (irap (unitType n))) ns

theorem irap_iff (n : List Byte) : irap (unitType n) = true ↔ Irap n := by
  unfold irap Irap
  simp only [Bool.or_eq_true, beq_iff_eq]
  omega

theorem keyOf_append (us vs : List (List Byte)) : ∀ e, keyOf e (us ++ vs) = keyOf (keyOf e us) vs := by
  induction us with
  | nil => intro e; rfl
  | cons n ns ih => intro e; exact ih _

theorem keyOf_iff : ∀ (us : List (List Byte)) (e : Option Bool), keyOf e us = some true ↔ e = some true ∨ ∃ n ∈ us, Irap n := by
  intro us
  induction us with
  | nil => intro e; simp [keyOf]
  | cons n ns ih =>
    intro e
    show keyOf (mark e (irap (unitType n))) ns = _ ↔ _
    rw [ih]
    have hm : mark e (irap (unitType n)) = some true ↔ (e = some true ∨ Irap n) := by
      rw [← irap_iff]
      unfold mark
      cases e <;> cases irap (unitType n) <;> simp
    rw [hm]
    simp only [List.mem_cons, exists_eq_or_imp]
    tauto

theorem delivered_append (us vs : List (List Byte)) : delivered (us ++ vs) = delivered us ++ delivered vs := by
  induction us with
  | nil => rfl
  | cons n ns ih => simp only [List.cons_append, delivered, ih, List.append_assoc]

theorem travels_head {n : List Byte} (h : Travels n) : ∃ b0 b1 t, n = b0 :: b1 :: t ∧ b0.val < 128 ∧ unitType n = b0.val / 2 % 64 := by
  obtain ⟨h1, ⟨b, r, rfl, hb⟩, -⟩ := h
  cases r with
  | nil => simp at h1
  | cons c t => exact ⟨b, c, t, rfl, hb, rfl⟩

theorem markUnit_eq {n : List Byte} (h : 2 ≤ n.length) (e : Option Bool) : markUnit e n = mark e (irap (unitType n)) := by
  match n, h with
  | b0 :: b1 :: t, _ => rfl

/-- The units of an aggregate as a list of bytes before each and the unit. -/
def laid (fields : List (List Byte × List Byte)) : List Byte := fields.flatMap (fun x => x.1 ++ (be16 x.2.length ++ x.2))

theorem aggregated_eq (donl : Bool) : ∀ us : List (Byte × List Byte), aggregated donl us = laid (us.map (fun x => (dond donl x.1, x.2))) := by
  intro us
  induction us with
  | nil => rfl
  | cons x us ih =>
    obtain ⟨a, n⟩ := x
    unfold aggregated
    rw [ih]
    unfold laid
    simp only [List.map_cons, List.flatMap_cons, List.append_assoc]

theorem apGo_read (donl : Bool) : ∀ (us : List (List Byte × List Byte)) (pre : List Byte) (fuel count : Nat) (out : List Byte) (e : Option Bool),
    (∀ x ∈ us, 2 ≤ x.2.length ∧ x.2.length < 2 ^ 16) →
    (∀ x ∈ us.take 1, x.1.length = skip donl (count == 0)) → (∀ x ∈ us.drop 1, x.1.length = skip donl false) → us.length < fuel →
    apGo donl (pre ++ laid us) fuel pre.length count out e = .ok (out ++ delivered (us.map (·.2)), keyOf e (us.map (·.2)), count + us.length) := by
  intro us
  induction us with
  | nil =>
    intro pre fuel count out e _ _ _ hf
    obtain ⟨f, rfl⟩ : ∃ f, fuel = f + 1 := ⟨fuel - 1, by simp at hf; omega⟩
    unfold apGo
    rw [if_neg (by simp [laid])]
    simp [delivered, keyOf]
  | cons x ns ih =>
    obtain ⟨dn, n⟩ := x
    intro pre fuel count out e hu hd1 hd2 hf
    obtain ⟨f, rfl⟩ : ∃ f, fuel = f + 1 := ⟨fuel - 1, by simp at hf; omega⟩
    obtain ⟨hl2, hlen⟩ := hu (dn, n) (by simp)
    simp only at hl2 hlen
    have hdn : dn.length = skip donl (count == 0) := hd1 (dn, n) (by simp)
    have e1 : pre ++ laid ((dn, n) :: ns) = (pre ++ dn ++ be16 n.length) ++ n ++ laid ns := by
      unfold laid
      simp only [List.flatMap_cons, List.append_assoc]
    have e2 : pre ++ laid ((dn, n) :: ns) = (pre ++ dn) ++ u8 (n.length / 2 ^ 8) :: u8 n.length :: (n ++ laid ns) := by
      rw [e1]; unfold be16; simp
    have hl : (pre ++ laid ((dn, n) :: ns)).length = pre.length + dn.length + 2 + n.length + (laid ns).length := by
      rw [e2]; simp; omega
    have g0 : (Res.idx (pre ++ laid ((dn, n) :: ns)) (pre.length + dn.length) : Res PErr Byte) = .ok (u8 (n.length / 2 ^ 8)) := by
      rw [Res.idx_of_lt (by rw [hl]; omega)]
      simp only [e2]
      rw [List.getElem_append_right (by simp)]; simp
    have g1 : (Res.idx (pre ++ laid ((dn, n) :: ns)) (pre.length + dn.length + 1) : Res PErr Byte) = .ok (u8 n.length) := by
      rw [Res.idx_of_lt (by rw [hl]; omega)]
      simp only [e2]
      rw [List.getElem_append_right (by simp)]; simp [show pre.length + dn.length + 1 - (pre.length + dn.length) = 1 by omega]
    have g3 : (Res.slice (pre ++ laid ((dn, n) :: ns)) (pre.length + dn.length + 2) (pre.length + dn.length + 2 + n.length) : Res PErr (List Byte)) = .ok n := by
      rw [Res.slice_of_le (by omega) (by omega), e1]
      rw [List.take_left' (by simp; omega), List.drop_left' (by simp; omega)]
    unfold apGo
    rw [← hdn, if_pos (by omega), if_neg (by omega), if_neg (by omega), g0, Res.bind_def, Res.bind_ok, g1, Res.bind_def, Res.bind_ok, rd16_be16 hlen, if_neg (by omega)]
    rw [g3, Res.bind_def, Res.bind_ok]
    have hdrop : ∀ y ∈ ns, y.1.length = skip donl false := fun y hy => hd2 y (by simpa using hy)
    have := ih (pre ++ dn ++ be16 n.length ++ n) f (count + 1) (out ++ startCode ++ n) (markUnit e n)
      (fun m hm => hu m (List.mem_cons_of_mem _ hm)) (fun y hy => by
        rw [show (count + 1 == 0) = false from rfl]
        exact hdrop y (List.mem_of_mem_take hy)) (fun y hy => hdrop y (List.mem_of_mem_drop hy)) (by simp at hf; omega)
    rw [show (pre ++ dn ++ be16 n.length ++ n).length = pre.length + dn.length + 2 + n.length by simp; omega, ← e1] at this
    rw [this, markUnit_eq hl2]
    simp only [List.map_cons, delivered, keyOf, startCode, List.append_assoc, List.length_cons]
    rw [show count + 1 + ns.length = count + (ns.length + 1) by omega]

theorem apMore_read (donl : Bool) : ∀ (us : List (Byte × List Byte)) (fuel : Nat), (∀ x ∈ us, x.2.length < 2 ^ 16) → us.length < fuel →
    apMore donl fuel (aggregated donl us) = .ok (us.map (fun x => (if donl then some x.1 else none, x.2))) := by
  intro us
  induction us with
  | nil =>
    intro fuel _ hf
    obtain ⟨f, rfl⟩ : ∃ f, fuel = f + 1 := ⟨fuel - 1, by simp at hf; omega⟩
    cases donl with
    | true => rfl
    | false => rfl
  | cons x us ih =>
    obtain ⟨a, n⟩ := x
    intro fuel hu hf
    obtain ⟨f, rfl⟩ : ∃ f, fuel = f + 1 := ⟨fuel - 1, by simp at hf; omega⟩
    have hlen : n.length < 2 ^ 16 := hu (a, n) (by simp)
    have ih' := ih f (fun y hy => hu y (List.mem_cons_of_mem _ hy)) (by simp at hf; omega)
    have e1 : aggregated donl ((a, n) :: us) = dond donl a ++ (u8 (n.length / 2 ^ 8) :: u8 n.length :: (n ++ aggregated donl us)) := by
      show dond donl a ++ be16 n.length ++ n ++ aggregated donl us = _
      unfold be16; simp
    have core : ∀ d : Option Byte, (if (u8 (n.length / 2 ^ 8) :: u8 n.length :: (n ++ aggregated donl us)).length < 2 then (.ok [] : Res PErr _)
        else do
          let a ← Res.idx (u8 (n.length / 2 ^ 8) :: u8 n.length :: (n ++ aggregated donl us)) 0
          let b ← Res.idx (u8 (n.length / 2 ^ 8) :: u8 n.length :: (n ++ aggregated donl us)) 1
          let t2 ← Res.from_ (u8 (n.length / 2 ^ 8) :: u8 n.length :: (n ++ aggregated donl us)) 2
          if t2.length < rd16 a b then .ok []
          else do
            let n ← Res.slice t2 0 (rd16 a b)
            let t3 ← Res.from_ t2 (rd16 a b)
            let us ← apMore donl f t3
            pure ((d, n) :: us)) = .ok ((d, n) :: us.map (fun x => (if donl then some x.1 else none, x.2))) := by
      intro d
      rw [if_neg (by simp)]
      rw [Res.idx_of_lt (by simp), Res.bind_def, Res.bind_ok, Res.idx_of_lt (by simp), Res.bind_def, Res.bind_ok, Res.from_of_le (by simp), Res.bind_def, Res.bind_ok]
      simp only [List.getElem_cons_zero, List.getElem_cons_succ, List.drop_succ_cons, List.drop_zero]
      rw [rd16_be16 hlen, if_neg (by simp), Res.slice_of_le (by omega) (by simp), Res.bind_def, Res.bind_ok, Res.from_of_le (by simp), Res.bind_def, Res.bind_ok]
      rw [List.drop_left, ih', Res.bind_def, Res.bind_ok, List.drop_zero, List.take_left]
      rfl
    cases donl with
    | true =>
      unfold apMore
      rw [if_neg (by rw [e1]; simp [dond]), e1]
      simp only [dond, dondOf, if_true, List.cons_append, List.nil_append]
      exact core (some a)
    | false =>
      unfold apMore
      rw [if_neg (by simp), e1]
      simp only [dond, dondOf, Bool.false_eq_true, if_false, List.nil_append]
      exact core none

/-- What `payload()` shows of an aggregate. -/
def apShown (donl : Bool) (v : Nat) (first : List Byte) (others : List (Byte × List Byte)) : Payload :=
  .ap (if donl then some (v % 65536) else none) first (others.map (fun x => (if donl then some x.1 else none, x.2)))

theorem rd16_be16_mod (v : Nat) : rd16 (u8 (v / 2 ^ 8)) (u8 v) = v % 65536 := by
  unfold rd16
  rw [u8_val, u8_val]
  omega

theorem aggregated_len (donl : Bool) : ∀ us : List (Byte × List Byte), 2 * us.length ≤ (aggregated donl us).length := by
  intro us
  induction us with
  | nil => simp [aggregated]
  | cons n ns ih => obtain ⟨a, m⟩ := n; simp [aggregated]; omega

theorem ap_read (d : D) (v : Nat) (l : Bool) (h1 : Byte) (first : List Byte) (others : List (Byte × List Byte)) (hi : (Item.ap v l h1 first others).Legal)
    (out : List Byte) (e : Option Bool) :
    depacketize d (u8 (48 * 2 + (if l then 1 else 0)) :: h1 :: (don d.donl v ++ (be16 first.length ++ first ++ aggregated d.donl others))) out e
      = .ok ({ d with payload := apShown d.donl v first others }, out ++ delivered (first :: others.map (·.2)), keyOf e (first :: others.map (·.2))) := by
  obtain ⟨hne, ⟨hf, hfl⟩, ho⟩ := hi
  generalize hb : u8 (48 * 2 + (if l then 1 else 0)) = b0
  have hv : b0.val = 96 ∨ b0.val = 97 := by rw [← hb, u8_val]; cases l <;> simp
  have hF : fbit b0 = false := by unfold fbit; simp; omega
  have hT : ntype b0 = 48 := by unfold ntype; omega
  have hlo : 1 ≤ others.length := by
    cases others with
    | nil => exact absurd rfl hne
    | cons _ _ => simp
  have hla := aggregated_len d.donl others
  have hl3 : ¬ (b0 :: h1 :: (don d.donl v ++ (be16 first.length ++ first ++ aggregated d.donl others))).length ≤ 2 := by
    have := hf.1
    simp only [List.length_cons, List.length_append]; omega
  have hskip : (don d.donl v).length = skip d.donl true := by cases d.donl <;> simp [don, skip]
  have hsk1 : ∀ x : Byte, (dond d.donl x).length = skip d.donl false := by intro x; cases d.donl <;> simp [dond, skip]
  have hgo : apGo d.donl (b0 :: h1 :: (don d.donl v ++ (be16 first.length ++ first ++ aggregated d.donl others)))
      ((b0 :: h1 :: (don d.donl v ++ (be16 first.length ++ first ++ aggregated d.donl others))).length + 1) 2 0 out e
      = .ok (out ++ delivered (first :: others.map (·.2)), keyOf e (first :: others.map (·.2)), others.length + 1) := by
    have := apGo_read d.donl ((don d.donl v, first) :: others.map (fun x => (dond d.donl x.1, x.2))) [b0, h1]
      ((b0 :: h1 :: (don d.donl v ++ (be16 first.length ++ first ++ aggregated d.donl others))).length + 1) 0 out e (by
        intro x hx
        rcases List.mem_cons.1 hx with rfl | hx
        · exact ⟨hf.1, hfl⟩
        · obtain ⟨y, hy, rfl⟩ := List.mem_map.1 hx
          exact ⟨(ho y hy).1.1, (ho y hy).2⟩) (by
        intro x hx
        simp only [List.take_succ_cons, List.take_zero, List.mem_singleton] at hx
        subst hx
        exact hskip) (by
        intro x hx
        simp only [List.drop_succ_cons, List.drop_zero] at hx
        obtain ⟨y, hy, rfl⟩ := List.mem_map.1 hx
        exact hsk1 _) (by
        simp only [List.length_cons, List.length_append, List.length_map]; omega)
    rw [show laid ((don d.donl v, first) :: others.map (fun x => (dond d.donl x.1, x.2)))
      = don d.donl v ++ (be16 first.length ++ first ++ aggregated d.donl others) by
        rw [aggregated_eq]; unfold laid; simp only [List.flatMap_cons, List.append_assoc]] at this
    simp only [List.map_cons, List.map_map, List.length_cons, List.length_map, Nat.zero_add] at this
    exact this
  have hparse : parseAp d.donl (b0 :: h1 :: (don d.donl v ++ (be16 first.length ++ first ++ aggregated d.donl others)))
      = .ok (if d.donl then some (v % 65536) else none, first, others.map (fun x => (if d.donl then some x.1 else none, x.2))) := by
    unfold parseAp
    rw [if_neg hl3]
    show (if fbit b0 = true then _ else if ntype b0 ≠ 48 then _ else _ : Res PErr _) = _
    rw [if_neg (by rw [hF]; simp), if_neg (by rw [hT]; simp), Res.from_of_le (by simp), Res.bind_def, Res.bind_ok]
    simp only [List.drop_succ_cons, List.drop_zero]
    have hd : apDonl d.donl (don d.donl v ++ (be16 first.length ++ first ++ aggregated d.donl others))
        = .ok (if d.donl then some (v % 65536) else none, be16 first.length ++ first ++ aggregated d.donl others) := by
      cases d.donl with
      | false => rfl
      | true =>
        unfold apDonl
        rw [if_pos rfl, if_neg (by simp [don])]
        rw [Res.idx_of_lt (by simp [don]), Res.bind_def, Res.bind_ok, Res.idx_of_lt (by simp [don]; omega), Res.bind_def, Res.bind_ok, Res.from_of_le (by simp [don]), Res.bind_def, Res.bind_ok]
        simp only [don, if_true, be16, List.cons_append, List.nil_append, List.getElem_cons_zero, List.getElem_cons_succ, List.drop_succ_cons, List.drop_zero]
        rw [rd16_be16_mod]
        rfl
    rw [hd, Res.bind_def, Res.bind_ok]
    have h1' : apFirst d.donl (be16 first.length ++ first ++ aggregated d.donl others)
        = .ok (first, others.map (fun x => (if d.donl then some x.1 else none, x.2))) := by
      rw [show be16 first.length ++ first ++ aggregated d.donl others = u8 (first.length / 2 ^ 8) :: u8 first.length :: (first ++ aggregated d.donl others) by
        unfold be16; simp]
      unfold apFirst
      rw [if_neg (by simp)]
      rw [Res.idx_of_lt (by simp), Res.bind_def, Res.bind_ok, Res.idx_of_lt (by simp), Res.bind_def, Res.bind_ok, Res.from_of_le (by simp), Res.bind_def, Res.bind_ok]
      simp only [List.getElem_cons_zero, List.getElem_cons_succ, List.drop_succ_cons, List.drop_zero]
      rw [rd16_be16 hfl, if_neg (by simp), Res.slice_of_le (by omega) (by simp), Res.bind_def, Res.bind_ok, Res.from_of_le (by simp), Res.bind_def, Res.bind_ok]
      rw [List.drop_left, apMore_read d.donl others _ (fun x hx => (ho x hx).2) (by omega), Res.bind_def, Res.bind_ok, List.drop_zero, List.take_left]
      rw [if_neg (by simpa using hne)]
      rfl
    rw [h1', Res.bind_def, Res.bind_ok]
    rfl
  unfold depacketize depack
  rw [if_neg hl3]
  show ((if fbit b0 = true then _ else if ntype b0 = 50 then _ else if ntype b0 = 49 then _ else if ntype b0 = 48 then _ else _ : Res PErr _) >>= _) = _
  rw [hF, hT, if_neg (by simp), if_neg (by omega), if_neg (by omega), if_pos rfl]
  unfold depackAp
  rw [hgo, Res.bind_def, Res.bind_def, Res.bind_ok]
  rw [if_neg (by show ¬ others.length + 1 < 2; omega), hparse]
  rfl

theorem takeDonl_read (v : Nat) (x : List Byte) (hx : x ≠ []) : takeDonl (be16 v ++ x) = .ok (some (v % 65536), x) := by
  have : 1 ≤ x.length := by
    cases x with
    | nil => exact absurd rfl hx
    | cons _ _ => simp
  unfold takeDonl
  rw [if_neg (by simp; omega)]
  rw [Res.idx_of_lt (by simp), Res.bind_def, Res.bind_ok, Res.idx_of_lt (by simp; omega), Res.bind_def, Res.bind_ok, Res.from_of_le (by simp), Res.bind_def, Res.bind_ok]
  simp only [be16, List.cons_append, List.nil_append, List.getElem_cons_zero, List.getElem_cons_succ, List.drop_succ_cons, List.drop_zero]
  rw [rd16_be16_mod]
  rfl

theorem single_read (d : D) (v : Nat) (n : List Byte) (h3 : 3 ≤ n.length) (ht : Travels n) (out : List Byte) (e : Option Bool) :
    ∃ b0 b1 t, n = b0 :: b1 :: t ∧ depacketize d (n.take 2 ++ don d.donl v ++ n.drop 2) out e
      = .ok ({ d with payload := .single b0 b1 (if d.donl then some (v % 65536) else none) t }, out ++ delivered [n], keyOf e [n]) := by
  obtain ⟨b0, b1, t, rfl, hb, hty⟩ := travels_head ht
  refine ⟨b0, b1, t, rfl, ?_⟩
  have hF : fbit b0 = false := by unfold fbit; simp; omega
  have hT : ntype b0 ≠ 48 ∧ ntype b0 ≠ 49 ∧ ntype b0 ≠ 50 := by
    have := ht.2.2; rw [hty] at this; exact this
  have htne : t ≠ [] := by rintro rfl; simp at h3
  have hlen : ¬ (b0 :: b1 :: (don d.donl v ++ t)).length ≤ 2 := by
    simp only [List.length_cons, List.length_append] at h3 ⊢; omega
  show depacketize d (b0 :: b1 :: (don d.donl v ++ t)) out e = _
  have hp : parseSingle d.donl (b0 :: b1 :: (don d.donl v ++ t)) = .ok (b0, b1, if d.donl then some (v % 65536) else none, t) := by
    unfold parseSingle
    rw [if_neg hlen]
    show (if fbit b0 = true then _ else if ntype b0 = 49 ∨ ntype b0 = 50 ∨ ntype b0 = 48 then _ else _ : Res PErr _) = _
    rw [hF, if_neg (by simp), if_neg (by omega), Res.from_of_le (by simp), Res.bind_def, Res.bind_ok]
    simp only [List.drop_succ_cons, List.drop_zero]
    cases d.donl with
    | false => rfl
    | true =>
      rw [if_pos rfl]
      simp only [don, if_true]
      rw [takeDonl_read v t htne]
      rfl
  unfold depacketize depack
  rw [if_neg hlen]
  show ((if fbit b0 = true then _ else if ntype b0 = 50 then _ else if ntype b0 = 49 then _ else if ntype b0 = 48 then _ else _ : Res PErr _) >>= _) = _
  rw [hF, if_neg (by simp), if_neg hT.2.2, if_neg hT.2.1, if_neg hT.1]
  unfold depackSingle
  rw [hp]
  show Res.ok _ = _
  simp [delivered, startCode, keyOf, unitType, ntype]

theorem withType_frag (b0 : Byte) (hb : b0.val < 128) : withType (b0.val / 2) (u8 (49 * 2 + b0.val % 2)) = b0 := by
  unfold withType
  apply Fin.ext
  rw [u8_val, u8_val]
  omega

/-- The header bytes of a fragment. -/
theorem frag_hdr (b0 : Byte) : fbit (u8 (49 * 2 + b0.val % 2)) = false ∧ ntype (u8 (49 * 2 + b0.val % 2)) = 49 := by
  unfold fbit ntype
  rw [u8_val]
  refine ⟨by simp; omega, by omega⟩

/-- A fragment that starts a unit. -/
theorem fu_first' (d : D) (v : Nat) (b0 b1 : Byte) (hb : b0.val < 128) (x : List Byte) (hx : x ≠ []) (out : List Byte) (e : Option Bool) :
    ∃ h : Byte, h.val ≥ 128 ∧ depacketize d (frag b0 b1 true false (don d.donl v ++ x)) out e
      = .ok ({ d with fu := some x, payload := .fu (u8 (49 * 2 + b0.val % 2)) b1 h (if d.donl then some (v % 65536) else none) x }, out, e) := by
  obtain ⟨hF, hT⟩ := frag_hdr b0
  have hh : (u8 ((if (true : Bool) then 128 else 0) + (if (false : Bool) then 64 else 0) + b0.val / 2)).val = 128 + b0.val / 2 := by
    rw [u8_val]; simp; omega
  refine ⟨u8 ((if (true : Bool) then 128 else 0) + (if (false : Bool) then 64 else 0) + b0.val / 2), by omega, ?_⟩
  unfold frag
  generalize u8 ((if (true : Bool) then 128 else 0) + (if (false : Bool) then 64 else 0) + b0.val / 2) = h at hh ⊢
  generalize u8 (49 * 2 + b0.val % 2) = i0 at hF hT ⊢
  have hx1 : 1 ≤ x.length := by
    cases x with
    | nil => exact absurd rfl hx
    | cons _ _ => simp
  have hp : parseFu d.donl (i0 :: b1 :: h :: (don d.donl v ++ x)) = .ok (i0, b1, h, if d.donl then some (v % 65536) else none, x) := by
    unfold parseFu
    rw [if_neg (by simp only [List.length_cons, List.length_append]; omega)]
    show (if fbit i0 = true then _ else if ntype i0 ≠ 49 then _ else _ : Res PErr _) = _
    rw [hF, hT, if_neg (by simp), if_neg (by simp), Res.idx_of_lt (by simp), Res.bind_def, Res.bind_ok, Res.from_of_le (by simp), Res.bind_def, Res.bind_ok]
    simp only [List.drop_succ_cons, List.drop_zero, List.getElem_cons_zero, List.getElem_cons_succ]
    cases d.donl with
    | false => rw [if_neg (by simp)]; rfl
    | true =>
      rw [if_pos ⟨by omega, rfl⟩]
      simp only [don, if_true]
      rw [takeDonl_read v x hx]
      rfl
  unfold depacketize depack
  rw [if_neg (by simp)]
  show ((if fbit i0 = true then _ else if ntype i0 = 50 then _ else if ntype i0 = 49 then _ else _ : Res PErr _) >>= _) = _
  rw [hF, hT, if_neg (by simp), if_neg (by omega), if_pos rfl]
  unfold depackFu
  rw [hp]
  unfold orElse
  dsimp only
  rw [hh, if_pos (by omega)]
  dsimp only
  rw [if_neg (by omega)]
  simp

/-- A fragment that starts a unit. -/
theorem fu_first (d : D) (v : Nat) (b0 b1 : Byte) (hb : b0.val < 128) (x : List Byte) (hx : x ≠ []) (out : List Byte) (e : Option Bool) :
    ∃ h, depacketize d (frag b0 b1 true false (don d.donl v ++ x)) out e
      = .ok ({ d with fu := some x, payload := .fu (u8 (49 * 2 + b0.val % 2)) b1 h (if d.donl then some (v % 65536) else none) x }, out, e) := by
  obtain ⟨h, -, h2⟩ := fu_first' d v b0 b1 hb x hx out e
  exact ⟨h, h2⟩

/-- A later fragment. -/
theorem fu_next (d : D) (acc : List Byte) (ha : d.fu = some acc) (b0 b1 : Byte) (hb : b0.val < 128) (l : Bool) (x : List Byte) (hx : x ≠ []) (out : List Byte) (e : Option Bool) :
    ∃ pl, depacketize d (frag b0 b1 false l x) out e
      = .ok ({ d with fu := some (acc ++ x), payload := pl }, if l then out ++ ([0, 0, 0, 1] ++ b0 :: b1 :: (acc ++ x)) else out,
          if l then mark e (irap (b0.val / 2)) else e) := by
  obtain ⟨hF, hT⟩ := frag_hdr b0
  have hW := withType_frag b0 hb
  have hh : (u8 ((if (false : Bool) then 128 else 0) + (if l then 64 else 0) + b0.val / 2)).val = (if l then 64 else 0) + b0.val / 2 := by
    rw [u8_val]; cases l <;> simp <;> omega
  have hm : ((if l then 64 else 0) + b0.val / 2) % 64 = b0.val / 2 := by
    cases l <;> simp <;> omega
  have hlt : ¬ ((if l then 64 else 0) + b0.val / 2 ≥ 128) := by
    cases l <;> simp <;> omega
  have h64 : ((if l then 64 else 0) + b0.val / 2) / 64 % 2 = 1 ↔ l = true := by
    cases l <;> simp <;> omega
  refine ⟨.fu (u8 (49 * 2 + b0.val % 2)) b1 (u8 ((if (false : Bool) then 128 else 0) + (if l then 64 else 0) + b0.val / 2)) none x, ?_⟩
  unfold frag
  generalize u8 ((if (false : Bool) then 128 else 0) + (if l then 64 else 0) + b0.val / 2) = h at hh ⊢
  generalize (if l then 64 else 0) + b0.val / 2 = w at hh hm hlt h64
  generalize u8 (49 * 2 + b0.val % 2) = i0 at hF hT hW ⊢
  have hx1 : 1 ≤ x.length := by
    cases x with
    | nil => exact absurd rfl hx
    | cons _ _ => simp
  have hp : parseFu d.donl (i0 :: b1 :: h :: x) = .ok (i0, b1, h, none, x) := by
    unfold parseFu
    rw [if_neg (by simp only [List.length_cons]; omega)]
    show (if fbit i0 = true then _ else if ntype i0 ≠ 49 then _ else _ : Res PErr _) = _
    rw [hF, hT, if_neg (by simp), if_neg (by simp), Res.idx_of_lt (by simp), Res.bind_def, Res.bind_ok, Res.from_of_le (by simp), Res.bind_def, Res.bind_ok]
    simp only [List.drop_succ_cons, List.drop_zero, List.getElem_cons_zero, List.getElem_cons_succ]
    rw [if_neg (by rw [hh]; tauto)]
    rfl
  unfold depacketize depack
  rw [if_neg (by simp)]
  show ((if fbit i0 = true then _ else if ntype i0 = 50 then _ else if ntype i0 = 49 then _ else _ : Res PErr _) >>= _) = _
  rw [hF, hT, if_neg (by simp), if_neg (by omega), if_pos rfl]
  unfold depackFu
  rw [hp]
  unfold orElse
  dsimp only
  rw [hh, hm, if_neg hlt, ha]
  dsimp only
  cases l with
  | false =>
    rw [if_neg (fun h => by simpa using h64.1 h)]
    rfl
  | true =>
    rw [if_pos (h64.2 rfl), hW]
    show Res.ok _ = _
    simp [startCode]

theorem run_cons (q : List Byte) (qs : List (List Byte)) (s : D) (o : List Byte) (ee : Option Bool) :
    runDepack depacketize (q :: qs) s o ee = (depacketize s q o ee >>= fun r => runDepack depacketize qs r.1 r.2.1 r.2.2) := rfl

theorem run_rest (b0 b1 : Byte) (hb : b0.val < 128) (out : List Byte) (e : Option Bool) :
    ∀ (xs : List (List Byte)) (x acc : List Byte) (d : D), d.fu = some acc → (∀ y ∈ x :: xs, y ≠ []) →
    ∃ d', d'.donl = d.donl ∧ runDepack depacketize (fragRest b0 b1 (x :: xs)) d out e
      = .ok (d', out ++ ([0, 0, 0, 1] ++ b0 :: b1 :: (acc ++ (x :: xs).flatten)), mark e (irap (b0.val / 2))) := by
  intro xs
  induction xs with
  | nil =>
    intro x acc d ha hne
    obtain ⟨pl, h⟩ := fu_next d acc ha b0 b1 hb true x (hne x (by simp)) out e
    refine ⟨{ d with fu := some (acc ++ x), payload := pl }, rfl, ?_⟩
    show runDepack depacketize [frag b0 b1 false true x] d out e = _
    rw [run_cons, h, Res.bind_def, Res.bind_ok]
    simp [runDepack]
  | cons y ys ih =>
    intro x acc d ha hne
    obtain ⟨pl, h⟩ := fu_next d acc ha b0 b1 hb false x (hne x (by simp)) out e
    obtain ⟨d', h1, h2⟩ := ih y (acc ++ x) { d with fu := some (acc ++ x), payload := pl } rfl (fun z hz => hne z (List.mem_cons_of_mem _ hz))
    refine ⟨d', h1, ?_⟩
    rw [show fragRest b0 b1 (x :: y :: ys) = frag b0 b1 false false x :: fragRest b0 b1 (y :: ys) from rfl, run_cons, h, Res.bind_def, Res.bind_ok]
    dsimp only
    simp only [Bool.false_eq_true, if_false]
    rw [h2]
    simp [List.append_assoc]

/-- One item, in any state. -/
theorem item_read (d : D) (i : Item) (hi : i.Legal) (out : List Byte) (e : Option Bool) :
    ∃ d', d'.donl = d.donl ∧ runDepack depacketize (i.payloads d.donl) d out e = .ok (d', out ++ delivered i.units, keyOf e i.units) := by
  cases i with
  | single v n =>
    obtain ⟨b0, b1, t, -, h⟩ := single_read d v n hi.1 hi.2 out e
    refine ⟨{ d with payload := .single b0 b1 (if d.donl then some (v % 65536) else none) t }, rfl, ?_⟩
    show runDepack depacketize [_] d out e = _
    rw [run_cons, h]
    rfl
  | ap v l h1 first others =>
    refine ⟨{ d with payload := apShown d.donl v first others }, rfl, ?_⟩
    show runDepack depacketize [_] d out e = _
    rw [run_cons, ap_read d v l h1 first others hi]
    rfl
  | fu v b0 b1 first pieces =>
    obtain ⟨⟨hb, -⟩, hf, hne, hp⟩ := hi
    cases pieces with
    | nil => exact absurd rfl hne
    | cons y ys =>
      obtain ⟨h, hfu⟩ := fu_first d v b0 b1 hb first hf out e
      obtain ⟨d', g1, g2⟩ := run_rest b0 b1 hb out e ys y first _ (rfl : ({ d with fu := some first, payload := .fu (u8 (49 * 2 + b0.val % 2)) b1 h (if d.donl then some (v % 65536) else none) first } : D).fu = some first) hp
      refine ⟨d', g1, ?_⟩
      show runDepack depacketize (_ :: _) d out e = _
      rw [run_cons, hfu, Res.bind_def, Res.bind_ok]
      dsimp only
      rw [g2]
      have : b0.val / 2 % 64 = b0.val / 2 := by omega
      simp only [Item.units, delivered, keyOf, List.append_nil, unitType, this]

theorem run_append : ∀ (a b : List (List Byte)) (s : D) (o : List Byte) (e : Option Bool),
    runDepack depacketize (a ++ b) s o e = (runDepack depacketize a s o e >>= fun r => runDepack depacketize b r.1 r.2.1 r.2.2) := by
  intro a
  induction a with
  | nil => intro b s o e; rfl
  | cons x xs ih =>
    intro b s o e
    rw [List.cons_append, run_cons, run_cons]
    cases depacketize s x o e with
    | ok r => simp only [Res.bind_def, Res.bind_ok, ih]
    | err _ => rfl
    | panic => rfl

/-- Any mix of items, in any state. -/
theorem items_read : ∀ (items : List Item) (d : D), (∀ i ∈ items, i.Legal) → ∀ (out : List Byte) (e : Option Bool),
    ∃ d', d'.donl = d.donl ∧ runDepack depacketize (items.flatMap (Item.payloads d.donl)) d out e
      = .ok (d', out ++ delivered (items.flatMap Item.units), keyOf e (items.flatMap Item.units)) := by
  intro items
  induction items with
  | nil => intro d _ out e; exact ⟨d, rfl, by simp [runDepack, delivered, keyOf]⟩
  | cons i is ih =>
    intro d h out e
    obtain ⟨d1, k1, r1⟩ := item_read d i (h i (by simp)) out e
    obtain ⟨d2, k2, r2⟩ := ih d1 (fun j hj => h j (List.mem_cons_of_mem _ hj)) (out ++ delivered i.units) (keyOf e i.units)
    refine ⟨d2, k2.trans k1, ?_⟩
    rw [k1] at r2
    rw [List.flatMap_cons, List.flatMap_cons, run_append, r1, Res.bind_def, Res.bind_ok, r2, delivered_append, keyOf_append, List.append_assoc]

end Str0m.H265
