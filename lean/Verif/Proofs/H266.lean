import Verif.Model.H266
import Verif.Proofs.H264
import Verif.Spec.H266
/-
  H.266: splitting a byte stream, reading payloads.
-/
namespace Str0m.H266
open Str0m.Packet
open Spec
open H264.Spec (annexB delivered)

/-! ### Splitting -/

theorem sc_code (z : Nat) (hz : z = 2 ∨ z = 3) (r : List Byte) (i : Nat) :
    scGo (List.replicate z 0 ++ [1] ++ r) i = some (i, z + 1) := by
  rcases hz with rfl | rfl <;> rfl

/-- Scanning a NAL unit finds nothing inside. -/
theorem sc_unit : ∀ (n r : List Byte) (i : Nat),
    (∀ a c : List Byte, n ≠ a ++ [0, 0, 1] ++ c) → (∀ a : List Byte, n ≠ a ++ [0]) →
    scGo (n ++ r) i = scGo r (i + n.length) := by
  intro n
  induction n with
  | nil => intro r i _ _; rfl
  | cons a n ih =>
    intro r i hs h0
    have ih' := ih r (i + 1) (by
      intro x c h; exact hs (a :: x) c (by rw [h]; simp)) (by
      intro x h; exact h0 (a :: x) (by rw [h]; simp))
    have hlen : i + (a :: n).length = i + 1 + n.length := by rw [List.length_cons]; omega
    rw [hlen, ← ih']
    -- the code at the first position is not a start code
    have key : ∀ l, l = n ++ r → scGo (a :: l) i = scGo l (i + 1) := by
      intro l hl
      match l, hl with
      | [], _ => rfl
      | [_], _ => rfl
      | b :: c :: rest, hl =>
        have h3 : ¬ (a.val = 0 ∧ b.val = 0 ∧ c.val = 1) := by
          rintro ⟨ha, hb, hc⟩
          have ha0 : a = 0 := Fin.ext ha
          have hb0 : b = 0 := Fin.ext hb
          have hc1 : c = 1 := Fin.ext hc
          subst ha0 hb0 hc1
          match n, hl with
          | [], _ => exact h0 [] rfl
          | [x], hl => cases hl; exact h0 [0] rfl
          | x :: y :: n', hl =>
            simp only [List.cons_append, List.cons.injEq] at hl
            obtain ⟨rfl, rfl, -⟩ := hl
            exact hs [] n' rfl
        have h4 : ¬ (a.val = 0 ∧ b.val = 0 ∧ c.val = 0 ∧ rest.head?.any (fun d => d.val == 1)) := by
          rintro ⟨ha, hb, hc, hd⟩
          have ha0 : a = 0 := Fin.ext ha
          have hb0 : b = 0 := Fin.ext hb
          have hc0 : c = 0 := Fin.ext hc
          cases rest with
          | nil => simp at hd
          | cons d rest =>
            have hd1 : d = 1 := Fin.ext (by simpa using hd)
            subst ha0 hb0 hc0 hd1
            match n, hl with
            | [], _ => exact h0 [] rfl
            | [x], hl => cases hl; exact h0 [0] rfl
            | [x, y], hl => cases hl; exact h0 [0, 0] rfl
            | x :: y :: z :: n', hl =>
              simp only [List.cons_append, List.cons.injEq] at hl
              obtain ⟨rfl, rfl, rfl, -⟩ := hl
              exact hs [0] n' rfl
        show (if _ then _ else if _ then _ else _) = _
        rw [if_neg h3, if_neg h4]
    exact key _ rfl

theorem nextStart_unit (pre n : List Byte) (hn : ValidUnit n) (tail : List (Nat × List Byte)) (ht : ∀ x ∈ tail, x.1 = 2 ∨ x.1 = 3) :
    nextStart (pre ++ n ++ annexB tail) pre.length = (match tail with
      | [] => none
      | (z, _) :: _ => some (pre.length + n.length, z + 1)) := by
  unfold nextStart
  rw [List.append_assoc, List.drop_left, sc_unit n _ _ hn.2.2.1 hn.2.2.2]
  cases tail with
  | nil => rfl
  | cons x tail =>
    obtain ⟨z, m⟩ := x
    have := sc_code z (ht (z, m) (by simp)) (m ++ annexB tail) (pre.length + n.length)
    rw [show annexB ((z, m) :: tail) = List.replicate z 0 ++ [1] ++ (m ++ annexB tail) by simp [annexB], this]

/-- `emit` for each NAL unit. -/
def emitAll (mtu : Nat) : List (List Byte) → P → Res PErr (List (List Byte) × P)
  | [], p => .ok ([], p)
  | n :: ns, p => do
    let r ← emit p n mtu
    let rest ← emitAll mtu ns r.2
    pure (r.1 ++ rest.1, rest.2)

theorem packGo_units (mtu : Nat) : ∀ (tail : List (Nat × List Byte)) (fuel : Nat) (pre : List Byte) (z : Nat) (n : List Byte) (p : P),
    tail.length < fuel → ValidUnit n → (∀ x ∈ tail, (x.1 = 2 ∨ x.1 = 3) ∧ ValidUnit x.2) →
    packGo mtu (pre ++ (List.replicate z 0 ++ [1]) ++ n ++ annexB tail) fuel p (pre.length, z + 1)
      = emitAll mtu (n :: tail.map (·.2)) p := by
  intro tail
  induction tail with
  | nil =>
    intro fuel pre z n p hf hn ht
    cases fuel with
    | zero => simp at hf
    | succ fuel =>
      have hl : pre.length + (z + 1) = (pre ++ (List.replicate z 0 ++ [1])).length := by simp
      unfold packGo
      rw [hl, nextStart_unit _ n hn [] (by simp)]
      dsimp only
      rw [Res.from_of_le (by simp only [List.length_append]; omega)]
      rw [List.append_assoc, List.drop_left]
      simp only [annexB, List.append_nil, List.map_nil, emitAll, Res.bind_def, Res.bind_ok, Res.pure_def]
      cases emit p n mtu with
      | ok r => rfl
      | err e => rfl
      | panic => rfl
  | cons x tail ih =>
    obtain ⟨z2, n2⟩ := x
    intro fuel pre z n p hf hn ht
    cases fuel with
    | zero => simp at hf
    | succ fuel =>
      have hl : pre.length + (z + 1) = (pre ++ (List.replicate z 0 ++ [1])).length := by simp
      unfold packGo
      rw [hl, nextStart_unit _ n hn ((z2, n2) :: tail) (fun x hx => (ht x hx).1)]
      dsimp only
      have hsl : (Res.slice (pre ++ (List.replicate z 0 ++ [1]) ++ n ++ annexB ((z2, n2) :: tail)) (pre ++ (List.replicate z 0 ++ [1])).length
          ((pre ++ (List.replicate z 0 ++ [1])).length + n.length) : Res PErr _) = .ok n := by
        rw [slice_piece _ _ _ (by simp only [List.length_append]; omega)]
        rw [List.append_assoc, List.drop_left, List.take_left]
      rw [hsl, Res.bind_def, Res.bind_ok]
      have e : pre ++ (List.replicate z 0 ++ [1]) ++ n ++ annexB ((z2, n2) :: tail)
          = (pre ++ (List.replicate z 0 ++ [1]) ++ n) ++ (List.replicate z2 0 ++ [1]) ++ n2 ++ annexB tail := by
        simp [annexB]
      have hl2 : (pre ++ (List.replicate z 0 ++ [1])).length + n.length = (pre ++ (List.replicate z 0 ++ [1]) ++ n).length :=
        List.length_append.symm
      rw [e, hl2]
      show _ = (emit p n mtu >>= _)
      cases emit p n mtu with
      | err e => rfl
      | panic => rfl
      | ok r =>
        simp only [Res.bind_def, Res.bind_ok]
        rw [ih fuel _ z2 n2 r.2 (by simpa using hf) (ht (z2, n2) (by simp)).2 (fun x hx => ht x (List.mem_cons_of_mem _ hx))]
        rfl

/-- Packetizing an Annex B frame is emitting its NAL units in order. -/
theorem packetize_units (mtu : Nat) (hm : 4 ≤ mtu) (us : List (Nat × List Byte)) (hne : us ≠ [])
    (hus : ∀ x ∈ us, (x.1 = 2 ∨ x.1 = 3) ∧ ValidUnit x.2) (p : P) :
    packetize p mtu (annexB us) = emitAll (min mtu 1200) (us.map (·.2)) p := by
  cases us with
  | nil => exact absurd rfl hne
  | cons x tail =>
    obtain ⟨z, n⟩ := x
    obtain ⟨hz, hn⟩ := hus (z, n) (by simp)
    simp only at hz hn
    have hb : annexB ((z, n) :: tail) = List.replicate z 0 ++ [1] ++ (n ++ annexB tail) := by simp [annexB]
    unfold packetize
    rw [if_neg (by rw [hb]; simp), if_neg (by omega)]
    have h0 : nextStart (annexB ((z, n) :: tail)) 0 = some (0, z + 1) := by
      unfold nextStart
      rw [List.drop_zero, hb, sc_code z hz]
    rw [h0]
    dsimp only
    have hlen : tail.length ≤ (annexB tail).length := by
      clear h0 hb hus hne
      induction tail with
      | nil => simp
      | cons y tail ih => obtain ⟨a, b⟩ := y; simp only [annexB, List.length_append, List.length_cons]; omega
    have := packGo_units (min mtu 1200) tail ((annexB ((z, n) :: tail)).length + 1) [] z n p (by
      rw [hb]; simp only [List.length_append]; omega) hn (fun x hx => hus x (List.mem_cons_of_mem _ hx))
    rw [List.nil_append] at this
    rw [show annexB ((z, n) :: tail) = List.replicate z 0 ++ [1] ++ n ++ annexB tail from rfl]
    exact this

/-! ### Reading -/

/-- What the receiver knows of key frames after some units. -/
def keyOf (e : Option Bool) : List (List Byte) → Option Bool
  | [] => e
  | n :: ns => keyOf (mark e (irap (unitType n))) ns

theorem irap_iff (n : List Byte) : irap (unitType n) = true ↔ Irap n := by
  unfold irap Irap
  simp only [Bool.or_eq_true, beq_iff_eq]
  omega

theorem keyOf_append (us vs : List (List Byte)) : ∀ e, keyOf e (us ++ vs) = keyOf (keyOf e us) vs := by
  induction us with
  | nil => intro e; rfl
  | cons n ns ih => intro e; exact ih _

theorem keyOf_iff : ∀ (us : List (List Byte)) (e : Option Bool), keyOf e us = some true ↔ e = some true ∨ ∃ n ∈ us, Irap n := by
  intro us
  induction us with
  | nil => intro e; simp [keyOf]
  | cons n ns ih =>
    intro e
    show keyOf (mark e (irap (unitType n))) ns = _ ↔ _
    rw [ih]
    have hm : mark e (irap (unitType n)) = some true ↔ (e = some true ∨ Irap n) := by
      rw [← irap_iff]
      unfold mark
      cases e <;> cases irap (unitType n) <;> simp
    rw [hm]
    simp only [List.mem_cons, exists_eq_or_imp]
    tauto

theorem delivered_append (us vs : List (List Byte)) : delivered (us ++ vs) = delivered us ++ delivered vs := by
  induction us with
  | nil => rfl
  | cons n ns ih => simp only [List.cons_append, delivered, ih, List.append_assoc]

theorem travels_head {n : List Byte} (h : Travels n) : ∃ b0 b1 t, n = b0 :: b1 :: t ∧ b0.val < 128 ∧ unitType n = b1.val / 8 := by
  obtain ⟨h1, ⟨b, r, rfl, hb⟩, -, -⟩ := h
  cases r with
  | nil => simp at h1
  | cons c t => exact ⟨b, c, t, rfl, hb, rfl⟩

theorem apGo_read : ∀ (us : List (List Byte)) (pre : List Byte) (fuel start count : Nat) (out : List Byte) (e : Option Bool),
    (∀ n ∈ us, Travels n ∧ n.length < 2 ^ 16) → us.length < fuel → 2 ≤ count + us.length →
    apGo (pre ++ aggregated us) start fuel pre.length count out e = .ok (out ++ delivered us, keyOf e us, none) := by
  intro us
  induction us with
  | nil =>
    intro pre fuel start count out e _ hf hc
    obtain ⟨f, rfl⟩ : ∃ f, fuel = f + 1 := ⟨fuel - 1, by simp at hf; omega⟩
    unfold apGo
    rw [if_neg (by simp [aggregated]), if_neg (by simp at hc; omega)]
    simp [delivered, keyOf]
  | cons n ns ih =>
    intro pre fuel start count out e hu hf hc
    obtain ⟨f, rfl⟩ : ∃ f, fuel = f + 1 := ⟨fuel - 1, by simp at hf; omega⟩
    obtain ⟨ht, hlen⟩ := hu n (by simp)
    obtain ⟨b0, b1, t, hn, hb, hty⟩ := travels_head ht
    have hl2 : 2 ≤ n.length := ht.1
    have e1 : pre ++ aggregated (n :: ns) = (pre ++ be16 n.length) ++ n ++ aggregated ns := by
      show pre ++ (be16 n.length ++ n ++ aggregated ns) = _
      simp only [List.append_assoc]
    have e2 : pre ++ aggregated (n :: ns) = pre ++ u8 (n.length / 2 ^ 8) :: u8 n.length :: (n ++ aggregated ns) := by
      rw [e1]; unfold be16; simp
    have hl : (pre ++ aggregated (n :: ns)).length = pre.length + 2 + n.length + (aggregated ns).length := by
      rw [e2]; simp; omega
    have g0 : (Res.idx (pre ++ aggregated (n :: ns)) pre.length : Res PErr Byte) = .ok (u8 (n.length / 2 ^ 8)) := by
      rw [Res.idx_of_lt (by rw [hl]; omega)]
      simp only [e2]
      rw [List.getElem_append_right (by omega)]; simp
    have g1 : (Res.idx (pre ++ aggregated (n :: ns)) (pre.length + 1) : Res PErr Byte) = .ok (u8 n.length) := by
      rw [Res.idx_of_lt (by rw [hl]; omega)]
      simp only [e2]
      rw [List.getElem_append_right (by omega)]; simp
    have g3 : (Res.slice (pre ++ aggregated (n :: ns)) (pre.length + 2) (pre.length + 2 + n.length) : Res PErr (List Byte)) = .ok n := by
      rw [Res.slice_of_le (by omega) (by omega), e1]
      rw [List.take_left' (by simp; omega), List.drop_left' (by simp)]
    have g4 : (Res.idx n 1 : Res PErr Byte) = .ok b1 := by
      rw [Res.idx_of_lt (by omega)]; subst hn; rfl
    unfold apGo
    rw [if_pos (by omega), if_neg (by omega), g0, Res.bind_def, Res.bind_ok, g1, Res.bind_def, Res.bind_ok, rd16_be16 hlen, if_neg (by omega)]
    rw [g3, Res.bind_def, Res.bind_ok, g4, Res.bind_def, Res.bind_ok]
    have h28 : ¬ (ntype b1 = 28 ∨ ntype b1 = 29) := by
      have := ht.2.2
      rw [hty] at this
      unfold ntype
      omega
    rw [if_neg h28]
    have := ih (pre ++ be16 n.length ++ n) f start (count + 1) (out ++ startCode ++ n) (mark e (irap (ntype b1)))
      (fun m hm => hu m (List.mem_cons_of_mem _ hm)) (by simp at hf; omega) (by simp at hc; omega)
    rw [show (pre ++ be16 n.length ++ n).length = pre.length + 2 + n.length by simp; omega, ← e1] at this
    rw [this]
    show Res.ok (_, _, _) = Res.ok (_, keyOf (mark e (irap (unitType n))) ns, _)
    rw [hty]
    simp only [delivered, startCode, List.append_assoc]
    rfl

theorem depackFu_cons (d : D) (b0 b1 h : Byte) (t out : List Byte) (e : Option Bool) :
    depackFu d (b0 :: b1 :: h :: t) out e = (if h.val ≥ 128 ∧ d.donl = true ∧ (b0 :: b1 :: h :: t).length < 5 then .ok (d, out, e, some .shortPacket)
      else (Res.from_ (b0 :: b1 :: h :: t) (if h.val ≥ 128 ∧ d.donl = true then 5 else 3)).bind (fun body =>
        match (if h.val ≥ 128 then some [] else d.fu) with
        | none => .ok (d, out, e, none)
        | some buf =>
          if h.val / 64 % 2 = 1 then
            .ok ({ d with fu := some (buf ++ body) }, out ++ startCode ++ [b0, u8 (h.val % 32 * 8 + tid b1)] ++ (buf ++ body),
              mark e (irap (h.val % 32)), none)
          else .ok ({ d with fu := some (buf ++ body) }, out, e, none))) := rfl

/-- A fragment that starts a unit. -/
theorem fu_first (d : D) (v : Nat) (b0 b1 : Byte) (hb : b0.val < 128) (x out : List Byte) (e : Option Bool) :
    depacketize d (frag b0 b1 true false false (don d.donl v ++ x)) out e = .ok ({ d with fu := some x }, out, e) := by
  have hb1 : b1.val < 256 := b1.isLt
  have hF : fbit b0 = false := by unfold fbit; simp; omega
  have hT : ntype (u8 (29 * 8 + b1.val % 8)) = 29 := by unfold ntype; rw [u8_val]; omega
  have hh : (u8 ((if (true : Bool) then 128 else 0) + (if (false : Bool) then 64 else 0) + (if (false : Bool) then 32 else 0) + b1.val / 8)).val = 128 + b1.val / 8 := by
    rw [u8_val]; simp; omega
  unfold depacketize depack frag
  rw [if_neg (by simp)]
  show ((if fbit b0 = true then _ else if ntype (u8 (29 * 8 + b1.val % 8)) = 29 then _ else _ : Res PErr _) >>= _) = _
  rw [hF, hT, if_neg (by simp), if_pos rfl]
  rw [depackFu_cons]
  generalize u8 ((if (true : Bool) then 128 else 0) + (if (false : Bool) then 64 else 0) + (if (false : Bool) then 32 else 0) + b1.val / 8) = h at hh ⊢
  rw [hh]
  obtain ⟨f, dd⟩ := d
  cases dd with
  | false =>
    simp only [don]
    rw [if_neg (by simp), if_neg (by simp), Res.from_of_le (by simp), Res.bind_ok, if_pos (by omega)]
    dsimp only
    rw [if_neg (by omega)]
    simp
  | true =>
    simp only [don]
    rw [if_neg (by simp [be16]), if_pos (by simp), Res.from_of_le (by simp [be16]), Res.bind_ok, if_pos (by omega)]
    dsimp only
    rw [if_neg (by omega)]
    simp [be16]

/-- A later fragment. -/
theorem fu_next (dd : Bool) (acc : List Byte) (b0 b1 : Byte) (hb : b0.val < 128) (l p : Bool) (x out : List Byte) (e : Option Bool) :
    depacketize ⟨some acc, dd⟩ (frag b0 b1 false l p x) out e
      = .ok (⟨some (acc ++ x), dd⟩, if l then out ++ ([0, 0, 0, 1] ++ b0 :: b1 :: (acc ++ x)) else out,
          if l then mark e (irap (b1.val / 8)) else e) := by
  have hb1 : b1.val < 256 := b1.isLt
  have hF : fbit b0 = false := by unfold fbit; simp; omega
  have hT : ntype (u8 (29 * 8 + b1.val % 8)) = 29 := by unfold ntype; rw [u8_val]; omega
  have hh : (u8 ((if (false : Bool) then 128 else 0) + (if l then 64 else 0) + (if p then 32 else 0) + b1.val / 8)).val
      = (if l then 64 else 0) + (if p then 32 else 0) + b1.val / 8 := by
    rw [u8_val]; cases l <;> cases p <;> simp <;> omega
  have hm : ((if l then 64 else 0) + (if p then 32 else 0) + b1.val / 8) % 32 = b1.val / 8 := by
    cases l <;> cases p <;> simp <;> omega
  have hlt : ¬ ((if l then 64 else 0) + (if p then 32 else 0) + b1.val / 8 ≥ 128) := by
    cases l <;> cases p <;> simp <;> omega
  have h64 : ((if l then 64 else 0) + (if p then 32 else 0) + b1.val / 8) / 64 % 2 = 1 ↔ l = true := by
    cases l <;> cases p <;> simp <;> omega
  have hr : u8 (b1.val / 8 * 8 + tid (u8 (29 * 8 + b1.val % 8))) = b1 := by
    unfold tid
    apply Fin.ext
    rw [u8_val, u8_val]
    omega
  unfold depacketize depack frag
  rw [if_neg (by simp)]
  show ((if fbit b0 = true then _ else if ntype (u8 (29 * 8 + b1.val % 8)) = 29 then _ else _ : Res PErr _) >>= _) = _
  rw [hF, hT, if_neg (by simp), if_pos rfl]
  rw [depackFu_cons]
  generalize u8 ((if (false : Bool) then 128 else 0) + (if l then 64 else 0) + (if p then 32 else 0) + b1.val / 8) = h at hh ⊢
  rw [hh, hm, hr]
  generalize (if l then 64 else 0) + (if p then 32 else 0) + b1.val / 8 = w at hlt h64 ⊢
  rw [if_neg (by tauto), if_neg (by tauto), Res.from_of_le (by simp), Res.bind_ok, if_neg hlt]
  dsimp only
  cases l with
  | false =>
    rw [if_neg (fun h => by simpa using h64.1 h)]
    rfl
  | true =>
    rw [if_pos (h64.2 rfl)]
    show Res.ok _ = _
    simp [startCode]

theorem run_rest (dd : Bool) (b0 b1 : Byte) (hb : b0.val < 128) (p : Bool) (out : List Byte) (e : Option Bool) :
    ∀ (xs : List (List Byte)) (x acc : List Byte),
    runDepack depacketize (fragRest b0 b1 p (x :: xs)) ⟨some acc, dd⟩ out e
      = .ok (⟨some (acc ++ (x :: xs).flatten), dd⟩, out ++ ([0, 0, 0, 1] ++ b0 :: b1 :: (acc ++ (x :: xs).flatten)), mark e (irap (b1.val / 8))) := by
  intro xs
  induction xs with
  | nil =>
    intro x acc
    simp only [fragRest, runDepack, fu_next dd acc b0 b1 hb, Res.bind_def, Res.bind_ok, List.flatten_cons, List.flatten_nil, List.append_nil, if_true]
  | cons y ys ih =>
    intro x acc
    rw [show fragRest b0 b1 p (x :: y :: ys) = frag b0 b1 false false false x :: fragRest b0 b1 p (y :: ys) from rfl]
    rw [show ∀ q qs s o ee, runDepack depacketize (q :: qs) s o ee
      = (depacketize s q o ee >>= fun r => runDepack depacketize qs r.1 r.2.1 r.2.2) from fun _ _ _ _ _ => rfl]
    rw [fu_next dd acc b0 b1 hb, Res.bind_def, Res.bind_ok]
    dsimp only
    simp only [Bool.false_eq_true, if_false]
    rw [ih y (acc ++ x)]
    simp [List.append_assoc]

theorem single_read (d : D) (v : Nat) (n : List Byte) (h3 : 3 ≤ n.length) (ht : Travels n) (out : List Byte) (e : Option Bool) :
    depacketize d (n.take 2 ++ don d.donl v ++ n.drop 2) out e = .ok (d, out ++ delivered [n], keyOf e [n]) := by
  obtain ⟨b0, b1, t, rfl, hb, hty⟩ := travels_head ht
  have hF : fbit b0 = false := by unfold fbit; simp; omega
  have hT : ntype b1 ≠ 28 ∧ ntype b1 ≠ 29 := by
    have := ht.2.2; rw [hty] at this; exact this
  have hlen : 3 ≤ (b0 :: b1 :: (don d.donl v ++ t)).length := by
    simp only [List.length_cons, List.length_append] at h3 ⊢; omega
  show depacketize d (b0 :: b1 :: (don d.donl v ++ t)) out e = _
  unfold depacketize depack
  rw [if_neg (by omega)]
  show ((if fbit b0 = true then _ else if ntype b1 = 29 then _ else if ntype b1 = 28 then _ else _ : Res PErr _) >>= _) = _
  rw [hF, if_neg (by simp), if_neg hT.2, if_neg hT.1]
  unfold depackSingle
  obtain ⟨f, dd⟩ := d
  cases dd with
  | false =>
    rw [if_neg (by simp)]
    simp [don, delivered, startCode, keyOf, unitType, ntype]
  | true =>
    rw [if_pos rfl, if_neg (by simp [don] at h3 ⊢; omega), Res.slice_of_le (by omega) (by simp), Res.from_of_le (by simp [don])]
    simp [don, be16, delivered, startCode, keyOf, unitType, ntype]

/-- One item, in any state. -/
theorem item_read (d : D) (i : Item) (hi : i.Legal) (out : List Byte) (e : Option Bool) :
    ∃ d', d'.donl = d.donl ∧ runDepack depacketize (i.payloads d.donl) d out e = .ok (d', out ++ delivered i.units, keyOf e i.units) := by
  cases i with
  | single v n =>
    refine ⟨d, rfl, ?_⟩
    simp only [Item.payloads, Item.units, runDepack, single_read d v n hi.1 hi.2, Res.bind_def, Res.bind_ok]
  | ap v h0 tid us =>
    obtain ⟨hb, htid, h2, hu⟩ := hi
    refine ⟨d, rfl, ?_⟩
    have hF : fbit h0 = false := by unfold fbit; simp; omega
    have hT : ntype (u8 (28 * 8 + tid)) = 28 := by unfold ntype; rw [u8_val]; omega
    have hlen : ∀ us : List (List Byte), 2 * us.length ≤ (aggregated us).length := by
      intro us
      induction us with
      | nil => simp [aggregated]
      | cons n ns ih => simp [aggregated]; omega
    have hlu := hlen us
    have key : depacketize d (h0 :: u8 (28 * 8 + tid) :: (don d.donl v ++ aggregated us)) out e = .ok (d, out ++ delivered us, keyOf e us) := by
      unfold depacketize depack
      rw [if_neg (by simp only [List.length_cons, List.length_append]; omega)]
      show ((if fbit h0 = true then _ else if ntype (u8 (28 * 8 + tid)) = 29 then _ else if ntype (u8 (28 * 8 + tid)) = 28 then _ else _ : Res PErr _) >>= _) = _
      rw [hF, hT, if_neg (by simp), if_neg (by omega), if_pos rfl]
      unfold depackAp
      rw [if_neg (by
        rintro ⟨h, hh⟩
        simp only [List.length_cons, List.length_append] at hh; omega)]
      have := apGo_read us (h0 :: u8 (28 * 8 + tid) :: don d.donl v) ((h0 :: u8 (28 * 8 + tid) :: (don d.donl v ++ aggregated us)).length + 1) out.length 0 out e hu (by
        simp only [List.length_cons, List.length_append]; omega) (by omega)
      rw [show (h0 :: u8 (28 * 8 + tid) :: don d.donl v).length = (if d.donl = true then 4 else 2) by
        cases d.donl <;> simp [don]] at this
      rw [show (h0 :: u8 (28 * 8 + tid) :: don d.donl v) ++ aggregated us = h0 :: u8 (28 * 8 + tid) :: (don d.donl v ++ aggregated us) by simp] at this
      rw [this]
      rfl
    simp only [Item.payloads, Item.units, runDepack, key, Res.bind_def, Res.bind_ok]
  | fu v b0 b1 p first pieces =>
    obtain ⟨hb, h28, h29, hne⟩ := hi
    cases pieces with
    | nil => exact absurd rfl hne
    | cons y ys =>
      refine ⟨⟨some (first ++ (y :: ys).flatten), d.donl⟩, rfl, ?_⟩
      show (depacketize d _ out e >>= fun r => runDepack depacketize (fragRest b0 b1 p (y :: ys)) r.1 r.2.1 r.2.2) = _
      rw [fu_first d v b0 b1 hb, Res.bind_def, Res.bind_ok]
      dsimp only
      rw [run_rest d.donl b0 b1 hb p]
      simp only [Item.units, delivered, keyOf, List.append_nil, unitType]

/-- Any mix of items, in any state. -/
theorem items_read : ∀ (items : List Item) (d : D), (∀ i ∈ items, i.Legal) → ∀ (out : List Byte) (e : Option Bool),
    ∃ d', d'.donl = d.donl ∧ runDepack depacketize (items.flatMap (Item.payloads d.donl)) d out e
      = .ok (d', out ++ delivered (items.flatMap Item.units), keyOf e (items.flatMap Item.units)) := by
  intro items
  induction items with
  | nil => intro d _ out e; exact ⟨d, rfl, by simp [runDepack, delivered, keyOf]⟩
  | cons i is ih =>
    intro d h out e
    obtain ⟨d1, k1, r1⟩ := item_read d i (h i (by simp)) out e
    obtain ⟨d2, k2, r2⟩ := ih d1 (fun j hj => h j (List.mem_cons_of_mem _ hj)) (out ++ delivered i.units) (keyOf e i.units)
    refine ⟨d2, k2.trans k1, ?_⟩
    rw [k1] at r2
    have happ : ∀ (a b : List (List Byte)) (s : D) (o : List Byte) (e : Option Bool),
        runDepack depacketize (a ++ b) s o e = (runDepack depacketize a s o e >>= fun r => runDepack depacketize b r.1 r.2.1 r.2.2) := by
      intro a
      induction a with
      | nil => intro b s o e; rfl
      | cons x xs ih =>
        intro b s o e
        show (depacketize s x o e >>= fun r => runDepack depacketize (xs ++ b) r.1 r.2.1 r.2.2) = _
        show _ = ((depacketize s x o e >>= fun r => runDepack depacketize xs r.1 r.2.1 r.2.2) >>= _)
        cases depacketize s x o e with
        | ok r => simp only [Res.bind_def, Res.bind_ok, ih]
        | err _ => rfl
        | panic => rfl
    rw [List.flatMap_cons, List.flatMap_cons, happ, r1, Res.bind_def, Res.bind_ok, r2, delivered_append, keyOf_append, List.append_assoc]

end Str0m.H266
