import Verif.Proofs.Av1
/-
  AV1: elements of a packet, writing and reading them.
-/
namespace Str0m.Av1
open Str0m.Packet
open Str0m.Vla (encodeLeb encodeLebGo)
open Spec

/-- Every OBU can travel: legal type, kept, shorter than memory. -/
def Ok (o : SObu) : Prop := o.ty < 16 ∧ Kept o ∧ (unsized o).length < 2 ^ 62

/-- Elements on the wire: all but the last have a size; the last if `sl`. -/
def enc (sl : Bool) : List (List Byte) → List Byte
  | [] => []
  | [x] => (if sl then lebMin x.length else []) ++ x
  | x :: y :: r => lebMin x.length ++ x ++ enc sl (y :: r)

/-- `n` elements from OBUs `os`, the first from offset `o`, the last of size `k`. -/
def cut : List SObu → Nat → Nat → Nat → List (List Byte)
  | [], _, _, _ => []
  | _ :: _, _, 0, _ => []
  | a :: _, o, 1, k => [((unsized a).drop o).take k]
  | a :: t, o, n + 2, k => (unsized a).drop o :: cut t 0 (n + 1) k

/-- The elements exist. -/
def fits : List SObu → Nat → Nat → Nat → Prop
  | [], _, _, _ => False
  | _ :: _, _, 0, _ => False
  | a :: _, o, 1, k => 0 < k ∧ o + k ≤ (unsized a).length
  | a :: t, o, n + 2, k => o < (unsized a).length ∧ fits t 0 (n + 1) k

/-- OBUs that these elements complete, OBUs after that, offset in the first of them. -/
def adv : List SObu → Nat → Nat → Nat → List SObu × List SObu × Nat
  | [], _, _, _ => ([], [], 0)
  | a :: t, o, 0, _ => ([], a :: t, o)
  | a :: t, o, 1, k => if o + k = (unsized a).length then ([a], t, 0) else ([], a :: t, o + k)
  | a :: t, o, n + 2, k => (a :: (adv t 0 (n + 1) k).1, (adv t 0 (n + 1) k).2)

/-- What the receiver has of the current OBU. -/
def bufAt (os : List SObu) (o : Nat) : List Byte :=
  match os with
  | [] => []
  | a :: _ => (unsized a).take o

/-! ### Reading -/

theorem writeObu_spec (o : SObu) (h : Ok o) (out : List Byte) :
    writeObu ⟨unsized o, (unsized o).length⟩ out = .ok (some (out ++ sized o (lebMin o.payload.length))) := by
  obtain ⟨h1, h2, h3⟩ := h
  unfold writeObu parseObus
  rw [parseObusGo_unsized o h1, Res.bind_def, Res.bind_ok, if_pos h2]
  dsimp only [toObu]
  have hl : (unsized o).length = 1 + (if o.ext.isSome then 1 else 0) + o.payload.length := by
    unfold unsized
    cases o.ext <;> simp <;> omega
  rw [header_ext o h1, header_size o h1, header_set o h1, hl]
  have e1 : 1 + (if o.ext.isSome then 1 else 0) + o.payload.length - 1 - (if o.ext.isSome then 1 else 0) = o.payload.length := by omega
  rw [e1, if_neg (by simp : ¬ (false = true))]
  have hle : encodeLeb o.payload.length = lebMin o.payload.length := encodeLeb_min (by omega)
  have hll := lebMin_length_le 8 o.payload.length (lt_of_lt_of_le (show o.payload.length < 2 ^ 62 by omega) (by norm_num))
  rw [hle, if_neg (by omega), if_neg (by omega)]
  have e2 : (unsized o).drop (1 + (if o.ext.isSome then 1 else 0) + o.payload.length - o.payload.length) = o.payload := by
    rw [Nat.add_sub_cancel]
    unfold unsized
    cases o.ext <;> simp
  unfold csub
  rw [if_pos (by omega), Res.bind_def, Res.bind_ok, Res.slice_of_le (by omega) (by omega), Res.bind_def, Res.bind_ok,
    show 1 + (if o.ext.isSome then 1 else 0) + o.payload.length - o.payload.length + o.payload.length = (unsized o).length by omega, List.take_length, e2]
  show Res.ok _ = _
  unfold sized
  cases o.ext <;> simp

section
variable {z y sl : Bool} {count fuel idx : Nat}

/-- The flags that make the loop take the first element. -/
theorem first_taken {e : Nat × List Byte × Bool} (h1 : e.1 ≠ 0) (h2 : e.1 ≤ e.2.1.length) {d : D} (hz : ¬ (idx = 0 ∧ z = true ∧ d.buffer = []))
    {rest : List Byte} (hr : rest ≠ []) (he : elemLen count idx rest = .ok e) (out : List Byte) :
    depackGo z y count (fuel + 1) idx rest d out =
      (if e.2.2 = true ∧ y = true then .ok (⟨d.buffer ++ e.2.1.take e.1, d.length + e.1⟩, out)
        else do
          let o ← writeObu ⟨d.buffer ++ e.2.1.take e.1, d.length + e.1⟩ out
          match o with
          | none => depackGo z y count fuel (idx + 1) (e.2.1.drop e.1) ⟨[], 0⟩ out
          | some out' =>
            if e.2.2 = true then .ok (⟨[], 0⟩, out')
            else depackGo z y count fuel (idx + 1) (e.2.1.drop e.1) ⟨[], 0⟩ out') := by
  rw [show depackGo z y count (fuel + 1) idx rest d out = (if rest = [] then .ok (d, out)
    else do
      let e ← elemLen count idx rest
      if e.1 = 0 then .err .av1Corrupted
      else if e.1 > e.2.1.length then .err .av1Corrupted
      else if idx = 0 ∧ z = true ∧ d.buffer = [] then depackGo z y count fuel 1 (e.2.1.drop e.1) d out
      else do
        let frag ← Res.upto e.2.1 e.1
        let d' : D := ⟨d.buffer ++ frag, d.length + e.1⟩
        if e.2.2 = true ∧ y = true then .ok (d', out)
        else do
          let o ← writeObu d' out
          match o with
          | none => depackGo z y count fuel (idx + 1) (e.2.1.drop e.1) ⟨[], 0⟩ out
          | some out' =>
            if e.2.2 = true then .ok (⟨[], 0⟩, out')
            else depackGo z y count fuel (idx + 1) (e.2.1.drop e.1) ⟨[], 0⟩ out') from rfl]
  rw [if_neg hr, he, Res.bind_def, Res.bind_ok, if_neg h1, if_neg (by omega), if_neg hz, Res.upto_of_le h2]
  rfl

end

/-- The count field fits the number of elements left. -/
def CountOk (sl : Bool) (count idx n : Nat) : Prop := if sl = true then count = 0 else count = idx + n

theorem elemLen_mid {sl : Bool} {count idx n : Nat} (hc : CountOk sl count idx (n + 2)) (x more : List Byte) (hx : x.length < 2 ^ 62) (hm : more ≠ []) :
    elemLen count idx (lebMin x.length ++ x ++ more) = .ok (x.length, x ++ more, false) := by
  unfold elemLen
  have h1 : ¬ (count ≠ 0 ∧ idx = count - 1) := by
    unfold CountOk at hc
    split at hc <;> omega
  rw [if_neg h1, List.append_assoc, getLeb_min (by omega)]
  dsimp only
  have : ¬ (count = 0 ∧ x.length = (x ++ more).length) := by
    rintro ⟨-, h⟩
    rw [List.length_append] at h
    have : 0 < more.length := List.length_pos_of_ne_nil hm
    omega
  rw [decide_eq_false this]

theorem elemLen_last {sl : Bool} {count idx : Nat} (hc : CountOk sl count idx 1) (x : List Byte) (hx : x.length < 2 ^ 62) :
    elemLen count idx ((if sl then lebMin x.length else []) ++ x) = .ok (x.length, x, true) := by
  unfold elemLen
  unfold CountOk at hc
  cases sl with
  | true =>
    rw [if_pos rfl] at hc
    rw [if_neg (by omega), if_pos rfl, getLeb_min (by omega)]
    simp [hc]
  | false =>
    rw [if_neg (by simp)] at hc
    rw [if_pos (by omega), if_neg (by simp)]
    rfl

theorem enc_ne {sl : Bool} {E : List (List Byte)} (h : ∀ x ∈ E, x ≠ []) (hE : E ≠ []) : enc sl E ≠ [] := by
  match E, hE with
  | [x], _ => simp [enc, h x (by simp)]
  | x :: y :: r, _ =>
    have := h x (by simp)
    simp [enc, this]

theorem fits_cut {os : List SObu} : ∀ {n o k : Nat}, fits os o n k → (∀ x ∈ cut os o n k, x ≠ []) ∧ (cut os o n k).length = n ∧ 0 < n := by
  induction os with
  | nil => intro n o k h; exact h.elim
  | cons a t ih =>
    intro n o k h
    match n, h with
    | 1, h =>
      obtain ⟨h1, h2⟩ := h
      refine ⟨?_, rfl, by omega⟩
      intro x hx
      simp only [cut, List.mem_singleton] at hx
      subst hx
      apply List.ne_nil_of_length_pos
      rw [List.length_take, List.length_drop]; omega
    | n + 2, h =>
      obtain ⟨h1, h2⟩ := h
      obtain ⟨g1, g2, g3⟩ := ih h2
      refine ⟨?_, by simp [cut, g2], by omega⟩
      intro x hx
      simp only [cut, List.mem_cons] at hx
      rcases hx with rfl | hx
      · apply List.ne_nil_of_length_pos
        rw [List.length_drop]; omega
      · exact g1 x hx

/-- Reading the elements of a packet. -/
theorem depackGo_spec (z y sl : Bool) (count : Nat) : ∀ (os : List SObu), (∀ a ∈ os, Ok a) → ∀ (n o k fuel idx : Nat) (out : List Byte),
    fits os o n k → n < fuel → CountOk sl count idx n → (idx = 0 → z = true → 0 < o) → y = decide ((adv os o n k).2.2 ≠ 0) →
    depackGo z y count fuel idx (enc sl (cut os o n k)) ⟨bufAt os o, o⟩ out
      = .ok (⟨bufAt (adv os o n k).2.1 (adv os o n k).2.2, (adv os o n k).2.2⟩, out ++ delivered (adv os o n k).1) := by
  intro os
  induction os with
  | nil => intro _ n o k fuel idx out h; exact h.elim
  | cons a t ih =>
    intro hok n o k fuel idx out hf hn hc hz hy
    obtain ⟨f, rfl⟩ : ∃ f, fuel = f + 1 := ⟨fuel - 1, by omega⟩
    have ha : Ok a := hok a (by simp)
    match n, hf with
    | 1, hf =>
      obtain ⟨h1, h2⟩ := hf
      have hxl : (((unsized a).drop o).take k).length = k := by rw [List.length_take, List.length_drop]; omega
      have hne : ((unsized a).drop o).take k ≠ [] := List.ne_nil_of_length_pos (by omega)
      have hbuf : bufAt (a :: t) o ++ ((unsized a).drop o).take k = (unsized a).take (o + k) := by
        show (unsized a).take o ++ ((unsized a).drop o).take k = _
        rw [List.take_add]
      have hz' : ¬ (idx = 0 ∧ z = true ∧ (⟨bufAt (a :: t) o, o⟩ : D).buffer = []) := by
        rintro ⟨h3, h4, h5⟩
        have h6 := hz h3 h4
        have h7 : ((unsized a).take o).length = 0 := by rw [show (unsized a).take o = [] from h5]; rfl
        rw [List.length_take] at h7
        omega
      show depackGo z y count (f + 1) idx ((if sl then lebMin (((unsized a).drop o).take k).length else []) ++ ((unsized a).drop o).take k) _ out = _
      rw [first_taken (e := ((((unsized a).drop o).take k).length, ((unsized a).drop o).take k, true)) (by dsimp only; omega) (by dsimp only; omega) hz'
        (by simp [hne]) (elemLen_last hc _ (by have := ha.2.2; omega))]
      dsimp only
      rw [List.take_length, hbuf, hxl]
      have hadv : adv (a :: t) o 1 k = if o + k = (unsized a).length then ([a], t, 0) else ([], a :: t, o + k) := rfl
      by_cases hfull : o + k = (unsized a).length
      · rw [hadv, if_pos hfull] at hy ⊢
        have hy' : y = false := by rw [hy]; simp
        rw [hy', if_neg (by simp), hfull, List.take_length, writeObu_spec a ha, Res.bind_def, Res.bind_ok]
        dsimp only
        rw [if_pos rfl]
        have hb0 : bufAt t 0 = [] := by cases t <;> rfl
        rw [hb0]
        simp [delivered]
      · rw [hadv, if_neg hfull] at hy ⊢
        have hy' : y = true := by rw [hy]; simp; omega
        rw [hy', if_pos ⟨rfl, rfl⟩]
        simp [delivered, bufAt]
    | n + 2, hf =>
      obtain ⟨h1, h2⟩ := hf
      have hxl : ((unsized a).drop o).length = (unsized a).length - o := List.length_drop
      have hne : (unsized a).drop o ≠ [] := List.ne_nil_of_length_pos (by omega)
      obtain ⟨g1, g2, g3⟩ := fits_cut h2
      have hmore : enc sl (cut t 0 (n + 1) k) ≠ [] := enc_ne g1 (by intro h; rw [h] at g2; simp at g2)
      have hbuf : bufAt (a :: t) o ++ (unsized a).drop o = unsized a := List.take_append_drop _ _
      have hz' : ¬ (idx = 0 ∧ z = true ∧ (⟨bufAt (a :: t) o, o⟩ : D).buffer = []) := by
        rintro ⟨h3, h4, h5⟩
        have h6 := hz h3 h4
        have h7 : ((unsized a).take o).length = 0 := by rw [show (unsized a).take o = [] from h5]; rfl
        rw [List.length_take] at h7
        omega
      have henc : enc sl (cut (a :: t) o (n + 2) k) = lebMin ((unsized a).drop o).length ++ (unsized a).drop o ++ enc sl (cut t 0 (n + 1) k) := by
        show enc sl ((unsized a).drop o :: cut t 0 (n + 1) k) = _
        cases hcut : cut t 0 (n + 1) k with
        | nil => rw [hcut] at g2; simp at g2
        | cons x xs => rfl
      rw [henc, first_taken (e := (((unsized a).drop o).length, (unsized a).drop o ++ enc sl (cut t 0 (n + 1) k), false)) (by dsimp only; omega)
        (by dsimp only; rw [List.length_append]; omega) hz' (by simp [hne]) (elemLen_mid hc _ _ (by have := ha.2.2; omega) hmore)]
      dsimp only
      rw [if_neg (by simp), List.take_left, List.drop_left, hbuf]
      have hol : o + ((unsized a).drop o).length = (unsized a).length := by omega
      rw [hol, writeObu_spec a ha, Res.bind_def, Res.bind_ok]
      dsimp only
      rw [if_neg (by simp)]
      have hb0 : (⟨[], 0⟩ : D) = ⟨bufAt t 0, 0⟩ := by cases t <;> rfl
      rw [hb0, ih (fun b hb => hok b (List.mem_cons_of_mem _ hb)) (n + 1) 0 k f (idx + 1) _ h2 (by omega) ?_ (by omega) ?_]
      · show _ = Res.ok (_, out ++ (sized a (lebMin a.payload.length) ++ delivered (adv t 0 (n + 1) k).1))
        rw [List.append_assoc]; rfl
      · unfold CountOk at hc ⊢
        split at hc
        · rename_i h; rw [if_pos h]; exact hc
        · rename_i h; rw [if_neg h]; omega
      · exact hy

/-! ### Writing -/

theorem put_put (w : W) (a b : List Byte) : (w.put a >>= fun w => w.put b) = w.put (a ++ b) := by
  unfold W.put
  by_cases h : w.bytes.length + a.length ≤ w.cap
  · rw [if_pos h, Res.bind_def, Res.bind_ok]
    dsimp only
    rw [List.length_append, List.length_append]
    by_cases h2 : w.bytes.length + a.length + b.length ≤ w.cap
    · rw [if_pos h2, if_pos (by omega), List.append_assoc]
    · rw [if_neg h2, if_neg (by omega)]
  · rw [if_neg h, if_neg (by rw [List.length_append]; omega)]
    rfl

theorem put_nil (w : W) (h : w.bytes.length ≤ w.cap) : w.put [] = .ok w := by
  unfold W.put
  rw [if_pos (by simpa using h), List.append_nil]

theorem bind_assoc' {α β γ : Type} (x : Res PErr α) (f : α → Res PErr β) (g : β → Res PErr γ) :
    ((x >>= f) >>= g) = (x >>= fun a => f a >>= g) := by
  cases x <;> rfl

/-- Writing the last element. -/
theorem writeLast_spec (a : SObu) (h : a.ty < 16) (s : Bool) (num off k : Nat) (hk : 0 < k) (hl : off + k ≤ (unsized a).length) (hsz : (unsized a).length < 2 ^ 62) (w : W)
    (hw : w.bytes.length ≤ w.cap) :
    writeLast (toObu a s) num off k w = w.put ((if num > 3 then lebMin k else []) ++ ((unsized a).drop off).take k) := by
  have hlen : (unsized a).length = 1 + (if a.ext.isSome then 1 else 0) + a.payload.length := by
    unfold unsized
    cases a.ext <;> simp <;> omega
  have hun : unsized a = a.header false :: (a.ext.toList ++ a.payload) := rfl
  -- everything after the size
  have key : ∀ w : W, w.bytes.length ≤ w.cap → (do
      let r ← lastHdr (toObu a s) off k w
      let r ← lastExt (toObu a s) off r
      let xs ← Res.slice (toObu a s).payload (off - hdrLen (toObu a s)) (off - hdrLen (toObu a s) + r.2)
      r.1.put xs) = w.put (((unsized a).drop off).take k) := by
    intro w hw
    have hs : ∀ (o j : Nat), o + j ≤ a.payload.length → (Res.slice a.payload o (o + j) : Res PErr _) = .ok ((a.payload.drop o).take j) :=
      fun o j hj => slice_piece _ _ _ hj
    have e1 : (toObu a s).header = a.header s := rfl
    have e2 : (toObu a s).payload = a.payload := rfl
    have e3 : (toObu a s).ext = a.ext.getD (u8 0) := rfl
    have e4 : hdrLen (toObu a s) = 1 + (if a.ext.isSome then 1 else 0) := by
      unfold hdrLen
      rw [e1, header_ext a h]
      cases a.ext <;> rfl
    unfold lastHdr lastExt
    rw [e1, e2, e3, e4, header_clear a h, header_ext a h, hun]
    rw [hlen] at hl
    clear e1 e2 e3 e4 hlen hun
    obtain ⟨k, rfl⟩ : ∃ j, k = j + 1 := ⟨k - 1, by omega⟩
    cases hx : a.ext with
    | none =>
      rw [hx] at hl
      simp only [Option.isSome_none, Bool.false_eq_true, if_false, Nat.add_zero, Option.toList_none, List.nil_append] at hl ⊢
      cases off with
      | zero =>
        simp only [true_and, gt_iff_lt, Nat.zero_lt_succ, if_true, Nat.add_sub_cancel]
        rw [bind_assoc']
        simp only [Res.bind_def, Res.bind_ok, Res.pure_def, false_and, and_false, if_false]
        simp only [← Res.bind_def]
        rw [show (0 - 1 : Nat) = 0 from rfl]
        rw [hs 0 k (by omega)]
        simp only [Res.bind_def, Res.bind_ok, List.drop_zero, List.take_succ_cons]
        simp only [← Res.bind_def]
        rw [put_put]; rfl
      | succ off =>
        rw [if_neg (by omega)]
        simp only [Res.bind_def, Res.bind_ok, false_and, and_false, if_false, Nat.add_sub_cancel]
        rw [hs off (k + 1) (by omega)]
        simp only [Res.bind_ok, List.drop_succ_cons]
    | some e =>
      rw [hx] at hl
      simp only [Option.isSome_some, if_true, Option.toList_some, Option.getD_some] at hl ⊢
      match off with
      | 0 =>
        simp only [true_and, gt_iff_lt, Nat.zero_lt_succ, if_true, Nat.add_sub_cancel, Nat.zero_le]
        rw [bind_assoc']
        simp only [Res.bind_def, Res.bind_ok, Res.pure_def]
        cases k with
        | zero =>
          simp only [Nat.lt_irrefl, if_false, Res.bind_ok]
          rw [show (0 - (1 + 1) : Nat) = 0 from rfl, hs 0 0 (by omega)]
          simp only [Res.bind_ok, List.drop_zero, List.take_succ_cons, List.take_zero]
          simp only [← Res.bind_def]
          rw [put_put]; rfl
        | succ k =>
          simp only [Nat.zero_lt_succ, if_true]
          simp only [← Res.bind_def]
          have : ∀ w' : W, ((w'.put [e] >>= fun w => (Res.ok (w, k + 1 - 1) : Res PErr (W × Nat))) >>= fun r =>
              Res.slice a.payload (0 - (1 + 1)) (0 - (1 + 1) + r.2) >>= fun xs => r.1.put xs) = w'.put (e :: a.payload.take k) := by
            intro w'
            rw [bind_assoc']
            simp only [Res.bind_def, Res.bind_ok, Nat.add_sub_cancel]
            rw [show (0 - (1 + 1) : Nat) = 0 from rfl, hs 0 k (by omega)]
            simp only [Res.bind_ok, List.drop_zero]
            simp only [← Res.bind_def]
            rw [put_put]; rfl
          simp only [this]
          rw [put_put]; rfl
      | 1 =>
        rw [if_neg (by omega)]
        simp only [Res.bind_def, Res.bind_ok, Nat.le_refl, true_and, gt_iff_lt, Nat.zero_lt_succ, if_true, Nat.add_sub_cancel]
        simp only [← Res.bind_def]
        rw [bind_assoc']
        simp only [Res.bind_def, Res.bind_ok, Res.pure_def]
        rw [show (1 - (1 + 1) : Nat) = 0 from rfl, hs 0 k (by omega)]
        simp only [Res.bind_ok, List.drop_zero]
        simp only [← Res.bind_def]
        rw [put_put]; rfl
      | off + 2 =>
        rw [if_neg (by omega)]
        simp only [Res.bind_def, Res.bind_ok]
        rw [if_neg (by omega)]
        simp only [Res.bind_ok]
        rw [show off + 2 - (1 + 1) = off by omega, hs off (k + 1) (by omega)]
        simp only [Res.bind_ok]
        rfl
  unfold writeLast lastLeb
  by_cases hn : num > 3
  · rw [if_pos hn, if_pos hn, encodeLeb_min (by omega)]
    by_cases hc : w.bytes.length + (lebMin k).length ≤ w.cap
    · have hp : w.put (lebMin k) = .ok { w with bytes := w.bytes ++ lebMin k } := by unfold W.put; rw [if_pos hc]
      rw [← put_put, hp]
      exact key _ (by rw [List.length_append]; exact hc)
    · have hp : w.put (lebMin k) = .panic := by unfold W.put; rw [if_neg hc]
      rw [← put_put, hp]
      rfl
  · rw [if_neg hn, if_neg hn, Res.bind_def, Res.bind_ok]
    exact key w hw

/-- Writing an element that is not the last, and what follows. -/
theorem writeMid_spec (a : SObu) (h : a.ty < 16) (s : Bool) (off : Nat) (hl : off < (unsized a).length) (hsz : (unsized a).length < 2 ^ 62) (w : W)
    (F : W → Res PErr W) :
    (do
      let sz ← csub (toObu a s).size off
      let w ← w.put (encodeLeb sz)
      let w ← midHdr (toObu a s) off w
      let w ← midExt (toObu a s) off w
      let _ ← csub (toObu a s).payload.length (off - hdrLen (toObu a s))
      let w ← w.put ((toObu a s).payload.drop (off - hdrLen (toObu a s)))
      F w) = (w.put (lebMin ((unsized a).drop off).length ++ (unsized a).drop off) >>= F) := by
  have hlen : (unsized a).length = 1 + (if a.ext.isSome then 1 else 0) + a.payload.length := by
    unfold unsized
    cases a.ext <;> simp <;> omega
  have e0 : (toObu a s).size = (unsized a).length := by rw [hlen]; rfl
  have e1 : (toObu a s).header = a.header s := rfl
  have e2 : (toObu a s).payload = a.payload := rfl
  have e3 : (toObu a s).ext = a.ext.getD (u8 0) := rfl
  have e4 : hdrLen (toObu a s) = 1 + (if a.ext.isSome then 1 else 0) := by
    unfold hdrLen
    rw [e1, header_ext a h]
    cases a.ext <;> rfl
  have hc1 : csub (unsized a).length off = .ok ((unsized a).length - off) := by unfold csub; rw [if_pos (by omega)]
  unfold midHdr midExt
  rw [e0, e1, e2, e3, e4, header_clear a h, header_ext a h, hc1, Res.bind_def, Res.bind_ok, encodeLeb_min (by omega), List.length_drop]
  have hun : unsized a = a.header false :: (a.ext.toList ++ a.payload) := rfl
  rw [hlen] at hl
  have hc2 : csub a.payload.length (off - (1 + if a.ext.isSome then 1 else 0)) = .ok (a.payload.length - (off - (1 + if a.ext.isSome then 1 else 0))) := by
    unfold csub; rw [if_pos (by omega)]
  rw [hc2]
  have pp : ∀ (w : W) (x y : List Byte) (G : W → Res PErr W), (w.put x >>= fun w => w.put y >>= G) = (w.put (x ++ y) >>= G) := by
    intro w x y G
    rw [← put_put, bind_assoc']
  cases hx : a.ext with
  | none =>
    rw [hx] at hl hun
    simp only [Option.isSome_none, Bool.false_eq_true, if_false, Nat.add_zero, and_false] at hl ⊢
    cases off with
    | zero =>
      simp only [if_true, Res.bind_def, Res.bind_ok]
      simp only [← Res.bind_def]
      rw [show (0 - 1 : Nat) = 0 from rfl]
      simp only [pp, List.drop_zero]
      rw [hun]
      simp
    | succ off =>
      simp only [Res.bind_def, Res.bind_ok, Nat.add_sub_cancel, Nat.add_eq_zero_iff, Nat.one_ne_zero, and_false, if_false]
      simp only [← Res.bind_def]
      simp only [pp]
      rw [hun]
      simp
  | some e =>
    rw [hx] at hl hun
    simp only [Option.isSome_some, if_true, Option.getD_some, and_true] at hl ⊢
    match off with
    | 0 =>
      simp only [if_true, Res.bind_def, Res.bind_ok, Nat.zero_le]
      simp only [← Res.bind_def]
      rw [show (0 - (1 + 1) : Nat) = 0 from rfl]
      simp only [pp, List.drop_zero]
      rw [hun]
      simp
    | 1 =>
      simp only [Res.bind_def, Res.bind_ok, Nat.le_refl, if_true, Nat.one_ne_zero, if_false]
      simp only [← Res.bind_def]
      rw [show (1 - (1 + 1) : Nat) = 0 from rfl]
      simp only [pp, List.drop_zero]
      rw [hun]
      simp
    | off + 2 =>
      have h2 : ¬ off + 2 ≤ 1 := by omega
      simp only [Res.bind_def, Res.bind_ok, Nat.add_eq_zero_iff, OfNat.ofNat_ne_zero, and_false, if_false, h2]
      simp only [← Res.bind_def]
      rw [show off + 2 - (1 + 1) = off by omega]
      simp only [pp]
      rw [hun]
      simp

end Str0m.Av1
