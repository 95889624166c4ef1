import Verif.Proofs.H264
/-
  H.264: what a receiver makes of the packets of one NAL unit.
-/
namespace Str0m.H264
open Str0m.Packet
open Spec

/-- The FU indicator and FU header. -/
def fuaHdr (b0 ty : Nat) (f l : Bool) : List Byte := [u8 b0, u8 (ty + (if f then 0x80 else if l then 0x40 else 0))]

theorem fuaGo_eq (b : Byte) (t : List Byte) (b0 ty m : Nat) : ∀ (fuel rem ix : Nat), ix + rem = t.length →
    fuaGo (b :: t) b0 ty m t.length fuel rem (ix + 1) = vp9Go (fuaHdr b0 ty) m t fuel rem ix := by
  intro fuel
  induction fuel with
  | zero => intro rem ix _; rfl
  | succ fuel ih =>
    intro rem ix h
    unfold fuaGo vp9Go
    by_cases hr : rem > 0
    · rw [if_pos hr, if_pos hr]
      have e1 : (Res.slice (b :: t) (ix + 1) (ix + 1 + min m rem) : Res PErr _) = Res.slice t ix (ix + min m rem) := by
        rw [slice_piece _ _ _ (by rw [List.length_cons]; omega), slice_piece _ _ _ (by omega)]
        rfl
      rw [e1, show ix + 1 + min m rem = (ix + min m rem) + 1 by omega, ih _ _ (by omega)]
      have e2 : u8 (ty + (if rem = t.length then 0x80 else if rem - min m rem = 0 then 0x40 else 0))
          = u8 (ty + (if (ix == 0) = true then 0x80 else if (rem == min m rem) = true then 0x40 else 0)) := by
        have h1 : (rem = t.length) ↔ (ix == 0) = true := by rw [beq_iff_eq]; omega
        have h2 : (rem - min m rem = 0) ↔ (rem == min m rem) = true := by rw [beq_iff_eq]; omega
        simp only [h1, h2]
      rw [e2]
      rfl
    · rw [if_neg hr, if_neg hr]

theorem ntype_ind (b : Byte) : ntype (u8 (28 + refIdc b)) = 28 := by
  unfold ntype refIdc; rw [u8_val]; omega

theorem refIdc_ind (b : Byte) : refIdc (u8 (28 + refIdc b)) = refIdc b := by
  unfold refIdc; rw [u8_val]; omega

theorem hdr_byte (b : Byte) (hb : b.val < 128) : u8 (refIdc b + ntype b) = b := by
  have : refIdc b + ntype b = b.val := by unfold refIdc ntype; omega
  rw [this, u8_of_val]

/-- One fragment that is not the last. -/
theorem fua_mid (avc : Bool) (b : Byte) (f : Bool) (x : List Byte) (acc : Option (List Byte)) (out : List Byte) (e : Option Bool) :
    depacketize ⟨avc, acc⟩ (fuaHdr (28 + refIdc b) (ntype b) f false ++ x) out e
      = .ok (⟨avc, some ((match acc with | some a => a | none => []) ++ x)⟩, out, e) := by
  show (if 1 ≤ ntype (u8 (28 + refIdc b)) ∧ ntype (u8 (28 + refIdc b)) ≤ 23 then _ else _) = _
  rw [ntype_ind, if_neg (by omega), if_neg (by omega), if_pos rfl]
  have h : ¬ (u8 (ntype b + (if f = true then 0x80 else if false = true then 0x40 else 0))).val / 64 % 2 = 1 := by
    rw [u8_val]; unfold ntype; cases f <;> simp <;> omega
  show (if (u8 (ntype b + (if f = true then 0x80 else if false = true then 0x40 else 0))).val / 64 % 2 = 1 then _ else _) = _
  rw [if_neg h]
  rfl

/-- The last fragment. -/
theorem fua_last (avc : Bool) (b : Byte) (hb : b.val < 128) (x acc out : List Byte) (e : Option Bool) :
    depacketize ⟨avc, some acc⟩ (fuaHdr (28 + refIdc b) (ntype b) false true ++ x) out e
      = .ok (⟨avc, none⟩, out ++ prefix_ avc ((acc ++ x).length + 1) ++ b :: (acc ++ x), key e (ntype b)) := by
  show (if 1 ≤ ntype (u8 (28 + refIdc b)) ∧ ntype (u8 (28 + refIdc b)) ≤ 23 then _ else _) = _
  rw [ntype_ind, if_neg (by omega), if_neg (by omega), if_pos rfl]
  have h : (u8 (ntype b + 0x40)).val / 64 % 2 = 1 := by
    rw [u8_val]; unfold ntype; omega
  have h2 : ntype (u8 (ntype b + 0x40)) = ntype b := by
    unfold ntype; rw [u8_val]; omega
  show (if (u8 (ntype b + 0x40)).val / 64 % 2 = 1 then _ else _) = _
  rw [if_pos h]
  show Res.ok _ = _
  simp only [Bool.false_eq_true, if_false, if_true, List.nil_append]
  rw [h2, refIdc_ind, hdr_byte b hb]
  rfl

theorem run_fua_rest (avc : Bool) (b : Byte) (hb : b.val < 128) (out : List Byte) (e : Option Bool) :
    ∀ (xs : List (List Byte)) (x acc : List Byte),
    runDepack depacketize (withHdr (fuaHdr (28 + refIdc b) (ntype b)) false (x :: xs)) ⟨avc, some acc⟩ out e
      = .ok (⟨avc, none⟩, out ++ prefix_ avc ((acc ++ (x :: xs).flatten).length + 1) ++ b :: (acc ++ (x :: xs).flatten), key e (ntype b)) := by
  intro xs
  induction xs with
  | nil =>
    intro x acc
    simp only [withHdr, runDepack, fua_last avc b hb, Res.bind_def, Res.bind_ok, List.flatten_cons, List.flatten_nil, List.append_nil]
  | cons y ys ih =>
    intro x acc
    rw [show withHdr (fuaHdr (28 + refIdc b) (ntype b)) false (x :: y :: ys)
      = (fuaHdr (28 + refIdc b) (ntype b) false false ++ x) :: withHdr (fuaHdr (28 + refIdc b) (ntype b)) false (y :: ys) from rfl]
    rw [show ∀ q qs s o ee, runDepack depacketize (q :: qs) s o ee
      = (depacketize s q o ee >>= fun r => runDepack depacketize qs r.1 r.2.1 r.2.2) from fun _ _ _ _ _ => rfl]
    rw [fua_mid, Res.bind_def, Res.bind_ok]
    dsimp only
    rw [ih y (acc ++ x)]
    simp [List.append_assoc]

theorem run_fua (avc : Bool) (b : Byte) (hb : b.val < 128) (out : List Byte) (e : Option Bool) (x y : List Byte) (ys : List (List Byte)) :
    runDepack depacketize (withHdr (fuaHdr (28 + refIdc b) (ntype b)) true (x :: y :: ys)) ⟨avc, none⟩ out e
      = .ok (⟨avc, none⟩, out ++ prefix_ avc ((x :: y :: ys).flatten.length + 1) ++ b :: (x :: y :: ys).flatten, key e (ntype b)) := by
  rw [show withHdr (fuaHdr (28 + refIdc b) (ntype b)) true (x :: y :: ys)
      = (fuaHdr (28 + refIdc b) (ntype b) true false ++ x) :: withHdr (fuaHdr (28 + refIdc b) (ntype b)) false (y :: ys) from rfl]
  rw [show ∀ q qs s o ee, runDepack depacketize (q :: qs) s o ee
      = (depacketize s q o ee >>= fun r => runDepack depacketize qs r.1 r.2.1 r.2.2) from fun _ _ _ _ _ => rfl]
  rw [fua_mid, Res.bind_def, Res.bind_ok]
  dsimp only
  rw [run_fua_rest avc b hb]
  simp [List.append_assoc]

theorem head_fua (b : Byte) (f l : Bool) (x : List Byte) : head (fuaHdr (28 + refIdc b) (ntype b) f l ++ x) = f := by
  show (if ntype (u8 (28 + refIdc b)) = 28 ∨ _ then _ else _) = _
  rw [if_pos (Or.inl (ntype_ind b)), u8_val]
  unfold ntype
  cases f <;> cases l <;> simp <;> omega

theorem detect_fua (b : Byte) (f l : Bool) (x : List Byte) :
    detect (fuaHdr (28 + refIdc b) (ntype b) f l ++ x) = .ok (f && ntype b == 5) := by
  show (if 1 ≤ ntype (u8 (28 + refIdc b)) ∧ ntype (u8 (28 + refIdc b)) ≤ 23 then _ else _) = _
  rw [ntype_ind, if_neg (by omega), if_neg (by omega), if_pos rfl]
  show (if x.length + 2 < 2 then _ else _) = _
  rw [if_neg (by omega)]
  show (if (u8 (ntype b + (if f = true then 0x80 else if l = true then 0x40 else 0))).val / 128 = 0 then Res.ok false
    else Res.ok (ntype (u8 (ntype b + (if f = true then 0x80 else if l = true then 0x40 else 0))) == 5)) = _
  have hlt : ntype b < 32 := by unfold ntype; omega
  generalize ntype b = t at hlt
  cases f with
  | false =>
    rw [if_pos (by rw [u8_val]; cases l <;> simp <;> omega)]
    rfl
  | true =>
    rw [if_neg (by rw [u8_val]; simp; omega)]
    have : ntype (u8 (t + if (true = true) then 0x80 else if l = true then 0x40 else 0)) = t := by
      unfold ntype; rw [u8_val]; simp; omega
    rw [this]; rfl

/-- A packet the detector calls a key frame. -/
def Detects (q : List Byte) : Prop := detect q = .ok true

theorem detects_fua (b : Byte) (x : List Byte) (xs : List (List Byte)) :
    (∃ q ∈ withHdr (fuaHdr (28 + refIdc b) (ntype b)) true (x :: xs), Detects q) ↔ ntype b = 5 := by
  constructor
  · rintro ⟨q, hq, hd⟩
    obtain ⟨g, l, z, -, rfl, -⟩ := withHdr_mem _ _ _ q hq
    unfold Detects at hd
    rw [detect_fua] at hd
    have hd : (g && ntype b == 5) = true := by injection hd
    simp at hd
    exact hd.2
  · intro h
    cases xs with
    | nil => exact ⟨fuaHdr (28 + refIdc b) (ntype b) true true ++ x, by simp [withHdr], by unfold Detects; rw [detect_fua]; simp [h]⟩
    | cons y ys => exact ⟨_, List.mem_cons_self, by unfold Detects; rw [detect_fua]; simp [h]⟩

/-- What the packets of one NAL unit do. -/
theorem emitNalu_run (n : List Byte) (b : Byte) (t : List Byte) (hn : n = b :: t) (hb : b.val < 128) (h1 : 1 ≤ ntype b) (h2 : ntype b ≤ 23)
    (mtu : Nat) (hm : 2 < mtu) :
    ∃ q qs, emitNalu n b mtu = .ok (q :: qs) ∧ FitsMtu mtu (q :: qs) ∧ (2 ≤ n.length → head q = true) ∧
      ((∃ p ∈ q :: qs, Detects p) ↔ ntype b = 5) ∧
      ∀ avc out e, runDepack depacketize (q :: qs) ⟨avc, none⟩ out e
        = .ok (⟨avc, none⟩, out ++ prefix_ avc n.length ++ n, key e (ntype b)) := by
  unfold emitNalu
  by_cases hl : n.length ≤ mtu
  · rw [if_pos hl]
    refine ⟨n, [], rfl, by simpa [FitsMtu] using hl, ?_, ?_, ?_⟩
    · intro h
      subst hn
      cases t with
      | nil => simp at h
      | cons c t =>
        show (if ntype b = 28 ∨ ntype b = 29 then _ else _) = _
        rw [if_neg (by omega)]
    · subst hn
      have hd : detect (b :: t) = .ok (ntype b == 5) := by
        show (if 1 ≤ ntype b ∧ ntype b ≤ 23 then _ else _) = _
        rw [if_pos ⟨h1, h2⟩]
      simp [Detects, hd]
    · intro avc out e
      subst hn
      have hd : depacketize ⟨avc, none⟩ (b :: t) out e = .ok (⟨avc, none⟩, out ++ prefix_ avc (b :: t).length ++ b :: t, key e (ntype b)) := by
        show (if 1 ≤ ntype b ∧ ntype b ≤ 23 then _ else _) = _
        rw [if_pos ⟨h1, h2⟩]
      simp only [runDepack, hd, Res.bind_def, Res.bind_ok]
  · rw [if_neg hl, if_neg (by omega)]
    subst hn
    have hlen : (b :: t).length - 1 = t.length := by simp
    have hlt : (b :: t).length = t.length + 1 := by simp
    rw [hlen, fuaGo_eq b t _ _ (mtu - 2) _ t.length 0 (by omega)]
    obtain ⟨ps, e1, e2, e3⟩ := vp9Go_pieces (fuaHdr (28 + refIdc b) (ntype b)) (mtu - 2) (by omega) t ((b :: t).length + 1) t.length 0 (by omega) (by omega)
    rw [List.drop_zero] at e2
    rw [show ((0 : Nat) == 0) = true from rfl] at e1
    match ps, e2, e3, e1 with
    | [], e2, e3, e1 =>
      exfalso
      have := congrArg List.length e2
      simp at this
      omega
    | [x], e2, e3, e1 =>
      exfalso
      have h4 := (e3 x (by simp)).2
      have := congrArg List.length e2
      simp at this
      omega
    | x :: y :: ys, e2, e3, e1 =>
      refine ⟨_, _, e1, ?_, fun _ => head_fua b true false x, detects_fua b x (y :: ys), ?_⟩
      · intro q hq
        obtain ⟨g, l, z, hz, rfl, -⟩ := withHdr_mem (fuaHdr (28 + refIdc b) (ntype b)) (x :: y :: ys) true q hq
        have := (e3 z hz).2
        rw [List.length_append]
        show 2 + z.length ≤ mtu
        omega
      · intro avc out e
        have := run_fua avc b hb out e x y ys
        rw [e2] at this
        exact this

/-! ### Parameter sets -/

theorem stapGo_two (avc : Bool) (s q : List Byte) (bs : Byte) (ts : List Byte) (bq : Byte) (tq : List Byte) (hs : s = bs :: ts) (hq : q = bq :: tq)
    (ls : s.length < 2 ^ 16) (lq : q.length < 2 ^ 16) (fuel : Nat) (hf : 3 ≤ fuel) (out : List Byte) (e : Option Bool) :
    stapGo avc (stapA s q) fuel 1 out e
      = .ok (out ++ prefix_ avc s.length ++ s ++ prefix_ avc q.length ++ q, key (key e (ntype bs)) (ntype bq)) := by
  obtain ⟨f, rfl⟩ : ∃ f, fuel = f + 3 := ⟨fuel - 3, by omega⟩
  have hl : (stapA s q).length = 5 + s.length + q.length := by
    unfold stapA; simp [be16]; omega
  have ha : s.length + 3 + 2 + q.length = (stapA s q).length := by omega
  -- first unit
  have i1 : (Res.idx (stapA s q) 1 : Res PErr _) = .ok (u8 (s.length / 2 ^ 8)) := by
    rw [Res.idx_of_lt (by omega)]; rfl
  have i2 : (Res.idx (stapA s q) 2 : Res PErr _) = .ok (u8 s.length) := by
    rw [Res.idx_of_lt (by omega)]; rfl
  have g1 : (stapA s q)[3]? = some bs := by subst hs; rfl
  have s1 : (Res.slice (stapA s q) 3 (3 + s.length) : Res PErr _) = .ok s := by
    rw [slice_piece _ _ _ (by omega)]
    have : (stapA s q).drop 3 = s ++ (be16 q.length ++ q) := by unfold stapA; simp [be16]
    rw [this, List.take_left]
  have d2 : (stapA s q).drop (3 + s.length) = be16 q.length ++ q := by
    rw [← List.drop_drop]
    have : (stapA s q).drop 3 = s ++ (be16 q.length ++ q) := by unfold stapA; simp [be16]
    rw [this, List.drop_left]
  have getd : ∀ k, (stapA s q)[3 + s.length + k]? = (be16 q.length ++ q)[k]? := by
    intro k; rw [← d2, List.getElem?_drop]
  have i3 : (Res.idx (stapA s q) (3 + s.length) : Res PErr _) = .ok (u8 (q.length / 2 ^ 8)) := by
    have hlt : 3 + s.length < (stapA s q).length := by omega
    rw [Res.idx_of_lt hlt]
    have := getd 0
    rw [Nat.add_zero, List.getElem?_eq_getElem hlt] at this
    injection this with this
    rw [this]
  have i4 : (Res.idx (stapA s q) (3 + s.length + 1) : Res PErr _) = .ok (u8 q.length) := by
    have hlt : 3 + s.length + 1 < (stapA s q).length := by omega
    rw [Res.idx_of_lt hlt]
    have := getd 1
    rw [List.getElem?_eq_getElem hlt] at this
    injection this with this
    rw [this]
  have g2 : (stapA s q)[3 + s.length + 2]? = some bq := by rw [getd 2]; subst hq; rfl
  have s2 : (Res.slice (stapA s q) (3 + s.length + 2) (3 + s.length + 2 + q.length) : Res PErr _) = .ok q := by
    rw [slice_piece _ _ _ (by omega), ← List.drop_drop, d2]
    have : (be16 q.length ++ q).drop 2 = q := rfl
    rw [this, List.take_length]
  have r1 : rd16 (u8 (s.length / 2 ^ 8)) (u8 s.length) = s.length := rd16_be16 ls
  have r2 : rd16 (u8 (q.length / 2 ^ 8)) (u8 q.length) = q.length := rd16_be16 lq
  have ls0 : 0 < s.length := by rw [hs]; simp
  have lq0 : 0 < q.length := by rw [hq]; simp
  clear hs hq
  unfold stapGo
  rw [if_pos (by omega), i1, Res.bind_def, Res.bind_ok, i2, Res.bind_def, Res.bind_ok]
  rw [r1, if_neg (by omega), g1]
  dsimp only
  rw [show (1 + 2 : Nat) = 3 from rfl, s1, Res.bind_def, Res.bind_ok]
  unfold stapGo
  rw [if_pos (by omega), i3, Res.bind_def, Res.bind_ok, i4, Res.bind_def, Res.bind_ok]
  rw [r2, if_neg (by omega), g2]
  dsimp only
  rw [s2, Res.bind_def, Res.bind_ok]
  unfold stapGo
  rw [if_neg (by omega)]

theorem run_stapA (avc : Bool) (s q : List Byte) (bs : Byte) (ts : List Byte) (bq : Byte) (tq : List Byte) (hs : s = bs :: ts) (hq : q = bq :: tq)
    (ls : s.length < 2 ^ 16) (lq : q.length < 2 ^ 16) (acc : Option (List Byte)) (out : List Byte) (e : Option Bool) :
    depacketize ⟨avc, acc⟩ (stapA s q) out e
      = .ok (⟨avc, acc⟩, out ++ prefix_ avc s.length ++ s ++ prefix_ avc q.length ++ q, key (key e (ntype bs)) (ntype bq)) := by
  have h := stapGo_two avc s q bs ts bq tq hs hq ls lq ((stapA s q).length + 1) (by unfold stapA; simp [be16]) out e
  have : depacketize ⟨avc, acc⟩ (stapA s q) out e = (do
      let r ← stapGo avc (stapA s q) ((stapA s q).length + 1) 1 out e
      pure (⟨avc, acc⟩, r.1, r.2)) := rfl
  rw [this, h]
  rfl

theorem detect_stapA (s q : List Byte) (bs : Byte) (ts : List Byte) (bq : Byte) (tq : List Byte) (hs : s = bs :: ts) (hq : q = bq :: tq)
    (ls : s.length < 2 ^ 16) (lq : q.length < 2 ^ 16) (hbs : ntype bs ≠ 5) (hbq : ntype bq ≠ 5) : detect (stapA s q) = .ok false := by
  have : detect (stapA s q) = detectStap (stapA s q) ((stapA s q).length + 1) 1 := rfl
  rw [this]
  have hl : (stapA s q).length = 5 + s.length + q.length := by
    unfold stapA; simp [be16]; omega
  obtain ⟨f, hf⟩ : ∃ f, (stapA s q).length + 1 = f + 3 := ⟨(stapA s q).length - 2, by omega⟩
  rw [hf]
  have i1 : (Res.idx (stapA s q) 1 : Res PErr _) = .ok (u8 (s.length / 2 ^ 8)) := by
    rw [Res.idx_of_lt (by omega)]; rfl
  have i2 : (Res.idx (stapA s q) 2 : Res PErr _) = .ok (u8 s.length) := by
    rw [Res.idx_of_lt (by omega)]; rfl
  have g1 : (stapA s q)[3]? = some bs := by subst hs; rfl
  have d2 : (stapA s q).drop (3 + s.length) = be16 q.length ++ q := by
    rw [← List.drop_drop]
    have : (stapA s q).drop 3 = s ++ (be16 q.length ++ q) := by unfold stapA; simp [be16]
    rw [this, List.drop_left]
  have getd : ∀ k, (stapA s q)[3 + s.length + k]? = (be16 q.length ++ q)[k]? := by
    intro k; rw [← d2, List.getElem?_drop]
  have i3 : (Res.idx (stapA s q) (3 + s.length) : Res PErr _) = .ok (u8 (q.length / 2 ^ 8)) := by
    have hlt : 3 + s.length < (stapA s q).length := by omega
    rw [Res.idx_of_lt hlt]
    have := getd 0
    rw [Nat.add_zero, List.getElem?_eq_getElem hlt] at this
    injection this with this
    rw [this]
  have i4 : (Res.idx (stapA s q) (3 + s.length + 1) : Res PErr _) = .ok (u8 q.length) := by
    have hlt : 3 + s.length + 1 < (stapA s q).length := by omega
    rw [Res.idx_of_lt hlt]
    have := getd 1
    rw [List.getElem?_eq_getElem hlt] at this
    injection this with this
    rw [this]
  have g2 : (stapA s q)[3 + s.length + 2]? = some bq := by rw [getd 2]; subst hq; rfl
  have r1 : rd16 (u8 (s.length / 2 ^ 8)) (u8 s.length) = s.length := rd16_be16 ls
  have r2 : rd16 (u8 (q.length / 2 ^ 8)) (u8 q.length) = q.length := rd16_be16 lq
  clear hs hq
  unfold detectStap
  rw [if_pos (by omega), i1, Res.bind_def, Res.bind_ok, i2, Res.bind_def, Res.bind_ok]
  rw [r1, if_neg (by omega), g1, if_neg (by simp [hbs])]
  rw [show (1 + 2 : Nat) = 3 from rfl]
  unfold detectStap
  rw [if_pos (by omega), i3, Res.bind_def, Res.bind_ok, i4, Res.bind_def, Res.bind_ok]
  rw [r2, if_neg (by omega), g2, if_neg (by simp [hbq])]
  unfold detectStap
  rw [if_neg (by omega)]

end Str0m.H264
