import Verif.Model.Vla
import Verif.Spec.Vla
/-
  Lemmas about the LEB128 and video layers allocation codecs.
-/
namespace Str0m.Vla

/-! ### LEB128 -/

theorem encodeLebGo_ne_nil (fuel value : Nat) : encodeLebGo (fuel + 1) value ≠ [] := by
  unfold encodeLebGo; split <;> simp

theorem readBit0 (b : Byte) : readBit b 0 = false ↔ b.val < 128 := by
  simp only [readBit, readBits, decide_eq_false_iff_not, gt_iff_lt, not_lt]
  have := b.isLt
  norm_num
  omega

theorem readBits18 (b : Byte) : readBits b 1 8 = b.val % 128 := by simp [readBits]

theorem parseLebGo_encode (orig rest : List Byte) : ∀ (fuel value index result : Nat), value < 128 ^ fuel → index + fuel ≤ 10 →
    value * 128 ^ index < 2 ^ 63 → index ≤ 8 → fuel ≠ 0 →
    parseLebGo orig (encodeLebGo fuel value ++ rest) index result = (result + value * 2 ^ (7 * index), rest) := by
  intro fuel
  induction fuel with
  | zero => intro value index result _ _ _ _ h; exact absurd rfl h
  | succ fuel ih =>
    intro value index result hv hf hb hi _
    unfold encodeLebGo
    by_cases h : value < 0x80
    · rw [if_pos h]
      have hu : (u8 value).val = value := u8_val_of_lt (by omega)
      have h0 : readBit (u8 value) 0 = false := by rw [readBit0, hu]; exact h
      show (if _ then _ else _) = _
      rw [if_pos (Or.inl h0), readBits18, hu, Nat.mod_eq_of_lt h]
      rfl
    · rw [if_neg h]
      have hu : (u8 (value % 128 + 128)).val = value % 128 + 128 := u8_val_of_lt (by omega)
      have h0 : ¬ readBit (u8 (value % 128 + 128)) 0 = false := by rw [readBit0, hu]; omega
      have hi8 : index ≠ 8 := by
        intro hc; subst hc
        have : 0x80 * 128 ^ 8 ≤ value * 128 ^ 8 := Nat.mul_le_mul_right _ (by omega)
        have h2 : (0x80 : Nat) * 128 ^ 8 = 2 ^ 63 := by norm_num
        omega
      have hfuel : fuel ≠ 0 := by
        intro hc; subst hc; simp at hv; omega
      show (if _ then _ else _) = _
      rw [if_neg (by intro hc; rcases hc with hc | hc; exact h0 hc; exact hi8 hc)]
      rw [show (encodeLebGo fuel (value / 128)).append rest = encodeLebGo fuel (value / 128) ++ rest from rfl]
      rw [ih (value / 128) (index + 1) _ (by rw [Nat.div_lt_iff_lt_mul (by norm_num), ← pow_succ]; exact hv) (by omega)
        (by
          rw [pow_succ]
          calc value / 128 * (128 ^ index * 128) = (value / 128 * 128) * 128 ^ index := by ring
            _ ≤ value * 128 ^ index := Nat.mul_le_mul_right _ (Nat.div_mul_le_self _ _)
            _ < 2 ^ 63 := hb) (by omega) hfuel]
      rw [readBits18, hu]
      have e1 : (value % 128 + 128) % 128 = value % 128 := by omega
      rw [e1]
      have e2 : 2 ^ (7 * (index + 1)) = 128 * 2 ^ (7 * index) := by
        rw [show 7 * (index + 1) = 7 * index + 7 by ring, pow_add]; ring
      rw [e2]
      have e3 : value = value % 128 + 128 * (value / 128) := (Nat.mod_add_div value 128).symm
      congr 1
      conv_rhs => rw [e3]
      ring

theorem parseLeb_encode {value : Nat} (h : value < 2 ^ 63) (rest : List Byte) :
    parseLeb (encodeLeb value ++ rest) = (value, rest) := by
  unfold parseLeb encodeLeb
  rw [parseLebGo_encode _ rest 10 value 0 0 (lt_of_lt_of_le h (by norm_num)) (by omega) (by simpa using h) (by omega) (by omega)]
  simp

theorem parseLebs_encode (rest : List Byte) : ∀ (rs : List Nat), (∀ r ∈ rs, r < 2 ^ 63) →
    parseLebs rs.length (rs.flatMap encodeLeb ++ rest) = (rs, rest) := by
  intro rs
  induction rs with
  | nil => intro _; rfl
  | cons r rs ih =>
    intro h
    show (_, _) = _
    rw [List.flatMap_cons, List.append_assoc, parseLeb_encode (h r (List.mem_cons_self ..))]
    dsimp only
    rw [ih (fun x hx => h x (List.mem_cons_of_mem _ hx))]

theorem encodeLebGo_length : ∀ (fuel value k : Nat), value < 128 ^ k → k ≠ 0 → (encodeLebGo fuel value).length ≤ k := by
  intro fuel
  induction fuel with
  | zero => intro value k _ _; simp [encodeLebGo]
  | succ fuel ih =>
    intro value k hv hk
    unfold encodeLebGo
    split
    · simp only [List.length_singleton]; omega
    · rename_i h
      obtain ⟨k, rfl⟩ := Nat.exists_eq_succ_of_ne_zero hk
      have hk0 : k ≠ 0 := by intro hc; subst hc; simp at hv; omega
      have := ih (value / 128) k (by rw [Nat.div_lt_iff_lt_mul (by norm_num), ← pow_succ]; exact hv) hk0
      simp only [List.length_cons]; omega

/-! ### Buffers split at the write position -/

theorem setB_at (pre post : List Byte) (x y : Byte) : setB (pre ++ x :: post) pre.length y = .ok (pre ++ y :: post) := by
  unfold setB
  rw [if_pos (by simp)]
  simp

theorem orB_at (pre post : List Byte) (x : Byte) (v : Nat) :
    orB (pre ++ x :: post) pre.length v = .ok (pre ++ u8 (x.val ||| v) :: post) := by
  unfold orB
  rw [Res.idx_of_lt (by simp), Res.bind_def, Res.bind_ok, setB_at]
  simp

theorem putB_at (pre mid post bytes : List Byte) (h : mid.length = bytes.length) :
    putB (pre ++ mid ++ post) pre.length bytes = .ok (pre ++ bytes ++ post) := by
  unfold putB
  rw [if_pos (by simp; omega)]
  have h1 : (pre ++ mid ++ post).take pre.length = pre := by rw [List.append_assoc, List.take_left']; rfl
  have h2 : (pre ++ mid ++ post).drop (pre.length + bytes.length) = post := by
    rw [List.drop_left']; simp [h]
  rw [h1, h2]

/-- The buffer has at least `n` bytes after `pre`, and they are replaced. -/
theorem putB_drop (pre ys bytes : List Byte) (h : bytes.length ≤ ys.length) :
    putB (pre ++ ys) pre.length bytes = .ok (pre ++ bytes ++ ys.drop bytes.length) := by
  have := putB_at pre (ys.take bytes.length) (ys.drop bytes.length) bytes (by simp [h])
  rw [List.append_assoc pre (ys.take _), List.take_append_drop] at this
  exact this

/-! ### Temporal layer counts -/

/-- Two-bit groups, four to a byte, most significant first, zero padded. -/
def pack4 : List Nat → List Byte
  | [] => []
  | [a] => [u8 (a * 64)]
  | [a, b] => [u8 (a * 64 + b * 16)]
  | [a, b, c] => [u8 (a * 64 + b * 16 + c * 4)]
  | a :: b :: c :: d :: rest => u8 (a * 64 + b * 16 + c * 4 + d) :: pack4 rest

theorem pack4_length : ∀ l : List Nat, (pack4 l).length = (l.length + 3) / 4
  | [] => by simp [pack4]
  | [_] => by simp [pack4]
  | [_, _] => by simp [pack4]
  | [_, _, _] => by simp [pack4]
  | a :: b :: c :: d :: rest => by
    simp only [pack4, List.length_cons, pack4_length rest]; omega

theorem splitIn4_val (a b c d : Nat) (ha : a < 4) (hb : b < 4) (hc : c < 4) (hd : d < 4) :
    splitIn4 (u8 (a * 64 + b * 16 + c * 4 + d)) = [a, b, c, d] := by
  have hu : (u8 (a * 64 + b * 16 + c * 4 + d)).val = a * 64 + b * 16 + c * 4 + d := u8_val_of_lt (by omega)
  simp only [splitIn4, readBits, hu]
  norm_num
  omega

theorem unpack4 : ∀ l : List Nat, (∀ x ∈ l, x < 4) → ((pack4 l).flatMap splitIn4).take l.length = l
  | [], _ => rfl
  | [a], h => by
    have ha := h a (by simp)
    have := splitIn4_val a 0 0 0 ha (by omega) (by omega) (by omega)
    simp only [Nat.zero_mul, Nat.add_zero] at this
    simp [pack4, this]
  | [a, b], h => by
    have := splitIn4_val a b 0 0 (h a (by simp)) (h b (by simp)) (by omega) (by omega)
    simp only [Nat.zero_mul, Nat.add_zero] at this
    simp [pack4, this]
  | [a, b, c], h => by
    have := splitIn4_val a b c 0 (h a (by simp)) (h b (by simp)) (h c (by simp)) (by omega)
    simp only [Nat.add_zero] at this
    simp [pack4, this]
  | a :: b :: c :: d :: rest, h => by
    have := splitIn4_val a b c d (h a (by simp)) (h b (by simp)) (h c (by simp)) (h d (by simp))
    have ih := unpack4 rest (fun x hx => h x (by simp [hx]))
    simp only [pack4, List.flatMap_cons, this, List.length_cons]
    simp [ih]

/-- The counts written: number of temporal layers minus one of every active layer. -/
def countsOf (ls : List Layer) : List Nat := (ls.filter (fun l => !l.temporal.isEmpty)).map (fun l => l.temporal.length - 1)

/-- `writeCounts` on the active layers only. -/
def wc : List Nat → List Byte → Nat → Nat → Res Unit (List Byte × Nat × Nat)
  | [], buf, index, tl => .ok (buf, index, tl)
  | c :: ls, buf, index, tl =>
    if tl % 4 = 0 then
      if tl > 0 then do
        let buf ← setB buf (index + 1) 0
        let buf ← orB buf (index + 1) (c % 256 * 2 ^ (6 - tl % 4 * 2) % 256)
        wc ls buf (index + 1) (tl + 1)
      else do
        let buf ← setB buf index 0
        let buf ← orB buf index (c % 256 * 2 ^ (6 - tl % 4 * 2) % 256)
        wc ls buf index (tl + 1)
    else do
      let buf ← orB buf index (c % 256 * 2 ^ (6 - tl % 4 * 2) % 256)
      wc ls buf index (tl + 1)

theorem writeCounts_eq : ∀ (ls : List Layer) (buf : List Byte) (index tl : Nat),
    writeCounts ls buf index tl = wc (countsOf ls) buf index tl := by
  intro ls
  induction ls with
  | nil => intro buf index tl; rfl
  | cons l ls ih =>
    intro buf index tl
    unfold writeCounts
    cases hl : l.temporal.isEmpty with
    | true =>
      rw [if_pos rfl, ih]
      congr 1
      unfold countsOf
      rw [List.filter_cons_of_neg (by simp [hl])]
    | false =>
      rw [if_neg (by simp)]
      have : countsOf (l :: ls) = (l.temporal.length - 1) :: countsOf ls := by
        unfold countsOf
        rw [List.filter_cons_of_pos (by simp [hl])]; rfl
      rw [this]
      show _ = (if _ then _ else _)
      simp only [ih]

/-- Position at which the next byte of counts is written when `tl` is a multiple of four. -/
def wpos (index tl : Nat) : Nat := if tl > 0 then index + 1 else index

theorem wc_first (c : Nat) (ls : List Nat) (pre post : List Byte) (x : Byte) (index tl : Nat) (h4 : tl % 4 = 0)
    (hp : wpos index tl = pre.length) (hc : c < 4) :
    wc (c :: ls) (pre ++ x :: post) index tl = wc ls (pre ++ u8 (c * 64) :: post) pre.length (tl + 1) := by
  have hv : c % 256 * 2 ^ (6 - tl % 4 * 2) % 256 = c * 64 := by rw [h4]; norm_num; omega
  have h0 : ((0 : Byte).val ||| (c * 64)) = c * 64 := by simp
  rw [show wc (c :: ls) (pre ++ x :: post) index tl = (if tl % 4 = 0 then _ else _) from rfl]
  rw [if_pos h4]
  unfold wpos at hp
  split
  · rename_i ht
    rw [if_pos ht] at hp
    rw [hp, setB_at, Res.bind_def, Res.bind_ok, orB_at, Res.bind_def, Res.bind_ok, hv, h0]
  · rename_i ht
    rw [if_neg ht] at hp
    rw [hp, setB_at, Res.bind_def, Res.bind_ok, orB_at, Res.bind_def, Res.bind_ok, hv, h0]

theorem or_disj (a b k : Nat) (hb : b < 2 ^ k) : (a * 2 ^ k ||| b) = a * 2 ^ k + b := by
  rw [← Nat.shiftLeft_eq, ← Nat.shiftLeft_add_eq_or_of_lt hb]

theorem wc_next (c : Nat) (ls : List Nat) (pre post : List Byte) (x a : Nat) (tl r k : Nat) (h4 : tl % 4 = r) (hr : r ≠ 0)
    (hk : 6 - r * 2 = k) (hk6 : k ≤ 4) (ha : x = a * 2 ^ (k + 2)) (hx : x < 256) (hc : c < 4) :
    wc (c :: ls) (pre ++ u8 x :: post) pre.length tl = wc ls (pre ++ u8 (x + c * 2 ^ k) :: post) pre.length (tl + 1) := by
  have hv : c % 256 * 2 ^ (6 - tl % 4 * 2) % 256 = c * 2 ^ k := by
    rw [h4, hk]
    have : c * 2 ^ k < 256 := by
      calc c * 2 ^ k ≤ 3 * 2 ^ 4 := Nat.mul_le_mul (by omega) (Nat.pow_le_pow_right (by norm_num) hk6)
        _ < 256 := by norm_num
    rw [Nat.mod_eq_of_lt (show c < 256 by omega), Nat.mod_eq_of_lt this]
  have hor : ((u8 x).val ||| (c * 2 ^ k)) = x + c * 2 ^ k := by
    rw [u8_val_of_lt hx, ha]
    apply or_disj
    calc c * 2 ^ k < 4 * 2 ^ k := Nat.mul_lt_mul_of_pos_right hc (by positivity)
      _ = 2 ^ (k + 2) := by rw [pow_add]; ring
  rw [show wc (c :: ls) (pre ++ u8 x :: post) pre.length tl = (if tl % 4 = 0 then _ else _) from rfl]
  rw [if_neg (by omega), orB_at, Res.bind_def, Res.bind_ok, hv, hor]

theorem wc_spec : ∀ (cs : List Nat) (pre ys : List Byte) (index tl : Nat), (∀ c ∈ cs, c < 4) → tl % 4 = 0 →
    wpos index tl = pre.length → (pack4 cs).length ≤ ys.length → cs ≠ [] →
    wc cs (pre ++ ys) index tl = .ok (pre ++ pack4 cs ++ ys.drop (pack4 cs).length, pre.length + (pack4 cs).length - 1, tl + cs.length)
  | [], _, _, _, _, _, _, _, _, h => absurd rfl h
  | [a], pre, ys, index, tl, h, h4, hp, hl, _ => by
    obtain ⟨x, post, rfl⟩ : ∃ x post, ys = x :: post := by
      cases ys with
      | nil => simp [pack4] at hl
      | cons x post => exact ⟨x, post, rfl⟩
    rw [wc_first a [] pre post x index tl h4 hp (h a (by simp))]
    simp [wc, pack4]
  | [a, b], pre, ys, index, tl, h, h4, hp, hl, _ => by
    obtain ⟨x, post, rfl⟩ : ∃ x post, ys = x :: post := by
      cases ys with
      | nil => simp [pack4] at hl
      | cons x post => exact ⟨x, post, rfl⟩
    have ha := h a (by simp)
    rw [wc_first a [b] pre post x index tl h4 hp ha]
    rw [wc_next b [] pre post (a * 64) a (tl + 1) 1 4 (by omega) (by omega) rfl (by omega) rfl (by omega) (h b (by simp))]
    simp [wc, pack4]
  | [a, b, c], pre, ys, index, tl, h, h4, hp, hl, _ => by
    obtain ⟨x, post, rfl⟩ : ∃ x post, ys = x :: post := by
      cases ys with
      | nil => simp [pack4] at hl
      | cons x post => exact ⟨x, post, rfl⟩
    have ha := h a (by simp)
    have hb := h b (by simp)
    rw [wc_first a [b, c] pre post x index tl h4 hp ha]
    rw [wc_next b [c] pre post (a * 64) a (tl + 1) 1 4 (by omega) (by omega) rfl (by omega) rfl (by omega) hb]
    rw [wc_next c [] pre post (a * 64 + b * 2 ^ 4) (a * 4 + b) (tl + 2) 2 2 (by omega) (by omega) rfl (by omega) (by ring) (by omega) (h c (by simp))]
    simp [wc, pack4]
  | a :: b :: c :: d :: rest, pre, ys, index, tl, h, h4, hp, hl, _ => by
    obtain ⟨x, post, rfl⟩ : ∃ x post, ys = x :: post := by
      cases ys with
      | nil => simp [pack4] at hl
      | cons x post => exact ⟨x, post, rfl⟩
    have ha := h a (by simp)
    have hb := h b (by simp)
    have hc := h c (by simp)
    rw [wc_first a _ pre post x index tl h4 hp ha]
    rw [wc_next b _ pre post (a * 64) a (tl + 1) 1 4 (by omega) (by omega) rfl (by omega) rfl (by omega) hb]
    rw [wc_next c _ pre post (a * 64 + b * 2 ^ 4) (a * 4 + b) (tl + 2) 2 2 (by omega) (by omega) rfl (by omega) (by ring) (by omega) hc]
    rw [wc_next d rest pre post (a * 64 + b * 2 ^ 4 + c * 2 ^ 2) (a * 16 + b * 4 + c) (tl + 3) 3 0 (by omega) (by omega) rfl (by omega) (by ring) (by omega) (h d (by simp))]
    have hbyte : a * 64 + b * 2 ^ 4 + c * 2 ^ 2 + d * 2 ^ 0 = a * 64 + b * 16 + c * 4 + d := by norm_num
    rw [hbyte]
    by_cases hr : rest = []
    · subst hr; simp [wc, pack4]
    · have hl' : (pack4 rest).length ≤ post.length := by simp [pack4] at hl; omega
      have := wc_spec rest (pre ++ [u8 (a * 64 + b * 16 + c * 4 + d)]) post pre.length (tl + 3 + 1)
        (fun x hx => h x (by simp [hx])) (by omega) (by unfold wpos; rw [if_pos (by omega)]; simp) hl' hr
      rw [List.append_assoc pre, List.singleton_append] at this
      rw [this]
      simp only [pack4, List.length_append, List.length_cons, List.length_nil, List.append_assoc, List.cons_append, List.nil_append, List.drop_succ_cons]
      congr 2
      congr 1 <;> omega

/-! ### Bitrates and resolutions -/

theorem writeRates_spec : ∀ (rs : List Nat) (pre ys : List Byte), (rs.flatMap encodeLeb).length ≤ ys.length →
    writeRates rs (pre ++ ys) pre.length = .ok (pre ++ rs.flatMap encodeLeb ++ ys.drop (rs.flatMap encodeLeb).length, pre.length + (rs.flatMap encodeLeb).length) := by
  intro rs
  induction rs with
  | nil => intro pre ys _; simp [writeRates]
  | cons r rs ih =>
    intro pre ys h
    rw [List.flatMap_cons, List.length_append] at h
    unfold writeRates
    rw [putB_drop pre ys _ (by omega), Res.bind_def, Res.bind_ok]
    have := ih (pre ++ encodeLeb r) (ys.drop (encodeLeb r).length) (by rw [List.length_drop]; omega)
    rw [List.length_append] at this
    rw [this, List.flatMap_cons]
    simp only [List.append_assoc, List.length_append, List.drop_drop, Nat.add_assoc]

/-- The bytes of one resolution. -/
def resB (r : Resn) : List Byte := be16 (r.width - 1) ++ be16 (r.height - 1) ++ [u8 r.framerate]

/-- The resolution bytes of a list of layers. -/
def resBytes (ls : List Layer) : List Byte := ls.flatMap (fun l => match l.res with | none => [] | some r => resB r)

theorem resB_length (r : Resn) : (resB r).length = 5 := rfl

theorem writeRes_spec : ∀ (ls : List Layer) (pre ys : List Byte), (∀ l ∈ ls, ∀ r, l.res = some r → r.width ≠ 0 ∧ r.height ≠ 0) →
    (resBytes ls).length ≤ ys.length →
    writeRes ls (pre ++ ys) pre.length = .ok (pre ++ resBytes ls ++ ys.drop (resBytes ls).length, pre.length + (resBytes ls).length) := by
  intro ls
  induction ls with
  | nil => intro pre ys _ _; simp [writeRes, resBytes]
  | cons l ls ih =>
    intro pre ys hw h
    unfold writeRes
    cases hl : l.res with
    | none =>
      have he : resBytes (l :: ls) = resBytes ls := by unfold resBytes; rw [List.flatMap_cons, hl]; rfl
      rw [he] at h ⊢
      exact ih pre ys (fun x hx => hw x (List.mem_cons_of_mem _ hx)) h
    | some r =>
      have he : resBytes (l :: ls) = resB r ++ resBytes ls := by unfold resBytes; rw [List.flatMap_cons, hl]
      rw [he, List.length_append, resB_length] at h
      obtain ⟨h1, h2⟩ := hw l (List.mem_cons_self ..) r hl
      dsimp only
      rw [if_neg (by tauto)]
      rw [show (be16 (r.width - 1) ++ be16 (r.height - 1) ++ [u8 r.framerate]) = resB r from rfl]
      rw [putB_drop pre ys _ (by rw [resB_length]; omega), Res.bind_def, Res.bind_ok]
      have := ih (pre ++ resB r) (ys.drop (resB r).length) (fun x hx => hw x (List.mem_cons_of_mem _ hx)) (by rw [List.length_drop, resB_length]; omega)
      rw [List.length_append, resB_length] at this
      rw [resB_length, this, he]
      simp only [List.append_assoc, List.length_append, List.drop_drop, resB_length, Nat.add_assoc]

/-- What `writeTail` writes when some layer is active. -/
def tailBytes (v : Alloc) : List Byte := pack4 (countsOf v.layers) ++ v.rates.flatMap encodeLeb ++ resBytes v.layers

theorem writeTail_spec (v : Alloc) (pre ys : List Byte) (hc : countsOf v.layers ≠ []) (h4 : ∀ c ∈ countsOf v.layers, c < 4)
    (hw : ∀ l ∈ v.layers, ∀ r, l.res = some r → r.width ≠ 0 ∧ r.height ≠ 0) (hl : (tailBytes v).length ≤ ys.length) :
    writeTail v (pre ++ ys) pre.length = .ok (pre ++ tailBytes v ++ ys.drop (tailBytes v).length, pre.length + (tailBytes v).length) := by
  simp only [tailBytes, List.length_append] at hl
  unfold writeTail
  have hp : 0 < (pack4 (countsOf v.layers)).length := by
    rw [pack4_length]
    have : 0 < (countsOf v.layers).length := List.length_pos_iff.2 hc
    omega
  rw [writeCounts_eq, wc_spec (countsOf v.layers) pre ys pre.length 0 h4 rfl rfl (by omega) hc, Res.bind_def, Res.bind_ok]
  dsimp only
  rw [if_pos (by have := List.length_pos_iff.2 hc; omega)]
  have e1 : pre.length + (pack4 (countsOf v.layers)).length - 1 + 1 = (pre ++ pack4 (countsOf v.layers)).length := by
    rw [List.length_append]; omega
  rw [e1, writeRates_spec v.rates (pre ++ pack4 (countsOf v.layers)) (ys.drop _) (by rw [List.length_drop]; omega), Res.bind_def, Res.bind_ok]
  dsimp only
  rw [← List.length_append]
  rw [writeRes_spec v.layers _ _ hw (by simp only [List.length_drop]; omega)]
  simp only [tailBytes, List.append_assoc, List.length_append, List.drop_drop, Nat.add_assoc]


/-! ### Bitmasks -/

open Spec

/-- Bit `i` of the mask is flag `i`. -/
def maskOf : List Bool → Nat
  | [] => 0
  | b :: bs => (if b then 1 else 0) + 2 * maskOf bs

/-- The last flag is set. -/
def Trimmed (bs : List Bool) : Prop := ∀ b, bs.getLast? = some b → b = true

theorem lower4_maskOf (bs : List Bool) (h4 : bs.length ≤ 4) (ht : Trimmed bs) : maskOf bs < 16 ∧ lower4 (maskOf bs) = bs ∧ (maskOf bs = 0 ↔ bs = []) := by
  have key : ∀ a b c d : Bool,
      (maskOf [true] < 16 ∧ lower4 (maskOf [true]) = [true] ∧ maskOf [true] ≠ 0) ∧
      (maskOf [a, true] < 16 ∧ lower4 (maskOf [a, true]) = [a, true] ∧ maskOf [a, true] ≠ 0) ∧
      (maskOf [a, b, true] < 16 ∧ lower4 (maskOf [a, b, true]) = [a, b, true] ∧ maskOf [a, b, true] ≠ 0) ∧
      (maskOf [a, b, c, true] < 16 ∧ lower4 (maskOf [a, b, c, true]) = [a, b, c, true] ∧ maskOf [a, b, c, true] ≠ 0) := by decide
  match bs, h4, ht with
  | [], _, _ => decide
  | [a], _, ht =>
    have := ht a rfl; subst this
    have := (key true true true true).1
    exact ⟨this.1, this.2.1, by simp [this.2.2]⟩
  | [a, b], _, ht =>
    have := ht b rfl; subst this
    have := (key a true true true).2.1
    exact ⟨this.1, this.2.1, by simp [this.2.2]⟩
  | [a, b, c], _, ht =>
    have := ht c rfl; subst this
    have := (key a b true true).2.2.1
    exact ⟨this.1, this.2.1, by simp [this.2.2]⟩
  | [a, b, c, d], _, ht =>
    have := ht d rfl; subst this
    have := (key a b c true).2.2.2
    exact ⟨this.1, this.2.1, by simp [this.2.2]⟩
  | _ :: _ :: _ :: _ :: _ :: _, h, _ => simp at h

theorem shape_trimmed {s : Stream} (h : StreamOk s) : Trimmed (shape s) := by
  intro b hb
  unfold shape at hb
  rw [List.getLast?_map] at hb
  cases hl : s.layers.getLast? with
  | none => rw [hl] at hb; cases hb
  | some l =>
    rw [hl] at hb
    have := h.2.2 l hl
    simp only [Option.map_some, Option.some.injEq] at hb
    rw [← hb]
    cases ht : l.temporal with
    | nil => exact absurd ht this
    | cons => rfl

theorem shape_length (s : Stream) : (shape s).length = s.layers.length := by simp [shape]

theorem mask_facts {s : Stream} (h : StreamOk s) :
    maskOf (shape s) < 16 ∧ lower4 (maskOf (shape s)) = shape s ∧ (maskOf (shape s) = 0 ↔ s.layers = []) := by
  have := lower4_maskOf (shape s) (by rw [shape_length]; exact h.1) (shape_trimmed h)
  refine ⟨this.1, this.2.1, this.2.2.trans ?_⟩
  simp [shape]

theorem streamMask_go : ∀ (ls : List Layer) (i acc : Nat), i + ls.length ≤ 8 → acc < 2 ^ i →
    streamMask ls i acc = .ok (acc + 2 ^ i * maskOf (ls.map (fun l => !l.temporal.isEmpty))) := by
  intro ls
  induction ls with
  | nil => intro i acc _ _; simp [streamMask, maskOf]
  | cons l ls ih =>
    intro i acc hi ha
    simp only [List.length_cons] at hi
    unfold streamMask
    rw [if_pos (by omega)]
    cases hl : l.temporal.isEmpty with
    | true =>
      rw [if_pos rfl, Nat.or_zero, ih (i + 1) acc (by omega) (lt_trans ha (Nat.pow_lt_pow_right (by norm_num) (by omega)))]
      simp only [List.map_cons, maskOf, hl, Bool.not_true, Bool.false_eq_true, if_false, Nat.zero_add, pow_succ]
      congr 2; ring
    | false =>
      have hor : (acc ||| 2 ^ i) = 2 ^ i + acc := by
        rw [Nat.or_comm]
        have := or_disj 1 acc i ha
        rwa [Nat.one_mul] at this
      rw [if_neg (by simp), hor, ih (i + 1) _ (by omega) (by rw [pow_succ]; omega)]
      simp only [List.map_cons, maskOf, hl, Bool.not_false, if_true, pow_succ]
      congr 1; ring

theorem streamMask_ok {s : Stream} (h : s.layers.length ≤ 4) : streamMask s.layers 0 0 = .ok (maskOf (shape s)) := by
  rw [streamMask_go s.layers 0 0 (by omega) (by norm_num)]
  simp [shape]

theorem mask_inj {s t : Stream} (hs : StreamOk s) (ht : StreamOk t) (h : maskOf (shape s) = maskOf (shape t)) : shape s = shape t := by
  rw [← (mask_facts hs).2.1, ← (mask_facts ht).2.1, h]

/-! ### Building the result -/

/-- Temporal layer counts of the active layers. -/
def lens (ls : List Layer) : List Nat := (ls.filter (fun l => !l.temporal.isEmpty)).map (fun l => l.temporal.length)

/-- No active layer without a resolution precedes one with. -/
def ResPrefix (ls : List Layer) : Prop := ls.Pairwise (fun a b => a.temporal ≠ [] → b.res ≠ none → a.res ≠ none)

theorem nextRes_some {r : Resn} (h : 1 ≤ r.width ∧ r.width ≤ 65535 ∧ 1 ≤ r.height ∧ r.height ≤ 65535 ∧ r.framerate ≤ 255) (rest : List Byte) :
    nextRes (resB r ++ rest) = .ok (some r, rest) := by
  obtain ⟨h1, h2, h3, h4, h5⟩ := h
  have e1 := rd16_be16 (n := r.width - 1) (by omega)
  have e2 := rd16_be16 (n := r.height - 1) (by omega)
  have e3 : (u8 r.framerate).val = r.framerate := u8_val_of_lt (by omega)
  show (if _ then _ else _) = _
  rw [e1, e2, if_pos (by omega), e3]
  have h6 : r.width - 1 + 1 = r.width := by omega
  have h7 : r.height - 1 + 1 = r.height := by omega
  rw [h6, h7]; rfl

theorem resBytes_cons (l : Layer) (ls : List Layer) : resBytes (l :: ls) = (match l.res with | none => [] | some r => resB r) ++ resBytes ls := by
  unfold resBytes; rw [List.flatMap_cons]

theorem resBytes_nil {ls : List Layer} (h : ∀ l ∈ ls, l.res = none) : resBytes ls = [] := by
  unfold resBytes
  rw [List.flatMap_eq_nil_iff]
  intro l hl; rw [h l hl]

theorem takeLayer_ok (l : Layer) (more : List Layer) (hl : LayerOk l) (hp : ResPrefix (l :: more)) :
    takeLayer (!l.temporal.isEmpty) ⟨lens (l :: more), (l :: more).flatMap (·.temporal), resBytes (l :: more)⟩
      = .ok (some l, ⟨lens more, more.flatMap (·.temporal), resBytes more⟩) := by
  unfold takeLayer
  cases ht : l.temporal.isEmpty with
  | true =>
    have ht' : l.temporal = [] := by simpa using ht
    have hr : l.res = none := by
      cases hr : l.res with
      | none => rfl
      | some r => exact absurd ht' (hl.2.2 r hr).1
    rw [if_neg (by simp)]
    have e1 : lens (l :: more) = lens more := by unfold lens; rw [List.filter_cons_of_neg (by simp [ht])]
    have e2 : (l :: more).flatMap (·.temporal) = more.flatMap (·.temporal) := by rw [List.flatMap_cons, ht']; rfl
    have e3 : resBytes (l :: more) = resBytes more := by rw [resBytes_cons, hr]; rfl
    rw [e1, e2, e3]
    have : l = { temporal := [], res := none } := by cases l; simp_all
    rw [← this]
  | false =>
    have ht' : l.temporal ≠ [] := by intro hc; rw [hc] at ht; simp at ht
    have e1 : lens (l :: more) = l.temporal.length :: lens more := by unfold lens; rw [List.filter_cons_of_pos (by simp [ht])]; rfl
    rw [if_pos (by simp), e1]
    dsimp only
    have e2 : nextRes (resBytes (l :: more)) = .ok (l.res, resBytes more) := by
      rw [resBytes_cons]
      cases hr : l.res with
      | some r =>
        exact nextRes_some (hl.2.2 r hr).2 _
      | none =>
        have : resBytes more = [] := resBytes_nil (fun x hx => by
          have := (List.pairwise_cons.1 hp).1 x hx ht'
          by_contra hc
          exact this hc hr)
        rw [this]; rfl
    rw [e2, Res.bind_def, Res.bind_ok]
    simp only [List.flatMap_cons, List.take_left', List.drop_left', Res.pure_def]

theorem takeLayers_ok : ∀ (ls more : List Layer), (∀ l ∈ ls, LayerOk l) → ResPrefix (ls ++ more) →
    takeLayers (ls.map (fun l => !l.temporal.isEmpty)) ⟨lens (ls ++ more), (ls ++ more).flatMap (·.temporal), resBytes (ls ++ more)⟩
      = .ok (ls, ⟨lens more, more.flatMap (·.temporal), resBytes more⟩) := by
  intro ls
  induction ls with
  | nil => intro more _ _; rfl
  | cons l ls ih =>
    intro more h hp
    rw [List.map_cons]
    unfold takeLayers
    rw [List.cons_append, takeLayer_ok l (ls ++ more) (h l (List.mem_cons_self ..)) hp, Res.bind_def, Res.bind_ok]
    dsimp only
    rw [ih more (fun x hx => h x (List.mem_cons_of_mem _ hx)) (List.pairwise_cons.1 hp).2, Res.bind_def, Res.bind_ok]
    rfl

theorem takeStreams_ok : ∀ (ss : List Stream) (more : List Layer), (∀ s ∈ ss, StreamOk s) → ResPrefix (ss.flatMap (·.layers) ++ more) →
    takeStreams (ss.map shape) ⟨lens (ss.flatMap (·.layers) ++ more), (ss.flatMap (·.layers) ++ more).flatMap (·.temporal), resBytes (ss.flatMap (·.layers) ++ more)⟩
      = .ok (ss, ⟨lens more, more.flatMap (·.temporal), resBytes more⟩) := by
  intro ss
  induction ss with
  | nil => intro more _ _; rfl
  | cons s ss ih =>
    intro more h hp
    rw [List.map_cons, List.flatMap_cons, List.append_assoc]
    rw [List.flatMap_cons, List.append_assoc] at hp
    unfold takeStreams
    rw [show shape s = s.layers.map (fun l => !l.temporal.isEmpty) from rfl]
    rw [takeLayers_ok s.layers _ (h s (List.mem_cons_self ..)).2.1 hp, Res.bind_def, Res.bind_ok]
    dsimp only
    rw [ih more (fun x hx => h x (List.mem_cons_of_mem _ hx)) (List.pairwise_append.1 hp).2.1, Res.bind_def, Res.bind_ok]
    rfl

theorem resPrefix_of (v : Alloc) (h : ResAllOrNone v) : ResPrefix v.layers := by
  unfold ResPrefix Alloc.layers
  rw [List.pairwise_iff_forall_sublist]
  intro a b hab ha hb
  have hma : a ∈ v.streams.flatMap (·.layers) := hab.subset (by simp)
  have hmb : b ∈ v.streams.flatMap (·.layers) := hab.subset (by simp)
  rw [List.mem_flatMap] at hma hmb
  obtain ⟨s, hs, hsa⟩ := hma
  obtain ⟨t, ht, htb⟩ := hmb
  rcases h with h | h
  · exact h s hs a hsa ha
  · exact absurd (h t ht b htb) hb

theorem lens_eq (ls : List Layer) : (countsOf ls).map (fun c => c + 1) = lens ls := by
  unfold countsOf lens
  rw [List.map_map]
  apply List.map_congr_left
  intro l hl
  have : l.temporal ≠ [] := by
    intro hc
    have := (List.mem_filter.1 hl).2
    rw [hc] at this; simp at this
  have := List.length_pos_iff.2 this
  simp only [Function.comp]; omega

theorem lens_sum : ∀ ls : List Layer, (lens ls).sum = (ls.flatMap (·.temporal)).length := by
  intro ls
  induction ls with
  | nil => rfl
  | cons l ls ih =>
    rw [List.flatMap_cons, List.length_append, ← ih]
    unfold lens
    cases ht : l.temporal.isEmpty with
    | true =>
      rw [List.filter_cons_of_neg (by simp [ht])]
      have : l.temporal = [] := by simpa using ht
      rw [this]; simp
    | false => rw [List.filter_cons_of_pos (by simp [ht])]; simp

theorem total_eq (ss : List Stream) : ((ss.map shape).flatten.filter (fun a => a)).length = (countsOf (ss.flatMap (·.layers))).length := by
  unfold countsOf
  rw [List.length_map]
  induction ss with
  | nil => rfl
  | cons s ss ih =>
    rw [List.map_cons, List.flatten_cons, List.filter_append, List.length_append, ih, List.flatMap_cons, List.filter_append, List.length_append]
    congr 1
    unfold shape
    rw [List.filter_map, List.length_map]
    rfl

theorem divRoundUp_pack (l : List Nat) : divRoundUp l.length 4 = (pack4 l).length := by
  rw [pack4_length]; unfold divRoundUp; split <;> omega

theorem countsOf_lt {ls : List Layer} (h : ∀ l ∈ ls, LayerOk l) : ∀ c ∈ countsOf ls, c < 4 := by
  intro c hc
  unfold countsOf at hc
  rw [List.mem_map] at hc
  obtain ⟨l, hl, rfl⟩ := hc
  have := (h l (List.mem_filter.1 hl).1).1
  omega

theorem layers_ok {v : Alloc} (h : ∀ s ∈ v.streams, StreamOk s) : ∀ l ∈ v.layers, LayerOk l := by
  intro l hl
  unfold Alloc.layers at hl
  rw [List.mem_flatMap] at hl
  obtain ⟨s, hs, hsl⟩ := hl
  exact (h s hs).2.1 l hsl

theorem parseTail_ok (v : Alloc) (h : ∀ s ∈ v.streams, StreamOk s) (hr : ResAllOrNone v) :
    parseTail v.current (v.streams.map shape) (tailBytes v) = .ok v := by
  unfold parseTail
  have hok := layers_ok h
  have hlt := countsOf_lt hok
  dsimp only
  rw [total_eq]
  rw [show v.streams.flatMap (·.layers) = v.layers from rfl, divRoundUp_pack]
  have hs : splitAt? (tailBytes v) (pack4 (countsOf v.layers)).length
      = .ok (pack4 (countsOf v.layers), v.rates.flatMap encodeLeb ++ resBytes v.layers) := by
    unfold splitAt? tailBytes
    rw [if_neg (by simp)]
    rw [List.append_assoc, List.take_left' rfl, List.drop_left' rfl]
  rw [hs, Res.bind_def, Res.bind_ok]
  dsimp only
  rw [← List.map_take, unpack4 _ hlt, lens_eq, lens_sum]
  have hrate : ∀ r ∈ v.rates, r < 2 ^ 63 := by
    intro r hr
    unfold Alloc.rates at hr
    rw [List.mem_flatMap] at hr
    obtain ⟨l, hl, hlr⟩ := hr
    exact (hok l hl).2.1 r hlr
  rw [show v.layers.flatMap (·.temporal) = v.rates from rfl, parseLebs_encode _ _ hrate]
  dsimp only
  rw [if_neg (by
    rw [List.any_eq_true]
    rintro ⟨x, hx, hc⟩
    have := hrate x hx
    rw [decide_eq_true_eq] at hc
    omega)]
  have := takeStreams_ok v.streams [] h (by rw [List.append_nil]; exact resPrefix_of v hr)
  rw [List.append_nil] at this
  rw [show (⟨lens v.layers, v.rates, resBytes v.layers⟩ : Queues) = ⟨lens (v.streams.flatMap (·.layers)), (v.streams.flatMap (·.layers)).flatMap (·.temporal), resBytes (v.streams.flatMap (·.layers))⟩ from rfl]
  rw [this, Res.bind_def, Res.bind_ok]
  rfl

theorem tailBytes_empty {v : Alloc} (h : ∀ s ∈ v.streams, s.layers = []) : tailBytes v = [] ∧ v.layers = [] := by
  have hl : v.layers = [] := by
    unfold Alloc.layers; rw [List.flatMap_eq_nil_iff]; exact h
  refine ⟨?_, hl⟩
  unfold tailBytes Alloc.rates
  rw [hl]; rfl

end Str0m.Vla
