import Verif.Proofs.Vla
/-
  C44: LEB128 and the video layers allocation extension.
-/
namespace Str0m.Vla

open Spec

/-- The header byte. -/
def hdr (v : Alloc) (m : Nat) : Byte := u8 (v.current * 64 + (v.streams.length - 1) * 16 + m)

theorem hdr_bits (v : Alloc) (m : Nat) (h : Representable v) (hm : m < 16) :
    readBits (hdr v m) 0 2 = v.current ∧ readBits (hdr v m) 2 4 + 1 = v.streams.length ∧ readBits (hdr v m) 4 8 = m := by
  obtain ⟨h1, h2, h3, _⟩ := h
  have hu : (hdr v m).val = v.current * 64 + (v.streams.length - 1) * 16 + m := u8_val_of_lt (by omega)
  simp only [readBits, hu]
  norm_num
  omega

/-- The steps of `write` after the first byte's index and count are in place. -/
def writeRest (v : Alloc) (buf : List Byte) : Res Unit (List Byte × Nat) := do
  let masks ← streamMasks v.streams 0 [0, 0, 0, 0]
  let used ← Res.upto masks v.streams.length
  if used.all (fun m => m == masks.headD 0) then do
    let buf ← orB buf 0 (masks.headD 0 % 16)
    writeTail v buf 1
  else do
    let w ← writeMasks used 0 buf 0
    if v.streams.length % 2 ≠ 0 then do
      let buf ← orB w.1 w.2 15
      writeTail v buf (w.2 + 1)
    else writeTail v w.1 (w.2 + 1)

theorem orB_head (x : Byte) (post : List Byte) (v : Nat) : orB (x :: post) 0 v = .ok (u8 (x.val ||| v) :: post) := orB_at [] post x v

theorem write_eq (v : Alloc) (h : Representable v) (x : Byte) (post : List Byte) : write v (x :: post) = writeRest v (hdr v 0 :: post) := by
  obtain ⟨h1, h2, h3, _⟩ := h
  unfold write
  rw [show setB (x :: post) 0 0 = .ok (0 :: post) from setB_at [] post x 0, Res.bind_def, Res.bind_ok]
  rw [if_neg (by rintro ⟨_, hc⟩; rw [hc] at h2; simp at h2)]
  rw [orB_head, Res.bind_def, Res.bind_ok, if_neg (by omega), orB_head, Res.bind_def, Res.bind_ok]
  have e : u8 ((u8 ((0 : Byte).val ||| (v.current % 4 * 64))).val ||| ((v.streams.length - 1) % 4 * 16)) = hdr v 0 := by
    have e1 : ((0 : Byte).val ||| (v.current % 4 * 64)) = v.current * 64 := by simp; omega
    rw [e1, u8_val_of_lt (by omega)]
    have e2 : v.current * 64 ||| (v.streams.length - 1) % 4 * 16 = v.current * 64 + (v.streams.length - 1) % 4 * 16 :=
      or_disj v.current _ 6 (by omega)
    rw [e2]
    unfold hdr
    congr 1
    omega
  rw [e]
  rfl

theorem hdr_or (v : Alloc) (m : Nat) (h : Representable v) (hm : m < 16) : u8 ((hdr v 0).val ||| m) = hdr v m := by
  obtain ⟨h1, h2, h3, _⟩ := h
  have hu : (hdr v 0).val = v.current * 64 + (v.streams.length - 1) * 16 := u8_val_of_lt (by omega)
  rw [hu]
  have : v.current * 64 + (v.streams.length - 1) * 16 = (v.current * 4 + (v.streams.length - 1)) * 2 ^ 4 := by ring
  unfold hdr
  rw [this, or_disj _ m 4 hm]

/-- The masks of the streams. -/
def masksOf (v : Alloc) : List Nat := v.streams.map (fun s => maskOf (shape s))

theorem masks_eq (v : Alloc) (h : Representable v) :
    ∃ masks, streamMasks v.streams 0 [0, 0, 0, 0] = .ok masks ∧ Res.upto masks v.streams.length = (.ok (masksOf v) : Res Unit _)
      ∧ masks.headD 0 = (masksOf v).headD 0 := by
  obtain ⟨h1, h2, h3, h4, _⟩ := h
  unfold masksOf
  match hs : v.streams, h2, h3, h4 with
  | [a], _, _, h4 =>
    refine ⟨[maskOf (shape a), 0, 0, 0], by unfold streamMasks; rw [streamMask_ok (h4 a (by simp)).1]; exact rfl, rfl, rfl⟩
  | [a, b], _, _, h4 =>
    refine ⟨[maskOf (shape a), maskOf (shape b), 0, 0], by
      unfold streamMasks; rw [streamMask_ok (h4 a (by simp)).1]
      show streamMasks [b] 1 _ = _
      unfold streamMasks; rw [streamMask_ok (h4 b (by simp)).1]; exact rfl, rfl, rfl⟩
  | [a, b, c], _, _, h4 =>
    refine ⟨[maskOf (shape a), maskOf (shape b), maskOf (shape c), 0], by
      unfold streamMasks; rw [streamMask_ok (h4 a (by simp)).1]
      show streamMasks [b, c] 1 _ = _
      unfold streamMasks; rw [streamMask_ok (h4 b (by simp)).1]
      show streamMasks [c] 2 _ = _
      unfold streamMasks; rw [streamMask_ok (h4 c (by simp)).1]; exact rfl, rfl, rfl⟩
  | [a, b, c, d], _, _, h4 =>
    refine ⟨[maskOf (shape a), maskOf (shape b), maskOf (shape c), maskOf (shape d)], by
      unfold streamMasks; rw [streamMask_ok (h4 a (by simp)).1]
      show streamMasks [b, c, d] 1 _ = _
      unfold streamMasks; rw [streamMask_ok (h4 b (by simp)).1]
      show streamMasks [c, d] 2 _ = _
      unfold streamMasks; rw [streamMask_ok (h4 c (by simp)).1]
      show streamMasks [d] 3 _ = _
      unfold streamMasks; rw [streamMask_ok (h4 d (by simp)).1]; exact rfl, rfl, rfl⟩
  | _ :: _ :: _ :: _ :: _ :: _, _, h, _ => simp at h

theorem res_nonzero {v : Alloc} (h : ∀ s ∈ v.streams, StreamOk s) : ∀ l ∈ v.layers, ∀ r, l.res = some r → r.width ≠ 0 ∧ r.height ≠ 0 := by
  intro l hl r hr
  have := (layers_ok h l hl).2.2 r hr
  omega

theorem countsOf_ne {v : Alloc} (h : ∀ s ∈ v.streams, StreamOk s) (ha : ∃ s ∈ v.streams, s.layers ≠ []) : countsOf v.layers ≠ [] := by
  obtain ⟨s, hs, hl⟩ := ha
  have hlast := (h s hs).2.2 _ (List.getLast?_eq_getLast_of_ne_nil hl)
  intro hc
  unfold countsOf at hc
  rw [List.map_eq_nil_iff, List.filter_eq_nil_iff] at hc
  have := hc (s.layers.getLast hl) (by
    unfold Alloc.layers
    exact List.mem_flatMap.2 ⟨s, hs, List.getLast_mem hl⟩)
  apply this
  cases ht : (s.layers.getLast hl).temporal with
  | nil => exact absurd ht hlast
  | cons => rfl

/-- `b` written at the front of the buffer. -/
def Wrote (r : Res Unit (List Byte × Nat)) (buf bytes : List Byte) : Prop := r = .ok (bytes ++ buf.drop bytes.length, bytes.length)

theorem write_shared (v : Alloc) (h : Representable v) (hs : SameLayers v) (buf : List Byte) :
    ∃ m, 0 < m ∧ m < 16 ∧ (∀ s ∈ v.streams, shape s = lower4 m) ∧
      ((hdr v m :: tailBytes v).length ≤ buf.length → Wrote (write v buf) buf (hdr v m :: tailBytes v)) := by
  obtain ⟨sh, hne, hsh⟩ := hs
  obtain ⟨masks, e1, e2, e3⟩ := masks_eq v h
  have h' := h
  obtain ⟨h1, h2, h3, h4, _⟩ := h'
  obtain ⟨s, hs⟩ : ∃ s, s ∈ v.streams := List.exists_mem_of_length_pos (by omega)
  have hf := mask_facts (h4 s hs)
  rw [hsh s hs] at hf
  have hpos : 0 < maskOf sh := by
    rcases Nat.eq_zero_or_pos (maskOf sh) with h0 | h0
    · have := hf.2.2.1 h0
      have := hsh s hs
      unfold shape at this; simp_all
    · exact h0
  refine ⟨maskOf sh, hpos, hf.1, fun t ht => by rw [hsh t ht, hf.2.1], fun hl => ?_⟩
  cases buf with
  | nil => simp at hl
  | cons x post =>
    unfold Wrote
    rw [write_eq v h]
    unfold writeRest
    rw [e1, Res.bind_def, Res.bind_ok, e2, Res.bind_def, Res.bind_ok]
    have hall : ∀ m ∈ masksOf v, m = maskOf sh := by
      intro m hm
      unfold masksOf at hm
      rw [List.mem_map] at hm
      obtain ⟨t, ht, rfl⟩ := hm
      rw [hsh t ht]
    have hhead : (masksOf v).headD 0 = maskOf sh := by
      cases hv : masksOf v with
      | nil => unfold masksOf at hv; rw [List.map_eq_nil_iff] at hv; rw [hv] at hs; cases hs
      | cons a l => rw [List.headD_cons]; exact hall a (by rw [hv]; simp)
    rw [e3, hhead]
    rw [if_pos (by rw [List.all_eq_true]; intro m hm; rw [hall m hm]; simp)]
    rw [Nat.mod_eq_of_lt hf.1, orB_head, Res.bind_def, Res.bind_ok, hdr_or v _ h hf.1]
    have := writeTail_spec v [hdr v (maskOf sh)] post (countsOf_ne h4 ⟨s, hs, by
      intro hc
      have := hsh s hs
      unfold shape at this; rw [hc] at this; exact hne this.symm⟩) (countsOf_lt (layers_ok h4)) (res_nonzero h4) (by simpa using hl)
    rw [show [hdr v (maskOf sh)].length = 1 from rfl, List.singleton_append] at this
    rw [this]
    simp only [List.singleton_append, List.length_cons, List.drop_succ_cons]
    rw [Nat.add_comm]

theorem write_empty (v : Alloc) (h : Representable v) (hz : ∀ s ∈ v.streams, s.layers = []) (buf : List Byte) (hl : 2 ≤ buf.length) :
    Wrote (write v buf) buf [hdr v 0, 0] := by
  obtain ⟨masks, e1, e2, e3⟩ := masks_eq v h
  match buf, hl with
  | x :: y :: post, _ =>
    unfold Wrote
    rw [write_eq v h]
    unfold writeRest
    rw [e1, Res.bind_def, Res.bind_ok, e2, Res.bind_def, Res.bind_ok]
    have hall : ∀ m ∈ masksOf v, m = 0 := by
      intro m hm
      unfold masksOf at hm
      rw [List.mem_map] at hm
      obtain ⟨t, ht, rfl⟩ := hm
      unfold shape; rw [hz t ht]; rfl
    have hhead : (masksOf v).headD 0 = 0 := by
      cases hv : masksOf v with
      | nil => rfl
      | cons a l => rw [List.headD_cons]; exact hall a (by rw [hv]; simp)
    rw [e3, hhead]
    rw [if_pos (by rw [List.all_eq_true]; intro m hm; rw [hall m hm]; simp)]
    rw [Nat.zero_mod, orB_head, Res.bind_def, Res.bind_ok, hdr_or v _ h (by norm_num)]
    unfold writeTail
    rw [(tailBytes_empty hz).2]
    show (do let buf ← setB (hdr v 0 :: y :: post) 1 0; pure (buf, 2)) = _
    have := setB_at [hdr v 0] post y 0
    rw [show [hdr v 0].length = 1 from rfl, List.singleton_append] at this
    rw [this]; rfl

/-- The extra bytes with one bitmask per stream. -/
def maskBytes (m0 m1 n : Nat) : List Byte :=
  u8 (m0 * 16 + m1) :: (if n = 2 then [] else if n = 3 then [15] else [0])

theorem writeMasks2 (m0 m1 : Nat) (h0 : m0 < 16) (h1 : m1 < 16) (ms : List Nat) (H y : Byte) (post : List Byte) :
    writeMasks (m0 :: m1 :: ms) 0 (H :: y :: post) 0 = writeMasks ms 2 (H :: u8 (m0 * 16 + m1) :: post) 1 := by
  have s1 := setB_at [H] post y 0
  have s2 := orB_at [H] post 0 (m0 % 16 * 16)
  have s3 := orB_at [H] post (u8 ((0 : Byte).val ||| m0 % 16 * 16)) (m1 % 16)
  simp only [List.length_singleton, List.singleton_append] at s1 s2 s3
  show (do let buf ← setB (H :: y :: post) 1 0; let buf ← orB buf 1 (m0 % 16 * 16); writeMasks (m1 :: ms) 1 buf 1) = _
  rw [s1, Res.bind_def, Res.bind_ok, s2, Res.bind_def, Res.bind_ok]
  show (do let buf ← orB (H :: u8 ((0 : Byte).val ||| m0 % 16 * 16) :: post) 1 (m1 % 16); writeMasks ms 2 buf 1) = _
  rw [s3, Res.bind_def, Res.bind_ok]
  have e1 : ((0 : Byte).val ||| m0 % 16 * 16) = m0 * 16 := by simp; omega
  rw [e1, u8_val_of_lt (by omega), Nat.mod_eq_of_lt h1]
  have : (m0 * 16 ||| m1) = m0 * 16 + m1 := or_disj m0 m1 4 h1
  rw [this]

theorem u8_or_zero (y : Byte) : u8 (y.val ||| 0) = y := by simp

theorem write_two (v : Alloc) (h : Representable v) (ho : OnlyFirstTwo v) (hd : ¬ SameLayers v) (hn : 2 ≤ v.streams.length) (buf : List Byte) :
    ∃ m0 m1, m0 < 16 ∧ m1 < 16 ∧ v.streams.map shape = ([lower4 m0, lower4 m1, [], []]).take v.streams.length ∧
      ((hdr v 0 :: maskBytes m0 m1 v.streams.length ++ tailBytes v).length ≤ buf.length →
        Wrote (write v buf) buf (hdr v 0 :: maskBytes m0 m1 v.streams.length ++ tailBytes v)) := by
  obtain ⟨masks, e1, e2, e3⟩ := masks_eq v h
  have h' := h
  obtain ⟨h1, h2, h3, h4, _⟩ := h'
  obtain ⟨⟨s, hs2, hsl⟩, hrest⟩ := ho
  have hs : s ∈ v.streams := List.mem_of_mem_take hs2
  have hcne := countsOf_ne h4 ⟨s, hs, hsl⟩
  have htail : 0 < (tailBytes v).length := by
    unfold tailBytes
    simp only [List.length_append, pack4_length]
    have := List.length_pos_iff.2 hcne
    omega
  have htw : ∀ (pre ys : List Byte), (tailBytes v).length ≤ ys.length → _ := fun pre ys hh =>
    writeTail_spec v pre ys hcne (countsOf_lt (layers_ok h4)) (res_nonzero h4) hh
  -- not all masks agree
  have hnall : ¬ ((masksOf v).all (fun m => m == (masksOf v).headD 0) = true) := by
    intro hc
    rw [List.all_eq_true] at hc
    apply hd
    refine ⟨shape s, by unfold shape; simpa using hsl, fun t ht => ?_⟩
    have a := hc (maskOf (shape t)) (List.mem_map.2 ⟨t, ht, rfl⟩)
    have b := hc (maskOf (shape s)) (List.mem_map.2 ⟨s, hs, rfl⟩)
    rw [beq_iff_eq] at a b
    exact mask_inj (h4 t ht) (h4 s hs) (a.trans b.symm)
  have hw : ∀ x post, write v (x :: post) = _ := fun x post => write_eq v h x post
  have hem : ∀ t : Stream, t.layers = [] → shape t = [] ∧ maskOf (shape t) = 0 := by
    intro t ht; unfold shape; rw [ht]; exact ⟨rfl, rfl⟩
  match hv : v.streams, hn, h3 with
  | [a, b], _, _ =>
    have hma := mask_facts (h4 a (by simp [hv]))
    have hmb := mask_facts (h4 b (by simp [hv]))
    have hmk : masksOf v = [maskOf (shape a), maskOf (shape b)] := by unfold masksOf; rw [hv]; rfl
    refine ⟨maskOf (shape a), maskOf (shape b), hma.1, hmb.1, by simp [hma.2.1, hmb.2.1], fun hl => ?_⟩
    simp only [maskBytes, List.length_cons, List.length_nil, List.cons_append, if_pos, List.nil_append] at hl ⊢
    match buf, hl with
    | x :: y :: post, hl =>
      unfold Wrote
      rw [hw]
      unfold writeRest
      rw [e1, Res.bind_def, Res.bind_ok, e2, Res.bind_def, Res.bind_ok, e3, if_neg hnall, hmk]
      rw [writeMasks2 _ _ hma.1 hmb.1]
      rw [show writeMasks [] 2 (hdr v 0 :: u8 (maskOf (shape a) * 16 + maskOf (shape b)) :: post) 1 = .ok (_, 1) from rfl, Res.bind_def, Res.bind_ok]
      rw [if_neg (by rw [hv]; simp)]
      have := htw [hdr v 0, u8 (maskOf (shape a) * 16 + maskOf (shape b))] post (by simp at hl; omega)
      simp only [List.length_cons, List.length_nil, List.cons_append, List.nil_append] at this
      dsimp only
      rw [this]
      simp only [List.length_cons, List.drop_succ_cons, Nat.zero_add]
      congr 2; omega
    | [], hl => simp at hl
    | [_], hl => simp at hl
  | [a, b, c], _, _ =>
    have hma := mask_facts (h4 a (by simp [hv]))
    have hmb := mask_facts (h4 b (by simp [hv]))
    have hc0 := hem c (hrest c (by rw [hv]; simp))
    have hmk : masksOf v = [maskOf (shape a), maskOf (shape b), 0] := by unfold masksOf; rw [hv, ← hc0.2]; rfl
    refine ⟨maskOf (shape a), maskOf (shape b), hma.1, hmb.1, by simp [hma.2.1, hmb.2.1, hc0.1], fun hl => ?_⟩
    have hmb' : maskBytes (maskOf (shape a)) (maskOf (shape b)) [a, b, c].length = [u8 (maskOf (shape a) * 16 + maskOf (shape b)), 15] := rfl
    rw [hmb'] at hl ⊢
    simp only [List.length_cons, List.length_nil, List.cons_append, List.nil_append] at hl ⊢
    match buf, hl with
    | x :: y :: z :: w :: post, hl =>
      unfold Wrote
      rw [hw]
      unfold writeRest
      rw [e1, Res.bind_def, Res.bind_ok, e2, Res.bind_def, Res.bind_ok, e3, if_neg hnall, hmk]
      rw [writeMasks2 _ _ hma.1 hmb.1]
      have s1 := setB_at [hdr v 0, u8 (maskOf (shape a) * 16 + maskOf (shape b))] (w :: post) z 0
      have s2 := orB_at [hdr v 0, u8 (maskOf (shape a) * 16 + maskOf (shape b)), 0] post w 0
      have s3 := orB_at [hdr v 0, u8 (maskOf (shape a) * 16 + maskOf (shape b))] (w :: post) 0 15
      simp only [List.length_cons, List.length_nil, List.cons_append, List.nil_append, u8_or_zero] at s1 s2 s3
      have hwm : writeMasks [0] 2 (hdr v 0 :: u8 (maskOf (shape a) * 16 + maskOf (shape b)) :: z :: w :: post) 1
          = .ok (hdr v 0 :: u8 (maskOf (shape a) * 16 + maskOf (shape b)) :: 0 :: w :: post, 2) := by
        show (do let buf ← setB (hdr v 0 :: u8 (maskOf (shape a) * 16 + maskOf (shape b)) :: z :: w :: post) 2 0; let buf ← orB buf 3 0; writeMasks [] 3 buf 2) = _
        rw [s1, Res.bind_def, Res.bind_ok, s2]; rfl
      rw [hwm, Res.bind_def, Res.bind_ok, if_pos (by rw [hv]; simp)]
      dsimp only
      rw [s3, Res.bind_def, Res.bind_ok]
      have := htw [hdr v 0, u8 (maskOf (shape a) * 16 + maskOf (shape b)), 15] (w :: post) (by simp at hl ⊢; omega)
      simp only [List.length_cons, List.length_nil, List.cons_append, List.nil_append] at this
      rw [show u8 ((0 : Byte).val ||| 15) = 15 from by decide]
      rw [this]
      simp only [List.length_cons, List.drop_succ_cons, Nat.zero_add]
      congr 2; omega
    | [], hl => simp at hl
    | [_], hl => simp at hl
    | [_, _], hl => simp at hl
    | [_, _, _], hl => simp only [List.length_cons, List.length_nil] at hl; omega
  | [a, b, c, d], _, _ =>
    have hma := mask_facts (h4 a (by simp [hv]))
    have hmb := mask_facts (h4 b (by simp [hv]))
    have hc0 := hem c (hrest c (by rw [hv]; simp))
    have hd0 := hem d (hrest d (by rw [hv]; simp))
    have hmk : masksOf v = [maskOf (shape a), maskOf (shape b), 0, 0] := by
      unfold masksOf; rw [hv]
      simp only [List.map_cons, List.map_nil, hc0.2, hd0.2]
    refine ⟨maskOf (shape a), maskOf (shape b), hma.1, hmb.1, by simp [hma.2.1, hmb.2.1, hc0.1, hd0.1], fun hl => ?_⟩
    have hmb' : maskBytes (maskOf (shape a)) (maskOf (shape b)) [a, b, c, d].length = [u8 (maskOf (shape a) * 16 + maskOf (shape b)), 0] := rfl
    rw [hmb'] at hl ⊢
    simp only [List.length_cons, List.length_nil, List.cons_append, List.nil_append] at hl ⊢
    match buf, hl with
    | x :: y :: z :: w :: post, hl =>
      unfold Wrote
      rw [hw]
      unfold writeRest
      rw [e1, Res.bind_def, Res.bind_ok, e2, Res.bind_def, Res.bind_ok, e3, if_neg hnall, hmk]
      rw [writeMasks2 _ _ hma.1 hmb.1]
      have s1 := setB_at [hdr v 0, u8 (maskOf (shape a) * 16 + maskOf (shape b))] (w :: post) z 0
      have s2 := orB_at [hdr v 0, u8 (maskOf (shape a) * 16 + maskOf (shape b)), 0] post w 0
      simp only [List.length_cons, List.length_nil, List.cons_append, List.nil_append, u8_or_zero] at s1 s2
      have hwm : writeMasks [0, 0] 2 (hdr v 0 :: u8 (maskOf (shape a) * 16 + maskOf (shape b)) :: z :: w :: post) 1
          = .ok (hdr v 0 :: u8 (maskOf (shape a) * 16 + maskOf (shape b)) :: 0 :: w :: post, 2) := by
        show (do let buf ← setB (hdr v 0 :: u8 (maskOf (shape a) * 16 + maskOf (shape b)) :: z :: w :: post) 2 0; let buf ← orB buf 3 0; writeMasks [0] 3 buf 2) = _
        rw [s1, Res.bind_def, Res.bind_ok, s2, Res.bind_def, Res.bind_ok]
        show (do let buf ← orB (hdr v 0 :: u8 (maskOf (shape a) * 16 + maskOf (shape b)) :: 0 :: w :: post) 3 0; writeMasks [] 4 buf 2) = _
        rw [s2]; rfl
      rw [hwm, Res.bind_def, Res.bind_ok, if_neg (by rw [hv]; simp)]
      dsimp only
      have := htw [hdr v 0, u8 (maskOf (shape a) * 16 + maskOf (shape b)), 0] (w :: post) (by simp at hl ⊢; omega)
      simp only [List.length_cons, List.length_nil, List.cons_append, List.nil_append] at this
      rw [this]
      simp only [List.length_cons, List.drop_succ_cons, Nat.zero_add]
      congr 2; omega
    | [], hl => simp at hl
    | [_], hl => simp at hl
    | [_, _], hl => simp at hl
    | [_, _, _], hl => simp only [List.length_cons, List.length_nil] at hl; omega
  | _ :: _ :: _ :: _ :: _ :: _, _, h => simp at h

/-! ### Parsing what was written -/

theorem parse_cons (b0 : Byte) (after : List Byte) (h : ¬ (b0 = 0 ∧ after = [])) :
    parse (b0 :: after) = (do
      let m ← parseMasks (readBits b0 2 4 + 1) (readBits b0 4 8) after
      parseTail (readBits b0 0 2) m.1 m.2) := by
  show (if _ then _ else _) = _
  rw [if_neg h]

theorem parse_shared (v : Alloc) (h : Representable v) (m : Nat) (hm : 0 < m) (hm16 : m < 16) (hs : ∀ s ∈ v.streams, shape s = lower4 m) :
    parse (hdr v m :: tailBytes v) = .ok v := by
  obtain ⟨b1, b2, b3⟩ := hdr_bits v m h hm16
  rw [parse_cons _ _ (by
    rintro ⟨hc, _⟩
    rw [hc] at b3
    have : readBits 0 4 8 = 0 := by decide
    omega), b1, b2, b3]
  unfold parseMasks
  rw [if_pos hm, Res.bind_def, Res.bind_ok]
  have : List.replicate v.streams.length (lower4 m) = v.streams.map shape := by
    symm; rw [List.eq_replicate_iff]
    refine ⟨by simp, fun b hb => ?_⟩
    rw [List.mem_map] at hb
    obtain ⟨s, hsm, rfl⟩ := hb
    exact hs s hsm
  dsimp only
  rw [this, parseTail_ok v h.2.2.2.1 h.2.2.2.2]

theorem splitIn2_val (a b : Nat) (ha : a < 16) (hb : b < 16) : splitIn2 (u8 (a * 16 + b)) = [a, b] := by
  have hu : (u8 (a * 16 + b)).val = a * 16 + b := u8_val_of_lt (by omega)
  simp only [splitIn2, readBits, hu]
  norm_num
  omega

theorem parse_two (v : Alloc) (h : Representable v) (m0 m1 : Nat) (h0 : m0 < 16) (h1 : m1 < 16) (hn : 2 ≤ v.streams.length)
    (hs : v.streams.map shape = ([lower4 m0, lower4 m1, [], []]).take v.streams.length) :
    parse (hdr v 0 :: maskBytes m0 m1 v.streams.length ++ tailBytes v) = .ok v := by
  obtain ⟨b1, b2, b3⟩ := hdr_bits v 0 h (by norm_num)
  rw [List.cons_append, parse_cons _ _ (by rintro ⟨_, hc⟩; simp [maskBytes] at hc), b1, b2, b3]
  unfold parseMasks
  rw [if_neg (by omega)]
  have hlen : divRoundUp v.streams.length 2 = (maskBytes m0 m1 v.streams.length).length := by
    have h3 := h.2.2.1
    have : v.streams.length = 2 ∨ v.streams.length = 3 ∨ v.streams.length = 4 := by omega
    rcases this with h | h | h <;> rw [h] <;> rfl
  have hsp : splitAt? (maskBytes m0 m1 v.streams.length ++ tailBytes v) (divRoundUp v.streams.length 2) = .ok (maskBytes m0 m1 v.streams.length, tailBytes v) := by
    rw [hlen]
    unfold splitAt?
    rw [if_neg (by simp), List.take_left' rfl, List.drop_left' rfl]
  rw [hsp]; simp only [Res.bind_def, Res.bind_ok, Res.pure_def]
  have hmap : (((maskBytes m0 m1 v.streams.length).flatMap splitIn2).take v.streams.length).map lower4 = v.streams.map shape := by
    rw [hs]
    have h3 := h.2.2.1
    have hsplit := splitIn2_val m0 m1 h0 h1
    have e15 : splitIn2 15 = [0, 15] := by decide
    have e0 : splitIn2 0 = [0, 0] := by decide
    have l0 : lower4 0 = [] := by decide
    have : v.streams.length = 2 ∨ v.streams.length = 3 ∨ v.streams.length = 4 := by omega
    rcases this with h | h | h <;> rw [h]
    · rw [show maskBytes m0 m1 2 = [u8 (m0 * 16 + m1)] from rfl]; simp [hsplit]
    · rw [show maskBytes m0 m1 3 = [u8 (m0 * 16 + m1), 15] from rfl]; simp [hsplit, e15, l0]
    · rw [show maskBytes m0 m1 4 = [u8 (m0 * 16 + m1), 0] from rfl]; simp [hsplit, e0, l0]
  rw [hmap, parseTail_ok v h.2.2.2.1 h.2.2.2.2]

theorem parse_empty (v : Alloc) (h : Representable v) (hz : ∀ s ∈ v.streams, s.layers = []) (hn : v.streams.length ≤ 2) :
    parse [hdr v 0, 0] = .ok v := by
  obtain ⟨b1, b2, b3⟩ := hdr_bits v 0 h (by norm_num)
  rw [parse_cons _ _ (by rintro ⟨_, hc⟩; cases hc), b1, b2, b3]
  unfold parseMasks
  rw [if_neg (by omega)]
  have h2 := h.2.1
  have hsp : splitAt? [0] (divRoundUp v.streams.length 2) = (.ok ([0], tailBytes v) : Res Unit _) := by
    rw [(tailBytes_empty hz).1]
    have : v.streams.length = 1 ∨ v.streams.length = 2 := by omega
    rcases this with h | h <;> rw [h] <;> rfl
  rw [hsp]; simp only [Res.bind_def, Res.bind_ok, Res.pure_def]
  have hmap : ((([0] : List Byte).flatMap splitIn2).take v.streams.length).map lower4 = v.streams.map shape := by
    have e0 : splitIn2 0 = [0, 0] := by decide
    have l0 : lower4 0 = [] := by decide
    have : v.streams.map shape = List.replicate v.streams.length [] := by
      rw [List.eq_replicate_iff]
      refine ⟨by simp, fun b hb => ?_⟩
      rw [List.mem_map] at hb
      obtain ⟨s, hsm, rfl⟩ := hb
      unfold shape; rw [hz s hsm]; rfl
    rw [this]
    have : v.streams.length = 1 ∨ v.streams.length = 2 := by omega
    rcases this with h | h <;> rw [h] <;> simp [e0, l0]
  rw [hmap, parseTail_ok v h.2.2.2.1 h.2.2.2.2]

/-! ### Size -/

theorem encodeLeb_length {r : Nat} (h : r < 2 ^ 63) : (encodeLeb r).length ≤ 9 :=
  encodeLebGo_length 10 r 9 (lt_of_lt_of_le h (by norm_num)) (by omega)

theorem rates_length : ∀ rs : List Nat, (∀ r ∈ rs, r < 2 ^ 63) → (rs.flatMap encodeLeb).length ≤ 9 * rs.length := by
  intro rs
  induction rs with
  | nil => intro _; simp
  | cons r rs ih =>
    intro h
    have := encodeLeb_length (h r (List.mem_cons_self ..))
    have := ih (fun x hx => h x (List.mem_cons_of_mem _ hx))
    simp only [List.flatMap_cons, List.length_append, List.length_cons]
    omega

theorem resBytes_length : ∀ ls : List Layer, (resBytes ls).length ≤ 5 * ls.length := by
  intro ls
  induction ls with
  | nil => simp [resBytes]
  | cons l ls ih =>
    rw [resBytes_cons, List.length_append, List.length_cons]
    cases l.res with
    | none => simp only [List.length_nil]; omega
    | some r => simp only [resB_length]; omega

theorem tail_length (v : Alloc) (h : Representable v) : (tailBytes v).length ≤ sizeBound v - 3 := by
  obtain ⟨_, _, h3, h4, _⟩ := h
  have hl : v.layers.length ≤ 16 := by
    unfold Alloc.layers
    have : ∀ ss : List Stream, (∀ s ∈ ss, s.layers.length ≤ 4) → (ss.flatMap (·.layers)).length ≤ 4 * ss.length := by
      intro ss
      induction ss with
      | nil => intro _; simp
      | cons s ss ih =>
        intro h
        have := ih (fun x hx => h x (List.mem_cons_of_mem _ hx))
        have := h s (List.mem_cons_self ..)
        simp only [List.flatMap_cons, List.length_append, List.length_cons]; omega
    have := this v.streams (fun s hs => (h4 s hs).1)
    omega
  have hc : (countsOf v.layers).length ≤ 16 := by
    unfold countsOf
    rw [List.length_map]
    exact le_trans (List.length_filter_le _ _) hl
  have hr := rates_length v.rates (by
    intro r hr
    unfold Alloc.rates at hr
    rw [List.mem_flatMap] at hr
    obtain ⟨l, hl, hlr⟩ := hr
    exact (layers_ok h4 l hl).2.1 r hlr)
  have hb := resBytes_length v.layers
  have hsz : sizeBound v = 7 + 9 * v.rates.length + 5 * v.layers.length := rfl
  unfold tailBytes
  simp only [List.length_append, pack4_length]
  omega

theorem wrote_round {v : Alloc} {buf bytes : List Byte} (hw : Wrote (write v buf) buf bytes) (hl : bytes.length ≤ buf.length)
    (hb : bytes.length ≤ sizeBound v) (hp : parse bytes = .ok v) :
    ∃ buf' n, write v buf = .ok (buf', n) ∧ n ≤ sizeBound v ∧ buf'.length = buf.length ∧ buf'.drop n = buf.drop n ∧ parse (buf'.take n) = .ok v := by
  refine ⟨_, _, hw, hb, ?_, ?_, ?_⟩
  · simp; omega
  · rw [List.drop_left' rfl]
  · rw [List.take_left' rfl]; exact hp

/-! ## C44 -/

/-- C44: every value below 2^63 is read back from its LEB128 encoding, whatever follows it, and
the encoding is at most nine bytes. -/
theorem C44_leb_round_trip (value : Nat) (h : value < 2 ^ 63) (rest : List Byte) :
    parseLeb (encodeLeb value ++ rest) = (value, rest) ∧ (encodeLeb value).length ≤ 9 :=
  ⟨parseLeb_encode h rest, encodeLeb_length h⟩

example : encodeLeb 300 = [172, 2] ∧ parseLeb [172, 2, 7] = (300, [7]) := by decide +kernel

/-- The largest `u64` takes ten bytes but only nine are read back. -/
theorem C44_leb_violation_above_63_bits : (encodeLeb (2 ^ 64 - 1)).length = 10 ∧
    parseLeb (encodeLeb (2 ^ 64 - 1)) = (2 ^ 63 - 1, [1]) := by decide +kernel

/-- C44: a representable allocation of at most two streams, or with the same active layers in
every stream, or with nothing in the third and fourth streams, is written without panicking into
any sufficiently large buffer (whatever it contained), touches nothing beyond what it reports, and
is parsed back unchanged. -/
theorem C44_vla_round_trip (v : Alloc) (buf : List Byte) (h : Representable v)
    (hl : SameLayers v ∨ v.streams.length ≤ 2 ∨ OnlyFirstTwo v) (hb : sizeBound v ≤ buf.length) :
    ∃ buf' n, write v buf = .ok (buf', n) ∧ n ≤ sizeBound v ∧ buf'.length = buf.length ∧ buf'.drop n = buf.drop n ∧ parse (buf'.take n) = .ok v := by
  have ht := tail_length v h
  have hsz : 7 ≤ sizeBound v := by unfold sizeBound; dsimp only; omega
  by_cases hs : SameLayers v
  · obtain ⟨m, hm, hm16, hsh, hw⟩ := write_shared v h hs buf
    have hlen : (hdr v m :: tailBytes v).length ≤ sizeBound v := by rw [List.length_cons]; omega
    exact wrote_round (hw (by omega)) (by omega) hlen (parse_shared v h m hm hm16 hsh)
  · by_cases hz : ∀ s ∈ v.streams, s.layers = []
    · have hn : v.streams.length ≤ 2 := by
        rcases hl with hl | hl | hl
        · exact absurd hl hs
        · exact hl
        · obtain ⟨⟨s, hsm, hne⟩, _⟩ := hl
          exact absurd (hz s (List.mem_of_mem_take hsm)) hne
      have hw := write_empty v h hz buf (by omega)
      exact wrote_round hw (by simp; omega) (by simp; omega) (parse_empty v h hz hn)
    · push Not at hz
      obtain ⟨s, hsm, hne⟩ := hz
      have ho : OnlyFirstTwo v := by
        rcases hl with hl | hl | hl
        · exact absurd hl hs
        · refine ⟨⟨s, by rw [List.take_of_length_le hl]; exact hsm, hne⟩, fun t ht => ?_⟩
          rw [List.drop_eq_nil_of_le hl] at ht; cases ht
        · exact hl
      have hn : 2 ≤ v.streams.length := by
        by_contra hc
        have h1 : v.streams.length = 1 := by have := h.2.1; omega
        obtain ⟨t, ht⟩ := List.length_eq_one_iff.1 h1
        apply hs
        rw [ht] at hsm
        have : s = t := by simpa using hsm
        subst this
        refine ⟨shape s, by unfold shape; simpa using hne, fun x hx => ?_⟩
        rw [ht] at hx
        have : x = s := by simpa using hx
        rw [this]
      obtain ⟨m0, m1, h0, h1, hsh, hw⟩ := write_two v h ho hs hn buf
      have hlen : (hdr v 0 :: maskBytes m0 m1 v.streams.length ++ tailBytes v).length ≤ sizeBound v := by
        have : (maskBytes m0 m1 v.streams.length).length ≤ 2 := by
          unfold maskBytes
          split
          · simp
          · split <;> simp
        simp only [List.cons_append, List.length_cons, List.length_append]
        omega
      exact wrote_round (hw (by omega)) (by omega) hlen (parse_two v h m0 m1 h0 h1 hn hsh)

/-- C44: the special case "everything inactive" is one zero byte. -/
theorem C44_vla_inactive (x : Byte) (post : List Byte) :
    write { current := 0, streams := [] } (x :: post) = .ok (0 :: post, 1) ∧ parse [0] = .ok { current := 0, streams := [] } :=
  ⟨rfl, rfl⟩

/-! ### Parsing is total -/

/-- Two adjacent 0xFF bytes. -/
def HasFF (b : List Byte) : Prop := ∃ pre post, b = pre ++ 255 :: 255 :: post

theorem HasFF.of_suffix {a b : List Byte} (h : a <:+ b) (ha : HasFF a) : HasFF b := by
  obtain ⟨t, rfl⟩ := h
  obtain ⟨pre, post, rfl⟩ := ha
  exact ⟨t ++ pre, post, by simp⟩

theorem rd16_max {a b : Byte} (h : ¬ rd16 a b + 1 < 2 ^ 16) : a = 255 ∧ b = 255 := by
  have ha := a.isLt
  have hb := b.isLt
  unfold rd16 at h
  constructor <;> apply Fin.ext <;> show _ = 255 <;> omega

theorem nextRes_cases (bytes : List Byte) :
    (nextRes bytes = .panic ∧ HasFF bytes) ∨ ∃ o rest, nextRes bytes = .ok (o, rest) ∧ rest <:+ bytes ∧
      (∀ r, o = some r → 1 ≤ r.width ∧ r.width ≤ 65535 ∧ 1 ≤ r.height ∧ r.height ≤ 65535 ∧ r.framerate ≤ 255) := by
  match bytes with
  | a :: b :: c :: d :: e :: rest =>
    by_cases h : rd16 a b + 1 < 2 ^ 16 ∧ rd16 c d + 1 < 2 ^ 16
    · right
      refine ⟨some { width := rd16 a b + 1, height := rd16 c d + 1, framerate := e.val }, rest, if_pos h, ⟨[a, b, c, d, e], rfl⟩, ?_⟩
      intro r hr
      cases hr
      have := e.isLt
      refine ⟨by simp, ?_, by simp, ?_, ?_⟩ <;> dsimp only <;> omega
    · left
      refine ⟨if_neg h, ?_⟩
      by_cases h1 : rd16 a b + 1 < 2 ^ 16
      · have h2 : ¬ rd16 c d + 1 < 2 ^ 16 := fun hc => h ⟨h1, hc⟩
        obtain ⟨rfl, rfl⟩ := rd16_max h2
        exact ⟨[a, b], e :: rest, rfl⟩
      · obtain ⟨rfl, rfl⟩ := rd16_max h1
        exact ⟨[], c :: d :: e :: rest, rfl⟩
  | [] => exact .inr ⟨none, _, rfl, List.suffix_refl _, by intro r hr; cases hr⟩
  | [_] => exact .inr ⟨none, _, rfl, List.suffix_refl _, by intro r hr; cases hr⟩
  | [_, _] => exact .inr ⟨none, _, rfl, List.suffix_refl _, by intro r hr; cases hr⟩
  | [_, _, _] => exact .inr ⟨none, _, rfl, List.suffix_refl _, by intro r hr; cases hr⟩
  | [_, _, _, _] => exact .inr ⟨none, _, rfl, List.suffix_refl _, by intro r hr; cases hr⟩

/-- Invariant of the queues: bounded counts and rates. -/
def QOk (q : Queues) : Prop := (∀ c ∈ q.counts, c ≤ 4) ∧ ∀ r ∈ q.rates, r < 2 ^ 63

theorem takeLayer_cases (a : Bool) (q : Queues) (hq : QOk q) :
    (takeLayer a q = .panic ∧ HasFF q.resBytes) ∨ ∃ o q', takeLayer a q = .ok (o, q') ∧ q'.resBytes <:+ q.resBytes ∧ QOk q' ∧
      ∀ l, o = some l → LayerOk l ∨ (l.temporal = [] ∧ a = true) := by
  unfold takeLayer
  cases a with
  | false =>
    right
    refine ⟨_, _, rfl, List.suffix_refl _, hq, fun l hl => ?_⟩
    cases hl
    exact .inl ⟨by simp, by simp, by simp⟩
  | true =>
    rw [if_pos rfl]
    cases hc : q.counts with
    | nil =>
      right
      exact ⟨none, q, rfl, List.suffix_refl _, hq, by intro l hl; cases hl⟩
    | cons n counts =>
      dsimp only
      rcases nextRes_cases q.resBytes with ⟨h, hf⟩ | ⟨o, rest, h, hsuf, hr⟩
      · left
        rw [h]; exact ⟨rfl, hf⟩
      · right
        rw [h, Res.bind_def, Res.bind_ok]
        refine ⟨_, _, rfl, hsuf, ⟨fun c hcc => hq.1 c (by rw [hc]; exact List.mem_cons_of_mem _ hcc), fun r hr => hq.2 r (List.mem_of_mem_drop hr)⟩, fun l hl => ?_⟩
        cases hl
        by_cases ht : q.rates.take n = []
        · exact .inr ⟨ht, rfl⟩
        · left
          have hn := hq.1 n (by rw [hc]; exact List.mem_cons_self ..)
          refine ⟨by simp only [List.length_take]; omega, fun r hr => hq.2 r (List.mem_of_mem_take hr), fun r hr' => ⟨ht, hr r hr'⟩⟩

/-- What is guaranteed of every layer of a parsed allocation. -/
def LayerBound (l : Layer) : Prop := l.temporal.length ≤ 4 ∧ ∀ kbps ∈ l.temporal, kbps < 2 ^ 63

theorem takeLayers_cases : ∀ (as : List Bool) (q : Queues), QOk q →
    (takeLayers as q = .panic ∧ HasFF q.resBytes) ∨ ∃ ls q', takeLayers as q = .ok (ls, q') ∧ q'.resBytes <:+ q.resBytes ∧ QOk q' ∧
      ls.length ≤ as.length ∧ ∀ l ∈ ls, LayerBound l := by
  intro as
  induction as with
  | nil => intro q hq; exact .inr ⟨[], q, rfl, List.suffix_refl _, hq, by simp, by intro l hl; cases hl⟩
  | cons a as ih =>
    intro q hq
    unfold takeLayers
    rcases takeLayer_cases a q hq with ⟨h, hf⟩ | ⟨o, q1, h, hsuf, hq1, hl⟩
    · left; rw [h]; exact ⟨rfl, hf⟩
    · rw [h, Res.bind_def, Res.bind_ok]
      rcases ih q1 hq1 with ⟨h2, hf⟩ | ⟨ls, q2, h2, hsuf2, hq2, hlen, hls⟩
      · left; dsimp only; rw [h2]; exact ⟨rfl, hf.of_suffix hsuf⟩
      · right
        dsimp only
        rw [h2, Res.bind_def, Res.bind_ok]
        refine ⟨_, _, rfl, hsuf2.trans hsuf, hq2, ?_, ?_⟩
        · cases o <;> simp <;> omega
        · intro l hm
          rw [List.mem_append] at hm
          rcases hm with hm | hm
          · have ho : o = some l := by simpa using hm
            rcases hl l ho with hk | ⟨hk, _⟩
            · exact ⟨hk.1, hk.2.1⟩
            · exact ⟨by rw [hk]; simp, by rw [hk]; simp⟩
          · exact hls l hm

theorem takeStreams_cases : ∀ (as : List (List Bool)) (q : Queues), QOk q → (∀ a ∈ as, a.length ≤ 4) →
    (takeStreams as q = .panic ∧ HasFF q.resBytes) ∨ ∃ ss q', takeStreams as q = .ok (ss, q') ∧ ss.length = as.length ∧
      ∀ s ∈ ss, s.layers.length ≤ 4 ∧ ∀ l ∈ s.layers, LayerBound l := by
  intro as
  induction as with
  | nil => intro q hq _; exact .inr ⟨[], q, rfl, rfl, by intro l hl; cases hl⟩
  | cons a as ih =>
    intro q hq ha
    unfold takeStreams
    rcases takeLayers_cases a q hq with ⟨h, hf⟩ | ⟨ls, q1, h, hsuf, hq1, hlen, hl⟩
    · left; rw [h]; exact ⟨rfl, hf⟩
    · rw [h, Res.bind_def, Res.bind_ok]
      rcases ih q1 hq1 (fun x hx => ha x (List.mem_cons_of_mem _ hx)) with ⟨h2, hf⟩ | ⟨ss, q2, h2, hlen2, hss⟩
      · left; dsimp only; rw [h2]; exact ⟨rfl, hf.of_suffix hsuf⟩
      · right
        dsimp only
        rw [h2, Res.bind_def, Res.bind_ok]
        refine ⟨_, _, rfl, by simp [hlen2], ?_⟩
        intro s hm
        rcases List.mem_cons.1 hm with rfl | hm
        · exact ⟨le_trans hlen (ha a (List.mem_cons_self ..)), hl⟩
        · exact hss s hm

theorem lower4_length (m : Nat) : (lower4 m).length ≤ 4 := by
  unfold lower4; simp [List.length_take]

theorem parseLebGo_spec (orig : List Byte) : ∀ (bs : List Byte) (index result : Nat), bs <:+ orig → index ≤ 8 → result < 2 ^ (7 * index) →
    (parseLebGo orig bs index result).1 < 2 ^ 63 ∧ (parseLebGo orig bs index result).2 <:+ orig := by
  intro bs
  induction bs with
  | nil => intro index result _ _ _; exact ⟨by simp [parseLebGo], List.suffix_refl _⟩
  | cons b bs ih =>
    intro index result hs hi hr
    have hb : readBits b 1 8 < 2 ^ 7 := by rw [readBits18]; omega
    have hnew : result + readBits b 1 8 * 2 ^ (7 * index) < 2 ^ (7 * (index + 1)) := by
      have e : (2 : Nat) ^ (7 * (index + 1)) = 2 ^ 7 * 2 ^ (7 * index) := by rw [← pow_add]; congr 1; ring
      rw [e]
      have : (readBits b 1 8 + 1) * 2 ^ (7 * index) ≤ 2 ^ 7 * 2 ^ (7 * index) := Nat.mul_le_mul_right _ hb
      rw [Nat.add_mul, Nat.one_mul] at this
      omega
    have hbs : bs <:+ orig := (List.suffix_cons b bs).trans hs
    show (if _ then _ else _ : Nat × List Byte).1 < _ ∧ (if _ then _ else _ : Nat × List Byte).2 <:+ _
    split
    · exact ⟨lt_of_lt_of_le hnew (Nat.pow_le_pow_right (by norm_num) (by omega)), hbs⟩
    · rename_i hc
      exact ih (index + 1) _ hbs (by omega) hnew

theorem parseLebs_spec : ∀ (n : Nat) (bytes : List Byte), (∀ r ∈ (parseLebs n bytes).1, r < 2 ^ 63) ∧ (parseLebs n bytes).2 <:+ bytes := by
  intro n
  induction n with
  | zero => intro bytes; exact ⟨by simp [parseLebs], List.suffix_refl _⟩
  | succ n ih =>
    intro bytes
    have h1 := parseLebGo_spec bytes bytes 0 0 (List.suffix_refl _) (by omega) (by norm_num)
    have h2 := ih (parseLeb bytes).2
    show (∀ r ∈ (parseLeb bytes).1 :: (parseLebs n (parseLeb bytes).2).1, r < 2 ^ 63) ∧ (parseLebs n (parseLeb bytes).2).2 <:+ bytes
    refine ⟨?_, h2.2.trans h1.2⟩
    intro r hr
    rcases List.mem_cons.1 hr with rfl | hr
    · exact h1.1
    · exact h2.1 r hr

theorem parseTail_cases (cur : Nat) (active : List (List Bool)) (after : List Byte) (ha : ∀ a ∈ active, a.length ≤ 4) :
    (parseTail cur active after = .panic ∧ HasFF after) ∨ parseTail cur active after = .err () ∨
    ∃ ss, parseTail cur active after = .ok ⟨cur, ss⟩ ∧ ss.length = active.length ∧ ∀ s ∈ ss, s.layers.length ≤ 4 ∧ ∀ l ∈ s.layers, LayerBound l := by
  unfold parseTail
  dsimp only
  unfold splitAt?
  split
  · exact .inr (.inl rfl)
  · rw [Res.bind_def, Res.bind_ok]
    dsimp only
    split
    · exact .inr (.inl rfl)
    · have hsp := parseLebs_spec ((((after.take (divRoundUp (active.flatten.filter (fun a => a)).length 4)).flatMap splitIn4).map (fun c => c + 1)).take (active.flatten.filter (fun a => a)).length).sum
          (after.drop (divRoundUp (active.flatten.filter (fun a => a)).length 4))
      have hq : ∀ c ∈ (((after.take (divRoundUp (active.flatten.filter (fun a => a)).length 4)).flatMap splitIn4).map (fun c => c + 1)).take (active.flatten.filter (fun a => a)).length, c ≤ 4 := by
        intro c hc
        have hc := List.mem_of_mem_take hc
        rw [List.mem_map] at hc
        obtain ⟨x, hx, rfl⟩ := hc
        rw [List.mem_flatMap] at hx
        obtain ⟨b, _, hb⟩ := hx
        simp only [splitIn4, readBits, List.mem_cons, List.not_mem_nil, or_false] at hb
        have : ∀ y, y % 2 ^ 2 < 4 := fun y => Nat.mod_lt _ (by norm_num)
        rcases hb with rfl | rfl | rfl | rfl <;> exact this _
      rcases takeStreams_cases active ⟨_, _, _⟩ ⟨hq, hsp.1⟩ ha with ⟨h, hf⟩ | ⟨ss, q', h, hlen, hss⟩
      · left
        rw [h]
        exact ⟨rfl, (hf.of_suffix hsp.2).of_suffix (List.drop_suffix _ _)⟩
      · right; right
        rw [h]
        exact ⟨ss, rfl, hlen, hss⟩

theorem parse_cases (buf : List Byte) :
    (parse buf = .panic ∧ HasFF buf) ∨ parse buf = .err () ∨
    ∃ v, parse buf = .ok v ∧ v.current < 4 ∧ v.streams.length ≤ 4 ∧ ∀ s ∈ v.streams, s.layers.length ≤ 4 ∧ ∀ l ∈ s.layers, LayerBound l := by
  cases buf with
  | nil => exact .inr (.inl rfl)
  | cons b0 after =>
    by_cases h : b0 = 0 ∧ after = []
    · right; right
      obtain ⟨rfl, rfl⟩ := h
      exact ⟨_, rfl, by decide, by decide, by intro s hs; cases hs⟩
    · rw [parse_cons b0 after h]
      have h24 : readBits b0 2 4 + 1 ≤ 4 := by
        have : readBits b0 2 4 < 2 ^ 2 := Nat.mod_lt _ (by norm_num)
        omega
      have h02 : readBits b0 0 2 < 4 := Nat.mod_lt _ (by norm_num)
      have hmask : parseMasks (readBits b0 2 4 + 1) (readBits b0 4 8) after = .err () ∨
          ∃ act rest, parseMasks (readBits b0 2 4 + 1) (readBits b0 4 8) after = .ok (act, rest) ∧ act.length ≤ 4 ∧ (∀ a ∈ act, a.length ≤ 4) ∧ rest <:+ after := by
        unfold parseMasks
        split
        · right
          refine ⟨_, _, rfl, by simpa using h24, ?_, List.suffix_refl _⟩
          intro a ha
          rw [List.mem_replicate] at ha
          rw [ha.2]; exact lower4_length _
        · unfold splitAt?
          split
          · exact .inl rfl
          · right
            refine ⟨_, _, rfl, ?_, ?_, List.drop_suffix _ _⟩
            · simp only [List.length_map, List.length_take]; omega
            · intro a ha
              rw [List.mem_map] at ha
              obtain ⟨x, _, rfl⟩ := ha
              exact lower4_length _
      rcases hmask with hm | ⟨act, rest, hm, hlen, hact, hsuf⟩
      · rw [hm]; exact .inr (.inl rfl)
      · rw [hm, Res.bind_def, Res.bind_ok]
        dsimp only
        rcases parseTail_cases (readBits b0 0 2) act rest hact with ⟨h, hf⟩ | h | ⟨ss, h, hl, hs⟩
        · left; exact ⟨h, hf.of_suffix (hsuf.trans (List.suffix_cons _ _))⟩
        · exact .inr (.inl h)
        · right; right
          exact ⟨_, h, h02, by simp only; omega, hs⟩

/-- C44: parsing any byte string returns an allocation or nothing, without panicking, unless the
bytes contain 0xFF 0xFF. -/
theorem C44_parse_total_partial (buf : List Byte) (h : ¬ ∃ pre post, buf = pre ++ 255 :: 255 :: post) : (parse buf).NoPanic := by
  rcases parse_cases buf with ⟨_, hf⟩ | he | ⟨v, hv, _⟩
  · exact absurd hf h
  · rw [he]; trivial
  · rw [hv]; trivial

example : ¬ ∃ pre post, ([0x01, 0xC0, 0x05] : List Byte) = pre ++ 255 :: 255 :: post := by
  rintro ⟨pre, post, h⟩
  have h1 : (255 : Byte) ∈ ([0x01, 0xC0, 0x05] : List Byte) := by rw [h]; simp
  revert h1; decide

/-- C44: whatever the bytes, a parsed allocation respects the format's limits: four streams, four
spatial layers, four temporal layers, bitrates below 2^63. -/
theorem C44_parse_bounds (buf : List Byte) (v : Alloc) (h : parse buf = .ok v) :
    v.current < 4 ∧ v.streams.length ≤ 4 ∧ ∀ s ∈ v.streams, s.layers.length ≤ 4 ∧
      ∀ l ∈ s.layers, l.temporal.length ≤ 4 ∧ ∀ kbps ∈ l.temporal, kbps < 2 ^ 63 := by
  rcases parse_cases buf with ⟨hc, _⟩ | hc | ⟨v', hv, h1, h2, h3⟩
  · rw [h] at hc; cases hc
  · rw [h] at hc; cases hc
  · rw [h] at hv; cases hv
    exact ⟨h1, h2, h3⟩

/-- The codec panics (with overflow checks) on the extension `01 00 05 FF FF 00 00 1E`: one stream,
one layer, width field 0xFFFF. -/
theorem C44_violation_width_65536 : parse [0x01, 0x00, 0x05, 0xFF, 0xFF, 0x00, 0x00, 0x1E] = .panic := by decide +kernel

/-- A bitrate cut short by the end of the extension is reported as 0, not as an error. -/
theorem C44_violation_truncated_bitrate :
    parse [0x01, 0x00, 0x85] = .ok { current := 0, streams := [{ layers := [{ temporal := [0], res := none }] }] } := by decide +kernel

/-! ### Concrete allocations, and those lost -/

/-- Simulcast with three streams of one layer each. -/
def exThree : Alloc := { current := 1, streams := [
  { layers := [{ temporal := [100, 200], res := some ⟨320, 180, 30⟩ }] },
  { layers := [{ temporal := [500], res := some ⟨640, 360, 30⟩ }] },
  { layers := [{ temporal := [70000, 2 ^ 62], res := some ⟨65535, 720, 255⟩ }] }] }

/-- Two streams with different layers; an inactive layer in the middle. -/
def exTwo : Alloc := { current := 0, streams := [
  { layers := [{ temporal := [1], res := none }, { temporal := [], res := none }, { temporal := [7], res := none }] },
  { layers := [] }] }

instance (l : Layer) : Decidable (LayerOk l) :=
  if h : l.temporal.length ≤ 4 ∧ (∀ kbps ∈ l.temporal, kbps < 2 ^ 63) then
    match hr : l.res with
    | none => .isTrue ⟨h.1, h.2, by intro r hc; rw [hr] at hc; cases hc⟩
    | some r =>
      if h2 : l.temporal ≠ [] ∧ 1 ≤ r.width ∧ r.width ≤ 65535 ∧ 1 ≤ r.height ∧ r.height ≤ 65535 ∧ r.framerate ≤ 255 then
        .isTrue ⟨h.1, h.2, by intro r' hc; rw [hr] at hc; cases hc; exact h2⟩
      else .isFalse (fun hc => h2 (hc.2.2 r hr))
  else .isFalse (fun hc => h ⟨hc.1, hc.2.1⟩)

theorem streamOk_iff (s : Stream) : StreamOk s ↔ s.layers.length ≤ 4 ∧ (∀ l ∈ s.layers, LayerOk l) ∧ ∀ l ∈ s.layers.getLast?, l.temporal ≠ [] := Iff.rfl

instance (s : Stream) : Decidable (StreamOk s) := decidable_of_iff _ (streamOk_iff s).symm

instance (v : Alloc) : Decidable (Representable v) := by unfold Representable ResAllOrNone; infer_instance

example : Representable exThree ∧ SameLayers exThree := ⟨by decide +kernel, [true], by decide, by decide +kernel⟩
example : Representable exTwo ∧ exTwo.streams.length ≤ 2 := ⟨by decide +kernel, by decide⟩

/-- Three streams of which only the third is active. -/
def exThird : Alloc := { current := 0, streams := [{ layers := [] }, { layers := [] }, { layers := [{ temporal := [300], res := none }] }] }

/-- C44 fails for three or four streams with differing layers: the third stream's bitmask is
written one byte too far and then overwritten, so the receiver sees no active layer at all. -/
theorem C44_violation_third_stream : Representable exThird ∧
    write exThird (List.replicate 20 0) = .ok ([0x20, 0x00, 0x0F, 0x00, 0xAC, 0x02] ++ List.replicate 14 0, 6) ∧
    parse [0x20, 0x00, 0x0F, 0x00, 0xAC, 0x02] = .ok { current := 0, streams := [{ layers := [] }, { layers := [] }, { layers := [] }] } := by
  refine ⟨by decide +kernel, by decide +kernel, by decide +kernel⟩

/-- C44 fails for three inactive streams: what is written does not parse. -/
theorem C44_violation_three_inactive :
    write { current := 0, streams := [{ layers := [] }, { layers := [] }, { layers := [] }] } (List.replicate 20 0) = .ok ([0x20, 0x00] ++ List.replicate 18 0, 2) ∧
    parse [0x20, 0x00] = .err () := by
  refine ⟨by decide +kernel, by decide +kernel⟩

/-- C44: an allocation with no streams and a non-zero index panics, as do five streams and a
zero width; the API allows all of them (`simulcast_streams` is documented to hold up to five). -/
theorem C44_violation_write_panics :
    write { current := 1, streams := [] } (List.replicate 20 0) = .panic ∧
    write { current := 0, streams := List.replicate 5 { layers := [{ temporal := [1], res := none }] } } (List.replicate 50 0) = .panic ∧
    write { current := 0, streams := [{ layers := [{ temporal := [1], res := some ⟨0, 1, 1⟩ }] }] } (List.replicate 50 0) = .panic := by
  refine ⟨by decide +kernel, by decide +kernel, by decide +kernel⟩

/-- C44: five temporal layers, documented as allowed, are parsed as a single one followed by
garbage: the count overflows its two bits. -/
theorem C44_violation_five_temporal :
    write { current := 0, streams := [{ layers := [{ temporal := [1, 2, 3, 4, 5], res := none }] }] } (List.replicate 20 0)
      = .ok ([0x01, 0x00, 1, 2, 3, 4, 5] ++ List.replicate 13 0, 7) ∧
    parse [0x01, 0x00, 1, 2, 3, 4, 5] = .ok { current := 0, streams := [{ layers := [{ temporal := [1], res := none }] }] } := by
  refine ⟨by decide +kernel, by decide +kernel⟩

end Str0m.Vla
