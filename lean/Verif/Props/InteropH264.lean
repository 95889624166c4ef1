import Verif.Props.H264
import Verif.Spec.InteropH264
/-
  C64 for H.264.
-/
namespace Str0m.H264
open Str0m.Packet
open Spec

theorem stapGo_read (avc : Bool) : ∀ (us : List (List Byte)) (pre : List Byte) (fuel : Nat) (out : List Byte) (e : Option Bool),
    (∀ n ∈ us, Travels n ∧ n.length < 2 ^ 16) → us.length < fuel →
    stapGo avc (pre ++ aggregated us) fuel pre.length out e = .ok (out ++ frame avc us, keyOf e us) := by
  intro us
  induction us with
  | nil =>
    intro pre fuel out e _ hf
    obtain ⟨f, rfl⟩ : ∃ f, fuel = f + 1 := ⟨fuel - 1, by simp at hf; omega⟩
    unfold stapGo
    rw [if_neg (by simp [aggregated])]
    cases avc <;> simp [frame, delivered, deliveredAvc, keyOf]
  | cons n ns ih =>
    intro pre fuel out e hu hf
    obtain ⟨f, rfl⟩ : ∃ f, fuel = f + 1 := ⟨fuel - 1, by simp at hf; omega⟩
    obtain ⟨⟨b, t, rfl, hb, h1, h2⟩, hlen⟩ := hu n (by simp)
    have e1 : pre ++ aggregated ((b :: t) :: ns) = (pre ++ be16 (b :: t).length) ++ b :: t ++ aggregated ns := by
      show pre ++ (be16 (b :: t).length ++ (b :: t) ++ aggregated ns) = _
      simp only [List.append_assoc]
    have e2 : pre ++ aggregated ((b :: t) :: ns) = pre ++ u8 ((b :: t).length / 2 ^ 8) :: u8 (b :: t).length :: (b :: t ++ aggregated ns) := by
      rw [e1]; unfold be16; simp
    have hl : (pre ++ aggregated ((b :: t) :: ns)).length = pre.length + 2 + (b :: t).length + (aggregated ns).length := by
      rw [e2]; simp; omega
    have g0 : (Res.idx (pre ++ aggregated ((b :: t) :: ns)) pre.length : Res PErr Byte) = .ok (u8 ((b :: t).length / 2 ^ 8)) := by
      rw [Res.idx_of_lt (by simp at hl ⊢; omega)]
      simp only [e2]
      rw [List.getElem_append_right (by omega)]; simp
    have g1 : (Res.idx (pre ++ aggregated ((b :: t) :: ns)) (pre.length + 1) : Res PErr Byte) = .ok (u8 (b :: t).length) := by
      rw [Res.idx_of_lt (by simp at hl ⊢; omega)]
      simp only [e2]
      rw [List.getElem_append_right (by omega)]; simp
    have g2 : (pre ++ aggregated ((b :: t) :: ns))[pre.length + 2]? = some b := by
      rw [e2, List.getElem?_append_right (by omega)]; simp
    have g3 : (Res.slice (pre ++ aggregated ((b :: t) :: ns)) (pre.length + 2) (pre.length + 2 + (b :: t).length) : Res PErr (List Byte)) = .ok (b :: t) := by
      rw [Res.slice_of_le (by omega) (by omega), e1]
      rw [List.take_left' (by simp; omega), List.drop_left' (by simp)]
    unfold stapGo
    rw [if_pos (by omega), g0, Res.bind_def, Res.bind_ok, g1, Res.bind_def, Res.bind_ok, rd16_be16 hlen, if_neg (by omega), g2]
    dsimp only
    rw [g3, Res.bind_def, Res.bind_ok]
    have := ih (pre ++ be16 (b :: t).length ++ b :: t) f (out ++ prefix_ avc (b :: t).length ++ b :: t) (key e (ntype b))
      (fun m hm => hu m (List.mem_cons_of_mem _ hm)) (by simp at hf; omega)
    rw [show (pre ++ be16 (b :: t).length ++ b :: t).length = pre.length + 2 + (b :: t).length by simp; omega, ← e1] at this
    rw [this, frame_cons]
    show Res.ok (_, _) = Res.ok (_, keyOf (key e (unitType (b :: t))) ns)
    simp only [List.append_assoc]
    rfl

theorem fu_hdr (hdr : Byte) (h : hdr.val < 128) (s e : Bool) (hse : ¬ (s = true ∧ e = true)) (p : List Byte) :
    fu hdr s e p = fuaHdr (28 + refIdc hdr) (ntype hdr) s e ++ p := by
  unfold fu fuaHdr refIdc ntype
  rw [show hdr.val / 32 * 32 + 28 = 28 + hdr.val / 32 % 4 * 32 by omega]
  cases s <;> cases e <;> simp [Nat.add_comm] at hse ⊢

theorem fuRest_hdr (hdr : Byte) (h : hdr.val < 128) : ∀ (ps : List (List Byte)), fuRest hdr ps = withHdr (fuaHdr (28 + refIdc hdr) (ntype hdr)) false ps := by
  intro ps
  induction ps with
  | nil => rfl
  | cons p ps ih =>
    cases ps with
    | nil =>
      show [fu hdr false true p] = _
      rw [fu_hdr hdr h _ _ (by simp)]; rfl
    | cons q qs =>
      show fu hdr false false p :: fuRest hdr (q :: qs) = _
      rw [fu_hdr hdr h _ _ (by simp), ih]; rfl

/-- C64, H.264: whatever mix of single unit packets, aggregates and fragments a sender uses (RFC 6184,
packetization mode 1), the receiver appends exactly the units, in order, and says key frame iff one
of them is an IDR slice (or it knew before). -/
theorem C64_h264 (items : List Item) (hl : ∀ i ∈ items, i.Legal) (avc : Bool) (out : List Byte) (e : Option Bool) :
    ∃ k, runDepack depacketize (items.flatMap Item.payloads) ⟨avc, none⟩ out e
      = .ok (⟨avc, none⟩, out ++ frame avc (items.flatMap Item.units), k) ∧
      (k = some true ↔ e = some true ∨ ∃ n ∈ items.flatMap Item.units, unitType n = 5) := by
  have one : ∀ (i : Item), i.Legal → ∀ out e, runDepack depacketize i.payloads ⟨avc, none⟩ out e
      = .ok (⟨avc, none⟩, out ++ frame avc i.units, keyOf e i.units) := by
    intro i hi out e
    cases i with
    | single n =>
      obtain ⟨b, t, rfl, hb, h1, h2⟩ := hi
      show (depacketize ⟨avc, none⟩ (b :: t) out e >>= fun r => runDepack depacketize [] r.1 r.2.1 r.2.2) = _
      unfold depacketize
      dsimp only
      rw [if_pos (show 1 ≤ ntype b ∧ ntype b ≤ 23 from ⟨h1, h2⟩)]
      show Res.ok (_, _, _) = Res.ok (_, out ++ frame avc [b :: t], keyOf e [b :: t])
      rw [frame_cons]
      have : frame avc [] = [] := by cases avc <;> rfl
      rw [this, List.append_nil, List.append_assoc]
      rfl
    | stapA nri us =>
      obtain ⟨h1, h2, h3⟩ := hi
      show (depacketize ⟨avc, none⟩ (u8 (nri * 32 + 24) :: aggregated us) out e >>= fun r => runDepack depacketize [] r.1 r.2.1 r.2.2) = _
      have hn : ntype (u8 (nri * 32 + 24)) = 24 := by unfold ntype; rw [u8_val]; omega
      unfold depacketize
      dsimp only
      rw [hn, if_neg (by omega), if_pos rfl]
      have hlen : ∀ us : List (List Byte), us.length ≤ (aggregated us).length := by
        intro us
        induction us with
        | nil => simp [aggregated]
        | cons n ns ih => simp [aggregated]; omega
      have := stapGo_read avc us [u8 (nri * 32 + 24)] ((u8 (nri * 32 + 24) :: aggregated us).length + 1) out e h3 (by
        have := hlen us; simp; omega)
      rw [show [u8 (nri * 32 + 24)] ++ aggregated us = u8 (nri * 32 + 24) :: aggregated us from rfl] at this
      rw [show [u8 (nri * 32 + 24)].length = 1 from rfl] at this
      rw [this]
      rfl
    | fuA hdr pieces =>
      obtain ⟨hb, h1, h2, h3⟩ := hi
      match pieces, h3 with
      | x :: y :: ys, _ =>
        show runDepack depacketize (fu hdr true false x :: fuRest hdr (y :: ys)) _ _ _ = _
        rw [fu_hdr hdr hb _ _ (by simp), fuRest_hdr hdr hb]
        have := run_fua avc hdr hb out e x y ys
        rw [show withHdr (fuaHdr (28 + refIdc hdr) (ntype hdr)) true (x :: y :: ys)
          = (fuaHdr (28 + refIdc hdr) (ntype hdr) true false ++ x) :: withHdr (fuaHdr (28 + refIdc hdr) (ntype hdr)) false (y :: ys) from rfl] at this
        rw [this]
        show Res.ok (_, _, _) = Res.ok (_, out ++ frame avc [hdr :: (x :: y :: ys).flatten], keyOf e [hdr :: (x :: y :: ys).flatten])
        rw [frame_cons]
        have : frame avc [] = [] := by cases avc <;> rfl
        rw [this, List.append_nil, List.append_assoc]
        rfl
  have all : ∀ (items : List Item), (∀ i ∈ items, i.Legal) → ∀ out e, runDepack depacketize (items.flatMap Item.payloads) ⟨avc, none⟩ out e
      = .ok (⟨avc, none⟩, out ++ frame avc (items.flatMap Item.units), keyOf e (items.flatMap Item.units)) := by
    intro items
    induction items with
    | nil =>
      intro _ out e
      cases avc <;> simp [runDepack, frame, delivered, deliveredAvc, keyOf]
    | cons i is ih =>
      intro h out e
      rw [List.flatMap_cons, List.flatMap_cons, runDepack_append, one i (h i (by simp)), Res.bind_def, Res.bind_ok]
      dsimp only
      rw [ih (fun j hj => h j (List.mem_cons_of_mem _ hj)), frame_append, keyOf_append, List.append_assoc]
  refine ⟨_, all items hl out e, ?_⟩
  cases hs : items.flatMap Item.units with
  | nil => simp [keyOf]
  | cons n ns =>
    rw [keyOf_val _ _ (by simp)]
    have : (e.getD false = true) ↔ e = some true := by
      cases e with
      | none => simp
      | some v => cases v <;> simp
    rw [Option.some.injEq, Bool.or_eq_true, this, List.any_eq_true, or_comm]
    simp

/-- Three units in one aggregate, then a slice in three fragments, one of them empty. -/
theorem C64_h264_example : (∀ i ∈ [Item.stapA 3 [[u8 0x67, u8 1], [u8 0x68], [u8 6, u8 5]], Item.fuA (u8 0x65) [[u8 1, u8 2], [], [u8 3]]], i.Legal) ∧
    ([Item.stapA 3 [[u8 0x67, u8 1], [u8 0x68], [u8 6, u8 5]], Item.fuA (u8 0x65) [[u8 1, u8 2], [], [u8 3]]]).flatMap Item.units
      = [[u8 0x67, u8 1], [u8 0x68], [u8 6, u8 5], [u8 0x65, u8 1, u8 2, u8 3]] := by
  refine ⟨?_, rfl⟩
  intro i hi
  simp only [List.mem_cons, List.not_mem_nil, or_false] at hi
  rcases hi with rfl | rfl
  · refine ⟨by decide, by simp, ?_⟩
    intro n hn
    simp only [List.mem_cons, List.not_mem_nil, or_false] at hn
    rcases hn with rfl | rfl | rfl
    · exact ⟨⟨_, _, rfl, by decide, by decide, by decide⟩, by decide⟩
    · exact ⟨⟨_, _, rfl, by decide, by decide, by decide⟩, by decide⟩
    · exact ⟨⟨_, _, rfl, by decide, by decide, by decide⟩, by decide⟩
  · exact ⟨by decide, by decide, by decide, by decide⟩

end Str0m.H264
