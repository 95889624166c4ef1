import Verif.Model.Packet
import Verif.Spec.Interop
import Verif.Props.Extend
import Verif.Proofs.PacketSafe
/-
  Reading the descriptors of Spec/Interop.lean.
-/
namespace Str0m.Packet
open Str0m.Interop

theorem getU8_app (pre : List Byte) (b : Byte) (rest : List Byte) (e : PErr) {pos : Nat} (h : pos = pre.length) :
    getU8 (pre ++ b :: rest) pos e = .ok b := by
  unfold getU8
  rw [h, List.getElem?_append_right (le_refl _), Nat.sub_self]
  rfl

theorem u8_lt {n : Nat} (h : n < 256) : (u8 n).val = n := by rw [u8_val]; omega

/-! ### VP8 -/

theorem vp8PictureId_read (d : Vp8D) (pre rest : List Byte) (p : Option Pid) (hp : ∀ q, p = some q → q.Legal) {pos : Nat} (h : pos = pre.length)
    (hd : ∀ n, d.extendedPid = some n → n < 2 ^ 64) :
    ∃ ep, vp8PictureId d (pre ++ (match p with | some p => p.bytes | none => []) ++ rest) p.isSome pos
      = .ok ({ d with extendedPid := ep }, pos + (match p with | some p => p.bytes | none => []).length) ∧
      (∀ q, p = some q → ∃ n, ep = some n ∧ n % 2 ^ q.width = q.val ∧ n < 2 ^ 64) ∧ (p = none → ep = d.extendedPid) := by
  cases p with
  | none => exact ⟨d.extendedPid, rfl, by simp, fun _ => rfl⟩
  | some q =>
    have hq := hp q rfl
    unfold vp8PictureId
    simp only [Option.isSome_some, if_true]
    cases q with
    | short n =>
      have hn : n < 2 ^ 7 := hq
      have hv : (u8 n).val = n := u8_lt (by omega)
      show ∃ ep, (getU8 (pre ++ [u8 n] ++ rest) pos _ >>= _) = _ ∧ _
      rw [List.append_assoc, List.singleton_append, getU8_app _ _ _ _ h, Res.bind_def, Res.bind_ok, if_neg (by unfold bit; rw [hv]; omega), hv]
      obtain ⟨c1, c2⟩ := C01_extend_low_bits 7 n d.extendedPid (by omega) hd
      refine ⟨some (extendU7 d.extendedPid n), rfl, ?_, by simp⟩
      intro q hq
      cases hq
      exact ⟨_, rfl, by show extend 7 _ _ % 2 ^ 7 = n; rw [c1]; exact Nat.mod_eq_of_lt hn, c2⟩
    | long n =>
      have hn : n < 2 ^ 15 := hq
      have hv : (u8 (128 + n / 256)).val = 128 + n / 256 := u8_lt (by omega)
      show ∃ ep, (getU8 (pre ++ [u8 (128 + n / 256), u8 n] ++ rest) pos _ >>= _) = _ ∧ _
      rw [List.append_assoc, List.cons_append, getU8_app _ _ _ _ h, Res.bind_def, Res.bind_ok, if_pos (by unfold bit; rw [hv]; omega)]
      rw [show pre ++ (Pid.long n).bytes ++ rest = (pre ++ [u8 (128 + n / 256)]) ++ u8 n :: rest by simp [Pid.bytes],
        getU8_app _ _ _ _ (by simp [h]), Res.bind_def, Res.bind_ok, hv]
      rw [show (128 + n / 256) % 128 * 256 + (u8 n).val = n by rw [u8_val]; omega]
      obtain ⟨c1, c2⟩ := C01_extend_low_bits 15 n d.extendedPid (by omega) hd
      refine ⟨some (extendU15 d.extendedPid n), rfl, ?_, by simp⟩
      intro q hq
      cases hq
      exact ⟨_, rfl, by show extend 15 _ _ % 2 ^ 15 = n; rw [c1]; exact Nat.mod_eq_of_lt hn, c2⟩

theorem vp8Tl0_read (d : Vp8D) (pre rest : List Byte) (p : Option Nat) (hp : ∀ n, p = some n → n < 256) {pos : Nat} (h : pos = pre.length) (hr : rest ≠ [])
    (hd : ∀ n, d.extendedTl0 = some n → n < 2 ^ 64) :
    ∃ et, vp8Tl0 d (pre ++ (match p with | some n => [u8 n] | none => []) ++ rest) p.isSome pos
      = .ok ({ d with extendedTl0 := et }, pos + (match p with | some n => [u8 n] | none => []).length) ∧
      (∀ q, p = some q → ∃ n, et = some n ∧ n % 2 ^ 8 = q ∧ n < 2 ^ 64) := by
  have hr0 : 0 < rest.length := List.length_pos_of_ne_nil hr
  unfold vp8Tl0
  rw [if_neg (by simp only [List.length_append]; omega)]
  cases p with
  | none => exact ⟨d.extendedTl0, rfl, by simp⟩
  | some n =>
    have hn : n < 256 := hp n rfl
    simp only [Option.isSome_some, if_true]
    rw [List.append_assoc, List.singleton_append, getU8_app _ _ _ _ h, Res.bind_def, Res.bind_ok, u8_lt hn]
    obtain ⟨c1, c2⟩ := C01_extend_low_bits 8 n d.extendedTl0 (by omega) hd
    refine ⟨some (extendU8 d.extendedTl0 n), rfl, ?_⟩
    intro q hq
    cases hq
    exact ⟨_, rfl, by show extend 8 _ _ % 2 ^ 8 = n; rw [c1]; exact Nat.mod_eq_of_lt (by omega), c2⟩

theorem vp8Tid_read (d : Vp8D) (pre rest : List Byte) (h8 : Vp8Desc) (hl : h8.Legal) {pos : Nat} (h : pos = pre.length) (hr : rest ≠ []) :
    ∃ t y k, vp8Tid d (pre ++ h8.tidBytes ++ rest) h8.tid.isSome h8.keyIdx.isSome pos
      = .ok ({ d with tid := t, y := y, keyIdx := k }, pos + h8.tidBytes.length) ∧
      (∀ a b, h8.tid = some (a, b) → t = a ∧ (y = 1 ↔ b = true)) ∧ (h8.tid = none → t = d.tid ∧ y = d.y) := by
  have hr0 : 0 < rest.length := List.length_pos_of_ne_nil hr
  unfold vp8Tid
  rw [if_neg (by simp only [List.length_append]; omega)]
  have hkey := hl.key
  have htid := hl.tid
  unfold Vp8Desc.tidBytes
  cases ht : h8.tid with
  | none =>
    cases hk : h8.keyIdx with
    | none => exact ⟨d.tid, d.y, d.keyIdx, rfl, by simp, by simp⟩
    | some k =>
      simp only [Option.isSome_none, Option.isSome_some, or_true, if_true]
      rw [List.append_assoc, List.singleton_append, getU8_app _ _ _ _ h, Res.bind_def, Res.bind_ok]
      exact ⟨d.tid, d.y, _, rfl, by simp, by simp⟩
  | some x =>
    obtain ⟨a, b⟩ := x
    have ha := htid a b ht
    have hv : (u8 (a * 64 + fl b 32 + h8.keyIdx.getD 0)).val = a * 64 + fl b 32 + h8.keyIdx.getD 0 ∧ h8.keyIdx.getD 0 < 32 := by
      have hk : h8.keyIdx.getD 0 < 32 := by
        cases hk : h8.keyIdx with
        | none => simp
        | some k => exact hkey k hk
      have : fl b 32 ≤ 32 := by unfold fl; split <;> omega
      exact ⟨u8_lt (by omega), hk⟩
    simp only [Option.isSome_some, true_or, if_true]
    rw [List.append_assoc, List.singleton_append, getU8_app _ _ _ _ h, Res.bind_def, Res.bind_ok]
    refine ⟨_, _, _, rfl, ?_, by simp⟩
    intro a' b' hab
    cases hab
    unfold bit
    rw [hv.1]
    have := hv.2
    unfold fl
    cases b <;> simp <;> omega

theorem vp8Ext_read (h8 : Vp8Desc) (hl : h8.Legal) (b0 : Byte) (rest : List Byte) :
    vp8Ext (b0 :: (h8.ext ++ rest)) h8.extended = .ok ((h8.pid.isSome, h8.tl0.isSome, h8.tid.isSome, h8.keyIdx.isSome), 1 + h8.ext.length) := by
  unfold vp8Ext Vp8Desc.ext
  cases hx : h8.extended with
  | false =>
    unfold Vp8Desc.extended at hx
    simp only [Bool.or_eq_false_iff] at hx
    obtain ⟨⟨⟨h1, h2⟩, h3⟩, h4⟩ := hx
    simp [h1, h2, h3, h4]
  | true =>
    simp only [if_true]
    rw [show b0 :: ([u8 (fl h8.pid.isSome 128 + fl h8.tl0.isSome 64 + fl h8.tid.isSome 32 + fl h8.keyIdx.isSome 16)] ++ rest)
      = [b0] ++ u8 (fl h8.pid.isSome 128 + fl h8.tl0.isSome 64 + fl h8.tid.isSome 32 + fl h8.keyIdx.isSome 16) :: rest from rfl,
      getU8_app [b0] _ _ _ (pos := 1) rfl, Res.bind_def, Res.bind_ok]
    have hlt : h8.tl0.isSome = true → h8.tid.isSome = true := by
      intro h
      obtain ⟨n, hn⟩ := Option.isSome_iff_exists.1 h
      have := (hl.tl0 n hn).2
      cases ht : h8.tid with
      | none => exact absurd ht this
      | some _ => rfl
    generalize h8.pid.isSome = i at *
    generalize h8.tl0.isSome = l at *
    generalize h8.tid.isSome = t at *
    generalize h8.keyIdx.isSome = k at *
    revert i l t k
    decide

/-- The first byte. -/
theorem vp8First (x n s : Bool) (p : Nat) (hp : p < 8) :
    bit (u8 (fl x 128 + fl n 32 + fl s 16 + p)) 7 = fl x 1 ∧ bit (u8 (fl x 128 + fl n 32 + fl s 16 + p)) 5 = fl n 1 ∧
    bit (u8 (fl x 128 + fl n 32 + fl s 16 + p)) 4 = fl s 1 ∧ (u8 (fl x 128 + fl n 32 + fl s 16 + p)).val % 8 = p := by
  unfold bit
  rw [u8_val]
  unfold fl
  cases x <;> cases n <;> cases s <;> simp <;> omega

theorem vp8_read (d : Vp8D) (h8 : Vp8Desc) (hl : h8.Legal) (c : Byte) (body : List Byte) (out : List Byte) (extra : Option Vp8Extra)
    (hd1 : ∀ n, d.extendedPid = some n → n < 2 ^ 64) (hd2 : ∀ n, d.extendedTl0 = some n → n < 2 ^ 64) :
    ∃ d' e, vp8Depacketize d (h8.bytes ++ c :: body) out extra = .ok (d', out ++ c :: body, some e) ∧
      (∀ n, d'.extendedPid = some n → n < 2 ^ 64) ∧ (∀ n, d'.extendedTl0 = some n → n < 2 ^ 64) ∧
      e.discardable = h8.nonRef ∧
      (e.pictureId = none ↔ h8.pid = none) ∧ (∀ q, h8.pid = some q → ∃ n, e.pictureId = some n ∧ n % 2 ^ q.width = q.val) ∧
      (e.tl0PictureId = none ↔ h8.tl0 = none) ∧ (∀ q, h8.tl0 = some q → ∃ n, e.tl0PictureId = some n ∧ n % 2 ^ 8 = q) ∧
      (∀ t y, h8.tid = some (t, y) → e.layerIndex = t ∧ e.sync = y) ∧
      (e.isKeyframe = true ↔ (∃ x, extra = some x ∧ x.isKeyframe = true) ∨ (h8.start = true ∧ h8.partition = 0 ∧ c.val % 2 = 0)) := by
  have hpart := hl.part
  obtain ⟨f1, f2, f3, f4⟩ := vp8First h8.extended h8.nonRef h8.start h8.partition hpart
  generalize hb0 : u8 (fl h8.extended 128 + fl h8.nonRef 32 + fl h8.start 16 + h8.partition) = b0 at *
  have hbytes : h8.bytes ++ c :: body = b0 :: (h8.ext ++ (h8.pidBytes ++ h8.tl0Bytes ++ h8.tidBytes ++ c :: body)) := by
    unfold Vp8Desc.bytes
    rw [hb0]
    simp only [List.cons_append, List.append_assoc]
  have hE := vp8Ext_read h8 hl b0 (h8.pidBytes ++ h8.tl0Bytes ++ h8.tidBytes ++ c :: body)
  rw [← hbytes] at hE
  obtain ⟨ep, hP, p2, p3⟩ := vp8PictureId_read d (b0 :: h8.ext) (h8.tl0Bytes ++ h8.tidBytes ++ c :: body) h8.pid hl.pid
    (pos := 1 + h8.ext.length) (by simp; omega) hd1
  rw [show (match h8.pid with | some p => p.bytes | none => []) = h8.pidBytes from rfl] at hP
  rw [show b0 :: h8.ext ++ h8.pidBytes ++ (h8.tl0Bytes ++ h8.tidBytes ++ c :: body) = h8.bytes ++ c :: body by
    rw [hbytes]; simp only [List.cons_append, List.append_assoc]] at hP
  obtain ⟨et, hT, t2⟩ := vp8Tl0_read { d with extendedPid := ep } (b0 :: h8.ext ++ h8.pidBytes) (h8.tidBytes ++ c :: body) h8.tl0 (fun n hn => (hl.tl0 n hn).1)
    (pos := 1 + h8.ext.length + h8.pidBytes.length) (by simp; omega) (by simp) hd2
  rw [show (match h8.tl0 with | some n => [u8 n] | none => []) = h8.tl0Bytes from rfl] at hT
  rw [show b0 :: h8.ext ++ h8.pidBytes ++ h8.tl0Bytes ++ (h8.tidBytes ++ c :: body) = h8.bytes ++ c :: body by
    rw [hbytes]; simp only [List.cons_append, List.append_assoc]] at hT
  obtain ⟨t, y, k, hI, i2, i3⟩ := vp8Tid_read { d with extendedPid := ep, extendedTl0 := et } (b0 :: h8.ext ++ h8.pidBytes ++ h8.tl0Bytes) (c :: body) h8 hl
    (pos := 1 + h8.ext.length + h8.pidBytes.length + h8.tl0Bytes.length) (by simp; omega) (by simp)
  rw [show b0 :: h8.ext ++ h8.pidBytes ++ h8.tl0Bytes ++ h8.tidBytes ++ c :: body = h8.bytes ++ c :: body by
    rw [hbytes]; simp only [List.cons_append, List.append_assoc]] at hI
  have h0 : getU8 (h8.bytes ++ c :: body) 0 .shortPacket = .ok b0 := by rw [hbytes]; rfl
  have hx : (bit b0 7 == 1) = h8.extended := by rw [f1]; cases h8.extended <;> rfl
  have hpos : 1 + h8.ext.length + h8.pidBytes.length + h8.tl0Bytes.length + h8.tidBytes.length = h8.bytes.length := by
    unfold Vp8Desc.bytes
    simp only [List.length_cons, List.length_append]; omega
  have hp1 : Res.NoPanic (.ok () : Res PErr Unit) := trivial
  unfold vp8Depacketize
  rw [h0, Res.bind_def, Res.bind_ok, hx, hE, Res.bind_def, Res.bind_ok]
  dsimp only
  rw [hP, Res.bind_def, Res.bind_ok]
  dsimp only
  rw [hT, Res.bind_def, Res.bind_ok]
  dsimp only
  rw [hI, Res.bind_def, Res.bind_ok]
  dsimp only
  rw [hpos, if_neg (by simp), Res.from_of_le (by simp), Res.bind_def, Res.bind_ok, List.drop_left]
  have hg : getU8 (h8.bytes ++ c :: body) h8.bytes.length .shortPacket = .ok c := getU8_app _ _ _ _ rfl
  have hif : (if bit b0 4 = 1 ∧ b0.val % 8 = 0 then do
        let b ← getU8 (h8.bytes ++ c :: body) h8.bytes.length .shortPacket
        pure (bit b 0)
      else pure 1 : Res PErr Nat) = .ok (if h8.start = true ∧ h8.partition = 0 then c.val % 2 else 1) := by
    rw [f3, f4, hg]
    cases h8.start <;> by_cases hz : h8.partition = 0 <;> simp [hz, fl, bit, Res.bind_def, Res.bind_ok] <;> rfl
  rw [hif, Res.bind_def, Res.bind_ok]
  have hep : ∀ n, ep = some n → n < 2 ^ 64 := by
    intro n hn
    cases hq : h8.pid with
    | none => rw [p3 hq] at hn; exact hd1 n hn
    | some q =>
      obtain ⟨m, m1, -, m3⟩ := p2 q hq
      rw [m1] at hn; cases hn; exact m3
  refine ⟨_, _, rfl, hep, ?_, ?_, ?_, ?_, ?_, ?_, ?_, ?_⟩
  · intro n hn
    have hn : et = some n := hn
    cases hq : h8.tl0 with
    | none =>
      rw [hq] at hT
      unfold vp8Tl0 at hT
      split at hT
      · cases hT
      · have := congrArg Prod.fst (Res.ok.inj hT)
        have : d.extendedTl0 = et := congrArg Vp8D.extendedTl0 this
        rw [← this] at hn
        exact hd2 n hn
    | some q =>
      obtain ⟨m, m1, -, m3⟩ := t2 q hq
      rw [m1] at hn; cases hn; exact m3
  · show (bit b0 5 == 1) = h8.nonRef
    rw [f2]; cases h8.nonRef <;> rfl
  · dsimp only
    cases hq : h8.pid with
    | none => simp
    | some q =>
      obtain ⟨m, m1, -, -⟩ := p2 q hq
      simp [m1]
  · intro q hq
    obtain ⟨m, m1, m2, -⟩ := p2 q hq
    exact ⟨m, by dsimp only; rw [hq, m1]; rfl, m2⟩
  · dsimp only
    cases hq : h8.tl0 with
    | none => simp
    | some q =>
      obtain ⟨m, m1, -, -⟩ := t2 q hq
      simp [m1]
  · intro q hq
    obtain ⟨m, m1, m2, -⟩ := t2 q hq
    exact ⟨m, by dsimp only; rw [hq, m1]; rfl, m2⟩
  · intro a b hab
    obtain ⟨e1, e2⟩ := i2 a b hab
    refine ⟨e1, ?_⟩
    show (y == 1) = b
    rw [Bool.eq_iff_iff, beq_iff_eq]
    exact e2
  · dsimp only
    rw [Bool.or_eq_true, beq_iff_eq]
    refine or_congr ?_ ?_
    · cases extra <;> simp [vp8Was]
    · by_cases hc : h8.start = true ∧ h8.partition = 0
      · rw [if_pos hc]; simp [hc]
      · rw [if_neg hc]
        simp only [Nat.one_ne_zero, false_iff]
        rintro ⟨a, b, -⟩
        exact hc ⟨a, b⟩

/-! ### VP9 -/

theorem vp9PictureId_read (d : Vp9D) (pre rest : List Byte) (p : Pid) (hp : p.Legal) {pos : Nat} (h : pos = pre.length) :
    vp9PictureId d (pre ++ p.bytes ++ rest) pos = .ok ({ d with pictureId := p.val }, pos + p.bytes.length) := by
  unfold vp9PictureId
  cases p with
  | short n =>
    have hn : n < 2 ^ 7 := hp
    have hv : (u8 n).val = n := u8_lt (by omega)
    rw [show pre ++ (Pid.short n).bytes ++ rest = pre ++ u8 n :: rest by simp [Pid.bytes], getU8_app _ _ _ _ h, Res.bind_def, Res.bind_ok,
      if_neg (by unfold bit; rw [hv]; omega), hv, Nat.mod_eq_of_lt (by omega)]
    rfl
  | long n =>
    have hn : n < 2 ^ 15 := hp
    have hv : (u8 (128 + n / 256)).val = 128 + n / 256 := u8_lt (by omega)
    rw [show getU8 (pre ++ (Pid.long n).bytes ++ rest) pos .shortPacket = .ok (u8 (128 + n / 256)) by
      rw [show pre ++ (Pid.long n).bytes ++ rest = pre ++ u8 (128 + n / 256) :: (u8 n :: rest) by simp [Pid.bytes]]; exact getU8_app _ _ _ _ h]
    rw [show getU8 (pre ++ (Pid.long n).bytes ++ rest) (pos + 1) .shortPacket = .ok (u8 n) by
      rw [show pre ++ (Pid.long n).bytes ++ rest = (pre ++ [u8 (128 + n / 256)]) ++ u8 n :: rest by simp [Pid.bytes]]; exact getU8_app _ _ _ _ (by simp [h])]
    rw [Res.bind_def, Res.bind_ok, if_pos (by unfold bit; rw [hv]; omega), Res.bind_def, Res.bind_ok, hv,
      show (128 + n / 256) % 128 * 256 + (u8 n).val = n by rw [u8_val]; omega]
    rfl

theorem vp9LayerInfo_read (d : Vp9D) (pre rest : List Byte) (l : Vp9Layer) (f : Bool) (hl : l.tid < 8 ∧ l.sid < 3 ∧ l.tl0 < 256) {pos : Nat} (h : pos = pre.length) :
    ∃ tl, vp9LayerInfo d (pre ++ (u8 (l.tid * 32 + fl l.up 16 + l.sid * 2 + fl l.dep 1) :: (if f then [] else [u8 l.tl0])) ++ rest) f pos
      = .ok ({ d with tid := l.tid, sid := l.sid, tl0picidx := tl }, pos + (u8 (l.tid * 32 + fl l.up 16 + l.sid * 2 + fl l.dep 1) :: (if f then [] else [u8 l.tl0])).length) ∧
      (f = false → tl = l.tl0) := by
  obtain ⟨h1, h2, h3⟩ := hl
  have hv : (u8 (l.tid * 32 + fl l.up 16 + l.sid * 2 + fl l.dep 1)).val = l.tid * 32 + fl l.up 16 + l.sid * 2 + fl l.dep 1 ∧
      (l.tid * 32 + fl l.up 16 + l.sid * 2 + fl l.dep 1) / 32 = l.tid ∧ (l.tid * 32 + fl l.up 16 + l.sid * 2 + fl l.dep 1) / 2 % 8 = l.sid := by
    have a1 : fl l.up 16 = 0 ∨ fl l.up 16 = 16 := by unfold fl; split <;> simp
    have a2 : fl l.dep 1 ≤ 1 := by unfold fl; split <;> omega
    refine ⟨u8_lt ?_, ?_, ?_⟩ <;> omega
  generalize hb : u8 (l.tid * 32 + fl l.up 16 + l.sid * 2 + fl l.dep 1) = b at *
  obtain ⟨v1, v2, v3⟩ := hv
  unfold vp9LayerInfo
  cases f with
  | true =>
    simp only [if_true]
    rw [List.append_assoc, List.singleton_append, getU8_app _ _ _ _ h, Res.bind_def, Res.bind_ok, v1, v2, v3, if_neg (by omega)]
    exact ⟨d.tl0picidx, rfl, by simp⟩
  | false =>
    simp only [Bool.false_eq_true, if_false]
    rw [show getU8 (pre ++ [b, u8 l.tl0] ++ rest) pos .shortPacket = .ok b by
      rw [show pre ++ [b, u8 l.tl0] ++ rest = pre ++ b :: (u8 l.tl0 :: rest) by simp]; exact getU8_app _ _ _ _ h]
    rw [show getU8 (pre ++ [b, u8 l.tl0] ++ rest) (pos + 1) .shortPacket = .ok (u8 l.tl0) by
      rw [show pre ++ [b, u8 l.tl0] ++ rest = (pre ++ [b]) ++ u8 l.tl0 :: rest by simp]; exact getU8_app _ _ _ _ (by simp [h])]
    rw [Res.bind_def, Res.bind_ok, v1, v2, v3, if_neg (by omega), Res.bind_def, Res.bind_ok, u8_lt h3]
    exact ⟨l.tl0, rfl, fun _ => rfl⟩

theorem vp9Refs_read : ∀ (refs : List Nat) (pre rest : List Byte) (left pos : Nat), refs ≠ [] → refs.length ≤ left → (∀ r ∈ refs, r < 2 ^ 7) → pos = pre.length →
    vp9Refs (pre ++ refBytes refs ++ rest) left pos = .ok (pos + (refBytes refs).length) := by
  intro refs
  induction refs with
  | nil => intro _ _ _ _ h; exact absurd rfl h
  | cons r l ih =>
    intro pre rest left pos _ hlen hr hpos
    obtain ⟨k, rfl⟩ : ∃ k, left = k + 1 := ⟨left - 1, by simp at hlen; omega⟩
    have hr0 : r < 2 ^ 7 := hr r (by simp)
    unfold vp9Refs
    cases l with
    | nil =>
      show (getU8 (pre ++ [u8 (r * 2)] ++ rest) pos _ >>= _) = _
      have hv : (u8 (r * 2)).val = r * 2 := u8_lt (by omega)
      rw [List.append_assoc, List.singleton_append, getU8_app _ _ _ _ hpos, Res.bind_def, Res.bind_ok, if_neg (by unfold bit; rw [hv]; omega)]
      rfl
    | cons q l =>
      have hv : (u8 (r * 2 + 1)).val = r * 2 + 1 := u8_lt (by omega)
      have e : pre ++ refBytes (r :: q :: l) ++ rest = pre ++ u8 (r * 2 + 1) :: (refBytes (q :: l) ++ rest) := by
        show pre ++ (u8 (r * 2 + 1) :: refBytes (q :: l)) ++ rest = _
        simp
      have e2 : pre ++ u8 (r * 2 + 1) :: (refBytes (q :: l) ++ rest) = (pre ++ [u8 (r * 2 + 1)]) ++ refBytes (q :: l) ++ rest := by simp
      rw [e, getU8_app _ _ _ _ hpos, Res.bind_def, Res.bind_ok, if_pos (by unfold bit; rw [hv]; omega), e2,
        ih _ _ _ _ (by simp) (by simp at hlen ⊢; omega) (fun x hx => hr x (List.mem_cons_of_mem _ hx)) (by simp [hpos])]
      show _ = Res.ok (pos + (u8 (r * 2 + 1) :: refBytes (q :: l)).length)
      rw [List.length_cons]
      congr 1
      omega

theorem vp9Sizes_read : ∀ (sizes : List (Nat × Nat)) (pre rest : List Byte) (d : Vp9D) (i pos : Nat), d.Wf → i + sizes.length ≤ 3 →
    (∀ x ∈ sizes, x.1 < 2 ^ 16 ∧ x.2 < 2 ^ 16) → pos = pre.length →
    ∃ w h, vp9Sizes d (pre ++ sizeBytes sizes ++ rest) sizes.length i pos = .ok ({ d with widths := w, heights := h }, pos + (sizeBytes sizes).length) ∧
      w.length = 3 ∧ h.length = 3 ∧ (∀ j, j < i → w[j]? = d.widths[j]? ∧ h[j]? = d.heights[j]?) ∧
      (∀ j x, sizes[j]? = some x → w[i + j]? = some (some x.1) ∧ h[i + j]? = some (some x.2)) := by
  intro sizes
  induction sizes with
  | nil =>
    intro pre rest d i pos hd hi _ hpos
    exact ⟨d.widths, d.heights, rfl, hd.1, hd.2, fun _ _ => ⟨rfl, rfl⟩, by simp⟩
  | cons x l ih =>
    obtain ⟨a, b⟩ := x
    intro pre rest d i pos hd hi hx hpos
    obtain ⟨ha, hb⟩ := hx (a, b) (by simp)
    have ha : a < 2 ^ 16 := ha
    have hb : b < 2 ^ 16 := hb
    have e : pre ++ sizeBytes ((a, b) :: l) ++ rest = pre ++ u8 (a / 2 ^ 8) :: u8 a :: u8 (b / 2 ^ 8) :: u8 b :: (sizeBytes l ++ rest) := by
      show pre ++ (be16 a ++ be16 b ++ sizeBytes l) ++ rest = _
      unfold be16
      simp
    have g0 : getU8 (pre ++ sizeBytes ((a, b) :: l) ++ rest) pos .shortPacket = .ok (u8 (a / 2 ^ 8)) := by rw [e]; exact getU8_app _ _ _ _ hpos
    have g1 : getU8 (pre ++ sizeBytes ((a, b) :: l) ++ rest) (pos + 1) .shortPacket = .ok (u8 a) := by
      rw [e, show pre ++ u8 (a / 2 ^ 8) :: u8 a :: u8 (b / 2 ^ 8) :: u8 b :: (sizeBytes l ++ rest)
        = (pre ++ [u8 (a / 2 ^ 8)]) ++ u8 a :: u8 (b / 2 ^ 8) :: u8 b :: (sizeBytes l ++ rest) by simp]
      exact getU8_app _ _ _ _ (by simp [hpos])
    have g2 : getU8 (pre ++ sizeBytes ((a, b) :: l) ++ rest) (pos + 2) .shortPacket = .ok (u8 (b / 2 ^ 8)) := by
      rw [e, show pre ++ u8 (a / 2 ^ 8) :: u8 a :: u8 (b / 2 ^ 8) :: u8 b :: (sizeBytes l ++ rest)
        = (pre ++ [u8 (a / 2 ^ 8), u8 a]) ++ u8 (b / 2 ^ 8) :: u8 b :: (sizeBytes l ++ rest) by simp]
      exact getU8_app _ _ _ _ (by simp [hpos])
    have g3 : getU8 (pre ++ sizeBytes ((a, b) :: l) ++ rest) (pos + 3) .shortPacket = .ok (u8 b) := by
      rw [e, show pre ++ u8 (a / 2 ^ 8) :: u8 a :: u8 (b / 2 ^ 8) :: u8 b :: (sizeBytes l ++ rest)
        = (pre ++ [u8 (a / 2 ^ 8), u8 a, u8 (b / 2 ^ 8)]) ++ u8 b :: (sizeBytes l ++ rest) by simp]
      exact getU8_app _ _ _ _ (by simp [hpos])
    rw [List.length_cons]
    unfold vp9Sizes
    simp only [g0, g1, g2, g3, Res.bind_def, Res.bind_ok]
    have hil : i < 3 := by simp at hi; omega
    have hc : i < d.widths.length ∧ i < d.heights.length := by have := hd.1; have := hd.2; omega
    rw [if_pos hc, rd16_be16 ha, rd16_be16 hb]
    rw [show pre ++ sizeBytes ((a, b) :: l) ++ rest = (pre ++ (be16 a ++ be16 b)) ++ sizeBytes l ++ rest by
      show pre ++ (be16 a ++ be16 b ++ sizeBytes l) ++ rest = _
      simp only [List.append_assoc]]
    obtain ⟨w, hh, k1, k2, k3, k4, k5⟩ := ih (pre ++ (be16 a ++ be16 b)) rest { d with widths := d.widths.set i (some a), heights := d.heights.set i (some b) } (i + 1) (pos + 4)
      ⟨by simp [hd.1], by simp [hd.2]⟩ (by simp at hi; omega) (fun x hx' => hx x (List.mem_cons_of_mem _ hx')) (by simp [hpos])
    refine ⟨w, hh, ?_, k2, k3, ?_, ?_⟩
    · rw [k1]
      show Res.ok (_, _) = Res.ok (_, pos + (be16 a ++ be16 b ++ sizeBytes l).length)
      simp only [List.length_append, be16_length]
      congr 2
      omega
    · intro j hj
      obtain ⟨m1, m2⟩ := k4 j (by omega)
      rw [m1, m2]
      dsimp only
      rw [List.getElem?_set_ne (by omega), List.getElem?_set_ne (by omega)]
      exact ⟨rfl, rfl⟩
    · intro j x hj
      cases j with
      | zero =>
        cases hj
        obtain ⟨m1, m2⟩ := k4 i (by omega)
        rw [Nat.add_zero, m1, m2]
        dsimp only
        rw [List.getElem?_set_self hc.1, List.getElem?_set_self hc.2]
        exact ⟨rfl, rfl⟩
      | succ j =>
        have := k5 j x hj
        rw [show i + (j + 1) = i + 1 + j by omega]
        exact this

theorem vp9PgDiffs_read : ∀ (diffs : List Byte) (pre rest : List Byte) (d : Vp9D) (i pos : Nat), i < d.pgpdiff.length → pos = pre.length →
    ∃ pd, vp9PgDiffs d (pre ++ diffs ++ rest) i diffs.length pos = .ok ({ d with pgpdiff := pd }, pos + diffs.length) ∧ pd.length = d.pgpdiff.length := by
  intro diffs
  induction diffs with
  | nil => intro pre rest d i pos _ _; exact ⟨d.pgpdiff, rfl, rfl⟩
  | cons b l ih =>
    intro pre rest d i pos hi hpos
    rw [List.length_cons]
    unfold vp9PgDiffs
    rw [show getU8 (pre ++ b :: l ++ rest) pos .shortPacket = .ok b by
      rw [show pre ++ b :: l ++ rest = pre ++ b :: (l ++ rest) by simp]; exact getU8_app _ _ _ _ hpos, Res.bind_def, Res.bind_ok,
      Res.idx_of_lt hi, Res.bind_def, Res.bind_ok, show pre ++ b :: l ++ rest = (pre ++ [b]) ++ l ++ rest by simp]
    obtain ⟨pd, k1, k2⟩ := ih (pre ++ [b]) rest { d with pgpdiff := d.pgpdiff.set i (d.pgpdiff[i] ++ [b.val]) } i (pos + 1) (by simpa using hi) (by simp [hpos])
    refine ⟨pd, ?_, by simpa using k2⟩
    rw [k1]
    congr 2
    omega

theorem vp9Pg_read : ∀ (g : List PgPic) (pre rest : List Byte) (d : Vp9D) (i pos : Nat), i ≤ d.pgpdiff.length →
    (∀ p ∈ g, p.tid < 8 ∧ p.diffs.length ≤ 3) → pos = pre.length →
    ∃ pt pd, vp9Pg d (pre ++ groupBytes g ++ rest) g.length i pos = .ok ({ d with pgtid := pt, pgpdiff := pd }, pos + (groupBytes g).length) := by
  intro g
  induction g with
  | nil => intro pre rest d i pos _ _ _; exact ⟨d.pgtid, d.pgpdiff, rfl⟩
  | cons p l ih =>
    intro pre rest d i pos hi hg hpos
    obtain ⟨h1, h2⟩ := hg p (by simp)
    rw [List.length_cons]
    unfold vp9Pg
    have hv : (u8 (p.tid * 32 + fl p.up 16 + p.diffs.length * 4)).val / 4 % 4 = p.diffs.length := by
      have a1 : fl p.up 16 = 0 ∨ fl p.up 16 = 16 := by unfold fl; split <;> simp
      rw [u8_lt (by omega)]
      omega
    have e1 : pre ++ groupBytes (p :: l) ++ rest = pre ++ u8 (p.tid * 32 + fl p.up 16 + p.diffs.length * 4) :: (p.diffs ++ (groupBytes l ++ rest)) := by
      show pre ++ (p.bytes ++ groupBytes l) ++ rest = _
      unfold PgPic.bytes
      simp
    have e2 : pre ++ groupBytes (p :: l) ++ rest = (pre ++ [u8 (p.tid * 32 + fl p.up 16 + p.diffs.length * 4)]) ++ p.diffs ++ (groupBytes l ++ rest) := by
      rw [e1]; simp
    have e3 : pre ++ groupBytes (p :: l) ++ rest = (pre ++ p.bytes) ++ groupBytes l ++ rest := by
      show pre ++ (p.bytes ++ groupBytes l) ++ rest = _
      simp only [List.append_assoc]
    rw [show getU8 (pre ++ groupBytes (p :: l) ++ rest) pos .shortPacket = .ok (u8 (p.tid * 32 + fl p.up 16 + p.diffs.length * 4)) by
      rw [e1]; exact getU8_app _ _ _ _ hpos, Res.bind_def, Res.bind_ok, hv]
    generalize hd' : ({ d with pgtid := d.pgtid ++ [(u8 (p.tid * 32 + fl p.up 16 + p.diffs.length * 4)).val / 32], pgpdiff := d.pgpdiff ++ [[]] } : Vp9D) = d'
    have hlen : d'.pgpdiff.length = d.pgpdiff.length + 1 := by rw [← hd']; simp
    obtain ⟨pd, k1, k2⟩ := vp9PgDiffs_read p.diffs (pre ++ [u8 (p.tid * 32 + fl p.up 16 + p.diffs.length * 4)]) (groupBytes l ++ rest) d' i (pos + 1) (by omega) (by simp [hpos])
    rw [← e2] at k1
    rw [k1, Res.bind_def, Res.bind_ok]
    dsimp only
    obtain ⟨pt, pd', k3⟩ := ih (pre ++ p.bytes) rest { d' with pgpdiff := pd } (i + 1) (pos + 1 + p.diffs.length) (by show i + 1 ≤ pd.length; omega)
      (fun q hq => hg q (List.mem_cons_of_mem _ hq)) (by unfold PgPic.bytes; simp [hpos]; omega)
    rw [← e3] at k3
    refine ⟨pt, pd', ?_⟩
    rw [k3, ← hd']
    show Res.ok (_, _) = Res.ok (_, pos + (p.bytes ++ groupBytes l).length)
    unfold PgPic.bytes
    simp only [List.length_append, List.length_cons]
    congr 2
    omega

theorem vp9Ss_read (s : Vp9Ss) (hs : s.Legal 3) (pre rest : List Byte) (d : Vp9D) (hd : d.Wf) {pos : Nat} (hpos : pos = pre.length) :
    ∃ w h pt pd, vp9Ss d (pre ++ s.bytes ++ rest) pos = .ok ({ d with widths := w, heights := h, pgtid := pt, pgpdiff := pd }, pos + s.bytes.length) ∧
      w.length = 3 ∧ h.length = 3 ∧ (∀ l, s.sizes = some l → ∀ (j : Nat) (x : Nat × Nat), l[j]? = some x → w[j]? = some (some x.1) ∧ h[j]? = some (some x.2)) ∧
      (s.sizes = none → w = d.widths ∧ h = d.heights) := by
  obtain ⟨⟨l1, l2⟩, hsz, hgr⟩ := hs
  have hv : ∀ y g : Bool, (u8 ((s.layers - 1) * 32 + fl y 16 + fl g 8)).val / 32 = s.layers - 1 ∧
      bit (u8 ((s.layers - 1) * 32 + fl y 16 + fl g 8)) 4 = fl y 1 ∧ ((u8 ((s.layers - 1) * 32 + fl y 16 + fl g 8)).val / 2 % 8 ≠ 0 ↔ g = true) := by
    intro y g
    unfold bit fl
    rw [u8_lt (by split <;> split <;> omega)]
    cases y <;> cases g <;> simp <;> omega
  obtain ⟨v1, v2, v3⟩ := hv s.sizes.isSome s.group.isSome
  generalize hb : u8 ((s.layers - 1) * 32 + fl s.sizes.isSome 16 + fl s.group.isSome 8) = b at *
  generalize hS : s.sizePart = S
  generalize hG : s.groupPart = G
  have hbytes : s.bytes = b :: (S ++ G) := by unfold Vp9Ss.bytes; rw [hb, hS, hG]
  rw [hbytes]
  have e0 : pre ++ b :: (S ++ G) ++ rest = pre ++ b :: (S ++ (G ++ rest)) := by simp
  have e1 : pre ++ b :: (S ++ G) ++ rest = (pre ++ [b]) ++ S ++ (G ++ rest) := by simp
  have h0 : getU8 (pre ++ b :: (S ++ G) ++ rest) pos .shortPacket = .ok b := by rw [e0]; exact getU8_app _ _ _ _ hpos
  have hr1 : ∃ w h, (if bit b 4 = 1 then vp9Sizes d (pre ++ b :: (S ++ G) ++ rest) (b.val / 32 + 1) 0 (pos + 1) else pure (d, pos + 1) : Res PErr (Vp9D × Nat))
      = .ok ({ d with widths := w, heights := h }, pos + 1 + S.length) ∧ w.length = 3 ∧ h.length = 3 ∧
      (∀ l, s.sizes = some l → ∀ (j : Nat) (x : Nat × Nat), l[j]? = some x → w[j]? = some (some x.1) ∧ h[j]? = some (some x.2)) ∧
      (s.sizes = none → w = d.widths ∧ h = d.heights) := by
    cases hq : s.sizes with
    | none =>
      unfold Vp9Ss.sizePart at hS
      rw [hq] at hS v2
      subst hS
      rw [if_neg (by rw [v2]; simp [fl])]
      exact ⟨d.widths, d.heights, rfl, hd.1, hd.2, by simp, fun _ => ⟨rfl, rfl⟩⟩
    | some l =>
      unfold Vp9Ss.sizePart at hS
      rw [hq] at hS v2
      have hS : sizeBytes l = S := hS
      subst hS
      obtain ⟨z1, z2⟩ := hsz l hq
      obtain ⟨w, hh, k1, k2, k3, -, k5⟩ := vp9Sizes_read l (pre ++ [b]) (G ++ rest) d 0 (pos + 1) hd (by omega) z2 (by simp [hpos])
      rw [if_pos (by rw [v2]; rfl), e1, v1, show s.layers - 1 + 1 = l.length by omega, k1]
      refine ⟨w, hh, rfl, k2, k3, ?_, by simp⟩
      intro l' hl' j x hx
      cases hl'
      have := k5 j x hx
      rwa [Nat.zero_add] at this
  obtain ⟨w, hh, r1, r2, r3, r4, r5⟩ := hr1
  unfold vp9Ss
  rw [h0, Res.bind_def, Res.bind_ok, if_neg (by rw [v1]; omega), r1, Res.bind_def, Res.bind_ok]
  dsimp only
  cases hq : s.group with
  | none =>
    unfold Vp9Ss.groupPart at hG
    rw [hq] at hG v3
    subst hG
    rw [if_neg (by rw [v3]; simp)]
    refine ⟨w, hh, d.pgtid, d.pgpdiff, ?_, r2, r3, r4, r5⟩
    show Res.ok (_, _) = Res.ok (_, _)
    simp only [List.length_cons, List.append_nil]
    congr 2
    omega
  | some g =>
    unfold Vp9Ss.groupPart at hG
    rw [hq] at hG v3
    have hG : u8 g.length :: groupBytes g = G := hG
    subst hG
    obtain ⟨g1, g2⟩ := hgr g hq
    have e2 : pre ++ b :: (S ++ u8 g.length :: groupBytes g) ++ rest = (pre ++ b :: S) ++ u8 g.length :: (groupBytes g ++ rest) := by simp
    have e3 : pre ++ b :: (S ++ u8 g.length :: groupBytes g) ++ rest = (pre ++ b :: S ++ [u8 g.length]) ++ groupBytes g ++ rest := by simp
    rw [if_pos (by rw [v3]; simp), show getU8 (pre ++ b :: (S ++ u8 g.length :: groupBytes g) ++ rest) (pos + 1 + S.length) .shortPacket = .ok (u8 g.length) by
      rw [e2]; exact getU8_app _ _ _ _ (by simp [hpos]; omega), Res.bind_def, Res.bind_ok, u8_lt g1]
    obtain ⟨pt, pd, k⟩ := vp9Pg_read g (pre ++ b :: S ++ [u8 g.length]) rest { d with widths := w, heights := hh } 0 (pos + 1 + S.length + 1) (by omega) g2 (by simp [hpos]; omega)
    rw [← e3] at k
    refine ⟨w, hh, pt, pd, ?_, r2, r3, r4, r5⟩
    rw [k]
    simp only [List.length_cons, List.length_append]
    congr 2
    omega

end Str0m.Packet
