import Verif.Proofs.Packet
import Verif.Props.Extend
/-
  One step of the VP8 and VP9 depacketizers on a packet made by the packetizers.
-/
namespace Str0m.Packet

theorem getU8_at {packet : List Byte} {i : Nat} {b : Byte} {e : PErr} (h : packet[i]? = some b) :
    getU8 packet i e = .ok b := by simp [getU8, h]

theorem bit_le (b : Byte) (k : Nat) : bit b k ≤ 1 := by unfold bit; omega

theorem vp8Step (p : Vp8P) (hp : p.pictureId < 2 ^ 15) (d : Vp8D) (hd : ∀ n, d.extendedPid = some n → n < 2 ^ 64)
    (f : Bool) (out : List Byte) (e : Option Vp8Extra) (c : Byte) (r : List Byte) :
    ∃ d' x, vp8Depacketize d (vp8Header p f ++ c :: r) out e = .ok (d', out ++ c :: r, some x) ∧
      (∀ n, d'.extendedPid = some n → n < 2 ^ 64) ∧
      x.isKeyframe = (vp8Was e || (f && bit c 0 == 0)) ∧ x.discardable = false ∧ x.tl0PictureId = none ∧
      (p.enablePictureId = false → x.pictureId = none) ∧
      (p.enablePictureId = true → ∃ n, x.pictureId = some n ∧ n % 128 = p.pictureId % 128 ∧
        (128 ≤ p.pictureId → n % 2 ^ 15 = p.pictureId)) := by
  obtain ⟨en, id⟩ := p
  simp only at hp
  cases en with
  | false =>
    cases f with
    | false =>
      simpa [vp8Depacketize, vp8Header, getU8, vp8Ext, vp8PictureId, vp8Tl0, vp8Tid, bit, Res.from_] using hd
    | true =>
      simpa [vp8Depacketize, vp8Header, getU8, vp8Ext, vp8PictureId, vp8Tl0, vp8Tid, bit, Res.from_] using hd
  | true =>
    by_cases hs : id < 128
    · have h1 : id % 128 % 256 / 128 % 2 ≠ 1 := by omega
      have hx := C01_extend_low_bits 7 (id % 128 % 256) d.extendedPid (by omega) hd
      rw [show id % 128 % 256 % 2 ^ 7 = id % 128 by omega] at hx
      have hn : ¬ 128 ≤ id := by omega
      cases f with
      | false =>
        simp [vp8Depacketize, vp8Header, getU8, vp8Ext, vp8PictureId, vp8Tl0, vp8Tid, bit, Res.from_, hs, h1, hn]
        exact ⟨hx.2, hx.1⟩
      | true =>
        simp [vp8Depacketize, vp8Header, getU8, vp8Ext, vp8PictureId, vp8Tl0, vp8Tid, bit, Res.from_, hs, h1, hn]
        exact ⟨hx.2, hx.1⟩
    · have h1 : (128 + id / 256 % 128) % 256 / 128 % 2 = 1 := by omega
      have h0 : id ≠ 0 := by omega
      have hv : id / 256 % 128 * 256 + id % 256 = id := by omega
      have hx := C01_extend_low_bits 15 id d.extendedPid (by omega) hd
      rw [show id % 2 ^ 15 = id from Nat.mod_eq_of_lt hp] at hx
      cases f with
      | false =>
        simp [vp8Depacketize, vp8Header, getU8, vp8Ext, vp8PictureId, vp8Tl0, vp8Tid, bit, Res.from_, hs, h0, h1, hv]
        refine ⟨hx.2, ?_, fun _ => hx.1⟩
        show extend 15 d.extendedPid id % 128 = id % 128
        omega
      | true =>
        simp [vp8Depacketize, vp8Header, getU8, vp8Ext, vp8PictureId, vp8Tl0, vp8Tid, bit, Res.from_, hs, h0, h1, hv]
        refine ⟨hx.2, ?_, fun _ => hx.1⟩
        show extend 15 d.extendedPid id % 128 = id % 128
        omega

theorem or128 (n : Nat) (h : n < 2 ^ 15) : n / 256 ||| 128 = n / 256 + 128 := by
  have : n / 256 < 2 ^ 7 := by omega
  rw [Nat.or_comm, show (128 : Nat) = 2 ^ 7 * 1 by rfl, ← Nat.two_pow_add_eq_or_of_lt this]
  omega

set_option maxHeartbeats 2000000 in
/-- One step of the VP9 depacketizer on a packet of the non-flexible packetizer. -/
theorem vp9StepN (p : Vp9P) (hp : p.pictureId < 2 ^ 15) (ht : p.tl0picidx < 256) (key : Bool) (d : Vp9D)
    (f l : Bool) (out : List Byte) (e : Option Vp9Extra) (x : List Byte)
    (he : ∀ y, e = some y → y.layersScheme.length = 3 ∧ (y.layersScheme[0]? = some none ∨ y.layersScheme[0]? = some (some out.length))) :
    ∃ d' y, vp9Depacketize d (vp9HeaderN p key f l ++ x) out e = .ok (d', out ++ x, some y) ∧
      y.layersScheme.length = 3 ∧ y.layersScheme[0]? = some (some (out ++ x).length) ∧
      d'.widths = d.widths ∧ d'.heights = d.heights ∧
      y.isKeyframe = ((vp9Base e).isKeyframe || (key && f)) ∧ y.pid = p.pictureId ∧
      y.tl0PictureId = some p.tl0picidx ∧ y.tid = some 0 := by
  have ho := or128 p.pictureId hp
  have h1 : (p.pictureId / 256 + 128) % 256 / 128 % 2 = 1 := by omega
  have h2 : p.pictureId / 256 % 128 * 256 + p.pictureId % 256 = p.pictureId := by omega
  have h5 : out.length + (x.length + 1 + 1 + 1 + 1 + 1) - 5 = out.length + x.length := by omega
  have h6 : out.length + (x.length + 1 + 1 + 1 + 1 + 1 + 1) - 6 = out.length + x.length := by omega
  have h7 : ¬ out.length + (x.length + 1 + 1 + 1 + 1 + 1) < 5 := by omega
  have h8 : ¬ out.length + (x.length + 1 + 1 + 1 + 1 + 1 + 1) < 6 := by omega
  have h9 : p.tl0picidx % 256 = p.tl0picidx := by omega
  cases e with
  | none =>
    cases key <;> cases f <;> cases l <;>
    simp [vp9Depacketize, vp9HeaderN, getU8, vp9PictureId, vp9LayerInfo, vp9Refs, vp9Ss, vp9UpdateExtra, bit, Res.from_, Res.idx,
      vp9Base, Vp9Extra.init, ho, h1, h2, h5, h6, h7, h8, h9]
  | some y =>
    obtain ⟨k1, k2⟩ := he y rfl
    obtain ⟨ls, t, w, h, tl, pid, ik⟩ := y
    match ls, k1 with
    | [a, b, c], _ =>
      have k3 : a = none ∨ a = some out.length := by simpa using k2
      rcases k3 with rfl | rfl <;> cases key <;> cases f <;> cases l <;>
      simp [vp9Depacketize, vp9HeaderN, getU8, vp9PictureId, vp9LayerInfo, vp9Refs, vp9Ss, vp9UpdateExtra, bit, Res.from_, Res.idx,
        vp9Base, ho, h1, h2, h5, h6, h7, h8, h9]

/-- One step of the VP9 depacketizer on a packet of the flexible packetizer. -/
theorem vp9StepF (p : Vp9P) (hp : p.pictureId < 2 ^ 15) (d : Vp9D)
    (f l : Bool) (out : List Byte) (e : Option Vp9Extra) (x : List Byte) :
    ∃ d' y, vp9Depacketize d (vp9HeaderF p f l ++ x) out e = .ok (d', out ++ x, some y) ∧
      y.isKeyframe = ((vp9Base e).isKeyframe || f) ∧ y.pid = p.pictureId := by
  have ho := or128 p.pictureId hp
  have h1 : (p.pictureId / 256 + 128) % 256 / 128 % 2 = 1 := by omega
  have h2 : p.pictureId / 256 % 128 * 256 + p.pictureId % 256 = p.pictureId := by omega
  cases e <;> cases f <;> cases l <;>
    simp [vp9Depacketize, vp9HeaderF, getU8, vp9PictureId, vp9UpdateExtra, bit, Res.from_, vp9Base, Vp9Extra.init, ho, h1, h2]

end Str0m.Packet
