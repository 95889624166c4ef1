import Verif.Proofs.PacketSafe
import Verif.Spec.Packet
/-
  C23 and C24 for Opus, G.711/G.722, comfort noise, the null codec, VP8 and VP9.
-/
namespace Str0m.Packet
open Spec

/-! ### The plain codecs -/

/-- A depacketizer without state or codec extra, as `runDepack` takes it. -/
def stateless (f : List Byte → List Byte → Res PErr (List Byte)) :
    Unit → List Byte → List Byte → Option Unit → Res PErr (Unit × List Byte × Option Unit) :=
  fun _ p out e => do
    let o ← f p out
    pure ((), o, e)

theorem run_plain (pkts : List (List Byte)) (out : List Byte) :
    runDepack (stateless plainDepacketize) pkts () out none = .ok ((), out ++ pkts.flatten, none) := by
  induction pkts generalizing out with
  | nil => simp [runDepack]
  | cons p ps ih => simp [runDepack, stateless, plainDepacketize, ih]

/-- C23, Opus: no panic, no error; every packet at most the MTU and never empty; together, in order,
the frame; depacketizing them appends the frame. -/
theorem C23_opus (mtu : Nat) (hm : 0 < mtu) (payload : List Byte) :
    ∃ pkts, opusPacketize mtu payload = .ok pkts ∧ FitsMtu mtu pkts ∧ (∀ p ∈ pkts, p ≠ []) ∧ pkts.flatten = payload ∧
      ∀ out, runDepack (stateless plainDepacketize) pkts () out none = .ok ((), out ++ payload, none) := by
  unfold opusPacketize
  by_cases h0 : payload = []
  · subst h0
    exact ⟨[], by simp, by simp [FitsMtu], by simp, rfl, fun out => by simp [runDepack]⟩
  · rw [if_neg (by simp [h0]; omega), opusGo_eq mtu hm]
    obtain ⟨ps, h1, h2, h3⟩ := vp9Go_pieces (fun _ _ => []) mtu hm payload (payload.length + 1) payload.length 0 (by omega) (by omega)
    rw [withHdr_nil] at h1
    refine ⟨ps, h1, fun p hp => (h3 p hp).2, fun p hp h => ?_, h2, fun out => ?_⟩
    · have := (h3 p hp).1; rw [h] at this; simp at this
    · rw [run_plain, h2]; rfl

/-- C23, G.711 and G.722. -/
theorem C23_g7xx (mtu : Nat) (hm : 0 < mtu) (payload : List Byte) :
    ∃ pkts, g7xxPacketize mtu payload = .ok pkts ∧ FitsMtu mtu pkts ∧ (∀ p ∈ pkts, p ≠ []) ∧ pkts.flatten = payload ∧
      ∀ out, runDepack (stateless plainDepacketize) pkts () out none = .ok ((), out ++ payload, none) := by
  unfold g7xxPacketize
  by_cases h0 : payload = []
  · subst h0
    exact ⟨[], by simp, by simp [FitsMtu], by simp, rfl, fun out => by simp [runDepack]⟩
  · rw [if_neg (by simp [h0]; omega), g7xxGo_eq mtu]
    obtain ⟨ps, h1, h2, h3⟩ := vp9Go_pieces (fun _ _ => []) mtu hm payload (payload.length + 1) payload.length 0 (by omega) (by omega)
    rw [withHdr_nil] at h1
    refine ⟨ps, h1, fun p hp => (h3 p hp).2, fun p hp h => ?_, h2, fun out => ?_⟩
    · have := (h3 p hp).1; rw [h] at this; simp at this
    · rw [run_plain, h2]; rfl

/-- C23, comfort noise: either one packet that fits, or an error, never a packet over the MTU. -/
theorem C23_comfort_noise (mtu : Nat) (payload : List Byte) :
    (payload.length ≤ mtu → ∃ pkts, cnPacketize mtu payload = .ok pkts ∧ FitsMtu mtu pkts ∧ pkts.flatten = payload ∧
      ∀ out, runDepack (stateless cnDepacketize) pkts () out none = .ok ((), out ++ payload, none)) ∧
    (mtu < payload.length → cnPacketize mtu payload = .err .payloadTooLarge) := by
  unfold cnPacketize
  by_cases h0 : payload = []
  · subst h0
    refine ⟨fun _ => ⟨[], by simp, by simp [FitsMtu], rfl, fun out => by simp [runDepack]⟩, fun h => by simp at h⟩
  · rw [if_neg h0]
    refine ⟨fun h => ⟨[payload], by rw [if_neg (by omega)], by simpa [FitsMtu] using h, by simp, fun out => ?_⟩, fun h => by rw [if_pos h]⟩
    simp [runDepack, stateless, cnDepacketize, h0]

/-- C23, the null packetizer ignores the MTU: any frame comes out as one packet of its size. -/
theorem C23_null_ignores_mtu_violation (mtu : Nat) (payload : List Byte) : nullPacketize mtu payload = .ok [payload] := rfl

example : ¬ FitsMtu 2 [[1, 2, 3]] := by simp [FitsMtu]

example : opusPacketize 2 [1, 2, 3, 4, 5] = .ok [[1, 2], [3, 4], [5]] := by decide +kernel

/-! ### VP8 -/

theorem vp8Header_length (p : Vp8P) (f : Bool) : (vp8Header p f).length = vp8HeaderSize p := by
  unfold vp8Header vp8HeaderSize
  dsimp only
  split
  · split <;> rfl
  · rfl

theorem vp8Head_header (p : Vp8P) (f l : Bool) (x : List Byte) : vp8Head ((fun f _ => vp8Header p f) f l ++ x) = f := by
  unfold vp8Header
  dsimp only
  cases f <;> (split <;> [split; skip]) <;> simp [vp8Head, bit]

theorem vp8Packetize_pieces (p : Vp8P) (mtu : Nat) (hm : vp8HeaderSize p < mtu) (payload : List Byte) (hne : payload ≠ []) :
    ∃ ps, vp8Packetize p mtu payload = .ok (withHdr (fun f _ => vp8Header p f) true ps, { p with pictureId := (p.pictureId + 1) % 2 ^ 15 }) ∧
      ps.flatten = payload ∧ (∀ x ∈ ps, 0 < x.length ∧ x.length ≤ mtu - vp8HeaderSize p) := by
  unfold vp8Packetize
  rw [if_neg (by simp [hne]; omega), if_neg (by omega)]
  have := vp8Go_eq p (mtu - vp8HeaderSize p) (by omega) payload (payload.length + 1) payload.length 0
  rw [show ((0 : Nat) == 0) = true from rfl] at this
  rw [this]
  obtain ⟨ps, h1, h2, h3⟩ := vp9Go_pieces (fun f _ => vp8Header p f) (mtu - vp8HeaderSize p) (by omega) payload (payload.length + 1) payload.length 0 (by omega) (by omega)
  rw [h1]
  exact ⟨ps, rfl, h2, h3⟩

/-- C23, VP8: for every non-empty frame and every MTU above the descriptor size, the packets fit, only
the first is a partition head, and a receiver in any state that gets them in order appends exactly the
frame, reports a key frame iff the frame is one (or already had one in this sample), and the sender's
picture id modulo what is on the wire. -/
theorem C23_vp8 (p : Vp8P) (hp : p.pictureId < 2 ^ 15) (mtu : Nat) (hm : vp8HeaderSize p < mtu) (payload : List Byte) (hne : payload ≠ []) :
    ∃ pkts, vp8Packetize p mtu payload = .ok (pkts, { p with pictureId := (p.pictureId + 1) % 2 ^ 15 }) ∧ FitsMtu mtu pkts ∧
      (∃ n, pkts.map vp8Head = true :: List.replicate n false) ∧
      ∀ (d : Vp8D) (out : List Byte), (∀ n, d.extendedPid = some n → n < 2 ^ 64) →
        ∃ d' x, runDepack vp8Depacketize pkts d out none = .ok (d', out ++ payload, some x) ∧
          (x.isKeyframe = true ↔ Vp8KeyFrame payload) ∧ x.discardable = false ∧ x.tl0PictureId = none ∧
          (p.enablePictureId = false → x.pictureId = none) ∧
          (p.enablePictureId = true → ∃ n, x.pictureId = some n ∧ n % 128 = p.pictureId % 128 ∧
            (128 ≤ p.pictureId → n % 2 ^ 15 = p.pictureId)) := by
  obtain ⟨ps, h1, h2, h3⟩ := vp8Packetize_pieces p mtu hm payload hne
  have hps : ps ≠ [] := by rintro rfl; exact hne h2.symm
  refine ⟨_, h1, ?_, ?_, ?_⟩
  · intro q hq
    obtain ⟨g, l, x, hx, rfl, -⟩ := withHdr_mem _ ps true q hq
    have := (h3 x hx).2
    rw [List.length_append, vp8Header_length]
    omega
  · cases ps with
    | nil => exact absurd rfl hps
    | cons x xs => exact ⟨xs.length, withHdr_heads _ vp8Head (vp8Head_header p) xs true x⟩
  · intro d out hd
    let Q : Vp8Extra → Prop := fun x => x.discardable = false ∧ x.tl0PictureId = none ∧
          (p.enablePictureId = false → x.pictureId = none) ∧
          (p.enablePictureId = true → ∃ n, x.pictureId = some n ∧ n % 128 = p.pictureId % 128 ∧
            (128 ≤ p.pictureId → n % 2 ^ 15 = p.pictureId))
    let P : Bool → Vp8D → List Byte → Option Vp8Extra → Prop := fun f d o e =>
      (∀ n, d.extendedPid = some n → n < 2 ^ 64) ∧
      (if f then o = out ∧ e = none else ∃ c r x, o = out ++ c :: r ∧ e = some x ∧ x.isKeyframe = (bit c 0 == 0) ∧ Q x)
    obtain ⟨s', e', hr, hP⟩ := run_withHdr vp8Depacketize (fun f _ => vp8Header p f) P (by
      intro f l s o e x hx hP
      cases x with
      | nil => exact absurd rfl hx
      | cons c r =>
        obtain ⟨d', y, k1, k2, k3, k4⟩ := vp8Step p hp s hP.1 f o e c r
        refine ⟨d', some y, k1, k2, ?_⟩
        rw [if_neg (by simp)]
        cases f with
        | true =>
          have hh := hP.2
          rw [if_pos rfl] at hh
          obtain ⟨rfl, rfl⟩ := hh
          exact ⟨c, r, y, rfl, rfl, by rw [k3]; simp [vp8Was], k4⟩
        | false =>
          have hh := hP.2
          rw [if_neg (by simp)] at hh
          obtain ⟨c0, r0, x0, rfl, rfl, hk, -⟩ := hh
          refine ⟨c0, r0 ++ c :: r, y, by simp, rfl, by rw [k3, ← hk]; simp [vp8Was], k4⟩) ps true d out none
      (fun x hx h => by have := (h3 x hx).1; rw [h] at this; simp at this) ⟨hd, by simp⟩
    rw [h2] at hr hP
    have hh := (hP hps).2
    rw [if_neg (by simp)] at hh
    obtain ⟨c, r, x, ho, rfl, hk, hq⟩ := hh
    have hpl : payload = c :: r := List.append_cancel_left ho
    refine ⟨s', x, hr, ?_, hq⟩
    rw [hk, hpl]
    constructor
    · intro hb
      exact ⟨c, r, rfl, by have := beq_iff_eq.1 hb; simpa [bit] using this⟩
    · rintro ⟨b, rest, hb, hz⟩
      cases hb
      simpa [bit] using hz

/-- C23, VP8, an MTU that does not leave room for the descriptor: the frame is dropped without an error. -/
theorem C23_vp8_small_mtu_violation (p : Vp8P) (mtu : Nat) (hm : mtu ≤ vp8HeaderSize p) (payload : List Byte) :
    vp8Packetize p mtu payload = .ok ([], p) := by
  unfold vp8Packetize
  rw [if_pos hm]
  split <;> rfl

example : ∃ d x, runDepack vp8Depacketize [[0x90, 0x80, 0x81, 0x00, 0x10, 2], [0x80, 0x80, 0x81, 0x00, 3]] ⟨none, none, 0, 0, 0⟩ [9] none
    = .ok (d, [9, 0x10, 2, 3], some x) ∧ x.isKeyframe = true ∧ x.pictureId = some 256 :=
  ⟨⟨some 256, none, 0, 0, 0⟩, ⟨false, false, 0, some 256, none, true⟩, by decide +kernel, rfl, rfl⟩

example : vp8Packetize ⟨true, 256⟩ 6 [0x10, 2, 3] = .ok ([[0x90, 0x80, 0x81, 0x00, 0x10, 2], [0x80, 0x80, 0x81, 0x00, 3]], ⟨true, 257⟩) := by
  decide +kernel

/-- C24, VP8: no bytes, in any state, panic the depacketizer. -/
theorem C24_vp8 (d : Vp8D) (packet out : List Byte) (extra : Option Vp8Extra) :
    (vp8Depacketize d packet out extra).NoPanic := vp8Safe d packet out extra

/-! ### VP9 -/

theorem vp9HeaderN_length (p : Vp9P) (k f l : Bool) : (vp9HeaderN p k f l).length ≤ 6 := by
  unfold vp9HeaderN
  cases k <;> cases f <;> simp

theorem vp9Head_headerN (p : Vp9P) (k f l : Bool) (x : List Byte) : vp9Head (vp9HeaderN p k f l ++ x) = f := by
  unfold vp9HeaderN
  cases k <;> cases f <;> cases l <;> simp [vp9Head, bit]

theorem vp9Head_headerF (p : Vp9P) (f l : Bool) (x : List Byte) : vp9Head (vp9HeaderF p f l ++ x) = f := by
  unfold vp9HeaderF
  cases f <;> cases l <;> simp [vp9Head, bit]

/-- The packetizer after the first use: the initial picture id is random. -/
def vp9Started (rng : Nat) (p : Vp9P) : Vp9P := if p.initialized then p else { p with pictureId := rng % 2 ^ 15, initialized := true }

/-- C23, VP9, non-flexible mode: for every frame and MTU above 8, the packets fit, only the first is a
partition head, and a receiver in any state appends exactly the frame and reports the sender's picture
id and a key frame iff the packetizer took the frame for one. -/
theorem C23_vp9 (rng : Nat) (p : Vp9P) (hp : p.pictureId < 2 ^ 15) (hf : p.flexible = false) (mtu : Nat) (hm : 8 < mtu)
    (payload : List Byte) (hne : payload ≠ []) :
    ∃ pkts p', vp9Packetize rng p mtu payload = .ok (pkts, p') ∧ p'.pictureId < 2 ^ 15 ∧ p'.initialized = true ∧ FitsMtu mtu pkts ∧
      (∃ n, pkts.map vp9Head = true :: List.replicate n false) ∧
      ∀ (d : Vp9D) (out : List Byte),
        ∃ d' x, runDepack vp9Depacketize pkts d out none = .ok (d', out ++ payload, some x) ∧
          x.isKeyframe = vp9Keyframe payload ∧ x.pid = (vp9Started rng p).pictureId ∧
          x.tl0PictureId = some ((p.tl0picidx + 1) % 256) ∧ x.tid = some 0 ∧
          x.layersScheme[0]? = some (some (out ++ payload).length) := by
  have hp0 : (vp9Started rng p).pictureId < 2 ^ 15 := by
    unfold vp9Started; split
    · exact hp
    · exact Nat.mod_lt _ (by decide)
  have hf0 : (vp9Started rng p).flexible = false := by
    unfold vp9Started; split <;> exact hf
  have ht0 : (vp9Started rng p).tl0picidx = p.tl0picidx := by
    unfold vp9Started; split <;> rfl
  have hi0 : (vp9Started rng p).initialized = true := by
    unfold vp9Started; split
    · assumption
    · rfl
  let p1 : Vp9P := { vp9Started rng p with tl0picidx := ((vp9Started rng p).tl0picidx + 1) % 256 }
  obtain ⟨ps, h1, h2, h3⟩ := vp9Go_pieces (vp9HeaderN p1 (vp9Keyframe payload)) (mtu - 8) (by omega) payload (payload.length + 1) payload.length 0 (by omega) (by omega)
  have hps : ps ≠ [] := by rintro rfl; exact hne h2.symm
  refine ⟨withHdr (vp9HeaderN p1 (vp9Keyframe payload)) true ps, { p1 with pictureId := (p1.pictureId + 1) % 2 ^ 15 }, ?_, Nat.mod_lt _ (by decide), hi0, ?_, ?_, ?_⟩
  · unfold vp9Packetize
    rw [if_neg (by simp [hne]; omega)]
    show (if (vp9Started rng p).flexible = true then _ else _) = _
    rw [if_neg (by rw [hf0]; simp)]
    show (if mtu ≤ 8 then _ else _) = _
    rw [if_neg (by omega)]
    show (vp9Go (vp9HeaderN p1 (vp9Keyframe payload)) (mtu - 8) payload (payload.length + 1) payload.length 0 >>= _) = _
    rw [h1]
    rfl
  · intro q hq
    obtain ⟨g, l, x, hx, rfl, -⟩ := withHdr_mem _ ps true q hq
    have := (h3 x hx).2
    have := vp9HeaderN_length p1 (vp9Keyframe payload) g l
    rw [List.length_append]
    omega
  · cases ps with
    | nil => exact absurd rfl hps
    | cons x xs => exact ⟨xs.length, withHdr_heads _ vp9Head (vp9Head_headerN p1 _) xs true x⟩
  · intro d out
    let P : Bool → Vp9D → List Byte → Option Vp9Extra → Prop := fun f _ o e =>
      if f then e = none else ∃ x, e = some x ∧ x.isKeyframe = vp9Keyframe payload ∧ x.pid = p1.pictureId ∧
        x.tl0PictureId = some p1.tl0picidx ∧ x.tid = some 0 ∧ x.layersScheme.length = 3 ∧ x.layersScheme[0]? = some (some o.length)
    obtain ⟨s', e', hr, hP⟩ := run_withHdr vp9Depacketize (vp9HeaderN p1 (vp9Keyframe payload)) P (by
      intro f l s o e x hx hP
      have he : ∀ y, e = some y → y.layersScheme.length = 3 ∧ (y.layersScheme[0]? = some none ∨ y.layersScheme[0]? = some (some o.length)) := by
        intro y hy
        cases f with
        | true => rw [show P true s o e = (e = none) from rfl] at hP; rw [hP] at hy; cases hy
        | false =>
          obtain ⟨z, hz, -, -, -, -, h5, h6⟩ := (show ∃ x, e = some x ∧ _ from hP)
          rw [hz] at hy; cases hy
          exact ⟨h5, Or.inr h6⟩
      obtain ⟨d', y, k1, k2, k3, -, -, k4, k5, k6, k7⟩ := vp9StepN p1 hp0 (Nat.mod_lt _ (by decide)) (vp9Keyframe payload) s f l o e x he
      refine ⟨d', some y, k1, y, rfl, ?_, k5, k6, k7, k2, k3⟩
      rw [k4]
      cases f with
      | true => rw [show P true s o e = (e = none) from rfl] at hP; subst hP; simp [vp9Base, Vp9Extra.init]
      | false =>
        obtain ⟨z, rfl, h4, -⟩ := (show ∃ x, e = some x ∧ _ from hP)
        simp [vp9Base, h4]) ps true d out none
      (fun x hx h => by have := (h3 x hx).1; rw [h] at this; simp at this) rfl
    rw [h2] at hr hP
    obtain ⟨x, rfl, a1, a2, a3, a4, -, a6⟩ := (show ∃ x, e' = some x ∧ _ from hP hps)
    refine ⟨s', x, hr, a1, a2, ?_, a4, a6⟩
    rw [a3]
    show some (((vp9Started rng p).tl0picidx + 1) % 256) = _
    rw [ht0]

/-- C23, the packetizer's key frame test agrees with the VP9 bitstream for profiles 0, 1 and 3. -/
theorem C23_vp9_keyframe (frame : List Byte) (h : ∀ b rest, frame = b :: rest → vp9Profile b ≠ 2) :
    vp9Keyframe frame = true ↔ Vp9KeyFrame frame := by
  cases frame with
  | nil => simp [vp9Keyframe, Vp9KeyFrame]
  | cons b rest =>
    have h := h b rest rfl
    have key : ∀ b : Byte, vp9Profile b ≠ 2 → (vp9Keyframe [b] = true ↔ (bits b 0 2 = 2 ∧
      (if bits b 2 1 = 1 ∧ bits b 3 1 = 1 then bits b 5 1 = 0 ∧ bits b 6 1 = 0 else bits b 4 1 = 0 ∧ bits b 5 1 = 0))) := by
      decide +kernel
    have := key b h
    rw [show vp9Keyframe (b :: rest) = vp9Keyframe [b] from rfl, this]
    constructor
    · intro hh; exact ⟨b, rest, rfl, hh⟩
    · rintro ⟨c, r, hc, hh⟩
      cases hc
      exact hh

/-- C23, the same test is wrong for profile 2 (10 and 12 bit 4:2:0): the first byte 0x92 is that of a
shown key frame, and the packetizer marks the frame as inter-predicted.  Only profile 3 has a
reserved bit before `show_existing_frame`. -/
theorem C23_vp9_profile2_violation : Vp9KeyFrame [0x92, 0x49, 0x83, 0x42] ∧ vp9Keyframe [0x92, 0x49, 0x83, 0x42] = false :=
  ⟨⟨0x92, [0x49, 0x83, 0x42], rfl, by decide⟩, by decide⟩

/-- C23, VP9, flexible mode: the packets fit and give back the frame, but the receiver always reports a
key frame, since the packetizer never sets the P bit. -/
theorem C23_vp9_flexible_keyframe_violation (rng : Nat) (p : Vp9P) (hp : p.pictureId < 2 ^ 15) (hf : p.flexible = true) (mtu : Nat) (hm : 3 < mtu)
    (payload : List Byte) (hne : payload ≠ []) :
    ∃ pkts p', vp9Packetize rng p mtu payload = .ok (pkts, p') ∧ FitsMtu mtu pkts ∧
      (∃ n, pkts.map vp9Head = true :: List.replicate n false) ∧
      ∀ (d : Vp9D) (out : List Byte),
        ∃ d' x, runDepack vp9Depacketize pkts d out none = .ok (d', out ++ payload, some x) ∧ x.isKeyframe = true ∧
          x.pid = (vp9Started rng p).pictureId := by
  have hp0 : (vp9Started rng p).pictureId < 2 ^ 15 := by
    unfold vp9Started; split
    · exact hp
    · exact Nat.mod_lt _ (by decide)
  have hf0 : (vp9Started rng p).flexible = true := by
    unfold vp9Started; split <;> exact hf
  obtain ⟨ps, h1, h2, h3⟩ := vp9Go_pieces (vp9HeaderF (vp9Started rng p)) (mtu - 3) (by omega) payload (payload.length + 1) payload.length 0 (by omega) (by omega)
  have hps : ps ≠ [] := by rintro rfl; exact hne h2.symm
  refine ⟨withHdr (vp9HeaderF (vp9Started rng p)) true ps, { vp9Started rng p with pictureId := ((vp9Started rng p).pictureId + 1) % 2 ^ 15 }, ?_, ?_, ?_, ?_⟩
  · unfold vp9Packetize
    rw [if_neg (by simp [hne]; omega)]
    show (if (vp9Started rng p).flexible = true then _ else _) = _
    rw [if_pos hf0, if_neg (by omega)]
    show (vp9Go (vp9HeaderF (vp9Started rng p)) (mtu - 3) payload (payload.length + 1) payload.length 0 >>= _) = _
    rw [h1]
    rfl
  · intro q hq
    obtain ⟨g, l, x, hx, rfl, -⟩ := withHdr_mem _ ps true q hq
    have := (h3 x hx).2
    rw [List.length_append, show (vp9HeaderF (vp9Started rng p) g l).length = 3 from rfl]
    omega
  · cases ps with
    | nil => exact absurd rfl hps
    | cons x xs => exact ⟨xs.length, withHdr_heads _ vp9Head (vp9Head_headerF _) xs true x⟩
  · intro d out
    let P : Bool → Vp9D → List Byte → Option Vp9Extra → Prop := fun f _ _ e =>
      if f then True else ∃ x, e = some x ∧ x.isKeyframe = true ∧ x.pid = (vp9Started rng p).pictureId
    obtain ⟨s', e', hr, hP⟩ := run_withHdr vp9Depacketize (vp9HeaderF (vp9Started rng p)) P (by
      intro f l s o e x hx hP
      obtain ⟨d', y, k1, k2, k3⟩ := vp9StepF (vp9Started rng p) hp0 s f l o e x
      refine ⟨d', some y, k1, y, rfl, ?_, k3⟩
      rw [k2]
      cases f with
      | true => simp
      | false =>
        obtain ⟨z, rfl, h4, -⟩ := (show ∃ x, e = some x ∧ _ from hP)
        simp [vp9Base, h4]) ps true d out none
      (fun x hx h => by have := (h3 x hx).1; rw [h] at this; simp at this) trivial
    rw [h2] at hr hP
    obtain ⟨x, rfl, a1, a2⟩ := (show ∃ x, e' = some x ∧ _ from hP hps)
    exact ⟨s', x, hr, a1, a2⟩

/-- C24, VP9: no bytes panic the depacketizer, in any state with the fixed array sizes; a success only
ever appends a suffix of the packet. -/
theorem C24_vp9 (d : Vp9D) (hd : d.widths.length = 3 ∧ d.heights.length = 3) (packet out : List Byte) (extra : Option Vp9Extra)
    (he : ∀ y, extra = some y → y.layersScheme.length = 3) :
    (vp9Depacketize d packet out extra).NoPanic ∧
    ∀ d' out' extra', vp9Depacketize d packet out extra = .ok (d', out', extra') →
      (d'.widths.length = 3 ∧ d'.heights.length = 3) ∧ (∀ y, extra' = some y → y.layersScheme.length = 3) ∧
      ∃ k, k ≤ packet.length ∧ out' = out ++ packet.drop k := by
  have h := vp9Safe d hd packet out extra he
  exact ⟨h.1, fun d' out' extra' heq => h.2 _ heq⟩

example : (Vp9D.init.widths.length = 3 ∧ Vp9D.init.heights.length = 3) ∧ Vp9Extra.init.layersScheme.length = 3 := by decide

/-- C24, violation: the description of picture groups is appended to the depacketizer's state and never
cleared, so a peer makes it grow without bound: every such packet adds an entry. -/
theorem C24_vp9_memory_violation (d : Vp9D) : ∃ d' x, vp9Depacketize d [u8 0x02, u8 0x02, u8 0x01, u8 0x20, u8 0x55] [] none = .ok (d', [u8 0x55], some x) ∧
    d'.pgtid.length = d.pgtid.length + 1 ∧ d'.pgpdiff.length = d.pgpdiff.length + 1 := by
  simp [vp9Depacketize, getU8, vp9Ss, vp9Pg, vp9PgDiffs, vp9UpdateExtra, bit, Res.from_]

/-- C24, the other codecs never panic. -/
theorem C24_plain (packet out : List Byte) : (plainDepacketize packet out).NoPanic ∧ (cnDepacketize packet out).NoPanic := by
  refine ⟨trivial, ?_⟩
  unfold cnDepacketize
  split <;> trivial

end Str0m.Packet
