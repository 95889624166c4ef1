import Verif.Props.Vp8Desc
/-
  C63: the VP8 descriptor, the key frame detector and the depacketizer read the same thing.
-/
namespace Str0m.Vp8Desc
open Str0m.Packet (bit)

set_option maxHeartbeats 8000000 in
/-- C63, the three VP8 readers agree: when the descriptor parses, the key frame detector, the
descriptor and the depacketizer (in any state) give the same answer, and the depacketizer delivers
exactly the bytes after the descriptor, with a picture id congruent to the descriptor's. -/
theorem C63_readers_agree (payload : List Byte) (d : Desc) (hd : parse payload = .ok d) :
    Packet.detectVp8Keyframe payload = .ok (d.startsKeyframe payload) ∧
    ∀ (st : Packet.Vp8D) (out : List Byte), ∃ st' x,
      Packet.vp8Depacketize st payload out none = .ok (st', out ++ payload.drop d.payloadOffset, some x) ∧
      x.isKeyframe = d.startsKeyframe payload ∧ (x.pictureId.isSome ↔ d.pictureId.isSome) ∧ (x.tl0PictureId.isSome ↔ d.tl0PicIdx.isSome) := by
  rcases parse_inv payload d hd with ⟨b0, c, m, rfl, h0, rfl⟩ | ⟨b0, ext, p, t, k, c, m, rfl, h0, hp, ht, hk, rfl⟩
  · have h1 : b0.val / 128 % 2 = 0 := by simpa [bit] using h0
    refine ⟨?_, fun st out => ?_⟩
    · rcases bit01 b0 4 with h4 | h4 <;> by_cases h8 : b0.val % 8 = 0 <;>
        simp [Packet.detectVp8Keyframe, Desc.startsKeyframe, h0, h4, h8, Res.idx]
    · rcases bit01 b0 4 with h4 | h4 <;> by_cases h8 : b0.val % 8 = 0 <;>
        simp [Packet.vp8Depacketize, Packet.getU8, Packet.vp8Ext, Packet.vp8PictureId, Packet.vp8Tl0, Packet.vp8Tid, Res.from_,
          Packet.vp8Was, Desc.startsKeyframe, Desc.pictureId, Desc.tl0PicIdx, h0, h4, h8]
  · have h5' := bit01 ext 5
    have h4' := bit01 ext 4
    rcases bit01 b0 4 with b4 | b4 <;> by_cases b8 : b0.val % 8 = 0 <;>
    rcases ht with ⟨h6, h5, ht⟩ | ⟨h6, ht⟩ <;> rcases hk with ⟨h54, hk⟩ | ⟨h5b, h4, hk⟩
    all_goals first
      | (exfalso; omega)
      | skip
    all_goals first
      | (obtain ⟨tb, rfl⟩ := Option.isSome_iff_exists.1 ht)
      | subst ht
    all_goals first
      | (obtain ⟨kb, rfl⟩ := Option.isSome_iff_exists.1 hk)
      | subst hk
    all_goals
      rcases h5' with q5 | q5 <;> rcases h4' with q4 | q4 <;> first
        | (exfalso; omega)
        | skip
    all_goals
      cases p with
      | absent =>
        have h7 : bit ext 7 = 0 := hp
        refine ⟨?_, fun st out => ?_⟩ <;>
        simp [Packet.detectVp8Keyframe, Packet.vp8Depacketize, Packet.getU8, Packet.vp8Ext, Packet.vp8PictureId, Packet.vp8Tl0, Packet.vp8Tid, Res.from_, Res.idx,
          Packet.vp8Was, Desc.startsKeyframe, Desc.pictureId, Desc.tl0PicIdx, descOf, PidBytes.desc, PidBytes.bytes, optList, h0, b4, b8, h6, q5, q4, h7]
      | short a =>
        obtain ⟨h7, ha⟩ := hp
        refine ⟨?_, fun st out => ?_⟩ <;>
        simp [Packet.detectVp8Keyframe, Packet.vp8Depacketize, Packet.getU8, Packet.vp8Ext, Packet.vp8PictureId, Packet.vp8Tl0, Packet.vp8Tid, Res.from_, Res.idx,
          Packet.vp8Was, Desc.startsKeyframe, Desc.pictureId, Desc.tl0PicIdx, descOf, PidBytes.desc, PidBytes.bytes, optList, h0, b4, b8, h6, q5, q4, h7, ha]
      | long a b =>
        obtain ⟨h7, ha⟩ := hp
        refine ⟨?_, fun st out => ?_⟩ <;>
        simp [Packet.detectVp8Keyframe, Packet.vp8Depacketize, Packet.getU8, Packet.vp8Ext, Packet.vp8PictureId, Packet.vp8Tl0, Packet.vp8Tid, Res.from_, Res.idx,
          Packet.vp8Was, Desc.startsKeyframe, Desc.pictureId, Desc.tl0PicIdx, descOf, PidBytes.desc, PidBytes.bytes, optList, h0, b4, b8, h6, q5, q4, h7, ha]

/-- C63, without the descriptor's check of L against T the key frame detector accepts what both other
readers reject. -/
theorem C63_detector_malformed_violation : Packet.detectVp8Keyframe [0x90, 0x40, 0x01, 0x00] = .ok true ∧
    parse [0x90, 0x40, 0x01, 0x00] = .err .malformed ∧
    ∀ st, Packet.vp8Depacketize st [u8 0x90, u8 0x40, u8 0x01, u8 0x00] [] none = .err .vp8Corrupted := by
  refine ⟨by decide, by decide, fun st => ?_⟩
  simp [Packet.vp8Depacketize, Packet.getU8, Packet.vp8Ext, bit]

/-- C63, the layer fields of a VP8 packet without TID are those of an earlier packet. -/
theorem C63_sticky_layer_violation (st : Packet.Vp8D) (out : List Byte) : ∃ st' x,
    Packet.vp8Depacketize { st with tid := 2, y := 1 } [u8 0x00, u8 0x77] out none = .ok (st', out ++ [u8 0x77], some x) ∧
    x.layerIndex = 2 ∧ x.sync = true := by
  simp [Packet.vp8Depacketize, Packet.getU8, Packet.vp8Ext, Packet.vp8PictureId, Packet.vp8Tl0, Packet.vp8Tid, Res.from_, bit]

end Str0m.Vp8Desc
