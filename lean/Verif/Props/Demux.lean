import Verif.Model.Demux
/-
  C02: datagram classification.
-/
namespace Str0m

/-- Independent specification, one row per protocol (RFC 7983 first-byte ranges, RFC 5761
section 4 for RTCP; STUN methods `< 0x200` have a first byte 0 or 1 and a 20 byte header;
an RTP/RTCP datagram must have at least three bytes). -/
def Carries : MultiplexKind → List Byte → Prop
  | .stun, d => ∃ b0 rest, d = b0 :: rest ∧ b0.val ∈ [0, 1] ∧ 20 ≤ d.length
  | .dtls, d => ∃ b0 rest, d = b0 :: rest ∧ 20 ≤ b0.val ∧ b0.val ≤ 63
  | .rtcp, d => ∃ b0 b1 b2 rest, d = b0 :: b1 :: b2 :: rest ∧ 128 ≤ b0.val ∧ b0.val ≤ 191 ∧
      (64 ≤ b1.val ∧ b1.val ≤ 95 ∨ 192 ≤ b1.val ∧ b1.val ≤ 223)
  | .rtp, d => ∃ b0 b1 b2 rest, d = b0 :: b1 :: b2 :: rest ∧ 128 ≤ b0.val ∧ b0.val ≤ 191 ∧
      ¬ (64 ≤ b1.val ∧ b1.val ≤ 95 ∨ 192 ≤ b1.val ∧ b1.val ≤ 223)

/-- C02: for every byte string and every protocol, str0m routes the datagram to that
protocol iff the table says so; and it never panics. -/
theorem C02_demux (d : List Byte) (k : MultiplexKind) :
    (MultiplexKind.tryFrom d = .ok k ↔ Carries k d) ∧ (MultiplexKind.tryFrom d).NoPanic := by
  match d with
  | [] => cases k <;> simp [MultiplexKind.tryFrom, Carries]
  | [b0] =>
    have : ¬ (128 ≤ b0.val ∧ b0.val < 192 ∧ 2 < 1) := by omega
    cases k <;> simp [MultiplexKind.tryFrom, Carries, Res.idx] <;> split <;> simp <;> omega
  | [b0, b1] =>
    cases k <;> simp [MultiplexKind.tryFrom, Carries, Res.idx] <;> split <;> simp <;> omega
  | b0 :: b1 :: b2 :: rest =>
    constructor
    · cases k <;> simp [MultiplexKind.tryFrom, Carries, Res.idx] <;>
        (repeat' split) <;> simp <;> omega
    · simp [MultiplexKind.tryFrom, Res.idx]
      (repeat' split) <;> simp

/-- C02: the protocol classes are disjoint. -/
theorem C02_disjoint (d : List Byte) (k k' : MultiplexKind) (h : Carries k d)
    (h' : Carries k' d) : k = k' := by
  have a := (C02_demux d k).1.2 h
  have b := (C02_demux d k').1.2 h'
  rw [a] at b; cases b; rfl

/-- Non-vacuity: one datagram per class. -/
example : Carries .dtls [22] ∧ Carries .rtp [128, 96, 0] ∧ Carries .rtcp [128, 200, 0] ∧
    Carries .stun (List.replicate 20 0) := by
  refine ⟨⟨22, [], by decide⟩, ⟨128, 96, 0, [], by decide⟩, ⟨128, 200, 0, [], by decide⟩,
    ⟨0, List.replicate 19 0, by decide⟩⟩

end Str0m
