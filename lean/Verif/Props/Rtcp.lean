import Verif.Proofs.RtcpPack
/-
  C13 RTCP round trip, C14 totality of RTCP parsing, C15 packing, C17 TWCC wire round trip.

  `utf8` is the UTF-8 validity check of the standard library; nothing is assumed about it
  except, in `WF`, that the texts of an SDES are accepted by it.
-/
namespace Str0m.Rtcp
open Res

/-! ### C13 -/

/-- C13 (partial). Any sequence of well-formed messages, serialised one after the other, is
`length_words` words per message long, `write_to` returns that length, and reading the
datagram yields the same messages in the same order.

Partial because `WF` excludes, for messages the API can express: TWCC messages in which a
chunk with deltas follows a run of large deltas (the parser misreads them, see
`C17_violation`); REMB bitrates that are not an 18 bit mantissa times a power of two (they are
rounded), or zero (see `C13_violation_remb_zero`); application feedback whose payload is not a
whole number of words (it is zero padded, see `C13_violation_app`) or looks like REMB; and
BYE, NACK and FIR without any entry. -/
theorem C13_round_trip_partial {utf8 : List Byte → Bool} {ps : List Rtcp}
    (h : ∀ p ∈ ps, p.WF utf8) :
    (∀ p ∈ ps, ∃ b, p.encode = .ok b ∧ b.length = p.lengthWords * 4 ∧ p.written = b.length) ∧
    ∃ b, encodeAll ps = .ok b ∧ readPacket utf8 b = .ok ps := by
  constructor
  · intro p hp
    obtain ⟨b, hb⟩ := wire (h p hp)
    exact ⟨b, hb.enc, hb.len, written_eq hb (h p hp)⟩
  · obtain ⟨b, h1, _, h2⟩ := readLoop_all h
    exact ⟨b, h1, h2 _ (by omega)⟩

/-- Reading one message of a datagram consumes exactly the announced number of words,
whatever follows it. -/
theorem C13_consumes_partial {utf8 : List Byte → Bool} {p : Rtcp} (h : p.WF utf8) {b : List Byte}
    (hb : p.encode = .ok b) (rest : List Byte) {vs : List Rtcp}
    (hr : readPacket utf8 rest = .ok vs) :
    ∃ fuel, readLoop utf8 fuel (b ++ rest) = .ok (p :: vs) := by
  obtain ⟨b', hb'⟩ := wire h
  have : b' = b := by have := hb'.enc; rw [hb] at this; injection this with h; exact h.symm
  subst this
  exact ⟨_, readLoop_cons hb' rest hr⟩

/-- A compound packet with one message of (almost) every kind. -/
def sampleMessages : List Rtcp :=
  [.sr ⟨1, 2^40 + 7, 3, 4, 5⟩ [⟨1, 2, 3, 4, 5, 6, 7⟩],
   .sdes [⟨9, [(.cname, [65, 66])]⟩],
   .nack 1 2 [⟨65535, 5⟩],
   .pli 1 2,
   .fir 1 [⟨2, 255⟩],
   .twcc ⟨1, 2, 65535, 16, 5, 9, [.single 0x3fff 14, .run .large 2], List.replicate 14 (.small 4) ++ [.large (-3), .large 700]⟩,
   .remb 1 (0x3FFFF * 2^10) [7, 8],
   .app 1 2 [1, 2, 3, 4],
   .xr 5 [.rrtr (2^63), .dlrr [⟨1, 2, 3⟩]],
   .bye [1, 2, 3]]

example : (match encodeAll sampleMessages with
    | .ok b => decide (readPacket (fun _ => true) b = .ok sampleMessages)
    | _ => false) = true := by decide +kernel

/-- The hypothesis is met by a non-trivial sequence. -/
example : ∀ p ∈ [Rtcp.sr ⟨1, 2^40 + 7, 3, 4, 5⟩ [⟨1, 2, 3, 4, 5, 6, 7⟩], .remb 1 (0x3FFFF * 2^10) [7, 8],
    .bye [1, 2, 3]], p.WF (fun _ => true) := by
  intro p hp
  simp only [List.mem_cons, List.not_mem_nil, or_false] at hp
  rcases hp with rfl | rfl | rfl
  · exact ⟨⟨by decide, by decide, by decide, by decide, by decide⟩, by decide, fun r hr => by
      simp only [List.mem_cons, List.not_mem_nil, or_false] at hr
      subst hr; exact ⟨by decide, by decide, by decide, by decide, by decide, by decide, by decide⟩⟩
  · exact ⟨by decide, ⟨0x3FFFF, 10, by decide, by decide, by decide, rfl⟩, by decide, by decide⟩
  · exact ⟨by decide, by decide, by decide⟩

/-- C13 does not hold for a REMB of bitrate zero: it is read as 8388608 bit/s (remb.rs
143-152 does not treat a zero mantissa). -/
theorem C13_violation_remb_zero :
    ∃ b, (Rtcp.remb 1 0 []).encode = .ok b ∧
      readPacket (fun _ => true) b = .ok [.remb 1 8388608 []] := by
  refine ⟨_, rfl, ?_⟩; decide +kernel

/-- C13 does not hold for application feedback of a partial word: zeros are appended. -/
theorem C13_violation_app :
    ∃ b, (Rtcp.app 1 2 [7]).encode = .ok b ∧
      readPacket (fun _ => true) b = .ok [.app 1 2 [7, 0, 0, 0]] := by
  refine ⟨_, rfl, ?_⟩; decide +kernel

/-! ### C14 -/

theorem readLoop_count (utf8 : List Byte → Bool) : ∀ (fuel : Nat) (buf : List Byte) (vs : List Rtcp),
    readLoop utf8 fuel buf = .ok vs → 4 * vs.length ≤ buf.length
  | 0, _, _, h => by cases h
  | fuel + 1, buf, vs, h => by
    rw [readLoop] at h
    split at h
    · cases h; simp
    · split at h
      · cases h
      · cases h; simp
      · rename_i hd hh
        simp only [bind_def] at h
        split at h
        · cases h; simp
        · rename_i hfull
          have hpos : 4 ≤ hd.lengthWords * 4 := by simp [Header.lengthWords]
          have hu := unpadded_np (buf := buf) (full := hd.lengthWords * 4) (by omega) (by omega)
          cases hun : unpadded buf (hd.lengthWords * 4) with
          | panic => rw [hun] at hu; exact hu.elim
          | err e => rw [hun] at h; cases h
          | ok o =>
            rw [hun, bind_ok] at h
            cases o with
            | none => cases h; simp
            | some n =>
              have hn := unpadded_le (by omega) (by omega) hun
              simp only at h
              rw [upto_of_le (by omega), bind_ok] at h
              split at h
              · cases h
              · rw [from_of_le (by omega), bind_ok] at h
                have := readLoop_count utf8 fuel _ _ h
                simp only [List.length_drop] at this; omega
              · rw [from_of_le (by omega), bind_ok] at h
                cases hr : readLoop utf8 fuel (buf.drop (hd.lengthWords * 4)) with
                | panic => rw [hr] at h; cases h
                | err e => rw [hr] at h; cases h
                | ok ws =>
                  rw [hr, bind_ok] at h
                  cases h
                  have := readLoop_count utf8 fuel _ _ hr
                  simp only [List.length_drop] at this
                  simp only [List.length_cons]; omega

/-- C14. Reading any datagram as compound RTCP ends without a panic (no out of bounds access,
no failed assertion, no overflow, no endless loop: every round of the loop uses one unit of a
fuel of one more than the number of bytes, and running out of it would be a panic), and at
most one message per four bytes is produced. -/
theorem C14_total (utf8 : List Byte → Bool) (buf : List Byte) :
    (readPacket utf8 buf).NoPanic ∧
      ∀ vs, readPacket utf8 buf = .ok vs → 4 * vs.length ≤ buf.length :=
  ⟨readLoop_np utf8 _ _ (by omega), fun vs h => readLoop_count utf8 _ _ vs h⟩

/-- The parsers are also total on the contents of one message. -/
theorem C14_one (utf8 : List Byte → Bool) (buf : List Byte) : (Rtcp.parse utf8 buf).NoPanic :=
  Rtcp.parse_np utf8 buf

/-- Garbage after a good message is skipped, a bad length ends the loop. -/
example : readPacket (fun _ => true) [0x81, 206, 0, 2, 0, 0, 0, 1, 0, 0, 0, 2, 0x9f, 206, 0, 0, 1] =
    .ok [.pli 1 2] := by decide +kernel

/-! ### C15 -/

/-- C15. For every queue of well-formed messages and every buffer size, packing succeeds
(in particular the assertion that the announced and written lengths agree holds), and
* no more bytes than the buffer has are written;
* the bytes read back as exactly the messages that were taken out;
* nothing is lost, duplicated or altered: the items sent and the items still queued are the
  items that were queued;
* what was sent and what remains is in the order SR, RR, SDES, .., BYE: in particular a sender
  or receiver report is never behind another kind of message, and nothing but goodbyes is
  behind a goodbye;
* whatever is left is well-formed again, and its first message does not fit;
* if every queued message fits the buffer on its own, something is sent unless nothing is
  left to be sent. -/
theorem C15_pack {utf8 : List Byte → Bool} {fb : List Rtcp} (h : ∀ p ∈ fb, p.WF utf8) (size : Nat) :
    ∃ bytes sent left, writePacket fb size = .ok (bytes, sent, left) ∧
      bytes.length ≤ size ∧
      readPacket utf8 bytes = .ok sent ∧
      (allItems sent ++ allItems left).Perm (allItems fb) ∧
      (sent ++ left).Pairwise (fun a b : Rtcp =>
        (b.isReport = true → a.isReport = true) ∧ (a.isBye = true → b.isBye = true)) ∧
      (∀ p ∈ left, p.WF utf8) ∧
      (∀ p, left.head? = some p → size < bytes.length + p.lengthWords * 4) ∧
      ((∀ p ∈ fb, p.lengthWords * 4 ≤ size) → sent = [] → left = []) := by
  unfold writePacket
  by_cases h0 : fb = []
  · subst h0
    refine ⟨[], [], [], rfl, by simp, rfl, by simp [allItems], by simp, by simp, by simp, by simp⟩
  · rw [if_neg h0]
    obtain ⟨l, h1, h2, h3, h4, h5⟩ := pack_ok (cap := size / 4) h
    obtain ⟨b, sent, left, g1, g2, g3, g4, g5⟩ := writeLoop_ok l size h2
    refine ⟨b, sent, left, ?_, g2, ?_, ?_, ?_, ?_, g5, ?_⟩
    · rw [bind_def, h1, bind_ok, g1]
    · obtain ⟨b', e1, _, e2⟩ := readLoop_all (utf8 := utf8) (ps := sent)
        (fun p hp => h2 p (by rw [g3]; simp [hp]))
      rw [g4] at e1; injection e1 with e1; subst e1
      exact e2 _ (by omega)
    · rw [g3] at h3
      simpa [allItems] using h3
    · rw [← g3]
      refine h4.imp ?_
      intro a b hab
      cases a <;> cases b <;> simp [Rtcp.orderNo, Rtcp.isReport, Rtcp.isBye] at hab ⊢
    · intro p hp; exact h2 p (by rw [g3]; simp [hp])
    · intro hw hs
      cases left with
      | nil => rfl
      | cons p left =>
        have h6 := h5 (fun q hq => by have := hw q hq; omega) p (by rw [g3]; simp)
        have h7 := g5 p rfl
        rw [hs] at g4
        have hb0 : b = [] := by
          have : encodeAll [] = Res.ok b := g4
          injection this with h; exact h.symm
        rw [hb0] at h7
        simp only [List.length_nil] at h7; omega

/-- Three receiver reports are merged into one message, behind which the goodbye stays. -/
example : writePacket [.bye [9], .rr 1 [⟨1, 0, 0, 0, 0, 0, 0⟩], .pli 3 4, .rr 2 [⟨2, 0, 0, 0, 0, 0, 0⟩]] 72 =
    (do
      let b ← encodeAll [.rr 1 [⟨1, 0, 0, 0, 0, 0, 0⟩, ⟨2, 0, 0, 0, 0, 0, 0⟩], .pli 3 4]
      pure (b, [.rr 1 [⟨1, 0, 0, 0, 0, 0, 0⟩, ⟨2, 0, 0, 0, 0, 0, 0⟩], .pli 3 4], [.bye [9]])) := by
  decide +kernel

/-- A message larger than the buffer stays at the front of the queue and blocks everything
behind it. -/
theorem C15_violation_blocked :
    writePacket [.bye [4], .app 1 2 (List.replicate 60 0)] 60 =
      .ok ([], [], [.app 1 2 (List.replicate 60 0), .bye [4]]) := by decide +kernel

end Str0m.Rtcp

namespace Str0m.Twcc
open Res

/-! ### C17 -/

/-- C17 (partial). A well-formed TWCC message in which nothing with deltas follows a run of
large deltas survives the wire; its length is a multiple of four bytes and is the announced
one. What is missing is exactly `C17_violation`. -/
theorem C17_round_trip_partial {utf8 : List Byte → Bool} {t : Report} (h : t.WF)
    (hl : LargeRunLast t.chunks) :
    ∃ b, t.encode = .ok b ∧ b.length % 4 = 0 ∧ b.length = t.lengthWords * 4 ∧
      Rtcp.readPacket utf8 b = .ok [.twcc t] := by
  obtain ⟨b, hb⟩ := Rtcp.wire_twcc (utf8 := utf8) (t := t) ⟨h, hl⟩
  refine ⟨b, hb.enc, by rw [hb.len]; simp, hb.len, ?_⟩
  obtain ⟨b', e1, _, e2⟩ := Rtcp.readLoop_all (utf8 := utf8) (ps := [.twcc t])
    (fun p hp => by
      rw [List.mem_singleton] at hp; subst hp; exact (⟨h, hl⟩ : (Rtcp.Rtcp.twcc t).WF utf8))
  rw [Rtcp.encodeAll, bind_def, hb.enc, bind_ok, bind_def] at e1
  have : b ++ [] = b' := by injection e1
  rw [List.append_nil] at this; subst this
  exact e2 _ (by omega)

/-- A message that meets the hypotheses. -/
def sample : Report :=
  { senderSsrc := 1, ssrc := 2, baseSeq := 65530, statusCount := 9, referenceTime := 77,
    feedbackCount := 3, chunks := [.double 0x1248 7, .run .large 2],
    delta := [.small 9, .large (-5), .small 1, .large 400, .large 1, .large (-400)] }

example : sample.WF := by
  refine ⟨by decide, by decide, by decide, by decide, by decide, by decide, ?_, ?_, ?_, by decide⟩
  · intro c hc
    simp only [sample, List.mem_cons, List.not_mem_nil, or_false] at hc
    rcases hc with rfl | rfl
    · exact ⟨by decide, rfl⟩
    · show 2 < 2^13; decide
  · exact ⟨by decide, by decide, rfl⟩
  · show List.Forall₂ Fits [.small, .large, .small, .large, .large, .large] _
    exact .cons trivial (.cons (by constructor <;> decide) (.cons trivial
      (.cons (by constructor <;> decide) (.cons (by constructor <;> decide)
        (.cons (by constructor <;> decide) .nil)))))

example : LargeRunLast sample.chunks := by
  refine ⟨fun h => ?_, fun _ d hd => by simp at hd, trivial⟩
  obtain ⟨n, _, h⟩ := h
  cases h

example : (match sample.encode with
    | .ok b => decide (Rtcp.readPacket (fun _ => true) b = .ok [.twcc sample])
    | _ => false) = true := by decide +kernel

/-- The message of `C17_violation`: two packets with large deltas, then two with small ones. -/
def badSample : Report :=
  { senderSsrc := 1, ssrc := 2, baseSeq := 7, statusCount := 4, referenceTime := 5,
    feedbackCount := 0, chunks := [.run .large 2, .run .small 2],
    delta := [.large 300, .large 301, .small 1, .small 2] }

/-- C17 does not hold for every well-formed message: after a run of `n` large deltas the
parser moves on by `n` bytes, not by `2 n` (twcc.rs 942), so the deltas that follow are read
from the wrong place. -/
theorem C17_violation : badSample.WF ∧ ∃ b, badSample.encode = .ok b ∧
    Rtcp.readPacket (fun _ => true) b =
      .ok [.twcc { badSample with delta := [.large 300, .large 301, .small 1, .small 45] }] := by
  refine ⟨⟨by decide, by decide, by decide, by decide, by decide, by decide, ?_, ?_, ?_, by decide⟩, _, rfl, ?_⟩
  · intro c hc
    simp only [badSample, List.mem_cons, List.not_mem_nil, or_false] at hc
    rcases hc with rfl | rfl <;> (show 2 < 2^13; decide)
  · exact ⟨by decide, by decide, rfl⟩
  · show List.Forall₂ Fits [.large, .large, .small, .small] _
    exact .cons (by constructor <;> decide) (.cons (by constructor <;> decide)
      (.cons trivial (.cons trivial .nil)))
  · decide +kernel

/-- A run of 8192 (which the serialiser accepts, twcc.rs 752) overwrites the status bits: a
run of 8192 lost packets becomes an empty run of received packets. -/
theorem C17_violation_run :
    ∃ b, (Chunk.run .notReceived 8192).encode = .ok b ∧ Chunk.parse b = .ok (.run .small 0) := by
  refine ⟨_, rfl, ?_⟩; decide +kernel

end Str0m.Twcc
