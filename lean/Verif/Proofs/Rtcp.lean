import Verif.Model.Rtcp
/-
  RTCP parsing never panics.
-/
namespace Str0m.Twcc
open Res

theorem rd32At_ok {buf : List Byte} {i : Nat} (h : i + 3 < buf.length) :
    rd32At buf i = .ok (rd32 buf[i] buf[i+1] buf[i+2] buf[i+3]) := by
  simp (disch := omega) only [rd32At, bind_def, idx_of_lt, bind_ok, pure_def]

theorem rd24At_ok {buf : List Byte} {i : Nat} (h : i + 2 < buf.length) :
    rd24At buf i = .ok (rd24 buf[i] buf[i+1] buf[i+2]) := by
  simp (disch := omega) only [rd24At, bind_def, idx_of_lt, bind_ok, pure_def]

theorem rd16At_ok {buf : List Byte} {i : Nat} (h : i + 1 < buf.length) :
    rd16At buf i = .ok (rd16 buf[i] buf[i+1]) := by
  simp (disch := omega) only [rd16At, bind_def, idx_of_lt, bind_ok, pure_def]

theorem rd32At_np {buf : List Byte} {i : Nat} (h : i + 3 < buf.length) :
    (rd32At buf i).NoPanic := by simp [rd32At_ok h]

/-- `NoPanic` of an `if`. -/
theorem np_ite {α : Type} {c : Prop} [Decidable c] {x y : Res Unit α}
    (h1 : c → x.NoPanic) (h2 : ¬ c → y.NoPanic) : (if c then x else y).NoPanic := by
  by_cases h : c
  · rw [if_pos h]; exact h1 h
  · rw [if_neg h]; exact h2 h

theorem Chunk.parse_np (buf : List Byte) : (Chunk.parse buf).NoPanic := by
  unfold Chunk.parse
  refine np_ite (fun _ => trivial) (fun h => ?_)
  simp (disch := omega) only [bind_def, rd16At_ok, bind_ok]
  refine np_ite (fun _ => np_ite (fun _ => trivial) (fun _ => trivial)) (fun _ => trivial)

theorem Chunk.parse_len {buf : List Byte} {c : Chunk} (h : Chunk.parse buf = .ok c) :
    2 ≤ buf.length := by
  unfold Chunk.parse at h
  by_contra hc
  rw [if_pos (by omega)] at h
  cases h

theorem parseChunks_np : ∀ (fuel : Nat) (todo : Int) (buf : List Byte), buf.length < fuel →
    (parseChunks fuel todo buf).NoPanic
  | 0, _, _, h => by omega
  | fuel + 1, todo, buf, h => by
    rw [parseChunks]
    refine np_ite (fun _ => trivial) (fun _ => ?_)
    simp only [bind_def]
    refine NoPanic.bind (Chunk.parse_np buf) (fun c hc => ?_)
    have hl := Chunk.parse_len hc
    rw [from_of_le hl, bind_ok]
    refine NoPanic.bind (parseChunks_np fuel _ _ ?_) (fun _ _ => trivial)
    simp; omega

theorem readSmall_np (buf : List Byte) (n : Nat) : (readSmall buf n).NoPanic := by
  unfold readSmall; exact np_ite (fun _ => trivial) (fun _ => trivial)

theorem readLarge_np (buf : List Byte) (n : Nat) : (readLarge buf n).NoPanic := by
  unfold readLarge; exact np_ite (fun _ => trivial) (fun _ => trivial)

theorem readSmall_len {buf : List Byte} {n : Nat} {ds} (h : readSmall buf n = .ok ds) :
    n ≤ buf.length := by
  unfold readSmall at h; by_contra hc; rw [if_pos (by omega)] at h; cases h

theorem readLarge_len {buf : List Byte} {n : Nat} {ds} (h : readLarge buf n = .ok ds) :
    n * 2 ≤ buf.length := by
  unfold readLarge at h; by_contra hc; rw [if_pos (by omega)] at h; cases h

theorem parseDouble_np (v : Nat) : ∀ (is : List Nat) (buf : List Byte),
    (parseDouble v is buf).NoPanic
  | [], _ => by simp [parseDouble]
  | i :: is, buf => by
    rw [parseDouble]
    split
    · simp only [bind_def]
      refine NoPanic.bind (readSmall_np _ _) (fun d hd => ?_)
      rw [from_of_le (readSmall_len hd), bind_ok]
      exact NoPanic.bind (parseDouble_np v is _) (fun _ _ => trivial)
    · simp only [bind_def]
      refine NoPanic.bind (readLarge_np _ _) (fun d hd => ?_)
      rw [from_of_le (readLarge_len hd), bind_ok]
      exact NoPanic.bind (parseDouble_np v is _) (fun _ _ => trivial)
    · exact parseDouble_np v is _

theorem parseChunkDeltas_np (c : Chunk) (buf : List Byte) : (parseChunkDeltas c buf).NoPanic := by
  unfold parseChunkDeltas
  split
  · simp only [bind_def]
    refine NoPanic.bind (readSmall_np _ _) (fun d hd => ?_)
    rw [from_of_le (readSmall_len hd)]; trivial
  · simp only [bind_def]
    refine NoPanic.bind (readLarge_np _ _) (fun d hd => ?_)
    have := readLarge_len hd
    rw [from_of_le (by omega)]; trivial
  · simp only [bind_def]
    refine NoPanic.bind (readSmall_np _ _) (fun d hd => ?_)
    rw [from_of_le (readSmall_len hd)]; trivial
  · exact parseDouble_np _ _ _
  · trivial

theorem parseDeltas_np : ∀ (cs : List Chunk) (buf : List Byte), (parseDeltas cs buf).NoPanic
  | [], _ => by simp [parseDeltas]
  | c :: cs, buf => by
    rw [parseDeltas]
    simp only [bind_def]
    refine NoPanic.bind (parseChunkDeltas_np c buf) (fun r _ => ?_)
    exact NoPanic.bind (parseDeltas_np cs _) (fun _ _ => trivial)

theorem Report.parse_np (buf : List Byte) : (Report.parse buf).NoPanic := by
  unfold Report.parse
  refine np_ite (fun _ => trivial) (fun h => ?_)
  simp (disch := omega) only [bind_def, rd32At_ok, rd24At_ok, rd16At_ok, bind_ok, idx_of_lt,
    from_of_le]
  refine NoPanic.bind (parseChunks_np _ _ _ (by omega)) (fun r _ => ?_)
  exact NoPanic.bind (parseDeltas_np _ _) (fun _ _ => trivial)

end Str0m.Twcc

namespace Str0m.Rtcp
open Res Twcc

theorem SenderInfo.parse_np (buf : List Byte) : (SenderInfo.parse buf).NoPanic := by
  unfold SenderInfo.parse
  refine np_ite (fun _ => trivial) (fun h => ?_)
  simp (disch := omega) only [bind_def, rd32At_ok, bind_ok]
  trivial

theorem ReceptionReport.parse_np (buf : List Byte) : (ReceptionReport.parse buf).NoPanic := by
  unfold ReceptionReport.parse
  refine np_ite (fun _ => trivial) (fun h => ?_)
  simp (disch := omega) only [bind_def, rd32At_ok, rd24At_ok, idx_of_lt, bind_ok]
  trivial

theorem push_of_lt {α : Type} {l : List α} {v : α} (h : l.length < 31) :
    push l v = .ok (l ++ [v]) := by simp [push, h]

theorem parseN_np {α : Type} {f : List Byte → Res Unit α} {k : Nat}
    (hf : ∀ b, k ≤ b.length → (f b).NoPanic) :
    ∀ (n : Nat) (buf : List Byte) (acc : List α), n * k ≤ buf.length → acc.length + n ≤ 31 →
      (parseN f k n buf acc).NoPanic
  | 0, _, _, _, _ => by simp [parseN]
  | n + 1, buf, acc, h, ha => by
    rw [Nat.succ_mul] at h
    have h1 : k ≤ buf.length := by omega
    have h2 : n * k ≤ buf.length - k := by omega
    rw [parseN]
    simp only [bind_def]
    refine NoPanic.bind (hf buf h1) (fun v _ => ?_)
    rw [push_of_lt (by omega), bind_ok, from_of_le h1, bind_ok]
    exact parseN_np hf n _ _ (by simpa using h2) (by simp; omega)

theorem parseSr_np (buf : List Byte) : (parseSr buf).NoPanic := by
  unfold parseSr
  simp only [bind_def]
  refine NoPanic.bind (SenderInfo.parse_np buf) (fun i hi => ?_)
  have hl : 24 ≤ buf.length := by
    unfold SenderInfo.parse at hi; by_contra hc; rw [if_pos (by omega)] at hi; cases hi
  rw [from_of_le hl, bind_ok]
  refine NoPanic.bind (parseN_np (fun b _ => ReceptionReport.parse_np b) _ _ _ ?_ (by simp)) (fun _ _ => trivial)
  omega

theorem parseRr_np (buf : List Byte) : (parseRr buf).NoPanic := by
  unfold parseRr
  refine np_ite (fun _ => trivial) (fun h => ?_)
  simp (disch := omega) only [bind_def, rd32At_ok, bind_ok, from_of_le]
  refine NoPanic.bind (parseN_np (fun b _ => ReceptionReport.parse_np b) _ _ _ ?_ (by simp)) (fun _ _ => trivial)
  omega

theorem sdesLoop_np (utf8 : List Byte → Bool) : ∀ (fuel : Nat) (buf : List Byte) (abs : Nat)
    (vs : List (SdesType × List Byte)), buf.length < fuel → vs.length ≤ 31 →
    (sdesLoop utf8 fuel buf abs vs).NoPanic
  | 0, _, _, _, h, _ => by omega
  | fuel + 1, buf, abs, vs, h, hv => by
    rw [sdesLoop]
    refine np_ite (fun _ => trivial) (fun h1 => ?_)
    refine np_ite (fun _ => trivial) (fun _ => ?_)
    refine np_ite (fun _ => trivial) (fun h2 => ?_)
    simp (disch := omega) only [bind_def, idx_of_lt, bind_ok]
    refine np_ite (fun _ => np_ite (fun _ => trivial) (fun _ => trivial)) (fun _ => ?_)
    refine np_ite (fun _ => trivial) (fun h3 => ?_)
    rw [from_of_le (by omega), bind_ok, upto_of_le (by simp; omega), bind_ok]
    refine NoPanic.bind ?_ (fun vs' hvs' => ?_)
    · refine np_ite (fun _ => ?_) (fun _ => trivial)
      rw [push_of_lt (by omega)]; trivial
    · rw [from_of_le (by simp; omega), bind_ok]
      refine sdesLoop_np utf8 fuel _ _ _ ?_ ?_
      · simp; omega
      · split at hvs'
        · rw [push_of_lt (by omega)] at hvs'
          injection hvs' with hvs'; subst hvs'; simp; omega
        · injection hvs' with hvs'; subst hvs'; exact hv

theorem Sdes.parse_np (utf8 : List Byte → Bool) (buf : List Byte) : (Sdes.parse utf8 buf).NoPanic := by
  unfold Sdes.parse
  refine np_ite (fun _ => trivial) (fun h => ?_)
  simp (disch := omega) only [bind_def, rd32At_ok, bind_ok, from_of_le]
  exact NoPanic.bind (sdesLoop_np utf8 _ _ _ _ (by omega) (by simp)) (fun _ _ => trivial)

theorem descLoop_np (utf8 : List Byte → Bool) : ∀ (fuel : Nat) (buf : List Byte)
    (rs : List Sdes), buf.length < fuel → rs.length ≤ 31 → (descLoop utf8 fuel buf rs).NoPanic
  | 0, _, _, h, _ => by omega
  | fuel + 1, buf, rs, h, hr => by
    rw [descLoop]
    refine np_ite (fun _ => trivial) (fun h1 => ?_)
    refine np_ite (fun _ => trivial) (fun h2 => ?_)
    simp only [bind_def]
    refine NoPanic.bind (Sdes.parse_np utf8 buf) (fun r _ => ?_)
    rw [push_of_lt (by omega), bind_ok]
    refine np_ite (fun _ => trivial) (fun h3 => ?_)
    rw [not_or] at h3
    rw [from_of_le (by omega), bind_ok]
    refine descLoop_np utf8 fuel _ _ ?_ ?_
    · simp; omega
    · simp; omega

theorem parseBye_np (count : Nat) (buf : List Byte) : (parseBye count buf).NoPanic := by
  unfold parseBye
  refine np_ite (fun _ => trivial) (fun h => ?_)
  refine np_ite (fun _ => trivial) (fun h => ?_)
  simp only [bind_def]
  refine NoPanic.bind (parseN_np (fun b hb => rd32At_np (by omega)) _ _ _ ?_ (by simp)) (fun _ _ => trivial)
  omega

theorem parseNack_np (buf : List Byte) : (parseNack buf).NoPanic := by
  unfold parseNack
  refine np_ite (fun _ => trivial) (fun h => ?_)
  simp (disch := omega) only [bind_def, rd32At_ok, bind_ok, from_of_le]
  refine NoPanic.bind (parseN_np (fun b hb => ?_) _ _ _ ?_ (by simp)) (fun _ _ => trivial)
  · simp (disch := omega) only [parseNackEntry, bind_def, rd16At_ok, bind_ok]; trivial
  · omega

theorem parsePli_np (buf : List Byte) : (parsePli buf).NoPanic := by
  unfold parsePli
  refine np_ite (fun _ => trivial) (fun h => ?_)
  simp (disch := omega) only [bind_def, rd32At_ok, bind_ok]
  trivial

theorem parseFir_np (buf : List Byte) : (parseFir buf).NoPanic := by
  unfold parseFir
  refine np_ite (fun _ => trivial) (fun h => ?_)
  simp (disch := omega) only [bind_def, rd32At_ok, bind_ok, from_of_le]
  refine NoPanic.bind (parseN_np (fun b hb => ?_) _ _ _ ?_ (by simp)) (fun _ _ => trivial)
  · simp (disch := omega) only [parseFirEntry, bind_def, rd32At_ok, bind_ok, idx_of_lt]; trivial
  · omega

theorem testBit_of_and_two_pow {m k : Nat} (h : m &&& 2^k ≠ 0) : m.testBit k = true := by
  by_contra hc
  apply h
  apply Nat.eq_of_testBit_eq
  intro i
  rw [Nat.testBit_and, Nat.testBit_two_pow, Nat.zero_testBit]
  by_cases hik : k = i
  · subst hik; simpa using hc
  · simp [hik]

theorem and_two_pow_of_testBit {m k : Nat} (h : m.testBit k = true) : m &&& 2^k ≠ 0 := by
  intro hc
  have : (m &&& 2^k).testBit k = true := by rw [Nat.testBit_and, h, Nat.testBit_two_pow]; simp
  rw [hc] at this; simp at this

/-- The loop that normalises the mantissa: it stops exactly when bit 23 is reached. -/
theorem rembShift_eq : ∀ (k fuel exp m : Nat), 2^23 ≤ m * 2^k → m * 2^k < 2^24 → k < fuel →
    k ≤ exp → rembShift fuel exp m = .ok (exp - k, m * 2^k)
  | _, 0, _, _, _, _, h, _ => by omega
  | 0, fuel + 1, exp, m, h1, h2, _, _ => by
    rw [rembShift, if_neg]
    · simp
    · show m &&& 2^23 ≠ 0
      apply and_two_pow_of_testBit
      rw [Nat.testBit_eq_decide_div_mod_eq]
      simp at h1 h2 ⊢
      omega
  | k + 1, fuel + 1, exp, m, h1, h2, h3, h4 => by
    rw [rembShift, if_pos, if_neg (by omega), rembShift_eq k fuel (exp - 1) (m * 2)]
    · congr 2
      · omega
      · rw [Nat.pow_succ]; ring
    · calc 2^23 ≤ m * 2^(k+1) := h1
        _ = m * 2 * 2^k := by rw [Nat.pow_succ]; ring
    · calc m * 2 * 2^k = m * 2^(k+1) := by rw [Nat.pow_succ]; ring
        _ < 2^24 := h2
    · omega
    · omega
    · show m &&& 2^23 = 0
      by_contra hc
      have := Nat.ge_two_pow_of_testBit (testBit_of_and_two_pow hc)
      have h5 : 1 ≤ 2^k := Nat.one_le_two_pow
      have h6 : 2^23 * 2 ≤ m * 2^(k+1) := by
        calc 2^23 * 2 ≤ m * 2^1 := by omega
          _ ≤ _ := Nat.mul_le_mul_left _ (Nat.pow_le_pow_right (by omega) (by omega))
      omega

/-- Every non-zero number below `2^24` is normalised by some shift. -/
theorem exists_shift {m : Nat} (h0 : 0 < m) (h : m < 2^24) :
    ∃ k, 2^23 ≤ m * 2^k ∧ m * 2^k < 2^24 ∧ k ≤ 23 := by
  refine ⟨23 - m.log2, ?_, ?_, by omega⟩
  · have h1 : 2^m.log2 ≤ m := Nat.log2_self_le (by omega)
    have h2 : m.log2 < 24 := (Nat.log2_lt (by omega)).2 h
    calc 2^23 = 2^m.log2 * 2^(23 - m.log2) := by rw [← Nat.pow_add]; congr 1; omega
      _ ≤ _ := Nat.mul_le_mul_right _ h1
  · have h1 : m < 2^(m.log2 + 1) := Nat.lt_log2_self
    have h2 : m.log2 < 24 := (Nat.log2_lt (by omega)).2 h
    calc m * 2^(23 - m.log2) < 2^(m.log2 + 1) * 2^(23 - m.log2) :=
          Nat.mul_lt_mul_of_pos_right h1 (Nat.two_pow_pos _)
      _ = 2^24 := by rw [← Nat.pow_add]; congr 1; omega

theorem mantissa_lt (b17 b18 b19 : Byte) :
    ((b17.val &&& 3) <<< 16) ||| (b18.val <<< 8) ||| b19.val < 2^18 := by
  have h1 : b17.val &&& 3 ≤ 3 := Nat.and_le_right
  apply Nat.or_lt_two_pow
  · apply Nat.or_lt_two_pow
    · rw [Nat.shiftLeft_eq]; omega
    · rw [Nat.shiftLeft_eq]; omega
  · omega

theorem decodeBitrate_np (b17 b18 b19 : Byte) : (decodeBitrate b17 b18 b19).NoPanic := by
  unfold decodeBitrate
  simp only [bind_def]
  have hm := mantissa_lt b17 b18 b19
  by_cases h : ((b17.val &&& 3) <<< 16) ||| (b18.val <<< 8) ||| b19.val = 0
  · rw [if_neg (not_not.2 h)]; exact noPanic_ok _
  · rw [if_pos h]
    obtain ⟨k, h1, h2, h3⟩ := exists_shift (Nat.pos_of_ne_zero h) (by omega)
    rw [rembShift_eq k 24 _ _ h1 h2 (by omega) (by omega), bind_ok]
    exact noPanic_ok _

theorem rembSsrcs_np (buf : List Byte) : ∀ (n i : Nat), 16 + (i + n) * 4 ≤ buf.length →
    (rembSsrcs buf n i).NoPanic
  | 0, _, _ => by simp [rembSsrcs]
  | n + 1, i, h => by
    rw [rembSsrcs]
    simp only [bind_def]
    rw [rd32At_ok (by omega), bind_ok]
    exact NoPanic.bind (rembSsrcs_np buf n (i + 1) (by omega)) (fun _ _ => trivial)

theorem parseRemb_np (buf : List Byte) : (parseRemb buf).NoPanic := by
  unfold parseRemb
  refine np_ite (fun _ => noPanic_err _) (fun h => ?_)
  simp only [bind_def]
  refine NoPanic.bind (rd32At_np (by omega)) (fun _ _ => ?_)
  refine NoPanic.bind (rd32At_np (by omega)) (fun _ _ => ?_)
  refine np_ite (fun _ => noPanic_err _) (fun _ => ?_)
  refine NoPanic.bind (by rw [slice_of_le (by omega) (by omega)]; exact noPanic_ok _) (fun _ _ => ?_)
  refine np_ite (fun _ => noPanic_err _) (fun _ => ?_)
  refine NoPanic.bind (idx_noPanic (by omega)) (fun _ _ => ?_)
  refine NoPanic.bind (idx_noPanic (by omega)) (fun _ _ => ?_)
  refine NoPanic.bind (idx_noPanic (by omega)) (fun _ _ => ?_)
  refine NoPanic.bind (idx_noPanic (by omega)) (fun _ _ => ?_)
  refine NoPanic.bind (decodeBitrate_np _ _ _) (fun _ _ => ?_)
  refine np_ite (fun _ => noPanic_err _) (fun h2 => ?_)
  exact NoPanic.bind (rembSsrcs_np _ _ _ (by omega)) (fun _ _ => noPanic_ok _)

theorem parseApp_np (buf : List Byte) : (parseApp buf).NoPanic := by
  unfold parseApp
  refine np_ite (fun _ => trivial) (fun h => ?_)
  simp (disch := omega) only [bind_def, rd32At_ok, bind_ok, from_of_le]
  trivial

theorem dlrrItems_np : ∀ (n : Nat) (buf : List Byte), (dlrrItems n buf).NoPanic
  | 0, _ => by simp [dlrrItems]
  | n + 1, buf => by
    rw [dlrrItems]
    refine np_ite (fun _ => trivial) (fun h => ?_)
    simp (disch := omega) only [bind_def, rd32At_ok, bind_ok, from_of_le]
    exact NoPanic.bind (dlrrItems_np n _) (fun _ _ => trivial)

theorem Block.parse_np (buf : List Byte) : (Block.parse buf).NoPanic := by
  unfold Block.parse
  refine np_ite (fun _ => trivial) (fun h => ?_)
  have hl : 0 < buf.length := List.length_pos_iff.2 h
  simp (disch := omega) only [bind_def, bind_ok, idx_of_lt]
  refine np_ite (fun _ => np_ite (fun _ => trivial) (fun h2 => ?_))
    (fun _ => np_ite (fun _ => np_ite (fun _ => trivial) (fun h2 => ?_)) (fun _ => trivial))
  · simp (disch := omega) only [rd32At_ok, bind_ok]; trivial
  · simp (disch := omega) only [rd16At_ok, bind_ok, from_of_le]
    exact NoPanic.bind (dlrrItems_np _ _) (fun _ _ => trivial)

theorem xrLoop_np : ∀ (fuel : Nat) (buf : List Byte) (bs : List Block), buf.length < fuel →
    (xrLoop fuel buf bs).NoPanic
  | 0, _, _, h => by omega
  | fuel + 1, buf, bs, h => by
    rw [xrLoop]
    have hp := Block.parse_np buf
    split
    · rename_i hb; rw [hb] at hp; exact hp.elim
    · trivial
    · refine np_ite (fun _ => trivial) (fun h3 => ?_)
      rw [not_or] at h3
      simp only [bind_def]
      rw [from_of_le (by omega), bind_ok]
      exact xrLoop_np fuel _ _ (by simp; omega)

theorem parseXr_np (buf : List Byte) : (parseXr buf).NoPanic := by
  unfold parseXr
  refine np_ite (fun _ => trivial) (fun h => ?_)
  simp (disch := omega) only [bind_def, rd32At_ok, bind_ok, from_of_le]
  exact NoPanic.bind (xrLoop_np _ _ _ (by omega)) (fun _ _ => trivial)

theorem Header.parse_np (buf : List Byte) : (Header.parse buf).NoPanic := by
  unfold Header.parse
  refine np_ite (fun _ => trivial) (fun h => ?_)
  simp (disch := omega) only [bind_def, rd16At_ok, bind_ok, idx_of_lt]
  refine np_ite (fun _ => trivial) (fun _ => ?_)
  refine np_ite (fun _ => trivial) (fun _ => ?_)
  refine np_ite (fun _ => trivial) (fun _ => ?_)
  refine np_ite (fun _ => trivial) (fun _ => trivial)

theorem Header.parse_len {buf : List Byte} {h : Header} (hh : Header.parse buf = .ok h) :
    4 ≤ buf.length := by
  unfold Header.parse at hh; by_contra hc; rw [if_pos (by omega)] at hh; cases hh

theorem orElse_np {α : Type} {x y : Res Unit α} (hx : x.NoPanic) (hy : y.NoPanic) :
    (orElse x y).NoPanic := by
  unfold orElse; split
  · exact hy
  · exact hx

theorem Rtcp.parse_np (utf8 : List Byte → Bool) (buf : List Byte) :
    (Rtcp.parse utf8 buf).NoPanic := by
  unfold Rtcp.parse
  simp only [bind_def]
  refine NoPanic.bind (Header.parse_np buf) (fun h hh => ?_)
  rw [from_of_le (Header.parse_len hh), bind_ok]
  split
  · exact parseSr_np _
  · exact parseRr_np _
  · exact NoPanic.bind (descLoop_np utf8 _ _ _ (by omega) (by simp)) (fun _ _ => trivial)
  · exact parseBye_np _ _
  · trivial
  · exact np_ite (fun _ => parseNack_np _)
      (fun _ => NoPanic.bind (Report.parse_np _) (fun _ _ => trivial))
  · exact np_ite (fun _ => parsePli_np _) (fun _ => np_ite (fun _ => parseFir_np _)
      (fun _ => np_ite (fun _ => orElse_np (parseRemb_np _) (parseApp_np _)) (fun _ => trivial)))
  · exact parseXr_np _
  · trivial

theorem unpadded_np {buf : List Byte} {full : Nat} (h : 0 < full) (h2 : full ≤ buf.length) :
    (unpadded buf full).NoPanic := by
  unfold unpadded
  simp (disch := omega) only [bind_def, bind_ok, idx_of_lt]
  exact np_ite (fun _ => np_ite (fun _ => trivial) (fun _ => trivial)) (fun _ => trivial)

theorem unpadded_le {buf : List Byte} {full n : Nat} (h : 0 < full) (h2 : full ≤ buf.length)
    (hu : unpadded buf full = .ok (some n)) : n ≤ full := by
  unfold unpadded at hu
  simp (disch := omega) only [bind_def, bind_ok, idx_of_lt] at hu
  split at hu
  · split at hu
    · cases hu
    · injection hu with hu; injection hu with hu; omega
  · injection hu with hu; injection hu with hu; omega

theorem readLoop_np (utf8 : List Byte → Bool) : ∀ (fuel : Nat) (buf : List Byte),
    buf.length < fuel → (readLoop utf8 fuel buf).NoPanic
  | 0, _, h => by omega
  | fuel + 1, buf, hf => by
    rw [readLoop]
    refine np_ite (fun _ => trivial) (fun hne => ?_)
    have hp := Header.parse_np buf
    split
    · rename_i hb; rw [hb] at hp; exact hp.elim
    · trivial
    · rename_i h hh
      have hl := Header.parse_len hh
      refine np_ite (fun _ => trivial) (fun hfull => ?_)
      have hpos : 0 < h.lengthWords * 4 := by simp [Header.lengthWords]
      simp only [bind_def]
      refine NoPanic.bind (unpadded_np hpos (by omega)) (fun o ho => ?_)
      split
      · trivial
      · rename_i n
        have hn := unpadded_le hpos (by omega) ho
        rw [upto_of_le (by omega), bind_ok]
        have hq := Rtcp.parse_np utf8 (buf.take n)
        split
        · rename_i hb; rw [hb] at hq; exact hq.elim
        · rw [from_of_le (by omega), bind_ok]
          exact readLoop_np utf8 fuel _ (by simp; omega)
        · rw [from_of_le (by omega), bind_ok]
          exact NoPanic.bind (readLoop_np utf8 fuel _ (by simp; omega)) (fun _ _ => trivial)

end Str0m.Rtcp
