import Verif.Proofs.TwccRound
/-
  The RTCP wire round trip: what is written is what is read.
-/
namespace Str0m.Rtcp
open Res Str0m.Twcc

/-! ### Reading at a fixed offset -/

theorem rd32At_zero {n : Nat} (h : n < 2^32) (rest : List Byte) :
    rd32At (be32 n ++ rest) 0 = .ok n := rd32At_of (pre := []) h rfl rfl

theorem rd32At_skip {p : List Byte} {k i : Nat} (hp : p.length = k) (rest : List Byte) :
    rd32At (p ++ rest) (k + i) = rd32At rest i := by
  subst hp
  have h1 : ∀ j, (p ++ rest)[p.length + i + j]? = rest[i + j]? := by
    intro j; rw [List.getElem?_append_right (by omega)]; congr 1; omega
  have h0 := h1 0
  simp only [Nat.add_zero] at h0
  simp only [rd32At, Res.idx, bind_def, h0, h1]

theorem rd16At_skip {p : List Byte} {k i : Nat} (hp : p.length = k) (rest : List Byte) :
    rd16At (p ++ rest) (k + i) = rd16At rest i := by
  subst hp
  have h1 : ∀ j, (p ++ rest)[p.length + i + j]? = rest[i + j]? := by
    intro j; rw [List.getElem?_append_right (by omega)]; congr 1; omega
  have h0 := h1 0
  simp only [Nat.add_zero] at h0
  simp only [rd16At, Res.idx, bind_def, h0, h1]

theorem from_left {p rest : List Byte} {k : Nat} (hp : p.length = k) :
    (Res.from_ (p ++ rest) k : Res Unit _) = .ok rest := by
  rw [from_of_le (by simp; omega), List.drop_left' hp]

/-! ### Lists of fixed size entries -/

theorem parseN_flatMap {α : Type} {f : List Byte → Res Unit α} {enc : α → List Byte} {k : Nat}
    (hk : ∀ x, (enc x).length = k) : ∀ (l : List α) (rest : List Byte) (acc : List α),
    (∀ x ∈ l, ∀ r, f (enc x ++ r) = .ok x) → acc.length + l.length ≤ 31 →
    parseN f k l.length (l.flatMap enc ++ rest) acc = .ok (acc ++ l)
  | [], _, acc, _, _ => by simp [parseN]
  | x :: l, rest, acc, hf, hl => by
    simp only [List.length_cons] at hl
    rw [List.length_cons, parseN, List.flatMap_cons, List.append_assoc, bind_def,
      hf x (by simp), bind_ok, bind_def, push_of_lt (by omega), bind_ok, bind_def,
      from_left (hk x), bind_ok,
      parseN_flatMap hk l rest (acc ++ [x]) (fun y hy => hf y (by simp [hy])) (by simp; omega)]
    simp

theorem flatMap_length {α : Type} {enc : α → List Byte} {k : Nat} (hk : ∀ x, (enc x).length = k)
    (l : List α) : (l.flatMap enc).length = l.length * k := by
  induction l with
  | nil => simp
  | cons x l ih => rw [List.flatMap_cons, List.length_append, ih, hk, List.length_cons]; ring

theorem ReceptionReport.encode_length (r : ReceptionReport) : r.encode.length = 24 := by
  simp [ReceptionReport.encode]

theorem ReceptionReport.parse_encode {r : ReceptionReport} (h : r.WF) (rest : List Byte) :
    ReceptionReport.parse (r.encode ++ rest) = .ok r := by
  unfold ReceptionReport.parse
  rw [if_neg (by rw [List.length_append, ReceptionReport.encode_length]; omega)]
  show Res.ok (ReceptionReport.mk (rd32 _ _ _ _) (u8 r.fractionLost).val
    (rd24 (u8 (r.packetsLost / 2^16)) (u8 (r.packetsLost / 2^8)) (u8 r.packetsLost))
    (rd32 _ _ _ _) (rd32 _ _ _ _) (rd32 _ _ _ _) (rd32 _ _ _ _)) = _
  rw [rd32_be32 h.ssrc, rd32_be32 h.maxSeq, rd32_be32 h.jitter, rd32_be32 h.lastSrTime,
    rd32_be32 h.lastSrDelay, rd24_be24 h.packetsLost, u8_val_of_lt h.fractionLost]

theorem SenderInfo.encode_length (i : SenderInfo) : i.encode.length = 24 := by
  simp [SenderInfo.encode]

theorem be64_split (n : Nat) : be64 n = be32 (n / 2^32) ++ be32 n := by
  simp only [be64, be32, List.cons_append, List.nil_append, Nat.div_div_eq_div_mul]

theorem SenderInfo.parse_encode {i : SenderInfo} (h : i.WF) (rest : List Byte) :
    SenderInfo.parse (i.encode ++ rest) = .ok i := by
  unfold SenderInfo.parse
  rw [if_neg (by rw [List.length_append, SenderInfo.encode_length]; omega)]
  have h1 := h.ntp
  have hlo : ∀ rest, rd32At (be32 i.ntp ++ rest) 0 = .ok (i.ntp % 2^32) := by
    intro rest
    show Res.ok (rd32 _ _ _ _) = _
    congr 1; simp [rd32]; omega
  have e : i.encode ++ rest = be32 i.ssrc ++ (be32 (i.ntp / 2^32) ++ (be32 i.ntp ++
      (be32 i.rtpTime ++ (be32 i.packetCount ++ (be32 i.octetCount ++ rest))))) := by
    simp only [SenderInfo.encode, be64_split, List.append_assoc]
  have r1 : rd32At (i.encode ++ rest) 0 = .ok i.ssrc := by rw [e]; exact rd32At_zero h.ssrc _
  have r2 : rd32At (i.encode ++ rest) 4 = .ok (i.ntp / 2^32) := by
    rw [e, rd32At_skip (k := 4) (i := 0) rfl]; exact rd32At_zero (by omega) _
  have r3 : rd32At (i.encode ++ rest) 8 = .ok (i.ntp % 2^32) := by
    rw [e, rd32At_skip (k := 4) (i := 4) rfl, rd32At_skip (k := 4) (i := 0) rfl]; exact hlo _
  have r4 : rd32At (i.encode ++ rest) 12 = .ok i.rtpTime := by
    rw [e, rd32At_skip (k := 4) (i := 8) rfl, rd32At_skip (k := 4) (i := 4) rfl,
      rd32At_skip (k := 4) (i := 0) rfl]; exact rd32At_zero h.rtpTime _
  have r5 : rd32At (i.encode ++ rest) 16 = .ok i.packetCount := by
    rw [e, rd32At_skip (k := 4) (i := 12) rfl, rd32At_skip (k := 4) (i := 8) rfl,
      rd32At_skip (k := 4) (i := 4) rfl, rd32At_skip (k := 4) (i := 0) rfl]
    exact rd32At_zero h.packetCount _
  have r6 : rd32At (i.encode ++ rest) 20 = .ok i.octetCount := by
    rw [e, rd32At_skip (k := 4) (i := 16) rfl, rd32At_skip (k := 4) (i := 12) rfl,
      rd32At_skip (k := 4) (i := 8) rfl, rd32At_skip (k := 4) (i := 4) rfl,
      rd32At_skip (k := 4) (i := 0) rfl]
    exact rd32At_zero h.octetCount _
  simp only [bind_def, r1, r2, r3, r4, r5, r6, bind_ok, pure_def]
  have : i.ntp / 2^32 * 2^32 + i.ntp % 2^32 = i.ntp := by omega
  rw [this]

theorem nack_parse {e : NackEntry} (h : e.pid < 2^16 ∧ e.blp < 2^16) (r : List Byte) :
    parseNackEntry (encodeNack e ++ r) = .ok e := by
  show Res.ok (NackEntry.mk (rd16 _ _) (rd16 _ _)) = _
  rw [rd16_be16 h.1, rd16_be16 h.2]

theorem fir_parse {e : FirEntry} (h : e.ssrc < 2^32 ∧ e.seqNo < 2^8) (r : List Byte) :
    parseFirEntry (e.encode ++ r) = .ok e := by
  show Res.ok (FirEntry.mk (rd32 _ _ _ _) (u8 e.seqNo).val) = _
  rw [rd32_be32 h.1, u8_val_of_lt h.2]

/-! ### The header -/

theorem encodeHeader_ok {fmt pt w : Nat} (h : fmt ≤ 31) :
    encodeHeader fmt pt w = .ok ([u8 (0x80 ||| fmt), u8 pt] ++ be16 (w - 1)) := by
  rw [encodeHeader, if_pos h]

/-- The packet types and formats the parser accepts. -/
def Known (fmt pt : Nat) : Prop :=
  200 ≤ pt ∧ pt ≤ 207 ∧ (pt = 205 → fmt = 1 ∨ fmt = 15) ∧
    (pt = 206 → fmt = 1 ∨ fmt = 2 ∨ fmt = 3 ∨ fmt = 4 ∨ fmt = 15)

theorem fmt_bits : ∀ fmt : Fin 32, (u8 (0x80 ||| fmt.val)).val = 0x80 + fmt.val ∧
    ((0x80 + fmt.val) &&& 0xC0) >>> 6 = 2 ∧ (0x80 + fmt.val) &&& 0x1F = fmt.val ∧
    (0x80 + fmt.val) &&& 0x20 = 0 := by decide

theorem Header.parse_of {b0 : Byte} {fmt pt w : Nat} (hk : Known fmt pt)
    (h0 : (b0.val &&& 0xC0) >>> 6 = 2) (h1 : b0.val &&& 0x1F = fmt) (hw : w - 1 < 2^16)
    (rest : List Byte) :
    Header.parse ([b0, u8 pt] ++ be16 (w - 1) ++ rest) = .ok ⟨pt, fmt, w - 1⟩ := by
  obtain ⟨k1, k2, k3, k4⟩ := hk
  have hpt : (u8 pt).val = pt := u8_val_of_lt (by omega)
  unfold Header.parse
  rw [if_neg (by simp)]
  have i0 : (Res.idx ([b0, u8 pt] ++ be16 (w - 1) ++ rest) 0 : Res Unit Byte) = .ok b0 := rfl
  have i1 : (Res.idx ([b0, u8 pt] ++ be16 (w - 1) ++ rest) 1 : Res Unit Byte) = .ok (u8 pt) := rfl
  have i2 : rd16At ([b0, u8 pt] ++ be16 (w - 1) ++ rest) 2 = .ok (w - 1) := by
    show Res.ok (rd16 _ _) = _; rw [rd16_be16 hw]
  simp only [bind_def, i0, i1, i2, bind_ok, hpt, h0, h1]
  rw [if_neg (by simp), if_neg (by omega), if_neg (by intro h; exact h.2 (k3 h.1)),
    if_neg (by intro h; exact h.2 (k4 h.1))]
  rfl

/-- What `Rtcp.parse` does after the header. -/
def dispatch (utf8 : List Byte → Bool) (pt fmt : Nat) (buf : List Byte) : Res Unit Rtcp :=
  match pt with
  | 200 => parseSr buf
  | 201 => parseRr buf
  | 202 => do
    let rs ← descLoop utf8 (buf.length + 1) buf []
    pure (.sdes rs)
  | 203 => parseBye fmt buf
  | 204 => .err ()
  | 205 =>
    if fmt = 1 then parseNack buf
    else do
      let t ← Twcc.Report.parse buf
      pure (.twcc t)
  | 206 =>
    if fmt = 1 then parsePli buf
    else if fmt = 4 then parseFir buf
    else if fmt = 15 then orElse (parseRemb buf) (parseApp buf)
    else .err ()
  | 207 => parseXr buf
  | _ => .err ()

theorem parse_eq {utf8 : List Byte → Bool} {hdr body : List Byte} {pt fmt w : Nat}
    (hh : Header.parse (hdr ++ body) = .ok ⟨pt, fmt, w⟩) (hl : hdr.length = 4) :
    Rtcp.parse utf8 (hdr ++ body) = dispatch utf8 pt fmt body := by
  unfold Rtcp.parse
  rw [bind_def, hh, bind_ok, bind_def, from_left hl, bind_ok]
  rfl

/-- A message on the wire: it is a whole number of words as announced, and reading it gives
back the message whatever follows. -/
structure Wire (utf8 : List Byte → Bool) (p : Rtcp) (b : List Byte) : Prop where
  enc : p.encode = .ok b
  len : b.length = p.lengthWords * 4
  pos : 0 < p.lengthWords
  hdr : ∃ pt fmt, ∀ rest, Header.parse (b ++ rest) = .ok ⟨pt, fmt, p.lengthWords - 1⟩
  body : ∃ n, n ≤ b.length ∧ (∀ rest, unpadded (b ++ rest) b.length = .ok (some n)) ∧
    Rtcp.parse utf8 (b.take n) = .ok p

/-- Messages without padding. -/
theorem wire_plain {utf8 : List Byte → Bool} {p : Rtcp} {fmt pt : Nat} {body : List Byte}
    (hf : fmt ≤ 31) (hk : Known fmt pt) (hpos : 0 < p.lengthWords) (hw : p.lengthWords ≤ 2^16)
    (henc : p.encode = .ok ([u8 (0x80 ||| fmt), u8 pt] ++ be16 (p.lengthWords - 1) ++ body))
    (hlen : 4 + body.length = p.lengthWords * 4)
    (hp : dispatch utf8 pt fmt body = .ok p) :
    ∃ b, Wire utf8 p b := by
  obtain ⟨f1, f2, f3, f4⟩ := fmt_bits ⟨fmt, by omega⟩
  simp only at f1 f2 f3 f4
  have hh : ∀ rest, Header.parse ([u8 (0x80 ||| fmt), u8 pt] ++ be16 (p.lengthWords - 1) ++ rest)
      = .ok ⟨pt, fmt, p.lengthWords - 1⟩ :=
    fun rest => Header.parse_of hk (by rw [f1]; exact f2) (by rw [f1]; exact f3) (by omega) rest
  refine ⟨_, henc, ?_, hpos, ⟨pt, fmt, fun rest => ?_⟩, ⟨_, Nat.le_refl _, fun rest => ?_, ?_⟩⟩
  · simp at hlen ⊢; omega
  · rw [List.append_assoc]; exact hh _
  · unfold unpadded
    have i0 : ∀ r, (Res.idx ([u8 (0x80 ||| fmt), u8 pt] ++ be16 (p.lengthWords - 1) ++ body ++ r) 0
      : Res Unit Byte) = .ok (u8 (0x80 ||| fmt)) := fun _ => rfl
    rw [bind_def, i0, bind_ok, if_neg (by rw [f1, f4]; omega)]
    rfl
  · rw [List.take_length, parse_eq (hdr := [u8 (0x80 ||| fmt), u8 pt] ++ be16 (p.lengthWords - 1))
      (body := body) (hh _) (by simp)]
    exact hp

/-! ### The messages -/

theorem div_exact {n k : Nat} (h : 0 < k) : n * k / k = n := Nat.mul_div_cancel _ h

theorem wire_sr {utf8} {i : SenderInfo} {rs : List ReceptionReport}
    (h : (Rtcp.sr i rs).WF utf8) : ∃ b, Wire utf8 (.sr i rs) b := by
  obtain ⟨hi, hn, hr⟩ := h
  have hl := flatMap_length ReceptionReport.encode_length rs
  refine wire_plain (fmt := rs.length) (pt := 200)
    (body := i.encode ++ rs.flatMap ReceptionReport.encode) (by omega) (by simp [Known])
    (by simp [Rtcp.lengthWords]) (by simp [Rtcp.lengthWords]; omega) ?_ ?_ ?_
  · rw [Rtcp.encode, bind_def, encodeHeader_ok (by omega)]; simp
  · rw [List.length_append, SenderInfo.encode_length, hl]; simp [Rtcp.lengthWords]; omega
  · simp only [dispatch, parseSr, bind_def, SenderInfo.parse_encode hi, bind_ok]
    rw [from_left (SenderInfo.encode_length i), bind_ok]
    have : min ((rs.flatMap ReceptionReport.encode).length / 24) 31 = rs.length := by
      rw [hl, div_exact (by omega)]; omega
    rw [this]
    have := parseN_flatMap ReceptionReport.encode_length rs [] []
      (fun x hx r => ReceptionReport.parse_encode (hr x hx) r) (by simp; omega)
    rw [List.append_nil] at this
    rw [this]; simp

theorem wire_rr {utf8} {s : Nat} {rs : List ReceptionReport}
    (h : (Rtcp.rr s rs).WF utf8) : ∃ b, Wire utf8 (.rr s rs) b := by
  obtain ⟨hi, hn, hr⟩ := h
  have hl := flatMap_length ReceptionReport.encode_length rs
  refine wire_plain (fmt := rs.length) (pt := 201)
    (body := be32 s ++ rs.flatMap ReceptionReport.encode) (by omega) (by simp [Known])
    (by simp [Rtcp.lengthWords]) (by simp [Rtcp.lengthWords]; omega) ?_ ?_ ?_
  · rw [Rtcp.encode, bind_def, encodeHeader_ok (by omega)]; simp
  · rw [List.length_append, hl]; simp [Rtcp.lengthWords]; omega
  · simp only [dispatch, parseRr]
    rw [if_neg (by simp), bind_def, rd32At_zero hi, bind_ok, bind_def, from_left (by simp), bind_ok]
    have : min ((rs.flatMap ReceptionReport.encode).length / 24) 31 = rs.length := by
      rw [hl, div_exact (by omega)]; omega
    rw [this]
    have := parseN_flatMap ReceptionReport.encode_length rs [] []
      (fun x hx r => ReceptionReport.parse_encode (hr x hx) r) (by simp; omega)
    rw [List.append_nil] at this
    rw [bind_def, this]; simp

theorem wire_bye {utf8} {rs : List Nat}
    (h : (Rtcp.bye rs).WF utf8) : ∃ b, Wire utf8 (.bye rs) b := by
  obtain ⟨h0, hn, hr⟩ := h
  have hl := flatMap_length be32_length rs
  refine wire_plain (fmt := rs.length) (pt := 203)
    (body := rs.flatMap be32) (by omega) (by simp [Known])
    (by simp [Rtcp.lengthWords]) (by simp [Rtcp.lengthWords]; omega) ?_ ?_ ?_
  · rw [Rtcp.encode, bind_def, encodeHeader_ok (by omega)]; simp
  · rw [hl]; simp [Rtcp.lengthWords]; omega
  · simp only [dispatch, parseBye]
    rw [if_neg (by rw [hl]; omega), if_neg (by rw [hl]; omega)]
    have : min rs.length 31 = rs.length := by omega
    rw [this]
    have := parseN_flatMap (f := fun b => rd32At b 0) be32_length rs [] []
      (fun x hx r => rd32At_zero (hr x hx) r) (by simp; omega)
    rw [List.append_nil] at this
    rw [bind_def, this]; simp

theorem wire_nack {utf8} {s m : Nat} {rs : List NackEntry}
    (h : (Rtcp.nack s m rs).WF utf8) : ∃ b, Wire utf8 (.nack s m rs) b := by
  obtain ⟨hs, hm, h0, hn, hr⟩ := h
  have hl := flatMap_length (k := 4) (enc := encodeNack) (fun _ => rfl) rs
  refine wire_plain (fmt := 1) (pt := 205)
    (body := be32 s ++ (be32 m ++ rs.flatMap encodeNack)) (by omega) (by simp [Known])
    (by simp [Rtcp.lengthWords]) (by simp [Rtcp.lengthWords]; omega) ?_ ?_ ?_
  · rw [Rtcp.encode, bind_def, encodeHeader_ok (by omega)]; simp
  · rw [List.length_append, List.length_append, hl]; simp [Rtcp.lengthWords]; omega
  · simp only [dispatch, parseNack]
    rw [if_pos trivial, if_neg (by rw [List.length_append, List.length_append, hl]; simp; omega),
      bind_def, rd32At_zero hs, bind_ok, bind_def, rd32At_skip (k := 4) (i := 0) rfl,
      rd32At_zero hm, bind_ok, bind_def, ← List.append_assoc, from_left (by simp), bind_ok]
    have : min ((rs.flatMap encodeNack).length / 4) 31 = rs.length := by
      rw [hl, div_exact (by omega)]; omega
    rw [this]
    have := parseN_flatMap (k := 4) (enc := encodeNack) (fun _ => rfl) rs [] []
      (fun x hx r => nack_parse (hr x hx) r) (by simp; omega)
    rw [List.append_nil] at this
    rw [bind_def, this]; simp

theorem wire_pli {utf8} {s m : Nat} (h : (Rtcp.pli s m).WF utf8) : ∃ b, Wire utf8 (.pli s m) b := by
  obtain ⟨hs, hm⟩ := h
  refine wire_plain (fmt := 1) (pt := 206)
    (body := be32 s ++ (be32 m ++ [])) (by omega) (by simp [Known])
    (by simp [Rtcp.lengthWords]) (by simp [Rtcp.lengthWords]) ?_ ?_ ?_
  · rw [Rtcp.encode, bind_def, encodeHeader_ok (by omega)]; simp
  · simp [Rtcp.lengthWords]
  · simp only [dispatch, parsePli]
    rw [if_pos trivial, if_neg (by simp),
      bind_def, rd32At_zero hs, bind_ok, bind_def, rd32At_skip (k := 4) (i := 0) rfl,
      rd32At_zero hm, bind_ok]
    rfl

theorem wire_fir {utf8} {s : Nat} {rs : List FirEntry}
    (h : (Rtcp.fir s rs).WF utf8) : ∃ b, Wire utf8 (.fir s rs) b := by
  obtain ⟨hs, h0, hn, hr⟩ := h
  have hl := flatMap_length (k := 8) (enc := FirEntry.encode) (fun _ => rfl) rs
  refine wire_plain (fmt := 4) (pt := 206)
    (body := be32 s ++ (be32 ((rs.head?.map (·.ssrc)).getD 0) ++ rs.flatMap FirEntry.encode))
    (by omega) (by simp [Known])
    (by simp [Rtcp.lengthWords]) (by simp [Rtcp.lengthWords]; omega) ?_ ?_ ?_
  · rw [Rtcp.encode, bind_def, encodeHeader_ok (by omega)]; simp
  · rw [List.length_append, List.length_append, hl]; simp [Rtcp.lengthWords]; omega
  · simp only [dispatch, parseFir]
    rw [if_neg (by omega), if_pos trivial,
      if_neg (by rw [List.length_append, List.length_append, hl]; simp; omega),
      bind_def, rd32At_zero hs, bind_ok, bind_def, ← List.append_assoc, from_left (by simp), bind_ok]
    have : min ((rs.flatMap FirEntry.encode).length / 8) 31 = rs.length := by
      rw [hl, div_exact (by omega)]; omega
    rw [this]
    have := parseN_flatMap (k := 8) (enc := FirEntry.encode) (fun _ => rfl) rs [] []
      (fun x hx r => fir_parse (hr x hx) r) (by simp; omega)
    rw [List.append_nil] at this
    rw [bind_def, this]; simp

/-! ### REMB -/

theorem rembNorm_spec : ∀ (e m : Nat), m < 2^18 → 0 < m → 
    ∃ m' e', rembNorm (m * 2^e) = (m', e') ∧ m' < 2^18 ∧ 0 < m' ∧ e' ≤ e ∧ m' * 2^e' = m * 2^e
  | 0, m, h, h0 => by
    refine ⟨m, 0, ?_, h, h0, Nat.le_refl _, rfl⟩
    rw [rembNorm, if_neg (by omega)]; simp
  | e + 1, m, h, h0 => by
    by_cases hc : m * 2^(e+1) ≥ 2^18
    · obtain ⟨m', e', h1, h2, h3, h4, h5⟩ := rembNorm_spec e m h h0
      refine ⟨m', e' + 1, ?_, h2, h3, by omega, ?_⟩
      · rw [rembNorm, if_pos hc]
        have : m * 2^(e+1) / 2 = m * 2^e := by
          rw [Nat.pow_succ, ← Nat.mul_assoc]; exact Nat.mul_div_cancel _ (by omega)
        rw [this, h1]
      · rw [Nat.pow_succ, Nat.pow_succ, ← Nat.mul_assoc, h5, Nat.mul_assoc]
    · refine ⟨m * 2^(e+1), 0, ?_, by omega, Nat.mul_pos h0 (Nat.two_pow_pos _), by omega, by simp⟩
      rw [rembNorm, if_neg hc]

theorem bytes_or {m e : Nat} (hm : m < 2^18) (he : e < 64) :
    (u8 (((e <<< 2) % 256) ||| ((m >>> 16) % 256))).val = e * 4 + m / 2^16 := by
  have h1 : (e <<< 2) % 256 = e <<< 2 := by rw [Nat.shiftLeft_eq]; omega
  have h2 : (m >>> 16) % 256 = m / 2^16 := by rw [Nat.shiftRight_eq_div_pow]; omega
  rw [h1, h2, Twcc.or_add (by omega), u8_val_of_lt (by omega)]
  omega

theorem shift_back {m e k x : Nat} (h : k ≤ x) (n : Nat) (hx : e + n = x) :
    m * 2^k * 2^(x - k) / 2^n = m * 2^e := by
  have hc : m * 2^k * 2^(x - k) = m * 2^e * 2^n := by
    rw [Nat.mul_assoc, ← Nat.pow_add, Nat.mul_assoc, ← Nat.pow_add]
    congr 2; omega
  rw [hc, Nat.mul_div_cancel _ (Nat.two_pow_pos _)]

theorem decode_encode {b : Nat} (h : Expressible b) :
    ∃ x y z, encodeBitrate b = [x, y, z] ∧ decodeBitrate x y z = .ok b := by
  obtain ⟨m, e, h0, hm, he, rfl⟩ := h
  have hmax : min (m * 2^e) bitrateMax = m * 2^e := by
    apply Nat.min_eq_left
    unfold bitrateMax
    exact Nat.mul_le_mul (by omega) (Nat.pow_le_pow_right (by omega) (by omega))
  obtain ⟨m', e', h1, h2, h3, h4, h5⟩ := rembNorm_spec e m hm h0
  refine ⟨_, _, _, by unfold encodeBitrate; rw [hmax, h1], ?_⟩
  have hb := bytes_or (m := m') (e := e') h2 (by omega)
  unfold decodeBitrate
  have hman : (((u8 (((e' <<< 2) % 256) ||| ((m' >>> 16) % 256))).val &&& 3) <<< 16)
      ||| ((u8 (m' >>> 8)).val <<< 8) ||| (u8 m').val = m' := by
    rw [hb, show 3 = 2^2 - 1 from rfl, Nat.and_two_pow_sub_one_eq_mod]
    have a1 : (e' * 4 + m' / 2^16) % 2^2 = m' / 2^16 := by omega
    rw [a1, Nat.or_assoc, Twcc.or_add (a := (u8 (m' >>> 8)).val) (by omega), u8_val, u8_val,
      Nat.shiftRight_eq_div_pow, Twcc.or_add (by omega)]
    omega
  have hexp : (u8 (((e' <<< 2) % 256) ||| ((m' >>> 16) % 256))).val >>> 2 = e' := by
    rw [hb, Nat.shiftRight_eq_div_pow]; omega
  simp only [hman, hexp, bind_def]
  rw [if_pos (by omega)]
  obtain ⟨k, k1, k2, k3⟩ := exists_shift h3 (by omega)
  rw [rembShift_eq k 24 _ _ k1 k2 (by omega) (by omega), bind_ok]
  simp only [f32OfBits, pure_def]
  have ha : (m' * 2^k) &&& 0x7FFFFF = m' * 2^k - 2^23 := by
    rw [show 0x7FFFFF = 2^23 - 1 from rfl, Nat.and_two_pow_sub_one_eq_mod]; omega
  rw [ha]
  have hb : 2^23 + (m' * 2^k - 2^23) = m' * 2^k := by omega
  rw [hb, shift_back (by omega) 150 rfl, h5]

theorem rembSsrcs_of (pre : List Byte) : ∀ (ss done : List Nat), pre.length = 16 →
    (∀ x ∈ ss, x < 2^32) →
    rembSsrcs (pre ++ (done.flatMap be32 ++ ss.flatMap be32)) ss.length done.length = .ok ss
  | [], _, _, _ => rfl
  | x :: ss, done, hp, hx => by
    rw [List.length_cons, rembSsrcs, bind_def]
    have hr := rembSsrcs_of pre ss (done ++ [x]) hp (fun y hy => hx y (by simp [hy]))
    rw [show 16 + done.length * 4 = 16 + (done.length * 4 + 0) from rfl, rd32At_skip hp,
      rd32At_skip (flatMap_length be32_length done), List.flatMap_cons,
      rd32At_zero (hx x (by simp)), bind_ok, bind_def]
    rw [List.flatMap_append, List.length_append] at hr
    simp only [List.flatMap_cons, List.flatMap_nil, List.append_nil, List.append_assoc,
      List.length_cons, List.length_nil] at hr
    rw [hr]
    rfl

theorem wire_remb {utf8} {s b : Nat} {ss : List Nat}
    (h : (Rtcp.remb s b ss).WF utf8) : ∃ w, Wire utf8 (.remb s b ss) w := by
  obtain ⟨hs, hb, hn, hx⟩ := h
  obtain ⟨x, y, z, he, hd⟩ := decode_encode hb
  have hl := flatMap_length be32_length ss
  refine wire_plain (fmt := 15) (pt := 206)
    (body := be32 s ++ (be32 0 ++ (rembId ++ ([u8 ss.length] ++ ([x, y, z] ++ ss.flatMap be32)))))
    (by omega) (by simp [Known])
    (by simp [Rtcp.lengthWords]) (by simp [Rtcp.lengthWords]; omega) ?_ ?_ ?_
  · rw [Rtcp.encode, bind_def, encodeHeader_ok (by omega), he]; simp
  · simp only [List.length_append, hl]; simp [Rtcp.lengthWords, rembId]; omega
  · simp only [dispatch]
    rw [if_neg (by omega), if_neg (by omega), if_pos trivial]
    have : parseRemb (be32 s ++ (be32 0 ++ (rembId ++ ([u8 ss.length] ++
        ([x, y, z] ++ ss.flatMap be32))))) = .ok (.remb s b ss) := by
      unfold parseRemb
      rw [if_neg (by simp [rembId]; omega), bind_def, rd32At_zero hs, bind_ok, bind_def,
        rd32At_skip (k := 4) (i := 0) rfl, rd32At_zero (by omega), bind_ok, if_neg (by omega),
        bind_def, slice_of_le (by omega) (by simp [rembId]; omega), bind_ok,
        if_neg (by simp [rembId, be32])]
      show Res.bind (decodeBitrate x y z) _ = _
      rw [hd, bind_ok, if_neg (by simp [rembId, hl]; omega)]
      have := rembSsrcs_of (be32 s ++ (be32 0 ++ (rembId ++ ([u8 ss.length] ++ [x, y, z])))) ss []
        (by simp [rembId]) hx
      simp only [List.flatMap_nil, List.nil_append, List.append_assoc, List.length_nil] at this
      rw [u8_val_of_lt (by omega), bind_def, this]
      rfl
    rw [this]; rfl

theorem wire_app {utf8} {s m : Nat} {p : List Byte}
    (h : (Rtcp.app s m p).WF utf8) : ∃ w, Wire utf8 (.app s m p) w := by
  obtain ⟨hs, hm, h4, hn, hr⟩ := h
  have h0 : (p.length + 3) / 4 * 4 - p.length = 0 := by omega
  refine wire_plain (fmt := 15) (pt := 206)
    (body := be32 s ++ (be32 m ++ p)) (by omega) (by simp [Known])
    (by simp [Rtcp.lengthWords]) (by simp [Rtcp.lengthWords]; omega) ?_ ?_ ?_
  · rw [Rtcp.encode, bind_def, encodeHeader_ok (by omega), h0]; simp
  · simp [Rtcp.lengthWords]; omega
  · simp only [dispatch]
    rw [if_neg (by omega), if_neg (by omega), if_pos trivial]
    have e1 : parseRemb (be32 s ++ (be32 m ++ p)) = .err () := by
      unfold parseRemb
      by_cases hl : (be32 s ++ (be32 m ++ p)).length < 16
      · rw [if_pos hl]
      · rw [if_neg hl, bind_def, rd32At_zero hs, bind_ok, bind_def,
          rd32At_skip (k := 4) (i := 0) rfl, rd32At_zero hm, bind_ok]
        by_cases h0 : m = 0
        · rw [if_neg (by simpa using h0), bind_def, slice_of_le (by omega) (by simp at hl ⊢; omega),
            bind_ok, if_pos]
          have : ((be32 s ++ (be32 m ++ p)).take 12).drop 8 = p.take 4 := by
            simp [be32]
          rw [this]; exact fun hc => hr ⟨h0, hc⟩
        · rw [if_pos h0]
    rw [e1]
    show parseApp _ = _
    unfold parseApp
    rw [if_neg (by simp; omega), bind_def, rd32At_zero hs, bind_ok, bind_def,
      rd32At_skip (k := 4) (i := 0) rfl, rd32At_zero hm, bind_ok, bind_def, ← List.append_assoc,
      from_left (by simp), bind_ok]
    rfl

/-! ### SDES -/

theorem encodeSdesItem_length (v : SdesType × List Byte) :
    (encodeSdesItem v).length = 2 + v.2.length := by simp [encodeSdesItem]; omega

theorem items_length (vs : List (SdesType × List Byte)) :
    (vs.flatMap encodeSdesItem).length = (vs.map (fun v => 2 + v.2.length)).sum := by
  induction vs with
  | nil => rfl
  | cons v vs ih => rw [List.flatMap_cons, List.length_append, encodeSdesItem_length, ih]; simp

theorem items_bound {vs : List (SdesType × List Byte)} (h : ∀ v ∈ vs, v.2.length ≤ 255) :
    (vs.map (fun v => 2 + v.2.length)).sum ≤ vs.length * 257 := by
  induction vs with
  | nil => simp
  | cons v vs ih =>
    have h1 := h v (by simp)
    have h2 := ih (fun w hw => h w (by simp [hw]))
    simp only [List.map_cons, List.sum_cons, List.length_cons]; omega

theorem SdesType.ofCode_code (t : SdesType) : SdesType.ofCode t.code = t := by cases t <;> rfl
theorem SdesType.code_lt (t : SdesType) : t.code < 256 := by cases t <;> decide

theorem sdesLoop_of (utf8 : List Byte → Bool) (pad : Nat) (rest : List Byte) :
    ∀ (vs : List (SdesType × List Byte)) (fuel abs : Nat) (acc : List (SdesType × List Byte)),
    (∀ v ∈ vs, v.1 ≠ .end_) → (∀ v ∈ vs, utf8 v.2 = true) → (∀ v ∈ vs, v.2.length ≤ 255) →
    acc.length + vs.length ≤ 31 →
    4 - (abs + (vs.flatMap encodeSdesItem).length) % 4 ≤ 1 + pad →
    (vs.flatMap encodeSdesItem).length < fuel →
    sdesLoop utf8 fuel (vs.flatMap encodeSdesItem ++ (0 :: (List.replicate pad 0 ++ rest))) abs acc
      = .ok (acc ++ vs)
  | _, 0, _, _, _, _, _, _, _, h => by omega
  | [], fuel + 1, abs, acc, _, _, _, hl, hp, _ => by
    rw [sdesLoop]
    by_cases h1 : acc.length = 31
    · rw [if_pos h1]; simp
    · rw [if_neg h1]
      by_cases h2 : ([].flatMap encodeSdesItem ++ (0 :: (List.replicate pad 0 ++ rest)) : List Byte) = [0]
      · rw [if_pos h2]; simp
      · rw [if_neg h2]
        have h3 : pad + rest.length ≠ 0 := by
          intro hc; apply h2
          have hp0 : pad = 0 := by omega
          have hr0 : rest = [] := List.length_eq_zero_iff.1 (by omega)
          simp [hp0, hr0]
        rw [if_neg (by simp; omega)]
        have i0 : (Res.idx ([].flatMap encodeSdesItem ++ (0 :: (List.replicate pad 0 ++ rest))) 0
          : Res Unit Byte) = .ok 0 := rfl
        rw [bind_def, i0, bind_ok, if_pos (by rfl), if_neg]
        · simp
        · simp at hp ⊢; omega
  | v :: vs, fuel + 1, abs, acc, ht, hu, hv, hl, hp, hf => by
    simp only [List.length_cons] at hl
    simp only [List.flatMap_cons, List.length_append] at hp hf
    rw [encodeSdesItem_length] at hp hf
    have e : (v :: vs).flatMap encodeSdesItem ++ (0 :: (List.replicate pad 0 ++ rest))
        = u8 v.1.code :: u8 v.2.length :: (v.2 ++ (vs.flatMap encodeSdesItem
          ++ (0 :: (List.replicate pad 0 ++ rest)))) := by
      simp [encodeSdesItem]
    rw [e, sdesLoop, if_neg (by omega), if_neg (by simp), if_neg (by simp), bind_def]
    have hv' := hv v (by simp)
    rw [idx_cons_zero, bind_ok, u8_val_of_lt v.1.code_lt, SdesType.ofCode_code,
      if_neg (ht v (by simp)), bind_def, idx_cons_succ, idx_cons_zero, bind_ok,
      u8_val_of_lt (by omega), if_neg (by simp; omega), bind_def,
      from_of_le (by simp), bind_ok, bind_def]
    rw [show ∀ (a b : Byte) (l : List Byte), (a :: b :: l).drop 2 = l from fun _ _ _ => rfl,
      upto_of_le (by simp), bind_ok, List.take_left, if_pos (hu v (by simp)),
      push_of_lt (by omega), bind_def, bind_ok, bind_def, from_left rfl, bind_ok,
      sdesLoop_of utf8 pad rest vs fuel (abs + 2 + v.2.length) (acc ++ [v])
        (fun w hw => ht w (by simp [hw])) (fun w hw => hu w (by simp [hw]))
        (fun w hw => hv w (by simp [hw])) (by simp; omega) ?_ (by omega)]
    · simp
    · rw [show abs + 2 + v.2.length + (vs.flatMap encodeSdesItem).length =
        abs + (2 + v.2.length + (vs.flatMap encodeSdesItem).length) by omega]; exact hp

theorem Sdes.encode_length (s : Sdes) : s.encode.length = s.wordSize * 4 := by
  unfold Sdes.encode Sdes.wordSize padWord
  simp only [List.length_append, be32_length, List.length_replicate, List.length_singleton,
    items_length]
  split <;> split <;> omega

theorem Sdes.wordSize_le {utf8} {s : Sdes} (h : s.WF utf8) : s.wordSize ≤ 2000 := by
  have h1 := items_bound h.len
  have h2 := h.count
  unfold Sdes.wordSize padWord
  simp only
  split <;> omega

theorem Sdes.parse_encode {utf8} {s : Sdes} (h : s.WF utf8) (rest : List Byte) :
    Sdes.parse utf8 (s.encode ++ rest) = .ok s := by
  obtain ⟨pad, hpad⟩ : ∃ pad, pad = if 4 - (4 + (s.values.flatMap encodeSdesItem).length + 1) % 4 < 4
    then 4 - (4 + (s.values.flatMap encodeSdesItem).length + 1) % 4 else 0 := ⟨_, rfl⟩
  have e : s.encode ++ rest = be32 s.ssrc ++ (s.values.flatMap encodeSdesItem
      ++ (0 :: (List.replicate pad 0 ++ rest))) := by
    unfold Sdes.encode; simp only [← hpad, List.append_assoc]; rfl
  unfold Sdes.parse
  rw [e, if_neg, bind_def, rd32At_zero h.ssrc, bind_ok, bind_def, from_left (by simp), bind_ok,
    bind_def, sdesLoop_of utf8 pad rest s.values _ 0 [] h.types h.text h.len
      (by have := h.count; simp; omega)
      (by rw [hpad]; split <;> omega) (by simp; omega)]
  · simp
  · simp only [List.length_append, be32_length, List.length_cons, List.length_replicate]
    rw [hpad]; split <;> omega

theorem descLoop_of {utf8} : ∀ (rs acc : List Sdes) (fuel : Nat), (∀ r ∈ rs, r.WF utf8) →
    acc.length + rs.length ≤ 31 → (rs.flatMap Sdes.encode).length < fuel →
    descLoop utf8 fuel (rs.flatMap Sdes.encode) acc = .ok (acc ++ rs)
  | _, _, 0, _, _, h => by omega
  | [], acc, fuel + 1, _, hl, _ => by
    rw [descLoop, List.flatMap_nil]
    by_cases h : acc.length = 31
    · rw [if_pos h]; simp
    · rw [if_neg h, if_pos (by simp)]; simp
  | s :: rs, acc, fuel + 1, hw, hl, hf => by
    simp only [List.length_cons] at hl
    have hs := hw s (by simp)
    have hlen := Sdes.encode_length s
    have hpos : 2 ≤ s.wordSize := by
      unfold Sdes.wordSize padWord; simp only; split <;> omega
    rw [List.flatMap_cons] at hf ⊢
    rw [List.length_append] at hf
    rw [descLoop, if_neg (by omega), if_neg (by simp; omega), bind_def, Sdes.parse_encode hs,
      bind_ok, bind_def, push_of_lt (by omega), bind_ok]
    by_cases hc : s.wordSize * 4 = 0 ∨ s.wordSize * 4 ≥ (s.encode ++ rs.flatMap Sdes.encode).length
    · rw [if_pos hc]
      have h0 : (rs.flatMap Sdes.encode).length = 0 := by
        rw [List.length_append] at hc; omega
      have : rs = [] := by
        cases rs with
        | nil => rfl
        | cons r rs =>
          rw [List.flatMap_cons, List.length_append, Sdes.encode_length] at h0
          have : 2 ≤ r.wordSize := by
            unfold Sdes.wordSize padWord; simp only; split <;> omega
          omega
      rw [this]
    · rw [if_neg hc, bind_def, from_left hlen, bind_ok,
        descLoop_of rs (acc ++ [s]) fuel (fun r hr => hw r (by simp [hr])) (by simp; omega)
          (by omega)]
      simp

theorem wire_sdes {utf8} {rs : List Sdes}
    (h : (Rtcp.sdes rs).WF utf8) : ∃ w, Wire utf8 (.sdes rs) w := by
  obtain ⟨hn, hr⟩ := h
  have hl : ∀ l : List Sdes, (l.flatMap Sdes.encode).length = (l.map Sdes.wordSize).sum * 4 := by
    intro l
    induction l with
    | nil => rfl
    | cons s l ih =>
      rw [List.flatMap_cons, List.length_append, ih, Sdes.encode_length, List.map_cons,
        List.sum_cons]; ring
  have hb : ∀ l : List Sdes, (∀ s ∈ l, s.wordSize ≤ 2000) →
      (l.map Sdes.wordSize).sum ≤ l.length * 2000 := by
    intro l
    induction l with
    | nil => simp
    | cons s l ih =>
      intro h
      have h1 := h s (by simp)
      have h2 := ih (fun t ht => h t (by simp [ht]))
      simp only [List.map_cons, List.sum_cons, List.length_cons]; omega
  have hb' := hb rs (fun s hs => Sdes.wordSize_le (hr s hs))
  refine wire_plain (fmt := rs.length) (pt := 202) (body := rs.flatMap Sdes.encode)
    (by omega) (by simp [Known])
    (by simp [Rtcp.lengthWords]) (by simp only [Rtcp.lengthWords]; omega) ?_ ?_ ?_
  · rw [Rtcp.encode, bind_def, encodeHeader_ok (by omega)]; simp
  · rw [hl]; simp only [Rtcp.lengthWords]; omega
  · simp only [dispatch]
    rw [bind_def, descLoop_of rs [] _ hr (by simpa using hn) (by omega)]
    simp

/-! ### XR -/

theorem DlrrItem.encode_length (i : DlrrItem) : i.encode.length = 12 := rfl

theorem dlrrItems_of : ∀ (is : List DlrrItem) (rest : List Byte),
    (∀ i ∈ is, i.ssrc < 2^32 ∧ i.lastRr < 2^32 ∧ i.delay < 2^32) →
    dlrrItems is.length (is.flatMap DlrrItem.encode ++ rest) = .ok is
  | [], _, _ => rfl
  | i :: is, rest, h => by
    obtain ⟨h1, h2, h3⟩ := h i (by simp)
    rw [List.length_cons, dlrrItems, List.flatMap_cons, List.append_assoc,
      if_neg (by rw [List.length_append, DlrrItem.encode_length]; omega), bind_def]
    have e : i.encode ++ (is.flatMap DlrrItem.encode ++ rest) = be32 i.ssrc ++ (be32 i.lastRr
      ++ (be32 i.delay ++ (is.flatMap DlrrItem.encode ++ rest))) := by
      simp only [DlrrItem.encode, List.append_assoc]
    have r1 : rd32At (i.encode ++ (is.flatMap DlrrItem.encode ++ rest)) 0 = .ok i.ssrc := by
      rw [e]; exact rd32At_zero h1 _
    have r2 : rd32At (i.encode ++ (is.flatMap DlrrItem.encode ++ rest)) 4 = .ok i.lastRr := by
      rw [e, rd32At_skip (k := 4) (i := 0) rfl]; exact rd32At_zero h2 _
    have r3 : rd32At (i.encode ++ (is.flatMap DlrrItem.encode ++ rest)) 8 = .ok i.delay := by
      rw [e, rd32At_skip (k := 4) (i := 4) rfl, rd32At_skip (k := 4) (i := 0) rfl]
      exact rd32At_zero h3 _
    rw [r1, bind_ok, bind_def, r2, bind_ok, bind_def, r3, bind_ok, bind_def,
      from_left (DlrrItem.encode_length i), bind_ok, bind_def,
      dlrrItems_of is rest (fun j hj => h j (by simp [hj]))]
    rfl

theorem Block.encode_wf {b : Block} (h : b.WF) : ∃ x, b.encode = .ok x ∧ x.length = b.len ∧
    ∀ rest, Block.parse (x ++ rest) = .ok b := by
  cases b with
  | rrtr ntp =>
    have h' : ntp < 2^64 := h
    refine ⟨_, rfl, rfl, fun rest => ?_⟩
    show Res.ok (Block.rrtr (rd32 _ _ _ _ * 2^32 + rd32 _ _ _ _)) = _
    congr 2
    simp [rd32]; omega
  | dlrr items =>
    obtain ⟨h1, h2⟩ := h
    have hm : items.length % 2^16 * 3 = items.length * 3 := by omega
    refine ⟨[5, 0] ++ be16 (items.length * 3) ++ items.flatMap DlrrItem.encode, ?_, ?_, fun rest => ?_⟩
    · rw [Block.encode, hm, if_pos (by omega)]
    · rw [List.length_append, flatMap_length DlrrItem.encode_length]
      simp [Block.len]; omega
    · unfold Block.parse
      rw [if_neg (by simp), bind_def]
      have i0 : (Res.idx ([5, 0] ++ be16 (items.length * 3) ++ items.flatMap DlrrItem.encode ++ rest) 0
        : Res Unit Byte) = .ok 5 := rfl
      rw [i0, bind_ok, if_neg (by decide), if_pos (by decide), if_neg (by simp), bind_def]
      have i2 : rd16At ([5, 0] ++ be16 (items.length * 3) ++ items.flatMap DlrrItem.encode ++ rest) 2
          = .ok (items.length * 3) := by
        show Res.ok (rd16 _ _) = _; rw [rd16_be16 (by omega)]
      rw [i2, bind_ok, bind_def, List.append_assoc, from_left (by simp), bind_ok, bind_def,
        div_exact (by omega), dlrrItems_of items rest h2]
      rfl

theorem Block.len_pos (b : Block) : 0 < b.len ∧ b.len % 4 = 0 := by
  cases b <;> simp [Block.len]; omega

theorem encodeBlocks_wf : ∀ {bs : List Block}, (∀ b ∈ bs, b.WF) →
    ∃ x, encodeBlocks bs = .ok x ∧ x.length = (bs.map (fun b => b.len / 4)).sum * 4 ∧
      ∀ fuel acc, x.length < fuel → xrLoop fuel x acc = .ok (acc ++ bs)
  | [], _ => ⟨[], rfl, rfl, fun fuel acc hf => by
      obtain ⟨fuel, rfl⟩ : ∃ f, fuel = f + 1 := ⟨fuel - 1, by simp at hf; omega⟩
      simp [xrLoop, Block.parse]⟩
  | b :: bs, h => by
    obtain ⟨x, hx, hl, hp⟩ := Block.encode_wf (h b (by simp))
    obtain ⟨y, hy, hyl, hyr⟩ := encodeBlocks_wf (bs := bs) (fun d hd => h d (by simp [hd]))
    obtain ⟨hb0, hb4⟩ := b.len_pos
    refine ⟨x ++ y, ?_, ?_, fun fuel acc hf => ?_⟩
    · rw [encodeBlocks, bind_def, hx, bind_ok, bind_def, hy]; rfl
    · rw [List.length_append, hl, hyl]; simp only [List.map_cons, List.sum_cons]; omega
    · rw [List.length_append] at hf
      obtain ⟨fuel, rfl⟩ : ∃ f, fuel = f + 1 := ⟨fuel - 1, by omega⟩
      rw [xrLoop, hp]
      simp only
      by_cases hc : b.len = 0 ∨ b.len ≥ (x ++ y).length
      · rw [if_pos hc]
        rw [List.length_append] at hc
        have h0 : y.length = 0 := by omega
        have : bs = [] := by
          cases bs with
          | nil => rfl
          | cons c cs =>
            have := c.len_pos
            rw [hyl, List.map_cons, List.sum_cons] at h0
            omega
        rw [this]
      · rw [if_neg hc, bind_def, from_left hl, bind_ok, hyr fuel (acc ++ [b]) (by omega)]
        simp

theorem wire_xr {utf8} {s : Nat} {bs : List Block}
    (h : (Rtcp.xr s bs).WF utf8) : ∃ w, Wire utf8 (.xr s bs) w := by
  obtain ⟨hs, hb, hn⟩ := h
  obtain ⟨x, hx, hl, hr⟩ := encodeBlocks_wf hb
  refine wire_plain (fmt := 0) (pt := 207) (body := be32 s ++ x)
    (by omega) (by simp [Known])
    (by simp [Rtcp.lengthWords]) (by simp only [Rtcp.lengthWords]; omega) ?_ ?_ ?_
  · rw [Rtcp.encode, bind_def, encodeHeader_ok (by omega), bind_ok, bind_def, hx]; simp
  · rw [List.length_append, hl]; simp only [Rtcp.lengthWords, be32_length]; omega
  · simp only [dispatch, parseXr]
    rw [if_neg (by simp), bind_def, rd32At_zero hs, bind_ok, bind_def, from_left (by simp),
      bind_ok, bind_def, hr _ [] (by omega)]
    simp

/-! ### TWCC -/

theorem delta_encode_length (d : Delta) : d.encode.length = d.byteLen := by
  cases d <;> rfl

theorem encs_length (ds : List Delta) : (encs ds).length = (ds.map Delta.byteLen).sum := by
  induction ds with
  | nil => rfl
  | cons d ds ih => rw [encs_cons, List.length_append, ih, delta_encode_length]; simp

theorem padBytes_length (n : Nat) : (padBytes n).length = padLen n := by
  unfold padBytes; split <;> simp <;> omega

theorem padLen_le (n : Nat) : padLen n ≤ 3 ∧ (n + padLen n) % 4 = 0 := by
  unfold padLen; split <;> omega

theorem padLen_add (n : Nat) : padLen (20 + n) = padLen n := by
  unfold padLen; split <;> split <;> omega

theorem twcc_b0 (n : Nat) : ∃ b0 : Byte,
    u8 ((0x80 ||| 15) ||| (if padLen n = 0 then 0 else 0x20)) = b0 ∧
    (b0.val &&& 0xC0) >>> 6 = 2 ∧ b0.val &&& 0x1F = 15 ∧
    (b0.val &&& 0x20 > 0 ↔ padLen n ≠ 0) := by
  refine ⟨_, rfl, ?_⟩
  by_cases h : padLen n = 0
  · rw [if_pos h]; simp [h]
  · rw [if_neg h]; simp [h]

theorem Report.parse_of {t : Report} (h : t.WF) (hlr : LargeRunLast t.chunks) {cs : List Byte}
    (hl : cs.length = t.chunks.length * 2)
    (hc : ∀ (n : Nat) (rest : List Byte) (fuel : Nat), Covers t.chunks n →
      cs.length + rest.length < fuel → parseChunks fuel n (cs ++ rest) = .ok (t.chunks, rest)) :
    Report.parse (be32 t.senderSsrc ++ be32 t.ssrc ++ be16 t.baseSeq ++ be16 t.statusCount
      ++ be24 t.referenceTime ++ [u8 t.feedbackCount] ++ (cs ++ encs t.delta)) = .ok t := by
  unfold Report.parse
  rw [if_neg (by simp; omega)]
  show Res.bind (parseChunks ((cs ++ encs t.delta).length + 1)
    ((rd16 (u8 (t.statusCount / 2^8)) (u8 t.statusCount) : Nat) : Int) (cs ++ encs t.delta)) _ = _
  rw [rd16_be16 h.count, hc _ _ _ h.covers (by simp), bind_ok]
  show Res.bind (parseDeltas t.chunks (encs t.delta)) _ = _
  rw [parseDeltas_match h.chunks hlr h.deltas, bind_ok]
  show Res.ok (Report.mk (rd32 _ _ _ _) (rd32 _ _ _ _) (rd16 _ _) t.statusCount (rd24 _ _ _)
    (u8 t.feedbackCount).val _ _) = _
  rw [rd32_be32 h.sender, rd32_be32 h.ssrc, rd16_be16 h.base, rd24_be24 h.ref, u8_val_of_lt h.fb]

theorem wire_twcc {utf8} {t : Report} (hw : (Rtcp.twcc t).WF utf8) : ∃ b, Wire utf8 (.twcc t) b := by
  obtain ⟨h, hlr⟩ := hw
  obtain ⟨cs, hcs, hcl, hcp⟩ := encodeChunks_wf h.chunks
  have hbl : (cs ++ encs t.delta).length = t.bodyLen := by
    rw [List.length_append, encs_length, hcl]; rfl
  obtain ⟨pl, hpl⟩ : ∃ pl, padLen (20 + t.bodyLen) = pl := ⟨_, rfl⟩
  have hp2 := padLen_le (20 + t.bodyLen)
  have hpa := padLen_add t.bodyLen
  have hsz := h.size
  have hlw : (Rtcp.twcc t).lengthWords = 5 + (t.bodyLen + pl) / 4 := by
    simp only [Rtcp.lengthWords, Report.lengthWords]; rw [← hpa, hpl]
  obtain ⟨b0, hb0, c1, c2, c3⟩ := twcc_b0 (20 + t.bodyLen)
  obtain ⟨fld, hfld⟩ : ∃ fld, be32 t.senderSsrc ++ be32 t.ssrc ++ be16 t.baseSeq
    ++ be16 t.statusCount ++ be24 t.referenceTime ++ [u8 t.feedbackCount] = fld := ⟨_, rfl⟩
  have hfl : fld.length = 16 := by rw [← hfld]; simp
  have hk : Known 15 205 := by simp [Known]
  have hwl : (Rtcp.twcc t).lengthWords - 1 < 2^16 := by rw [hlw]; omega
  have henc : (Rtcp.twcc t).encode = .ok ([b0, u8 205] ++ be16 ((Rtcp.twcc t).lengthWords - 1)
      ++ (fld ++ (cs ++ encs t.delta) ++ padBytes (20 + t.bodyLen))) := by
    show Report.encode t = _
    unfold Report.encode
    rw [bind_def, hcs, bind_ok]
    have e : (cs ++ t.delta.flatMap Delta.encode).length = t.bodyLen := hbl
    simp only [e, hb0, ← hfld, pure_def, Rtcp.lengthWords]
    simp only [encs, List.append_assoc]
  have hlen : ([b0, u8 205] ++ be16 ((Rtcp.twcc t).lengthWords - 1)
      ++ (fld ++ (cs ++ encs t.delta) ++ padBytes (20 + t.bodyLen))).length
      = (Rtcp.twcc t).lengthWords * 4 := by
    simp only [List.length_append, hfl, padBytes_length, hlw, hpl, be16_length] at hbl ⊢
    simp only [List.length_cons, List.length_nil]
    rw [hpl] at hp2; omega
  refine ⟨_, henc, hlen, by rw [hlw]; omega, ⟨205, 15, fun rest => ?_⟩, ⟨20 + t.bodyLen, ?_, fun rest => ?_, ?_⟩⟩
  · rw [List.append_assoc]; exact Header.parse_of hk c1 c2 hwl _
  · rw [hlen, hlw]; rw [hpl] at hp2; omega
  · unfold unpadded
    have i0 : ∀ r, (Res.idx ([b0, u8 205] ++ be16 ((Rtcp.twcc t).lengthWords - 1)
      ++ r) 0 : Res Unit Byte) = .ok b0 := fun _ => rfl
    rw [bind_def, List.append_assoc, i0, bind_ok]
    rw [← List.append_assoc, hlen, hlw]
    by_cases h0 : pl = 0
    · rw [if_neg (by rw [c3, hpl]; simpa using h0)]
      rw [hpl] at hp2
      simp only [pure_def]
      congr 2; omega
    · rw [if_pos (by rw [c3, hpl]; exact h0), bind_def]
      have hpb : padBytes (20 + t.bodyLen) = List.replicate (pl - 1) 0 ++ [u8 pl] := by
        unfold padBytes; rw [hpl, if_neg h0]
      rw [hpl] at hp2
      have hidx : (Res.idx ([b0, u8 205] ++ be16 (5 + (t.bodyLen + pl) / 4 - 1)
          ++ (fld ++ (cs ++ encs t.delta) ++ padBytes (20 + t.bodyLen)) ++ rest)
          ((5 + (t.bodyLen + pl) / 4) * 4 - 1) : Res Unit Byte) = .ok (u8 pl) := by
        obtain ⟨pre, hpre⟩ : ∃ pre, [b0, u8 205] ++ be16 (5 + (t.bodyLen + pl) / 4 - 1)
          ++ (fld ++ (cs ++ encs t.delta)) ++ List.replicate (pl - 1) 0 = pre := ⟨_, rfl⟩
        have e : [b0, u8 205] ++ be16 (5 + (t.bodyLen + pl) / 4 - 1)
          ++ (fld ++ (cs ++ encs t.delta) ++ padBytes (20 + t.bodyLen)) ++ rest
          = pre ++ (u8 pl :: rest) := by rw [hpb, ← hpre]; simp
        have hpl' : pre.length = (5 + (t.bodyLen + pl) / 4) * 4 - 1 := by
          rw [← hpre]
          simp only [List.length_append, hfl, be16_length, List.length_replicate] at hbl ⊢
          simp only [List.length_cons, List.length_nil]
          omega
        rw [e, ← hpl']
        simp [Res.idx]
      rw [hidx, bind_ok, u8_val_of_lt (by omega), if_neg (by omega)]
      simp only [pure_def]
      congr 2; omega
  · have e : ([b0, u8 205] ++ be16 ((Rtcp.twcc t).lengthWords - 1)
      ++ (fld ++ (cs ++ encs t.delta) ++ padBytes (20 + t.bodyLen))).take (20 + t.bodyLen)
      = [b0, u8 205] ++ be16 ((Rtcp.twcc t).lengthWords - 1) ++ (fld ++ (cs ++ encs t.delta)) := by
      have : [b0, u8 205] ++ be16 ((Rtcp.twcc t).lengthWords - 1)
        ++ (fld ++ (cs ++ encs t.delta) ++ padBytes (20 + t.bodyLen))
        = ([b0, u8 205] ++ be16 ((Rtcp.twcc t).lengthWords - 1) ++ (fld ++ (cs ++ encs t.delta)))
          ++ padBytes (20 + t.bodyLen) := by simp
      rw [this]
      apply List.take_left'
      rw [List.length_append, List.length_append, List.length_append, hbl, hfl]
      simp; omega
    rw [e, parse_eq (Header.parse_of hk c1 c2 hwl _) (by simp)]
    simp only [dispatch]
    rw [if_neg (by omega), bind_def, ← hfld, Report.parse_of h hlr hcl hcp]
    rfl

/-! ### Everything -/

theorem wire {utf8} {p : Rtcp} (h : p.WF utf8) : ∃ b, Wire utf8 p b := by
  cases p with
  | sr => exact wire_sr h
  | rr => exact wire_rr h
  | xr => exact wire_xr h
  | sdes => exact wire_sdes h
  | bye => exact wire_bye h
  | nack => exact wire_nack h
  | pli => exact wire_pli h
  | fir => exact wire_fir h
  | twcc => exact wire_twcc h
  | remb => exact wire_remb h
  | app => exact wire_app h

theorem readLoop_cons {utf8} {p : Rtcp} {b : List Byte} (h : Wire utf8 p b) (rest : List Byte)
    {vs : List Rtcp} {fuel : Nat} (hr : readLoop utf8 fuel rest = .ok vs) :
    readLoop utf8 (fuel + 1) (b ++ rest) = .ok (p :: vs) := by
  obtain ⟨pt, fmt, hh⟩ := h.hdr
  obtain ⟨n, hn, hu, hp⟩ := h.body
  have hpos := h.pos
  have hlen := h.len
  have hne : ¬ (b ++ rest = []) := by
    intro hc
    have := congrArg List.length hc
    simp only [List.length_append, List.length_nil] at this; omega
  rw [readLoop, if_neg hne, hh]
  simp only [Header.lengthWords]
  have e : (p.lengthWords - 1 + 1) * 4 = b.length := by omega
  simp only [e]
  rw [if_neg (by simp), bind_def, hu, bind_ok]
  simp only
  rw [bind_def, upto_of_le (by simp; omega), bind_ok, List.take_append_of_le_length hn, hp]
  simp only
  rw [bind_def, from_left rfl, bind_ok, bind_def, hr]
  rfl

/-- Writing messages one after the other, each into what is left of a buffer. -/
def encodeAll : List Rtcp → Res Unit (List Byte)
  | [] => .ok []
  | p :: ps => do
    let a ← p.encode
    let b ← encodeAll ps
    pure (a ++ b)

theorem readLoop_all {utf8} : ∀ {ps : List Rtcp}, (∀ p ∈ ps, p.WF utf8) →
    ∃ b, encodeAll ps = .ok b ∧ b.length = (ps.map (fun p => p.lengthWords * 4)).sum ∧
      ∀ fuel, b.length < fuel → readLoop utf8 fuel b = .ok ps
  | [], _ => ⟨[], rfl, rfl, fun fuel hf => by
      obtain ⟨fuel, rfl⟩ : ∃ f, fuel = f + 1 := ⟨fuel - 1, by simp at hf; omega⟩
      simp [readLoop]⟩
  | p :: ps, h => by
    obtain ⟨a, ha⟩ := wire (h p (by simp))
    obtain ⟨b, hb, hbl, hr⟩ := readLoop_all (ps := ps) (fun q hq => h q (by simp [hq]))
    refine ⟨a ++ b, ?_, ?_, fun fuel hf => ?_⟩
    · rw [encodeAll, bind_def, ha.enc, bind_ok, bind_def, hb]; rfl
    · rw [List.length_append, ha.len, hbl]; simp
    · rw [List.length_append] at hf
      have := ha.len
      have := ha.pos
      obtain ⟨fuel, rfl⟩ : ∃ f, fuel = f + 1 := ⟨fuel - 1, by omega⟩
      exact readLoop_cons ha b (hr fuel (by omega))

theorem written_eq {utf8} {p : Rtcp} {b : List Byte} (h : Wire utf8 p b) (hw : p.WF utf8) :
    p.written = b.length := by
  rw [h.len]
  cases p with
  | sr => rfl
  | rr => rfl
  | bye => rfl
  | nack => rfl
  | pli => rfl
  | xr s bs =>
    simp only [Rtcp.written, Rtcp.lengthWords]
    have : ∀ l : List Block, (l.map Block.len).sum = (l.map (fun b => b.len / 4)).sum * 4 := by
      intro l
      induction l with
      | nil => rfl
      | cons b l ih =>
        have := b.len_pos
        simp only [List.map_cons, List.sum_cons, ih]; omega
    rw [this]; omega
  | sdes rs =>
    simp only [Rtcp.written, Rtcp.lengthWords]
    have : ∀ l : List Sdes, (l.map (fun s => s.encode.length)).sum = (l.map Sdes.wordSize).sum * 4 := by
      intro l
      induction l with
      | nil => rfl
      | cons b l ih =>
        rw [List.map_cons, List.sum_cons, ih, Sdes.encode_length, List.map_cons, List.sum_cons]; omega
    rw [this]; omega
  | fir s rs => simp only [Rtcp.written, Rtcp.lengthWords]; omega
  | twcc t =>
    simp only [Rtcp.written, Rtcp.lengthWords, Report.lengthWords]
    have h1 := padLen_le t.bodyLen
    rw [padLen_add]; omega
  | remb s b ss => simp only [Rtcp.written, Rtcp.lengthWords]; omega
  | app s m p => simp only [Rtcp.written, Rtcp.lengthWords]; omega

end Str0m.Rtcp
