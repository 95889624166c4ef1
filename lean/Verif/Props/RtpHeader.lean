import Verif.Proofs.RtpHeader
/-
  C11, C12, C59: the RTP header.
-/
namespace Str0m.Rtp
open Res

/-- **C11** (partial). Every valid header can be written, for every extension map of 16 slots and
all values that fit; and whatever follows it in the datagram, parsing with the same map gives the
same fields, the values of the extensions that have an id, and the number of bytes written as the
header length.

Partial: the audio level has to be 0 without voice activity, an extension block has to be
announced, and ids may not be empty; the code is wrong outside of that, see the violations. -/
theorem C11_round_trip_partial {U : Type} (env : Env U) (m : ExtMap) (h : Header U) (hm : m.length = 16) (hv : Valid h)
    (ha : AsciiUtf8 env) (hu : UserFits env m h.extVals) :
    ∃ bytes, h.write env m = .ok bytes ∧ ∀ payload, Header.parse env m (bytes ++ payload) =
      .ok { h with extVals := carried env m h.extVals, headerLen := bytes.length } :=
  header_round (by omega) hv ha hu

/-- When the map has ids for everything that is set, all comes through (the send time in the
precision of the wire). -/
theorem C11_nothing_lost {U : Type} (env : Env U) (m : ExtMap) (ev : Vals U)
    (hall : ∀ e, (∀ uri, e ≠ .user uri) → Maps m e = true) (hal : ev.audioLevel.isSome = ev.voice.isSome)
    (hpl : ev.playMin.isSome = ev.playMax.isSome) :
    carried env m ev = { ev with absSend := ev.absSend.map wireSendTime, userVals := userCarried env m ev.userVals } := by
  have f : ∀ e, (∀ uri, e ≠ .user uri) → Maps m e = true := hall
  simp only [carried, f .audioLevel (by simp), f .orientation (by simp), f .contentType (by simp), f .txOffset (by simp),
    f .absSendTime (by simp), f .absCaptureTime (by simp), f .transportCc (by simp), f .playoutDelay (by simp),
    f .videoTiming (by simp), f .rid (by simp), f .ridRepair (by simp), f .mid (by simp), f .frameMarking (by simp), if_true,
    true_and]
  have e1 : (if ev.voice.isSome = true then ev.audioLevel else none) = ev.audioLevel := by
    rw [← hal]; cases ev.audioLevel <;> rfl
  have e2 : (if ev.audioLevel.isSome = true then ev.voice else none) = ev.voice := by
    rw [hal]; cases ev.voice <;> rfl
  have e3 : (if ev.playMax.isSome = true then ev.playMin else none) = ev.playMin := by
    rw [← hpl]; cases ev.playMin <;> rfl
  have e4 : (if ev.playMin.isSome = true then ev.playMax else none) = ev.playMax := by
    rw [hpl]; cases ev.playMax <;> rfl
  rw [e1, e2, e3, e4]

/-- The precision of the send time on the wire: at most 4 µs early, and it repeats every 64 s. -/
theorem C11_send_time (us : Nat) :
    wireSendTime us ≤ us % 64000000 ∧ us % 64000000 ≤ wireSendTime us + 4 := by
  unfold wireSendTime
  have e2 : (10 : Nat)^6 = 1000000 := by norm_num
  have e3 : (2 : Nat)^18 = 262144 := by norm_num
  rw [e2, e3]
  have e4 : us * 262144 / 1000000 % 2^64 % 2^24 = (us % 64000000) * 262144 / 1000000 := by
    rw [Nat.mod_mod_of_dvd _ (show (2:Nat)^24 ∣ 2^64 from ⟨2^40, by norm_num⟩)]
    have h1 := Nat.div_add_mod us 64000000
    have h2 := Nat.mod_lt us (show 0 < 64000000 by norm_num)
    generalize us / 64000000 = q at h1
    generalize us % 64000000 = x at h1 h2
    subst h1
    have h3 : (64000000 * q + x) * 262144 / 1000000 = 16777216 * q + x * 262144 / 1000000 := by omega
    rw [h3]
    have h4 : x * 262144 / 1000000 < 16777216 := by omega
    have h5 : (16777216 * q + x * 262144 / 1000000) % 16777216 = x * 262144 / 1000000 := by omega
    exact h5
  rw [e4]
  have : us % 64000000 < 64000000 := Nat.mod_lt _ (by norm_num)
  generalize us % 64000000 = x at *
  omega

/-- A simple environment for the examples. -/
def exampleEnv : Env Nat :=
  { utf8 := fun s => if s.all (fun b => decide (b.val < 128)) then some (s.map (·.val)) else none
    write := fun _ u => [u8 u], parse := fun _ bs _ => (bs.map (·.val)).sum, twoByte := fun _ u => decide (u > 100), init := 0 }

def exampleHeader : Header Nat :=
  { hasPadding := false, hasExtension := true, csrcCount := 2, marker := true, payloadType := 96, sequenceNumber := 65535,
    timestamp := 4000000000, ssrc := 77, csrc := [1, 2] ++ List.replicate 13 0,
    extVals := { Vals.default 7 with audioLevel := some (-42), voice := some true, transportCc := some 9, mid := some [u8 97, u8 95] },
    headerLen := 0 }

def exampleMap : ExtMap := ExtMap.standard.set 15 (.user "urn:x")

example : ∃ bytes, exampleHeader.write exampleEnv exampleMap = .ok bytes ∧ ∀ payload,
    Header.parse exampleEnv exampleMap (bytes ++ payload) =
      .ok { exampleHeader with extVals := carried exampleEnv exampleMap exampleHeader.extVals, headerLen := bytes.length } := by
  refine C11_round_trip_partial exampleEnv exampleMap exampleHeader (by decide) ?_ ?_ ?_
  · refine ⟨by decide, by decide, by decide, by decide, by decide, by decide, by decide, by decide, by decide, ?_⟩
    constructor
    · intro l v h1 h2; cases h1; cases h2; decide
    · intro o h; cases h
    · intro o h; cases h
    · intro t o h; cases h
    · intro o h; cases h; decide
    · intro o h; cases h
    · intro o h; cases h
    · intro o h; cases h
    · intro o h; cases h
    · intro o h; cases h
    · intro o h; cases h; exact ⟨by simp, by simp, by decide +kernel⟩
    · intro o h; cases h
  · intro s hs
    simp only [exampleEnv]
    rw [if_pos (by simpa using hs)]
  · intro uri _
    exact ⟨by simp [exampleEnv], fun _ => by simp [exampleEnv]⟩

example : carried exampleEnv exampleMap exampleHeader.extVals = { exampleHeader.extVals with userVals := 7 } := by decide +kernel

/-- **Violation**: a quiet level without voice activity arrives as voice activity. -/
theorem C11_violation_audio : ∃ (h h' : Header Nat) (bytes : List Byte),
    h.extVals.audioLevel = some (-40) ∧ h.extVals.voice = some false ∧
    h.write exampleEnv ExtMap.standard = .ok bytes ∧ Header.parse exampleEnv ExtMap.standard bytes = .ok h' ∧
    h'.extVals.audioLevel = some (-40) ∧ h'.extVals.voice = some true :=
  ⟨{ hasPadding := false, hasExtension := true, csrcCount := 0, marker := false, payloadType := 96, sequenceNumber := 1,
      timestamp := 2, ssrc := 3, csrc := List.replicate 15 0,
      extVals := { Vals.default 0 with audioLevel := some (-40), voice := some false }, headerLen := 0 },
    { hasPadding := false, hasExtension := true, csrcCount := 0, marker := false, payloadType := 96, sequenceNumber := 1,
      timestamp := 2, ssrc := 3, csrc := List.replicate 15 0,
      extVals := { Vals.default 0 with audioLevel := some (-40), voice := some true }, headerLen := 20 },
    [144, 96, 0, 1, 0, 0, 0, 2, 0, 0, 0, 3, 190, 222, 0, 1, 16, 168, 0, 0],
    rfl, rfl, by decide +kernel, by decide +kernel, rfl, rfl⟩

/-- **Violation**: without the extension bit the extension block is still written, and is taken
for payload by the other side. -/
theorem C11_violation_no_extension : ∃ (h : Header Nat) (h' : Header Nat) (bytes : List Byte),
    h.hasExtension = false ∧ h.write exampleEnv ExtMap.empty = .ok bytes ∧
    Header.parse exampleEnv ExtMap.empty bytes = .ok h' ∧ h'.headerLen + 4 = bytes.length := by
  refine ⟨{ exampleHeader with hasExtension := false, csrcCount := 0, csrc := List.replicate 15 0 },
    { exampleHeader with hasExtension := false, csrcCount := 0, csrc := List.replicate 15 0, extVals := Vals.default 0, headerLen := 12 },
    [128, 224, 255, 255, 238, 107, 40, 0, 0, 0, 0, 77, 190, 222, 0, 0], rfl, by decide +kernel, by decide +kernel, by decide⟩

/-- **Violation**: an empty `Mid` (which the two byte form can deliver) cannot be written in one
byte form: the code asserts. -/
theorem C11_violation_empty_mid : ∃ (bytes : List Byte) (h : Header Nat),
    Header.parse exampleEnv ExtMap.standard bytes = .ok h ∧ h.write exampleEnv ExtMap.standard = .panic := by
  refine ⟨[144, 96, 0, 1, 0, 0, 0, 2, 0, 0, 0, 3, 16, 0, 0, 1, 4, 0, 0, 0],
    { hasPadding := false, hasExtension := true, csrcCount := 0, marker := false, payloadType := 96, sequenceNumber := 1,
      timestamp := 2, ssrc := 3, csrc := List.replicate 15 0, extVals := { Vals.default 0 with mid := some [] }, headerLen := 20 },
    by decide +kernel, by decide +kernel⟩

/-- **C12**. For every byte string and extension map the header is rejected or parsed, without a
panic, and the length found is within the datagram and no less than 12. -/
theorem C12_total {U : Type} (env : Env U) (m : ExtMap) (buf : List Byte) :
    (Header.parse env m buf).NoPanic ∧
    ∀ h, Header.parse env m buf = .ok h → 12 ≤ h.headerLen ∧ h.headerLen ≤ buf.length :=
  header_total env m buf

/-- Removing the padding never panics, and only shortens. -/
theorem C12_unpad (buf : List Byte) :
    (unpadPayload buf).NoPanic ∧ ∀ p, unpadPayload buf = .ok p → p <+: buf := by
  unfold unpadPayload
  split
  · refine ⟨trivial, fun p h => ?_⟩
    simp only [Res.ok.injEq] at h
    rw [h]
    exact List.prefix_refl _
  · rename_i hne
    have := List.length_pos_iff.2 hne
    rw [bind_def, Res.idx_of_lt (by omega), bind_ok]
    split
    · exact ⟨trivial, fun p h => by cases h⟩
    · rw [Res.upto_of_le (by omega)]
      refine ⟨trivial, fun p h => ?_⟩
      simp only [Res.ok.injEq] at h
      rw [← h]
      exact List.take_prefix _ _

example : ∃ h, Header.parse exampleEnv ExtMap.standard
    [144, 96, 0, 1, 0, 0, 0, 2, 0, 0, 0, 3, 16, 0, 0, 1, 4, 0, 0, 0] = .ok h ∧ h.headerLen = 20 :=
  ⟨{ hasPadding := false, hasExtension := true, csrcCount := 0, marker := false, payloadType := 96, sequenceNumber := 1,
      timestamp := 2, ssrc := 3, csrc := List.replicate 15 0, extVals := { Vals.default 0 with mid := some [] }, headerLen := 20 },
    by decide +kernel, rfl⟩

/-- **C59**, padding. A padding packet asked for with any number of bytes (1 to 255) has a
positive multiple of the cipher block, at most 240 bytes, and no less than asked for unless that
is over 240; the receiver strips all of it, and strips exactly it after a payload. -/
theorem C59_padding (n : Nat) (h1 : 1 ≤ n) (h2 : n ≤ 255) :
    paddingLen n 16 240 % 16 = 0 ∧ min n 240 ≤ paddingLen n 16 240 ∧ paddingLen n 16 240 < n + 16 ∧
    1 ≤ paddingLen n 16 240 ∧ paddingLen n 16 240 ≤ 240 ∧
    ∀ payload, unpadPayload (payload ++ padBytes (paddingLen n 16 240)) = .ok payload := by
  have hk : paddingLen n 16 240 % 16 = 0 ∧ min n 240 ≤ paddingLen n 16 240 ∧ paddingLen n 16 240 < n + 16 ∧
    1 ≤ paddingLen n 16 240 ∧ paddingLen n 16 240 ≤ 240 := by
    unfold paddingLen; split <;> omega
  refine ⟨hk.1, hk.2.1, hk.2.2.1, hk.2.2.2.1, hk.2.2.2.2, fun payload => ?_⟩
  obtain ⟨-, -, -, k1, k2⟩ := hk
  generalize paddingLen n 16 240 = k at *
  have hp : padBytes k = List.replicate (k - 1) 0 ++ [u8 k] := by unfold padBytes; rw [if_neg (by omega)]
  have hl : (padBytes k).length = k := by rw [hp]; simp; omega
  unfold unpadPayload
  rw [if_neg (by intro h; have := congrArg List.length h; rw [List.length_append, hl, List.length_nil] at this; omega)]
  have hi : (Res.idx (payload ++ padBytes k) ((payload ++ padBytes k).length - 1) : Res Unit Byte) = .ok (u8 k) := by
    rw [List.length_append, hl, hp, ← List.append_assoc]
    unfold Res.idx
    rw [List.getElem?_append_right (by simp; omega)]
    have : payload.length + k - 1 - (payload ++ List.replicate (k - 1) 0).length = 0 := by simp; omega
    rw [this]
    rfl
  have hv : (u8 k).val = k := u8_val_of_lt (by omega)
  rw [bind_def, hi, bind_ok, hv, if_neg (by rw [List.length_append, hl]; omega),
    Res.upto_of_le (by rw [List.length_append]; omega), List.length_append, hl]
  have : payload.length + k - k = payload.length := by omega
  rw [this, List.take_left' rfl]

/-- **C59**, any payload: the last byte tells how many bytes are dropped, and a payload that has
fewer than that is rejected. -/
theorem C59_unpad_exact (buf : List Byte) (b : Byte) :
    (b.val ≤ buf.length + 1 → unpadPayload (buf ++ [b]) = .ok ((buf ++ [b]).take (buf.length + 1 - b.val))) ∧
    (buf.length + 1 < b.val → unpadPayload (buf ++ [b]) = .err ()) := by
  have hi : (Res.idx (buf ++ [b]) ((buf ++ [b]).length - 1) : Res Unit Byte) = .ok b := by
    unfold Res.idx
    rw [List.length_append, List.length_singleton, Nat.add_sub_cancel, List.getElem?_append_right (by omega), Nat.sub_self]
    rfl
  have hl : (buf ++ [b]).length = buf.length + 1 := by simp
  constructor
  · intro h
    unfold unpadPayload
    rw [if_neg (by simp), bind_def, hi, bind_ok, if_neg (by omega), Res.upto_of_le (by omega), hl]
  · intro h
    unfold unpadPayload
    rw [if_neg (by simp), bind_def, hi, bind_ok, if_pos (by omega)]

example : unpadPayload [9, 8, 0, 2] = .ok [9, 8] ∧ unpadPayload [9, 8, 0, 5] = .err () := by decide +kernel

/-- **C59**, retransmissions. The original sequence number put in front of a payload is read back
with the payload; shorter than that, nothing is read. -/
theorem C59_osn (seq : Nat) (payload : List Byte) :
    readOsn (writeOsn seq ++ payload) = (some (seq % 65536), payload) ∧
    ∀ buf : List Byte, buf.length < 2 → readOsn buf = (none, buf) := by
  constructor
  · have : readOsn (writeOsn seq ++ payload) =
      (some (rd16 (u8 (seq % 65536 / 2^8)) (u8 (seq % 65536))), payload) := rfl
    rw [this, rd16_be16 (by omega)]
  · intro buf hb
    match buf, hb with
    | [], _ => rfl
    | [a], _ => rfl

end Str0m.Rtp
