import Verif.Model.RtpHeader
/-
  What an RTP header must carry to the other side.
-/
namespace Str0m.Rtp

/-- The map has an id for the extension. -/
def Maps (m : ExtMap) (e : Ext) : Bool := m.any (fun x => decide (x.map Entry.ext = some e))

/-- A `Mid` or `Rid` that is not empty: at most `n` ASCII letters, digits and underscores. -/
structure FitsId (n : Nat) (s : List Byte) : Prop where
  nonempty : s ≠ []
  short : s.length ≤ n
  chars : ∀ b ∈ s, isAlnum b.val = true ∨ b.val = 95

/-- The values fit in their fields on the wire. The audio level must be 0 when there is no voice
activity (see `C11_violation_audio`). -/
structure Fits {U : Type} (ev : Vals U) : Prop where
  audio : ∀ l v, ev.audioLevel = some l → ev.voice = some v → -127 ≤ l ∧ l ≤ 0 ∧ (v = false → l = 0)
  orientation : ∀ o, ev.orientation = some o → o < 4
  txOffs : ∀ x, ev.txOffs = some x → x < 2^32
  absCapture : ∀ t o, ev.absCapture = some (t, o) → t < 2^64 ∧ ∀ x, o = some x → -2^63 ≤ x ∧ x < 2^63
  transportCc : ∀ x, ev.transportCc = some x → x < 2^16
  playMin : ∀ t, ev.playMin = some t → t.denom = 100 ∧ t.numer < 4096
  playMax : ∀ t, ev.playMax = some t → t.denom = 100 ∧ t.numer < 4096
  timing : ∀ t, ev.timing = some t → t.encodeStart < 2^16 ∧ t.encodeFinish < 2^16 ∧
    t.packetizeComplete < 2^16 ∧ t.lastLeftPacer < 2^16
  rid : ∀ s, ev.rid = some s → FitsId 8 s
  ridRepair : ∀ s, ev.ridRepair = some s → FitsId 8 s
  mid : ∀ s, ev.mid = some s → FitsId 16 s
  frameMark : ∀ x, ev.frameMark = some x → x < 2^32

/-- The user's serializers respect the form: 16 bytes unless two byte form is asked for, and
never over 255. -/
def UserFits {U : Type} (env : Env U) (m : ExtMap) (ev : Vals U) : Prop :=
  ∀ uri, Maps m (.user uri) = true →
    (env.write uri ev.userVals).length ≤ 255 ∧
    (env.twoByte uri ev.userVals = false → (env.write uri ev.userVals).length ≤ 16)

/-- UTF-8 decoding of ASCII. -/
def AsciiUtf8 {U : Type} (env : Env U) : Prop :=
  ∀ s : List Byte, (∀ b ∈ s, b.val < 128) → env.utf8 s = some (s.map (·.val))

/-- A send time as it is on the wire: 24 bits in units of 2^-18 s, in whole microseconds. -/
def wireSendTime (us : Nat) : Nat := (us * 2^18 / 10^6 % 2^64 % 2^24) * 10^6 / 2^18

/-- What the user's parsers get to see: for each id in turn, the bytes the user's serializer
wrote, unless there were none. -/
def userCarried {U : Type} (env : Env U) (m : ExtMap) (sent : U) : U :=
  m.foldl (fun acc x =>
    match x.map Entry.ext with
    | some (.user uri) => if env.write uri sent = [] then acc else env.parse uri (env.write uri sent) acc
    | _ => acc) env.init

/-- The values the other side gets: each one whose extension has an id, as it was sent. Audio
level and voice activity share an extension, and so do the two playout delays. -/
def carried {U : Type} (env : Env U) (m : ExtMap) (ev : Vals U) : Vals U where
  audioLevel := if Maps m .audioLevel ∧ ev.voice.isSome then ev.audioLevel else none
  voice := if Maps m .audioLevel ∧ ev.audioLevel.isSome then ev.voice else none
  orientation := if Maps m .orientation then ev.orientation else none
  contentType := if Maps m .contentType then ev.contentType else none
  txOffs := if Maps m .txOffset then ev.txOffs else none
  absSend := if Maps m .absSendTime then ev.absSend.map wireSendTime else none
  absCapture := if Maps m .absCaptureTime then ev.absCapture else none
  transportCc := if Maps m .transportCc then ev.transportCc else none
  playMin := if Maps m .playoutDelay ∧ ev.playMax.isSome then ev.playMin else none
  playMax := if Maps m .playoutDelay ∧ ev.playMin.isSome then ev.playMax else none
  timing := if Maps m .videoTiming then ev.timing else none
  rid := if Maps m .rid then ev.rid else none
  ridRepair := if Maps m .ridRepair then ev.ridRepair else none
  mid := if Maps m .mid then ev.mid else none
  frameMark := if Maps m .frameMarking then ev.frameMark else none
  userVals := userCarried env m ev.userVals

/-- A header that can be written: an extension block is announced, all fields fit. -/
structure Valid {U : Type} (h : Header U) : Prop where
  ext : h.hasExtension = true
  count : h.csrcCount ≤ 15
  slots : h.csrc.length = 15
  unused : h.csrc.drop h.csrcCount = List.replicate (15 - h.csrcCount) 0
  csrc : ∀ x ∈ h.csrc, x < 2^32
  pt : h.payloadType < 128
  seq : h.sequenceNumber < 2^16
  ts : h.timestamp < 2^32
  ssrc : h.ssrc < 2^32
  vals : Fits h.extVals

end Str0m.Rtp
