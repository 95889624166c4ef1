import Verif.Model.SendQueue
import Verif.Model.RtxCache
import Verif.Model.Nack
/-
  An outgoing stream: src/streams/send.rs 298-1250, and the splitting of a frame into packets:
  src/packet/payload.rs 43-104.

  The packets of the send queue are kept in two parallel lists: what the queue looks at (`queue`) and
  the rest (`infos`). Simplifications: a VP8 patch is applied when the packet is written (it keeps the
  length, and resends use the same patch); the ratio of resends to the cap is a float, so whether it
  is above the cap is a parameter of each poll; statistics, sender reports and the TWCC counter are
  left out; the length of the RTP header is a parameter of each poll. That `poll_packet` stores mid
  and rid in cached packets too (send.rs 528-531) is left out: they were stored before the packet
  was cached, and "acked" only goes from false to true while a cache lives.
-/
namespace Str0m.Tx
open Str0m

/-- A packet handed to the stream: `RtpWrite`, send.rs 191-203, without CSRC -/
structure Write where
  seqNo : Nat
  payload : List Byte
  pt : Nat
  time : Nat
  marker : Bool := false
  nackable : Bool := false
  ext : TxExt := {}
deriving Repr, DecidableEq

/-- `StreamTx`, send.rs 86-182. Of `Resend` (1267-1271) only the number is kept; `capped` is "there is a cap on the
ratio of resends". -/
structure Tx where
  ssrc : Nat
  rtx : Option Nat
  mid : Nat
  rid : Option Nat
  seqNo : Nat
  seqNoRtx : Nat
  queue : SendQueue := {}
  infos : List (Nat × TxInfo) := []
  resends : List Nat := []
  padding : Nat := 0
  cache : RtxCache
  capped : Bool := true
  ptForPadding : Option Nat := none
  acked : Bool := false
  ackedRtx : Bool := false
  mtuWarn : Nat
deriving DecidableEq

/-- `PayloadParams`, as far as the stream looks at it -/
structure Param where
  pt : Nat
  resend : Option Nat
deriving Repr, DecidableEq

/-- What is in a datagram: send.rs 551-730 -/
inductive Kind where
  | regular
  | resend (orig : Nat)
  | blank (len : Nat)
deriving Repr, DecidableEq

/-- The datagram: the fields of the RTP header, the extended sequence number of the receipt, and the
bytes after the header. -/
structure Out where
  ssrc : Nat
  seq16 : Nat
  seqNo : Nat
  pt : Nat
  time : Nat
  marker : Bool
  mid : Option Nat
  rid : Option Nat
  ridRepair : Option Nat
  ext : TxExt
  body : List Byte
  isPadding : Bool
  kind : Kind
deriving Repr, DecidableEq

/-- `MAX_RTP_OVERHEAD`, io/mod.rs 22 -/
def MAX_RTP_OVERHEAD : Nat := 80
/-- `DATAGRAM_MAX_PACKET_SIZE`, io/mod.rs 19 -/
def DATAGRAM_MAX : Nat := 2000
/-- send.rs 36 -/
def MIN_SPURIOUS : Nat := 50
/-- rtp/mod.rs 30 -/
def MAX_BLANK : Nat := 240

/-- `StreamTx::new`, send.rs 299-338; the first sequence numbers are random -/
def new (ssrc : Nat) (rtx : Option Nat) (mid : Nat) (rid : Option Nat) (mtuWarn s1 s2 : Nat) : Tx :=
  { ssrc := ssrc, rtx := rtx, mid := mid, rid := rid, seqNo := s1, seqNoRtx := s2, cache := .new 2000 3000000, mtuWarn := mtuWarn }

/-- `set_rtx_cache`, send.rs 384-404 -/
def setCache (s : Tx) (maxPackets maxAge : Nat) (cap : Bool) : Tx := { s with cache := .new maxPackets maxAge, capped := cap }

/-- `write_rtp`, send.rs 419-482 -/
def write (s : Tx) (w : Write) : Tx :=
  { s with queue := s.queue.push { payload := w.payload },
           infos := s.infos ++ [(w.seqNo, { pt := w.pt, time := w.time, marker := w.marker, nackable := w.nackable, ext := w.ext })] }

/-- `padding_enabled`, send.rs 484-486 -/
def paddingEnabled (s : Tx) : Bool := s.rtx.isSome && s.ptForPadding.isSome

/-- What is to be sent: `NextPacket`, send.rs 1253-1264 -/
structure Next where
  kind : Kind
  seqNo : Nat
  payload : List Byte
  info : TxInfo
deriving Repr, DecidableEq

/-- send.rs 779-795: the first queued resend that is still cached -/
def firstCached (cache : RtxCache) : List Nat → Option (CachedPacket × List Nat)
  | [] => none
  | n :: rest =>
    match cache.getBySeqNo n with
    | none => firstCached cache rest
    | some p => some (p, rest)

/-- `poll_packet_resend`, send.rs 768-815; `over` is "the ratio is above the cap" -/
def pollResend (s : Tx) (over : Bool) : Res Unit (Tx × Option Next) :=
  if s.capped && over then .ok ({ s with resends := [] }, none)
  else match firstCached s.cache s.resends with
    | none => .ok ({ s with resends := [] }, none)
    | some (p, rest) =>
      if p.info.nackable then
        .ok ({ s with resends := rest, seqNoRtx := s.seqNoRtx + 1 },
          some { kind := .resend p.seqNo, seqNo := s.seqNoRtx, payload := p.payload, info := p.info })
      else .panic

/-- `pkt.timestamp = now`, send.rs 823 -/
def stampHead (q : SendQueue) (now : Nat) : SendQueue :=
  match q.queue with
  | [] => q
  | p :: ps => { q with queue := { p with timestamp := some now } :: ps }

/-- The head of the parallel list. -/
def headInfo (s : Tx) : Nat × TxInfo := s.infos.headD (0, {})

/-- `poll_packet_regular`, send.rs 817-838 -/
def pollRegular (s : Tx) (now : Nat) : Tx × Option Next :=
  match s.queue.peek with
  | none => (s, none)
  | some p =>
    ({ s with queue := stampHead s.queue now },
      some { kind := .regular, seqNo := (headInfo s).1, payload := p.payload, info := (headInfo s).2 })

/-- send.rs 855-857 -/
def spurious (s : Tx) : Res Unit (Option CachedPacket) :=
  if s.padding > MIN_SPURIOUS then
    if s.mtuWarn < MAX_RTP_OVERHEAD then .panic
    else s.cache.getSmallerThan (min (s.padding * 2) (s.mtuWarn - MAX_RTP_OVERHEAD))
  else .ok none

/-- send.rs 882-884 -/
def blankLen (padding : Nat) : Nat := min (max padding 16) MAX_BLANK

/-- send.rs 862-872 or 875-893 -/
def padWith (s : Tx) (pt : Nat) : Option CachedPacket → Tx × Next
  | some p => ({ s with seqNoRtx := s.seqNoRtx + 1, padding := s.padding - p.payload.length },
      { kind := .resend p.seqNo, seqNo := s.seqNoRtx, payload := p.payload, info := p.info })
  | none => ({ s with seqNoRtx := s.seqNoRtx + 1, padding := s.padding - blankLen s.padding },
      { kind := .blank (blankLen s.padding), seqNo := s.seqNoRtx, payload := [], info := { pt := pt } })

/-- `poll_packet_padding`, send.rs 840-894 -/
def pollPadding (s : Tx) : Res Unit (Tx × Option Next) :=
  match s.rtx, s.ptForPadding with
  | some _, some pt =>
    if s.padding = 0 then .ok (s, none)
    else do
      let c ← spurious s
      pure ((padWith s pt c).1, some (padWith s pt c).2)
  | _, _ => .ok ({ s with padding := 0 }, none)

/-- send.rs 506-509 -/
def orPadding : Tx × Option Next → Res Unit (Tx × Option (Next × Bool))
  | (s, some n) => .ok (s, some (n, false))
  | (s, none) => do
    let r ← pollPadding s
    pure (r.1, r.2.map (fun n => (n, true)))

/-- send.rs 504-509 -/
def orRegular (now : Nat) : Tx × Option Next → Res Unit (Tx × Option (Next × Bool))
  | (s, some n) => .ok (s, some (n, false))
  | (s, none) => orPadding (pollRegular s now)

/-- send.rs 502-509 -/
def pollNext (s : Tx) (now : Nat) (over : Bool) : Res Unit (Tx × Option (Next × Bool)) := do
  let r ← pollResend s over
  orRegular now r

/-- `send_queue.pop`, send.rs 542, 715-718 -/
def popQueue (s : Tx) (now : Nat) : Res Unit (Tx × Option QPacket) := do
  let r ← s.queue.pop now
  pure ({ s with queue := r.1, infos := s.infos.drop 1 }, r.2)

/-- `create_padding_packet`, header.rs 95-116 -/
def padBody (len : Nat) : List Byte :=
  let n := min (if len % 16 = 0 then len else (len / 16 + 1) * 16) MAX_BLANK
  List.replicate (n - 1) 0 ++ [u8 n]

/-- send.rs 634-672: the bytes after the header -/
def bodyOf (n : Next) : List Byte :=
  match n.kind with
  | .regular => n.payload
  | .resend orig => be16 (orig % 65536) ++ n.payload
  | .blank len => padBody len

/-- send.rs 528-531 -/
def announced (s : Tx) (i : TxInfo) : TxInfo :=
  if s.acked then i else { i with mid := some s.mid, rid := s.rid }

/-- send.rs 603-605 -/
def rtxMid (s : Tx) (i : TxInfo) : Option Nat := if s.ackedRtx then i.mid else some s.mid

/-- send.rs 551-582 -/
def regularOut (s : Tx) (n : Next) (i : TxInfo) (pad : Bool) : Out :=
  { ssrc := s.ssrc, seq16 := n.seqNo % 65536, seqNo := n.seqNo, pt := i.pt, time := i.time, marker := i.marker, mid := i.mid, rid := i.rid,
    ridRepair := none, ext := i.ext, body := bodyOf n, isPadding := pad, kind := n.kind }

/-- send.rs 583-608 -/
def rtxOut (s : Tx) (ssrc pt : Nat) (n : Next) (i : TxInfo) (pad : Bool) : Out :=
  { ssrc := ssrc, seq16 := n.seqNo % 65536, seqNo := n.seqNo, pt := pt, time := i.time, marker := i.marker, mid := rtxMid s i, rid := none,
    ridRepair := s.rid, ext := i.ext, body := bodyOf n, isPadding := pad, kind := n.kind }

/-- send.rs 719-721 -/
def cacheIf (s : Tx) (nackable : Bool) (seqNo : Nat) (i : TxInfo) (now : Nat) (p : QPacket) : Res Unit Tx :=
  if nackable then do
    let c ← s.cache.cacheSent { seqNo := seqNo, payload := p.payload, info := i } now
    pure { s with cache := c }
  else .ok s

/-- send.rs 713-722 -/
def moveToCache (s : Tx) (now : Nat) (n : Next) (i : TxInfo) : Res Unit Tx := do
  let r ← popQueue s now
  match r.2 with
  | none => .panic
  | some p => cacheIf r.1 i.nackable n.seqNo i now p

/-- send.rs 705-707 -/
def learnPt (s : Tx) (p : Param) : Tx := if p.resend.isSome then { s with ptForPadding := some p.pt } else s

/-- send.rs 536-546, 583-608: the payload type is not there -/
def dropUnknown (s : Tx) (now : Nat) (n : Next) : Res Unit (Tx × Option Out) :=
  if n.kind = .regular then do
    let r ← popQueue s now
    pure (r.1, none)
  else .ok (s, none)

/-- send.rs 551-582, 642-730 for a regular packet -/
def sendRegular (s : Tx) (now hdr : Nat) (p : Param) (n : Next) : Res Unit (Tx × Option Out) :=
  let i := { announced s n.info with nackable := n.info.nackable && p.resend.isSome }
  if hdr + n.payload.length > DATAGRAM_MAX then .panic
  else do
    let t ← moveToCache (learnPt s p) now n i
    pure (t, some (regularOut s n i false))

/-- send.rs 583-608, 634-730 for the others -/
def sendRtx (s : Tx) (hdr : Nat) (p : Param) (n : Next) (pad : Bool) : Res Unit (Tx × Option Out) :=
  match p.resend, s.rtx with
  | some pt, some ssrc =>
    if hdr + (bodyOf n).length > DATAGRAM_MAX then .panic
    else .ok (s, some (rtxOut s ssrc pt n (announced s n.info) pad))
  | _, _ => .panic

/-- send.rs 511-730 -/
def sendNext (s : Tx) (now hdr : Nat) (params : List Param) (n : Next) (pad : Bool) : Res Unit (Tx × Option Out) :=
  match params.find? (fun p => decide (p.pt = n.info.pt)) with
  | none => dropUnknown s now n
  | some p => if n.kind = .regular then sendRegular s now hdr p n else sendRtx s hdr p n pad

/-- send.rs 507: `?` -/
def finishPoll (now hdr : Nat) (params : List Param) : Tx × Option (Next × Bool) → Res Unit (Tx × Option Out)
  | (s, none) => .ok (s, none)
  | (s, some (n, pad)) => sendNext s now hdr params n pad

/-- `poll_packet`, send.rs 488-730 -/
def poll (s : Tx) (now hdr : Nat) (params : List Param) (over : Bool) : Res Unit (Tx × Option Out) := do
  let r ← pollNext s now over
  finishPoll now hdr params r

/-- `handle_nack`, send.rs 953-979 -/
def nack (s : Tx) (entries : List NackEntry) : Tx :=
  match s.cache.lastCached with
  | none => s
  | some last =>
    { s with resends := s.resends ++ (entries.flatMap (fun e => e.intoIter last)).filter (fun n => (s.cache.getBySeqNo n).isSome) }

/-- `handle_rtcp` for a reception report, send.rs 919-931 -/
def receptionReport (s : Tx) (ssrc : Nat) : Tx :=
  match s.rtx with
  | some r => if r = ssrc then { s with ackedRtx := true } else s
  | none => if ssrc = s.ssrc then { s with acked := true } else s

/-- `generate_padding`, send.rs 1153-1158 -/
def generatePadding (s : Tx) (n : Nat) : Tx := if paddingEnabled s then { s with padding := s.padding + n } else s

/-- send.rs 1192-1203; `pt` is the first payload type with RTX, if this is the first timeout -/
def firstTimeout (s : Tx) (pt : Option Nat) : Tx :=
  if s.rtx.isSome ∧ s.ptForPadding = none then { s with ptForPadding := pt } else s

/-- `handle_timeout`, send.rs 1164-1176 -/
def timeout (s : Tx) (now : Nat) (pt : Option Nat) : Res Unit Tx := do
  let q ← (firstTimeout s pt).queue.handleTimeout now
  pure { firstTimeout s pt with queue := q }

/-- `reset_buffers`, send.rs 1206-1212 -/
def resetBuffers (s : Tx) : Tx :=
  { s with queue := s.queue.clear, infos := [], cache := s.cache.clear, resends := [], padding := 0 }

/-- `reset_ssrc`, send.rs 1217-1246; the RTX flag is not reset -/
def resetSsrc (s : Tx) (ssrc : Nat) (rtx : Option Nat) (s1 s2 : Nat) : Tx :=
  resetBuffers { s with ssrc := ssrc, rtx := rtx, seqNo := s1, seqNoRtx := s2, acked := false }

/-! ### Frames -/

/-- payload.rs 78-81 -/
def stripNotFirst (first : Bool) (e : TxExt) : TxExt := if first then e else { e with absCapture := none, layers := none }

/-- payload.rs 83-87 -/
def stripNotLast (last : Bool) (e : TxExt) : TxExt :=
  if last then e else { e with orientation := none, contentType := none, timing := none }

/-- `last_packet`, send.rs 1062-1068 -/
def lastPacket (s : Tx) : Option (List Byte) :=
  match s.queue.queue.getLast? with
  | none => s.cache.lastPacket
  | some p => some p.payload

/-- A frame to send: `ToPayload`; `isMarker` is the codec's rule, `spurt` is "start of a talk spurt and the
codec is not CN", payload.rs 66-67 -/
structure Frame where
  pt : Nat
  time : Nat
  audio : Bool
  spurt : Bool
  ext : TxExt
  isMarker : List Byte → Option (List Byte) → Bool → Bool

/-- payload.rs 63-99: one chunk -/
def pushChunk (s : Tx) (f : Frame) (first last : Bool) (data : List Byte) : Tx :=
  write { s with seqNo := s.seqNo + 1 }
    { seqNo := s.seqNo, payload := data, pt := f.pt, time := f.time,
      marker := f.isMarker data (lastPacket s) last || (f.audio && f.spurt), nackable := !f.audio,
      ext := stripNotLast last (stripNotFirst first f.ext) }

/-- payload.rs 61-100 -/
def pushChunks (s : Tx) (f : Frame) (first : Bool) : List (List Byte) → Tx
  | [] => s
  | c :: cs => pushChunks (pushChunk s f first cs.isEmpty c) f false cs

/-! ### Histories -/

/-- What happens to a stream. -/
inductive Op where
  | write (w : Write)
  | frame (f : Frame) (chunks : List (List Byte))
  | timeout (now : Nat) (pt : Option Nat)
  | poll (now hdr : Nat) (params : List Param) (over : Bool)
  | nack (entries : List NackEntry)
  | report (ssrc : Nat)
  | padding (n : Nat)
  | setCache (maxPackets maxAge : Nat) (cap : Bool)
  | resetBuffers
  | resetSsrc (ssrc : Nat) (rtx : Option Nat) (s1 s2 : Nat)

/-- One step, with the datagram it makes. -/
def step (s : Tx) : Op → Res Unit (Tx × Option Out)
  | .write w => .ok (write s w, none)
  | .frame f cs => .ok (pushChunks s f true cs, none)
  | .timeout now pt => do
    let t ← timeout s now pt
    pure (t, none)
  | .poll now hdr params over => poll s now hdr params over
  | .nack es => .ok (nack s es, none)
  | .report ssrc => .ok (receptionReport s ssrc, none)
  | .padding n => .ok (generatePadding s n, none)
  | .setCache m a c => .ok (setCache s m a c, none)
  | .resetBuffers => .ok (resetBuffers s, none)
  | .resetSsrc a b c d => .ok (resetSsrc s a b c d, none)

/-- A history, with all datagrams in order. -/
def run (s : Tx) : List Op → Res Unit (Tx × List Out)
  | [] => .ok (s, [])
  | op :: ops => do
    let r ← step s op
    let t ← run r.1 ops
    pure (t.1, r.2.toList ++ t.2)

end Str0m.Tx
