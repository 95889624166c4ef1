import Verif.Model.Register
import Verif.Model.MediaTime
import Verif.Model.Srtp
import Verif.Model.TwccRecv

/-!
One incoming stream: `streams/receive.rs` and what `session.rs` `handle_rtp` (539-714) does with a datagram after it was given to the
stream (the choice of the stream is `Model/StreamTable.lean`). Times are nanoseconds since the beginning of time of the process.
The jitter, the statistics of loss, the rewriting of the absolute send time (`Model/RtpExt.lean`) and log output are left out. Of the
estimate requests (REMB) only the request itself is kept.
-/

namespace Str0m.Rcv
open Str0m Str0m.Rtp

/-- `PayloadParams`: what is looked at -/
structure Param where
  pt : Nat
  resend : Option Nat
  clock : Nat
deriving Repr, DecidableEq

/-- receive.rs 113-122; `ntp` is the NTP time as 64 bits, `time` the RTP time -/
structure Info where
  at_ : Nat
  ntp : Nat
  time : MediaTime
  packets : Nat
  octets : Nat
  emitted : Bool
deriving Repr, DecidableEq

/-- `KeyframeRequestKind` -/
inductive Kf where
  | pli | fir
deriving Repr, DecidableEq

/-- receive.rs 28-111 -/
structure Rx where
  ssrc : Nat
  rtx : Option Nat := none
  prev : Option Nat := none
  suppressNack : Bool := false
  lastClock : Option (Nat × Nat) := none
  info : Option Info := none
  resetRoc : Option Nat := none
  reg : Option ReceiverRegister := none
  regRtx : Option ReceiverRegister := none
  lastTime : Option MediaTime := none
  kf : Option Kf := none
  remb : Option Nat := none
  firSeq : Nat := 0
  lastReport : Nat := 0
  bytes : Nat := 0
  packets : Nat := 0
  firs : Nat := 0
  plis : Nat := 0
  nacks : Nat := 0
  checkPausedAt : Option Nat := none
  paused : Bool := true
  needEvent : Bool := false
  threshold : Nat := 1500000000

/-- `RtpPacket`, the fields set at 474-483 -/
structure Packet (U : Type) where
  seqNo : Nat
  time : MediaTime
  header : Header U
  payload : List Byte
  info : Option Info
  at_ : Nat

/-- `HashMap::get` of `max_rx_seq_lookup` -/
def seqOf (m : List (Nat × Nat)) (ssrc : Nat) : Option Nat := (m.find? fun e => e.1 == ssrc).map (·.2)

/-- session.rs 1306-1311 `update_max_seq` -/
def bumpSeq (m : List (Nat × Nat)) (ssrc seq : Nat) : List (Nat × Nat) :=
  match seqOf m ssrc with
  | none => (ssrc, seq) :: m
  | some cur => if seq > cur then m.map (fun e => if e.1 == ssrc then (e.1, seq) else e) else m

/-- receive.rs 352-359, 378-383: the register for the kind of packet -/
def regOf (s : Rx) (repair : Bool) : Option ReceiverRegister := if repair then s.regRtx else s.reg

/-- The same, written -/
def setReg (s : Rx) (repair : Bool) (r : ReceiverRegister) : Rx :=
  if repair then { s with regRtx := some r } else { s with reg := some r }

/-- receive.rs 344-376. `reset_roc << 16` loses the upper bits. -/
def extendSeq (s : Rx) (seqs : List (Nat × Nat)) (ssrc seq16 : Nat) (repair : Bool) : Rx × Nat :=
  let r := (regOf s repair).getD (ReceiverRegister.new (seqOf seqs ssrc))
  let s := setReg s repair r
  match (if repair then none else s.resetRoc) with
  | some roc => ({ s with resetRoc := none }, roc * 65536 % 2^64 + seq16)
  | none => (s, extend 16 r.nack.maxSeq seq16)

/-- receive.rs 378-387 -/
def isNew (s : Rx) (repair : Bool) (seq : Nat) : Res Unit Bool :=
  match regOf s repair with
  | none => .panic
  | some r => .ok (r.nack.accepts seq)

/-- receive.rs 420-439: the extended time stamp -/
def extendTime (prev : Option Nat) (wasPaused : Bool) (ts : Nat) : Nat :=
  let t := extend 32 prev ts
  match prev with
  | none => t
  | some p =>
    if wasPaused ∧ t < p then
      let t' := extend 32 prev ((ts + 2^31) % 2^32)
      if t' > p then t' else ts
    else t

/-- receive.rs 389-451. The new stream, the time and whether the packet is new. -/
def updateRegister (s : Rx) (now ts clock : Nat) (repair : Bool) (seq : Nat) : Res Unit (Rx × MediaTime × Bool) :=
  match regOf s repair with
  | none => .panic
  | some r =>
    let (r', new) := r.update seq
    let time : MediaTime := ⟨extendTime (s.lastTime.map (·.numer)) s.paused ts, clock⟩
    let s := { setReg s repair r' with paused := false, needEvent := s.needEvent || s.paused, checkPausedAt := some (now + s.threshold) }
    .ok ((if repair then s else { s with lastTime := some time }), time, new)

/-- receive.rs 453-489 -/
def handleRtp {U : Type} (s : Rx) (now : Nat) (h : Header U) (payload : List Byte) (seq : Nat) (time : MediaTime) : Rx × Packet U :=
  let s := if s.lastClock.map (·.1) ≠ some h.payloadType then
    { s with lastClock := some (h.payloadType, time.denom),
             info := s.info.map (fun i => { i with time := ⟨i.time.numer, time.denom⟩ }) } else s
  ({ s with bytes := s.bytes + payload.length, packets := s.packets + 1 },
   { seqNo := seq, time := time, header := h, payload := payload, info := s.info, at_ := now })

/-- receive.rs 491-510 -/
def unRtx {U : Type} (s : Rx) (h : Header U) (data : List Byte) (pt : Nat) : Header U × List Byte :=
  ({ h with sequenceNumber := (readOsn data).1.getD 0, ssrc := s.ssrc, payloadType := pt,
            extVals := { h.extVals with rid := h.extVals.ridRepair, ridRepair := none } }, (readOsn data).2)

/-! ### session.rs -/

/-- What does not change: keys, extensions, payload types, the mode -/
structure Cfg (U : Type) where
  prim : Srtp.Prim
  srtp : Option Srtp.Derived
  env : Env U
  exts : ExtMap
  params : List Param
  rtpMode : Bool

/-- The stream and what it shares with the session: the highest numbers by SSRC, the TWCC register, the packet that waits for
`poll_event` -/
structure Sess (U : Type) where
  rx : Rx
  seqs : List (Nat × Nat) := []
  twcc : Twcc.Recv := Twcc.Recv.new 100
  pending : Option (Packet U) := none
  mediaBytes : Nat := 0
  /-- session.rs 630-632: what was put in `raw_packets` so far, latest first, with the extended sequence number -/
  log : List (Header U × Nat × List Byte) := []

/-- session.rs 566-570, 1298-1300; a probe (SSRC 0) has parameters of its own (payload_params.rs 178-199) -/
def paramOf {U : Type} (c : Cfg U) (ssrc pt : Nat) : Option Param :=
  if ssrc = 0 then some { pt := pt, resend := none, clock := 90000 }
  else c.params.find? fun p => p.pt == pt || p.resend == some pt

/-- twcc.rs 279-283 `max_seq` -/
def twccMax (t : Twcc.Recv) : Option Nat := t.queue.getLast?.map (·.seq)

/-- session.rs 635-640 -/
def twccOf {U : Type} (t : Twcc.Recv) (now : Nat) (h : Header U) : Twcc.Recv :=
  match h.extVals.transportCc with
  | none => t
  | some n => t.update (extend 16 (twccMax t) n) now

/-- session.rs 680-714: the packet goes to the application: `some` is what the `Media` gets in frame mode -/
def deliver {U : Type} (c : Cfg U) (s : Sess U) (now : Nat) (h : Header U) (data : List Byte) (seq : Nat) (time : MediaTime) (new : Bool) :
    Sess U × Option (Packet U) :=
  if s.rx.ssrc = 0 then (s, none)
  else
    let (rx, p) := handleRtp s.rx now h data seq time
    let s := { s with rx := rx, mediaBytes := s.mediaBytes + data.length }
    if c.rtpMode then (if new then ({ s with pending := some p }, none) else (s, none))
    else (s, some p)

/-- session.rs 649-673: a repair packet is turned into the packet it repairs -/
def repaired {U : Type} (c : Cfg U) (s : Sess U) (now : Nat) (h : Header U) (p : Param) (data : List Byte) :
    Res Unit (Sess U × Option (Packet U)) :=
  if data = [] then .ok (s, none)
  else
    let (h, data) := unRtx s.rx h data p.pt
    let (rx, seq) := extendSeq s.rx s.seqs h.ssrc h.sequenceNumber false
    let seqs := bumpSeq s.seqs h.ssrc seq
    match updateRegister rx now h.timestamp p.clock false seq with
    | .ok (rx, time, new) => .ok (deliver c { s with rx := rx, seqs := seqs } now h data seq time new)
    | .err e => .err e
    | .panic => .panic

/-- session.rs 630-678: an authentic packet -/
def received {U : Type} (c : Cfg U) (s : Sess U) (now : Nat) (h : Header U) (p : Param) (seq : Nat) (data : List Byte) :
    Res Unit (Sess U × Option (Packet U)) :=
  let repair := p.pt != h.payloadType
  let twcc := twccOf s.twcc now h
  let seqs := bumpSeq s.seqs h.ssrc seq
  match updateRegister s.rx now h.timestamp p.clock repair seq with
  | .ok (rx, time, new) =>
    let s := { s with rx := rx, seqs := seqs, twcc := twcc, log := (h, seq, data) :: s.log }
    if repair then repaired c s now h p data else .ok (deliver c s now h data seq time new)
  | .err e => .err e
  | .panic => .panic

/-- session.rs 619-628 -/
def unpad {U : Type} (h : Header U) (data : List Byte) : Res Unit (List Byte) :=
  if h.hasPadding then unpadPayload data else .ok data

/-- session.rs 601-628: what the datagram says, if it is authentic -/
def open_ {U : Type} (c : Cfg U) (d : Srtp.Derived) (h : Header U) (buf : List Byte) (seq : Nat) : Res Unit (List Byte) :=
  match Srtp.unprotectRtp c.prim d buf h.headerLen h.ssrc h.sequenceNumber seq with
  | .ok data => unpad h data
  | .err e => .err e
  | .panic => .panic

/-- session.rs 583-628 -/
def checked {U : Type} (c : Cfg U) (d : Srtp.Derived) (s : Sess U) (now : Nat) (h : Header U) (p : Param) (buf : List Byte) :
    Res Unit (Sess U × Option (Packet U)) :=
  let (rx, seq) := extendSeq s.rx s.seqs h.ssrc h.sequenceNumber (p.pt != h.payloadType)
  let s := { s with rx := rx }
  match isNew rx (p.pt != h.payloadType) seq with
  | .ok true =>
    match open_ c d h buf seq with
    | .ok data => received c s now h p seq data
    | .err _ => .ok (s, none)
    | .panic => .panic
  | .ok false => .ok (s, none)
  | .err e => .err e
  | .panic => .panic

/-- session.rs 539-581. A packet of another SSRC is not given to this stream. -/
def handle {U : Type} (c : Cfg U) (s : Sess U) (now : Nat) (h : Header U) (buf : List Byte) : Res Unit (Sess U × Option (Packet U)) :=
  if h.ssrc = s.rx.ssrc ∨ some h.ssrc = s.rx.rtx then
    match c.srtp, paramOf c s.rx.ssrc h.payloadType with
    | some d, some p => checked c d s now h p buf
    | _, _ => .ok (s, none)
  else .ok (s, none)

/-- session.rs 431-438 `handle_rtp_receive` -/
def receive {U : Type} (c : Cfg U) (s : Sess U) (now : Nat) (buf : List Byte) : Res Unit (Sess U × Option (Packet U)) :=
  match Header.parse c.env c.exts buf with
  | .ok h => handle c s now h buf
  | .err _ => .ok (s, none)
  | .panic => .panic

/-! ### The rest of receive.rs -/

/-- 325-342 -/
def timeout (s : Rx) (now : Nat) : Rx :=
  match s.checkPausedAt with
  | none => s
  | some t => if now < t then s else { s with checkPausedAt := none, paused := true, needEvent := true }

/-- 690-714: the event says whether the stream is paused -/
def pollPaused (s : Rx) : Rx × Option Bool :=
  if s.ssrc = 0 then (s, none)
  else if s.needEvent then ({ s with needEvent := false }, some s.paused) else (s, none)

/-- 287-313: `rtp32` is the RTP time of the report -/
def setSenderInfo (s : Rx) (now ntp rtp32 packets octets : Nat) : Rx :=
  let time : MediaTime := ⟨extend 32 (s.info.map (·.time.numer)) rtp32, (s.lastClock.map (·.2)).getD 1⟩
  { s with info := some { at_ := now, ntp := ntp, time := time, packets := packets, octets := octets, emitted := false } }

/-- 716-726 -/
def pollSenderInfo (s : Rx) : Rx × Option Info :=
  match s.info with
  | none => (s, none)
  | some i => if i.emitted then (s, none) else ({ s with info := some { i with emitted := true } }, some i)

/-- register.rs 130-138 `clear` -/
def clearReg (r : Option ReceiverRegister) (m : Option Nat) : Option ReceiverRegister := r.map fun _ => ReceiverRegister.new m

/-- 728-737 -/
def resetBuffers (s : Rx) (seqs : List (Nat × Nat)) : Rx :=
  { s with reg := clearReg s.reg (seqOf seqs s.ssrc), regRtx := clearReg s.regRtx (s.rtx.bind (seqOf seqs)), kf := none }

/-- 739-771 -/
def changeSsrc (s : Rx) (ssrc : Nat) : Rx :=
  if ssrc = s.ssrc ∨ some ssrc = s.prev then s
  else { s with prev := some s.ssrc, ssrc := ssrc, reg := none, lastTime := none, lastClock := none, info := none, lastReport := 0,
                firSeq := 0, kf := none, remb := none, resetRoc := none }

/-- 773-789 -/
def setRtx (s : Rx) (rtx : Nat) : Rx := if s.rtx = some rtx then s else { s with rtx := some rtx, regRtx := none }

/-- 804-808 -/
def setRoc (s : Rx) (roc : Nat) : Rx := { s with reg := none, regRtx := none, resetRoc := some roc }

/-- A request for a key frame: PLI, or FIR with its number -/
inductive KfOut where
  | pli (ssrc : Nat)
  | fir (ssrc seq : Nat)
deriving Repr, DecidableEq

/-- 512-540, 559-563 -/
def keyframe (s : Rx) : Rx × Option KfOut :=
  match s.kf with
  | none => (s, none)
  | some .pli => ({ s with kf := none, plis := s.plis + 1 }, some (.pli s.ssrc))
  | some .fir => ({ s with kf := none, firs := s.firs + 1, firSeq := (s.firSeq + 1) % 256 }, some (.fir s.ssrc s.firSeq))

/-- 658-679: the entries of each NACK -/
def makeNack (s : Rx) : Rx × List (List NackEntry) :=
  if s.suppressNack then (s, [])
  else match s.reg with
    | none => (s, [])
    | some r => match r.nack.nackReports with
      | (none, n) => ({ s with reg := some { r with nack := n } }, [])
      | (some ns, n) => ({ s with reg := some { r with nack := n }, nacks := s.nacks + ns.length }, ns)

/-- The block of a receiver report -/
structure Block where
  ssrc : Nat
  stats : ReceptionStats
  lastSr : Nat
  delay : Nat
deriving Repr, DecidableEq

/-- 600-638 -/
def receiverReport (s : Rx) (now : Nat) : Rx × Option Block :=
  match s.reg with
  | none => (s, none)
  | some r => match r.receptionReport with
    | (r, none) => ({ s with reg := some r }, none)
    | (r, some st) =>
      ({ s with reg := some r },
       some { ssrc := s.ssrc, stats := st, lastSr := (s.info.map (fun i => i.ntp / 65536 % 2^32)).getD 0,
              delay := (s.info.map (fun i => (now - i.at_) / 1000 * 65536 / 1000000 % 2^32)).getD 0 })

/-- 573-598 -/
def makeReport (s : Rx) (now : Nat) : Rx × Option Block :=
  let (s, b) := receiverReport s now
  ({ s with lastReport := now }, b)

/-! ### Histories -/

/-- What can happen to the stream -/
inductive Op where
  | packet (now : Nat) (buf : List Byte)
  | poll
  | timeout (now : Nat)
  | senderInfo (now ntp rtp32 packets octets : Nat)
  | pollInfo
  /-- the stream is removed and expected again (streams/mod.rs 299-328, 620-624) -/
  | fresh (ssrc : Nat)
  | resetBuffers
  | changeSsrc (ssrc : Nat)
  | setRtx (rtx : Nat)
  | resetRoc (roc : Nat)
  | threshold (t : Nat)
  | suppress (b : Bool)
  | requestKf (k : Kf)
  | keyframe
  | nack
  | report (now : Nat)

/-- What comes out -/
inductive Ev (U : Type) where
  /-- `Event::RtpPacket`, or a packet given to the depacketizer -/
  | packet (p : Packet U)
  | paused (b : Bool)
  | info (i : Info)
  | keyframe (k : KfOut)
  | nack (es : List NackEntry)
  | report (b : Option Block)

/-- One event. `poll` is `poll_event` (session.rs 832-849): a pause event comes before a packet. -/
def step {U : Type} (c : Cfg U) (s : Sess U) : Op → Res Unit (Sess U × List (Ev U))
  | .packet now buf =>
    match receive c s now buf with
    | .ok (s, p) => .ok (s, p.toList.map .packet)
    | .err e => .err e
    | .panic => .panic
  | .poll =>
    match pollPaused s.rx with
    | (rx, some b) => .ok ({ s with rx := rx }, [.paused b])
    | (rx, none) => .ok ({ s with rx := rx, pending := none }, s.pending.toList.map .packet)
  | .timeout now => .ok ({ s with rx := timeout s.rx now }, [])
  | .senderInfo now ntp rtp32 packets octets => .ok ({ s with rx := setSenderInfo s.rx now ntp rtp32 packets octets }, [])
  | .pollInfo => .ok ({ s with rx := (pollSenderInfo s.rx).1 }, (pollSenderInfo s.rx).2.toList.map .info)
  | .fresh n => .ok ({ s with rx := { ssrc := n } }, [])
  | .resetBuffers => .ok ({ s with rx := resetBuffers s.rx s.seqs }, [])
  | .changeSsrc n => .ok ({ s with rx := changeSsrc s.rx n }, [])
  | .setRtx n => .ok ({ s with rx := setRtx s.rx n }, [])
  | .resetRoc n => .ok ({ s with rx := setRoc s.rx n }, [])
  | .threshold t => .ok ({ s with rx := { s.rx with threshold := t } }, [])
  | .suppress b => .ok ({ s with rx := { s.rx with suppressNack := b } }, [])
  | .requestKf k => .ok ({ s with rx := { s.rx with kf := some k } }, [])
  | .keyframe => .ok ({ s with rx := (keyframe s.rx).1 }, (keyframe s.rx).2.toList.map .keyframe)
  | .nack => .ok ({ s with rx := (makeNack s.rx).1 }, (makeNack s.rx).2.map .nack)
  | .report now => .ok ({ s with rx := (makeReport s.rx now).1 }, [.report (makeReport s.rx now).2])

/-- A history -/
def run {U : Type} (c : Cfg U) (s : Sess U) : List Op → Res Unit (Sess U × List (Ev U))
  | [] => .ok (s, [])
  | op :: ops =>
    match step c s op with
    | .ok (s, es) =>
      match run c s ops with
      | .ok (s, es') => .ok (s, es ++ es')
      | .err e => .err e
      | .panic => .panic
    | .err e => .err e
    | .panic => .panic

end Str0m.Rcv
