import Verif.Base
/-
  Data channels: src/sctp/dcep.rs, the conversions of src/sctp/mod.rs 1330-1380, and the channel
  table of src/channel.rs. The SCTP association itself is the crate `sctp-proto`, not part of
  this code base.
-/
namespace Str0m.Channel
open Res

/-! ### DCEP -/

/-- `ReliabilityType` of sctp-proto. -/
inductive RelType where
  | reliable | rexmit | timed
deriving Repr, DecidableEq

/-- `self.channel_type as u8`, of sctp-proto. -/
def RelType.code : RelType → Nat
  | .reliable => 0
  | .rexmit => 1
  | .timed => 2

/-- `From<u8>` of sctp-proto: anything else is reliable. -/
def RelType.ofCode : Nat → RelType
  | 1 => .rexmit
  | 2 => .timed
  | _ => .reliable

/-- dcep.rs 27-35; strings as their UTF-8 bytes. -/
structure DcepOpen where
  unordered : Bool
  channelType : RelType
  priority : Nat
  param : Nat
  label : List Byte
  protocol : List Byte
deriving Repr, DecidableEq

/-- sctp/error.rs, the three errors of the parser. -/
inductive DcepError where
  | tooSmall | messageType | badUtf8
deriving Repr, DecidableEq

/-- dcep.rs 37-79; `utf8` is `std::str::from_utf8(..).is_ok()`. -/
def DcepOpen.parse (utf8 : List Byte → Bool) (buf : List Byte) : Res DcepError DcepOpen :=
  if buf.length < 12 then .err .tooSmall
  else do
    let b0 ← Res.idx buf 0
    if b0.val ≠ 3 then .err .messageType
    else do
      let b1 ← Res.idx buf 1
      let p0 ← Res.idx buf 2
      let p1 ← Res.idx buf 3
      let r0 ← Res.idx buf 4
      let r1 ← Res.idx buf 5
      let r2 ← Res.idx buf 6
      let r3 ← Res.idx buf 7
      let l0 ← Res.idx buf 8
      let l1 ← Res.idx buf 9
      let q0 ← Res.idx buf 10
      let q1 ← Res.idx buf 11
      if buf.length < 12 + rd16 l0 l1 + rd16 q0 q1 then .err .tooSmall
      else do
        let rest ← Res.from_ buf 12
        let label ← Res.slice rest 0 (rd16 l0 l1)
        if utf8 label = false then .err .badUtf8
        else do
          let rest' ← Res.from_ rest (rd16 l0 l1)
          let protocol ← Res.slice rest' 0 (rd16 q0 q1)
          if utf8 protocol = false then .err .badUtf8
          else
            .ok { unordered := decide (b1.val &&& 0x80 > 0), channelType := RelType.ofCode (b1.val &&& 0x7f),
                  priority := rd16 p0 p1, param := rd32 r0 r1 r2 r3, label := label, protocol := protocol }

/-- dcep.rs 82-96 `marshal_to`, into a buffer of `room` bytes: the bytes written. Where slicing the buffer would fail it panics. -/
def DcepOpen.marshal (room : Nat) (d : DcepOpen) : Res Unit (List Byte) :=
  if room < 12 + d.label.length + d.protocol.length then .panic
  else .ok ([3, u8 (d.channelType.code ||| (if d.unordered then 0x80 else 0))] ++ be16 d.priority ++ be32 d.param
    ++ be16 (d.label.length % 2^16) ++ be16 (d.protocol.length % 2^16) ++ d.label ++ d.protocol)

/-- dcep.rs 101-115 -/
def ackParse (buf : List Byte) : Res DcepError Unit :=
  if buf = [] then .err .tooSmall
  else do
    let b ← Res.idx buf 0
    if b.val ≠ 2 then .err .messageType else .ok ()

/-- dcep.rs 117-122 -/
def ackMarshal : List Byte := [2]

/-- sctp/mod.rs 216-230 -/
inductive Reliability where
  | reliable
  | maxLifetime (ms : Nat)
  | maxRetransmits (n : Nat)
deriving Repr, DecidableEq

/-- sctp/mod.rs 186-200 -/
structure Config where
  label : List Byte
  ordered : Bool
  reliability : Reliability
  negotiated : Option Nat
  protocol : List Byte
deriving Repr, DecidableEq

/-- sctp/mod.rs 1344-1356 -/
def Reliability.toWire : Reliability → RelType × Nat
  | .reliable => (.reliable, 0)
  | .maxLifetime ms => (.timed, ms)
  | .maxRetransmits n => (.rexmit, n)

/-- sctp/mod.rs 1370-1380: the parameter is cut to 16 bits. -/
def Reliability.ofWire : RelType → Nat → Reliability
  | .reliable, _ => .reliable
  | .rexmit, p => .maxRetransmits (p % 2^16)
  | .timed, p => .maxLifetime (p % 2^16)

/-- sctp/mod.rs 1330-1342 -/
def Config.toDcep (c : Config) : DcepOpen :=
  { unordered := !c.ordered, channelType := c.reliability.toWire.1, param := c.reliability.toWire.2, priority := 0, label := c.label,
    protocol := c.protocol }

/-- sctp/mod.rs 1358-1368 -/
def Config.ofDcep (d : DcepOpen) : Config :=
  { label := d.label, ordered := !d.unordered, reliability := .ofWire d.channelType d.param, negotiated := none, protocol := d.protocol }

/-- sctp/mod.rs 857-863: what is sent to open a channel. -/
def openMessage (c : Config) : Res Unit (List Byte) := c.toDcep.marshal 1500

/-- sctp/mod.rs 1039-1049: the configuration at the other end. -/
def acceptOpen (utf8 : List Byte → Bool) (buf : List Byte) : Res DcepError Config := do
  let d ← DcepOpen.parse utf8 buf
  pure (Config.ofDcep d)

/-! ### Payload protocol identifiers -/

/-- sctp-proto's identifiers. -/
inductive Ppi where
  | dcep | string | stringEmpty | binary | binaryEmpty | unknown
deriving Repr, DecidableEq

/-- sctp/mod.rs 630-640 -/
def ppiOf (binary : Bool) (buf : List Byte) : Ppi :=
  if binary then (if buf = [] then .binaryEmpty else .binary)
  else if buf = [] then .stringEmpty else .string

/-- sctp/mod.rs 1258-1293 and 1016-1031: what is delivered of a message that is not DCEP: `binary` and the data. -/
def deliver (ppi : Ppi) (buf : List Byte) : Option (Bool × List Byte) :=
  match ppi with
  | .string => some (false, buf)
  | .binary => some (true, buf)
  | .stringEmpty => some (false, [])
  | .binaryEmpty => some (true, [])
  | _ => none

/-! ### The table of channels -/

/-- channel.rs 180-195; of the configuration only whether it is there. -/
structure Alloc where
  id : Nat
  stream : Option Nat
  wanted : Option Nat
  config : Bool
deriving Repr, DecidableEq

/-- channel.rs 171-178 -/
structure Handler where
  allocs : List Alloc
  nextId : Nat
  held : List Nat
deriving Repr, DecidableEq

/-- `ChannelHandler::default()` -/
def Handler.empty : Handler := { allocs := [], nextId := 0, held := [] }

/-- channel.rs 198-229 -/
def Handler.newChannel (h : Handler) (wanted : Option Nat) : Res Unit (Handler × Nat) :=
  if wanted.isSome ∧ h.allocs.any (fun a => decide (a.stream = wanted ∨ a.wanted = wanted)) then .panic
  else .ok ({ h with allocs := h.allocs ++ [{ id := h.nextId, stream := none, wanted := wanted, config := false }],
                     nextId := h.nextId + 1 }, h.nextId)

/-- channel.rs 231-238 -/
def Handler.confirm (h : Handler) (id : Nat) : Res Unit Handler :=
  if h.allocs.any (fun a => decide (a.id = id)) then
    .ok { h with allocs := h.allocs.map (fun a => if a.id = id then { a with config := true } else a) }
  else .panic

/-- channel.rs 241-246 -/
def Handler.byStream (h : Handler) (s : Nat) : Option Nat := (h.allocs.find? (fun a => decide (a.stream = some s))).map (·.id)

/-- channel.rs 249-254 -/
def Handler.byId (h : Handler) (id : Nat) : Option Nat := (h.allocs.find? (fun a => decide (a.id = id))).bind (·.stream)

/-- channel.rs 337-343: from `p` in steps of 2 until one is free; none when the last one is not. The fuel exceeds the number of ids. -/
def findFree (taken : List Nat) : (fuel p : Nat) → Option Nat
  | 0, _ => none
  | fuel + 1, p =>
    if p ∈ taken then
      if p + 2 ≤ 65535 then findFree taken fuel (p + 2) else none
    else some p

/-- channel.rs 314-356: over the channels in order, with the ids taken so far. -/
def allocate (base : Nat) : (taken : List Nat) → List Alloc → List Alloc
  | _, [] => []
  | taken, a :: rest =>
    if a.stream.isSome then a :: allocate base taken rest
    else
      match a.wanted with
      | some w =>
        if w ∈ taken then a :: allocate base taken rest
        else { a with stream := some w } :: allocate base (taken ++ [w]) rest
      | none =>
        match findFree taken 32768 base with
        | none => a :: allocate base taken rest
        | some p => { a with stream := some p } :: allocate base (taken ++ [p]) rest

/-- channel.rs 281-287 -/
def Handler.needAllocation (h : Handler) : Bool :=
  h.allocs.any (fun a => a.stream.isNone && (match a.wanted with | none => true | some w => !decide (w ∈ h.held)))

/-- channel.rs 289-293 -/
def Handler.needOpen (h : Handler) : Bool := h.allocs.any (fun a => a.config && a.stream.isSome)

/-- The ids of the channels that have one. -/
def Handler.live (h : Handler) : List Nat := h.allocs.filterMap (·.stream)

/-- channel.rs 296-357; `client` is `sctp.is_client()`. -/
def Handler.doAllocations (h : Handler) (client : Bool) : Handler :=
  if h.needAllocation then
    { h with allocs := allocate (if client then 0 else 1) (h.live ++ h.held) h.allocs }
  else h

/-- channel.rs 360-376: what is opened, and the table after. -/
def Handler.openChannels (h : Handler) : Handler × List (Nat × Nat) :=
  ({ h with allocs := h.allocs.map (fun a => if a.stream.isSome then { a with config := false } else a) },
   h.allocs.filterMap (fun a => match a.stream with | some s => if a.config then some (a.id, s) else none | none => none))

/-- channel.rs 256-266, of an initialised association -/
def Handler.timeout (h : Handler) (client : Bool) : Handler × List (Nat × Nat) := (h.doAllocations client).openChannels

/-- channel.rs 378-384: whether a timeout is wanted at once. -/
def Handler.wantsTimeout (h : Handler) : Bool := h.needAllocation || h.needOpen

/-- channel.rs 386-402 -/
def Handler.ensure (h : Handler) (s : Nat) : Handler :=
  if h.allocs.any (fun a => decide (a.stream = some s)) then h
  else { h with allocs := h.allocs ++ [{ id := h.nextId, stream := some s, wanted := none, config := false }], nextId := h.nextId + 1 }

/-- channel.rs 422-426 -/
def Handler.resetComplete (h : Handler) (s : Nat) : Handler := { h with held := h.held.erase s }

/-- channel.rs 430-432 -/
def Handler.lost (h : Handler) : Handler := { h with held := [] }

/-- channel.rs 435-447 -/
def Handler.remove (h : Handler) (id : Nat) (pending : Bool) : Handler :=
  { h with
    held := match h.byId id with
      | some s => if pending then h.held ++ [s] else h.held
      | none => h.held
    allocs := h.allocs.filter (fun a => decide (a.id ≠ id)) }

/-- What drives the table: the API (lib.rs, change/direct.rs, change/sdp.rs) and the events of SCTP
(lib.rs 1737-1764). -/
inductive Op where
  | new (wanted : Option Nat)
  | confirm (id : Nat)
  | timeout (client : Bool)
  | opened (s : Nat)
  | closed (s : Nat) (pending : Bool)
  | resetComplete (s : Nat)
  | lost
deriving Repr, DecidableEq

/-- One operation. -/
def Handler.step (h : Handler) : Op → Res Unit Handler
  | .new w => do
    let (h', _) ← h.newChannel w
    pure h'
  | .confirm id => h.confirm id
  | .timeout client => .ok (h.timeout client).1
  | .opened s => .ok (h.ensure s)
  | .closed s pending =>
    match h.byStream s with
    | some id => .ok (h.remove id pending)
    | none => .ok h
  | .resetComplete s => .ok (h.resetComplete s)
  | .lost => .ok h.lost

/-- Several. -/
def Handler.run (h : Handler) : List Op → Res Unit Handler
  | [] => .ok h
  | op :: ops => do
    let h' ← h.step op
    h'.run ops

end Str0m.Channel
