import Verif.Base
/-
  Model of the STUN codec, crates/is/src/stun.rs.

  Bytes are `Byte = Fin 256`, strings are their UTF-8 byte lists, an HMAC-SHA1 is an arbitrary
  function from key and message to a byte list (stun.rs passes it in as a closure; only its
  output length, 20, is used), CRC-32 an arbitrary function to `Nat`, and UTF-8 validity an
  arbitrary Boolean function.  All theorems hold for every choice of the three.
  Error values are collapsed into `()`.
-/
namespace Str0m.Stun

/-- The external functions of the codec: the HMAC provider (stun.rs 392, 417), the CRC of
the `crc` crate (stun.rs 480) and `str::from_utf8(..).is_ok()` (stun.rs 1113). -/
structure Env where
  hmac : List Byte → List Byte → List Byte
  hmac_len : ∀ k m, (hmac k m).length = 20
  crc : List Byte → Nat
  crc_lt : ∀ m, crc m < 2^32
  utf8 : List Byte → Bool

/-- std `SocketAddr`: IPv4 (4 octets) or IPv6 (16 octets) with a port.  Flow info and scope
id of IPv6 are not on the wire and not modelled. -/
inductive Addr where
  | v4 (a b c d : Byte) (port : Nat)
  | v6 (ip : List Byte) (port : Nat)
deriving Repr, DecidableEq

/-- stun.rs 490. -/
def magic : List Byte := [0x21, 0x12, 0xA4, 0x42]

/-- stun.rs 493-500. -/
inductive Class where
  | request | indication | success | failure | unknown
deriving Repr, DecidableEq

/-- stun.rs 502-512 `Class::from_typ`. -/
def Class.fromTyp (typ : Nat) : Class :=
  if typ &&& 0x0110 = 0x0000 then .request
  else if typ &&& 0x0110 = 0x0010 then .indication
  else if typ &&& 0x0110 = 0x0100 then .success
  else if typ &&& 0x0110 = 0x0110 then .failure
  else .unknown

/-- stun.rs 514-523 `Class::to_u16`. -/
def Class.toU16 : Class → Res Unit Nat
  | .request => .ok 0x0000
  | .indication => .ok 0x0010
  | .success => .ok 0x0100
  | .failure => .ok 0x0110
  | .unknown => .panic

/-- stun.rs 526-537. -/
inductive Method where
  | binding | allocate | refresh | send | data | createPermission | channelBind | unknown
deriving Repr, DecidableEq

/-- stun.rs 540-552 `Method::from_typ`. -/
def Method.fromTyp (typ : Nat) : Method :=
  if typ &&& 0x3EEF = 1 then .binding
  else if typ &&& 0x3EEF = 3 then .allocate
  else if typ &&& 0x3EEF = 4 then .refresh
  else if typ &&& 0x3EEF = 6 then .send
  else if typ &&& 0x3EEF = 7 then .data
  else if typ &&& 0x3EEF = 8 then .createPermission
  else if typ &&& 0x3EEF = 9 then .channelBind
  else .unknown

/-- stun.rs 554-567 `Method::to_u16`. -/
def Method.toU16 : Method → Res Unit Nat
  | .binding => .ok 1
  | .allocate => .ok 3
  | .refresh => .ok 4
  | .send => .ok 6
  | .data => .ok 7
  | .createPermission => .ok 8
  | .channelBind => .ok 9
  | .unknown => .panic

/-- stun.rs 570-594 `Attributes`. -/
structure Attrs where
  username : Option (List Byte) := none
  messageIntegrity : Option (List Byte) := none
  errorCode : Option (Nat × List Byte) := none
  channelNumber : Option Nat := none
  lifetime : Option Nat := none
  xorPeerAddress : Option Addr := none
  data : Option (List Byte) := none
  realm : Option (List Byte) := none
  nonce : Option (List Byte) := none
  xorRelayedAddress : Option Addr := none
  xorMappedAddress : Option Addr := none
  software : Option (List Byte) := none
  fingerprint : Option Nat := none
  priority : Option Nat := none
  useCandidate : Bool := false
  iceControlled : Option Nat := none
  iceControlling : Option Nat := none
  networkCost : Option (Nat × Nat) := none
deriving Repr, DecidableEq

/-- stun.rs 109-116 `StunMessage`. -/
structure Msg where
  method : Method
  cls : Class
  transId : List Byte
  attrs : Attrs
  integrity : List Byte := []
  integrityLen : Nat := 0
deriving Repr, DecidableEq

/-- stun.rs 682-704, the attribute numbers. -/
def MAPPED_ADDRESS : Nat := 0x0001
def USERNAME : Nat := 0x0006
def MESSAGE_INTEGRITY : Nat := 0x0008
def ERROR_CODE : Nat := 0x0009
def CHANNEL_NUMBER : Nat := 0x000c
def LIFETIME : Nat := 0x000d
def XOR_PEER_ADDRESS : Nat := 0x0012
def DATA : Nat := 0x0013
def REALM : Nat := 0x0014
def NONCE : Nat := 0x0015
def XOR_RELAYED_ADDRESS : Nat := 0x0016
def XOR_MAPPED_ADDRESS : Nat := 0x0020
def SOFTWARE : Nat := 0x0022
def PRIORITY : Nat := 0x0024
def USE_CANDIDATE : Nat := 0x0025
def FINGERPRINT : Nat := 0x8028
def ICE_CONTROLLED : Nat := 0x8029
def ICE_CONTROLLING : Nat := 0x802a
def NETWORK_COST : Nat := 0xc057

/-- stun.rs 1085-1087 `calculate_pad`. -/
def calculatePad (len : Nat) : Nat := (4 - len % 4) % 4

/-- Bytewise xor of two lists (the `for i in ..` loops of stun.rs 1131-1142, 1162-1176). -/
def xorBytes : List Byte → List Byte → List Byte
  | a :: as, b :: bs => u8 (a.val ^^^ b.val) :: xorBytes as bs
  | _, _ => []

/-- stun.rs 1122-1147 `encode_xor`; returns `buf[0..len]` of the caller. -/
def encodeXor (addr : Addr) (transId : List Byte) : List Byte :=
  match addr with
  | .v4 a b c d port => [0, 1] ++ be16 (port ^^^ 0x2112) ++ xorBytes [a, b, c, d] magic
  | .v6 ip port => [0, 2] ++ be16 (port ^^^ 0x2112) ++ xorBytes ip (magic ++ transId)

/-- stun.rs 1149-1187 `decode_xor`. -/
def decodeXor (buf : List Byte) (transId : List Byte) : Res Unit Addr :=
  if buf.length < 4 then .err ()
  else do
    let b2 ← Res.idx buf 2
    let b3 ← Res.idx buf 3
    let port := rd16 b2 b3 ^^^ 0x2112
    let ipBuf ← Res.from_ buf 4
    let fam ← Res.idx buf 1
    if fam.val = 1 ∧ ipBuf.length ≥ 4 then do
      let i0 ← Res.idx ipBuf 0
      let i1 ← Res.idx ipBuf 1
      let i2 ← Res.idx ipBuf 2
      let i3 ← Res.idx ipBuf 3
      pure (.v4 (u8 (i0.val ^^^ 0x21)) (u8 (i1.val ^^^ 0x12)) (u8 (i2.val ^^^ 0xA4))
        (u8 (i3.val ^^^ 0x42)) port)
    else if fam.val = 2 ∧ ipBuf.length ≥ 16 then do
      let ip ← Res.upto ipBuf 16
      pure (.v6 (xorBytes ip (magic ++ transId)) port)
    else .err ()

/-- stun.rs 1107-1119 `decode_str`. -/
def decodeStr (env : Env) (maxBytes : Nat) (buf : List Byte) (len : Nat) :
    Res Unit (List Byte) :=
  if len > maxBytes then .err ()
  else do
    let s ← Res.upto buf len
    if env.utf8 s then pure s else .err ()

/-- `u32::from_be_bytes([buf[i], buf[i+1], buf[i+2], buf[i+3]])`. -/
def rdU32 (buf : List Byte) (i : Nat) : Res Unit Nat := do
  let a ← Res.idx buf i
  let b ← Res.idx buf (i+1)
  let c ← Res.idx buf (i+2)
  let d ← Res.idx buf (i+3)
  pure (rd32 a b c d)

/-- `u16::from_be_bytes([buf[i], buf[i+1]])`. -/
def rdU16 (buf : List Byte) (i : Nat) : Res Unit Nat := do
  let a ← Res.idx buf i
  let b ← Res.idx buf (i+1)
  pure (rd16 a b)

/-- What the attribute loop carries: the attributes so far, `ignore_rest`, and
`*msg_integrity_off`. -/
structure PState where
  attrs : Attrs := {}
  ignoreRest : Bool := false
  miOff : Nat := 0
deriving Repr, DecidableEq

/-- stun.rs 941-967, ERROR_CODE. -/
def parseErrorCode (env : Env) (buf : List Byte) (len : Nat) : Res Unit (Nat × List Byte) :=
  if len < 4 then .err ()
  else do
    let b4 ← Res.idx buf 4
    let b5 ← Res.idx buf 5
    let b6 ← Res.idx buf 6
    if b4.val ≠ 0 ∨ b5.val ≠ 0 ∨ b6.val &&& 0xf8 ≠ 0 then .err ()
    else
      let cls := b6.val * 100
      if cls < 300 ∨ cls > 699 then .err ()
      else do
        let b7 ← Res.idx buf 7
        let rest ← Res.from_ buf 8
        let reason ← decodeStr env 763 rest (len - 4)
        pure (cls + b7.val % 100, reason)

/-- The value of one parsed attribute (what is assigned to which field of `Attributes` in
stun.rs 914-1073). -/
inductive AV where
  | username (v : List Byte)
  | messageIntegrity (v : List Byte)
  | errorCode (v : Nat × List Byte)
  | channelNumber (v : Nat)
  | lifetime (v : Nat)
  | xorPeerAddress (v : Addr)
  | data (v : List Byte)
  | realm (v : List Byte)
  | nonce (v : List Byte)
  | xorRelayedAddress (v : Addr)
  | xorMappedAddress (v : Addr)
  | software (v : List Byte)
  | priority (v : Nat)
  | useCandidate
  | fingerprint (v : Nat)
  | iceControlled (v : Nat)
  | iceControlling (v : Nat)
  | networkCost (v : Nat × Nat)
  | ignored
deriving Repr, DecidableEq

/-- The assignments of stun.rs 914-1073: each value goes to its field; MESSAGE-INTEGRITY also
sets `*msg_integrity_off = off` and `ignore_rest`. -/
def PState.assign (s : PState) (off : Nat) : AV → PState
  | .username v => { s with attrs.username := some v }
  | .messageIntegrity v =>
    { attrs := { s.attrs with messageIntegrity := some v }, ignoreRest := true, miOff := off }
  | .errorCode v => { s with attrs.errorCode := some v }
  | .channelNumber v => { s with attrs.channelNumber := some v }
  | .lifetime v => { s with attrs.lifetime := some v }
  | .xorPeerAddress v => { s with attrs.xorPeerAddress := some v }
  | .data v => { s with attrs.data := some v }
  | .realm v => { s with attrs.realm := some v }
  | .nonce v => { s with attrs.nonce := some v }
  | .xorRelayedAddress v => { s with attrs.xorRelayedAddress := some v }
  | .xorMappedAddress v => { s with attrs.xorMappedAddress := some v }
  | .software v => { s with attrs.software := some v }
  | .priority v => { s with attrs.priority := some v }
  | .useCandidate => { s with attrs.useCandidate := true }
  | .fingerprint v => { s with attrs.fingerprint := some v }
  | .iceControlled v => { s with attrs.iceControlled := some v }
  | .iceControlling v => { s with attrs.iceControlling := some v }
  | .networkCost v => { s with attrs.networkCost := some v }
  | .ignored => s

/-- A string attribute of at most `n` bytes: `decode_str(typ, n, &buf[4..], len)?`. -/
def attrStr (env : Env) (n : Nat) (buf : List Byte) (len : Nat) : Res Unit (List Byte) := do
  let r ← Res.from_ buf 4
  decodeStr env n r len

/-- An address attribute: `decode_xor(&buf[4..], trans_id)?`. -/
def attrXor (buf transId : List Byte) : Res Unit Addr := do
  let r ← Res.from_ buf 4
  decodeXor r transId

/-- A four byte number: `if len != 4 { return Err } .. u32::from_be_bytes(..)`. -/
def attrU32 (buf : List Byte) (len : Nat) : Res Unit Nat :=
  if len ≠ 4 then .err () else rdU32 buf 4

/-- An eight byte number (stun.rs 1041-1063). -/
def attrU64 (buf : List Byte) (len : Nat) : Res Unit Nat :=
  if len ≠ 8 then .err ()
  else do
    let hi ← rdU32 buf 4
    let lo ← rdU32 buf 8
    pure (hi * 2^32 + lo)

/-- CHANNEL_NUMBER (stun.rs 969-987). -/
def attrChannel (buf : List Byte) (len : Nat) : Res Unit Nat :=
  if len ≠ 4 then .err ()
  else do
    let v ← rdU16 buf 4
    if v < 0x4000 ∨ v > 0x7FFF then .err () else pure v

/-- MESSAGE_INTEGRITY (stun.rs 926-940). -/
def attrIntegrity (buf : List Byte) (len : Nat) : Res Unit (List Byte) :=
  if len ≠ 20 then .err () else Res.slice buf 4 24

/-- USE_CANDIDATE (stun.rs 1025-1032). -/
def attrFlag (len : Nat) : Res Unit Unit :=
  if len ≠ 0 then .err () else pure ()

/-- NETWORK_COST (stun.rs 1064-1072). -/
def attrCost (buf : List Byte) (len : Nat) : Res Unit AV :=
  if len ≠ 4 then pure .ignored
  else do
    let n ← rdU16 buf 4
    let c ← rdU16 buf 6
    pure (.networkCost (n, c))

/-- Wrapping a parsed value (`attributes.x = Some(..)`). -/
def rmap {α β : Type} (f : α → β) (x : Res Unit α) : Res Unit β := x.bind (fun a => .ok (f a))

/-- stun.rs 914-1073, the `match typ` of the attribute loop for one attribute whose type and
length have been read (the attributes that are only logged fall under the last case). -/
def parseAttr (env : Env) (buf : List Byte) (transId : List Byte) (typ len : Nat) :
    Res Unit AV :=
  if typ = USERNAME then rmap .username (attrStr env 513 buf len)
  else if typ = MESSAGE_INTEGRITY then rmap .messageIntegrity (attrIntegrity buf len)
  else if typ = ERROR_CODE then rmap .errorCode (parseErrorCode env buf len)
  else if typ = CHANNEL_NUMBER then rmap .channelNumber (attrChannel buf len)
  else if typ = LIFETIME then rmap .lifetime (attrU32 buf len)
  else if typ = XOR_PEER_ADDRESS then rmap .xorPeerAddress (attrXor buf transId)
  else if typ = DATA then rmap .data (Res.slice buf 4 (len + 4))
  else if typ = REALM then rmap .realm (attrStr env 763 buf len)
  else if typ = NONCE then rmap .nonce (attrStr env 763 buf len)
  else if typ = XOR_RELAYED_ADDRESS then rmap .xorRelayedAddress (attrXor buf transId)
  else if typ = XOR_MAPPED_ADDRESS then rmap .xorMappedAddress (attrXor buf transId)
  else if typ = SOFTWARE then rmap .software (attrStr env 763 buf len)
  else if typ = PRIORITY then rmap .priority (attrU32 buf len)
  else if typ = USE_CANDIDATE then rmap (fun _ => .useCandidate) (attrFlag len)
  else if typ = FINGERPRINT then rmap .fingerprint (attrU32 buf len)
  else if typ = ICE_CONTROLLED then rmap .iceControlled (attrU64 buf len)
  else if typ = ICE_CONTROLLING then rmap .iceControlling (attrU64 buf len)
  else if typ = NETWORK_COST then attrCost buf len
  else .ok .ignored

/-- stun.rs 913: `if !ignore_rest || typ == Self::FINGERPRINT { match typ .. }`. -/
def dispatch (env : Env) (buf : List Byte) (transId : List Byte) (off typ len : Nat)
    (s : PState) : Res Unit PState :=
  if s.ignoreRest = false ∨ typ = FINGERPRINT then
    rmap (s.assign off) (parseAttr env buf transId typ len)
  else .ok s

/-- stun.rs 900-912, the head of one loop iteration: type, length, the bounds check
(`buf.len() - 4` is a checked subtraction), and the dispatch. Returns the new state and the
padded length. -/
def parseHead (env : Env) (buf : List Byte) (transId : List Byte) (off : Nat) (s : PState) :
    Res Unit (PState × Nat) := do
  let typ ← rdU16 buf 0
  let len ← rdU16 buf 2
  if buf.length < 4 then .panic
  else if len > buf.length - 4 then .err ()
  else do
    let s' ← dispatch env buf transId off typ len s
    pure (s', len + calculatePad len)

/-- stun.rs 891-1083 `Attributes::parse`, the loop. -/
def parseLoop (env : Env) (transId : List Byte) (buf : List Byte) (off : Nat) (s : PState) :
    Res Unit PState :=
  if buf.isEmpty then .ok s
  else
    match parseHead env buf transId off s with
    | .ok (s', padLen) =>
      if 4 + padLen ≤ buf.length then
        parseLoop env transId (buf.drop (4 + padLen)) (off + (4 + padLen)) s'
      else .panic
    | .err e => .err e
    | .panic => .panic
termination_by buf.length
decreasing_by
  cases buf with
  | nil => simp_all
  | cons => simp_all

/-- stun.rs 657-673 `split_username`; 58 is `:`. -/
def splitUsername (a : Attrs) : Option (List Byte × List Byte) :=
  match a.username with
  | none => none
  | some v =>
    if 58 ∈ v then
      let i := v.idxOf 58
      if i + 1 ≥ v.length then none else some (v.take i, v.drop (i + 1))
    else none

/-- stun.rs 151-163: the bytes the integrity check covers. -/
def covered (buf : List Byte) (miOff : Nat) : Res Unit (List Byte) :=
  if miOff > 0 then Res.upto buf (miOff + 20) else .ok []

/-- stun.rs 151-191: the integrity slices and the checks on Binding requests/replies. -/
def parseFinish (buf : List Byte) (method : Method) (cls : Class) (transId : List Byte)
    (s : PState) : Res Unit Msg := do
  let integ ← covered buf s.miOff
  let ilen := if s.miOff > 0 then (s.miOff + 24) % 2^16 else 0
  let m : Msg := { method, cls, transId, attrs := s.attrs, integrity := integ,
                   integrityLen := ilen }
  if method = .binding ∧ cls = .success then
    if s.miOff = 0 then .err ()
    else if s.attrs.xorMappedAddress = none then .err ()
    else pure m
  else if method = .binding ∧ cls = .request then
    if s.miOff = 0 then .err ()
    else if splitUsername s.attrs = none then .err ()
    else if s.attrs.priority = none then .err ()
    else pure m
  else pure m

/-- stun.rs 120-201 `StunMessage::parse`. -/
def parse (env : Env) (buf : List Byte) : Res Unit Msg :=
  if buf.length < 4 then .err ()
  else do
    let b0 ← Res.idx buf 0
    let b1 ← Res.idx buf 1
    let typ := (b0.val &&& 0x3f) * 256 + b1.val
    let len ← rdU16 buf 2
    if len % 4 > 0 then .err ()
    else if len + 20 ≠ buf.length then .err ()
    else do
      let mg ← Res.slice buf 4 8
      if mg ≠ magic then .err ()
      else do
        let transId ← Res.slice buf 8 20
        let body ← Res.from_ buf 20
        let s ← parseLoop env transId body 0 {}
        parseFinish buf (Method.fromTyp typ) (Class.fromTyp typ) transId s

/-- stun.rs 392-407 `verify`; `ct_eq` is equality of byte strings (20 bytes each).  The two
slices of `self.integrity` panic when it is shorter than 4 bytes. -/
def verify (env : Env) (m : Msg) (password : List Byte) : Res Unit Bool :=
  match m.attrs.messageIntegrity with
  | some integ => do
    let p ← Res.upto m.integrity 2
    let q ← Res.from_ m.integrity 4
    let comp := env.hmac password (p ++ be16 m.integrityLen ++ q)
    pure (decide (comp = integ))
  | none => pure false

/-! ### Serialisation -/

/-- `buf.write_all(chunk)?` on an `io::Cursor` over a slice of `cap` bytes, of which the
prefix `out` has been written: fails if the rest is too short. -/
def write (cap : Nat) (chunk : List Byte) (out : List Byte) : Res Unit (List Byte) :=
  if out.length + chunk.length ≤ cap then .ok (out ++ chunk) else .err ()

/-- stun.rs 1096-1105 `encode_str_no_len`. -/
def encodeStrNoLen (cap : Nat) (v : List Byte) (out : List Byte) : Res Unit (List Byte) :=
  if v.length > 128 then .err () else write cap v out

/-- A string attribute: type, length, bytes, padding (stun.rs 788-793, 867-878 with
`encode_str`, 1089-1094). -/
def writeStr (cap typ : Nat) (v : List Byte) (out : List Byte) : Res Unit (List Byte) := do
  let out ← write cap (be16 typ) out
  let out ← write cap (be16 v.length) out
  let out ← encodeStrNoLen cap v out
  write cap (List.replicate (calculatePad v.length) 0) out

/-- ICE-CONTROLLED / ICE-CONTROLLING (stun.rs 794-803). -/
def writeU64 (cap typ v : Nat) (out : List Byte) : Res Unit (List Byte) := do
  let out ← write cap (be16 typ) out
  let out ← write cap (be16 8) out
  write cap (be64 v) out

/-- PRIORITY, LIFETIME (stun.rs 804-808, 862-866). -/
def writeU32 (cap typ v : Nat) (out : List Byte) : Res Unit (List Byte) := do
  let out ← write cap (be16 typ) out
  let out ← write cap (be16 4) out
  write cap (be32 v) out

/-- XOR-MAPPED/RELAYED/PEER-ADDRESS (stun.rs 809-815, 839-852). -/
def writeXor (cap typ : Nat) (transId : List Byte) (v : Addr) (out : List Byte) :
    Res Unit (List Byte) := do
  let out ← write cap (be16 typ) out
  let out ← write cap (be16 (encodeXor v transId).length) out
  write cap (encodeXor v transId) out

/-- USE-CANDIDATE (stun.rs 816-819). -/
def writeFlagIf (cap typ : Nat) (b : Bool) (out : List Byte) : Res Unit (List Byte) :=
  if b then do
    let out ← write cap (be16 typ) out
    write cap (be16 0) out
  else .ok out

/-- DATA (stun.rs 820-838). -/
def writeData (cap : Nat) (v : List Byte) (out : List Byte) : Res Unit (List Byte) :=
  if v.length > 65535 then .err ()
  else do
    let out ← write cap (be16 DATA) out
    let out ← write cap (be16 v.length) out
    let out ← write cap v out
    write cap (List.replicate (calculatePad v.length) 0) out

/-- CHANNEL-NUMBER (stun.rs 853-861). -/
def writeChannel (cap v : Nat) (out : List Byte) : Res Unit (List Byte) := do
  let out ← write cap (be16 CHANNEL_NUMBER) out
  let out ← write cap (be16 4) out
  let out ← write cap (be16 v) out
  write cap [0, 0] out

/-- ERROR-CODE (stun.rs 879-898); `4_u16 + reason.len() as u16` is checked arithmetic. -/
def writeErrorCode (cap : Nat) (v : Nat × List Byte) (out : List Byte) :
    Res Unit (List Byte) := do
  let out ← write cap (be16 ERROR_CODE) out
  if 4 + v.2.length % 2^16 ≥ 2^16 then .panic
  else do
    let out ← write cap (be16 (4 + v.2.length % 2^16)) out
    let out ← write cap [0, 0] out
    let out ← write cap [u8 (7 &&& (v.1 / 100) % 256)] out
    let out ← write cap [u8 (v.1 % 100)] out
    let out ← encodeStrNoLen cap v.2 out
    write cap (List.replicate (calculatePad v.2.length) 0) out

/-- `if let Some(v) = field { .. }`. -/
def opt {α : Type} (v : Option α) (f : α → List Byte → Res Unit (List Byte))
    (out : List Byte) : Res Unit (List Byte) :=
  match v with
  | some x => f x out
  | none => .ok out

/-- stun.rs 787-902 `Attributes::to_bytes`. -/
def attrsToBytes (cap : Nat) (transId : List Byte) (a : Attrs) (out : List Byte) :
    Res Unit (List Byte) := do
  let out ← opt a.username (writeStr cap USERNAME) out
  let out ← opt a.iceControlled (writeU64 cap ICE_CONTROLLED) out
  let out ← opt a.iceControlling (writeU64 cap ICE_CONTROLLING) out
  let out ← opt a.priority (writeU32 cap PRIORITY) out
  let out ← opt a.xorMappedAddress (writeXor cap XOR_MAPPED_ADDRESS transId) out
  let out ← writeFlagIf cap USE_CANDIDATE a.useCandidate out
  let out ← opt a.data (writeData cap) out
  let out ← opt a.xorRelayedAddress (writeXor cap XOR_RELAYED_ADDRESS transId) out
  let out ← opt a.xorPeerAddress (writeXor cap XOR_PEER_ADDRESS transId) out
  let out ← opt a.channelNumber (writeChannel cap) out
  let out ← opt a.lifetime (writeU32 cap LIFETIME) out
  let out ← opt a.realm (writeStr cap REALM) out
  let out ← opt a.nonce (writeStr cap NONCE) out
  opt a.errorCode (writeErrorCode cap) out

/-- `.map(..).unwrap_or_default()` of stun.rs 709-767. -/
def optLen {α : Type} (v : Option α) (f : α → Nat) : Nat :=
  match v with
  | some x => f x
  | none => 0

/-- `if a.is_ipv4() { 8 } else { 20 }`. -/
def addrLen : Addr → Nat
  | .v4 .. => 8
  | .v6 .. => 20

/-- stun.rs 706-785 `padded_len`. -/
def paddedLen (a : Attrs) : Nat :=
  let str := fun (v : List Byte) => 4 + v.length + calculatePad v.length
  optLen a.username str
  + optLen a.iceControlled (fun _ => 4 + 8)
  + optLen a.iceControlling (fun _ => 4 + 8)
  + optLen a.priority (fun _ => 4 + 4)
  + optLen a.xorMappedAddress (fun v => 4 + addrLen v)
  + (if a.useCandidate then 4 else 0)
  + optLen a.xorPeerAddress (fun v => 4 + addrLen v)
  + optLen a.xorRelayedAddress (fun v => 4 + addrLen v)
  + optLen a.data str
  + optLen a.channelNumber (fun _ => 4 + 4)
  + optLen a.lifetime (fun _ => 4 + 4)
  + optLen a.realm str
  + optLen a.nonce str
  + optLen a.errorCode (fun v => 4 + 4 + v.2.length + calculatePad v.2.length)

/-- `buf[a..a+v.len()].copy_from_slice(v)`: panics out of bounds. -/
def overwrite (buf : List Byte) (a : Nat) (v : List Byte) : Res Unit (List Byte) :=
  if a + v.length ≤ buf.length then .ok (buf.take a ++ v ++ buf.drop (a + v.length))
  else .panic

/-- stun.rs 458-464, filling in the message integrity. -/
def fillIntegrity (env : Env) (password : Option (List Byte)) (off : Nat) (buf : List Byte) :
    Res Unit (List Byte) :=
  match password with
  | some pw => do
    let covered ← Res.upto buf (off - 4)
    overwrite buf off (env.hmac pw covered)
  | none => pure buf

/-- stun.rs 450-455, the MESSAGE-INTEGRITY placeholder. -/
def writeIntegrity (cap : Nat) (b : Bool) (out : List Byte) : Res Unit (List Byte) :=
  if b then do
    let out ← write cap (be16 MESSAGE_INTEGRITY) out
    let out ← write cap (be16 20) out
    write cap (List.replicate 20 0) out
  else .ok out

/-- stun.rs 413-487 `StunMessage::to_bytes`; returns the bytes written (`buf[..n]`). The
`as u16` casts are truncation (`be16` keeps the low 16 bits). The buffer beyond what has been
written is never touched. -/
def toBytes (env : Env) (m : Msg) (password : Option (List Byte)) (cap : Nat) :
    Res Unit (List Byte) := do
  let miLen := if password.isSome then 24 else 0
  let attrLen := paddedLen m.attrs + miLen + 4 + 4
  let c ← m.cls.toU16
  let t ← m.method.toU16
  let out ← write cap (be16 (c ||| t)) []
  let out ← write cap (be16 (attrLen - 8)) out
  let out ← write cap magic out
  let out ← write cap m.transId out
  let out ← attrsToBytes cap m.transId m.attrs out
  let out ← writeIntegrity cap password.isSome out
  let integrityValueOffset := 20 + paddedLen m.attrs + 4
  let out ← write cap (be16 FINGERPRINT) out
  let out ← write cap (be16 4) out
  let out ← write cap (List.replicate 4 0) out
  let fingerprintValueOffset := integrityValueOffset + miLen
  let out ← fillIntegrity env password integrityValueOffset out
  let out ← overwrite out 2 (be16 attrLen)
  let covered ← Res.upto out (fingerprintValueOffset - 4)
  let crc := env.crc covered ^^^ 0x5354554e
  overwrite out fingerprintValueOffset (be32 crc)

/-! ### The messages the ICE agent sends -/

/-- stun.rs 341-366 `binding_request` (through the builder, 1200-1400). -/
def bindingRequest (username transId : List Byte) (controlling : Bool) (tieBreaker prio : Nat)
    (useCandidate : Bool) : Msg :=
  { method := .binding, cls := .request, transId
    attrs := { username := some username, priority := some prio, useCandidate
               iceControlling := if controlling then some tieBreaker else none
               iceControlled := if controlling then none else some tieBreaker } }

/-- stun.rs 368-375 `binding_reply`. -/
def bindingReply (transId : List Byte) (addr : Addr) : Msg :=
  { method := .binding, cls := .success, transId, attrs := { xorMappedAddress := some addr } }

/-- The bytes of "Role Conflict". -/
def roleConflictText : List Byte := [82, 111, 108, 101, 32, 67, 111, 110, 102, 108, 105, 99, 116]

/-- stun.rs 377-387 `binding_role_conflict_reply`. -/
def roleConflictReply (transId : List Byte) : Msg :=
  { method := .binding, cls := .failure, transId
    attrs := { errorCode := some (487, roleConflictText) } }

/-! ### The agent's acceptance check -/

/-- What `accepts_message` reads from the agent: the local credentials, the remote credentials
if known, and the transaction ids of the binding requests that are outstanding on some
candidate pair. -/
structure Creds where
  ufrag : List Byte
  pass : List Byte
deriving Repr, DecidableEq

/-- crates/is/src/agent.rs 576: `format!("{left}:{right}")` with the peer's fragment first. -/
def requestUsername (own peer : Creds) : List Byte := peer.ufrag ++ [58] ++ own.ufrag

/-- crates/is/src/agent.rs 1061-1157 `accepts_message`, with `stun_credentials` (563-584);
`outstanding tid` is `candidate_pairs.any(|p| p.binding_attempt(tid).is_some())`. -/
def acceptsMessage (env : Env) (loc : Creds) (remote : Option Creds)
    (outstanding : List Byte → Bool) (m : Msg) : Res Unit Bool :=
  if m.method = .binding ∧ m.cls = .request then
    match splitUsername m.attrs with
    | none => .panic                                   -- `split_username().unwrap()`
    | some (l, r) =>
      if l ≠ loc.ufrag then pure false
      else if (match remote with | some c => decide (r ≠ c.ufrag) | none => false) then
        pure false
      else verify env m loc.pass
  else if m.method = .binding ∧ (m.cls = .success ∨ m.cls = .failure) then
    if outstanding m.transId then
      match remote with
      | none => .panic                                 -- `.expect("Remote ICE credentials")`
      | some c => verify env m c.pass
    else pure false
  else pure false

end Str0m.Stun
