import Verif.Model.MediaTime
import Verif.Model.Twcc
/-
  RTP header extensions: src/rtp/ext.rs.

  User extensions (`UnknownUri`) are known by their URI; what their serializers do is in `Env`
  and only concerns the user values. A buffer too short for what is written is not modelled:
  writing gives the bytes.
-/
namespace Str0m.Rtp
open Res
open Str0m.Twcc (rd16At rd24At rd32At)

/-- ext.rs 23-69 and 1252-1275: extensions, compared by variant and URI. -/
inductive Ext where
  | absSendTime | absCaptureTime | audioLevel | txOffset | orientation | transportCc
  | playoutDelay | contentType | videoTiming | rid | ridRepair | mid | frameMarking | colorSpace
  | user (uri : String)
deriving Repr, DecidableEq

/-- ext.rs 1170-1179 `VideoTiming` -/
structure Timing where
  flags : Byte
  encodeStart : Nat
  encodeFinish : Nat
  packetizeComplete : Nat
  lastLeftPacer : Nat
deriving Repr, DecidableEq

/-- ext.rs 879-924 `ExtensionValues`. The orientation is the number of its variant (1226-1236).
`absSend` is in microseconds: since the Unix epoch when written, and since a placeholder instant
(at most 64 s) when just parsed. The capture time is in its 64 bit NTP form (the conversion to
`SystemTime` is in floating point). An id (`Mid`, `Rid`) is its text without the padding. -/
structure Vals (U : Type) where
  audioLevel : Option Int
  voice : Option Bool
  orientation : Option Nat
  contentType : Option Byte
  txOffs : Option Nat
  absSend : Option Nat
  absCapture : Option (Nat × Option Int)
  transportCc : Option Nat
  playMin : Option MediaTime
  playMax : Option MediaTime
  timing : Option Timing
  rid : Option (List Byte)
  ridRepair : Option (List Byte)
  mid : Option (List Byte)
  frameMark : Option Nat
  userVals : U
deriving Repr, DecidableEq

/-- `ExtensionValues::default()` -/
def Vals.default {U : Type} (u : U) : Vals U :=
  ⟨none, none, none, none, none, none, none, none, none, none, none, none, none, none, none, u⟩

/-- What is outside of str0m: UTF-8 decoding to code points, and the user's serializers
(ext.rs 120-141). -/
structure Env (U : Type) where
  utf8 : List Byte → Option (List Nat)
  write : String → U → List Byte
  parse : String → List Byte → U → U
  twoByte : String → U → Bool
  init : U

/-- ext.rs 76-87 `ExtensionsForm` -/
inductive Form where
  | oneByte | twoByte
deriving Repr, DecidableEq

/-- ext.rs 94-102 -/
def Form.code : Form → Nat
  | .oneByte => 0xBEDE
  | .twoByte => 0x1000

/-- ext.rs 104-114 -/
def Form.parse (a b : Byte) : Option Form :=
  if rd16 a b = 0xBEDE then some .oneByte
  else if rd16 a b &&& 0xFFF0 = 0x1000 then some .twoByte
  else none

/-- `char::is_ascii_alphanumeric` -/
def isAlnum (c : Nat) : Bool := (48 ≤ c && c ≤ 57) || (65 ≤ c && c ≤ 90) || (97 ≤ c && c ≤ 122)

/-- id.rs 50-68 `From<&str>` for an id of at most `n` characters: other characters become `_`. -/
def toId (n : Nat) (cs : List Nat) : List Byte :=
  (cs.map (fun c => if isAlnum c then u8 c else u8 95)).take n

/-- ext.rs 627-644: microseconds since the epoch as 24 bit 6.18 fixed point seconds. -/
def sendTime24 (us : Nat) : Nat := ((MediaTime.mk us 1000000).rebase 262144).numer % 2^24

/-- ext.rs 667: `-(0x7f & v) as u8`, with the voice bit. -/
def audioByte (level : Int) (voice : Bool) : Byte :=
  u8 ((if voice then 0x80 else 0) ||| ((-(level % 128)) % 256).toNat)

/-- ext.rs 623-745 `Extension::write_to`: the bytes, or `none` when there is no value. -/
def Ext.write {U : Type} (env : Env U) (e : Ext) (ev : Vals U) : Option (List Byte) :=
  match e with
  | .absSendTime => ev.absSend.map (fun t => be24 (sendTime24 t))
  | .absCaptureTime => ev.absCapture.map (fun (ntp, o) =>
      match o with
      | some o => be64 ntp ++ be64 (o % 2^64).toNat
      | none => be64 ntp)
  | .audioLevel => ev.audioLevel.bind fun l => ev.voice.map fun v => [audioByte l v]
  | .txOffset => ev.txOffs.map be32
  | .orientation => ev.orientation.map (fun o => [u8 o])
  | .transportCc => ev.transportCc.map be16
  | .playoutDelay => ev.playMin.bind fun v1 => ev.playMax.map fun v2 =>
      let min := (v1.rebase 100).numer % 4096
      let max := (v2.rebase 100).numer % 4096
      [u8 (min / 16), u8 (min * 16 % 256 ||| max / 256), u8 max]
  | .contentType => ev.contentType.map (fun v => [v])
  | .videoTiming => ev.timing.map (fun t =>
      t.flags :: (be16 t.encodeStart ++ be16 t.encodeFinish ++ be16 t.packetizeComplete ++
        be16 t.lastLeftPacer ++ be16 0 ++ be16 0))
  | .rid => ev.rid
  | .ridRepair => ev.ridRepair
  | .mid => ev.mid
  | .frameMarking => ev.frameMark.map be32
  | .colorSpace => none
  | .user uri => if env.write uri ev.userVals = [] then none else some (env.write uri ev.userVals)

/-- `u64::from_be_bytes(buf[i..i+8])` -/
def rd64At (buf : List Byte) (i : Nat) : Res Unit Nat := do
  let a ← rd32At buf i
  let b ← rd32At buf (i + 4)
  pure (a * 2^32 + b)

/-- `i64::from_be_bytes` -/
def toI64 (n : Nat) : Int := if n < 2^63 then n else (n : Int) - 2^64

/-- ext.rs 747-876 `Extension::parse_value`; values that are too short are ignored. -/
def Ext.parseValue {U : Type} (env : Env U) (e : Ext) (buf : List Byte) (ev : Vals U) : Res Unit (Vals U) :=
  match e with
  | .absSendTime =>
    if buf.length < 3 then .ok ev
    else do
      let v ← rd24At buf 0
      pure { ev with absSend := some ((MediaTime.mk v 262144).rebase 1000000).numer }
  | .absCaptureTime =>
    if buf.length < 8 then .ok ev
    else do
      let ntp ← rd64At buf 0
      if buf.length ≥ 16 then do
        let o ← rd64At buf 8
        pure { ev with absCapture := some (ntp, some (toI64 o)) }
      else pure { ev with absCapture := some (ntp, none) }
  | .audioLevel =>
    if buf.length = 0 then .ok ev
    else do
      let b ← Res.idx buf 0
      pure { ev with audioLevel := some (-((b.val % 128 : Nat) : Int)), voice := some (decide (b.val &&& 0x80 > 0)) }
  | .txOffset =>
    if buf.length < 4 then .ok ev
    else do
      let v ← rd32At buf 0
      pure { ev with txOffs := some v }
  | .orientation =>
    if buf.length = 0 then .ok ev
    else do
      let b ← Res.idx buf 0
      pure { ev with orientation := some (b.val &&& 3) }
  | .transportCc =>
    if buf.length < 2 then .ok ev
    else do
      let v ← rd16At buf 0
      pure { ev with transportCc := some v }
  | .playoutDelay =>
    if buf.length < 3 then .ok ev
    else do
      let a ← Res.idx buf 0
      let b ← Res.idx buf 1
      let c ← Res.idx buf 2
      pure { ev with playMin := some ⟨(a.val * 16) ||| (b.val / 16), 100⟩
                     playMax := some ⟨((b.val &&& 0xf) * 256) ||| c.val, 100⟩ }
  | .contentType =>
    if buf.length = 0 then .ok ev
    else do
      let b ← Res.idx buf 0
      pure { ev with contentType := some b }
  | .videoTiming =>
    if buf.length < 9 then .ok ev
    else do
      let f ← Res.idx buf 0
      let a ← rd16At buf 1
      let b ← rd16At buf 3
      let c ← rd16At buf 5
      let d ← rd16At buf 7
      pure { ev with timing := some ⟨f, a, b, c, d⟩ }
  | .rid => .ok (match env.utf8 buf with | none => ev | some s => { ev with rid := some (toId 8 s) })
  | .ridRepair => .ok (match env.utf8 buf with | none => ev | some s => { ev with ridRepair := some (toId 8 s) })
  | .mid => .ok (match env.utf8 buf with | none => ev | some s => { ev with mid := some (toId 16 s) })
  | .frameMarking =>
    if buf.length < 4 then .ok ev
    else do
      let v ← rd32At buf 0
      pure { ev with frameMark := some v }
  | .colorSpace => .ok ev
  | .user uri => .ok { ev with userVals := env.parse uri buf ev.userVals }

/-! ### The map of ids -/

/-- ext.rs 355-359 `MapEntry` -/
structure Entry where
  ext : Ext
  locked : Bool
deriving Repr, DecidableEq

/-- ext.rs 351-353 `ExtensionMap`: 16 slots, the first is id 1. -/
abbrev ExtMap := List (Option Entry)

/-- ext.rs 363-365 -/
def ExtMap.empty : ExtMap := List.replicate 16 none

/-- ext.rs 394-404 -/
def ExtMap.set (m : ExtMap) (id : Nat) (e : Ext) : ExtMap :=
  if id < 1 ∨ id > 16 then m else List.set m (id - 1) (some ⟨e, false⟩)

/-- ext.rs 370-383 -/
def ExtMap.standard : ExtMap :=
  (((((((ExtMap.empty.set 1 .audioLevel).set 2 .absSendTime).set 3 .transportCc).set 4 .mid).set 10 .rid).set
    11 .ridRepair).set 13 .orientation)

/-- ext.rs 409-416 -/
def ExtMap.lookup (m : ExtMap) (id : Nat) : Option Ext :=
  if id ≥ 1 ∧ id ≤ 16 then (m[id - 1]?).join.map Entry.ext else none

/-- ext.rs 421-426 -/
def ExtMap.idOf (m : ExtMap) (e : Ext) : Option Nat :=
  (m.findIdx? (fun x => x.map Entry.ext = some e)).map (· + 1)

/-- The entries from a slot on, with their ids. -/
def entriesFrom : (id : Nat) → List (Option Entry) → List (Nat × Ext)
  | _, [] => []
  | id, none :: m => entriesFrom (id + 1) m
  | id, some e :: m => (id, e.ext) :: entriesFrom (id + 1) m

/-- ext.rs 429-435 `iter` -/
def ExtMap.iter (m : ExtMap) : List (Nat × Ext) := entriesFrom 1 m

/-- ext.rs 143-150 -/
def Ext.twoByte {U : Type} (env : Env U) (e : Ext) (ev : Vals U) : Bool :=
  match e with
  | .user uri => env.twoByte uri ev.userVals
  | _ => false

/-- ext.rs 528-537 `form` -/
def ExtMap.form {U : Type} (env : Env U) (m : ExtMap) (ev : Vals U) : Form :=
  if m.iter.any (fun p => decide (p.1 > 14) || p.2.twoByte env ev) then .twoByte else .oneByte

/-- One element as ext.rs 549-567 writes it. The assertions of the one byte form are 553-554;
the two byte form truncates the length to a byte. -/
def element (form : Form) (id : Nat) (bytes : List Byte) : Res Unit (List Byte) :=
  match form with
  | .oneByte =>
    if bytes.length ≤ 16 ∧ bytes.length > 0 then .ok (u8 ((id * 16) ||| (bytes.length - 1)) :: bytes) else .panic
  | .twoByte => .ok (u8 id :: u8 bytes.length :: bytes)

/-- ext.rs 539-571 `ExtensionMap::write_to` -/
def writeEntries {U : Type} (env : Env U) (form : Form) (ev : Vals U) : List (Nat × Ext) → Res Unit (List Byte)
  | [] => .ok []
  | (id, e) :: rest =>
    match e.write env ev with
    | none => writeEntries env form ev rest
    | some bytes => do
      let a ← element form id bytes
      let b ← writeEntries env form ev rest
      pure (a ++ b)

/-- ext.rs 486-512: id, length and what follows; `none` ends the block. -/
def elementHead (form : Form) (b0 : Byte) (rest : List Byte) : Option (Nat × Nat × List Byte) :=
  match form with
  | .oneByte => if b0.val / 16 = 15 then none else some (b0.val / 16, b0.val % 16 + 1, rest)
  | .twoByte =>
    match rest with
    | [] => none
    | b1 :: rest => some (b0.val, b1.val, rest)

/-- ext.rs 514-524: the new values, and what follows; `none` ends the block. -/
def parseElement {U : Type} (env : Env U) (m : ExtMap) (id len : Nat) (buf : List Byte) (ev : Vals U) :
    Res Unit (Option (Vals U × List Byte)) :=
  if buf.length < len then .ok none
  else
    match m.lookup id with
    | some e => do
      let ev ← e.parseValue env (buf.take len) ev
      pure (some (ev, buf.drop len))
    | none => .ok (some (ev, buf.drop len))

/-- ext.rs 469-526 `ExtensionMap::parse`. The fuel is the number of bytes plus one; running out
would be a panic of the model. -/
def parseExts {U : Type} (env : Env U) (m : ExtMap) (form : Form) :
    (fuel : Nat) → List Byte → Vals U → Res Unit (Vals U)
  | 0, _, _ => .panic
  | fuel + 1, buf, ev =>
    match buf with
    | [] => .ok ev
    | b0 :: rest =>
      if b0.val = 0 then parseExts env m form fuel rest ev
      else
        match elementHead form b0 rest with
        | none => .ok ev
        | some (id, len, rest) =>
          match parseElement env m id len rest ev with
          | .ok (some (ev, rest)) => parseExts env m form fuel rest ev
          | .ok none => .ok ev
          | .err e => .err e
          | .panic => .panic

/-- ext.rs 580-620 `swap`. The entry found is locked in place before the slots are swapped. -/
def ExtMap.swap (m : ExtMap) (id : Nat) (e : Ext) : ExtMap :=
  if id < 1 ∨ id > 16 then m
  else
    match m.findIdx? (fun x => x.map Entry.ext = some e) with
    | none => m
    | some old =>
      match m[old]? with
      | some (some ent) =>
        if id - 1 ≠ old ∧ ent.locked then m
        else if id - 1 = old then List.set m old (some { ent with locked := true })
        else List.set (List.set m old ((m[id - 1]?).join)) (id - 1) (some { ent with locked := true })
      | _ => m

/-- ext.rs 573-578 `remap` -/
def ExtMap.remap (m : ExtMap) (remote : List (Nat × Ext)) : ExtMap :=
  remote.foldl (fun m p => m.swap p.1 p.2) m

/-- ext.rs 926-952 `update_absolute_send_time`, in microseconds; `now` and `beginning` are times
since the Unix epoch, `rel` is the parsed value. Gives the time since the epoch. Going back 64 s
is taken to be possible down to the epoch (the code: where the platform can represent it). -/
def absoluteSendTime (now beginning rel : Nat) : Res Unit Nat :=
  if rel > 64000000 then .panic
  else
    let closest := now - now % 64000000
    let since := closest - beginning
    let offset := beginning + since
    .ok ((if offset + rel > now then (if 64000000 ≤ offset then offset - 64000000 else offset) else offset) + rel)

end Str0m.Rtp
