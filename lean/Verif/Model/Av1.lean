import Verif.Model.Packet
import Verif.Model.Vla
/-
  Model of `src/packet/av1.rs`: OBU parser, packetizer, depacketizer, key frame detector.

  Simplifications: the bit reader is always at a byte boundary here, so it is the list of bytes left
  (`src/packet/mod.rs` 190-281); the RTP payload, a zeroed vector that is filled front to back, is
  the list of bytes filled so far with its capacity; a subtraction that would underflow is a panic.
-/
namespace Str0m.Av1
open Str0m.Packet (PErr)
open Str0m.Vla (encodeLeb)

/-- `usize` subtraction. -/
def csub (a b : Nat) : Res PErr Nat := if b ≤ a then .ok (a - b) else .panic

/-- The loop of `get_leb128`, `src/packet/mod.rs` 251-267: ten groups of 7 bits in a 64 bit word. -/
def getLebGo : Nat → Nat → Nat → List Byte → Option (Nat × List Byte)
  | 0, _, _, _ => none
  | _ + 1, _, _, [] => none
  | fuel + 1, i, acc, b :: rest =>
    if b.val < 128 then some (acc + b.val % 128 * 2 ^ i % 2 ^ 64, rest)
    else getLebGo fuel (i + 7) (acc + b.val % 128 * 2 ^ i % 2 ^ 64) rest

/-- `get_leb128`, `src/packet/mod.rs` 251-267. -/
def getLeb (bytes : List Byte) : Option (Nat × List Byte) := getLebGo 10 0 0 bytes

/-- `struct Obu`, `src/packet/av1.rs` 506-513. -/
structure Obu where
  header : Byte
  ext : Byte
  payload : List Byte
  size : Nat
deriving Repr, DecidableEq

/-- `has_extension`, `src/packet/av1.rs` 516-518. -/
def hasExt (h : Byte) : Bool := h.val / 4 % 2 == 1

/-- `has_size`, `src/packet/av1.rs` 520-522. -/
def hasSize (h : Byte) : Bool := h.val / 2 % 2 == 1

/-- The type field, `src/packet/av1.rs` 524-525. -/
def obuType (h : Byte) : Nat := h.val / 8 % 16

/-- `obu_type` is known and `include_in_packetization`, `src/packet/av1.rs` 497-537. -/
def included (h : Byte) : Bool := decide (obuType h ∈ [1, 3, 4, 5, 6, 7])

/-- The extension byte, `src/packet/av1.rs` 605-608. -/
def parseExt (h : Byte) (rest : List Byte) : Res PErr (Byte × List Byte) :=
  if hasExt h then
    match rest with
    | [] => .err .av1Corrupted
    | e :: rest => .ok (e, rest)
  else .ok (u8 0, rest)

/-- The payload, `src/packet/av1.rs` 613-626. -/
def parseBody (h : Byte) (rest : List Byte) : Res PErr (List Byte × List Byte) :=
  if hasSize h then
    match getLeb rest with
    | none => .err .av1Corrupted
    | some (n, rest) => if n > rest.length then .err .av1Corrupted else .ok (rest.take n, rest.drop n)
  else .ok (rest, [])

/-- The loop of `parse_obus`, `src/packet/av1.rs` 590-639; each round reads at least one byte. -/
def parseObusGo : Nat → List Byte → Res PErr (List Obu)
  | 0, _ => .ok []
  | _ + 1, [] => .ok []
  | fuel + 1, h :: rest => do
    let e ← parseExt h rest
    let b ← parseBody h e.2
    let tail ← parseObusGo fuel b.2
    pure (if included h then
      ⟨h, e.1, b.1, 1 + (if hasExt h then 1 else 0) + b.1.length⟩ :: tail
    else tail)

/-- `parse_obus`, `src/packet/av1.rs` 590-639. -/
def parseObus (payload : List Byte) : Res PErr (List Obu) := parseObusGo (payload.length + 1) payload

/-- `struct Packet`, `src/packet/av1.rs` 543-549. -/
structure Pk where
  first : Nat
  num : Nat
  off : Nat
  lastSize : Nat
  size : Nat
deriving Repr, DecidableEq

/-- `Packet::new`, `src/packet/av1.rs` 552-560. -/
def Pk.new (first : Nat) : Pk := ⟨first, 0, 0, 0, 0⟩

/-- `leb_128_size`, `src/packet/av1.rs` 566-575, for values below 2^63 with fuel 10. -/
def lebSizeGo : Nat → Nat → Nat
  | 0, _ => 1
  | fuel + 1, v => if v ≥ 0x80 then 1 + lebSizeGo fuel (v / 128) else 1

def lebSize (v : Nat) : Nat := lebSizeGo 10 v

/-- `extra_size_for_previous_obu`, `src/packet/av1.rs` 246-256. -/
def extraSize (p : Pk) : Nat := if p.size = 0 then 0 else if p.num > 3 then 0 else lebSize p.lastSize

/-- The loop of `max_fragment_size`, `src/packet/av1.rs` 266-272. -/
def maxFragGo (size : Nat) : Nat → Nat → Nat
  | 0, idx => size - idx
  | fuel + 1, idx => if size < 2 ^ (7 * idx) + 1 then size - idx else maxFragGo size fuel (idx + 1)

/-- `max_fragment_size`, `src/packet/av1.rs` 261-273; sizes are below 2^63, so nine rounds suffice. -/
def maxFrag (size : Nat) : Nat := if size ≤ 1 then 0 else maxFragGo size 9 1

/-- The state of the loop of `emit`, `src/packet/av1.rs` 43-57. -/
structure St where
  packets : List Pk
  cur : Pk
  left : Nat
deriving Repr, DecidableEq

/-- A packet that holds one fragment, `src/packet/av1.rs` 113-117 and 125-129. -/
def Pk.fragment (idx off size : Nat) : Pk := ⟨idx, 1, off, size, size⟩

/-- The middle fragments, `src/packet/av1.rs` 109-120. -/
def middle (maxp idx size : Nat) : Nat → Nat → List Pk → Pk → Nat × List Pk × Pk
  | 0, off, ps, cur => (off, ps, cur)
  | fuel + 1, off, ps, cur =>
    if off + maxp < size then middle maxp idx size fuel (off + maxp) (ps ++ [cur]) (Pk.fragment idx off maxp)
    else (off, ps, cur)

/-- The check for a new packet, `src/packet/av1.rs` 58-72: the state and the extra size. -/
def roomFor (maxp idx : Nat) (s : St) : St × Nat :=
  if s.left < extraSize s.cur + (if s.cur.num ≥ 3 then 2 else 1) then (⟨s.packets ++ [s.cur], Pk.new idx, maxp⟩, 0)
  else (s, extraSize s.cur)

/-- The size prefix of an element, `src/packet/av1.rs` 78-83: `n` elements with this one. -/
def prefixSize (n size : Nat) : Nat := if n > 3 then lebSize size else 0

/-- The first fragment in the current packet, `src/packet/av1.rs` 92-107. -/
def firstFragment (cur : Pk) (extra left : Nat) : Nat × Pk :=
  let m := if cur.num > 3 then maxFrag left else left
  if m = 0 then (0, { cur with num := cur.num - 1, size := cur.size - extra })
  else (m, { cur with size := cur.size + m + prefixSize cur.num m, lastSize := m })

/-- One OBU in `emit`, `src/packet/av1.rs` 57-132. -/
def emitOne (maxp idx size : Nat) (s : St) : Res PErr St := do
  let r := roomFor maxp idx s
  let left ← csub r.1.left r.2
  let cur : Pk := { r.1.cur with size := r.1.cur.size + r.2, num := r.1.cur.num + 1 }
  if size + prefixSize cur.num size ≤ left then
    .ok ⟨r.1.packets, { cur with lastSize := size, size := cur.size + (size + prefixSize cur.num size) }, left - (size + prefixSize cur.num size)⟩
  else do
    let f := firstFragment cur r.2 left
    let m := middle maxp idx size (size + 1) f.1 r.1.packets f.2
    let lastFrag ← csub size m.1
    let left ← csub maxp lastFrag
    pure ⟨m.2.1 ++ [m.2.2], Pk.fragment idx m.1 lastFrag, left⟩

/-- The loop of `emit` over the OBUs, `src/packet/av1.rs` 57-132. -/
def emitGo (maxp : Nat) : List Nat → Nat → St → Res PErr St
  | [], _, s => .ok s
  | size :: rest, idx, s => do
    let s ← emitOne maxp idx size s
    emitGo maxp rest (idx + 1) s

/-- An RTP payload that is being filled. -/
structure W where
  cap : Nat
  bytes : List Byte
deriving Repr, DecidableEq

/-- Writing at the position reached. -/
def W.put (w : W) (xs : List Byte) : Res PErr W :=
  if w.bytes.length + xs.length ≤ w.cap then .ok { w with bytes := w.bytes ++ xs } else .panic

/-- `header & !OBU_SIZE_PRESENT_MASK`. -/
def clearSize (h : Byte) : Byte := u8 (h.val - h.val / 2 % 2 * 2)

/-- `header | OBU_SIZE_PRESENT_MASK`. -/
def setSize (h : Byte) : Byte := u8 (h.val + (1 - h.val / 2 % 2) * 2)

/-- The size of the OBU header. -/
def hdrLen (o : Obu) : Nat := if hasExt o.header then 2 else 1

/-- `src/packet/av1.rs` 155-158. -/
def midHdr (o : Obu) (off : Nat) (w : W) : Res PErr W := if off = 0 then w.put [clearSize o.header] else .ok w

/-- `src/packet/av1.rs` 160-163. -/
def midExt (o : Obu) (off : Nat) (w : W) : Res PErr W := if off ≤ 1 ∧ hasExt o.header = true then w.put [o.ext] else .ok w

/-- The elements before the last, `src/packet/av1.rs` 150-177. -/
def writeGo (obus : List Obu) (first : Nat) : Nat → Nat → Nat → W → Res PErr (W × Nat)
  | 0, _, off, w => .ok (w, off)
  | n + 1, k, off, w => do
    let o ← Res.idx obus (first + k)
    let sz ← csub o.size off
    let w ← w.put (encodeLeb sz)
    let w ← midHdr o off w
    let w ← midExt o off w
    let _ ← csub o.payload.length (off - hdrLen o)
    let w ← w.put (o.payload.drop (off - hdrLen o))
    writeGo obus first n (k + 1) 0 w

/-- The size of the last element, `src/packet/av1.rs` 180-183. -/
def lastLeb (num sz : Nat) (w : W) : Res PErr W := if num > 3 then w.put (encodeLeb sz) else .ok w

/-- `src/packet/av1.rs` 185-189. -/
def lastHdr (o : Obu) (off sz : Nat) (w : W) : Res PErr (W × Nat) :=
  if off = 0 ∧ sz > 0 then w.put [clearSize o.header] >>= fun w => .ok (w, sz - 1) else .ok (w, sz)

/-- `src/packet/av1.rs` 191-195. -/
def lastExt (o : Obu) (off : Nat) (r : W × Nat) : Res PErr (W × Nat) :=
  if off ≤ 1 ∧ hasExt o.header = true ∧ r.2 > 0 then r.1.put [o.ext] >>= fun w => .ok (w, r.2 - 1) else .ok r

/-- The last element, `src/packet/av1.rs` 179-201. -/
def writeLast (o : Obu) (num off sz : Nat) (w : W) : Res PErr W := do
  let w ← lastLeb num sz w
  let r ← lastHdr o off sz w
  let r ← lastExt o off r
  let xs ← Res.slice o.payload (off - hdrLen o) (off - hdrLen o + r.2)
  r.1.put xs

/-- `aggregation_header`, `src/packet/av1.rs` 207-240. -/
def aggHeader (obus : List Obu) (p : Pk) (isFirst : Bool) : Res PErr Byte := do
  let i ← csub (p.first + p.num) 1
  let last ← Res.idx obus i
  let o0 ← Res.idx obus 0
  pure (u8 ((if p.off > 0 then 128 else 0) +
    (if (if p.num = 1 then p.off else 0) + p.lastSize < last.size then 64 else 0) +
    (if p.num ≤ 3 then p.num * 16 else 0) +
    (if obuType o0.header = 1 ∧ isFirst = true then 8 else 0)))

/-- One packet of `write_rtp_payloads`, `src/packet/av1.rs` 139-204. -/
def writePk (obus : List Obu) (p : Pk) (isFirst : Bool) : Res PErr (List Byte) := do
  let h ← aggHeader obus p isFirst
  let w ← W.put ⟨1 + p.size, []⟩ [h]
  let n ← csub p.num 1
  let r ← writeGo obus p.first n 0 p.off w
  let o ← Res.idx obus (p.first + p.num - 1)
  let w ← writeLast o p.num r.2 p.lastSize r.1
  pure (w.bytes ++ List.replicate (w.cap - w.bytes.length) (u8 0))

/-- `write_rtp_payloads`, `src/packet/av1.rs` 138-205. -/
def writeAll (obus : List Obu) : List Pk → Bool → Res PErr (List (List Byte))
  | [], _ => .ok []
  | p :: ps, isFirst => do
    let x ← writePk obus p isFirst
    let xs ← writeAll obus ps false
    pure (x :: xs)

/-- `Av1Packetizer::packetize` and `emit`, `src/packet/av1.rs` 43-136, 277-287; the vectors of the packetizer
only save allocations. -/
def packetize (mtu : Nat) (payload : List Byte) : Res PErr (List (List Byte)) :=
  if payload = [] ∨ mtu ≤ 1 then .ok []
  else do
    let obus ← parseObus payload
    if obus = [] then .ok []
    else do
      let s ← emitGo (mtu - 1) (obus.map (·.size)) 0 ⟨[], Pk.new 0, mtu - 1⟩
      writeAll obus (s.packets ++ [s.cur]) true

/-- `struct Av1Depacketizer`, `src/packet/av1.rs` 296-317, without what every packet sets first. -/
structure D where
  buffer : List Byte
  length : Nat
deriving Repr, DecidableEq

/-- The OBU length, `src/packet/av1.rs` 372-387: length, bytes left, last element. -/
def elemLen (count idx : Nat) (rest : List Byte) : Res PErr (Nat × List Byte × Bool) :=
  if count ≠ 0 ∧ idx = count - 1 then .ok (rest.length, rest, true)
  else match getLeb rest with
    | none => .err .av1Corrupted
    | some (n, rest) => .ok (n, rest, decide (count = 0 ∧ n = rest.length))

/-- Writing one OBU to the output, `src/packet/av1.rs` 420-456; `none` if no OBU is in the buffer. -/
def writeObu (d : D) (out : List Byte) : Res PErr (Option (List Byte)) := do
  let obus ← parseObus d.buffer
  match obus with
  | [] => pure none
  | o :: _ =>
    let len := d.length - 1 - (if hasExt o.header then 1 else 0)
    let lebB := if hasSize o.header then [] else encodeLeb len
    if lebB.length > 9 then .panic
    else if len > d.buffer.length then .err .av1Corrupted
    else do
      let start ← csub d.buffer.length len
      let body ← Res.slice d.buffer start (start + len)
      pure (some (out ++ [setSize o.header] ++ (if hasExt o.header then [o.ext] else []) ++ lebB ++ body))

/-- The loop of `depacketize`, `src/packet/av1.rs` 369-465; each round reads at least one byte. -/
def depackGo (z y : Bool) (count : Nat) : Nat → Nat → List Byte → D → List Byte → Res PErr (D × List Byte)
  | 0, _, _, d, out => .ok (d, out)
  | fuel + 1, idx, rest, d, out =>
    if rest = [] then .ok (d, out)
    else do
      let e ← elemLen count idx rest
      if e.1 = 0 then .err .av1Corrupted
      else if e.1 > e.2.1.length then .err .av1Corrupted
      else if idx = 0 ∧ z = true ∧ d.buffer = [] then depackGo z y count fuel 1 (e.2.1.drop e.1) d out
      else do
        let frag ← Res.upto e.2.1 e.1
        let d' : D := ⟨d.buffer ++ frag, d.length + e.1⟩
        if e.2.2 = true ∧ y = true then .ok (d', out)
        else do
          let o ← writeObu d' out
          match o with
          | none => depackGo z y count fuel (idx + 1) (e.2.1.drop e.1) ⟨[], 0⟩ out
          | some out' =>
            if e.2.2 = true then .ok (⟨[], 0⟩, out')
            else depackGo z y count fuel (idx + 1) (e.2.1.drop e.1) ⟨[], 0⟩ out'

/-- `Av1Depacketizer::depacketize`, `src/packet/av1.rs` 334-468; the extra is the key frame flag. -/
def depacketize (d : D) (packet out : List Byte) (extra : Option Bool) : Res PErr (D × List Byte × Option Bool) :=
  match packet with
  | [] => .err .shortPacket
  | h :: rest => do
    let z := decide (h.val / 128 = 1)
    let y := decide (h.val / 64 % 2 = 1)
    let n := decide (h.val / 8 % 2 = 1)
    let d : D := if z = false ∨ n = true then ⟨[], 0⟩ else d
    let r ← depackGo z y (h.val / 16 % 4) (rest.length + 1) 0 rest d out
    pure (r.1, r.2, some (n || (match extra with | some k => k | none => false)))

/-- `is_partition_head`, `src/packet/av1.rs` 470-477. -/
def head (packet : List Byte) : Bool :=
  match packet with
  | [] => false
  | h :: _ => decide (h.val / 128 = 0)

/-- `detect_av1_keyframe`, `src/packet/av1.rs` 16-22. -/
def detect (packet : List Byte) : Bool :=
  match packet with
  | [] => false
  | h :: _ => decide (h.val / 8 % 2 = 1)

end Str0m.Av1
