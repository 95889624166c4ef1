import Verif.Model.Extend
/-
  Model of the receive-side NACK register: src/streams/register_nack.rs 1-208,
  NACK entries: src/rtp/rtcp/nack.rs 18-24, 95-128, and
  `ReportList::lists_from_iter`: src/rtp/rtcp/list.rs 38-56.
-/
namespace Str0m

/-- register_nack.rs 6 -/
def MAX_MISORDER : Nat := 100
/-- register_nack.rs 9 -/
def MAX_NACKS : Nat := 5
/-- register_nack.rs 12 -/
def BUFFER_SIZE : Nat := MAX_MISORDER + 1

/-- register_nack.rs 23-27 -/
structure PacketStatus where
  received : Bool := false
  nackCount : Nat := 0
deriving Repr, DecidableEq

/-- register_nack.rs 30-32 -/
def PacketStatus.needsNack (p : PacketStatus) : Bool := !p.received && p.nackCount < MAX_NACKS

/-- register_nack.rs 34-38 (the returned flag is unused by all callers). -/
def PacketStatus.markReceived (p : PacketStatus) : PacketStatus := { p with received := true }

/-- The `Vec<PacketStatus>` of fixed length `BUFFER_SIZE`, as a function of the slot index
(register_nack.rs 17, 86). It is only ever indexed by `seq % packets.len()`
(195-207), which is in bounds. -/
abbrev Slots := Nat → PacketStatus

/-- register_nack.rs 195-202 `as_index`, `packet` -/
def Slots.at (pk : Slots) (seq : Nat) : PacketStatus := pk (seq % BUFFER_SIZE)

/-- register_nack.rs 204-207 `packet_mut` (write through the reference). -/
def Slots.upd (pk : Slots) (seq : Nat) (f : PacketStatus → PacketStatus) : Slots :=
  fun k => if k = seq % BUFFER_SIZE then f (pk k) else pk k

/-- register_nack.rs 15-21. `active` is the `Option<Range<SeqNo>>`. -/
structure NackRegister where
  packets : Slots
  active : Option (Nat × Nat)

namespace NackRegister

/-- register_nack.rs 162-165 -/
def initWithSeq (r : NackRegister) (seq : Nat) : NackRegister :=
  { packets := r.packets.upd seq PacketStatus.markReceived, active := some (seq, seq) }

/-- register_nack.rs 84-95 -/
def new (maxSeqNo : Option Nat) : NackRegister :=
  let n : NackRegister := { packets := fun _ => {}, active := none }
  match maxSeqNo with
  | some seq => n.initWithSeq seq
  | none => n

/-- register_nack.rs 97-109 -/
def accepts (r : NackRegister) (seq : Nat) : Bool :=
  match r.active with
  | none => true
  | some (start, stop) =>
    if seq < start then false
    else !(r.packets.at seq).received || seq > stop

/-- register_nack.rs 130-135, the `while start < *end` loop; the first argument is the
remaining distance `end - start`. -/
def advanceStart (pk : Slots) (seq : Nat) : Nat → Nat → Nat
  | 0, start => start
  | n + 1, start =>
    if !(pk.at start).received && start != seq then start
    else advanceStart pk seq n (start + 1)

/-- register_nack.rs 140-151, `for (i, s) in (active.start..start).enumerate()`, with the
early `break` when `i > packets.len()`. `n` is the number of elements left. -/
def resetLoop : Slots → (i s n : Nat) → Slots
  | pk, _, _, 0 => pk
  | pk, i, s, n + 1 =>
    let pk := pk.upd s (fun _ => {})           -- `reset()`, 40-43
    if i > BUFFER_SIZE then pk else resetLoop pk (i + 1) (s + 1) n

/-- register_nack.rs 111-160. Returns the new register and the `new` flag. -/
def update (r : NackRegister) (seq : Nat) : NackRegister × Bool :=
  match r.active with
  | none => (r.initWithSeq seq, true)
  | some (aStart, aStop) =>
    if seq < aStart then (r, false)
    else
      let new := !(r.packets.at seq).received || decide (seq > aStop)
      let stop := max aStop seq
      let start0 := max aStart (stop - MAX_MISORDER)
      let start := advanceStart r.packets seq (stop - start0) start0
      let pk := resetLoop r.packets 0 aStart (start - aStart)
      let pk := if start ≤ seq ∧ seq ≤ stop then pk.upd seq PacketStatus.markReceived else pk
      ({ packets := pk, active := some (start, stop) }, new)

/-- register_nack.rs 167-169 -/
def maxSeq (r : NackRegister) : Option Nat := r.active.map (·.2)

end NackRegister

/-- src/rtp/rtcp/nack.rs 18-24; both fields are `u16`. -/
structure NackEntry where
  pid : Nat
  blp : Nat
deriving Repr, DecidableEq

/-- `(next..=end).find(|s| packet(s).needs_nack())`, register_nack.rs 56-57 and 176; `n` is
the number of elements of the range. -/
def findNeeds (pk : Slots) : Nat → Nat → Option Nat
  | 0, _ => none
  | n + 1, s => if (pk.at s).needsNack then some s else findNeeds pk n (s + 1)

/-- register_nack.rs 67-74: the bitmask loop. `n` elements are left, `s` is both the loop
variable and `self.next` (they advance together). -/
def blpLoop : Slots → (i s n blp : Nat) → Slots × Nat
  | pk, _, _, 0, blp => (pk, blp)
  | pk, i, s, n + 1, blp =>
    if (pk.at s).needsNack then
      blpLoop (pk.upd s (fun p => { p with nackCount := p.nackCount + 1 })) (i + 1) (s + 1) n
        (blp ||| (1 <<< i))
    else blpLoop pk (i + 1) (s + 1) n blp

/-- register_nack.rs 55-77 `NackIterator::next`: the entry, the updated slots and the new
`self.next`. -/
def nackNext (pk : Slots) (next stop : Nat) : Option (NackEntry × Slots × Nat) :=
  match findNeeds pk (stop + 1 - next) next with
  | none => none
  | some s =>
    let pk := pk.upd s (fun p => { p with nackCount := p.nackCount + 1 })
    let n := min 16 (stop - (s + 1))
    let (pk, blp) := blpLoop pk 0 (s + 1) n 0
    some ({ pid := s % 2 ^ 16, blp := blp }, pk, s + 1 + n)

/-- Exhausting the iterator (register_nack.rs 179-183, list.rs 42). The fuel is the length of
the remaining range; every step consumes at least one element (proved: the exact set of
numbers is produced, so the fuel never runs out early). -/
def nackAll : Nat → Slots → (next stop : Nat) → List NackEntry × Slots
  | 0, pk, _, _ => ([], pk)
  | fuel + 1, pk, next, stop =>
    match nackNext pk next stop with
    | none => ([], pk)
    | some (e, pk, next) =>
      let (es, pk) := nackAll fuel pk next stop
      (e :: es, pk)

/-- src/rtp/rtcp/list.rs 38-56 `ReportList::lists_from_iter`; `ReportList` is a list of at
most 31 items. The recursion carries `i`, `current`. -/
def listsFromIter {α : Type} : (i : Nat) → (current : List α) → List α → List (List α)
  | _, current, [] => if current.isEmpty then [] else [current]
  | i, current, x :: xs =>
    if i % 31 == 0 && i != 0 then current :: listsFromIter (i + 1) [x] xs
    else listsFromIter (i + 1) (current ++ [x]) xs

/-- register_nack.rs 174-193 `nack_reports`: the list of NACK messages (as lists of
entries), `none` if nothing is to be requested. -/
def NackRegister.nackReports (r : NackRegister) : Option (List (List NackEntry)) × NackRegister :=
  match r.active with
  | none => (none, r)
  | some (start, stop) =>
    match findNeeds r.packets (stop + 1 - start) start with
    | none => (none, r)
    | some start =>
      let (es, pk) := nackAll (stop + 1 - start) r.packets start stop
      (some (listsFromIter 0 [] es), { r with packets := pk })

/-- src/rtp/rtcp/nack.rs 104-128 `NackEntryIterator::next`, exhausted. Index 0 is the PID,
indices `1..=16` are the bits of BLP; each 16-bit number is extended against `seq_no`. -/
def NackEntry.intoIter (e : NackEntry) (seqNo : Nat) : List Nat :=
  extendU16 (some seqNo) e.pid ::
    ((List.range 16).filter (fun i => e.blp.testBit i)).map
      (fun i => extendU16 (some seqNo) ((e.pid + (i + 1)) % 2 ^ 16))

end Str0m
