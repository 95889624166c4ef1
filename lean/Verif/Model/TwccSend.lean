import Verif.Model.Twcc
/-
  The sender side of transport wide congestion control: `TwccSendRegister`
  (src/rtp/rtcp/twcc.rs 1003-1379). The probe cluster of a packet is not modelled, and the
  counter of reports is unbounded (it is a `u64`).
-/
namespace Str0m.Twcc
open Res

/-- twcc.rs 1148-1158 `TwccRecvReport` -/
structure RecvReport where
  localTime : Nat
  remoteTime : Option Nat
  counter : Nat
deriving Repr, DecidableEq

/-- twcc.rs 1069-1081 `TwccSendRecord` -/
structure SendRec where
  seq : Nat
  sendTime : Nat
  size : Nat
  recv : Option RecvReport
deriving Repr, DecidableEq

/-- twcc.rs 1106-1108 `remote_recv_time` -/
def SendRec.remote (r : SendRec) : Option Nat := r.recv.bind (·.remoteTime)

/-- twcc.rs 1003-1020 `TwccSendRegister` -/
structure Send where
  keep : Nat
  queue : List SendRec
  timeZero : Option Nat
  counter : Nat
  last : Nat
deriving Repr, DecidableEq

/-- twcc.rs 1161-1169 -/
def Send.new (keep : Nat) : Send := { keep, queue := [], timeZero := none, counter := 0, last := 0 }

/-- twcc.rs 1171-1186 `register_seq`. The `while` loop removes from the front until the length
is `keep`. -/
def Send.register (s : Send) (seq now size : Nat) : Send :=
  let q := s.queue ++ [{ seq, sendTime := now, size := size % 65536, recv := none }]
  { s with last := seq, queue := q.drop (q.length - s.keep) }

/-- twcc.rs 1215-1250 `update` of one record; `none` when the sequence number is another. -/
def SendRec.update (r : SendRec) (now seq : Nat) (remote : Option Nat) (counter : Nat) : Option SendRec :=
  if r.seq ≠ seq then none
  else
    let c := match r.recv with
      | some rr => (match rr.remoteTime with | some _ => rr.counter | none => counter)
      | none => counter
    some { r with recv := some ⟨now, r.remote.or remote, c⟩ }

/-- twcc.rs 1205-1207: `skip_while` and the first `next`. The fuel is the number of items plus
one; running out is a panic of the model. -/
def skipTo : (fuel head : Nat) → Iter → Res Unit (Option ((Nat × Status × Option Nat) × Iter))
  | 0, _, _ => .panic
  | n + 1, head, it => do
    match ← it.next with
    | none => pure none
    | some (x, it') => if x.1 < head then skipTo n head it' else pure (some (x, it'))

/-- twcc.rs 1269-1279: the loop over the zipped items and records. `zip` asks the report first.
Gives the records and the last sequence number. A mismatch is the panic of 1281-1288. -/
def zipLoop (now counter : Nat) : Iter → List SendRec → (last : Nat) → Res Unit (List SendRec × Nat)
  | it, [], last => do
    let _ ← it.next
    pure ([], last)
  | it, r :: rs, last => do
    match ← it.next with
    | none => pure (r :: rs, last)
    | some ((seq, _, inst), it') =>
      match r.update now seq inst counter with
      | none => .panic
      | some r' => do
        let (rs', l) ← zipLoop now counter it' rs seq
        pure (r' :: rs', l)

/-- twcc.rs 1349-1373 `TwccSendRecordsIter`: the records from `index` on, whose sequence
numbers must be `cur`, .., `cur + n - 1`. -/
def recordsFrom : List SendRec → (index cur n : Nat) → Res Unit (List SendRec)
  | _, _, _, 0 => .ok []
  | q, index, cur, n + 1 =>
    match q[index]? with
    | none => .panic
    | some r =>
      if r.seq ≠ cur then .panic
      else do
        let rs ← recordsFrom q (index + 1) (cur + 1) n
        pure (r :: rs)

/-- twcc.rs 1192-1322 `apply_report`, with the returned iterator exhausted. The binary search of
1290-1293 finds the first record that is not smaller. The sum of 49, `base_seq +
status_count`, overflows when the base is extended to below zero; overflow is a panic. -/
def Send.apply (s : Send) (t : Report) (now : Nat) : Res Unit (Option (List SendRec) × Send) :=
  let s := { s with timeZero := some (s.timeZero.getD now), counter := s.counter + 1 }
  match s.queue with
  | [] => .ok (none, s)
  | hd :: _ =>
   if extendU16 (some s.last) t.baseSeq + t.statusCount ≥ 2^64 then .panic
   else do
    match ← skipTo (t.statusCount + 1) hd.seq (t.intoIter (s.timeZero.getD now) s.last) with
    | none => pure (none, s)
    | some ((first, _, inst), it) =>
      let before := s.queue.takeWhile (fun r => r.seq < first)
      match s.queue.dropWhile (fun r => r.seq < first) with
      | [] => pure (none, s)
      | r :: rs =>
        if r.seq ≠ first then pure (none, s)
        else
          match r.update now first inst s.counter with
          | none => .panic
          | some r' => do
            let (rs', last) ← zipLoop now s.counter it rs first
            let q := before ++ r' :: rs'
            let out ← recordsFrom q before.length first (last + 1 - first)
            pure (some (out.filter (fun r => r.recv.any (fun x => x.counter = s.counter))),
                  { s with queue := q })

end Str0m.Twcc
