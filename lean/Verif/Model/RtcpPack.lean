import Verif.Model.Rtcp
import Mathlib.Data.List.Sort
/-
  Packing queued RTCP messages into one datagram: `Rtcp::write_packet`, `merge`, `pack`
  (src/rtp/rtcp/mod.rs 141-357) and `ReportList::append_all_possible` (list.rs 63-104).
-/
namespace Str0m.Rtcp
open Res

/-- The `word_size` of the reports: rr.rs 57, fir.rs 61, nack.rs 58, mod.rs 471 (SSRC);
`Sdes.wordSize` for source descriptions. -/
def rrWords : Nat := 6
def firWords : Nat := 2
def nackWords : Nat := 1
def ssrcWords : Nat := 1

/-- list.rs 71-94: how many items are moved, at most `max`, while `words` last. -/
def movable {α : Type} (size : α → Nat) : (max words : Nat) → List α → Nat
  | 0, _, _ => 0
  | _ + 1, _, [] => 0
  | max + 1, words, x :: xs =>
    if words < size x then 0 else movable size max (words - size x) xs + 1

/-- list.rs 64-103 `append_all_possible`: the new lists, and the number of moved items. -/
def appendAll {α : Type} (size : α → Nat) (self other : List α) (words : Nat) :
    List α × List α × Nat :=
  let n := movable size (min (31 - self.length) other.length) words other
  (self ++ other.take n, other.drop n, n)

/-- mod.rs 189-230 `merge`: the new `self`, the new `other`, and whether anything moved. -/
def Rtcp.merge (a b : Rtcp) (words : Nat) : Rtcp × Rtcp × Bool :=
  match a, b with
  | .sr i r1, .rr s2 r2 =>
    let (x, y, n) := appendAll (fun _ => rrWords) r1 r2 words
    (.sr i x, .rr s2 y, decide (n > 0))
  | .rr s1 r1, .rr s2 r2 =>
    let (x, y, n) := appendAll (fun _ => rrWords) r1 r2 words
    (.rr s1 x, .rr s2 y, decide (n > 0))
  | .sdes r1, .sdes r2 =>
    let (x, y, n) := appendAll Sdes.wordSize r1 r2 words
    (.sdes x, .sdes y, decide (n > 0))
  | .bye r1, .bye r2 =>
    let (x, y, n) := appendAll (fun _ => ssrcWords) r1 r2 words
    (.bye x, .bye y, decide (n > 0))
  | .nack s1 m1 r1, .nack s2 m2 r2 =>
    if m1 = m2 then
      let (x, y, n) := appendAll (fun _ => nackWords) r1 r2 words
      (.nack s1 m1 x, .nack s2 m2 y, decide (n > 0))
    else (a, b, false)
  | .fir s1 r1, .fir s2 r2 =>
    let (x, y, n) := appendAll (fun _ => firWords) r1 r2 words
    (.fir s1 x, .fir s2 y, decide (n > 0))
  | _, _ => (a, b, false)

/-- mod.rs 232-246 -/
def Rtcp.isFull : Rtcp → Bool
  | .sr _ rs | .rr _ rs => decide (rs.length = 31)
  | .xr _ _ => true
  | .sdes rs => decide (rs.length = 31)
  | .bye rs => decide (rs.length = 31)
  | .nack _ _ rs => decide (rs.length = 31)
  | .fir _ rs => decide (rs.length = 31)
  | .pli _ _ | .twcc _ | .remb _ _ _ | .app _ _ _ => true

/-- mod.rs 250-275 -/
def Rtcp.isEmpty : Rtcp → Bool
  | .sr _ _ => false
  | .rr _ rs => rs.isEmpty
  | .xr _ bs => bs.isEmpty
  | .sdes rs => rs.isEmpty
  | .bye rs => rs.isEmpty
  | .nack _ _ rs => rs.isEmpty
  | .fir _ rs => rs.isEmpty
  | .pli _ _ | .twcc _ | .remb _ _ _ | .app _ _ _ => false

/-- mod.rs 337-357 -/
def Rtcp.orderNo : Rtcp → Nat
  | .sr _ _ => 0
  | .rr _ _ => 1
  | .sdes _ => 2
  | .nack _ _ _ => 3
  | .pli _ _ => 4
  | .fir _ _ => 5
  | .twcc _ => 6
  | .remb _ _ _ => 7
  | .app _ _ _ => 8
  | .xr _ _ => 10
  | .bye _ => 11

/-- The inner loop of `pack`, mod.rs 308-325: merge into `a` from each of the following. The
flags are `any_change` and whether the outer loop is left. -/
def mergeFrom (cap : Nat) : Rtcp → List Rtcp → Rtcp × List Rtcp × Bool × Bool
  | a, [] => (a, [], false, false)
  | a, b :: bs =>
    if a.isFull || a.isEmpty then (a, b :: bs, false, false)
    else if cap < a.lengthWords then (a, b :: bs, false, true)
    else
      let m := a.merge b (cap - a.lengthWords)
      let r := mergeFrom cap m.1 bs
      (r.1, m.2.1 :: r.2.1, m.2.2 || r.2.2.1, r.2.2.2)

/-- The outer loop of `pack`, mod.rs 290-331, on the messages from index `i` on. Running out
of fuel would be a panic of the model. -/
def packLoop : (fuel : Nat) → (cap : Nat) → List Rtcp → Res Unit (List Rtcp)
  | 0, _, _ => .panic
  | _ + 1, _, [] => .ok []
  | _ + 1, _, [a] => .ok [a]
  | fuel + 1, cap, a :: bs =>
    if cap < a.lengthWords then .ok (a :: bs)
    else
      let r := mergeFrom cap a bs
      if r.2.2.2 then .ok (r.1 :: r.2.1)
      else if r.2.2.1 then packLoop fuel cap (r.1 :: r.2.1)
      else do
        let rest ← packLoop fuel (cap - r.1.lengthWords) r.2.1
        pure (r.1 :: rest)

/-- How many reports a message holds. -/
def Rtcp.count : Rtcp → Nat
  | .sr _ rs | .rr _ rs => rs.length
  | .sdes rs => rs.length
  | .bye rs => rs.length
  | .nack _ _ rs => rs.length
  | .fir _ rs => rs.length
  | _ => 0

/-- Enough fuel for `packLoop`. -/
def packFuel (fb : List Rtcp) : Nat := (fb.map Rtcp.count).sum + fb.length + 1

/-- mod.rs 277-335 `pack`. `sort_by_key` is a stable sort, and so is
`insertionSort`. -/
def pack (fb : List Rtcp) (cap : Nat) : Res Unit (List Rtcp) :=
  if fb.length < 2 then .ok fb
  else do
    let l ← packLoop (packFuel fb) cap
      (fb.insertionSort (fun a b => a.orderNo ≤ b.orderNo))
    pure (l.filter (fun p => !p.isEmpty))

/-- mod.rs 159-184: write messages from the front of the queue while they fit. Yields the
bytes, the messages written, and the messages left. A mismatch of the written length is an
assertion failure. -/
def writeLoop : (cap : Nat) → List Rtcp → Res Unit (List Byte × List Rtcp × List Rtcp)
  | _, [] => .ok ([], [], [])
  | cap, p :: ps =>
    if cap < p.lengthWords * 4 then .ok ([], [], p :: ps)
    else do
      let b ← p.writeTo cap
      if p.written ≠ p.lengthWords * 4 then .panic
      else do
        let (bs, sent, left) ← writeLoop (cap - p.lengthWords * 4) ps
        pure (b ++ bs, p :: sent, left)

/-- mod.rs 141-187 `write_packet` into a buffer of `size` bytes. -/
def writePacket (fb : List Rtcp) (size : Nat) : Res Unit (List Byte × List Rtcp × List Rtcp) :=
  if fb = [] then .ok ([], [], [])
  else do
    let l ← pack fb (size / 4)
    writeLoop size l

end Str0m.Rtcp
