import Verif.Model.FrameQueue

/-!
What C125 is about: the frames accepted, what became of them, and what is still waiting.
-/

namespace Str0m.Frames
open Str0m Str0m.Tx

/-- The frames accepted for a media, in order -/
def acceptedFor (mid : Nat) (evs : List Ev) : List Item :=
  evs.filterMap (fun e => match e with
    | .accepted m it => if m = mid then some it else none
    | _ => none)

/-- The frames of a media that left it, in order: packetized, reported by an error, or gone with the media -/
def leftOf (mid : Nat) (evs : List Ev) : List Item :=
  evs.flatMap (fun e => match e with
    | .done d => if d.mid = mid then [d.item] else []
    | .gone m l => if m = mid then l else []
    | _ => [])

/-- The frames of a media still waiting -/
def waitingFor {σ} (mid : Nat) (s : Sess σ) : List Item := (s.medias.filter (fun m => m.mid == mid)).flatMap (·.queue)

/-- No two medias have the same mid -/
def Distinct {σ} (s : Sess σ) : Prop := (s.medias.map (·.mid)).Nodup

/-- Medias are only added with mids that are not there (of the session before the operation) -/
def Fresh {σ} (s : Sess σ) : Op σ → Prop
  | .addMedia mid _ _ => mid ∉ s.medias.map (·.mid)
  | _ => True

/-- All operations of a history are `Fresh` -/
def AllFresh {σ} : Sess σ → List (Op σ) → Prop
  | _, [] => True
  | s, op :: ops => Fresh s op ∧ ∀ r, s.step op = .ok r → AllFresh r.1 ops

/-- Why a frame is refused when it is written: no such media (or the session is closing), a payload type that no codec has, a RID that is not
one of the media's, or more than a hundred frames waiting -/
def Refusal {σ} (s : Sess σ) (mid : Nat) (it : Item) : WErr → Prop
  | .noMedia => s.closing = true ∨ mid ∉ s.medias.map (·.mid)
  | .unknownPt => it.pt ∉ s.params.map (·.1)
  | .unknownRid => ∃ m ∈ s.medias, m.mid = mid ∧ ∃ r, it.rid = some r ∧ (m.ridsTx = .none ∨ ∃ l, m.ridsTx = .specific l ∧ r ∉ l)
  | .withoutPoll => 100 < (waitingFor mid s).length

/-- What a codec makes of frames, one after the other, with the state it has -/
def cuts {σ} (c : Codec σ) (room : Nat) : σ → List (List Byte) → List (Option (List (List Byte)))
  | _, [] => []
  | st, d :: ds => (c.cut st room d).1 :: cuts c room (c.cut st room d).2 ds

/-- What became of a frame, as far as the codec goes; none if it did not get there -/
def Done.made (d : Done) : Option (Option (List (List Byte))) :=
  match d.fate with
  | .sent _ _ cs => some (some cs)
  | .refused => some none
  | .noSource => none

/-- The frames of a media with a payload type and RID that got to the codec, in order -/
def reached (mid pt : Nat) (rid : Option Nat) (evs : List Ev) : List Done :=
  evs.filterMap (fun e => match e with
    | .done d => if d.mid = mid ∧ d.item.pt = pt ∧ d.item.rid = rid ∧ d.fate ≠ .noSource then some d else none
    | _ => none)

/-- The packets of a frame, as written to the stream: numbers that follow each other, the time in the codec's clock, the first and the last
extensions only where they belong, the marker as the codec wants it (or a talk spurt starts), resent only for video -/
def packetsOf {σ} (c : Codec σ) (audio : Bool) (it : Item) (seq : Nat) (before : Option (List Byte)) (cs : List (List Byte)) : List Write :=
  (List.range cs.length).map (fun i =>
    { seqNo := seq + i
      payload := cs.getD i []
      pt := it.pt
      time := (it.time.rebase c.clock).numer % 2 ^ 32
      marker := c.marker (cs.getD i []) (if i = 0 then before else some (cs.getD (i - 1) [])) (decide (i + 1 = cs.length)) || (audio && (!c.noise && it.spurt))
      nackable := !audio
      ext := { absCapture := if i = 0 then it.ext.absCapture else none
               layers := if i = 0 then it.ext.layers else none
               orientation := if i + 1 = cs.length then it.ext.orientation else none
               contentType := if i + 1 = cs.length then it.ext.contentType else none
               timing := if i + 1 = cs.length then it.ext.timing else none
               other := it.ext.other } })

/-- A stream that was written packets: they wait behind the others, and the next number is after the last -/
def withPackets (s : Tx) (ps : List Write) : Tx := { ps.foldl Tx.write s with seqNo := s.seqNo + ps.length }

/-- Every waiting frame can be sent: there is a stream for it, and its codec takes it -/
def Sendable {σ} (s : Sess σ) : Prop :=
  ∀ m ∈ s.medias, ∀ it ∈ m.queue,
    (∃ st ∈ s.streams, st.mid = m.mid ∧ (it.rid = none ∨ st.rid = it.rid)) ∧
    (∃ p ∈ s.params, p.1 = it.pt) ∧
    (∀ p ∈ s.params, ∀ st, (p.2.cut st (roomOf s.mtu) it.data).1 ≠ none) ∧
    (∀ e ∈ m.payloaders, ∀ st, (e.2.1.cut st (roomOf s.mtu) it.data).1 ≠ none)

/-- Timeouts one after the other -/
def timeouts {σ} (s : Sess σ) : Nat → Res Unit (Sess σ × List Done)
  | 0 => .ok (s, [])
  | n + 1 => do
    let r ← s.timeout
    let t ← timeouts r.1 n
    pure (t.1, r.2 ++ t.2)

end Str0m.Frames
