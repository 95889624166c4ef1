import Verif.Model.FrameRx

/-!
What C128 is about: from what packets a frame may be made. It does not use the buffers.
-/

namespace Str0m.FrameRx
variable {κ : Type} {C : κ → Codec}

/-- One more operation, for what was received with a payload type and RID: whether the media is receiving, and the packets, newest first -/
def hear (pt : Nat) (rid : Option Nat) (h : Bool × List (RxMeta × List Byte)) : Op C → Bool × List (RxMeta × List Byte)
  | .packet p => if h.1 = true ∧ p.rid = rid then (h.1, (p.info, if p.pt = pt then p.data else []) :: h.2) else h
  | .receiving b => (b, h.2)
  | .reset pt' rid' => if pt' = pt ∧ rid' = rid then (h.1, []) else h
  | .paused rid' => if rid' = rid then (h.1, []) else h
  | .poll => h
  | .rehash _ _ => h

/-- What was received with a payload type and RID since the stream was last paused or changed its SSRC: its packets, and as padding
(without their payload) those of the other payload types of the RID -/
def heard (pt : Nat) (rid : Option Nat) (ops : List (Op C)) : List (RxMeta × List Byte) := (ops.foldl (hear pt rid) (true, [])).2

/-- A complete run: consecutive numbers, one timestamp -/
def Consecutive (ps : List (RxMeta × List Byte)) : Prop :=
  ∀ i p q, ps[i]? = some p → ps[i + 1]? = some q → q.1.seq = p.1.seq + 1 ∧ q.1.time = p.1.time

/-- The codec decodes the payloads one after the other, from some state, to data and extra information -/
inductive Decodes (c : Codec) : c.State → List (List Byte) → List Byte × CodecExtra → List Byte × CodecExtra → Prop where
  | nil (st : c.State) (acc : List Byte × CodecExtra) : Decodes c st [] acc acc
  | cons {st st' : c.State} {d : List Byte} {ds : List (List Byte)} {acc acc' r : List Byte × CodecExtra} :
      c.depack st d acc = (st', .ok acc') → Decodes c st' ds acc' r → Decodes c st (d :: ds) acc r

/-- The frame is made of a complete run of packets from the list, the first of which begins a frame for the codec -/
def MadeOf (c : Codec) (l : List (RxMeta × List Byte)) (d : Depacketized) : Prop :=
  ∃ ps : List (RxMeta × List Byte), ps ≠ [] ∧ (∀ p ∈ ps, p ∈ l) ∧ Consecutive ps ∧ d.infos = ps.map (·.1) ∧
    (∀ p, ps.head? = some p → p.1.time = d.time ∧ ∃ st, c.isHead st p.2 = true) ∧
    ∃ st, Decodes c st (ps.map (·.2)) ([], .none) (d.data, d.extra)

/-- The payload types of a history are configured -/
def Known (params : List (Params C)) (op : Op C) : Prop := ∀ p, op = .packet p → p.pt ∈ params.map (·.pt)

end Str0m.FrameRx
