import Verif.Model.BufferRx

/-!
The frames handed over by the frame API: one `DepacketizingBuffer` (`Model/BufferRx.lean`) for each payload type and RID of a media.
media/mod.rs 322-430, 569-577, session.rs 700-714, 831-836, 882-895 and streams/mod.rs 274-281.

Simplifications: `depayloaders` is a hash map: a list with an arbitrary order, which may change at any time (`rehash`). Of a packet the
number, the time, the marker and the payload; a frame as the buffer makes it (`poll_sample` copies its fields, the time in another rate).
The codec of a payload type comes with its initial state and its contiguity check (packet/mod.rs, buffer_rx.rs 133-146); the codecs are
`C k`, for any type of names `k`. One media, so that
`poll_event_fallible` is its `poll_sample`.
-/

namespace Str0m.FrameRx
variable {κ : Type}

/-- Of `PayloadParams`, format/payload.rs 14-44: what the receiving side of a media looks at -/
structure Params (C : κ → Codec) where
  pt : Nat
  audio : Bool
  codec : κ
  st : (C codec).State
  cont : Contiguity

/-- An entry of `depayloaders`, media/mod.rs 132 -/
structure Dep (C : κ → Codec) where
  pt : Nat
  rid : Option Nat
  codec : κ
  buf : RxBuffer (C codec)

/-- What of a media the frame API uses; `holdAudio` and `holdVideo` are `reordering_size_audio` and `reordering_size_video` -/
structure State (C : κ → Codec) where
  receiving : Bool := true
  deps : List (Dep C) := []

/-- An `RtpPacket` of a stream with this RID -/
structure Packet where
  pt : Nat
  rid : Option Nat
  info : RxMeta
  data : List Byte

variable {C : κ → Codec}

/-- "matched the PT": media/mod.rs 380, 329 -/
def find (params : List (Params C)) (pt : Nat) : Option (Params C) := params.find? (fun p => p.pt == pt)

/-- media/mod.rs 420-429, at one buffer: the buffer of the packet takes it, those of the other payload types of the RID a padding -/
def Dep.take (d : Dep C) (p : Packet) : Dep C :=
  if d.rid = p.rid then
    if d.pt = p.pt then { d with buf := d.buf.push p.info p.data } else { d with buf := d.buf.pushPadding p.info }
  else d

/-- media/mod.rs 375-410: a new buffer if there is none. `unwrap()` at 380 -/
def ensure (params : List (Params C)) (holdAudio holdVideo : Nat) (p : Packet) (deps : List (Dep C)) : Res Unit (List (Dep C)) :=
  if deps.any (fun d => d.pt == p.pt && d.rid == p.rid) then .ok deps
  else match find params p.pt with
    | none => .panic
    | some q => .ok ({ pt := p.pt, rid := p.rid, codec := q.codec, buf := .new (if q.audio then holdAudio else holdVideo) q.st q.cont } :: deps)

/-- media/mod.rs 359-430 `depayload` -/
def depayload (params : List (Params C)) (holdAudio holdVideo : Nat) (p : Packet) (s : State C) : Res Unit (State C) :=
  if !s.receiving then .ok s
  else (ensure params holdAudio holdVideo p s.deps).bind fun deps => .ok { s with deps := deps.map (·.take p) }

/-- What `poll_sample` gives: nothing, the error of an undecodable frame (327-328), or a frame with its parameters -/
inductive Out (C : κ → Codec) where
  | nothing
  | failed (pt : Nat)
  | frame (pt : Nat) (rid : Option Nat) (params : Params C) (d : Depacketized)

/-- media/mod.rs 327-353, of what the buffer with this key gave -/
def outOf (params : List (Params C)) (pt : Nat) (rid : Option Nat) : Except Unit Depacketized → Out C
  | .error _ => .failed pt
  | .ok d => match find params pt with
    | none => .nothing
    | some p => .frame pt rid p d

/-- media/mod.rs 322-357 -/
def pollSample (params : List (Params C)) : List (Dep C) → Res Unit (List (Dep C) × Out C)
  | [] => .ok ([], .nothing)
  | d :: ds => d.buf.pop.bind fun r => match r.2 with
    | none => (pollSample params ds).bind fun o => .ok ({ d with buf := r.1 } :: o.1, o.2)
    | some x => .ok ({ d with buf := r.1 } :: ds, outOf params d.pt d.rid x)

/-- What happens. `reset` is `reset_depayloader`, when the SSRC of the stream changes; `paused` is `reset_depayloaders_for_rid` -/
inductive Op (C : κ → Codec) where
  | packet (p : Packet)
  | poll
  | receiving (b : Bool)
  | reset (pt : Nat) (rid : Option Nat)
  | paused (rid : Option Nat)
  | rehash (f : List (Dep C) → List (Dep C)) (h : ∀ l, (f l).Perm l)

/-- One step: the state, and what was handed over -/
def step (params : List (Params C)) (holdAudio holdVideo : Nat) (s : State C) : Op C → Res Unit (State C × List (Out C))
  | .packet p => (depayload params holdAudio holdVideo p s).bind fun s => .ok (s, [])
  | .poll => (pollSample params s.deps).bind fun o => .ok ({ s with deps := o.1 }, [o.2])
  | .receiving b => .ok ({ s with receiving := b }, [])
  | .reset pt rid => .ok ({ s with deps := s.deps.filter (fun d => !(d.pt == pt && d.rid == rid)) }, [])
  | .paused rid => .ok ({ s with deps := s.deps.filter (fun d => !(d.rid == rid)) }, [])
  | .rehash f _ => .ok ({ s with deps := f s.deps }, [])

/-- A history -/
def run (params : List (Params C)) (holdAudio holdVideo : Nat) (s : State C) : List (Op C) → Res Unit (State C × List (Out C))
  | [] => .ok (s, [])
  | op :: ops => (step params holdAudio holdVideo s op).bind fun r => (run params holdAudio holdVideo r.1 ops).bind fun q => .ok (q.1, r.2 ++ q.2)

end Str0m.FrameRx
