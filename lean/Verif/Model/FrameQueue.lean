import Verif.Model.StreamTx
import Verif.Model.MediaTime

/-!
Frames from the application to the outgoing streams: `Writer::write` (media/writer.rs 137-181), the queue of a media and its packetizing
(media/mod.rs 149-197, 450-518; packet/payload.rs 11-104), `Session::do_payload` and the start of `Session::handle_timeout` (session.rs
275-281, 1221-1233), around the streams of `Model/StreamTx.lean`, which cut frames into packets.

Simplifications: a codec is what it does (`Codec`): the packetizers themselves are in `Model/Packet.lean`, `H264.lean`, `H265.lean`, `H266.lean`,
`Av1.lean`. `streams_tx` is the list of its values in the order the `HashMap` is walked; what else happens to streams is any change (`Op.streams`).
The talk spurt flag the writer leaves out is "false".
-/

namespace Str0m.Frames
open Str0m Str0m.Tx

/-- media/mod.rs 149-162 `Rids` -/
inductive Rids where
  | none
  | any
  | specific (v : List Nat)
deriving Repr, DecidableEq

/-- media/mod.rs 165-171 `contains` -/
def Rids.contains : Rids → Nat → Bool
  | .none, _ => false
  | .any, _ => true
  | .specific v, r => v.contains r

/-- media/mod.rs 177-185 `add` -/
def Rids.add : Rids → Nat → Rids
  | .specific v, r => if v.contains r then .specific v else .specific (v ++ [r])
  | _, r => .specific [r]

/-- media/mod.rs 188-197 `ToPayload`; `spurt` is "start of a talk spurt" -/
structure Item where
  pt : Nat
  rid : Option Nat
  wallclock : Nat
  time : MediaTime
  spurt : Bool
  data : List Byte
  ext : TxExt
deriving Repr, DecidableEq

/-- What a codec does: payload.rs 11-40 `Payloader::new`, packet/mod.rs 92-117 `Packetizer`. `cut` is `packetize` (none is an error) with the
packetizer afterwards; `noise` is "it is CN" -/
structure Codec (σ : Type) where
  init : σ
  cut : σ → Nat → List Byte → Option (List (List Byte)) × σ
  marker : List Byte → Option (List Byte) → Bool → Bool
  clock : Nat
  noise : Bool

/-- media/mod.rs 46-147 `Media`, as far as frames go: `pts` is `remote_pts`, which nothing here looks at; the keys of `payloaders` do not repeat -/
structure Media (σ : Type) where
  mid : Nat
  audio : Bool
  pts : List Nat := []
  ridsTx : Rids := .none
  queue : List Item := []
  payloaders : List ((Nat × Option Nat) × (Codec σ × σ)) := []

/-- session.rs 63-161 `Session`, as far as frames go; `params` is `codec_config` -/
structure Sess (σ : Type) where
  params : List (Nat × Codec σ)
  mtu : Nat
  closing : Bool := false
  medias : List (Media σ) := []
  streams : List Tx := []

/-- error.rs 41, 44, 86; `noMedia` is that there is no writer (lib.rs 1464-1470) -/
inductive WErr where
  | noMedia
  | unknownPt
  | unknownRid
  | withoutPoll
deriving Repr, DecidableEq

/-- writer.rs 152-156 -/
def ridAllowed (r : Rids) : Option Nat → Bool
  | none => true
  | some x => r.contains x

/-- media/mod.rs 464-472 `set_to_payload` -/
def Media.enqueue {σ} (m : Media σ) (it : Item) : Except WErr (Media σ) :=
  if m.queue.length > 100 then .error .withoutPoll else .ok { m with queue := m.queue ++ [it] }

/-- writer.rs 147-179, for the media found -/
def accept {σ} (params : List (Nat × Codec σ)) (m : Media σ) (it : Item) : Except WErr (Media σ) :=
  if !params.any (fun p => p.1 == it.pt) then .error .unknownPt
  else if !ridAllowed m.ridsTx it.rid then .error .unknownRid
  else m.enqueue it

/-- writer.rs 144-145, 257-259: the first media with the mid -/
def writeTo {σ} (params : List (Nat × Codec σ)) (mid : Nat) (it : Item) : List (Media σ) → Except WErr (List (Media σ))
  | [] => .error .noMedia
  | m :: ms =>
    if m.mid = mid then
      match accept params m it with
      | .ok m' => .ok (m' :: ms)
      | .error e => .error e
    else
      match writeTo params mid it ms with
      | .ok ms' => .ok (m :: ms')
      | .error e => .error e

/-- What becomes of a frame: packets in the stream with the SSRC, the first with the sequence number; or an error, which `handle_timeout`
returns (media/mod.rs 502, 515) -/
inductive Fate where
  | sent (ssrc seq : Nat) (chunks : List (List Byte))
  | noSource
  | refused
deriving Repr, DecidableEq

/-- rtp/id.rs 371-373 `special_equals`, send.rs 1248-1250 `is_midrid` -/
def isMidRid (mid : Nat) (rid : Option Nat) (s : Tx) : Bool := s.mid == mid && (rid.isNone || s.rid == rid)

/-- media/mod.rs 457-461: the payloader there is, or a new one. None is the `unwrap` at 459 that fails. -/
def payloaderFor {σ} (params : List (Nat × Codec σ)) (m : Media σ) (key : Nat × Option Nat) : Option (Codec σ × σ) :=
  match m.payloaders.find? (fun e => e.1 == key) with
  | some e => some e.2
  | none =>
    match params.find? (fun p => p.1 == key.1) with
    | some p => some (p.2, p.2.init)
    | none => none

/-- The entry of a `HashMap` -/
def put {σ} (key : Nat × Option Nat) (v : Codec σ × σ) : List ((Nat × Option Nat) × (Codec σ × σ)) → List ((Nat × Option Nat) × (Codec σ × σ))
  | [] => [(key, v)]
  | e :: es => if e.1 = key then (key, v) :: es else e :: put key v es

/-- media/mod.rs 509-511: the room for the payload of a packet; srtp.rs 30, 35 -/
def roomOf (mtu : Nat) : Nat := mtu - 16 - (mtu - 16) % 16

/-- payload.rs 50-67, 92-98: what the stream is told about the frame -/
def frameOf {σ} (c : Codec σ) (audio : Bool) (it : Item) : Tx.Frame :=
  { pt := it.pt, time := (it.time.rebase c.clock).numer % 2 ^ 32, audio := audio, spurt := !c.noise && it.spurt, ext := it.ext, isMarker := c.marker }

/-- payload.rs 59-101 on the first stream that is right -/
def pushTo (mid : Nat) (rid : Option Nat) (f : Tx.Frame) (cs : List (List Byte)) : List Tx → List Tx
  | [] => []
  | s :: ss => if isMidRid mid rid s then pushChunks s f true cs :: ss else s :: pushTo mid rid f cs ss

/-- payload.rs 59-103 `push_sample` with the payloader found -/
def pay {σ} (mtu : Nat) (streams : List Tx) (m : Media σ) (it : Item) (st : Tx) (p : Codec σ × σ) : Media σ × List Tx × Fate :=
  match p.1.cut p.2 (roomOf mtu) it.data with
  | (none, s') => ({ m with payloaders := put (it.pt, it.rid) (p.1, s') m.payloaders }, streams, .refused)
  | (some cs, s') =>
    ({ m with payloaders := put (it.pt, it.rid) (p.1, s') m.payloaders }, pushTo m.mid it.rid (frameOf p.1 m.audio it) cs streams,
      .sent st.ssrc st.seqNo cs)

/-- media/mod.rs 493-517: for the frame taken -/
def payItem {σ} (params : List (Nat × Codec σ)) (mtu : Nat) (streams : List Tx) (m : Media σ) (it : Item) : Res Unit (Media σ × List Tx × Fate) :=
  match streams.find? (isMidRid m.mid it.rid) with
  | none => .ok (m, streams, .noSource)
  | some st =>
    match payloaderFor params m (it.pt, it.rid) with
    | none => .panic
    | some p => .ok (pay mtu streams m it st p)

/-- A frame that left the queue -/
structure Done where
  mid : Nat
  item : Item
  fate : Fate
deriving Repr, DecidableEq

/-- media/mod.rs 482-517 `Media::do_payload` -/
def Media.doPayload {σ} (params : List (Nat × Codec σ)) (mtu : Nat) (streams : List Tx) (m : Media σ) : Res Unit (Media σ × List Tx × Option Done) :=
  match m.queue with
  | [] => .ok (m, streams, none)
  | it :: q => do
    let r ← payItem params mtu streams { m with queue := q } it
    pure (r.1, r.2.1, some ⟨m.mid, it, r.2.2⟩)

/-- The call is one of those that end in an error -/
def failed : Option Done → Bool
  | some d => match d.fate with
    | .sent .. => false
    | _ => true
  | none => false

/-- session.rs 1221-1233 `Session::do_payload`: the first error ends it -/
def payAll {σ} (params : List (Nat × Codec σ)) (mtu : Nat) : List Tx → List (Media σ) → Res Unit (List (Media σ) × List Tx × List Done)
  | streams, [] => .ok ([], streams, [])
  | streams, m :: ms => do
    let r ← m.doPayload params mtu streams
    if failed r.2.2 then pure (r.1 :: ms, r.2.1, r.2.2.toList)
    else do
      let t ← payAll params mtu r.2.1 ms
      pure (r.1 :: t.1, t.2.1, r.2.2.toList ++ t.2.2)

/-- session.rs 275-281: the start of `handle_timeout`. The error it returns is that of the last frame, if that is one. -/
def Sess.timeout {σ} (s : Sess σ) : Res Unit (Sess σ × List Done) :=
  if s.closing then .ok (s, [])
  else do
    let r ← payAll s.params s.mtu s.streams s.medias
    pure ({ s with medias := r.1, streams := r.2.1 }, r.2.2)

/-- session.rs 1066-1072, 1078 with media/mod.rs 474-480: the session wants a timeout at once to packetize -/
def Sess.wants {σ} (s : Sess σ) : Bool := !s.closing && s.medias.any (fun m => !m.queue.isEmpty)

/-- What happens to a session -/
inductive Op (σ : Type) where
  | write (mid : Nat) (it : Item)
  | timeout
  | params (l : List (Nat × Codec σ))
  | streams (l : List Tx)
  | rids (mid : Nat) (r : Rids)
  | addMedia (mid : Nat) (audio : Bool) (pts : List Nat)
  | removeMedia (mid : Nat)
  | close

/-- What can be seen of it -/
inductive Ev where
  | accepted (mid : Nat) (it : Item)
  | rejected (mid : Nat) (it : Item) (e : WErr)
  | done (d : Done)
  | gone (mid : Nat) (l : List Item)
deriving Repr, DecidableEq

/-- media/mod.rs 583-585 `set_rid_tx`, on the media with the mid -/
def setRids {σ} (mid : Nat) (r : Rids) (ms : List (Media σ)) : List (Media σ) := ms.map (fun m => if m.mid = mid then { m with ridsTx := r } else m)

/-- session.rs 1180-1183 `remove_media`, change/sdp.rs 1143-1145 -/
def goneOf {σ} (mid : Nat) (ms : List (Media σ)) : List Item := (ms.filter (fun m => m.mid == mid)).flatMap (·.queue)

/-- One step; there is no writer while closing (lib.rs 1464) -/
def Sess.step {σ} (s : Sess σ) : Op σ → Res Unit (Sess σ × List Ev)
  | .write mid it =>
    if s.closing then .ok (s, [.rejected mid it .noMedia])
    else match writeTo s.params mid it s.medias with
    | .ok ms => .ok ({ s with medias := ms }, [.accepted mid it])
    | .error e => .ok (s, [.rejected mid it e])
  | .timeout => do
    let r ← s.timeout
    pure (r.1, r.2.map .done)
  | .params l => .ok ({ s with params := l }, [])
  | .streams l => .ok ({ s with streams := l }, [])
  | .rids mid r => .ok ({ s with medias := setRids mid r s.medias }, [])
  | .addMedia mid audio pts => .ok ({ s with medias := s.medias ++ [{ mid := mid, audio := audio, pts := pts }] }, [])
  | .removeMedia mid => .ok ({ s with medias := s.medias.filter (fun m => m.mid != mid) }, [.gone mid (goneOf mid s.medias)])
  | .close => .ok ({ s with closing := true }, [])

/-- A history, with all that can be seen -/
def Sess.run {σ} (s : Sess σ) : List (Op σ) → Res Unit (Sess σ × List Ev)
  | [] => .ok (s, [])
  | op :: ops => do
    let r ← s.step op
    let t ← r.1.run ops
    pure (t.1, r.2 ++ t.2)

end Str0m.Frames
