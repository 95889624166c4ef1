import Verif.Model.MediaEvents

/-!
What C126 and C127 are about: what the application was told about a media.
-/

namespace Str0m.MediaEv
open Str0m.Negotiate

/-- What an event tells about the direction of a media; a new media with the mid starts anew -/
def tell (mid : Nat) (t : Option Dir) : Ev → Option Dir
  | .added m d => if m = mid then some d else t
  | .changed m d => if m = mid then some d else t
  | .removed m => if m = mid then none else t
  | .quiet => t

/-- The direction the application was last told for a media, since it is there -/
def told (mid : Nat) (evs : List Ev) : Option Dir := evs.foldl (tell mid) none

/-- The media that an operation adds or changes -/
def Op.touches : Op → Option Nat
  | .declare mid => some mid
  | .setDirection mid _ => some mid
  | .stop mid => some mid
  | .line _ l => some l.mid
  | .remove _ => none
  | .poll => none

/-- Medias are declared with mids that are not there -/
def Fresh (ms : List Media) : Op → Prop
  | .declare mid => mid ∉ ms.map (·.mid)
  | _ => True

/-- All operations of a history are `Fresh` -/
def AllFresh : List Media → List Op → Prop
  | _, [] => True
  | ms, op :: ops => Fresh ms op ∧ AllFresh (step ms op).1 ops

/-- The medias touched since the application polled until nothing was left -/
def since (dirty : List Nat) (op : Op) (evs : List Ev) : List Nat :=
  if evs = [.quiet] then [] else op.touches.toList ++ dirty

/-- No media is touched twice before the application polled until nothing was left -/
def Patient : List Nat → List Media → List Op → Prop
  | _, _, [] => True
  | dirty, ms, op :: ops => (∀ mid, op.touches = some mid → mid ∉ dirty) ∧ Patient (since dirty op (step ms op).2) (step ms op).1 ops

/-- The operation adds this media, and the application is to be told: it is declared, or in the peer's offer and not rejected there -/
def Op.Announces (ms : List Media) (mid : Nat) (op : Op) : Prop :=
  mid ∉ ms.map (·.mid) ∧ (op = .declare mid ∨ ∃ l : Line, op = .line true l ∧ l.mid = mid ∧ ¬ (l.disabled = true ∧ l.bundled = false))

/-- The operation adds this media, and the application offered it -/
def Op.Answers (ms : List Media) (mid : Nat) (op : Op) : Prop := mid ∉ ms.map (·.mid) ∧ ∃ l : Line, op = .line false l ∧ l.mid = mid

/-- The events about a media -/
def about (mid : Nat) (evs : List Ev) : List Ev := evs.filter (fun e => match e with
  | .added m _ => m == mid
  | .changed m _ => m == mid
  | _ => false)

/-- The operation gives the media a direction -/
def Op.Directs (mid : Nat) : Op → Prop
  | .setDirection m _ => m = mid
  | .line _ l => l.mid = mid ∧ ¬ (l.disabled = true ∧ l.bundled = false)
  | _ => False

end Str0m.MediaEv
