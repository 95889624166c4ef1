import Verif.Model.Vla
/-
  What a representable video layers allocation is, independently of the codec: used by C44.
-/
namespace Str0m.Vla.Spec

/-- A layer that can be represented: at most four temporal layers with bitrates below 2^63, and a
resolution only on an active layer, with sides 1..65535 and a byte of frame rate. -/
def LayerOk (l : Layer) : Prop :=
  l.temporal.length ≤ 4 ∧ (∀ kbps ∈ l.temporal, kbps < 2 ^ 63) ∧
  ∀ r, l.res = some r → l.temporal ≠ [] ∧ 1 ≤ r.width ∧ r.width ≤ 65535 ∧ 1 ≤ r.height ∧ r.height ≤ 65535 ∧ r.framerate ≤ 255

/-- Which spatial layers of a stream are active (have temporal layers). -/
def shape (s : Stream) : List Bool := s.layers.map (fun l => !l.temporal.isEmpty)

/-- At most four spatial layers, the last one active. -/
def StreamOk (s : Stream) : Prop :=
  s.layers.length ≤ 4 ∧ (∀ l ∈ s.layers, LayerOk l) ∧ ∀ l, s.layers.getLast? = some l → l.temporal ≠ []

/-- Resolutions are given for all active layers, or for none. -/
def ResAllOrNone (v : Alloc) : Prop :=
  (∀ s ∈ v.streams, ∀ l ∈ s.layers, l.temporal ≠ [] → l.res ≠ none) ∨
  (∀ s ∈ v.streams, ∀ l ∈ s.layers, l.res = none)

/-- The allocations of one to four streams the wire format represents. -/
def Representable (v : Alloc) : Prop :=
  v.current < 4 ∧ 1 ≤ v.streams.length ∧ v.streams.length ≤ 4 ∧ (∀ s ∈ v.streams, StreamOk s) ∧ ResAllOrNone v

/-- Every stream has the same, non-empty set of active layers. -/
def SameLayers (v : Alloc) : Prop :=
  ∃ sh : List Bool, sh ≠ [] ∧ ∀ s ∈ v.streams, shape s = sh

/-- The third and fourth streams carry nothing while one of the first two does. -/
def OnlyFirstTwo (v : Alloc) : Prop :=
  (∃ s ∈ v.streams.take 2, s.layers ≠ []) ∧ ∀ s ∈ v.streams.drop 2, s.layers = []

/-- Upper bound of the serialized size. -/
def sizeBound (v : Alloc) : Nat :=
  let layers := v.streams.flatMap (·.layers)
  7 + 9 * (layers.flatMap (·.temporal)).length + 5 * layers.length

end Str0m.Vla.Spec
