import Verif.Spec.H264
/-
  H.266 vocabulary for C23, C24, C64, C72, independent of the model: NAL units (ITU-T H.266 7.3.1.2) and
  the RTP payloads of RFC 9328 4.3.
-/
namespace Str0m.H266.Spec

/-- `nal_unit_type` of a NAL unit: the upper five bits of the second byte. -/
def unitType (n : List Byte) : Nat :=
  match n with
  | _ :: b :: _ => b.val / 8
  | _ => 0

/-- `forbidden_zero_bit` is 0. -/
def Plain (n : List Byte) : Prop := ∃ b rest, n = b :: rest ∧ b.val < 128

/-- A NAL unit a byte stream may hold: a two byte header, at least one more byte, the forbidden bit 0,
no start code inside, last byte not zero. -/
def ValidUnit (n : List Byte) : Prop :=
  3 ≤ n.length ∧ Plain n ∧ (∀ a c : List Byte, n ≠ a ++ [0, 0, 1] ++ c) ∧ (∀ a : List Byte, n ≠ a ++ [0])

/-- Delimiters (20), filler (25) and the types RFC 9328 uses itself (28, 29) are not sent. -/
def Dropped (n : List Byte) : Prop := unitType n = 20 ∨ unitType n = 25 ∨ unitType n = 28 ∨ unitType n = 29

instance (n : List Byte) : Decidable (Dropped n) := by unfold Dropped; infer_instance

/-- IDR_W_RADL, IDR_N_LP, CRA. -/
def Irap (n : List Byte) : Prop := 7 ≤ unitType n ∧ unitType n ≤ 9

/-- Parameter sets that wait to be sent. -/
structure Waiting where
  vps : Option (List Byte)
  sps : Option (List Byte)
  pps : Option (List Byte)

/-- VPS if any, SPS, PPS. -/
def setsOf (vps : Option (List Byte)) (s q : List Byte) : List (List Byte) :=
  match vps with
  | some v => [v, s, q]
  | none => [s, q]

/-- The parameter sets that go out now: those that wait, once SPS and PPS are both there. -/
def due (w : Waiting) : List (List Byte) :=
  match w.sps, w.pps with
  | some s, some q => setsOf w.vps s q
  | _, _ => []

/-- What waits after a unit that is not a parameter set. -/
def stay (w : Waiting) : Waiting :=
  match w.sps, w.pps with
  | some _, some _ => ⟨none, none, none⟩
  | _, _ => w

/-- The NAL units that travel for a frame, in order, and what still waits after it: parameter sets wait
and go together (VPS if any, SPS, PPS) before the next other unit, once SPS and PPS are there. -/
def sent : Waiting → List (List Byte) → List (List Byte) × Waiting
  | w, [] => ([], w)
  | w, n :: ns =>
    if Dropped n then sent w ns
    else if unitType n = 14 then sent { w with vps := some n } ns
    else if unitType n = 15 then sent { w with sps := some n } ns
    else if unitType n = 16 then sent { w with pps := some n } ns
    else (due w ++ n :: (sent (stay w) ns).1, (sent (stay w) ns).2)

/-- A DONL field, if the stream carries them. -/
def don (donl : Bool) (v : Nat) : List Byte := if donl then be16 v else []

/-- Aggregation units: a 16 bit size before each NAL unit. -/
def aggregated : List (List Byte) → List Byte
  | [] => []
  | n :: ns => be16 n.length ++ n ++ aggregated ns

/-- One fragment: the payload header with type 29, then S, E, P and the unit's type. -/
def frag (b0 b1 : Byte) (s e p : Bool) (x : List Byte) : List Byte :=
  b0 :: u8 (29 * 8 + b1.val % 8) :: u8 ((if s then 128 else 0) + (if e then 64 else 0) + (if p then 32 else 0) + b1.val / 8) :: x

/-- The fragments after the first. -/
def fragRest (b0 b1 : Byte) (p : Bool) : List (List Byte) → List (List Byte)
  | [] => []
  | [x] => [frag b0 b1 false true p x]
  | x :: y :: ys => frag b0 b1 false false false x :: fragRest b0 b1 p (y :: ys)

/-- A thing a sender may send, with the decoding order number of its first NAL unit. -/
inductive Item where
  /-- A single NAL unit packet. -/
  | single (v : Nat) (n : List Byte)
  /-- An aggregation packet with payload header `h0`, temporal id `tid`. -/
  | ap (v : Nat) (h0 : Byte) (tid : Nat) (us : List (List Byte))
  /-- A unit with header `b0`, `b1`, cut in pieces; `p` marks the last fragment of a picture. -/
  | fu (v : Nat) (b0 b1 : Byte) (p : Bool) (first : List Byte) (pieces : List (List Byte))

/-- Its RTP payloads (RFC 9328 4.3.1, 4.3.2, 4.3.3). -/
def Item.payloads (donl : Bool) : Item → List (List Byte)
  | .single v n => [n.take 2 ++ don donl v ++ n.drop 2]
  | .ap v h0 tid us => [h0 :: u8 (28 * 8 + tid) :: (don donl v ++ aggregated us)]
  | .fu v b0 b1 p first pieces => frag b0 b1 true false false (don donl v ++ first) :: fragRest b0 b1 p pieces

/-- The NAL units it carries. -/
def Item.units : Item → List (List Byte)
  | .single _ n => [n]
  | .ap _ _ _ us => us
  | .fu _ b0 b1 _ first pieces => [b0 :: b1 :: (first ++ pieces.flatten)]

/-- Its decoding order number. -/
def Item.number : Item → Nat
  | .single v _ => v
  | .ap v _ _ _ => v
  | .fu v _ _ _ _ _ => v

/-- A unit RFC 9328 lets travel. -/
def Travels (n : List Byte) : Prop := 2 ≤ n.length ∧ Plain n ∧ unitType n ≠ 28 ∧ unitType n ≠ 29

/-- What RFC 9328 allows, except single packets with a unit that is only its header (see the
violation): an aggregate has two units or more, a fragmented unit has two fragments or more. -/
def Item.Legal : Item → Prop
  | .single _ n => 3 ≤ n.length ∧ Travels n
  | .ap _ h0 tid us => h0.val < 128 ∧ tid < 8 ∧ 2 ≤ us.length ∧ ∀ n ∈ us, Travels n ∧ n.length < 2 ^ 16
  | .fu _ b0 b1 _ _ pieces => b0.val < 128 ∧ b1.val / 8 ≠ 28 ∧ b1.val / 8 ≠ 29 ∧ pieces ≠ []

/-- Each item carries the number of its first unit, counting units from `k`, modulo 2^16. -/
def Numbered : Nat → List Item → Prop
  | _, [] => True
  | k, i :: is => i.number = k % 65536 ∧ Numbered (k + i.units.length) is

/-- `nuh_layer_id`. -/
def unitLayer (n : List Byte) : Nat :=
  match n with
  | b :: _ => b.val % 64
  | [] => 0

/-- `nuh_temporal_id_plus1`. -/
def unitTid (n : List Byte) : Nat :=
  match n with
  | _ :: b :: _ => b.val % 8
  | _ => 0

/-- RFC 9328 4.3.2: an aggregation packet has the lowest layer id and the lowest temporal id of its
units (H.266 never uses `nuh_temporal_id_plus1` 0). -/
def LowestIds : Item → Prop
  | .ap _ h0 tid us =>
    (∃ n ∈ us, unitLayer n = h0.val) ∧ (∀ n ∈ us, h0.val ≤ unitLayer n) ∧
    ((∀ n ∈ us, 1 ≤ unitTid n) → (∃ n ∈ us, unitTid n = tid) ∧ ∀ n ∈ us, tid ≤ unitTid n)
  | _ => True

/-- A parameter set: VPS, SPS or PPS. -/
def IsSet (n : List Byte) : Prop := unitType n = 14 ∨ unitType n = 15 ∨ unitType n = 16

/-- The bytes a DONL field takes. -/
def donSize (donl : Bool) : Nat := if donl then 2 else 0

/-- A frame as encoders make them, without what is not sent: nothing or (VPS,) SPS and PPS first, then at
least one unit, none of them a parameter set. -/
def Usual (us : List (List Byte)) : Prop :=
  ∃ ps slices, us.filter (fun n => ¬ Dropped n) = ps ++ slices ∧ slices ≠ [] ∧ (∀ n ∈ slices, ¬ IsSet n) ∧
    (ps = [] ∨ (∃ s p, ps = [s, p] ∧ unitType s = 15 ∧ unitType p = 16) ∨
      ∃ v s p, ps = [v, s, p] ∧ unitType v = 14 ∧ unitType s = 15 ∧ unitType p = 16)

end Str0m.H266.Spec
