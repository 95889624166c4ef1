import Verif.Spec.H264
/-
  H.265 vocabulary for C23, C24, C64, C72, independent of the model: NAL units (ITU-T H.265 7.3.1.2) and
  the RTP payloads of RFC 7798 4.4.
-/
namespace Str0m.H265.Spec

/-- `nal_unit_type` of a NAL unit: six bits of the first byte. -/
def unitType (n : List Byte) : Nat :=
  match n with
  | b :: _ => b.val / 2 % 64
  | [] => 0

/-- `forbidden_zero_bit` is 0. -/
def Plain (n : List Byte) : Prop := ∃ b rest, n = b :: rest ∧ b.val < 128

/-- A NAL unit a byte stream may hold: a two byte header, at least one more byte, the forbidden bit 0,
no start code inside, last byte not zero, a type that RFC 7798 does not use itself (48, 49, 50 are
unspecified in H.265). -/
def ValidUnit (n : List Byte) : Prop :=
  3 ≤ n.length ∧ Plain n ∧ (unitType n ≠ 48 ∧ unitType n ≠ 49 ∧ unitType n ≠ 50) ∧
  (∀ a c : List Byte, n ≠ a ++ [0, 0, 1] ++ c) ∧ (∀ a : List Byte, n ≠ a ++ [0])

/-- Access unit delimiters (35) and filler data (38) are not sent. -/
def Dropped (n : List Byte) : Prop := unitType n = 35 ∨ unitType n = 38

instance (n : List Byte) : Decidable (Dropped n) := by unfold Dropped; infer_instance

/-- BLA, IDR and CRA pictures. -/
def Irap (n : List Byte) : Prop := 16 ≤ unitType n ∧ unitType n ≤ 21

/-- Parameter sets that wait to be sent. -/
structure Waiting where
  vps : Option (List Byte)
  sps : Option (List Byte)
  pps : Option (List Byte)

/-- VPS if any, SPS, PPS. -/
def setsOf (vps : Option (List Byte)) (s q : List Byte) : List (List Byte) :=
  match vps with
  | some v => [v, s, q]
  | none => [s, q]

/-- The parameter sets that go out now: those that wait, once SPS and PPS are both there. -/
def due (w : Waiting) : List (List Byte) :=
  match w.sps, w.pps with
  | some s, some q => setsOf w.vps s q
  | _, _ => []

/-- What waits after a unit that is not a parameter set. -/
def stay (w : Waiting) : Waiting :=
  match w.sps, w.pps with
  | some _, some _ => ⟨none, none, none⟩
  | _, _ => w

/-- The NAL units that travel for a frame, in order, and what still waits after it: parameter sets wait
and go together (VPS if any, SPS, PPS) before the next other unit, once SPS and PPS are there. -/
def sent : Waiting → List (List Byte) → List (List Byte) × Waiting
  | w, [] => ([], w)
  | w, n :: ns =>
    if Dropped n then sent w ns
    else if unitType n = 32 then sent { w with vps := some n } ns
    else if unitType n = 33 then sent { w with sps := some n } ns
    else if unitType n = 34 then sent { w with pps := some n } ns
    else (due w ++ n :: (sent (stay w) ns).1, (sent (stay w) ns).2)

/-- A DONL field, if the stream carries them. -/
def don (donl : Bool) (v : Nat) : List Byte := if donl then be16 v else []

/-- A DOND field, if the stream carries them. -/
def dond (donl : Bool) (x : Byte) : List Byte := if donl then [x] else []

/-- Aggregation units after the first: DOND, a 16 bit size, the NAL unit. -/
def aggregated (donl : Bool) : List (Byte × List Byte) → List Byte
  | [] => []
  | (x, n) :: ns => dond donl x ++ be16 n.length ++ n ++ aggregated donl ns

/-- One fragment: the payload header with type 49, then S, E and the unit's type. -/
def frag (b0 b1 : Byte) (s e : Bool) (x : List Byte) : List Byte :=
  u8 (49 * 2 + b0.val % 2) :: b1 :: u8 ((if s then 128 else 0) + (if e then 64 else 0) + b0.val / 2) :: x

/-- The fragments after the first. -/
def fragRest (b0 b1 : Byte) : List (List Byte) → List (List Byte)
  | [] => []
  | [x] => [frag b0 b1 false true x]
  | x :: y :: ys => frag b0 b1 false false x :: fragRest b0 b1 (y :: ys)

/-- A thing a sender may send, with the decoding order number of its first NAL unit. -/
inductive Item where
  /-- A single NAL unit packet. -/
  | single (v : Nat) (n : List Byte)
  /-- An aggregation packet: the rest of its header (one layer bit and a byte), the first unit, the other
  units with their DOND. -/
  | ap (v : Nat) (l : Bool) (h1 : Byte) (first : List Byte) (others : List (Byte × List Byte))
  /-- A unit with header `b0`, `b1`, cut in pieces. -/
  | fu (v : Nat) (b0 b1 : Byte) (first : List Byte) (pieces : List (List Byte))

/-- Its RTP payloads (RFC 7798 4.4.1, 4.4.2, 4.4.3). -/
def Item.payloads (donl : Bool) : Item → List (List Byte)
  | .single v n => [n.take 2 ++ don donl v ++ n.drop 2]
  | .ap v l h1 first others => [u8 (48 * 2 + (if l then 1 else 0)) :: h1 :: (don donl v ++ (be16 first.length ++ first ++ aggregated donl others))]
  | .fu v b0 b1 first pieces => frag b0 b1 true false (don donl v ++ first) :: fragRest b0 b1 pieces

/-- The NAL units it carries. -/
def Item.units : Item → List (List Byte)
  | .single _ n => [n]
  | .ap _ _ _ first others => first :: others.map (·.2)
  | .fu _ b0 b1 first pieces => [b0 :: b1 :: (first ++ pieces.flatten)]

/-- Decoding order numbers after a unit with number `v`: DOND plus one more each. -/
def after (v : Nat) : List (Byte × List Byte) → List Nat
  | [] => []
  | (x, _) :: r => (v + x.val + 1) % 65536 :: after (v + x.val + 1) r

/-- The decoding order numbers of its units. -/
def Item.dons : Item → List Nat
  | .single v _ => [v % 65536]
  | .ap v _ _ _ others => v % 65536 :: after v others
  | .fu v _ _ _ _ => [v % 65536]

/-- A unit RFC 7798 lets travel. -/
def Travels (n : List Byte) : Prop := 2 ≤ n.length ∧ Plain n ∧ unitType n ≠ 48 ∧ unitType n ≠ 49 ∧ unitType n ≠ 50

/-- What RFC 7798 allows, without PACI packets, and without single packets with a unit that is only its
header (see the violations): an aggregate has two units or more, a fragmented unit has two fragments
or more, none empty. -/
def Item.Legal : Item → Prop
  | .single _ n => 3 ≤ n.length ∧ Travels n
  | .ap _ _ _ first others => others ≠ [] ∧ (Travels first ∧ first.length < 2 ^ 16) ∧ ∀ x ∈ others, Travels x.2 ∧ x.2.length < 2 ^ 16
  | .fu _ b0 _ first pieces => (b0.val < 128 ∧ b0.val / 2 ≠ 48 ∧ b0.val / 2 ≠ 49 ∧ b0.val / 2 ≠ 50) ∧ first ≠ [] ∧ pieces ≠ [] ∧ ∀ x ∈ pieces, x ≠ []

/-- Numbers count up from `k`, modulo 2^16. -/
def Counts : Nat → List Nat → Prop
  | _, [] => True
  | k, d :: ds => d = k % 65536 ∧ Counts (k + 1) ds

/-- `nuh_layer_id`. -/
def unitLayer (n : List Byte) : Nat :=
  match n with
  | b :: c :: _ => b.val % 2 * 32 + c.val / 8
  | _ => 0

/-- `nuh_temporal_id_plus1`. -/
def unitTid (n : List Byte) : Nat :=
  match n with
  | _ :: c :: _ => c.val % 8
  | _ => 0

/-- RFC 7798 4.4.2: an aggregation packet has the lowest layer id and the lowest temporal id of its units. -/
def LowestIds : Item → Prop
  | .ap _ l h1 first others =>
    let us := first :: others.map (·.2)
    (∃ n ∈ us, unitLayer n = (if l then 32 else 0) + h1.val / 8) ∧ (∀ n ∈ us, (if l then 32 else 0) + h1.val / 8 ≤ unitLayer n) ∧
    (∃ n ∈ us, unitTid n = h1.val % 8) ∧ ∀ n ∈ us, h1.val % 8 ≤ unitTid n
  | _ => True

/-- The ids of an aggregate are those of some unit of the frame. -/
def IdsFrom (all : List (List Byte)) : Item → Prop
  | .ap _ l h1 _ _ => ∃ n ∈ all, (if l then 32 else 0) + h1.val / 8 = unitLayer n ∧ h1.val % 8 = unitTid n
  | _ => True

/-- A parameter set: VPS, SPS or PPS. -/
def IsSet (n : List Byte) : Prop := unitType n = 32 ∨ unitType n = 33 ∨ unitType n = 34

/-- The bytes a DONL field takes. -/
def donSize (donl : Bool) : Nat := if donl then 2 else 0

/-- What a packet of the item may have over the MTU: with decoding order numbers, two bytes for a single
unit packet (see the violations). -/
def Item.over (donl : Bool) : Item → Nat
  | .single _ _ => donSize donl
  | _ => 0

/-- A frame as encoders make them, without what is not sent: nothing or (VPS,) SPS and PPS first, then at
least one unit, none of them a parameter set. -/
def Usual (us : List (List Byte)) : Prop :=
  ∃ ps slices, us.filter (fun n => ¬ Dropped n) = ps ++ slices ∧ slices ≠ [] ∧ (∀ n ∈ slices, ¬ IsSet n) ∧
    (ps = [] ∨ (∃ s p, ps = [s, p] ∧ unitType s = 33 ∧ unitType p = 34) ∨
      ∃ v s p, ps = [v, s, p] ∧ unitType v = 32 ∧ unitType s = 33 ∧ unitType p = 34)

end Str0m.H265.Spec
