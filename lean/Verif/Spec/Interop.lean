import Verif.Base
/-
  Payload descriptors of other implementations (C64), independent of the model: VP8 (RFC 7741 4.2),
  VP9 (RFC 9628 4.2).
-/
namespace Str0m.Interop

/-- A flag as a number. -/
def fl (b : Bool) (n : Nat) : Nat := if b then n else 0

/-- A picture id of 7 or 15 bits. -/
inductive Pid where
  | short (n : Nat)
  | long (n : Nat)

def Pid.Legal : Pid → Prop
  | .short n => n < 2 ^ 7
  | .long n => n < 2 ^ 15

/-- M bit and the picture id. -/
def Pid.bytes : Pid → List Byte
  | .short n => [u8 n]
  | .long n => [u8 (128 + n / 256), u8 n]

def Pid.val : Pid → Nat
  | .short n => n
  | .long n => n

def Pid.width : Pid → Nat
  | .short _ => 7
  | .long _ => 15

/-! ### VP8, RFC 7741 4.2 -/

structure Vp8Desc where
  nonRef : Bool
  start : Bool
  partition : Nat
  pid : Option Pid
  tl0 : Option Nat
  /-- TID and Y. -/
  tid : Option (Nat × Bool)
  keyIdx : Option Nat

/-- "If L is set to 1, T MUST be 1 as well"; the fields are in range. -/
structure Vp8Desc.Legal (h : Vp8Desc) : Prop where
  part : h.partition < 8
  pid : ∀ p, h.pid = some p → p.Legal
  tl0 : ∀ n, h.tl0 = some n → n < 256 ∧ h.tid ≠ none
  tid : ∀ t y, h.tid = some (t, y) → t < 4
  key : ∀ k, h.keyIdx = some k → k < 32

/-- X is set: some optional field is present. -/
def Vp8Desc.extended (h : Vp8Desc) : Bool := h.pid.isSome || h.tl0.isSome || h.tid.isSome || h.keyIdx.isSome

def Vp8Desc.ext (h : Vp8Desc) : List Byte :=
  if h.extended then [u8 (fl h.pid.isSome 128 + fl h.tl0.isSome 64 + fl h.tid.isSome 32 + fl h.keyIdx.isSome 16)] else []

def Vp8Desc.pidBytes (h : Vp8Desc) : List Byte := match h.pid with | some p => p.bytes | none => []

def Vp8Desc.tl0Bytes (h : Vp8Desc) : List Byte := match h.tl0 with | some n => [u8 n] | none => []

def Vp8Desc.tidBytes (h : Vp8Desc) : List Byte :=
  match h.tid, h.keyIdx with
  | none, none => []
  | some (t, y), k => [u8 (t * 64 + fl y 32 + k.getD 0)]
  | none, some k => [u8 k]

/-- The descriptor as bytes. -/
def Vp8Desc.bytes (h : Vp8Desc) : List Byte :=
  u8 (fl h.extended 128 + fl h.nonRef 32 + fl h.start 16 + h.partition) :: (h.ext ++ h.pidBytes ++ h.tl0Bytes ++ h.tidBytes)

/-! ### VP9, RFC 9628 4.2 -/

/-- One picture of a picture group: TID, U, P_DIFFs. -/
structure PgPic where
  tid : Nat
  up : Bool
  diffs : List Byte

def PgPic.bytes (p : PgPic) : List Byte := u8 (p.tid * 32 + fl p.up 16 + p.diffs.length * 4) :: p.diffs

/-- Scalability structure: number of spatial layers, their sizes (Y), the picture group (G). -/
structure Vp9Ss where
  layers : Nat
  sizes : Option (List (Nat × Nat))
  group : Option (List PgPic)

def sizeBytes : List (Nat × Nat) → List Byte
  | [] => []
  | (w, h) :: r => be16 w ++ be16 h ++ sizeBytes r

def groupBytes : List PgPic → List Byte
  | [] => []
  | p :: r => p.bytes ++ groupBytes r

def Vp9Ss.sizePart (s : Vp9Ss) : List Byte := match s.sizes with | some l => sizeBytes l | none => []

/-- N_G and the pictures. -/
def Vp9Ss.groupPart (s : Vp9Ss) : List Byte := match s.group with | some g => u8 g.length :: groupBytes g | none => []

def Vp9Ss.bytes (s : Vp9Ss) : List Byte :=
  u8 ((s.layers - 1) * 32 + fl s.sizes.isSome 16 + fl s.group.isSome 8) :: (s.sizePart ++ s.groupPart)

/-- At most `max` layers; fields in range. -/
structure Vp9Ss.Legal (max : Nat) (s : Vp9Ss) : Prop where
  layers : 1 ≤ s.layers ∧ s.layers ≤ max
  sizes : ∀ l, s.sizes = some l → l.length = s.layers ∧ ∀ x ∈ l, x.1 < 2 ^ 16 ∧ x.2 < 2 ^ 16
  group : ∀ g, s.group = some g → g.length < 256 ∧ ∀ p ∈ g, p.tid < 8 ∧ p.diffs.length ≤ 3

/-- Layer indices: TID, U, SID, D, and TL0PICIDX that is sent in non-flexible mode only. -/
structure Vp9Layer where
  tid : Nat
  up : Bool
  sid : Nat
  dep : Bool
  tl0 : Nat

structure Vp9Desc where
  pid : Option Pid
  inter : Bool
  layer : Option Vp9Layer
  flexible : Bool
  start : Bool
  stop : Bool
  ss : Option Vp9Ss
  nonRef : Bool
  /-- P_DIFFs, in flexible mode for inter pictures. -/
  refs : List Nat

/-- Fields in range, at most `max` spatial layers. -/
structure Vp9Desc.Legal (max : Nat) (h : Vp9Desc) : Prop where
  pid : ∀ p, h.pid = some p → p.Legal
  layer : ∀ l, h.layer = some l → l.tid < 8 ∧ l.sid < max ∧ l.tl0 < 256
  refs : if h.flexible = true ∧ h.inter = true then 1 ≤ h.refs.length ∧ h.refs.length ≤ 3 else h.refs = []
  diff : ∀ r ∈ h.refs, r < 2 ^ 7
  ss : ∀ s, h.ss = some s → s.Legal max

/-- P_DIFF with N set on all but the last. -/
def refBytes : List Nat → List Byte
  | [] => []
  | [r] => [u8 (r * 2)]
  | r :: q :: l => u8 (r * 2 + 1) :: refBytes (q :: l)

def Vp9Desc.flags (h : Vp9Desc) : Byte :=
  u8 (fl h.pid.isSome 128 + fl h.inter 64 + fl h.layer.isSome 32 + fl h.flexible 16 + fl h.start 8 + fl h.stop 4 + fl h.ss.isSome 2 + fl h.nonRef 1)

def Vp9Desc.pidBytes (h : Vp9Desc) : List Byte := match h.pid with | some p => p.bytes | none => []

def Vp9Desc.layerBytes (h : Vp9Desc) : List Byte :=
  match h.layer with
  | some l => u8 (l.tid * 32 + fl l.up 16 + l.sid * 2 + fl l.dep 1) :: (if h.flexible then [] else [u8 l.tl0])
  | none => []

def Vp9Desc.ssBytes (h : Vp9Desc) : List Byte := match h.ss with | some s => s.bytes | none => []

def Vp9Desc.bytes (h : Vp9Desc) : List Byte := h.flags :: (h.pidBytes ++ h.layerBytes ++ refBytes h.refs ++ h.ssBytes)

end Str0m.Interop
