import Mathlib.Tactic.Ring
import Mathlib.Tactic.Linarith
import Mathlib.Tactic.IntervalCases
import Mathlib.Tactic.ByContra
import Mathlib.Tactic.Push
import Mathlib.Data.List.Basic
import Mathlib.Data.List.Nodup
import Mathlib.Data.List.Perm.Subperm
/-
  Shared vocabulary of the model.
-/
namespace Str0m

/-- A Rust `u8`. -/
abbrev Byte := Fin 256

/-- `n as u8` (truncating cast). -/
def u8 (n : Nat) : Byte := Fin.ofNat 256 n

@[simp] theorem u8_val (n : Nat) : (u8 n).val = n % 256 := by simp [u8]

theorem u8_val_of_lt {n : Nat} (h : n < 256) : (u8 n).val = n := by simp [u8]; omega

@[simp] theorem u8_of_val (b : Byte) : u8 b.val = b := by
  apply Fin.ext; simp

/-- `u16::to_be_bytes`. -/
def be16 (n : Nat) : List Byte := [u8 (n / 2^8), u8 n]

/-- The low 24 bits, big endian. -/
def be24 (n : Nat) : List Byte := [u8 (n / 2^16), u8 (n / 2^8), u8 n]

/-- `u32::to_be_bytes`. -/
def be32 (n : Nat) : List Byte := [u8 (n / 2^24), u8 (n / 2^16), u8 (n / 2^8), u8 n]

/-- `u64::to_be_bytes`. -/
def be64 (n : Nat) : List Byte := be32 (n / 2^32) ++ be32 n

/-- `u16::from_be_bytes([a, b])`. -/
def rd16 (a b : Byte) : Nat := a.val * 2^8 + b.val

/-- Three bytes big endian. -/
def rd24 (a b c : Byte) : Nat := a.val * 2^16 + b.val * 2^8 + c.val

/-- `u32::from_be_bytes([a, b, c, d])`. -/
def rd32 (a b c d : Byte) : Nat := a.val * 2^24 + b.val * 2^16 + c.val * 2^8 + d.val

/-- `u64::from_be_bytes`. -/
def rd64 (a b c d e f g h : Byte) : Nat := rd32 a b c d * 2^32 + rd32 e f g h

@[simp] theorem be16_length (n : Nat) : (be16 n).length = 2 := rfl
@[simp] theorem be24_length (n : Nat) : (be24 n).length = 3 := rfl
@[simp] theorem be32_length (n : Nat) : (be32 n).length = 4 := rfl
@[simp] theorem be64_length (n : Nat) : (be64 n).length = 8 := rfl

theorem rd16_be16 {n : Nat} (h : n < 2^16) : rd16 (u8 (n / 2^8)) (u8 n) = n := by
  simp [rd16]; omega

theorem rd24_be24 {n : Nat} (h : n < 2^24) :
    rd24 (u8 (n / 2^16)) (u8 (n / 2^8)) (u8 n) = n := by
  simp [rd24]; omega

theorem rd32_be32 {n : Nat} (h : n < 2^32) :
    rd32 (u8 (n / 2^24)) (u8 (n / 2^16)) (u8 (n / 2^8)) (u8 n) = n := by
  simp [rd32]; omega

theorem rd16_lt (a b : Byte) : rd16 a b < 2^16 := by simp [rd16]; omega
theorem rd24_lt (a b c : Byte) : rd24 a b c < 2^24 := by simp [rd24]; omega
theorem rd32_lt (a b c d : Byte) : rd32 a b c d < 2^32 := by simp [rd32]; omega

theorem be16_rd16 (a b : Byte) : be16 (rd16 a b) = [a, b] := by
  have h1 : u8 (rd16 a b / 2^8) = a := by apply Fin.ext; simp [rd16]; omega
  have h2 : u8 (rd16 a b) = b := by apply Fin.ext; simp [rd16]
  simp only [be16, h1, h2]

theorem be32_rd32 (a b c d : Byte) : be32 (rd32 a b c d) = [a, b, c, d] := by
  have h1 : u8 (rd32 a b c d / 2^24) = a := by apply Fin.ext; simp [rd32]; omega
  have h2 : u8 (rd32 a b c d / 2^16) = b := by apply Fin.ext; simp [rd32]; omega
  have h3 : u8 (rd32 a b c d / 2^8) = c := by apply Fin.ext; simp [rd32]; omega
  have h4 : u8 (rd32 a b c d) = d := by apply Fin.ext; simp [rd32]; omega
  simp only [be32, h1, h2, h3, h4]

/-- Outcome of a Rust function: a value, an `Err`/`None`, or a panic
(index out of bounds, arithmetic overflow in a checked build, `unwrap`, `assert!`). -/
inductive Res (ε α : Type) where
  | ok (a : α)
  | err (e : ε)
  | panic
deriving Repr, DecidableEq

namespace Res

def bind {ε α β : Type} (x : Res ε α) (f : α → Res ε β) : Res ε β :=
  match x with
  | ok a => f a
  | err e => err e
  | panic => panic

instance {ε : Type} : Monad (Res ε) where
  pure := ok
  bind := bind

@[simp] theorem pure_def {ε α : Type} (a : α) : (pure a : Res ε α) = ok a := rfl
@[simp] theorem bind_def {ε α β : Type} (x : Res ε α) (f : α → Res ε β) : (x >>= f) = bind x f := rfl
@[simp] theorem bind_ok {ε α β : Type} (a : α) (f : α → Res ε β) : bind (ok a) f = f a := rfl
@[simp] theorem bind_err {ε α β : Type} (e : ε) (f : α → Res ε β) : bind (err e) f = err e := rfl
@[simp] theorem bind_panic {ε α β : Type} (f : α → Res ε β) : bind (panic : Res ε α) f = panic := rfl

/-- The predicate "did not panic". -/
def NoPanic {ε α : Type} : Res ε α → Prop
  | panic => False
  | _ => True

@[simp] theorem noPanic_ok {ε α : Type} (a : α) : (ok a : Res ε α).NoPanic := trivial
@[simp] theorem noPanic_err {ε α : Type} (e : ε) : (err e : Res ε α).NoPanic := trivial
@[simp] theorem noPanic_panic {ε α : Type} : (panic : Res ε α).NoPanic ↔ False := Iff.rfl

theorem NoPanic.bind {ε α β : Type} {x : Res ε α} {f : α → Res ε β}
    (hx : x.NoPanic) (hf : ∀ a, x = ok a → (f a).NoPanic) : (x.bind f).NoPanic := by
  cases x with
  | ok a => exact hf a rfl
  | err e => trivial
  | panic => exact hx.elim

/-- `buf[i]` : panics when out of bounds. -/
def idx {ε α : Type} (buf : List α) (i : Nat) : Res ε α :=
  match buf[i]? with
  | some b => ok b
  | none => panic

/-- `&buf[a..]` -/
def from_ {ε α : Type} (buf : List α) (a : Nat) : Res ε (List α) :=
  if a ≤ buf.length then ok (buf.drop a) else panic

/-- `&buf[..b]` -/
def upto {ε α : Type} (buf : List α) (b : Nat) : Res ε (List α) :=
  if b ≤ buf.length then ok (buf.take b) else panic

/-- `&buf[a..b]` -/
def slice {ε α : Type} (buf : List α) (a b : Nat) : Res ε (List α) :=
  if a ≤ b ∧ b ≤ buf.length then ok ((buf.take b).drop a) else panic

theorem idx_of_lt {ε α : Type} {buf : List α} {i : Nat} (h : i < buf.length) :
    (idx buf i : Res ε α) = ok buf[i] := by
  simp [idx, List.getElem?_eq_getElem h]

theorem idx_noPanic {ε α : Type} {buf : List α} {i : Nat} (h : i < buf.length) :
    (idx buf i : Res ε α).NoPanic := by simp [idx_of_lt h]

theorem from_of_le {ε α : Type} {buf : List α} {a : Nat} (h : a ≤ buf.length) :
    (from_ buf a : Res ε _) = ok (buf.drop a) := by simp [from_, h]

theorem upto_of_le {ε α : Type} {buf : List α} {a : Nat} (h : a ≤ buf.length) :
    (upto buf a : Res ε _) = ok (buf.take a) := by simp [upto, h]

theorem slice_of_le {ε α : Type} {buf : List α} {a b : Nat} (h : a ≤ b) (h' : b ≤ buf.length) :
    (slice buf a b : Res ε _) = ok ((buf.take b).drop a) := by simp [slice, h, h']

end Res
end Str0m
