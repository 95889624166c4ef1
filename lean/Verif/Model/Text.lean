import Verif.Base
import Verif.Model.StrId

/-!
Text. A Rust `str` is its list of `char`s. First the numbers of `core` (`Display`, `FromStr`, `from_str_radix`), then the parser
combinators of the `combine` crate (4.6) that `sdp/parser.rs` is written in. `combine` is a dependency, so what is modelled here is
its documented behaviour: a parser answers with a value and the rest of the input, or an error; both say whether input was
committed (consumed). An uncommitted error lets `choice`, `optional` and `many` go on from where they were, a committed one does not.
-/

namespace Str0m.Text
open Str0m.StrId

/-- `str` -/
abbrev Str := List Char

open Lean in
/-- `c!"abc"`: the list of characters of a literal, written out. -/
macro:max "c!" s:str : term => do
  let cs ← s.getString.toList.toArray.mapM (fun c => pure (Syntax.mkCharLit c))
  `(([$cs,*] : List Char))

/-! ### Numbers -/

/-- One digit in base 16, lower case -/
def hexDigit (d : Nat) : Char := if d < 10 then Char.ofNat (48 + d) else Char.ofNat (87 + d)

/-- One digit in base 16, upper case -/
def hexDigitU (d : Nat) : Char := if d < 10 then Char.ofNat (48 + d) else Char.ofNat (55 + d)

/-- The digits of `n` in base `b`, most significant first; `fuel` bounds their number -/
def digitsGo (b : Nat) (dig : Nat → Char) : Nat → Nat → Str → Str
  | 0, _, acc => acc
  | fuel + 1, n, acc => if n < b then dig n :: acc else digitsGo b dig fuel (n / b) (dig (n % b) :: acc)

/-- `{}` of an unsigned integer -/
def dec (n : Nat) : Str := digitsGo 10 hexDigit (n + 1) n []

/-- `{:x}` of an unsigned integer -/
def hex (n : Nat) : Str := digitsGo 16 hexDigit (n + 1) n []

/-- `{:0wx}`: padded with zeros to a width -/
def hexPad (w : Nat) (n : Nat) : Str := List.replicate (w - (hex n).length) '0' ++ hex n

/-- `{:02X}` of a byte -/
def hex2U (n : Nat) : Str := [hexDigitU (n / 16), hexDigitU (n % 16)]

/-- `char::to_digit(radix)` for radix 10 and 16 -/
def digitVal (b : Nat) (c : Char) : Option Nat :=
  let v := if 48 ≤ c.toNat ∧ c.toNat ≤ 57 then some (c.toNat - 48)
    else if 97 ≤ c.toNat ∧ c.toNat ≤ 102 then some (c.toNat - 87)
    else if 65 ≤ c.toNat ∧ c.toNat ≤ 70 then some (c.toNat - 55)
    else none
  v.filter (· < b)

/-- The loop of `from_str_radix`: `none` on a character that is no digit or when the value passes `max` -/
def parseGo (b max : Nat) : Nat → Str → Option Nat
  | acc, [] => some acc
  | acc, c :: cs =>
    match digitVal b c with
    | none => none
    | some d => if acc * b + d ≤ max then parseGo b max (acc * b + d) cs else none

/-- `u8::from_str_radix` and the like (`core::num`): an unsigned integer up to `max`; one leading `+` is allowed when something
follows, the empty string is an error -/
def parseRadix (b max : Nat) (s : Str) : Option Nat :=
  match s with
  | [] => none
  | ['+'] => none
  | '+' :: cs => parseGo b max 0 cs
  | cs => parseGo b max 0 cs

/-- `str::parse` of an unsigned integer up to `max` -/
def parseNat (max : Nat) (s : Str) : Option Nat := parseRadix 10 max s

/-- `str::to_ascii_lowercase`; also `str::to_lowercase` where only ASCII can match -/
def lower (s : Str) : Str := s.map (fun c => if 65 ≤ c.toNat ∧ c.toNat ≤ 90 then Char.ofNat (c.toNat + 32) else c)

/-! ### `combine` -/

/-- The result of a parser -/
inductive PR (α : Type) where
  | ok (v : α) (rest : Str) (committed : Bool)
  | err (committed : Bool)
deriving Repr, DecidableEq

/-- A parser -/
abbrev P (α : Type) := Str → PR α

/-- `value` -/
def ret (v : α) : P α := fun i => .ok v i false

/-- One parser after another, as in a tuple: an error after a committed success is committed -/
def thenP (p : P α) (f : α → P β) : P β := fun i =>
  match p i with
  | .err c => .err c
  | .ok v r c =>
    match f v r with
    | .ok w r' c' => .ok w r' (c || c')
    | .err c' => .err (c || c')

/-- `.map` -/
def pmap (f : α → β) (p : P α) : P β := thenP p (fun v => ret (f v))

/-- `.and_then` with a function that can fail: the error keeps the commitment -/
def andThen (p : P α) (f : α → Option β) : P β := fun i =>
  match p i with
  | .err c => .err c
  | .ok v r c =>
    match f v with
    | some w => .ok w r c
    | none => .err c

/-- `satisfy` -/
def satisfy (f : Char → Bool) : P Char := fun i =>
  match i with
  | [] => .err false
  | c :: r => if f c then .ok c r true else .err false

/-- `token` -/
def token (t : Char) : P Char := satisfy (fun c => c == t)

/-- `string`: an error after the first character is committed -/
def stringGo : Str → Bool → P Unit
  | [], c => fun i => .ok () i c
  | t :: ts, c => fun i =>
    match i with
    | [] => .err c
    | x :: r => if x == t then stringGo ts true r else .err c

/-- `string` -/
def string (s : Str) : P Unit := stringGo s false

/-- `attempt`: an error is never committed -/
def attempt (p : P α) : P α := fun i =>
  match p i with
  | .ok v r c => .ok v r c
  | .err _ => .err false

/-- `choice`: the first that does not fail uncommitted -/
def choice : List (P α) → P α
  | [] => fun _ => .err false
  | p :: ps => fun i =>
    match p i with
    | .ok v r c => .ok v r c
    | .err true => .err true
    | .err false => choice ps i

/-- `optional` -/
def opt (p : P α) : P (Option α) := fun i =>
  match p i with
  | .ok v r c => .ok (some v) r c
  | .err true => .err true
  | .err false => .ok none i false

/-- `many`: `fuel` bounds the number of rounds; every parser used here consumes at least one character -/
def manyGo (p : P α) : Nat → P (List α)
  | 0 => fun i => .ok [] i false
  | fuel + 1 => fun i =>
    match p i with
    | .err true => .err true
    | .err false => .ok [] i false
    | .ok v r c =>
      match manyGo p fuel r with
      | .ok vs r' c' => .ok (v :: vs) r' (c || c')
      | .err c' => .err (c || c')

/-- `many` -/
def many (p : P α) : P (List α) := fun i => manyGo p (i.length + 1) i

/-- `sep_by1` -/
def sepBy1 (p : P α) (sep : P σ) : P (List α) :=
  thenP p (fun v => thenP (many (thenP sep (fun _ => p))) (fun vs => ret (v :: vs)))

/-- `sep_by` -/
def sepBy (p : P α) (sep : P σ) : P (List α) := pmap (fun o => o.getD []) (opt (sepBy1 p sep))

/-- `many1(satisfy(f))`, collected to a `String` -/
def many1c (f : Char → Bool) : P Str := fun i =>
  match i.takeWhile f with
  | [] => .err false
  | c :: cs => .ok (c :: cs) (i.dropWhile f) true

/-- `spaces`: any number of white space characters -/
def spaces : P Unit := fun i => .ok () (i.dropWhile isWs) (i.takeWhile isWs != [])

/-- `eof` -/
def eof : P Unit := fun i =>
  match i with
  | [] => .ok () [] false
  | _ => .err false

/-- `crlf` -/
def crlf : P Unit := thenP (token '\r') (fun _ => thenP (token '\n') (fun _ => ret ()))

end Str0m.Text
