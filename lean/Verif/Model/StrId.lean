import Verif.Base

/-!
`rtp/id.rs` `str_id!`: `Mid` (16 bytes) and `Rid` (8 bytes). Text is a list of `Char` (Rust's `char`: Unicode scalar values), an id
is its bytes.
-/

namespace Str0m.StrId

/-- `char::is_ascii_alphanumeric` -/
def isAlnum (c : Char) : Bool :=
  (48 ≤ c.toNat && c.toNat ≤ 57) || (65 ≤ c.toNat && c.toNat ≤ 90) || (97 ≤ c.toNat && c.toNat ≤ 122)

/-- id.rs 54 -/
def sanitize (c : Char) : Char := if isAlnum c then c else '_'

/-- id.rs 50-68 `From<&str>`; all characters are ASCII after the mapping, so the bytes are the codes. The array of length `n`
begins as spaces. The slice of line 58 and the `copy_from_slice` of line 64 cannot fail: see `fromStr_length`. -/
def fromStr (n : Nat) (v : List Char) : List Nat :=
  let bytes := ((v.map sanitize).map Char.toNat).take n
  bytes ++ List.replicate (n - bytes.length) 32

/-- `char::is_whitespace`: Unicode White_Space -/
def isWs (c : Char) : Bool :=
  (9 ≤ c.toNat && c.toNat ≤ 13) || c.toNat == 32 || c.toNat == 0x85 || c.toNat == 0xA0 || c.toNat == 0x1680 ||
  (0x2000 ≤ c.toNat && c.toNat ≤ 0x200A) || c.toNat == 0x2028 || c.toNat == 0x2029 || c.toNat == 0x202F || c.toNat == 0x205F || c.toNat == 0x3000

/-- `str::trim` -/
def trim (s : List Char) : List Char := (((s.dropWhile isWs).reverse).dropWhile isWs).reverse

/-- `std::str::from_utf8`: any decoder that reads ASCII as ASCII. -/
structure Utf8 where
  decode : List Nat → Option (List Char)
  ascii : ∀ b : List Nat, (∀ x ∈ b, x < 128) → decode b = some (b.map Char.ofNat)

/-- id.rs 42-48 `Deref`: `from_utf8(..).expect(..).trim()` -/
def deref (u : Utf8) (id : List Nat) : Res Unit (List Char) :=
  match u.decode id with
  | some s => .ok (trim s)
  | none => .panic

/-- id.rs 14-20 `new`, from a random array (`Id::random`): only the first `newLen` are kept, then spaces -/
def newId (n newLen : Nat) (arr : List Nat) : List Nat := arr.take newLen ++ List.replicate (n - newLen) 32

end Str0m.StrId
