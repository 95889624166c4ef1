/-
  Stream and track ids of an added media: `add_media`, change/sdp.rs 274-336. A character is its code point.
-/
namespace Str0m.MsidId

/-- `is_token_char`, change/sdp.rs 286-297. The last range does not include its end. -/
def isTokenChar (u : Nat) : Bool :=
  u = 0x21 ||
  (0x23 ≤ u && u ≤ 0x27) ||
  (0x2a ≤ u && u ≤ 0x2b) ||
  (0x2d ≤ u && u ≤ 0x2e) ||
  (0x30 ≤ u && u ≤ 0x39) ||
  (0x41 ≤ u && u ≤ 0x5a) ||
  (0x5e ≤ u && u < 0x7e)

/-- change/sdp.rs 299-309: the id of the application, or a random one of 20 characters -/
def makeId (given : Option (List Nat)) (random : List Nat) : List Nat :=
  match given with
  | some s => (s.filter isTokenChar).take 64
  | none => random

/-- The ids of the media, change/sdp.rs 321-330: stream id, track id and cname. -/
def makeIds (stream track : Option (List Nat)) (rs rt : List Nat) : List Nat × List Nat × List Nat :=
  (makeId stream rs, makeId track rt, makeId track rt)

end Str0m.MsidId
