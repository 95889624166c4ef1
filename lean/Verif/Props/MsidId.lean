import Verif.Spec.MsidId
import Mathlib.Data.List.Basic
/-
  C135: ids an application gives for a media cannot break the SDP.
-/
namespace Str0m.MsidId

theorem token_iff (u : Nat) : isTokenChar u = true ↔ TokenChar u ∧ u ≠ 0x7e := by
  unfold isTokenChar TokenChar
  simp only [Bool.or_eq_true, Bool.and_eq_true, decide_eq_true_eq]
  omega

/-- **C135**: whatever the application gives, the ids written are at most 64 token-chars. -/
theorem C135_tokens (s random : List Nat) : (makeId (some s) random).length ≤ 64 ∧ ∀ u ∈ makeId (some s) random, TokenChar u := by
  constructor
  · show ((s.filter isTokenChar).take 64).length ≤ 64
    rw [List.length_take]; exact Nat.min_le_left ..
  · intro u hu
    have := List.mem_of_mem_take (l := s.filter isTokenChar) hu
    exact ((token_iff u).1 (List.mem_filter.1 this).2).1

/-- **C135**: so they end no word and no line of the SDP: nothing can be put into it through them. -/
theorem C135_no_break (stream track : Option (List Nat)) (rs rt : List Nat) (hs : ∀ u ∈ rs, ¬ Ends u) (ht : ∀ u ∈ rt, ¬ Ends u) :
    ∀ id ∈ [(makeIds stream track rs rt).1, (makeIds stream track rs rt).2.1, (makeIds stream track rs rt).2.2], ∀ u ∈ id, ¬ Ends u := by
  have key : ∀ (g : Option (List Nat)) (r : List Nat), (∀ u ∈ r, ¬ Ends u) → ∀ u ∈ makeId g r, ¬ Ends u := by
    intro g r hr u hu
    cases g with
    | none => exact hr u hu
    | some s =>
      have := (C135_tokens s r).2 u hu
      unfold TokenChar at this
      unfold Ends
      omega
  intro id hid
  simp only [List.mem_cons, List.not_mem_nil, or_false] at hid
  rcases hid with rfl | rfl | rfl
  · exact key stream rs hs
  · exact key track rt ht
  · exact key track rt ht

/-- **C135, kept**: a legal id without `~` is written as it is. -/
theorem C135_kept (s random : List Nat) (h : Legal s) (ht : 0x7e ∉ s) : makeId (some s) random = s := by
  show (s.filter isTokenChar).take 64 = s
  rw [List.filter_eq_self.2 (fun u hu => (token_iff u).2 ⟨h.2.2 u hu, fun e => ht (e ▸ hu)⟩), List.take_of_length_le h.2.1]

/-- **C135, each in its place**: the stream id for the stream, the track id for the track and the cname; random ones only
where none was given. -/
theorem C135_places (s t rs rt : List Nat) (hs : Legal s) (hs' : 0x7e ∉ s) (ht : Legal t) (ht' : 0x7e ∉ t) :
    makeIds (some s) (some t) rs rt = (s, t, t) ∧ makeIds none (some t) rs rt = (rs, t, t) ∧ makeIds (some s) none rs rt = (s, rt, rt) := by
  unfold makeIds
  rw [C135_kept s rs hs hs', C135_kept t rt ht ht']
  exact ⟨rfl, rfl, rfl⟩

/-- **C135, in order**: nothing is added or moved; and all that may stay stays, up to 64. -/
theorem C135_order (s random : List Nat) : (makeId (some s) random).Sublist s ∧
    ∀ t : List Nat, t.Sublist s → (∀ u ∈ t, TokenChar u ∧ u ≠ 0x7e) → t.length ≤ 64 → t.length ≤ (makeId (some s) random).length := by
  refine ⟨(List.take_sublist ..).trans List.filter_sublist, fun t ht htok hl => ?_⟩
  show _ ≤ ((s.filter isTokenChar).take 64).length
  have h1 : t.filter isTokenChar = t := List.filter_eq_self.2 (fun u hu => (token_iff u).2 (htok u hu))
  have h2 := (ht.filter isTokenChar).length_le
  rw [h1] at h2
  rw [List.length_take]
  omega

/-- **C135, again**: written once, an id stays as it is. -/
theorem C135_again (s r r' : List Nat) : makeId (some (makeId (some s) r)) r' = makeId (some s) r := by
  show (((s.filter isTokenChar).take 64).filter isTokenChar).take 64 = (s.filter isTokenChar).take 64
  rw [List.filter_eq_self.2 (fun u hu => (List.mem_filter.1 (List.mem_of_mem_take hu)).2), List.take_take, Nat.min_self]

/-- A legal id with `~` is changed: the last range of the filter does not include its end. -/
theorem C135_violation_tilde : Legal [0x61, 0x7e, 0x62] ∧ ∀ r, makeId (some [0x61, 0x7e, 0x62]) r = [0x61, 0x62] := by
  refine ⟨⟨by decide, by decide, ?_⟩, fun _ => (by decide +kernel : ([0x61, 0x7e, 0x62].filter isTokenChar).take 64 = [0x61, 0x62])⟩
  intro u hu
  simp only [List.mem_cons, List.not_mem_nil, or_false] at hu
  unfold TokenChar
  omega

/-- An id without any token-char becomes empty: what is written is not legal. -/
theorem C135_violation_empty : ∀ r, makeId (some [0x28, 0x29, 0x20]) r = [] ∧ ¬ Legal [] :=
  fun _ => ⟨(by decide +kernel : ([0x28, 0x29, 0x20].filter isTokenChar).take 64 = []), fun h => absurd h.1 (by decide)⟩

/-- Two different ids can become the same, so that two streams are synchronized as one. -/
theorem C135_violation_clash : ∃ s t : List Nat, s ≠ t ∧ ∀ r r', makeId (some s) r = makeId (some t) r' :=
  ⟨[0x61, 0x20, 0x62], [0x61, 0x62], by decide,
    fun _ _ => (by decide +kernel : ([0x61, 0x20, 0x62].filter isTokenChar).take 64 = ([0x61, 0x62].filter isTokenChar).take 64)⟩

/-- A case that meets the hypotheses of the theorems above. -/
theorem C135_example : Legal [0x61, 0x2d, 0x31] ∧ 0x7e ∉ [0x61, 0x2d, 0x31] ∧
    (makeIds (some [0x61, 0x0d, 0x0a, 0x62]) none [0x41] [0x42]) = ([0x61, 0x62], [0x42], [0x42]) := by
  refine ⟨⟨by decide, by decide, ?_⟩, by decide, by decide +kernel⟩
  intro u hu
  simp only [List.mem_cons, List.not_mem_nil, or_false] at hu
  unfold TokenChar
  omega

end Str0m.MsidId
