import Verif.Model.H264
import Verif.Proofs.PacketSafe
import Verif.Spec.H264
import Verif.Spec.Packet
import Mathlib.Data.List.Induction
/-
  H.264: splitting, fragmentation, reassembly.
-/
namespace Str0m.H264
open Str0m.Packet
open Spec

/-! ### Splitting -/

/-- Scanning the zeros of a start code. -/
theorem go_zeros : ∀ (z : Nat) (r : List Byte) (i k : Nat),
    nextIndGo (List.replicate z 0 ++ r) i k = nextIndGo r (i + z) (k + z) := by
  intro z
  induction z with
  | zero => intro r i k; rfl
  | succ z ih =>
    intro r i k
    rw [List.replicate_succ, List.cons_append]
    rw [show nextIndGo (0 :: (List.replicate z 0 ++ r)) i k = nextIndGo (List.replicate z 0 ++ r) (i + 1) (k + 1) from rfl]
    rw [ih, show i + 1 + z = i + (z + 1) by omega, show k + 1 + z = k + (z + 1) by omega]

theorem go_code (z : Nat) (hz : 2 ≤ z) (r : List Byte) (i : Nat) :
    nextIndGo (List.replicate z 0 ++ [1] ++ r) i 0 = some (i, z + 1) := by
  rw [List.append_assoc, go_zeros]
  show (if ((1 : Byte).val = 0) then _ else _) = _
  rw [if_neg (by decide), if_pos ⟨rfl, by omega⟩]
  congr 2 <;> omega

/-- Scanning a NAL unit: nothing found inside, no zeros pending after it. -/
theorem go_unit : ∀ (n r : List Byte) (i k : Nat),
    (∀ a c : List Byte, List.replicate k 0 ++ n ≠ a ++ [0, 0, 1] ++ c) → (∀ a : List Byte, List.replicate k 0 ++ n ≠ a ++ [0]) →
    nextIndGo (n ++ r) i k = nextIndGo r (i + n.length) 0 := by
  intro n
  induction n with
  | nil =>
    intro r i k _ h0
    cases k with
    | zero => rfl
    | succ k =>
      exfalso
      refine h0 (List.replicate k 0) ?_
      rw [List.append_nil, List.replicate_succ']
  | cons b n ih =>
    intro r i k hs h0
    rw [List.cons_append]
    rw [show nextIndGo (b :: (n ++ r)) i k = (if b.val = 0 then nextIndGo (n ++ r) (i + 1) (k + 1)
      else if b.val = 1 ∧ k ≥ 2 then some (i - k, k + 1) else nextIndGo (n ++ r) (i + 1) 0) from rfl]
    have hlen : i + (b :: n).length = i + 1 + n.length := by rw [List.length_cons]; omega
    by_cases hb : b.val = 0
    · rw [if_pos hb, hlen]
      have hb0 : b = 0 := Fin.ext hb
      have e : List.replicate (k + 1) 0 ++ n = List.replicate k 0 ++ b :: n := by
        rw [List.replicate_succ', List.append_assoc, hb0]; rfl
      exact ih r (i + 1) (k + 1) (by rw [e]; exact hs) (by rw [e]; exact h0)
    · rw [if_neg hb, hlen]
      have hne : ¬ (b.val = 1 ∧ k ≥ 2) := by
        rintro ⟨h1, hk⟩
        have hb1 : b = 1 := Fin.ext h1
        refine hs (List.replicate (k - 2) 0) n ?_
        rw [hb1, show k = (k - 2) + 2 by omega, List.replicate_add]
        simp
      rw [if_neg hne]
      refine ih r (i + 1) 0 ?_ ?_
      · intro a c h
        refine hs (List.replicate k 0 ++ b :: a) c ?_
        have h : n = a ++ [0, 0, 1] ++ c := by simpa using h
        rw [h]; simp
      · intro a h
        refine h0 (List.replicate k 0 ++ b :: a) ?_
        have h : n = a ++ [0] := by simpa using h
        rw [h]; simp

theorem nextInd_unit (pre n : List Byte) (hn : ValidUnit n) (tail : List (Nat × List Byte)) (ht : ∀ x ∈ tail, 2 ≤ x.1) :
    nextInd (pre ++ n ++ annexB tail) pre.length = .ok (match tail with
      | [] => none
      | (z, _) :: _ => some (pre.length + n.length, z + 1)) := by
  unfold nextInd
  rw [if_pos (by rw [List.length_append, List.length_append]; omega)]
  rw [List.append_assoc, List.drop_left, go_unit n _ _ 0 (by simpa using hn.2.2.2.1) (by simpa using hn.2.2.2.2)]
  cases tail with
  | nil => rfl
  | cons x tail =>
    obtain ⟨z, m⟩ := x
    have := go_code z (ht (z, m) (by simp)) (m ++ annexB tail) (pre.length + n.length)
    rw [show annexB ((z, m) :: tail) = List.replicate z 0 ++ [1] ++ (m ++ annexB tail) by simp [annexB], this]

/-- `emit` for each NAL unit. -/
def emitAll (mtu : Nat) : List (List Byte) → P → Res PErr (List (List Byte) × P)
  | [], p => .ok ([], p)
  | n :: ns, p => do
    let r ← emit p n mtu
    let rest ← emitAll mtu ns r.2
    pure (r.1 ++ rest.1, rest.2)

theorem packGo_units (mtu : Nat) : ∀ (tail : List (Nat × List Byte)) (fuel : Nat) (pre : List Byte) (z : Nat) (n : List Byte) (p : P),
    tail.length < fuel → ValidUnit n → (∀ x ∈ tail, 2 ≤ x.1 ∧ ValidUnit x.2) →
    packGo mtu (pre ++ (List.replicate z 0 ++ [1]) ++ n ++ annexB tail) fuel p (pre.length, z + 1)
      = emitAll mtu (n :: tail.map (·.2)) p := by
  intro tail
  induction tail with
  | nil =>
    intro fuel pre z n p hf hn ht
    cases fuel with
    | zero => simp at hf
    | succ fuel =>
      have hl : pre.length + (z + 1) = (pre ++ (List.replicate z 0 ++ [1])).length := by simp
      unfold packGo
      rw [hl, nextInd_unit _ n hn [] (by simp), Res.bind_def, Res.bind_ok]
      dsimp only
      rw [Res.from_of_le (by simp only [List.length_append]; omega)]
      rw [List.append_assoc, List.drop_left]
      simp only [annexB, List.append_nil, List.map_nil, emitAll, Res.bind_def, Res.bind_ok, Res.pure_def]
      cases emit p n mtu with
      | ok r => rfl
      | err e => rfl
      | panic => rfl
  | cons x tail ih =>
    obtain ⟨z2, n2⟩ := x
    intro fuel pre z n p hf hn ht
    cases fuel with
    | zero => simp at hf
    | succ fuel =>
      have hl : pre.length + (z + 1) = (pre ++ (List.replicate z 0 ++ [1])).length := by simp
      unfold packGo
      rw [hl, nextInd_unit _ n hn ((z2, n2) :: tail) (fun x hx => (ht x hx).1), Res.bind_def, Res.bind_ok]
      dsimp only
      have hsl : (Res.slice (pre ++ (List.replicate z 0 ++ [1]) ++ n ++ annexB ((z2, n2) :: tail)) (pre ++ (List.replicate z 0 ++ [1])).length
          ((pre ++ (List.replicate z 0 ++ [1])).length + n.length) : Res PErr _) = .ok n := by
        rw [slice_piece _ _ _ (by simp only [List.length_append]; omega)]
        rw [List.append_assoc, List.drop_left, List.take_left]
      rw [hsl, Res.bind_def, Res.bind_ok]
      have e : pre ++ (List.replicate z 0 ++ [1]) ++ n ++ annexB ((z2, n2) :: tail)
          = (pre ++ (List.replicate z 0 ++ [1]) ++ n) ++ (List.replicate z2 0 ++ [1]) ++ n2 ++ annexB tail := by
        simp [annexB]
      have hl2 : (pre ++ (List.replicate z 0 ++ [1])).length + n.length = (pre ++ (List.replicate z 0 ++ [1]) ++ n).length :=
        List.length_append.symm
      rw [e, hl2]
      show _ = (emit p n mtu >>= _)
      cases emit p n mtu with
      | err e => rfl
      | panic => rfl
      | ok r =>
        simp only [Res.bind_def, Res.bind_ok]
        rw [ih fuel _ z2 n2 r.2 (by simpa using hf) (ht (z2, n2) (by simp)).2 (fun x hx => ht x (List.mem_cons_of_mem _ hx))]
        rfl

/-- Packetizing an Annex B frame is emitting its NAL units in order. -/
theorem packetize_units (mtu : Nat) (hm : 0 < mtu) (us : List (Nat × List Byte)) (hne : us ≠ [])
    (hus : ∀ x ∈ us, 2 ≤ x.1 ∧ ValidUnit x.2) (p : P) :
    packetize p mtu (annexB us) = emitAll mtu (us.map (·.2)) p := by
  cases us with
  | nil => exact absurd rfl hne
  | cons x tail =>
    obtain ⟨z, n⟩ := x
    obtain ⟨hz, hn⟩ := hus (z, n) (by simp)
    simp only at hz hn
    have hb : annexB ((z, n) :: tail) = List.replicate z 0 ++ [1] ++ (n ++ annexB tail) := by simp [annexB]
    unfold packetize
    rw [if_neg (by rw [hb]; simp; omega)]
    have h0 : nextInd (annexB ((z, n) :: tail)) 0 = .ok (some (0, z + 1)) := by
      unfold nextInd
      rw [if_pos (by omega), List.drop_zero, hb, go_code z hz]
    rw [h0, Res.bind_def, Res.bind_ok]
    dsimp only
    have hlen : tail.length ≤ (annexB tail).length := by
      clear h0 hb hus hne
      induction tail with
      | nil => simp
      | cons y tail ih => obtain ⟨a, b⟩ := y; simp only [annexB, List.length_append, List.length_cons]; omega
    have := packGo_units mtu tail ((annexB ((z, n) :: tail)).length + 1) [] z n p (by
      rw [hb]; simp only [List.length_append]; omega) hn (fun x hx => hus x (List.mem_cons_of_mem _ hx))
    rw [List.nil_append] at this
    rw [show annexB ((z, n) :: tail) = List.replicate z 0 ++ [1] ++ n ++ annexB tail from rfl]
    exact this

end Str0m.H264
