import Verif.Model.Extend
/-
  C01: extended sequence numbers.
  The statements use only `extend`, `%` and ordering on integers.
-/
namespace Str0m

/-- Helper: exact recovery, phrased with the quotient made explicit. -/
private theorem extend_core {M H R k s roc ps : Nat} (hM : M = 2 * H)
    (hps : ps < M) (hs : s < M)
    (h1 : k * M + s < roc * M + ps + H) (h2 : roc * M + ps < k * M + s + H)
    (hkR : k < R) (hrR : roc < R) :
    (let v : Int :=
      if ps < H then
        if s > H + ps then ((roc : Int) - 1) % (R : Nat) else roc
      else if ps > s + H then ((roc : Int) + 1) % (R : Nat)
      else roc
     if v < 0 then 0 else v.toNat * M + s) = k * M + s := by
  have hk1 : k < roc + 2 := by
    by_contra hc
    have : (roc + 2) * M ≤ k * M := Nat.mul_le_mul_right M (by omega)
    have e : (roc + 2) * M = roc * M + 2 * M := by rw [Nat.add_mul]
    omega
  have hk2 : roc < k + 2 := by
    by_contra hc
    have : (k + 2) * M ≤ roc * M := Nat.mul_le_mul_right M (by omega)
    have e : (k + 2) * M = k * M + 2 * M := by rw [Nat.add_mul]
    omega
  have hcases : k = roc ∨ k = roc + 1 ∨ k + 1 = roc := by omega
  rcases hcases with rfl | rfl | rfl
  · have a1 : ¬ s > H + ps := by omega
    have a2 : ¬ ps > s + H := by omega
    simp only [a1, a2, if_false]
    simp
  · have e : (roc + 1) * M = roc * M + M := by rw [Nat.add_mul]; omega
    have a1 : ¬ ps < H := by omega
    have a2 : ps > s + H := by omega
    simp only [a1, a2, if_false, if_true]
    have e2 : ((roc : Int) + 1) % (R : Nat) = ((roc + 1 : Nat) : Int) := by
      rw [Int.emod_eq_of_lt] <;> omega
    rw [e2]; simp
    omega
  · have e : (k + 1) * M = k * M + M := by rw [Nat.add_mul]; omega
    have a1 : ps < H := by omega
    have a2 : s > H + ps := by omega
    simp only [a1, a2, if_true]
    have e2 : ((k + 1 : Nat) : Int) - 1 = (k : Int) := by omega
    rw [e2, Int.emod_eq_of_lt (by omega) (by omega)]
    simp

/-- C01, exact recovery. For every width `bits` in `1..63`, every previous 64-bit index
`prev` and every true 64-bit index `i` closer to `prev` than half of the `2^bits` range:
from the wire value `i mod 2^bits` (whatever junk is in higher bits of the carrier type)
the extension is exactly `i`. -/
theorem C01_extend_recovers (bits prev i wire : Nat) (hb : 0 < bits) (hb' : bits < 64)
    (hp : prev < 2 ^ 64) (hi : i < 2 ^ 64)
    (near1 : i < prev + 2 ^ bits / 2) (near2 : prev < i + 2 ^ bits / 2)
    (hw : wire % 2 ^ bits = i % 2 ^ bits) :
    extend bits (some prev) wire = i := by
  obtain ⟨b, rfl⟩ : ∃ b, bits = b + 1 := ⟨bits - 1, by omega⟩
  have hH : 0 < 2 ^ b := Nat.two_pow_pos b
  have hM : 2 ^ (b + 1) = 2 * 2 ^ b := by rw [Nat.pow_succ]; omega
  have hdiv : 2 ^ (b + 1) / 2 = 2 ^ b := by omega
  have hRM : 2 ^ (64 - (b + 1)) * 2 ^ (b + 1) = 2 ^ 64 := by
    rw [← Nat.pow_add]; congr 1; omega
  rw [hdiv] at near1 near2
  have hMp : 0 < 2 ^ (b + 1) := Nat.two_pow_pos _
  have hkR : i / 2 ^ (b + 1) < 2 ^ (64 - (b + 1)) := by
    apply Nat.div_lt_of_lt_mul; rw [Nat.mul_comm, hRM]; exact hi
  have hrR : prev / 2 ^ (b + 1) < 2 ^ (64 - (b + 1)) := by
    apply Nat.div_lt_of_lt_mul; rw [Nat.mul_comm, hRM]; exact hp
  have ei : i / 2 ^ (b + 1) * 2 ^ (b + 1) + i % 2 ^ (b + 1) = i := by
    rw [Nat.mul_comm]; exact Nat.div_add_mod _ _
  have ep : prev / 2 ^ (b + 1) * 2 ^ (b + 1) + prev % 2 ^ (b + 1) = prev := by
    rw [Nat.mul_comm]; exact Nat.div_add_mod _ _
  have := extend_core (M := 2 ^ (b + 1)) (H := 2 ^ b) (R := 2 ^ (64 - (b + 1)))
    (k := i / 2 ^ (b + 1)) (s := i % 2 ^ (b + 1)) (roc := prev / 2 ^ (b + 1))
    (ps := prev % 2 ^ (b + 1)) hM (Nat.mod_lt _ hMp) (Nat.mod_lt _ hMp)
    (by omega) (by omega) hkR hrR
  unfold extend
  simp only [hdiv, hw]
  rw [ei] at this
  exact this

/-- C01, first packet: with no previous number the wire value itself is the index. -/
theorem C01_extend_first (bits wire : Nat) : extend bits none wire = wire % 2 ^ bits := rfl

/-- C01, in every case the low bits of the result are the wire value, and the result fits
in 64 bits. -/
theorem C01_extend_low_bits (bits wire : Nat) (prev : Option Nat) (hb : bits < 64)
    (hp : ∀ p, prev = some p → p < 2 ^ 64) :
    extend bits prev wire % 2 ^ bits = wire % 2 ^ bits ∧ extend bits prev wire < 2 ^ 64 := by
  have hMp : 0 < 2 ^ bits := Nat.two_pow_pos _
  have hRp : 0 < 2 ^ (64 - bits) := Nat.two_pow_pos _
  have hRM : 2 ^ (64 - bits) * 2 ^ bits = 2 ^ 64 := by
    rw [← Nat.pow_add]; congr 1; omega
  have hwlt : wire % 2 ^ bits < 2 ^ bits := Nat.mod_lt _ hMp
  cases prev with
  | none =>
    refine ⟨by simp [extend], ?_⟩
    simp only [extend]
    have : 2 ^ bits ≤ 2 ^ 64 := Nat.pow_le_pow_right (by omega) (by omega)
    omega
  | some p =>
    have hp' := hp p rfl
    have hrR : p / 2 ^ bits < 2 ^ (64 - bits) := by
      apply Nat.div_lt_of_lt_mul; rw [Nat.mul_comm, hRM]; exact hp'
    simp only [extend]
    generalize hv : (ite (p % 2 ^ bits < 2 ^ bits / 2) _ _ : Int) = v
    have hvb : 0 ≤ v ∧ v < ((2 ^ (64 - bits) : Nat) : Int) := by
      rw [← hv]
      have hR0 : ((2 ^ (64 - bits) : Nat) : Int) ≠ 0 := by omega
      have hRpos : (0:Int) < ((2 ^ (64 - bits) : Nat) : Int) := by omega
      generalize p / 2 ^ bits = roc at hrR
      clear hv
      constructor
      · split <;> split <;> first | exact Int.emod_nonneg _ hR0 | omega
      · split <;> split <;> first | exact Int.emod_lt_of_pos _ hRpos | omega
    have hneg : ¬ v < 0 := by omega
    rw [if_neg hneg]
    constructor
    · rw [Nat.mul_comm, Nat.mul_add_mod]; exact Nat.mod_mod _ _
    · have h1 : v.toNat + 1 ≤ 2 ^ (64 - bits) := by omega
      have h2 : (v.toNat + 1) * 2 ^ bits ≤ 2 ^ 64 := by
        rw [← hRM]; exact Nat.mul_le_mul_right _ h1
      rw [Nat.add_mul] at h2
      omega

/-- C01, the extension is a nearest one: modulo `2^64` the result differs from `prev` by
at most half the range. -/
theorem C01_extend_nearest (bits wire prev : Nat) (hb : 0 < bits) (hb' : bits < 64) :
    ∃ d : Int, (extend bits (some prev) wire : Int) % 2 ^ 64 = ((prev : Int) + d) % 2 ^ 64 ∧
      -(2 ^ bits / 2 : Nat) ≤ d ∧ d ≤ (2 ^ bits / 2 : Nat) := by
  obtain ⟨b, rfl⟩ : ∃ b, bits = b + 1 := ⟨bits - 1, by omega⟩
  have hH : 0 < 2 ^ b := Nat.two_pow_pos b
  have hM : 2 ^ (b + 1) = 2 * 2 ^ b := by rw [Nat.pow_succ]; omega
  have hdiv : 2 ^ (b + 1) / 2 = 2 ^ b := by omega
  have hRM : 2 ^ (64 - (b + 1)) * 2 ^ (b + 1) = 2 ^ 64 := by
    rw [← Nat.pow_add]; congr 1; omega
  have hMp : 0 < 2 ^ (b + 1) := Nat.two_pow_pos _
  have ep : prev / 2 ^ (b + 1) * 2 ^ (b + 1) + prev % 2 ^ (b + 1) = prev := by
    rw [Nat.mul_comm]; exact Nat.div_add_mod _ _
  have hs := Nat.mod_lt wire hMp
  have hps := Nat.mod_lt prev hMp
  have hRpos : (0:Int) < ((2 ^ (64 - (b + 1)) : Nat) : Int) := by
    have := Nat.two_pow_pos (64 - (b+1)); omega
  unfold extend
  simp only [hdiv]
  generalize prev / 2 ^ (b + 1) = roc at *
  generalize prev % 2 ^ (b + 1) = ps at *
  generalize wire % 2 ^ (b + 1) = s at *
  generalize hMM : 2 ^ (b + 1) = M at *
  generalize 2 ^ (64 - (b + 1)) = R at *
  generalize 2 ^ b = H at *
  have key : ∀ x : Int, (0 ≤ x % (R:Int)) ∧
      (((x % (R:Int)).toNat * M + s : Nat) : Int) % 2 ^ 64 = (x * M + s) % 2 ^ 64 := by
    intro x
    have h0 : 0 ≤ x % (R:Int) := Int.emod_nonneg _ (by omega)
    refine ⟨h0, ?_⟩
    have e1 : (((x % (R:Int)).toNat * M + s : Nat) : Int) = x % (R:Int) * M + s := by
      push_cast; rw [Int.toNat_of_nonneg h0]
    rw [e1]
    have e2 : x = x % (R:Int) + R * (x / R) := (Int.emod_add_mul_ediv x R).symm
    have hRM' : (R:Int) * M = 2 ^ 64 := by exact_mod_cast hRM
    have e3 : x * M + s = x % (R:Int) * M + s + 2 ^ 64 * (x / R) := by
      rw [← hRM']
      conv => lhs; rw [e2]
      rw [Int.add_mul, Int.mul_right_comm]; omega
    rw [e3, Int.add_mul_emod_self_left]
  split
  · split
    · refine ⟨(s : Int) - M - ps, ?_, by omega, by omega⟩
      have k := key ((roc : Int) - 1)
      rw [if_neg (by omega), k.2]
      congr 1
      rw [← ep]; push_cast; rw [Int.sub_mul]; omega
    · refine ⟨(s : Int) - ps, ?_, by omega, by omega⟩
      rw [if_neg (by omega)]
      congr 1
      rw [← ep]; push_cast; simp
  · split
    · refine ⟨(s : Int) + M - ps, ?_, by omega, by omega⟩
      have k := key ((roc : Int) + 1)
      rw [if_neg (by omega), k.2]
      congr 1
      rw [← ep]; push_cast; rw [Int.add_mul]; omega
    · refine ⟨(s : Int) - ps, ?_, by omega, by omega⟩
      rw [if_neg (by omega)]
      congr 1
      rw [← ep]; push_cast; simp

/-- C01 over a whole receive history: if every true index is within half the range of its
predecessor, the receiver reconstructs every one of them (16-bit RTP numbers; the receiver
starts with the first number below `2^16`). -/
theorem C01_history (bits : Nat) (hb : 0 < bits) (hb' : bits < 64) (i0 : Nat) (is : List Nat)
    (h0 : i0 < 2 ^ bits) (hlt : ∀ i ∈ is, i < 2 ^ 64)
    (hnear : ∀ p ∈ List.zip (i0 :: is) is, p.2 < p.1 + 2 ^ bits / 2 ∧ p.1 < p.2 + 2 ^ bits / 2) :
    List.scanl (fun prev w => extend bits (some prev) w) (extend bits none (i0 % 2 ^ bits))
      (is.map (· % 2 ^ bits)) = i0 :: is := by
  have hpow : 2 ^ bits ≤ 2 ^ 64 := Nat.pow_le_pow_right (by omega) (by omega)
  have e0 : extend bits none (i0 % 2 ^ bits) = i0 := by
    simp [extend, Nat.mod_eq_of_lt h0]
  rw [e0]
  clear e0
  have h0' : i0 < 2 ^ 64 := by omega
  clear h0
  induction is generalizing i0 with
  | nil => rfl
  | cons i is ih =>
    simp only [List.map_cons, List.scanl_cons]
    have hn := hnear (i0, i) (by simp)
    rw [C01_extend_recovers bits i0 i (i % 2 ^ bits) hb hb' h0'
      (hlt i (by simp)) hn.1 hn.2 (by simp)]
    rw [ih i (fun j hj => hlt j (by simp [hj])) (fun p hp => hnear p (by
      simp only [List.zip_cons_cons, List.mem_cons]; right; exact hp)) (hlt i (by simp))]

/-- Non-vacuity: a wrap of the 16-bit counter, forwards and backwards. -/
example : extendU16 (some 65535) 0 = 65536 ∧ extendU16 (some 65536) 65535 = 65535 ∧
    (65536 < 65535 + 2 ^ 16 / 2 ∧ 65535 < 65536 + 2 ^ 16 / 2) := by decide

/-- What the code does at the excluded point: going back from roll-over counter 0 wraps to
the top of the 64-bit space (the `v < 0` branch at line 296 is dead). -/
example : extendU16 (some 0) 65535 = 2 ^ 64 - 1 := by decide

end Str0m
