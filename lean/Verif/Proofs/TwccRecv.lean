import Verif.Model.TwccRecv
import Verif.Proofs.TwccRound
/-
  Proofs about building TWCC reports: what the chunks and deltas say is a prefix of what the
  interims say.
-/
namespace Str0m.Twcc
open Res

/-! ### The contents of a partially filled chunk -/

/-- `f` base-2 digits, most significant first. -/
def dig2 : Nat → Nat → List Status
  | 0, _ => []
  | f + 1, v => dig2 f (v / 2) ++ [if v % 2 = 1 then .small else .notReceived]

def dig4 : Nat → Nat → List Status
  | 0, _ => []
  | f + 1, v => dig4 f (v / 4) ++ [symbol (v % 4)]

theorem dig2_eq : ∀ (f v : Nat), dig2 f v =
    (List.range f).map (fun i => if v.testBit (f - 1 - i) then .small else .notReceived)
  | 0, _ => rfl
  | f + 1, v => by
    rw [dig2, dig2_eq f, List.range_succ, List.map_append]
    congr 1
    · apply List.map_congr_left
      intro i hi
      have hi := List.mem_range.1 hi
      rw [show f + 1 - 1 - i = (f - 1 - i) + 1 by omega, Nat.testBit_succ]
    · simp [Nat.testBit_zero]

theorem dig4_eq : ∀ (f v : Nat), dig4 f v =
    (List.range f).map (fun i => symbol (v / 4^(f - 1 - i) % 4))
  | 0, _ => rfl
  | f + 1, v => by
    rw [dig4, dig4_eq f, List.range_succ, List.map_append]
    congr 1
    · apply List.map_congr_left
      intro i hi
      have hi := List.mem_range.1 hi
      rw [show f + 1 - 1 - i = (f - 1 - i) + 1 by omega, Nat.pow_succ, Nat.mul_comm, Nat.div_div_eq_div_mul]
    · simp

theorem dig2_shift (f v : Nat) : ∀ m, dig2 (f + m) (v * 2^m) = dig2 f v ++ List.replicate m .notReceived
  | 0 => by simp
  | m + 1 => by
    rw [← Nat.add_assoc, dig2, Nat.pow_succ, ← Nat.mul_assoc, Nat.mul_div_cancel _ (by omega), dig2_shift f v m,
      if_neg (by omega), List.append_assoc, ← List.replicate_succ']

theorem dig4_shift (f v : Nat) : ∀ m, dig4 (f + m) (v * 4^m) = dig4 f v ++ List.replicate m .notReceived
  | 0 => by simp
  | m + 1 => by
    rw [← Nat.add_assoc, dig4, Nat.pow_succ, ← Nat.mul_assoc, Nat.mul_div_cancel _ (by omega), dig4_shift f v m,
      Nat.mul_mod_left, List.append_assoc, show symbol 0 = .notReceived from rfl, ← List.replicate_succ']

/-- The statuses in a chunk so far. -/
def Chunk.contents : Chunk → List Status
  | .run s n => List.replicate n s
  | .single v f => dig2 f v
  | .double v f => dig4 f v

def Chunk.Inv : Chunk → Prop
  | .run s n => n ≤ 8192 ∧ s ≠ .unknown
  | .single v f => f ≤ 14 ∧ v < 2^f
  | .double v f => f ≤ 7 ∧ v < 4^f

def Interim.OK : Interim → Prop
  | .missing n => 0 < n ∧ n ≤ 8192
  | .received s t => (s = .small ∧ 0 ≤ t ∧ t ≤ 255) ∨ (s = .large ∧ -32768 ≤ t ∧ t ≤ 32767)

theorem Interim.OK.size {i : Interim} (h : i.OK) : 0 < i.size := by
  cases i
  · exact h.1
  · simp [Interim.size]

theorem or_one (v : Nat) : (v <<< 1) ||| 1 = v * 2 + 1 := by
  have := or_add (a := v) (b := 1) (k := 1) (by omega); simpa using this

theorem append_can {c : Chunk} {i : Interim} (hi : i.OK) (hc : c.Inv)
    (h : c.canAppend i.status = true) :
    (c.append i).2 = min c.free i.size ∧ (c.append i).1.Inv ∧
    (c.append i).1.contents = c.contents ++ List.replicate (min c.free i.size) i.status ∧
    (c.append i).1.free = c.free - min c.free i.size ∧
    (c.append i).1.mustBeFull = c.mustBeFull := by
  cases c with
  | run s n =>
    have hs : s = i.status := by simpa [Chunk.canAppend] using h
    obtain ⟨hn, hu⟩ := hc
    cases i with
    | missing m =>
      simp only [Interim.status] at hs
      subst hs
      simp only [Chunk.append, ne_eq, not_true_eq_false, if_false, Chunk.free, Interim.size, Chunk.Inv, Chunk.contents,
        Interim.status, Chunk.mustBeFull]
      refine ⟨trivial, ⟨by omega, by simp⟩, by rw [List.replicate_append_replicate], by omega, trivial⟩
    | received s2 t =>
      simp only [Interim.status] at hs
      subst hs
      simp only [Chunk.append, ne_eq, not_true_eq_false, if_false, Chunk.free, Interim.size, Chunk.Inv, Chunk.contents,
        Interim.status, Chunk.mustBeFull]
      refine ⟨trivial, ⟨by omega, hu⟩, by rw [List.replicate_append_replicate], by omega, trivial⟩
  | single v f =>
    obtain ⟨hf, hv⟩ := hc
    cases i with
    | missing m =>
      simp only [Chunk.append, Chunk.free, Interim.size, Chunk.Inv, Chunk.contents, Interim.status, Chunk.mustBeFull,
        Nat.shiftLeft_eq]
      refine ⟨trivial, ⟨by omega, ?_⟩, dig2_shift _ _ _, by omega, trivial⟩
      rw [Nat.pow_add]
      exact Nat.mul_lt_mul_of_pos_right hv (Nat.two_pow_pos _)
    | received s2 t =>
      have h2 : s2 = .small := by
        rcases hi with hi | hi
        · exact hi.1
        · rw [hi.1] at h; simp [Chunk.canAppend, Interim.status] at h
      subst h2
      simp only [Chunk.append, Chunk.free, Interim.size, Chunk.Inv, Chunk.contents, Interim.status, Chunk.mustBeFull,
        reduceCtorEq, if_false]
      by_cases hm : min (14 - f) 1 = 1
      · simp only [hm, if_true, or_one]
        refine ⟨trivial, ⟨by omega, by rw [Nat.pow_succ]; omega⟩, ?_, by omega, trivial⟩
        rw [dig2, show (v * 2 + 1) / 2 = v by omega, if_pos (by omega)]
        rfl
      · have h0 : min (14 - f) 1 = 0 := by omega
        simp only [h0, Nat.zero_ne_one, if_false]
        exact ⟨trivial, ⟨hf, hv⟩, by simp, by omega, trivial⟩
  | double v f =>
    obtain ⟨hf, hv⟩ := hc
    cases i with
    | missing m =>
      simp only [Chunk.append, Chunk.free, Interim.size, Chunk.Inv, Chunk.contents, Interim.status, Chunk.mustBeFull,
        Nat.shiftLeft_eq, Nat.mul_comm _ 2, Nat.pow_mul]
      refine ⟨trivial, ⟨by omega, ?_⟩, dig4_shift _ _ _, by omega, trivial⟩
      rw [Nat.pow_add]
      exact Nat.mul_lt_mul_of_pos_right hv (Nat.pow_pos (by omega))
    | received s2 t =>
      have h4 : s2.code < 4 := s2.code_lt
      have hsym : symbol s2.code = s2 := by rw [← Status.ofCode_eq, Status.ofCode_code]
      simp only [Chunk.append, Chunk.free, Interim.size, Chunk.Inv, Chunk.contents, Interim.status, Chunk.mustBeFull]
      by_cases hm : min (7 - f) 1 = 1
      · have ho : (v <<< 2) ||| s2.code = v * 4 + s2.code := or_add (k := 2) h4
        simp only [hm, if_true, ho]
        refine ⟨trivial, ⟨by omega, by rw [Nat.pow_succ]; omega⟩, ?_, by omega, trivial⟩
        rw [dig4, show (v * 4 + s2.code) / 4 = v by omega, show (v * 4 + s2.code) % 4 = s2.code by omega, hsym]
        rfl
      · have h0 : min (7 - f) 1 = 0 := by omega
        simp only [h0, Nat.zero_ne_one, if_false]
        exact ⟨trivial, ⟨hf, hv⟩, by simp, by omega, trivial⟩

theorem append_cannot {c : Chunk} {i : Interim} (hi : i.OK) (h : c.canAppend i.status = false) :
    (c.append i).2 = 0 := by
  cases c with
  | run s n =>
    have hs : s ≠ i.status := by simpa [Chunk.canAppend] using h
    cases i <;> simp_all [Chunk.append, Interim.status]
  | single v f =>
    cases i with
    | missing m => simp [Chunk.canAppend, Interim.status] at h
    | received s2 t =>
      have : s2 = .large := by
        simp only [Chunk.canAppend, Interim.status] at h
        cases s2 <;> first | rfl | simp at h
      simp [Chunk.append, this]
  | double v f => simp [Chunk.canAppend] at h

/-! ### What interims stand for -/

/-- The statuses and deltas of an interim. -/
def Interim.expand : Interim → List (Status × Option Delta)
  | .missing n => List.replicate n (.notReceived, none)
  | .received s t => [(s, (Interim.received s t).delta)]

def expand (is : List Interim) : List (Status × Option Delta) := is.flatMap Interim.expand

theorem expand_cons (i : Interim) (is : List Interim) : expand (i :: is) = i.expand ++ expand is := by
  simp [expand]

theorem expand_nil : expand [] = [] := rfl

theorem Interim.expand_length (i : Interim) : i.expand.length = i.size := by
  cases i <;> simp [Interim.expand, Interim.size]

def dbytes (ds : List Delta) : Nat := (ds.map Delta.byteLen).sum

/-- What the inner loop achieves, when it does not panic. -/
structure FillOk (c : Chunk) (bytes count : Nat) (is : List Interim) (f : Fill) (k : Nat) : Prop where
  le : k ≤ (expand is).length
  inv : f.chunk.Inv
  full : f.chunk.mustBeFull = c.mustBeFull
  free : f.chunk.free + k = c.free
  contents : f.chunk.contents = c.contents ++ ((expand is).take k).map Prod.fst
  rest : expand f.interims = (expand is).drop k
  ok : ∀ i ∈ f.interims, i.OK
  count : f.count = count + k
  delta : f.delta = ((expand is).take k).filterMap Prod.snd
  received : f.received = f.delta.length
  enough : 7 ≤ bytes → 5 ≤ f.bytes
  used : f.bytes + dbytes f.delta = bytes
  len : f.interims.length ≤ is.length

theorem delta_ok {s : Status} {t : Int} (h : (Interim.received s t).OK) :
    ∃ d, (Interim.received s t).delta = some d ∧ Fits s d ∧ d.byteLen ≤ 2 := by
  rcases h with ⟨rfl, h⟩ | ⟨rfl, h⟩
  · exact ⟨_, rfl, trivial, by simp [Delta.byteLen]⟩
  · exact ⟨_, rfl, ⟨h.1, h.2⟩, by simp [Delta.byteLen]⟩

theorem fillChunk_ok : ∀ {is : List Interim} {c : Chunk} {todo bytes count : Nat} {f : Fill},
    (∀ i ∈ is, i.OK) → c.Inv → fillChunk c todo bytes count is = .ok f →
    ∃ k, FillOk c bytes count is f k ∧ (is ≠ [] → 7 ≤ bytes → 0 < todo → 0 < k ∧ f.count ≤ 65535)
  | [], c, todo, bytes, count, f, _, hc, h => by
    simp only [fillChunk] at h
    injection h with h; subst h
    exact ⟨0, ⟨by simp, hc, rfl, by simp, by simp, by simp, by simp, by simp, by simp, by simp, by intro h; simp; omega,
      by simp [dbytes], by simp⟩,
      fun h => absurd rfl h⟩
  | i :: is, c, todo, bytes, count, f, ho, hc, h => by
    have hi := ho i (by simp)
    have his : ∀ j ∈ is, j.OK := fun j hj => ho j (by simp [hj])
    rw [fillChunk] at h
    split at h
    · rename_i hb
      injection h with h; subst h
      exact ⟨0, ⟨by simp, hc, rfl, by simp, by simp, by simp, ho, by simp, by simp, by simp, by intro h; simp; omega,
        by simp [dbytes], by simp⟩, fun _ h1 h2 => by omega⟩
    · rename_i hb
      by_cases hcan : c.canAppend i.status = true
      swap
      · have h0 := append_cannot (c := c) hi (by simpa using hcan)
        simp only [h0, true_or, if_true] at h
        cases h
      obtain ⟨ha, hinv, hcont, hfree, hfull⟩ := append_can hi hc hcan
      simp only at h
      split at h
      · cases h
      rename_i hna
      cases i with
      | missing m =>
        simp only [Interim.size] at ha hcont hfree
        simp only at h
        split at h
        · cases h
        split at h
        · rename_i _ hz
          obtain ⟨k, hk, hk2⟩ := fillChunk_ok his hinv h
          have hm : (c.append (.missing m)).2 = m := by omega
          have hmin : min c.free m = m := by omega
          rw [hmin] at hcont hfree
          rw [hm] at hk hna hk2
          refine ⟨m + k, ⟨?_, hk.inv, hk.full.trans hfull, by have := hk.free; omega, ?_, ?_, hk.ok,
            by have := hk.count; omega, ?_, hk.received, hk.enough, hk.used, by have := hk.len; simp; omega⟩, ?_⟩
          · have := hk.le
            rw [expand_cons, List.length_append, Interim.expand_length]; simp [Interim.size]; omega
          · rw [hk.contents, hcont, expand_cons, List.take_append, Interim.expand_length]
            simp [Interim.size, Interim.expand, Interim.status]
          · rw [hk.rest, expand_cons, List.drop_append, Interim.expand_length]
            simp [Interim.size, Interim.expand]
          · rw [hk.delta, expand_cons, List.take_append, Interim.expand_length]
            simp [Interim.size, Interim.expand]
          · intro _ h7 ht
            refine ⟨by have := hi.1; omega, ?_⟩
            have hkc := hk.count
            by_cases hne : is = []
            · subst hne
              have := hk.le
              simp [expand] at this
              omega
            · by_cases ht2 : 0 < todo - m
              · exact (hk2 hne h7 ht2).2
              · have h0 : todo - m = 0 := by omega
                rw [hm] at h
                cases is with
                | nil => exact absurd rfl hne
                | cons j js =>
                  rw [h0, fillChunk, if_pos (by omega)] at h
                  injection h with h; subst h
                  simp only
                  omega
        split at h
        · cases h
        · rename_i h1 h2 h3
          injection h with h; subst h
          refine ⟨(c.append (.missing m)).2, ⟨?_, hinv, hfull, by simp only; omega, ?_, ?_, ?_, rfl, ?_, rfl,
            by intro h; simp; omega, by simp [dbytes], by simp⟩, ?_⟩
          · rw [expand_cons, List.length_append, Interim.expand_length]; simp only [Interim.size]; omega
          · rw [hcont, ← ha, expand_cons, List.take_append_of_le_length (by rw [Interim.expand_length]; simp only [Interim.size]; omega)]
            simp only [Interim.expand, List.take_replicate, List.map_replicate, Interim.status]
            rw [Nat.min_eq_left (by omega)]
          · rw [expand_cons, expand_cons, List.drop_append_of_le_length (by rw [Interim.expand_length]; simp only [Interim.size]; omega)]
            simp only [Interim.expand, List.drop_replicate]
          · intro j hj
            rcases List.mem_cons.1 hj with rfl | hj
            · have := hi.2; exact ⟨by omega, by omega⟩
            · exact his j hj
          · rw [expand_cons, List.take_append_of_le_length (by rw [Interim.expand_length]; simp only [Interim.size]; omega)]
            simp [Interim.expand, List.take_replicate]
          · intro _ _ _
            exact ⟨by omega, by simp only; omega⟩
      | received s t =>
        simp only [Interim.size] at ha hcont hfree
        obtain ⟨d, hd, _, hdl⟩ := delta_ok hi
        simp only [hd] at h
        split at h
        · cases h
        rename_i hone
        cases hr : fillChunk (c.append (.received s t)).1 (todo - 1) (bytes - d.byteLen) (count + 1) is with
        | err e => rw [hr] at h; cases h
        | panic => rw [hr] at h; cases h
        | ok r =>
          rw [hr] at h
          have h := (Res.ok.inj h).symm
          obtain ⟨k, hk, hk2⟩ := fillChunk_ok his hinv hr
          have hmin : min c.free 1 = 1 := by omega
          rw [hmin] at hcont hfree
          subst h
          refine ⟨1 + k, ⟨?_, hk.inv, hk.full.trans hfull, by have := hk.free; simp only; omega, ?_, ?_, hk.ok,
            by have := hk.count; simp only; omega, ?_, by simp [hk.received], ?_, ?_,
            by have := hk.len; simp; omega⟩, ?_⟩
          · have := hk.le
            rw [expand_cons, List.length_append, Interim.expand_length]; simp [Interim.size]; omega
          · simp only
            rw [hk.contents, hcont, expand_cons, Nat.add_comm 1 k]
            simp [Interim.expand, Interim.status]
          · simp only
            rw [hk.rest, expand_cons, Nat.add_comm 1 k]
            simp [Interim.expand]
          · simp only
            rw [hk.delta, expand_cons, Nat.add_comm 1 k]
            simp [Interim.expand, hd]
          · intro h7
            simp only
            by_cases h7' : 7 ≤ bytes - d.byteLen
            · exact hk.enough h7'
            · have hx : r.bytes = bytes - d.byteLen := by
                cases is with
                | nil => simp only [fillChunk] at hr; injection hr with hr; rw [← hr]
                | cons j js =>
                  rw [fillChunk, if_pos (by omega)] at hr
                  injection hr with hr; rw [← hr]
              omega
          · have := hk.used
            simp only [dbytes, List.map_cons, List.sum_cons] at this ⊢
            omega
          · intro _ h7 ht
            refine ⟨by omega, ?_⟩
            have hkc := hk.count
            simp only
            cases is with
            | nil =>
              have := hk.le
              simp [expand] at this
              omega
            | cons j js =>
              by_cases hgo : 7 ≤ bytes - d.byteLen ∧ 0 < todo - 1
              · exact (hk2 (by simp) hgo.1 hgo.2).2
              · rw [fillChunk, if_pos (by omega)] at hr
                injection hr with hr; subst hr
                simp only
                omega

/-! ### Choosing and completing chunks -/

theorem Interim.OK.status {i : Interim} (h : i.OK) : i.status ≠ .unknown := by
  cases i with
  | missing m => simp [Interim.status]
  | received s t => rcases h with h | h <;> simp [Interim.status, h.1]

theorem appendMaxLoop_ok : ∀ {is : List Interim} {c : Chunk}, (∀ i ∈ is, i.OK) → c.Inv →
    (appendMaxLoop c is).1.Inv ∧ (appendMaxLoop c is).1.free ≤ c.free ∧
    (appendMaxLoop c is).1.mustBeFull = c.mustBeFull
  | [], c, _, hc => ⟨hc, le_refl _, rfl⟩
  | i :: is, c, ho, hc => by
    rw [appendMaxLoop]
    split
    · exact ⟨hc, le_refl _, rfl⟩
    split
    · exact ⟨hc, le_refl _, rfl⟩
    · rename_i h1 h2
      obtain ⟨ha, hinv, hcont, hfree, hfull⟩ := append_can (ho i (by simp)) hc (by simpa using h2)
      obtain ⟨a, b, d⟩ := appendMaxLoop_ok (is := is) (fun j hj => ho j (by simp [hj])) hinv
      exact ⟨a, by omega, d.trans hfull⟩

theorem appendMax_run_pos {i : Interim} {is : List Interim} (ho : ∀ j ∈ i :: is, j.OK) :
    i.size ≤ (Chunk.run i.status 0).appendMax (i :: is) := by
  have hi := ho i (by simp)
  have hinv0 : (Chunk.run i.status 0).Inv := ⟨by omega, hi.status⟩
  obtain ⟨ha, hinv, hcont, hfree, hfull⟩ := append_can hi hinv0 (by simp [Chunk.canAppend])
  obtain ⟨a, b, d⟩ := appendMaxLoop_ok (is := is) (fun j hj => ho j (by simp [hj])) hinv
  have hsz : i.size ≤ 8192 := by
    cases i with
    | missing m => exact hi.2
    | received s t => simp [Interim.size]
  have hl : appendMaxLoop (Chunk.run i.status 0) (i :: is) =
      appendMaxLoop ((Chunk.run i.status 0).append i).1 is := by
    rw [appendMaxLoop, if_neg (by simp [Chunk.free]), if_neg (by simp [Chunk.canAppend])]
  unfold Chunk.appendMax
  simp only [hl]
  rw [if_neg (by rw [d, hfull]; simp [Chunk.mustBeFull])]
  simp only [Chunk.free] at hfree ⊢
  simp only [Chunk.free] at b
  generalize (appendMaxLoop ((Chunk.run i.status 0).append i).1 is).1 = x at *
  omega

/-- The chosen chunk is empty, and takes at least all of the first interim. -/
theorem chooseChunk_ok {i : Interim} {is : List Interim} {bytes : Nat} (ho : ∀ j ∈ i :: is, j.OK) :
    (chooseChunk (i :: is) bytes).1.Inv ∧ (chooseChunk (i :: is) bytes).1.contents = [] ∧
    i.size ≤ (chooseChunk (i :: is) bytes).2 ∧
    (chooseChunk (i :: is) bytes).2 = (chooseChunk (i :: is) bytes).1.appendMax (i :: is) := by
  have hr := appendMax_run_pos ho
  have hst := (ho i (by simp)).status
  have h3 : chooseChunk (i :: is) bytes = (.run i.status 0, (Chunk.run i.status 0).appendMax (i :: is)) ∨
      (chooseChunk (i :: is) bytes = (.single 0 0, (Chunk.single 0 0).appendMax (i :: is)) ∧
        (Chunk.run i.status 0).appendMax (i :: is) ≤ (Chunk.single 0 0).appendMax (i :: is)) ∨
      (chooseChunk (i :: is) bytes = (.double 0 0, (Chunk.double 0 0).appendMax (i :: is)) ∧
        (Chunk.run i.status 0).appendMax (i :: is) ≤ (Chunk.double 0 0).appendMax (i :: is)) := by
    unfold chooseChunk
    simp only [List.head?_cons, Option.map_some, Option.getD_some]
    unfold pickChunk
    generalize (Chunk.run i.status 0).appendMax (i :: is) = x
    generalize (Chunk.single 0 0).appendMax (i :: is) = y
    generalize (Chunk.double 0 0).appendMax (i :: is) = z
    by_cases h1 : max (max x y) z = x
    · left; rw [if_pos h1]
    by_cases h2 : max (max x y) z = y ∧ bytes ≥ 19
    · right; left; rw [if_neg h1, if_pos h2]; exact ⟨rfl, by omega⟩
    by_cases h4 : max (max x y) z = z ∧ bytes ≥ 19
    · right; right; rw [if_neg h1, if_neg h2, if_pos h4]; exact ⟨rfl, by omega⟩
    · left; rw [if_neg h1, if_neg h2, if_neg h4]
  rcases h3 with h | ⟨h, hle⟩ | ⟨h, hle⟩ <;> rw [h]
  · exact ⟨⟨by omega, hst⟩, rfl, hr, rfl⟩
  · exact ⟨⟨by omega, by simp⟩, rfl, by dsimp only; omega, rfl⟩
  · exact ⟨⟨by omega, by simp⟩, rfl, by dsimp only; omega, rfl⟩

/-- A complete chunk: a run of 1 to 8192, or a full vector. -/
def Chunk.Good : Chunk → Prop
  | .run s n => 0 < n ∧ n ≤ 8192 ∧ s ≠ .unknown
  | .single v f => v < 2^14 ∧ f = 14
  | .double v f => v < 2^14 ∧ f = 7

theorem Chunk.contents_full {c : Chunk} (hi : c.Inv) (h : c.mustBeFull = true → c.free = 0) :
    c.contents = c.statuses := by
  cases c with
  | run s n => rfl
  | single v f =>
    have := h rfl
    have : f = 14 := by simp only [Chunk.free] at this; have := hi.1; omega
    subst this
    rw [Chunk.contents, dig2_eq]; rfl
  | double v f =>
    have := h rfl
    have : f = 7 := by simp only [Chunk.free] at this; have := hi.1; omega
    subst this
    rw [Chunk.contents, dig4_eq]; rfl

theorem Chunk.good_of {c : Chunk} (hi : c.Inv) (h : c.mustBeFull = true → c.free = 0)
    (hne : c.contents ≠ []) : c.Good := by
  cases c with
  | run s n =>
    refine ⟨?_, hi.1, hi.2⟩
    rcases Nat.eq_zero_or_pos n with h0 | h0
    · subst h0; simp [Chunk.contents] at hne
    · exact h0
  | single v f =>
    have := h rfl
    have : f = 14 := by simp only [Chunk.free] at this; have := hi.1; omega
    subst this
    exact ⟨hi.2, rfl⟩
  | double v f =>
    have := h rfl
    have : f = 7 := by simp only [Chunk.free] at this; have := hi.1; omega
    subst this
    exact ⟨hi.2, rfl⟩

theorem padChunk_ok {c c' : Chunk} {is : List Interim} (hi : c.Inv) (hne : c.contents ≠ [])
    (h : padChunk c is = .ok c') :
    ∃ pad, c'.Good ∧ c'.statuses = c.contents ++ List.replicate pad .notReceived ∧ (0 < pad → is = []) := by
  unfold padChunk at h
  split at h
  · rename_i hm
    split at h
    · rename_i hs
      injection h with h
      subst h
      have hok : (Interim.missing c.free).OK := ⟨hm.2, by cases c <;> simp [Chunk.free]; all_goals omega⟩
      have hcan : c.canAppend (Interim.missing c.free).status = true := by
        cases c with
        | run s n => simp [Chunk.mustBeFull] at hm
        | single v f => simp [Chunk.canAppend, Interim.status]
        | double v f => rfl
      obtain ⟨ha, hinv, hcont, hfree, hfull⟩ := append_can hok hi hcan
      simp only [Interim.size, Nat.min_self, Interim.status] at hcont hfree
      refine ⟨c.free, ?_, ?_, fun _ => hs⟩
      · exact Chunk.good_of hinv (fun _ => by omega) (by rw [hcont]; simp [hne])
      · rw [← Chunk.contents_full hinv (fun _ => by omega), hcont]
    · cases h
  · rename_i hm
    injection h with h
    subst h
    have hf : c.mustBeFull = true → c.free = 0 := by
      intro hb
      by_contra hc
      exact hm ⟨hb, by omega⟩
    exact ⟨0, Chunk.good_of hi hf hne, by rw [Chunk.contents_full hi hf]; simp, by omega⟩

/-- What the outer loop achieves, when it does not panic. -/
structure BuildOk (bytes cnt : Nat) (is : List Interim) (r : Built) (k p : Nat) : Prop where
  le : k ≤ (expand is).length
  count : r.count = cnt + k
  bound : cnt ≤ 65535 → r.count ≤ 65535
  statuses : r.chunks.flatMap Chunk.statuses =
    ((expand is).take k).map Prod.fst ++ List.replicate p .notReceived
  pad : 0 < p → k = (expand is).length
  delta : r.delta = ((expand is).take k).filterMap Prod.snd
  received : r.received = r.delta.length
  good : ∀ c ∈ r.chunks, c.Good
  used : r.bytes + 2 * r.chunks.length + dbytes r.delta = bytes
  spare : r.chunks ≠ [] → 3 ≤ r.bytes
  some : r.chunks ≠ [] → 0 < k

theorem buildChunks_ok : ∀ {fuel bytes count : Nat} {is : List Interim} {r : Built},
    (∀ i ∈ is, i.OK) → buildChunks fuel bytes count is = .ok r → ∃ k pad, BuildOk bytes count is r k pad
  | 0, _, _, _, _, _, h => by cases h
  | fuel + 1, bytes, count, is, r, ho, h => by
    rw [buildChunks] at h
    split at h
    · injection h with h; subst h
      exact ⟨0, 0, by simp, by simp, by simp, by simp, by simp, by simp, by simp, by simp, by simp [dbytes],
        by simp, by simp⟩
    rename_i hb
    cases is with
    | nil => simp at hb
    | cons i is =>
      obtain ⟨hinv, hcont, htodo, _⟩ := chooseChunk_ok (bytes := bytes) ho
      generalize hch : chooseChunk (i :: is) bytes = ch at *
      obtain ⟨c, todo⟩ := ch
      simp only at h hinv hcont htodo
      cases hf : fillChunk c todo bytes count (i :: is) with
      | err e => rw [hf] at h; cases h
      | panic => rw [hf] at h; cases h
      | ok f =>
        rw [hf, bind_def, bind_ok] at h
        obtain ⟨k, hk, hk2⟩ := fillChunk_ok ho hinv hf
        obtain ⟨hkpos, hkcount⟩ := hk2 (by simp) (by omega) (by have := (ho i (by simp)).size; omega)
        have hcc : f.chunk.contents = ((expand (i :: is)).take k).map Prod.fst := by
          rw [hk.contents, hcont, List.nil_append]
        have hlen : (((expand (i :: is)).take k).map Prod.fst).length = k := by
          rw [List.length_map, List.length_take, Nat.min_eq_left hk.le]
        have hne : f.chunk.contents ≠ [] := by
          intro hc; rw [← hcc, hc] at hlen; simp at hlen; omega
        cases hp : padChunk f.chunk f.interims with
        | err e => rw [hp] at h; cases h
        | panic => rw [hp] at h; cases h
        | ok c' =>
          rw [hp, bind_def, bind_ok] at h
          obtain ⟨pad, hgood, hstat, hpad⟩ := padChunk_ok hk.inv hne hp
          split at h
          · cases h
          cases hr : buildChunks fuel (f.bytes - 2) f.count f.interims with
          | err e => rw [hr] at h; cases h
          | panic => rw [hr] at h; cases h
          | ok r' =>
            rw [hr] at h
            have h := (Res.ok.inj h).symm
            subst h
            obtain ⟨k', pad', hk'⟩ := buildChunks_ok hk.ok hr
            have hle' := hk'.le
            rw [hk.rest, List.length_drop] at hle'
            have hkle := hk.le
            have h5 := hk.enough (by omega)
            have htake : (expand (i :: is)).take (k + k') =
                (expand (i :: is)).take k ++ ((expand (i :: is)).drop k).take k' := by
              rw [List.take_add]
            refine ⟨k + k', pad + pad', by omega, ?_, ?_, ?_, ?_, ?_, ?_, ?_, ?_, ?_, ?_⟩
            · simp only; rw [hk'.count, hk.count]; omega
            · intro _; exact hk'.bound hkcount
            · simp only [List.flatMap_cons]
              rw [hstat, hcc, hk'.statuses, hk.rest, htake, List.map_append]
              rcases Nat.eq_zero_or_pos pad with h0 | h0
              · subst h0; simp
              · have hn := hpad h0
                have hnil : (expand (i :: is)).drop k = [] := by rw [← hk.rest, hn]; rfl
                rw [hnil]
                simp [List.replicate_append_replicate]
            · intro hp2
              rcases Nat.eq_zero_or_pos pad with h0 | h0
              · have := hk'.pad (by omega)
                rw [hk.rest, List.length_drop] at this
                omega
              · have hn := hpad h0
                have hnil : (expand (i :: is)).drop k = [] := by rw [← hk.rest, hn]; rfl
                have := congrArg List.length hnil
                rw [List.length_drop] at this
                simp at this
                omega
            · simp only; rw [hk.delta, hk'.delta, hk.rest, htake, List.filterMap_append]
            · simp only [List.length_append]; rw [hk.received, hk'.received]
            · intro d hd
              rcases List.mem_cons.1 hd with rfl | hd
              · exact hgood
              · exact hk'.good d hd
            · have h1 := hk'.used
              have h2 := hk.used
              simp only [dbytes, List.map_append, List.sum_append, List.length_cons] at h1 h2 ⊢
              omega
            · intro _
              have h1 := hk'.used
              simp only
              by_cases hc : r'.chunks = []
              · have hd : r'.delta = [] := by
                  have := hk'.statuses
                  rw [hc] at this
                  have h0 := congrArg List.length this
                  simp at h0
                  have : ((expand f.interims).take k') = [] := by
                    apply List.eq_nil_of_length_eq_zero
                    rw [List.length_take]; omega
                  rw [hk'.delta, this]; rfl
                rw [hc, hd] at h1
                simp [dbytes] at h1
                omega
              · exact hk'.spare hc
            · intro _; omega

end Str0m.Twcc
