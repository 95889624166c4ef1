import Verif.Props.Nack
import Mathlib.Data.List.Induction
/-
  C78: exactly which late packets are still accepted, and which numbers are still asked for.
-/
namespace Str0m
open NackRegister

/-- `hist` is what was offered so far, latest first; the first number is `first`. What lies below the window has arrived or is more than
100 behind. -/
def Floor (r : NackRegister) (hist : List Nat) : Prop :=
  ∀ st en, r.active = some (st, en) → ∃ first, hist.getLast? = some first ∧ first ≤ st ∧ ∀ n, first ≤ n → n < st → n ∈ hist ∨ n + 100 < en

theorem Floor.update {r : NackRegister} {hist req : List Nat} (hi : NackInv r hist req) (hf : Floor r hist) (seq : Nat)
    (hgap : ∀ st en, r.active = some (st, en) → seq ≤ en + 101) : Floor (r.update seq).1 (seq :: hist) := by
  cases hi with
  | fresh pk h =>
    intro st en he
    simp only [NackRegister.update, initWithSeq, Option.some.injEq, Prod.mk.injEq] at he
    exact ⟨seq, rfl, by omega, fun n h1 h2 => by omega⟩
  | run pk st en _ _ hle hwin clear recv top endIn startOut cnt le5 future =>
    obtain ⟨first, f1, f2, f3⟩ := hf st en rfl
    have hg := hgap st en rfl
    have hlast : (seq :: hist).getLast? = some first := by
      cases hist with
      | nil => cases f1
      | cons a l => rw [List.getLast?_cons_cons]; exact f1
    intro st1 en1 he
    refine ⟨first, hlast, ?_⟩
    unfold NackRegister.update at he
    by_cases hlt : seq < st
    · simp only [hlt, if_true, Option.some.injEq, Prod.mk.injEq] at he
      obtain ⟨rfl, rfl⟩ := he
      refine ⟨f2, fun n h1 h2 => ?_⟩
      rcases f3 n h1 h2 with h | h
      · exact .inl (by simp [h])
      · exact .inr h
    · simp only [hlt, if_false, Option.some.injEq, Prod.mk.injEq] at he
      obtain ⟨he1, he2⟩ := he
      obtain ⟨s0, hs0⟩ : ∃ s0, max st (en1 - MAX_MISORDER) = s0 := ⟨_, rfl⟩
      rw [he2, hs0] at he1
      have hMM : MAX_MISORDER = 100 := rfl
      have hB : BUFFER_SIZE = 101 := rfl
      obtain ⟨a1, a2, a3, a4⟩ := advanceStart_spec pk seq (en1 - s0) s0
      rw [he1] at a1 a2 a3 a4
      refine ⟨by omega, fun n h1 h2 => ?_⟩
      by_cases hn : n < st
      · rcases f3 n h1 hn with h | h
        · exact .inl (by simp [h])
        · right; omega
      by_cases hn0 : n < s0
      · right; omega
      left
      rcases a3 n (by omega) h2 with h | h
      · by_cases hne : n ≤ en
        · simp [(recv n (by omega) hne).1 h]
        · -- a number above the old window whose slot is marked: this needs a jump of more than 101
          exfalso
          have hnx : (pk.at (en + 1)).received = false := by
            by_cases hex : st + 100 = en
            · have hb : (pk.at st).received = false := by
                cases hb : (pk.at st).received with
                | false => rfl
                | true => exact absurd ((recv st (by omega) (by omega)).1 hb) (startOut (by omega))
              have : pk.at (en + 1) = pk.at st := by
                unfold Slots.at; rw [hB]; congr 1; omega
              rw [this]; exact hb
            · rw [Slots.at, clear ((en + 1) % BUFFER_SIZE) (Nat.mod_lt _ (by decide))]
              intro s b1 b2 b3
              rw [hB] at b3
              omega
          rcases a3 (en + 1) (by omega) (by omega) with h' | h'
          · rw [hnx] at h'; cases h'
          · omega
      · simp [h]

theorem Floor.nack {r : NackRegister} {hist req : List Nat} (hi : NackInv r hist req) (hfit : ∀ s ∈ hist, s < 2 ^ 64) (hf : Floor r hist) :
    Floor r.nackReports.2 hist := by
  cases hact : r.active with
  | none =>
    have : r.nackReports.2 = r := by simp [NackRegister.nackReports, hact]
    rw [this]; exact hf
  | some x =>
    obtain ⟨st, en⟩ := x
    have hn : en < 2 ^ 64 ∧ ∀ t, st ≤ t → t ≤ en → Near en t := by
      have : r = ⟨r.packets, some (st, en)⟩ := by rw [← hact]
      rw [this] at hi
      exact near_of_window hi hfit
    obtain ⟨_, _, _, h4, _⟩ := hi.nackReports st en hact en hn.1 hn.2
    intro st' en' he
    rw [h4] at he
    exact hf st' en' (by rw [hact]; exact he)

/-- No packet is more than 101 ahead of everything before it -/
def Dense (ops : List NackOp) : Prop :=
  ∀ pre seq post, ops = pre ++ NackOp.recv seq :: post → (NackObs.run pre).arrived = [] ∨ ∃ m ∈ (NackObs.run pre).arrived, seq ≤ m + 101

theorem floor_run (ops : List NackOp) (hf : ∀ op ∈ ops, op.Fits) (hd : Dense ops) :
    Floor (NackObs.run ops).reg (NackObs.run ops).arrived := by
  induction ops using List.reverseRecOn with
  | nil => intro st en he; cases he
  | append_singleton ops op ih =>
    have hg := NackObs.good_run ops (fun o ho => hf o (by simp [ho]))
    have ih := ih (fun o ho => hf o (by simp [ho])) (fun pre seq post e => hd pre seq (post ++ [op]) (by rw [e]; simp))
    have e : NackObs.run (ops ++ [op]) = (NackObs.run ops).step op := by simp [NackObs.run, List.foldl_append]
    rw [e]
    cases op with
    | nack => exact Floor.nack hg.inv hg.fits ih
    | recv seq =>
      refine Floor.update hg.inv ih seq ?_
      intro st en he
      obtain h | ⟨m, hm, hle⟩ := hd ops seq [] rfl
      · obtain ⟨first, h1, _⟩ := ih st en he
        rw [h] at h1; cases h1
      · have hi := hg.inv
        generalize NackObs.run ops = o at *
        obtain ⟨reg, arrived, accepted, requested⟩ := o
        dsimp only at he hi hm
        cases hi with
        | fresh => cases he
        | run pk st' en' _ _ hle' hwin clear recv top endIn startOut cnt le5 future =>
          simp only [Option.some.injEq, Prod.mk.injEq] at he
          have := top m hm
          omega

/-- **C78**: as long as no packet is more than 101 ahead, a packet is accepted iff it has not arrived before, is not before the
very first one, and is at most 100 behind the highest. -/
theorem C78_accepts_exact (ops : List NackOp) (hf : ∀ op ∈ ops, op.Fits) (hd : Dense ops) (seq : Nat) :
    (NackObs.run ops).reg.accepts seq = true ↔
      seq ∉ (NackObs.run ops).arrived ∧ (∀ first, (NackObs.run ops).arrived.getLast? = some first → first ≤ seq) ∧
        ∀ m ∈ (NackObs.run ops).arrived, m ≤ seq + 100 := by
  have hfl := floor_run ops hf hd
  have hi := (NackObs.good_run ops hf).inv
  have h3 := C03_accepts_iff ops hf seq
  dsimp only at h3
  generalize NackObs.run ops = o at *
  obtain ⟨reg, arrived, accepted, requested⟩ := o
  dsimp only at *
  cases hi with
  | fresh pk h => simp [accepts]
  | run pk st en _ _ hle hwin clear recv top endIn startOut cnt le5 future =>
    obtain ⟨first, f1, f2, f3⟩ := hfl st en rfl
    rw [h3.2.1]
    constructor
    · rintro ⟨h1, h2⟩
      refine ⟨h2, fun f hf' => ?_, fun m hm => ?_⟩
      · rw [f1] at hf'; cases hf'; omega
      · have := top m hm; omega
    · rintro ⟨h1, h2, h4⟩
      refine ⟨?_, h1⟩
      have := h2 first f1
      have := h4 en endIn
      by_contra hc
      rcases f3 seq (by omega) (by omega) with h | h
      · exact h1 h
      · omega

/-- **C78**: under the same condition a NACK asks for a number iff it has not arrived, is after the first and before the highest,
at most 100 behind it, and was asked for less than five times. -/
theorem C78_asks_exact (ops : List NackOp) (hf : ∀ op ∈ ops, op.Fits) (hd : Dense ops) (top : Nat) (htop : top ∈ (NackObs.run ops).arrived)
    (hmax : ∀ m ∈ (NackObs.run ops).arrived, m ≤ top) (first : Nat) (hfirst : (NackObs.run ops).arrived.getLast? = some first) (seq : Nat) :
    seq ∈ ((NackObs.run ops).reg.nackReports.1.getD []).flatten.flatMap (fun e => e.intoIter top) ↔
      seq ∉ (NackObs.run ops).arrived ∧ first ≤ seq ∧ seq ≤ top ∧ top ≤ seq + 100 ∧ (NackObs.run ops).requested.count seq < 5 := by
  have hfl := floor_run ops hf hd
  have hi := (NackObs.good_run ops hf).inv
  have hfit := (NackObs.good_run ops hf).fits
  have h5 := C05_exact_set ops hf
  dsimp only at h5
  generalize NackObs.run ops = o at *
  obtain ⟨reg, arrived, accepted, requested⟩ := o
  dsimp only at *
  cases hi with
  | fresh pk h => cases htop
  | run pk st en _ _ hle hwin clear recv top' endIn startOut cnt le5 future =>
    obtain ⟨first', f1, f2, f3⟩ := hfl st en rfl
    rw [hfirst] at f1; cases f1
    have htop' : top = en := by have := top' top htop; have := hmax en endIn; omega
    subst htop'
    have hlt := hfit top htop
    rw [(h5 st top top rfl hlt (by omega) (by omega)).1]
    simp only [List.mem_filter, List.mem_range', decide_eq_true_eq]
    constructor
    · rintro ⟨⟨i, h1, rfl⟩, h2, h3⟩
      exact ⟨h2, by omega, by omega, by omega, h3⟩
    · rintro ⟨h1, h2, h3, h4, h6⟩
      have : st ≤ seq := by
        by_contra hc
        rcases f3 seq h2 (by omega) with h | h
        · exact h1 h
        · omega
      exact ⟨⟨seq - st, by omega, by omega⟩, h1, h6⟩

/-- A history with loss and reordering -/
example : (NackObs.run [.recv 1000, .recv 1002, .nack, .recv 1050]).reg.accepts 1001 = true ∧ Dense [.recv 1000, .recv 1002, .nack, .recv 1050] := by
  refine ⟨by decide +kernel, ?_⟩
  intro pre seq post h
  match pre, h with
  | [], h => exact .inl rfl
  | [_], h => simp at h; obtain ⟨rfl, rfl, _⟩ := h; exact .inr ⟨1000, by simp [NackObs.run, NackObs.step], by omega⟩
  | [_, _], h => simp at h
  | [_, _, _], h => simp at h; obtain ⟨rfl, rfl, rfl, rfl, _⟩ := h; exact .inr ⟨1002, by simp [NackObs.run, NackObs.step], by omega⟩
  | _ :: _ :: _ :: _ :: pre, h => simp at h

/-- **Violation**: after a jump of more than 101 the marks of old packets are taken for the new numbers. Here 1103 to 1151 are at most
100 behind the highest number and never arrived, but they are not asked for, and are refused when they arrive. -/
theorem C78_violation_jump : ∃ ops : List NackOp, (∀ op ∈ ops, op.Fits) ∧ 1203 ∈ (NackObs.run ops).arrived ∧
    (∀ m ∈ (NackObs.run ops).arrived, m ≤ 1203) ∧ ∀ seq, 1103 ≤ seq → seq < 1152 →
      seq ∉ (NackObs.run ops).arrived ∧ (NackObs.run ops).reg.accepts seq = false ∧
        seq ∉ ((NackObs.run ops).reg.nackReports.1.getD []).flatten.flatMap (fun e => e.intoIter 1203) := by
  refine ⟨.recv 1000 :: ((List.range' 1002 49).map NackOp.recv ++ [.recv 1203]), ?_, ?_, ?_, ?_⟩
  · intro op hop
    simp only [List.mem_cons, List.mem_append, List.mem_map, List.mem_range', List.not_mem_nil, or_false] at hop
    rcases hop with rfl | ⟨x, ⟨i, hi, rfl⟩, rfl⟩ | rfl
    · show 1000 < _; omega
    · show 1002 + 1 * i < _; omega
    · show 1203 < _; omega
  · decide +kernel
  · decide +kernel
  · intro seq h1 h2
    have : ∀ k : Fin 49, (1103 + k.val) ∉ (NackObs.run (.recv 1000 :: ((List.range' 1002 49).map NackOp.recv ++ [.recv 1203]))).arrived ∧
        (NackObs.run (.recv 1000 :: ((List.range' 1002 49).map NackOp.recv ++ [.recv 1203]))).reg.accepts (1103 + k.val) = false ∧
        (1103 + k.val) ∉ ((NackObs.run (.recv 1000 :: ((List.range' 1002 49).map NackOp.recv ++ [.recv 1203]))).reg.nackReports.1.getD []).flatten.flatMap (fun e => e.intoIter 1203) := by
      decide +kernel
    have := this ⟨seq - 1103, by omega⟩
    simp only at this
    rw [show 1103 + (seq - 1103) = seq by omega] at this
    exact this

end Str0m
