import Verif.Proofs.NackReport
/-
  C03, C04, C05: the receive-side packet register and NACK generation.
-/
namespace Str0m

/-- One thing that can happen to a receive stream's register. -/
inductive NackOp where
  /-- A packet with this extended sequence number arrives. -/
  | recv (seq : Nat)
  /-- A NACK report is generated. -/
  | nack
deriving Repr

/-- The register together with what an observer of the API has seen. -/
structure NackObs where
  reg : NackRegister
  /-- Sequence numbers of all packets that arrived, latest first. -/
  arrived : List Nat := []
  /-- Sequence numbers of the packets reported as new (accepted), latest first. -/
  accepted : List Nat := []
  /-- Sequence numbers asked for so far, as decoded by a sender whose latest packet is the
  highest one the register has seen. -/
  requested : List Nat := []

/-- One step: the model functions plus bookkeeping of what was observed. -/
def NackObs.step (o : NackObs) : NackOp → NackObs
  | .recv seq =>
    { o with
      reg := (o.reg.update seq).1
      arrived := seq :: o.arrived
      accepted := if (o.reg.update seq).2 then seq :: o.accepted else o.accepted }
  | .nack =>
    { o with
      reg := o.reg.nackReports.2
      requested := o.requested ++
        (o.reg.nackReports.1.getD []).flatten.flatMap
          (fun e => e.intoIter (o.reg.maxSeq.getD 0)) }

/-- Run a history from a fresh register. -/
def NackObs.run (ops : List NackOp) : NackObs := ops.foldl NackObs.step { reg := .new none }

/-- All sequence numbers are 64-bit values. -/
def NackOp.Fits : NackOp → Prop
  | .recv s => s < 2 ^ 64
  | .nack => True

/-- The register is consistent with what was observed, and every accepted number arrived. -/
structure NackObs.Good (o : NackObs) : Prop where
  inv : NackInv o.reg o.arrived o.requested
  sub : ∀ s ∈ o.accepted, s ∈ o.arrived
  nodup : o.accepted.Nodup
  fits : ∀ s ∈ o.arrived, s < 2 ^ 64

theorem near_of_window {pk : Slots} {st en : Nat} {hist req : List Nat}
    (hinv : NackInv ⟨pk, some (st, en)⟩ hist req) (hf : ∀ s ∈ hist, s < 2 ^ 64) :
    en < 2 ^ 64 ∧ ∀ t, st ≤ t → t ≤ en → Near en t := by
  obtain _ | ⟨_, _, _, _, _, hle, hwin, clear, recv, top, endIn, _⟩ := hinv
  have := hf en endIn
  exact ⟨this, fun t h1 h2 => ⟨by omega, by omega, by omega⟩⟩

theorem NackObs.Good.step {o : NackObs} (h : o.Good) (op : NackOp) (hf : op.Fits) :
    (o.step op).Good := by
  obtain ⟨inv, sub, nodup, fits⟩ := h
  cases op with
  | recv seq =>
    refine ⟨inv.update seq, ?_, ?_, ?_⟩
    · intro s hs
      simp only [NackObs.step] at hs ⊢
      split at hs
      · simp at hs; rcases hs with rfl | hs
        · simp
        · simp [sub s hs]
      · simp [sub s hs]
    · simp only [NackObs.step]
      split
      · rename_i hnew
        rw [List.nodup_cons]
        refine ⟨?_, nodup⟩
        intro hc
        have ha := sub seq hc
        obtain ⟨reg, arrived, accepted, requested⟩ := o
        cases inv with
        | fresh => simp at ha
        | run pk st en _ _ a b c d e f g i j k =>
          have := (NackInv.update_run (NackInv.run pk st en _ _ a b c d e f g i j k) seq).2.1.1 hnew
          exact this.2 ha
      · exact nodup
    · intro s hs
      simp [NackObs.step] at hs
      rcases hs with rfl | hs
      · exact hf
      · exact fits s hs
  | nack =>
    refine ⟨?_, sub, nodup, fits⟩
    obtain ⟨reg, arrived, accepted, requested⟩ := o
    simp only [NackObs.step] at inv fits ⊢
    cases inv with
    | fresh pk h =>
      simpa [NackRegister.nackReports] using NackInv.fresh pk h
    | run pk st en _ _ a b c d e f g i j k =>
      have hi := NackInv.run pk st en _ _ a b c d e f g i j k
      obtain ⟨n1, n2⟩ := near_of_window hi fits
      exact (hi.nackReports st en rfl en n1 n2).2.2.1

theorem NackObs.good_run (ops : List NackOp) (hf : ∀ op ∈ ops, op.Fits) :
    (NackObs.run ops).Good := by
  unfold NackObs.run
  have h0 : NackObs.Good { reg := .new none } :=
    ⟨NackInv.fresh _ (fun _ => rfl), by simp, by simp, by simp⟩
  revert h0
  generalize ({ reg := .new none } : NackObs) = o
  induction ops generalizing o with
  | nil => exact fun h => h
  | cons op ops ih =>
    intro h
    exact ih (fun p hp => hf p (by simp [hp])) _ (h.step op (hf op (by simp)))

/-- C03: in every history of arrivals (interleaved with NACK generation) no sequence number
is accepted twice. -/
theorem C03_never_accepted_twice (ops : List NackOp) (hf : ∀ op ∈ ops, op.Fits) :
    (NackObs.run ops).accepted.Nodup :=
  (NackObs.good_run ops hf).nodup

/-- C03: after every history, the next packet is accepted iff its number is not behind the
window and has never arrived before; `accepts` predicts the outcome of `update`. The window
reaches back to at most 100 before the highest number seen. -/
theorem C03_accepts_iff (ops : List NackOp) (hf : ∀ op ∈ ops, op.Fits) (seq : Nat) :
    let o := NackObs.run ops
    (o.reg.accepts seq = (o.reg.update seq).2) ∧
    (match o.reg.active with
     | none => o.arrived = [] ∧ o.reg.accepts seq = true
     | some (start, stop) =>
        (o.reg.accepts seq = true ↔ start ≤ seq ∧ seq ∉ o.arrived) ∧
        stop ≤ start + 100 ∧ stop ∈ o.arrived ∧ ∀ s ∈ o.arrived, s ≤ stop) := by
  intro o
  have hg := (NackObs.good_run ops hf).inv
  have ho : NackObs.run ops = o := rfl
  rw [ho] at hg
  obtain ⟨reg, arrived, accepted, requested⟩ := o
  simp only [] at hg ⊢
  clear ho
  cases hg with
  | fresh pk h => simp [NackRegister.accepts, NackRegister.update]
  | run pk st en _ _ a b c d e f g i j k =>
    have hi := NackInv.run pk st en _ _ a b c d e f g i j k
    have hu := (hi.update_run seq).2.1
    have heq : NackRegister.accepts ⟨pk, some (st, en)⟩ seq =
        (NackRegister.update ⟨pk, some (st, en)⟩ seq).2 := by
      simp only [NackRegister.accepts, NackRegister.update]
      split <;> rfl
    refine ⟨heq, ?_, b, f, e⟩
    rw [heq]; exact hu

/-- C03: the window never moves backwards and never loses a number silently: a number that
is not behind the window now was not behind it before. -/
theorem C03_window_monotone (ops : List NackOp) (hf : ∀ op ∈ ops, op.Fits) (op : NackOp)
    (start stop : Nat) (h : (NackObs.run ops).reg.active = some (start, stop)) (hop : op.Fits) :
    ∃ start' stop', (NackObs.run (ops ++ [op])).reg.active = some (start', stop') ∧
      start ≤ start' ∧ stop ≤ stop' := by
  have hg := NackObs.good_run ops hf
  have e : NackObs.run (ops ++ [op]) = (NackObs.run ops).step op := by
    simp [NackObs.run, List.foldl_append]
  rw [e]
  generalize NackObs.run ops = o at *
  obtain ⟨⟨pk, act⟩, arrived, accepted, requested⟩ := o
  simp only at h
  subst h
  have hi := hg.inv
  cases op with
  | recv seq =>
    obtain ⟨st', en', h1, h2, h3⟩ := (hi.update_run seq).2.2
    exact ⟨st', en', h1, h2, by omega⟩
  | nack =>
    obtain ⟨n1, n2⟩ := near_of_window hi hg.fits
    exact ⟨start, stop, (hi.nackReports start stop rfl stop n1 n2).2.2.2.1, by omega, by omega⟩

/-- C04: over every whole history no sequence number is requested more than 5 times. -/
theorem C04_at_most_five (ops : List NackOp) (hf : ∀ op ∈ ops, op.Fits) (s : Nat) :
    (NackObs.run ops).requested.count s ≤ 5 := by
  have := (NackObs.good_run ops hf).inv
  generalize NackObs.run ops = o at *
  obtain ⟨reg, arrived, accepted, requested⟩ := o
  simp only [] at this ⊢
  cases this with
  | fresh => simp
  | run pk st en _ _ a b c d e f g i j k => exact j s

/-- C04: what the next NACK round asks for, after every history: every requested number is in
the window, has never arrived, and appears once. -/
theorem C04_only_missing (ops : List NackOp) (hf : ∀ op ∈ ops, op.Fits) :
    let o := NackObs.run ops
    let asked := (o.reg.nackReports.1.getD []).flatten.flatMap
      (fun e => e.intoIter (o.reg.maxSeq.getD 0))
    asked.Nodup ∧ ∀ s ∈ asked, s ∉ o.arrived ∧
      ∃ start stop, o.reg.active = some (start, stop) ∧ start ≤ s ∧ s < stop := by
  intro o
  have hg := NackObs.good_run ops hf
  have ho : NackObs.run ops = o := rfl
  rw [ho] at hg
  obtain ⟨hi, _, _, fits⟩ := hg
  obtain ⟨reg, arrived, accepted, requested⟩ := o
  simp only [] at hi fits ⊢
  clear ho
  cases hi with
  | fresh pk h => simp [NackRegister.nackReports]
  | run pk st en _ _ a b c d e f g i j k =>
    have hi := NackInv.run pk st en _ _ a b c d e f g i j k
    obtain ⟨n1, n2⟩ := near_of_window hi fits
    obtain ⟨_, _, _, _, h5, h6⟩ := hi.nackReports st en rfl en n1 n2
    refine ⟨h6, fun s hs => ?_⟩
    obtain ⟨q1, q2, q3, _⟩ := h5 s hs
    refine ⟨q3, st, en, rfl, q1, ?_⟩
    have : s ≠ en := fun hc => q3 (hc ▸ f)
    omega

/-- C05: after every history, and for every sender whose reference number `ref` is within
half the 16-bit range of the window: decoding the PID/BLP pairs of all NACK messages of one
round yields exactly the missing numbers of the window that were asked for fewer than 5 times
so far, in increasing order; each message carries between 1 and 31 pairs, and no message is
produced iff there is nothing to ask for. -/
theorem C05_exact_set (ops : List NackOp) (hf : ∀ op ∈ ops, op.Fits) (start stop ref : Nat)
    (hact : (NackObs.run ops).reg.active = some (start, stop)) (hr : ref < 2 ^ 64)
    (near1 : stop < ref + 2 ^ 15) (near2 : ref < start + 2 ^ 15) :
    let o := NackObs.run ops
    let want := (List.range' start (stop + 1 - start)).filter
      (fun s => s ∉ o.arrived ∧ o.requested.count s < 5)
    (o.reg.nackReports.1.getD []).flatten.flatMap (fun e => e.intoIter ref) = want ∧
    (o.reg.nackReports.1 = none ↔ want = []) ∧
    ∀ msg ∈ o.reg.nackReports.1.getD [], 1 ≤ msg.length ∧ msg.length ≤ 31 := by
  intro o
  have hg := NackObs.good_run ops hf
  have ho : NackObs.run ops = o := rfl
  rw [ho] at hg hact
  obtain ⟨hi, _, _, fits⟩ := hg
  obtain ⟨⟨pk, act⟩, arrived, accepted, requested⟩ := o
  simp only [] at hi fits hact ⊢
  clear ho
  subst hact
  have hi' := hi
  obtain _ | ⟨_, _, _, _, _, hle, hwin, clear, recv, top, endIn, startOut, cnt, le5, future⟩ := hi
  have hen := fits stop endIn
  obtain ⟨h1, h2, _⟩ := hi'.nackReports start stop rfl ref hr
    (fun t h1 h2 => ⟨by omega, by omega, by omega⟩)
  have hw : needed pk start (stop + 1 - start) =
      (List.range' start (stop + 1 - start)).filter
        (fun s => s ∉ arrived ∧ requested.count s < 5) := by
    unfold needed
    apply List.filter_congr
    intro s hs
    rw [List.mem_range'_1] at hs
    have r := recv s (by omega) (by omega)
    have c := cnt s (by omega) (by omega)
    rw [Bool.eq_iff_iff]
    simp only [PacketStatus.needsNack, Bool.and_eq_true, Bool.not_eq_true', decide_eq_true_eq, c,
      MAX_NACKS]
    rw [← r]; simp
  rw [hw] at h1 h2
  refine ⟨h1, h2, ?_⟩
  intro msg hm
  simp only [NackRegister.nackReports] at hm
  split at hm
  · simp at hm
  · exact listsFromIter_len _ 0 [] (by simp) (by simp) (by simp) (by simp) msg hm

/-- Non-vacuity: a history with a gap, a duplicate, an old packet and two NACK rounds. -/
example :
    let o := NackObs.run [.recv 10, .recv 13, .nack, .recv 13, .recv 11, .recv 3, .nack]
    o.reg.active = some (12, 13) ∧ o.accepted = [11, 13, 10] ∧ o.requested = [11, 12, 12] := by
  decide

end Str0m
