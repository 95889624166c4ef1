import Verif.Model.Register
import Verif.Proofs.NackReport
/-
  C06: reception statistics.
-/
namespace Str0m
open ReceiverRegister

/-- What can happen to a receive stream. -/
inductive RrOp where
  | recv (seq : Nat)   -- a packet arrives
  | nack               -- a NACK round
  | report             -- a reception report is generated

/-- What an observer has seen: arrivals (latest first), how many of them were new, and the
two numbers (expected, received) at the previous report. -/
structure RrObs where
  reg : ReceiverRegister
  arrived : List Nat := []
  received : Nat := 0
  prior : Nat × Nat := (0, 0)

/-- RFC 3550 A.3 "expected": from the first number that arrived to the highest one. -/
def RrObs.expectedNow (o : RrObs) : Nat :=
  match o.arrived.getLast?, o.arrived.max? with
  | some first, some high => high - first + 1
  | _, _ => 0

def RrObs.step (o : RrObs) : RrOp → RrObs
  | .recv seq =>
    { o with
      reg := (o.reg.update seq).1
      arrived := seq :: o.arrived
      received := if (o.reg.update seq).2 then o.received + 1 else o.received }
  | .nack => { o with reg := { o.reg with nack := o.reg.nack.nackReports.2 } }
  | .report => { o with reg := o.reg.receptionReport.1, prior := (o.expectedNow, o.received) }

def RrObs.run (ops : List RrOp) : RrObs := ops.foldl RrObs.step { reg := .new none }

def RrOp.Fits : RrOp → Prop
  | .recv s => s < 2 ^ 63 - 1
  | _ => True

private theorem max?_of {l : List Nat} {m : Nat} (hm : m ∈ l) (h : ∀ x ∈ l, x ≤ m) : l.max? = some m := by
  rw [List.max?_eq_some_iff]
  exact ⟨hm, h⟩

theorem NackInv.empty_of_none {r : NackRegister} {hist req : List Nat} (h : NackInv r hist req)
    (ha : r.active = none) : hist = [] := by
  cases h with
  | fresh => rfl
  | run => cases ha

/-- Invariant. `got` is a ghost list of the accepted numbers. -/
structure RrObs.Good (o : RrObs) : Prop where
  fits : ∀ s ∈ o.arrived, s < 2 ^ 63 - 1
  inv : ∃ req, NackInv o.reg.nack o.arrived req
  first : o.reg.first = o.arrived.getLast?
  low : ∀ st en, o.reg.nack.active = some (st, en) → ∀ f, o.reg.first = some f → f ≤ st
  count : o.reg.count = o.received
  got : ∃ got : List Nat, got.length = o.received ∧ got.Nodup ∧ (∀ s ∈ got, s ∈ o.arrived) ∧
    ∀ f, o.reg.first = some f → ∀ s ∈ got, f ≤ s
  ep : o.reg.expectedPrior = o.prior.1
  rp : o.reg.receivedPrior = o.prior.2
  mono : o.prior.1 ≤ o.expectedNow ∧ o.prior.2 ≤ o.received
  grow : o.prior.1 < o.expectedNow → o.prior.2 < o.received

private theorem expected_eq {f en : Nat} (h : en < 2 ^ 63 - 1) : expected f en = ((en - f + 1 : Nat) : Int) := by
  unfold expected
  congr 1
  omega

private theorem expectedNow_eq {o : RrObs} {req : List Nat} {st en : Nat}
    (hi : NackInv o.reg.nack o.arrived req) (ha : o.reg.nack.active = some (st, en)) :
    ∃ f, o.arrived.getLast? = some f ∧ f ≤ en ∧ o.expectedNow = en - f + 1 ∧ en ∈ o.arrived ∧
      (∀ s ∈ o.arrived, s ≤ en) := by
  obtain ⟨⟨⟨pk, act⟩, fi, co, ep, rp⟩, arrived, received, prior⟩ := o
  simp only at hi ha
  subst ha
  obtain _ | ⟨_, _, _, _, _, hle, hwin, clear, recv, top, endIn, startOut, cnt, le5, future⟩ := hi
  have hmax := max?_of endIn top
  cases hl : arrived.getLast? with
  | none => rw [List.getLast?_eq_none_iff] at hl; subst hl; simp at endIn
  | some f =>
    have hf : f ∈ arrived := List.mem_of_getLast? hl
    exact ⟨f, rfl, top f hf, by simp [RrObs.expectedNow, hl, hmax], endIn, top⟩

theorem RrObs.Good.step {o : RrObs} (h : o.Good) (op : RrOp) (hf : op.Fits) : (o.step op).Good := by
  obtain ⟨fits, ⟨req, inv⟩, first, low, count, ⟨got, g1, g2, g3, g4⟩, ep, rp, mono, grow⟩ := h
  cases op with
  | recv seq =>
    have inv' := inv.update seq
    have hfirst' : (o.step (.recv seq)).reg.first = (seq :: o.arrived).getLast? := by
      simp only [RrObs.step, ReceiverRegister.update]
      cases ha : o.arrived with
      | nil => rw [first, ha]; rfl
      | cons x xs =>
        have e1 : (seq :: x :: xs).getLast? = (x :: xs).getLast? := by simp [List.getLast?_cons_cons]
        rw [e1, first, ha]
        cases hh : (x :: xs).getLast? with
        | none => rw [List.getLast?_eq_none_iff] at hh; cases hh
        | some v => rfl
    have hnk : (o.step (.recv seq)).reg.nack = (o.reg.nack.update seq).1 := rfl
    have hnew : (o.reg.update seq).2 = (o.reg.nack.update seq).2 := rfl
    -- case split on the register
    cases hact : o.reg.nack.active with
    | none =>
      have hempty : o.arrived = [] := inv.empty_of_none hact
      have hupd : o.reg.nack.update seq = (o.reg.nack.initWithSeq seq, true) := by
        simp [NackRegister.update, hact]
      have hrec0 : o.received = 0 := by
        rw [← g1]; cases got with
        | nil => rfl
        | cons x xs => have := g3 x (by simp); rw [hempty] at this; simp at this
      have hexp : (o.step (.recv seq)).expectedNow = 1 := by
        simp [RrObs.step, RrObs.expectedNow, hempty]
      have hexp0 : o.expectedNow = 0 := by simp [RrObs.expectedNow, hempty]
      refine ⟨?_, ⟨req, inv'⟩, hfirst', ?_, ?_, ⟨[seq], ?_⟩, ep, rp, ?_, ?_⟩
      · intro s hs; simp [RrObs.step, hempty] at hs; subst hs; exact hf
      · intro st en h1 f h2
        rw [hnk, hupd] at h1
        rw [hfirst', hempty] at h2
        simp [NackRegister.initWithSeq] at h1 h2
        omega
      · simp [RrObs.step, ReceiverRegister.update, hupd, count]
      · refine ⟨?_, by simp, ?_, ?_⟩
        · simp [RrObs.step, ReceiverRegister.update, hupd, hrec0]
        · simp [RrObs.step]
        · intro f h2 s hs
          rw [hfirst', hempty] at h2
          simp at h2 hs; omega
      · rw [hexp]
        constructor
        · have := mono.1; rw [hexp0] at this; simp only [RrObs.step]; omega
        · have := mono.2; simp [RrObs.step, ReceiverRegister.update, hupd]; omega
      · intro _
        have := mono.2
        simp [RrObs.step, ReceiverRegister.update, hupd]; omega
    | some p =>
      obtain ⟨st, en⟩ := p
      obtain ⟨f, hl, hfe, hexp, hein, htop⟩ := expectedNow_eq inv hact
      have hfst : o.reg.first = some f := by rw [first, hl]
      have hne : o.arrived ≠ [] := by intro hc; rw [hc] at hein; simp at hein
      have hl' : (seq :: o.arrived).getLast? = some f := by
        rw [List.getLast?_cons_of_ne_nil hne, hl]
      have hlow := low st en hact f hfst
      have hrun : (⟨o.reg.nack.packets, some (st, en)⟩ : NackRegister) = o.reg.nack := by
        rw [← hact]
      have hur := (hrun ▸ inv : NackInv ⟨o.reg.nack.packets, some (st, en)⟩ o.arrived req).update_run seq
      rw [hrun] at hur
      obtain ⟨_, hflag, st', en', hact', hst', hen'⟩ := hur
      have hmax : (seq :: o.arrived).max? = some (max en seq) := by
        apply max?_of
        · by_cases hc : seq ≤ en
          · have : max en seq = en := by omega
            rw [this]; simp [hein]
          · have : max en seq = seq := by omega
            rw [this]; simp
        · intro s hs; simp at hs; rcases hs with rfl | hs
          · omega
          · have := htop s hs; omega
      have hexp' : (o.step (.recv seq)).expectedNow = max en seq - f + 1 := by
        simp only [RrObs.step, RrObs.expectedNow, hl', hmax]
      have hgrow : o.expectedNow < (o.step (.recv seq)).expectedNow → (o.reg.nack.update seq).2 = true := by
        rw [hexp, hexp']
        intro hc
        rw [hflag]
        have : en < seq := by omega
        refine ⟨by have := hrun ▸ inv; cases this; omega, fun hm => ?_⟩
        have := htop seq hm; omega
      refine ⟨?_, ⟨req, inv'⟩, hfirst', ?_, ?_, ?_, ep, rp, ?_, ?_⟩
      · intro s hs; simp [RrObs.step] at hs; rcases hs with rfl | hs
        · exact hf
        · exact fits s hs
      · intro st2 en2 h1 f2 h2
        rw [hnk, hact'] at h1
        rw [hfirst', hl'] at h2
        simp at h1 h2
        omega
      · simp only [RrObs.step, ReceiverRegister.update]
        rw [count]; rfl
      · by_cases hb : (o.reg.nack.update seq).2 = true
        · refine ⟨seq :: got, ?_, ?_, ?_, ?_⟩
          · simp [RrObs.step, hnew, hb, g1]
          · rw [List.nodup_cons]
            exact ⟨fun hc => (hflag.1 hb).2 (g3 _ hc), g2⟩
          · intro s hs; simp at hs; rcases hs with rfl | hs
            · simp [RrObs.step]
            · simp [RrObs.step, g3 s hs]
          · intro f2 h2 s hs
            rw [hfirst', hl'] at h2
            simp at h2 hs
            subst h2
            rcases hs with rfl | hs
            · have := (hflag.1 hb).1; omega
            · exact g4 f hfst s hs
        · refine ⟨got, ?_, g2, ?_, ?_⟩
          · simp [RrObs.step, hnew, hb, g1]
          · intro s hs; simp [RrObs.step, g3 s hs]
          · intro f2 h2 s hs
            rw [hfirst', hl'] at h2
            simp at h2; subst h2
            exact g4 f hfst s hs
      · rw [hexp']
        have m1 := mono.1
        have m2 := mono.2
        rw [hexp] at m1
        constructor
        · simp only [RrObs.step]; omega
        · simp only [RrObs.step]; split <;> omega
      · intro hc
        have m2 := mono.2
        by_cases hg : o.expectedNow < (o.step (.recv seq)).expectedNow
        · have hb := hgrow hg
          simp only [RrObs.step, hnew, hb, if_true]; omega
        · have : o.prior.1 < o.expectedNow := by
            have hc' : o.prior.1 < (o.step (.recv seq)).expectedNow := hc
            omega
          have := grow this
          simp only [RrObs.step]; split <;> omega
  | nack =>
    cases hact : o.reg.nack.active with
    | none =>
      have hn : o.reg.nack.nackReports.2 = o.reg.nack := by simp [NackRegister.nackReports, hact]
      have : o.step .nack = o := by
        simp only [RrObs.step]; rw [hn]
      rw [this]
      exact ⟨fits, ⟨req, inv⟩, first, low, count, ⟨got, g1, g2, g3, g4⟩, ep, rp, mono, grow⟩
    | some p =>
      obtain ⟨st, en⟩ := p
      have hcl := expectedNow_eq inv hact
      obtain ⟨f, hl, hfe, hexp, hein, htop⟩ := hcl
      have hwin : en ≤ st + 100 := by
        have hrun : (⟨o.reg.nack.packets, some (st, en)⟩ : NackRegister) = o.reg.nack := by
          rw [← hact]
        rw [← hrun] at inv
        cases inv; assumption
      have hn := inv.nackReports st en hact en (by have := fits en hein; omega)
        (fun t h1 h2 => by
          have := fits en hein
          exact ⟨by omega, by omega, by omega⟩)
      obtain ⟨_, _, n1, n2, _⟩ := hn
      refine ⟨fits, ⟨_, n1⟩, first, ?_, count, ⟨got, g1, g2, g3, g4⟩, ep, rp, mono, grow⟩
      intro st2 en2 h1 f2 h2
      have h1' : o.reg.nack.nackReports.2.active = some (st2, en2) := h1
      rw [n2] at h1'
      simp only [Option.some.injEq, Prod.mk.injEq] at h1'
      obtain ⟨rfl, rfl⟩ := h1'
      exact low st en hact f2 h2
  | report =>
    cases hact : o.reg.nack.active with
    | none =>
      have hempty : o.arrived = [] := inv.empty_of_none hact
      have hrec0 : o.received = 0 := by
        rw [← g1]; cases got with
        | nil => rfl
        | cons x xs => have := g3 x (by simp); rw [hempty] at this; simp at this
      have hexp0 : o.expectedNow = 0 := by simp [RrObs.expectedNow, hempty]
      have hp1 : o.prior.1 = 0 := by have := mono.1; omega
      have hp2 : o.prior.2 = 0 := by have := mono.2; omega
      have hrr : o.reg.receptionReport.1 = o.reg := by
        simp [ReceiverRegister.receptionReport, NackRegister.maxSeq, hact]
      refine ⟨fits, ⟨req, ?_⟩, ?_, ?_, ?_, ⟨got, g1, g2, g3, ?_⟩, ?_, ?_, ?_, ?_⟩ <;>
        simp only [RrObs.step, hrr]
      · exact inv
      · exact first
      · exact low
      · exact count
      · exact g4
      · rw [ep, hp1, hexp0]
      · rw [rp, hp2, hrec0]
      · exact ⟨Nat.le_refl _, Nat.le_refl _⟩
      · intro hc
        exact absurd hc (Nat.lt_irrefl _)
    | some p =>
      obtain ⟨st, en⟩ := p
      obtain ⟨f, hl, hfe, hexp, hein, htop⟩ := expectedNow_eq inv hact
      have hfst : o.reg.first = some f := by rw [first, hl]
      have hrr : o.reg.receptionReport.1 =
          { o.reg with expectedPrior := expected f en, receivedPrior := o.reg.count } := by
        simp [ReceiverRegister.receptionReport, NackRegister.maxSeq, hact, hfst,
          ReceiverRegister.fractionLost]
      have hee : expected f en = (o.expectedNow : Int) := by
        have := fits en hein
        rw [hexp]; exact expected_eq (by omega)
      refine ⟨fits, ⟨req, ?_⟩, ?_, ?_, ?_, ⟨got, g1, g2, g3, ?_⟩, ?_, ?_, ?_, ?_⟩ <;>
        simp only [RrObs.step, hrr]
      · exact inv
      · exact first
      · exact low
      · exact count
      · exact g4
      · exact hee
      · rw [count]
      · exact ⟨Nat.le_refl _, Nat.le_refl _⟩
      · intro hc
        exact absurd hc (Nat.lt_irrefl _)

theorem RrObs.good_run (ops : List RrOp) (hf : ∀ op ∈ ops, op.Fits) : (RrObs.run ops).Good := by
  unfold RrObs.run
  have h0 : RrObs.Good { reg := .new none } := by
    refine ⟨by simp, ⟨[], NackInv.fresh _ (fun _ => rfl)⟩, rfl, ?_, rfl, ⟨[], by simp⟩, rfl, rfl, by simp, ?_⟩
    · intro st en h; cases h
    · intro h; simp [RrObs.expectedNow] at h
  revert h0
  generalize ({ reg := .new none } : RrObs) = o
  induction ops generalizing o with
  | nil => exact fun h => h
  | cons op ops ih =>
    intro h
    exact ih (fun p hp => hf p (by simp [hp])) _ (h.step op (hf op (by simp)))

private theorem length_le_of_nodup_range {l : List Nat} {a b : Nat} (hn : l.Nodup)
    (h : ∀ x ∈ l, a ≤ x ∧ x ≤ b) (_hab : a ≤ b) : l.length ≤ b - a + 1 := by
  have hsub : l ⊆ List.range' a (b - a + 1) := by
    intro x hx
    have := h x hx
    rw [List.mem_range'_1]; omega
  have := (List.Nodup.subperm hn hsub).length_le
  simpa using this

/-- C06, cumulative loss: after every history (arrivals in any order, duplicated or lost, NACK
rounds, reports) a reception report states exactly expected - received, clamped to the top of
the 24 bit range, and this is never negative; a report exists iff a packet has arrived, and
carries the highest number seen. -/
theorem C06_packets_lost (ops : List RrOp) (hf : ∀ op ∈ ops, op.Fits) :
    let o := RrObs.run ops
    match o.reg.receptionReport.2 with
    | none => o.arrived = []
    | some rr => o.received ≤ o.expectedNow ∧
        rr.packetsLost = min (o.expectedNow - o.received) 0x7fffff ∧
        o.arrived.max?.map (· % 2 ^ 32) = some rr.maxSeq := by
  intro o
  have hg := RrObs.good_run ops hf
  have ho : RrObs.run ops = o := rfl
  rw [ho] at hg
  obtain ⟨fits, ⟨req, inv⟩, first, low, count, ⟨got, g1, g2, g3, g4⟩, ep, rp, mono, grow⟩ := hg
  cases hact : o.reg.nack.active with
  | none =>
    have hempty : o.arrived = [] := inv.empty_of_none hact
    have : o.reg.receptionReport.2 = none := by
      simp [ReceiverRegister.receptionReport, NackRegister.maxSeq, hact]
    rw [this]; exact hempty
  | some p =>
    obtain ⟨st, en⟩ := p
    obtain ⟨f, hl, hfe, hexp, hein, htop⟩ := expectedNow_eq inv hact
    have hfst : o.reg.first = some f := by rw [first, hl]
    have hee : expected f en = (o.expectedNow : Int) := by
      have := fits en hein
      rw [hexp]; exact expected_eq (by omega)
    have hle : o.received ≤ o.expectedNow := by
      rw [hexp, ← g1]
      exact length_le_of_nodup_range g2 (fun s hs => ⟨g4 f hfst s hs, htop s (g3 s hs)⟩) hfe
    simp only [ReceiverRegister.receptionReport, NackRegister.maxSeq, hact, hfst, Option.map_some]
    refine ⟨hle, ?_, ?_⟩
    · rw [hee, count]
      simp only [packetsLost]
      split
      · omega
      · split
        · omega
        · omega
    · rw [max?_of hein htop]; rfl

/-- The property for the loss fraction: 256 * lost / expected of the interval, and 0 if nothing
was lost in the interval. -/
def FractionSpec (expectedInterval receivedInterval fraction : Nat) : Prop :=
  fraction = 256 * (expectedInterval - receivedInterval) / expectedInterval

/-- C06, loss fraction, partial: the reported fraction is right after every history in which,
since the previous report, at most as many new packets arrived as numbers were newly expected.
Missing: the case of late arrivals, where the code is wrong (see `C06_fraction_violation`). -/
theorem C06_fraction_lost_partial (ops : List RrOp) (hf : ∀ op ∈ ops, op.Fits) :
    let o := RrObs.run ops
    o.received - o.prior.2 ≤ o.expectedNow - o.prior.1 →
    ∀ rr, o.reg.receptionReport.2 = some rr →
      FractionSpec (o.expectedNow - o.prior.1) (o.received - o.prior.2) rr.fractionLost := by
  intro o hle rr hrr
  have hg := RrObs.good_run ops hf
  have ho : RrObs.run ops = o := rfl
  rw [ho] at hg
  obtain ⟨fits, ⟨req, inv⟩, first, low, count, ⟨got, g1, g2, g3, g4⟩, ep, rp, mono, grow⟩ := hg
  cases hact : o.reg.nack.active with
  | none =>
    have : o.reg.receptionReport.2 = none := by
      simp [ReceiverRegister.receptionReport, NackRegister.maxSeq, hact]
    rw [this] at hrr; cases hrr
  | some p =>
    obtain ⟨st, en⟩ := p
    obtain ⟨f, hl, hfe, hexp, hein, htop⟩ := expectedNow_eq inv hact
    have hfst : o.reg.first = some f := by rw [first, hl]
    have hee : expected f en = (o.expectedNow : Int) := by
      have := fits en hein
      rw [hexp]; exact expected_eq (by omega)
    simp only [ReceiverRegister.receptionReport, NackRegister.maxSeq, hact, hfst, Option.map_some,
      Option.some.injEq] at hrr
    subst hrr
    simp only [FractionSpec, hee, ReceiverRegister.fractionLost, ep, rp, count]
    obtain ⟨m1, m2⟩ := mono
    generalize o.expectedNow = E at *
    generalize o.received = R at *
    generalize o.prior.1 = E0 at *
    generalize o.prior.2 = R0 at *
    obtain ⟨d, rfl⟩ : ∃ d, E = E0 + d := ⟨E - E0, by omega⟩
    obtain ⟨c, rfl⟩ : ∃ c, R = R0 + c := ⟨R - R0, by omega⟩
    have hcd : c ≤ d := by omega
    have e1 : ((E0 + d : Nat) : Int) - E0 = d := by omega
    have e2 : ((R0 + c : Nat) : Int) - R0 = c := by omega
    have e3 : E0 + d - E0 = d := by omega
    have e4 : R0 + c - R0 = c := by omega
    rw [e1, e2, e3, e4]
    by_cases h0 : (d : Int) = 0 ∨ (d : Int) - c = 0
    · rw [if_pos h0]
      have : d - c = 0 := by omega
      rw [this]; simp
    · rw [if_neg h0]
      have hd : 0 < d := by omega
      have hc : 0 < c := by have := grow (by omega); omega
      have e5 : ((d : Int) - c) * 256 = ((256 * (d - c) : Nat) : Int) := by push_cast; omega
      have hlt : 256 * (d - c) / d < 256 := by
        rw [Nat.div_lt_iff_lt_mul hd]
        have : d - c < d := by omega
        omega
      rw [e5, ← Int.ofNat_tdiv]
      generalize 256 * (d - c) / d = q at hlt ⊢
      omega

/-- C06, the violation: a history with late arrivals. 0 and 10 arrive, a report is
made, then the late 1, 2, 3 and the new 11..15 arrive: nothing was lost in
the interval, yet the report claims 103/256 loss. `register.rs` line 226 tests
`lost_interval == 0` where RFC 3550 A.3 tests `<= 0`. -/
theorem C06_fraction_violation :
    let o := RrObs.run ([.recv 0, .recv 10, .report] ++
      [1, 2, 3, 11, 12, 13, 14, 15].map RrOp.recv)
    o.expectedNow - o.prior.1 = 5 ∧ o.received - o.prior.2 = 8 ∧
    ∃ rr, o.reg.receptionReport.2 = some rr ∧ rr.fractionLost = 103 ∧
      ¬ FractionSpec (o.expectedNow - o.prior.1) (o.received - o.prior.2) rr.fractionLost := by
  refine ⟨by decide, by decide, ⟨103, 8 - 2, 15⟩, by decide, by decide, by
    unfold FractionSpec; decide⟩

/-- C06, the 24 bit clamp at function level: a cumulative loss of less than `-0x7fffff` is
encoded as `0x8000000`, whose low 24 bits (the wire field, rr.rs 65-66) are zero. It takes more
than 8 million packets beyond the expected ones to get there. -/
theorem C06_clamp_violation : packetsLost 0 0x800000 % 2 ^ 24 = 0 := by decide

/-- C06: within the range, the 24 bits on the wire are the two's complement of the (clamped)
difference. -/
theorem C06_packets_lost_wire (e r : Int) (h : -0x7fffff ≤ e - r) :
    (packetsLost e r % 2 ^ 24 : Nat) = ((min (e - r) 0x7fffff) % 2 ^ 24).toNat := by
  simp only [packetsLost]
  split
  · have : min (e - r) 0x7fffff = 0x7fffff := by omega
    rw [this]; decide
  · split
    · omega
    · omega

/-- Non-vacuity of the partial theorem: an interval with real loss. -/
example :
    let o := RrObs.run ([.recv 0, .report] ++ [1, 2, 5, 10].map RrOp.recv)
    o.received - o.prior.2 ≤ o.expectedNow - o.prior.1 ∧
    (o.reg.receptionReport.2 = some ⟨153, 6, 10⟩) := by decide

end Str0m
