import Verif.Model.SendQueue
import Mathlib.Algebra.BigOperators.Group.List.Basic
/-
  C09: the send queue refines a plain FIFO that remembers when each packet was first seen.
-/
namespace Str0m

/-! ### Specification -/

/-- The specification: packets waiting with the time their waiting began, and packets not yet
noticed by a timeout, oldest first. -/
structure WaitList where
  waiting : List (List Byte × Nat) := []
  fresh : List (List Byte) := []
  lastOut : Option Nat := none

/-- What the owner of the queue does. -/
inductive QOp where
  | push (payload : List Byte)
  | timeout (now : Nat)
  | pop (now : Nat)
  | stats (now : Nat)
  | clear

/-- What the owner sees. -/
inductive QOut where
  | nothing
  | popped (p : Option (List Byte))
  | stats (count bytes time : Nat) (oldest lastOut : Option Nat)
deriving DecidableEq

/-- Total waiting time at `now`. -/
def waitSum (now : Nat) (l : List (List Byte × Nat)) : Nat := (l.map (fun w => now - w.2)).sum

/-- Total payload bytes. -/
def byteSum (l : List (List Byte × Nat)) : Nat := (l.map (fun w => w.1.length)).sum

def WaitList.step (w : WaitList) : QOp → WaitList × QOut
  | .push p => ({ w with fresh := w.fresh ++ [p] }, .nothing)
  | .timeout now =>
    ({ w with waiting := w.waiting ++ w.fresh.map (·, now), fresh := [] }, .nothing)
  | .pop now =>
    match w.waiting with
    | [] => (w, .popped none)
    | x :: rest => ({ w with waiting := rest, lastOut := some now }, .popped (some x.1))
  | .stats now =>
    (w, .stats w.waiting.length (byteSum w.waiting) (waitSum now w.waiting)
          (w.waiting.head?.map (·.2)) w.lastOut)
  | .clear => ({}, .nothing)

/-- Outputs of a whole history of the specification. -/
def WaitList.run (w : WaitList) : List QOp → List QOut
  | [] => []
  | op :: ops => (w.step op).2 :: (w.step op).1.run ops

/-- Time does not go backwards. -/
def QOp.Ordered : Nat → List QOp → Prop
  | _, [] => True
  | t, .timeout now :: ops => t ≤ now ∧ QOp.Ordered now ops
  | t, .pop now :: ops => t ≤ now ∧ QOp.Ordered now ops
  | t, .stats now :: ops => t ≤ now ∧ QOp.Ordered now ops
  | t, .push _ :: ops => QOp.Ordered t ops
  | t, .clear :: ops => QOp.Ordered t ops

/-! ### The implementation, driven by the same operations -/

def SendQueue.step (q : SendQueue) : QOp → Res Unit (SendQueue × QOut)
  | .push p => .ok (q.push { payload := p }, .nothing)
  | .timeout now => (q.handleTimeout now).bind fun q => .ok (q, .nothing)
  | .pop now => (q.pop now).bind fun (q, p) => .ok (q, .popped (p.map (·.payload)))
  | .stats now => (q.snapshot now).bind fun (q, s) =>
      .ok (q, .stats s.packetCount s.byteSize s.totalQueueTimeOrigin s.firstUnsent s.lastEmitted)
  | .clear => .ok (q.clear, .nothing)

def SendQueue.run (q : SendQueue) : List QOp → Res Unit (List QOut)
  | [] => .ok []
  | op :: ops => (q.step op).bind fun (q, o) => (q.run ops).bind fun os => .ok (o :: os)

/-! ### Refinement -/

def stamped (l : List (List Byte × Nat)) : List QPacket :=
  l.map (fun w => { payload := w.1, timestamp := some w.2 })

def unstamped (l : List (List Byte)) : List QPacket :=
  l.map (fun p => { payload := p, timestamp := none })

/-- The totals describe the list `l` of waiting packets as of their own clock. -/
def TotalsOf (t : TotalQueue) (l : List (List Byte × Nat)) (time : Nat) : Prop :=
  t.unsentCount = l.length ∧ t.unsentSize = byteSum l ∧
  (match t.last with
    | none => l = [] ∧ t.queueTime = 0
    | some c => l ≠ [] ∧ c ≤ time ∧ (∀ w ∈ l, w.2 ≤ c) ∧ t.queueTime = waitSum c l)

structure Refines (q : SendQueue) (w : WaitList) (time : Nat) : Prop where
  queue : q.queue = stamped w.waiting ++ unstamped w.fresh
  total : TotalsOf q.total w.waiting time
  out : q.lastEmitted = w.lastOut

theorem waitSum_later {c now : Nat} (h : c ≤ now) (l : List (List Byte × Nat))
    (hl : ∀ w ∈ l, w.2 ≤ c) : waitSum now l = waitSum c l + (now - c) * l.length := by
  induction l with
  | nil => simp [waitSum]
  | cons x l ih =>
    have h1 := ih (fun w hw => hl w (by simp [hw]))
    have h2 := hl x (by simp)
    simp only [waitSum, List.map_cons, List.sum_cons, List.length_cons] at *
    rw [h1, Nat.mul_add]
    omega

theorem TotalsOf.forward {t : TotalQueue} {l} {time now : Nat} (h : TotalsOf t l time)
    (hn : time ≤ now) : ∃ t', t.moveTimeForward now = .ok t' ∧ TotalsOf t' l now ∧
      t'.queueTime = waitSum now l ∧ (l ≠ [] → t'.last = some now) := by
  obtain ⟨h1, h2, h3⟩ := h
  unfold TotalQueue.moveTimeForward
  cases hl : t.last with
  | none =>
    rw [hl] at h3
    obtain ⟨rfl, h4⟩ := h3
    simp [byteSum] at h1 h2
    refine ⟨t, by simp [h1, h2, h4], ⟨by simp [h1], by simp [h2, byteSum], ?_⟩, by simp [waitSum, h4], by simp⟩
    rw [hl]; exact ⟨rfl, h4⟩
  | some c =>
    rw [hl] at h3
    obtain ⟨h4, h5, h6, h7⟩ := h3
    have hpos : t.unsentCount > 0 := by rw [h1]; exact List.length_pos_iff.mpr h4
    have hw := waitSum_later (c := c) (now := now) (by omega) l h6
    refine ⟨{ t with queueTime := t.queueTime + (now - c) * t.unsentCount, last := some now },
      by simp only [hpos, if_true], ⟨h1, h2, ?_⟩, ?_, fun _ => rfl⟩
    · refine ⟨h4, Nat.le_refl _, fun w hwm => by have := h6 w hwm; omega, ?_⟩
      simp only [h7, h1, hw]
    · simp only [h7, h1, hw]

theorem TotalsOf.increase {t : TotalQueue} {l} {time now : Nat} (h : TotalsOf t l time)
    (hn : time ≤ now) (p : List Byte) (l' : List (List Byte × Nat))
    (hl' : l'.Perm (l ++ [(p, now)])) :
    ∃ t', t.increase now p.length = .ok t' ∧ TotalsOf t' l' now := by
  obtain ⟨t1, e1, f1, f2, f3⟩ := h.forward hn
  have hb : byteSum l' = byteSum l + p.length := by
    unfold byteSum; rw [(hl'.map _).sum_eq]; simp
  have hw : waitSum now l' = waitSum now l := by
    unfold waitSum; rw [(hl'.map _).sum_eq]; simp
  refine ⟨_, by simp only [TotalQueue.increase, e1, Res.bind_ok]; rfl, ?_, ?_, ?_⟩
  · simp [hl'.length_eq, f1.1]
  · simp [hb, f1.2.1]
  · refine ⟨?_, Nat.le_refl _, ?_, ?_⟩
    · intro hc; have := hl'.length_eq; simp [hc] at this
    · intro w hwm
      rcases List.mem_append.mp (hl'.mem_iff.mp hwm) with hm | hm
      · have h3 := f1.2.2
        rw [f3 (List.ne_nil_of_mem hm)] at h3
        exact h3.2.2.1 w hm
      · simp at hm; rw [hm]
    · simp only [hw, f2]

theorem TotalsOf.mono {t : TotalQueue} {l} {time now : Nat} (h : TotalsOf t l time)
    (hn : time ≤ now) : TotalsOf t l now := by
  refine ⟨h.1, h.2.1, ?_⟩
  have h3 := h.2.2
  revert h3
  cases t.last with
  | none => exact id
  | some c => rintro ⟨a, b, c'⟩; exact ⟨a, by omega, c'⟩

/-- The loop over the reversed queue stamps exactly the fresh packets. -/
theorem stampLoop_spec (now : Nat) (fresh : List (List Byte)) :
    ∀ (waiting : List (List Byte × Nat)) (t : TotalQueue) (added : List (List Byte × Nat)) (time : Nat),
    time ≤ now → TotalsOf t (waiting ++ added) time →
    ∃ t', SendQueue.stampLoop now ((unstamped fresh) ++ (stamped waiting).reverse) t =
        .ok (stamped (fresh.map (·, now)) ++ (stamped waiting).reverse, t') ∧
      TotalsOf t' (waiting ++ (fresh.map (·, now)).reverse ++ added) now := by
  induction fresh with
  | nil =>
    intro waiting t added time hn h
    refine ⟨t, ?_, by simpa using h.mono hn⟩
    simp only [unstamped, stamped, List.map_nil, List.nil_append]
    cases hw : (List.map (fun w : List Byte × Nat => ({ payload := w.1, timestamp := some w.2 } : QPacket)) waiting).reverse with
    | nil => rfl
    | cons x xs =>
      have : x ∈ stamped waiting := by rw [← List.mem_reverse, stamped, hw]; simp
      simp only [stamped, List.mem_map] at this
      obtain ⟨w, _, rfl⟩ := this
      rfl
  | cons p fresh ih =>
    intro waiting t added time hn h
    obtain ⟨t1, e1, f1⟩ := h.increase hn p (waiting ++ ((p, now) :: added)) (by
      rw [List.append_assoc]
      exact List.Perm.append_left _ (List.perm_append_singleton _ _).symm)
    obtain ⟨t2, e2, f2⟩ := ih waiting t1 ((p, now) :: added) now (Nat.le_refl _) f1
    refine ⟨t2, ?_, by simpa using f2⟩
    simp only [unstamped, stamped, List.map_cons, List.cons_append, SendQueue.stampLoop, e1, Res.bind_ok] at e2 ⊢
    rw [e2]; rfl

theorem stamped_rev (l : List (List Byte × Nat)) : (stamped l).reverse = stamped l.reverse := by
  simp [stamped]

theorem Refines.timeout {q : SendQueue} {w : WaitList} {time now : Nat} (h : Refines q w time)
    (hn : time ≤ now) : ∃ q', q.handleTimeout now = .ok q' ∧
      Refines q' (w.step (.timeout now)).1 now := by
  obtain ⟨t', e1, f1⟩ := stampLoop_spec now w.fresh.reverse w.waiting q.total [] time hn
    (by simpa using h.total)
  have hq : q.queue.reverse = unstamped w.fresh.reverse ++ (stamped w.waiting).reverse := by
    rw [h.queue]; simp [unstamped]
  refine ⟨{ q with queue := (stamped (List.map (·, now) w.fresh.reverse) ++ (stamped w.waiting).reverse).reverse, total := t' },
    by simp only [SendQueue.handleTimeout, hq, e1, Res.bind_ok], ?_, ?_, h.out⟩
  · simp [WaitList.step, stamped, unstamped]
  · simpa [WaitList.step] using f1

theorem Refines.pop {q : SendQueue} {w : WaitList} {time now : Nat} (h : Refines q w time)
    (hn : time ≤ now) : ∃ q' p, q.pop now = .ok (q', p) ∧
      Refines q' (w.step (.pop now)).1 now ∧ (w.step (.pop now)).2 = .popped (p.map (·.payload)) := by
  cases hw : w.waiting with
  | nil =>
    refine ⟨q, none, ?_, ?_, by simp [WaitList.step, hw]⟩
    · have := h.queue
      rw [hw] at this
      simp only [SendQueue.pop]
      cases hf : w.fresh with
      | nil => rw [hf] at this; simp [stamped, unstamped] at this; rw [this]
      | cons x xs => rw [hf] at this; simp [stamped, unstamped] at this; rw [this]
    · simp only [WaitList.step, hw]
      exact ⟨h.queue, h.total.mono hn, h.out⟩
  | cons x rest =>
    obtain ⟨t1, e1, f1, f2, f3⟩ := h.total.forward hn
    have hqq := h.queue
    rw [hw] at hqq f1 f2 f3
    simp only [stamped, List.map_cons, List.cons_append] at hqq
    have f4 := f1.2.2
    rw [f3 (by simp)] at f4
    obtain ⟨_, _, g3, g4⟩ := f4
    have hb : t1.unsentSize = x.1.length + byteSum rest := by
      rw [f1.2.1]; simp [byteSum]
    have hwt : t1.queueTime = (now - x.2) + waitSum now rest := by
      rw [f2]; simp [waitSum]
    have hc : t1.unsentCount = rest.length + 1 := by rw [f1.1]; simp
    have hcond : 1 ≤ t1.unsentCount ∧ x.1.length ≤ t1.unsentSize ∧ (now - x.2) ≤ t1.queueTime := by
      omega
    have hsettle : ∃ t2, TotalQueue.settle { t1 with unsentCount := t1.unsentCount - 1, unsentSize := t1.unsentSize - x.1.length, queueTime := t1.queueTime - (now - x.2) } = .ok t2 ∧
        TotalsOf t2 rest now := by
      unfold TotalQueue.settle
      cases hr : rest with
      | nil =>
        rw [hr] at hc hb
        simp [byteSum] at hb hc
        refine ⟨{ unsentCount := 0, unsentSize := 0, queueTime := 0, last := none }, ?_, rfl, rfl, rfl, rfl⟩
        simp [hc, hb]
      | cons y ys =>
        rw [← hr]
        have hne : ¬ t1.unsentCount - 1 = 0 := by rw [hc, hr]; simp
        refine ⟨_, by simp only [hne, if_false]; rfl, ?_, ?_, ?_⟩
        · simp only [hc]; omega
        · simp only [hb]; omega
        · simp only [f3 (List.cons_ne_nil _ _)]
          refine ⟨by simp [hr], Nat.le_refl _, fun w hm => g3 w (by simp [hm]), ?_⟩
          rw [hwt]; omega
    obtain ⟨t2, e2, r2⟩ := hsettle
    refine ⟨{ queue := stamped rest ++ unstamped w.fresh, total := t2, lastEmitted := some now },
      some { payload := x.1, timestamp := some x.2 }, ?_, ?_, ?_⟩
    · simp only [SendQueue.pop, hqq, TotalQueue.decrease, e1, Res.bind_ok, hcond, and_self, if_true, e2]
      rfl
    · simp only [WaitList.step, hw]
      exact ⟨rfl, r2, rfl⟩
    · simp [WaitList.step, hw]

theorem Refines.stats {q : SendQueue} {w : WaitList} {time now : Nat} (h : Refines q w time)
    (hn : time ≤ now) : ∃ q' s, q.snapshot now = .ok (q', s) ∧ Refines q' w now ∧
      (w.step (.stats now)).2 = .stats s.packetCount s.byteSize s.totalQueueTimeOrigin s.firstUnsent s.lastEmitted ∧
      s.createdAt = some now ∧ (s.priority = .empty ↔ w.waiting = []) := by
  obtain ⟨t1, e1, f1, f2, f3⟩ := h.total.forward hn
  refine ⟨{ q with total := t1 }, _, by simp only [SendQueue.snapshot, e1, Res.bind_ok]; rfl, ⟨h.queue, f1, h.out⟩, ?_, rfl, ?_⟩
  · simp only [WaitList.step, QOut.stats.injEq]
    refine ⟨f1.1.symm, f1.2.1.symm, f2.symm, ?_, h.out.symm⟩
    rw [h.queue]
    cases hw : w.waiting with
    | nil =>
      have : (unstamped w.fresh).find? (fun p => p.timestamp ≠ none) = none := by
        rw [List.find?_eq_none]; intro x hx
        simp only [unstamped, List.mem_map] at hx
        obtain ⟨_, _, rfl⟩ := hx; simp
      simp only [stamped, List.map_nil, List.nil_append, this]
      rfl
    | cons x rest => simp [stamped]
  · simp only [f1.1]
    cases w.waiting <;> simp

theorem Refines.step {q : SendQueue} {w : WaitList} {time : Nat} (h : Refines q w time)
    (op : QOp) (ops : List QOp) (ho : QOp.Ordered time (op :: ops)) :
    ∃ q' time', q.step op = .ok (q', (w.step op).2) ∧ Refines q' (w.step op).1 time' ∧
      QOp.Ordered time' ops := by
  cases op with
  | push p =>
    refine ⟨_, time, rfl, ⟨?_, h.total, h.out⟩, ho⟩
    simp [SendQueue.push, h.queue, WaitList.step, unstamped]
  | timeout now =>
    obtain ⟨q', e, r⟩ := h.timeout ho.1
    exact ⟨q', now, by simp [SendQueue.step, e, WaitList.step], r, ho.2⟩
  | pop now =>
    obtain ⟨q', p, e, r, o⟩ := h.pop ho.1
    exact ⟨q', now, by simp only [SendQueue.step, e, Res.bind_ok, o], r, ho.2⟩
  | stats now =>
    obtain ⟨q', s, e, r, o, _⟩ := h.stats ho.1
    exact ⟨q', now, by simp only [SendQueue.step, e, Res.bind_ok, o], r, ho.2⟩
  | clear =>
    exact ⟨_, time, rfl, ⟨rfl, ⟨rfl, rfl, rfl, rfl⟩, rfl⟩, ho⟩

theorem Refines.run (ops : List QOp) : ∀ (q : SendQueue) (w : WaitList) (time : Nat),
    Refines q w time → QOp.Ordered time ops → q.run ops = .ok (w.run ops) := by
  induction ops with
  | nil => intros; rfl
  | cons op ops ih =>
    intro q w time h ho
    obtain ⟨q', t', e, r, o⟩ := h.step op ops ho
    simp only [SendQueue.run, e, Res.bind_ok, ih q' _ t' r o, WaitList.run]

/-- **C09**: for every history of pushes, timeouts, pops, statistics requests and clears in which
time does not go backwards, the send queue never panics (no assertion fails, no subtraction
underflows) and everything it reports – popped packets and statistics – is exactly what a plain
first-in-first-out list of (packet, start of waiting) would report. -/
theorem C09_refines_fifo (ops : List QOp) (h : QOp.Ordered 0 ops) :
    ({} : SendQueue).run ops = .ok (({} : WaitList).run ops) :=
  Refines.run ops _ _ 0 ⟨rfl, ⟨rfl, rfl, rfl, rfl⟩, rfl⟩ h

/-- Merging a list of snapshots into the empty one, as `StreamTx::queue_state` does. -/
def mergeAll (l : List QueueSnapshot) : QueueSnapshot := l.foldl QueueSnapshot.merge {}

theorem merge_fold (l : List QueueSnapshot) : ∀ (t : Nat) (a : QueueSnapshot),
    (∀ s ∈ l, s.createdAt = some t) → (a.createdAt = some t ∨ (a.createdAt = none ∧ a.packetCount = 0)) →
    let m := l.foldl QueueSnapshot.merge a
    m.byteSize = a.byteSize + (l.map (·.byteSize)).sum ∧
    m.packetCount = a.packetCount + (l.map (·.packetCount)).sum ∧
    ∀ now, m.totalQueueTime now = a.totalQueueTime now + (l.map (·.totalQueueTime now)).sum := by
  induction l with
  | nil => intro t a _ _; simp
  | cons x l ih =>
    intro t a h1 h2
    have hx := h1 x (by simp)
    obtain ⟨i1, i2, i3⟩ := ih t (a.merge x) (fun s hs => h1 s (by simp [hs])) (by
      left
      rcases h2 with h2 | h2
      · simp [QueueSnapshot.merge, QueueSnapshot.minInstant, h2, hx]
      · simp [QueueSnapshot.merge, QueueSnapshot.minInstant, h2.1, hx])
    refine ⟨?_, ?_, fun now => ?_⟩
    · simp only [List.foldl_cons, i1, List.map_cons, List.sum_cons]; simp only [QueueSnapshot.merge]; omega
    · simp only [List.foldl_cons, i2, List.map_cons, List.sum_cons]; simp only [QueueSnapshot.merge]; omega
    · simp only [List.foldl_cons, i3, List.map_cons, List.sum_cons]
      rcases h2 with h2 | ⟨h2, h3⟩
      · simp only [QueueSnapshot.merge, QueueSnapshot.totalQueueTime, h2, hx, QueueSnapshot.minInstant,
          Nat.min_self, Nat.add_mul]; omega
      · simp only [QueueSnapshot.merge, QueueSnapshot.totalQueueTime, h2, h3, hx, QueueSnapshot.minInstant,
          Nat.add_mul]; omega

/-- **C09**: merging snapshots that were taken at one time adds up sizes, counts and the total
waiting time as seen at any later time. -/
theorem C09_merge_adds (l : List QueueSnapshot) (t : Nat) (h : ∀ s ∈ l, s.createdAt = some t) :
    (mergeAll l).byteSize = (l.map (·.byteSize)).sum ∧
    (mergeAll l).packetCount = (l.map (·.packetCount)).sum ∧
    ∀ now, (mergeAll l).totalQueueTime now = (l.map (·.totalQueueTime now)).sum := by
  have := merge_fold l t {} h (Or.inr ⟨rfl, rfl⟩)
  simpa [mergeAll, QueueSnapshot.totalQueueTime] using this

/-- **C09**: a merged queue counts as empty exactly when all parts do, and its oldest packet is
the oldest of any part. -/
theorem C09_merge_priority (a b : QueueSnapshot) :
    ((a.merge b).priority = .empty ↔ a.priority = .empty ∧ b.priority = .empty) ∧
    (∀ t, (a.merge b).firstUnsent = some t →
      (a.firstUnsent = some t ∨ b.firstUnsent = some t) ∧
      (∀ x, a.firstUnsent = some x → t ≤ x) ∧ (∀ x, b.firstUnsent = some x → t ≤ x)) := by
  constructor
  · simp only [QueueSnapshot.merge]
    cases a.priority <;> cases b.priority <;> simp [QueuePriority.rank]
  · intro t
    simp only [QueueSnapshot.merge]
    cases a.firstUnsent <;> cases b.firstUnsent <;> simp [QueueSnapshot.minFirst] <;> omega

/-- A concrete history and what it shows. -/
def queueDemo : List QOp :=
  [.push [1, 2], .push [3], .pop 1, .timeout 2, .push [4, 5, 6], .stats 5, .timeout 6, .pop 7, .stats 9]

example : QOp.Ordered 0 queueDemo := by simp [queueDemo, QOp.Ordered]

example : ({} : SendQueue).run queueDemo = .ok
    [.nothing, .nothing, .popped none, .nothing, .nothing, .stats 2 3 6 (some 2) none, .nothing,
      .popped (some [1, 2]), .stats 2 4 10 (some 2) (some 7)] := by decide

example : ∀ s ∈ [({ createdAt := some 5, byteSize := 3 } : QueueSnapshot), { createdAt := some 5, packetCount := 1 }],
    s.createdAt = some 5 := by decide
end Str0m
