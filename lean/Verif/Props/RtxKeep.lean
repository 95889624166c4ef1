import Verif.Proofs.RtxKeep
/-
  C86, the sender's cache: what it keeps.
-/
namespace Str0m
open EvictingBuffer

/-- The packets sent since the last clear, with the time, latest first -/
def since (ops : List RtxOp) : List (CachedPacket × Nat) :=
  ops.foldl (fun l op => match op with | .send p now => (p, now) :: l | .clear => []) []

/-- Each packet has the number after that of the packet before it -/
def Consecutive (l : List (CachedPacket × Nat)) : Prop := l.IsChain (fun b a => b.1.seqNo = a.1.seqNo + 1)

structure Kept (m a : Nat) (o : RtxObs) (l : List (CachedPacket × Nat)) : Prop where
  good : o.Good m a
  sent : o.sent = l.map (·.1)
  none : l = [] → ∀ i, o.cache.packets.slot i = none
  time : ∀ p t rest, l = (p, t) :: rest → t ≤ o.time
  last : Consecutive l → ∀ p t rest, l = (p, t) :: rest → o.cache.packets.lastPosition = some p.seqNo
  keep : Consecutive l → ∀ p t rest, l = (p, t) :: rest → o.cache.packets.Near p.seqNo ∧
    ∀ j q u, l[j]? = some (q, u) → j < max 10 m → t ≤ u + a →
      o.cache.packets.slot (q.seqNo % o.cache.packets.buf.length) = some ⟨q.seqNo, u, q⟩

theorem chain_number {l : List (CachedPacket × Nat)} (h : Consecutive l) {p : CachedPacket} {t : Nat} {rest : List (CachedPacket × Nat)} (e : l = (p, t) :: rest) :
    ∀ j q u, l[j]? = some (q, u) → p.seqNo = q.seqNo + j := by
  induction l generalizing p t rest with
  | nil => cases e
  | cons x l ih =>
    cases e
    intro j q u hj
    cases j with
    | zero => simp at hj; rw [hj.1]; rfl
    | succ j =>
      cases l with
      | nil => simp at hj
      | cons y l =>
        have hc := List.isChain_cons_cons.1 h
        have := ih hc.2 (p := y.1) (t := y.2) (rest := l) rfl j q u (by simpa using hj)
        have := hc.1
        dsimp only at this
        omega

theorem Kept.pushed {m a : Nat} (ha : 0 < a) {o o' : RtxObs} {l : List (CachedPacket × Nat)} (h : Kept m a o l) (p : CachedPacket) (now : Nat)
    (hp : p.payload.length < 2000) (ht : o.time ≤ now) (hcon : Consecutive ((p, now) :: l)) (e1 : o.step (.send p now) = .ok o') :
    o'.cache.packets.lastPosition = some p.seqNo ∧ o'.cache.packets.Near p.seqNo ∧
      ∀ j q u, ((p, now) :: l)[j]? = some (q, u) → j < max 10 m → now ≤ u + a →
        o'.cache.packets.slot (q.seqNo % o'.cache.packets.buf.length) = some ⟨q.seqNo, u, q⟩ := by
  -- the new state of the cache
  have hq : p.payload.length / RTX_QUANTIZER < o.cache.bySize.length := by
    rw [h.good.slots]; simp only [RTX_QUANTIZER, RTX_SLOTS]; omega
  have hc' : o'.cache.packets = (o.cache.packets.push p.seqNo now p).maybeEvict now := by
    simp only [RtxObs.step, RtxCache.cacheSent, hq, if_true, Res.bind_ok] at e1
    cases e1; rfl
  have h10 := h.good.len
  have hni : ¬ o.cache.packets.isInert = true := by
    simp only [isInert, Bool.or_eq_true, List.isEmpty_iff, beq_iff_eq, h.good.age]
    rintro (hc | hc)
    · have := h10.1; rw [hc] at this; simp at this
    · omega
  have hlast : o.cache.packets.lastTimeout ≤ now := Nat.le_trans h.good.clock ht
  obtain ⟨p1, p2, p3, p4, p5, p6, p7, p8⟩ := push_spec o.cache.packets h.good.inv p.seqNo now p
  obtain ⟨q1, q2, q3, q4, q5, q6, q7⟩ := maybeEvict_spec _ p1 now
  rw [← hc'] at q1 q2 q3 q6
  rw [p4, h.good.age] at q6
  suffices hs : (∀ n, o.cache.packets.nextEvict = some n → n ≤ p.seqNo) ∧ (o.cache.packets.push p.seqNo now p).Near p.seqNo ∧ ∀ j q u, ((p, now) :: l)[j]? = some (q, u) → j < max 10 m → now ≤ u + a →
      (o.cache.packets.push p.seqNo now p).slot (q.seqNo % (o.cache.packets.push p.seqNo now p).buf.length) = some ⟨q.seqNo, u, q⟩ by
    refine ⟨by rw [hc', maybeEvict_last]; exact push_last hni hlast hs.1, fun i e he => ?_, fun j q u hj hjm hy => ?_⟩
    · rw [q3]
      obtain ⟨k, hk⟩ := q2 e ⟨i, he⟩
      exact hs.2.1 k e hk
    · rw [q3]
      exact q6 _ _ (hs.2.2 j q u hj hjm hy) hy
  cases l with
  | nil =>
    have hno := h.none rfl
    have hne : ∀ n, o.cache.packets.nextEvict = some n → n ≤ p.seqNo := by
      intro n hn
      rw [h.good.first (by rw [h.sent]; rfl)] at hn
      cases hn
    refine ⟨hne, fun i e he => ?_, fun j q u hj _ _ => ?_⟩
    · rcases p2 e ⟨i, he⟩ with rfl | ⟨⟨k, hk⟩, _⟩
      · dsimp only; omega
      · rw [hno] at hk; cases hk
    · cases j with
      | zero =>
        simp only [List.getElem?_cons_zero, Option.some.injEq, Prod.mk.injEq] at hj
        obtain ⟨rfl, rfl⟩ := hj
        exact p8 hni hlast hne
      | succ j => simp at hj
  | cons y l =>
    obtain ⟨r, tr⟩ := y
    have hcc := List.isChain_cons_cons.1 hcon
    have hr : p.seqNo = r.seqNo + 1 := hcc.1
    obtain ⟨near, keep⟩ := h.keep hcc.2 r tr l rfl
    have htr := h.time r tr l rfl
    have hne : ∀ n, o.cache.packets.nextEvict = some n → n ≤ r.seqNo + 1 := by
      intro n hn
      have := keep 0 r tr rfl (by omega) (by omega)
      obtain ⟨n', a1, a2⟩ := h.good.inv.low _ _ this
      rw [hn] at a1; cases a1
      dsimp only at a2; omega
    rw [hr] at p8 ⊢
    obtain ⟨k1, k2⟩ := push_keep h.good.inv near (now := now) (v := p) hni hlast hne
    refine ⟨hne, k1, fun j q u hj hjm hy => ?_⟩
    cases j with
    | zero =>
      simp only [List.getElem?_cons_zero, Option.some.injEq, Prod.mk.injEq] at hj
      obtain ⟨rfl, rfl⟩ := hj
      rw [hr]
      exact p8 hni hlast hne
    | succ j =>
      have hj' : ((r, tr) :: l)[j]? = some (q, u) := by simpa using hj
      have hold := keep j q u hj' (by omega) (by omega)
      have hnum := chain_number hcc.2 rfl j q u hj'
      refine k2 _ _ hold ?_
      dsimp only
      have := h.good.size
      have := h10.1
      omega

theorem Kept.send {m a : Nat} (ha : 0 < a) {o : RtxObs} {l : List (CachedPacket × Nat)} (h : Kept m a o l) (p : CachedPacket) (now : Nat)
    (hp : p.payload.length < 2000) (ht : o.time ≤ now) :
    ∃ o', o.step (.send p now) = .ok o' ∧ Kept m a o' ((p, now) :: l) ∧ o'.time = now := by
  obtain ⟨o', e1, g1, s1, t1⟩ := h.good.send p now hp ht
  refine ⟨o', e1, ⟨g1, by rw [s1, h.sent]; rfl, fun hc => (by cases hc), fun q u rest he => (by cases he; omega), fun hcon p' t' rest he => ?_, fun hcon p' t' rest he => ?_⟩, t1⟩
  · cases he
    exact (h.pushed ha p now hp ht hcon e1).1
  · cases he
    exact (h.pushed ha p now hp ht hcon e1).2
theorem Kept.clear {m a : Nat} {o : RtxObs} {l : List (CachedPacket × Nat)} (h : Kept m a o l) :
    Kept m a { o with cache := o.cache.clear, sent := [] } [] := by
  refine ⟨h.good.clear, rfl, fun _ i => ?_, fun _ _ _ h => (by cases h), fun _ _ _ _ h => (by cases h), fun _ _ _ _ h => (by cases h)⟩
  simp only [RtxCache.clear, EvictingBuffer.slot, EvictingBuffer.clear, List.getD_eq_getElem?_getD, List.getElem?_replicate]
  split <;> rfl

theorem kept_run {m a : Nat} (ha : 0 < a) (ops : List RtxOp) : ∀ (o : RtxObs) (l : List (CachedPacket × Nat)), Kept m a o l → RtxOp.Valid o.time ops →
    ∃ o', o.runFrom ops = .ok o' ∧
      Kept m a o' (ops.foldl (fun l op => match op with | .send p now => (p, now) :: l | .clear => []) l) := by
  induction ops with
  | nil => intro o l h _; exact ⟨o, rfl, h⟩
  | cons op ops ih =>
    intro o l h hv
    cases op with
    | send p now =>
      obtain ⟨hv1, hv2, hv3⟩ := hv
      obtain ⟨o1, e1, g1, t1⟩ := h.send ha p now hv1 hv2
      obtain ⟨o2, e2, g2⟩ := ih o1 _ g1 (by rw [t1]; exact hv3)
      exact ⟨o2, by simp only [RtxObs.runFrom, e1, Res.bind_ok, e2], g2⟩
    | clear =>
      obtain ⟨o2, e2, g2⟩ := ih _ _ h.clear hv
      exact ⟨o2, by simp only [RtxObs.runFrom, RtxObs.step, Res.bind_ok, e2], g2⟩

/-- **C86** (the cache): when the numbers of the packets sent are consecutive, a packet can be looked up as long as fewer than the configured
number of packets were sent after it, and the last of them not later than the configured age. -/
theorem C86_kept (maxPackets maxAge : Nat) (ha : 0 < maxAge) (ops : List RtxOp) (hv : RtxOp.Valid 0 ops) (hc : Consecutive (since ops)) :
    ∃ o, RtxObs.run maxPackets maxAge ops = .ok o ∧ ∀ j q u, (since ops)[j]? = some (q, u) → j < max 10 maxPackets →
      (∀ x ∈ since ops, x.2 ≤ u + maxAge) → o.cache.getBySeqNo q.seqNo = some q := by
  have k0 : Kept maxPackets maxAge { cache := .new maxPackets maxAge } [] := by
    refine ⟨RtxObs.good_new _ _, rfl, fun _ i => ?_, fun _ _ _ h => (by cases h), fun _ _ _ _ h => (by cases h), fun _ _ _ _ h => (by cases h)⟩
    simp only [RtxCache.new, EvictingBuffer.slot, EvictingBuffer.new, List.getD_eq_getElem?_getD, List.getElem?_replicate]
    split <;> rfl
  obtain ⟨o, e, k⟩ := kept_run ha ops _ [] k0 hv
  refine ⟨o, e, fun j q u hj hjm hy => ?_⟩
  change Kept maxPackets maxAge o (since ops) at k
  obtain ⟨x, rest, hl⟩ : ∃ x rest, since ops = x :: rest := by
    cases h : since ops with
    | nil => rw [h] at hj; simp at hj
    | cons x rest => exact ⟨x, rest, rfl⟩
  have := (k.keep hc x.1 x.2 rest hl).2 j q u hj hjm (hy x (by rw [hl]; exact List.mem_cons_self ..))
  have h10 := k.good.len.1
  have hni : ¬ o.cache.packets.isInert = true := by
    simp only [isInert, Bool.or_eq_true, List.isEmpty_iff, beq_iff_eq, k.good.age]
    rintro (hc | hc)
    · rw [hc] at h10; simp at h10
    · omega
  simp [RtxCache.getBySeqNo, EvictingBuffer.get, hni, indexFor, this]

/-- Thirty packets in a cache of at most 20; the 20th latest is there. -/
example : ∃ ops : List RtxOp, RtxOp.Valid 0 ops ∧ Consecutive (since ops) ∧ (since ops).length = 30 ∧ (since ops)[19]? = some (⟨110, [1], {}⟩, 10) ∧
    ∀ x ∈ since ops, x.2 ≤ 10 + 50 := by
  refine ⟨(List.range 30).map (fun i => .send ⟨100 + i, [1], {}⟩ i), ?_, ?_, ?_, ?_, ?_⟩
  · simp [RtxOp.Valid, List.range, List.range.loop]
  · simp [Consecutive, since, List.range, List.range.loop]
  · decide +kernel
  · decide +kernel
  · decide +kernel

/-- Without consecutive numbers packets get lost: the first of three packets, in a cache for 100 -/
theorem C86_violation_gaps : ∃ ops : List RtxOp, RtxOp.Valid 0 ops ∧ ((since ops).map (·.1.seqNo)) = [13, 3, 0] ∧
    ∃ o, RtxObs.run 100 1000 ops = .ok o ∧ o.cache.getBySeqNo 0 = none := by
  refine ⟨[.send ⟨0, [1], {}⟩ 0, .send ⟨3, [1], {}⟩ 0, .send ⟨13, [1], {}⟩ 0], ?_, rfl, ?_⟩
  · simp [RtxOp.Valid]
  · refine ⟨_, rfl, ?_⟩
    decide +kernel

end Str0m
