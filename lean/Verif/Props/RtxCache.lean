import Verif.Proofs.RtxCache
/-
  C07, C08: the resend cache.
-/
namespace Str0m
open EvictingBuffer

/-- What the sender does with the cache. -/
inductive RtxOp where
  /-- A nackable packet is sent at time `now`. -/
  | send (p : CachedPacket) (now : Nat)
  | clear

/-- Cache plus what an observer knows: the packets sent since the last clear (latest first)
and the latest time. -/
structure RtxObs where
  cache : RtxCache
  sent : List CachedPacket := []
  time : Nat := 0

def RtxObs.step (o : RtxObs) : RtxOp → Res Unit RtxObs
  | .send p now => (o.cache.cacheSent p now).bind fun c =>
      .ok { cache := c, sent := p :: o.sent, time := now }
  | .clear => .ok { o with cache := o.cache.clear, sent := [] }

/-- Run a history from the state `o`. -/
def RtxObs.runFrom (o : RtxObs) : List RtxOp → Res Unit RtxObs
  | [] => .ok o
  | op :: ops => (o.step op).bind fun o => o.runFrom ops

/-- Run a history from a new cache. -/
def RtxObs.run (maxPackets maxAge : Nat) (ops : List RtxOp) : Res Unit RtxObs :=
  RtxObs.runFrom { cache := .new maxPackets maxAge } ops

/-- Payloads fit in a datagram buffer (2000 bytes) and time does not go backwards. -/
def RtxOp.Valid : Nat → List RtxOp → Prop
  | _, [] => True
  | t, .send p now :: ops => p.payload.length < 2000 ∧ t ≤ now ∧ RtxOp.Valid now ops
  | t, .clear :: ops => RtxOp.Valid t ops

/-- The latest packet sent with that number. -/
def latest (sent : List CachedPacket) (seq : Nat) : Option CachedPacket :=
  sent.find? (fun p => p.seqNo = seq)

structure RtxObs.Good (maxPackets maxAge : Nat) (o : RtxObs) : Prop where
  inv : o.cache.packets.Inv
  own : ∀ e, o.cache.packets.Has e →
    e.value.seqNo = e.position ∧ latest o.sent e.position = some e.value ∧ e.timestamp ≤ o.time
  clock : o.cache.packets.lastTimeout ≤ o.time
  len : 10 ≤ o.cache.packets.buf.length ∧ o.cache.packets.buf.length ≤ max 10 maxPackets
  size : o.cache.packets.maxSize = maxPackets
  age : o.cache.packets.maxAge = maxAge
  slots : o.cache.bySize.length = RTX_SLOTS
  bySize : ∀ (q s : Nat), o.cache.bySize[q]? = some s → s ≠ SEQ_MAX →
    ∃ p ∈ o.sent, p.seqNo = s ∧ p.payload.length / RTX_QUANTIZER = q
  off : maxAge = 0 → ∀ e, ¬ o.cache.packets.Has e
  first : o.sent = [] → o.cache.packets.nextEvict = none
  head : 0 < maxAge → ∀ p rest, o.sent = p :: rest → (o.sent.map (·.seqNo)).Pairwise (· > ·) →
      o.cache.packets.get p.seqNo = some p

theorem RtxObs.good_new (maxPackets maxAge : Nat) :
    RtxObs.Good maxPackets maxAge { cache := .new maxPackets maxAge } := by
  have hs : ∀ i, (EvictingBuffer.new 10 maxAge maxPackets : EvictingBuffer CachedPacket).slot i = none := by
    intro i
    simp only [EvictingBuffer.slot, EvictingBuffer.new, List.getD_eq_getElem?_getD, List.getElem?_replicate]
    split <;> rfl
  refine ⟨⟨?_, ?_⟩, ?_, ?_, ?_, rfl, rfl, ?_, ?_, ?_, ?_, ?_⟩
  · intro i e he; exact absurd ((hs i).symm.trans he) (by simp)
  · intro i e he; exact absurd ((hs i).symm.trans he) (by simp)
  · rintro e ⟨i, he⟩; exact absurd ((hs i).symm.trans he) (by simp)
  · simp [RtxCache.new, EvictingBuffer.new]
  · simp [RtxCache.new, EvictingBuffer.new]
  · simp [RtxCache.new]
  · intro q s h hs
    simp only [RtxCache.new, List.getElem?_replicate] at h
    split at h
    · simp at h; exact absurd h.symm hs
    · cases h
  · rintro _ e ⟨i, he⟩; exact absurd ((hs i).symm.trans he) (by simp)
  · intro _; rfl
  · intro _ p rest h; cases h

theorem RtxObs.Good.clear {m a : Nat} {o : RtxObs} (h : o.Good m a) :
    RtxObs.Good m a { o with cache := o.cache.clear, sent := [] } := by
  have hs : ∀ i, o.cache.packets.clear.slot i = none := by
    intro i
    simp only [EvictingBuffer.slot, EvictingBuffer.clear, List.getD_eq_getElem?_getD, List.getElem?_replicate]
    split <;> rfl
  refine ⟨⟨?_, ?_⟩, ?_, ?_, ?_, h.size, h.age, ?_, ?_, ?_, ?_, ?_⟩
  · intro i e he; exact absurd ((hs i).symm.trans he) (by simp)
  · intro i e he; exact absurd ((hs i).symm.trans he) (by simp)
  · rintro e ⟨i, he⟩; exact absurd ((hs i).symm.trans he) (by simp)
  · simp [RtxCache.clear, EvictingBuffer.clear]
  · simpa [RtxCache.clear, EvictingBuffer.clear] using h.len
  · simp [RtxCache.clear]
  · intro q s h hs
    simp only [RtxCache.clear, List.getElem?_replicate] at h
    split at h
    · simp at h; exact absurd h.symm hs
    · cases h
  · rintro _ e ⟨i, he⟩; exact absurd ((hs i).symm.trans he) (by simp)
  · intro _; rfl
  · intro _ p rest h; cases h

theorem RtxObs.Good.send {m a : Nat} {o : RtxObs} (h : o.Good m a) (p : CachedPacket) (now : Nat)
    (hp : p.payload.length < 2000) (ht : o.time ≤ now) :
    ∃ o', o.step (.send p now) = .ok o' ∧ o'.Good m a ∧ o'.sent = p :: o.sent ∧ o'.time = now := by
  have hq : p.payload.length / RTX_QUANTIZER < o.cache.bySize.length := by
    rw [h.slots]; simp only [RTX_QUANTIZER, RTX_SLOTS]; omega
  refine ⟨_, by simp only [RtxObs.step, RtxCache.cacheSent, hq, if_true, Res.bind_ok]; rfl, ?_, rfl, rfl⟩
  obtain ⟨p1, p2, p3, p4, p5, p6, p7, p8⟩ := push_spec o.cache.packets h.inv p.seqNo now p
  obtain ⟨q1, q2, q3, q4, q5, q6, q7⟩ := maybeEvict_spec _ p1 now
  have hlast : o.cache.packets.lastTimeout ≤ now := Nat.le_trans h.clock ht
  have h10 := h.len.1
  have h11 := h.len.2
  -- the packet just pushed, if it was stored
  have hstored : 0 < a → (∀ n, o.cache.packets.nextEvict = some n → n ≤ p.seqNo) →
      ((o.cache.packets.push p.seqNo now p).maybeEvict now).get p.seqNo = some p := by
    intro ha hn
    have hni : ¬ o.cache.packets.isInert = true := by
      simp only [isInert, Bool.or_eq_true, List.isEmpty_iff, beq_iff_eq, h.age]
      rintro (hc | hc)
      · rw [hc] at h10; simp at h10
      · omega
    have hsl := p8 hni hlast hn
    have hsl2 := q6 _ _ hsl (by simp)
    have hni2 : ¬ ((o.cache.packets.push p.seqNo now p).maybeEvict now).isInert = true := by
      simp only [isInert, Bool.or_eq_true, List.isEmpty_iff, beq_iff_eq, q4, p4, h.age]
      rintro (hc | hc)
      · have := q3; rw [hc] at this; simp at this; omega
      · omega
    have hsl3 : ((o.cache.packets.push p.seqNo now p).maybeEvict now).slot
        (((o.cache.packets.push p.seqNo now p).maybeEvict now).indexFor p.seqNo) =
        some ⟨p.seqNo, now, p⟩ := by
      simp only [indexFor, q3]; exact hsl2
    simp [EvictingBuffer.get, hni2, hsl3]
  refine ⟨q1, ?_, ?_, ?_, ?_, ?_, ?_, ?_, ?_, ?_, ?_⟩
  · intro e he
    rcases p2 e (q2 e he) with rfl | ⟨c1, c2⟩
    · refine ⟨rfl, ?_, Nat.le_refl _⟩
      simp [latest]
    · obtain ⟨d1, d2, d3⟩ := h.own e c1
      refine ⟨d1, ?_, by simp only; omega⟩
      rcases c2 with c2 | c2 | c2
      · have : ¬ p.seqNo = e.position := fun hc => c2 hc.symm
        simp only [latest, List.find?_cons, this, decide_false]
        exact d2
      · exfalso
        simp only [isInert, Bool.or_eq_true, List.isEmpty_iff, beq_iff_eq] at c2
        rcases c2 with c2 | c2
        · rw [c2] at h10; simp at h10
        · rw [h.age] at c2; exact h.off c2 e c1
      · omega
  · simp only; omega
  · simp only [q3]; rw [h.size] at p7; omega
  · simp only [q5, p5, h.size]
  · simp only [q4, p4, h.age]
  · simp only [List.length_set]; exact h.slots
  · intro q s hs hne
    simp only [List.getElem?_set] at hs
    split at hs
    · rename_i hqq
      have hs' : p.seqNo = s := by simpa using hs
      exact ⟨p, by simp, hs', hqq⟩
    · obtain ⟨r, r1, r2⟩ := h.bySize q s hs hne
      exact ⟨r, by simp [r1], r2⟩
  · intro ha e he
    rcases p2 e (q2 e he) with rfl | ⟨c1, _⟩
    · have hin : o.cache.packets.isInert = true := by simp [isInert, h.age, ha]
      have hpe : o.cache.packets.push p.seqNo now p = o.cache.packets := by simp [push, hin]
      have hh := q2 _ he
      rw [hpe] at hh
      exact h.off ha _ hh
    · exact h.off ha e c1
  · intro hc; cases hc
  · intro ha p' rest hh hpw
    have hpr := List.cons.inj hh
    obtain ⟨rfl, rfl⟩ := hpr
    apply hstored ha
    intro n hn
    cases hso : o.sent with
    | nil => rw [h.first hso] at hn; cases hn
    | cons r rest' =>
      simp only [List.map_cons, List.pairwise_cons] at hpw
      have hg := h.head ha r rest' hso hpw.2
      obtain ⟨e, e1, e2, _⟩ := get_some hg
      obtain ⟨i, e1⟩ := e1
      obtain ⟨n', n1, n2⟩ := h.inv.low i e e1
      rw [hn] at n1; cases n1
      have := hpw.1 r.seqNo (by simp [hso])
      omega

/-- Every history of valid operations runs without panic and keeps the invariant. -/
theorem RtxObs.good_run {m a : Nat} (ops : List RtxOp) : ∀ (o : RtxObs), o.Good m a →
    RtxOp.Valid o.time ops → ∃ o', o.runFrom ops = .ok o' ∧ o'.Good m a := by
  induction ops with
  | nil => intro o h _; exact ⟨o, rfl, h⟩
  | cons op ops ih =>
    intro o h hv
    cases op with
    | send p now =>
      obtain ⟨hv1, hv2, hv3⟩ := hv
      obtain ⟨o1, e1, g1, _, t1⟩ := h.send p now hv1 hv2
      obtain ⟨o2, e2, g2⟩ := ih o1 g1 (by rw [t1]; exact hv3)
      exact ⟨o2, by simp only [RtxObs.runFrom, e1, Res.bind_ok, e2], g2⟩
    | clear =>
      obtain ⟨o2, e2, g2⟩ := ih _ h.clear hv
      exact ⟨o2, by simp only [RtxObs.runFrom, RtxObs.step, Res.bind_ok, e2], g2⟩

/-- **C07**: over every history of sent packets (that fit a datagram) and clears, the cache runs
without panic and a lookup by sequence number is either nothing or exactly the packet most
recently sent with that number since the last clear. -/
theorem C07_latest_or_nothing (maxPackets maxAge : Nat) (ops : List RtxOp)
    (hv : RtxOp.Valid 0 ops) :
    ∃ o, RtxObs.run maxPackets maxAge ops = .ok o ∧
      ∀ seq p, o.cache.getBySeqNo seq = some p → latest o.sent seq = some p := by
  obtain ⟨o, e, g⟩ := RtxObs.good_run ops _ (RtxObs.good_new maxPackets maxAge) hv
  refine ⟨o, e, fun seq p hp => ?_⟩
  obtain ⟨en, e1, e2, e3⟩ := get_some hp
  have := (g.own en e1).2.1
  rw [e2, e3] at this; exact this

/-- **C07**: asking for a packet smaller than `n` never panics (for `n` up to the slot table) and
yields only a packet of less than `n` bytes, provided no sequence number was re-used. -/
theorem C07_smaller_than (maxPackets maxAge : Nat) (ops : List RtxOp)
    (hv : RtxOp.Valid 0 ops) :
    ∃ o, RtxObs.run maxPackets maxAge ops = .ok o ∧
      ((o.sent.map (·.seqNo)).Nodup → ∀ n, n < 2025 →
        ∃ r, o.cache.getSmallerThan n = .ok r ∧
          ∀ p, r = some p → p ∈ o.sent ∧ p.payload.length < n) := by
  obtain ⟨o, e, g⟩ := RtxObs.good_run ops _ (RtxObs.good_new maxPackets maxAge) hv
  refine ⟨o, e, fun hnd n hn => ?_⟩
  have hq : n / RTX_QUANTIZER ≤ o.cache.bySize.length := by
    rw [g.slots]; simp only [RTX_QUANTIZER, RTX_SLOTS]; omega
  refine ⟨_, by simp only [RtxCache.getSmallerThan, hq, if_true]; rfl, ?_⟩
  intro p hp
  rw [Option.bind_eq_some_iff] at hp
  obtain ⟨s, h1, h2⟩ := hp
  have hmem := List.mem_of_find?_eq_some h1
  simp only [List.mem_filter, List.mem_reverse, decide_eq_true_eq] at hmem
  obtain ⟨i, hi, hie⟩ := List.getElem_of_mem hmem.1
  have hil : i < n / RTX_QUANTIZER := by
    simp only [List.length_take] at hi; omega
  have hbs : o.cache.bySize[i]? = some s := by
    rw [List.getElem_take] at hie
    rw [← hie]; exact List.getElem?_eq_getElem _
  obtain ⟨r, r1, r2, r3⟩ := g.bySize i s hbs hmem.2
  obtain ⟨en, e1, e2, e3⟩ := get_some h2
  have hl := (g.own en e1).2.1
  rw [e2, e3] at hl
  have hpm : p ∈ o.sent := List.mem_of_find?_eq_some hl
  have hps : p.seqNo = s := by
    have := List.find?_some hl; simpa using this
  have hpr : p = r := by
    have := List.inj_on_of_nodup_map hnd hpm r1 (by rw [hps, r2])
    exact this
  refine ⟨hpm, ?_⟩
  rw [hpr]
  simp only [RTX_QUANTIZER] at r3 hil
  omega

/-- **C07** (the cache is of use): when sequence numbers increase and the configured age is not
zero, the packet sent last can always be looked up. -/
theorem C07_last_sent_retrievable (maxPackets maxAge : Nat) (ha : 0 < maxAge) (ops : List RtxOp)
    (hv : RtxOp.Valid 0 ops) :
    ∃ o, RtxObs.run maxPackets maxAge ops = .ok o ∧
      ∀ p rest, o.sent = p :: rest → (o.sent.map (·.seqNo)).Pairwise (· > ·) →
        o.cache.getBySeqNo p.seqNo = some p := by
  obtain ⟨o, e, g⟩ := RtxObs.good_run ops _ (RtxObs.good_new maxPackets maxAge) hv
  exact ⟨o, e, fun p rest h1 h2 => g.head ha p rest h1 h2⟩

/-- **C08**: the number of packets in the cache never exceeds the configured maximum (or the
10 initial slots). -/
theorem C08_bound (maxPackets maxAge : Nat) (ops : List RtxOp) (hv : RtxOp.Valid 0 ops) :
    ∃ o, RtxObs.run maxPackets maxAge ops = .ok o ∧
      o.cache.packets.buf.length ≤ max 10 maxPackets ∧
      (o.cache.packets.buf.filter (·.isSome)).length ≤ max 10 maxPackets := by
  obtain ⟨o, e, g⟩ := RtxObs.good_run ops _ (RtxObs.good_new maxPackets maxAge) hv
  have := g.len.2
  exact ⟨o, e, this, Nat.le_trans (List.length_filter_le _ _) this⟩

/-- **C08**: the eviction loop terminates: in every reachable state, and for every time, it ends
within one round over the slots (the fuel bound is never exhausted), and removes no packet that
is still young enough. -/
theorem C08_evict_terminates (maxPackets maxAge : Nat) (ops : List RtxOp) (hv : RtxOp.Valid 0 ops) :
    ∃ o, RtxObs.run maxPackets maxAge ops = .ok o ∧
      ∀ now start, o.cache.packets.nextEvict = some start →
        ∃ b' p', evictLoop o.cache.packets now start (o.cache.packets.buf.length + 1) start =
            some (b', p') ∧
          ∀ e, o.cache.packets.Has e → now ≤ e.timestamp + maxAge → b'.Has e := by
  obtain ⟨o, e, g⟩ := RtxObs.good_run ops _ (RtxObs.good_new maxPackets maxAge) hv
  refine ⟨o, e, fun now start hs => ?_⟩
  have h10 := g.len.1
  obtain ⟨b', p', e1, _, _, _, _, _, _, _, _, e9⟩ :=
    evictLoop_spec now start o.cache.packets.buf.length o.cache.packets.maxAge (by omega)
      (o.cache.packets.buf.length + 1) start o.cache.packets rfl rfl (Nat.le_refl _) (by omega)
      (by omega)
      (by
        intro i e he
        obtain ⟨c1, c2⟩ := g.inv.home i e he
        obtain ⟨n, d1, d2⟩ := g.inv.low i e he
        rw [hs] at d1; simp at d1; subst d1
        exact ⟨c1, c2, d2⟩)
      (by intro q q1 q2; omega)
  refine ⟨b', p', e1, ?_⟩
  rintro en ⟨i, he⟩ hfr
  exact ⟨i, e9 i en he (by rw [g.age]; exact hfr)⟩

/-- A concrete history: 12 packets (so the buffer of 10 wraps), one re-sent number. -/
def rtxDemo : List RtxOp :=
  (List.range 12).map (fun i => .send { seqNo := 7 + i, payload := List.replicate (30 + i) 0 } i)
    ++ [.send { seqNo := 18, payload := [1, 2] } 12]

example : RtxOp.Valid 0 rtxDemo := by
  simp [rtxDemo, List.range, List.range.loop, RtxOp.Valid]

example : ∃ o, RtxObs.run 4 5 rtxDemo = .ok o ∧
    o.cache.getBySeqNo 18 = some { seqNo := 18, payload := [1, 2] } ∧
    o.cache.getBySeqNo 7 = none ∧ o.sent.length = 13 := by
  refine ⟨_, rfl, ?_, ?_, ?_⟩ <;> rfl

example : ∃ o, RtxObs.run 1000 500 (rtxDemo.take 12) = .ok o ∧
    (o.sent.map (·.seqNo)).Nodup ∧ (o.sent.map (·.seqNo)).Pairwise (· > ·) ∧
    o.cache.getSmallerThan 60 = .ok (some { seqNo := 18, payload := List.replicate 41 0 }) := by
  refine ⟨_, rfl, ?_, ?_, ?_⟩
  · decide
  · decide
  · rfl
end Str0m
