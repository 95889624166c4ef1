import Verif.Proofs.BufferRxPop
/-
  C19, C20, C21: the reordering/depacketizing buffer.
-/
namespace Str0m
open RxBuffer

/-! ### Specification vocabulary -/

/-- What the receiver does with the buffer. -/
inductive RxOp where
  | push (m : RxMeta) (data : List Byte)
  | padding (m : RxMeta)
  | pop

/-- The buffer with what an observer knows: the packets received (padding has no data), the frames
delivered, oldest first, and where the last delivered or undecodable frame ended. -/
structure RxObs (c : Codec) where
  buf : RxBuffer c
  received : List (RxMeta × List Byte) := []
  out : List Depacketized := []
  lastEnd : Option Nat := none

def lastSeq (d : Depacketized) : Option Nat := d.infos.getLast?.map (·.seq)

def RxObs.step {c : Codec} (o : RxObs c) : RxOp → Res Unit (RxObs c)
  | .push m data => .ok { o with buf := o.buf.push m data, received := (m, data) :: o.received }
  | .padding m => .ok { o with buf := o.buf.pushPadding m, received := (m, []) :: o.received }
  | .pop => o.buf.pop.bind fun (b, r) =>
      match r with
      | none => .ok { o with buf := b }
      | some (.error _) => .ok { o with buf := b, lastEnd := b.lastEmitted }
      | some (.ok d) => .ok { o with buf := b, out := o.out ++ [d], lastEnd := lastSeq d }

def RxObs.run {c : Codec} (o : RxObs c) : List RxOp → Res Unit (RxObs c)
  | [] => .ok o
  | op :: ops => (o.step op).bind fun o => o.run ops

/-- A new buffer. -/
def RxObs.start {c : Codec} (holdBack : Nat) (st : c.State) (cont : Contiguity) : RxObs c :=
  { buf := .new holdBack st cont }

/-- A complete run: consecutive numbers, one timestamp, and the first packet begins a partition
(as the codec decided on arrival). -/
def CompleteRun (c : Codec) (ps : List (RxMeta × List Byte)) : Prop :=
  ∃ m0 d0 rest, ps = (m0, d0) :: rest ∧ (∃ st, c.isHead st d0 = true) ∧
    ∀ i m d, ps[i]? = some (m, d) → m.seq = m0.seq + i ∧ m.time = m0.time

/-- `d` is a frame made of a complete run of received packets, decoded by the codec in order. -/
def FrameOf (c : Codec) (received : List (RxMeta × List Byte)) (d : Depacketized) : Prop :=
  ∃ ps, CompleteRun c ps ∧ (∀ p ∈ ps, p ∈ received) ∧ d.infos = ps.map (·.1) ∧
    (ps.head?.map (·.1.time)) = some d.time ∧
    ∃ es : List RxEntry, es.map (fun e => (e.info, e.data)) = ps ∧
      ∃ st st', depackLoop c st es ([], .none) = (st', .ok (d.data, d.extra))

/-! ### Invariant for C20 -/

structure RxObs.Frames {c : Codec} (o : RxObs c) : Prop where
  recv : ∀ e ∈ o.buf.queue, (e.info, e.data) ∈ o.received
  flag : ∀ e ∈ o.buf.queue, e.head = true → ∃ st, c.isHead st e.data = true
  cache : ∀ r d, o.buf.cache = some (r, d) → FrameOf c o.received d
  out : ∀ d ∈ o.out, FrameOf c o.received d

theorem FrameOf.mono {c : Codec} {l l' : List (RxMeta × List Byte)} {d : Depacketized}
    (h : FrameOf c l d) (hl : ∀ p ∈ l, p ∈ l') : FrameOf c l' d := by
  obtain ⟨ps, h1, h2, h3⟩ := h
  exact ⟨ps, h1, fun p hp => hl p (h2 p hp), h3⟩

/-- A decoded good segment is a frame. -/
theorem frame_of_seg {c : Codec} {q : List RxEntry} {received : List (RxMeta × List Byte)} {s t : Nat}
    {d : Depacketized} (hr : ∀ e ∈ q, (e.info, e.data) ∈ received)
    (hf : ∀ e ∈ q, e.head = true → ∃ st, c.isHead st e.data = true)
    (hg : GoodSeg q (s, t)) (hd : Decoded c (range q s t) d) : FrameOf c received d := by
  obtain ⟨g1, g2, e0, g3, g4, g5⟩ := hg
  simp only at g1 g2 g3 g5
  obtain ⟨d1, d2, st, st', d3⟩ := hd
  have hget : ∀ i, (range q s t)[i]? = if s + i ≤ t then q[s + i]? else none := range_getElem? q s t
  have h0 : (range q s t)[0]? = some e0 := by rw [hget]; simp [g1, g3]
  refine ⟨(range q s t).map (fun e => (e.info, e.data)), ?_, ?_, ?_, ?_, range q s t, rfl, st, st', d3⟩
  · cases hrange : range q s t with
    | nil => rw [hrange] at h0; simp at h0
    | cons e rest =>
      have : e = e0 := by rw [hrange] at h0; simpa using h0
      subst this
      refine ⟨e.info, e.data, rest.map (fun e => (e.info, e.data)), rfl,
        hf e (List.mem_of_getElem? g3) g4, ?_⟩
      intro i m dd hi
      rw [← hrange] at hi
      rw [List.getElem?_map, hget] at hi
      split at hi
      · rename_i hle
        obtain ⟨x, x1, x2, x3⟩ := g5 (s + i) (by omega) hle
        rw [x1] at hi
        simp at hi
        obtain ⟨rfl, rfl⟩ := hi
        exact ⟨by omega, x3⟩
      · simp at hi
  · intro p hp
    simp only [List.mem_map] at hp
    obtain ⟨e, he, rfl⟩ := hp
    exact hr e (range_subset q s t e he)
  · rw [d1]; simp
  · rw [← d2]; simp [List.head?_map]; rfl

theorem RxObs.Frames.pushEntry {c : Codec} {o : RxObs c} (h : o.Frames) (m : RxMeta) (data : List Byte)
    (p : Option (Bool × Bool)) (hp : p = none ∨ p = some (false, false)) :
    RxObs.Frames { o with buf := o.buf.pushEntry m data p, received := (m, data) :: o.received } := by
  have hbase : RxObs.Frames { o with received := (m, data) :: o.received } :=
    ⟨fun e he => List.mem_cons_of_mem _ (h.recv e he), h.flag,
     fun r d hc => (h.cache r d hc).mono (fun p hp => List.mem_cons_of_mem _ hp),
     fun d hd => (h.out d hd).mono (fun p hp => List.mem_cons_of_mem _ hp)⟩
  rcases pushEntry_cases o.buf m data p with hc | ⟨hd, tl, _, _, hhd, hhd2, hc⟩
  · rw [hc]; exact hbase
  · rw [hc]
    refine ⟨?_, ?_, hbase.cache, hbase.out⟩
    · intro e he
      rcases (mem_insertEntry _ _ _).mp he with rfl | he
      · simp
      · exact hbase.recv e he
    · intro e he
      rcases (mem_insertEntry _ _ _).mp he with rfl | he
      · intro hh
        simp only at hh
        rcases hp with rfl | rfl
        · rw [hhd rfl] at hh; exact ⟨_, hh⟩
        · rw [hhd2 rfl] at hh; cases hh
      · exact hbase.flag e he

theorem RxObs.Frames.discard {c : Codec} {o : RxObs c} (h : o.Frames) :
    RxObs.Frames { o with buf := o.buf.discardOldPadding } := by
  refine ⟨fun e he => h.recv e ((discard_queue _).subset he),
    fun e he => h.flag e ((discard_queue _).subset he), ?_, h.out⟩
  intro r d hc
  rcases discard_cache o.buf with hn | ⟨h1, _⟩
  · simp only [hn] at hc; cases hc
  · simp only [h1] at hc; exact h.cache r d hc

theorem RxObs.Frames.frame {c : Codec} {o : RxObs c} (h : o.Frames) {s t : Nat} {d : Depacketized}
    (hg : GoodSeg o.buf.queue (s, t))
    (hd : o.buf.cache = some ((s, t), d) ∨ Decoded c (range o.buf.queue s t) d) :
    FrameOf c o.received d := by
  rcases hd with hd | hd
  · exact h.cache _ d hd
  · exact frame_of_seg h.recv h.flag hg hd

theorem RxObs.Frames.step {c : Codec} {o : RxObs c} (h : o.Frames) (op : RxOp) :
    ∃ o', o.step op = .ok o' ∧ o'.Frames := by
  cases op with
  | push m data => exact ⟨_, rfl, h.pushEntry m data none (Or.inl rfl)⟩
  | padding m => exact ⟨_, rfl, h.pushEntry m [] _ (Or.inr rfl)⟩
  | pop =>
    obtain ⟨b', r, e, ho⟩ := pop_outcome o.buf
    simp only [RxObs.step, e, Res.bind_ok]
    cases ho with
    | nothing hs => exact ⟨_, rfl, h.discard⟩
    | failed s t en st u hg hfirst he =>
      refine ⟨_, rfl, ⟨fun x hx => h.recv x (List.mem_of_mem_drop hx), fun x hx => h.flag x (List.mem_of_mem_drop hx), ?_, h.out⟩⟩
      intro r d hc; cases hc
    | waits s t st d hg hfirst hd _ _ =>
      refine ⟨_, rfl, ?_⟩
      have : RxObs.Frames { o with buf := { o.buf with st := st, cache := some ((s, t), d) } } :=
        ⟨h.recv, h.flag, by
          intro r d' hc
          simp only [Option.some.injEq, Prod.mk.injEq] at hc
          obtain ⟨_, rfl⟩ := hc
          exact h.frame hg hd, h.out⟩
      exact this.discard
    | emits s t en st d k hg hfirst he hd hseq hhold =>
      have hfr := h.frame hg hd
      unfold RxBuffer.emit
      generalize o.buf.cont.check d.extra k = res
      obtain ⟨cont, canEmit, k'⟩ := res
      simp only
      cases canEmit with
      | false =>
        refine ⟨_, rfl, ⟨fun x hx => h.recv x (List.mem_of_mem_drop hx), fun x hx => h.flag x (List.mem_of_mem_drop hx), ?_, h.out⟩⟩
        intro r d hc; cases hc
      | true =>
        refine ⟨_, rfl, ⟨fun x hx => h.recv x (List.mem_of_mem_drop hx), fun x hx => h.flag x (List.mem_of_mem_drop hx), ?_, ?_⟩⟩
        · intro r d hc; cases hc
        · intro x hx
          simp only [List.mem_append, List.mem_singleton] at hx
          rcases hx with hx | rfl
          · exact h.out x hx
          · exact hfr

theorem RxObs.Frames.run {c : Codec} (ops : List RxOp) : ∀ (o : RxObs c), o.Frames →
    ∃ o', o.run ops = .ok o' ∧ o'.Frames := by
  induction ops with
  | nil => intro o h; exact ⟨o, rfl, h⟩
  | cons op ops ih =>
    intro o h
    obtain ⟨o1, e1, h1⟩ := h.step op
    obtain ⟨o2, e2, h2⟩ := ih o1 h1
    exact ⟨o2, by simp only [RxObs.run, e1, Res.bind_ok, e2], h2⟩

/-- **C20**: for every codec, hold-back and history of packets, padding and polls (in any order, with
duplicates and losses), the buffer never panics, and every delivered frame is a complete run of
received packets – consecutive sequence numbers, one timestamp, beginning with a packet that starts
a partition – decoded in order by the codec. -/
theorem C20_frames_complete (c : Codec) (holdBack : Nat) (st : c.State) (cont : Contiguity)
    (ops : List RxOp) :
    ∃ o, (RxObs.start holdBack st cont).run ops = .ok o ∧
      ∀ d ∈ o.out, FrameOf c o.received d := by
  obtain ⟨o, e, h⟩ := RxObs.Frames.run ops (RxObs.start (c := c) holdBack st cont)
    ⟨by simp [RxObs.start, RxBuffer.new], by simp [RxObs.start, RxBuffer.new],
     by simp [RxObs.start, RxBuffer.new], by simp [RxObs.start]⟩
  exact ⟨o, e, h.out⟩

/-! ### C19: order -/

/-- The decoded-ahead frame, if it would be used now, is the frame at the front of the queue. -/
def CacheOK {c : Codec} (b : RxBuffer c) : Prop :=
  ∀ r d, b.cache = some (r, d) → (segments b.queue).head? = some r →
    d.infos = (range b.queue r.1 r.2).map (·.info)

/-- `CacheOK` before every poll of the history. -/
def CacheOKAlong {c : Codec} (o : RxObs c) : List RxOp → Prop
  | [] => True
  | .pop :: ops => CacheOK o.buf ∧ ∀ o', o.step .pop = .ok o' → CacheOKAlong o' ops
  | op :: ops => ∀ o', o.step op = .ok o' → CacheOKAlong o' ops

/-- All sequence numbers delivered, in order of delivery. -/
def RxObs.delivered {c : Codec} (o : RxObs c) : List Nat := o.out.flatMap (fun d => d.infos.map (·.seq))

structure RxObs.Ordered {c : Codec} (o : RxObs c) : Prop where
  hold : 0 < o.buf.holdBack
  sorted : o.buf.queue.Pairwise (fun a b => a.info.seq < b.info.seq)
  above : ∀ last, o.buf.lastEmitted = some last → ∀ e ∈ o.buf.queue, last < e.info.seq
  incr : o.delivered.Pairwise (· < ·)
  below : ∀ s ∈ o.delivered, ∃ last, o.buf.lastEmitted = some last ∧ s ≤ last

theorem Ordered.pushEntry {c : Codec} {o : RxObs c} (h : o.Ordered) (m : RxMeta) (data : List Byte)
    (p : Option (Bool × Bool)) (rc : List (RxMeta × List Byte)) :
    RxObs.Ordered { o with buf := o.buf.pushEntry m data p, received := rc } := by
  rcases pushEntry_cases o.buf m data p with hc | ⟨hd, tl, hlast, hdup, _, _, hc⟩
  · rw [hc]; exact ⟨h.hold, h.sorted, h.above, h.incr, h.below⟩
  · rw [hc]
    refine ⟨h.hold, ?_, ?_, h.incr, h.below⟩
    · exact insertEntry_sorted _ _ h.sorted hdup
    · intro last hl e he
      rcases (mem_insertEntry _ _ _).mp he with rfl | he
      · exact hlast last hl h.hold
      · exact h.above last hl e he

theorem Ordered.discard {c : Codec} {o : RxObs c} (h : o.Ordered) :
    RxObs.Ordered { o with buf := o.buf.discardOldPadding } := by
  refine ⟨h.hold, h.sorted.sublist (discard_queue _), ?_, h.incr, ?_⟩
  · intro last' hl' e he
    cases hl : o.buf.lastEmitted with
    | none => rw [show _ = _ from discard_last_none _ hl] at hl'; cases hl'
    | some last =>
      obtain ⟨l2, a1, a2, a3, _⟩ := discard_last o.buf last hl h.sorted (h.above last hl)
      rw [show _ = _ from a1] at hl'; cases hl'
      exact a3 e he
  · intro s hs
    obtain ⟨last, hl, hle⟩ := h.below s hs
    obtain ⟨l2, a1, a2, _⟩ := discard_last o.buf last hl h.sorted (h.above last hl)
    exact ⟨l2, a1, by omega⟩

/-- Draining up to index `t` leaves only larger numbers. -/
theorem drop_above {q : List RxEntry} (hs : q.Pairwise (fun a b => a.info.seq < b.info.seq)) {t : Nat}
    {e : RxEntry} (he : q[t]? = some e) : ∀ x ∈ q.drop (t + 1), e.info.seq < x.info.seq := by
  intro x hx
  have hlt : t < q.length := by
    by_contra hc
    rw [List.getElem?_eq_none (by omega)] at he; cases he
  have hget : q[t] = e := by rw [List.getElem?_eq_getElem hlt] at he; simpa using he
  have hsplit : q = q.take t ++ e :: q.drop (t + 1) := by
    rw [← hget, ← List.drop_eq_getElem_cons hlt, List.take_append_drop]
  rw [hsplit, List.pairwise_append] at hs
  exact (List.pairwise_cons.mp hs.2.1).1 x hx

theorem range_infos_sorted {q : List RxEntry} (hs : q.Pairwise (fun a b => a.info.seq < b.info.seq))
    (s t : Nat) : ((range q s t).map (·.info.seq)).Pairwise (· < ·) := by
  rw [List.pairwise_map]
  exact hs.sublist ((List.drop_sublist _ _).trans (List.take_sublist _ _))

theorem range_le_last {q : List RxEntry} (hs : q.Pairwise (fun a b => a.info.seq < b.info.seq))
    {s t : Nat} {e : RxEntry} (he : q[t]? = some e) : ∀ x ∈ range q s t, x.info.seq ≤ e.info.seq := by
  intro x hx
  obtain ⟨i, hi, hxe⟩ := List.getElem_of_mem hx
  have h1 : (range q s t)[i]? = some x := by rw [List.getElem?_eq_getElem hi, hxe]
  rw [range_getElem?] at h1
  split at h1
  · rename_i hle
    by_cases heq : s + i = t
    · rw [heq, he] at h1; cases h1; exact Nat.le_refl _
    · have hlt : t < q.length := by
        by_contra hc
        rw [List.getElem?_eq_none (by omega)] at he; cases he
      have ha : q[s + i]'(by omega) = x := by
        rw [List.getElem?_eq_getElem (by omega)] at h1; simpa using h1
      have hb : q[t] = e := by rw [List.getElem?_eq_getElem hlt] at he; simpa using he
      have := List.pairwise_iff_getElem.mp hs (s + i) t (by omega) hlt (by omega)
      rw [ha, hb] at this; omega
  · cases h1

theorem Ordered.pop {c : Codec} {o : RxObs c} (h : o.Ordered) (hc : CacheOK o.buf) :
    ∃ o', o.step .pop = .ok o' ∧ o'.Ordered := by
  obtain ⟨b', r, e, ho⟩ := pop_outcome o.buf
  simp only [RxObs.step, e, Res.bind_ok]
  have hdrop : ∀ t, (o.buf.queue.drop (t + 1)).Pairwise (fun a b => a.info.seq < b.info.seq) :=
    fun t => h.sorted.sublist (List.drop_sublist _ _)
  cases ho with
  | nothing hs => exact ⟨_, rfl, Ordered.discard h⟩
  | failed s t en st u hg hfirst he =>
    refine ⟨_, rfl, ⟨h.hold, hdrop t, ?_, h.incr, ?_⟩⟩
    · intro last hl x hx
      simp only [Option.some.injEq] at hl; subst hl
      exact drop_above h.sorted he x hx
    · intro sq hsq
      obtain ⟨last, hl, hle⟩ := h.below sq hsq
      have := h.above last hl en (List.mem_of_getElem? he)
      exact ⟨_, rfl, by omega⟩
  | waits s t st d hg hfirst hd _ _ =>
    refine ⟨_, rfl, ?_⟩
    have : RxObs.Ordered { o with buf := { o.buf with st := st, cache := some ((s, t), d) } } :=
      ⟨h.hold, h.sorted, h.above, h.incr, h.below⟩
    exact Ordered.discard this
  | emits s t en st d k hg hfirst he hd hseq hhold =>
    have hinfos : d.infos = (range o.buf.queue s t).map (·.info) := by
      rcases hd with hd | hd
      · exact hc _ d hd hfirst
      · exact hd.1
    unfold RxBuffer.emit
    generalize o.buf.cont.check d.extra k = res
    obtain ⟨cont, canEmit, k'⟩ := res
    simp only
    cases canEmit with
    | false =>
      refine ⟨_, rfl, ⟨h.hold, hdrop t, ?_, h.incr, h.below⟩⟩
      intro last hl x hx
      exact h.above last hl x (List.mem_of_mem_drop hx)
    | true =>
      have hdel : ({ d with contiguous := k' } : Depacketized).infos.map (·.seq) =
          (range o.buf.queue s t).map (·.info.seq) := by
        simp [hinfos]
      refine ⟨_, rfl, ⟨h.hold, hdrop t, ?_, ?_, ?_⟩⟩
      · intro last hl x hx
        simp only [Bool.not_true, Bool.false_eq_true, if_false, Option.some.injEq] at hl; subst hl
        exact drop_above h.sorted he x hx
      · simp only [RxObs.delivered, List.flatMap_append, List.flatMap_cons, List.flatMap_nil,
          List.append_nil, hdel]
        rw [List.pairwise_append]
        refine ⟨h.incr, range_infos_sorted h.sorted s t, ?_⟩
        intro a ha b hb
        obtain ⟨last, hl, hle⟩ := h.below a ha
        simp only [List.mem_map] at hb
        obtain ⟨x, hx, rfl⟩ := hb
        have := h.above last hl x (range_subset _ _ _ x hx)
        omega
      · intro sq hsq
        simp only [RxObs.delivered, List.flatMap_append, List.flatMap_cons, List.flatMap_nil,
          List.append_nil, hdel, List.mem_append] at hsq
        refine ⟨_, rfl, ?_⟩
        rcases hsq with hsq | hsq
        · obtain ⟨last, hl, hle⟩ := h.below sq hsq
          have := h.above last hl en (List.mem_of_getElem? he)
          omega
        · simp only [List.mem_map] at hsq
          obtain ⟨x, hx, rfl⟩ := hsq
          exact range_le_last h.sorted he x hx

theorem Ordered.run {c : Codec} (ops : List RxOp) : ∀ (o : RxObs c), o.Ordered → CacheOKAlong o ops →
    ∃ o', o.run ops = .ok o' ∧ o'.Ordered := by
  induction ops with
  | nil => intro o h _; exact ⟨o, rfl, h⟩
  | cons op ops ih =>
    intro o h hc
    cases op with
    | push m data =>
      exact ih _ (Ordered.pushEntry h m data none _) (hc _ rfl)
    | padding m =>
      exact ih _ (Ordered.pushEntry h m [] _ _) (hc _ rfl)
    | pop =>
      obtain ⟨o1, e1, h1⟩ := Ordered.pop h hc.1
      obtain ⟨o2, e2, h2⟩ := ih o1 h1 (hc.2 o1 e1)
      exact ⟨o2, by simp only [RxObs.run, e1, Res.bind_ok, e2], h2⟩

theorem Ordered.start {c : Codec} (holdBack : Nat) (hb : 0 < holdBack) (st : c.State) (cont : Contiguity) :
    (RxObs.start (c := c) holdBack st cont).Ordered :=
  ⟨hb, by simp [RxObs.start, RxBuffer.new], by simp [RxObs.start, RxBuffer.new],
    by simp [RxObs.start, RxObs.delivered], by simp [RxObs.start, RxObs.delivered]⟩

/-- **C19** (partial): with reordering enabled, as long as the decoded-ahead frame kept between polls
is the one at the front when it is used, the sequence numbers of all delivered packets are strictly
increasing over the whole life of the stream: frames come in order and no packet is delivered twice.
What is missing for the full property is exactly the cache condition; without it the property is
false (`C19_violation`). -/
theorem C19_in_order_partial (c : Codec) (holdBack : Nat) (hb : 0 < holdBack) (st : c.State)
    (cont : Contiguity) (ops : List RxOp)
    (hc : CacheOKAlong (RxObs.start (c := c) holdBack st cont) ops) :
    ∃ o, (RxObs.start (c := c) holdBack st cont).run ops = .ok o ∧ o.delivered.Pairwise (· < ·) := by
  obtain ⟨o, e, h⟩ := Ordered.run ops _ (Ordered.start holdBack hb st cont) hc
  exact ⟨o, e, h.incr⟩

/-! ### Histories in which the cache condition holds -/

/-- The cache describes the entries it was made from. -/
def CacheExact {c : Codec} (b : RxBuffer c) : Prop :=
  ∀ r d, b.cache = some (r, d) → r.2 < b.queue.length ∧ d.infos = (range b.queue r.1 r.2).map (·.info)

theorem CacheExact.ok {c : Codec} {b : RxBuffer c} (h : CacheExact b) : CacheOK b :=
  fun r d hc _ => (h r d hc).2

theorem CacheExact.discard {c : Codec} {b : RxBuffer c} (h : CacheExact b) :
    CacheExact b.discardOldPadding := by
  intro r d hc
  rcases discard_cache b with hn | ⟨h1, h2⟩
  · rw [hn] at hc; cases hc
  · rw [h1] at hc; rw [h2]; exact h r d hc

theorem CacheExact.pop {c : Codec} {b b' : RxBuffer c} {r} (h : CacheExact b) (ho : PopOutcome b b' r) :
    CacheExact b' ∧ (b'.queue.Sublist b.queue) := by
  cases ho with
  | nothing hs => exact ⟨h.discard, discard_queue _⟩
  | failed s t en st u hg hfirst he => exact ⟨(by intro r d hc; cases hc), List.drop_sublist _ _⟩
  | waits s t st d hg hfirst hd _ _ =>
    refine ⟨CacheExact.discard ?_, discard_queue _⟩
    intro r' d' hc
    simp only [Option.some.injEq, Prod.mk.injEq] at hc
    obtain ⟨rfl, rfl⟩ := hc
    refine ⟨hg.2.1, ?_⟩
    rcases hd with hd | hd
    · exact (h _ d hd).2
    · exact hd.1
  | emits s t en st d k hg hfirst he hd hseq hhold =>
    unfold RxBuffer.emit
    generalize b.cont.check d.extra k = res
    obtain ⟨cont, canEmit, k'⟩ := res
    cases canEmit <;> exact ⟨(by intro r d hc; cases hc), List.drop_sublist _ _⟩

theorem range_append {q l : List RxEntry} {s t : Nat} (h : t < q.length) :
    range (q ++ l) s t = range q s t := by
  simp only [range]
  rw [List.take_append_of_le_length (by omega)]

theorem CacheExact.pushEntry {c : Codec} {b : RxBuffer c} (h : CacheExact b) (m : RxMeta) (data : List Byte)
    (p : Option (Bool × Bool)) (hm : ∀ e ∈ b.queue, e.info.seq < m.seq) :
    CacheExact (b.pushEntry m data p) ∧ ∀ e ∈ (b.pushEntry m data p).queue, e.info.seq ≤ m.seq := by
  have hle : ∀ e ∈ b.queue, e.info.seq ≤ m.seq := fun e he => Nat.le_of_lt (hm e he)
  rcases pushEntry_cases b m data p with hc | ⟨hd, tl, _, _, _, _, hc⟩
  · rw [hc]; exact ⟨h, hle⟩
  · rw [hc, insertEntry_last _ _ hm]
    refine ⟨?_, ?_⟩
    · intro r d hc
      obtain ⟨c1, c2⟩ := h r d hc
      refine ⟨by simp only [List.length_append]; omega, ?_⟩
      simp only
      rw [range_append c1]; exact c2
    · intro e he
      simp only [List.mem_append, List.mem_singleton] at he
      rcases he with he | rfl
      · exact hle e he
      · exact Nat.le_refl _

/-- The numbers of the pushed packets, in arrival order. -/
def pushedSeqs : List RxOp → List Nat
  | [] => []
  | .push m _ :: ops => m.seq :: pushedSeqs ops
  | .padding m :: ops => m.seq :: pushedSeqs ops
  | .pop :: ops => pushedSeqs ops

theorem cacheOK_inOrder {c : Codec} (ops : List RxOp) : ∀ (o : RxObs c) , CacheExact o.buf →
    (∀ e ∈ o.buf.queue, ∀ s ∈ pushedSeqs ops, e.info.seq < s) →
    (pushedSeqs ops).Pairwise (· < ·) → CacheOKAlong o ops := by
  induction ops with
  | nil => intros; trivial
  | cons op ops ih =>
    intro o hx hq hp
    cases op with
    | push m data =>
      intro o' he
      simp only [RxObs.step, Res.ok.injEq] at he; subst he
      simp only [pushedSeqs, List.pairwise_cons] at hp hq
      obtain ⟨a1, a2⟩ := hx.pushEntry m data none (fun e he => hq e he m.seq (by simp))
      exact ih _ a1 (fun e he s hs => Nat.lt_of_le_of_lt (a2 e he) (hp.1 s hs)) hp.2
    | padding m =>
      intro o' he
      simp only [RxObs.step, Res.ok.injEq] at he; subst he
      simp only [pushedSeqs, List.pairwise_cons] at hp hq
      obtain ⟨a1, a2⟩ := hx.pushEntry m [] (some (false, false)) (fun e he => hq e he m.seq (by simp))
      exact ih _ a1 (fun e he s hs => Nat.lt_of_le_of_lt (a2 e he) (hp.1 s hs)) hp.2
    | pop =>
      refine ⟨hx.ok, ?_⟩
      intro o' he
      obtain ⟨b', r, e, ho⟩ := pop_outcome o.buf
      obtain ⟨x1, x2⟩ := hx.pop ho
      have hb : o'.buf = b' := by
        simp only [RxObs.step, e, Res.bind_ok] at he
        cases r with
        | none => simp at he; subst he; rfl
        | some r => cases r <;> (simp at he; subst he; rfl)
      exact ih _ (by rw [hb]; exact x1)
        (fun e' he' s hs => hq e' (x2.subset (by rw [hb] at he'; exact he')) s hs) hp

/-- **C19** for arrival in order: when packets arrive in increasing order (with any losses, for any
codec and hold-back), the delivered numbers are strictly increasing. -/
theorem C19_in_order_arrival (c : Codec) (holdBack : Nat) (hb : 0 < holdBack) (st : c.State)
    (cont : Contiguity) (ops : List RxOp) (hp : (pushedSeqs ops).Pairwise (· < ·)) :
    ∃ o, (RxObs.start (c := c) holdBack st cont).run ops = .ok o ∧ o.delivered.Pairwise (· < ·) :=
  C19_in_order_partial c holdBack hb st cont ops
    (cacheOK_inOrder ops _ (by intro r d hc; cases hc) (by simp [RxObs.start, RxBuffer.new]) hp)

theorem cacheOK_one {c : Codec} (ops : List RxOp) : ∀ (o : RxObs c), o.buf.cache = none →
    o.buf.holdBack ≤ 1 → CacheOKAlong o ops := by
  have hpush : ∀ (b : RxBuffer c) m d p, (b.pushEntry m d p).cache = b.cache ∧
      (b.pushEntry m d p).holdBack = b.holdBack := by
    intro b m d p
    rcases pushEntry_cases b m d p with hc | ⟨_, _, _, _, _, _, hc⟩ <;> rw [hc] <;> exact ⟨rfl, rfl⟩
  induction ops with
  | nil => intros; trivial
  | cons op ops ih =>
    intro o hx hb
    cases op with
    | push m data =>
      intro o' he
      simp only [RxObs.step, Res.ok.injEq] at he; subst he
      exact ih _ ((hpush _ _ _ _).1.trans hx) ((by have := (hpush o.buf m data none).2; simp only [RxBuffer.push, RxBuffer.pushPadding]; omega))
    | padding m =>
      intro o' he
      simp only [RxObs.step, Res.ok.injEq] at he; subst he
      exact ih _ ((hpush _ _ _ _).1.trans hx) ((by have := (hpush o.buf m [] (some (false, false))).2; simp only [RxBuffer.push, RxBuffer.pushPadding]; omega))
    | pop =>
      refine ⟨(by intro r d hc; rw [hx] at hc; cases hc), ?_⟩
      intro o' he
      obtain ⟨b', r, e, ho⟩ := pop_outcome o.buf
      have hb2 : b'.cache = none ∧ b'.holdBack = o.buf.holdBack := by
        cases ho with
        | nothing hs =>
          refine ⟨?_, rfl⟩
          rcases discard_cache o.buf with hn | ⟨h1, _⟩
          · exact hn
          · rw [h1]; exact hx
        | failed => exact ⟨rfl, rfl⟩
        | waits s t st d hg hfirst hd hseq hhold =>
          exfalso
          cases hseg : segments o.buf.queue with
          | nil => rw [hseg] at hfirst; cases hfirst
          | cons => rw [hseg] at hhold; simp at hhold; omega
        | emits s t en st d k hg hfirst he hd hseq hhold =>
          unfold RxBuffer.emit
          generalize o.buf.cont.check d.extra k = res
          obtain ⟨cont, canEmit, k'⟩ := res
          cases canEmit <;> exact ⟨rfl, rfl⟩
      have hb' : o'.buf = b' := by
        simp only [RxObs.step, e, Res.bind_ok] at he
        cases r with
        | none => simp at he; subst he; rfl
        | some r => cases r <;> (simp at he; subst he; rfl)
      exact ih _ (by rw [hb']; exact hb2.1) (by rw [hb', hb2.2]; exact hb)

/-- **C19** for a hold-back of one frame: any arrival order, reordering, duplication and loss. -/
theorem C19_hold_back_one (c : Codec) (st : c.State) (cont : Contiguity) (ops : List RxOp) :
    ∃ o, (RxObs.start (c := c) 1 st cont).run ops = .ok o ∧ o.delivered.Pairwise (· < ·) :=
  C19_in_order_partial c 1 (by omega) st cont ops (cacheOK_one ops _ rfl (Nat.le_refl _))

/-- src/packet/opus.rs 45-70: every packet is a frame. -/
def opusCodec : Codec where
  State := Unit
  isHead := fun _ _ => true
  isTail := fun _ _ _ => true
  depack := fun st data acc => (st, .ok (acc.1 ++ data, acc.2))

/-- A history with two packets swapped on the way. -/
def swapDemo : List RxOp :=
  [.push { seq := 2, time := 20 } [2], .pop, .push { seq := 4, time := 40 } [4], .pop,
   .push { seq := 3, time := 30 } [3], .pop, .pop]

/-- **C19 is violated** by the code: with a hold-back of 3, two audio packets swapped by the network
(and a poll in between) make the buffer deliver packet 4 twice and packet 3 never, because the frame
decoded ahead of time is looked up by its index range and not dropped when a packet is inserted
before it. -/
theorem C19_violation :
    ∃ o, (RxObs.start (c := opusCodec) 3 () .none).run swapDemo = .ok o ∧
      o.delivered = [2, 4, 4] ∧ o.out.map (·.data) = [[2], [4], [4]] := by
  refine ⟨_, rfl, ?_, ?_⟩ <;> rfl

/-! ### C21: the contiguous flag -/

structure RxObs.Gap {c : Codec} (o : RxObs c) : Prop where
  base : o.Ordered
  frames : o.Frames
  plain : o.buf.cont = .none
  /-- everything between the end of the last frame and the last position was received empty -/
  gap : ∀ s, o.lastEnd = some s → ∃ last, o.buf.lastEmitted = some last ∧ s ≤ last ∧
    ∀ n, s < n → n ≤ last → ∃ m, m.seq = n ∧ (m, []) ∈ o.received
  fresh : o.lastEnd = none → o.buf.lastEmitted = none

theorem padding_empty {e : RxEntry} (h : e.isPadding = true) : e.data = [] := by
  simp only [RxEntry.isPadding, Bool.and_eq_true, List.isEmpty_iff] at h
  exact h.1.1

/-- The gap condition survives a discard of padding. -/
theorem Gap.discard {c : Codec} {o : RxObs c} (h : o.Gap) :
    RxObs.Gap { o with buf := o.buf.discardOldPadding } := by
  refine ⟨Ordered.discard h.base, h.frames.discard, h.plain, ?_, ?_⟩
  · intro s hs
    obtain ⟨last, hl, hle, hn⟩ := h.gap s hs
    obtain ⟨l2, a1, a2, a3, a4⟩ := discard_last o.buf last hl h.base.sorted (h.base.above last hl)
    refine ⟨l2, a1, by omega, ?_⟩
    intro n n1 n2
    by_cases hc : n ≤ last
    · exact hn n n1 hc
    · obtain ⟨e, he, he1, he2⟩ := a4 n (by omega) n2
      refine ⟨e.info, he1, ?_⟩
      have := h.frames.recv e he
      rw [padding_empty he2] at this; exact this
  · intro hf
    exact discard_last_none _ (h.fresh hf)

theorem pushEntry_last {c : Codec} (b : RxBuffer c) (m : RxMeta) (d : List Byte) (p) :
    (b.pushEntry m d p).lastEmitted = b.lastEmitted ∧ (b.pushEntry m d p).cont = b.cont := by
  rcases pushEntry_cases b m d p with hc | ⟨_, _, _, _, _, _, hc⟩ <;> rw [hc] <;> exact ⟨rfl, rfl⟩

theorem Gap.pushEntry {c : Codec} {o : RxObs c} (h : o.Gap) (m : RxMeta) (data : List Byte)
    (p : Option (Bool × Bool)) (hp : p = none ∨ p = some (false, false)) :
    RxObs.Gap { o with buf := o.buf.pushEntry m data p, received := (m, data) :: o.received } := by
  refine ⟨Ordered.pushEntry h.base m data p _, h.frames.pushEntry m data p hp, ?_, ?_, ?_⟩
  · simp only [(pushEntry_last o.buf m data p).2]; exact h.plain
  · intro s hs
    obtain ⟨last, hl, hle, hn⟩ := h.gap s hs
    refine ⟨last, by simp only [(pushEntry_last o.buf m data p).1]; exact hl, hle, ?_⟩
    intro n n1 n2
    obtain ⟨m', e1, e2⟩ := hn n n1 n2
    exact ⟨m', e1, List.mem_cons_of_mem _ e2⟩
  · intro hf
    simp only [(pushEntry_last o.buf m data p).1]; exact h.fresh hf

/-- What the flag of a frame `d` delivered next must mean, given what was seen before. -/
def FlagTruthful {c : Codec} (o : RxObs c) (d : Depacketized) : Prop :=
  d.contiguous = true → ∀ s, o.lastEnd = some s → ∃ first, d.infos.head? = some first ∧
    s < first.seq ∧ ∀ n, s < n → n < first.seq → ∃ m, m.seq = n ∧ (m, []) ∈ o.received

theorem lastSeq_range {q : List RxEntry} {s t : Nat} {d : Depacketized} {e : RxEntry}
    (h1 : s ≤ t) (hi : d.infos = (range q s t).map (·.info)) (he : q[t]? = some e) :
    lastSeq d = some e.info.seq := by
  have hlt : t < q.length := by
    by_contra hc
    rw [List.getElem?_eq_none (by omega)] at he; cases he
  have hlen := range_length h1 hlt
  have : (range q s t).getLast? = some e := by
    rw [List.getLast?_eq_getElem?, hlen, range_getElem?]
    have : s + (t + 1 - s - 1) = t := by omega
    rw [this, if_pos (Nat.le_refl _)]; exact he
  simp [lastSeq, hi, List.getLast?_map, this]

theorem Gap.pop {c : Codec} {o : RxObs c} (h : o.Gap) (hc : CacheOK o.buf) :
    ∃ o', o.step .pop = .ok o' ∧ o'.Gap ∧
      ∀ d, o'.out = o.out ++ [d] → FlagTruthful o d := by
  obtain ⟨o1, e1, hord⟩ := Ordered.pop h.base hc
  obtain ⟨o2, e2, hfr⟩ := h.frames.step .pop
  rw [e1] at e2; cases e2
  refine ⟨o1, e1, ?_⟩
  obtain ⟨b', r, e, ho⟩ := pop_outcome o.buf
  simp only [RxObs.step, e, Res.bind_ok] at e1
  have nodup : ∀ d : Depacketized, o.out = o.out ++ [d] → False := by
    intro d hd
    have := congrArg List.length hd
    simp at this
  cases ho with
  | nothing hs =>
    simp only [Res.ok.injEq] at e1; subst e1
    exact ⟨Gap.discard h, fun d hd => (nodup d hd).elim⟩
  | failed s t en st u hg hfirst he =>
    simp only [Res.ok.injEq] at e1; subst e1
    refine ⟨⟨hord, hfr, h.plain, ?_, ?_⟩, fun d hd => (nodup d hd).elim⟩
    · intro x hx
      simp only [Option.some.injEq] at hx; subst hx
      exact ⟨_, rfl, Nat.le_refl _, fun n n1 n2 => by omega⟩
    · intro hx; cases hx
  | waits s t st d hg hfirst hd _ _ =>
    simp only [Res.ok.injEq] at e1; subst e1
    refine ⟨?_, fun d hd => (nodup d hd).elim⟩
    have hg2 : RxObs.Gap { o with buf := { o.buf with st := st, cache := some ((s, t), d) } } := by
      refine ⟨⟨h.base.hold, h.base.sorted, h.base.above, h.base.incr, h.base.below⟩,
        ⟨h.frames.recv, h.frames.flag, ?_, h.frames.out⟩, h.plain, h.gap, h.fresh⟩
      intro r d' hcc
      simp only [Option.some.injEq, Prod.mk.injEq] at hcc
      obtain ⟨_, rfl⟩ := hcc
      exact h.frames.frame hg hd
    exact Gap.discard hg2
  | emits s t en st d k hg hfirst he hd hseq hhold =>
    have hinfos : d.infos = (range o.buf.queue s t).map (·.info) := by
      rcases hd with hd | hd
      · exact hc _ d hd hfirst
      · exact hd.1
    have hcheck : o.buf.cont.check d.extra k = (.none, true, k) := by
      rw [h.plain]; cases d.extra <;> rfl
    have hem : emit { o.buf with st := st, cache := none } t d k en.info.seq =
        ({ o.buf with st := st, cache := none, cont := .none, queue := o.buf.queue.drop (t + 1), lastEmitted := some en.info.seq },
          some (.ok { d with contiguous := k })) := by
      simp only [RxBuffer.emit, hcheck]
      rfl
    rw [hem] at e1
    simp only [Res.ok.injEq] at e1; subst e1
    have hls : lastSeq { d with contiguous := k } = some en.info.seq :=
      lastSeq_range (d := { d with contiguous := k }) hg.1 hinfos he
    refine ⟨⟨hord, hfr, rfl, ?_, ?_⟩, ?_⟩
    · intro x hx
      simp only [hls, Option.some.injEq] at hx; subst hx
      exact ⟨_, rfl, Nat.le_refl _, fun n n1 n2 => by omega⟩
    · intro hx; simp only [hls] at hx; cases hx
    · intro d' hd'
      have : d' = { d with contiguous := k } := by
        have := List.append_cancel_left hd'; simpa using this.symm
      subst this
      intro hk x hx
      simp only at hk; subst hk
      obtain ⟨last, l1, l2, l3⟩ := h.gap x hx
      obtain ⟨g1, g2, e0, g3, g4, g5⟩ := hg
      simp only at g1 g2 g3 g5
      obtain ⟨f1, f2⟩ := follow_true o.buf s e0 g3 last l1 hseq
      refine ⟨e0.info, ?_, by omega, ?_⟩
      · have h0 : (range o.buf.queue s t)[0]? = some e0 := by
          rw [range_getElem?]; simp [g1, g3]
        simp only [hinfos, List.head?_map]
        rw [List.head?_eq_getElem?, h0]; rfl
      · intro n n1 n2
        by_cases hn : n ≤ last
        · exact l3 n n1 hn
        · obtain ⟨en2, m1, m2, m3⟩ := f2 n (by omega) n2
          refine ⟨en2.info, m2, ?_⟩
          have := h.frames.recv en2 m1
          rw [padding_empty m3] at this; exact this

/-- Every delivery along the history satisfies `FlagTruthful` (relative to the state before it). -/
def FlagsTruthful {c : Codec} (o : RxObs c) : List RxOp → Prop
  | [] => True
  | op :: ops => ∀ o', o.step op = .ok o' →
      (∀ d, o'.out = o.out ++ [d] → FlagTruthful o d) ∧ FlagsTruthful o' ops

theorem Gap.run {c : Codec} (ops : List RxOp) : ∀ (o : RxObs c), o.Gap → CacheOKAlong o ops →
    FlagsTruthful o ops := by
  have nodup : ∀ (o : RxObs c) (d : Depacketized), o.out = o.out ++ [d] → False := by
    intro o d hd
    have := congrArg List.length hd
    simp at this
  induction ops with
  | nil => intros; trivial
  | cons op ops ih =>
    intro o h hc o' he
    cases op with
    | push m data =>
      have he' := he
      simp only [RxObs.step, Res.ok.injEq] at he'; subst he'
      exact ⟨fun d hd => (nodup o d hd).elim, ih _ (Gap.pushEntry h m data none (Or.inl rfl)) (hc _ rfl)⟩
    | padding m =>
      have he' := he
      simp only [RxObs.step, Res.ok.injEq] at he'; subst he'
      exact ⟨fun d hd => (nodup o d hd).elim, ih _ (Gap.pushEntry h m [] _ (Or.inr rfl)) (hc _ rfl)⟩
    | pop =>
      obtain ⟨o1, e1, h1, h2⟩ := Gap.pop h hc.1
      rw [e1] at he; cases he
      exact ⟨h2, ih _ h1 (hc.2 _ e1)⟩

/-- **C21** (soundness, for codecs without picture ids): along every history (with the cache condition
of C19), whenever a frame is delivered with the contiguous flag and a frame ended before at `s`
(delivered or undecodable), then every sequence number between `s` and the frame's first packet was
received with an empty payload (padding): nothing is missing. Missing for the full property: the
converse in all cases, see `C21_flag_complete` and `C21_violation`. -/
theorem C21_flag_truthful_partial (c : Codec) (holdBack : Nat) (hb : 0 < holdBack) (st : c.State)
    (ops : List RxOp) (hc : CacheOKAlong (RxObs.start (c := c) holdBack st .none) ops) :
    FlagsTruthful (RxObs.start (c := c) holdBack st .none) ops :=
  Gap.run ops _ ⟨Ordered.start holdBack hb st .none,
    ⟨by simp [RxObs.start, RxBuffer.new], by simp [RxObs.start, RxBuffer.new],
     by simp [RxObs.start, RxBuffer.new], by simp [RxObs.start]⟩, rfl,
    by simp [RxObs.start], by simp [RxObs.start, RxBuffer.new]⟩ hc

/-- **C21** (completeness): in any ordered state, if every number between the last position and the
start of the next frame is in the buffer as padding (in particular if there is none in between),
the frame counts as contiguous. -/
theorem C21_flag_complete {c : Codec} (o : RxObs c) (h : o.Ordered) (s t last : Nat) (e0 : RxEntry)
    (hseg : (segments o.buf.queue).head? = some (s, t)) (h0 : o.buf.queue[s]? = some e0)
    (hl : o.buf.lastEmitted = some last)
    (hpad : ∀ n, last < n → n < e0.info.seq → ∃ e ∈ o.buf.queue, e.info.seq = n ∧ e.isPadding = true) :
    o.buf.isFollowingLast s = .ok true :=
  follow_complete o.buf s e0 h0 h.sorted last hl (h.above last hl) hpad

/-- Padding that arrives out of order and is discarded early. -/
def padDemo : List RxOp :=
  [.push { seq := 2, time := 20 } [2], .pop,
   .padding { seq := 4, time := 0 }, .padding { seq := 5, time := 0 }, .pop,
   .padding { seq := 3, time := 0 }, .push { seq := 6, time := 60 } [6], .pop]

/-- **C21 is violated** in the other direction: packets 3, 4 and 5 were all received (as padding), yet
frame 6 is flagged as not contiguous with frame 2, because padding 4 was discarded before 3
arrived. -/
theorem C21_violation :
    ∃ o, (RxObs.start (c := opusCodec) 1 () .none).run padDemo = .ok o ∧
      o.out.map (fun d => (d.infos.map (·.seq), d.contiguous)) = [([2], true), ([6], false)] := by
  refine ⟨_, rfl, ?_⟩; rfl

/-! ### Non-vacuity -/

/-- In-order arrival with a loss (5) and padding (3). -/
def lossDemo : List RxOp :=
  [.push { seq := 2, time := 20 } [2], .pop, .padding { seq := 3, time := 0 },
   .push { seq := 4, time := 40 } [4], .pop, .push { seq := 6, time := 60 } [6], .pop,
   .push { seq := 7, time := 70 } [7], .pop]

example : (pushedSeqs lossDemo).Pairwise (· < ·) := by decide

example : ∃ o, (RxObs.start (c := opusCodec) 2 () .none).run lossDemo = .ok o ∧
    o.out.map (fun d => (d.infos.map (·.seq), d.contiguous)) =
      [([2], true), ([4], true), ([6], false)] := by
  refine ⟨_, rfl, ?_⟩; rfl

end Str0m
