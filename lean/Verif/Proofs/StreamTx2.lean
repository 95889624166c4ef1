import Verif.Proofs.StreamTx
/-
  Invariants of an outgoing stream over its whole history.
-/
namespace Str0m.Tx
open Str0m Str0m.Pts

/-- Everything that holds step by step holds at the end; `A op` is what is assumed of a step, and it may change the index. -/
theorem run_induct {ι : Type} (J : ι → Tx → List Out → Prop) (A : ι → Op → Prop) (next : ι → Op → ι)
    (hs : ∀ i s outs op t o, J i s outs → A i op → step s op = .ok (t, o) → J (next i op) t (outs ++ o.toList)) :
    ∀ (ops : List Op) (i : ι) (s : Tx) (outs : List Out) (t : Tx) (l : List Out), J i s outs →
      (∀ pre op post, ops = pre ++ op :: post → A (pre.foldl next i) op) → run s ops = .ok (t, l) → J (ops.foldl next i) t (outs ++ l) := by
  intro ops
  induction ops with
  | nil =>
    intro i s outs t l hj _ hr
    cases hr
    simpa using hj
  | cons op ops ih =>
    intro i s outs t l hj ha hr
    unfold run at hr
    obtain ⟨⟨s1, o⟩, h1, hr⟩ := bind_eq_ok hr
    obtain ⟨⟨s2, l2⟩, h2, hr⟩ := bind_eq_ok hr
    cases hr
    have hj1 := hs i s outs op s1 o hj (ha [] op ops rfl) h1
    have := ih (next i op) s1 (outs ++ o.toList) s2 l2 hj1 (fun pre op' post he => by
      have := ha (op :: pre) op' post (by rw [he]; rfl)
      exact this) h2
    rw [List.append_assoc] at this
    exact this

/-! ### The queue -/

theorem pop_tail {q : SendQueue} {now : Nat} {p : QPacket} {r : SendQueue × Option QPacket} (hq : q.peek = some p)
    (h : (stampHead q now).pop now = .ok r) : r.1.queue = q.queue.tail ∧ q.queue ≠ [] := by
  unfold SendQueue.peek at hq
  cases hl : q.queue with
  | nil => rw [hl] at hq; cases hq
  | cons x xs =>
    unfold stampHead SendQueue.pop at h
    rw [hl] at h
    dsimp only at h
    obtain ⟨t, -, h⟩ := bind_eq_ok (x := TotalQueue.decrease _ _ _ _) h
    cases h
    exact ⟨rfl, by simp⟩

theorem stampLoop_length (now : Nat) : ∀ (l : List QPacket) (t : TotalQueue) (r : List QPacket × TotalQueue),
    SendQueue.stampLoop now l t = .ok r → r.1.length = l.length := by
  intro l
  induction l with
  | nil => intro t r h; cases h; rfl
  | cons p ps ih =>
    intro t r h
    unfold SendQueue.stampLoop at h
    cases hp : p.timestamp with
    | some x => rw [hp] at h; cases h; rfl
    | none =>
      rw [hp] at h
      obtain ⟨t1, -, h⟩ := bind_eq_ok (x := TotalQueue.increase _ _ _) h
      obtain ⟨r2, h2, h⟩ := bind_eq_ok (x := SendQueue.stampLoop _ _ _) h
      cases h
      simp only [List.length_cons, ih _ _ h2]

theorem timeout_length {q r : SendQueue} {now : Nat} (h : q.handleTimeout now = .ok r) : r.queue.length = q.queue.length := by
  unfold SendQueue.handleTimeout at h
  obtain ⟨x, h2, h⟩ := bind_eq_ok (x := SendQueue.stampLoop _ _ _) h
  cases h
  simpa using stampLoop_length _ _ _ _ h2

theorem firstTimeout_eq (s : Tx) (pt : Option Nat) : ∃ x, firstTimeout s pt = { s with ptForPadding := x } := by
  unfold firstTimeout
  split
  · exact ⟨pt, rfl⟩
  · exact ⟨s.ptForPadding, rfl⟩

theorem timeout_eq {s t : Tx} {now : Nat} {pt : Option Nat} (h : timeout s now pt = .ok t) :
    ∃ x q, s.queue.handleTimeout now = .ok q ∧ t = { s with ptForPadding := x, queue := q } := by
  unfold timeout at h
  obtain ⟨q, h1, h⟩ := bind_eq_ok h
  cases h
  obtain ⟨x, hx⟩ := firstTimeout_eq s pt
  rw [hx] at h1 ⊢
  exact ⟨x, q, h1, rfl⟩

theorem nack_eq (s : Tx) (es : List NackEntry) : ∃ l, nack s es = { s with resends := s.resends ++ l } := by
  unfold nack
  split
  · exact ⟨[], by simp⟩
  · exact ⟨_, rfl⟩

theorem report_eq (s : Tx) (x : Nat) : ∃ a b, receptionReport s x = { s with acked := a, ackedRtx := b } := by
  unfold receptionReport
  split
  · split
    · exact ⟨s.acked, true, rfl⟩
    · exact ⟨s.acked, s.ackedRtx, rfl⟩
  · split
    · exact ⟨true, s.ackedRtx, rfl⟩
    · exact ⟨s.acked, s.ackedRtx, rfl⟩

theorem padding_eq (s : Tx) (n : Nat) : ∃ a, generatePadding s n = { s with padding := a } := by
  unfold generatePadding
  split
  · exact ⟨_, rfl⟩
  · exact ⟨s.padding, rfl⟩

/-! ### The cache -/

/-- Every cached packet has the property, and is found under its own number. -/
def Cached (P : CachedPacket → Prop) (c : RtxCache) : Prop :=
  c.packets.Inv ∧ ∀ e, c.packets.Has e → e.value.seqNo = e.position ∧ P e.value

theorem cached_empty {P : CachedPacket → Prop} {b : EvictingBuffer CachedPacket} {l : List Nat} (h : ∀ i, b.slot i = none) : Cached P ⟨b, l⟩ := by
  refine ⟨⟨?_, ?_⟩, ?_⟩
  · intro i e he; exact absurd ((h i).symm.trans he) (by simp)
  · intro i e he; exact absurd ((h i).symm.trans he) (by simp)
  · rintro e ⟨i, he⟩; exact absurd ((h i).symm.trans he) (by simp)

theorem replicate_slot {α : Type} (n i : Nat) : (List.replicate n (none : Option α)).getD i none = none := by
  simp only [List.getD_eq_getElem?_getD, List.getElem?_replicate]
  split <;> rfl

theorem cached_new {P : CachedPacket → Prop} (m a : Nat) : Cached P (.new m a) :=
  cached_empty (fun i => replicate_slot _ i)

theorem cached_clear {P : CachedPacket → Prop} (c : RtxCache) : Cached P c.clear :=
  cached_empty (fun i => replicate_slot _ i)

theorem Cached.mono {P Q : CachedPacket → Prop} {c : RtxCache} (h : Cached P c) (hpq : ∀ p, P p → Q p) : Cached Q c :=
  ⟨h.1, fun e he => ⟨(h.2 e he).1, hpq _ (h.2 e he).2⟩⟩

theorem Cached.get {P : CachedPacket → Prop} {c : RtxCache} (h : Cached P c) {m : Nat} {p : CachedPacket} (hg : c.getBySeqNo m = some p) :
    p.seqNo = m ∧ P p := by
  obtain ⟨e, h1, h2, h3⟩ := EvictingBuffer.get_some hg
  have := h.2 e h1
  rw [h3, h2] at this
  exact this

theorem Cached.sent {P : CachedPacket → Prop} {c d : RtxCache} (h : Cached P c) {p : CachedPacket} {now : Nat} (hp : P p)
    (hs : c.cacheSent p now = .ok d) : Cached P d := by
  unfold RtxCache.cacheSent at hs
  dsimp only at hs
  split at hs
  · cases hs
    obtain ⟨p1, p2, -⟩ := EvictingBuffer.push_spec c.packets h.1 p.seqNo now p
    obtain ⟨q1, q2, -⟩ := EvictingBuffer.maybeEvict_spec _ p1 now
    refine ⟨q1, fun e he => ?_⟩
    rcases p2 e (q2 e he) with rfl | ⟨c1, -⟩
    · exact ⟨rfl, hp⟩
    · exact h.2 e c1
  · cases hs

/-! ### Sequence numbers -/

/-- Where the next number will be: in RTP mode it is the caller's. -/
def bnd (rtpMode : Bool) (lim : Nat) (s : Tx) : Nat := if rtpMode then lim else s.seqNo

/-- Numbers on each SSRC increase. -/
structure Num (rtpMode : Bool) (lim : Nat) (used : List Nat) (s : Tx) (outs : List Out) : Prop where
  len : s.queue.queue.length = s.infos.length
  sorted : (s.infos.map (·.1)).Pairwise (· < ·)
  below : ∀ i ∈ s.infos, i.1 < bnd rtpMode lim s
  ssrcIn : s.ssrc ∈ used
  rtxIn : ∀ r, s.rtx = some r → r ∈ used ∧ r ≠ s.ssrc
  outIn : ∀ o ∈ outs, o.ssrc ∈ used
  pair : outs.Pairwise (fun a b => a.ssrc = b.ssrc → a.seqNo < b.seqNo)
  main : ∀ o ∈ outs, o.ssrc = s.ssrc → o.seqNo < bnd rtpMode lim s ∧ ∀ i ∈ s.infos, o.seqNo < i.1
  side : ∀ o ∈ outs, s.rtx = some o.ssrc → o.seqNo < s.seqNoRtx
  low : ∀ o ∈ outs, o.seq16 = o.seqNo % 65536

theorem Num.write {m : Bool} {lim lim' : Nat} {used : List Nat} {s : Tx} {outs : List Out} (h : Num m lim used s outs) (w : Write) (k : Nat)
    (hw : bnd m lim s ≤ w.seqNo) (hb : w.seqNo < bnd m lim' { s with seqNo := k }) :
    Num m lim' used (write { s with seqNo := k } w) outs := by
  have hbw : bnd m lim' (Tx.write { s with seqNo := k } w) = bnd m lim' { s with seqNo := k } := rfl
  refine ⟨?_, ?_, ?_, h.ssrcIn, h.rtxIn, h.outIn, h.pair, ?_, h.side, h.low⟩
  · simp [Tx.write, SendQueue.push, h.len]
  · simp only [Tx.write, List.map_append, List.map_cons, List.map_nil]
    rw [List.pairwise_append]
    refine ⟨h.sorted, List.pairwise_singleton _ _, ?_⟩
    intro a ha b hb
    obtain ⟨i, hi, rfl⟩ := List.mem_map.1 ha
    have := h.below i hi
    simp only [List.mem_singleton] at hb
    omega
  · intro i hi
    rw [hbw]
    simp only [Tx.write, List.mem_append, List.mem_singleton] at hi
    rcases hi with hi | rfl
    · have := h.below i hi; omega
    · exact hb
  · intro o ho he
    rw [hbw]
    have := h.main o ho he
    refine ⟨by omega, fun i hi => ?_⟩
    simp only [Tx.write, List.mem_append, List.mem_singleton] at hi
    rcases hi with hi | rfl
    · exact this.2 i hi
    · simp only; omega

theorem Num.chunks {lim : Nat} {used : List Nat} {outs : List Out} (f : Frame) (cs : List (List Byte)) : ∀ (first : Bool) (s : Tx), Num false lim used s outs →
    Num false lim used (pushChunks s f first cs) outs := by
  induction cs with
  | nil => intro first s h; exact h
  | cons c cs ih =>
    intro first s h
    exact ih false _ (h.write _ (s.seqNo + 1) (Nat.le_refl _) (Nat.lt_succ_self _))

/-- A packet is sent from the head of the queue, or dropped. -/
theorem Num.popped {m : Bool} {lim : Nat} {used : List Nat} {s t : Tx} {outs : List Out} (h : Num m lim used s outs)
    (hq : t.queue.queue = s.queue.queue.tail) (hi : t.infos = s.infos.drop 1) (h1 : t.ssrc = s.ssrc) (h2 : t.rtx = s.rtx) (h3 : t.seqNo = s.seqNo)
    (h4 : t.seqNoRtx = s.seqNoRtx) : Num m lim used t outs := by
  have hb : bnd m lim t = bnd m lim s := by unfold bnd; rw [h3]
  have hm : ∀ i ∈ t.infos, i ∈ s.infos := fun i h => List.mem_of_mem_drop (by rw [hi] at h; exact h)
  refine ⟨?_, ?_, fun i hi => by rw [hb]; exact h.below i (hm i hi), by rw [h1]; exact h.ssrcIn, by rw [h1, h2]; exact h.rtxIn, h.outIn, h.pair, ?_, ?_, h.low⟩
  · rw [hq, hi, List.length_tail, List.length_drop, h.len]
  · rw [hi]
    exact h.sorted.sublist ((List.drop_sublist _ _).map _)
  · intro o ho he
    rw [hb]
    rw [h1] at he
    exact ⟨(h.main o ho he).1, fun i hi => (h.main o ho he).2 i (hm i hi)⟩
  · rw [h2, h4]; exact h.side

theorem pair_snoc {R : Out → Out → Prop} {outs : List Out} {o : Out} (h : outs.Pairwise R) (hn : ∀ a ∈ outs, R a o) : (outs ++ [o]).Pairwise R := by
  rw [List.pairwise_append]
  refine ⟨h, List.pairwise_singleton _ _, fun a ha b hb => ?_⟩
  rw [List.mem_singleton.1 hb]
  exact hn a ha

/-- A packet of the RTX stream. -/
theorem Num.rtx {m : Bool} {lim : Nat} {used : List Nat} {s t : Tx} {outs : List Out} {o : Out} (h : Num m lim used s outs) (hr : s.rtx = some o.ssrc)
    (hn : o.seqNo = s.seqNoRtx) (hl : o.seq16 = o.seqNo % 65536) (hq : t.queue = s.queue) (hi : t.infos = s.infos) (h1 : t.ssrc = s.ssrc) (h2 : t.rtx = s.rtx) (h3 : t.seqNo = s.seqNo)
    (h4 : t.seqNoRtx = s.seqNoRtx + 1) : Num m lim used t (outs ++ [o]) := by
  have hb : bnd m lim t = bnd m lim s := by unfold bnd; rw [h3]
  obtain ⟨e1, e2⟩ := h.rtxIn _ hr
  refine ⟨by rw [hq, hi]; exact h.len, by rw [hi]; exact h.sorted, by rw [hi, hb]; exact h.below, by rw [h1]; exact h.ssrcIn,
    by rw [h1, h2]; exact h.rtxIn, ?_, ?_, ?_, ?_, ?_⟩
  · intro a ha
    rcases List.mem_append.1 ha with ha | ha
    · exact h.outIn a ha
    · rw [List.mem_singleton.1 ha]; exact e1
  · refine pair_snoc h.pair (fun a ha he => ?_)
    rw [hn]
    exact h.side a ha (by rw [he]; exact hr)
  · intro a ha he
    rw [hb, hi]
    rcases List.mem_append.1 ha with ha | ha
    · exact h.main a ha (by rw [he, h1])
    · rw [List.mem_singleton.1 ha, h1] at he; exact absurd he e2
  · intro a ha he
    rw [h4]
    rcases List.mem_append.1 ha with ha | ha
    · have := h.side a ha (by rw [← h2]; exact he); omega
    · rw [List.mem_singleton.1 ha]; omega
  · intro a ha
    rcases List.mem_append.1 ha with ha | ha
    · exact h.low a ha
    · rw [List.mem_singleton.1 ha]; exact hl

/-- A packet of the main stream, which was the head of the queue. -/
theorem Num.regular {m : Bool} {lim : Nat} {used : List Nat} {s t : Tx} {outs : List Out} {o : Out} (h : Num m lim used s outs) (hr : o.ssrc = s.ssrc)
    (hne : s.queue.queue ≠ []) (hn : o.seqNo = (headInfo s).1) (hl : o.seq16 = o.seqNo % 65536)
    (hq : t.queue.queue = s.queue.queue.tail) (hi : t.infos = s.infos.drop 1) (h1 : t.ssrc = s.ssrc) (h2 : t.rtx = s.rtx) (h3 : t.seqNo = s.seqNo)
    (h4 : t.seqNoRtx = s.seqNoRtx) : Num m lim used t (outs ++ [o]) := by
  have hb : bnd m lim t = bnd m lim s := by unfold bnd; rw [h3]
  have hp := h.popped hq hi h1 h2 h3 h4
  cases hl2 : s.infos with
  | nil =>
    have hlen := h.len
    rw [hl2] at hlen
    exact absurd (List.eq_nil_of_length_eq_zero hlen) hne
  | cons i is =>
  have hh : headInfo s = i := by unfold headInfo; rw [hl2]; rfl
  have hmem : i ∈ s.infos := by rw [hl2]; exact List.mem_cons_self ..
  have hsort : (i.1 :: is.map (·.1)).Pairwise (· < ·) := by have := h.sorted; rw [hl2] at this; exact this
  rw [hh] at hn
  refine ⟨hp.len, hp.sorted, hp.below, hp.ssrcIn, hp.rtxIn, ?_, ?_, ?_, ?_, ?_⟩
  · intro a ha
    rcases List.mem_append.1 ha with ha | ha
    · exact h.outIn a ha
    · rw [List.mem_singleton.1 ha, hr]; exact h.ssrcIn
  · refine pair_snoc h.pair (fun a ha he => ?_)
    rw [hn]
    exact (h.main a ha (by rw [he, hr])).2 i hmem
  · intro a ha he
    rcases List.mem_append.1 ha with ha | ha
    · exact hp.main a ha he
    · rw [List.mem_singleton.1 ha, hb, hn]
      refine ⟨h.below i hmem, fun j hj => ?_⟩
      rw [hi, hl2] at hj
      exact (List.pairwise_cons.1 hsort).1 _ (List.mem_map_of_mem hj)
  · intro a ha he
    rcases List.mem_append.1 ha with ha | ha
    · exact hp.side a ha he
    · rw [List.mem_singleton.1 ha, hr, h2] at he
      exact absurd rfl (h.rtxIn _ he).2
  · intro a ha
    rcases List.mem_append.1 ha with ha | ha
    · exact h.low a ha
    · rw [List.mem_singleton.1 ha]; exact hl

/-- Nothing that matters for the numbers has changed. -/
theorem Num.same {m : Bool} {lim : Nat} {used : List Nat} {s t : Tx} {outs : List Out} (h : Num m lim used s outs)
    (hq : t.queue.queue.length = s.queue.queue.length) (hi : t.infos = s.infos) (h1 : t.ssrc = s.ssrc) (h2 : t.rtx = s.rtx) (h3 : t.seqNo = s.seqNo)
    (h4 : s.seqNoRtx ≤ t.seqNoRtx) : Num m lim used t outs := by
  have hb : bnd m lim t = bnd m lim s := by unfold bnd; rw [h3]
  refine ⟨by rw [hq, hi]; exact h.len, by rw [hi]; exact h.sorted, by rw [hi, hb]; exact h.below, by rw [h1]; exact h.ssrcIn,
    by rw [h1, h2]; exact h.rtxIn, h.outIn, h.pair, by rw [hb, hi, h1]; exact h.main, ?_, h.low⟩
  intro o ho he
  rw [h2] at he
  have := h.side o ho he
  omega

/-- New SSRCs. -/
theorem Num.reset {m : Bool} {lim lim' : Nat} {used : List Nat} {s : Tx} {outs : List Out} (h : Num m lim used s outs) (a : Nat) (b : Option Nat) (c d : Nat)
    (ha : a ∉ used) (hb : ∀ r, b = some r → r ∉ used ∧ r ≠ a) : Num m lim' (a :: b.toList ++ used) (resetSsrc s a b c d) outs := by
  have hn : ∀ o ∈ outs, o.ssrc ≠ a := fun o ho he => ha (he ▸ h.outIn o ho)
  refine ⟨rfl, List.Pairwise.nil, fun i hi => (by cases hi), by simp [resetSsrc, resetBuffers], ?_, ?_, h.pair, ?_, ?_, h.low⟩
  · intro r hr
    have hr : b = some r := hr
    subst hr
    exact ⟨by simp, (hb r rfl).2⟩
  · intro o ho
    have := h.outIn o ho
    simp [this]
  · intro o ho he
    exact absurd he (hn o ho)
  · intro o ho he
    have he : b = some o.ssrc := he
    exact absurd (h.outIn o ho) (hb _ he).1

theorem Num.polled {m : Bool} {lim : Nat} {used : List Nat} {s t : Tx} {outs : List Out} {now hdr : Nat} {params : List Param} {rs : List Nat} {pd : Nat}
    {o : Option Out} (h : Num m lim used s outs) (hp : Polled s now hdr params rs pd t o) : Num m lim used t (outs ++ o.toList) := by
  cases hp with
  | none k =>
    simp only [Option.toList_none, List.append_nil]
    exact h.same rfl rfl rfl rfl rfl (Nat.le_add_right _ _)
  | dropped q r hq hr hu =>
    have := pop_tail hq hr
    simp only [Option.toList_none, List.append_nil]
    exact h.popped this.1 rfl rfl rfl rfl rfl
  | regular q r p c i hq hr hf hi hc hfit =>
    have := pop_tail hq hr
    exact h.regular rfl this.2 rfl rfl this.1 rfl rfl rfl rfl rfl
  | resend p x pad hg pp pt ssrc hf hpt hr hs => exact h.rtx hr rfl rfl rfl rfl rfl rfl rfl rfl
  | blank pm len hl hm pp pt ssrc hf hpt hr => exact h.rtx hr rfl rfl rfl rfl rfl rfl rfl rfl

end Str0m.Tx
