import Verif.Props.StreamTxOrder
/-
  C67: when an outgoing stream cannot panic, and when it does.
-/
namespace Str0m.Tx
open Str0m Str0m.Pts

def Runs {α : Type} (x : Res Unit α) : Prop := ∃ r, x = .ok r

theorem Runs.bind {α β : Type} {x : Res Unit α} {f : α → Res Unit β} (h : Runs x) (hf : ∀ r, x = .ok r → Runs (f r)) : Runs (x.bind f) := by
  obtain ⟨r, rfl⟩ := h
  exact hf r rfl

theorem Runs.ok {α : Type} (a : α) : Runs (.ok a : Res Unit α) := ⟨a, rfl⟩

/-! ### The queue -/

/-- Packets with a time stamp, and their bytes. -/
def cnt (l : List QPacket) : Nat := (l.filter (fun p => p.timestamp.isSome)).length
def sz (l : List QPacket) : Nat := ((l.filter (fun p => p.timestamp.isSome)).map (·.payload.length)).sum

structure TOk (t : TotalQueue) : Prop where
  last : t.last.isSome = true ↔ 0 < t.unsentCount
  zero : t.unsentCount = 0 → t.unsentSize = 0 ∧ t.queueTime = 0

theorem TOk.forward {t : TotalQueue} (h : TOk t) (now : Nat) :
    ∃ u, t.moveTimeForward now = .ok u ∧ u.unsentCount = t.unsentCount ∧ u.unsentSize = t.unsentSize ∧ TOk u := by
  unfold TotalQueue.moveTimeForward
  cases hl : t.last with
  | some x =>
    have hc : 0 < t.unsentCount := h.last.1 (by rw [hl]; rfl)
    dsimp only
    rw [if_pos hc]
    exact ⟨_, rfl, rfl, rfl, ⟨by simp [hc], fun h0 => by have h0 : t.unsentCount = 0 := h0; omega⟩⟩
  | none =>
    have hc : t.unsentCount = 0 := by
      have := h.last
      rw [hl] at this
      simp at this
      omega
    obtain ⟨h1, h2⟩ := h.zero hc
    dsimp only
    rw [if_pos ⟨hc, h1, h2⟩]
    exact ⟨t, rfl, rfl, rfl, h⟩

theorem TOk.increase {t : TotalQueue} (h : TOk t) (now n : Nat) :
    ∃ u, t.increase now n = .ok u ∧ u.unsentCount = t.unsentCount + 1 ∧ u.unsentSize = t.unsentSize + n ∧ TOk u := by
  obtain ⟨u, e1, e2, e3, e4⟩ := h.forward now
  unfold TotalQueue.increase
  rw [e1]
  refine ⟨_, rfl, by rw [← e2], by rw [← e3], ⟨by simp, fun h0 => ?_⟩⟩
  have h0 : u.unsentCount + 1 = 0 := h0
  omega

theorem TOk.decrease {t : TotalQueue} (h : TOk t) (now n : Nat) (h1 : 1 ≤ t.unsentCount) (h2 : n ≤ t.unsentSize) (h3 : t.unsentCount = 1 → t.unsentSize = n) :
    ∃ u, t.decrease now n 0 = .ok u ∧ u.unsentCount = t.unsentCount - 1 ∧ u.unsentSize = t.unsentSize - n ∧ TOk u := by
  obtain ⟨u, e1, e2, e3, e4⟩ := h.forward now
  unfold TotalQueue.decrease
  rw [e1]
  dsimp only [Res.bind]
  rw [if_pos ⟨by omega, by omega, Nat.zero_le _⟩]
  unfold TotalQueue.settle
  dsimp only
  split
  · rename_i hz
    rw [if_pos (by have := h3 (by omega); omega)]
    refine ⟨_, rfl, by simp only; omega, by simp only; omega, ⟨?_, ?_⟩⟩
    · simp only; constructor
      · intro hh; cases hh
      · intro hh; omega
    · intro _
      have := h3 (by omega)
      exact ⟨by show u.unsentSize - n = 0; omega, rfl⟩
  · rename_i hz
    refine ⟨_, rfl, by simp only; omega, by simp only; omega, ⟨?_, ?_⟩⟩
    · simp only
      have := e4.last
      constructor
      · intro _; omega
      · intro _; exact this.2 (by omega)
    · intro h0
      exact absurd h0 hz

theorem stampLoop_runs (now : Nat) : ∀ (l : List QPacket) (t : TotalQueue), TOk t →
    ∃ r, SendQueue.stampLoop now l t = .ok r ∧ TOk r.2 ∧ r.2.unsentCount + cnt l = t.unsentCount + cnt r.1 ∧ r.2.unsentSize + sz l = t.unsentSize + sz r.1 := by
  intro l
  induction l with
  | nil => intro t h; exact ⟨_, rfl, h, rfl, rfl⟩
  | cons p ps ih =>
    intro t h
    unfold SendQueue.stampLoop
    cases hp : p.timestamp with
    | some x => exact ⟨_, rfl, h, rfl, rfl⟩
    | none =>
      dsimp only
      obtain ⟨u, e1, e2, e3, e4⟩ := h.increase now p.payload.length
      obtain ⟨r, f1, f2, f3, f4⟩ := ih u e4
      rw [e1]
      dsimp only [Res.bind]
      rw [f1]
      refine ⟨_, rfl, f2, ?_, ?_⟩
      · simp only [cnt, List.filter_cons, hp, Option.isSome_none, Option.isSome_some, if_true, List.length_cons, Bool.false_eq_true, if_false] at f3 ⊢
        omega
      · simp only [sz, List.filter_cons, hp, Option.isSome_none, Option.isSome_some, if_true, List.map_cons, List.sum_cons, Bool.false_eq_true, if_false] at f4 ⊢
        omega

structure QOk (q : SendQueue) : Prop where
  tot : TOk q.total
  count : q.total.unsentCount = cnt q.queue
  size : q.total.unsentSize = sz q.queue

theorem cnt_reverse (l : List QPacket) : cnt l.reverse = cnt l := by unfold cnt; rw [List.filter_reverse, List.length_reverse]
theorem sz_reverse (l : List QPacket) : sz l.reverse = sz l := by unfold sz; rw [List.filter_reverse, List.map_reverse, List.sum_reverse]

theorem QOk.timeout {q : SendQueue} (h : QOk q) (now : Nat) : ∃ r, q.handleTimeout now = .ok r ∧ QOk r := by
  obtain ⟨r, e1, e2, e3, e4⟩ := stampLoop_runs now q.queue.reverse q.total h.tot
  unfold SendQueue.handleTimeout
  rw [e1]
  rw [cnt_reverse] at e3
  rw [sz_reverse] at e4
  refine ⟨_, rfl, ⟨e2, ?_, ?_⟩⟩
  · have := h.count
    simp only [cnt_reverse]
    omega
  · have := h.size
    simp only [sz_reverse]
    omega

theorem QOk.push {q : SendQueue} (h : QOk q) (p : QPacket) : QOk (q.push p) := by
  refine ⟨h.tot, ?_, ?_⟩
  · have := h.count
    simp only [SendQueue.push, cnt, List.filter_append] at this ⊢
    simpa using this
  · have := h.size
    simp only [SendQueue.push, sz, List.filter_append] at this ⊢
    simpa using this

theorem QOk.empty : QOk {} := ⟨⟨by simp, fun _ => ⟨rfl, rfl⟩⟩, rfl, rfl⟩

theorem QOk.pop {q : SendQueue} (h : QOk q) {p : QPacket} (hq : q.peek = some p) (now : Nat) :
    ∃ r, (stampHead q now).pop now = .ok r ∧ QOk r.1 := by
  unfold SendQueue.peek at hq
  cases hl : q.queue with
  | nil => rw [hl] at hq; cases hq
  | cons x xs =>
    rw [hl] at hq
    dsimp only at hq
    split at hq
    · cases hq
    · rename_i hx
      cases hq
      have hx : p.timestamp.isSome = true := by cases he : p.timestamp with | none => exact absurd he hx | some _ => rfl
      have h1 := h.count
      have h2 := h.size
      rw [hl] at h1 h2
      simp only [cnt, sz, List.filter_cons, hx, if_true, List.length_cons, List.map_cons, List.sum_cons] at h1 h2
      obtain ⟨u, e1, e2, e3, e4⟩ := h.tot.decrease now p.payload.length (by omega) (by omega) (fun he => by
        have : (xs.filter (fun p => p.timestamp.isSome)).length = 0 := by omega
        rw [List.length_eq_zero_iff] at this
        rw [this] at h2
        simp at h2
        exact h2)
      unfold stampHead SendQueue.pop
      rw [hl]
      dsimp only
      rw [Nat.sub_self, e1]
      refine ⟨_, rfl, ⟨e4, ?_, ?_⟩⟩
      · simp only [cnt]; omega
      · simp only [sz]; omega

/-! ### Specification -/

/-- How the stream is used: `P` are the payload types, `M` the largest payload, both fixed. Payloads fit into a datagram with the header and the two bytes a
retransmission adds; a new pair of SSRCs has an RTX SSRC, if any payload type has RTX; the payload type for padding (from the first timeout) is one with RTX. -/
def Careful (P : List Param) (M : Nat) : Op → Prop
  | .write w => w.payload.length ≤ M
  | .frame _ cs => ∀ c ∈ cs, c.length ≤ M
  | .timeout _ pt => ∀ x, pt = some x → ∃ p ∈ P, p.pt = x ∧ p.resend.isSome = true
  | .poll _ hdr params _ => params = P ∧ 1 ≤ hdr ∧ hdr + 240 ≤ 2000 ∧ hdr + M + 2 ≤ 2000
  | .resetSsrc _ b _ _ => b.isSome = true ∨ ∀ p ∈ P, p.resend = none
  | _ => True

/-! ### The invariant -/

/-- A payload type with RTX. -/
def HasRtx (P : List Param) (pt : Nat) : Prop := ∃ p, P.find? (fun p => decide (p.pt = pt)) = some p ∧ p.resend.isSome = true

structure Safe (P : List Param) (M : Nat) (s : Tx) : Prop where
  queue : QOk s.queue
  pay : ∀ p ∈ s.queue.queue, p.payload.length ≤ M
  cache : Cached (fun p => p.info.nackable = true ∧ p.payload.length ≤ M ∧ HasRtx P p.info.pt) s.cache
  slots : s.cache.bySize.length = 80
  pad : ∀ x, s.ptForPadding = some x → HasRtx P x
  rtx : s.rtx.isSome = true ∨ ∀ p ∈ P, p.resend = none
  mtu : 80 ≤ s.mtuWarn ∧ s.mtuWarn ≤ 2104

theorem hasRtx_rtx {P : List Param} {M : Nat} {s : Tx} (h : Safe P M s) {pt : Nat} (hp : HasRtx P pt) : ∃ x, s.rtx = some x := by
  obtain ⟨p, h1, h2⟩ := hp
  rcases h.rtx with hr | hr
  · exact Option.isSome_iff_exists.1 hr
  · rw [hr p (List.mem_of_find?_eq_some h1)] at h2; cases h2

theorem stampHead_payload (q : SendQueue) (now : Nat) : (stampHead q now).queue.map (·.payload) = q.queue.map (·.payload) := by
  unfold stampHead
  split
  · rfl
  · rename_i h; rw [h]; rfl

theorem pollNext_runs {P : List Param} {M : Nat} {s : Tx} (h : Safe P M s) (now : Nat) (over : Bool) : Runs (pollNext s now over) := by
  unfold pollNext
  have hpad : ∀ rs, Runs (pollPadding { s with resends := rs }) := by
    intro rs
    unfold pollPadding
    dsimp only
    split
    · split
      · exact Runs.ok _
      · apply Runs.bind
        · unfold spurious
          dsimp only
          split
          · have := h.mtu
            rw [if_neg (by unfold MAX_RTP_OVERHEAD; omega)]
            unfold RtxCache.getSmallerThan
            dsimp only
            rw [if_pos (by rw [h.slots]; unfold RTX_QUANTIZER MAX_RTP_OVERHEAD; omega)]
            exact Runs.ok _
          · exact Runs.ok _
        · intro r _; exact Runs.ok _
    · exact Runs.ok _
  have hz : ∀ rs, Runs (orRegular now ({ s with resends := rs }, none)) := by
    intro rs
    unfold orRegular pollRegular
    dsimp only
    split
    · unfold orPadding
      dsimp only
      exact (hpad rs).bind (fun r _ => Runs.ok _)
    · exact Runs.ok _
  apply Runs.bind
  · unfold pollResend
    split
    · exact Runs.ok _
    · cases hf : firstCached s.cache s.resends with
      | none => exact Runs.ok _
      | some x =>
        obtain ⟨p, rest⟩ := x
        obtain ⟨m, -, hm⟩ := firstCached_some hf
        dsimp only
        rw [if_pos (h.cache.get hm).2.1]
        exact Runs.ok _
  · rintro ⟨s1, n1⟩ h1
    unfold pollResend at h1
    split at h1
    · cases h1; exact hz _
    · cases hf : firstCached s.cache s.resends with
      | none => rw [hf] at h1; cases h1; exact hz _
      | some x =>
        obtain ⟨p, rest⟩ := x
        rw [hf] at h1
        dsimp only at h1
        split at h1
        · cases h1; exact Runs.ok _
        · cases h1

theorem sendRtx_runs {s : Tx} {hdr : Nat} {p : Param} {n : Next} {pad : Bool} (hp : p.resend.isSome = true) (hr : ∃ x, s.rtx = some x)
    (hl : hdr + (bodyOf n).length ≤ 2000) : Runs (sendRtx s hdr p n pad) := by
  obtain ⟨a, ha⟩ := Option.isSome_iff_exists.1 hp
  obtain ⟨b, hb⟩ := hr
  unfold sendRtx
  rw [ha, hb]
  dsimp only
  rw [if_neg (by unfold DATAGRAM_MAX; omega)]
  exact Runs.ok _

theorem padBody_length (len : Nat) (h : 1 ≤ len) : (padBody len).length ≤ 240 := by
  unfold padBody MAX_BLANK
  dsimp only
  rw [List.length_append, List.length_replicate, List.length_singleton]
  split <;> omega

theorem peek_mem {q : SendQueue} {p : QPacket} (h : q.peek = some p) : p ∈ q.queue := by
  unfold SendQueue.peek at h
  cases hl : q.queue with
  | nil => rw [hl] at h; cases h
  | cons x xs =>
    rw [hl] at h
    dsimp only at h
    split at h
    · cases h
    · cases h; exact List.mem_cons_self ..

theorem poll_runs {P : List Param} {M : Nat} {s : Tx} (h : Safe P M s) (now hdr : Nat) (over : Bool) (h1 : 1 ≤ hdr) (h2 : hdr + 240 ≤ 2000) (h3 : hdr + M + 2 ≤ 2000) :
    Runs (poll s now hdr P over) := by
  unfold poll
  refine (pollNext_runs h now over).bind ?_
  rintro ⟨s1, n⟩ hn
  obtain ⟨rs, pd, -, hp⟩ := pollNext_ok hn
  clear hn
  cases hp with
  | none => exact Runs.ok _
  | resend p m pad hg hr hn hs =>
    obtain ⟨-, g1, g2, g3⟩ := h.cache.get hg
    obtain ⟨pp, f1, f2⟩ := g3
    unfold finishPoll sendNext
    dsimp only
    rw [f1]
    dsimp only
    rw [if_neg (by intro he; cases he)]
    refine sendRtx_runs f2 (show ∃ x, s.rtx = some x from hasRtx_rtx h ⟨pp, f1, f2⟩) ?_
    have : (bodyOf { kind := Kind.resend p.seqNo, seqNo := s.seqNoRtx, payload := p.payload, info := p.info }).length = 2 + p.payload.length := by
      simp [bodyOf, be16]; omega
    omega
  | blank pt len hp hr hl =>
    have hx := h.pad pt hp
    obtain ⟨pp, f1, f2⟩ := hx
    unfold finishPoll sendNext
    dsimp only
    rw [f1]
    dsimp only
    rw [if_neg (by intro he; cases he)]
    refine sendRtx_runs f2 (show ∃ x, s.rtx = some x from hasRtx_rtx h ⟨pp, f1, f2⟩) ?_
    have := padBody_length len (by omega)
    simp only [bodyOf]
    omega
  | regular q hq =>
    have hm := h.pay q (peek_mem hq)
    obtain ⟨r, hr, -⟩ := h.queue.pop hq now
    unfold finishPoll sendNext
    dsimp only
    cases hf : P.find? (fun p => decide (p.pt = (headInfo s).2.pt)) with
    | none =>
      dsimp only
      unfold dropUnknown popQueue
      rw [if_pos rfl]
      refine Runs.bind ?_ (fun r _ => Runs.ok _)
      dsimp only
      rw [hr]
      exact Runs.ok _
    | some p =>
      dsimp only
      rw [if_pos rfl]
      unfold sendRegular
      dsimp only
      rw [if_neg (by unfold DATAGRAM_MAX; omega)]
      refine Runs.bind ?_ (fun r _ => Runs.ok _)
      unfold moveToCache popQueue
      rw [learnPt_eq]
      dsimp only
      rw [hr]
      have h2 := stampHead_pop hq hr
      show Runs (match r.2 with | none => Res.panic | some p => _)
      rw [h2]
      dsimp only
      unfold cacheIf
      split
      · refine Runs.bind ?_ (fun r _ => Runs.ok _)
        unfold RtxCache.cacheSent
        dsimp only
        rw [if_pos (by rw [h.slots]; unfold RTX_QUANTIZER; omega)]
        exact Runs.ok _
      · exact Runs.ok _

theorem cacheSent_slots {c d : RtxCache} {p : CachedPacket} {now : Nat} (h : c.cacheSent p now = .ok d) : d.bySize.length = c.bySize.length := by
  unfold RtxCache.cacheSent at h
  dsimp only at h
  split at h
  · cases h; simp
  · cases h

theorem safe_polled {P : List Param} {M : Nat} {s t : Tx} {now hdr : Nat} {rs : List Nat} {pd : Nat} {o : Option Out} (h : Safe P M s)
    (hp : Polled s now hdr P rs pd t o) : Safe P M t := by
  have hpay : ∀ (q : QPacket) (r : SendQueue × Option QPacket), s.queue.peek = some q → (stampHead s.queue now).pop now = .ok r →
      ∀ p ∈ r.1.queue, p.payload.length ≤ M := by
    intro q r hq hr p hp
    rw [(pop_tail hq hr).1] at hp
    exact h.pay p (List.mem_of_mem_tail hp)
  have hpop : ∀ (q : QPacket) (r : SendQueue × Option QPacket), s.queue.peek = some q → (stampHead s.queue now).pop now = .ok r → QOk r.1 := by
    intro q r hq hr
    obtain ⟨r2, e1, e2⟩ := h.queue.pop hq now
    rw [hr] at e1
    cases e1
    exact e2
  cases hp with
  | none k => exact ⟨h.queue, h.pay, h.cache, h.slots, h.pad, h.rtx, h.mtu⟩
  | resend p x pad hg pp pt ssrc hf hpt hr hs => exact ⟨h.queue, h.pay, h.cache, h.slots, h.pad, h.rtx, h.mtu⟩
  | blank pm len hl hm pp pt ssrc hf hpt hr => exact ⟨h.queue, h.pay, h.cache, h.slots, h.pad, h.rtx, h.mtu⟩
  | dropped q r hq hr hu => exact ⟨hpop q r hq hr, hpay q r hq hr, h.cache, h.slots, h.pad, h.rtx, h.mtu⟩
  | regular q r p c i hq hr hf hi hc hfit =>
    have hpp : p.resend.isSome = true → HasRtx P p.pt := by
      intro hs
      have := List.find?_some hf
      simp only [decide_eq_true_eq] at this
      exact ⟨p, by rw [this]; exact hf, hs⟩
    refine ⟨hpop q r hq hr, hpay q r hq hr, ?_, ?_, ?_, h.rtx, h.mtu⟩
    · rcases hc with ⟨hn, hc⟩ | ⟨-, rfl⟩
      · refine Cached.sent h.cache ⟨hn, h.pay q (peek_mem hq), ?_⟩ hc
        have hpt : i.pt = (headInfo s).2.pt := by rw [hi]; unfold announced; split <;> rfl
        have hnn : p.resend.isSome = true := by
          rw [hi] at hn
          simp only [Bool.and_eq_true] at hn
          exact hn.2
        rw [hpt]
        exact ⟨p, hf, hnn⟩
      · exact h.cache
    · rcases hc with ⟨-, hc⟩ | ⟨-, rfl⟩
      · rw [cacheSent_slots hc]; exact h.slots
      · exact h.slots
    · intro x hx
      dsimp only at hx
      split at hx
      · rename_i hs
        cases hx
        exact hpp hs
      · exact h.pad x hx

theorem safe_chunks {P : List Param} {M : Nat} (f : Frame) (cs : List (List Byte)) : ∀ (first : Bool) (s : Tx), (∀ c ∈ cs, c.length ≤ M) → Safe P M s →
    Safe P M (pushChunks s f first cs) := by
  induction cs with
  | nil => intro first s _ h; exact h
  | cons c cs ih =>
    intro first s hl h
    refine ih false _ (fun d hd => hl d (List.mem_cons_of_mem _ hd)) ⟨h.queue.push _, ?_, h.cache, h.slots, h.pad, h.rtx, h.mtu⟩
    intro p hp
    rcases List.mem_append.1 hp with hp | hp
    · exact h.pay p hp
    · rw [List.mem_singleton.1 hp]; exact hl c (List.mem_cons_self ..)

theorem safe_step {P : List Param} {M : Nat} (hP : (P.map (·.pt)).Nodup) {s : Tx} (h : Safe P M s) (op : Op) (hc : Careful P M op) : ∃ t o, step s op = .ok (t, o) ∧ Safe P M t := by
  cases op with
  | write w =>
    refine ⟨_, _, rfl, ⟨h.queue.push _, ?_, h.cache, h.slots, h.pad, h.rtx, h.mtu⟩⟩
    intro p hp
    rcases List.mem_append.1 hp with hp | hp
    · exact h.pay p hp
    · rw [List.mem_singleton.1 hp]; exact hc
  | frame f cs => exact ⟨_, _, rfl, safe_chunks f cs true s hc h⟩
  | timeout now pt =>
    obtain ⟨r, e1, e2⟩ := h.queue.timeout now
    have hpt : ∀ x, pt = some x → HasRtx P x := by
      intro x hx
      obtain ⟨p, hp, h1, h2⟩ := hc x hx
      refine ⟨p, ?_, h2⟩
      cases hf : P.find? (fun p => decide (p.pt = x)) with
      | none => exact absurd (List.find?_eq_none.1 hf p hp) (by simp [h1])
      | some y =>
        have hy := List.find?_some hf
        simp only [decide_eq_true_eq] at hy
        rw [List.inj_on_of_nodup_map hP (List.mem_of_find?_eq_some hf) hp (by rw [hy, h1])]
    have hq : (firstTimeout s pt).queue = s.queue := by obtain ⟨x, hx⟩ := firstTimeout_eq s pt; rw [hx]
    refine ⟨{ firstTimeout s pt with queue := r }, none, ?_, ?_⟩
    · show (timeout s now pt).bind _ = _
      unfold timeout
      rw [hq, e1]
      rfl
    · have hpay : ∀ p ∈ r.queue, p.payload.length ≤ M := by
        intro p hp
        have := timeout_payload e1
        have hm : p.payload ∈ r.queue.map (·.payload) := List.mem_map_of_mem hp
        rw [this] at hm
        obtain ⟨p2, h2, h3⟩ := List.mem_map.1 hm
        rw [← h3]
        exact h.pay p2 h2
      unfold firstTimeout
      split
      · exact ⟨e2, hpay, h.cache, h.slots, hpt, h.rtx, h.mtu⟩
      · exact ⟨e2, hpay, h.cache, h.slots, h.pad, h.rtx, h.mtu⟩
  | poll now hdr params over =>
    obtain ⟨rfl, h1, h2, h3⟩ := hc
    obtain ⟨⟨t, o⟩, hr⟩ := poll_runs h now hdr over h1 h2 h3
    obtain ⟨rs, pd, -, hp⟩ := poll_ok hr
    exact ⟨t, o, hr, safe_polled h hp⟩
  | nack es =>
    obtain ⟨l, hl⟩ := nack_eq s es
    refine ⟨nack s es, none, rfl, ?_⟩
    rw [hl]
    exact ⟨h.queue, h.pay, h.cache, h.slots, h.pad, h.rtx, h.mtu⟩
  | report x =>
    obtain ⟨a, b, hl⟩ := report_eq s x
    refine ⟨receptionReport s x, none, rfl, ?_⟩
    rw [hl]
    exact ⟨h.queue, h.pay, h.cache, h.slots, h.pad, h.rtx, h.mtu⟩
  | padding n =>
    obtain ⟨a, hl⟩ := padding_eq s n
    refine ⟨generatePadding s n, none, rfl, ?_⟩
    rw [hl]
    exact ⟨h.queue, h.pay, h.cache, h.slots, h.pad, h.rtx, h.mtu⟩
  | setCache a b c => exact ⟨_, _, rfl, ⟨h.queue, h.pay, cached_new _ _, by simp [setCache, RtxCache.new, RTX_SLOTS], h.pad, h.rtx, h.mtu⟩⟩
  | resetBuffers =>
    exact ⟨_, _, rfl, ⟨QOk.empty, (fun p hp => by cases hp), cached_clear _, by simp [resetBuffers, RtxCache.clear, RTX_SLOTS], h.pad, h.rtx, h.mtu⟩⟩
  | resetSsrc a b c d =>
    exact ⟨_, _, rfl, ⟨QOk.empty, (fun p hp => by cases hp), cached_clear _, by simp [resetSsrc, resetBuffers, RtxCache.clear, RTX_SLOTS], h.pad, hc, h.mtu⟩⟩

theorem safe_run {P : List Param} {M : Nat} (hP : (P.map (·.pt)).Nodup) (ops : List Op) : ∀ (s : Tx), Safe P M s → (∀ op ∈ ops, Careful P M op) → ∃ t outs, run s ops = .ok (t, outs) := by
  induction ops with
  | nil => intro s _ _; exact ⟨_, _, rfl⟩
  | cons op ops ih =>
    intro s h hc
    obtain ⟨t, o, h1, h2⟩ := safe_step hP h op (hc op (List.mem_cons_self ..))
    obtain ⟨u, outs, h3⟩ := ih t h2 (fun op ho => hc op (List.mem_cons_of_mem _ ho))
    refine ⟨u, o.toList ++ outs, ?_⟩
    unfold run
    rw [h1]
    show (run t ops).bind _ = _
    rw [h3]
    rfl

/-- **C67**: an outgoing stream used with care never panics, whatever the remote end asks for and whenever it is polled: with an RTX SSRC if any payload type has RTX,
one fixed list of payload types, payloads that fit into a datagram with header and two more bytes, and a warning size from 80 to 2104 bytes. -/
theorem C67_no_panic_partial (P : List Param) (hP : (P.map (·.pt)).Nodup) (M : Nat) (ssrc : Nat) (rtx : Option Nat) (mid : Nat) (rid : Option Nat) (mtu s1 s2 : Nat)
    (hm : 80 ≤ mtu ∧ mtu ≤ 2104) (hr : rtx.isSome = true ∨ ∀ p ∈ P, p.resend = none) (ops : List Op) (hc : ∀ op ∈ ops, Careful P M op) :
    ∃ t outs, run (new ssrc rtx mid rid mtu s1 s2) ops = .ok (t, outs) :=
  safe_run hP ops _ ⟨QOk.empty, (fun p hp => by cases hp), cached_new _ _, by simp [new, RtxCache.new, RTX_SLOTS], (fun x hx => by cases hx), hr, hm⟩ hc

/-! ### Histories that do panic, and a wrong statistic -/

def demoParams : List Param := [{ pt := 96, resend := some 97 }, { pt := 111, resend := none }]

def demoWrite (n len : Nat) : Write := { seqNo := n, payload := List.replicate len 7, pt := 96, time := 1000 + n, nackable := true }

/-- **C67** (violation): a stream may be declared without RTX SSRC. If its payload type has RTX, one packet and one NACK from the remote end are enough. -/
theorem C67_violation_no_rtx_ssrc :
    run (new 1 none 5 none 1150 10 20) [.write (demoWrite 10 100), .timeout 0 none, .poll 0 20 demoParams false, .nack [⟨10, 0⟩], .poll 1 20 demoParams false] = .panic := by
  decide +kernel

/-- **C67** (violation): a packet that just fits is sent, but cannot be repeated: two bytes are added. -/
theorem C67_violation_exact_fit :
    run (new 1 (some 2) 5 none 1150 10 20) [.write (demoWrite 10 1979), .timeout 0 none, .poll 0 20 demoParams false, .nack [⟨10, 0⟩], .poll 1 20 demoParams false] = .panic := by
  decide +kernel

/-- **C67** (violation): with the warning about large packets switched off (a very large size), padding of 1013 bytes or more looks beyond the table of packet sizes. -/
theorem C67_violation_no_mtu_warning :
    run (new 1 (some 2) 5 none (2 ^ 64 - 1) 10 20) [.timeout 0 (some 96), .padding 1013, .poll 0 20 demoParams false] = .panic := by
  decide +kernel

/-- **C67** (violation): a packet larger than the datagram buffer. -/
theorem C67_violation_too_large :
    run (new 1 (some 2) 5 none 1150 10 20) [.write (demoWrite 10 1990), .timeout 0 none, .poll 0 20 demoParams false] = .panic := by
  decide +kernel

/-- **C09** (violation in use): the stream sets the time stamp of a packet to the present just before it is taken out of the queue, so its waiting time is never subtracted:
of two packets queued at 0 one is left at time 10, but the reported total is 20, not 10. -/
theorem C09_violation_queue_time :
    (run (new 1 (some 2) 5 none 1150 10 20) [.write (demoWrite 10 100), .write (demoWrite 11 100), .timeout 0 none, .poll 10 20 demoParams false]).bind
      (fun r => r.1.queue.snapshot 10 |>.bind (fun x => .ok (x.2.packetCount, x.2.totalQueueTimeOrigin, x.2.firstUnsent))) = .ok (1, 20, some 0) := by
  decide +kernel

/-! ### A history that shows it all -/

/-- New packets, a NACK for the second, padding. -/
def demoOps : List Op :=
  [.timeout 0 (some 96), .write (demoWrite 10 100), .write (demoWrite 11 60), .timeout 1 none, .poll 2 20 demoParams false, .poll 3 20 demoParams false,
   .nack [⟨11, 0⟩], .poll 4 20 demoParams false, .padding 55, .poll 5 20 demoParams false, .padding 30, .poll 6 20 demoParams false]

example : ∀ op ∈ demoOps, Careful demoParams 100 op := by
  intro op h
  simp only [demoOps, List.mem_cons, List.not_mem_nil, or_false] at h
  rcases h with rfl | rfl | rfl | rfl | rfl | rfl | rfl | rfl | rfl | rfl | rfl | rfl
  · rintro x rfl_; cases rfl_; exact ⟨⟨96, some 97⟩, by decide, rfl, rfl⟩
  · show (List.replicate 100 (7 : Byte)).length ≤ 100; rw [List.length_replicate]
  · show (List.replicate 60 (7 : Byte)).length ≤ 100; rw [List.length_replicate]; omega
  · rintro x h; cases h
  · exact ⟨rfl, by omega, by omega, by omega⟩
  · exact ⟨rfl, by omega, by omega, by omega⟩
  · trivial
  · exact ⟨rfl, by omega, by omega, by omega⟩
  · trivial
  · exact ⟨rfl, by omega, by omega, by omega⟩
  · trivial
  · exact ⟨rfl, by omega, by omega, by omega⟩

/-- What is seen of a datagram. -/
structure Sketch where
  ssrc : Nat
  seqNo : Nat
  pt : Nat
  kind : Kind
  isPadding : Bool
  mid : Option Nat
  len : Nat
deriving DecidableEq

/-- Two packets on SSRC 1; on SSRC 2 the repeated one, the same again as padding, a blank one. -/
def demoOuts : List Sketch :=
  [⟨1, 10, 96, .regular, false, some 5, 100⟩, ⟨1, 11, 96, .regular, false, some 5, 60⟩, ⟨2, 20, 97, .resend 11, false, some 5, 62⟩,
   ⟨2, 21, 97, .resend 11, true, some 5, 62⟩, ⟨2, 22, 97, .blank 30, true, some 5, 32⟩]

example : (run (new 1 (some 2) 5 none 1150 10 20) demoOps).bind
    (fun r => .ok (r.2.map (fun o => (⟨o.ssrc, o.seqNo, o.pt, o.kind, o.isPadding, o.mid, o.body.length⟩ : Sketch)))) = .ok demoOuts := by decide +kernel

example : History true ⟨0, [1, 2]⟩ demoOps := by
  intro pre op post h
  have : ∀ i, i < demoOps.length → ∀ op, demoOps[i]? = some op → Allowed true ((demoOps.take i).foldl account ⟨0, [1, 2]⟩) op := by
    intro i hi op ho
    have hi : i < 12 := hi
    rcases (by omega : i = 0 ∨ i = 1 ∨ i = 2 ∨ i = 3 ∨ i = 4 ∨ i = 5 ∨ i = 6 ∨ i = 7 ∨ i = 8 ∨ i = 9 ∨ i = 10 ∨ i = 11) with
      rfl | rfl | rfl | rfl | rfl | rfl | rfl | rfl | rfl | rfl | rfl | rfl <;> cases ho <;> simp [Allowed, demoOps, account, demoWrite]
  have := this pre.length (by rw [h]; simp) op (by rw [h]; simp)
  rw [h] at this
  simpa using this

end Str0m.Tx
