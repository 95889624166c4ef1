import Verif.Proofs.BufferRx
/-
  What one `pop` of the depacketizing buffer does.
-/
namespace Str0m
namespace RxBuffer
variable {c : Codec}

/-- `d` is the codec's output for exactly the entries `es`. -/
def Decoded (c : Codec) (es : List RxEntry) (d : Depacketized) : Prop :=
  d.infos = es.map (·.info) ∧ (es.head?.map (·.info.time)) = some d.time ∧
  ∃ st st', depackLoop c st es ([], .none) = (st', .ok (d.data, d.extra))

theorem depacketize_spec (b : RxBuffer c) (s t : Nat) (h : GoodSeg b.queue (s, t)) :
    ∃ st r, b.depacketize s t = .ok ({ b with st := st, cache := none }, r) ∧
      (match r with
        | .error _ => True
        | .ok d => b.cache = some ((s, t), d) ∨ Decoded c (range b.queue s t) d) := by
  obtain ⟨h1, h2, e0, h3, h4, h5⟩ := h
  have hhead : (range b.queue s t).head? = some e0 := by
    rw [List.head?_eq_getElem?, range_getElem?]
    simp only [Nat.add_zero]
    rw [if_pos h1]; exact h3
  have hfresh : ∃ st r, (match b.queue[s]? with
      | none => Res.panic
      | some first =>
        let es := range b.queue s t
        match depackLoop c b.st es ([], .none) with
        | (st, .error u) => .ok ({ b with st := st, cache := none }, .error u)
        | (st, .ok (data, extra)) =>
          .ok ({ b with st := st, cache := none },
            .ok { time := first.info.time, contiguous := true, infos := es.map (·.info),
                  data := data, extra := extra }) : Res Unit (RxBuffer c × Except Unit Depacketized)) =
        .ok ({ b with st := st, cache := none }, r) ∧
      (match r with
        | .error _ => True
        | .ok d => b.cache = some ((s, t), d) ∨ Decoded c (range b.queue s t) d) := by
    simp only at h3
    rw [h3]
    simp only []
    cases hd : depackLoop c b.st (range b.queue s t) ([], .none) with
    | mk st res =>
      cases res with
      | error u => exact ⟨st, .error u, rfl, trivial⟩
      | ok p =>
        obtain ⟨data, extra⟩ := p
        refine ⟨st, _, rfl, Or.inr ⟨rfl, ?_, b.st, st, hd⟩⟩
        rw [hhead]; rfl
  unfold depacketize
  cases hc : b.cache with
  | none => simp only [hc] at hfresh ⊢; exact hfresh
  | some p =>
    obtain ⟨r, d⟩ := p
    simp only [hc] at hfresh ⊢
    by_cases hr : r = (s, t)
    · rw [if_pos hr]
      exact ⟨b.st, .ok d, rfl, Or.inl (by rw [hr])⟩
    · rw [if_neg hr]; exact hfresh

theorem follow_ok (b : RxBuffer c) (s t : Nat) (h : GoodSeg b.queue (s, t)) :
    ∃ k, b.isFollowingLast s = .ok k := by
  obtain ⟨h1, h2, e0, h3, h4, h5⟩ := h
  simp only at h3
  unfold isFollowingLast
  split
  · exact ⟨true, rfl⟩
  · split
    · exact ⟨false, rfl⟩
    · rw [h3]; exact ⟨_, rfl⟩

theorem followLoop_some (pre : List RxEntry) : ∀ (last seq : Nat), followLoop last pre = some seq →
    last ≤ seq ∧ ∀ s, last < s → s ≤ seq → ∃ e ∈ pre, e.info.seq = s ∧ e.isPadding = true := by
  induction pre with
  | nil => intro last seq h; simp [followLoop] at h; subst h; exact ⟨Nat.le_refl _, by omega⟩
  | cons e pre ih =>
    intro last seq h
    simp only [followLoop] at h
    split at h
    · cases h
    · split at h
      · cases h
      · rename_i h1 h2
        obtain ⟨i1, i2⟩ := ih _ _ h
        refine ⟨by omega, fun s s1 s2 => ?_⟩
        by_cases hs : e.info.seq < s
        · obtain ⟨x, hx, hx2⟩ := i2 s hs s2
          exact ⟨x, by simp [hx], hx2⟩
        · exact ⟨e, by simp, by omega, by simpa using h2⟩

/-- Flag true: every number between the last emitted one and the segment start is padding that is
in the queue. -/
theorem follow_true (b : RxBuffer c) (s : Nat) (e0 : RxEntry) (h0 : b.queue[s]? = some e0)
    (last : Nat) (hl : b.lastEmitted = some last) (h : b.isFollowingLast s = .ok true) :
    last < e0.info.seq ∧
    ∀ n, last < n → n < e0.info.seq → ∃ e ∈ b.queue, e.info.seq = n ∧ e.isPadding = true := by
  unfold isFollowingLast at h
  rw [hl] at h
  simp only at h
  split at h
  · simp at h
  · rename_i seq hf
    rw [h0] at h
    simp at h
    obtain ⟨f1, f2⟩ := followLoop_some _ _ _ hf
    refine ⟨by omega, fun n n1 n2 => ?_⟩
    obtain ⟨e, he, he2⟩ := f2 n n1 (by omega)
    exact ⟨e, List.mem_of_mem_take he, he2⟩

theorem followLoop_complete (e0 : RxEntry) (pre : List RxEntry) : ∀ (last : Nat),
    (pre ++ [e0]).Pairwise (fun a b => a.info.seq < b.info.seq) →
    (∀ e ∈ pre ++ [e0], last < e.info.seq) →
    (∀ n, last < n → n < e0.info.seq → ∃ e ∈ pre, e.info.seq = n ∧ e.isPadding = true) →
    followLoop last pre = some (e0.info.seq - 1) := by
  induction pre with
  | nil =>
    intro last _ h2 h3
    have h4 := h2 e0 (by simp)
    have : ¬ last + 1 < e0.info.seq := by
      intro hc
      obtain ⟨e, he, _⟩ := h3 (last + 1) (by omega) hc
      cases he
    simp [followLoop]; omega
  | cons x pre ih =>
    intro last h1 h2 h3
    rw [List.cons_append, List.pairwise_cons] at h1
    have hx := h2 x (by simp)
    have hx0 := h1.1 e0 (by simp)
    obtain ⟨y, hy, hy1, hy2⟩ := h3 (last + 1) (by omega) (by omega)
    have hyx : y = x := by
      rcases List.mem_cons.mp hy with h | h
      · exact h
      · have := h1.1 y (by simp [h]); omega
    subst hyx
    simp only [followLoop]
    rw [if_neg (by omega), if_neg (by simp [hy2])]
    apply ih _ h1.2
    · exact h1.1
    · intro n n1 n2
      obtain ⟨z, hz, hz1, hz2⟩ := h3 n (by omega) n2
      rcases List.mem_cons.mp hz with h | h
      · subst h; omega
      · exact ⟨z, h, hz1, hz2⟩

/-- And the converse: if every number in between is in the queue as padding, the flag is true. -/
theorem follow_complete (b : RxBuffer c) (s : Nat) (e0 : RxEntry) (h0 : b.queue[s]? = some e0)
    (hp : b.queue.Pairwise (fun a b => a.info.seq < b.info.seq))
    (last : Nat) (hl : b.lastEmitted = some last) (ha : ∀ e ∈ b.queue, last < e.info.seq)
    (h : ∀ n, last < n → n < e0.info.seq → ∃ e ∈ b.queue, e.info.seq = n ∧ e.isPadding = true) :
    b.isFollowingLast s = .ok true := by
  have hlt : s < b.queue.length := by
    by_contra hc
    rw [List.getElem?_eq_none (by omega)] at h0; cases h0
  have hget : b.queue[s] = e0 := by
    rw [List.getElem?_eq_getElem hlt] at h0; simpa using h0
  have hsplit : b.queue = b.queue.take s ++ e0 :: b.queue.drop (s + 1) := by
    rw [← hget, ← List.drop_eq_getElem_cons hlt, List.take_append_drop]
  have hf := followLoop_complete e0 (b.queue.take s) last (by
      have := hp
      rw [hsplit] at this
      exact List.Pairwise.sublist (List.Sublist.append_left (by simp) _) this)
    (by
      intro e he
      apply ha
      rw [List.mem_append] at he
      rcases he with he | he
      · exact List.mem_of_mem_take he
      · simp at he; subst he; exact List.mem_of_getElem? h0)
    (by
      intro n n1 n2
      obtain ⟨e, he, he1, he2⟩ := h n n1 n2
      refine ⟨e, ?_, he1, he2⟩
      rw [hsplit, List.mem_append] at he
      rcases he with he | he
      · exact he
      · exfalso
        rw [hsplit, List.pairwise_append] at hp
        rcases List.mem_cons.mp he with rfl | he
        · omega
        · have := (List.pairwise_cons.mp hp.2.1).1 e he
          omega)
  unfold isFollowingLast
  rw [hl]
  simp only [hf, h0]
  have := ha e0 (List.mem_of_getElem? h0)
  congr 1
  simp; omega

/-- The outcome of a `pop`. -/
inductive PopOutcome (b : RxBuffer c) : RxBuffer c → Option (Except Unit Depacketized) → Prop where
  | nothing (h : segments b.queue = []) : PopOutcome b b.discardOldPadding none
  | failed (s t : Nat) (e : RxEntry) (st : c.State) (u : Unit) (hg : GoodSeg b.queue (s, t))
      (hfirst : (segments b.queue).head? = some (s, t))
      (he : b.queue[t]? = some e) :
      PopOutcome b { b with st := st, cache := none, lastEmitted := some e.info.seq,
                            queue := b.queue.drop (t + 1) } (some (.error u))
  | waits (s t : Nat) (st : c.State) (d : Depacketized) (hg : GoodSeg b.queue (s, t))
      (hfirst : (segments b.queue).head? = some (s, t))
      (hd : b.cache = some ((s, t), d) ∨ Decoded c (range b.queue s t) d)
      (hseq : b.isFollowingLast s = .ok false) (hhold : (segments b.queue).length < b.holdBack) :
      PopOutcome b (discardOldPadding { b with st := st, cache := some ((s, t), d) }) none
  | emits (s t : Nat) (e : RxEntry) (st : c.State) (d : Depacketized) (k : Bool)
      (hg : GoodSeg b.queue (s, t))
      (hfirst : (segments b.queue).head? = some (s, t))
      (he : b.queue[t]? = some e)
      (hd : b.cache = some ((s, t), d) ∨ Decoded c (range b.queue s t) d)
      (hseq : b.isFollowingLast s = .ok k)
      (hhold : k = true ∨ b.holdBack ≤ (segments b.queue).length) :
      PopOutcome b (emit { b with st := st, cache := none } t d k e.info.seq).1
        (emit { b with st := st, cache := none } t d k e.info.seq).2

theorem pop_outcome (b : RxBuffer c) : ∃ b' r, b.pop = .ok (b', r) ∧ PopOutcome b b' r := by
  cases hs : segments b.queue with
  | nil => exact ⟨_, _, by simp only [pop, hs], .nothing hs⟩
  | cons seg rest =>
    obtain ⟨s, t⟩ := seg
    have hg := segments_good b.queue (s, t) (by rw [hs]; simp)
    have hfirst : (segments b.queue).head? = some (s, t) := by rw [hs]; rfl
    obtain ⟨e, he⟩ : ∃ e, b.queue[t]? = some e := ⟨_, List.getElem?_eq_getElem hg.2.1⟩
    obtain ⟨st, r, hd, hd2⟩ := depacketize_spec b s t hg
    cases r with
    | error u =>
      exact ⟨_, _, by simp only [pop, hs, he, hd, Res.bind_ok], .failed s t e st u hg hfirst he⟩
    | ok d =>
      obtain ⟨k, hk⟩ := follow_ok b s t hg
      have hk' : isFollowingLast { b with st := st, cache := none } s = .ok k := hk
      by_cases hw : (!k && !(decide ((rest.length + 1) ≥ b.holdBack))) = true
      · refine ⟨_, _, by simp only [pop, hs, he, hd, Res.bind_ok, hk', hw, if_true]; rfl, ?_⟩
        simp at hw
        exact .waits s t st d hg hfirst hd2 (by rw [hk, hw.1]) (by rw [hs]; simpa using hw.2)
      · refine ⟨_, _, by simp only [pop, hs, he, hd, Res.bind_ok, hk', hw]; rfl, ?_⟩
        refine .emits s t e st d k hg hfirst he hd2 hk ?_
        simp at hw
        cases k with
        | true => simp
        | false => right; rw [hs]; simp at hw ⊢; omega

end RxBuffer
end Str0m
