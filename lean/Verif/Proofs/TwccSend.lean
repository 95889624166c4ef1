import Verif.Spec.TwccSend
import Verif.Proofs.TwccDecode
/-
  Proofs about applying feedback at the sender.
-/
namespace Str0m.Twcc
open Res

def Iter.pos (it : Iter) : Nat := it.baseSeq + it.index

theorem next_pos {it it' : Iter} {x : Nat × Status × Option Nat} (h : it.next = .ok (some (x, it'))) :
    x.1 = it.pos ∧ it'.pos = it.pos + 1 ∧ it'.lastSeq = it.lastSeq ∧ it.pos ≠ it.lastSeq := by
  unfold Iter.next at h
  simp only at h
  split at h
  · simp at h
  rename_i hne
  split at h
  · simp at h
  rename_i head tail hch
  cases hs : chunkStatus head it.index with
  | err e => rw [hs] at h; cases h
  | panic => rw [hs] at h; cases h
  | ok p =>
    obtain ⟨st, amount⟩ := p
    rw [hs, bind_def, bind_ok] at h
    simp only at h
    cases ht : takeDelta st it.timeBase it.delta with
    | err e => rw [ht] at h; cases h
    | panic => rw [ht] at h; cases h
    | ok r =>
      rw [ht, bind_def, bind_ok] at h
      cases r with
      | none => have := Res.ok.inj h; cases this
      | some q =>
        obtain ⟨inst, tb, ds⟩ := q
        simp only at h
        have h := Option.some.inj (Res.ok.inj h)
        simp only [Prod.mk.injEq] at h
        obtain ⟨h1, h2⟩ := h
        subst h1
        refine ⟨rfl, ?_, ?_, hne⟩
        · rw [← h2]; split <;> simp [Iter.pos]; omega
        · rw [← h2]; split <;> rfl

/-- `collect` to the end: the first item and the rest. -/
theorem collect_cases {n : Nat} {it : Iter} {xs : List (Nat × Status × Option Nat)}
    (h : Iter.collect (n + 1) it = .ok xs) (hp : it.pos + n = it.lastSeq) :
    (it.next = .ok none ∧ xs = []) ∨
    ∃ x xs' it' m, n = m + 1 ∧ it.next = .ok (some (x, it')) ∧ xs = x :: xs' ∧
      Iter.collect (m + 1) it' = .ok xs' ∧ it'.pos + m = it'.lastSeq ∧ x.1 = it.pos ∧ it'.pos = it.pos + 1 := by
  rw [Iter.collect] at h
  cases hn : it.next with
  | err e => rw [hn] at h; cases h
  | panic => rw [hn] at h; cases h
  | ok o =>
    rw [hn, bind_def, bind_ok] at h
    cases o with
    | none => left; exact ⟨rfl, (Res.ok.inj h).symm⟩
    | some p =>
      obtain ⟨x, it'⟩ := p
      obtain ⟨h1, h2, h3, h4⟩ := next_pos hn
      right
      have hn0 : n ≠ 0 := by intro h0; subst h0; omega
      obtain ⟨m, rfl⟩ : ∃ m, n = m + 1 := ⟨n - 1, by omega⟩
      simp only at h
      cases hc : Iter.collect (m + 1) it' with
      | err e => rw [hc] at h; cases h
      | panic => rw [hc] at h; cases h
      | ok xs' =>
        rw [hc] at h
        exact ⟨x, xs', it', m, rfl, rfl, (Res.ok.inj h).symm, hc, by omega, h1, h2⟩

/-- Decoded items have consecutive sequence numbers. -/
theorem collect_seqs : ∀ {n : Nat} {it : Iter} {xs : List (Nat × Status × Option Nat)},
    Iter.collect (n + 1) it = .ok xs → it.pos + n = it.lastSeq →
    xs.length ≤ n ∧ ∀ j x, xs[j]? = some x → x.1 = it.pos + j
  | n, it, xs, h, hp => by
    rcases collect_cases h hp with ⟨_, rfl⟩ | ⟨x, xs', it', m, rfl, _, rfl, hc, hp', hx, hpos⟩
    · simp
    · obtain ⟨ih1, ih2⟩ := collect_seqs hc hp'
      refine ⟨by simp; omega, ?_⟩
      intro j y hy
      cases j with
      | zero => simp only [List.getElem?_cons_zero, Option.some.injEq] at hy; rw [← hy, hx]; rfl
      | succ j =>
        rw [List.getElem?_cons_succ] at hy
        rw [ih2 j y hy, hpos]; omega

theorem skipTo_ok : ∀ {n : Nat} {head : Nat} {it : Iter} {xs : List (Nat × Status × Option Nat)},
    Iter.collect (n + 1) it = .ok xs → it.pos + n = it.lastSeq →
    (skipTo (n + 1) head it = .ok none ∧ ∀ x ∈ xs, x.1 < head) ∨
    ∃ pre x xs' it' m, xs = pre ++ x :: xs' ∧ (∀ y ∈ pre, y.1 < head) ∧ head ≤ x.1 ∧
      skipTo (n + 1) head it = .ok (some (x, it')) ∧
      Iter.collect (m + 1) it' = .ok xs' ∧ it'.pos + m = it'.lastSeq ∧ it'.pos = x.1 + 1
  | n, head, it, xs, h, hp => by
    rcases collect_cases h hp with ⟨hn, rfl⟩ | ⟨x, xs', it', m, rfl, hn, rfl, hc, hp', hx, hpos⟩
    · left; rw [skipTo, hn]; exact ⟨rfl, by simp⟩
    · rw [skipTo, hn, bind_def, bind_ok]
      simp only
      by_cases hlt : x.1 < head
      · rw [if_pos hlt]
        rcases skipTo_ok (head := head) hc hp' with ⟨h1, h2⟩ | ⟨pre, y, ys, it2, m2, h1, h2, h3, h4, h5, h6, h7⟩
        · left
          refine ⟨h1, ?_⟩
          intro z hz
          rcases List.mem_cons.1 hz with rfl | hz
          · exact hlt
          · exact h2 z hz
        · right
          refine ⟨x :: pre, y, ys, it2, m2, by rw [h1]; rfl, ?_, h3, h4, h5, h6, h7⟩
          intro z hz
          rcases List.mem_cons.1 hz with rfl | hz
          · exact hlt
          · exact h2 z hz
      · right
        rw [if_neg hlt]
        exact ⟨[], x, xs', it', m, rfl, by simp, by omega, rfl, hc, hp', by omega⟩

/-- The records have consecutive sequence numbers from `n`. -/
def Contig : Nat → List SendRec → Prop
  | _, [] => True
  | n, r :: rs => r.seq = n ∧ Contig (n + 1) rs

theorem Contig.get : ∀ {q : List SendRec} {n : Nat}, Contig n q → ∀ j r, q[j]? = some r → r.seq = n + j
  | r :: rs, n, h, j, x, hx => by
    cases j with
    | zero => simp only [List.getElem?_cons_zero, Option.some.injEq] at hx; rw [← hx, h.1]; rfl
    | succ j => rw [List.getElem?_cons_succ] at hx; rw [Contig.get h.2 j x hx]; omega

theorem Contig.drop : ∀ {q : List SendRec} {n : Nat} (k : Nat), Contig n q → Contig (n + k) (q.drop k)
  | [], _, k, _ => by simp [Contig]
  | r :: rs, n, 0, h => by simpa using h
  | r :: rs, n, k + 1, h => by
    have := Contig.drop k h.2
    rw [List.drop_succ_cons, show n + (k + 1) = n + 1 + k by omega]
    exact this

theorem Contig.append : ∀ {q q' : List SendRec} {n : Nat}, Contig n (q ++ q') ↔ Contig n q ∧ Contig (n + q.length) q'
  | [], q', n => by simp [Contig]
  | r :: rs, q', n => by
    simp only [List.cons_append, Contig, Contig.append, List.length_cons, and_assoc]
    rw [show n + 1 + rs.length = n + (rs.length + 1) by omega]

theorem update_ok (r : SendRec) (now counter : Nat) (inst : Option Nat) {items : List (Nat × Status × Option Nat)}
    (h : answer items r.seq = some inst) : r.update now r.seq inst counter = some (r.after items now counter) := by
  unfold SendRec.update SendRec.after
  rw [h]
  simp only [ne_eq, not_true_eq_false, if_false]
  obtain ⟨seq, st, size, recv⟩ := r
  cases recv with
  | none => simp [SendRec.acked, SendRec.remote]
  | some rr =>
    obtain ⟨lt, rt, c⟩ := rr
    cases rt <;> simp [SendRec.acked, SendRec.remote]

theorem answer_cons_ne {x : Nat × Status × Option Nat} {xs : List (Nat × Status × Option Nat)} {seq : Nat}
    (h : x.1 ≠ seq) : answer (x :: xs) seq = answer xs seq := by
  simp [answer, h]

theorem answer_none {xs : List (Nat × Status × Option Nat)} {seq : Nat} (h : ∀ x ∈ xs, x.1 ≠ seq) :
    answer xs seq = none := by
  simp only [answer, Option.map_eq_none_iff, List.find?_eq_none, decide_eq_true_eq]
  exact h

/-- The zipped loop: the records are those after the feedback; `last` is the last sequence
number covered. -/
theorem zipLoop_ok (now counter : Nat) : ∀ {rs : List SendRec} {n last : Nat} {it : Iter}
    {xs items : List (Nat × Status × Option Nat)},
    Iter.collect (n + 1) it = .ok xs → it.pos + n = it.lastSeq → Contig it.pos rs → last + 1 = it.pos →
    (∀ seq, it.pos ≤ seq → answer items seq = answer xs seq) →
    ∃ l, zipLoop now counter it rs last = .ok (rs.map (fun r => r.after items now counter), l) ∧
      l = last + min rs.length xs.length
  | [], n, last, it, xs, items, h, hp, hc, hl, ha => by
    rcases collect_cases h hp with ⟨hn, rfl⟩ | ⟨x, xs', it', m, rfl, hn, rfl, hc', hp', hx, hpos⟩
    all_goals
      rw [zipLoop, hn, bind_def, bind_ok]
      exact ⟨last, rfl, by simp⟩
  | r :: rs, n, last, it, xs, items, h, hp, hc, hl, ha => by
    rcases collect_cases h hp with ⟨hn, rfl⟩ | ⟨x, xs', it', m, rfl, hn, rfl, hc', hp', hx, hpos⟩
    · rw [zipLoop, hn, bind_def, bind_ok]
      refine ⟨last, ?_, by simp⟩
      have : (r :: rs).map (fun r => r.after items now counter) = r :: rs := by
        have h2 : ∀ a ∈ r :: rs, a.after items now counter = a := by
          intro a hm
          obtain ⟨j, hj⟩ := List.getElem?_of_mem hm
          have hs := hc.get j a hj
          unfold SendRec.after
          rw [ha a.seq (by omega)]
          rfl
        rw [List.map_congr_left h2, List.map_id']
      rw [this]; rfl
    · rw [zipLoop, hn, bind_def, bind_ok]
      obtain ⟨seq, st, inst⟩ := x
      simp only at hx ⊢
      have hrs : r.seq = seq := by rw [hx]; exact hc.1
      subst hrs
      have hans : answer items r.seq = some inst := by
        rw [ha r.seq (by omega)]; simp [answer]
      rw [update_ok r now counter inst hans]
      simp only
      obtain ⟨l, hz, hll⟩ := zipLoop_ok now counter (rs := rs) (last := r.seq) (items := items) hc' hp'
        (by rw [hpos]; exact hc.2) (by omega)
        (by
          intro s hs
          rw [ha s (by omega), answer_cons_ne (by simp only; omega)])
      rw [hz]
      refine ⟨l, rfl, ?_⟩
      simp only [List.length_cons]
      omega

theorem recordsFrom_ok : ∀ {n : Nat} {q : List SendRec} {idx base : Nat}, Contig base q → idx + n ≤ q.length →
    recordsFrom q idx (base + idx) n = .ok ((q.drop idx).take n)
  | 0, q, idx, base, _, _ => by simp [recordsFrom]
  | n + 1, q, idx, base, hc, hle => by
    have hlt : idx < q.length := by omega
    rw [recordsFrom, List.getElem?_eq_getElem hlt]
    simp only
    have hs := hc.get idx q[idx] (List.getElem?_eq_getElem hlt)
    rw [if_neg (by omega), show base + idx + 1 = base + (idx + 1) by omega,
      recordsFrom_ok (q := q) (idx := idx + 1) hc (by omega)]
    rw [List.drop_eq_getElem_cons hlt, List.take_succ_cons]
    rfl

theorem after_seq (r : SendRec) (items : List (Nat × Status × Option Nat)) (now c : Nat) :
    (r.after items now c).seq = r.seq := by
  unfold SendRec.after
  split
  · rfl
  · split <;> rfl

theorem contig_map {f : SendRec → SendRec} (hf : ∀ r, (f r).seq = r.seq) : ∀ {q : List SendRec} {n : Nat},
    Contig n q → Contig n (q.map f)
  | [], _, _ => trivial
  | r :: rs, n, h => ⟨by rw [hf]; exact h.1, contig_map hf h.2⟩

theorem contig_lt : ∀ {q : List SendRec} {n : Nat}, Contig n q → ∀ (k : Nat), n ≤ k →
    q.takeWhile (fun r => r.seq < k) = q.take (k - n) ∧ q.dropWhile (fun r => r.seq < k) = q.drop (k - n)
  | [], _, _, k, _ => by simp
  | r :: rs, n, h, k, hk => by
    by_cases hlt : n < k
    · obtain ⟨h1, h2⟩ := contig_lt h.2 k (by omega)
      have hr : decide (r.seq < k) = true := by rw [h.1]; simpa using hlt
      rw [List.takeWhile_cons, List.dropWhile_cons, hr, show k - n = (k - (n + 1)) + 1 by omega]
      simp [h1, h2]
    · have hr : decide (r.seq < k) = false := by rw [h.1]; simpa using hlt
      rw [List.takeWhile_cons, List.dropWhile_cons, hr, show k - n = 0 by omega]
      simp

theorem contig_mem {q : List SendRec} {n : Nat} (h : Contig n q) {r : SendRec} (hr : r ∈ q) :
    n ≤ r.seq ∧ r.seq < n + q.length := by
  obtain ⟨j, hj⟩ := List.getElem?_of_mem hr
  have := h.get j r hj
  have hlt : j < q.length := by
    by_contra hc
    rw [List.getElem?_eq_none (by omega)] at hj; cases hj
  omega

theorem map_unchanged {q : List SendRec} {items : List (Nat × Status × Option Nat)} {now c : Nat}
    (h : ∀ r ∈ q, answer items r.seq = none) : q.map (fun r => r.after items now c) = q := by
  have h2 : ∀ r ∈ q, r.after items now c = r := by
    intro r hr; unfold SendRec.after; rw [h r hr]
  rw [List.map_congr_left h2, List.map_id']

/-- Does the record show the counter of this report? -/
def shows (c : Nat) (r : SendRec) : Bool := r.recv.any (fun x => x.counter = c)

theorem shows_after {r : SendRec} {items : List (Nat × Status × Option Nat)} {now c : Nat} {inst : Option Nat}
    (h : answer items r.seq = some inst) (hc : shows c r = false) :
    shows c (r.after items now c) = !r.acked := by
  unfold SendRec.after
  rw [h]
  obtain ⟨seq, st, size, recv⟩ := r
  cases recv with
  | none => simp [SendRec.acked, SendRec.remote, shows]
  | some rr =>
    obtain ⟨lt, rt, cc⟩ := rr
    cases rt with
    | none => simp [SendRec.acked, SendRec.remote, shows]
    | some v => simpa [SendRec.acked, SendRec.remote, shows] using hc

/-- The exact effect of a report that can be decoded. -/
theorem apply_ok {s : Send} {t : Report} {now base : Nat} {items : List (Nat × Status × Option Nat)}
    (hc : Contig base s.queue) (hcnt : ∀ r ∈ s.queue, shows (s.counter + 1) r = false)
    (hov : extendU16 (some s.last) t.baseSeq + t.statusCount < 2^64)
    (hi : t.items (s.timeZero.getD now) s.last = .ok items) :
    ∃ out, s.apply t now = .ok (out, { s with
        queue := s.queue.map (fun r => r.after items now (s.counter + 1))
        timeZero := some (s.timeZero.getD now), counter := s.counter + 1 }) ∧
      (∀ l, out = some l → l = (s.queue.filter (fun r => (answer items r.seq).isSome && !r.acked)).map
        (fun r => r.after items now (s.counter + 1))) ∧
      (out = none → ∀ r ∈ s.queue, answer items r.seq = none) := by
  obtain ⟨keep, queue, tz, counter, last⟩ := s
  simp only at hc hcnt hi hov ⊢
  unfold Send.apply
  simp only
  cases queue with
  | nil => exact ⟨none, rfl, by simp, by simp⟩
  | cons hd tl =>
    simp only [Option.getD_some]
    rw [if_neg (by omega)]
    have hhd : hd.seq = base := hc.1
    rw [Report.items] at hi
    have hpos : (t.intoIter (tz.getD now) last).pos + t.statusCount = (t.intoIter (tz.getD now) last).lastSeq := by
      simp [Report.intoIter, Iter.pos]
    obtain ⟨hlen, hseqs⟩ := collect_seqs hi hpos
    rcases skipTo_ok (head := hd.seq) hi hpos with ⟨h1, h2⟩ | ⟨pre, x, xs', it', m, h1, h2, h3, h4, h5, h6, h7⟩
    · rw [h1]
      have hnone : ∀ r ∈ hd :: tl, answer items r.seq = none := by
        intro r hr
        apply answer_none
        intro x hx
        have := h2 x hx
        have := (contig_mem hc hr).1
        omega
      refine ⟨none, ?_, by simp, fun _ => hnone⟩
      rw [map_unchanged hnone]; rfl
    · rw [h4, bind_def, bind_ok]
      obtain ⟨first, st, inst⟩ := x
      simp only at h3 h7 ⊢
      obtain ⟨htw, hdw⟩ := contig_lt hc first (by omega)
      rw [htw, hdw]
      -- what the report says from `first` on
      have hxs : ∀ j y, xs'[j]? = some y → y.1 = first + 1 + j := by
        intro j y hy
        have := (collect_seqs h5 h6).2 j y hy
        omega
      have hpre : ∀ seq, hd.seq ≤ seq → answer items seq = answer ((first, st, inst) :: xs') seq := by
        intro seq hs
        rw [h1]
        unfold answer
        rw [List.find?_append, List.find?_eq_none.2]
        · rfl
        · intro y hy
          have := h2 y hy
          simp only [decide_eq_true_eq]; omega
      have hlow : ∀ r ∈ (hd :: tl).take (first - base), answer items r.seq = none := by
        intro r hr
        obtain ⟨j, hj⟩ := List.getElem?_of_mem hr
        have hjlt : j < first - base := by
          by_contra hcc
          rw [List.getElem?_eq_none (by rw [List.length_take]; omega)] at hj; cases hj
        rw [List.getElem?_take_of_lt hjlt] at hj
        have hs := hc.get j r hj
        rw [hpre r.seq (by omega)]
        apply answer_none
        intro y hy
        rcases List.mem_cons.1 hy with rfl | hy
        · simp only; omega
        · obtain ⟨i, hi⟩ := List.getElem?_of_mem hy
          have := hxs i y hi
          omega
      cases hd2 : (hd :: tl).drop (first - base) with
      | nil =>
        simp only
        have hall : (hd :: tl).take (first - base) = hd :: tl := by
          apply List.take_of_length_le
          have := congrArg List.length hd2
          rw [List.length_drop] at this
          simp only [List.length_nil] at this
          omega
        rw [hall] at hlow
        refine ⟨none, ?_, by simp, fun _ => hlow⟩
        rw [map_unchanged hlow]; rfl
      | cons r rs =>
        simp only
        have hcd := hc.drop (first - base)
        rw [hd2, show base + (first - base) = first by omega] at hcd
        have hrs : r.seq = first := hcd.1
        have hbl : first - base < (hd :: tl).length := by
          by_contra hcc
          rw [List.drop_of_length_le (by omega)] at hd2; cases hd2
        rw [if_neg (by omega)]
        have hans : answer items r.seq = some inst := by
          rw [hpre r.seq (by omega), hrs]; simp [answer]
        rw [← hrs, update_ok r now (counter + 1) inst hans]
        simp only
        obtain ⟨l, hz, hl⟩ := zipLoop_ok now (counter + 1) (rs := rs) (last := r.seq) (items := items) h5 h6
          (by rw [h7]; exact hcd.2) (by omega)
          (by
            intro s hs
            rw [hpre s (by omega), answer_cons_ne (by simp only; omega)])
        rw [hz, bind_def, bind_ok]
        simp only
        -- the new queue is the mapped old one
        have hsplit : (hd :: tl) = (hd :: tl).take (first - base) ++ r :: rs := by
          rw [← hd2, List.take_append_drop]
        have hq : List.take (r.seq - base) (hd :: tl) ++ r.after items now (counter + 1) ::
            rs.map (fun r => r.after items now (counter + 1)) =
            (hd :: tl).map (fun r => r.after items now (counter + 1)) := by
          conv => rhs; rw [hsplit]
          rw [List.map_append, map_unchanged hlow, hrs]; rfl
        rw [hq]
        have hcq : Contig base ((hd :: tl).map (fun r => r.after items now (counter + 1))) :=
          contig_map (fun r => after_seq r items now _) hc
        have hlenq : (hd :: tl).length = (first - base) + (1 + rs.length) := by
          have := congrArg List.length hd2
          simp only [List.length_drop, List.length_cons] at this ⊢
          simp only [List.length_cons] at hbl
          omega
        have htl : ((hd :: tl).take (r.seq - base)).length = first - base := by
          rw [List.length_take, hrs]; omega
        have hrec := recordsFrom_ok (n := l + 1 - r.seq) (idx := first - base) hcq
          (by rw [List.length_map]; omega)
        rw [show base + (first - base) = r.seq by omega] at hrec
        rw [htl, hrec]
        refine ⟨_, rfl, ?_, by simp⟩
        intro l' hl'
        have hl' := (Option.some.inj hl').symm
        subst hl'
        -- the filter
        have hl2 : l + 1 - r.seq = 1 + min rs.length xs'.length := by omega
        rw [hl2, ← List.map_drop, ← List.map_take, hd2]
        have hcov : ∀ a ∈ (r :: rs).take (1 + min rs.length xs'.length), (answer items a.seq).isSome = true := by
          intro a ha
          obtain ⟨j, hj⟩ := List.getElem?_of_mem ha
          have hjlt : j < 1 + min rs.length xs'.length := by
            by_contra hcc
            rw [List.getElem?_eq_none (by rw [List.length_take]; omega)] at hj; cases hj
          rw [List.getElem?_take_of_lt hjlt] at hj
          have hs := hcd.get j a hj
          rw [hpre a.seq (by omega)]
          cases j with
          | zero => simp [answer, hs]
          | succ j =>
            rw [answer_cons_ne (by simp only; omega)]
            have hjx : j < xs'.length := by omega
            have hy := hxs j xs'[j] (List.getElem?_eq_getElem hjx)
            simp only [answer, Option.isSome_map, List.find?_isSome, decide_eq_true_eq]
            exact ⟨xs'[j], List.getElem_mem hjx, by omega⟩
        have hunc : ∀ a ∈ (r :: rs).drop (1 + min rs.length xs'.length), answer items a.seq = none := by
          intro a ha
          obtain ⟨j, hj⟩ := List.getElem?_of_mem ha
          rw [List.getElem?_drop] at hj
          have hs := hcd.get _ a hj
          have hlt : 1 + min rs.length xs'.length + j < (r :: rs).length := by
            by_contra hcc
            rw [List.getElem?_eq_none (by omega)] at hj; cases hj
          simp only [List.length_cons] at hlt
          rw [hpre a.seq (by omega), answer_cons_ne (by simp only; omega)]
          apply answer_none
          intro y hy
          obtain ⟨i, hi⟩ := List.getElem?_of_mem hy
          have hil : i < xs'.length := by
            by_contra hcc
            rw [List.getElem?_eq_none (by omega)] at hi; cases hi
          have := hxs i y hi
          omega
        conv => rhs; rw [hsplit, ← List.take_append_drop (1 + min rs.length xs'.length) (r :: rs)]
        rw [List.filter_append, List.filter_append]
        have hf1 : ((hd :: tl).take (first - base)).filter (fun r => (answer items r.seq).isSome && !r.acked) = [] := by
          rw [List.filter_eq_nil_iff]; intro a ha; rw [hlow a ha]; simp
        have hf2 : ((r :: rs).drop (1 + min rs.length xs'.length)).filter
            (fun r => (answer items r.seq).isSome && !r.acked) = [] := by
          rw [List.filter_eq_nil_iff]; intro a ha; rw [hunc a ha]; simp
        rw [hf1, hf2, List.nil_append, List.append_nil, List.filter_map]
        congr 1
        apply List.filter_congr
        intro a ha
        have hm : a ∈ hd :: tl := by
          rw [hsplit]
          exact List.mem_append_right _ (List.mem_of_mem_take ha)
        obtain ⟨i, hi⟩ := Option.isSome_iff_exists.1 (hcov a ha)
        have := shows_after (now := now) hi (hcnt a hm)
        simp only [Function.comp]
        rw [hcov a ha, Bool.true_and, ← this]
        rfl

end Str0m.Twcc
