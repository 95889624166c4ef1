import Verif.Proofs.TwccTrunc
import Verif.Proofs.TwccIter
import Verif.Proofs.NackReport
/-
  C18: the sender's bookkeeping of transport wide feedback. C57: feedback never crashes it.
-/
namespace Str0m.Twcc
open Res

/-! ### The invariant of the register -/

theorem after_id {r : SendRec} {items : List (Nat × Status × Option Nat)} {now c : Nat} :
    ((r.after items now c).seq, (r.after items now c).sendTime, (r.after items now c).size) =
      (r.seq, r.sendTime, r.size) := by
  unfold SendRec.after
  split
  · rfl
  · split <;> rfl

theorem after_counter {r : SendRec} {items : List (Nat × Status × Option Nat)} {now c : Nat}
    (h : ∀ x ∈ r.recv, x.counter ≤ c) : ∀ x ∈ (r.after items now (c + 1)).recv, x.counter ≤ c + 1 := by
  unfold SendRec.after
  split
  · intro x hx; have := h x hx; omega
  · split
    · intro x hx
      simp only [Option.mem_def, Option.map_eq_some_iff] at hx
      obtain ⟨y, hy, rfl⟩ := hx
      have := h y hy
      simp only; omega
    · intro x hx
      simp only [Option.mem_def, Option.some.injEq] at hx
      rw [← hx]

/-- Whether the packet is acknowledged afterwards. -/
theorem after_remote {r : SendRec} {items : List (Nat × Status × Option Nat)} {now c : Nat} :
    (r.after items now c).remote =
      match r.remote with
      | some v => some v
      | none => (answer items r.seq).getD none := by
  unfold SendRec.after
  obtain ⟨seq, st, size, recv⟩ := r
  cases ha : answer items seq with
  | none =>
    simp only [Option.getD_none]
    cases h : SendRec.remote ⟨seq, st, size, recv⟩ <;> rfl
  | some inst =>
    simp only [Option.getD_some]
    cases recv with
    | none => simp [SendRec.acked, SendRec.remote]
    | some rr =>
      obtain ⟨a, b, c⟩ := rr
      cases b <;> simp [SendRec.acked, SendRec.remote]

structure SInv (keep : Nat) (sent : List (Nat × Nat × Nat))
    (told : List (List (Nat × Status × Option Nat) × Nat × List SendRec)) (s : Send) : Prop where
  hkeep : s.keep = keep
  records : s.queue.map (fun r => (r.seq, r.sendTime, r.size)) =
    (sent.drop (sent.length - keep)).map (fun p => (p.1, p.2.1, p.2.2 % 65536))
  contig : ∃ base, Contig base s.queue
  last : ∀ p ∈ sent.getLast?, s.last = p.1 ∧ ∀ r ∈ s.queue, r.seq ≤ p.1
  empty : sent = [] → s.queue = []
  counters : ∀ r ∈ s.queue, ∀ x ∈ r.recv, x.counter ≤ s.counter
  acked : ∀ r ∈ s.queue, ∀ v, r.remote = some v → ∃ f ∈ told, answer f.1 r.seq = some (some v)
  covered : ∀ r ∈ s.queue, r.recv.isSome → ∃ f ∈ told, (answer f.1 r.seq).isSome
  once : ((told.flatMap (fun f => f.2.2.filter SendRec.acked)).map SendRec.seq).Nodup
  done : ∀ a ∈ told.flatMap (fun f => f.2.2.filter SendRec.acked),
    (∀ r ∈ s.queue, r.seq = a.seq → r.acked = true) ∧ ∃ p ∈ sent.getLast?, a.seq ≤ p.1

theorem apply_any {s s' : Send} {t : Report} {now base : Nat} {out : Option (List SendRec)}
    (hc : Contig base s.queue) (hcnt : ∀ r ∈ s.queue, ∀ x ∈ r.recv, x.counter ≤ s.counter)
    (h : s.apply t now = .ok (out, s')) :
    s' = { s with
        queue := s.queue.map (fun r => r.after (t.readable (s.timeZero.getD now) s.last) now (s.counter + 1))
        timeZero := some (s.timeZero.getD now), counter := s.counter + 1 } ∧
      out.getD [] = (s.queue.filter (fun r =>
          (answer (t.readable (s.timeZero.getD now) s.last) r.seq).isSome && !r.acked)).map
        (fun r => r.after (t.readable (s.timeZero.getD now) s.last) now (s.counter + 1)) := by
  rcases apply_readable h with ⟨hq, rfl, rfl⟩ | ⟨t', hov, hi, h'⟩
  · rw [hq]
    exact ⟨by simp [hq], rfl⟩
  have hsh : ∀ r ∈ s.queue, shows (s.counter + 1) r = false := by
    intro r hr
    unfold shows
    cases hv : r.recv with
    | none => rfl
    | some x =>
      have := hcnt r hr x (by rw [hv]; rfl)
      simp; omega
  obtain ⟨out', e1, e2, e3⟩ := apply_ok hc hsh hov hi
  rw [h'] at e1
  have e1 := Res.ok.inj e1
  simp only [Prod.mk.injEq] at e1
  obtain ⟨rfl, rfl⟩ := e1
  refine ⟨rfl, ?_⟩
  cases out with
  | some l => exact e2 l rfl
  | none =>
    rw [Option.getD_none, List.filter_eq_nil_iff.2]
    · rfl
    · intro r hr
      rw [e3 rfl r hr]
      simp

theorem contig_seq_inj {q : List SendRec} {n : Nat} (h : Contig n q) : (q.map SendRec.seq).Nodup := by
  induction q generalizing n with
  | nil => simp
  | cons r rs ih =>
    simp only [List.map_cons, List.nodup_cons]
    refine ⟨?_, ih h.2⟩
    intro hm
    obtain ⟨x, hx, he⟩ := List.mem_map.1 hm
    have := (contig_mem h.2 hx).1
    have := h.1
    omega

theorem Sends.inv {keep : Nat} {sent : List (Nat × Nat × Nat)}
    {told : List (List (Nat × Status × Option Nat) × Nat × List SendRec)} {s : Send}
    (h : Sends keep sent told s) : SInv keep sent told s := by
  induction h with
  | new =>
    exact ⟨rfl, by simp [Send.new], ⟨0, trivial⟩, by simp, fun _ => rfl, by simp [Send.new], by simp [Send.new],
      by simp [Send.new], by simp, by simp⟩
  | @register sent told s seq now size hs hseq ih =>
    obtain ⟨hk, hrec, ⟨base, hc⟩, hlast, hemp, hcnt, hack, hcov, honce, hdone⟩ := ih
    have hmem : ∀ r ∈ (s.register seq now size).queue,
        r ∈ s.queue ∨ r = { seq, sendTime := now, size := size % 65536, recv := none } := by
      intro r hr
      have := List.mem_of_mem_drop hr
      simpa using this
    have hbig : ∀ r ∈ s.queue, r.seq < seq := by
      intro r hr
      cases hl : sent.getLast? with
      | none =>
        rw [List.getLast?_eq_none_iff] at hl
        rw [hemp hl] at hr; simp at hr
      | some p =>
        have := (hlast p hl).2 r hr
        have := hseq p hl
        omega
    have hcc : ∃ b, Contig b (s.queue ++ [{ seq, sendTime := now, size := size % 65536, recv := none }]) := by
      cases hq : s.queue with
      | nil => exact ⟨seq, rfl, trivial⟩
      | cons a as =>
        refine ⟨base, Contig.append.2 ⟨by rw [← hq]; exact hc, ?_, trivial⟩⟩
        -- the last record is the last sent packet
        have hne : s.queue ≠ [] := by rw [hq]; simp
        have hsne : sent ≠ [] := fun h0 => hne (hemp h0)
        obtain ⟨p, hp⟩ : ∃ p, sent.getLast? = some p := by
          cases h : sent.getLast? with
          | none => exact absurd (List.getLast?_eq_none_iff.1 h) hsne
          | some p => exact ⟨p, rfl⟩
        have h1 := congrArg List.getLast? hrec
        rw [List.getLast?_map, List.getLast?_map] at h1
        obtain ⟨r, hr⟩ : ∃ r, s.queue.getLast? = some r := by
          cases h : s.queue.getLast? with
          | none => exact absurd (List.getLast?_eq_none_iff.1 h) hne
          | some p => exact ⟨p, rfl⟩
        have hlen := congrArg List.length hrec
        simp only [List.length_map, List.length_drop] at hlen
        have hdl : (sent.drop (sent.length - keep)).getLast? = sent.getLast? := by
          rw [List.getLast?_drop, if_neg]
          rw [hq] at hlen; simp only [List.length_cons] at hlen; omega
        rw [hr, hdl, hp] at h1
        simp only [Option.map_some, Option.some.injEq, Prod.mk.injEq] at h1
        have h2 : s.queue[s.queue.length - 1]? = some r := by
          rw [← List.getLast?_eq_getElem?]; exact hr
        have := hc.get _ _ h2
        have := hseq p hp
        rw [← hq]
        have : 0 < s.queue.length := List.length_pos_iff.2 hne
        simp only
        omega
    refine ⟨hk, ?_, ?_, ?_, by simp, ?_, ?_, ?_, honce, ?_⟩
    · have hlen := congrArg List.length hrec
      simp only [List.length_map, List.length_drop] at hlen
      have h0 : (s.register seq now size).queue.map (fun r => (r.seq, r.sendTime, r.size)) =
          ((sent.drop (sent.length - keep) ++ [(seq, now, size)]).map
            (fun p => (p.1, p.2.1, p.2.2 % 65536))).drop (s.queue.length + 1 - keep) := by
        simp only [Send.register, hk, List.map_drop, List.map_append, hrec, List.length_append,
          List.length_singleton, List.map_cons, List.map_nil]
      rw [h0, ← List.map_drop, List.length_append, List.length_singleton]
      congr 1
      have hsplit : ∀ k, sent.drop k ++ [(seq, now, size)] = (sent ++ [(seq, now, size)]).drop (min k sent.length) := by
        intro k
        rw [List.drop_append_of_le_length (by omega)]
        congr 1
        by_cases hk : k ≤ sent.length
        · rw [Nat.min_eq_left hk]
        · rw [Nat.min_eq_right (by omega), List.drop_of_length_le (by omega), List.drop_of_length_le (by omega)]
      rw [hsplit, List.drop_drop]
      congr 1
      omega
    · obtain ⟨b, hb⟩ := hcc
      exact ⟨_, hb.drop _⟩
    · intro p hp
      simp only [List.getLast?_append, List.getLast?_singleton, Option.some_or, Option.mem_def,
        Option.some.injEq] at hp
      subst hp
      refine ⟨rfl, ?_⟩
      intro r hr
      rcases hmem r hr with hr | rfl
      · exact (hbig r hr).le
      · exact le_refl _
    · intro r hr
      rcases hmem r hr with hr | rfl
      · exact hcnt r hr
      · simp
    · intro r hr
      rcases hmem r hr with hr | rfl
      · exact hack r hr
      · simp [SendRec.remote]
    · intro r hr
      rcases hmem r hr with hr | rfl
      · exact hcov r hr
      · simp
    · intro a ha
      obtain ⟨h1, p, hp, h2⟩ := hdone a ha
      have := hseq p hp
      refine ⟨?_, (seq, now, size), by simp, by simp only; omega⟩
      intro r hr he
      rcases hmem r hr with hr | rfl
      · exact h1 r hr he
      · simp only at he; omega
  | @apply sent told s s' out t now hs hap ih =>
    obtain ⟨hk, hrec, ⟨base, hc⟩, hlast, hemp, hcnt, hack, hcov, honce, hdone⟩ := ih
    obtain ⟨rfl, hout⟩ := apply_any hc hcnt hap
    generalize t.readable (s.timeZero.getD now) s.last = items at *
    rw [hout]
    have hmem : ∀ r ∈ s.queue.map (fun r => r.after items now (s.counter + 1)),
        ∃ r0 ∈ s.queue, r = r0.after items now (s.counter + 1) := by
      intro r hr
      obtain ⟨r0, h1, h2⟩ := List.mem_map.1 hr
      exact ⟨r0, h1, h2.symm⟩
    refine ⟨hk, ?_, ⟨base, contig_map (fun r => after_seq r _ _ _) hc⟩, ?_, ?_, ?_, ?_, ?_, ?_, ?_⟩
    · rw [← hrec]
      simp only [List.map_map]
      apply List.map_congr_left
      intro r _
      simp only [Function.comp]
      exact after_id
    · intro p hp
      refine ⟨(hlast p hp).1, ?_⟩
      intro r hr
      obtain ⟨r0, h1, rfl⟩ := hmem r hr
      rw [after_seq]
      exact (hlast p hp).2 r0 h1
    · intro h0; simp only [hemp h0, List.map_nil]
    · intro r hr
      obtain ⟨r0, h1, rfl⟩ := hmem r hr
      exact after_counter (hcnt r0 h1)
    · intro r hr v hv
      obtain ⟨r0, h1, rfl⟩ := hmem r hr
      rw [after_remote] at hv
      rw [after_seq]
      split at hv
      · rename_i v' hv'
        have := Option.some.inj hv; subst this
        obtain ⟨f, hf, he⟩ := hack r0 h1 _ hv'
        exact ⟨f, List.mem_append_left _ hf, he⟩
      · refine ⟨_, List.mem_append_right _ (List.mem_singleton.2 rfl), ?_⟩
        cases ha : answer items r0.seq with
        | none => rw [ha] at hv; cases hv
        | some i => rw [ha] at hv; simp only [Option.getD_some] at hv; rw [hv]
    · intro r hr hv
      obtain ⟨r0, h1, rfl⟩ := hmem r hr
      rw [after_seq]
      cases ha : answer items r0.seq with
      | none =>
        unfold SendRec.after at hv
        rw [ha] at hv
        obtain ⟨f, hf, he⟩ := hcov r0 h1 hv
        exact ⟨f, List.mem_append_left _ hf, he⟩
      | some i =>
        exact ⟨_, List.mem_append_right _ (List.mem_singleton.2 rfl), by simp [ha]⟩
    · -- acknowledged records are returned once
      have hsub : (((s.queue.filter (fun r => (answer items r.seq).isSome && !r.acked)).map
          (fun r => r.after items now (s.counter + 1))).filter SendRec.acked).map SendRec.seq
          |>.Sublist (s.queue.map SendRec.seq) := by
        have h1 : ((((s.queue.filter (fun r => (answer items r.seq).isSome && !r.acked)).map
          (fun r => r.after items now (s.counter + 1))).filter SendRec.acked).map SendRec.seq).Sublist
          ((((s.queue.filter (fun r => (answer items r.seq).isSome && !r.acked)).map
          (fun r => r.after items now (s.counter + 1)))).map SendRec.seq) := List.filter_sublist.map _
        refine h1.trans ?_
        rw [List.map_map]
        have : SendRec.seq ∘ (fun r => r.after items now (s.counter + 1)) = SendRec.seq := by
          funext r; exact after_seq _ _ _ _
        rw [this]
        exact List.filter_sublist.map _
      rw [List.flatMap_append, List.map_append, List.nodup_append]
      refine ⟨honce, ?_, ?_⟩
      · simp only [List.flatMap_cons, List.flatMap_nil, List.append_nil]
        exact hsub.nodup (contig_seq_inj hc)
      · intro a ha b hb hab
        obtain ⟨x, hx, rfl⟩ := List.mem_map.1 ha
        obtain ⟨y, hy, rfl⟩ := List.mem_map.1 hb
        simp only [List.flatMap_cons, List.flatMap_nil, List.append_nil, List.mem_filter, List.mem_map] at hy
        obtain ⟨⟨r0, ⟨h1, h2⟩, rfl⟩, _⟩ := hy
        rw [after_seq] at hab
        have := (hdone x hx).1 r0 h1 hab.symm
        rw [this] at h2
        simp at h2
    · intro a ha
      rw [List.flatMap_append] at ha
      rcases List.mem_append.1 ha with ha | ha
      · obtain ⟨h1, h2⟩ := hdone a ha
        refine ⟨?_, h2⟩
        intro r hr he
        obtain ⟨r0, h3, rfl⟩ := hmem r hr
        rw [after_seq] at he
        have h4 := h1 r0 h3 he
        unfold SendRec.acked at h4 ⊢
        rw [after_remote]
        cases hr0 : r0.remote with
        | none => rw [hr0] at h4; cases h4
        | some v => rfl
      · simp only [List.flatMap_cons, List.flatMap_nil, List.append_nil, List.mem_filter, List.mem_map] at ha
        obtain ⟨⟨r0, ⟨h1, h2⟩, rfl⟩, h5⟩ := ha
        refine ⟨?_, ?_⟩
        · intro r hr he
          obtain ⟨r1, h3, rfl⟩ := hmem r hr
          rw [after_seq, after_seq] at he
          obtain ⟨i, hi⟩ := List.getElem?_of_mem h1
          obtain ⟨j, hj⟩ := List.getElem?_of_mem h3
          have e1 := hc.get i _ hi
          have e2 := hc.get j _ hj
          have : i = j := by omega
          subst this
          rw [hi] at hj
          have := Option.some.inj hj
          subst this
          exact h5
        · rw [after_seq]
          cases hl : sent.getLast? with
          | none =>
            rw [List.getLast?_eq_none_iff] at hl
            rw [hemp hl] at h1; simp at h1
          | some p => exact ⟨p, rfl, (hlast p hl).2 r0 h1⟩

/-! ### C18 -/

/-- C18, first part: the sender remembers exactly the last `keep` packets it sent (their
sequence number, time, and size as 16 bits), in the order of their sequence numbers, which are
consecutive. -/
theorem C18_records {keep : Nat} {sent : List (Nat × Nat × Nat)}
    {told : List (List (Nat × Status × Option Nat) × Nat × List SendRec)} {s : Send}
    (h : Sends keep sent told s) :
    s.queue.map (fun r => (r.seq, r.sendTime, r.size)) =
        (sent.drop (sent.length - keep)).map (fun p => (p.1, p.2.1, p.2.2 % 65536)) ∧
      s.queue.length ≤ keep ∧
      ∀ (i j : Nat) ri rj, s.queue[i]? = some ri → s.queue[j]? = some rj → (ri.seq : Int) - rj.seq = (i : Int) - j := by
  have hi := h.inv
  refine ⟨hi.records, ?_, ?_⟩
  · have := congrArg List.length hi.records
    simp only [List.length_map, List.length_drop] at this
    omega
  · obtain ⟨base, hc⟩ := hi.contig
    intro i j ri rj h1 h2
    have := hc.get i ri h1
    have := hc.get j rj h2
    omega

/-- C18, second part: a packet is marked with a receive time only when a report said that its
own sequence number was received, and the time is the one of that report. -/
theorem C18_own_status {keep : Nat} {sent : List (Nat × Nat × Nat)}
    {told : List (List (Nat × Status × Option Nat) × Nat × List SendRec)} {s : Send}
    (h : Sends keep sent told s) {r : SendRec} (hr : r ∈ s.queue) {v : Nat} (hv : r.remote = some v) :
    ∃ f ∈ told, answer f.1 r.seq = some (some v) := h.inv.acked r hr v hv

/-- C18, third part: a packet no report covers has no report and is not acknowledged. -/
theorem C18_uncovered {keep : Nat} {sent : List (Nat × Nat × Nat)}
    {told : List (List (Nat × Status × Option Nat) × Nat × List SendRec)} {s : Send}
    (h : Sends keep sent told s) {r : SendRec} (hr : r ∈ s.queue)
    (hn : ∀ f ∈ told, answer f.1 r.seq = none) : r.recv = none ∧ r.acked = false := by
  have : r.recv = none := by
    cases hv : r.recv with
    | none => rfl
    | some x =>
      obtain ⟨f, hf, he⟩ := h.inv.covered r hr (by rw [hv]; rfl)
      rw [hn f hf] at he; cases he
  exact ⟨this, by simp [SendRec.acked, SendRec.remote, this]⟩

/-- C18, fourth part: the exact effect of feedback. Every remembered packet is changed as
`SendRec.after` says, nothing else changes but the counter of reports and the time zero; and the
returned packets are those the report covers that were not acknowledged before, in order. -/
theorem C18_step {keep : Nat} {sent : List (Nat × Nat × Nat)}
    {told : List (List (Nat × Status × Option Nat) × Nat × List SendRec)} {s s' : Send}
    (h : Sends keep sent told s) {t : Report} {now : Nat} {out : Option (List SendRec)}
    (ha : s.apply t now = .ok (out, s')) :
    let items := t.readable (s.timeZero.getD now) s.last
    s'.queue = s.queue.map (fun r => r.after items now (s.counter + 1)) ∧
      s'.keep = s.keep ∧ s'.last = s.last ∧ s'.counter = s.counter + 1 ∧
      s'.timeZero = some (s.timeZero.getD now) ∧
      out.getD [] = (s.queue.filter (fun r => (answer items r.seq).isSome && !r.acked)).map
        (fun r => r.after items now (s.counter + 1)) := by
  obtain ⟨base, hc⟩ := h.inv.contig
  obtain ⟨rfl, ho⟩ := apply_any hc h.inv.counters ha
  exact ⟨rfl, rfl, rfl, rfl, rfl, ho⟩

/-- C18, fifth part: an acknowledged packet stays acknowledged, with the same time, whatever
reports say later. -/
theorem C18_stays {keep : Nat} {sent : List (Nat × Nat × Nat)}
    {told : List (List (Nat × Status × Option Nat) × Nat × List SendRec)} {s s' : Send}
    (h : Sends keep sent told s) {t : Report} {now : Nat} {out : Option (List SendRec)}
    (ha : s.apply t now = .ok (out, s')) {i : Nat} {r : SendRec} (hr : s.queue[i]? = some r) :
    ∃ r', s'.queue[i]? = some r' ∧ r'.seq = r.seq ∧ ∀ v, r.remote = some v → r'.remote = some v := by
  obtain ⟨hq, _⟩ := C18_step h ha
  rw [hq, List.getElem?_map, hr]
  refine ⟨_, rfl, after_seq _ _ _ _, ?_⟩
  intro v hv
  rw [after_remote, hv]

/-- C18, sixth part: over the whole life of the sender, an acknowledged packet is returned once
at most, so the bandwidth estimator counts it once. -/
theorem C18_returned_once {keep : Nat} {sent : List (Nat × Nat × Nat)}
    {told : List (List (Nat × Status × Option Nat) × Nat × List SendRec)} {s : Send}
    (h : Sends keep sent told s) :
    ((told.flatMap (fun f => f.2.2.filter SendRec.acked)).map SendRec.seq).Nodup := h.inv.once

/-- C18, seventh part: the 16 bit sequence number of a report is read as the one the receiver
meant, when that is less than half the number space away from the last packet sent. -/
theorem C18_wrap {t : Report} {tz last B : Nat} (hl : last < 2 ^ 64) (hB : B < 2 ^ 64)
    (near1 : B < last + 2 ^ 15) (near2 : last < B + 2 ^ 15)
    (hw : t.baseSeq % 2 ^ 16 = B % 2 ^ 16) :
    ∀ k x, (t.readable tz last)[k]? = some x → x.1 = B + k := by
  intro k x hx
  have hbase : extendU16 (some last) t.baseSeq = B := by
    have := C01_extend_recovers 16 last B t.baseSeq (by omega) (by omega) hl hB (by omega) (by omega) hw
    exact this
  have key : ∀ (n : Nat) (it : Iter) (k : Nat) (x : Nat × Status × Option Nat),
      (Iter.readable n it)[k]? = some x → x.1 = it.pos + k := by
    intro n
    induction n with
    | zero => intro it k x h; simp [Iter.readable] at h
    | succ n ih =>
      intro it k x h
      rw [Iter.readable] at h
      split at h
      · rename_i y it' hn
        obtain ⟨h1, h2, _, _⟩ := next_pos hn
        cases k with
        | zero => simp only [List.getElem?_cons_zero, Option.some.injEq] at h; rw [← h, h1]; rfl
        | succ k =>
          rw [List.getElem?_cons_succ] at h
          have := ih it' k x h
          omega
      · simp at h
  have := key _ _ _ _ hx
  simpa [Report.intoIter, Iter.pos, hbase] using this

/-! ### C57: feedback never crashes the sender -/

/-- C57, proved part: any feedback the parser accepts, without empty run chunks, is applied by
any sender that has sent 2^15 packets without a panic; every sequence number of the report is read, with the status its chunk
gives it. -/
theorem C57_applies_partial {keep : Nat} {sent : List (Nat × Nat × Nat)}
    {told : List (List (Nat × Status × Option Nat) × Nat × List SendRec)} {s : Send}
    (h : Sends keep sent told s) {buf : List Byte} {t : Report} (hp : Report.parse buf = .ok t)
    (hz : ∀ st, Chunk.run st 0 ∉ t.chunks) (now : Nat)
    (hlo : 2 ^ 15 ≤ s.last) (hhi : s.last + 2 ^ 17 ≤ 2 ^ 64) :
    (∃ out s', s.apply t now = .ok (out, s')) ∧
    (t.readable (s.timeZero.getD now) s.last).length = t.statusCount ∧
    ∀ (k : Nat) (x : Nat × Status × Option Nat), (t.readable (s.timeZero.getD now) s.last)[k]? = some x →
      ∃ st, (t.chunks.flatMap Chunk.statuses)[k]? = some st ∧ x.2.2.isSome = carries st := by
  obtain ⟨hw, hcount, hm, hsc⟩ := Report.parse_ok hp
  have hsane : ∀ c ∈ t.chunks, c.Sane := by
    intro c hc
    have h1 := hw c hc
    cases c with
    | run st n =>
      simp only [Chunk.Sane]
      by_contra h0
      have : n = 0 := by omega
      subst this
      exact hz st hc
    | single v f => exact h1
    | double v f => exact h1
  have hinv : (t.intoIter (s.timeZero.getD now) s.last).Inv := by
    refine ⟨hsane, ?_, ?_, fun _ => rfl⟩
    · intro c hc
      exact (hsane c (List.mem_of_mem_head? hc)).pos
    · unfold Match at hm; simpa [Iter.rest, Report.intoIter] using hm
  obtain ⟨xs, hc, hl, hx⟩ := collect_inv (t.statusCount + 1) _ hinv (by simp [Report.intoIter])
    (by simpa [Iter.rest, Report.intoIter] using hcount) (by simp [Report.intoIter])
  have hitems : t.items (s.timeZero.getD now) s.last = .ok xs := hc
  rw [readable_of_items hitems]
  refine ⟨?_, ?_, ?_⟩
  · obtain ⟨base, hcq⟩ := h.inv.contig
    have hsh : ∀ r ∈ s.queue, shows (s.counter + 1) r = false := by
      intro r hr
      unfold shows
      cases hv : r.recv with
      | none => rfl
      | some x =>
        have := h.inv.counters r hr x (by rw [hv]; rfl)
        simp; omega
    have hov : extendU16 (some s.last) t.baseSeq + t.statusCount < 2^64 := by
      obtain ⟨d, e1, e2, e3⟩ := C01_extend_nearest 16 t.baseSeq s.last (by omega) (by omega)
      have e4 := (C01_extend_low_bits 16 t.baseSeq (some s.last) (by omega)
        (by intro p hp; cases hp; omega)).2
      unfold extendU16
      norm_num at e2 e3 e4 e1
      omega
    obtain ⟨out', e1, _⟩ := apply_ok hcq hsh hov hitems
    exact ⟨_, _, e1⟩
  · rw [hl]; simp [Report.intoIter]
  · intro k x hk
    obtain ⟨_, st, e1, e2⟩ := hx k x hk
    exact ⟨st, by simpa [Iter.rest, Report.intoIter] using e1, e2⟩

/-! ### A concrete history -/

/-- Three packets across the wrap of the 16 bit numbers, then feedback: the first and third
received, then feedback about the second. -/
def demoReport : Report :=
  { senderSsrc := 1, ssrc := 2, baseSeq := 65534, statusCount := 3, referenceTime := 1, feedbackCount := 0,
    chunks := [.single (2^13 + 2^11) 14], delta := [.small 4, .small 8] }

def demoReport2 : Report :=
  { senderSsrc := 1, ssrc := 2, baseSeq := 65534, statusCount := 3, referenceTime := 1, feedbackCount := 1,
    chunks := [.run .small 3], delta := [.small 4, .small 2, .small 8] }

def demo0 : Send :=
  (((Send.new 2).register 65534 10 100).register 65535 20 100).register 65536 30 70000

theorem demo_sends : Sends 2 [(65534, 10, 100), (65535, 20, 100), (65536, 30, 70000)] [] demo0 :=
  .register 65536 30 70000 (.register 65535 20 100 (.register 65534 10 100 .new (by simp)) (by simp)) (by simp)

example : ∃ o1 s1 o2 s2, demo0.apply demoReport 100 = .ok (o1, s1) ∧ s1.apply demoReport2 200 = .ok (o2, s2) ∧
    demo0.queue.map SendRec.seq = [65535, 65536] ∧
    s1.queue.map SendRec.acked = [false, true] ∧ s2.queue.map SendRec.acked = [true, true] ∧
    (o1.getD []).map SendRec.seq = [65535, 65536] ∧ (o2.getD []).map SendRec.seq = [65535] ∧
    s2.queue.map SendRec.remote = [some (100 + 64000000 + 6 * 250000), some (100 + 64000000 + 12 * 250000)] ∧
    s2.queue.map SendRec.size = [100, 4464] := by
  refine ⟨_, _, _, _, rfl, rfl, ?_⟩
  decide +kernel

/-- The hypotheses of `C57_applies_partial` on bytes from the wire. -/
def demoBytes : List Byte := [0, 0, 0, 1, 0, 0, 0, 2, 255, 254, 0, 3, 0, 0, 1, 0, 0xA8, 0, 4, 8]

example : Report.parse demoBytes = .ok demoReport ∧ (∀ st, Chunk.run st 0 ∉ demoReport.chunks) ∧
    2 ^ 15 ≤ demo0.last ∧ demo0.last + 2 ^ 17 ≤ 2 ^ 64 := by
  refine ⟨by decide +kernel, ?_, by decide, by decide⟩
  intro st h
  simp [demoReport] at h

/-- Why C57 is partial: the code as it stands can be crashed by a peer. The bytes are accepted
by the parser: an empty run of small deltas, then one large delta. The iterator never leaves an
empty run, takes the large delta for a small one, and panics (twcc.rs 111-118). -/
def evilBytes : List Byte := [0, 0, 0, 1, 0, 0, 0, 2, 255, 255, 0, 1, 0, 0, 1, 0, 0x20, 0, 0x40, 1, 1, 1]

theorem C57_violation : ∃ t, Report.parse evilBytes = .ok t ∧ demo0.apply t 100 = .panic :=
  ⟨{ senderSsrc := 1, ssrc := 2, baseSeq := 65535, statusCount := 1, referenceTime := 1, feedbackCount := 0,
     chunks := [.run .small 0, .run .large 1], delta := [.large 257] }, by decide +kernel, by decide +kernel⟩

/-- A sender that has sent fewer than 2^15 packets is crashed by a report about sequence numbers
before its first: the base is extended to 2^64 - 1, and adding the count overflows (twcc.rs 49). -/
def earlyBytes : List Byte := [0, 0, 0, 1, 0, 0, 0, 2, 255, 255, 0, 1, 0, 0, 1, 0, 0x20, 1, 1]

theorem C57_violation_overflow : ∃ t, Report.parse earlyBytes = .ok t ∧
    ((Send.new 1000).register 0 10 100).apply t 100 = .panic :=
  ⟨{ senderSsrc := 1, ssrc := 2, baseSeq := 65535, statusCount := 1, referenceTime := 1, feedbackCount := 0,
     chunks := [.run .small 1], delta := [.small 1] }, by decide +kernel, by decide +kernel⟩

/-- An empty run that does not crash swallows the rest of the report: the packets after it are
read with the status of the empty run, here as lost although the report says received. -/
def lossyBytes : List Byte := [0, 0, 0, 1, 0, 0, 0, 2, 255, 254, 0, 3, 0, 0, 1, 0, 0, 0, 0xB8, 0, 4, 8, 1]

def lossyReport : Report :=
  { senderSsrc := 1, ssrc := 2, baseSeq := 65534, statusCount := 3, referenceTime := 1, feedbackCount := 0,
    chunks := [.run .notReceived 0, .single (2^13 + 2^12 + 2^11) 14], delta := [.small 4, .small 8, .small 1] }

theorem C57_violation_status : Report.parse lossyBytes = .ok lossyReport ∧
    lossyReport.chunks.flatMap Chunk.statuses = List.replicate 3 .small ++ List.replicate 11 .notReceived ∧
    ∃ out s', demo0.apply lossyReport 100 = .ok (out, s') ∧ s'.queue.map SendRec.acked = [false, false] :=
  ⟨by decide +kernel, by decide +kernel, _, _, rfl, by decide +kernel⟩

end Str0m.Twcc
