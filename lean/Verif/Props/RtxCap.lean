import Verif.Spec.RtxCap
import Verif.Proofs.StreamTx2
import Mathlib.Tactic.Linarith
import Mathlib.Tactic.FieldSimp
import Mathlib.Tactic.Positivity
import Mathlib.Data.List.Induction

/-!
C124: the cap on retransmissions.
-/

namespace Str0m.RtxCap
open Str0m Str0m.Tx Str0m.Pts

/-! ### One step more -/

theorem run_append (s : Capped) (a b : List Op) :
    s.run (a ++ b) = (do
      let r ← s.run a
      let t ← r.1.run b
      pure (t.1, r.2.1 ++ t.2.1, r.2.2 ++ t.2.2)) := by
  induction a generalizing s with
  | nil =>
    simp only [List.nil_append, Capped.run]
    cases hb : s.run b <;> simp [hb, bind, Res.bind, pure]
  | cons op a ih =>
    simp only [List.cons_append, Capped.run]
    cases h1 : s.step op <;> simp only [bind, Res.bind, pure]
    rename_i r
    have := ih r.1
    rw [this]
    cases h2 : r.1.run a <;> simp only [bind, Res.bind, pure]
    rename_i q
    cases h3 : q.1.run b <;> simp [List.append_assoc]

theorem run_snoc {s t : Capped} {ops : List Op} {op : Op} {o : List Out} {l : List Entry} (h : s.run (ops ++ [op]) = .ok (t, o, l)) :
    ∃ s1 o1 l1 o2 l2, s.run ops = .ok (s1, o1, l1) ∧ s1.step op = .ok (t, o2, l2) ∧ o = o1 ++ o2.toList ∧ l = l1 ++ l2.toList := by
  rw [run_append] at h
  cases h1 : s.run ops with
  | err e => simp [h1, bind, Res.bind] at h
  | panic => simp [h1, bind, Res.bind] at h
  | ok r =>
    cases h2 : r.1.step op with
    | err e => simp [h1, h2, Capped.run, bind, Res.bind] at h
    | panic => simp [h1, h2, Capped.run, bind, Res.bind] at h
    | ok q =>
      simp only [h1, h2, Capped.run, bind, Res.bind, pure, Res.ok.injEq, Prod.mk.injEq, List.append_nil] at h
      exact ⟨r.1, r.2.1, r.2.2, q.2.1, q.2.2, rfl, by rw [← h.1]; exact h2, h.2.1.symm, h.2.2.symm⟩

theorem forward_snoc {t : Nat} {ops : List Op} {op : Op} (h : Forward t (ops ++ [op])) :
    Forward t ops ∧ ∀ now, op.time = some now → t ≤ now ∧ ∀ o ∈ ops, ∀ n, o.time = some n → n ≤ now := by
  induction ops generalizing t with
  | nil =>
    refine ⟨trivial, fun now hn => ⟨?_, by simp⟩⟩
    simp only [List.nil_append, Forward, hn] at h
    exact h.1
  | cons x ops ih =>
    simp only [List.cons_append, Forward] at h ⊢
    cases hx : x.time with
    | none =>
      simp only [hx] at h ⊢
      obtain ⟨h1, h2⟩ := ih h
      refine ⟨h1, fun now hn => ⟨(h2 now hn).1, ?_⟩⟩
      intro o ho n hon
      rcases List.mem_cons.1 ho with rfl | ho
      · rw [hx] at hon; simp at hon
      · exact (h2 now hn).2 o ho n hon
    | some m =>
      simp only [hx] at h ⊢
      obtain ⟨h1, h2⟩ := ih h.2
      refine ⟨⟨h.1, h1⟩, fun now hn => ⟨le_trans h.1 (h2 now hn).1, ?_⟩⟩
      intro o ho n hon
      rcases List.mem_cons.1 ho with rfl | ho
      · rw [hx] at hon
        simp only [Option.some.injEq] at hon
        subst hon
        exact (h2 now hn).1
      · exact (h2 now hn).2 o ho n hon

/-! ### The accounts -/

/-- The times and lengths of one kind -/
def pairs (resend : Bool) (l : List Entry) : List (Nat × Nat) := (l.filter (fun e => e.resend == resend)).map (fun e => (e.time, e.len))

theorem pairs_append (b : Bool) (l m : List Entry) : pairs b (l ++ m) = pairs b l ++ pairs b m := by
  simp [pairs]

theorem bytesIn_pairs (b : Bool) (l : List Entry) (t : Nat) :
    bytesIn b l t = (((pairs b l).filter (fun p => decide (t ≤ p.1 + 1000000))).map (·.2)).sum := by
  unfold bytesIn pairs
  rw [List.filter_map, List.map_map, List.filter_filter]
  congr 2
  congr 1
  funext e
  simp only [Function.comp]
  rw [Bool.and_comm]

/-- A history that holds the entries `ps`, apart from some that are over a second old -/
structure Holds (h : Hist) (ps : List (Nat × Nat)) (t : Nat) : Prop where
  value : h.value = (h.entries.map (·.2)).sum
  split : ∃ d, ps = d ++ h.entries ∧ ∀ p ∈ d, p.1 + 1000000 < t
  sorted : ps.Pairwise (fun a b => a.1 ≤ b.1)
  past : ∀ p ∈ ps, p.1 ≤ t

theorem Holds.later {h : Hist} {ps : List (Nat × Nat)} {t u : Nat} (hh : Holds h ps t) (htu : t ≤ u) : Holds h ps u := by
  obtain ⟨d, hd, hp⟩ := hh.split
  exact ⟨hh.value, ⟨d, hd, fun p hpd => lt_of_lt_of_le (hp p hpd) htu⟩, hh.sorted, fun p hpp => le_trans (hh.past p hpp) htu⟩

theorem Holds.push {h : Hist} {ps : List (Nat × Nat)} {t v : Nat} (hh : Holds h ps t) : Holds (h.push t v) (ps ++ [(t, v)]) t := by
  obtain ⟨d, hd, hp⟩ := hh.split
  refine ⟨by simp [Hist.push, hh.value], ⟨d, by simp [Hist.push, hd], hp⟩, ?_, ?_⟩
  · rw [List.pairwise_append]
    refine ⟨hh.sorted, by simp, ?_⟩
    intro a ha b hb
    simp only [List.mem_singleton] at hb
    subst hb
    exact hh.past a ha
  · intro p hp
    rcases List.mem_append.1 hp with hp | hp
    · exact hh.past p hp
    · simp only [List.mem_singleton] at hp
      subst hp
      exact le_rfl

theorem purgeLoop_spec (now : Nat) : ∀ (es : List (Nat × Nat)) (v : Nat), v = (es.map (·.2)).sum → es.Pairwise (fun a b => a.1 ≤ b.1) →
    ∃ d, es = d ++ (purgeLoop now v es).entries ∧ (∀ p ∈ d, p.1 + 1000000 < now) ∧
      (∀ p ∈ (purgeLoop now v es).entries, now ≤ p.1 + 1000000) ∧
      (purgeLoop now v es).value = ((purgeLoop now v es).entries.map (·.2)).sum := by
  intro es
  induction es with
  | nil =>
    intro v hv _
    exact ⟨[], rfl, by simp, by simp [purgeLoop], by simpa [purgeLoop] using hv⟩
  | cons e es ih =>
    intro v hv hs
    rw [List.pairwise_cons] at hs
    unfold purgeLoop
    split
    · rename_i hlt
      simp only [SECOND] at hlt
      obtain ⟨d, h1, h2, h3, h4⟩ := ih (v - e.2) (by simp [hv]) hs.2
      refine ⟨e :: d, by rw [List.cons_append, ← h1], ?_, h3, h4⟩
      intro p hp
      rcases List.mem_cons.1 hp with rfl | hp
      · omega
      · exact h2 p hp
    · rename_i hge
      simp only [SECOND] at hge
      refine ⟨[], rfl, by simp, ?_, hv⟩
      intro p hp
      rcases List.mem_cons.1 hp with rfl | hp
      · omega
      · have := hs.1 p hp
        omega

theorem Holds.purge {h : Hist} {ps : List (Nat × Nat)} {t : Nat} (hh : Holds h ps t) :
    Holds (h.purge t) ps t ∧ (h.purge t).value = ((ps.filter (fun p => decide (t ≤ p.1 + 1000000))).map (·.2)).sum := by
  obtain ⟨d, hd, hp⟩ := hh.split
  have hs : h.entries.Pairwise (fun a b => a.1 ≤ b.1) := by
    have := hh.sorted
    rw [hd, List.pairwise_append] at this
    exact this.2.1
  obtain ⟨d2, h1, h2, h3, h4⟩ := purgeLoop_spec t h.entries h.value hh.value hs
  have hsplit : ps = (d ++ d2) ++ (h.purge t).entries := by
    rw [List.append_assoc]
    show ps = d ++ (d2 ++ (purgeLoop t h.value h.entries).entries)
    rw [← h1, hd]
  have hdd : ∀ p ∈ d ++ d2, p.1 + 1000000 < t := by
    intro p hpd
    rcases List.mem_append.1 hpd with hpd | hpd
    · exact hp p hpd
    · exact h2 p hpd
  refine ⟨⟨h4, ⟨_, hsplit, hdd⟩, hh.sorted, hh.past⟩, ?_⟩
  conv_rhs => rw [hsplit]
  rw [List.filter_append, List.filter_eq_nil_iff.2 (by
    intro p hpd
    have := hdd p hpd
    simp only [decide_eq_true_eq]
    omega), List.nil_append, List.filter_eq_self.2 (by
    intro p hpd
    simp only [decide_eq_true_eq]
    exact h3 p hpd)]
  exact h4

theorem ratio_within (c : ℚ) (hc : 0 ≤ c) (r t : Nat) : ratioOf r t ≤ c ↔ (r : ℚ) ≤ c * ((r + t : Nat) : ℚ) := by
  unfold ratioOf
  split
  · rename_i h
    have : r = 0 := by omega
    subst this
    simp only [Nat.zero_add] at h
    subst h
    simp [hc]
  · rename_i h
    rw [div_le_iff₀ (by exact_mod_cast Nat.pos_of_ne_zero h)]

/-- The last poll that measured -/
structure Seen (s0 : Capped) (ops : List Op) (ratio : ℚ) (t : Nat) : Prop where
  at_ : ∃ pre hdr params rest s1 o1 l1, ops = pre ++ Op.poll t hdr params :: rest ∧ s0.run pre = .ok (s1, o1, l1) ∧
    ratio = ratioOf (bytesIn true l1 t) (bytesIn false l1 t)

theorem Seen.more {s0 : Capped} {ops : List Op} {r : ℚ} {t : Nat} (h : Seen s0 ops r t) (op : Op) : Seen s0 (ops ++ [op]) r t := by
  obtain ⟨pre, hdr, params, rest, s1, o1, l1, h1, h2, h3⟩ := h.at_
  exact ⟨pre, hdr, params, rest ++ [op], s1, o1, l1, by rw [h1]; simp, h2, h3⟩

/-- What is true after a history, at the time of the last poll or later -/
structure Inv (s0 s : Capped) (ops : List Op) (l : List Entry) (t : Nat) : Prop where
  cap : s.cap ≠ none
  sent : ∃ h, s.sent = some h ∧ Holds h (pairs false l) t
  resent : ∃ h, s.resent = some h ∧ Holds h (pairs true l) t
  seen : ∀ m, s.measured = some m → m ≤ t ∧ Seen s0 ops s.ratio m

theorem Inv.other {s0 s s' : Capped} {ops : List Op} {l : List Entry} {t : Nat} (h : Inv s0 s ops l t) (op : Op) (h1 : s'.cap ≠ none)
    (h2 : s'.sent = s.sent) (h3 : s'.resent = s.resent) (h4 : s'.measured = s.measured) (h5 : s'.ratio = s.ratio) :
    Inv s0 s' (ops ++ [op]) (l ++ (none : Option Entry).toList) t := by
  rw [Option.toList_none, List.append_nil]
  exact ⟨h1, by rw [h2]; exact h.sent, by rw [h3]; exact h.resent, by
    rw [h4, h5]
    exact fun m hm => ⟨(h.seen m hm).1, (h.seen m hm).2.more op⟩⟩

/-- The measurement that decides at a poll -/
theorem measured_at {s0 s : Capped} {ops : List Op} {l : List Entry} {t now : Nat} {o : List Out} (h : Inv s0 s ops l t)
    (hr : s0.run ops = .ok (s, o, l)) (htn : t ≤ now) :
    ∃ s', s.measure now = .ok s' ∧ s'.cap = s.cap ∧ s'.tx = s.tx ∧
      (∃ h, s'.sent = some h ∧ Holds h (pairs false l) now) ∧ (∃ h, s'.resent = some h ∧ Holds h (pairs true l) now) ∧
      ∃ m, s'.measured = some m ∧ m ≤ now ∧ now - m < 50000 ∧ ∀ hdr params, Seen s0 (ops ++ [.poll now hdr params]) s'.ratio m := by
  obtain ⟨a, ha, hha⟩ := h.sent
  obtain ⟨b, hb, hhb⟩ := h.resent
  unfold Capped.measure
  rw [ha, hb]
  dsimp only
  split
  · rename_i hrec
    unfold Capped.recent at hrec
    split at hrec
    · simp at hrec
    · rename_i m hm
      replace hrec := of_decide_eq_true hrec
      simp only [INTERVAL] at hrec
      exact ⟨s, rfl, rfl, rfl, ⟨a, ha, hha.later htn⟩, ⟨b, hb, hhb.later htn⟩, m, hm, le_trans (h.seen m hm).1 htn, hrec,
        fun _ _ => (h.seen m hm).2.more _⟩
  · have pa := (hha.later htn).purge
    have pb := (hhb.later htn).purge
    refine ⟨_, rfl, rfl, rfl, ⟨_, rfl, pa.1⟩, ⟨_, rfl, pb.1⟩, now, rfl, le_rfl, by omega, fun hdr params => ?_⟩
    refine ⟨ops, hdr, params, [], s, o, l, rfl, hr, ?_⟩
    rw [bytesIn_pairs, bytesIn_pairs, ← pa.2, ← pb.2]

theorem entryOf_time {now : Nat} {n : Option (Next × Bool)} {e : Entry} (h : entryOf now n = some e) : e.time = now := by
  unfold entryOf at h
  split at h
  · simp only [Option.some.injEq] at h
    rw [← h]
  · simp at h

theorem note_keeps (s : Capped) (e : Option Entry) :
    (s.note e).cap = s.cap ∧ (s.note e).measured = s.measured ∧ (s.note e).ratio = s.ratio ∧ (s.note e).tx = s.tx := by
  cases e with
  | none => exact ⟨rfl, rfl, rfl, rfl⟩
  | some e =>
    unfold Capped.note
    dsimp only
    split <;> exact ⟨rfl, rfl, rfl, rfl⟩

theorem note_holds (s : Capped) (e : Option Entry) (l : List Entry) (now : Nat) (he : ∀ x, e = some x → x.time = now)
    (ha : ∃ h, s.sent = some h ∧ Holds h (pairs false l) now) (hb : ∃ h, s.resent = some h ∧ Holds h (pairs true l) now) :
    (∃ h, (s.note e).sent = some h ∧ Holds h (pairs false (l ++ e.toList)) now) ∧
    (∃ h, (s.note e).resent = some h ∧ Holds h (pairs true (l ++ e.toList)) now) := by
  cases e with
  | none => simpa [Capped.note] using ⟨ha, hb⟩
  | some e =>
    have := he e rfl
    subst this
    obtain ⟨a, ha, hha⟩ := ha
    obtain ⟨b, hb, hhb⟩ := hb
    simp only [Option.toList_some, pairs_append]
    unfold Capped.note
    dsimp only
    split
    · rename_i hr
      refine ⟨⟨a, ha, ?_⟩, ⟨b.push e.time e.len, by simp [hb], ?_⟩⟩
      · simpa [pairs, hr] using hha
      · simpa [pairs, hr] using hhb.push (v := e.len)
    · rename_i hr
      simp only [Bool.not_eq_true] at hr
      refine ⟨⟨a.push e.time e.len, by simp [ha], ?_⟩, ⟨b, hb, ?_⟩⟩
      · simpa [pairs, hr] using hha.push (v := e.len)
      · simpa [pairs, hr] using hhb

/-- What a poll does, in parts -/
theorem poll_parts {s t : Capped} {now hdr : Nat} {params : List Param} {o : Option Out} {e : Option Entry}
    (h : s.poll now hdr params = .ok (t, o, e)) :
    ∃ s1 over n f, s.check now = .ok (s1, over) ∧ pollNext s1.tx now over = .ok n ∧ finishPoll now hdr params n = .ok (f, o) ∧
      e = entryOf now n.2 ∧ t = { s1.note e with tx := f } := by
  unfold Capped.poll at h
  cases h1 : s.check now with
  | err x => simp [h1, bind, Res.bind] at h
  | panic => simp [h1, bind, Res.bind] at h
  | ok c =>
    cases h2 : pollNext c.1.tx now c.2 with
    | err x => simp [h1, h2, bind, Res.bind] at h
    | panic => simp [h1, h2, bind, Res.bind] at h
    | ok n =>
      cases h3 : finishPoll now hdr params n with
      | err x => simp [h1, h2, h3, bind, Res.bind] at h
      | panic => simp [h1, h2, h3, bind, Res.bind] at h
      | ok f =>
        simp only [h1, h2, h3, bind, Res.bind, pure, Res.ok.injEq, Prod.mk.injEq] at h
        refine ⟨c.1, c.2, n, f.1, rfl, h2, ?_, h.2.2.symm, ?_⟩
        · rw [← h.2.1]; exact h3
        · rw [← h.1, ← h.2.2]

theorem check_measure {s s1 : Capped} {now : Nat} {over : Bool} (h : s.check now = .ok (s1, over)) (c : ℚ) (hc : s.cap = some c) :
    s.measure now = .ok s1 ∧ over = decide (c < s1.ratio) := by
  unfold Capped.check at h
  rw [hc] at h
  dsimp only at h
  cases hm : s.measure now with
  | err x => simp [hm, bind, Res.bind] at h
  | panic => simp [hm, bind, Res.bind] at h
  | ok q =>
    simp only [hm, bind, Res.bind, pure, Res.ok.injEq, Prod.mk.injEq] at h
    exact ⟨by rw [h.1], by rw [← h.2, h.1]⟩

theorem fresh_inv {s : Capped} (h : Fresh s) : Inv s s [] [] 0 := by
  have h0 : Holds {} [] 0 := ⟨rfl, ⟨[], rfl, by simp⟩, by simp, by simp⟩
  exact ⟨h.cap, ⟨{}, h.sent, h0⟩, ⟨{}, h.resent, h0⟩, by rw [h.measured]; simp⟩

theorem inv_run {s0 : Capped} (hf : Fresh s0) (ops : List Op) : ∀ {s : Capped} {o : List Out} {l : List Entry},
    (∀ op ∈ ops, ¬ op.Restarts) → Forward 0 ops → s0.run ops = .ok (s, o, l) →
    ∃ t, Inv s0 s ops l t ∧ (t = 0 ∨ ∃ op ∈ ops, op.time = some t) := by
  induction ops using List.reverseRecOn with
  | nil =>
    intro s o l _ _ h
    simp only [Capped.run, Res.ok.injEq, Prod.mk.injEq] at h
    obtain ⟨rfl, rfl, rfl⟩ := h
    exact ⟨0, fresh_inv hf, .inl rfl⟩
  | append_singleton ops op ih =>
    intro s o l hr hfw h
    obtain ⟨s1, o1, l1, o2, l2, h1, h2, -, rfl⟩ := run_snoc h
    obtain ⟨hfw1, hfw2⟩ := forward_snoc hfw
    obtain ⟨t, hi, ht⟩ := ih (fun x hx => hr x (by simp [hx])) hfw1 h1
    have keep : ∀ t', (t' = 0 ∨ ∃ x ∈ ops, x.time = some t') → (t' = 0 ∨ ∃ x ∈ ops ++ [op], x.time = some t') := by
      rintro t' (h | ⟨x, hx, hxt⟩)
      · exact .inl h
      · exact .inr ⟨x, by simp [hx], hxt⟩
    cases op with
    | write w =>
      simp only [Capped.step, Res.ok.injEq, Prod.mk.injEq] at h2
      obtain ⟨rfl, -, rfl⟩ := h2
      exact ⟨t, hi.other _ hi.cap rfl rfl rfl rfl, keep t ht⟩
    | frame f cs =>
      simp only [Capped.step, Res.ok.injEq, Prod.mk.injEq] at h2
      obtain ⟨rfl, -, rfl⟩ := h2
      exact ⟨t, hi.other _ hi.cap rfl rfl rfl rfl, keep t ht⟩
    | timeout now pt =>
      simp only [Capped.step] at h2
      cases hq : Tx.timeout s1.tx now pt with
      | err x => simp [hq, bind, Res.bind] at h2
      | panic => simp [hq, bind, Res.bind] at h2
      | ok q =>
        simp only [hq, bind, Res.bind, pure, Res.ok.injEq, Prod.mk.injEq] at h2
        obtain ⟨rfl, -, rfl⟩ := h2
        exact ⟨t, hi.other _ hi.cap rfl rfl rfl rfl, keep t ht⟩
    | poll now hdr params =>
      have htn : t ≤ now := by
        rcases ht with rfl | ⟨x, hx, hxt⟩
        · exact Nat.zero_le _
        · exact (hfw2 now rfl).2 x hx t hxt
      obtain ⟨s2, over, n, f, hc, hn, hff, he, rfl⟩ := poll_parts h2
      obtain ⟨c, hcap⟩ := Option.ne_none_iff_exists'.1 hi.cap
      obtain ⟨hm, -⟩ := check_measure hc c hcap
      obtain ⟨s', hm', hcap', htx', hsent', hres', m, hmm, hmn, hm5, hseen⟩ := measured_at hi h1 htn
      rw [hm] at hm'
      simp only [Res.ok.injEq] at hm'
      subst hm'
      obtain ⟨k1, k2⟩ := note_holds s2 l2 l1 now (fun x hx => entryOf_time (by rw [← he]; exact hx)) hsent' hres'
      obtain ⟨n1, n2, n3, -⟩ := note_keeps s2 l2
      refine ⟨now, ⟨by show (s2.note l2).cap ≠ none; rw [n1, hcap']; exact hi.cap, k1, k2, ?_⟩, .inr ⟨.poll now hdr params, by simp, rfl⟩⟩
      intro m' hm'
      replace hm' : (s2.note l2).measured = some m' := hm'
      rw [n2, hmm] at hm'
      simp only [Option.some.injEq] at hm'
      subst hm'
      refine ⟨hmn, ?_⟩
      show Seen s0 _ (s2.note l2).ratio m
      rw [n3]
      exact hseen hdr params
    | nack es =>
      simp only [Capped.step, Res.ok.injEq, Prod.mk.injEq] at h2
      obtain ⟨rfl, -, rfl⟩ := h2
      exact ⟨t, hi.other _ hi.cap rfl rfl rfl rfl, keep t ht⟩
    | report ssrc =>
      simp only [Capped.step, Res.ok.injEq, Prod.mk.injEq] at h2
      obtain ⟨rfl, -, rfl⟩ := h2
      exact ⟨t, hi.other _ hi.cap rfl rfl rfl rfl, keep t ht⟩
    | padding n =>
      simp only [Capped.step, Res.ok.injEq, Prod.mk.injEq] at h2
      obtain ⟨rfl, -, rfl⟩ := h2
      exact ⟨t, hi.other _ hi.cap rfl rfl rfl rfl, keep t ht⟩
    | setCache m a c =>
      simp only [Capped.step, Res.ok.injEq, Prod.mk.injEq] at h2
      obtain ⟨rfl, -, rfl⟩ := h2
      have hne := hr (.setCache m a c) (by simp)
      simp only [Op.Restarts] at hne
      obtain ⟨c', rfl⟩ := Option.ne_none_iff_exists'.1 hne
      obtain ⟨x, hx, -⟩ := hi.sent
      obtain ⟨y, hy, -⟩ := hi.resent
      exact ⟨t, hi.other _ (by simp [Capped.setCache]) (by simp [Capped.setCache, insertIf, hx])
        (by simp [Capped.setCache, insertIf, hy]) rfl rfl, keep t ht⟩
    | resetBuffers =>
      simp only [Capped.step, Res.ok.injEq, Prod.mk.injEq] at h2
      obtain ⟨rfl, -, rfl⟩ := h2
      exact ⟨t, hi.other _ hi.cap rfl rfl rfl rfl, keep t ht⟩
    | resetSsrc a b c d => exact absurd trivial (hr (.resetSsrc a b c d) (by simp))

/-! ### With the stream -/

theorem measure_keeps {s t : Capped} {now : Nat} (h : s.measure now = .ok t) : t.tx = s.tx ∧ t.cap = s.cap := by
  unfold Capped.measure at h
  split at h
  · split at h
    · simp only [Res.ok.injEq] at h
      rw [← h]
      exact ⟨rfl, rfl⟩
    · simp only [Res.ok.injEq] at h
      rw [← h]
      exact ⟨rfl, rfl⟩
  · simp at h

theorem check_keeps {s t : Capped} {now : Nat} {over : Bool} (h : s.check now = .ok (t, over)) : t.tx = s.tx ∧ t.cap = s.cap := by
  cases hc : s.cap with
  | none =>
    unfold Capped.check at h
    rw [hc] at h
    simp only [Res.ok.injEq, Prod.mk.injEq] at h
    rw [← h.1]
    exact ⟨rfl, hc⟩
  | some c =>
    obtain ⟨hm, -⟩ := check_measure h c hc
    rw [← hc]
    exact measure_keeps hm

/-- A poll is a poll of the stream, for some answer to "above the cap?" -/
theorem poll_tx {s t : Capped} {now hdr : Nat} {params : List Param} {o : Option Out} {e : Option Entry}
    (h : s.poll now hdr params = .ok (t, o, e)) : ∃ over, Tx.poll s.tx now hdr params over = .ok (t.tx, o) ∧ t.cap = s.cap := by
  obtain ⟨s1, over, n, f, hc, hn, hff, he, rfl⟩ := poll_parts h
  obtain ⟨h1, h2⟩ := check_keeps hc
  refine ⟨over, ?_, ?_⟩
  · rw [h1] at hn
    unfold Tx.poll
    simp only [hn, bind, Res.bind, hff]
  · show (s1.note e).cap = s.cap
    rw [(note_keeps s1 e).1, h2]

/-- The same of the stream alone -/
def Op.toTx (over : Bool) : Op → Tx.Op
  | .write w => .write w
  | .frame f cs => .frame f cs
  | .timeout now pt => .timeout now pt
  | .poll now hdr params => .poll now hdr params over
  | .nack es => .nack es
  | .report x => .report x
  | .padding n => .padding n
  | .setCache m a c => .setCache m a c.isSome
  | .resetBuffers => .resetBuffers
  | .resetSsrc a b c d => .resetSsrc a b c d

theorem step_tx {s t : Capped} {op : Op} {o : Option Out} {e : Option Entry} (h : s.step op = .ok (t, o, e)) :
    ∃ over, Tx.step s.tx (op.toTx over) = .ok (t.tx, o) := by
  cases op with
  | timeout now pt =>
    simp only [Capped.step] at h
    cases hq : Tx.timeout s.tx now pt with
    | err x => simp [hq, bind, Res.bind] at h
    | panic => simp [hq, bind, Res.bind] at h
    | ok q =>
      simp only [hq, bind, Res.bind, pure, Res.ok.injEq, Prod.mk.injEq] at h
      obtain ⟨rfl, rfl, -⟩ := h
      exact ⟨false, by simp [Op.toTx, Tx.step, hq, bind, Res.bind, pure]⟩
  | poll now hdr params =>
    obtain ⟨over, ho, -⟩ := poll_tx (show s.poll now hdr params = _ from h)
    exact ⟨over, ho⟩
  | _ =>
    simp only [Capped.step, Res.ok.injEq, Prod.mk.injEq] at h
    obtain ⟨rfl, rfl, -⟩ := h
    exact ⟨false, rfl⟩

/-- The cap decides only what is left open in the stream: whatever happens, the stream sends what it sends for some answers to "above the
cap?", so that all that is proved for every answer holds. -/
theorem C124_refines (s t : Capped) (ops : List Op) (outs : List Out) (l : List Entry) (h : s.run ops = .ok (t, outs, l)) :
    ∃ answers : List Bool, answers.length = ops.length ∧
      Tx.run s.tx (List.zipWith (fun op over => op.toTx over) ops answers) = .ok (t.tx, outs) := by
  induction ops generalizing s t outs l with
  | nil =>
    simp only [Capped.run, Res.ok.injEq, Prod.mk.injEq] at h
    obtain ⟨rfl, rfl, -⟩ := h
    exact ⟨[], rfl, rfl⟩
  | cons op ops ih =>
    simp only [Capped.run] at h
    cases h1 : s.step op with
    | err x => simp [h1, bind, Res.bind] at h
    | panic => simp [h1, bind, Res.bind] at h
    | ok r =>
      cases h2 : r.1.run ops with
      | err x => simp [h1, h2, bind, Res.bind] at h
      | panic => simp [h1, h2, bind, Res.bind] at h
      | ok q =>
        simp only [h1, h2, bind, Res.bind, pure, Res.ok.injEq, Prod.mk.injEq] at h
        obtain ⟨rfl, rfl, -⟩ := h
        obtain ⟨over, h3⟩ := step_tx (s := s) (t := r.1) (op := op) (o := r.2.1) (e := r.2.2) h1
        obtain ⟨as, h4, h5⟩ := ih r.1 q.1 q.2.1 q.2.2 h2
        refine ⟨over :: as, by simp [h4], ?_⟩
        simp only [List.zipWith_cons_cons, Tx.run, h3, h5, bind, Res.bind, pure]

theorem chunks_capped (f : Frame) (cs : List (List Byte)) : ∀ (first : Bool) (s : Tx), (pushChunks s f first cs).capped = s.capped := by
  induction cs with
  | nil => intro _ _; rfl
  | cons c cs ih =>
    intro first s
    unfold pushChunks
    rw [ih]
    rfl

theorem polled_capped {s t : Tx} {now hdr : Nat} {params : List Param} {over : Bool} {o : Option Out}
    (h : Tx.poll s now hdr params over = .ok (t, o)) : t.capped = s.capped := by
  obtain ⟨rs, pd, -, hp⟩ := poll_ok h
  cases hp <;> rfl

theorem step_flag {s t : Capped} {op : Op} {o : Option Out} {e : Option Entry} (hs : s.tx.capped = s.cap.isSome) (h : s.step op = .ok (t, o, e)) :
    t.tx.capped = t.cap.isSome := by
  cases op with
  | timeout now pt =>
    simp only [Capped.step] at h
    cases hq : Tx.timeout s.tx now pt with
    | err x => simp [hq, bind, Res.bind] at h
    | panic => simp [hq, bind, Res.bind] at h
    | ok q =>
      simp only [hq, bind, Res.bind, pure, Res.ok.injEq, Prod.mk.injEq] at h
      obtain ⟨rfl, -, -⟩ := h
      obtain ⟨x, q', -, h'⟩ := timeout_eq hq
      rw [h']
      exact hs
  | poll now hdr params =>
    obtain ⟨over, ho, hc⟩ := poll_tx (show s.poll now hdr params = _ from h)
    rw [hc, polled_capped ho, hs]
  | frame f cs =>
    simp only [Capped.step, Res.ok.injEq, Prod.mk.injEq] at h
    obtain ⟨rfl, -, -⟩ := h
    exact (chunks_capped f cs true s.tx).trans hs
  | nack es =>
    simp only [Capped.step, Res.ok.injEq, Prod.mk.injEq] at h
    obtain ⟨rfl, -, -⟩ := h
    obtain ⟨l, hl⟩ := nack_eq s.tx es
    simp only [hl]
    exact hs
  | report x =>
    simp only [Capped.step, Res.ok.injEq, Prod.mk.injEq] at h
    obtain ⟨rfl, -, -⟩ := h
    obtain ⟨a, b, hl⟩ := report_eq s.tx x
    simp only [hl]
    exact hs
  | padding n =>
    simp only [Capped.step, Res.ok.injEq, Prod.mk.injEq] at h
    obtain ⟨rfl, -, -⟩ := h
    obtain ⟨a, hl⟩ := padding_eq s.tx n
    simp only [hl]
    exact hs
  | setCache m a c =>
    simp only [Capped.step, Res.ok.injEq, Prod.mk.injEq] at h
    obtain ⟨rfl, -, -⟩ := h
    rfl
  | _ =>
    simp only [Capped.step, Res.ok.injEq, Prod.mk.injEq] at h
    obtain ⟨rfl, -, -⟩ := h
    exact hs

theorem run_flag {s0 : Capped} (hs : s0.tx.capped = s0.cap.isSome) (ops : List Op) : ∀ {s : Capped} {o : List Out} {l : List Entry},
    s0.run ops = .ok (s, o, l) → s.tx.capped = s.cap.isSome := by
  induction ops using List.reverseRecOn with
  | nil =>
    intro s o l h
    simp only [Capped.run, Res.ok.injEq, Prod.mk.injEq] at h
    obtain ⟨rfl, -, -⟩ := h
    exact hs
  | append_singleton ops op ih =>
    intro s o l h
    obtain ⟨s1, o1, l1, o2, l2, h1, h2, -, -⟩ := run_snoc h
    exact step_flag (ih h1) h2

theorem Fresh.run_flag {s0 : Capped} (hf : Fresh s0) {ops : List Op} {s : Capped} {o : List Out} {l : List Entry}
    (h : s0.run ops = .ok (s, o, l)) : s.tx.capped = s.cap.isSome := by
  refine RtxCap.run_flag ?_ ops h
  obtain ⟨c, hc⟩ := Option.ne_none_iff_exists'.1 hf.cap
  rw [hf.flag, hc]
  rfl

/-! ### What is taken and what is sent -/

/-- Padding is never counted; every other datagram is: its payload, and whether it is one that was sent before. -/
theorem C124_counted (s t : Capped) (now hdr : Nat) (params : List Param) (o : Out) (e : Option Entry)
    (h : s.poll now hdr params = .ok (t, some o, e)) :
    (o.isPadding = true → e = none) ∧
    (o.isPadding = false → ∃ x, e = some x ∧ x.time = now ∧
      ((o.kind = .regular ∧ x.resend = false ∧ o.body.length = x.len) ∨ ((∃ n, o.kind = .resend n) ∧ x.resend = true ∧ o.body.length = x.len + 2))) := by
  obtain ⟨s1, over, ⟨q, n⟩, f, hc, hn, hff, he, -⟩ := poll_parts h
  obtain ⟨rs, pd, -, hp⟩ := pollNext_ok hn
  subst he
  cases hp with
  | none => simp [finishPoll] at hff
  | regular qq hq =>
    dsimp only [finishPoll] at hff
    unfold sendNext at hff
    dsimp only at hff
    split at hff
    · unfold dropUnknown popQueue at hff
      simp only [↓reduceIte] at hff
      obtain ⟨r, -, hff⟩ := bind_eq_ok hff
      simp [pure] at hff
    · simp only [↓reduceIte] at hff
      unfold sendRegular at hff
      dsimp only at hff
      split at hff
      · simp at hff
      · obtain ⟨r, -, hff⟩ := bind_eq_ok hff
        simp only [pure, Res.ok.injEq, Prod.mk.injEq, Option.some.injEq] at hff
        obtain ⟨-, rfl⟩ := hff
        refine ⟨fun h => by simp [regularOut] at h, fun _ => ⟨_, rfl, rfl, .inl ⟨rfl, by simp, rfl⟩⟩⟩
  | resend p m pad hg hr hnn hs =>
    dsimp only [finishPoll] at hff
    unfold sendNext at hff
    dsimp only at hff
    split at hff
    · simp [dropUnknown] at hff
    · simp only [reduceCtorEq, ↓reduceIte] at hff
      unfold sendRtx at hff
      split at hff
      · split at hff
        · simp at hff
        · simp only [Res.ok.injEq, Prod.mk.injEq, Option.some.injEq] at hff
          obtain ⟨-, rfl⟩ := hff
          cases pad with
          | true => exact ⟨fun _ => rfl, fun h => by simp [rtxOut] at h⟩
          | false =>
            refine ⟨fun h => by simp [rtxOut] at h, fun _ => ⟨_, rfl, rfl, .inr ⟨⟨_, rfl⟩, by simp, ?_⟩⟩⟩
            simp only [rtxOut, bodyOf, be16, List.length_append, List.length_cons, List.length_nil]
            omega
      · simp at hff
  | blank pt len hm hr hl =>
    dsimp only [finishPoll] at hff
    unfold sendNext at hff
    dsimp only at hff
    split at hff
    · simp [dropUnknown] at hff
    · simp only [reduceCtorEq, ↓reduceIte] at hff
      unfold sendRtx at hff
      split at hff
      · split at hff
        · simp at hff
        · simp only [Res.ok.injEq, Prod.mk.injEq, Option.some.injEq] at hff
          obtain ⟨-, rfl⟩ := hff
          exact ⟨fun _ => rfl, fun h => by simp [rtxOut] at h⟩
      · simp at hff

/-- Without anything asked for again, no packet is sent again -/
theorem next_plain {s t : Tx} {now : Nat} {over : Bool} {n : Option (Next × Bool)} (hq : firstCached s.cache s.resends = none ∨ (s.capped && over) = true)
    (h : pollNext s now over = .ok (t, n)) : t.resends = [] ∧ ∀ e, entryOf now n = some e → e.resend = false := by
  unfold pollNext at h
  have hr : pollResend s over = .ok ({ s with resends := [] }, none) := by
    unfold pollResend
    split
    · rfl
    · rename_i hx
      rcases hq with hq | hq
      · rw [hq]
      · exact absurd hq hx
  rw [hr] at h
  simp only [bind, Res.bind, orRegular, pollRegular] at h
  split at h
  · unfold orPadding at h
    dsimp only at h
    obtain ⟨⟨u, m⟩, h2, h⟩ := bind_eq_ok h
    simp only [pure, Res.ok.injEq, Prod.mk.injEq] at h
    obtain ⟨rfl, rfl⟩ := h
    obtain ⟨pd, hp⟩ := pollPadding_ok (now := now) [] h2
    refine ⟨by generalize m.map (fun n => (n, true)) = mm at hp; cases hp <;> rfl, fun e he => ?_⟩
    cases m with
    | none => simp [entryOf] at he
    | some m => simp [entryOf] at he
  · unfold orPadding at h
    dsimp only at h
    simp only [Res.ok.injEq, Prod.mk.injEq] at h
    obtain ⟨rfl, rfl⟩ := h
    refine ⟨rfl, fun e he => ?_⟩
    simp only [entryOf, Option.some.injEq] at he
    rw [← he]
    simp

theorem finish_resends {s t : Tx} {now hdr : Nat} {params : List Param} {n : Option (Next × Bool)} {o : Option Out}
    (h : finishPoll now hdr params (s, n) = .ok (t, o)) : t.resends = s.resends := by
  unfold finishPoll at h
  cases n with
  | none =>
    simp only [Res.ok.injEq, Prod.mk.injEq] at h
    rw [← h.1]
  | some n =>
    obtain ⟨n, pad⟩ := n
    dsimp only at h
    unfold sendNext at h
    split at h
    · unfold dropUnknown popQueue at h
      split at h
      · obtain ⟨r, hr, h⟩ := bind_eq_ok h
        obtain ⟨r2, -, hr⟩ := bind_eq_ok hr
        simp only [pure, Res.ok.injEq, Prod.mk.injEq] at h hr
        rw [← h.1, ← hr]
      · simp only [Res.ok.injEq, Prod.mk.injEq] at h
        rw [← h.1]
    · split at h
      · unfold sendRegular at h
        dsimp only at h
        split at h
        · simp at h
        · obtain ⟨r, hr, h⟩ := bind_eq_ok h
          simp only [pure, Res.ok.injEq, Prod.mk.injEq] at h
          rw [← h.1]
          unfold moveToCache popQueue at hr
          obtain ⟨r2, hr2, hr⟩ := bind_eq_ok hr
          obtain ⟨r3, -, hr2⟩ := bind_eq_ok hr2
          simp only [pure, Res.ok.injEq] at hr2
          split at hr
          · simp at hr
          · unfold cacheIf at hr
            split at hr
            · obtain ⟨c, -, hr⟩ := bind_eq_ok hr
              simp only [pure, Res.ok.injEq] at hr
              rw [← hr, ← hr2]
              rw [learnPt_eq]
            · simp only [Res.ok.injEq] at hr
              rw [← hr, ← hr2, learnPt_eq]
      · unfold sendRtx at h
        split at h
        · split at h
          · simp at h
          · simp only [Res.ok.injEq, Prod.mk.injEq] at h
            rw [← h.1]
        · simp at h

theorem firstCached_none {c : RtxCache} {l : List Nat} (h : firstCached c l = none) : ∀ n ∈ l, c.getBySeqNo n = none := by
  induction l with
  | nil => simp
  | cons x l ih =>
    unfold firstCached at h
    split at h
    · rename_i hx
      intro n hn
      rcases List.mem_cons.1 hn with rfl | hn
      · exact hx
      · exact ih h n hn
    · simp at h

/-- What decides whether packets are sent again is the share of the last second, at some poll in the last 50 ms: below the cap or at it, a
packet that was asked for and is still there is sent again before anything else; above it nothing is sent again, and all that was asked for
is forgotten. -/
theorem C124_decides (s0 : Capped) (hf : Fresh s0) (ops : List Op) (now hdr : Nat) (params : List Param) (hr : ∀ op ∈ ops, ¬ op.Restarts)
    (hfw : Forward 0 (ops ++ [.poll now hdr params])) (s t : Capped) (outs : List Out) (l : List Entry) (o : Option Out) (e : Option Entry)
    (h1 : s0.run ops = .ok (s, outs, l)) (h2 : s.step (.poll now hdr params) = .ok (t, o, e)) (c : ℚ) (hc : s.cap = some c) (h0 : 0 ≤ c) :
    ∃ pre m hdr0 params0 rest s1 o1 l1, ops ++ [.poll now hdr params] = pre ++ .poll m hdr0 params0 :: rest ∧ m ≤ now ∧ now - m < 50000 ∧
      s0.run pre = .ok (s1, o1, l1) ∧
      (Within c l1 m → (∃ n ∈ s.tx.resends, s.tx.cache.getBySeqNo n ≠ none) → ∃ x, e = some x ∧ x.resend = true) ∧
      (¬ Within c l1 m → t.tx.resends = [] ∧ ∀ x, e = some x → x.resend = false) := by
  obtain ⟨hfw1, hfw2⟩ := forward_snoc hfw
  obtain ⟨t0, hi, ht⟩ := inv_run hf ops hr hfw1 h1
  have htn : t0 ≤ now := by
    rcases ht with rfl | ⟨x, hx, hxt⟩
    · exact Nat.zero_le _
    · exact (hfw2 now rfl).2 x hx t0 hxt
  obtain ⟨s2, over, ⟨q, n⟩, f, hck, hn, hff, he, rfl⟩ := poll_parts (show s.poll now hdr params = _ from h2)
  obtain ⟨hm, hov⟩ := check_measure hck c hc
  obtain ⟨s', hm', hcap', htx', -, -, m, -, hmn, hm5, hseen⟩ := measured_at hi h1 htn
  rw [hm] at hm'
  simp only [Res.ok.injEq] at hm'
  subst hm'
  obtain ⟨pre, hdr0, params0, rest, s1, o1, l1, e1, e2, e3⟩ := (hseen hdr params).at_
  have hflag := hf.run_flag h1
  rw [hc] at hflag
  replace hflag : s.tx.capped = true := hflag
  have hw : Within c l1 m ↔ over = false := by
    rw [hov, e3, decide_eq_false_iff_not, not_lt, ratio_within c h0]
    exact Iff.rfl
  refine ⟨pre, m, hdr0, params0, rest, s1, o1, l1, e1, hmn, hm5, e2, ?_, ?_⟩
  · intro hwi ⟨k, hk, hkc⟩
    rw [hw.1 hwi, htx'] at hn
    unfold pollNext at hn
    obtain ⟨⟨u, m2⟩, hp, hn⟩ := bind_eq_ok hn
    unfold pollResend at hp
    rw [if_neg (by simp)] at hp
    split at hp
    · rename_i hnone
      exact absurd (firstCached_none hnone k hk) hkc
    · rename_i p rest2 hsome
      split at hp
      · simp only [Res.ok.injEq, Prod.mk.injEq] at hp
        obtain ⟨rfl, rfl⟩ := hp
        simp only [orRegular, Res.ok.injEq, Prod.mk.injEq] at hn
        obtain ⟨-, rfl⟩ := hn
        exact ⟨_, he, by simp⟩
      · simp at hp
  · intro hwi
    have hov2 : over = true := by
      cases hh : over with
      | true => rfl
      | false => exact absurd (hw.2 hh) hwi
    obtain ⟨k1, k2⟩ := next_plain (.inr (by rw [htx', hflag, hov2]; rfl)) hn
    refine ⟨?_, fun x hx => k2 x (by rw [← hx, he])⟩
    show f.resends = []
    rw [finish_resends hff, k1]

/-- No datagram is sent again above the cap: when one is, the bytes sent again in the last second were no more than the cap's share, at
some poll in the last 50 ms. -/
theorem C124_capped (s0 : Capped) (hf : Fresh s0) (ops : List Op) (now hdr : Nat) (params : List Param) (hr : ∀ op ∈ ops, ¬ op.Restarts)
    (hfw : Forward 0 (ops ++ [.poll now hdr params])) (s t : Capped) (outs : List Out) (l : List Entry) (o : Out) (e : Option Entry)
    (h1 : s0.run ops = .ok (s, outs, l)) (h2 : s.step (.poll now hdr params) = .ok (t, some o, e)) (c : ℚ) (hc : s.cap = some c) (h0 : 0 ≤ c)
    (hp : o.isPadding = false) (hk : o.kind ≠ .regular) :
    ∃ pre m hdr0 params0 rest s1 o1 l1, ops ++ [.poll now hdr params] = pre ++ .poll m hdr0 params0 :: rest ∧ m ≤ now ∧ now - m < 50000 ∧
      s0.run pre = .ok (s1, o1, l1) ∧ Within c l1 m := by
  obtain ⟨pre, m, hdr0, params0, rest, s1, o1, l1, k1, k2, k3, k4, -, k6⟩ := C124_decides s0 hf ops now hdr params hr hfw s t outs l (some o) e h1 h2 c hc h0
  refine ⟨pre, m, hdr0, params0, rest, s1, o1, l1, k1, k2, k3, k4, ?_⟩
  by_contra hw
  obtain ⟨x, hx, -, h3 | ⟨-, h3, -⟩⟩ := (C124_counted s t now hdr params o e h2).2 hp
  · exact hk h3.1
  · rw [(k6 hw).2 x hx] at h3
    simp at h3

/-- Once nothing is waiting to be sent again, nothing is until the peer asks again -/
theorem C124_silent (s t : Capped) (ops : List Op) (outs : List Out) (l : List Entry) (hs : s.tx.resends = []) (hn : ∀ op ∈ ops, op.NoNack)
    (h : s.run ops = .ok (t, outs, l)) : t.tx.resends = [] ∧ ∀ e ∈ l, e.resend = false := by
  induction ops using List.reverseRecOn generalizing t outs l with
  | nil =>
    simp only [Capped.run, Res.ok.injEq, Prod.mk.injEq] at h
    obtain ⟨rfl, -, rfl⟩ := h
    exact ⟨hs, by simp⟩
  | append_singleton ops op ih =>
    obtain ⟨s1, o1, l1, o2, l2, h1, h2, -, rfl⟩ := run_snoc h
    obtain ⟨i1, i2⟩ := ih s1 o1 l1 (fun x hx => hn x (by simp [hx])) h1
    have keep : l2 = none → ∀ e ∈ l1 ++ l2.toList, e.resend = false := by
      rintro rfl
      simpa using i2
    cases op with
    | timeout now pt =>
      simp only [Capped.step] at h2
      cases hq : Tx.timeout s1.tx now pt with
      | err x => simp [hq, bind, Res.bind] at h2
      | panic => simp [hq, bind, Res.bind] at h2
      | ok q =>
        simp only [hq, bind, Res.bind, pure, Res.ok.injEq, Prod.mk.injEq] at h2
        obtain ⟨rfl, -, h3⟩ := h2
        obtain ⟨x, q', -, h'⟩ := timeout_eq hq
        rw [h']
        exact ⟨i1, keep h3.symm⟩
    | poll now hdr params =>
      obtain ⟨s2, over, ⟨q, n⟩, f, hck, hnx, hff, he, rfl⟩ := poll_parts (show s1.poll now hdr params = _ from h2)
      have htx := (check_keeps hck).1
      obtain ⟨k1, k2⟩ := next_plain (.inl (by rw [htx, i1]; rfl)) hnx
      refine ⟨by show f.resends = []; rw [finish_resends hff, k1], ?_⟩
      intro x hx
      rcases List.mem_append.1 hx with hx | hx
      · exact i2 x hx
      · exact k2 x (by rw [← he]; simpa using hx)
    | frame f cs =>
      simp only [Capped.step, Res.ok.injEq, Prod.mk.injEq] at h2
      obtain ⟨rfl, -, h3⟩ := h2
      refine ⟨?_, keep h3.symm⟩
      have : ∀ (cs : List (List Byte)) (b : Bool) (s : Tx), (pushChunks s f b cs).resends = s.resends := by
        intro cs
        induction cs with
        | nil => intro _ _; rfl
        | cons c cs ih => intro b s; unfold pushChunks; rw [ih]; rfl
      exact (this cs true s1.tx).trans i1
    | nack es => exact absurd (hn (.nack es) (by simp)) (by simp [Op.NoNack])
    | report x =>
      simp only [Capped.step, Res.ok.injEq, Prod.mk.injEq] at h2
      obtain ⟨rfl, -, h3⟩ := h2
      obtain ⟨a, b, hl⟩ := report_eq s1.tx x
      refine ⟨?_, keep h3.symm⟩
      simp only [hl]
      exact i1
    | padding n =>
      simp only [Capped.step, Res.ok.injEq, Prod.mk.injEq] at h2
      obtain ⟨rfl, -, h3⟩ := h2
      obtain ⟨a, hl⟩ := padding_eq s1.tx n
      refine ⟨?_, keep h3.symm⟩
      simp only [hl]
      exact i1
    | resetBuffers =>
      simp only [Capped.step, Res.ok.injEq, Prod.mk.injEq] at h2
      obtain ⟨rfl, -, h3⟩ := h2
      exact ⟨rfl, keep h3.symm⟩
    | resetSsrc a b c d =>
      simp only [Capped.step, Res.ok.injEq, Prod.mk.injEq] at h2
      obtain ⟨rfl, -, h3⟩ := h2
      exact ⟨rfl, keep h3.symm⟩
    | _ =>
      simp only [Capped.step, Res.ok.injEq, Prod.mk.injEq] at h2
      obtain ⟨rfl, -, h3⟩ := h2
      exact ⟨i1, keep h3.symm⟩

/-! ### No assertion -/

/-- There are accounts whenever there is a cap -/
def Kept (s : Capped) : Prop := s.cap ≠ none → s.sent ≠ none ∧ s.resent ≠ none

theorem measure_kept {s t : Capped} {now : Nat} (h : s.measure now = .ok t) : t.sent ≠ none ∧ t.resent ≠ none := by
  unfold Capped.measure at h
  split at h
  · rename_i a b ha hb
    split at h
    · simp only [Res.ok.injEq] at h
      rw [← h, ha, hb]
      simp
    · simp only [Res.ok.injEq] at h
      rw [← h]
      simp
  · simp at h

theorem kept_run {s0 : Capped} (hs : Kept s0) (ops : List Op) : ∀ {s : Capped} {o : List Out} {l : List Entry},
    s0.run ops = .ok (s, o, l) → Kept s := by
  induction ops using List.reverseRecOn with
  | nil =>
    intro s o l h
    simp only [Capped.run, Res.ok.injEq, Prod.mk.injEq] at h
    obtain ⟨rfl, -, -⟩ := h
    exact hs
  | append_singleton ops op ih =>
    intro s o l h
    obtain ⟨s1, o1, l1, o2, l2, h1, h2, -, -⟩ := run_snoc h
    have hk := ih h1
    cases op with
    | timeout now pt =>
      simp only [Capped.step] at h2
      cases hq : Tx.timeout s1.tx now pt with
      | err x => simp [hq, bind, Res.bind] at h2
      | panic => simp [hq, bind, Res.bind] at h2
      | ok q =>
        simp only [hq, bind, Res.bind, pure, Res.ok.injEq, Prod.mk.injEq] at h2
        obtain ⟨rfl, -, -⟩ := h2
        exact hk
    | poll now hdr params =>
      obtain ⟨s2, over, n, f, hck, -, -, -, rfl⟩ := poll_parts (show s1.poll now hdr params = _ from h2)
      have h3 := (check_keeps hck).2
      intro hne
      have hne1 : s1.cap ≠ none := by
        rw [← h3, ← (note_keeps s2 l2).1]
        exact hne
      obtain ⟨c, hc⟩ := Option.ne_none_iff_exists'.1 hne1
      obtain ⟨h4, h5⟩ := measure_kept (check_measure hck c hc).1
      show (s2.note l2).sent ≠ none ∧ (s2.note l2).resent ≠ none
      cases l2 with
      | none => exact ⟨h4, h5⟩
      | some e =>
        unfold Capped.note
        dsimp only
        split
        · exact ⟨h4, by simpa using h5⟩
        · exact ⟨by simpa using h4, h5⟩
    | setCache m a c =>
      simp only [Capped.step, Res.ok.injEq, Prod.mk.injEq] at h2
      obtain ⟨rfl, -, -⟩ := h2
      intro hne
      obtain ⟨c', hc⟩ := Option.ne_none_iff_exists'.1 hne
      simp only [Capped.setCache] at hc
      subst hc
      simp [Capped.setCache, insertIf]
    | resetSsrc a b c d =>
      simp only [Capped.step, Res.ok.injEq, Prod.mk.injEq] at h2
      obtain ⟨rfl, -, -⟩ := h2
      intro _
      simp [Capped.resetSsrc]
    | _ =>
      simp only [Capped.step, Res.ok.injEq, Prod.mk.injEq] at h2
      obtain ⟨rfl, -, -⟩ := h2
      exact hk

/-- However the cap is set, taken away and set again, and whatever is reset: measuring never finds the accounts missing, which would be a
failed assertion. -/
theorem C124_no_assert (tx : Tx) (c : ℚ) (ops : List Op) (s : Capped) (outs : List Out) (l : List Entry) (now : Nat)
    (h : (Capped.new tx c).run ops = .ok (s, outs, l)) : ∃ r, s.check now = .ok r := by
  have hk : Kept s := kept_run (s0 := Capped.new tx c) (by intro _; simp [Capped.new]) ops h
  unfold Capped.check
  cases hc : s.cap with
  | none => exact ⟨_, rfl⟩
  | some c' =>
    obtain ⟨h1, h2⟩ := hk (by rw [hc]; simp)
    obtain ⟨a, ha⟩ := Option.ne_none_iff_exists'.1 h1
    obtain ⟨b, hb⟩ := Option.ne_none_iff_exists'.1 h2
    dsimp only
    have : ∃ t, s.measure now = .ok t := by
      unfold Capped.measure
      rw [ha, hb]
      dsimp only
      split <;> exact ⟨_, rfl⟩
    obtain ⟨t, ht⟩ := this
    rw [ht]
    exact ⟨_, rfl⟩

/-- A new stream, and one after its SSRC was reset, has sent nothing; with a cap `C124_decides` and `C124_capped` hold from there. -/
theorem C124_fresh (tx : Tx) (c : ℚ) (h : tx.capped = true) :
    Fresh (Capped.new tx c) ∧
      ∀ (ops : List Op) (s : Capped) (outs : List Out) (l : List Entry) (a : Nat) (b : Option Nat) (s1 s2 : Nat),
        (Capped.new tx c).run ops = .ok (s, outs, l) → s.cap ≠ none → Fresh (s.resetSsrc a b s1 s2) := by
  refine ⟨⟨h, by simp [Capped.new], rfl, rfl, rfl⟩, ?_⟩
  intro ops s outs l a b s1 s2 hr hc
  have hf := run_flag (s0 := Capped.new tx c) (by rw [show (Capped.new tx c).tx.capped = tx.capped from rfl, h]; rfl) ops hr
  obtain ⟨c', hc'⟩ := Option.ne_none_iff_exists'.1 hc
  rw [hc'] at hf
  exact ⟨hf, hc, rfl, rfl, rfl⟩

/-! ### What is kept -/

theorem purgeLoop_young (now : Nat) : ∀ (es : List (Nat × Nat)) (v : Nat), es.Pairwise (fun a b => a.1 ≤ b.1) →
    ∀ p ∈ (purgeLoop now v es).entries, now ≤ p.1 + 1000000 := by
  intro es
  induction es with
  | nil => intro v _; simp [purgeLoop]
  | cons e es ih =>
    intro v hs
    rw [List.pairwise_cons] at hs
    unfold purgeLoop
    split
    · exact ih _ hs.2
    · rename_i hge
      simp only [SECOND] at hge
      intro p hp
      rcases List.mem_cons.1 hp with rfl | hp
      · omega
      · have := hs.1 p hp
        omega

theorem Holds.entries_sorted {h : Hist} {ps : List (Nat × Nat)} {t : Nat} (hh : Holds h ps t) : h.entries.Pairwise (fun a b => a.1 ≤ b.1) := by
  obtain ⟨d, hd, -⟩ := hh.split
  have := hh.sorted
  rw [hd, List.pairwise_append] at this
  exact this.2.1

/-- All that an account holds is not over a second older than `m` -/
def YoungAt (m : Nat) (h : Option Hist) : Prop := ∀ a, h = some a → ∀ p ∈ a.entries, m ≤ p.1 + 1000000

/-- Nothing is held before the first measurement; after it, nothing that was over a second old then -/
def Young (s : Capped) : Prop :=
  match s.measured with
  | none => ∀ m, YoungAt m s.sent ∧ YoungAt m s.resent
  | some m => YoungAt m s.sent ∧ YoungAt m s.resent

theorem young_step {s0 : Capped} (hf : Fresh s0) (ops : List Op) : ∀ {s : Capped} {o : List Out} {l : List Entry},
    (∀ op ∈ ops, ¬ op.Restarts) → Forward 0 ops → s0.run ops = .ok (s, o, l) → Young s := by
  induction ops using List.reverseRecOn with
  | nil =>
    intro s o l _ _ h
    simp only [Capped.run, Res.ok.injEq, Prod.mk.injEq] at h
    obtain ⟨rfl, -, -⟩ := h
    unfold Young
    rw [hf.measured]
    intro m
    rw [hf.sent, hf.resent]
    constructor <;> · rintro a ⟨⟩ p hp; simp at hp
  | append_singleton ops op ih =>
    intro s o l hr hfw h
    obtain ⟨s1, o1, l1, o2, l2, h1, h2, -, rfl⟩ := run_snoc h
    obtain ⟨hfw1, hfw2⟩ := forward_snoc hfw
    have hr1 : ∀ x ∈ ops, ¬ x.Restarts := fun x hx => hr x (by simp [hx])
    have hy := ih hr1 hfw1 h1
    obtain ⟨t, hi, ht⟩ := inv_run hf ops hr1 hfw1 h1
    cases op with
    | timeout now pt =>
      simp only [Capped.step] at h2
      cases hq : Tx.timeout s1.tx now pt with
      | err x => simp [hq, bind, Res.bind] at h2
      | panic => simp [hq, bind, Res.bind] at h2
      | ok q =>
        simp only [hq, bind, Res.bind, pure, Res.ok.injEq, Prod.mk.injEq] at h2
        obtain ⟨rfl, -, -⟩ := h2
        exact hy
    | poll now hdr params =>
      have htn : t ≤ now := by
        rcases ht with rfl | ⟨x, hx, hxt⟩
        · exact Nat.zero_le _
        · exact (hfw2 now rfl).2 x hx t hxt
      obtain ⟨s2, over, n, f, hc, hn, hff, he, rfl⟩ := poll_parts (show s1.poll now hdr params = _ from h2)
      obtain ⟨c, hcap⟩ := Option.ne_none_iff_exists'.1 hi.cap
      obtain ⟨hm, -⟩ := check_measure hc c hcap
      obtain ⟨s', hm', -, -, -, -, m, hmm, hmn, -, -⟩ := measured_at hi h1 htn
      rw [hm] at hm'
      simp only [Res.ok.injEq] at hm'
      subst hm'
      have hy2 : YoungAt m s2.sent ∧ YoungAt m s2.resent := by
        obtain ⟨a, ha, hha⟩ := hi.sent
        obtain ⟨b, hb, hhb⟩ := hi.resent
        unfold Capped.measure at hm
        rw [ha, hb] at hm
        dsimp only at hm
        split at hm
        · simp only [Res.ok.injEq] at hm
          subst hm
          unfold Young at hy
          rw [hmm] at hy
          exact hy
        · simp only [Res.ok.injEq] at hm
          subst hm
          simp only [Option.some.injEq] at hmm
          subst hmm
          constructor
          · rintro x ⟨⟩
            exact purgeLoop_young now a.entries a.value hha.entries_sorted
          · rintro x ⟨⟩
            exact purgeLoop_young now b.entries b.value hhb.entries_sorted
      have hmeas : (s2.note l2).measured = some m := by rw [(note_keeps s2 l2).2.1, hmm]
      show match (s2.note l2).measured with
        | none => ∀ m, YoungAt m (s2.note l2).sent ∧ YoungAt m (s2.note l2).resent
        | some m => YoungAt m (s2.note l2).sent ∧ YoungAt m (s2.note l2).resent
      rw [hmeas]
      dsimp only
      cases l2 with
      | none => exact hy2
      | some e =>
        have het : e.time = now := entryOf_time he.symm
        have push : ∀ h : Option Hist, YoungAt m h → YoungAt m (h.map (fun h => h.push e.time e.len)) := by
          intro h hh a ha p hp
          cases h with
          | none => simp at ha
          | some b =>
            simp only [Option.map_some, Option.some.injEq] at ha
            subst ha
            simp only [Hist.push, List.mem_append, List.mem_singleton] at hp
            rcases hp with hp | rfl
            · exact hh b rfl p hp
            · dsimp only
              omega
        unfold Capped.note
        dsimp only
        split
        · exact ⟨hy2.1, push _ hy2.2⟩
        · exact ⟨push _ hy2.1, hy2.2⟩
    | setCache m a c =>
      simp only [Capped.step, Res.ok.injEq, Prod.mk.injEq] at h2
      obtain ⟨rfl, -, rfl⟩ := h2
      have hne := hr (.setCache m a c) (by simp)
      simp only [Op.Restarts] at hne
      obtain ⟨c', rfl⟩ := Option.ne_none_iff_exists'.1 hne
      obtain ⟨x, hx, -⟩ := hi.sent
      obtain ⟨y, hy', -⟩ := hi.resent
      unfold Young at hy ⊢
      simpa [Capped.setCache, insertIf, hx, hy'] using hy
    | resetSsrc a b c d => exact absurd trivial (hr (.resetSsrc a b c d) (by simp))
    | _ =>
      simp only [Capped.step, Res.ok.injEq, Prod.mk.injEq] at h2
      obtain ⟨rfl, -, -⟩ := h2
      exact hy

/-- With a cap, what is kept after a poll went out during the last 1.05 s. -/
theorem C124_kept_second (s0 : Capped) (hf : Fresh s0) (ops : List Op) (now hdr : Nat) (params : List Param) (hr : ∀ op ∈ ops, ¬ op.Restarts)
    (hfw : Forward 0 (ops ++ [.poll now hdr params])) (s : Capped) (outs : List Out) (l : List Entry)
    (h : s0.run (ops ++ [.poll now hdr params]) = .ok (s, outs, l)) :
    ∃ a b, s.sent = some a ∧ s.resent = some b ∧ ∀ p ∈ a.entries ++ b.entries, now < p.1 + 1050000 := by
  have hr2 : ∀ op ∈ ops ++ [.poll now hdr params], ¬ op.Restarts := by
    intro op hop
    rcases List.mem_append.1 hop with hop | hop
    · exact hr op hop
    · simp only [List.mem_singleton] at hop
      subst hop
      exact id
  have hy := young_step hf _ hr2 hfw h
  obtain ⟨s1, o1, l1, o2, l2, h1, h2, -, rfl⟩ := run_snoc h
  obtain ⟨hfw1, hfw2⟩ := forward_snoc hfw
  obtain ⟨t, hi, ht⟩ := inv_run hf ops hr hfw1 h1
  have htn : t ≤ now := by
    rcases ht with rfl | ⟨x, hx, hxt⟩
    · exact Nat.zero_le _
    · exact (hfw2 now rfl).2 x hx t hxt
  obtain ⟨u, hi2, -⟩ := inv_run hf _ hr2 hfw h
  obtain ⟨s2, over, n, f, hc, hn, hff, he, rfl⟩ := poll_parts (show s1.poll now hdr params = _ from h2)
  obtain ⟨c, hcap⟩ := Option.ne_none_iff_exists'.1 hi.cap
  obtain ⟨hm, -⟩ := check_measure hc c hcap
  obtain ⟨s', hm', -, -, -, -, m, hmm, hmn, hm5, -⟩ := measured_at hi h1 htn
  rw [hm] at hm'
  simp only [Res.ok.injEq] at hm'
  subst hm'
  obtain ⟨a, ha, -⟩ := hi2.sent
  obtain ⟨b, hb, -⟩ := hi2.resent
  refine ⟨a, b, ha, hb, fun p hp => ?_⟩
  have hmeas : (s2.note l2).measured = some m := by rw [(note_keeps s2 l2).2.1, hmm]
  replace hy : match (s2.note l2).measured with
        | none => ∀ m, YoungAt m (s2.note l2).sent ∧ YoungAt m (s2.note l2).resent
        | some m => YoungAt m (s2.note l2).sent ∧ YoungAt m (s2.note l2).resent := hy
  rw [hmeas] at hy
  dsimp only at hy
  have : m ≤ p.1 + 1000000 := by
    rcases List.mem_append.1 hp with hp | hp
    · exact hy.1 a ha p hp
    · exact hy.2 b hb p hp
  omega

/-! ### Cases -/

/-- A stream of 100 packets and 3 s of cache, with its payload type -/
def video : Capped := Capped.new (Tx.new 1 (some 2) 5 none 1150 10 20) (15 / 100)

def videoParams : List Param := [{ pt := 96, resend := some 97 }]

/-- Asks for packet `n` again -/
def again (n : Nat) : NackEntry := { pid := n, blp := 0 }

def packet (n len : Nat) : Op :=
  .write { seqNo := n, payload := List.replicate len 7, pt := 96, time := n, nackable := true }

/-- The history of `video`: the time, kind and size of what was sent, and whether something waits to be sent again -/
def shows (ops : List Op) : Option (List (Nat × Bool × Nat) × Nat) :=
  match video.run ops with
  | .ok (s, _, l) => some (l.map (fun e => (e.time, e.resend, e.len)), s.tx.resends.length)
  | _ => none

/-- A packet of 100 bytes, asked for twice, 100 ms apart: it is sent again, then the share is a half and the second request is forgotten. -/
def capHistory : List Op :=
  [packet 10 100, .timeout 1000000 (some 96), .poll 1000000 12 videoParams, .nack [again 10], .poll 1100000 12 videoParams, .nack [again 10],
    .poll 1200000 12 videoParams]

theorem C124_example : shows capHistory = some ([(1000000, false, 100), (1100000, true, 100)], 0) ∧ Fresh video ∧ Forward 0 capHistory ∧
    ∀ op ∈ capHistory, ¬ op.Restarts := by
  refine ⟨by decide +kernel, (C124_fresh _ _ rfl).1, ?_, ?_⟩
  · simp [capHistory, Forward, Op.time, packet]
  · simp [capHistory, Op.Restarts, packet]

/-- The share is measured every 50 ms: in between there is no cap, and one packet is sent as often as it is asked for. Here 5/6 of the bytes
of the last second are sent again, with a cap of 15%. -/
theorem C124_violation_burst :
    shows [packet 10 100, .timeout 1000000 (some 96), .poll 1000000 12 videoParams, .nack [again 10, again 10, again 10, again 10, again 10],
      .poll 1001000 12 videoParams, .poll 1002000 12 videoParams, .poll 1003000 12 videoParams, .poll 1004000 12 videoParams,
      .poll 1005000 12 videoParams] =
    some ([(1000000, false, 100), (1001000, true, 100), (1002000, true, 100), (1003000, true, 100), (1004000, true, 100), (1005000, true, 100)], 0) := by
  decide +kernel

/-- A packet of a payload type that is not there is not sent, but counts: the peer gets 100 bytes, of which all are sent again, and the share
is said to be a tenth. -/
theorem C124_violation_unsent :
    (match video.run [packet 10 100, .timeout 1000000 (some 96), .poll 1000000 12 videoParams,
        .write { seqNo := 11, payload := List.replicate 900 7, pt := 50, time := 11 }, .timeout 1500000 (some 96), .poll 1500000 12 videoParams] with
      | .ok (_, outs, l) => some (outs.map (fun o => o.body.length), l.map (fun e => (e.time, e.resend, e.len)))
      | _ => none) = some ([100], [(1000000, false, 100), (1500000, false, 900)]) := by
  decide +kernel

/-- Without a cap nothing is kept, until the SSRC is reset: from then on every packet is, and never let go. Here the one of 1000 s ago is
there. -/
theorem C124_violation_grows :
    (match video.run [.setCache 100 3000000 none, .resetSsrc 3 (some 4) 10 20, packet 10 100, .timeout 1000000 (some 96), .poll 1000000 12 videoParams,
        packet 11 100, .timeout 1001000000 (some 96), .poll 1001000000 12 videoParams] with
      | .ok (s, _, _) => some (s.cap, s.sent.map (fun h => h.entries))
      | _ => none) = some (none, some [(1000000, 100), (1001000000, 100)]) := by
  decide +kernel

/-- In general: without a cap, no poll lets go of anything that is kept. -/
theorem C124_violation_kept (s t : Capped) (now hdr : Nat) (params : List Param) (o : Option Out) (e : Option Entry) (a : Hist) (hc : s.cap = none)
    (hs : s.sent = some a) (h : s.poll now hdr params = .ok (t, o, e)) : ∃ b, t.sent = some b ∧ a.entries <+: b.entries := by
  obtain ⟨s1, over, n, f, hck, -, -, -, rfl⟩ := poll_parts h
  unfold Capped.check at hck
  rw [hc] at hck
  simp only [Res.ok.injEq, Prod.mk.injEq] at hck
  obtain ⟨rfl, -⟩ := hck
  show ∃ b, (s.note e).sent = some b ∧ _
  cases e with
  | none => exact ⟨a, hs, List.prefix_rfl⟩
  | some e =>
    unfold Capped.note
    dsimp only
    split
    · exact ⟨a, hs, List.prefix_rfl⟩
    · exact ⟨a.push e.time e.len, by simp [hs], by simp [Hist.push]⟩

end Str0m.RtxCap
