import Verif.Props.Reports
/-
  C132: reports are made in time and not too often, and the session sleeps in between.
-/
namespace Str0m.Reports

theorem run_append (c : Cfg) (ops ops' : List Op) : ∀ s : S, run c s (ops ++ ops') =
    ((run c (run c s ops).1 ops').1, (run c s ops).2 ++ (run c (run c s ops).1 ops').2) := by
  induction ops with
  | nil => intro s; rfl
  | cons op ops ih =>
    intro s
    show ((run c (step c s op).1 (ops ++ ops')).1, (step c s op).2 ++ (run c (step c s op).1 (ops ++ ops')).2) = _
    rw [ih]
    show _ = ((run c (run c (step c s op).1 ops).1 ops').1, ((step c s op).2 ++ (run c (step c s op).1 ops).2) ++ (run c (run c (step c s op).1 ops).1 ops').2)
    rw [List.append_assoc]

theorem mem_last {c : Cfg} {ops : List Op} {now t : Nat} {x : Report} :
    (t, x) ∈ (run c {} (ops ++ [.timeout now])).2 ↔
      (t, x) ∈ (run c {} ops).2 ∨ (t = now ∧ x ∈ (timeout c (run c {} ops).1 now).2) := by
  rw [run_append]
  show (t, x) ∈ _ ++ ((timeout c (run c {} ops).1 now).2.map (fun r => (now, r)) ++ []) ↔ _
  rw [List.append_nil, List.mem_append, List.mem_map]
  constructor
  · rintro (h | ⟨y, hy, e⟩)
    · exact Or.inl h
    · obtain ⟨rfl, rfl⟩ := Prod.mk.inj e; exact Or.inr ⟨rfl, hy⟩
  · rintro (h | ⟨rfl, h⟩)
    · exact Or.inl h
    · exact Or.inr ⟨x, h, rfl⟩

theorem interval_pos {c : Cfg} (ha : 0 < c.audio) (hv : 0 < c.video) (b : Bool) : 0 < c.interval b := by
  unfold Cfg.interval; split <;> assumption

theorem interval_le {c : Cfg} {n : Nat} (ha : c.audio ≤ n) (hv : c.video ≤ n) (b : Bool) : c.interval b ≤ n := by
  unfold Cfg.interval; split <;> assumption

theorem interval_ge {c : Cfg} (b : Bool) : min c.audio c.video ≤ c.interval b := by
  unfold Cfg.interval; split
  · exact Nat.min_le_left _ _
  · exact Nat.min_le_right _ _

theorem rxMids_of_need {c : Cfg} {s : S} {now : Nat} {r : Rx} (hr : r ∈ s.rx) (h : needRr c now r = true) : r.mid ∈ rxMids c s now :=
  List.mem_map.2 ⟨r, List.mem_filter.2 ⟨hr, h⟩, rfl⟩

theorem rxMids_need {c : Cfg} {s : S} {now m : Nat} (h : m ∈ rxMids c s now) : ∃ r ∈ s.rx, r.mid = m ∧ r.ssrc ≠ 0 ∧ rrAt c r ≤ now := by
  obtain ⟨r, hr, rfl⟩ := List.mem_map.1 h
  obtain ⟨h1, h2⟩ := List.mem_filter.1 hr
  exact ⟨r, h1, rfl, of_decide_eq_true h2⟩

theorem txMids_of_need {c : Cfg} {s : S} {now : Nat} {t : Tx} (hr : t ∈ s.tx) (h : needSr c now t = true) : t.mid ∈ txMids c s now :=
  List.mem_map.2 ⟨t, List.mem_filter.2 ⟨hr, h⟩, rfl⟩

theorem txMids_need {c : Cfg} {s : S} {now m : Nat} (h : m ∈ txMids c s now) :
    ∃ t ∈ s.tx, t.mid = m ∧ ∃ a, t.audio = some a ∧ t.last + c.interval a ≤ now := by
  obtain ⟨r, hr, rfl⟩ := List.mem_map.1 h
  obtain ⟨h1, h2⟩ := List.mem_filter.1 hr
  unfold needSr srAt at h2
  cases ha : r.audio with
  | none => rw [ha] at h2; cases h2
  | some a => rw [ha] at h2; exact ⟨r, h1, rfl, a, ha, of_decide_eq_true h2⟩

/-! ### C132 -/

/-- **C132, in time (receiving)**: after every timeout handled, each incoming stream other than the one of the probes
has been reported on within the interval of its kind. -/
theorem C132_received (c : Cfg) (ha : 0 < c.audio) (hv : 0 < c.video) (ops : List Op) (hf : Forward 0 ops) (now : Nat)
    (hna : c.audio ≤ now) (hnv : c.video ≤ now) (hc : (run c {} ops).1.closing = false)
    (r : Rx) (hr : r ∈ (run c {} ops).1.rx) (hp : r.ssrc ≠ 0) :
    ∃ t, (t, Report.rr r.ssrc) ∈ (run c {} (ops ++ [.timeout now])).2 ∧ now < t + c.interval r.rtx.isNone := by
  have hi := reached c ops hf
  by_cases hd : rrAt c r ≤ now
  · refine ⟨now, mem_last.2 (Or.inr ⟨rfl, (rr_out hc).2 ⟨r, hr, rfl, rxMids_of_need hr ?_⟩⟩), ?_⟩
    · exact decide_eq_true ⟨hp, hd⟩
    · have := interval_pos ha hv r.rtx.isNone; omega
  · unfold rrAt at hd
    rcases hi.rx r hr with h | h
    · rw [h] at hd
      have := interval_le hna hnv r.rtx.isNone
      unfold past at hd; omega
    · exact ⟨r.last, mem_last.2 (Or.inl h), by omega⟩

/-- **C132, in time (sending)**: likewise each outgoing stream that has been through a timeout. -/
theorem C132_sent (c : Cfg) (ha : 0 < c.audio) (hv : 0 < c.video) (ops : List Op) (hf : Forward 0 ops) (now : Nat)
    (hna : c.audio ≤ now) (hnv : c.video ≤ now) (hc : (run c {} ops).1.closing = false)
    (t : Tx) (ht : t ∈ (run c {} ops).1.tx) (a : Bool) (hk : t.audio = some a) :
    ∃ u, (u, Report.sr t.ssrc) ∈ (run c {} (ops ++ [.timeout now])).2 ∧ now < u + c.interval a := by
  have hi := reached c ops hf
  by_cases hd : t.last + c.interval a ≤ now
  · refine ⟨now, mem_last.2 (Or.inr ⟨rfl, (sr_out hc).2 ⟨t, ht, rfl, txMids_of_need ht ?_⟩⟩), ?_⟩
    · unfold needSr srAt; rw [hk]; exact decide_eq_true hd
    · have := interval_pos ha hv a; omega
  · rcases hi.tx t ht with h | h
    · rw [h] at hd
      have := interval_le hna hnv a
      unfold past at hd; omega
    · exact ⟨t.last, mem_last.2 (Or.inl h), by omega⟩

/-- **C132**: after a timeout every outgoing stream has been through one, and is of the kind of its media if it is new. -/
theorem C132_kind (c : Cfg) (s : S) (now : Nat) (hc : s.closing = false) (t : Tx) (ht : t ∈ (timeout c s now).1.tx) :
    ∃ q ∈ s.tx, q.key = t.key ∧ q.ssrc = t.ssrc ∧ t.audio = some (q.audio.getD (c.isAudio t.mid)) := by
  rw [timeout_tx hc, List.mem_map] at ht
  obtain ⟨q, hq, rfl⟩ := ht
  refine ⟨q, hq, (txNext_key ..).symm, (txNext_ssrc ..).symm, ?_⟩
  rw [txNext_audio, txNext_mid]

/-- **C132**: reports are of streams there are, and NACKs of streams that have them on. -/
theorem C132_of_streams (c : Cfg) (s : S) (now x : Nat) :
    (Report.rr x ∈ (timeout c s now).2 → ∃ r ∈ s.rx, r.ssrc = x) ∧
    (Report.sr x ∈ (timeout c s now).2 → ∃ t ∈ s.tx, t.ssrc = x) ∧
    (Report.nack x ∈ (timeout c s now).2 → ∃ r ∈ s.rx, r.ssrc = x ∧ r.suppress = false) := by
  cases hc : s.closing with
  | true => rw [closing_out hc]; exact ⟨fun h => (by cases h), fun h => (by cases h), fun h => (by cases h)⟩
  | false =>
    refine ⟨fun h => ?_, fun h => ?_, fun h => ?_⟩
    · obtain ⟨r, hr, e, -⟩ := (rr_out hc).1 h; exact ⟨r, hr, e⟩
    · obtain ⟨r, hr, e, -⟩ := (sr_out hc).1 h; exact ⟨r, hr, e⟩
    · exact ((nack_out hc).1 h).2

/-- **C132**: the incoming streams of a media are reported on together. -/
theorem C132_together (c : Cfg) (ops : List Op) (hf : Forward 0 ops) (now : Nat) (r q : Rx) (hr : r ∈ (run c {} ops).1.rx)
    (hq : q ∈ (run c {} ops).1.rx) (he : r.mid = q.mid) (h : Report.rr r.ssrc ∈ (timeout c (run c {} ops).1 now).2) :
    Report.rr q.ssrc ∈ (timeout c (run c {} ops).1 now).2 := by
  cases hc : (run c {} ops).1.closing with
  | true => rw [closing_out hc] at h; cases h
  | false =>
    obtain ⟨p, hp, e, hm⟩ := (rr_out hc).1 h
    have := mem_unique (reached c ops hf).keys hp hr e
    subst this
    exact (rr_out hc).2 ⟨q, hq, rfl, he ▸ hm⟩

/-- **C132**: and so are the outgoing ones, unless two of them have the same SSRC. -/
theorem C132_together_tx (c : Cfg) (s : S) (hn : (s.tx.map (fun t => t.ssrc)).Nodup) (now : Nat) (t q : Tx) (ht : t ∈ s.tx)
    (hq : q ∈ s.tx) (he : t.mid = q.mid) (h : Report.sr t.ssrc ∈ (timeout c s now).2) :
    Report.sr q.ssrc ∈ (timeout c s now).2 := by
  cases hc : s.closing with
  | true => rw [closing_out hc] at h; cases h
  | false =>
    obtain ⟨p, hp, e, hm⟩ := (sr_out hc).1 h
    have := List.inj_on_of_nodup_map hn hp ht e
    subst this
    exact (sr_out hc).2 ⟨q, hq, rfl, he ▸ hm⟩

theorem rr_count {mids : List Nat} {n : Bool} {l : List Rx} (x : Nat) (h : (l.map (fun r : Rx => r.ssrc)).Nodup) :
    (l.flatMap (rxOut mids n)).count (.rr x) ≤ if x ∈ l.map (fun r : Rx => r.ssrc) then 1 else 0 := by
  induction l with
  | nil => exact Nat.zero_le _
  | cons r l ih =>
    rw [List.flatMap_cons, List.count_append]
    rw [List.map_cons, List.nodup_cons] at h
    have h2 := ih h.2
    have h1 : (rxOut mids n r).count (.rr x) ≤ if x = r.ssrc then 1 else 0 := by
      unfold rxOut
      rw [List.count_append]
      by_cases e1 : r.mid ∈ mids <;> by_cases e2 : (n && !r.suppress) = true <;> by_cases e3 : x = r.ssrc <;>
        simp [e1, e2, e3, List.count_cons]
      all_goals exact fun h => e3 h.symm
    rw [List.map_cons]
    by_cases e : x = r.ssrc
    · rw [if_pos e] at h1
      subst e
      rw [if_neg h.1] at h2
      rw [if_pos (List.mem_cons_self ..)]
      omega
    · rw [if_neg e] at h1
      have : (x ∈ r.ssrc :: l.map (fun r : Rx => r.ssrc)) ↔ x ∈ l.map (fun r : Rx => r.ssrc) := by
        rw [List.mem_cons]; exact ⟨fun h => h.resolve_left e, Or.inr⟩
      simp only [this]
      omega

/-- **C132**: in one timeout at most one report on each incoming stream. -/
theorem C132_once (c : Cfg) (ops : List Op) (hf : Forward 0 ops) (now x : Nat) :
    (timeout c (run c {} ops).1 now).2.count (.rr x) ≤ 1 := by
  unfold timeout
  split
  · exact Nat.zero_le _
  · rw [List.count_append]
    have h1 := rr_count (mids := rxMids c (run c {} ops).1 now) (n := doNack (run c {} ops).1 now) x (reached c ops hf).keys
    have h2 : ((run c {} ops).1.tx.flatMap (txOut (txMids c (run c {} ops).1 now))).count (.rr x) = 0 := by
      rw [List.count_eq_zero]
      intro h
      obtain ⟨t, -, ht⟩ := List.mem_flatMap.1 h
      exact absurd (mem_txOut.1 ht).2 (by intro h; cases h)
    have : (if x ∈ (run c {} ops).1.rx.map (fun r : Rx => r.ssrc) then 1 else 0) ≤ 1 := by split <;> omega
    omega

/-! #### Not too often -/

/-- All incoming streams of the media were reported on at this time or later. -/
def Fresh (m t : Nat) (s : S) : Prop := ∀ r ∈ s.rx, r.mid = m → t ≤ r.last

def FreshTx (m t : Nat) (s : S) : Prop := ∀ r ∈ s.tx, r.mid = m → t ≤ r.last

theorem Fresh.step {c : Cfg} {m t k : Nat} {s : S} (h : Fresh m t s) (htk : t ≤ k) (op : Op) (ho : SettledRx m op) (hf : Forward k [op]) :
    Fresh m t (Reports.step c s op).1 := by
  cases op with
  | timeout now =>
    show Fresh m t (Reports.timeout c s now).1
    cases hc : s.closing with
    | true => rw [closing_out hc]; exact h
    | false =>
      intro r hr hm
      rw [timeout_rx hc, List.mem_map] at hr
      obtain ⟨q, hq, rfl⟩ := hr
      rw [rxNext_mid] at hm
      have := h q hq hm
      have := hf.1
      unfold rxNext
      split
      · show t ≤ now; omega
      · exact h q hq hm
  | expectRx a b m' n =>
    show Fresh m t (expectRx s a b m' n)
    unfold expectRx
    split
    · intro r hr hm
      obtain ⟨q, hq, rfl⟩ := List.mem_map.1 hr
      have e1 : (if q.ssrc = a then setRtx b q else q).mid = q.mid := by
        split
        · exact setRtx_mid _ _
        · rfl
      have e2 : (if q.ssrc = a then setRtx b q else q).last = q.last := by
        split
        · exact setRtx_last _ _
        · rfl
      rw [e2]; rw [e1] at hm; exact h q hq hm
    · intro r hr hm
      rcases List.mem_append.1 hr with hr | hr
      · exact h r hr hm
      · rw [List.mem_singleton] at hr
        subst hr
        rw [setRtx_mid] at hm
        exact absurd hm ho
  | changeRx a b => exact ho.elim
  | removeRx a => exact fun r hr => h r (List.mem_filter.1 hr).1
  | declareTx a m' =>
    show Fresh m t (declareTx s a m')
    unfold declareTx; split <;> exact h
  | removeTx a => exact h
  | resetTx a b => exact h
  | removeMid m' => exact fun r hr => h r (List.mem_filter.1 hr).1
  | suppress a on v =>
    intro r hr hm
    obtain ⟨q, hq, rfl⟩ := List.mem_map.1 hr
    have e1 : (if q.ssrc = a then { q with suppress := on } else q).mid = q.mid := by split <;> rfl
    have e2 : (if q.ssrc = a then { q with suppress := on } else q).last = q.last := by split <;> rfl
    rw [e2]; rw [e1] at hm; exact h q hq hm
  | poll =>
    show Fresh m t (anyNack s)
    unfold Fresh; rw [anyNack_rx]; exact h
  | close => exact h

theorem FreshTx.step {c : Cfg} {m t k : Nat} {s : S} (h : FreshTx m t s) (htk : t ≤ k) (op : Op) (ho : SettledTx m op) (hf : Forward k [op]) :
    FreshTx m t (Reports.step c s op).1 := by
  cases op with
  | timeout now =>
    show FreshTx m t (Reports.timeout c s now).1
    cases hc : s.closing with
    | true => rw [closing_out hc]; exact h
    | false =>
      intro r hr hm
      rw [timeout_tx hc, List.mem_map] at hr
      obtain ⟨q, hq, rfl⟩ := hr
      rw [txNext_mid] at hm
      have := h q hq hm
      have := hf.1
      rw [txNext_last]
      split
      · omega
      · exact h q hq hm
  | expectRx a b m' n =>
    show FreshTx m t (expectRx s a b m' n)
    unfold expectRx; split <;> exact h
  | changeRx a b =>
    show FreshTx m t (changeRx s a b)
    unfold changeRx
    split
    · exact h
    · split <;> exact h
  | removeRx a => exact h
  | declareTx a m' =>
    show FreshTx m t (declareTx s a m')
    unfold declareTx
    split
    · exact h
    · intro r hr hm
      rcases List.mem_append.1 hr with hr | hr
      · exact h r hr hm
      · rw [List.mem_singleton] at hr
        subst hr
        exact absurd hm ho
  | removeTx a => exact fun r hr => h r (List.mem_filter.1 hr).1
  | resetTx a b => exact ho.elim
  | removeMid m' => exact fun r hr => h r (List.mem_filter.1 hr).1
  | suppress a on v => exact h
  | poll =>
    show FreshTx m t (anyNack s)
    unfold FreshTx; rw [anyNack_tx]; exact h
  | close => exact h

theorem clock_step {k : Nat} {op : Op} (hf : Forward k [op]) : k ≤ clockAfter k [op] := clock_le hf

theorem Fresh.run {c : Cfg} {m t : Nat} (ops : List Op) : ∀ {k : Nat} {s : S}, Fresh m t s → t ≤ k → (∀ op ∈ ops, SettledRx m op) →
    Forward k ops → Fresh m t (Reports.run c s ops).1 := by
  induction ops with
  | nil => intro k s h _ _ _; exact h
  | cons op ops ih =>
    intro k s h htk ho hf
    exact ih (h.step htk op (ho op (List.mem_cons_self ..)) (forward_cons hf).1)
      (Nat.le_trans htk (clock_step (forward_cons hf).1)) (fun o h => ho o (List.mem_cons_of_mem _ h)) (forward_cons hf).2

theorem FreshTx.run {c : Cfg} {m t : Nat} (ops : List Op) : ∀ {k : Nat} {s : S}, FreshTx m t s → t ≤ k → (∀ op ∈ ops, SettledTx m op) →
    Forward k ops → FreshTx m t (Reports.run c s ops).1 := by
  induction ops with
  | nil => intro k s h _ _ _; exact h
  | cons op ops ih =>
    intro k s h htk ho hf
    exact ih (h.step htk op (ho op (List.mem_cons_self ..)) (forward_cons hf).1)
      (Nat.le_trans htk (clock_step (forward_cons hf).1)) (fun o h => ho o (List.mem_cons_of_mem _ h)) (forward_cons hf).2

/-- **C132, not too often (receiving)**: two timeouts with reports on a media are at least the shorter interval apart,
if no stream of the media is new or has a new SSRC in between. -/
theorem C132_apart (c : Cfg) (ops₁ ops₂ : List Op) (hf : Forward 0 ops₁) (t₁ t₂ : Nat) (hf₂ : Forward t₁ ops₂) (m : Nat)
    (ho : ∀ op ∈ ops₂, SettledRx m op)
    (r : Rx) (hr : r ∈ (run c {} ops₁).1.rx) (hrm : r.mid = m) (h₁ : Report.rr r.ssrc ∈ (timeout c (run c {} ops₁).1 t₁).2)
    (hk : clockAfter 0 ops₁ ≤ t₁)
    (q : Rx) (hq : q ∈ (run c {} (ops₁ ++ .timeout t₁ :: ops₂)).1.rx) (hqm : q.mid = m)
    (h₂ : Report.rr q.ssrc ∈ (timeout c (run c {} (ops₁ ++ .timeout t₁ :: ops₂)).1 t₂).2) : t₁ + min c.audio c.video ≤ t₂ := by
  have hc : (run c {} ops₁).1.closing = false := by
    cases hc : (run c {} ops₁).1.closing with
    | true => rw [closing_out hc] at h₁; cases h₁
    | false => rfl
  have hi := reached c ops₁ hf
  obtain ⟨p, hp, e, hm⟩ := (rr_out hc).1 h₁
  have := mem_unique hi.keys hp hr e
  subst this
  have hfr : Fresh m t₁ (timeout c (run c {} ops₁).1 t₁).1 := by
    intro x hx hxm
    rw [timeout_rx hc, List.mem_map] at hx
    obtain ⟨y, hy, rfl⟩ := hx
    rw [rxNext_mid] at hxm
    unfold rxNext
    rw [if_pos (by rw [hxm, ← hrm]; exact hm)]
  have hfr := hfr.run (c := c) ops₂ (Nat.le_refl _) ho hf₂
  have hinv := (hi.timeout (c := c) hk).run (c := c) ops₂ hf₂
  have hst : (run c {} (ops₁ ++ .timeout t₁ :: ops₂)).1 = (run c (timeout c (run c {} ops₁).1 t₁).1 ops₂).1 := by
    rw [run_append]; rfl
  rw [hst] at hq h₂
  generalize (run c (timeout c (run c {} ops₁).1 t₁).1 ops₂).1 = s at hq h₂ hfr hinv
  cases hc : s.closing with
  | true => rw [closing_out hc] at h₂; cases h₂
  | false =>
    obtain ⟨p, hp', e, hm'⟩ := (rr_out hc).1 h₂
    have := mem_unique hinv.keys hp' hq e
    subst this
    obtain ⟨x, hx, hxm, -, hd⟩ := rxMids_need hm'
    have := hfr x hx (hxm.trans hqm)
    have := interval_ge (c := c) x.rtx.isNone
    unfold rrAt at hd
    omega

/-- **C132, not too often (sending)**: likewise for sender reports, if no two outgoing streams have the same SSRC. -/
theorem C132_apart_tx (c : Cfg) (s : S) (ops : List Op) (t₁ t₂ : Nat) (hf : Forward t₁ ops) (m : Nat)
    (ho : ∀ op ∈ ops, SettledTx m op) (hn₁ : (s.tx.map (fun t => t.ssrc)).Nodup)
    (r : Tx) (hr : r ∈ s.tx) (hrm : r.mid = m) (h₁ : Report.sr r.ssrc ∈ (timeout c s t₁).2)
    (hn₂ : ((run c s (.timeout t₁ :: ops)).1.tx.map (fun t => t.ssrc)).Nodup)
    (q : Tx) (hq : q ∈ (run c s (.timeout t₁ :: ops)).1.tx) (hqm : q.mid = m)
    (h₂ : Report.sr q.ssrc ∈ (timeout c (run c s (.timeout t₁ :: ops)).1 t₂).2) : t₁ + min c.audio c.video ≤ t₂ := by
  have hc : s.closing = false := by
    cases hc : s.closing with
    | true => rw [closing_out hc] at h₁; cases h₁
    | false => rfl
  obtain ⟨p, hp, e, hm⟩ := (sr_out hc).1 h₁
  have := List.inj_on_of_nodup_map hn₁ hp hr e
  subst this
  have hfr : FreshTx m t₁ (timeout c s t₁).1 := by
    intro x hx hxm
    rw [timeout_tx hc, List.mem_map] at hx
    obtain ⟨y, hy, rfl⟩ := hx
    rw [txNext_mid] at hxm
    rw [txNext_last, if_pos (by rw [hxm, ← hrm]; exact hm)]
  have hfr := hfr.run (c := c) ops (Nat.le_refl _) ho hf
  have hst : (run c s (.timeout t₁ :: ops)).1 = (run c (timeout c s t₁).1 ops).1 := rfl
  rw [hst] at hq h₂ hn₂
  generalize (run c (timeout c s t₁).1 ops).1 = s at hq h₂ hfr hn₂
  cases hc : s.closing with
  | true => rw [closing_out hc] at h₂; cases h₂
  | false =>
    obtain ⟨p, hp', e, hm'⟩ := (sr_out hc).1 h₂
    have := List.inj_on_of_nodup_map hn₂ hp' hq e
    subst this
    obtain ⟨x, hx, hxm, a, -, hd⟩ := txMids_need hm'
    have := hfr x hx (hxm.trans hqm)
    have := interval_ge (c := c) a
    omega

/-! #### Asking for packets -/

/-- **C132**: timeouts that ask for missing packets are at least 33 ms apart. -/
theorem C132_nack_apart (c : Cfg) (ops : List Op) (hf : Forward 0 ops) (t u x y : Nat) (h₁ : (t, Report.nack x) ∈ (run c {} ops).2)
    (h₂ : (u, Report.nack y) ∈ (run c {} ops).2) (hlt : t < u) : t + NACK_MIN ≤ u :=
  (reached c ops hf).apart t x u y h₁ h₂ hlt

/-- The cached answer is no wrong "none". -/
def Knows (s : S) : Prop := s.nackActive = some false → ∀ r ∈ s.rx, r.suppress = true

theorem knows_any {s : S} (h : Knows s) (r : Rx) (hr : r ∈ s.rx) (hs : r.suppress = false) : (anyNack s).nackActive = some true := by
  unfold anyNack
  split
  · rename_i b hb
    cases b with
    | true => exact hb
    | false => have := h hb r hr; rw [hs] at this; cases this
  · have : s.rx.any (fun r => !r.suppress) = true := List.any_eq_true.2 ⟨r, hr, by rw [hs]; rfl⟩
    rw [this]

theorem knows_anyNack {s : S} (h : Knows s) : Knows (anyNack s) := by
  intro ha r hr
  rw [anyNack_rx] at hr
  cases hs : r.suppress with
  | true => rfl
  | false => rw [knows_any h r hr hs] at ha; cases ha

theorem Knows.step {c : Cfg} {s : S} (h : Knows s) (op : Op) (ho : NotBySsrc op) : Knows (Reports.step c s op).1 := by
  cases op with
  | timeout now =>
    show Knows (Reports.timeout c s now).1
    cases hc : s.closing with
    | true => rw [closing_out hc]; exact h
    | false =>
      intro ha r hr
      rw [timeout_active hc] at ha
      rw [timeout_rx hc, List.mem_map] at hr
      obtain ⟨q, hq, rfl⟩ := hr
      rw [rxNext_suppress]
      exact knows_anyNack h ha q (by rw [anyNack_rx]; exact hq)
  | expectRx a b m n =>
    show Knows (expectRx s a b m n)
    unfold expectRx
    split <;> exact fun ha => (by cases ha)
  | changeRx a b =>
    show Knows (changeRx s a b)
    unfold changeRx
    split
    · exact h
    · rename_i q hq
      split
      · exact h
      · intro ha r hr
        rcases List.mem_append.1 hr with hr | hr
        · exact h ha r (List.mem_filter.1 hr).1
        · rw [List.mem_singleton] at hr
          subst hr
          exact h ha q (List.mem_of_find?_eq_some hq)
  | removeRx a => exact fun ha r hr => h ha r (List.mem_filter.1 hr).1
  | declareTx a m =>
    show Knows (declareTx s a m)
    unfold declareTx; split <;> exact h
  | removeTx a => exact h
  | resetTx a b => exact h
  | removeMid m => exact fun ha r hr => h ha r (List.mem_filter.1 hr).1
  | suppress a on v =>
    have hv : v = true := ho
    subst hv
    exact fun ha => (by cases ha)
  | poll => exact knows_anyNack h
  | close => exact h

theorem Knows.run {c : Cfg} (ops : List Op) : ∀ {s : S}, Knows s → (∀ op ∈ ops, NotBySsrc op) → Knows (Reports.run c s ops).1 := by
  induction ops with
  | nil => intro s h _; exact h
  | cons op ops ih =>
    intro s h ho
    exact ih (h.step op (ho op (List.mem_cons_self ..))) (fun o h => ho o (List.mem_cons_of_mem _ h))

/-- **C132**: a timeout 33 ms after the last one asks for the missing packets of every stream with NACKs on, and such a
timeout is asked for; unless the application turned them on or off through `stream_rx`. -/
theorem C132_nack_due (c : Cfg) (ops : List Op) (hf : Forward 0 ops) (ho : ∀ op ∈ ops, NotBySsrc op)
    (hc : (run c {} ops).1.closing = false) (r : Rx) (hr : r ∈ (run c {} ops).1.rx) (hs : r.suppress = false) :
    (∃ u, nackAt (run c {} ops).1 = some u ∧ u ≤ clockAfter 0 ops + NACK_MIN) ∧
    ∀ now, clockAfter 0 ops + NACK_MIN ≤ now → Report.nack r.ssrc ∈ (timeout c (run c {} ops).1 now).2 := by
  have hi := reached c ops hf
  have hk : Knows (run c {} ops).1 := (show Knows {} from fun ha => (by cases ha)).run ops ho
  have hn : nackAt (run c {} ops).1 = some ((run c {} ops).1.lastNack + NACK_MIN) := by
    unfold nackAt; rw [if_pos (knows_any hk r hr hs)]
  have hb := hi.nackBack
  refine ⟨⟨_, hn, by omega⟩, fun now hnow => (nack_out hc).2 ⟨?_, r, hr, rfl, hs⟩⟩
  unfold doNack
  rw [hn]
  exact decide_eq_true (by omega)

/-! #### Sleeping -/

theorem feedback_le {c : Cfg} {s : S} {x : Nat} (h : x ∈ s.rx.map (rrAt c) ++ s.tx.filterMap (srAt c)) :
    ∃ u, feedbackAt c s = some u ∧ u ≤ x := by
  unfold feedbackAt
  cases hm : (s.rx.map (rrAt c) ++ s.tx.filterMap (srAt c)).min? with
  | none => rw [List.min?_eq_none_iff] at hm; rw [hm] at h; cases h
  | some u => exact ⟨u, rfl, (List.min?_eq_some_iff.1 hm).2 x h⟩

/-- **C132, in time**: no report is due before the time asked for. -/
theorem C132_asked (c : Cfg) (ops : List Op) (hf : Forward 0 ops) :
    (∀ r ∈ (run c {} ops).1.rx, ∃ u, feedbackAt c (run c {} ops).1 = some u ∧ (u ≤ c.interval r.rtx.isNone ∨
      ∃ t, (t, Report.rr r.ssrc) ∈ (run c {} ops).2 ∧ u ≤ t + c.interval r.rtx.isNone)) ∧
    (∀ t ∈ (run c {} ops).1.tx, ∀ a, t.audio = some a → ∃ u, feedbackAt c (run c {} ops).1 = some u ∧ (u ≤ c.interval a ∨
      ∃ v, (v, Report.sr t.ssrc) ∈ (run c {} ops).2 ∧ u ≤ v + c.interval a)) := by
  have hi := reached c ops hf
  constructor
  · intro r hr
    obtain ⟨u, hu, hle⟩ := feedback_le (c := c) (List.mem_append_left _ (List.mem_map.2 ⟨r, hr, rfl⟩))
    refine ⟨u, hu, ?_⟩
    unfold rrAt at hle
    rcases hi.rx r hr with h | h
    · left; rw [h] at hle; unfold past at hle; omega
    · exact Or.inr ⟨_, h, hle⟩
  · intro t ht a ha
    have : t.last + c.interval a ∈ (run c {} ops).1.tx.filterMap (srAt c) :=
      List.mem_filterMap.2 ⟨t, ht, by unfold srAt; rw [ha]; rfl⟩
    obtain ⟨u, hu, hle⟩ := feedback_le (c := c) (List.mem_append_right _ this)
    refine ⟨u, hu, ?_⟩
    rcases hi.tx t ht with h | h
    · left; rw [h] at hle; unfold past at hle; omega
    · exact Or.inr ⟨_, h, hle⟩

theorem timeout_ahead {c : Cfg} (ha : 0 < c.audio) (hv : 0 < c.video) {s : S} {now : Nat} (hc : s.closing = false)
    (hp : ∀ r ∈ s.rx, r.ssrc ≠ 0) (hk : ∀ t ∈ s.tx, t.audio ≠ none) (u : Nat) (hu : feedbackAt c (timeout c s now).1 = some u) : now < u := by
  have hmem := (List.min?_eq_some_iff.1 hu).1
  rcases List.mem_append.1 hmem with h | h
  · obtain ⟨r, hr, rfl⟩ := List.mem_map.1 h
    rw [timeout_rx hc, List.mem_map] at hr
    obtain ⟨q, hq, rfl⟩ := hr
    unfold rrAt
    rw [rxNext_rtx]
    have hpos := interval_pos ha hv q.rtx.isNone
    unfold rxNext
    split
    · show now < now + _; omega
    · rename_i hm
      have : ¬ rrAt c q ≤ now := fun hd => hm (rxMids_of_need hq (decide_eq_true ⟨hp q hq, hd⟩))
      unfold rrAt at this; omega
  · obtain ⟨t, ht, he⟩ := List.mem_filterMap.1 h
    rw [timeout_tx hc, List.mem_map] at ht
    obtain ⟨q, hq, rfl⟩ := ht
    cases hqa : q.audio with
    | none => exact absurd hqa (hk q hq)
    | some a =>
      unfold srAt at he
      rw [txNext_audio, hqa, txNext_last] at he
      injection he with he
      subst he
      have hpos := interval_pos ha hv a
      show now < _ + c.interval a
      split
      · omega
      · rename_i hm
        have : ¬ q.last + c.interval a ≤ now := fun hd => hm (txMids_of_need hq (by unfold needSr srAt; rw [hqa]; exact decide_eq_true hd))
        omega

/-- **C132, sleeping**: after two timeouts in a row (the first only learns the kind of new outgoing streams) the next
report is due after them, if no peer has sent probes on SSRC 0. -/
theorem C132_sleeps (c : Cfg) (ha : 0 < c.audio) (hv : 0 < c.video) (s : S) (hc : s.closing = false) (hp : ∀ r ∈ s.rx, r.ssrc ≠ 0)
    (t₁ t₂ u : Nat) (hu : feedbackAt c (timeout c (timeout c s t₁).1 t₂).1 = some u) : t₂ < u := by
  refine timeout_ahead ha hv (by rw [timeout_closing]; exact hc) ?_ ?_ u hu
  · intro r hr
    rw [timeout_rx hc, List.mem_map] at hr
    obtain ⟨q, hq, rfl⟩ := hr
    rw [rxNext_ssrc]; exact hp q hq
  · intro t ht
    rw [timeout_tx hc, List.mem_map] at ht
    obtain ⟨q, hq, rfl⟩ := ht
    rw [txNext_audio]; exact fun h => (by cases h)

/-- **C132, sleeping**: the next timeout for NACKs is ahead of the timeout just handled, too. -/
theorem C132_nack_sleeps (c : Cfg) (s : S) (hc : s.closing = false) (t u : Nat) (hu : nackAt (timeout c s t).1 = some u) : t < u := by
  have hn : ∀ s' : S, nackAt s' = some u → u = s'.lastNack + NACK_MIN ∧ (anyNack s').nackActive = some true := by
    intro s' h
    unfold nackAt at h
    split at h
    · rename_i ha; injection h with h; exact ⟨h.symm, ha⟩
    · cases h
  obtain ⟨rfl, ha⟩ := hn _ hu
  rw [timeout_nack hc]
  split
  · unfold NACK_MIN; omega
  · rename_i hd
    have hact : (anyNack s).nackActive = some true := by
      have h1 : (timeout c s t).1.nackActive = (anyNack s).nackActive := timeout_active hc
      have h2 : ∃ b, (anyNack s).nackActive = some b := by
        unfold anyNack; split
        · rename_i b hb; exact ⟨b, hb⟩
        · exact ⟨_, rfl⟩
      obtain ⟨b, hb⟩ := h2
      rw [hb] at h1 ⊢
      unfold anyNack at ha
      rw [h1] at ha
      exact h1.symm.trans ha
    unfold doNack nackAt at hd
    rw [if_pos hact] at hd
    have : ¬ s.lastNack + NACK_MIN ≤ t := fun h => hd (decide_eq_true h)
    omega

theorem step_closing {c : Cfg} {s : S} {op : Op} (hc : s.closing = true) : (step c s op).1.closing = true ∧ (step c s op).2 = [] := by
  cases op with
  | expectRx a b m n => refine ⟨?_, rfl⟩; show (expectRx s a b m n).closing = true; unfold expectRx; split <;> exact hc
  | changeRx a b =>
    refine ⟨?_, rfl⟩
    show (changeRx s a b).closing = true
    unfold changeRx
    split
    · exact hc
    · split <;> exact hc
  | removeRx a => exact ⟨hc, rfl⟩
  | declareTx a m => refine ⟨?_, rfl⟩; show (declareTx s a m).closing = true; unfold declareTx; split <;> exact hc
  | removeTx a => exact ⟨hc, rfl⟩
  | resetTx k a => exact ⟨hc, rfl⟩
  | removeMid m => exact ⟨hc, rfl⟩
  | suppress a on v => exact ⟨hc, rfl⟩
  | poll => exact ⟨(anyNack_closing s).trans hc, rfl⟩
  | close => exact ⟨rfl, rfl⟩
  | timeout now =>
    show (timeout c s now).1.closing = true ∧ (timeout c s now).2.map (fun r => (now, r)) = []
    rw [closing_out hc]
    exact ⟨hc, rfl⟩

/-- **C132**: a closed session makes no reports, whatever happens to it. -/
theorem C132_closing (c : Cfg) (s : S) (ops : List Op) : (run c s (.close :: ops)).2 = [] := by
  have key : ∀ ops : List Op, ∀ s : S, s.closing = true → (run c s ops).2 = [] := by
    intro ops
    induction ops with
    | nil => intro _ _; rfl
    | cons op ops ih =>
      intro s hc
      obtain ⟨h1, h2⟩ := step_closing (c := c) (op := op) hc
      show (step c s op).2 ++ (run c (step c s op).1 ops).2 = []
      rw [h2, ih _ h1]; rfl
  exact key ops _ rfl

/-! ### Violations -/

/-- The stream of the probes: never reported on, alone in its mid. -/
structure Probed (s : S) : Prop where
  there : ∃ r ∈ s.rx, r.ssrc = 0 ∧ r.mid = midProbe ∧ r.rtx = none ∧ r.last = past
  zero : ∀ r ∈ s.rx, r.ssrc = 0 → r.mid = midProbe
  mine : ∀ r ∈ s.rx, r.mid = midProbe → r.ssrc = 0

theorem Probed.same {s s' : S} (h : Probed s) (hr : s'.rx = s.rx) : Probed s' where
  there := by rw [hr]; exact h.there
  zero := by rw [hr]; exact h.zero
  mine := by rw [hr]; exact h.mine

theorem Probed.mapped {s s' : S} (f : Rx → Rx) (h : Probed s) (hr : s'.rx = s.rx.map f) (h1 : ∀ r ∈ s.rx, (f r).ssrc = r.ssrc)
    (h2 : ∀ r ∈ s.rx, (f r).mid = r.mid) (h3 : ∀ r ∈ s.rx, r.ssrc = 0 → (f r).rtx = r.rtx ∧ (f r).last = r.last) : Probed s' where
  there := by
    obtain ⟨r, hm, e1, e2, e3, e4⟩ := h.there
    refine ⟨f r, by rw [hr]; exact List.mem_map_of_mem hm, (h1 r hm).trans e1, (h2 r hm).trans e2, (h3 r hm e1).1.trans e3, (h3 r hm e1).2.trans e4⟩
  zero := by
    intro r hm e
    rw [hr] at hm
    obtain ⟨q, hq, rfl⟩ := List.mem_map.1 hm
    rw [h2 q hq]; rw [h1 q hq] at e; exact h.zero q hq e
  mine := by
    intro r hm e
    rw [hr] at hm
    obtain ⟨q, hq, rfl⟩ := List.mem_map.1 hm
    rw [h1 q hq]; rw [h2 q hq] at e; exact h.mine q hq e

theorem Probed.filtered {s s' : S} (p : Rx → Bool) (h : Probed s) (hr : s'.rx = s.rx.filter p) (hp : ∀ r ∈ s.rx, r.ssrc = 0 → p r = true) :
    Probed s' where
  there := by
    obtain ⟨r, hm, e⟩ := h.there
    exact ⟨r, by rw [hr]; exact List.mem_filter.2 ⟨hm, hp r hm e.1⟩, e⟩
  zero := by rw [hr]; exact fun r hm => h.zero r (List.mem_filter.1 hm).1
  mine := by rw [hr]; exact fun r hm => h.mine r (List.mem_filter.1 hm).1

theorem Probed.step {c : Cfg} {s : S} (h : Probed s) (op : Op) (ho : ProbesLeft op) : Probed (Reports.step c s op).1 := by
  cases op with
  | timeout now =>
    show Probed (Reports.timeout c s now).1
    cases hc : s.closing with
    | true => rw [closing_out hc]; exact h
    | false =>
      refine h.mapped _ (timeout_rx hc) (fun r _ => rxNext_ssrc ..) (fun r _ => rxNext_mid ..) ?_
      intro r hr he
      refine ⟨rxNext_rtx .., ?_⟩
      unfold rxNext
      rw [if_neg]
      intro hm
      obtain ⟨q, hq, e1, e2, -⟩ := rxMids_need hm
      exact e2 (h.mine q hq (e1.trans (h.zero r hr he)))
  | expectRx a b m n =>
    show Probed (expectRx s a b m n)
    obtain ⟨ho1, ho2⟩ := ho
    unfold expectRx
    split
    · refine h.mapped (fun r => if r.ssrc = a then setRtx b r else r) rfl ?_ ?_ ?_
      · intro r _; split
        · exact setRtx_ssrc _ _
        · rfl
      · intro r _; split
        · exact setRtx_mid _ _
        · rfl
      · intro r _ he
        split
        · rename_i e
          rw [ho1 (e.symm.trans he)]
          exact ⟨rfl, rfl⟩
        · exact ⟨rfl, rfl⟩
    · rename_i hn
      obtain ⟨r, hr, e⟩ := h.there
      have ha : a ≠ 0 := by
        intro ha
        apply hn
        rw [List.any_eq_true]
        exact ⟨r, hr, decide_eq_true (e.1.trans ha.symm)⟩
      constructor
      · exact ⟨r, List.mem_append_left _ hr, e⟩
      · intro q hq he
        rcases List.mem_append.1 hq with hq | hq
        · exact h.zero q hq he
        · rw [List.mem_singleton] at hq
          subst hq
          rw [setRtx_ssrc] at he
          exact absurd he ha
      · intro q hq he
        rcases List.mem_append.1 hq with hq | hq
        · exact h.mine q hq he
        · rw [List.mem_singleton] at hq
          subst hq
          rw [setRtx_mid] at he
          exact absurd (ho2 he) ha
  | changeRx a b =>
    show Probed (changeRx s a b)
    unfold changeRx
    split
    · exact h
    · rename_i q hq
      have hqa : q.ssrc = a := of_decide_eq_true (List.find?_some (p := fun r : Rx => decide (r.ssrc = a)) hq)
      have hqm := List.mem_of_find?_eq_some hq
      split
      · exact h
      · obtain ⟨r, hr, e⟩ := h.there
        constructor
        · refine ⟨r, List.mem_append_left _ (List.mem_filter.2 ⟨hr, decide_eq_true ?_⟩), e⟩
          rw [e.1]; exact ⟨fun h => ho.1 h.symm, fun h => ho.2 h.symm⟩
        · intro x hx he
          rcases List.mem_append.1 hx with hx | hx
          · exact h.zero x (List.mem_filter.1 hx).1 he
          · rw [List.mem_singleton] at hx
            subst hx
            exact absurd he ho.2
        · intro x hx he
          rcases List.mem_append.1 hx with hx | hx
          · exact h.mine x (List.mem_filter.1 hx).1 he
          · rw [List.mem_singleton] at hx
            subst hx
            exact absurd (hqa.symm.trans (h.mine q hqm he)) ho.1
  | removeRx a =>
    exact h.filtered _ rfl (fun r _ he => decide_eq_true (by rw [he]; exact fun h => ho h.symm))
  | declareTx a m =>
    show Probed (declareTx s a m)
    unfold declareTx; split
    · exact h
    · exact h.same rfl
  | removeTx a => exact h.same rfl
  | resetTx a b => exact h.same rfl
  | removeMid m =>
    exact h.filtered _ rfl (fun r hr he => decide_eq_true (by rw [h.zero r hr he]; exact fun h => ho h.symm))
  | suppress a on v =>
    refine h.mapped (fun r => if r.ssrc = a then { r with suppress := on } else r) rfl ?_ ?_ ?_
    · intro r _; split <;> rfl
    · intro r _; split <;> rfl
    · intro r _ _; split <;> exact ⟨rfl, rfl⟩
  | poll => exact h.same (anyNack_rx s)
  | close => exact h.same rfl

theorem Probed.run {c : Cfg} (ops : List Op) : ∀ {s : S}, Probed s → (∀ op ∈ ops, ProbesLeft op) → Probed (Reports.run c s ops).1 := by
  induction ops with
  | nil => intro s h _; exact h
  | cons op ops ih =>
    intro s h ho
    exact ih (h.step op (ho op (List.mem_cons_self ..))) (fun o h => ho o (List.mem_cons_of_mem _ h))

/-- **C132 (sleeping) does not hold when the peer sends probes on SSRC 0**, as libWebRTC does: the first of them makes a
stream (session.rs 475-487) that never needs a report (receive.rs 565-568), but whose next report is asked for
(`receiver_report_at` does not look whether it is a probe). From then on, whatever happens, the session asks for a timeout
in the past (within one audio interval of the beginning of time), and `poll_output` answers "now": the instance spins. -/
theorem C132_violation_probe (c : Cfg) (s : S) (hn : ∀ r ∈ s.rx, r.ssrc ≠ 0 ∧ r.mid ≠ midProbe) (ops : List Op)
    (ho : ∀ op ∈ ops, ProbesLeft op) :
    ∃ u, feedbackAt c (run c s (.expectRx 0 none midProbe true :: ops)).1 = some u ∧ u ≤ c.audio := by
  have h0 : Probed (expectRx s 0 none midProbe true) := by
    have : s.rx.any (fun r => r.ssrc = 0) = false := by
      rw [List.any_eq_false]
      exact fun r hr => by simpa using (hn r hr).1
    unfold expectRx
    rw [this]
    constructor
    · exact ⟨_, List.mem_append_right _ (List.mem_singleton.2 rfl), rfl, rfl, rfl, rfl⟩
    · intro r hr he
      rcases List.mem_append.1 hr with hr | hr
      · exact absurd he (hn r hr).1
      · rw [List.mem_singleton] at hr; subst hr; rfl
    · intro r hr he
      rcases List.mem_append.1 hr with hr | hr
      · exact absurd he (hn r hr).2
      · rw [List.mem_singleton] at hr; subst hr; rfl
  obtain ⟨r, hr, -, -, e3, e4⟩ := (h0.run (c := c) ops ho).there
  obtain ⟨u, hu, hle⟩ := feedback_le (c := c) (List.mem_append_left _ (List.mem_map.2 ⟨r, hr, rfl⟩))
  refine ⟨u, hu, ?_⟩
  unfold rrAt at hle
  rw [e3, e4] at hle
  simpa [past, Cfg.interval] using hle

/-- **C132 (NACK) does not hold when `suppress_nack` is called on `stream_rx`**: the cached "no stream wants NACKs" is not
forgotten (mod.rs 358-360, 702-707), and no timeout ever asks for a packet. -/
theorem C132_violation_nack (c : Cfg) (times : List Nat) (t x : Nat) :
    (t, Report.nack x) ∉ (run c {} ([.expectRx 7 none 1 true, .poll, .suppress 7 false false] ++ times.map .timeout)).2 := by
  have hs : ∀ (times : List Nat) (s : S), s.nackActive = some false → (t, Report.nack x) ∉ (run c s (times.map .timeout)).2 := by
    intro times
    induction times with
    | nil => intro s _ h; cases h
    | cons now times ih =>
      intro s ha h
      have hany : anyNack s = s := by unfold anyNack; rw [ha]
      rcases List.mem_append.1 h with h | h
      · obtain ⟨y, hy, e⟩ := List.mem_map.1 h
        obtain ⟨-, rfl⟩ := Prod.mk.inj e
        cases hc : s.closing with
        | true => rw [closing_out hc] at hy; cases hy
        | false =>
          have := ((nack_out hc).1 hy).1
          unfold doNack nackAt at this
          rw [hany, ha] at this
          cases this
      · refine ih _ ?_ h
        show (Reports.timeout c s now).1.nackActive = _
        cases hc : s.closing with
        | true => rw [closing_out hc]; exact ha
        | false => rw [timeout_active hc, hany, ha]
  rw [run_append]
  intro h
  rcases List.mem_append.1 h with h | h
  · have e : (run c {} [.expectRx 7 none 1 true, .poll, .suppress 7 false false]).2 = [] := rfl
    rw [e] at h; cases h
  · exact hs times _ rfl h

/-! ### A session -/

def demoCfg : Cfg := { audio := 5000000, video := 1000000, isAudio := fun m => m == 1 }

/-- An audio and a video media in both directions. -/
def demoOps : List Op :=
  [.expectRx 10 none 1 true, .expectRx 20 (some 21) 2 false, .declareTx 30 1, .declareTx 40 2, .timeout 100000000, .poll,
   .timeout 100000000, .timeout 101000000, .timeout 105000000]

example : Forward 0 demoOps := by simp [demoOps, Forward]
example : ∀ op ∈ demoOps, NotBySsrc op := by
  simp [demoOps, NotBySsrc]

theorem C132_example : (run demoCfg {} demoOps).2 =
      [(100000000, .rr 10), (100000000, .rr 20), (100000000, .nack 20), (100000000, .sr 30), (100000000, .sr 40),
       (101000000, .rr 20), (101000000, .nack 20), (101000000, .sr 40),
       (105000000, .rr 10), (105000000, .rr 20), (105000000, .nack 20), (105000000, .sr 30), (105000000, .sr 40)] ∧
    feedbackAt demoCfg (run demoCfg {} demoOps).1 = some 106000000 := by decide +kernel

end Str0m.Reports
