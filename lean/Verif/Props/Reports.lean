import Verif.Spec.Reports
import Mathlib.Data.List.Nodup
import Mathlib.Data.List.Infix
/-
  C132: reports are made in time and not too often, and the session sleeps in between.
-/
namespace Str0m.Reports

/-! ### Helpers -/

theorem anyNack_rx (s : S) : (anyNack s).rx = s.rx := by unfold anyNack; split <;> rfl
theorem anyNack_tx (s : S) : (anyNack s).tx = s.tx := by unfold anyNack; split <;> rfl
theorem anyNack_lastNack (s : S) : (anyNack s).lastNack = s.lastNack := by unfold anyNack; split <;> rfl
theorem anyNack_closing (s : S) : (anyNack s).closing = s.closing := by unfold anyNack; split <;> rfl

theorem setRtx_ssrc (x : Option Nat) (r : Rx) : (setRtx x r).ssrc = r.ssrc := by cases x <;> rfl
theorem setRtx_mid (x : Option Nat) (r : Rx) : (setRtx x r).mid = r.mid := by cases x <;> rfl
theorem setRtx_last (x : Option Nat) (r : Rx) : (setRtx x r).last = r.last := by cases x <;> rfl
theorem setRtx_suppress (x : Option Nat) (r : Rx) : (setRtx x r).suppress = r.suppress := by cases x <;> rfl

theorem rxNext_ssrc (mids : List Nat) (now : Nat) (r : Rx) : (rxNext mids now r).ssrc = r.ssrc := by unfold rxNext; split <;> rfl
theorem rxNext_mid (mids : List Nat) (now : Nat) (r : Rx) : (rxNext mids now r).mid = r.mid := by unfold rxNext; split <;> rfl
theorem rxNext_rtx (mids : List Nat) (now : Nat) (r : Rx) : (rxNext mids now r).rtx = r.rtx := by unfold rxNext; split <;> rfl
theorem rxNext_suppress (mids : List Nat) (now : Nat) (r : Rx) : (rxNext mids now r).suppress = r.suppress := by unfold rxNext; split <;> rfl

theorem txNext_ssrc (c : Cfg) (mids : List Nat) (now : Nat) (t : Tx) : (txNext c mids now t).ssrc = t.ssrc := by
  unfold txNext; dsimp only; split <;> split <;> rfl
theorem txNext_key (c : Cfg) (mids : List Nat) (now : Nat) (t : Tx) : (txNext c mids now t).key = t.key := by
  unfold txNext; dsimp only; split <;> split <;> rfl
theorem txNext_mid (c : Cfg) (mids : List Nat) (now : Nat) (t : Tx) : (txNext c mids now t).mid = t.mid := by
  unfold txNext; dsimp only; split <;> split <;> rfl
theorem txNext_last (c : Cfg) (mids : List Nat) (now : Nat) (t : Tx) :
    (txNext c mids now t).last = if t.mid ∈ mids then now else t.last := by
  unfold txNext; dsimp only; split <;> split <;> rfl
theorem txNext_audio (c : Cfg) (mids : List Nat) (now : Nat) (t : Tx) :
    (txNext c mids now t).audio = some (t.audio.getD (c.isAudio t.mid)) := by
  unfold txNext; dsimp only
  have : (if t.mid ∈ mids then { t with last := now } else t).audio = t.audio := by split <;> rfl
  have hm : (if t.mid ∈ mids then { t with last := now } else t).mid = t.mid := by split <;> rfl
  rw [this, hm]
  split
  · rename_i a ha; rw [this, ha]; rfl
  · rename_i ha; rw [ha]; rfl

theorem mem_rxOut_rr {mids : List Nat} {n : Bool} {r : Rx} {x : Nat} : Report.rr x ∈ rxOut mids n r ↔ r.ssrc = x ∧ r.mid ∈ mids := by
  unfold rxOut
  by_cases h1 : r.mid ∈ mids <;> by_cases h2 : (n && !r.suppress) = true <;> simp [h1, h2, eq_comm]

theorem mem_rxOut_nack {mids : List Nat} {n : Bool} {r : Rx} {x : Nat} :
    Report.nack x ∈ rxOut mids n r ↔ r.ssrc = x ∧ n = true ∧ r.suppress = false := by
  unfold rxOut
  by_cases h1 : r.mid ∈ mids <;> by_cases h2 : n = true <;> by_cases h3 : r.suppress = true <;> simp [h1, h2, h3, eq_comm]

theorem not_sr_rxOut {mids : List Nat} {n : Bool} {r : Rx} {x : Nat} : Report.sr x ∉ rxOut mids n r := by
  unfold rxOut
  by_cases h1 : r.mid ∈ mids <;> by_cases h2 : (n && !r.suppress) = true <;> simp [h1, h2]

theorem mem_txOut {mids : List Nat} {t : Tx} {y : Report} : y ∈ txOut mids t ↔ t.mid ∈ mids ∧ y = .sr t.ssrc := by
  unfold txOut
  by_cases h1 : t.mid ∈ mids <;> simp [h1]

theorem rr_out {c : Cfg} {s : S} {now x : Nat} (hc : s.closing = false) :
    Report.rr x ∈ (timeout c s now).2 ↔ ∃ r ∈ s.rx, r.ssrc = x ∧ r.mid ∈ rxMids c s now := by
  unfold timeout
  rw [hc]
  simp only [Bool.false_eq_true, if_false, List.mem_append, List.mem_flatMap, mem_rxOut_rr, mem_txOut]
  constructor
  · rintro (⟨r, h, h'⟩ | ⟨t, -, -, h⟩)
    · exact ⟨r, h, h'⟩
    · cases h
  · rintro ⟨r, h, h'⟩; exact Or.inl ⟨r, h, h'⟩

theorem sr_out {c : Cfg} {s : S} {now x : Nat} (hc : s.closing = false) :
    Report.sr x ∈ (timeout c s now).2 ↔ ∃ t ∈ s.tx, t.ssrc = x ∧ t.mid ∈ txMids c s now := by
  unfold timeout
  rw [hc]
  simp only [Bool.false_eq_true, if_false, List.mem_append, List.mem_flatMap, mem_txOut]
  constructor
  · rintro (⟨r, -, h'⟩ | ⟨t, h, h', h2⟩)
    · exact absurd h' not_sr_rxOut
    · injection h2 with h2; exact ⟨t, h, h2.symm, h'⟩
  · rintro ⟨t, h, rfl, h'⟩; exact Or.inr ⟨t, h, h', rfl⟩

theorem nack_out {c : Cfg} {s : S} {now x : Nat} (hc : s.closing = false) :
    Report.nack x ∈ (timeout c s now).2 ↔ doNack s now = true ∧ ∃ r ∈ s.rx, r.ssrc = x ∧ r.suppress = false := by
  unfold timeout
  rw [hc]
  simp only [Bool.false_eq_true, if_false, List.mem_append, List.mem_flatMap, mem_rxOut_nack, mem_txOut]
  constructor
  · rintro (⟨r, h, h', h2, h3⟩ | ⟨t, -, -, h⟩)
    · exact ⟨h2, r, h, h', h3⟩
    · cases h
  · rintro ⟨h2, r, h, h', h3⟩; exact Or.inl ⟨r, h, h', h2, h3⟩

theorem closing_out {c : Cfg} {s : S} {now : Nat} (hc : s.closing = true) : timeout c s now = (s, []) := by
  unfold timeout; rw [hc]; rfl

theorem timeout_rx {c : Cfg} {s : S} {now : Nat} (hc : s.closing = false) :
    (timeout c s now).1.rx = s.rx.map (rxNext (rxMids c s now) now) := by unfold timeout; rw [hc]; rfl
theorem timeout_tx {c : Cfg} {s : S} {now : Nat} (hc : s.closing = false) :
    (timeout c s now).1.tx = s.tx.map (txNext c (txMids c s now) now) := by unfold timeout; rw [hc]; rfl
theorem timeout_nack {c : Cfg} {s : S} {now : Nat} (hc : s.closing = false) :
    (timeout c s now).1.lastNack = if doNack s now then now else s.lastNack := by unfold timeout; rw [hc]; rfl
theorem timeout_closing {c : Cfg} {s : S} {now : Nat} : (timeout c s now).1.closing = s.closing := by
  unfold timeout; split
  · rfl
  · exact anyNack_closing s
theorem timeout_active {c : Cfg} {s : S} {now : Nat} (hc : s.closing = false) :
    (timeout c s now).1.nackActive = (anyNack s).nackActive := by unfold timeout; rw [hc]; rfl

theorem clock_le {ops : List Op} : ∀ {k : Nat}, Forward k ops → k ≤ clockAfter k ops := by
  induction ops with
  | nil => intro k _; exact Nat.le_refl _
  | cons op ops ih =>
    intro k h
    cases op <;> first | exact ih h | exact Nat.le_trans h.1 (ih h.2)

/-! ### The invariant -/

/-- What has been made so far explains the state. -/
structure Inv (s : S) (log : List (Nat × Report)) (clock : Nat) : Prop where
  keys : (s.rx.map (fun r : Rx => r.ssrc)).Nodup
  rx : ∀ r ∈ s.rx, r.last = past ∨ (r.last, Report.rr r.ssrc) ∈ log
  tx : ∀ t ∈ s.tx, t.last = past ∨ (t.last, Report.sr t.ssrc) ∈ log
  rxBack : ∀ r ∈ s.rx, r.last ≤ clock
  txBack : ∀ t ∈ s.tx, t.last ≤ clock
  back : ∀ e ∈ log, e.1 ≤ clock
  nackBack : s.lastNack ≤ clock
  nack : ∀ t x, (t, Report.nack x) ∈ log → t ≤ s.lastNack
  apart : ∀ t x u y, (t, Report.nack x) ∈ log → (u, Report.nack y) ∈ log → t < u → t + NACK_MIN ≤ u

theorem inv_init (k : Nat) : Inv {} [] k where
  keys := List.nodup_nil
  rx := by intro r h; cases h
  tx := by intro r h; cases h
  rxBack := by intro r h; cases h
  txBack := by intro r h; cases h
  back := by intro r h; cases h
  nackBack := Nat.zero_le _
  nack := by intro t x h; cases h
  apart := by intro t x u y h; cases h

/-- A step that makes no report. -/
theorem Inv.silent {s s' : S} {log : List (Nat × Report)} {k : Nat} (h : Inv s log k) (hk : (s'.rx.map (fun r : Rx => r.ssrc)).Nodup)
    (hr : ∀ r ∈ s'.rx, r.last = past ∨ ∃ q ∈ s.rx, q.ssrc = r.ssrc ∧ q.last = r.last)
    (ht : ∀ t ∈ s'.tx, t.last = past ∨ ∃ q ∈ s.tx, q.ssrc = t.ssrc ∧ q.last = t.last) (hn : s'.lastNack = s.lastNack) : Inv s' log k where
  keys := hk
  rx := by
    intro r hm
    rcases hr r hm with h1 | ⟨q, hq, e1, e2⟩
    · exact Or.inl h1
    · rw [← e1, ← e2]; exact h.rx q hq
  tx := by
    intro r hm
    rcases ht r hm with h1 | ⟨q, hq, e1, e2⟩
    · exact Or.inl h1
    · rw [← e1, ← e2]; exact h.tx q hq
  rxBack := by
    intro r hm
    rcases hr r hm with h1 | ⟨q, hq, -, e2⟩
    · rw [h1]; exact Nat.zero_le _
    · rw [← e2]; exact h.rxBack q hq
  txBack := by
    intro r hm
    rcases ht r hm with h1 | ⟨q, hq, -, e2⟩
    · rw [h1]; exact Nat.zero_le _
    · rw [← e2]; exact h.txBack q hq
  back := h.back
  nackBack := by rw [hn]; exact h.nackBack
  nack := by rw [hn]; exact h.nack
  apart := h.apart

theorem filter_keys {l : List Rx} (p : Rx → Bool) (h : (l.map (fun r : Rx => r.ssrc)).Nodup) : ((l.filter p).map (fun r : Rx => r.ssrc)).Nodup :=
  h.sublist (List.Sublist.map _ List.filter_sublist)

theorem map_keys {l : List Rx} (f : Rx → Rx) (hf : ∀ r, (f r).ssrc = r.ssrc) : (l.map f).map (fun r : Rx => r.ssrc) = l.map (fun r : Rx => r.ssrc) := by
  rw [List.map_map]; exact List.map_congr_left (fun r _ => hf r)

theorem Inv.timeout {c : Cfg} {s : S} {log : List (Nat × Report)} {k now : Nat} (h : Inv s log k) (hk : k ≤ now) :
    Inv (Reports.timeout c s now).1 (log ++ (Reports.timeout c s now).2.map (fun r => (now, r))) now := by
  cases hc : s.closing with
  | true =>
    rw [closing_out hc]
    simp only [List.map_nil, List.append_nil]
    exact { h with
      rxBack := fun r hm => Nat.le_trans (h.rxBack r hm) hk
      txBack := fun r hm => Nat.le_trans (h.txBack r hm) hk
      back := fun r hm => Nat.le_trans (h.back r hm) hk
      nackBack := Nat.le_trans h.nackBack hk }
  | false =>
    have hnew : ∀ t x, (t, x) ∈ (Reports.timeout c s now).2.map (fun r => (now, r)) ↔ t = now ∧ x ∈ (Reports.timeout c s now).2 := by
      intro t x
      simp only [List.mem_map, Prod.mk.injEq]
      constructor
      · rintro ⟨y, hy, rfl, rfl⟩; exact ⟨rfl, hy⟩
      · rintro ⟨rfl, hy⟩; exact ⟨x, hy, rfl, rfl⟩
    constructor
    · rw [timeout_rx hc, map_keys _ (rxNext_ssrc _ _)]; exact h.keys
    · intro r hr
      rw [timeout_rx hc, List.mem_map] at hr
      obtain ⟨q, hq, rfl⟩ := hr
      rw [rxNext_ssrc]
      by_cases hm : q.mid ∈ rxMids c s now
      · right
        have hl : (rxNext (rxMids c s now) now q).last = now := by unfold rxNext; rw [if_pos hm]
        rw [hl, List.mem_append]
        exact Or.inr ((hnew _ _).2 ⟨rfl, (rr_out hc).2 ⟨q, hq, rfl, hm⟩⟩)
      · have hl : (rxNext (rxMids c s now) now q).last = q.last := by unfold rxNext; rw [if_neg hm]
        rw [hl]
        exact (h.rx q hq).imp id (fun h => List.mem_append_left _ h)
    · intro r hr
      rw [timeout_tx hc, List.mem_map] at hr
      obtain ⟨q, hq, rfl⟩ := hr
      rw [txNext_ssrc, txNext_last]
      split
      · rename_i hm
        right
        rw [List.mem_append]
        exact Or.inr ((hnew _ _).2 ⟨rfl, (sr_out hc).2 ⟨q, hq, rfl, hm⟩⟩)
      · exact (h.tx q hq).imp id (fun h => List.mem_append_left _ h)
    · intro r hr
      rw [timeout_rx hc, List.mem_map] at hr
      obtain ⟨q, hq, rfl⟩ := hr
      unfold rxNext
      split
      · exact Nat.le_refl _
      · exact Nat.le_trans (h.rxBack q hq) hk
    · intro r hr
      rw [timeout_tx hc, List.mem_map] at hr
      obtain ⟨q, hq, rfl⟩ := hr
      rw [txNext_last]
      split
      · exact Nat.le_refl _
      · exact Nat.le_trans (h.txBack q hq) hk
    · intro e he
      rw [List.mem_append] at he
      rcases he with he | he
      · exact Nat.le_trans (h.back e he) hk
      · obtain ⟨t, x⟩ := e
        exact Nat.le_of_eq ((hnew t x).1 he).1
    · rw [timeout_nack hc]
      split
      · exact Nat.le_refl _
      · exact Nat.le_trans h.nackBack hk
    · intro t x he
      rw [timeout_nack hc]
      rw [List.mem_append] at he
      rcases he with he | he
      · have := h.nack t x he
        have := h.nackBack
        split <;> omega
      · obtain ⟨rfl, h2⟩ := (hnew t _).1 he
        rw [if_pos ((nack_out hc).1 h2).1]
    · have hd : doNack s now = true → s.lastNack + NACK_MIN ≤ now := by
        unfold doNack nackAt
        split
        · intro h; cases h
        · rename_i u hu
          split at hu
          · injection hu with hu; subst hu; intro h; exact of_decide_eq_true h
          · cases hu
      intro t x u y h1 h2 hlt
      rw [List.mem_append] at h1 h2
      rcases h1 with h1 | h1 <;> rcases h2 with h2 | h2
      · exact h.apart t x u y h1 h2 hlt
      · obtain ⟨rfl, h3⟩ := (hnew u _).1 h2
        have := hd ((nack_out hc).1 h3).1
        have := h.nack t x h1
        omega
      · have e1 := ((hnew t _).1 h1).1
        have := h.back _ h2
        dsimp only at this
        omega
      · have e1 := ((hnew t _).1 h1).1
        have e2 := ((hnew u _).1 h2).1
        omega

theorem mem_unique {l : List Rx} (h : (l.map (fun r : Rx => r.ssrc)).Nodup) {a b : Rx} (ha : a ∈ l) (hb : b ∈ l) (e : a.ssrc = b.ssrc) : a = b :=
  List.inj_on_of_nodup_map h ha hb e

theorem Inv.step {c : Cfg} {s : S} {log : List (Nat × Report)} {k : Nat} (h : Inv s log k) (op : Op) (hf : Forward k [op]) :
    Inv (Reports.step c s op).1 (log ++ (Reports.step c s op).2) (clockAfter k [op]) := by
  have keep : ∀ {s' : S}, (∀ r ∈ s'.rx, r ∈ s.rx) → ∀ r ∈ s'.rx, r.last = past ∨ ∃ q ∈ s.rx, q.ssrc = r.ssrc ∧ q.last = r.last :=
    fun hs r hr => Or.inr ⟨r, hs r hr, rfl, rfl⟩
  have keept : ∀ {s' : S}, (∀ r ∈ s'.tx, r ∈ s.tx) → ∀ r ∈ s'.tx, r.last = past ∨ ∃ q ∈ s.tx, q.ssrc = r.ssrc ∧ q.last = r.last :=
    fun hs r hr => Or.inr ⟨r, hs r hr, rfl, rfl⟩
  cases op with
  | timeout now => exact h.timeout hf.1
  | expectRx a b m n =>
    show Inv (expectRx s a b m n) (log ++ []) k
    rw [List.append_nil]
    unfold expectRx
    split
    · refine h.silent ?_ ?_ (keept fun r hr => hr) rfl
      · show ((s.rx.map _).map (fun r : Rx => r.ssrc)).Nodup
        rw [map_keys]
        · exact h.keys
        · intro r; split
          · exact setRtx_ssrc _ _
          · rfl
      · intro r hr
        obtain ⟨q, hq, rfl⟩ := List.mem_map.1 hr
        refine Or.inr ⟨q, hq, ?_, ?_⟩
        · split
          · rw [setRtx_ssrc]
          · rfl
        · split
          · rw [setRtx_last]
          · rfl
    · rename_i hn
      refine h.silent ?_ ?_ (keept fun r hr => hr) rfl
      · show ((s.rx ++ [_]).map (fun r : Rx => r.ssrc)).Nodup
        rw [List.map_append, List.nodup_append]
        refine ⟨h.keys, List.nodup_singleton _, ?_⟩
        intro x hx y hy e
        rw [List.map_cons, List.map_nil, List.mem_singleton, setRtx_ssrc] at hy
        obtain ⟨r, hr, rfl⟩ := List.mem_map.1 hx
        apply hn
        rw [List.any_eq_true]
        exact ⟨r, hr, decide_eq_true (e.trans hy)⟩
      · intro r hr
        rcases List.mem_append.1 hr with hr | hr
        · exact Or.inr ⟨r, hr, rfl, rfl⟩
        · rw [List.mem_singleton] at hr
          subst hr
          left; rw [setRtx_last]
  | changeRx a b =>
    show Inv (changeRx s a b) (log ++ []) k
    rw [List.append_nil]
    unfold changeRx
    split
    · exact h
    · rename_i q hq
      split
      · exact h
      · refine h.silent ?_ ?_ (keept fun r hr => hr) rfl
        · show ((s.rx.filter _ ++ [_]).map (fun r : Rx => r.ssrc)).Nodup
          rw [List.map_append, List.nodup_append]
          refine ⟨filter_keys _ h.keys, List.nodup_singleton _, ?_⟩
          intro x hx y hy e
          rw [List.map_cons, List.map_nil, List.mem_singleton] at hy
          obtain ⟨r, hr, rfl⟩ := List.mem_map.1 hx
          have := (List.mem_filter.1 hr).2
          have := (of_decide_eq_true this).2
          exact this (e.trans hy)
        · intro r hr
          rcases List.mem_append.1 hr with hr | hr
          · exact Or.inr ⟨r, (List.mem_filter.1 hr).1, rfl, rfl⟩
          · rw [List.mem_singleton] at hr
            subst hr
            exact Or.inl rfl
  | removeRx a =>
    show Inv _ (log ++ []) k
    rw [List.append_nil]
    exact h.silent (filter_keys _ h.keys) (keep (s' := { s with rx := s.rx.filter _ }) fun r hr => (List.mem_filter.1 hr).1) (keept fun r hr => hr) rfl
  | declareTx a m =>
    show Inv (declareTx s a m) (log ++ []) k
    rw [List.append_nil]
    unfold declareTx
    split
    · exact h
    · refine h.silent h.keys (keep fun r hr => hr) ?_ rfl
      intro r hr
      rcases List.mem_append.1 hr with hr | hr
      · exact Or.inr ⟨r, hr, rfl, rfl⟩
      · rw [List.mem_singleton] at hr
        subst hr
        exact Or.inl rfl
  | removeTx a =>
    show Inv _ (log ++ []) k
    rw [List.append_nil]
    exact h.silent h.keys (keep fun r hr => hr) (keept (s' := { s with tx := s.tx.filter _ }) fun r hr => (List.mem_filter.1 hr).1) rfl
  | resetTx a b =>
    show Inv (resetTx s a b) (log ++ []) k
    rw [List.append_nil]
    refine h.silent h.keys (keep fun r hr => hr) ?_ rfl
    intro r hr
    obtain ⟨q, hq, rfl⟩ := List.mem_map.1 hr
    split
    · exact Or.inl rfl
    · exact Or.inr ⟨q, hq, rfl, rfl⟩
  | removeMid m =>
    show Inv _ (log ++ []) k
    rw [List.append_nil]
    exact h.silent (filter_keys _ h.keys)
      (keep (s' := { s with rx := s.rx.filter _ }) fun r hr => (List.mem_filter.1 hr).1)
      (keept (s' := { s with tx := s.tx.filter _ }) fun r hr => (List.mem_filter.1 hr).1) rfl
  | suppress a on v =>
    show Inv (suppressRx s a on v) (log ++ []) k
    rw [List.append_nil]
    refine h.silent ?_ ?_ (keept fun r hr => hr) rfl
    · show ((s.rx.map _).map (fun r : Rx => r.ssrc)).Nodup
      rw [map_keys]
      · exact h.keys
      · intro r; split <;> rfl
    · intro r hr
      obtain ⟨q, hq, rfl⟩ := List.mem_map.1 hr
      refine Or.inr ⟨q, hq, ?_, ?_⟩ <;> split <;> rfl
  | poll =>
    show Inv (anyNack s) (log ++ []) k
    rw [List.append_nil]
    refine h.silent ?_ ?_ ?_ (anyNack_lastNack s)
    · rw [anyNack_rx]; exact h.keys
    · rw [anyNack_rx]; exact keep fun r hr => hr
    · rw [anyNack_tx]; exact keept fun r hr => hr
  | close =>
    show Inv _ (log ++ []) k
    rw [List.append_nil]
    exact h.silent h.keys (keep fun r hr => hr) (keept fun r hr => hr) rfl

theorem forward_cons {k : Nat} {op : Op} {ops : List Op} (h : Forward k (op :: ops)) :
    Forward k [op] ∧ Forward (clockAfter k [op]) ops := by
  cases op <;> first | exact ⟨trivial, h⟩ | exact ⟨⟨h.1, trivial⟩, h.2⟩

theorem clock_cons (k : Nat) (op : Op) (ops : List Op) : clockAfter k (op :: ops) = clockAfter (clockAfter k [op]) ops := by
  cases op <;> rfl

theorem Inv.run {c : Cfg} (ops : List Op) : ∀ {s : S} {log : List (Nat × Report)} {k : Nat}, Inv s log k → Forward k ops →
    Inv (Reports.run c s ops).1 (log ++ (Reports.run c s ops).2) (clockAfter k ops) := by
  induction ops with
  | nil => intro s log k h _; rw [show (Reports.run c s []).2 = [] from rfl, List.append_nil]; exact h
  | cons op ops ih =>
    intro s log k h hf
    have h1 := h.step (c := c) op (forward_cons hf).1
    have h2 := ih h1 (forward_cons hf).2
    rw [clock_cons, show (Reports.run c s (op :: ops)).2 = (Reports.step c s op).2 ++ (Reports.run c (Reports.step c s op).1 ops).2 from rfl,
      ← List.append_assoc]
    exact h2

theorem reached (c : Cfg) (ops : List Op) (hf : Forward 0 ops) : Inv (run c {} ops).1 (run c {} ops).2 (clockAfter 0 ops) := by
  have := (inv_init 0).run (c := c) ops hf
  rwa [List.nil_append] at this

end Str0m.Reports
