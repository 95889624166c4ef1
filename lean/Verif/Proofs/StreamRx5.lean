import Verif.Proofs.StreamRx4

namespace Str0m.Rcv
open Str0m Str0m.Rtp NackRegister

variable {U : Type}

/-! ### Time and pause -/

/-- The fields about time -/
def clk (s : Rx) : Option MediaTime × Bool × Bool × Option Nat × Nat := (s.lastTime, s.paused, s.needEvent, s.checkPausedAt, s.threshold)

theorem clk_setReg (s : Rx) (rep : Bool) (r : ReceiverRegister) : clk (setReg s rep r) = clk s := by cases rep <;> rfl

theorem clk_extendSeq (s : Rx) (seqs : List (Nat × Nat)) (a w : Nat) (rep : Bool) : clk (extendSeq s seqs a w rep).1 = clk s := by
  unfold extendSeq
  dsimp only
  split
  · exact clk_setReg s rep _
  · exact clk_setReg s rep _

theorem clk_handleRtp (s : Rx) (now : Nat) (h : Header U) (data : List Byte) (seq : Nat) (t : MediaTime) :
    clk (handleRtp s now h data seq t).1 = clk s := by
  unfold handleRtp
  dsimp only
  split <;> rfl

/-- The packet shown by `deliver` -/
theorem deliver_clock {c : Cfg U} {s s' : Sess U} {now : Nat} {h : Header U} {data : List Byte} {seq : Nat} {t : MediaTime} {new : Bool}
    {o : Option (Packet U)} (hd : deliver c s now h data seq t new = (s', o)) :
    clk s'.rx = clk s.rx ∧ s'.log = s.log ∧
      (s'.pending = s.pending ∨ ∃ p, s'.pending = some p ∧ p.time = t ∧ p.header = h) ∧ (∀ p, o = some p → p.time = t ∧ p.header = h) := by
  unfold deliver at hd
  have hk := clk_handleRtp s.rx now h data seq t
  have hc := handleRtp_core s.rx now h data seq t
  split at hd
  · cases hd; exact ⟨rfl, rfl, .inl rfl, fun p e => by cases e⟩
  · dsimp only at hd
    split at hd
    · split at hd
      · cases hd; exact ⟨hk, rfl, .inr ⟨_, rfl, hc.2.2.2.2.1, hc.2.1⟩, fun p e => by cases e⟩
      · cases hd; exact ⟨hk, rfl, .inl rfl, fun p e => by cases e⟩
    · cases hd; exact ⟨hk, rfl, .inl rfl, fun p e => by cases e; exact ⟨hc.2.2.2.2.1, hc.2.1⟩⟩

theorem updateRegister_clock {s s' : Rx} {now ts clock seq : Nat} {rep : Bool} {t : MediaTime} {b : Bool}
    (h : updateRegister s now ts clock rep seq = .ok (s', t, b)) :
    t = ⟨extendTime (s.lastTime.map (·.numer)) s.paused ts, clock⟩ ∧
      clk s' = ((if rep then s.lastTime else some t), false, s.needEvent || s.paused, some (now + s.threshold), s.threshold) := by
  unfold updateRegister at h
  split at h
  · cases h
  · dsimp only at h
    cases rep
    · simp only [Bool.false_eq_true, if_false, Res.ok.injEq, Prod.mk.injEq] at h
      obtain ⟨h1, h2, h3⟩ := h
      subst h1 h2
      exact ⟨rfl, rfl⟩
    · simp only [if_true, Res.ok.injEq, Prod.mk.injEq] at h
      obtain ⟨h1, h2, h3⟩ := h
      subst h1 h2
      exact ⟨rfl, rfl⟩

/-- What a datagram does to the fields about time -/
inductive Clocked (c : Cfg U) (s : Sess U) (now : Nat) (s' : Sess U) (o : Option (Packet U)) : Prop where
  | quiet (h1 : s'.log = s.log) (h2 : o = none) (h3 : s'.pending = s.pending) (h4 : clk s'.rx = clk s.rx)
  | probe (e : Header U × Nat × List Byte) (hc : s.rx.ssrc ≠ 0 → carries c e = false) (h1 : s'.log = e :: s.log) (h2 : o = none) (h3 : s'.pending = s.pending)
      (h4 : clk s'.rx = (s.rx.lastTime, false, s.rx.needEvent || s.rx.paused, some (now + s.rx.threshold), s.rx.threshold))
  | packet (e : Header U × Nat × List Byte) (hc : s.rx.ssrc ≠ 0 → carries c e = true) (h1 : s'.log = e :: s.log) (b : Bool) (hb : b = true → s.rx.paused = true) (t : MediaTime) (p : Param)
      (hp : s.rx.ssrc ≠ 0 → p ∈ c.params) (ht : t = ⟨extendTime (s.rx.lastTime.map (·.numer)) b e.1.timestamp, p.clock⟩)
      (h4 : clk s'.rx = (some t, false, s.rx.needEvent || s.rx.paused, some (now + s.rx.threshold), s.rx.threshold))
      (h5 : s'.pending = s.pending ∨ ∃ q, s'.pending = some q ∧ q.time = t ∧ q.header.timestamp = e.1.timestamp ∧ q.header.payloadType = p.pt)
      (h6 : ∀ q, o = some q → q.time = t ∧ q.header.timestamp = e.1.timestamp ∧ q.header.payloadType = p.pt)

theorem repaired_clock {c : Cfg U} {s s' : Sess U} {now : Nat} {h : Header U} {p : Param} {data : List Byte} {o : Option (Packet U)}
    (hr : repaired c s now h p data = .ok (s', o)) :
    (s' = s ∧ o = none ∧ data = []) ∨ data ≠ [] ∧ ∃ t : MediaTime, t = ⟨extendTime (s.rx.lastTime.map (·.numer)) s.rx.paused h.timestamp, p.clock⟩ ∧ s'.log = s.log ∧
      clk s'.rx = (some t, false, s.rx.needEvent || s.rx.paused, some (now + s.rx.threshold), s.rx.threshold) ∧
      (s'.pending = s.pending ∨ ∃ q, s'.pending = some q ∧ q.time = t ∧ q.header.timestamp = h.timestamp ∧ q.header.payloadType = p.pt) ∧
      (∀ q, o = some q → q.time = t ∧ q.header.timestamp = h.timestamp ∧ q.header.payloadType = p.pt) := by
  unfold repaired at hr
  split at hr
  · cases hr; exact .inl ⟨rfl, rfl, by assumption⟩
  · rename_i hnil
    dsimp only at hr
    have hx := clk_extendSeq s.rx s.seqs (unRtx s.rx h data p.pt).1.ssrc (unRtx s.rx h data p.pt).1.sequenceNumber false
    obtain ⟨x, hxe⟩ : ∃ x, extendSeq s.rx s.seqs (unRtx s.rx h data p.pt).1.ssrc (unRtx s.rx h data p.pt).1.sequenceNumber false = x := ⟨_, rfl⟩
    rw [hxe] at hr hx
    obtain ⟨rx, n⟩ := x
    dsimp only at hr hx
    split at hr
    · rename_i rx' t new hu
      obtain ⟨ht, hc⟩ := updateRegister_clock hu
      simp only [Res.ok.injEq] at hr
      obtain ⟨d1, d2, d3, d4⟩ := deliver_clock hr
      simp only [clk, Prod.mk.injEq] at hx
      obtain ⟨y1, y2, y3, y4, y5⟩ := hx
      rw [y1, y2] at ht
      rw [y2, y3, y5] at hc
      refine .inr ⟨hnil, t, ht, d2, by rw [d1]; exact hc, ?_, ?_⟩
      · rcases d3 with d3 | ⟨q, q1, q2, q3⟩
        · exact .inl d3
        · exact .inr ⟨q, q1, q2, by rw [q3]; rfl, by rw [q3]; rfl⟩
      · intro q hq
        obtain ⟨q2, q3⟩ := d4 q hq
        exact ⟨q2, by rw [q3]; rfl, by rw [q3]; rfl⟩
    · cases hr
    · cases hr

theorem receive_clock {c : Cfg U} {s s' : Sess U} {now : Nat} {buf : List Byte} {o : Option (Packet U)}
    (hr : receive c s now buf = .ok (s', o)) : Clocked c s now s' o := by
  have stop : ∀ {o : Option (Packet U)}, Res.ok (ε := Unit) (s, none) = .ok (s', o) → Clocked c s now s' o := by
    intro o h; cases h; exact .quiet rfl rfl rfl rfl
  unfold receive at hr
  split at hr
  · rename_i h hparse
    unfold handle at hr
    split at hr
    · split at hr
      · rename_i d p hd hpar
        have hmem : s.rx.ssrc ≠ 0 → p ∈ c.params := fun h0 => (paramOf_mem hpar h0).1
        have hcar : s.rx.ssrc ≠ 0 → ∀ {n : Nat} {data : List Byte}, carries c (h, n, data) = (!data.isEmpty || !(p.pt != h.payloadType)) := by
          intro h0 n data
          rw [paramOf, if_neg h0] at hpar
          unfold carries
          dsimp only
          rw [hpar]
          simp [bne]
        unfold checked at hr
        have hx := clk_extendSeq s.rx s.seqs h.ssrc h.sequenceNumber (p.pt != h.payloadType)
        obtain ⟨x, hxe⟩ : ∃ x, extendSeq s.rx s.seqs h.ssrc h.sequenceNumber (p.pt != h.payloadType) = x := ⟨_, rfl⟩
        rw [hxe] at hr hx
        obtain ⟨rx, n⟩ := x
        dsimp only at hr hx
        split at hr
        · split at hr
          · rename_i data ho
            unfold received at hr
            dsimp only at hr
            split at hr
            · rename_i rx' t new hu
              obtain ⟨ht, hc⟩ := updateRegister_clock hu
              simp only [clk, Prod.mk.injEq] at hx
              obtain ⟨y1, y2, y3, y4, y5⟩ := hx
              rw [y1, y2] at ht
              rw [y1, y2, y3, y5] at hc
              split at hr
              · rename_i hrep
                rw [hrep, if_pos rfl] at hc
                simp only [clk, Prod.mk.injEq] at hc
                obtain ⟨z1, z2, z3, z4, z5⟩ := hc
                rcases repaired_clock hr with ⟨e1, e2, e3⟩ | ⟨k0, t', k1, k2, k3, k4, k5⟩
                · rw [e1]
                  exact .probe (h, n, data) (fun h0 => by rw [hcar h0, hrep, e3]; rfl) rfl e2 rfl (by simp [clk, z1, z2, z3, z4, z5])
                · dsimp only at k1 k2 k3 k4 k5
                  rw [z1, z2] at k1
                  rw [z2, z3, z5] at k3
                  exact .packet (h, n, data) (fun h0 => by rw [hcar h0]; simp [k0]) k2 false (by simp) t' p hmem k1 (by simpa using k3) k4 k5
              · rename_i hrep
                have hb : (p.pt != h.payloadType) = false := by simpa using hrep
                have hpt : h.payloadType = p.pt := by have : p.pt = h.payloadType := by simpa using hb
                                                      exact this.symm
                rw [hb] at hc
                simp only [Bool.false_eq_true, if_false] at hc
                simp only [Res.ok.injEq] at hr
                obtain ⟨d1, d2, d3, d4⟩ := deliver_clock hr
                refine .packet (h, n, data) (fun h0 => by rw [hcar h0, hb]; simp) d2 s.rx.paused (fun h => h) t p hmem ht (by rw [d1]; exact hc) ?_ ?_
                · rcases d3 with d3 | ⟨q, q1, q2, q3⟩
                  · exact .inl d3
                  · exact .inr ⟨q, q1, q2, by rw [q3], by rw [q3]; exact hpt⟩
                · intro q hq
                  obtain ⟨q2, q3⟩ := d4 q hq
                  exact ⟨q2, by rw [q3], by rw [q3]; exact hpt⟩
            · cases hr
            · cases hr
          · cases hr; exact .quiet rfl rfl rfl hx
          · cases hr
        · cases hr; exact .quiet rfl rfl rfl hx
        · cases hr
        · cases hr
      · exact stop hr
    · exact stop hr
  · exact stop hr
  · cases hr

end Str0m.Rcv
