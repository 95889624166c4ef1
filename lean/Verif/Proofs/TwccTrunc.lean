import Verif.Proofs.TwccSend
/-
  Feedback is read lazily: a report that cannot be decoded to its end acts like the report cut
  where reading fails, as long as reading did not go that far.
-/
namespace Str0m.Twcc
open Res

/-- `L` is the sequence number where the iterator fails, or its end. -/
inductive Trunc : Iter → Nat → Prop where
  | done {it} : it.next = .ok none → it.pos ≤ it.lastSeq → Trunc it it.lastSeq
  | fail {it} : (∀ o, it.next ≠ .ok o) → Trunc it it.pos
  | step {it x it' L} : it.next = .ok (some (x, it')) → Trunc it' L → Trunc it L

theorem Trunc.le {it : Iter} {L : Nat} (h : Trunc it L) : it.pos ≤ L := by
  induction h with
  | done _ h => exact h
  | fail _ => exact le_refl _
  | step hn _ ih => have := (next_pos hn).2.1; omega

theorem Trunc.exists_ : ∀ (n : Nat) (it : Iter), it.pos + n = it.lastSeq → ∃ L, Trunc it L ∧ L ≤ it.lastSeq
  | n, it, h => by
    cases hn : it.next with
    | err e => exact ⟨it.pos, .fail (by rw [hn]; intro o ho; cases ho), by omega⟩
    | panic => exact ⟨it.pos, .fail (by rw [hn]; intro o ho; cases ho), by omega⟩
    | ok o =>
      cases o with
      | none => exact ⟨it.lastSeq, .done hn (by omega), le_refl _⟩
      | some p =>
        obtain ⟨x, it'⟩ := p
        obtain ⟨h1, h2, h3, h4⟩ := next_pos hn
        cases n with
        | zero => omega
        | succ n =>
          obtain ⟨L, hL, hle⟩ := Trunc.exists_ n it' (by omega)
          exact ⟨L, .step hn hL, by omega⟩

def Iter.cut (it : Iter) (L : Nat) : Iter := { it with lastSeq := L }

theorem next_cut_some {it it' : Iter} {x : Nat × Status × Option Nat} {L : Nat}
    (h : it.next = .ok (some (x, it'))) (hL : it.pos ≠ L) :
    (it.cut L).next = .ok (some (x, it'.cut L)) := by
  unfold Iter.next at h ⊢
  simp only at h
  split at h
  · simp at h
  rename_i hne
  split at h
  · simp at h
  rename_i head tail hch
  simp only [Iter.cut, hch]
  unfold Iter.pos at hL
  rw [if_neg hL]
  cases hs : chunkStatus head it.index with
  | err e => rw [hs] at h; cases h
  | panic => rw [hs] at h; cases h
  | ok p =>
    obtain ⟨st, amount⟩ := p
    rw [hs, bind_def, bind_ok] at h
    rw [bind_def, bind_ok]
    simp only at h ⊢
    cases ht : takeDelta st it.timeBase it.delta with
    | err e => rw [ht] at h; cases h
    | panic => rw [ht] at h; cases h
    | ok r =>
      rw [ht, bind_def, bind_ok] at h
      rw [bind_def, bind_ok]
      cases r with
      | none => have := Res.ok.inj h; cases this
      | some q =>
        obtain ⟨inst, tb, ds⟩ := q
        simp only at h ⊢
        have h := Option.some.inj (Res.ok.inj h)
        simp only [Prod.mk.injEq] at h
        obtain ⟨h1, h2⟩ := h
        subst h1
        rw [← h2]
        rw [hch]; split <;> rfl

theorem next_cut {it : Iter} {L : Nat} (h : Trunc it L) :
    (it.next = .ok none ∧ (it.cut L).next = .ok none) ∨
    ((∀ o, it.next ≠ .ok o) ∧ (it.cut L).next = .ok none) ∨
    ∃ x it', it.next = .ok (some (x, it')) ∧ (it.cut L).next = .ok (some (x, it'.cut L)) ∧ Trunc it' L := by
  cases h with
  | done hn _ => left; exact ⟨hn, by unfold Iter.cut; exact hn⟩
  | fail hn =>
    right; left
    refine ⟨hn, ?_⟩
    unfold Iter.next
    exact if_pos rfl
  | step hn ht =>
    right; right
    have := ht.le
    have := (next_pos hn).2.1
    exact ⟨_, _, hn, next_cut_some hn (by omega), ht⟩

theorem collect_cut : ∀ (n k : Nat) (it : Iter) (L : Nat), Trunc it L → it.pos + n = it.lastSeq →
    it.pos + k = L → Iter.collect (k + 1) (it.cut L) = .ok (Iter.readable (n + 1) it)
  | n, k, it, L, h, hn, hk => by
    rw [Iter.collect, Iter.readable]
    rcases next_cut h with ⟨h1, h2⟩ | ⟨h1, h2⟩ | ⟨x, it', h1, h2, h3⟩
    · rw [h1, h2]; rfl
    · rw [h2]
      cases he : it.next with
      | ok o => exact absurd he (h1 o)
      | err e => rfl
      | panic => rfl
    · rw [h1, h2, bind_def, bind_ok]
      simp only
      have hp := next_pos h1
      have hle := h3.le
      cases n with
      | zero => omega
      | succ n =>
        cases k with
        | zero => omega
        | succ k =>
          rw [collect_cut n k it' L h3 (by omega) (by omega)]
          rfl

theorem skipTo_cut : ∀ (n m head : Nat) (it : Iter) (L : Nat) (r : Option ((Nat × Status × Option Nat) × Iter)),
    Trunc it L → it.pos + m = L → skipTo n head it = .ok r →
    skipTo (m + 1) head (it.cut L) = .ok (r.map (fun p => (p.1, p.2.cut L))) ∧
      ∀ p ∈ r, Trunc p.2 L
  | 0, _, _, _, _, _, _, _, h => by cases h
  | n + 1, m, head, it, L, r, ht, hm, h => by
    rw [skipTo] at h ⊢
    rcases next_cut ht with ⟨h1, h2⟩ | ⟨h1, h2⟩ | ⟨x, it', h1, h2, h3⟩
    · rw [h1, bind_def, bind_ok] at h
      have := (Res.ok.inj h).symm
      subst this
      rw [h2]
      exact ⟨rfl, by simp⟩
    · cases he : it.next with
      | ok o => exact absurd he (h1 o)
      | err e => rw [he] at h; cases h
      | panic => rw [he] at h; cases h
    · rw [h1, bind_def, bind_ok] at h
      rw [h2, bind_def, bind_ok]
      simp only at h ⊢
      have hp := next_pos h1
      have hle := h3.le
      split at h
      · rename_i hlt
        rw [if_pos hlt]
        cases m with
        | zero => omega
        | succ m => exact skipTo_cut n m head it' L r h3 (by omega) h
      · rename_i hlt
        rw [if_neg hlt]
        have := (Res.ok.inj h).symm
        subst this
        refine ⟨rfl, ?_⟩
        intro p hp
        have := (Option.some.inj hp).symm
        subst this
        exact h3

theorem zipLoop_cut (now counter : Nat) : ∀ (rs : List SendRec) (it : Iter) (L last : Nat) (r : List SendRec × Nat),
    Trunc it L → zipLoop now counter it rs last = .ok r → zipLoop now counter (it.cut L) rs last = .ok r
  | [], it, L, last, r, ht, h => by
    rw [zipLoop] at h ⊢
    rcases next_cut ht with ⟨h1, h2⟩ | ⟨h1, h2⟩ | ⟨x, it', h1, h2, h3⟩
    · rw [h1] at h; rw [h2]; exact h
    · cases he : it.next with
      | ok o => exact absurd he (h1 o)
      | err e => rw [he] at h; cases h
      | panic => rw [he] at h; cases h
    · rw [h1] at h; rw [h2]; exact h
  | a :: rs, it, L, last, r, ht, h => by
    rw [zipLoop] at h ⊢
    rcases next_cut ht with ⟨h1, h2⟩ | ⟨h1, h2⟩ | ⟨x, it', h1, h2, h3⟩
    · rw [h1] at h; rw [h2]; exact h
    · cases he : it.next with
      | ok o => exact absurd he (h1 o)
      | err e => rw [he] at h; cases h
      | panic => rw [he] at h; cases h
    · obtain ⟨seq, st, inst⟩ := x
      rw [h1, bind_def, bind_ok] at h
      rw [h2, bind_def, bind_ok]
      simp only at h ⊢
      cases hu : a.update now seq inst counter with
      | none => rw [hu] at h; cases h
      | some a' =>
        rw [hu] at h
        simp only at h ⊢
        cases hz : zipLoop now counter it' rs seq with
        | err e => rw [hz] at h; cases h
        | panic => rw [hz] at h; cases h
        | ok q =>
          rw [hz] at h
          rw [zipLoop_cut now counter rs it' L seq q h3 hz]
          exact h

/-- A report that was applied acts like the part of it that can be read. -/
theorem apply_readable {s s' : Send} {t : Report} {now : Nat} {out : Option (List SendRec)}
    (h : s.apply t now = .ok (out, s')) :
    s.queue = [] ∧ out = none ∧ s' = { s with timeZero := some (s.timeZero.getD now), counter := s.counter + 1 } ∨
    ∃ t' : Report, extendU16 (some s.last) t'.baseSeq + t'.statusCount < 2^64 ∧
      t'.items (s.timeZero.getD now) s.last = .ok (t.readable (s.timeZero.getD now) s.last) ∧
      s.apply t' now = .ok (out, s') := by
  have hpos : (t.intoIter (s.timeZero.getD now) s.last).pos + t.statusCount =
      (t.intoIter (s.timeZero.getD now) s.last).lastSeq := by simp [Report.intoIter, Iter.pos]
  obtain ⟨L, hL, hle⟩ := Trunc.exists_ _ _ hpos
  have hge := hL.le
  obtain ⟨k, hk⟩ : ∃ k, (t.intoIter (s.timeZero.getD now) s.last).pos + k = L := ⟨_, Nat.add_sub_of_le hge⟩
  have hcut : Report.intoIter { t with statusCount := k } (s.timeZero.getD now) s.last =
      (t.intoIter (s.timeZero.getD now) s.last).cut L := by
    rw [← hk]
    simp [Report.intoIter, Iter.cut, Iter.pos]
  have hitems : Report.items { t with statusCount := k } (s.timeZero.getD now) s.last =
      .ok (t.readable (s.timeZero.getD now) s.last) := by
    rw [Report.items, hcut]
    exact collect_cut _ _ _ _ hL hpos hk
  have hkle : k ≤ t.statusCount := by omega
  by_cases hq0 : s.queue = []
  · left
    refine ⟨hq0, ?_⟩
    unfold Send.apply at h
    simp only [hq0] at h
    have h := Res.ok.inj h
    simp only [Prod.mk.injEq] at h
    rw [← h.1, ← h.2]
    exact ⟨rfl, by rw [hq0]⟩
  · right
    have hov : extendU16 (some s.last) t.baseSeq + t.statusCount < 2^64 := by
      by_contra hc
      unfold Send.apply at h
      simp only at h
      split at h
      · exact hq0 ‹_›
      · rw [if_pos (by omega)] at h
        cases h
    refine ⟨{ t with statusCount := k }, by simp only; omega, hitems, ?_⟩
    unfold Send.apply at h ⊢
    obtain ⟨keep, queue, tz, counter, last⟩ := s
    cases queue with
    | nil => exact h
    | cons hd tl =>
      simp only [Option.getD_some] at h hcut hL hk hov ⊢
      rw [if_neg (by omega)] at h ⊢
      rw [hcut]
      cases hs : skipTo (t.statusCount + 1) hd.seq (t.intoIter (tz.getD now) last) with
      | err e => rw [hs] at h; cases h
      | panic => rw [hs] at h; cases h
      | ok r =>
        obtain ⟨e1, e2⟩ := skipTo_cut _ k _ _ _ _ hL hk hs
        rw [hs, bind_def, bind_ok] at h
        rw [e1, bind_def, bind_ok]
        cases r with
        | none => exact h
        | some p =>
          obtain ⟨⟨first, st, inst⟩, it⟩ := p
          have htr := e2 _ rfl
          simp only [Option.map_some] at h htr ⊢
          split
          · rename_i hdw; rw [hdw] at h; exact h
          · rename_i r rs hdw
            rw [hdw] at h
            simp only at h
            split
            · rename_i hne; rw [if_pos hne] at h; exact h
            · rename_i hne
              rw [if_neg hne] at h
              cases hu : r.update now first inst (counter + 1) with
              | none => rw [hu] at h; cases h
              | some a' =>
                rw [hu] at h
                simp only at h ⊢
                cases hz : zipLoop now (counter + 1) it rs first with
                | err e => rw [hz] at h; cases h
                | panic => rw [hz] at h; cases h
                | ok q =>
                  rw [hz] at h
                  rw [zipLoop_cut _ _ _ _ _ _ _ htr hz]
                  exact h

theorem readable_of_items {t : Report} {tz last : Nat} {items : List (Nat × Status × Option Nat)}
    (h : t.items tz last = .ok items) : t.readable tz last = items := by
  unfold Report.items at h
  unfold Report.readable
  generalize t.statusCount + 1 = n at h ⊢
  generalize t.intoIter tz last = it at h ⊢
  induction n generalizing it items with
  | zero => cases h; rfl
  | succ n ih =>
    rw [Iter.collect] at h
    rw [Iter.readable]
    cases hn : it.next with
    | err e => rw [hn] at h; cases h
    | panic => rw [hn] at h; cases h
    | ok o =>
      rw [hn, bind_def, bind_ok] at h
      cases o with
      | none => cases h; rfl
      | some p =>
        obtain ⟨x, it'⟩ := p
        simp only at h ⊢
        cases hc : Iter.collect n it' with
        | err e => rw [hc] at h; cases h
        | panic => rw [hc] at h; cases h
        | ok xs => rw [hc] at h; cases h; rw [ih it' hc]

end Str0m.Twcc
