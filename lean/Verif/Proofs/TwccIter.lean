import Verif.Proofs.TwccDecode
import Verif.Proofs.TwccSend
/-
  Iterating over any report that came from the wire and has no empty run.
-/
namespace Str0m.Twcc
open Res

/-- A chunk from the wire that stands for at least one status. -/
def Chunk.Sane : Chunk → Prop
  | .run _ n => 0 < n
  | .single v f => v < 2^14 ∧ f = 14
  | .double v f => v < 2^14 ∧ f = 7

theorem Chunk.Sane.pos {c : Chunk} (h : c.Sane) : 0 < c.statuses.length := by
  cases c with
  | run s n => simp [Chunk.statuses]; exact h
  | single v f => simp [Chunk.statuses]
  | double v f => simp [Chunk.statuses]

theorem chunkStatus_sane {c : Chunk} (hg : c.Sane) {i : Nat} (hi : i < c.statuses.length) :
    ∃ s, chunkStatus c i = .ok (s, c.statuses.length) ∧
      (s = c.statuses[i] ∨ (carries s = false ∧ carries c.statuses[i] = false)) := by
  cases c with
  | run s n =>
    simp only [Chunk.statuses, List.getElem_replicate, List.length_replicate, chunkStatus]
    cases s <;> simp [carries]
  | single v f =>
    obtain ⟨_, rfl⟩ := hg
    simp only [Chunk.statuses, List.length_map, List.length_range] at hi ⊢
    refine ⟨_, by rw [chunkStatus, if_pos (by omega)], Or.inl ?_⟩
    simp
  | double v f =>
    obtain ⟨_, rfl⟩ := hg
    simp only [Chunk.statuses, List.length_map, List.length_range] at hi ⊢
    refine ⟨_, by rw [chunkStatus, if_pos (by omega)], Or.inl ?_⟩
    rw [doubleStatus_eq hi]
    simp

/-- The statuses still to come. -/
def Iter.rest (it : Iter) : List Status := (it.chunks.flatMap Chunk.statuses).drop it.index

structure Iter.Inv (it : Iter) : Prop where
  sane : ∀ c ∈ it.chunks, c.Sane
  index : ∀ c ∈ it.chunks.head?, it.index < c.statuses.length
  deltas : List.Forall₂ Fits (it.rest.filter carries) it.delta
  idle : it.chunks = [] → it.index = 0

theorem takeDelta_fits {s s' : Status} {ss : List Status} {ds : List Delta} {tb : Nat}
    (h : List.Forall₂ Fits ((s :: ss).filter carries) ds)
    (hs : s' = s ∨ (carries s' = false ∧ carries s = false)) :
    ∃ inst tb' ds', takeDelta s' tb ds = .ok (some (inst, tb', ds')) ∧ inst.isSome = carries s ∧
      List.Forall₂ Fits (ss.filter carries) ds' := by
  have hnc : carries s' = false → carries s = false →
      ∃ inst tb' ds', takeDelta s' tb ds = .ok (some (inst, tb', ds')) ∧ inst.isSome = carries s ∧
      List.Forall₂ Fits (ss.filter carries) ds' := by
    intro h1 h2
    rw [List.filter_cons, if_neg (by simp [h2])] at h
    refine ⟨none, tb, ds, ?_, by simp [h2], h⟩
    cases s' <;> simp_all [carries, takeDelta]
  rcases hs with rfl | ⟨h1, h2⟩
  · cases hc : carries s' with
    | false =>
      obtain ⟨a, b, c, h1, h2, h3⟩ := hnc hc hc
      exact ⟨a, b, c, h1, by rw [h2, hc], h3⟩
    | true =>
      rw [List.filter_cons, if_pos hc] at h
      obtain ⟨d, ds', hd, ht, rfl⟩ := List.forall₂_cons_left_iff.1 h
      cases s' <;> cases d <;> simp_all [carries, takeDelta, Fits]
  · exact hnc h1 h2

theorem next_inv {it : Iter} (h : it.Inv) (hlt : it.baseSeq + it.index < it.lastSeq) {s : Status} {ss : List Status}
    (hr : it.rest = s :: ss) :
    ∃ st inst it', it.next = .ok (some ((it.baseSeq + it.index, st, inst), it')) ∧ inst.isSome = carries s ∧
      it'.Inv ∧ it'.rest = ss ∧ it'.baseSeq + it'.index = it.baseSeq + it.index + 1 ∧ it'.lastSeq = it.lastSeq := by
  obtain ⟨hsane, hi, hd, hidle⟩ := h
  obtain ⟨base, last, tb, index, chunks, delta⟩ := it
  simp only [Iter.rest] at hsane hi hd hr hlt hidle ⊢
  cases chunks with
  | nil => simp at hr
  | cons c cs =>
    have hgc := hsane c (by simp)
    have hic : index < c.statuses.length := hi c (by simp)
    rw [hr] at hd
    rw [List.flatMap_cons, List.drop_append_of_le_length (by omega), List.drop_eq_getElem_cons hic] at hr
    simp only [List.cons_append] at hr
    injection hr with hs1 hs2
    obtain ⟨st, hst, hst2⟩ := chunkStatus_sane hgc hic
    rw [hs1] at hst2
    obtain ⟨inst, tb', ds', htd, hin, hf⟩ := takeDelta_fits (tb := tb) hd hst2
    refine ⟨st, inst, if index + 1 = c.statuses.length then ⟨base + index + 1, last, tb', 0, cs, ds'⟩
        else ⟨base, last, tb', index + 1, c :: cs, ds'⟩, ?_, hin, ?_⟩
    · rw [Iter.next]
      simp only
      rw [if_neg (by omega)]
      simp only [hst, htd, bind_def, bind_ok]
      rfl
    · have hrest : (Iter.rest (if index + 1 = c.statuses.length then ⟨base + index + 1, last, tb', 0, cs, ds'⟩
        else ⟨base, last, tb', index + 1, c :: cs, ds'⟩)) = ss := by
        split
        · rename_i he
          rw [← hs2]
          simp only [Iter.rest, List.drop_zero]
          rw [List.drop_of_length_le (by omega)]; rfl
        · rename_i he
          rw [← hs2]
          simp only [Iter.rest, List.flatMap_cons]
          rw [List.drop_append_of_le_length (by omega)]
      refine ⟨⟨?_, ?_, ?_, ?_⟩, hrest, ?_, ?_⟩
      · split
        · exact fun d hd => hsane d (by simp [hd])
        · exact hsane
      · split
        · intro d hd
          exact (hsane d (by
            have := List.mem_of_mem_head? hd
            simp [this])).pos
        · rename_i he
          intro d hd
          simp only [List.head?_cons, Option.mem_def, Option.some.injEq] at hd ⊢
          subst hd; omega
      · rw [hrest]
        split <;> exact hf
      · split
        · intro _; rfl
        · intro h; cases h
      · split
        · rfl
        · simp only; omega
      · split <;> rfl

/-- The iterator tells the status of every sequence number, one after the other. -/
theorem collect_inv : ∀ (n : Nat) (it : Iter), it.Inv → it.baseSeq + it.index ≤ it.lastSeq →
    it.lastSeq ≤ it.baseSeq + it.index + it.rest.length → it.lastSeq - (it.baseSeq + it.index) < n →
    ∃ xs, Iter.collect n it = .ok xs ∧ xs.length = it.lastSeq - (it.baseSeq + it.index) ∧
      ∀ k x, xs[k]? = some x → x.1 = it.baseSeq + it.index + k ∧
        ∃ s, it.rest[k]? = some s ∧ x.2.2.isSome = carries s
  | 0, _, _, _, _, hn => by omega
  | n + 1, it, h, h1, h2, hn => by
    rw [Iter.collect]
    by_cases he : it.baseSeq + it.index = it.lastSeq
    · refine ⟨[], ?_, by simp; omega, by simp⟩
      rw [Iter.next]
      simp only
      rw [if_pos he]
      rfl
    · cases hr : it.rest with
      | nil => rw [hr] at h2; simp at h2; omega
      | cons s ss =>
        obtain ⟨st, inst, it', hnx, hin, hinv, hrest, hpos, hlast⟩ := next_inv h (by omega) hr
        rw [hr] at h2
        simp only [List.length_cons] at h2
        obtain ⟨xs, hc, hl, hx⟩ := collect_inv n it' hinv (by omega) (by rw [hrest]; omega) (by omega)
        rw [hnx, bind_def, bind_ok]
        simp only
        rw [hc, bind_def, bind_ok]
        refine ⟨_, rfl, by simp only [List.length_cons]; omega, ?_⟩
        intro k x hk
        cases k with
        | zero =>
          simp only [List.getElem?_cons_zero, Option.some.injEq] at hk
          subst hk
          exact ⟨by simp, s, by simp, hin⟩
        | succ k =>
          simp only [List.getElem?_cons_succ] at hk
          obtain ⟨e1, s', e2, e3⟩ := hx k x hk
          rw [hrest] at e2
          exact ⟨by omega, s', by simpa using e2, e3⟩

/-! ### What parsing guarantees -/

theorem and_le_mask (x k : Nat) : x &&& (2^k - 1) < 2^k := by
  rw [Nat.and_two_pow_sub_one_eq_mod]
  exact Nat.mod_lt _ (by positivity)

theorem Chunk.parse_wf {buf : List Byte} {c : Chunk} (h : Chunk.parse buf = .ok c) : c.WF := by
  unfold Chunk.parse at h
  split at h
  · cases h
  · cases hx : (rd16At buf 0 : Res Unit Nat) with
    | err | panic => rw [hx] at h; cases h
    | ok x =>
      rw [hx, bind_def, bind_ok] at h
      have h14 : x &&& 0x3fff < 2^14 := and_le_mask x 14
      have h13 : x &&& 0x1fff < 2^13 := and_le_mask x 13
      split at h
      · simp only at h
        split at h <;> cases h <;> exact ⟨h14, rfl⟩
      · cases h; exact h13

theorem parseChunks_ok : ∀ {fuel : Nat} {todo : Int} {buf : List Byte} {cs : List Chunk} {rest : List Byte},
    parseChunks fuel todo buf = .ok (cs, rest) →
    (∀ c ∈ cs, c.WF) ∧ todo ≤ ((cs.flatMap Chunk.statuses).length : Int)
  | 0, _, _, _, _, h => by cases h
  | fuel + 1, todo, buf, cs, rest, h => by
    rw [parseChunks] at h
    split at h
    · cases h; exact ⟨by simp, by simpa using ‹todo ≤ 0›⟩
    · cases hc : Chunk.parse buf with
      | err | panic => rw [hc] at h; cases h
      | ok c =>
        rw [hc, bind_def, bind_ok] at h
        cases hf : (Res.from_ buf 2 : Res Unit _) with
        | err | panic => rw [hf] at h; cases h
        | ok b =>
          rw [hf, bind_def, bind_ok] at h
          cases hp : parseChunks fuel (todo - c.maxStatus) b with
          | err | panic => rw [hp] at h; cases h
          | ok r =>
            obtain ⟨cs', rest'⟩ := r
            rw [hp, bind_def, bind_ok] at h
            obtain ⟨i1, i2⟩ := parseChunks_ok hp
            cases h
            refine ⟨?_, ?_⟩
            · intro d hd
              rcases List.mem_cons.1 hd with rfl | hd
              · exact Chunk.parse_wf hc
              · exact i1 d hd
            · rw [List.flatMap_cons, List.length_append, Chunk.statuses_length]
              push_cast
              omega

theorem readSmall_fits {buf : List Byte} {n : Nat} {d : List Delta} (h : readSmall buf n = .ok d) :
    List.Forall₂ Fits (List.replicate n .small) d := by
  unfold readSmall at h
  split at h
  · cases h
  · rename_i hnb
    cases h
    have : n = (buf.take n).length := by rw [List.length_take]; omega
    clear hnb
    generalize hb : buf.take n = b at *
    subst this
    clear hb
    induction b with
    | nil => exact .nil
    | cons a b ih => exact .cons (by simp [Fits]) ih

theorem rdI16_range (a b : Byte) : -32768 ≤ rdI16 a b ∧ rdI16 a b ≤ 32767 := by
  have : rd16 a b < 65536 := by simp only [rd16]; omega
  unfold rdI16
  split <;> omega

theorem largePairs_fits : ∀ (n : Nat) (buf : List Byte), n * 2 ≤ buf.length →
    List.Forall₂ Fits (List.replicate n .large) (largePairs n buf)
  | 0, _, _ => .nil
  | n + 1, a :: b :: rest, h => by
    rw [List.replicate_succ, largePairs]
    exact .cons (rdI16_range a b) (largePairs_fits n rest (by simp at h; omega))
  | n + 1, [], h => by simp at h
  | n + 1, [a], h => by simp at h; omega

theorem readLarge_fits {buf : List Byte} {n : Nat} {d : List Delta} (h : readLarge buf n = .ok d) :
    List.Forall₂ Fits (List.replicate n .large) d := by
  unfold readLarge at h
  split at h
  · cases h
  · cases h
    exact largePairs_fits n buf (by omega)

theorem forall₂_append {α β : Type} {R : α → β → Prop} {a b : List α} {c d : List β}
    (h1 : List.Forall₂ R a c) (h2 : List.Forall₂ R b d) : List.Forall₂ R (a ++ b) (c ++ d) := by
  induction h1 with
  | nil => exact h2
  | cons h _ ih => exact .cons h ih

theorem parseDouble_fits (v : Nat) : ∀ {is : List Nat} {buf : List Byte} {ds : List Delta} {rest : List Byte},
    parseDouble v is buf = .ok (ds, rest) →
    List.Forall₂ Fits ((is.map (doubleStatus v)).filter carries) ds
  | [], _, _, _, h => by cases h; exact .nil
  | i :: is, buf, ds, rest, h => by
    rw [parseDouble] at h
    split at h
    · rename_i hs
      cases h1 : readSmall buf 1 with
      | err | panic => rw [h1] at h; cases h
      | ok d =>
        rw [h1, bind_def, bind_ok] at h
        cases h2 : (Res.from_ buf 1 : Res Unit _) with
        | err | panic => rw [h2] at h; cases h
        | ok b =>
          rw [h2, bind_def, bind_ok] at h
          cases h3 : parseDouble v is b with
          | err | panic => rw [h3] at h; cases h
          | ok r =>
            rw [h3, bind_def, bind_ok] at h
            obtain ⟨ds', r'⟩ := r
            cases h
            have := forall₂_append (readSmall_fits h1) (parseDouble_fits v h3)
            rw [List.map_cons, hs, List.filter_cons, if_pos (by simp [carries])]
            exact this
    · rename_i hs
      cases h1 : readLarge buf 1 with
      | err | panic => rw [h1] at h; cases h
      | ok d =>
        rw [h1, bind_def, bind_ok] at h
        cases h2 : (Res.from_ buf 2 : Res Unit _) with
        | err | panic => rw [h2] at h; cases h
        | ok b =>
          rw [h2, bind_def, bind_ok] at h
          cases h3 : parseDouble v is b with
          | err | panic => rw [h3] at h; cases h
          | ok r =>
            rw [h3, bind_def, bind_ok] at h
            obtain ⟨ds', r'⟩ := r
            cases h
            have := forall₂_append (readLarge_fits h1) (parseDouble_fits v h3)
            rw [List.map_cons, hs, List.filter_cons, if_pos (by simp [carries])]
            exact this
    · rename_i h1 h2
      rw [List.map_cons, List.filter_cons, if_neg]
      · exact parseDouble_fits v h
      · simp only [carries, decide_eq_true_eq]
        rintro (h' | h')
        · exact h1 h'
        · exact h2 h'

theorem parseChunkDeltas_fits {c : Chunk} {buf : List Byte} {ds : List Delta} {rest : List Byte} (hw : c.WF)
    (h : parseChunkDeltas c buf = .ok (ds, rest)) :
    List.Forall₂ Fits (c.statuses.filter carries) ds := by
  have hread : ∀ {f : List Byte → Nat → Res Unit (List Delta)} {n : Nat},
      (do let d ← f buf n
          let buf ← Res.from_ buf n
          pure (d, buf)) = Res.ok (ds, rest) → f buf n = .ok ds := by
    intro f n h
    cases h1 : f buf n with
    | err | panic => rw [h1] at h; cases h
    | ok d =>
      rw [h1, bind_def, bind_ok] at h
      cases h2 : (Res.from_ buf n : Res Unit _) with
      | err | panic => rw [h2] at h; cases h
      | ok b => rw [h2, bind_def, bind_ok] at h; cases h; rfl
  cases c with
  | run s n =>
    rw [Chunk.statuses, carries_replicate]
    cases s with
    | notReceived => cases h; exact .nil
    | unknown => cases h; exact .nil
    | small =>
      rw [if_pos (by simp [carries])]
      exact readSmall_fits (hread h)
    | large =>
      rw [if_pos (by simp [carries])]
      exact readLarge_fits (hread h)
  | single v f =>
    rw [single_count hw.1]
    exact readSmall_fits (hread h)
  | double v f =>
    rw [double_statuses]
    exact parseDouble_fits v h

theorem parseDeltas_fits : ∀ {cs : List Chunk} {buf : List Byte} {ds : List Delta}, (∀ c ∈ cs, c.WF) →
    parseDeltas cs buf = .ok ds →
    List.Forall₂ Fits ((cs.flatMap Chunk.statuses).filter carries) ds
  | [], _, _, _, h => by cases h; exact .nil
  | c :: cs, buf, ds, hw, h => by
    rw [parseDeltas] at h
    cases h1 : parseChunkDeltas c buf with
    | err | panic => rw [h1] at h; cases h
    | ok r =>
      obtain ⟨d, b⟩ := r
      rw [h1, bind_def, bind_ok] at h
      simp only at h
      cases h2 : parseDeltas cs b with
      | err | panic => rw [h2] at h; cases h
      | ok ds' =>
        rw [h2, bind_def, bind_ok] at h
        cases h
        rw [List.flatMap_cons, List.filter_append]
        exact forall₂_append (parseChunkDeltas_fits (hw c (by simp)) h1)
          (parseDeltas_fits (fun c hc => hw c (by simp [hc])) h2)

theorem rd16At_lt {buf : List Byte} {i v : Nat} (h : (rd16At buf i : Res Unit Nat) = .ok v) : v < 65536 := by
  unfold rd16At at h
  cases h1 : (Res.idx buf i : Res Unit Byte) with
  | err | panic => rw [h1] at h; cases h
  | ok a =>
    rw [h1, bind_def, bind_ok] at h
    cases h2 : (Res.idx buf (i + 1) : Res Unit Byte) with
    | err | panic => rw [h2] at h; cases h
    | ok b =>
      rw [h2, bind_def, bind_ok] at h
      cases h
      simp only [rd16]
      omega

theorem Report.parse_ok {buf : List Byte} {t : Report} (h : Report.parse buf = .ok t) :
    (∀ c ∈ t.chunks, c.WF) ∧ t.statusCount ≤ (t.chunks.flatMap Chunk.statuses).length ∧
      Match (t.chunks.flatMap Chunk.statuses) t.delta ∧ t.statusCount < 65536 := by
  unfold Report.parse at h
  split at h
  · cases h
  · cases h1 : (rd32At buf 0 : Res Unit Nat) with
    | err | panic => rw [h1] at h; cases h
    | ok a1 =>
    rw [h1, bind_def, bind_ok] at h
    cases h2 : (rd32At buf 4 : Res Unit Nat) with
    | err | panic => rw [h2] at h; cases h
    | ok a2 =>
    rw [h2, bind_def, bind_ok] at h
    cases h3 : (rd16At buf 8 : Res Unit Nat) with
    | err | panic => rw [h3] at h; cases h
    | ok a3 =>
    rw [h3, bind_def, bind_ok] at h
    cases h4 : (rd16At buf 10 : Res Unit Nat) with
    | err | panic => rw [h4] at h; cases h
    | ok a4 =>
    rw [h4, bind_def, bind_ok] at h
    cases h5 : (rd24At buf 12 : Res Unit Nat) with
    | err | panic => rw [h5] at h; cases h
    | ok a5 =>
    rw [h5, bind_def, bind_ok] at h
    cases h6 : (Res.idx buf 15 : Res Unit Byte) with
    | err | panic => rw [h6] at h; cases h
    | ok a6 =>
    rw [h6, bind_def, bind_ok] at h
    cases h7 : (Res.from_ buf 16 : Res Unit (List Byte)) with
    | err | panic => rw [h7] at h; cases h
    | ok a7 =>
    rw [h7, bind_def, bind_ok] at h
    cases h8 : parseChunks (a7.length + 1) a4 a7 with
    | err | panic => rw [h8] at h; cases h
    | ok a8 =>
    rw [h8, bind_def, bind_ok] at h
    simp only at h
    cases h9 : parseDeltas a8.1 a8.2 with
    | err | panic => rw [h9] at h; cases h
    | ok a9 =>
    rw [h9, bind_def, bind_ok] at h
    cases h
    obtain ⟨e1, e2⟩ := parseChunks_ok (cs := a8.1) (rest := a8.2) h8
    exact ⟨e1, by simp only; omega, parseDeltas_fits e1 h9, rd16At_lt h4⟩

end Str0m.Twcc
