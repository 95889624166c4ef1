import Verif.Proofs.TwccDecode
/-
  When there is room, building a report does not panic and reports everything.
-/
namespace Str0m.Twcc
open Res

theorem fillChunk_total : ∀ (is : List Interim) (c : Chunk) (todo bytes count : Nat),
    (∀ i ∈ is, i.OK) → c.Inv → todo + (appendMaxLoop c is).1.free = c.free →
    7 + 2 * is.length ≤ bytes → count + (expand is).length ≤ 65535 →
    ∃ f, fillChunk c todo bytes count is = .ok f ∧ f.chunk = (appendMaxLoop c is).1 ∧
      ((appendMaxLoop c is).2 = true → 0 < f.chunk.free → f.interims = []) ∧
      bytes ≤ f.bytes + 2 * (is.length - f.interims.length) ∧
      (∀ i, is.head? = some i → i.size ≤ todo → f.interims.length < is.length)
  | [], c, todo, bytes, count, _, _, _, _, _ => by
    exact ⟨_, rfl, rfl, fun _ _ => rfl, by simp, by simp⟩
  | i :: is, c, todo, bytes, count, ho, hc, ht, hb, hn => by
    have hi := ho i (by simp)
    have his : ∀ j ∈ is, j.OK := fun j hj => ho j (by simp [hj])
    have hsz := hi.size
    rw [expand_cons, List.length_append, Interim.expand_length] at hn
    simp only [List.length_cons] at hb
    rw [fillChunk]
    by_cases ht0 : todo = 0
    · rw [if_pos (by omega)]
      refine ⟨_, rfl, ?_, ?_, by simp, ?_⟩
      · simp only
        rw [appendMaxLoop] at ht ⊢
        split
        · rfl
        rename_i hfree
        rw [if_neg hfree] at ht
        split
        · rfl
        rename_i hcan
        rw [if_neg hcan] at ht
        exfalso
        obtain ⟨ha, hinv, hcont, hfr, hfull⟩ := append_can hi hc (by simpa using hcan)
        have := (appendMaxLoop_ok (is := is) his hinv).2.1
        omega
      · simp only
        intro h1 h2
        exfalso
        rw [appendMaxLoop] at h1 ht
        rw [if_neg (by omega)] at h1 ht
        split at h1
        · simp at h1
        · rename_i hcan
          rw [if_neg hcan] at ht
          obtain ⟨ha, hinv, hcont, hfr, hfull⟩ := append_can hi hc (by simpa using hcan)
          have := (appendMaxLoop_ok (is := is) his hinv).2.1
          omega
      · intro j hj hle
        simp only [List.head?_cons, Option.some.injEq] at hj
        subst hj; omega
    rw [if_neg (by omega)]
    have hloop : appendMaxLoop c (i :: is) = appendMaxLoop (c.append i).1 is ∧ 0 < c.free ∧
        c.canAppend i.status = true := by
      rw [appendMaxLoop] at ht
      by_cases hfree : c.free = 0
      · omega
      by_cases hcan : c.canAppend i.status = true
      · refine ⟨?_, by omega, hcan⟩
        rw [appendMaxLoop, if_neg hfree, if_neg (by simpa using hcan)]
      · rw [if_neg hfree, if_pos hcan] at ht
        simp at ht
        omega
    obtain ⟨hl, hfp, hcan⟩ := hloop
    obtain ⟨ha, hinv, hcont, hfr, hfull⟩ := append_can hi hc hcan
    have hmono := (appendMaxLoop_ok (is := is) his hinv).2.1
    rw [hl] at ht ⊢
    simp only
    rw [if_neg (by omega)]
    cases i with
    | missing m =>
      simp only [Interim.size] at ha hfr hn hsz
      simp only
      rw [if_neg (by omega)]
      by_cases hz : m - (c.append (.missing m)).2 = 0
      · rw [if_pos hz]
        obtain ⟨f, h1, h2, h3, h4, h5⟩ := fillChunk_total is (c.append (.missing m)).1
          (todo - (c.append (.missing m)).2) bytes (count + (c.append (.missing m)).2) his hinv (by omega) (by omega)
          (by omega)
        have hlen := (fillChunk_ok his hinv h1).choose_spec.1.len
        refine ⟨f, h1, h2, h3, by simp only [List.length_cons]; omega, fun _ _ _ => by simp only [List.length_cons]; omega⟩
      · rw [if_neg hz, if_neg (by omega)]
        have hfree0 : (c.append (.missing m)).1.free = 0 := by omega
        have hstop : (appendMaxLoop (c.append (.missing m)).1 is).1 = (c.append (.missing m)).1 := by
          cases is with
          | nil => rfl
          | cons j js => rw [appendMaxLoop, if_pos hfree0]
        refine ⟨_, rfl, hstop.symm, ?_, by simp, ?_⟩
        · intro _ h; simp only at h; omega
        · intro j hj hle
          simp only [List.head?_cons, Option.some.injEq] at hj
          subst hj
          simp only [Interim.size] at hle
          omega
    | received s t =>
      simp only [Interim.size] at ha hfr hn hsz
      obtain ⟨d, hd, _, hdl⟩ := delta_ok hi
      simp only [hd]
      rw [if_neg (by omega)]
      obtain ⟨f, h1, h2, h3, h4, h5⟩ := fillChunk_total is (c.append (.received s t)).1
          (todo - 1) (bytes - d.byteLen) (count + 1) his hinv (by omega) (by omega)
          (by omega)
      have hlen := (fillChunk_ok his hinv h1).choose_spec.1.len
      rw [h1]
      exact ⟨_, rfl, h2, h3, by simp only [List.length_cons]; omega, fun _ _ _ => by simp only [List.length_cons]; omega⟩

theorem size_sum_ge : ∀ {is : List Interim}, (∀ i ∈ is, i.OK) → is.length ≤ (is.map Interim.size).sum
  | [], _ => by simp
  | i :: is, h => by
    have h1 := (h i (by simp)).size
    have h2 := size_sum_ge (fun j hj => h j (List.mem_cons_of_mem _ hj)) (is := is)
    simp only [List.length_cons, List.map_cons, List.sum_cons]
    omega

theorem buildChunks_total : ∀ (fuel : Nat) (is : List Interim) (bytes count : Nat),
    (∀ i ∈ is, i.OK) → is.length < fuel → 19 + 4 * is.length ≤ bytes →
    count + (expand is).length ≤ 65535 →
    ∃ r, buildChunks fuel bytes count is = .ok r ∧ r.count = count + (expand is).length
  | 0, _, _, _, _, h, _, _ => by omega
  | fuel + 1, [], bytes, count, _, _, _, _ => by
    rw [buildChunks, if_pos (by simp)]
    exact ⟨_, rfl, by simp [expand]⟩
  | fuel + 1, i :: is, bytes, count, ho, hfuel, hb, hn => by
    simp only [List.length_cons] at hb hfuel
    rw [buildChunks, if_neg (by simp; omega)]
    obtain ⟨hinv, hcont, htodo, htm⟩ := chooseChunk_ok (bytes := bytes) ho
    generalize hch : chooseChunk (i :: is) bytes = ch at *
    obtain ⟨c, todo⟩ := ch
    simp only at hinv hcont htodo htm ⊢
    have hsz := (ho i (by simp)).size
    have hmono := appendMaxLoop_ok ho hinv
    -- the vector rule did not apply
    have hrule : ¬ ((appendMaxLoop c (i :: is)).1.mustBeFull = true ∧ (appendMaxLoop c (i :: is)).1.free > 0 ∧
        ¬ (appendMaxLoop c (i :: is)).2 = true) := by
      intro h
      rw [Chunk.appendMax, if_pos h] at htm
      omega
    rw [Chunk.appendMax, if_neg hrule] at htm
    obtain ⟨f, h1, h2, h3, h4, h5⟩ := fillChunk_total (i :: is) c todo bytes count ho hinv (by omega)
      (by simp only [List.length_cons]; omega) hn
    have hlt := h5 i rfl htodo
    simp only [List.length_cons] at hlt h4
    rw [h1, bind_def, bind_ok]
    obtain ⟨k, hk, hk2⟩ := fillChunk_ok ho hinv h1
    obtain ⟨c', hp⟩ : ∃ c', padChunk f.chunk f.interims = .ok c' := by
      unfold padChunk
      split
      · rename_i hm
        rw [if_pos]
        · exact ⟨_, rfl⟩
        · apply h3 _ hm.2
          by_contra hc
          exact hrule ⟨h2 ▸ hm.1, h2 ▸ hm.2, hc⟩
      · exact ⟨_, rfl⟩
    rw [hp, bind_def, bind_ok, if_neg (by omega)]
    have hrest := hk.rest
    have hkle := hk.le
    have hl : (expand f.interims).length = (expand (i :: is)).length - k := by rw [hrest, List.length_drop]
    obtain ⟨r, hr, hrc⟩ := buildChunks_total fuel f.interims (f.bytes - 2) f.count hk.ok (by omega) (by omega)
      (by rw [hk.count]; omega)
    rw [hr]
    refine ⟨_, rfl, ?_⟩
    simp only
    rw [hrc, hk.count]; omega

/-! ### Which arrivals are reported -/

theorem reported : ∀ (rs : List Receipt) (ps pt st k : Nat),
    (∀ r ∈ rs, st ≤ r.seq) → rs.Pairwise (fun a b => a.seq < b.seq) →
    (st = ps + 1 ∨ (st = ps ∧ ∀ r ∈ rs.head?, r.seq = ps)) →
    (((expand (buildInterims ps pt rs)).take k).filterMap Prod.snd).length ≤ rs.length ∧
    ∀ r ∈ rs.take (((expand (buildInterims ps pt rs)).take k).filterMap Prod.snd).length,
      r.seq - st < k ∧ ∃ e, (expand (buildInterims ps pt rs))[r.seq - st]? = some e ∧ carries e.1 = true
  | [], ps, pt, st, k, _, _, _ => by simp [buildInterims, expand]
  | r :: rs, ps, pt, st, k, hst, hsort, hps => by
    have hr := hst r (by simp)
    have hsort' := (List.pairwise_cons.1 hsort)
    have hgap : expand (if r.seq - ps > 1 then splitMissing (r.seq - ps - 1) else []) =
        List.replicate (r.seq - st) (.notReceived, Option.none) := by
      split
      · rw [expand_splitMissing]
        congr 1
        rcases hps with h | ⟨h, h2⟩
        · omega
        · have := h2 r (by simp); omega
      · rw [expand_nil]
        have : r.seq - st = 0 := by
          rcases hps with h | ⟨h, h2⟩
          · omega
          · have := h2 r (by simp); omega
        rw [this]; rfl
    generalize hg : r.seq - st = g at *
    have hex : expand (buildInterims ps pt (r :: rs)) = List.replicate g (.notReceived, Option.none) ++
        expand (match classify (diffTime r.time pt) with
         | Option.none => []
         | Option.some (s, t) => .received s t :: buildInterims r.seq r.time rs) := by
      rw [buildInterims, expand_append, hgap]
      rfl
    rw [hex]
    rw [List.take_append, List.take_replicate, List.length_replicate, List.filterMap_append]
    have h0 : List.filterMap Prod.snd (List.replicate (min k g) (Status.notReceived, (Option.none : Option Delta))) = [] := by
      rw [List.filterMap_eq_nil_iff]
      intro a ha
      rw [(List.mem_replicate.1 ha).2]
    rw [h0, List.nil_append]
    cases hc : classify (diffTime r.time pt) with
    | none => simp [expand]
    | some p =>
      obtain ⟨s, t⟩ := p
      simp only
      obtain ⟨hok, _⟩ := classify_ok hc
      obtain ⟨d, hd, hfit, _⟩ := delta_ok hok
      have hexp : expand (.received s t :: buildInterims r.seq r.time rs) =
          (s, some d) :: expand (buildInterims r.seq r.time rs) := by
        rw [expand_cons, Interim.expand, hd]; rfl
      rw [hexp]
      rcases Nat.eq_zero_or_pos (k - g) with hz | hz
      · rw [hz]; simp
      obtain ⟨k', hk'⟩ : ∃ k', k - g = k' + 1 := ⟨k - g - 1, by omega⟩
      rw [hk', List.take_succ_cons, List.filterMap_cons]
      simp only [List.length_cons]
      obtain ⟨ih1, ih2⟩ := reported rs r.seq r.time (r.seq + 1) k' (fun a ha => hsort'.1 a ha) hsort'.2 (Or.inl rfl)
      refine ⟨by omega, ?_⟩
      intro a ha
      rw [List.take_succ_cons] at ha
      rcases List.mem_cons.1 ha with rfl | ha
      · refine ⟨by omega, (s, some d), ?_, ?_⟩
        · rw [hg, List.getElem?_append_right (by simp)]; simp
        · rcases hok with h | h <;> simp [h.1, carries]
      · obtain ⟨h1, e, he, hce⟩ := ih2 a ha
        have hlt := hsort'.1 a (List.mem_of_mem_take ha)
        refine ⟨by omega, e, ?_, hce⟩
        rw [List.getElem?_append_right (by simp; omega), List.length_replicate]
        rw [show a.seq - st - g = (a.seq - (r.seq + 1)) + 1 by omega, List.getElem?_cons_succ]
        exact he

end Str0m.Twcc
