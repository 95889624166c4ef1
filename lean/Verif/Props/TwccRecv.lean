import Verif.Proofs.TwccHist
import Verif.Props.Extend
/-
  C16: transport wide feedback is faithful.
-/
namespace Str0m.Twcc
open Res

/-! ### C16 -/

/-- C16 (partial). Whatever arrived, in whatever order and at whatever times, and whatever
reports were built before: when a report is built, and the sender decodes it with a sequence
number within 32768 of the report's first one, then every item is decoded, for consecutive
sequence numbers from `base`, `status_count` of them and at least one; a packet reported lost
is not registered as received; a packet reported received did arrive, and the decoded time
(relative to the sender's zero) differs from the arrival time (relative to the receiver's zero)
by less than 250 us times the number of packets reported received so far. The message fits
`max` with its padding.

Partial: the error is not below 250 us for every packet, but accumulates over the report
(`C16_violation_error`); a packet whose registration was discarded after it was reported can be
reported lost later (`C16_violation_forgotten`); and `build_report` can panic
(`C16_violation_panic`, `C16_violation_overflow`, but see `C16_total_partial`). `room` says that
the decoded times are not before the origin of the sender's clock. -/
theorem C16_faithful_partial {keep : Nat} {arr : List (Nat × Nat)} {sent : List (Nat × Report)}
    {s s' : Recv} {max : Nat} {rep : Report}
    (hist : History keep arr sent s) (h : s.buildReport max = .ok (some rep, s')) :
    ∃ base ts, s'.timeStart = some ts ∧ rep.baseSeq = base % 2^16 ∧ 0 < rep.statusCount ∧
      rep.statusCount < 2^16 ∧ 20 + rep.bodyLen + padLen (20 + rep.bodyLen) ≤ max ∧
      ∀ timeZero ext,
        ext < 2^64 → base < 2^64 → base < ext + 32768 → ext < base + 32768 →
        (room : ∀ r ∈ s.queue, ts + 250000 * s.queue.length ≤ timeZero + r.time) →
        ∃ items, rep.items timeZero ext = .ok items ∧ items.length = rep.statusCount ∧
          ∀ j x, items[j]? = some x →
            x.1 = base + j ∧
            (x.2.2 = none → x.2.1 = .notReceived ∧ ∀ r ∈ s.queue, r.seq ≠ x.1) ∧
            (∀ t : Nat, x.2.2 = some t → (x.2.1 = .small ∨ x.2.1 = .large) ∧
              ∃ r ∈ s.queue, r.seq = x.1 ∧ (r.seq, r.time) ∈ arr ∧
                |((t : Int) - timeZero) - ((r.time : Int) - ts)| < 250000 * (receivedUpTo items j : Nat)) := by
  have inv := history_inv hist
  obtain ⟨first, ts, k, p, b, hr⟩ := buildReport_some h
  obtain ⟨rest, hdrop⟩ := drop_cons hr.atFrom
  have hk := hr.built
  have hsd : Sorted (s.queue.drop s.reportFrom) := List.Pairwise.sublist (List.drop_sublist _ _) inv.sorted
  have hge : ∀ r ∈ s.queue.drop s.reportFrom, first.seq ≤ r.seq := by
    intro r hr
    rw [hdrop] at hr hsd
    rcases List.mem_cons.1 hr with rfl | hr
    · exact le_refl _
    · exact le_of_lt ((List.pairwise_cons.1 hsd).1 r hr)
  have hbc : b.chunks ≠ [] := by
    intro hc
    have h0 := congrArg List.length hk.statuses
    have := hk.le
    have := hr.pos
    rw [hc] at h0
    simp only [List.flatMap_nil, List.length_nil, List.length_append, List.length_map, List.length_take] at h0
    omega
  refine ⟨first.seq, ts, hr.timeStart, hr.base, by rw [hr.count]; exact hr.pos, ?_, ?_, ?_⟩
  · have h1 := hk.bound (by omega)
    have h2 := hk.count
    rw [hr.count]; omega
  · have h1 := hk.used
    have h2 := hk.spare hbc
    have h3 := hr.size
    have h4 : rep.bodyLen = 2 * b.chunks.length + dbytes b.delta := by
      rw [Report.bodyLen, hr.chunks, hr.delta]; simp only [dbytes]; omega
    have h5 : padLen (20 + rep.bodyLen) ≤ 3 := by unfold padLen; split <;> omega
    omega
  · intro timeZero ext he hb0 hn1 hn2 room
    have hext : extendU16 (some ext) rep.baseSeq = first.seq := by
      apply C01_extend_recovers 16 ext first.seq rep.baseSeq (by omega) (by omega) he hb0 (by omega) (by omega)
      rw [hr.base]; omega
    generalize hE : (expand (buildInterims first.seq (ts + rep.referenceTime * 64000 * 1000)
      (s.queue.drop s.reportFrom))).take k = E at *
    have hEl : E.length = k := by rw [← hE, List.length_take, Nat.min_eq_left hk.le]
    refine ⟨decodeE first.seq (timeZero + rep.referenceTime * 64 * 1000000) E, ?_, by
      rw [decodeE_length, hEl, hr.count], ?_⟩
    · have hst := hk.statuses
      have hdl := hk.delta
      rw [hE] at hst hdl
      have := collect_ok E (rep.intoIter timeZero ext) (List.replicate p .notReceived)
        (by
          intro e he
          rw [← hE] at he
          exact expand_ok (buildInterims_ok _ _ _) e (List.mem_of_mem_take he))
        (by simp only [Report.intoIter]; rw [hEl, hr.count]; omega)
        (by simp only [Report.intoIter]; rw [hr.chunks]; exact hk.good)
        (by
          intro c hc
          simp only [Report.intoIter] at hc ⊢
          rw [hr.chunks] at hc
          exact (hk.good c (List.mem_of_mem_head? hc)).pos)
        (by simp only [Report.intoIter, List.drop_zero]; rw [hr.chunks]; exact hst)
        (by simp only [Report.intoIter]; rw [hr.delta]; exact hdl)
      rw [Report.items, hr.count, ← hEl, this]
      simp only [Report.intoIter, hext, Nat.add_zero]
    · intro j x hx
      have hsay := interims_say (s.queue.drop s.reportFrom) first.seq (ts + rep.referenceTime * 64000 * 1000)
        first.seq (timeZero + rep.referenceTime * 64 * 1000000) k 0 ((timeZero : Int) - ts) hge hsd
        (Or.inr ⟨rfl, by rw [hdrop]; simp⟩)
        (by
          intro r hr'
          have := room r (List.mem_of_mem_drop hr')
          rw [List.length_drop]
          omega)
        (by push_cast; rw [abs_le]; constructor <;> omega) j x (by rw [hE]; exact hx)
      rw [hE] at hsay
      refine ⟨hsay.seq, fun hn => ⟨(hsay.none hn).1, ?_⟩, fun t ht => ?_⟩
      · intro r hmem
        rw [← List.take_append_drop s.reportFrom s.queue] at hmem
        rcases List.mem_append.1 hmem with hmem | hmem
        · -- entries before the first one have smaller sequence numbers
          have hlt : r.seq < first.seq := by
            have hs := inv.sorted
            rw [← List.take_append_drop s.reportFrom s.queue, Sorted, List.pairwise_append] at hs
            exact hs.2.2 r hmem first (by rw [hdrop]; simp)
          have := hsay.seq
          omega
        · exact (hsay.none hn).2 r hmem
      · obtain ⟨h1, r, hmem, h2, h3⟩ := hsay.some t ht
        have hq := List.mem_of_mem_drop hmem
        refine ⟨h1, r, hq, h2, inv.mem r hq, ?_⟩
        rw [Nat.zero_add] at h3
        convert h3 using 2
        ring

/-- Every arrival is accounted for, at every point of every history: it is registered (and
will be in the next report that covers it), or an earlier report said it was received, or it
arrived more than 8.192 s before the first reported packet (which the report format cannot
express). -/
theorem C16_accounted {keep : Nat} {arr : List (Nat × Nat)} {sent : List (Nat × Report)} {s : Recv}
    (hist : History keep arr sent s) : ∀ a ∈ arr,
    (∃ r ∈ s.queue, r.seq = a.1) ∨ (∃ p ∈ sent, SaysReceived p a.1) ∨
    ∃ ts, s.timeStart = some ts ∧ a.2 + 8192 * 1000000 ≤ ts :=
  (history_inv hist).all

/-- What is registered and not pending was reported as received. -/
theorem C16_reported {keep : Nat} {arr : List (Nat × Nat)} {sent : List (Nat × Report)} {s : Recv}
    (hist : History keep arr sent s) (hu : s.hasUnreported = false) :
    ∀ r ∈ s.queue, ∃ p ∈ sent, SaysReceived p r.seq := by
  have inv := history_inv hist
  have : s.queue.take s.reportFrom = s.queue := by
    apply List.take_of_length_le
    simp [Recv.hasUnreported] at hu
    omega
  intro r hr
  exact inv.done r (by rw [this]; exact hr)

/-! ### Totality -/

theorem splitMissing_length (n : Nat) : (splitMissing n).length ≤ n / 8192 + 1 := by
  rw [splitMissing]; split <;> simp

theorem buildInterims_length : ∀ (rs : List Receipt) (ps pt N : Nat), (∀ r ∈ rs, ps ≤ r.seq ∧ r.seq ≤ ps + N) →
    rs.Pairwise (fun a b => a.seq < b.seq) → (buildInterims ps pt rs).length ≤ 2 * rs.length + N / 8192
  | [], _, _, _, _, _ => by simp [buildInterims]
  | r :: rs, ps, pt, N, h, hs => by
    have hr := h r (by simp)
    have hs' := List.pairwise_cons.1 hs
    rw [buildInterims, List.length_append]
    have hgap : (if r.seq - ps > 1 then splitMissing (r.seq - ps - 1) else []).length ≤ (r.seq - ps) / 8192 + 1 := by
      split
      · exact le_trans (splitMissing_length _) (by omega)
      · simp
    have ih := buildInterims_length rs r.seq r.time (N - (r.seq - ps))
      (fun a ha => ⟨le_of_lt (hs'.1 a ha), by have := h a (by simp [ha]); omega⟩) hs'.2
    cases hc : classify (diffTime r.time pt) with
    | none => simp only [List.length_nil, List.length_cons]; omega
    | some q => simp only [List.length_cons]; omega

theorem buildInterims_expand : ∀ (rs : List Receipt) (ps pt N : Nat), (∀ r ∈ rs, ps ≤ r.seq ∧ r.seq ≤ ps + N) →
    rs.Pairwise (fun a b => a.seq < b.seq) → (expand (buildInterims ps pt rs)).length ≤ N + 1
  | [], _, _, _, _, _ => by simp [buildInterims, expand]
  | r :: rs, ps, pt, N, h, hs => by
    have hr := h r (by simp)
    have hs' := List.pairwise_cons.1 hs
    rw [buildInterims, expand_append, List.length_append]
    have hgap : (expand (if r.seq - ps > 1 then splitMissing (r.seq - ps - 1) else [])).length ≤ (r.seq - ps) - 1 := by
      split
      · rw [expand_splitMissing]; simp
      · simp [expand]
    cases hc : classify (diffTime r.time pt) with
    | none => simp only [expand_nil, List.length_nil]; omega
    | some q =>
      obtain ⟨s, t⟩ := q
      simp only [expand_cons, List.length_append, Interim.expand_length, Interim.size]
      cases rs with
      | nil => simp only [buildInterims, expand_nil, List.length_nil]; omega
      | cons r2 rs2 =>
        have h2 := hs'.1 r2 (by simp)
        have hN := h r2 (by simp)
        -- from the second packet on the gap is counted from `r.seq`
        have ih : (expand (buildInterims r.seq r.time (r2 :: rs2))).length ≤ N - (r.seq - ps) := by
          exact le_trans (buildInterims_expand' (r2 :: rs2) r.seq r.time (N - (r.seq - ps))
            (fun a ha => ⟨hs'.1 a ha, by have := h a (by simp [ha]); omega⟩) hs'.2) (le_refl _)
        omega
where
  buildInterims_expand' : ∀ (rs : List Receipt) (ps pt N : Nat), (∀ r ∈ rs, ps < r.seq ∧ r.seq ≤ ps + N) →
      rs.Pairwise (fun a b => a.seq < b.seq) → (expand (buildInterims ps pt rs)).length ≤ N
    | [], _, _, _, _, _ => by simp [buildInterims, expand]
    | r :: rs, ps, pt, N, h, hs => by
      have hr := h r (by simp)
      have hs' := List.pairwise_cons.1 hs
      rw [buildInterims, expand_append, List.length_append]
      have hgap : (expand (if r.seq - ps > 1 then splitMissing (r.seq - ps - 1) else [])).length ≤ (r.seq - ps) - 1 := by
        split
        · rw [expand_splitMissing]; simp
        · simp [expand]
      cases hc : classify (diffTime r.time pt) with
      | none => simp only [expand_nil, List.length_nil]; omega
      | some q =>
        obtain ⟨s, t⟩ := q
        simp only [expand_cons, List.length_append, Interim.expand_length, Interim.size]
        have ih := buildInterims_expand' rs r.seq r.time (N - (r.seq - ps))
            (fun a ha => ⟨hs'.1 a ha, by have := h a (by simp [ha]); omega⟩) hs'.2
        omega

/-- Building a report does not panic when the pending packets span at most 65535 sequence
numbers and the size limit leaves 8 bytes for each of them (and 71 more). And when the pending
packets arrived within 8 s of each other, after the first packet ever reported, then nothing
is left pending. (Partial: there is no such guarantee beyond, see the violations below.) -/
theorem C16_total_partial {keep : Nat} {arr : List (Nat × Nat)} {sent : List (Nat × Report)} {s : Recv} {max : Nat}
    (hist : History keep arr sent s)
    (span : ∀ a ∈ s.queue.drop s.reportFrom, ∀ b ∈ s.queue.drop s.reportFrom, b.seq < a.seq + 65535)
    (hmax : max ≤ 10000) (room : 71 + 8 * (s.queue.drop s.reportFrom).length ≤ max) :
    ∃ o s', s.buildReport max = .ok (o, s') ∧
      (∀ first ts, s.queue[s.reportFrom]? = some first → ts = s.timeStart.getD first.time →
        (∀ r ∈ s.queue.drop s.reportFrom, ts ≤ r.time ∧ r.time < ts + 2^57 ∧
          ∀ r' ∈ s.queue.drop s.reportFrom, r'.time ≤ r.time + 8000000000) →
        s'.hasUnreported = false) := by
  have inv := history_inv hist
  unfold Recv.buildReport
  rw [if_neg (by omega)]
  cases hq : s.queue[s.reportFrom]? with
  | none =>
    exact ⟨none, s, rfl, fun f _ hf => by cases hf⟩
  | some first =>
    obtain ⟨rest, hdrop⟩ := drop_cons hq
    have hsd : Sorted (s.queue.drop s.reportFrom) := List.Pairwise.sublist (List.drop_sublist _ _) inv.sorted
    have hge : ∀ r ∈ s.queue.drop s.reportFrom, first.seq ≤ r.seq ∧ r.seq ≤ first.seq + 65534 := by
      intro r hr
      have hsp := span first (by rw [hdrop]; simp) r hr
      rw [hdrop] at hr hsd
      rcases List.mem_cons.1 hr with rfl | hr
      · exact ⟨le_refl _, by omega⟩
      · exact ⟨le_of_lt ((List.pairwise_cons.1 hsd).1 r hr), by omega⟩
    simp only [Recv.reportOf]
    rw [if_neg (by omega)]
    generalize hpt : s.timeStart.getD first.time + (first.time - s.timeStart.getD first.time) / 1000 / 64000 % 2 ^ 32 * 64000 * 1000 = pt
    have hlen := buildInterims_length _ first.seq pt 65534 hge hsd
    have hexp := buildInterims_expand _ first.seq pt 65534 hge hsd
    have hok := buildInterims_ok (s.queue.drop s.reportFrom) first.seq pt
    obtain ⟨b, hb, hbc⟩ := buildChunks_total (((buildInterims first.seq pt (s.queue.drop s.reportFrom)).map Interim.size).sum + 1)
      _ (max - 20) 0 hok (by have := size_sum_ge hok; omega) (by omega) (by omega)
    rw [hb, bind_def, bind_ok]
    refine ⟨(s.finish first (s.timeStart.getD first.time)
      ((first.time - s.timeStart.getD first.time) / 1000 / 64000 % 2 ^ 32) b).1,
      (s.finish first (s.timeStart.getD first.time)
      ((first.time - s.timeStart.getD first.time) / 1000 / 64000 % 2 ^ 32) b).2, rfl, ?_⟩
    intro f ts hf hts ht
    injection hf with hf
    subst hf
    rw [← hts] at hpt ⊢
    obtain ⟨k, p, hk⟩ := buildChunks_ok hok hb
    have hkl : k = (expand (buildInterims first.seq pt (s.queue.drop s.reportFrom))).length := by
      have := hk.count; omega
    -- everything can be expressed
    have hall : ∀ (rs : List Receipt) (ps pt : Nat), (∀ r ∈ rs, ∀ a, a = r.time → a ≤ pt + 8064000000 ∧ pt ≤ a + 8000000000 ∧
        ∀ r2 ∈ rs, r2.time ≤ a + 8000000000) →
        ((expand (buildInterims ps pt rs)).filterMap Prod.snd).length = rs.length := by
      intro rs
      induction rs with
      | nil => intro ps pt _; simp [buildInterims, expand]
      | cons r rs ih =>
        intro ps pt h
        obtain ⟨h1, h2, h3⟩ := h r (by simp) _ rfl
        have hd : ¬ (diffTime r.time pt < -8192000 ∨ diffTime r.time pt > 8191750) := by
          unfold diffTime
          split <;> omega
        obtain ⟨q, hc⟩ : ∃ q, classify (diffTime r.time pt) = some q := by
          unfold classify
          rw [if_neg hd]
          split <;> exact ⟨_, rfl⟩
        obtain ⟨st, t⟩ := q
        obtain ⟨d, hdd, _⟩ := delta_ok (classify_ok hc).1
        have := ih r.seq r.time (by
          intro r' hr' a ha
          subst ha
          have h4 := h3 r' (by simp [hr'])
          obtain ⟨h5, h6, h7⟩ := h r' (by simp [hr']) _ rfl
          exact ⟨by omega, h7 r (by simp), fun r2 hr2 => h7 r2 (by simp [hr2])⟩)
        rw [buildInterims, hc, expand_append, List.filterMap_append, List.length_append]
        have h0 : (List.filterMap Prod.snd (expand (if r.seq - ps > 1 then splitMissing (r.seq - ps - 1) else []))).length = 0 := by
          split
          · rw [expand_splitMissing, List.length_eq_zero_iff, List.filterMap_eq_nil_iff]
            intro a ha
            rw [(List.mem_replicate.1 ha).2]
          · simp [expand]
        simp only [expand_cons, Interim.expand, hdd, List.singleton_append, List.filterMap_cons, List.length_cons, this]
        omega
    have hrecv : b.received = (s.queue.drop s.reportFrom).length := by
      rw [hk.received, hk.delta, hkl, List.take_length]
      apply hall
      intro r hr a ha
      subst ha
      have h1 := ht r hr
      have hfm : first ∈ s.queue.drop s.reportFrom := by rw [hdrop]; simp
      have h2 := ht first hfm
      have h3 := h1.2.2 first hfm
      have h4 := h2.2.2 r hr
      refine ⟨by omega, by omega, h1.2.2⟩
    rw [List.length_drop] at hrecv
    have hil := inv.le
    simp only [Recv.finish]
    split
    · simp only [Recv.hasUnreported, decide_eq_false_iff_not]; omega
    · simp only [Recv.hasUnreported, List.length_drop, decide_eq_false_iff_not]; omega

/-! ### Examples and violations -/

/-- The register after some arrivals. -/
def arrivals (keep : Nat) (arr : List (Nat × Nat)) : Recv :=
  arr.foldl (fun s a => s.update a.1 a.2) (Recv.new keep)

theorem arrivals_history (keep : Nat) (arr : List (Nat × Nat)) : History keep arr [] (arrivals keep arr) := by
  have : ∀ (l pre : List (Nat × Nat)) (s : Recv), History keep pre [] s →
      History keep (pre ++ l) [] (l.foldl (fun s a => s.update a.1 a.2) s) := by
    intro l
    induction l with
    | nil => intro pre s h; simpa using h
    | cons a l ih =>
      intro pre s h
      have := ih (pre ++ [a]) (s.update a.1 a.2) (History.arrive a.1 a.2 h)
      simpa using this
  have h := this arr [] _ .new
  rw [List.nil_append] at h
  exact h

/-- Arrivals in order of their sequence numbers are appended. -/
theorem arrivals_sorted (keep : Nat) (arr : List (Nat × Nat)) (hs : arr.Pairwise (fun a b => a.1 < b.1)) :
    arrivals keep arr = { Recv.new keep with queue := arr.map (fun a => ⟨a.1, a.2⟩) } := by
  have : ∀ (l : List (Nat × Nat)) (q : List Receipt), l.Pairwise (fun a b => a.1 < b.1) →
      (∀ r ∈ q, ∀ a ∈ l, r.seq < a.1) →
      l.foldl (fun s a => s.update a.1 a.2) { Recv.new keep with queue := q } =
      { Recv.new keep with queue := q ++ l.map (fun a => ⟨a.1, a.2⟩) } := by
    intro l
    induction l with
    | nil => intro q _ _; simp
    | cons a l ih =>
      intro q hl hq
      have hl' := List.pairwise_cons.1 hl
      have hidx : insertAt q a.1 = q.length := by
        unfold insertAt
        rw [List.findIdx_eq_length]
        intro r hr
        have := hq r hr a (by simp)
        simp only [decide_eq_false_iff_not]; omega
      have hu : Recv.update { Recv.new keep with queue := q } a.1 a.2 =
          { Recv.new keep with queue := q ++ [⟨a.1, a.2⟩] } := by
        unfold Recv.update
        simp [hidx, Recv.tooOld, Recv.new]
      rw [List.foldl_cons, hu, ih _ hl'.2]
      · simp
      · intro r hr b hb
        rcases List.mem_append.1 hr with hr | hr
        · exact hq r hr b (by simp [hb])
        · simp only [List.mem_singleton] at hr
          subst hr
          exact hl'.1 b hb
  have h := this arr [] hs (by simp)
  exact h

/-- Reordered arrivals with a gap and a jump in time: the report decodes to the truth. -/
example : (match (arrivals 100 [(65534, 1000000), (65536, 3000000), (65535, 70000000), (65540, 71000000)]).buildReport 1050 with
    | .ok (some rep, _) => decide (rep.items 500000000 65541 = .ok
        [(65534, .small, some 500000000), (65535, .large, some 569000000), (65536, .large, some 502000000),
         (65537, .notReceived, none), (65538, .notReceived, none), (65539, .notReceived, none),
         (65540, .large, some 570000000)])
    | _ => false) = true := by decide +kernel

/-- The hypotheses of `C16_total_partial` are met by ordinary traffic. -/
example : ∃ o s', (arrivals 100 [(10, 1000), (11, 2000), (13, 900)]).buildReport 1050 = .ok (o, s') := by
  obtain ⟨o, s', h, _⟩ := C16_total_partial (max := 1050) (arrivals_history 100 [(10, 1000), (11, 2000), (13, 900)])
    (by decide +kernel) (by omega) (by decide +kernel)
  exact ⟨o, s', h⟩

/-- C16 violated: the quantisation errors add up (each delta is computed from the true time of
the previous packet, twcc.rs 557, not from the decoded one). Three packets 200 us apart: the
last one is decoded 400 us too early. -/
theorem C16_violation_error : ∃ rep s',
    (arrivals 100 [(0, 0), (1, 200000), (2, 400000)]).buildReport 1050 = .ok (some rep, s') ∧
    rep.items 1000000 0 = .ok [(0, .small, some 1000000), (1, .small, some 1000000), (2, .small, some 1000000)] := by
  refine ⟨_, _, rfl, ?_⟩
  decide +kernel

/-- C16 violated: a register keeps the last 100 reported packets. Packets 1 to 102 arrive and
are reported (all received); then the late packet 0 arrives. The next report, from 0 on, says
that 1 and 2 are lost. -/
theorem C16_violation_forgotten :
    (match (arrivals 100 ((List.range 102).map (fun i => (i + 1, 0)))).buildReport 1050 with
     | .ok (some rep, s') =>
       decide (rep.baseSeq = 1 ∧ rep.statusCount = 102 ∧ rep.chunks = [.run .small 102]) &&
       (match (s'.update 0 1000000).buildReport 1050 with
        | .ok (some rep', _) =>
          (match rep'.items 0 100 with
           | .ok items => decide (items.take 4 = [(0, .small, some 1000000), (1, .notReceived, none),
                (2, .notReceived, none), (3, .large, some 0)])
           | _ => false)
        | _ => false)
     | _ => false) = true := by
  rw [arrivals_sorted _ _ (by decide +kernel)]
  decide +kernel

theorem sorted_of_chain {arr : List (Nat × Nat)} (h : arr.IsChain (fun a b => a.1 < b.1)) :
    arr.Pairwise (fun a b => a.1 < b.1) := by
  haveI : Trans (fun a b : Nat × Nat => a.1 < b.1) (fun a b : Nat × Nat => a.1 < b.1) (fun a b : Nat × Nat => a.1 < b.1) :=
    ⟨fun h1 h2 => Nat.lt_trans h1 h2⟩
  exact List.isChain_iff_pairwise.1 h

/-- 29 times 30 packets and 20 lost ones, then 21 packets and 20 lost ones, 13 packets, a lost
one, and another packet. -/
def panicArrivals : List (Nat × Nat) :=
  (List.range 29).flatMap (fun k => (List.range 30).map (fun i => (k * 50 + i, 0))) ++
  (List.range 21).map (fun i => (1450 + i, 0)) ++ (List.range 13).map (fun i => (1491 + i, 0)) ++ [(1505, 0)]

/-- C16 violated: `build_report` panics at `assert!(interims.is_empty())` (twcc.rs 451), with
the size limit the session uses (an MTU of 1150 less 100): 19 bytes are left for the last
vector of 13 received and a lost packet; the loop that fills it wants at least 7 bytes before
each packet, and stops with 6 after the thirteenth. -/
theorem C16_violation_panic : (arrivals 100 panicArrivals).buildReport 1050 = .panic := by
  rw [arrivals_sorted _ _ (sorted_of_chain (by decide +kernel))]
  decide +kernel

/-- C16 violated: a status count above 65535 overflows (twcc.rs 425). -/
theorem C16_violation_overflow :
    (arrivals 100 [(0, 0), (32767, 0), (65534, 0), (65540, 0)]).buildReport 1050 = .panic := by
  decide +kernel

end Str0m.Twcc
