import Verif.Props.Requests

/-!
C129: the side that asks, both sides together, examples, and what breaks the full claim.
-/

namespace Str0m.Requests

/-! ### The side that asks -/

/-- Streams that wanted nothing yet, with different SSRCs -/
def Fresh (rs : List Rx) : Prop := (rs.map (·.ssrc)).Nodup ∧ ∀ r ∈ rs, r.kf = none ∧ r.remb = none ∧ r.firSeq = 0

/-- What one step does to one stream -/
def askOne (a : Ask) (r : Rx) : Rx := match a with
  | .keyframe ssrc k => if r.ssrc = ssrc then { r with kf := some k } else r
  | .remb ssrc b => if r.ssrc = ssrc then { r with remb := some b } else r
  | .timeout => r.timeout.1
  | .change ssrc new => if r.ssrc = ssrc then { r with ssrc := new, kf := none, remb := none, firSeq := 0 } else r
  | .reset ssrc => if r.ssrc = ssrc then { r with kf := none } else r

/-- What one step sends of one stream -/
def sendOne (a : Ask) (r : Rx) : List Item := match a with
  | .timeout => r.timeout.2
  | _ => []

theorem askStep_map (rs : List Rx) (a : Ask) : askStep rs a = (rs.map (askOne a), rs.flatMap (sendOne a)) := by
  cases a <;> simp [askStep, askOne, sendOne, onSsrc, timeout]
  rfl

theorem takeRemb_fields (r : Rx) : r.takeRemb.1.ssrc = r.ssrc ∧ r.takeRemb.1.kf = r.kf ∧ r.takeRemb.1.firSeq = r.firSeq := by
  unfold Rx.takeRemb
  split <;> exact ⟨rfl, rfl, rfl⟩

theorem keyframe_fields (r : Rx) : r.keyframe.1.ssrc = r.ssrc ∧ r.keyframe.1.kf = none := by
  unfold Rx.keyframe
  split
  · next h => exact ⟨rfl, h⟩
  · exact ⟨rfl, rfl⟩
  · exact ⟨rfl, rfl⟩

theorem askOne_ssrc {a : Ask} (ha : ∀ s n, a ≠ .change s n) (r : Rx) : (askOne a r).ssrc = r.ssrc := by
  cases a with
  | keyframe s k => simp only [askOne]; split <;> rfl
  | remb s b => simp only [askOne]; split <;> rfl
  | timeout => simp only [askOne, Rx.timeout]; rw [(takeRemb_fields _).1, (keyframe_fields _).1]
  | change s n => exact absurd rfl (ha s n)
  | reset s => simp only [askOne]; split <;> rfl

theorem askOne_kf {a : Ask} (ha : ∀ s n, a ≠ .change s n) (r : Rx) : (askOne a r).kf = wantedStep r.ssrc r.kf a := by
  cases a with
  | keyframe s k =>
    simp only [askOne, wantedStep]
    by_cases h : r.ssrc = s
    · simp [h]
    · simp [h, Ne.symm h]
  | remb s b => simp only [askOne, wantedStep]; split <;> rfl
  | timeout => simp only [askOne, Rx.timeout, wantedStep]; rw [(takeRemb_fields _).2.1, (keyframe_fields _).2]
  | change s n => exact absurd rfl (ha s n)
  | reset s =>
    simp only [askOne, wantedStep]
    by_cases h : r.ssrc = s
    · simp [h]
    · simp [h, Ne.symm h]

/-- A stream after steps -/
def askOnes (as : List Ask) (r : Rx) : Rx := as.foldl (fun r a => askOne a r) r

theorem askRun_map (rs : List Rx) (as : List Ask) : (askRun rs as).1 = rs.map (askOnes as) := by
  induction as generalizing rs with
  | nil => simp only [askRun]; conv_lhs => rw [← List.map_id rs]
           apply List.map_congr_left; intro r _; rfl
  | cons a as ih =>
    simp only [askRun]
    rw [ih, askStep_map, List.map_map]
    rfl

theorem askOnes_ssrc {as : List Ask} (hs : Stable as) (r : Rx) : (askOnes as r).ssrc = r.ssrc := by
  induction as generalizing r with
  | nil => rfl
  | cons a as ih =>
    show (askOnes as (askOne a r)).ssrc = _
    rw [ih (fun b hb => hs b (List.mem_cons_of_mem _ hb)), askOne_ssrc (hs a (by simp))]

theorem askOnes_kf {as : List Ask} (hs : Stable as) (r : Rx) : (askOnes as r).kf = as.foldl (wantedStep r.ssrc) r.kf := by
  induction as generalizing r with
  | nil => rfl
  | cons a as ih =>
    show (askOnes as (askOne a r)).kf = _
    rw [ih (fun b hb => hs b (List.mem_cons_of_mem _ hb)), askOne_kf (hs a (by simp)), askOne_ssrc (hs a (by simp))]
    rfl

/-- What the other streams send is about other SSRCs -/
theorem flatMap_only {f : Rx → List Item} {P : Item → Bool} {rs : List Rx} (hn : (rs.map (·.ssrc)).Nodup) {r : Rx} (hr : r ∈ rs)
    (ho : ∀ q ∈ rs, q.ssrc ≠ r.ssrc → (f q).filter P = []) : (rs.flatMap f).filter P = (f r).filter P := by
  induction rs with
  | nil => cases hr
  | cons q rs ih =>
    rw [List.flatMap_cons, List.filter_append]
    rw [List.map_cons, List.nodup_cons] at hn
    rcases List.mem_cons.mp hr with rfl | hr
    · have : (rs.flatMap f).filter P = [] := by
        rw [List.filter_flatMap, List.flatMap_eq_nil_iff]
        intro u hu
        apply ho u (List.mem_cons_of_mem _ hu)
        intro he
        exact hn.1 (he ▸ List.mem_map_of_mem hu)
      rw [this, List.append_nil]
    · rw [ho q (by simp) (fun he => hn.1 (he ▸ List.mem_map_of_mem hr)),
        ih hn.2 hr (fun u hu => ho u (List.mem_cons_of_mem _ hu)), List.nil_append]

theorem takeRemb_asks (r : Rx) (s : Nat) : (r.takeRemb.2).filter (fun i => (i.asks s).isSome) = [] := by
  unfold Rx.takeRemb
  split <;> simp [Item.asks]

theorem timeout_asks (r : Rx) (s : Nat) :
    (r.timeout.2).filter (fun i => (i.asks s).isSome) = if r.ssrc = s then r.keyframe.2 else [] := by
  simp only [Rx.timeout, List.filter_append, takeRemb_asks, List.append_nil]
  unfold Rx.keyframe
  split
  · simp
  · by_cases h : r.ssrc = s <;> simp [Item.asks, h]
  · by_cases h : r.ssrc = s
    · simp [Item.asks, h]
    · simp [Item.asks, h, Ne.symm h]

/-- What a timeout sends that asks a keyframe of an SSRC -/
theorem timeout_filter {rs : List Rx} (hf : Fresh rs) {as : List Ask} (hs : Stable as) {r : Rx} (hr : r ∈ rs) :
    ((askStep (askRun rs as).1 .timeout).2).filter (fun i => (i.asks r.ssrc).isSome) = (askOnes as r).keyframe.2 := by
  rw [askStep_map, askRun_map]
  have hm : ((rs.map (askOnes as)).map (·.ssrc)).Nodup := by
    rw [List.map_map]
    have : rs.map ((·.ssrc) ∘ askOnes as) = rs.map (·.ssrc) := List.map_congr_left (fun q _ => askOnes_ssrc hs q)
    rw [this]; exact hf.1
  rw [flatMap_only hm (List.mem_map_of_mem hr)]
  · show ((askOnes as r).timeout.2).filter _ = _
    rw [timeout_asks, if_pos (askOnes_ssrc hs r)]
  · intro q _ hq
    show (q.timeout.2).filter _ = _
    rw [timeout_asks, if_neg]
    rwa [askOnes_ssrc hs] at hq

theorem kf_wanted {rs : List Rx} (hf : Fresh rs) {as : List Ask} (hs : Stable as) {r : Rx} (hr : r ∈ rs) :
    (askOnes as r).kf = wanted r.ssrc as := by
  rw [askOnes_kf hs, (hf.2 r hr).1]; rfl

/-- **C129** (what is asked of the peer): at a timeout one request for a keyframe is made of each stream that the application wanted it of
since the last, of the kind it wanted last, and none of the others -/
theorem C129_asked {rs : List Rx} (hf : Fresh rs) {as : List Ask} (hs : Stable as) {r : Rx} (hr : r ∈ rs) :
    match wanted r.ssrc as with
    | none => ∀ i ∈ (askStep (askRun rs as).1 .timeout).2, i.asks r.ssrc = none
    | some k => ∃ i, ((askStep (askRun rs as).1 .timeout).2).filter (fun i => (i.asks r.ssrc).isSome) = [i] ∧ i.Is r.ssrc k := by
  have h1 := timeout_filter hf hs hr
  have h2 := kf_wanted hf hs hr
  have h3 := askOnes_ssrc hs r
  cases hw : wanted r.ssrc as with
  | none =>
    rw [hw] at h2
    rw [show (askOnes as r).keyframe.2 = [] by simp [Rx.keyframe, h2]] at h1
    intro i hi
    have := List.filter_eq_nil_iff.mp h1 i hi
    simpa using this
  | some k =>
    rw [hw] at h2
    rw [h1]
    cases k with
    | pli => exact ⟨.pli (askOnes as r).ssrc, by simp only [Rx.keyframe, h2], rfl, h3⟩
    | fir => exact ⟨.fir [((askOnes as r).ssrc, (askOnes as r).firSeq)], by simp only [Rx.keyframe, h2], rfl, _, by rw [h3]⟩

/-! ### Bitrates -/

theorem keyframe_remb {s : Nat} (r : Rx) : r.keyframe.1.remb = r.remb ∧ r.keyframe.2.filterMap (·.limits s) = [] := by
  unfold Rx.keyframe
  split <;> exact ⟨rfl, rfl⟩

theorem askOne_remb {a : Ask} (ha : ∀ s n, a ≠ .change s n) (r : Rx) : (askOne a r).remb = limitStep r.ssrc r.remb a := by
  cases a with
  | keyframe s k => simp only [askOne, limitStep]; split <;> rfl
  | remb s b =>
    simp only [askOne, limitStep]
    by_cases h : r.ssrc = s
    · simp [h]
    · simp [h, Ne.symm h]
  | timeout =>
    simp only [askOne, Rx.timeout, limitStep]
    unfold Rx.takeRemb
    split
    · next h => exact h
    · rfl
  | change s n => exact absurd rfl (ha s n)
  | reset s => simp only [askOne, limitStep]; split <;> rfl

theorem askOnes_remb {as : List Ask} (hs : Stable as) (r : Rx) : (askOnes as r).remb = as.foldl (limitStep r.ssrc) r.remb := by
  induction as generalizing r with
  | nil => rfl
  | cons a as ih =>
    show (askOnes as (askOne a r)).remb = _
    rw [ih (fun b hb => hs b (List.mem_cons_of_mem _ hb)), askOne_remb (hs a (by simp)), askOne_ssrc (hs a (by simp))]
    rfl

theorem timeout_limits (r : Rx) (s : Nat) : (r.timeout.2).filterMap (·.limits s) = if r.ssrc = s then r.remb.toList else [] := by
  simp only [Rx.timeout, List.filterMap_append, (keyframe_remb r).2, List.nil_append]
  have h1 := keyframe_fields r
  have h2 := (keyframe_remb (s := s) r).1
  unfold Rx.takeRemb
  rw [h2]
  cases r.remb with
  | none => simp
  | some b => by_cases h : r.ssrc = s <;> simp [Item.limits, h1.1, h]

/-- **C129** (bitrates): at a timeout each stream that the application set a bitrate of since the last is sent the latest, once, and no
other is sent any -/
theorem C129_remb {rs : List Rx} (hf : Fresh rs) {as : List Ask} (hs : Stable as) {r : Rx} (hr : r ∈ rs) :
    ((askStep (askRun rs as).1 .timeout).2).filterMap (·.limits r.ssrc) = (limit r.ssrc as).toList := by
  rw [askStep_map, askRun_map]
  show (((rs.map (askOnes as)).flatMap (sendOne .timeout))).filterMap _ = _
  have hw : (askOnes as r).remb = limit r.ssrc as := by rw [askOnes_remb hs, (hf.2 r hr).2.1]; rfl
  rw [← hw]
  have hn := hf.1
  clear hf hw
  induction rs with
  | nil => cases hr
  | cons q rs ih =>
    rw [List.map_cons, List.flatMap_cons, List.filterMap_append]
    rw [List.map_cons, List.nodup_cons] at hn
    have hq : (sendOne .timeout (askOnes as q)).filterMap (·.limits r.ssrc) = if q.ssrc = r.ssrc then (askOnes as q).remb.toList else [] := by
      show ((askOnes as q).timeout.2).filterMap _ = _
      rw [timeout_limits, askOnes_ssrc hs]
    rw [hq]
    rcases List.mem_cons.mp hr with rfl | hr
    · have : ((rs.map (askOnes as)).flatMap (sendOne .timeout)).filterMap (·.limits r.ssrc) = [] := by
        have hall : ∀ u ∈ rs, u.ssrc ≠ r.ssrc := fun u hu he => hn.1 (he ▸ List.mem_map_of_mem hu)
        clear ih hn hr hq
        induction rs with
        | nil => rfl
        | cons u rs ih =>
          rw [List.map_cons, List.flatMap_cons, List.filterMap_append, ih (fun v hv => hall v (List.mem_cons_of_mem _ hv)), List.append_nil]
          show ((askOnes as u).timeout.2).filterMap _ = _
          rw [timeout_limits, askOnes_ssrc hs, if_neg (hall u (by simp))]
      rw [this, if_pos rfl, List.append_nil]
    · rw [if_neg (fun he : q.ssrc = r.ssrc => hn.1 (he ▸ List.mem_map_of_mem hr)), List.nil_append]
      exact ih hr hn.2

/-! ### The numbers of FIR -/

theorem firNumbers_append (s : Nat) (a b : List Item) : firNumbers s (a ++ b) = firNumbers s a ++ firNumbers s b := by
  simp [firNumbers, List.flatMap_append]

/-- The numbers of FIR for an SSRC in what one step sends of one stream -/
theorem firNumbers_one (a : Ask) (r : Rx) (s : Nat) :
    (r.ssrc ≠ s → firNumbers s (sendOne a r) = []) ∧
    (r.ssrc = s → (∀ s n, a ≠ .change s n) →
      (firNumbers s (sendOne a r) = [] ∧ (askOne a r).firSeq = r.firSeq) ∨
      (firNumbers s (sendOne a r) = [r.firSeq] ∧ (askOne a r).firSeq = (r.firSeq + 1) % 256)) := by
  have hr : ∀ q : Rx, firNumbers s q.takeRemb.2 = [] := by
    intro q; unfold Rx.takeRemb; split <;> simp [firNumbers]
  cases a with
  | timeout =>
    simp only [sendOne, askOne, Rx.timeout, firNumbers_append, hr, List.append_nil, (takeRemb_fields _).2.2]
    unfold Rx.keyframe
    split
    · exact ⟨fun _ => rfl, fun _ _ => .inl ⟨rfl, rfl⟩⟩
    · exact ⟨fun _ => rfl, fun _ _ => .inl ⟨rfl, rfl⟩⟩
    · refine ⟨fun h => ?_, fun h _ => .inr ⟨?_, rfl⟩⟩
      · simp [firNumbers, h]
      · simp [firNumbers, h]
  | keyframe t k => exact ⟨fun _ => rfl, fun _ _ => .inl ⟨rfl, by simp only [askOne]; split <;> rfl⟩⟩
  | remb t k => exact ⟨fun _ => rfl, fun _ _ => .inl ⟨rfl, by simp only [askOne]; split <;> rfl⟩⟩
  | reset t => exact ⟨fun _ => rfl, fun _ _ => .inl ⟨rfl, by simp only [askOne]; split <;> rfl⟩⟩
  | change t n => exact ⟨fun _ => rfl, fun _ hc => absurd rfl (hc t n)⟩

theorem firNumbers_flat {a : Ask} {rs : List Rx} (hn : (rs.map (·.ssrc)).Nodup) {r : Rx} (hr : r ∈ rs) :
    firNumbers r.ssrc (rs.flatMap (sendOne a)) = firNumbers r.ssrc (sendOne a r) := by
  induction rs with
  | nil => cases hr
  | cons q rs ih =>
    rw [List.flatMap_cons, firNumbers_append]
    rw [List.map_cons, List.nodup_cons] at hn
    rcases List.mem_cons.mp hr with rfl | hr
    · have : firNumbers r.ssrc (rs.flatMap (sendOne a)) = [] := by
        have hall : ∀ u ∈ rs, u.ssrc ≠ r.ssrc := fun u hu he => hn.1 (he ▸ List.mem_map_of_mem hu)
        clear ih hn hr
        induction rs with
        | nil => rfl
        | cons u rs ih =>
          rw [List.flatMap_cons, firNumbers_append, (firNumbers_one a u r.ssrc).1 (hall u (by simp)),
            ih (fun v hv => hall v (List.mem_cons_of_mem _ hv)), List.nil_append]
      rw [this, List.append_nil]
    · rw [(firNumbers_one a q r.ssrc).1 (fun he => hn.1 (he ▸ List.mem_map_of_mem hr)), ih hn.2 hr, List.nil_append]

theorem firNumbers_run {rs : List Rx} (hn : (rs.map (·.ssrc)).Nodup) {r : Rx} (hr : r ∈ rs) {as : List Ask} (hs : Stable as)
    {n : Nat} (h0 : r.firSeq = n % 256) :
    ∃ m, firNumbers r.ssrc (askRun rs as).2 = (List.range' n m).map (· % 256) := by
  induction as generalizing rs r n with
  | nil => exact ⟨0, rfl⟩
  | cons a as ih =>
    have ha := hs a (by simp)
    have hs2 : Stable as := fun b hb => hs b (List.mem_cons_of_mem _ hb)
    simp only [askRun, firNumbers_append]
    rw [askStep_map]
    simp only [firNumbers_flat hn hr]
    have hn2 : ((rs.map (askOne a)).map (·.ssrc)).Nodup := by
      rw [List.map_map]
      have : rs.map ((·.ssrc) ∘ askOne a) = rs.map (·.ssrc) := List.map_congr_left (fun q _ => askOne_ssrc ha q)
      rw [this]; exact hn
    rcases (firNumbers_one a r r.ssrc).2 rfl ha with ⟨h1, h2⟩ | ⟨h1, h2⟩
    · obtain ⟨m, hm⟩ := ih hn2 (List.mem_map_of_mem hr) hs2 (n := n) (by rw [h2, h0])
      rw [askOne_ssrc ha] at hm
      exact ⟨m, by rw [h1, hm]; rfl⟩
    · obtain ⟨m, hm⟩ := ih hn2 (List.mem_map_of_mem hr) hs2 (n := n + 1) (by rw [h2, h0]; omega)
      rw [askOne_ssrc ha] at hm
      exact ⟨m + 1, by rw [h1, hm, h0]; rfl⟩

/-- **C129** (numbers of FIR): those of a stream go 0, 1, 2, ... modulo 256, so that no two in a row are equal -/
theorem C129_numbers {rs : List Rx} (hf : Fresh rs) {as : List Ask} (hs : Stable as) {r : Rx} (hr : r ∈ rs) :
    ∃ m, firNumbers r.ssrc (askRun rs as).2 = (List.range m).map (· % 256) := by
  obtain ⟨m, hm⟩ := firNumbers_run hf.1 hr hs (n := 0) (by rw [(hf.2 r hr).2.2])
  exact ⟨m, by rw [hm, List.range_eq_range']⟩

/-! ### Both sides -/

theorem asks_of_is {s : Nat} {k : Kind} {i : Item} (h : i.Is s k) : i.asks s = some k := by
  cases i with
  | pli t => obtain ⟨rfl, rfl⟩ := h; simp [Item.asks]
  | fir es => obtain ⟨rfl, n, rfl⟩ := h; simp [Item.asks]
  | remb t b => exact h.elim
  | app p => exact h.elim

theorem filter_single {l : List Item} {P : Item → Bool} {i : Item} (h : l.filter P = [i]) :
    ∃ a b, l = a ++ i :: b ∧ (∀ j ∈ b, P j = false) := by
  induction l with
  | nil => cases h
  | cons j l ih =>
    by_cases hj : P j
    · rw [List.filter_cons_of_pos hj] at h
      injection h with h1 h2
      exact ⟨[], l, by rw [h1]; rfl, fun u hu => by simpa using List.filter_eq_nil_iff.mp h2 u hu⟩
    · rw [List.filter_cons_of_neg hj] at h
      obtain ⟨a, b, h1, h2⟩ := ih h
      exact ⟨j :: a, b, by rw [h1]; rfl, h2⟩

/-- **C129** (from one application to the other): what the application wants of a stream is, after the timeout and the delivery of what it
sends, told to the application that sends the stream, with mid and RID there, and the kind that was wanted last -/
theorem C129_through {rs : List Rx} (hf : Fresh rs) {as : List Ask} (hs : Stable as) {r : Rx} (hr : r ∈ rs) {k : Kind}
    (hw : wanted r.ssrc as = some k) {xs : List Stream} (hd : Distinct xs) (ops : List Op) {x : Stream} (hx : x ∈ xs)
    (he : x.ssrc = r.ssrc) :
    Log.told (.keyframe x.mid x.rid k) ∈
      (run (run (start xs) (ops ++ ((askStep (askRun rs as).1 .timeout).2).map .item)).1 (List.replicate (2 * xs.length + 1) .poll)).2 := by
  have h := C129_asked hf hs hr
  rw [hw] at h
  obtain ⟨i, h1, h2⟩ := h
  obtain ⟨a, b, h3, h4⟩ := filter_single h1
  refine C129_reaches hd ops hx _ a b h3 (i := i) (by rw [he]; exact asks_of_is h2) ?_
  intro j hj
  have := h4 j hj
  rw [he]
  simpa using this

/-! ### Examples -/

/-- Two streams that are received -/
def exRs : List Rx := [{ ssrc := 10 }, { ssrc := 20 }]

/-- Two that are sent: layers of one mid -/
def exXs : List Stream := [⟨10, 1, some 5⟩, ⟨20, 1, some 6⟩]

/-- What the application wants -/
def exAs : List Ask := [.keyframe 10 .pli, .timeout, .keyframe 20 .pli, .keyframe 20 .fir, .remb 10 500]

/-- The hypotheses of the theorems hold in histories where something happens: the wanted kind replaced, a request told, another waiting -/
theorem C129_example :
    Fresh exRs ∧ Stable exAs ∧ Distinct exXs ∧ wanted 20 exAs = some .fir ∧ wanted 10 exAs = none ∧
    (askStep (askRun exRs exAs).1 .timeout).2 = [.remb [10] 500, .fir [(20, 0)]] ∧
    firNumbers 20 (askRun exRs (exAs ++ [.timeout, .keyframe 20 .fir, .timeout])).2 = [0, 1] ∧
    (run (start exXs) [.item (.pli 10), .item (.remb [10] 500), .item (.fir [(20, 0)]), .poll, .poll, .poll, .poll]).2.drop 3 =
      [.told (.keyframe 1 (some 5) .pli), .told (.keyframe 1 (some 6) .fir), .told (.remb 1 500), .told .quiet] := by
  refine ⟨⟨by decide, by decide⟩, ?_, ⟨by decide, by decide⟩, by decide, by decide, by decide, by decide, by decide⟩
  intro a ha s n he
  subst he
  revert ha
  simp [exAs]

/-! ### What breaks the full claim -/

/-- **C129** is false of repeats (RFC 5104, section 4.3.1.1: a FIR whose number is that of the one before is a repeat, to be ignored): the
number is not looked at, and the application is told of the one request twice -/
theorem C129_violation_repeat :
    (run (start exXs) [.item (.fir [(10, 7)]), .poll, .item (.fir [(10, 7)]), .poll]).2 =
      [.item (.fir [(10, 7)]), .told (.keyframe 1 (some 5) .fir), .item (.fir [(10, 7)]), .told (.keyframe 1 (some 5) .fir)] := by
  decide

/-- **C129** is false of application feedback: of two that come before a poll the first is never told, whatever happens later -/
theorem C129_violation_app (ops : List Op) {p q : Nat} (hpq : p ≠ q) (hn : Op.item (.app p) ∉ ops) (xs : List Stream) :
    Log.told (.app p) ∉ (run (start xs) (.item (.app p) :: .item (.app q) :: ops)).2 := by
  have key : ∀ (ops : List Op) (s : State), Op.item (.app p) ∉ ops → s.app ≠ some p → Log.told (.app p) ∉ (run s ops).2 := by
    intro ops
    induction ops with
    | nil => intro s _ _; simp [run]
    | cons op ops ih =>
      intro s h1 h2
      rw [List.mem_cons, not_or] at h1
      simp only [run, List.mem_cons, not_or]
      cases op with
      | item i =>
        refine ⟨by simp [step], ih _ h1.2 ?_⟩
        cases i with
        | app p' =>
          simp only [step, receive]
          intro he
          injection he with he
          exact h1.1 (by rw [he])
        | pli t => exact h2
        | fir es => exact h2
        | remb t b => exact h2
      | poll =>
        simp only [step]
        rcases poll_cases s with ⟨p', ha, hp⟩ | ⟨a, t, b, k, ha, _, _, hp⟩ | ⟨a, t, b, k, ha, _, _, _, hp⟩ | ⟨ha, _, _, hp⟩
        · rw [hp]
          refine ⟨?_, ih _ h1.2 (by simp)⟩
          intro he
          injection he with he
          injection he with he
          exact h2 (by rw [ha, he])
        · rw [hp]; exact ⟨by simp, ih _ h1.2 h2⟩
        · rw [hp]; exact ⟨by simp, ih _ h1.2 h2⟩
        · rw [hp]; exact ⟨by simp, ih _ h1.2 h2⟩
  simp only [run, step, List.mem_cons, not_or, reduceCtorEq, not_false_eq_true, true_and]
  apply key ops _ hn
  simp only [receive]
  intro he
  injection he with he
  exact hpq he.symm

/-- **C129** is false when the SSRC changes before the timeout: what the application wanted of the stream is not asked, of either SSRC -/
theorem C129_violation_change (ssrc new : Nat) (k : Kind) :
    (askRun [{ ssrc := ssrc }] [.keyframe ssrc k, .change ssrc new, .timeout]).2 = [] := by
  simp [askRun, askStep, onSsrc, timeout, Rx.timeout, Rx.keyframe, Rx.takeRemb]

/-- When the direction changes so that the media line does not receive (session.rs 1250-1253), what was wanted is forgotten -/
theorem C129_forgotten (ssrc : Nat) (k : Kind) :
    (askRun [{ ssrc := ssrc }] [.keyframe ssrc k, .reset ssrc, .timeout]).2 = [] := by
  simp [askRun, askStep, onSsrc, timeout, Rx.timeout, Rx.keyframe, Rx.takeRemb]

/-- **C129** is false of what the writer says of itself: `is_request_keyframe_possible` is true when any payload type of the session takes
the kind, whichever those of the media line are -/
theorem C129_violation_possible {config : List Fb} {other : Fb} (k : Kind) (ho : other ∈ config) (hp : other.pli = true ∧ other.fir = true)
    (line : List Nat) (_hl : ∀ f ∈ config, f.pt ∈ line → f.pli = false ∧ f.fir = false) : possible config k = true := by
  rw [possible, List.any_eq_true]
  refine ⟨other, ho, ?_⟩
  cases k
  · exact hp.1
  · exact hp.2

end Str0m.Requests
