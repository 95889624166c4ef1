import Verif.Spec.FrameRx
import Verif.Props.BufferRx

/-!
C128: frames are made of the packets of one payload type and RID.
-/

namespace Str0m.FrameRx
open Str0m.RxBuffer
variable {κ : Type} {C : κ → Codec}

theorem find_spec {params : List (Params C)} {pt : Nat} {q : Params C} (h : find params pt = some q) : q ∈ params ∧ q.pt = pt :=
  ⟨List.mem_of_find?_eq_some h, by simpa using List.find?_some h⟩

theorem find_known {params : List (Params C)} {pt : Nat} (h : pt ∈ params.map (·.pt)) : ∃ q, find params pt = some q := by
  obtain ⟨q, hq, he⟩ := List.mem_map.mp h
  cases hf : find params pt with
  | some q => exact ⟨q, rfl⟩
  | none =>
    have := List.find?_eq_none.mp hf q hq
    simp [he] at this

/-- A buffer with what was received for it. -/
def obs (d : Dep C) (l : List (RxMeta × List Byte)) : RxObs (C d.codec) := { buf := d.buf, received := l }

/-- All in the buffer is from this list, and the codec is the configured one. -/
structure DepOk (params : List (Params C)) (heardOf : Nat → Option Nat → List (RxMeta × List Byte)) (d : Dep C) : Prop where
  frames : (obs d (heardOf d.pt d.rid)).Frames
  codec : ∃ q, find params d.pt = some q ∧ q.codec = d.codec

theorem frames_mono {c : Codec} {b : RxBuffer c} {l l' : List (RxMeta × List Byte)} (h : RxObs.Frames { buf := b, received := l }) (hl : ∀ p ∈ l, p ∈ l') :
    RxObs.Frames { buf := b, received := l' } :=
  ⟨fun e he => hl _ (h.recv e he), h.flag, fun r d hc => (h.cache r d hc).mono hl, by intro d hd; cases hd⟩

theorem frames_new {c : Codec} (hold : Nat) (st : c.State) (cont : Contiguity) (l : List (RxMeta × List Byte)) :
    RxObs.Frames { buf := RxBuffer.new hold st cont, received := l } :=
  ⟨by simp [RxBuffer.new], by simp [RxBuffer.new], by simp [RxBuffer.new], by simp⟩

/-- What a poll of a buffer gives is a frame of what was received for it. -/
theorem pop_frames {c : Codec} {b : RxBuffer c} {l : List (RxMeta × List Byte)} (h : RxObs.Frames { buf := b, received := l }) :
    ∃ b' r, b.pop = .ok (b', r) ∧ RxObs.Frames { buf := b', received := l } ∧ ∀ d, r = some (.ok d) → FrameOf c l d := by
  obtain ⟨o', h1, h2⟩ := h.step .pop
  obtain ⟨b', r, he, _⟩ := pop_outcome b
  refine ⟨b', r, he, ?_⟩
  have h1' : (b.pop.bind fun x => match x.2 with
      | none => Res.ok { buf := x.1, received := l : RxObs c }
      | some (.error _) => .ok { buf := x.1, received := l, lastEnd := x.1.lastEmitted }
      | some (.ok d) => .ok { buf := x.1, received := l, out := [] ++ [d], lastEnd := lastSeq d }) = .ok o' := h1
  rw [he, Res.bind_ok] at h1'
  rcases r with _ | _ | d
  · injection h1' with h1'
    subst h1'
    exact ⟨frames_mono (l := l) ⟨h2.recv, h2.flag, h2.cache, by intro d hd; cases hd⟩ (fun _ h => h), fun d hd => by cases hd⟩
  · injection h1' with h1'
    subst h1'
    exact ⟨⟨h2.recv, h2.flag, h2.cache, by intro d hd; cases hd⟩, fun d hd => by cases hd⟩
  · injection h1' with h1'
    subst h1'
    refine ⟨⟨h2.recv, h2.flag, h2.cache, by intro d hd; cases hd⟩, ?_⟩
    intro d' hd
    injection hd with hd
    injection hd with hd
    subst hd
    exact h2.out d (by simp)

/-- The frame of the buffer model, in the words of the specification. -/
theorem decodes_of {c : Codec} : ∀ (es : List RxEntry) (st st' : c.State) (acc r : List Byte × CodecExtra), depackLoop c st es acc = (st', .ok r) →
    Decodes c st (es.map (·.data)) acc r := by
  intro es
  induction es with
  | nil =>
    intro st st' acc r h
    unfold depackLoop at h
    injection h with _ h
    injection h with h
    subst h
    exact .nil st acc
  | cons e es ih =>
    intro st st' acc r h
    unfold depackLoop at h
    cases hd : c.depack st e.data acc with
    | mk st1 x =>
      rw [hd] at h
      cases x with
      | error u => injection h with _ h; cases h
      | ok acc1 => exact .cons hd (ih st1 st' acc1 r h)

theorem madeOf_of {c : Codec} {l : List (RxMeta × List Byte)} {d : Depacketized} (h : FrameOf c l d) : MadeOf c l d := by
  obtain ⟨ps, ⟨m0, d0, rest, h1, ⟨sth, hst⟩, h2⟩, h3, h4, h5, es, h6, st, st', h7⟩ := h
  refine ⟨ps, by rw [h1]; simp, h3, ?_, h4, ?_, st, ?_⟩
  · intro i p q hp hq
    obtain ⟨a1, a2⟩ := h2 i p.1 p.2 hp
    obtain ⟨b1, b2⟩ := h2 (i + 1) q.1 q.2 hq
    exact ⟨by omega, by rw [a2, b2]⟩
  · intro p hp
    rw [hp] at h5
    refine ⟨by simpa using h5, sth, ?_⟩
    rw [h1] at hp
    injection hp with hp
    rw [← hp]
    exact hst
  · have := decodes_of es st st' _ _ h7
    rw [← h6]
    simpa [List.map_map, Function.comp_def] using this

/-! ### Steps -/

/-- The buffers of the media, with what was received. -/
structure Inv (params : List (Params C)) (s : State C) (ops : List (Op C)) : Prop where
  on : (∀ pt rid, (ops.foldl (hear pt rid) (true, [])).1 = s.receiving)
  deps : ∀ d ∈ s.deps, DepOk params (fun pt rid => heard pt rid ops) d
  keys : (s.deps.map (fun d => (d.pt, d.rid))).Nodup

theorem heard_snoc (pt : Nat) (rid : Option Nat) (ops : List (Op C)) (op : Op C) :
    ops.foldl (hear pt rid) (true, []) = ((ops.foldl (hear pt rid) (true, [])).1, heard pt rid ops) ∧
    heard pt rid (ops ++ [op]) = (hear pt rid (ops.foldl (hear pt rid) (true, [])) op).2 := by
  refine ⟨rfl, ?_⟩
  unfold heard
  rw [List.foldl_append]
  rfl

theorem on_snoc (pt : Nat) (rid : Option Nat) (ops : List (Op C)) (op : Op C) :
    ((ops ++ [op]).foldl (hear pt rid) (true, [])).1 = (hear pt rid (ops.foldl (hear pt rid) (true, [])) op).1 := by
  rw [List.foldl_append]
  rfl

theorem hear_packet (pt : Nat) (rid : Option Nat) (h : Bool × List (RxMeta × List Byte)) (p : Packet) : hear (C := C) pt rid h (.packet p) =
    if h.1 = true ∧ p.rid = rid then (h.1, (p.info, if p.pt = pt then p.data else []) :: h.2) else h := rfl

theorem hear_reset (pt : Nat) (rid : Option Nat) (h : Bool × List (RxMeta × List Byte)) (pt' : Nat) (rid' : Option Nat) :
    hear (C := C) pt rid h (.reset pt' rid') = if pt' = pt ∧ rid' = rid then (h.1, []) else h := rfl

theorem hear_paused (pt : Nat) (rid : Option Nat) (h : Bool × List (RxMeta × List Byte)) (rid' : Option Nat) :
    hear (C := C) pt rid h (.paused rid') = if rid' = rid then (h.1, []) else h := rfl

theorem take_key (d : Dep C) (p : Packet) : (d.take p).pt = d.pt ∧ (d.take p).rid = d.rid ∧ (d.take p).codec = d.codec := by
  unfold Dep.take
  split
  · split <;> exact ⟨rfl, rfl, rfl⟩
  · exact ⟨rfl, rfl, rfl⟩

theorem take_ok {params : List (Params C)} {ops : List (Op C)} {d : Dep C} (h : DepOk params (fun pt rid => heard pt rid ops) d) (p : Packet)
    (hon : ∀ pt rid, (ops.foldl (hear pt rid) (true, [])).1 = true) : DepOk params (fun pt rid => heard pt rid (ops ++ [.packet p])) (d.take p) := by
  obtain ⟨k1, k2, k3⟩ := take_key d p
  refine ⟨?_, by rw [k1, k3]; exact h.codec⟩
  show (obs (d.take p) (heard (d.take p).pt (d.take p).rid (ops ++ [.packet p]))).Frames
  rw [k1, k2]
  have hh : heard d.pt d.rid (ops ++ [.packet p]) =
      if p.rid = d.rid then (p.info, if p.pt = d.pt then p.data else []) :: heard d.pt d.rid ops else heard d.pt d.rid ops := by
    rw [(heard_snoc d.pt d.rid ops (.packet p)).2]
    rw [hear_packet, hon]
    by_cases hr : p.rid = d.rid
    · rw [if_pos ⟨rfl, hr⟩, if_pos hr]; rfl
    · rw [if_neg (fun h => hr h.2), if_neg hr]; rfl
  rw [hh]
  unfold Dep.take
  by_cases hr : d.rid = p.rid
  · rw [if_pos hr, if_pos hr.symm]
    by_cases hp : d.pt = p.pt
    · rw [if_pos hp, if_pos hp.symm]
      exact h.frames.pushEntry p.info p.data none (.inl rfl)
    · rw [if_neg hp, if_neg (fun e => hp e.symm)]
      exact h.frames.pushEntry p.info [] _ (.inr rfl)
  · rw [if_neg hr, if_neg (fun e => hr e.symm)]
    exact h.frames

theorem ensure_spec {params : List (Params C)} {ha hv : Nat} {p : Packet} {deps : List (Dep C)} (hk : p.pt ∈ params.map (·.pt)) :
    ∃ deps', ensure params ha hv p deps = .ok deps' ∧ (∃ d ∈ deps', d.pt = p.pt ∧ d.rid = p.rid) ∧
      ((deps' = deps ∧ ∃ d ∈ deps, d.pt = p.pt ∧ d.rid = p.rid) ∨
       (∃ q, find params p.pt = some q ∧ (∀ d ∈ deps, ¬ (d.pt = p.pt ∧ d.rid = p.rid)) ∧
        deps' = { pt := p.pt, rid := p.rid, codec := q.codec, buf := .new (if q.audio then ha else hv) q.st q.cont } :: deps)) := by
  unfold ensure
  by_cases h : deps.any (fun d => d.pt == p.pt && d.rid == p.rid) = true
  · rw [if_pos h]
    obtain ⟨d, hd, he⟩ := List.any_eq_true.mp h
    rw [Bool.and_eq_true, beq_iff_eq, beq_iff_eq] at he
    exact ⟨deps, rfl, ⟨d, hd, he⟩, .inl ⟨rfl, d, hd, he⟩⟩
  · rw [if_neg h]
    obtain ⟨q, hq⟩ := find_known hk
    rw [hq]
    refine ⟨_, rfl, ⟨_, List.mem_cons_self .., rfl, rfl⟩, .inr ⟨q, rfl, ?_, rfl⟩⟩
    intro d hd he
    apply h
    refine List.any_eq_true.mpr ⟨d, hd, ?_⟩
    rw [he.1, he.2]
    simp

theorem poll_spec {params : List (Params C)} {ops : List (Op C)} : ∀ (deps : List (Dep C)), (∀ d ∈ deps, DepOk params (fun pt rid => heard pt rid ops) d) →
    ∃ deps' o, pollSample params deps = .ok (deps', o) ∧ (∀ d ∈ deps', DepOk params (fun pt rid => heard pt rid ops) d) ∧
      deps'.map (fun d => (d.pt, d.rid)) = deps.map (fun d => (d.pt, d.rid)) ∧
      (∀ pt rid q d, o = .frame pt rid q d → (pt, rid) ∈ deps.map (fun d => (d.pt, d.rid)) ∧ find params pt = some q ∧ FrameOf (C q.codec) (heard pt rid ops) d) ∧
      (o = .nothing → ∀ d ∈ deps, ∃ b, d.buf.pop = .ok (b, none)) := by
  intro deps
  induction deps with
  | nil =>
    intro _
    exact ⟨[], .nothing, rfl, by simp, rfl, fun _ _ _ _ h => (by cases h), by simp⟩
  | cons d ds ih =>
    intro h
    obtain ⟨b, r, h1, h2, h3⟩ := pop_frames (h d (List.mem_cons_self ..)).frames
    obtain ⟨q, hq, hc⟩ := (h d (List.mem_cons_self ..)).codec
    have hd' : DepOk params (fun pt rid => heard pt rid ops) { d with buf := b } := ⟨h2, q, hq, hc⟩
    have hds : ∀ x ∈ ds, DepOk params (fun pt rid => heard pt rid ops) x := fun x hx => h x (List.mem_cons_of_mem _ hx)
    cases r with
    | none =>
      obtain ⟨ds', o, i1, i2, i3, i4, i5⟩ := ih hds
      refine ⟨{ d with buf := b } :: ds', o, ?_, ?_, ?_, ?_, ?_⟩
      · show d.buf.pop.bind _ = _
        rw [show d.buf.pop = .ok (b, none) from h1, Res.bind_ok]
        show (pollSample params ds).bind _ = _
        rw [i1]
        rfl
      · intro x hx
        rcases List.mem_cons.mp hx with rfl | hx
        · exact hd'
        · exact i2 x hx
      · rw [List.map_cons, List.map_cons, i3]
      · intro pt rid q d ho
        obtain ⟨j1, j2⟩ := i4 pt rid q d ho
        exact ⟨List.mem_cons_of_mem _ j1, j2⟩
      · intro ho x hx
        rcases List.mem_cons.mp hx with rfl | hx
        · exact ⟨b, h1⟩
        · exact i5 ho x hx
    | some x =>
      refine ⟨{ d with buf := b } :: ds, outOf params d.pt d.rid x, ?_, ?_, rfl, ?_, ?_⟩
      · show d.buf.pop.bind _ = _
        rw [show d.buf.pop = .ok (b, some x) from h1]
        rfl
      · intro y hy
        rcases List.mem_cons.mp hy with rfl | hy
        · exact hd'
        · exact hds y hy
      · intro pt rid q' f ho
        cases x with
        | error u => cases ho
        | ok f' =>
          unfold outOf at ho
          rw [hq] at ho
          injection ho with o1 o2 o3 o4
          subst o1 o2 o3 o4
          refine ⟨List.mem_cons_self .., hq, ?_⟩
          rw [hc]
          exact h3 _ rfl
      · intro ho
        cases x with
        | error u => cases ho
        | ok f' =>
          unfold outOf at ho
          rw [hq] at ho
          cases ho

theorem filter_ok {params : List (Params C)} {s : State C} {ops : List (Op C)} (h : Inv params s ops) (f : Dep C → Bool) (op : Op C)
    (hsame : ∀ d, f d = true → heard d.pt d.rid (ops ++ [op]) = heard d.pt d.rid ops)
    (hon : ∀ pt rid, ((ops ++ [op]).foldl (hear pt rid) (true, [])).1 = s.receiving) : Inv params { s with deps := s.deps.filter f } (ops ++ [op]) := by
  refine ⟨hon, ?_, h.keys.sublist (List.filter_sublist.map _)⟩
  intro d hd
  obtain ⟨h1, h2⟩ := List.mem_filter.mp hd
  obtain ⟨h3, h4⟩ := h.deps d h1
  refine ⟨?_, h4⟩
  show (obs d (heard d.pt d.rid (ops ++ [op]))).Frames
  rw [hsame d h2]
  exact h3

theorem inv_step {params : List (Params C)} {ha hv : Nat} {s : State C} {ops : List (Op C)} (h : Inv params s ops) (op : Op C) (hk : Known params op) :
    ∃ s' out, step params ha hv s op = .ok (s', out) ∧ Inv params s' (ops ++ [op]) ∧
      ∀ pt rid q d, .frame pt rid q d ∈ out → q ∈ params ∧ q.pt = pt ∧ FrameOf (C q.codec) (heard pt rid ops) d := by
  have hon : ∀ pt rid, (ops.foldl (hear pt rid) (true, [])).1 = s.receiving := h.on
  cases op with
  | packet p =>
    have honp : ∀ pt rid, ((ops ++ [Op.packet p]).foldl (hear pt rid) (true, [])).1 = s.receiving := by
      intro pt rid
      rw [on_snoc]
      rw [hear_packet]
      split <;> exact hon pt rid
    show ∃ s' out, (depayload params ha hv p s).bind _ = _ ∧ _
    unfold depayload
    by_cases hr : s.receiving = true
    · rw [hr]
      simp only [Bool.not_true, Bool.false_eq_true, if_false]
      have hon' : ∀ pt rid, (ops.foldl (hear pt rid) (true, [])).1 = true := fun pt rid => (hon pt rid).trans hr
      obtain ⟨deps', e1, _, e2⟩ := ensure_spec (deps := s.deps) (ha := ha) (hv := hv) (hk p rfl)
      rw [e1]
      refine ⟨{ s with deps := deps'.map (·.take p) }, [], by rw [hr]; rfl, ⟨honp, ?_, ?_⟩, by simp⟩
      · intro d hd
        obtain ⟨d0, hd0, rfl⟩ := List.mem_map.mp hd
        refine take_ok ?_ p hon'
        rcases e2 with ⟨rfl, _⟩ | ⟨q, hq, _, rfl⟩
        · exact h.deps d0 hd0
        · rcases List.mem_cons.mp hd0 with rfl | hd0
          · exact ⟨frames_new _ _ _ _, q, hq, rfl⟩
          · exact h.deps d0 hd0
      · have hmap : (deps'.map (·.take p)).map (fun d => (d.pt, d.rid)) = deps'.map (fun d => (d.pt, d.rid)) := by
          rw [List.map_map]
          apply List.map_congr_left
          intro d _
          obtain ⟨k1, k2, _⟩ := take_key d p
          show ((d.take p).pt, (d.take p).rid) = _
          rw [k1, k2]
        show ((deps'.map (·.take p)).map _).Nodup
        rw [hmap]
        rcases e2 with ⟨rfl, _⟩ | ⟨q, _, hnone, rfl⟩
        · exact h.keys
        · rw [List.map_cons, List.nodup_cons]
          refine ⟨?_, h.keys⟩
          intro hx
          obtain ⟨d, hd, he⟩ := List.mem_map.mp hx
          injection he with he1 he2
          exact hnone d hd ⟨he1, he2⟩
    · have hr' : s.receiving = false := by simpa using hr
      rw [hr']
      refine ⟨s, [], rfl, ⟨honp, ?_, h.keys⟩, by simp⟩
      intro d hd
      obtain ⟨h3, h4⟩ := h.deps d hd
      refine ⟨?_, h4⟩
      show (obs d (heard d.pt d.rid (ops ++ [.packet p]))).Frames
      have : heard d.pt d.rid (ops ++ [.packet p]) = heard d.pt d.rid ops := by
        rw [(heard_snoc d.pt d.rid ops (.packet p)).2]
        rw [hear_packet, hon, hr', if_neg (fun h => by cases h.1)]
        rfl
      rw [this]
      exact h3
  | poll =>
    obtain ⟨deps', o, e1, e2, e3, e4, _⟩ := poll_spec (params := params) (ops := ops) s.deps h.deps
    refine ⟨{ s with deps := deps' }, [o], ?_, ⟨?_, ?_, ?_⟩, ?_⟩
    · show (pollSample params s.deps).bind _ = _
      rw [e1]
      rfl
    · intro pt rid
      rw [on_snoc]
      exact hon pt rid
    · intro d hd
      obtain ⟨h3, h4⟩ := e2 d hd
      refine ⟨?_, h4⟩
      show (obs d (heard d.pt d.rid (ops ++ [.poll]))).Frames
      rw [(heard_snoc d.pt d.rid ops .poll).2]
      exact h3
    · show (deps'.map _).Nodup
      rw [e3]
      exact h.keys
    · intro pt rid q d hm
      rw [List.mem_singleton] at hm
      obtain ⟨_, j2, j3⟩ := e4 pt rid q d hm.symm
      exact ⟨(find_spec j2).1, (find_spec j2).2, j3⟩
  | receiving b =>
    refine ⟨_, _, rfl, ⟨?_, ?_, h.keys⟩, by simp⟩
    · intro pt rid
      rw [on_snoc]
      rfl
    · intro d hd
      obtain ⟨h3, h4⟩ := h.deps d hd
      refine ⟨?_, h4⟩
      show (obs d (heard d.pt d.rid (ops ++ [.receiving b]))).Frames
      rw [(heard_snoc d.pt d.rid ops (.receiving b)).2]
      exact h3
  | reset pt0 rid0 =>
    refine ⟨_, _, rfl, filter_ok h _ _ ?_ ?_, by simp⟩
    · intro d hd
      rw [(heard_snoc d.pt d.rid ops _).2]
      rw [hear_reset]
      rw [if_neg ?_]
      · rfl
      · rintro ⟨rfl, rfl⟩
        simp at hd
    · intro pt rid
      rw [on_snoc]
      rw [hear_reset]
      split <;> exact hon pt rid
  | paused rid0 =>
    refine ⟨_, _, rfl, filter_ok h _ _ ?_ ?_, by simp⟩
    · intro d hd
      rw [(heard_snoc d.pt d.rid ops _).2]
      rw [hear_paused]
      rw [if_neg ?_]
      · rfl
      · rintro rfl
        simp at hd
    · intro pt rid
      rw [on_snoc]
      rw [hear_paused]
      split <;> exact hon pt rid
  | rehash f hf =>
    refine ⟨_, _, rfl, ⟨?_, ?_, ?_⟩, by simp⟩
    · intro pt rid
      rw [on_snoc]
      exact hon pt rid
    · intro d hd
      obtain ⟨h3, h4⟩ := h.deps d ((hf s.deps).mem_iff.mp hd)
      refine ⟨?_, h4⟩
      show (obs d (heard d.pt d.rid (ops ++ [.rehash f hf]))).Frames
      rw [(heard_snoc d.pt d.rid ops (.rehash f hf)).2]
      exact h3
    · exact ((hf s.deps).map _).nodup_iff.mpr h.keys

theorem inv_run {params : List (Params C)} {ha hv : Nat} : ∀ (ops pre : List (Op C)) (s : State C), Inv params s pre → (∀ op ∈ ops, Known params op) →
    ∃ s' out, run params ha hv s ops = .ok (s', out) ∧ Inv params s' (pre ++ ops) := by
  intro ops
  induction ops with
  | nil =>
    intro pre s h _
    exact ⟨s, [], rfl, by rw [List.append_nil]; exact h⟩
  | cons op ops ih =>
    intro pre s h hk
    obtain ⟨s1, o1, e1, h1, _⟩ := inv_step (ha := ha) (hv := hv) h op (hk op (List.mem_cons_self ..))
    obtain ⟨s2, o2, e2, h2⟩ := ih (pre ++ [op]) s1 h1 (fun o ho => hk o (List.mem_cons_of_mem _ ho))
    refine ⟨s2, o1 ++ o2, ?_, ?_⟩
    · show (step params ha hv s op).bind _ = _
      rw [e1, Res.bind_ok]
      show (run params ha hv s1 ops).bind _ = _
      rw [e2]
      rfl
    · rw [List.append_assoc] at h2
      exact h2

theorem inv_start (params : List (Params C)) : Inv params {} [] := ⟨fun _ _ => rfl, by simp, by simp⟩

/-- **C128** For every history of packets, polls, changes of direction and resets, and any codecs and settings, nothing panics; and each frame handed over is
made of a complete run of packets received with its payload type and RID (packets of other payload types of the RID count as empty), since the stream was last
paused or changed its SSRC, while the media was receiving, decoded in order by the codec it is handed over with. -/
theorem C128_frames (params : List (Params C)) (ha hv : Nat) (ops : List (Op C)) (hk : ∀ op ∈ ops, Known params op) :
    ∃ s outs, run params ha hv {} ops = .ok (s, outs) ∧ ∃ s' out, step params ha hv s .poll = .ok (s', out) ∧
      ∀ pt rid q d, .frame pt rid q d ∈ out → q ∈ params ∧ q.pt = pt ∧ MadeOf (C q.codec) (heard pt rid ops) d := by
  obtain ⟨s, outs, e1, h1⟩ := inv_run (ha := ha) (hv := hv) ops [] {} (inv_start params) hk
  obtain ⟨s', out, e2, _, h2⟩ := inv_step (ha := ha) (hv := hv) h1 .poll (fun p hp => by cases hp)
  refine ⟨s, outs, e1, s', out, e2, ?_⟩
  intro pt rid q d hm
  obtain ⟨j1, j2, j3⟩ := h2 pt rid q d hm
  exact ⟨j1, j2, madeOf_of j3⟩

end Str0m.FrameRx
