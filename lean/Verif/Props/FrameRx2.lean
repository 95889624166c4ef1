import Verif.Props.FrameRx

/-!
C128, continued: in-order audio is handed over at once, what a packet and a poll do, and what the code violates.
-/

namespace Str0m.FrameRx
open Str0m.RxBuffer
variable {κ : Type} {C : κ → Codec}

/-- A codec where each packet is a frame. -/
structure Whole (c : Codec) : Prop where
  head : ∀ st d, c.isHead st d = true
  tail : ∀ st m d, c.isTail st m d = true
  decodes : ∀ st d acc, d ≠ [] → ∃ st', c.depack st d acc = (st', .ok (acc.1 ++ d, acc.2))

/-- The frame made of one packet. -/
def single (m : RxMeta) (data : List Byte) : Depacketized := { time := m.time, contiguous := true, infos := [m], data := data, extra := .none }

/-- A buffer that handed over everything up to a number. -/
def Caught {c : Codec} (b : RxBuffer c) (next : Nat) : Prop :=
  b.queue = [] ∧ b.cache = none ∧ b.cont = .none ∧ (b.lastEmitted = none ∨ ∃ last, b.lastEmitted = some last ∧ next = last + 1)

theorem push_pop {c : Codec} (hw : Whole c) {b : RxBuffer c} {m : RxMeta} (h : Caught b m.seq) {data : List Byte} (hd : data ≠ []) :
    ∃ b', (b.push m data).pop = .ok (b', some (.ok (single m data))) ∧ Caught b' (m.seq + 1) := by
  obtain ⟨h1, h2, h3, h4⟩ := h
  obtain ⟨hold, st, queue, last, cache, cont⟩ := b
  dsimp only at h1 h2 h3 h4
  subst h1 h2 h3
  have hold' : tooOld (c := c) ⟨hold, st, [], last, none, .none⟩ m = false := by
    unfold tooOld
    rcases h4 with h4 | ⟨l, h4, h5⟩
    · subst h4; rfl
    · subst h4
      have : ¬ m.seq ≤ l := by omega
      simp [this]
  have hpush : RxBuffer.push (c := c) ⟨hold, st, [], last, none, .none⟩ m data =
      ⟨hold, st, [{ info := m, data := data, head := true, tail := true }], last, none, .none⟩ := by
    unfold RxBuffer.push RxBuffer.pushEntry
    rw [hold']
    simp [insertEntry, hw.head, hw.tail]
  obtain ⟨st', hdec⟩ := hw.decodes st data ([], .none) hd
  have hseg : segments [({ info := m, data := data, head := true, tail := true } : RxEntry)] = [(0, 0)] := by
    simp [segments, segLoop, segBreak, segHead, segTail]
  have hdep : RxBuffer.depacketize (c := c) ⟨hold, st, [{ info := m, data := data, head := true, tail := true }], last, none, .none⟩ 0 0 =
      .ok (⟨hold, st', [{ info := m, data := data, head := true, tail := true }], last, none, .none⟩, .ok (single m data)) := by
    simp [RxBuffer.depacketize, range, depackLoop, hdec, single]
  have hfol : ∀ st, RxBuffer.isFollowingLast (c := c) ⟨hold, st, [{ info := m, data := data, head := true, tail := true }], last, none, .none⟩ 0 = .ok true := by
    intro st
    unfold RxBuffer.isFollowingLast
    rcases h4 with h4 | ⟨l, h4, h5⟩
    · subst h4; rfl
    · subst h4
      simp [followLoop, h5]
  refine ⟨⟨hold, st', [], some m.seq, none, .none⟩, ?_, rfl, rfl, rfl, .inr ⟨m.seq, rfl, rfl⟩⟩
  rw [hpush]
  unfold RxBuffer.pop
  dsimp only
  rw [hseg]
  simp only [List.getElem?_cons_zero]
  rw [hdep, Res.bind_ok]
  dsimp only
  rw [hfol, Res.bind_ok]
  simp [RxBuffer.emit, Contiguity.check, single]

/-- The packets of one stream, in order, and the media polled after each. -/
def inOrder (pt : Nat) (rid : Option Nat) (ps : List (RxMeta × List Byte)) : List (Op C) := ps.flatMap (fun p => [.packet { pt := pt, rid := rid, info := p.1, data := p.2 }, .poll])

/-- The media has no buffer, or the one of this payload type and RID, which handed over everything up to a number. -/
def Ready (q : Params C) (pt : Nat) (rid : Option Nat) (s : State C) (next : Nat) : Prop :=
  s.receiving = true ∧ (s.deps = [] ∨ ∃ b : RxBuffer (C q.codec), s.deps = [{ pt := pt, rid := rid, codec := q.codec, buf := b }] ∧ Caught b next)

theorem one_packet {params : List (Params C)} {ha hv : Nat} {q : Params C} {pt : Nat} (hq : find params pt = some q) (hw : Whole (C q.codec)) (hcont : q.cont = .none)
    {rid : Option Nat} {s : State C} {m : RxMeta} (h : Ready q pt rid s m.seq) {data : List Byte} (hd : data ≠ []) :
    ∃ s1 s2, step params ha hv s (.packet { pt := pt, rid := rid, info := m, data := data }) = .ok (s1, []) ∧
      step params ha hv s1 .poll = .ok (s2, [.frame pt rid q (single m data)]) ∧ Ready q pt rid s2 (m.seq + 1) := by
  obtain ⟨on, hdeps⟩ := h
  have key : ∃ b : RxBuffer (C q.codec), Caught b m.seq ∧
      ensure params ha hv { pt := pt, rid := rid, info := m, data := data } s.deps = .ok [{ pt := pt, rid := rid, codec := q.codec, buf := b }] := by
    rcases hdeps with h | ⟨b, h, hc⟩
    · refine ⟨_, ?_, by rw [h]; unfold ensure; rw [if_neg (by simp)]; dsimp only; rw [hq]⟩
      exact ⟨rfl, rfl, hcont, .inl rfl⟩
    · refine ⟨b, hc, ?_⟩
      rw [h]
      unfold ensure
      rw [if_pos (by simp)]
  obtain ⟨b, hc, he⟩ := key
  obtain ⟨b', hp, hc'⟩ := push_pop hw hc hd
  refine ⟨{ receiving := true, deps := [{ pt := pt, rid := rid, codec := q.codec, buf := b.push m data }] },
    { receiving := true, deps := [{ pt := pt, rid := rid, codec := q.codec, buf := b' }] }, ?_, ?_, rfl, .inr ⟨b', rfl, hc'⟩⟩
  · show (depayload params ha hv _ s).bind _ = _
    unfold depayload
    rw [on, if_neg (by simp), he, Res.bind_ok, Res.bind_ok]
    have : Dep.take (C := C) { pt := pt, rid := rid, codec := q.codec, buf := b } { pt := pt, rid := rid, info := m, data := data } =
        { pt := pt, rid := rid, codec := q.codec, buf := b.push m data } := by
      unfold Dep.take
      rw [if_pos rfl, if_pos rfl]
    rw [List.map_cons, this]
    rfl
  · show (pollSample params [_]).bind _ = _
    unfold pollSample
    dsimp only
    rw [hp, Res.bind_ok, Res.bind_ok]
    unfold outOf
    dsimp only
    rw [hq]

/-- **C128** Audio that arrives in order is handed over at once, each packet as one frame: whatever the reordering settings are. -/
theorem C128_inorder (params : List (Params C)) (ha hv : Nat) {q : Params C} {pt : Nat} (hq : find params pt = some q) (hw : Whole (C q.codec)) (hcont : q.cont = .none)
    (rid : Option Nat) : ∀ (ps : List (RxMeta × List Byte)) (s : State C) (next : Nat), Ready q pt rid s next → (∀ i p, ps[i]? = some p → p.1.seq = next + i ∧ p.2 ≠ []) →
    ∃ s', run params ha hv s (inOrder pt rid ps) = .ok (s', ps.map (fun p => .frame pt rid q (single p.1 p.2))) ∧ Ready q pt rid s' (next + ps.length) := by
  intro ps
  induction ps with
  | nil => intro s next h _; exact ⟨s, rfl, h⟩
  | cons p ps ih =>
    intro s next h hps
    obtain ⟨h1, h2⟩ := hps 0 p rfl
    have h1' : p.1.seq = next := h1
    rw [← h1'] at h
    obtain ⟨s1, s2, e1, e2, h3⟩ := one_packet (ha := ha) (hv := hv) hq hw hcont h h2
    rw [h1'] at h3
    obtain ⟨s3, e3, h4⟩ := ih s2 (next + 1) h3 (fun i x hx => by
      obtain ⟨a, b⟩ := hps (i + 1) x hx
      exact ⟨by omega, b⟩)
    refine ⟨s3, ?_, by rw [List.length_cons]; rw [show next + (ps.length + 1) = next + 1 + ps.length by omega]; exact h4⟩
    show (step params ha hv s (.packet { pt := pt, rid := rid, info := p.1, data := p.2 })).bind _ = _
    rw [e1, Res.bind_ok]
    show (Res.bind ((step params ha hv s1 .poll).bind _) _) = _
    rw [e2, Res.bind_ok]
    show (Res.bind (Res.bind (run params ha hv s2 (inOrder pt rid ps)) _) _) = _
    rw [e3]
    rfl

/-- **C128** A poll that hands over nothing has left no frame behind: no buffer had one to give. And a packet reaches the buffer of its payload type and RID, there
is exactly one, and buffers of other RIDs are left alone. -/
theorem C128_quiet (params : List (Params C)) (ha hv : Nat) (ops : List (Op C)) (hk : ∀ op ∈ ops, Known params op) :
    ∃ s outs, run params ha hv {} ops = .ok (s, outs) ∧ (s.deps.map (fun d => (d.pt, d.rid))).Nodup ∧
      (∀ s', step params ha hv s .poll = .ok (s', [.nothing]) → ∀ d ∈ s.deps, ∃ b, d.buf.pop = .ok (b, none)) ∧
      (s.receiving = true → ∀ p : Packet, p.pt ∈ params.map (·.pt) → ∃ s', step params ha hv s (.packet p) = .ok (s', []) ∧
        (∃ d ∈ s'.deps, d.pt = p.pt ∧ d.rid = p.rid) ∧ ∀ d ∈ s.deps, d.rid ≠ p.rid → d ∈ s'.deps) := by
  obtain ⟨s, outs, e1, h1⟩ := inv_run (ha := ha) (hv := hv) ops [] {} (inv_start params) hk
  refine ⟨s, outs, e1, h1.keys, ?_, ?_⟩
  · intro s' hs
    obtain ⟨deps', o, p1, _, _, _, p5⟩ := poll_spec (params := params) (ops := [] ++ ops) s.deps h1.deps
    have : step params ha hv s .poll = .ok ({ s with deps := deps' }, [o]) := by
      show (pollSample params s.deps).bind _ = _
      rw [p1]; rfl
    rw [this] at hs
    injection hs with hs
    injection hs with _ hs
    injection hs with hs _
    exact p5 hs
  · intro hr p hp
    obtain ⟨deps', p1, ⟨d0, p2, p3, p4⟩, p5⟩ := ensure_spec (deps := s.deps) (ha := ha) (hv := hv) hp
    refine ⟨{ s with deps := deps'.map (·.take p) }, ?_, ?_, ?_⟩
    · show (depayload params ha hv p s).bind _ = _
      unfold depayload
      rw [hr, if_neg (by simp), p1]
      simp [Res.bind_ok]
    · obtain ⟨k1, k2, _⟩ := take_key d0 p
      exact ⟨d0.take p, List.mem_map.mpr ⟨d0, p2, rfl⟩, k1.trans p3, k2.trans p4⟩
    · intro d hd hne
      have hd' : d ∈ deps' := by
        rcases p5 with ⟨rfl, _⟩ | ⟨q, _, _, rfl⟩
        · exact hd
        · exact List.mem_cons_of_mem _ hd
      refine List.mem_map.mpr ⟨d, hd', ?_⟩
      unfold Dep.take
      rw [if_neg hne]

/-! ### It happens, and what the code violates -/

theorem opus_whole : Whole opusCodec := ⟨fun _ _ => rfl, fun _ _ _ => rfl, fun _ _ _ _ => ⟨(), rfl⟩⟩

/-- Two audio codecs, of payload types 111 and 13. -/
def audio : Unit → Codec := fun _ => opusCodec

/-- Their parameters. -/
def audioParams : List (Params audio) := [{ pt := 111, audio := true, codec := (), st := (), cont := .none }, { pt := 13, audio := true, codec := (), st := (), cont := .none }]

/-- What was handed over: payload type, RID and the numbers of the packets. -/
def numbers (params : List (Params C)) (ha hv : Nat) (ops : List (Op C)) : List (Nat × Option Nat × List Nat) :=
  match run params ha hv {} ops with
  | .ok (_, outs) => outs.flatMap (fun o => match o with
    | .frame pt rid _ d => [(pt, rid, d.infos.map (·.seq))]
    | _ => [])
  | _ => []

/-- A packet. -/
def pkt (pt seq : Nat) : Op audio := .packet { pt := pt, rid := none, info := { seq := seq, time := seq * 10 }, data := [1] }

/-- Packets of two payload types, in order. -/
def mixed : List (Op audio) := [pkt 111 1, .poll, pkt 13 2, .poll, pkt 111 3, .poll, .poll]

/-- The hypotheses of `C128_frames` and `C128_inorder` are met; packets of two payload types come out. -/
theorem C128_example : (∀ op ∈ mixed, Known audioParams op) ∧ Ready { pt := 111, audio := true, codec := (), st := (), cont := .none } 111 none ({} : State audio) 1 ∧
    numbers audioParams 15 30 mixed = [(111, none, [1]), (13, none, [2]), (111, none, [3])] := by
  refine ⟨?_, ⟨rfl, .inl rfl⟩, by decide +kernel⟩
  intro op hop p hp
  subst hp
  simp only [mixed, pkt, List.mem_cons, Op.packet.injEq, reduceCtorEq, List.not_mem_nil, or_false, false_or] at hop
  rcases hop with rfl | rfl | rfl <;> simp [audioParams]

/-- The SSRC of the stream changes with a packet of payload type 111, and the numbers start anew. -/
def newSsrc : List (Op audio) := [pkt 111 1000, .poll, pkt 13 1001, .poll, .reset 111 none, pkt 111 1, .poll, pkt 13 2, .poll, pkt 13 3, .poll, pkt 111 4, .poll]

/-- When the SSRC of a stream changes only the buffer of the payload type of that packet is reset: those of the other payload types drop all packets until the numbers
pass the old ones. -/
theorem C128_violation_reset : numbers audioParams 15 30 newSsrc = [(111, none, [1000]), (13, none, [1001]), (111, none, [1]), (111, none, [4])] := by decide +kernel

/-- Packets of two payload types arrive before the media is polled. -/
def crowd (f : List (Dep audio) → List (Dep audio)) (h : ∀ l, (f l).Perm l) : List (Op audio) := [pkt 111 1, pkt 13 2, .rehash f h, .poll, .poll]

/-- Frames of two payload types of one stream come out in the order of the hash map, not in that of the packets. -/
theorem C128_violation_order : numbers audioParams 15 30 (crowd id (fun l => .refl l)) = [(13, none, [2]), (111, none, [1])] ∧
    numbers audioParams 15 30 (crowd List.reverse (fun l => List.reverse_perm l)) = [(111, none, [1]), (13, none, [2])] := by decide +kernel

/-! ### Streams do not disturb each other -/

theorem bind_cases {α β : Type} {x : Res Unit α} {f : α → Res Unit β} {b : β} (h : x.bind f = .ok b) : ∃ a, x = .ok a ∧ f a = .ok b := by
  cases x with
  | ok a => exact ⟨a, rfl, h⟩
  | err e => cases h
  | panic => cases h

/-- The operation is about a stream with another RID -/
def Elsewhere (rid : Option Nat) : Op C → Prop
  | .packet p => p.rid ≠ rid
  | .reset _ r => r ≠ rid
  | .paused r => r ≠ rid
  | _ => False

/-- The buffers of a RID -/
def bufsOf (rid : Option Nat) (s : State C) : List (Dep C) := s.deps.filter (fun d => d.rid = rid)

/-- **C128** (streams do not disturb each other): a packet, a pause or a change of the SSRC of the stream with one RID leaves all that is
kept for another as it is -/
theorem C128_apart (params : List (Params C)) (ha hv : Nat) (s : State C) {rid : Option Nat} {op : Op C} (ho : Elsewhere rid op) {s' : State C}
    {out : List (Out C)} (h : step params ha hv s op = .ok (s', out)) :
    bufsOf rid s' = bufsOf rid s ∧ s'.receiving = s.receiving ∧ out = [] := by
  have hfilter : ∀ (l : List (Dep C)) (f : Dep C → Bool), (∀ d, d.rid = rid → f d = true) →
      (l.filter f).filter (fun d => d.rid = rid) = l.filter (fun d => d.rid = rid) := by
    intro l f hf
    rw [List.filter_filter]
    apply List.filter_congr
    intro d _
    by_cases hd : d.rid = rid
    · simp [hd, hf d hd]
    · simp [hd]
  cases op with
  | packet p =>
    have hp : p.rid ≠ rid := ho
    obtain ⟨s1, h1, h2⟩ := bind_cases h
    injection h2 with h2
    injection h2 with h2 h3
    subst h2
    refine ⟨?_, ?_, h3.symm⟩
    · unfold depayload at h1
      split at h1
      · injection h1 with h1; rw [h1]
      · obtain ⟨deps, h4, h5⟩ := bind_cases h1
        injection h5 with h5
        subst h5
        have hmap : ∀ l : List (Dep C), (l.map (·.take p)).filter (fun d => d.rid = rid) = l.filter (fun d => d.rid = rid) := by
          intro l
          induction l with
          | nil => rfl
          | cons d l ih =>
            by_cases hd : d.rid = rid
            · have : d.take p = d := by unfold Dep.take; rw [if_neg (by rw [hd]; exact fun he => hp he.symm)]
              rw [List.map_cons, this, List.filter_cons_of_pos (by simpa using hd), List.filter_cons_of_pos (by simpa using hd), ih]
            · rw [List.map_cons, List.filter_cons_of_neg (by simpa [(take_key d p).2.1] using hd), List.filter_cons_of_neg (by simpa using hd), ih]
        show (deps.map (·.take p)).filter _ = _
        rw [hmap]
        unfold ensure at h4
        split at h4
        · injection h4 with h4; rw [← h4]; rfl
        · split at h4
          · cases h4
          · injection h4 with h4
            rw [← h4, List.filter_cons_of_neg (by simpa using hp)]
            rfl
    · unfold depayload at h1
      split at h1
      · injection h1 with h1; rw [h1]
      · obtain ⟨deps, h4, h5⟩ := bind_cases h1
        injection h5 with h5
        rw [← h5]
  | poll => exact ho.elim
  | receiving b => exact ho.elim
  | rehash f hf => exact ho.elim
  | reset pt r =>
    injection h with h
    injection h with h1 h2
    subst h1
    refine ⟨hfilter _ _ ?_, rfl, h2.symm⟩
    intro d hd
    have hr : r ≠ rid := ho
    simp [hd, Ne.symm hr]
  | paused r =>
    injection h with h
    injection h with h1 h2
    subst h1
    refine ⟨hfilter _ _ ?_, rfl, h2.symm⟩
    intro d hd
    have hr : r ≠ rid := ho
    simp [hd, Ne.symm hr]

end Str0m.FrameRx
