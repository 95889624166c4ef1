import Verif.Model.Contiguity
/-
  C22: delivery decisions for pictures with picture ids (VP8, VP9); C51: VP9 and the wrap of the
  picture id.
-/
namespace Str0m

/-! ### Specification vocabulary -/

/-- A picture as the peer describes it: picture id, id of the base layer picture it belongs to,
temporal layer (VP9 may omit it). -/
structure Picture where
  pid : Nat
  tl0 : Nat
  layer : Option Nat
deriving Repr, DecidableEq

/-- The picture described by a codec extra that carries both ids. -/
def CodecExtra.picture : CodecExtra → Option Picture
  | .vp8 (some pid) (some tl0) layer => some ⟨pid, tl0, some layer⟩
  | .vp9 pid (some tl0) tid => some ⟨pid, tl0, tid⟩
  | _ => Option.none

/-- The field widths of the Rust types (VP8: `u64` ids, VP9: `u16` and `u8`, vp9.rs 28-116). -/
def CodecExtra.WF : CodecExtra → Prop
  | .vp9 pid tl0 _ => pid < 2 ^ 16 ∧ ∀ t, tl0 = some t → t < 2 ^ 8
  | _ => True

/-- Run the delivery decision over the frames of a stream (with the sequence number verdict of each)
and return the delivered ones with their contiguous flag. -/
def Contiguity.deliver : Contiguity → List (CodecExtra × Bool) → List (CodecExtra × Bool)
  | _, [] => []
  | c, (x, k) :: xs =>
    match c.check x k with
    | (c', true, k') => (x, k') :: c'.deliver xs
    | (c', false, _) => c'.deliver xs

/-- The delivered pictures (frames without both ids are not pictures in this sense). -/
def deliveredPictures (out : List (CodecExtra × Bool)) : List Picture :=
  out.filterMap (fun x => x.1.picture)

/-- `next` may follow: its id is larger than that of the picture before it and it is a base layer
picture, or it is the direct successor and refers to the current base layer. -/
def MayFollow (base prev : Nat) (p : Picture) : Prop :=
  prev < p.pid ∧ (p.layer = some 0 ∨ (p.tl0 = base ∧ p.pid = prev + 1))

/-- Every picture of the list may follow the one before; the current base layer is that of the last
base layer picture (of the first picture, before any). -/
def Decodable (base prev : Nat) : List Picture → Prop
  | [] => True
  | p :: ps => MayFollow base prev p ∧
      Decodable (if p.layer = some 0 then p.tl0 else base) p.pid ps

def DecodableStream : List Picture → Prop
  | [] => True
  | p :: ps => Decodable p.tl0 p.pid ps

/-! ### Theorems -/

/-- One decision in state `s`. -/
theorem nextFrame_some (s : FrameContiguity) (pid tl0 : Nat) (layer : Option Nat) (k : Bool)
    (lt lp : Nat) (h1 : s.lastTl0 = some lt) (h2 : s.lastPictureId = some lp) :
    ∃ s' e k', s.nextFrame (some pid) (some tl0) layer k = (s', e, k') ∧
      (e = true → MayFollow lt lp ⟨pid, tl0, layer⟩ ∧ s'.lastPictureId = some pid ∧
        s'.lastTl0 = some (if layer = some 0 then tl0 else lt)) ∧
      (e = false → s' = s) := by
  simp only [FrameContiguity.nextFrame, h1, h2]
  by_cases a1 : pid ≤ lp
  · rw [if_pos a1]; exact ⟨_, _, _, rfl, by simp, fun _ => rfl⟩
  · rw [if_neg a1]
    by_cases a2 : layer = some 0
    · rw [if_pos a2]
      refine ⟨_, _, _, rfl, fun _ => ⟨⟨by simp only; omega, Or.inl a2⟩, rfl, by simp [a2]⟩, by simp⟩
    · rw [if_neg a2]
      by_cases a3 : tl0 = lt ∧ pid = (lp + 1) % 2 ^ 64
      · rw [if_pos a3]
        obtain ⟨a3, a4⟩ := a3
        refine ⟨_, _, _, rfl, fun _ => ⟨⟨by simp only; omega, Or.inr ⟨a3, ?_⟩⟩, rfl, by simp [a2, h1]⟩, by simp⟩
        simp only
        have : (lp + 1) % 2 ^ 64 ≤ lp + 1 := Nat.mod_le _ _
        omega
      · rw [if_neg a3]; exact ⟨_, _, _, rfl, by simp, fun _ => rfl⟩

/-- The state of either kind. -/
def Contiguity.inner : Contiguity → Option FrameContiguity
  | .vp8 s => some s
  | .vp9 s => some s
  | .none => Option.none

/-- A check of a frame that is no picture delivers it and changes nothing the later checks see. -/
theorem check_nopicture (c : Contiguity) (x : CodecExtra) (k : Bool) (hx : x.picture = none)
    (hw : ∀ s, c = .vp9 s → narrow 16 s.lastPictureId = s.lastPictureId ∧ narrow 8 s.lastTl0 = s.lastTl0) :
    c.check x k = (c, true, k) := by
  cases c with
  | none => rfl
  | vp8 s =>
    cases x with
    | none => rfl
    | other => rfl
    | vp9 => rfl
    | vp8 a b l =>
      cases a <;> cases b <;> simp [CodecExtra.picture] at hx <;> rfl
  | vp9 s =>
    cases x with
    | none => rfl
    | other => rfl
    | vp8 => rfl
    | vp9 a b l =>
      cases b with
      | none => 
        obtain ⟨h1, h2⟩ := hw s rfl
        simp only [Contiguity.check, FrameContiguity.nextFrame, h1, h2]
      | some b => simp [CodecExtra.picture] at hx

theorem narrow_fix {b v : Nat} (h : v < 2 ^ b) : narrow b (some v) = some v := by
  simp [narrow, h]

/-- The invariant: what the state remembers fits its types. -/
def Contiguity.Fits : Contiguity → Prop
  | .vp9 s => (∀ v, s.lastPictureId = some v → v < 2 ^ 16) ∧ (∀ v, s.lastTl0 = some v → v < 2 ^ 8)
  | _ => True

theorem Fits.narrow {s : FrameContiguity} (h : Contiguity.Fits (.vp9 s)) :
    narrow 16 s.lastPictureId = s.lastPictureId ∧ narrow 8 s.lastTl0 = s.lastTl0 := by
  obtain ⟨h1, h2⟩ := h
  constructor
  · cases hp : s.lastPictureId with
    | none => rfl
    | some v => exact narrow_fix (h1 v hp)
  · cases hp : s.lastTl0 with
    | none => rfl
    | some v => exact narrow_fix (h2 v hp)

/-- One check in a state that has delivered a picture. -/
theorem check_some (c : Contiguity) (s : FrameContiguity) (hc : c.inner = some s) (hf : c.Fits)
    (x : CodecExtra) (hx : x.WF) (k : Bool) (lt lp : Nat)
    (h1 : s.lastTl0 = some lt) (h2 : s.lastPictureId = some lp) :
    ∃ c' e k', c.check x k = (c', e, k') ∧ c'.Fits ∧
      (e = false → c' = c) ∧
      (e = true → (c' = c ∧ ∀ p, x.picture = some p → ∀ s, (c = .vp8 s → ∃ a b d, x = .vp9 a b d) ∧
          (c = .vp9 s → ∃ a b d, x = .vp8 a b d)) ∨
        ∃ p s', x.picture = some p ∧ MayFollow lt lp p ∧ c'.inner = some s' ∧
          s'.lastPictureId = some p.pid ∧ s'.lastTl0 = some (if p.layer = some 0 then p.tl0 else lt)) := by
  cases hp : x.picture with
  | none =>
    refine ⟨c, true, k, check_nopicture c x k hp ?_, hf, by simp, fun _ => Or.inl ⟨rfl, by simp⟩⟩
    intro s' hs; subst hs; exact Fits.narrow hf
  | some p =>
    cases c with
    | none => cases hc
    | vp8 s' =>
      simp [Contiguity.inner] at hc; subst hc
      cases x with
      | none => cases hp
      | other => cases hp
      | vp9 a b d =>
        refine ⟨_, _, _, rfl, trivial, by simp, fun _ => Or.inl ⟨rfl, ?_⟩⟩
        intro p _ s0
        exact ⟨fun _ => ⟨a, b, d, rfl⟩, by simp⟩
      | vp8 a b l =>
        cases a with
        | none => simp [CodecExtra.picture] at hp
        | some a =>
          cases b with
          | none => simp [CodecExtra.picture] at hp
          | some b =>
            simp [CodecExtra.picture] at hp; subst hp
            obtain ⟨s1, e, k', he, ht, hfl⟩ := nextFrame_some s' a b (some l) k lt lp h1 h2
            refine ⟨.vp8 s1, e, k', by simp only [Contiguity.check, he], trivial, ?_, ?_⟩
            · intro h; rw [hfl h]
            · intro h
              obtain ⟨m1, m2, m3⟩ := ht h
              exact Or.inr ⟨_, s1, rfl, m1, rfl, m2, m3⟩
    | vp9 s' =>
      simp [Contiguity.inner] at hc; subst hc
      cases x with
      | none => cases hp
      | other => cases hp
      | vp8 a b d =>
        refine ⟨_, _, _, rfl, hf, by simp, fun _ => Or.inl ⟨rfl, ?_⟩⟩
        intro p _ s0
        exact ⟨by simp, fun _ => ⟨a, b, d, rfl⟩⟩
      | vp9 a b l =>
        cases b with
        | none => simp [CodecExtra.picture] at hp
        | some b =>
          simp [CodecExtra.picture] at hp; subst hp
          obtain ⟨w1, w2⟩ := hx
          have w2 := w2 b rfl
          obtain ⟨s1, e, k', he, ht, hfl⟩ := nextFrame_some s' a b l k lt lp h1 h2
          have hlt := hf.2 lt h1
          cases e with
          | false =>
            have := hfl rfl; subst this
            obtain ⟨n1, n2⟩ := Fits.narrow hf
            refine ⟨.vp9 s1, false, k', by simp only [Contiguity.check, he, n1, n2], hf, by simp, by simp⟩
          | true =>
            obtain ⟨m1, m2, m3⟩ := ht rfl
            have hl : (if l = some 0 then b else lt) < 2 ^ 8 := by split <;> assumption
            refine ⟨.vp9 s1, true, k', ?_, ?_, by simp, ?_⟩
            · simp only [Contiguity.check, he, m2, m3, narrow_fix w1, narrow_fix hl]
              rw [← m2, ← m3]
            · refine ⟨?_, ?_⟩
              · intro v hv; rw [m2] at hv; simp at hv; omega
              · intro v hv; rw [m3] at hv; simp only [Option.some.injEq] at hv; omega
            · intro _
              exact Or.inr ⟨_, s1, rfl, m1, rfl, m2, m3⟩

/-- All frames come from one codec. -/
def Contiguity.Matches : Contiguity → CodecExtra → Prop
  | .vp8 _, .vp9 .. => False
  | .vp9 _, .vp8 .. => False
  | .none, _ => False
  | _, _ => True

theorem matches_inner {c c' : Contiguity} (x : CodecExtra)
    (h : (∃ s s', c = .vp8 s ∧ c' = .vp8 s') ∨ (∃ s s', c = .vp9 s ∧ c' = .vp9 s')) :
    c.Matches x → c'.Matches x := by
  rcases h with ⟨s, s', rfl, rfl⟩ | ⟨s, s', rfl, rfl⟩ <;> cases x <;> exact id

theorem check_kind (c : Contiguity) (x : CodecExtra) (k : Bool) (h : c ≠ .none) :
    (∃ s s', c = .vp8 s ∧ (c.check x k).1 = .vp8 s') ∨ (∃ s s', c = .vp9 s ∧ (c.check x k).1 = .vp9 s') := by
  cases c with
  | none => exact absurd rfl h
  | vp8 s => left; cases x <;> exact ⟨s, _, rfl, rfl⟩
  | vp9 s => right; cases x <;> exact ⟨s, _, rfl, rfl⟩

theorem deliver_decodable (xs : List (CodecExtra × Bool)) : ∀ (c : Contiguity) (s : FrameContiguity)
    (lt lp : Nat), c.inner = some s → c.Fits → (∀ x ∈ xs, x.1.WF ∧ c.Matches x.1) →
    s.lastTl0 = some lt → s.lastPictureId = some lp →
    Decodable lt lp (deliveredPictures (c.deliver xs)) := by
  induction xs with
  | nil => intros; trivial
  | cons xk xs ih =>
    intro c s lt lp hc hf hx h1 h2
    obtain ⟨x, k⟩ := xk
    obtain ⟨hwf, hm⟩ := hx (x, k) (by simp)
    have hcn : c ≠ .none := by intro h; rw [h] at hc; cases hc
    have hkind := check_kind c x k hcn
    obtain ⟨c', e, k', he, hf', hfl, ht⟩ := check_some c s hc hf x hwf k lt lp h1 h2
    rw [he] at hkind
    have hx' : ∀ y ∈ xs, y.1.WF ∧ c'.Matches y.1 := fun y hy =>
      ⟨(hx y (List.mem_cons_of_mem _ hy)).1,
       matches_inner _ hkind (hx y (List.mem_cons_of_mem _ hy)).2⟩
    simp only [Contiguity.deliver, he]
    cases e with
    | false =>
      have := hfl rfl; subst this
      exact ih _ s lt lp hc hf' hx' h1 h2
    | true =>
      rcases ht rfl with ⟨rfl, hno⟩ | ⟨p, s', hp, hmay, hi, hp1, hp2⟩
      · have : x.picture = none := by
          cases hp : x.picture with
          | none => rfl
          | some p =>
            exfalso
            cases c' with
            | none => exact hcn rfl
            | vp8 s0 =>
              obtain ⟨a, b, d, rfl⟩ := (hno p hp s0).1 rfl
              exact hm
            | vp9 s0 =>
              obtain ⟨a, b, d, rfl⟩ := (hno p hp s0).2 rfl
              exact hm
        simp only [deliveredPictures, List.filterMap_cons, this]
        exact ih _ s lt lp hc hf' hx' h1 h2
      · simp only [deliveredPictures, List.filterMap_cons, hp]
        exact ⟨hmay, ih _ s' _ _ hi hf' hx' hp2 hp1⟩

/-- A new checker for VP8 or VP9 (contiguity_vp8.rs 13-16, contiguity_vp9.rs 14-16). -/
def Contiguity.isNew : Contiguity → Prop
  | .vp8 s => s = {}
  | .vp9 s => s = {}
  | .none => False

/-- The first picture of a stream is delivered and remembered; frames before it change nothing. -/
theorem deliver_first (xs : List (CodecExtra × Bool)) : ∀ (c : Contiguity), c.isNew →
    (∀ x ∈ xs, x.1.WF ∧ c.Matches x.1) → DecodableStream (deliveredPictures (c.deliver xs)) := by
  induction xs with
  | nil => intros; trivial
  | cons xk xs ih =>
    intro c hn hx
    obtain ⟨x, k⟩ := xk
    obtain ⟨hwf, hm⟩ := hx (x, k) (by simp)
    cases hp : x.picture with
    | none =>
      have : c.check x k = (c, true, k) := by
        apply check_nopicture c x k hp
        rintro s rfl
        simp only [Contiguity.isNew] at hn; subst hn; exact ⟨rfl, rfl⟩
      simp only [Contiguity.deliver, this, deliveredPictures, List.filterMap_cons, hp]
      exact ih c hn (fun y hy => hx y (List.mem_cons_of_mem _ hy))
    | some p =>
      cases c with
      | none => exact hn.elim
      | vp8 s =>
        simp only [Contiguity.isNew] at hn; subst hn
        cases x with
        | none => cases hp
        | other => cases hp
        | vp9 => exact hm.elim
        | vp8 a b l =>
          cases a with
          | none => simp [CodecExtra.picture] at hp
          | some a =>
            cases b with
            | none => simp [CodecExtra.picture] at hp
            | some b =>
              simp only [Contiguity.deliver, Contiguity.check, FrameContiguity.nextFrame,
                deliveredPictures, List.filterMap_cons, CodecExtra.picture, DecodableStream]
              exact deliver_decodable xs _ _ b a rfl trivial
                (fun y hy => ⟨(hx y (List.mem_cons_of_mem _ hy)).1,
                  matches_inner _ (Or.inl ⟨_, _, rfl, rfl⟩) (hx y (List.mem_cons_of_mem _ hy)).2⟩) rfl rfl
      | vp9 s =>
        simp only [Contiguity.isNew] at hn; subst hn
        cases x with
        | none => cases hp
        | other => cases hp
        | vp8 => exact hm.elim
        | vp9 a b l =>
          cases b with
          | none => simp [CodecExtra.picture] at hp
          | some b =>
            obtain ⟨w1, w2⟩ := hwf
            have w2 := w2 b rfl
            simp only [Contiguity.deliver, Contiguity.check, FrameContiguity.nextFrame,
                deliveredPictures, List.filterMap_cons, CodecExtra.picture, DecodableStream,
                narrow_fix w1, narrow_fix w2]
            refine deliver_decodable xs _ _ b a rfl ⟨?_, ?_⟩
                (fun y hy => ⟨(hx y (List.mem_cons_of_mem _ hy)).1,
                  matches_inner _ (Or.inr ⟨_, _, rfl, rfl⟩) (hx y (List.mem_cons_of_mem _ hy)).2⟩) rfl rfl
            · intro v hv; simp at hv; omega
            · intro v hv; simp at hv; omega

/-- **C22**. For every sequence of frames of a VP8 or VP9 stream, the delivered pictures that carry
both ids have strictly increasing ids, and every picture that is not of the base layer is the direct
successor of the delivered picture before it and refers to the current base layer. -/
theorem C22_decodable (c : Contiguity) (hn : c.isNew) (xs : List (CodecExtra × Bool))
    (hx : ∀ x ∈ xs, x.1.WF ∧ c.Matches x.1) :
    DecodableStream (deliveredPictures (c.deliver xs)) := deliver_first xs c hn hx

theorem decodable_increasing (ps : List Picture) : ∀ base prev, Decodable base prev ps →
    (∀ p ∈ ps, prev < p.pid) ∧ (ps.map (·.pid)).Pairwise (· < ·) := by
  induction ps with
  | nil => intros; simp
  | cons p ps ih =>
    intro base prev ⟨h1, h2⟩
    obtain ⟨a, b⟩ := ih _ _ h2
    refine ⟨?_, ?_⟩
    · intro q hq
      rcases List.mem_cons.mp hq with rfl | hq
      · exact h1.1
      · exact Nat.lt_trans h1.1 (a q hq)
    · simp only [List.map_cons, List.pairwise_cons, List.mem_map, forall_exists_index, and_imp,
        forall_apply_eq_imp_iff₂]
      exact ⟨a, b⟩

/-- **C22**, ids: the ids of the delivered pictures are strictly increasing. -/
theorem C22_ids_increase (c : Contiguity) (hn : c.isNew) (xs : List (CodecExtra × Bool))
    (hx : ∀ x ∈ xs, x.1.WF ∧ c.Matches x.1) :
    ((deliveredPictures (c.deliver xs)).map (·.pid)).Pairwise (· < ·) := by
  have := C22_decodable c hn xs hx
  generalize deliveredPictures (c.deliver xs) = ps at this
  cases ps with
  | nil => simp
  | cons p ps =>
    obtain ⟨a, b⟩ := decodable_increasing ps _ _ this
    simp only [List.map_cons, List.pairwise_cons, List.mem_map, forall_exists_index, and_imp,
        forall_apply_eq_imp_iff₂]
    exact ⟨a, b⟩

/-- **C22**, liveness: a base layer picture with an id above the last delivered one is delivered
whatever was lost before it, so the stream recovers at the next base layer picture; it is flagged
contiguous exactly if no base layer picture is missing. -/
theorem C22_base_delivered (s : FrameContiguity) (pid tl0 lt lp : Nat) (k : Bool)
    (h1 : s.lastTl0 = some lt) (h2 : s.lastPictureId = some lp) (h : lp < pid) :
    ∃ s' k', (Contiguity.vp8 s).check (.vp8 (some pid) (some tl0) 0) k = (.vp8 s', true, k') ∧
      (k' = true ↔ tl0 = (lt + 1) % 2 ^ 64) := by
  refine ⟨{ lastPictureId := some pid, lastTl0 := some tl0 }, tl0 == (lt + 1) % 2 ^ 64, ?_, by simp⟩
  simp only [Contiguity.check, FrameContiguity.nextFrame, h1, h2]
  simp [show ¬ pid ≤ lp by omega]

/-- A VP9 stream that has delivered the picture with the largest 15-bit id. -/
theorem vp9_stuck (xs : List (CodecExtra × Bool)) : ∀ (s : FrameContiguity) (lt : Nat),
    Contiguity.Fits (.vp9 s) → s.lastTl0 = some lt → s.lastPictureId = some 32767 →
    (∀ x ∈ xs, ∃ pid tl0 tid, x.1 = .vp9 pid (some tl0) tid ∧ pid < 2 ^ 15) →
    (Contiguity.vp9 s).deliver xs = [] := by
  induction xs with
  | nil => intros; rfl
  | cons xk xs ih =>
    intro s lt hf h1 h2 hx
    obtain ⟨x, k⟩ := xk
    obtain ⟨pid, tl0, tid, he, hlt⟩ := hx (x, k) (by simp)
    simp only at he; subst he
    obtain ⟨n1, n2⟩ := Fits.narrow hf
    have : (Contiguity.vp9 s).check (.vp9 pid (some tl0) tid) k = (.vp9 s, false, true) := by
      simp only [Contiguity.check, FrameContiguity.nextFrame, h1, h2]
      rw [if_pos (by omega)]
      simp only [n1, n2]
    simp only [Contiguity.deliver, this]
    exact ih s lt hf h1 h2 (fun y hy => hx y (List.mem_cons_of_mem _ hy))

/-- **C51 is violated**: the VP9 picture id on the wire has 15 bits (vp9.rs 299-313) and is not
extended, so after the picture with id 32767 has been delivered, no later picture of the stream with
a base layer id is ever delivered, whatever it is, keyframes included. -/
theorem C51_violation (tl0 : Nat) (tid : Option Nat) (k : Bool) (h : tl0 < 2 ^ 8)
    (xs : List (CodecExtra × Bool))
    (hx : ∀ x ∈ xs, ∃ pid tl0 tid, x.1 = .vp9 pid (some tl0) tid ∧ pid < 2 ^ 15) :
    (Contiguity.vp9 {}).deliver ((.vp9 32767 (some tl0) tid, k) :: xs) = [(.vp9 32767 (some tl0) tid, true)] := by
  have hc : (Contiguity.vp9 {}).check (.vp9 32767 (some tl0) tid) k =
      (.vp9 { lastPictureId := some 32767, lastTl0 := some tl0 }, true, true) := by
    simp only [Contiguity.check, FrameContiguity.nextFrame, narrow_fix h, narrow_fix (show 32767 < 2 ^ 16 by omega)]
  simp only [Contiguity.deliver, hc]
  rw [vp9_stuck xs _ tl0 ⟨by intro v hv; simp at hv; omega, by intro v hv; simp at hv; omega⟩ rfl rfl hx]

/-- **C51**, the part that holds: while ids do not wrap, every VP9 base layer picture with a larger id
is delivered. -/
theorem C51_before_wrap_partial (s : FrameContiguity) (pid tl0 lt lp : Nat) (k : Bool)
    (h1 : s.lastTl0 = some lt) (h2 : s.lastPictureId = some lp) (h : lp < pid) :
    ∃ s' k', (Contiguity.vp9 s).check (.vp9 pid (some tl0) (some 0)) k = (.vp9 s', true, k') := by
  refine ⟨{ lastPictureId := narrow 16 (some pid), lastTl0 := narrow 8 (some tl0) }, tl0 == (lt + 1) % 2 ^ 64, ?_⟩
  simp only [Contiguity.check, FrameContiguity.nextFrame, h1, h2]
  simp [show ¬ pid ≤ lp by omega]

/-! ### Non-vacuity -/

/-- base 10, enhancement 11, (12 lost), enhancement 13 dropped, base 14, enhancement 15. -/
example : (deliveredPictures ((Contiguity.vp8 {}).deliver
    [(.vp8 (some 10) (some 1) 0, true), (.vp8 (some 11) (some 1) 1, true),
     (.vp8 (some 13) (some 1) 2, false), (.vp8 (some 14) (some 2) 0, true),
     (.vp8 (some 15) (some 2) 1, true)])).map (·.pid) = [10, 11, 14, 15] := by decide

example : (Contiguity.vp8 {}).isNew := rfl

end Str0m
