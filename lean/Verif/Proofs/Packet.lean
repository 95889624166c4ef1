import Verif.Model.Packet
/-
  Fragmentation loops: every one of them cuts the payload into non-empty pieces of at most the
  fragment size, in order, and puts a header before each.
-/
namespace Str0m.Packet

/-- Pieces with headers: `hdr first last` before each piece. -/
def withHdr (hdr : Bool → Bool → List Byte) : Bool → List (List Byte) → List (List Byte)
  | _, [] => []
  | f, [x] => [hdr f true ++ x]
  | f, x :: y :: xs => (hdr f false ++ x) :: withHdr hdr false (y :: xs)

theorem slice_piece (payload : List Byte) (a n : Nat) (h : a + n ≤ payload.length) :
    (Res.slice payload a (a + n) : Res PErr _) = .ok ((payload.drop a).take n) := by
  rw [Res.slice_of_le (by omega) h, List.drop_take, Nat.add_sub_cancel_left]

theorem vp9Go_pieces (hdr : Bool → Bool → List Byte) (m : Nat) (hm : 0 < m) (payload : List Byte) :
    ∀ (fuel rem ix : Nat), rem < fuel → ix + rem = payload.length →
    ∃ pieces, vp9Go hdr m payload fuel rem ix = .ok (withHdr hdr (ix == 0) pieces) ∧
      pieces.flatten = payload.drop ix ∧ (∀ x ∈ pieces, 0 < x.length ∧ x.length ≤ m) := by
  intro fuel
  induction fuel with
  | zero => intro rem ix h; omega
  | succ fuel ih =>
    intro rem ix hf hlen
    unfold vp9Go
    by_cases hr : rem > 0
    · rw [if_pos hr, slice_piece _ _ _ (by omega), Res.bind_def, Res.bind_ok]
      obtain ⟨ps, h1, h2, h3⟩ := ih (rem - min m rem) (ix + min m rem) (by omega) (by omega)
      rw [h1, Res.bind_def, Res.bind_ok]
      have hl : ((payload.drop ix).take (min m rem)).length = min m rem := by
        rw [List.length_take, List.length_drop]; omega
      have hne : (ix + min m rem == 0) = false := by
        rw [beq_eq_false_iff_ne]; omega
      rw [hne]
      refine ⟨(payload.drop ix).take (min m rem) :: ps, ?_, ?_, ?_⟩
      · have hps : (rem == min m rem) = true ↔ ps = [] := by
          rw [beq_iff_eq]
          constructor
          · intro he
            have : payload.drop (ix + min m rem) = [] := List.drop_eq_nil_of_le (by omega)
            rw [this] at h2
            cases ps with
            | nil => rfl
            | cons y ys =>
              have := (h3 y (by simp)).1
              have h4 := congrArg List.length h2
              simp only [List.flatten_cons, List.length_append, List.length_nil] at h4
              omega
          · intro he
            subst he
            have h4 := congrArg List.length h2
            simp only [List.flatten_nil, List.length_drop, List.length_nil] at h4
            omega
        cases ps with
        | nil =>
          rw [hps.2 rfl]
          rfl
        | cons y ys =>
          have : (rem == min m rem) = false := by
            cases hb : (rem == min m rem) with
            | false => rfl
            | true => exact absurd (hps.1 hb) (by simp)
          rw [this]
          rfl
      · rw [List.flatten_cons, h2, ← List.drop_drop, List.take_append_drop]
      · intro x hx
        rcases List.mem_cons.1 hx with rfl | hx
        · rw [hl]; omega
        · exact h3 x hx
    · rw [if_neg hr]
      refine ⟨[], rfl, ?_, by simp⟩
      rw [List.drop_eq_nil_of_le (by omega)]
      rfl

theorem g7xxGo_eq (m : Nat) (payload : List Byte) : ∀ (fuel rem ix : Nat),
    g7xxGo m payload fuel rem ix = vp9Go (fun _ _ => []) m payload fuel rem ix := by
  intro fuel
  induction fuel with
  | zero => intro rem ix; rfl
  | succ fuel ih =>
    intro rem ix
    unfold g7xxGo vp9Go
    rw [ih]
    rfl

theorem opusGo_eq (m : Nat) (hm : 0 < m) (payload : List Byte) : ∀ (fuel cur : Nat),
    opusGo m payload fuel cur = vp9Go (fun _ _ => []) m payload fuel (payload.length - cur) cur := by
  intro fuel
  induction fuel with
  | zero => intro cur; rfl
  | succ fuel ih =>
    intro cur
    unfold opusGo vp9Go
    by_cases hc : cur < payload.length
    · rw [if_pos hc, if_pos (show payload.length - cur > 0 by omega), ih]
      by_cases hm2 : m ≤ payload.length - cur
      · rw [Nat.min_eq_left hm2, show payload.length - cur - m = payload.length - (cur + m) by omega]
        rfl
      · have hr : payload.length - (cur + m) = 0 := by omega
        have hr2 : payload.length - cur - min m (payload.length - cur) = 0 := by omega
        rw [hr, hr2]
        have h0 : ∀ (ix : Nat), vp9Go (fun _ _ => []) m payload fuel 0 ix = .ok [] := by
          intro ix; cases fuel <;> rfl
        rw [h0, h0]
        rfl
    · rw [if_neg hc, if_neg (show ¬ payload.length - cur > 0 by omega)]

theorem vp8Go_eq (p : Vp8P) (m : Nat) (hm : 0 < m) (payload : List Byte) : ∀ (fuel rem ix : Nat),
    vp8Go p m payload fuel rem ix (ix == 0) = vp9Go (fun f _ => vp8Header p f) m payload fuel rem ix := by
  intro fuel
  induction fuel with
  | zero => intro rem ix; rfl
  | succ fuel ih =>
    intro rem ix
    unfold vp8Go vp9Go
    by_cases hr : rem > 0
    · rw [if_pos hr, if_pos hr]
      have := ih (rem - min m rem) (ix + min m rem)
      have hne : (ix + min m rem == 0) = false := by
        rw [beq_eq_false_iff_ne]; omega
      rw [hne] at this
      rw [this]
    · rw [if_neg hr, if_neg hr]

theorem withHdr_nil (f : Bool) (ps : List (List Byte)) : withHdr (fun _ _ => []) f ps = ps := by
  induction ps generalizing f with
  | nil => rfl
  | cons x xs ih =>
    cases xs with
    | nil => rfl
    | cons y ys =>
      show ([] ++ x) :: withHdr (fun _ _ => []) false (y :: ys) = _
      rw [ih]; rfl

/-- Every packet is a header and a piece. -/
theorem withHdr_mem (hdr : Bool → Bool → List Byte) : ∀ (ps : List (List Byte)) (f : Bool) (q : List Byte),
    q ∈ withHdr hdr f ps → ∃ g l x, x ∈ ps ∧ q = hdr g l ++ x ∧ (g = true → f = true) := by
  intro ps
  induction ps with
  | nil => intro f q h; simp [withHdr] at h
  | cons x xs ih =>
    intro f q h
    cases xs with
    | nil =>
      simp only [withHdr, List.mem_singleton] at h
      exact ⟨f, true, x, by simp, h, fun h => h⟩
    | cons y ys =>
      rcases List.mem_cons.1 (show q ∈ (hdr f false ++ x) :: withHdr hdr false (y :: ys) from h) with h | h
      · exact ⟨f, false, x, by simp, h, fun h => h⟩
      · obtain ⟨g, l, z, h1, h2, h3⟩ := ih false q h
        exact ⟨g, l, z, List.mem_cons_of_mem _ h1, h2, fun hg => absurd (h3 hg) (by simp)⟩

/-- Running a depacketizer over headed pieces: if each step keeps `P` (a relation between the
position, the state, the output and the codec extra) and appends exactly the piece. -/
theorem run_withHdr {σ ε : Type} (depack : σ → List Byte → List Byte → Option ε → Res PErr (σ × List Byte × Option ε))
    (hdr : Bool → Bool → List Byte) (P : Bool → σ → List Byte → Option ε → Prop)
    (hstep : ∀ (f l : Bool) (s : σ) (out : List Byte) (e : Option ε) (x : List Byte), x ≠ [] → P f s out e →
      ∃ s' e', depack s (hdr f l ++ x) out e = .ok (s', out ++ x, e') ∧ P false s' (out ++ x) e') :
    ∀ (ps : List (List Byte)) (f : Bool) (s : σ) (out : List Byte) (e : Option ε), (∀ x ∈ ps, x ≠ []) → P f s out e →
    ∃ s' e', runDepack depack (withHdr hdr f ps) s out e = .ok (s', out ++ ps.flatten, e') ∧
      (ps ≠ [] → P false s' (out ++ ps.flatten) e') := by
  intro ps
  induction ps with
  | nil => intro f s out e _ hp; exact ⟨s, e, by simp [withHdr, runDepack], by simp⟩
  | cons x xs ih =>
    intro f s out e hne hp
    cases xs with
    | nil =>
      obtain ⟨s', e', h1, h2⟩ := hstep f true s out e x (hne x (by simp)) hp
      refine ⟨s', e', ?_, ?_⟩
      · simp only [withHdr, runDepack, h1, Res.bind_def, Res.bind_ok, List.flatten_cons, List.flatten_nil, List.append_nil]
      · intro _; simpa using h2
    | cons y ys =>
      obtain ⟨s', e', h1, h2⟩ := hstep f false s out e x (hne x (by simp)) hp
      obtain ⟨s'', e'', h3, h4⟩ := ih false s' (out ++ x) e' (fun z hz => hne z (List.mem_cons_of_mem _ hz)) h2
      refine ⟨s'', e'', ?_, ?_⟩
      · rw [show withHdr hdr f (x :: y :: ys) = (hdr f false ++ x) :: withHdr hdr false (y :: ys) from rfl]
        rw [show runDepack depack ((hdr f false ++ x) :: withHdr hdr false (y :: ys)) s out e
          = (depack s (hdr f false ++ x) out e >>= fun r => runDepack depack (withHdr hdr false (y :: ys)) r.1 r.2.1 r.2.2) from rfl]
        rw [h1, Res.bind_def, Res.bind_ok, h3]
        simp [List.append_assoc]
      · intro _
        have := h4 (by simp)
        rw [List.flatten_cons, ← List.append_assoc]
        exact this

end Str0m.Packet
namespace Str0m.Packet

/-- A packet test that reads the "first" flag of the header is true of the first packet only. -/
theorem withHdr_heads (hdr : Bool → Bool → List Byte) (g : List Byte → Bool) (hg : ∀ f l x, g (hdr f l ++ x) = f) :
    ∀ (xs : List (List Byte)) (f : Bool) (x : List Byte),
      (withHdr hdr f (x :: xs)).map g = f :: List.replicate xs.length false := by
  intro xs
  induction xs with
  | nil => intro f x; simp [withHdr, hg]
  | cons y ys ih =>
    intro f x
    rw [show withHdr hdr f (x :: y :: ys) = (hdr f false ++ x) :: withHdr hdr false (y :: ys) from rfl]
    rw [List.map_cons, hg, ih]
    rfl

theorem withHdr_length (hdr : Bool → Bool → List Byte) : ∀ (ps : List (List Byte)) (f : Bool),
    (withHdr hdr f ps).length = ps.length := by
  intro ps
  induction ps with
  | nil => intro f; rfl
  | cons x xs ih =>
    intro f
    cases xs with
    | nil => rfl
    | cons y ys =>
      show (withHdr hdr false (y :: ys)).length + 1 = _
      rw [ih]
      rfl

end Str0m.Packet
