import Verif.Proofs.PacketVp
/-
  No input panics the VP8 and VP9 depacketizers.
-/
namespace Str0m.Packet

theorem getU8_noPanic (packet : List Byte) (pos : Nat) (e : PErr) : (getU8 packet pos e).NoPanic := by
  unfold getU8; split <;> trivial

theorem getU8_lt {packet : List Byte} {pos : Nat} {e : PErr} {b : Byte} (h : getU8 packet pos e = .ok b) :
    pos < packet.length ∧ packet[pos]? = some b := by
  unfold getU8 at h
  split at h
  · rename_i b' hb
    have hl : pos < packet.length := by
      rcases Nat.lt_or_ge pos packet.length with hl | hl
      · exact hl
      · rw [List.getElem?_eq_none hl] at hb
        cases hb
    cases h
    exact ⟨hl, hb⟩
  · cases h

/-- `x` does not panic and every success has `P`. -/
def Safe {α : Type} (x : Res PErr α) (P : α → Prop) : Prop := x.NoPanic ∧ ∀ a, x = .ok a → P a

theorem Safe.bind {α β : Type} {x : Res PErr α} {f : α → Res PErr β} {P : α → Prop} {Q : β → Prop}
    (hx : Safe x P) (hf : ∀ a, P a → Safe (f a) Q) : Safe (x >>= f) Q := by
  cases x with
  | ok a => exact hf a (hx.2 a rfl)
  | err e => exact ⟨trivial, fun a h => by cases h⟩
  | panic => exact hx.1.elim

theorem Safe.ok {α : Type} {a : α} {P : α → Prop} (h : P a) : Safe (.ok a) P := ⟨trivial, fun b hb => by cases hb; exact h⟩

theorem Safe.err {α : Type} {e : PErr} {P : α → Prop} : Safe (.err e : Res PErr α) P := ⟨trivial, fun b hb => by cases hb⟩

theorem Safe.mono {α : Type} {x : Res PErr α} {P Q : α → Prop} (h : Safe x P) (hpq : ∀ a, P a → Q a) : Safe x Q :=
  ⟨h.1, fun a ha => hpq a (h.2 a ha)⟩

theorem Safe.getU8 (packet : List Byte) (pos : Nat) (e : PErr) :
    Safe (getU8 packet pos e) (fun _ => pos < packet.length) :=
  ⟨getU8_noPanic _ _ _, fun _ h => (getU8_lt h).1⟩

theorem vp8Safe (d : Vp8D) (packet out : List Byte) (e : Option Vp8Extra) : (vp8Depacketize d packet out e).NoPanic := by
  refine (Safe.bind (Q := fun _ => True) (Safe.getU8 packet 0 .shortPacket) (fun b0 hb0 => ?_)).1
  have h1 : Safe (vp8Ext packet (bit b0 7 == 1)) (fun _ => True) := by
    unfold vp8Ext
    split
    · refine Safe.bind (Safe.getU8 _ _ _) (fun b hb => ?_)
      split
      · exact Safe.err
      · exact Safe.ok trivial
    · exact Safe.ok trivial
  refine Safe.bind h1 (fun x _ => ?_)
  have h2 : Safe (vp8PictureId d packet x.1.1 x.2) (fun _ => True) := by
    unfold vp8PictureId
    split
    · refine Safe.bind (Safe.getU8 _ _ _) (fun b hb => ?_)
      split
      · exact Safe.bind (Safe.getU8 _ _ _) (fun b hb => Safe.ok trivial)
      · exact Safe.ok trivial
    · exact Safe.ok trivial
  refine Safe.bind h2 (fun r1 _ => ?_)
  have h3 : Safe (vp8Tl0 r1.1 packet x.1.2.1 r1.2) (fun _ => True) := by
    unfold vp8Tl0
    split
    · exact Safe.err
    · split
      · exact Safe.bind (Safe.getU8 _ _ _) (fun b hb => Safe.ok trivial)
      · exact Safe.ok trivial
  refine Safe.bind h3 (fun r2 _ => ?_)
  have h4 : Safe (vp8Tid r2.1 packet x.1.2.2.1 x.1.2.2.2 r2.2) (fun _ => True) := by
    unfold vp8Tid
    split
    · exact Safe.err
    · split
      · exact Safe.bind (Safe.getU8 _ _ _) (fun b hb => Safe.ok trivial)
      · exact Safe.ok trivial
  refine Safe.bind h4 (fun r3 _ => ?_)
  split
  · exact Safe.err
  · rename_i hl
    rw [Res.from_of_le (by omega), Res.bind_def, Res.bind_ok]
    refine Safe.bind (P := fun _ => True) ?_ (fun p _ => Safe.ok trivial)
    split
    · exact Safe.bind (Safe.getU8 _ _ _) (fun b hb => Safe.ok trivial)
    · exact Safe.ok trivial

/-- The sizes of the fixed arrays. -/
def Vp9D.Wf (d : Vp9D) : Prop := d.widths.length = 3 ∧ d.heights.length = 3

theorem vp9PictureId_safe (d : Vp9D) (hd : d.Wf) (packet : List Byte) (pos : Nat) :
    Safe (vp9PictureId d packet pos) (fun r => r.1.Wf ∧ r.2 ≤ packet.length) := by
  unfold vp9PictureId
  refine Safe.bind (Safe.getU8 _ _ _) (fun b hb => ?_)
  split
  · exact Safe.bind (Safe.getU8 _ _ _) (fun x hx => Safe.ok ⟨hd, by show pos + 2 ≤ _; omega⟩)
  · exact Safe.ok ⟨hd, hb⟩

theorem vp9LayerInfo_safe (d : Vp9D) (hd : d.Wf) (packet : List Byte) (f : Bool) (pos : Nat) :
    Safe (vp9LayerInfo d packet f pos) (fun r => r.1.Wf ∧ r.2 ≤ packet.length ∧ r.1.sid < 3) := by
  unfold vp9LayerInfo
  refine Safe.bind (Safe.getU8 _ _ _) (fun b hb => ?_)
  split
  · exact Safe.err
  · rename_i hs
    split
    · exact Safe.ok ⟨hd, hb, by show b.val / 2 % 8 < 3; omega⟩
    · exact Safe.bind (Safe.getU8 _ _ _) (fun x hx => Safe.ok ⟨hd, by show pos + 2 ≤ _; omega, by show b.val / 2 % 8 < 3; omega⟩)

theorem vp9Refs_safe (packet : List Byte) : ∀ (left pos : Nat), Safe (vp9Refs packet left pos) (fun r => r ≤ packet.length) := by
  intro left
  induction left with
  | zero => intro pos; exact Safe.err
  | succ left ih =>
    intro pos
    unfold vp9Refs
    refine Safe.bind (Safe.getU8 _ _ _) (fun b hb => ?_)
    split
    · exact ih _
    · exact Safe.ok hb

theorem vp9Sizes_safe (packet : List Byte) : ∀ (n i pos : Nat) (d : Vp9D), d.Wf → i + n ≤ 3 → pos ≤ packet.length →
    Safe (vp9Sizes d packet n i pos) (fun r => r.1.Wf ∧ r.2 ≤ packet.length ∧ r.1.sid = d.sid) := by
  intro n
  induction n with
  | zero => intro i pos d hd _ hp; exact Safe.ok ⟨hd, hp, rfl⟩
  | succ n ih =>
    intro i pos d hd hi hp
    unfold vp9Sizes
    refine Safe.bind (Safe.getU8 _ _ _) (fun a ha => ?_)
    refine Safe.bind (Safe.getU8 _ _ _) (fun b hb => ?_)
    refine Safe.bind (Safe.getU8 _ _ _) (fun c hc => ?_)
    refine Safe.bind (Safe.getU8 _ _ _) (fun e he => ?_)
    rw [if_pos ⟨by rw [hd.1]; omega, by rw [hd.2]; omega⟩]
    refine (ih (i + 1) (pos + 4) _ ⟨?_, ?_⟩ (by omega) (by omega)).mono (fun r h => h)
    · show (d.widths.set i _).length = 3
      rw [List.length_set]; exact hd.1
    · show (d.heights.set i _).length = 3
      rw [List.length_set]; exact hd.2

theorem vp9PgDiffs_safe (packet : List Byte) (i : Nat) : ∀ (r pos : Nat) (d : Vp9D), d.Wf → i < d.pgpdiff.length → pos ≤ packet.length →
    Safe (vp9PgDiffs d packet i r pos) (fun q => q.1.Wf ∧ q.2 ≤ packet.length ∧ q.1.pgpdiff.length = d.pgpdiff.length ∧ q.1.sid = d.sid) := by
  intro r
  induction r with
  | zero => intro pos d hd _ hp; exact Safe.ok ⟨hd, hp, rfl, rfl⟩
  | succ r ih =>
    intro pos d hd hi hp
    unfold vp9PgDiffs
    refine Safe.bind (Safe.getU8 _ _ _) (fun a ha => ?_)
    rw [Res.idx_of_lt hi, Res.bind_def, Res.bind_ok]
    refine (ih (pos + 1) { d with pgpdiff := d.pgpdiff.set i (d.pgpdiff[i] ++ [a.val]) } hd (by simpa using hi) ha).mono (fun q h => ?_)
    refine ⟨h.1, h.2.1, ?_, h.2.2.2⟩
    rw [h.2.2.1]
    simp

theorem vp9Pg_safe (packet : List Byte) : ∀ (n i pos : Nat) (d : Vp9D), d.Wf → i ≤ d.pgpdiff.length → pos ≤ packet.length →
    Safe (vp9Pg d packet n i pos) (fun q => q.1.Wf ∧ q.2 ≤ packet.length ∧ q.1.sid = d.sid) := by
  intro n
  induction n with
  | zero => intro i pos d hd _ hp; exact Safe.ok ⟨hd, hp, rfl⟩
  | succ n ih =>
    intro i pos d hd hi hp
    unfold vp9Pg
    refine Safe.bind (Safe.getU8 _ _ _) (fun a ha => ?_)
    refine Safe.bind (vp9PgDiffs_safe packet i (a.val / 4 % 4) (pos + 1)
      { d with pgtid := d.pgtid ++ [a.val / 32], pgpdiff := d.pgpdiff ++ [[]] } hd (by simp; omega) ha) (fun q hq => ?_)
    refine (ih (i + 1) q.2 q.1 hq.1 (by rw [hq.2.2.1]; simp; omega) hq.2.1).mono (fun r h => ?_)
    exact ⟨h.1, h.2.1, by rw [h.2.2]; exact hq.2.2.2⟩

theorem vp9Ss_safe (d : Vp9D) (hd : d.Wf) (packet : List Byte) (pos : Nat) :
    Safe (vp9Ss d packet pos) (fun q => q.1.Wf ∧ q.2 ≤ packet.length ∧ q.1.sid = d.sid) := by
  unfold vp9Ss
  refine Safe.bind (Safe.getU8 _ _ _) (fun b hb => ?_)
  split
  · exact Safe.err
  · rename_i hn
    refine Safe.bind (P := fun q => q.1.Wf ∧ q.2 ≤ packet.length ∧ q.1.sid = d.sid) ?_ (fun q hq => ?_)
    · split
      · exact vp9Sizes_safe packet _ 0 (pos + 1) d hd (by omega) hb
      · exact Safe.ok ⟨hd, hb, rfl⟩
    · split
      · refine Safe.bind (Safe.getU8 _ _ _) (fun ng hng => ?_)
        exact (vp9Pg_safe packet _ 0 _ q.1 hq.1 (by omega) hng).mono (fun r h => ⟨h.1, h.2.1, by rw [h.2.2]; exact hq.2.2⟩)
      · exact Safe.ok hq

theorem vp9UpdateExtra_safe (d : Vp9D) (l f p b : Bool) (e : Option Vp9Extra) (o n ix : Nat)
    (hs : l = true → d.sid < 3) (he : ∀ y, e = some y → y.layersScheme.length = 3) (hi : ix ≤ n) :
    Safe (vp9UpdateExtra d l f p b e o n ix) (fun y => y.layersScheme.length = 3) := by
  have hlen : (vp9Base e).layersScheme.length = 3 := by
    cases e with
    | none => rfl
    | some y => exact he y rfl
  unfold vp9UpdateExtra
  generalize vp9Base e = y at hlen ⊢
  dsimp only
  split
  · rename_i hl
    rw [if_neg (by omega)]
    rw [Res.idx_of_lt (by rw [hlen]; exact hs hl), Res.bind_def, Res.bind_ok]
    split
    · exact Safe.err
    · refine Safe.ok ?_
      show (y.layersScheme.set _ _).length = 3
      rw [List.length_set]; exact hlen
  · exact Safe.ok hlen

theorem vp9Safe (d : Vp9D) (hd : d.Wf) (packet out : List Byte) (e : Option Vp9Extra)
    (he : ∀ y, e = some y → y.layersScheme.length = 3) :
    Safe (vp9Depacketize d packet out e)
      (fun r => r.1.Wf ∧ (∀ y, r.2.2 = some y → y.layersScheme.length = 3) ∧ ∃ k, k ≤ packet.length ∧ r.2.1 = out ++ packet.drop k) := by
  refine Safe.bind (Safe.getU8 packet 0 .shortPacket) (fun b hb => ?_)
  refine Safe.bind (P := fun q => q.1.Wf ∧ q.2 ≤ packet.length) ?_ (fun r1 h1 => ?_)
  · split
    · exact vp9PictureId_safe d hd packet 1
    · exact Safe.ok ⟨hd, hb⟩
  refine Safe.bind (P := fun q => q.1.Wf ∧ q.2 ≤ packet.length ∧ ((bit b 5 == 1) = true → q.1.sid < 3)) ?_ (fun r2 h2 => ?_)
  · split
    · exact (vp9LayerInfo_safe r1.1 h1.1 packet _ _).mono (fun r h => ⟨h.1, h.2.1, fun _ => h.2.2⟩)
    · rename_i hl
      exact Safe.ok ⟨h1.1, h1.2, fun h => absurd (beq_iff_eq.1 h) hl⟩
  refine Safe.bind (P := fun q => q ≤ packet.length) ?_ (fun p3 h3 => ?_)
  · split
    · exact vp9Refs_safe packet _ _
    · exact Safe.ok h2.2.1
  refine Safe.bind (P := fun q => q.1.Wf ∧ q.2 ≤ packet.length ∧ q.1.sid = r2.1.sid) ?_ (fun r4 h4 => ?_)
  · split
    · exact vp9Ss_safe r2.1 h2.1 packet p3
    · exact Safe.ok ⟨h2.1, h3, rfl⟩
  refine Safe.bind (vp9UpdateExtra_safe r4.1 _ _ _ _ e _ _ _ (fun h => by rw [h4.2.2]; exact h2.2.2 h) he h4.2.1) (fun y hy => ?_)
  rw [Res.from_of_le h4.2.1, Res.bind_def, Res.bind_ok]
  exact Safe.ok ⟨h4.1, fun z hz => by cases hz; exact hy, r4.2, h4.2.1, rfl⟩

end Str0m.Packet
