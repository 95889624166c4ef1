import Verif.Model.RtcpPack
import Verif.Proofs.RtcpRound
/-
  Packing RTCP: nothing is lost, nothing is too big.
-/
namespace Str0m.Rtcp
open Res

/-- Well-formed except that it may have no reports. -/
def Rtcp.WF0 (utf8 : List Byte → Bool) : Rtcp → Prop
  | .bye rs => rs.length ≤ 31 ∧ ∀ s ∈ rs, s < 2^32
  | .nack s m rs => s < 2^32 ∧ m < 2^32 ∧ rs.length ≤ 31 ∧ ∀ e ∈ rs, e.pid < 2^16 ∧ e.blp < 2^16
  | .fir s rs => s < 2^32 ∧ rs.length ≤ 31 ∧ ∀ e ∈ rs, e.ssrc < 2^32 ∧ e.seqNo < 2^8
  | p => p.WF utf8

theorem WF0_of_WF {utf8} {p : Rtcp} (h : p.WF utf8) : p.WF0 utf8 := by
  cases p <;> simp only [Rtcp.WF, Rtcp.WF0] at h ⊢ <;> first | exact h | tauto

theorem WF_of_WF0 {utf8} {p : Rtcp} (h : p.WF0 utf8) (he : p.isEmpty = false) : p.WF utf8 := by
  cases p <;> simp only [Rtcp.WF, Rtcp.WF0, Rtcp.isEmpty, List.isEmpty_eq_false_iff] at h he ⊢ <;>
    first | exact h | (have := List.length_pos_iff.2 he; tauto)

/-! ### Moving items between lists -/

theorem movable_le {α : Type} (size : α → Nat) : ∀ (max words : Nat) (l : List α),
    movable size max words l ≤ max ∧ movable size max words l ≤ l.length ∧
      ((l.take (movable size max words l)).map size).sum ≤ words
  | 0, _, _ => by simp [movable]
  | _ + 1, _, [] => by simp [movable]
  | max + 1, words, x :: xs => by
    rw [movable]
    by_cases h : words < size x
    · rw [if_pos h]; simp
    · rw [if_neg h]
      obtain ⟨h1, h2, h3⟩ := movable_le size max (words - size x) xs
      refine ⟨by omega, by simp only [List.length_cons]; omega, ?_⟩
      rw [List.take_succ_cons, List.map_cons, List.sum_cons]; omega

theorem appendAll_spec {α : Type} (size : α → Nat) (s o : List α) (words : Nat) (hs : s.length ≤ 31) :
    ∃ k, appendAll size s o words = (s ++ o.take k, o.drop k, k) ∧ k ≤ o.length ∧
      s.length + k ≤ 31 ∧ ((o.take k).map size).sum ≤ words := by
  obtain ⟨h1, h2, h3⟩ := movable_le size (min (31 - s.length) o.length) words o
  exact ⟨_, rfl, h2, by omega, h3⟩

theorem map_take_drop_perm {α β : Type} (f : α → β) (s o : List α) (k : Nat) :
    ((s ++ o.take k).map f ++ (o.drop k).map f).Perm (s.map f ++ o.map f) := by
  rw [List.map_append, List.append_assoc, ← List.map_append, List.take_append_drop]

theorem sum_const {α : Type} (c : Nat) (l : List α) : (l.map (fun _ => c)).sum = c * l.length := by
  induction l with
  | nil => rfl
  | cons x l ih => rw [List.map_cons, List.sum_cons, ih, List.length_cons]; ring

theorem sum_take_drop (f : α → Nat) (l : List α) (k : Nat) :
    ((l.take k).map f).sum + ((l.drop k).map f).sum = (l.map f).sum := by
  rw [← List.sum_append, ← List.map_append, List.take_append_drop]

/-- What merging guarantees. -/
structure Merged (utf8 : List Byte → Bool) (a b a' b' : Rtcp) (did : Bool) (words : Nat) : Prop where
  wa : a'.WF0 utf8
  wb : b'.WF0 utf8
  items : (a'.items ++ b'.items).Perm (a.items ++ b.items)
  la : a'.lengthWords ≤ a.lengthWords + words
  lb : b'.lengthWords ≤ b.lengthWords
  oa : a'.orderNo = a.orderNo
  ob : b'.orderNo = b.orderNo
  cb : b'.count ≤ b.count
  yes : did = true → b'.count < b.count
  no : did = false → a' = a ∧ b' = b

theorem merged_refl {utf8} {a b : Rtcp} (ha : a.WF0 utf8) (hb : b.WF0 utf8) (words : Nat) :
    Merged utf8 a b a b false words :=
  ⟨ha, hb, List.Perm.refl _, by omega, Nat.le_refl _, rfl, rfl, Nat.le_refl _, by simp, fun _ => ⟨rfl, rfl⟩⟩

theorem mem_append_take {α : Type} {P : α → Prop} {s o : List α} {k : Nat} (hs : ∀ x ∈ s, P x)
    (ho : ∀ x ∈ o, P x) : ∀ x ∈ s ++ o.take k, P x := by
  intro x hx
  rcases List.mem_append.1 hx with h | h
  · exact hs x h
  · exact ho x (List.mem_of_mem_take h)

theorem mem_drop {α : Type} {P : α → Prop} {o : List α} {k : Nat}
    (ho : ∀ x ∈ o, P x) : ∀ x ∈ o.drop k, P x := fun x hx => ho x (List.mem_of_mem_drop hx)

theorem nil_of_take {α : Type} (s o : List α) : s ++ o.take 0 = s ∧ o.drop 0 = o := by simp

theorem merge_ok {utf8} {a b : Rtcp} (ha : a.WF0 utf8) (hb : b.WF0 utf8) (words : Nat) :
    Merged utf8 a b (a.merge b words).1 (a.merge b words).2.1 (a.merge b words).2.2 words := by
  cases a <;> cases b <;> try exact merged_refl ha hb words
  case sr.rr i r1 s2 r2 =>
    obtain ⟨a1, a2, a3⟩ := ha; obtain ⟨b1, b2, b3⟩ := hb
    obtain ⟨k, he, h1, h2, h3⟩ := appendAll_spec (fun _ => rrWords) r1 r2 words a2
    simp only [Rtcp.merge, he]
    rw [sum_const, List.length_take] at h3; simp only [rrWords] at h3
    refine ⟨⟨a1, by simp; omega, mem_append_take a3 b3⟩, ⟨b1, by simp; omega, mem_drop b3⟩, ?_, ?_, ?_,
      rfl, rfl, ?_, ?_, ?_⟩
    · exact (map_take_drop_perm Item.reception r1 r2 k).cons _
    · simp only [Rtcp.lengthWords, List.length_append, List.length_take]; omega
    · simp only [Rtcp.lengthWords, List.length_drop]; omega
    · simp only [Rtcp.count, List.length_drop]; omega
    · intro hd; have := of_decide_eq_true hd; simp only [Rtcp.count, List.length_drop]; omega
    · intro hd; have := of_decide_eq_false hd; have : k = 0 := by omega
      subst this; simp
  case rr.rr s1 r1 s2 r2 =>
    obtain ⟨a1, a2, a3⟩ := ha; obtain ⟨b1, b2, b3⟩ := hb
    obtain ⟨k, he, h1, h2, h3⟩ := appendAll_spec (fun _ => rrWords) r1 r2 words a2
    simp only [Rtcp.merge, he]
    rw [sum_const, List.length_take] at h3; simp only [rrWords] at h3
    refine ⟨⟨a1, by simp; omega, mem_append_take a3 b3⟩, ⟨b1, by simp; omega, mem_drop b3⟩, ?_, ?_, ?_,
      rfl, rfl, ?_, ?_, ?_⟩
    · exact map_take_drop_perm Item.reception r1 r2 k
    · simp only [Rtcp.lengthWords, List.length_append, List.length_take]; omega
    · simp only [Rtcp.lengthWords, List.length_drop]; omega
    · simp only [Rtcp.count, List.length_drop]; omega
    · intro hd; have := of_decide_eq_true hd; simp only [Rtcp.count, List.length_drop]; omega
    · intro hd; have := of_decide_eq_false hd; have : k = 0 := by omega
      subst this; simp
  case sdes.sdes r1 r2 =>
    obtain ⟨a2, a3⟩ := ha; obtain ⟨b2, b3⟩ := hb
    obtain ⟨k, he, h1, h2, h3⟩ := appendAll_spec Sdes.wordSize r1 r2 words a2
    simp only [Rtcp.merge, he]
    refine ⟨⟨by simp; omega, mem_append_take a3 b3⟩, ⟨by simp; omega, mem_drop b3⟩, ?_, ?_, ?_,
      rfl, rfl, ?_, ?_, ?_⟩
    · exact map_take_drop_perm Item.description r1 r2 k
    · simp only [Rtcp.lengthWords, List.map_append, List.sum_append]; omega
    · have := sum_take_drop Sdes.wordSize r2 k
      simp only [Rtcp.lengthWords]; omega
    · simp only [Rtcp.count, List.length_drop]; omega
    · intro hd; have := of_decide_eq_true hd; simp only [Rtcp.count, List.length_drop]; omega
    · intro hd; have := of_decide_eq_false hd; have : k = 0 := by omega
      subst this; simp
  case bye.bye r1 r2 =>
    obtain ⟨a2, a3⟩ := ha; obtain ⟨b2, b3⟩ := hb
    obtain ⟨k, he, h1, h2, h3⟩ := appendAll_spec (fun _ => ssrcWords) r1 r2 words a2
    simp only [Rtcp.merge, he]
    rw [sum_const, List.length_take] at h3; simp only [ssrcWords] at h3
    refine ⟨⟨by simp; omega, mem_append_take a3 b3⟩, ⟨by simp; omega, mem_drop b3⟩, ?_, ?_, ?_,
      rfl, rfl, ?_, ?_, ?_⟩
    · exact map_take_drop_perm Item.goodbye r1 r2 k
    · simp only [Rtcp.lengthWords, List.length_append, List.length_take]; omega
    · simp only [Rtcp.lengthWords, List.length_drop]; omega
    · simp only [Rtcp.count, List.length_drop]; omega
    · intro hd; have := of_decide_eq_true hd; simp only [Rtcp.count, List.length_drop]; omega
    · intro hd; have := of_decide_eq_false hd; have : k = 0 := by omega
      subst this; simp
  case nack.nack s1 m1 r1 s2 m2 r2 =>
    by_cases hm : m1 = m2
    · obtain ⟨a0, a1, a2, a3⟩ := ha; obtain ⟨b0, b1, b2, b3⟩ := hb
      obtain ⟨k, he, h1, h2, h3⟩ := appendAll_spec (fun _ => nackWords) r1 r2 words a2
      simp only [Rtcp.merge, he, if_pos hm]
      rw [sum_const, List.length_take] at h3; simp only [nackWords] at h3
      subst hm
      refine ⟨⟨a0, a1, by simp; omega, mem_append_take a3 b3⟩, ⟨b0, b1, by simp; omega, mem_drop b3⟩, ?_, ?_, ?_,
        rfl, rfl, ?_, ?_, ?_⟩
      · exact map_take_drop_perm (Item.nack m1) r1 r2 k
      · simp only [Rtcp.lengthWords, List.length_append, List.length_take]; omega
      · simp only [Rtcp.lengthWords, List.length_drop]; omega
      · simp only [Rtcp.count, List.length_drop]; omega
      · intro hd; have := of_decide_eq_true hd; simp only [Rtcp.count, List.length_drop]; omega
      · intro hd; have := of_decide_eq_false hd; have : k = 0 := by omega
        subst this; simp
    · simp only [Rtcp.merge, if_neg hm]; exact merged_refl ha hb words
  case fir.fir s1 r1 s2 r2 =>
    obtain ⟨a1, a2, a3⟩ := ha; obtain ⟨b1, b2, b3⟩ := hb
    obtain ⟨k, he, h1, h2, h3⟩ := appendAll_spec (fun _ => firWords) r1 r2 words a2
    simp only [Rtcp.merge, he]
    rw [sum_const, List.length_take] at h3; simp only [firWords] at h3
    refine ⟨⟨a1, by simp; omega, mem_append_take a3 b3⟩, ⟨b1, by simp; omega, mem_drop b3⟩, ?_, ?_, ?_,
      rfl, rfl, ?_, ?_, ?_⟩
    · exact map_take_drop_perm Item.fir r1 r2 k
    · simp only [Rtcp.lengthWords, List.length_append, List.length_take]; omega
    · simp only [Rtcp.lengthWords, List.length_drop]; omega
    · simp only [Rtcp.count, List.length_drop]; omega
    · intro hd; have := of_decide_eq_true hd; simp only [Rtcp.count, List.length_drop]; omega
    · intro hd; have := of_decide_eq_false hd; have : k = 0 := by omega
      subst this; simp

/-! ### The inner loop -/

def total (l : List Rtcp) : Nat := (l.map Rtcp.count).sum

structure MergedFrom (utf8 : List Byte → Bool) (cap : Nat) (a : Rtcp) (bs : List Rtcp)
    (a' : Rtcp) (bs' : List Rtcp) (ch : Bool) : Prop where
  wa : a'.WF0 utf8
  wb : ∀ b ∈ bs', b.WF0 utf8
  items : (allItems (a' :: bs')).Perm (allItems (a :: bs))
  la : a'.lengthWords ≤ cap
  lb : List.Forall₂ (fun b' b : Rtcp => b'.lengthWords ≤ b.lengthWords ∧ b'.orderNo = b.orderNo) bs' bs
  oa : a'.orderNo = a.orderNo
  tot : total bs' ≤ total bs
  yes : ch = true → total bs' < total bs
  no : ch = false → a' = a ∧ bs' = bs

theorem forall₂_refl' (bs : List Rtcp) :
    List.Forall₂ (fun b' b : Rtcp => b'.lengthWords ≤ b.lengthWords ∧ b'.orderNo = b.orderNo) bs bs := by
  induction bs with
  | nil => exact .nil
  | cons b bs ih => exact .cons ⟨Nat.le_refl _, rfl⟩ ih

theorem mergedFrom_refl {utf8} {cap : Nat} {a : Rtcp} {bs : List Rtcp} (ha : a.WF0 utf8)
    (hb : ∀ b ∈ bs, b.WF0 utf8) (hl : a.lengthWords ≤ cap) : MergedFrom utf8 cap a bs a bs false :=
  ⟨ha, hb, List.Perm.refl _, hl, forall₂_refl' bs, rfl, Nat.le_refl _, by simp, fun _ => ⟨rfl, rfl⟩⟩

theorem perm_swap_merge {α : Type} {a' b' a b r : List α} (h : (a' ++ b').Perm (a ++ b)) :
    (b' ++ (a' ++ r)).Perm (a ++ (b ++ r)) := by
  have h1 : (b' ++ (a' ++ r)).Perm ((a' ++ b') ++ r) := by
    rw [← List.append_assoc]; exact List.perm_append_comm.append_right r
  rw [← List.append_assoc a b r]
  exact h1.trans (h.append_right r)

theorem mergeFrom_ok {utf8} {cap : Nat} : ∀ (bs : List Rtcp) (a : Rtcp), a.WF0 utf8 →
    (∀ b ∈ bs, b.WF0 utf8) → a.lengthWords ≤ cap →
    MergedFrom utf8 cap a bs (mergeFrom cap a bs).1 (mergeFrom cap a bs).2.1 (mergeFrom cap a bs).2.2.1
      ∧ (mergeFrom cap a bs).2.2.2 = false
  | [], a, ha, hb, hl => ⟨mergedFrom_refl ha hb hl, rfl⟩
  | b :: bs, a, ha, hb, hl => by
    rw [mergeFrom]
    by_cases h1 : (a.isFull || a.isEmpty) = true
    · rw [if_pos h1]; exact ⟨mergedFrom_refl ha hb hl, rfl⟩
    · rw [if_neg h1, if_neg (by omega)]
      have hm := merge_ok ha (hb b (by simp)) (cap - a.lengthWords)
      generalize a.merge b (cap - a.lengthWords) = m at hm
      obtain ⟨r, hab⟩ := mergeFrom_ok (cap := cap) bs m.1 hm.wa (fun c hc => hb c (by simp [hc]))
        (by have := hm.la; omega)
      refine ⟨⟨r.wa, ?_, ?_, r.la, .cons ⟨hm.lb, hm.ob⟩ r.lb, by rw [r.oa, hm.oa], ?_, ?_, ?_⟩, hab⟩
      · intro c hc
        rcases List.mem_cons.1 hc with rfl | hc
        · exact hm.wb
        · exact r.wb c hc
      · have h2 := r.items
        simp only [allItems, List.flatMap_cons] at h2 ⊢
        refine List.Perm.trans ?_ (perm_swap_merge hm.items)
        rw [← List.append_assoc]
        refine List.Perm.trans (List.perm_append_comm.append_right _) ?_
        rw [List.append_assoc]
        exact h2.append_left _
      · have := r.tot; have := hm.cb
        simp only [total, List.map_cons, List.sum_cons] at *; omega
      · intro hc
        have := r.tot; have := hm.cb
        rcases Bool.or_eq_true_iff.1 hc with h | h
        · have := hm.yes h
          simp only [total, List.map_cons, List.sum_cons] at *; omega
        · have := r.yes h
          simp only [total, List.map_cons, List.sum_cons] at *; omega
      · intro hc
        obtain ⟨c1, c2⟩ := Bool.or_eq_false_iff.1 hc
        obtain ⟨e1, e2⟩ := hm.no c1
        obtain ⟨e3, e4⟩ := r.no c2
        exact ⟨e3.trans e1, by show m.2.1 :: _ = _; rw [e2, e4]⟩

/-! ### The outer loop -/

theorem map_orderNo {l l' : List Rtcp}
    (h : List.Forall₂ (fun b' b : Rtcp => b'.lengthWords ≤ b.lengthWords ∧ b'.orderNo = b.orderNo) l l') :
    l.map Rtcp.orderNo = l'.map Rtcp.orderNo := by
  induction h with
  | nil => rfl
  | cons h _ ih => rw [List.map_cons, List.map_cons, ih, h.2]

theorem forall₂_bound {l l' : List Rtcp} {W : Nat}
    (h : List.Forall₂ (fun b' b : Rtcp => b'.lengthWords ≤ b.lengthWords ∧ b'.orderNo = b.orderNo) l l')
    (hb : ∀ p ∈ l', p.lengthWords ≤ W) : ∀ p ∈ l, p.lengthWords ≤ W := by
  induction h with
  | nil => simp
  | cons h _ ih =>
    intro p hp
    rcases List.mem_cons.1 hp with rfl | hp
    · exact Nat.le_trans h.1 (hb _ (by simp))
    · exact ih (fun q hq => hb q (by simp [hq])) p hp

theorem packLoop_ok {utf8} {W : Nat} : ∀ (fuel cap : Nat) (l : List Rtcp), (∀ p ∈ l, p.WF0 utf8) →
    cap ≤ W → total l.tail + l.length < fuel →
    ∃ l', packLoop fuel cap l = .ok l' ∧ (∀ p ∈ l', p.WF0 utf8) ∧ (allItems l').Perm (allItems l) ∧
      l'.map Rtcp.orderNo = l.map Rtcp.orderNo ∧
      ((∀ p ∈ l, p.lengthWords ≤ W) → ∀ p ∈ l', p.lengthWords ≤ W)
  | 0, _, _, _, _, h => by omega
  | _ + 1, _, [], h, _, _ => ⟨[], rfl, h, .refl _, rfl, fun h => h⟩
  | _ + 1, _, [a], h, _, _ => ⟨[a], rfl, h, .refl _, rfl, fun h => h⟩
  | fuel + 1, cap, a :: b :: bs, h, hc, hf => by
    rw [packLoop]
    swap
    · simp
    by_cases h1 : cap < a.lengthWords
    · rw [if_pos h1]; exact ⟨_, rfl, h, .refl _, rfl, fun h => h⟩
    · rw [if_neg h1]
      obtain ⟨r, hab⟩ := mergeFrom_ok (utf8 := utf8) (cap := cap) (b :: bs) a (h a (by simp))
        (fun c hc => h c (by simp [hc])) (by omega)
      generalize mergeFrom cap a (b :: bs) = m at r hab
      simp only [hab]
      rw [if_neg (by simp)]
      have hlen := r.lb.length_eq
      have htot := r.tot
      simp only [List.tail_cons, List.length_cons] at hf hlen
      have hwf : ∀ p ∈ m.1 :: m.2.1, p.WF0 utf8 := by
        intro p hp
        rcases List.mem_cons.1 hp with rfl | hp
        · exact r.wa
        · exact r.wb p hp
      have hbound : (∀ p ∈ a :: b :: bs, p.lengthWords ≤ W) → ∀ p ∈ m.1 :: m.2.1, p.lengthWords ≤ W := by
        intro hw p hp
        rcases List.mem_cons.1 hp with rfl | hp
        · have := r.la; omega
        · exact forall₂_bound r.lb (fun q hq => hw q (by simp [hq])) p hp
      by_cases hch : m.2.2.1 = true
      · rw [if_pos hch]
        have := r.yes hch
        obtain ⟨l', h2, h3, h4, h5, h6⟩ := packLoop_ok (utf8 := utf8) (W := W) fuel cap (m.1 :: m.2.1) hwf hc
          (by simp only [List.tail_cons, List.length_cons]; omega)
        refine ⟨l', h2, h3, h4.trans r.items, ?_, fun hw => h6 (hbound hw)⟩
        rw [h5, List.map_cons, List.map_cons, map_orderNo r.lb, r.oa]
      · rw [if_neg hch]
        have htl : total m.2.1.tail ≤ total m.2.1 := by
          cases m.2.1 with
          | nil => simp
          | cons x xs => simp [total]
        obtain ⟨l', h2, h3, h4, h5, h6⟩ := packLoop_ok (utf8 := utf8) (W := W) fuel
          (cap - m.1.lengthWords) m.2.1 r.wb (by omega) (by omega)
        rw [bind_def, h2, bind_ok]
        refine ⟨_, rfl, ?_, ?_, ?_, ?_⟩
        · intro p hp
          rcases List.mem_cons.1 hp with rfl | hp
          · exact r.wa
          · exact h3 p hp
        · refine List.Perm.trans ?_ r.items
          simp only [allItems, List.flatMap_cons] at h4 ⊢
          exact h4.append_left _
        · rw [List.map_cons, h5, map_orderNo r.lb, r.oa]; rfl
        · intro hw p hp
          rcases List.mem_cons.1 hp with rfl | hp
          · have := r.la; omega
          · exact h6 (fun q hq => hbound hw q (by simp [hq])) p hp

theorem items_of_empty {p : Rtcp} (h : p.isEmpty = true) : p.items = [] := by
  cases p <;> simp [Rtcp.isEmpty, Rtcp.items] at h ⊢ <;> exact h

theorem allItems_filter (l : List Rtcp) : allItems (l.filter (fun p => !p.isEmpty)) = allItems l := by
  induction l with
  | nil => rfl
  | cons p l ih =>
    by_cases h : p.isEmpty = true
    · rw [List.filter_cons_of_neg (by simp [h]), ih]
      simp [allItems, items_of_empty h]
    · rw [List.filter_cons_of_pos (by simpa using h)]
      simp only [allItems, List.flatMap_cons] at ih ⊢
      rw [ih]

theorem pairwise_map_le {l : List Rtcp} :
    List.Pairwise (fun a b : Rtcp => a.orderNo ≤ b.orderNo) l ↔
      List.Pairwise (· ≤ ·) (l.map Rtcp.orderNo) := by
  rw [List.pairwise_map]

theorem pack_ok {utf8} {fb : List Rtcp} {cap : Nat} (h : ∀ p ∈ fb, p.WF utf8) :
    ∃ l, pack fb cap = .ok l ∧ (∀ p ∈ l, p.WF utf8) ∧ (allItems l).Perm (allItems fb) ∧
      List.Pairwise (fun a b : Rtcp => a.orderNo ≤ b.orderNo) l ∧
      ((∀ p ∈ fb, p.lengthWords ≤ cap) → ∀ p ∈ l, p.lengthWords ≤ cap) := by
  unfold pack
  by_cases hl : fb.length < 2
  · rw [if_pos hl]
    refine ⟨fb, rfl, h, .refl _, ?_, fun h => h⟩
    match fb, hl with
    | [], _ => exact .nil
    | [a], _ => exact List.pairwise_singleton _ _
  · rw [if_neg hl]
    obtain ⟨s, hs⟩ : ∃ s, fb.insertionSort (fun a b => a.orderNo ≤ b.orderNo) = s := ⟨_, rfl⟩
    have hperm : s.Perm fb := by rw [← hs]; exact List.perm_insertionSort _ fb
    have hsort : List.Pairwise (fun a b : Rtcp => a.orderNo ≤ b.orderNo) s := by
      rw [← hs]
      have : Std.Total (fun a b : Rtcp => a.orderNo ≤ b.orderNo) := ⟨fun a b => Nat.le_total _ _⟩
      have : IsTrans Rtcp (fun a b : Rtcp => a.orderNo ≤ b.orderNo) := ⟨fun a b c => Nat.le_trans⟩
      exact List.pairwise_insertionSort _ fb
    rw [bind_def, hs]
    have htot : total s = total fb := (hperm.map Rtcp.count).sum_nat
    have htl : total s.tail ≤ total s := by
      cases s with
      | nil => simp
      | cons x xs => simp [total]
    obtain ⟨l', h2, h3, h4, h5, h6⟩ := packLoop_ok (utf8 := utf8) (W := cap) (packFuel fb) cap s
      (fun p hp => WF0_of_WF (h p (hperm.mem_iff.1 hp))) (Nat.le_refl _)
      (by
        have : s.length = fb.length := hperm.length_eq
        unfold packFuel; unfold total at *; omega)
    rw [h2, bind_ok]
    refine ⟨_, rfl, ?_, ?_, ?_, ?_⟩
    · intro p hp
      obtain ⟨hp, he⟩ := List.mem_filter.1 hp
      exact WF_of_WF0 (h3 p hp) (by simpa using he)
    · rw [allItems_filter]
      refine h4.trans ?_
      exact hperm.flatMap_right _
    · refine List.Pairwise.filter _ ?_
      rw [pairwise_map_le, h5, ← pairwise_map_le]; exact hsort
    · intro hw p hp
      exact h6 (fun q hq => hw q (hperm.mem_iff.1 hq)) p (List.mem_filter.1 hp).1

theorem writeLoop_ok {utf8} : ∀ (l : List Rtcp) (cap : Nat), (∀ p ∈ l, p.WF utf8) →
    ∃ b sent left, writeLoop cap l = .ok (b, sent, left) ∧ b.length ≤ cap ∧ l = sent ++ left ∧
      encodeAll sent = .ok b ∧
      (∀ p, left.head? = some p → cap < b.length + p.lengthWords * 4)
  | [], cap, _ => ⟨[], [], [], rfl, by simp, rfl, rfl, by simp⟩
  | p :: ps, cap, h => by
    rw [writeLoop]
    by_cases hc : cap < p.lengthWords * 4
    · rw [if_pos hc]; exact ⟨[], [], p :: ps, rfl, by simp, rfl, rfl, by simp; omega⟩
    · rw [if_neg hc]
      obtain ⟨a, ha⟩ := wire (h p (by simp))
      have hlen := ha.len
      obtain ⟨b, sent, left, h1, h2, h3, h4, h5⟩ := writeLoop_ok ps (cap - p.lengthWords * 4)
        (fun q hq => h q (by simp [hq]))
      refine ⟨a ++ b, p :: sent, left, ?_, ?_, ?_, ?_, ?_⟩
      · rw [Rtcp.writeTo, bind_def, bind_def, ha.enc, bind_ok, if_pos (by omega), pure_def, bind_ok,
          if_neg (by rw [written_eq ha (h p (by simp)), hlen]; simp), bind_def, h1]
        rfl
      · rw [List.length_append]; omega
      · rw [h3]; rfl
      · rw [encodeAll, bind_def, ha.enc, bind_ok, bind_def, h4]; rfl
      · intro q hq; have := h5 q hq; rw [List.length_append]; omega

end Str0m.Rtcp
