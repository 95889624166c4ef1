import Verif.Proofs.Av1Run
/-
  AV1: the packetizer's packets cover the OBUs.
-/
namespace Str0m.Av1
open Str0m.Packet
open Str0m.Vla (encodeLeb encodeLebGo)
open Spec

/-- The OBUs as parsed; the flag is the size bit of the header as it came in. -/
def parsed (ls : List (SObu × Bool)) : List Obu := ls.map (fun x => toObu x.1 x.2)

theorem idx_parsed {ls : List (SObu × Bool)} {i : Nat} {a : SObu} {s : Bool} {t : List (SObu × Bool)} (h : ls.drop i = (a, s) :: t) :
    (Res.idx (parsed ls) i : Res PErr Obu) = .ok (toObu a s) := by
  have hlt : i < ls.length := by
    rcases Nat.lt_or_ge i ls.length with h1 | h1
    · exact h1
    · rw [List.drop_eq_nil_of_le h1] at h; cases h
  have h2 : ls[i]? = some (a, s) := by
    have := congrArg (·[0]?) h
    simpa using this
  have hl2 : i < (parsed ls).length := by simpa [parsed] using hlt
  rw [Res.idx_of_lt hl2]
  have : (parsed ls)[i]? = some (toObu a s) := by
    unfold parsed
    rw [List.getElem?_map, h2]; rfl
  rw [List.getElem?_eq_getElem hl2] at this
  injection this with this
  rw [this]

theorem put_le {w w' : W} {x : List Byte} (h : w.put x = .ok w') : w'.bytes.length ≤ w'.cap ∧ w'.bytes = w.bytes ++ x ∧ w'.cap = w.cap := by
  unfold W.put at h
  split at h
  · cases h
    refine ⟨by dsimp only; rw [List.length_append]; assumption, rfl, rfl⟩
  · cases h

/-- Writing all elements of a packet is writing their encoding. -/
theorem write_all (ls : List (SObu × Bool)) (hok : ∀ x ∈ ls, Ok x.1) (first num k : Nat) : ∀ (n j off : Nat) (w : W) (rest : List (SObu × Bool)),
    ls.drop (first + j) = rest → fits (rest.map (·.1)) off (n + 1) k → w.bytes.length ≤ w.cap →
    (writeGo (parsed ls) first n j off w >>= fun r => (Res.idx (parsed ls) (first + j + n) : Res PErr Obu) >>= fun o => writeLast o num r.2 k r.1)
      = w.put (enc (decide (num > 3)) (cut (rest.map (·.1)) off (n + 1) k)) := by
  intro n
  induction n with
  | zero =>
    intro j off w rest hd hf hw
    match rest, hd, hf with
    | (a, s) :: t, hd, hf =>
      have ha : Ok a := hok (a, s) (by
        have : (a, s) ∈ ls.drop (first + j) := by rw [hd]; simp
        exact List.mem_of_mem_drop this)
      obtain ⟨h1, h2⟩ := hf
      have h2 : off + k ≤ (unsized a).length := h2
      show ((Res.idx (parsed ls) (first + j + 0) : Res PErr Obu) >>= fun o => writeLast o num off k w) = _
      rw [Nat.add_zero, idx_parsed hd, Res.bind_def, Res.bind_ok, writeLast_spec a ha.1 s num off k h1 h2 ha.2.2 w hw]
      have hl : (((unsized a).drop off).take k).length = k := by rw [List.length_take, List.length_drop]; omega
      show _ = w.put ((if decide (num > 3) = true then lebMin (((unsized a).drop off).take k).length else []) ++ ((unsized a).drop off).take k)
      rw [hl]
      simp only [decide_eq_true_eq]
  | succ n ih =>
    intro j off w rest hd hf hw
    match rest, hd, hf with
    | (a, s) :: t, hd, hf =>
      have ha : Ok a := hok (a, s) (by
        have : (a, s) ∈ ls.drop (first + j) := by rw [hd]; simp
        exact List.mem_of_mem_drop this)
      obtain ⟨h1, h2⟩ := hf
      have hd' : ls.drop (first + (j + 1)) = t := by
        rw [← Nat.add_assoc, ← List.drop_drop, hd]; rfl
      have hgo : ∀ w : W, (writeGo (parsed ls) first (n + 1) j off w >>= fun r => (Res.idx (parsed ls) (first + j + (n + 1)) : Res PErr Obu) >>= fun o => writeLast o num r.2 k r.1)
          = (do
            let sz ← csub (toObu a s).size off
            let w ← w.put (encodeLeb sz)
            let w ← midHdr (toObu a s) off w
            let w ← midExt (toObu a s) off w
            let _ ← csub (toObu a s).payload.length (off - hdrLen (toObu a s))
            let w ← w.put ((toObu a s).payload.drop (off - hdrLen (toObu a s)))
            writeGo (parsed ls) first n (j + 1) 0 w >>= fun r => (Res.idx (parsed ls) (first + j + (n + 1)) : Res PErr Obu) >>= fun o => writeLast o num r.2 k r.1) := by
        intro w
        rw [show writeGo (parsed ls) first (n + 1) j off w = (do
            let o ← Res.idx (parsed ls) (first + j)
            let sz ← csub o.size off
            let w ← w.put (encodeLeb sz)
            let w ← midHdr o off w
            let w ← midExt o off w
            let _ ← csub o.payload.length (off - hdrLen o)
            let w ← w.put (o.payload.drop (off - hdrLen o))
            writeGo (parsed ls) first n (j + 1) 0 w) from rfl]
        rw [idx_parsed hd]
        simp only [bind_assoc']
        rfl
      rw [hgo, writeMid_spec a ha.1 s off h1 ha.2.2 w]
      obtain ⟨g1, g2, g3⟩ := fits_cut h2
      have henc : enc (decide (num > 3)) (cut (((a, s) :: t).map (·.1)) off (n + 1 + 1) k)
          = lebMin ((unsized a).drop off).length ++ (unsized a).drop off ++ enc (decide (num > 3)) (cut (t.map (·.1)) 0 (n + 1) k) := by
        show enc _ ((unsized a).drop off :: cut (t.map (·.1)) 0 (n + 1) k) = _
        cases hcut : cut (t.map (·.1)) 0 (n + 1) k with
        | nil => rw [hcut] at g2; simp at g2
        | cons x xs => rfl
      rw [henc, ← put_put w (lebMin ((unsized a).drop off).length ++ (unsized a).drop off)]
      cases hp : w.put (lebMin ((unsized a).drop off).length ++ (unsized a).drop off) with
      | err e => rfl
      | panic => rfl
      | ok w' =>
        have := ih (j + 1) 0 w' t hd' h2 (put_le hp).1
        rw [show first + (j + 1) + n = first + j + (n + 1) by omega] at this
        exact this

/-- A packet that covers the OBUs from `os` at offset `o`. -/
def PkAt (l : List SObu) (maxp : Nat) (p : Pk) (os : List SObu) (o : Nat) : Prop :=
  l.drop p.first = os ∧ p.off = o ∧ fits os o p.num p.lastSize ∧
  p.size = (enc (decide (p.num > 3)) (cut os o p.num p.lastSize)).length ∧ p.size ≤ maxp

/-- The aggregation header, RTP payload format for AV1 4.4. -/
def agg (z y : Bool) (w : Nat) (n : Bool) : Byte :=
  u8 ((if z then 128 else 0) + (if y then 64 else 0) + w * 16 + (if n then 8 else 0))

theorem fits_last {os : List SObu} : ∀ {n o k : Nat}, fits os o n k → ∃ a t, os.drop (n - 1) = a :: t ∧
    ((adv os o n k).2.2 ≠ 0 ↔ (if n = 1 then o else 0) + k < (unsized a).length) := by
  induction os with
  | nil => intro n o k h; exact h.elim
  | cons a t ih =>
    intro n o k h
    match n, h with
    | 1, h =>
      obtain ⟨h1, h2⟩ := h
      refine ⟨a, t, rfl, ?_⟩
      rw [show adv (a :: t) o 1 k = if o + k = (unsized a).length then ([a], t, 0) else ([], a :: t, o + k) from rfl, if_pos rfl]
      split
      · simp; omega
      · simp; omega
    | n + 2, h =>
      obtain ⟨h1, h2⟩ := h
      obtain ⟨b, u, e1, e2⟩ := ih h2
      refine ⟨b, u, e1, ?_⟩
      rw [show (adv (a :: t) o (n + 2) k).2.2 = (adv t 0 (n + 1) k).2.2 from rfl, e2]
      rw [if_neg (show ¬ n + 2 = 1 by omega)]
      by_cases hn : n = 0
      · subst hn; simp
      · rw [if_neg (by omega)]

theorem writePk_spec (ls : List (SObu × Bool)) (hok : ∀ x ∈ ls, Ok x.1) (maxp : Nat) (p : Pk) (os : List SObu) (o : Nat)
    (hp : PkAt (ls.map (·.1)) maxp p os o) (isFirst : Bool) :
    writePk (parsed ls) p isFirst = .ok (agg (decide (0 < o)) (decide ((adv os o p.num p.lastSize).2.2 ≠ 0)) (if p.num ≤ 3 then p.num else 0)
      (decide ((ls.map (·.1)).head?.map (·.ty) = some 1 ∧ isFirst = true)) :: enc (decide (p.num > 3)) (cut os o p.num p.lastSize)) := by
  obtain ⟨hd, ho, hf, hs, hm⟩ := hp
  obtain ⟨g1, g2, g3⟩ := fits_cut hf
  -- the list of OBUs
  have hdrop : (ls.drop p.first).map (·.1) = os := by rw [List.map_drop]; exact hd
  have hne : os ≠ [] := by rintro rfl; exact hf.elim
  obtain ⟨a, t, hl, hy⟩ := fits_last hf
  have hl2 : ∃ s u, ls.drop (p.first + (p.num - 1)) = (a, s) :: u := by
    have : (ls.drop (p.first + (p.num - 1))).map (·.1) = a :: t := by
      rw [← List.drop_drop, List.map_drop, hdrop, hl]
    match h : ls.drop (p.first + (p.num - 1)), this with
    | (b, s) :: u, this =>
      simp only [List.map_cons, List.cons.injEq] at this
      exact ⟨s, u, by rw [this.1]⟩
  obtain ⟨sa, ua, hl2⟩ := hl2
  have hlsne : ∃ b s u, ls = (b, s) :: u := by
    match h : ls with
    | [] => subst h; simp at hdrop; exact absurd hdrop hne
    | (b, s) :: u => exact ⟨b, s, u, rfl⟩
  obtain ⟨b, sb, ub, hls⟩ := hlsne
  have hb : Ok b := hok (b, sb) (by rw [hls]; simp)
  have i0 : (Res.idx (parsed ls) 0 : Res PErr Obu) = .ok (toObu b sb) := idx_parsed (t := ub) (by rw [List.drop_zero]; exact hls)
  have i1 : (Res.idx (parsed ls) (p.first + p.num - 1) : Res PErr Obu) = .ok (toObu a sa) := by
    rw [show p.first + p.num - 1 = p.first + (p.num - 1) by omega]; exact idx_parsed hl2
  have hagg : aggHeader (parsed ls) p isFirst = .ok (agg (decide (0 < o)) (decide ((adv os o p.num p.lastSize).2.2 ≠ 0)) (if p.num ≤ 3 then p.num else 0)
      (decide ((ls.map (·.1)).head?.map (·.ty) = some 1 ∧ isFirst = true))) := by
    unfold aggHeader csub
    rw [if_pos (by omega), Res.bind_def, Res.bind_ok, i1, Res.bind_def, Res.bind_ok, i0, Res.bind_def, Res.bind_ok]
    have e1 : obuType (toObu b sb).header = b.ty := header_type b hb.1 sb
    have e2 : (toObu a sa).size = (unsized a).length := by
      unfold toObu unsized
      cases a.ext <;> simp <;> omega
    rw [e1, e2, ho]
    have e3 : (ls.map (·.1)).head?.map (·.ty) = some b.ty := by rw [hls]; rfl
    rw [e3]
    unfold agg
    simp only [decide_eq_true_eq, Option.some.injEq, hy, gt_iff_lt]
    have e4 : (if p.num ≤ 3 then p.num * 16 else 0) = (if p.num ≤ 3 then p.num else 0) * 16 := by split <;> omega
    rw [e4]
    rfl
  unfold writePk
  rw [hagg, Res.bind_def, Res.bind_ok]
  have hput1 : ∀ h : Byte, W.put ⟨1 + p.size, []⟩ [h] = .ok ⟨1 + p.size, [h]⟩ := by
    intro h; unfold W.put; rw [if_pos (by simp)]; rfl
  rw [hput1, Res.bind_def, Res.bind_ok]
  have hc : csub p.num 1 = .ok (p.num - 1) := by unfold csub; rw [if_pos (by omega)]
  rw [hc, Res.bind_def, Res.bind_ok]
  have hw := write_all ls hok p.first p.num p.lastSize (p.num - 1) 0 o
    ⟨1 + p.size, [agg (decide (0 < o)) (decide ((adv os o p.num p.lastSize).2.2 ≠ 0)) (if p.num ≤ 3 then p.num else 0)
      (decide ((ls.map (·.1)).head?.map (·.ty) = some 1 ∧ isFirst = true))]⟩ (ls.drop p.first) rfl
    (by rw [hdrop, show p.num - 1 + 1 = p.num by omega]; exact hf) (by simp)
  rw [hdrop, show p.num - 1 + 1 = p.num by omega, show p.first + 0 + (p.num - 1) = p.first + p.num - 1 by omega] at hw
  have hput : W.put ⟨1 + p.size, [agg (decide (0 < o)) (decide ((adv os o p.num p.lastSize).2.2 ≠ 0)) (if p.num ≤ 3 then p.num else 0)
      (decide ((ls.map (·.1)).head?.map (·.ty) = some 1 ∧ isFirst = true))]⟩ (enc (decide (p.num > 3)) (cut os o p.num p.lastSize))
      = .ok ⟨1 + p.size, agg (decide (0 < o)) (decide ((adv os o p.num p.lastSize).2.2 ≠ 0)) (if p.num ≤ 3 then p.num else 0)
      (decide ((ls.map (·.1)).head?.map (·.ty) = some 1 ∧ isFirst = true)) :: enc (decide (p.num > 3)) (cut os o p.num p.lastSize)⟩ := by
    unfold W.put
    rw [if_pos (by dsimp only; rw [List.length_singleton, hs])]
    rfl
  rw [hput] at hw
  rw [ho]
  have hfin : ∀ (x : Res PErr (W × Nat)) (g : W × Nat → Res PErr Obu) (f : W × Nat → Obu → Res PErr W) (q : W → Res PErr (List Byte)),
      (x >>= fun r => g r >>= fun o => f r o >>= q) = ((x >>= fun r => g r >>= fun o => f r o) >>= q) := by
    intro x g f q
    cases x with
    | ok r =>
      show (g r >>= fun o => f r o >>= q) = ((g r >>= fun o => f r o) >>= q)
      cases g r <;> rfl
    | err e => rfl
    | panic => rfl
  rw [hfin, hw, Res.bind_def, Res.bind_ok]
  dsimp only
  rw [List.length_cons, ← hs, show 1 + p.size - (p.size + 1) = 0 by omega]
  simp

/-! ### The receiver of one packet -/

theorem agg_read (z y n : Bool) (w : Nat) (hw : w ≤ 3) :
    (agg z y w n).val / 128 = (if z then 1 else 0) ∧ (agg z y w n).val / 64 % 2 = (if y then 1 else 0) ∧
    (agg z y w n).val / 8 % 2 = (if n then 1 else 0) ∧ (agg z y w n).val / 16 % 4 = w := by
  unfold agg
  rw [u8_val]
  cases z <;> cases y <;> cases n <;> simp <;> omega

theorem depack_packet (os : List SObu) (hok : ∀ a ∈ os, Ok a) (o num k : Nat) (n : Bool) (hf : fits os o num k) (hn : n = true → o = 0)
    (d : D) (hd : 0 < o → d = ⟨bufAt os o, o⟩) (out : List Byte) (e : Option Bool) :
    depacketize d (agg (decide (0 < o)) (decide ((adv os o num k).2.2 ≠ 0)) (if num ≤ 3 then num else 0) n :: enc (decide (num > 3)) (cut os o num k)) out e
      = .ok (⟨bufAt (adv os o num k).2.1 (adv os o num k).2.2, (adv os o num k).2.2⟩, out ++ delivered (adv os o num k).1,
        some (n || e.getD false)) := by
  obtain ⟨g1, g2, g3⟩ := fits_cut hf
  obtain ⟨a1, a2, a3, a4⟩ := agg_read (decide (0 < o)) (decide ((adv os o num k).2.2 ≠ 0)) n (if num ≤ 3 then num else 0) (by split <;> omega)
  unfold depacketize
  dsimp only
  rw [a1, a2, a3, a4]
  have e1 : decide ((if decide (0 < o) = true then 1 else 0) = 1) = decide (0 < o) := by cases decide (0 < o) <;> rfl
  have e2 : decide ((if decide ((adv os o num k).2.2 ≠ 0) = true then 1 else 0) = 1) = decide ((adv os o num k).2.2 ≠ 0) := by
    cases decide ((adv os o num k).2.2 ≠ 0) <;> rfl
  have e3 : decide ((if n = true then 1 else 0) = 1) = n := by cases n <;> rfl
  rw [e1, e2, e3]
  have hstate : (if decide (0 < o) = false ∨ n = true then (⟨[], 0⟩ : D) else d) = ⟨bufAt os o, o⟩ := by
    by_cases ho : 0 < o
    · have hnf : n = false := by
        cases n with
        | false => rfl
        | true => exact absurd (hn rfl) (by omega)
      rw [if_neg (by simp [ho, hnf]), hd ho]
    · have : o = 0 := by omega
      subst this
      rw [if_pos (Or.inl (by simp))]
      cases os <;> rfl
  rw [hstate]
  have hlen : num ≤ (enc (decide (num > 3)) (cut os o num k)).length := by
    have : ∀ (E : List (List Byte)) (sl : Bool), (∀ x ∈ E, x ≠ []) → E.length ≤ (enc sl E).length := by
      intro E
      induction E with
      | nil => intro sl _; simp
      | cons x xs ih =>
        intro sl h
        have hx : 0 < x.length := List.length_pos_of_ne_nil (h x (by simp))
        cases xs with
        | nil => simp only [enc, List.length_append, List.length_singleton]; omega
        | cons y ys =>
          have := ih sl (fun z hz => h z (List.mem_cons_of_mem _ hz))
          simp only [enc, List.length_append, List.length_cons] at this ⊢
          omega
    have := this _ (decide (num > 3)) g1
    rw [g2] at this
    exact this
  have hgo := depackGo_spec (decide (0 < o)) (decide ((adv os o num k).2.2 ≠ 0)) (decide (num > 3)) (if num ≤ 3 then num else 0) os hok num o k
    ((enc (decide (num > 3)) (cut os o num k)).length + 1) 0 out hf (by omega) (by
      unfold CountOk
      by_cases h3 : num ≤ 3
      · rw [if_pos h3, if_neg (by simpa using h3)]; omega
      · rw [if_neg h3, if_pos (by simpa using h3)]) (by intro _ h; simpa using h) rfl
  rw [hgo]
  cases e <;> rfl

/-! ### Chains of packets -/

/-- Packets that cover the OBUs from one position to another. -/
def Chain (l : List SObu) (maxp : Nat) : List Pk → List SObu → Nat → List SObu → Nat → Prop
  | [], os, o, os', o' => os' = os ∧ o' = o
  | p :: ps, os, o, os', o' => PkAt l maxp p os o ∧ Chain l maxp ps (adv os o p.num p.lastSize).2.1 (adv os o p.num p.lastSize).2.2 os' o'

theorem Chain.snoc {l : List SObu} {maxp : Nat} {p : Pk} : ∀ {ps : List Pk} {os : List SObu} {o : Nat} {os1 : List SObu} {o1 : Nat},
    Chain l maxp ps os o os1 o1 → PkAt l maxp p os1 o1 →
    Chain l maxp (ps ++ [p]) os o (adv os1 o1 p.num p.lastSize).2.1 (adv os1 o1 p.num p.lastSize).2.2 := by
  intro ps
  induction ps with
  | nil =>
    intro os o os1 o1 h hp
    obtain ⟨rfl, rfl⟩ := h
    exact ⟨hp, rfl, rfl⟩
  | cons q qs ih =>
    intro os o os1 o1 h hp
    exact ⟨h.1, ih h.2 hp⟩

theorem adv_done {os : List SObu} : ∀ {n o k : Nat}, fits os o n k → (adv os o n k).1 ++ (adv os o n k).2.1 = os := by
  induction os with
  | nil => intro n o k h; exact h.elim
  | cons a t ih =>
    intro n o k h
    match n, h with
    | 1, h =>
      rw [show adv (a :: t) o 1 k = if o + k = (unsized a).length then ([a], t, 0) else ([], a :: t, o + k) from rfl]
      split <;> rfl
    | n + 2, h =>
      show a :: ((adv t 0 (n + 1) k).1 ++ (adv t 0 (n + 1) k).2.1) = _
      rw [ih h.2]

/-- One more element. -/
theorem cut_extend {os : List SObu} : ∀ {n o k : Nat} {dn t : List SObu} {a : SObu} {k' : Nat}, fits os o n k → adv os o n k = (dn, a :: t, 0) →
    0 < k' → k' ≤ (unsized a).length →
    fits os o (n + 1) k' ∧ cut os o (n + 1) k' = cut os o n k ++ [(unsized a).take k'] ∧
    (adv os o (n + 1) k').2 = (if k' = (unsized a).length then (t, 0) else (a :: t, k')) ∧
    ∃ E x, cut os o n k = E ++ [x] ∧ x.length = k := by
  induction os with
  | nil => intro n o k dn t a k' h; exact h.elim
  | cons b u ih =>
    intro n o k dn t a k' h ha h0 hk
    match n, h with
    | 1, h =>
      obtain ⟨h1, h2⟩ := h
      rw [show adv (b :: u) o 1 k = if o + k = (unsized b).length then ([b], u, 0) else ([], b :: u, o + k) from rfl] at ha
      by_cases hfull : o + k = (unsized b).length
      · rw [if_pos hfull] at ha
        simp only [Prod.mk.injEq] at ha
        obtain ⟨rfl, rfl, -⟩ := ha
        have hd : ((unsized b).drop o).take k = (unsized b).drop o := by
          apply List.take_of_length_le
          rw [List.length_drop]; omega
        refine ⟨⟨by omega, h0, by omega⟩, ?_, ?_, [], _, rfl, ?_⟩
        · show (unsized b).drop o :: [((unsized a).drop 0).take k'] = [((unsized b).drop o).take k] ++ _
          rw [hd]; rfl
        · show (adv (a :: t) 0 1 k').2 = _
          rw [show adv (a :: t) 0 1 k' = if 0 + k' = (unsized a).length then ([a], t, 0) else ([], a :: t, 0 + k') from rfl, Nat.zero_add]
          split <;> rfl
        · rw [List.length_take, List.length_drop]; omega
      · rw [if_neg hfull] at ha
        simp only [Prod.mk.injEq] at ha
        omega
    | n + 2, h =>
      obtain ⟨h1, h2⟩ := h
      have ha' : adv u 0 (n + 1) k = ((adv u 0 (n + 1) k).1, a :: t, 0) := by
        have : (adv u 0 (n + 1) k).2 = (a :: t, 0) := by
          have := congrArg Prod.snd ha
          exact this
        rw [← this]
      obtain ⟨g1, g2, g3, E, x, g4, g5⟩ := ih h2 ha' h0 hk
      refine ⟨⟨h1, g1⟩, ?_, g3, (unsized b).drop o :: E, x, ?_, g5⟩
      · show (unsized b).drop o :: cut u 0 (n + 1 + 1) k' = (unsized b).drop o :: cut u 0 (n + 1) k ++ _
        rw [g2]; rfl
      · show (unsized b).drop o :: cut u 0 (n + 1) k = _
        rw [g4]; rfl

theorem enc_snoc (sl : Bool) (x : List Byte) : ∀ (E : List (List Byte)), enc sl (E ++ [x]) = enc true E ++ ((if sl then lebMin x.length else []) ++ x) := by
  intro E
  induction E with
  | nil => rfl
  | cons y ys ih =>
    cases ys with
    | nil => simp [enc]
    | cons w ws =>
      show lebMin y.length ++ y ++ enc sl ((w :: ws) ++ [x]) = lebMin y.length ++ y ++ enc true (w :: ws) ++ _
      rw [ih]; simp [List.append_assoc]

/-- The size grows as the packetizer computes. -/
theorem enc_grow (E : List (List Byte)) (x y : List Byte) (n : Nat) :
    (enc (decide (n + 1 > 3)) (E ++ [x] ++ [y])).length
      = (enc (decide (n > 3)) (E ++ [x])).length + (if n > 3 then 0 else (lebMin x.length).length) + (y.length + (if n + 1 > 3 then (lebMin y.length).length else 0)) := by
  rw [enc_snoc, enc_snoc, enc_snoc]
  simp only [List.length_append, decide_eq_true_eq, if_true]
  by_cases h : n > 3
  · simp only [h, if_true, show n + 1 > 3 by omega]; omega
  · simp only [h, if_false]
    by_cases h2 : n + 1 > 3
    · simp only [h2, if_true, List.length_nil]; omega
    · simp only [h2, if_false, List.length_nil]; omega

/-! ### Fragment sizes -/

theorem maxFrag_spec (size : Nat) (h : 2 ≤ size) (hm : size < 2 ^ 62) : 0 < maxFrag size ∧ maxFrag size + (lebMin (maxFrag size)).length ≤ size := by
  have key : ∀ (fuel idx : Nat), 1 ≤ idx → idx + fuel = 10 → (idx = 1 ∨ 2 ^ (7 * (idx - 1)) < size) →
      ∃ j, 1 ≤ j ∧ maxFragGo size fuel idx = size - j ∧ size ≤ 2 ^ (7 * j) ∧ (j = 1 ∨ 2 ^ (7 * (j - 1)) < size) := by
    intro fuel
    induction fuel with
    | zero =>
      intro idx h1 h2 h3
      have : idx = 10 := by omega
      subst this
      exact ⟨10, by omega, rfl, by have : (2:Nat) ^ 62 ≤ 2 ^ (7 * 10) := by norm_num
                                   omega, h3⟩
    | succ fuel ih =>
      intro idx h1 h2 h3
      unfold maxFragGo
      by_cases hs : size < 2 ^ (7 * idx) + 1
      · rw [if_pos hs]
        exact ⟨idx, h1, rfl, by omega, h3⟩
      · rw [if_neg hs]
        exact ih (idx + 1) (by omega) (by omega) (Or.inr (by rw [Nat.add_sub_cancel]; omega))
  unfold maxFrag
  rw [if_neg (by omega)]
  obtain ⟨j, h1, h2, h3, h4⟩ := key 9 1 (by omega) (by omega) (Or.inl rfl)
  rw [h2]
  have hj : j < size := by
    rcases h4 with rfl | h4
    · omega
    · have : ∀ i : Nat, i + 1 ≤ 2 ^ (7 * i) := by
        intro i
        induction i with
        | zero => simp
        | succ i ih => rw [Nat.mul_succ, Nat.pow_add]; omega
      have := this (j - 1)
      omega
  refine ⟨by omega, ?_⟩
  have hl : (lebMin (size - j)).length ≤ (j - 1) + 1 := by
    apply lebMin_length_le
    rw [show j - 1 + 1 = j by omega, show (128 : Nat) = 2 ^ 7 by norm_num, ← Nat.pow_mul]
    omega
  omega

/-! ### The invariant of `emit` -/

structure Inv (l : List SObu) (maxp i : Nat) (s : St) : Prop where
  left : s.left + s.cur.size = maxp
  cover : (i = 0 ∧ s = ⟨[], Pk.new 0, maxp⟩) ∨
    ∃ os1 o1 dn, Chain l maxp s.packets l 0 os1 o1 ∧ PkAt l maxp s.cur os1 o1 ∧ adv os1 o1 s.cur.num s.cur.lastSize = (dn, l.drop i, 0)

theorem room_spec {l : List SObu} (hok : ∀ a ∈ l, Ok a) {maxp : Nat} (hmax : 1 ≤ maxp) {i : Nat} {s : St} (hI : Inv l maxp i s) {a : SObu} {t : List SObu}
    (ha : l.drop i = a :: t) :
    ∃ os1 o1, Chain l maxp (roomFor maxp i s).1.packets l 0 os1 o1 ∧ l.drop (roomFor maxp i s).1.cur.first = os1 ∧ (roomFor maxp i s).1.cur.off = o1 ∧
      (∀ k, 0 < k → k ≤ (unsized a).length → fits os1 o1 ((roomFor maxp i s).1.cur.num + 1) k ∧
        (enc (decide ((roomFor maxp i s).1.cur.num + 1 > 3)) (cut os1 o1 ((roomFor maxp i s).1.cur.num + 1) k)).length
          = (roomFor maxp i s).1.cur.size + (roomFor maxp i s).2 + (k + prefixSize ((roomFor maxp i s).1.cur.num + 1) k) ∧
        (adv os1 o1 ((roomFor maxp i s).1.cur.num + 1) k).2 = (if k = (unsized a).length then (t, 0) else (a :: t, k))) ∧
      (roomFor maxp i s).1.left + (roomFor maxp i s).1.cur.size = maxp ∧
      (roomFor maxp i s).2 + (if (roomFor maxp i s).1.cur.num ≥ 3 then 2 else 1) ≤ (roomFor maxp i s).1.left := by
  have hal : Ok a := hok a (List.mem_of_mem_drop (by rw [ha]; simp))
  have hpre : ∀ n k, k ≤ (unsized a).length → prefixSize n k = (if n > 3 then (lebMin k).length else 0) := by
    intro n k hk
    unfold prefixSize
    have := hal.2.2
    rw [lebSize_eq (by omega)]
  -- a fresh packet
  have hnew : ∀ k, 0 < k → k ≤ (unsized a).length → fits (a :: t) 0 1 k ∧
      (enc (decide (0 + 1 > 3)) (cut (a :: t) 0 1 k)).length = 0 + 0 + (k + prefixSize 1 k) ∧
      (adv (a :: t) 0 1 k).2 = (if k = (unsized a).length then (t, 0) else (a :: t, k)) := by
    intro k h0 hk
    refine ⟨⟨h0, by omega⟩, ?_, ?_⟩
    · rw [hpre _ _ hk]
      show (([] : List Byte) ++ ((unsized a).drop 0).take k).length = _
      simp; omega
    · rw [show adv (a :: t) 0 1 k = if 0 + k = (unsized a).length then ([a], t, 0) else ([], a :: t, 0 + k) from rfl, Nat.zero_add]
      split <;> rfl
  rcases hI.cover with ⟨rfl, rfl⟩ | ⟨os1, o1, dn, hc, hp, hadv⟩
  · have hr : roomFor maxp 0 ⟨[], Pk.new 0, maxp⟩ = (⟨[], Pk.new 0, maxp⟩, 0) := by
      unfold roomFor
      have : extraSize (Pk.new 0) = 0 := rfl
      dsimp only
      rw [this, if_neg]
      show ¬ maxp < 0 + 1
      omega
    rw [hr]
    rw [List.drop_zero] at ha
    refine ⟨l, 0, ⟨rfl, rfl⟩, rfl, rfl, ?_, rfl, ?_⟩
    · rw [ha]; exact hnew
    · show 0 + 1 ≤ maxp; omega
  · unfold roomFor
    by_cases hlt : s.left < extraSize s.cur + (if s.cur.num ≥ 3 then 2 else 1)
    · rw [if_pos hlt]
      have hch := hc.snoc hp
      rw [hadv] at hch
      refine ⟨l.drop i, 0, hch, rfl, rfl, ?_, rfl, ?_⟩
      · rw [ha]; exact hnew
      · show 0 + 1 ≤ maxp; omega
    · rw [if_neg hlt]
      obtain ⟨p1, p2, p3, p4, p5⟩ := hp
      obtain ⟨g1, g2, g3⟩ := fits_cut p3
      refine ⟨os1, o1, hc, p1, p2, ?_, hI.left, by show extraSize s.cur + (if s.cur.num ≥ 3 then 2 else 1) ≤ s.left; omega⟩
      intro k h0 hk
      rw [ha] at hadv
      obtain ⟨e1, e2, e3, E, x, e4, e5⟩ := cut_extend p3 hadv h0 hk
      refine ⟨e1, ?_, e3⟩
      have hxpos : 0 < x.length := List.length_pos_of_ne_nil (g1 x (by rw [e4]; simp))
      have hl62 : s.cur.lastSize < 2 ^ 62 := by
        have hmem : ∀ {os : List SObu} {n o k : Nat}, (∀ b ∈ os, Ok b) → fits os o n k → k < 2 ^ 62 := by
          intro os
          induction os with
          | nil => intro n o k _ h; exact h.elim
          | cons b u ih =>
            intro n o k hb h
            match n, h with
            | 1, h => have := (hb b (by simp)).2.2; have := h.2; omega
            | n + 2, h => exact ih (fun c hc => hb c (List.mem_cons_of_mem _ hc)) h.2
        exact hmem (fun b hb => hok b (by rw [← p1] at hb; exact List.mem_of_mem_drop hb)) p3
      have htk : ((unsized a).take k).length = k := by rw [List.length_take]; omega
      have hgrow := enc_grow E x ((unsized a).take k) s.cur.num
      rw [← e4, ← e2, htk, e5] at hgrow
      show (enc (decide (s.cur.num + 1 > 3)) (cut os1 o1 (s.cur.num + 1) k)).length = s.cur.size + extraSize s.cur + (k + prefixSize (s.cur.num + 1) k)
      rw [hgrow, hpre _ _ hk, p4]
      have hpos : (enc (decide (s.cur.num > 3)) (cut os1 o1 s.cur.num s.cur.lastSize)).length ≠ 0 := by
        have := enc_ne (sl := decide (s.cur.num > 3)) g1 (by rw [e4]; simp)
        intro h0
        exact this (List.length_eq_zero_iff.1 h0)
      have hex : extraSize s.cur = (if s.cur.num > 3 then 0 else (lebMin s.cur.lastSize).length) := by
        unfold extraSize
        rw [p4, if_neg hpos, lebSize_eq (by omega)]
      rw [hex]

theorem middle_spec {l : List SObu} {maxp : Nat} (hmax : 1 ≤ maxp) {i : Nat} {a : SObu} {t : List SObu} (ha : l.drop i = a :: t) :
    ∀ (fuel off : Nat) (ps : List Pk) (cur : Pk), (unsized a).length < off + fuel → 0 < off → off < (unsized a).length →
    Chain l maxp (ps ++ [cur]) l 0 (a :: t) off →
    ∃ off' ps' cur', middle maxp i (unsized a).length fuel off ps cur = (off', ps', cur') ∧ 0 < off' ∧ off' < (unsized a).length ∧
      (unsized a).length ≤ off' + maxp ∧ Chain l maxp (ps' ++ [cur']) l 0 (a :: t) off' := by
  intro fuel
  induction fuel with
  | zero => intro off ps cur h1 h2 h3; omega
  | succ fuel ih =>
    intro off ps cur h1 h2 h3 hc
    unfold middle
    by_cases hlt : off + maxp < (unsized a).length
    · rw [if_pos hlt]
      refine ih (off + maxp) (ps ++ [cur]) (Pk.fragment i off maxp) (by omega) (by omega) hlt ?_
      have hp : PkAt l maxp (Pk.fragment i off maxp) (a :: t) off := by
        refine ⟨ha, rfl, ⟨by show 0 < maxp; omega, by show off + maxp ≤ _; omega⟩, ?_, Nat.le_refl maxp⟩
        show maxp = (([] : List Byte) ++ ((unsized a).drop off).take maxp).length
        rw [List.nil_append, List.length_take, List.length_drop]; omega
      have := hc.snoc hp
      have hadv : adv (a :: t) off (Pk.fragment i off maxp).num (Pk.fragment i off maxp).lastSize = ([], a :: t, off + maxp) := by
        rw [show adv (a :: t) off (Pk.fragment i off maxp).num (Pk.fragment i off maxp).lastSize
          = if off + maxp = (unsized a).length then ([a], t, 0) else ([], a :: t, off + maxp) from rfl, if_neg (by omega)]
      rw [hadv] at this
      exact this
    · rw [if_neg hlt]
      exact ⟨off, ps, cur, rfl, h2, h3, by omega, hc⟩

theorem emitOne_spec {l : List SObu} (hok : ∀ a ∈ l, Ok a) {maxp : Nat} (hmax : 1 ≤ maxp) (hmax2 : maxp < 2 ^ 62) {i : Nat} {s : St} (hI : Inv l maxp i s) {a : SObu} {t : List SObu}
    (ha : l.drop i = a :: t) : ∃ s', emitOne maxp i (unsized a).length s = .ok s' ∧ Inv l maxp (i + 1) s' := by
  obtain ⟨os1, o1, r1, r2, r3, r4, r5, r6⟩ := room_spec hok hmax hI ha
  have hal : Ok a := hok a (List.mem_of_mem_drop (by rw [ha]; simp))
  have ht : l.drop (i + 1) = t := by rw [← List.drop_drop, ha]; rfl
  have hpos : 0 < (unsized a).length := by unfold unsized; simp
  unfold emitOne
  dsimp only
  generalize roomFor maxp i s = r at *
  obtain ⟨⟨ps, cur, left⟩, extra⟩ := r
  dsimp only at *
  have hcs : csub left extra = .ok (left - extra) := by unfold csub; rw [if_pos (by split at r6 <;> omega)]
  rw [hcs, Res.bind_def, Res.bind_ok]
  have hpre : ∀ n k, k ≤ (unsized a).length → prefixSize n k = (if n > 3 then (lebMin k).length else 0) := by
    intro n k hk
    unfold prefixSize
    have := hal.2.2
    rw [lebSize_eq (by omega)]
  have hpk : ∀ k, 0 < k → k ≤ (unsized a).length → k + prefixSize (cur.num + 1) k ≤ left - extra → ∀ sz, sz = cur.size + extra + (k + prefixSize (cur.num + 1) k) →
      PkAt l maxp ⟨cur.first, cur.num + 1, cur.off, k, sz⟩ os1 o1 := by
    intro k h0 hk hle sz hsz
    obtain ⟨e1, e2, e3⟩ := r4 k h0 hk
    refine ⟨r2, r3, e1, ?_, ?_⟩
    · show sz = _
      rw [hsz]; exact e2.symm
    · show sz ≤ maxp
      rw [hsz]
      split at r6 <;> omega
  by_cases hfit : (unsized a).length + prefixSize (cur.num + 1) (unsized a).length ≤ left - extra
  · rw [if_pos hfit]
    refine ⟨_, rfl, ?_, Or.inr ⟨os1, o1, (adv os1 o1 (cur.num + 1) (unsized a).length).1, r1, hpk _ hpos (Nat.le_refl _) hfit _ rfl, ?_⟩⟩
    · show left - extra - _ + (cur.size + extra + _) = maxp
      split at r6 <;> omega
    · obtain ⟨e1, e2, e3⟩ := r4 _ hpos (Nat.le_refl _)
      rw [if_pos rfl] at e3
      rw [ht]
      show adv os1 o1 (cur.num + 1) (unsized a).length = _
      rw [← e3]
  · rw [if_neg hfit]
    -- the first fragment
    have hm : ∃ m, (if cur.num + 1 > 3 then maxFrag (left - extra) else left - extra) = m ∧ 0 < m ∧ m < (unsized a).length ∧
        m + prefixSize (cur.num + 1) m ≤ left - extra := by
      refine ⟨_, rfl, ?_⟩
      by_cases h3 : cur.num + 1 > 3
      · rw [if_pos h3]
        rw [if_pos (show cur.num ≥ 3 by omega)] at r6
        obtain ⟨m1, m2⟩ := maxFrag_spec (left - extra) (by omega) (by omega)
        have hlt : maxFrag (left - extra) < (unsized a).length := by
          by_contra hge
          have := lebMin_mono _ _ (show (unsized a).length ≤ maxFrag (left - extra) by omega)
          rw [hpre _ _ (Nat.le_refl _), if_pos h3] at hfit
          omega
        refine ⟨m1, hlt, ?_⟩
        rw [hpre _ _ (by omega), if_pos h3]
        exact m2
      · rw [if_neg h3]
        rw [hpre _ _ (Nat.le_refl _), if_neg h3] at hfit
        refine ⟨by split at r6 <;> omega, by omega, ?_⟩
        rw [hpre _ _ (by omega), if_neg h3]
        omega
    obtain ⟨m, hm1, hm2, hm3, hm4⟩ := hm
    have hff : firstFragment ⟨cur.first, cur.num + 1, cur.off, cur.lastSize, cur.size + extra⟩ extra (left - extra)
        = (m, ⟨cur.first, cur.num + 1, cur.off, m, cur.size + extra + m + prefixSize (cur.num + 1) m⟩) := by
      unfold firstFragment
      dsimp only
      rw [hm1, if_neg (by omega)]
    rw [hff]
    dsimp only
    have hp1 := hpk m hm2 (by omega) hm4 (cur.size + extra + m + prefixSize (cur.num + 1) m) (by omega)
    have hc1 := r1.snoc hp1
    have e3 := (r4 m hm2 (by omega)).2.2
    rw [if_neg (by omega)] at e3
    have e4 : (adv os1 o1 (cur.num + 1) m).2.1 = a :: t := by rw [e3]
    have e5 : (adv os1 o1 (cur.num + 1) m).2.2 = m := by rw [e3]
    rw [e4, e5] at hc1
    obtain ⟨off', ps', cur', k1, k2, k3, k4, k5⟩ := middle_spec hmax ha ((unsized a).length + 1) m ps _ (by omega) hm2 hm3 hc1
    rw [k1]
    dsimp only
    have hcs1 : csub (unsized a).length off' = .ok ((unsized a).length - off') := by unfold csub; rw [if_pos (by omega)]
    rw [hcs1, Res.bind_def, Res.bind_ok]
    have hcs2 : csub maxp ((unsized a).length - off') = .ok (maxp - ((unsized a).length - off')) := by unfold csub; rw [if_pos (by omega)]
    rw [hcs2, Res.bind_def, Res.bind_ok]
    refine ⟨_, rfl, ?_, Or.inr ⟨a :: t, off', [a], k5, ?_, ?_⟩⟩
    · show maxp - ((unsized a).length - off') + ((unsized a).length - off') = maxp
      omega
    · refine ⟨ha, rfl, ⟨by show 0 < (unsized a).length - off'; omega, by show off' + ((unsized a).length - off') ≤ _; omega⟩, ?_, ?_⟩
      · show (unsized a).length - off' = (([] : List Byte) ++ ((unsized a).drop off').take ((unsized a).length - off')).length
        rw [List.nil_append, List.length_take, List.length_drop]; omega
      · show (unsized a).length - off' ≤ maxp; omega
    · rw [ht]
      show (if off' + ((unsized a).length - off') = (unsized a).length then ([a], t, 0) else _) = _
      rw [if_pos (by omega)]

theorem emitGo_spec {l : List SObu} (hok : ∀ a ∈ l, Ok a) {maxp : Nat} (hmax : 1 ≤ maxp) (hmax2 : maxp < 2 ^ 62) : ∀ (rest : List SObu) (i : Nat) (s : St),
    l.drop i = rest → Inv l maxp i s → ∃ s', emitGo maxp (rest.map (fun a => (unsized a).length)) i s = .ok s' ∧ Inv l maxp (i + rest.length) s' := by
  intro rest
  induction rest with
  | nil => intro i s _ hI; exact ⟨s, rfl, hI⟩
  | cons a t ih =>
    intro i s hd hI
    obtain ⟨s1, e1, h1⟩ := emitOne_spec hok hmax hmax2 hI hd
    obtain ⟨s2, e2, h2⟩ := ih (i + 1) s1 (by rw [← List.drop_drop, hd]; rfl) h1
    refine ⟨s2, ?_, ?_⟩
    · show (emitOne maxp i (unsized a).length s >>= fun s => emitGo maxp (t.map (fun a => (unsized a).length)) (i + 1) s) = _
      rw [e1, Res.bind_def, Res.bind_ok, e2]
    · rw [List.length_cons, show i + (t.length + 1) = i + 1 + t.length by omega]
      exact h2

/-- Writing and reading a chain of packets. -/
theorem run_chain (ls : List (SObu × Bool)) (hok : ∀ x ∈ ls, Ok x.1) (maxp : Nat) : ∀ (ps : List Pk) (os : List SObu) (o : Nat) (isFirst : Bool),
    Chain (ls.map (·.1)) maxp ps os o [] 0 → (isFirst = true → o = 0) → (∀ a ∈ os, Ok a) →
    ∃ pkts, writeAll (parsed ls) ps isFirst = .ok pkts ∧ FitsMtu (maxp + 1) pkts ∧ pkts.length = ps.length ∧
      (o = 0 → ∀ q, pkts.head? = some q → head q = true) ∧
      ((∃ q ∈ pkts, detect q = true) ↔ (isFirst = true ∧ ps ≠ [] ∧ (ls.map (·.1)).head?.map (·.ty) = some 1)) ∧
      ∀ d out e, (0 < o → d = ⟨bufAt os o, o⟩) → ps ≠ [] →
        runDepack depacketize pkts d out e = .ok (⟨[], 0⟩, out ++ delivered os,
          some (decide ((ls.map (·.1)).head?.map (·.ty) = some 1 ∧ isFirst = true) || e.getD false)) := by
  intro ps
  induction ps with
  | nil =>
    intro os o isFirst hc hf _
    exact ⟨[], rfl, by simp [FitsMtu], rfl, by simp, by simp, fun d out e _ h => absurd rfl h⟩
  | cons p ps ih =>
    intro os o isFirst hc hf hos
    obtain ⟨hp, hc⟩ := hc
    have hw := writePk_spec ls hok maxp p os o hp isFirst
    obtain ⟨p1, p2, p3, p4, p5⟩ := hp
    have hdone := adv_done p3
    obtain ⟨qs, e1, e2, e3, e4, e5, e6⟩ := ih _ _ false hc (by simp) (fun a ha => hos a (by rw [← hdone]; exact List.mem_append_right _ ha))
    generalize hN : decide ((ls.map (·.1)).head?.map (·.ty) = some 1 ∧ isFirst = true) = N at *
    obtain ⟨a1, a2, a3, a4⟩ := agg_read (decide (0 < o)) (decide ((adv os o p.num p.lastSize).2.2 ≠ 0)) N (if p.num ≤ 3 then p.num else 0) (by split <;> omega)
    have hNo : N = true → o = 0 := by
      intro h
      rw [h] at hN
      exact hf (of_decide_eq_true hN).2
    refine ⟨(agg (decide (0 < o)) (decide ((adv os o p.num p.lastSize).2.2 ≠ 0)) (if p.num ≤ 3 then p.num else 0) N
        :: enc (decide (p.num > 3)) (cut os o p.num p.lastSize)) :: qs, ?_, ?_, ?_, ?_, ?_, ?_⟩
    · show (writePk (parsed ls) p isFirst >>= fun x => writeAll (parsed ls) ps false >>= fun xs => pure (x :: xs)) = _
      rw [hw, Res.bind_def, Res.bind_ok, e1]
      rfl
    · intro q hq
      rcases List.mem_cons.1 hq with rfl | hq
      · rw [List.length_cons, ← p4]; omega
      · exact e2 q hq
    · rw [List.length_cons, e3, List.length_cons]
    · intro ho q hq
      cases hq
      show decide (_ / 128 = 0) = true
      rw [a1, ho]; rfl
    · have hd1 : detect (agg (decide (0 < o)) (decide ((adv os o p.num p.lastSize).2.2 ≠ 0)) (if p.num ≤ 3 then p.num else 0) N
          :: enc (decide (p.num > 3)) (cut os o p.num p.lastSize)) = N := by
        show decide (_ / 8 % 2 = 1) = N
        rw [a3]; cases N <;> rfl
      constructor
      · rintro ⟨q, hq, hd⟩
        rcases List.mem_cons.1 hq with rfl | hq
        · rw [hd1] at hd
          rw [hd] at hN
          have := of_decide_eq_true hN
          exact ⟨this.2, by simp, this.1⟩
        · exact absurd (e5.1 ⟨q, hq, hd⟩).1 (by simp)
      · rintro ⟨h1, -, h3⟩
        refine ⟨_, List.mem_cons_self, ?_⟩
        rw [hd1, ← hN]
        simp only [h1, h3, and_self, decide_true]
    · intro d out e hd _
      have hpk := depack_packet os hos o p.num p.lastSize N p3 hNo d hd out e
      rw [show ∀ q qs s o ee, runDepack depacketize (q :: qs) s o ee
        = (depacketize s q o ee >>= fun r => runDepack depacketize qs r.1 r.2.1 r.2.2) from fun _ _ _ _ _ => rfl]
      rw [hpk, Res.bind_def, Res.bind_ok]
      dsimp only
      have hdel : ∀ a b : List SObu, delivered (a ++ b) = delivered a ++ delivered b := by
        intro a b
        induction a with
        | nil => rfl
        | cons x xs ih => rw [List.cons_append]; simp only [delivered, ih, List.append_assoc]
      cases ps with
      | nil =>
        obtain ⟨c1, c2⟩ := hc
        have : qs = [] := List.length_eq_zero_iff.1 e3
        subst this
        rw [← c1, ← c2]
        rw [← c1, List.append_nil] at hdone
        simp only [runDepack, hdone]
        rfl
      | cons p2 ps2 =>
        rw [e6 _ _ _ (fun _ => rfl) (by simp), List.append_assoc, ← hdel, hdone]
        simp

end Str0m.Av1
