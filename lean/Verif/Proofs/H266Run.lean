import Verif.Proofs.H266
/-
  H.266: what the packetizer emits, as items.
-/
namespace Str0m.H266
open Str0m.Packet
open Packet.Spec (FitsMtu)
open Spec
open H264.Spec (annexB delivered)

theorem Numbered_mod : ∀ (items : List Item) (k l : Nat), k % 65536 = l % 65536 → Numbered k items → Numbered l items := by
  intro items
  induction items with
  | nil => intro k l _ _; trivial
  | cons i is ih =>
    intro k l h hn
    exact ⟨hn.1.trans h, ih _ _ (by omega) hn.2⟩

theorem Numbered_append : ∀ (a b : List Item) (k : Nat), Numbered k a → Numbered (k + (a.flatMap Item.units).length) b → Numbered k (a ++ b) := by
  intro a
  induction a with
  | nil => intro b k _ h; simpa using h
  | cons i is ih =>
    intro b k h1 h2
    refine ⟨h1.1, ih b _ h1.2 ?_⟩
    rw [List.flatMap_cons, List.length_append] at h2
    rwa [show k + i.units.length + (is.flatMap Item.units).length = k + (i.units.length + (is.flatMap Item.units).length) by omega]

/-- Packets that carry units, in order, as items a receiver understands. -/
def Emits (donl : Option Nat) (mtu : Nat) (pkts : List (List Byte)) (us : List (List Byte)) (donl' : Option Nat) : Prop :=
  FitsMtu mtu pkts ∧ donl' = bump donl us.length ∧ ∃ items : List Item, pkts = items.flatMap (Item.payloads donl.isSome) ∧
    (∀ i ∈ items, i.Legal ∧ LowestIds i) ∧ items.flatMap Item.units = us ∧ ∀ v, donl = some v → Numbered v items

/-- The counter is a `u16`. -/
def DonlOk (donl : Option Nat) : Prop := ∀ v, donl = some v → v < 65536

theorem bump_isSome (donl : Option Nat) (k : Nat) : (bump donl k).isSome = donl.isSome := by cases donl <;> rfl

theorem bump_ok (donl : Option Nat) (k : Nat) : DonlOk (bump donl k) := by
  intro v h
  cases donl with
  | none => cases h
  | some w =>
    have : (w + k) % 65536 = v := by simpa [bump] using h
    omega

theorem bump_bump (donl : Option Nat) (a b : Nat) : bump (bump donl a) b = bump donl (a + b) := by
  cases donl with
  | none => rfl
  | some v => simp only [bump, Option.map_some, Option.some.injEq]; omega

theorem overhead_bump (donl : Option Nat) (k : Nat) : overhead (bump donl k) = overhead donl := by cases donl <;> rfl

theorem Emits.nil {donl : Option Nat} (hd : DonlOk donl) (mtu : Nat) : Emits donl mtu [] [] donl := by
  refine ⟨by simp [FitsMtu], ?_, [], rfl, by simp, rfl, fun _ _ => trivial⟩
  cases donl with
  | none => rfl
  | some v => have := hd v rfl; simp only [bump, List.length_nil, Option.map_some, Option.some.injEq]; omega

theorem Emits.append {donl d1 d2 : Option Nat} {mtu : Nat} {p q us vs : List (List Byte)} (h1 : Emits donl mtu p us d1) (h2 : Emits d1 mtu q vs d2) :
    Emits donl mtu (p ++ q) (us ++ vs) d2 := by
  obtain ⟨a1, b1, i1, c1, e1, f1, g1⟩ := h1
  obtain ⟨a2, b2, i2, c2, e2, f2, g2⟩ := h2
  refine ⟨?_, ?_, i1 ++ i2, ?_, ?_, ?_, ?_⟩
  · intro x hx
    rcases List.mem_append.1 hx with h | h
    · exact a1 x h
    · exact a2 x h
  · rw [b2, b1, bump_bump, List.length_append]
  · rw [c1, c2, b1, bump_isSome, List.flatMap_append]
  · intro i hi
    rcases List.mem_append.1 hi with h | h
    · exact e1 i h
    · exact e2 i h
  · rw [List.flatMap_append, f1, f2]
  · intro v hv
    refine Numbered_append _ _ _ (g1 v hv) ?_
    rw [f1]
    subst hv
    rw [b1] at g2
    refine Numbered_mod _ _ _ ?_ (g2 ((v + us.length) % 65536) rfl)
    omega

theorem don_bytes {donl : Option Nat} {v : Nat} (h : donl = none ∨ donl = some v) : don donl.isSome v = donlBytes donl := by
  rcases h with rfl | rfl <;> rfl

theorem exists_num (donl : Option Nat) : ∃ v, (donl = none ∨ donl = some v) ∧ ∀ w, donl = some w → v = w := by
  cases donl with
  | none => exact ⟨0, Or.inl rfl, fun _ h => by cases h⟩
  | some v => exact ⟨v, Or.inr rfl, fun w h => by cases h; rfl⟩

/-- One item with one unit. -/
theorem Emits.one {donl : Option Nat} (hd : DonlOk donl) {mtu : Nat} {i : Item} {pkts : List (List Byte)} {us : List (List Byte)}
    (hp : pkts = i.payloads donl.isSome) (hl : i.Legal) (hi : LowestIds i) (hu : i.units = us) (hv : ∀ v, donl = some v → i.number = v) (hf : FitsMtu mtu pkts) :
    Emits donl mtu pkts us (bump donl us.length) := by
  refine ⟨hf, rfl, [i], by simp [hp], by simpa using ⟨hl, hi⟩, by simp [hu], ?_⟩
  intro v h
  refine ⟨?_, trivial⟩
  have := hd v h
  rw [hv v h]
  omega

theorem single_eq (n : List Byte) (h : 2 ≤ n.length) (donl : Option Nat) (v : Nat) (hv : donl = none ∨ donl = some v) :
    single n donl = .ok (n.take 2 ++ don donl.isSome v ++ n.drop 2) := by
  rcases hv with rfl | rfl
  · simp [single, don]
  · unfold single
    rw [Res.slice_of_le (by omega) h, Res.from_of_le h]
    simp [don]

theorem don_length (donl : Option Nat) (v : Nat) : (don donl.isSome v).length = overhead donl := by
  cases donl <;> simp [don, overhead]

theorem single_emits {donl : Option Nat} (hd : DonlOk donl) {mtu : Nat} {n : List Byte} (h3 : 3 ≤ n.length) (ht : Travels n) (hf : n.length + overhead donl ≤ mtu) :
    ∃ q, single n donl = .ok q ∧ Emits donl mtu [q] [n] (bump donl 1) := by
  obtain ⟨v, h1, h2⟩ := exists_num donl
  refine ⟨_, single_eq n (by omega) donl v h1, ?_⟩
  refine Emits.one hd (i := .single v n) rfl ⟨h3, ht⟩ trivial rfl h2 ?_
  intro q hq
  simp only [List.mem_singleton] at hq
  subst hq
  have := don_length donl v
  simp only [List.length_append, List.length_take, List.length_drop]
  omega

theorem singles_emits {mtu : Nat} : ∀ (us : List (List Byte)) (donl : Option Nat), DonlOk donl →
    (∀ n ∈ us, 3 ≤ n.length ∧ Travels n ∧ n.length + overhead donl ≤ mtu) →
    ∃ r, singles us donl mtu = .ok r ∧ Emits donl mtu r.1 us r.2 := by
  intro us
  induction us with
  | nil => intro donl hd _; exact ⟨_, rfl, Emits.nil hd mtu⟩
  | cons n ns ih =>
    intro donl hd h
    obtain ⟨h1, h2, h3⟩ := h n (by simp)
    obtain ⟨q, e1, g1⟩ := single_emits hd h1 h2 h3
    obtain ⟨r, e2, g2⟩ := ih (bump donl 1) (bump_ok _ _) (fun m hm => by rw [overhead_bump]; exact h m (List.mem_cons_of_mem _ hm))
    refine ⟨(q :: r.1, r.2), ?_, Emits.append g1 g2⟩
    unfold singles
    rw [if_pos h3, e1, Res.bind_def, Res.bind_ok, e2]
    rfl

theorem apUnits_eq : ∀ us : List (List Byte), (∀ n ∈ us, n.length < 2 ^ 16) → apUnits us = aggregated us := by
  intro us
  induction us with
  | nil => intro _; rfl
  | cons n ns ih =>
    intro h
    have := h n (by simp)
    unfold apUnits aggregated
    rw [ih (fun m hm => h m (List.mem_cons_of_mem _ hm)), Nat.mod_eq_of_lt (by omega)]

theorem aggregated_length : ∀ us : List (List Byte), (aggregated us).length = apSize us := by
  intro us
  induction us with
  | nil => rfl
  | cons n ns ih => simp only [aggregated, apSize, List.length_append, be16_length, ih]

theorem apHdr_eq : ∀ (us : List (List Byte)) (l t : Nat), (∀ n ∈ us, Travels n) →
    ∃ l' t', apHdr us (false, l, t) = .ok (false, l', t') ∧ l' ≤ l ∧ t' ≤ t ∧ (∀ n ∈ us, l' ≤ unitLayer n ∧ t' ≤ unitTid n) ∧
      (l' = l ∨ ∃ n ∈ us, unitLayer n = l') ∧ (t' = t ∨ ∃ n ∈ us, unitTid n = t') := by
  intro us
  induction us with
  | nil => intro l t _; exact ⟨l, t, rfl, by omega, by omega, by simp, Or.inl rfl, Or.inl rfl⟩
  | cons n ns ih =>
    intro l t h
    obtain ⟨b0, b1, tl, rfl, hb, -⟩ := travels_head (h n (by simp))
    obtain ⟨l', t', e, h1, h2, h3, h4, h5⟩ := ih (min l (layer b0)) (min t (tid b1)) (fun m hm => h m (List.mem_cons_of_mem _ hm))
    have hF : fbit b0 = false := by unfold fbit; simp; omega
    have e0 : apHdr ((b0 :: b1 :: tl) :: ns) (false, l, t) = apHdr ns (false || fbit b0, min l (layer b0), min t (tid b1)) := rfl
    have o1 : l' ≤ l ∧ l' ≤ layer b0 := by clear h4 h5; omega
    have o2 : t' ≤ t ∧ t' ≤ tid b1 := by clear h4 h5; omega
    refine ⟨l', t', by rw [e0, hF]; exact e, o1.1, o2.1, ?_, ?_, ?_⟩
    · intro m hm
      rcases List.mem_cons.1 hm with rfl | hm
      · exact ⟨o1.2, o2.2⟩
      · exact h3 m hm
    · rcases h4 with h4 | ⟨m, hm, h4⟩
      · by_cases hc : l ≤ layer b0
        · left; clear h5; omega
        · right
          refine ⟨b0 :: b1 :: tl, by simp, ?_⟩
          show layer b0 = l'
          clear h5; omega
      · exact Or.inr ⟨m, List.mem_cons_of_mem _ hm, h4⟩
    · rcases h5 with h5 | ⟨m, hm, h5⟩
      · by_cases hc : t ≤ tid b1
        · left; clear h4; omega
        · right
          refine ⟨b0 :: b1 :: tl, by simp, ?_⟩
          show tid b1 = t'
          clear h4; omega
      · exact Or.inr ⟨m, List.mem_cons_of_mem _ hm, h5⟩

theorem flush_emits {mtu : Nat} (us : List (List Byte)) (h2 : 2 ≤ us.length) (donl : Option Nat) (hd : DonlOk donl)
    (h : ∀ n ∈ us, 3 ≤ n.length ∧ Travels n ∧ n.length + overhead donl ≤ mtu) :
    ∃ r, flush us donl mtu = .ok r ∧ Emits donl mtu r.1 us r.2 := by
  obtain ⟨l, t, e, hl, ht, hlow, hl2, ht2⟩ := apHdr_eq us 63 7 (fun n hn => (h n hn).2.1)
  unfold flush buildAp
  rw [if_pos h2, e, Res.bind_def, Res.bind_def, Res.bind_ok]
  by_cases c1 : us.any (fun n => n.length > 65535)
  · rw [if_pos c1]
    exact singles_emits us donl hd h
  · rw [if_neg c1]
    by_cases c2 : 2 + overhead donl + apSize us > mtu
    · rw [if_pos c2]
      exact singles_emits us donl hd h
    · rw [if_neg c2]
      have hlen : ∀ n ∈ us, n.length < 2 ^ 16 := by
        intro n hn
        by_contra hc
        exact c1 (List.any_eq_true.2 ⟨n, hn, by simp; omega⟩)
      refine ⟨_, rfl, ?_⟩
      show Emits donl mtu [[u8 (l + (if false = true then 128 else 0)), u8 (28 * 8 + max t 1)] ++ donlBytes donl ++ apUnits us] us (bump donl us.length)
      obtain ⟨v, v1, v2⟩ := exists_num donl
      obtain ⟨n0, ns, hus⟩ : ∃ n0 ns, us = n0 :: ns := by
        cases us with
        | nil => simp at h2
        | cons a b => exact ⟨a, b, rfl⟩
      have hn0 : n0 ∈ us := by rw [hus]; simp
      refine Emits.one hd (i := .ap v (u8 l) (max t 1) us) ?_ ⟨?_, by omega, h2, fun n hn => ⟨(h n hn).2.1, hlen n hn⟩⟩ ?_ rfl v2 ?_
      · simp only [Item.payloads, apUnits_eq us hlen, don_bytes v1, Bool.false_eq_true, if_false, Nat.add_zero, List.cons_append, List.nil_append]
      · rw [u8_val]; omega
      · have hu : (u8 l).val = l := u8_val_of_lt (by omega)
        refine ⟨?_, ?_, ?_⟩
        · rw [hu]
          rcases hl2 with rfl | h'
          · refine ⟨n0, hn0, ?_⟩
            have := (hlow n0 hn0).1
            obtain ⟨b0, b1, tl, rfl, -, -⟩ := travels_head (h n0 hn0).2.1
            have : 63 ≤ b0.val % 64 := this
            show b0.val % 64 = 63
            omega
          · exact h'
        · intro n hn; rw [hu]; exact (hlow n hn).1
        · intro h1
          have hn1 := h1 n0 hn0
          have t1 : 1 ≤ t := by
            rcases ht2 with rfl | ⟨m, hm, hh⟩
            · omega
            · rw [← hh]; exact h1 m hm
          rw [Nat.max_eq_left t1]
          refine ⟨?_, fun n hn => (hlow n hn).2⟩
          rcases ht2 with rfl | h'
          · refine ⟨n0, hn0, ?_⟩
            have := (hlow n0 hn0).2
            obtain ⟨b0, b1, tl, rfl, -, -⟩ := travels_head (h n0 hn0).2.1
            have : 7 ≤ b1.val % 8 := this
            show b1.val % 8 = 7
            omega
          · exact h'
      · intro q hq
        simp only [List.mem_singleton] at hq
        subst hq
        rw [apUnits_eq us hlen, List.length_append, List.length_append, aggregated_length, ← don_bytes v1, don_length]
        simp only [List.length_cons, List.length_nil]
        omega

/-- The fragments after the first. -/
theorem fuGo_rest (b0 b1 : Byte) (payload dn : List Byte) (fm m : Nat) (hm : 0 < m) : ∀ (fuel off : Nat), 0 < off → off ≤ payload.length → payload.length - off < fuel →
    ∃ ps, fuGo b0 (u8 (29 * 8 + tid b1)) (ntype b1) payload dn fm m fuel off = .ok (fragRest b0 b1 false ps) ∧ ps.flatten = payload.drop off ∧
      ∀ x ∈ ps, x.length ≤ m := by
  intro fuel
  induction fuel with
  | zero => intro off _ _ h; omega
  | succ fuel ih =>
    intro off h0 hl hf
    unfold fuGo
    by_cases hc : off < payload.length
    · rw [if_pos hc]
      simp only [if_neg (show ¬ off = 0 by omega)]
      obtain ⟨ps, e1, e2, e3⟩ := ih (off + min (payload.length - off) m) (by omega) (by omega) (by omega)
      rw [slice_piece _ _ _ (by omega), Res.bind_def, Res.bind_ok, e1, Res.bind_def, Res.bind_ok]
      refine ⟨((payload.drop off).take (min (payload.length - off) m)) :: ps, ?_, ?_, ?_⟩
      · cases ps with
        | nil =>
          have hend : off + min (payload.length - off) m = payload.length := by
            have := congrArg List.length e2
            simp at this
            omega
          rw [if_pos hend]
          show Res.ok _ = Res.ok [frag b0 b1 false true false _]
          unfold frag tid ntype
          simp [fragRest, Nat.add_comm]
        | cons y ys =>
          have hne : ¬ off + min (payload.length - off) m = payload.length ∨ off + min (payload.length - off) m = payload.length := by tauto
          rcases hne with hne | hend
          · rw [if_neg hne]
            show Res.ok _ = Res.ok (frag b0 b1 false false false _ :: _)
            unfold frag tid ntype
            simp
          · -- no bytes left: the loop would have stopped
            exfalso
            rw [hend] at e1
            cases fuel with
            | zero => omega
            | succ fuel =>
              unfold fuGo at e1
              rw [if_neg (by omega)] at e1
              cases ys <;> simp [fragRest] at e1
      · rw [List.flatten_cons, e2, ← List.drop_drop, List.take_append_drop]
      · intro x hx
        rcases List.mem_cons.1 hx with rfl | hx
        · rw [List.length_take]; omega
        · exact e3 x hx
    · rw [if_neg hc]
      exact ⟨[], rfl, by simp; omega, by simp⟩

theorem fragRest_mem (b0 b1 : Byte) (p : Bool) : ∀ (ps : List (List Byte)) (q : List Byte), q ∈ fragRest b0 b1 p ps →
    ∃ l pp x, x ∈ ps ∧ q = frag b0 b1 false l pp x ∧ (l = true → ps.getLast? = some x) := by
  intro ps
  induction ps with
  | nil => intro q h; cases h
  | cons x xs ih =>
    intro q h
    cases xs with
    | nil =>
      simp only [fragRest, List.mem_singleton] at h
      exact ⟨true, p, x, by simp, h, by simp⟩
    | cons y ys =>
      rw [show fragRest b0 b1 p (x :: y :: ys) = frag b0 b1 false false false x :: fragRest b0 b1 p (y :: ys) from rfl] at h
      rcases List.mem_cons.1 h with rfl | h
      · exact ⟨false, false, x, by simp, rfl, by simp⟩
      · obtain ⟨l, pp, z, hz, e, hl⟩ := ih q h
        exact ⟨l, pp, z, List.mem_cons_of_mem _ hz, e, fun hh => by simpa using hl hh⟩

theorem nalu_emits {donl : Option Nat} (hd : DonlOk donl) {mtu : Nat} (hm : 3 + overhead donl < mtu) (hm2 : mtu ≤ 1200) {b0 b1 : Byte} {body : List Byte}
    (h3 : 3 ≤ (b0 :: b1 :: body).length) (ht : Travels (b0 :: b1 :: body)) :
    ∃ r, emitNalu b0 b1 body donl mtu = .ok r ∧ Emits donl mtu r.1 [b0 :: b1 :: body] r.2 := by
  unfold emitNalu
  have hlen : (b0 :: b1 :: body).length = body.length + 2 := rfl
  by_cases c1 : body.length + 2 + overhead donl ≤ mtu
  · rw [if_pos c1]
    obtain ⟨q, e, g⟩ := single_emits (mtu := mtu) hd h3 ht c1
    exact ⟨([q], bump donl 1), by rw [e]; rfl, g⟩
  · rw [if_neg c1, if_neg (by omega), if_neg (by omega)]
    obtain ⟨v, v1, v2⟩ := exists_num donl
    rw [Nat.min_eq_left hm2]
    -- the first fragment
    have hfm : 0 < mtu - 3 - overhead donl := by omega
    have hlt : min (body.length - 0) (mtu - 3 - overhead donl) = mtu - 3 - overhead donl := by omega
    obtain ⟨ps, e1, e2, e3⟩ := fuGo_rest b0 b1 body (donlBytes donl) (mtu - 3 - overhead donl) (mtu - 3) (by omega) body.length
      (0 + (mtu - 3 - overhead donl)) (by omega) (by omega) (by omega)
    have e4 : fuGo b0 (u8 (29 * 8 + tid b1)) (ntype b1) body (donlBytes donl) (mtu - 3 - overhead donl) (mtu - 3) (body.length + 1) 0
        = .ok (frag b0 b1 true false false (don donl.isSome v ++ body.take (mtu - 3 - overhead donl)) :: fragRest b0 b1 false ps) := by
      rw [show fuGo b0 (u8 (29 * 8 + tid b1)) (ntype b1) body (donlBytes donl) (mtu - 3 - overhead donl) (mtu - 3) (body.length + 1) 0
        = (if 0 < body.length then _ else _) from rfl]
      rw [if_pos (by omega)]
      simp only [if_true, hlt]
      rw [slice_piece _ _ _ (by omega), Res.bind_def, Res.bind_ok, e1, Res.bind_def, Res.bind_ok, if_neg (by omega), don_bytes v1]
      simp [frag, tid, ntype, Nat.add_comm]
    rw [e4, Res.bind_def, Res.bind_ok]
    refine ⟨_, rfl, ?_⟩
    refine Emits.one hd (i := .fu v b0 b1 false (body.take (mtu - 3 - overhead donl)) ps) rfl ⟨?_, ht.2.2.1, ht.2.2.2, ?_⟩ trivial ?_ v2 ?_
    · obtain ⟨b, r, e, hb⟩ := ht.2.1
      cases e
      exact hb
    · rintro rfl
      have := congrArg List.length e2
      simp at this
      omega
    · simp only [Item.units, e2]
      rw [show 0 + (mtu - 3 - overhead donl) = mtu - 3 - overhead donl by omega, List.take_append_drop]
    · intro q hq
      rcases List.mem_cons.1 hq with rfl | hq
      · have := don_length donl v
        simp only [frag, List.length_cons, List.length_append, List.length_take]
        omega
      · obtain ⟨l, pp, x, hx, rfl, -⟩ := fragRest_mem _ _ _ _ _ hq
        have := e3 x hx
        simp only [frag, List.length_cons]
        omega

/-- The parameter sets kept by the packetizer are parameter sets; the counter is a `u16`. -/
def Kept (p : P) : Prop :=
  (∀ s, p.vps = some s → ValidUnit s ∧ unitType s = 14) ∧ (∀ s, p.sps = some s → ValidUnit s ∧ unitType s = 15) ∧
  (∀ s, p.pps = some s → ValidUnit s ∧ unitType s = 16) ∧ DonlOk p.donl

/-- What waits in the packetizer. -/
def waits (p : P) : Waiting := ⟨p.vps, p.sps, p.pps⟩

/-- Each parameter set fits one packet. -/
def SetsFit (mtu : Nat) (p : P) (us : List (List Byte)) : Prop :=
  ∀ s, (s ∈ us ∨ p.vps = some s ∨ p.sps = some s ∨ p.pps = some s) → IsSet s → s.length + donSize p.donl.isSome ≤ mtu

theorem overhead_don (donl : Option Nat) : overhead donl = donSize donl.isSome := by cases donl <;> rfl

theorem emitAll_emits {mtu : Nat} (hm2 : mtu ≤ 1200) : ∀ (us : List (List Byte)) (p : P), Kept p → 3 + donSize p.donl.isSome < mtu →
    (∀ n ∈ us, ValidUnit n) → SetsFit mtu p us →
    ∃ pkts p', emitAll mtu us p = .ok (pkts, p') ∧ Kept p' ∧ waits p' = (sent (waits p) us).2 ∧ Emits p.donl mtu pkts (sent (waits p) us).1 p'.donl := by
  intro us
  induction us with
  | nil => intro p hk _ _ _; exact ⟨[], p, rfl, hk, rfl, Emits.nil hk.2.2.2 mtu⟩
  | cons n ns ih =>
    intro p hk hm hv hf
    have hn : ValidUnit n := hv n (by simp)
    have hv' : ∀ m ∈ ns, ValidUnit m := fun m hm => hv m (List.mem_cons_of_mem _ hm)
    obtain ⟨b0, b1, body, e⟩ : ∃ b0 b1 body, n = b0 :: b1 :: body := by
      have := hn.1
      match n, this with
      | b0 :: b1 :: body, _ => exact ⟨b0, b1, body, rfl⟩
    have hty : unitType n = ntype b1 := by subst e; rfl
    have hmtu : mtu ≠ 0 := by omega
    show ∃ pkts p', (emit p n mtu >>= _) = _ ∧ _
    have hfit' : SetsFit mtu p ns := fun s hs => hf s (hs.imp_left (List.mem_cons_of_mem _))
    unfold sent
    by_cases c1 : Dropped n
    · have he : emit p n mtu = .ok ([], p) := by
        unfold Dropped at c1
        rw [hty] at c1
        subst e; unfold emit; dsimp only; rw [if_neg hmtu]
        by_cases h : ntype b1 = 20 ∨ ntype b1 = 25
        · rw [if_pos h]
        · rw [if_neg h, if_pos (by omega)]
      obtain ⟨pk, p', g1, g2, g3, g4⟩ := ih p hk hm hv' hfit'
      rw [he, Res.bind_def, Res.bind_ok, g1, if_pos c1]
      exact ⟨pk, p', rfl, g2, g3, g4⟩
    · rw [if_neg c1]
      have d1 : ¬ (ntype b1 = 20 ∨ ntype b1 = 25) := by unfold Dropped at c1; rw [hty] at c1; omega
      have d2 : ¬ (ntype b1 = 28 ∨ ntype b1 = 29) := by unfold Dropped at c1; rw [hty] at c1; omega
      rw [hty]
      by_cases c2 : ntype b1 = 14
      · have he : emit p n mtu = .ok ([], { p with vps := some n }) := by
          subst e; unfold emit; dsimp only; rw [if_neg hmtu, if_neg d1, if_neg d2, if_pos c2]
        obtain ⟨pk, p', g1, g2, g3, g4⟩ := ih { p with vps := some n } ⟨(fun s hs => by cases hs; exact ⟨hn, by omega⟩), hk.2.1, hk.2.2.1, hk.2.2.2⟩ hm hv' (by
          intro s hs
          refine hf s ?_
          rcases hs with hs | hs | hs | hs
          · exact Or.inl (List.mem_cons_of_mem _ hs)
          · cases hs; exact Or.inl (by simp)
          · exact Or.inr (Or.inr (Or.inl hs))
          · exact Or.inr (Or.inr (Or.inr hs)))
        rw [he, Res.bind_def, Res.bind_ok, g1, if_pos c2]
        exact ⟨pk, p', rfl, g2, g3, g4⟩
      · rw [if_neg c2]
        by_cases c3 : ntype b1 = 15
        · have he : emit p n mtu = .ok ([], { p with sps := some n }) := by
            subst e; unfold emit; dsimp only; rw [if_neg hmtu, if_neg d1, if_neg d2, if_neg c2, if_pos c3]
          obtain ⟨pk, p', g1, g2, g3, g4⟩ := ih { p with sps := some n } ⟨hk.1, (fun s hs => by cases hs; exact ⟨hn, by omega⟩), hk.2.2.1, hk.2.2.2⟩ hm hv' (by
            intro s hs
            refine hf s ?_
            rcases hs with hs | hs | hs | hs
            · exact Or.inl (List.mem_cons_of_mem _ hs)
            · exact Or.inr (Or.inl hs)
            · cases hs; exact Or.inl (by simp)
            · exact Or.inr (Or.inr (Or.inr hs)))
          rw [he, Res.bind_def, Res.bind_ok, g1, if_pos c3]
          exact ⟨pk, p', rfl, g2, g3, g4⟩
        · rw [if_neg c3]
          by_cases c4 : ntype b1 = 16
          · have he : emit p n mtu = .ok ([], { p with pps := some n }) := by
              subst e; unfold emit; dsimp only; rw [if_neg hmtu, if_neg d1, if_neg d2, if_neg c2, if_neg c3, if_pos c4]
            obtain ⟨pk, p', g1, g2, g3, g4⟩ := ih { p with pps := some n } ⟨hk.1, hk.2.1, (fun s hs => by cases hs; exact ⟨hn, by omega⟩), hk.2.2.2⟩ hm hv' (by
              intro s hs
              refine hf s ?_
              rcases hs with hs | hs | hs | hs
              · exact Or.inl (List.mem_cons_of_mem _ hs)
              · exact Or.inr (Or.inl hs)
              · exact Or.inr (Or.inr (Or.inl hs))
              · cases hs; exact Or.inl (by simp))
            rw [he, Res.bind_def, Res.bind_ok, g1, if_pos c4]
            exact ⟨pk, p', rfl, g2, g3, g4⟩
          · rw [if_neg c4]
            have ht : Travels n := by
              refine ⟨by have := hn.1; omega, hn.2.1, ?_, ?_⟩ <;> rw [hty] <;> omega
            -- what goes first
            have hflush : ∃ a : List (List Byte) × Option Nat,
                Emits p.donl mtu a.1 (due (waits p)) a.2 ∧
                emit p n mtu = (emitNalu b0 b1 body a.2 mtu >>= fun t => pure (a.1 ++ t.1, ⟨(stay (waits p)).vps, (stay (waits p)).sps, (stay (waits p)).pps, t.2⟩)) := by
              obtain ⟨vp, sp, pp, dn⟩ := p
              have plain : (sp = none ∨ pp = none) → emit ⟨vp, sp, pp, dn⟩ n mtu
                  = (emitNalu b0 b1 body dn mtu >>= fun t => pure ([] ++ t.1, ⟨vp, sp, pp, t.2⟩)) := by
                intro h
                subst e; unfold emit; dsimp only; rw [if_neg hmtu, if_neg d1, if_neg d2, if_neg c2, if_neg c3, if_neg c4]
                rcases h with rfl | rfl
                · rfl
                · cases sp <;> rfl
              cases sp with
              | none =>
                refine ⟨([], dn), Emits.nil hk.2.2.2 mtu, ?_⟩
                rw [plain (Or.inl rfl)]; rfl
              | some s =>
                cases pp with
                | none =>
                  refine ⟨([], dn), Emits.nil hk.2.2.2 mtu, ?_⟩
                  rw [plain (Or.inr rfl)]; rfl
                | some q =>
                  have hset : sets ⟨vp, some s, some q, dn⟩ s q = setsOf vp s q := by cases vp <;> rfl
                  obtain ⟨a, ea, ga⟩ := flush_emits (mtu := mtu) (setsOf vp s q) (by cases vp <;> simp [setsOf]) dn hk.2.2.2 (by
                    have hall : ∀ m ∈ setsOf vp s q, ValidUnit m ∧ IsSet m ∧ (vp = some m ∨ s = m ∨ q = m) := by
                      intro m hm'
                      cases vp with
                      | none =>
                        simp only [setsOf, List.mem_cons, List.not_mem_nil, or_false] at hm'
                        rcases hm' with rfl | rfl
                        · exact ⟨(hk.2.1 _ rfl).1, Or.inr (Or.inl (hk.2.1 _ rfl).2), by tauto⟩
                        · exact ⟨(hk.2.2.1 _ rfl).1, Or.inr (Or.inr (hk.2.2.1 _ rfl).2), by tauto⟩
                      | some v =>
                        simp only [setsOf, List.mem_cons, List.not_mem_nil, or_false] at hm'
                        rcases hm' with rfl | rfl | rfl
                        · exact ⟨(hk.1 _ rfl).1, Or.inl (hk.1 _ rfl).2, by tauto⟩
                        · exact ⟨(hk.2.1 _ rfl).1, Or.inr (Or.inl (hk.2.1 _ rfl).2), by tauto⟩
                        · exact ⟨(hk.2.2.1 _ rfl).1, Or.inr (Or.inr (hk.2.2.1 _ rfl).2), by tauto⟩
                    intro m hm'
                    obtain ⟨h1, h2, h3⟩ := hall m hm'
                    refine ⟨h1.1, ⟨by have := h1.1; omega, h1.2.1, ?_, ?_⟩, ?_⟩
                    · unfold IsSet at h2; omega
                    · unfold IsSet at h2; omega
                    · rw [overhead_don]
                      refine hf m (Or.inr ?_) h2
                      rcases h3 with h | h | h
                      · exact Or.inl h
                      · exact Or.inr (Or.inl (by rw [h]))
                      · exact Or.inr (Or.inr (by rw [h])))
                  refine ⟨a, ga, ?_⟩
                  have : emit ⟨vp, some s, some q, dn⟩ n mtu = (flush (sets ⟨vp, some s, some q, dn⟩ s q) dn mtu >>= fun a =>
                      emitNalu b0 b1 body a.2 mtu >>= fun t => pure (a.1 ++ t.1, ⟨none, none, none, t.2⟩)) := by
                    subst e; unfold emit; dsimp only; rw [if_neg hmtu, if_neg d1, if_neg d2, if_neg c2, if_neg c3, if_neg c4]
                  rw [this, hset, ea, Res.bind_def, Res.bind_ok]
                  rfl
            obtain ⟨a, ga, ea⟩ := hflush
            have hdn : a.2 = bump p.donl (due (waits p)).length := ga.2.1
            have hok : DonlOk a.2 := by rw [hdn]; exact bump_ok _ _
            obtain ⟨t, et, gt⟩ := nalu_emits hok (mtu := mtu) (by rw [hdn, overhead_bump, overhead_don]; exact hm) hm2 (b0 := b0) (b1 := b1) (body := body)
              (by rw [← e]; exact hn.1) (by rw [← e]; exact ht)
            have htn : t.2 = bump a.2 1 := gt.2.1
            have hsome : t.2.isSome = p.donl.isSome := by rw [htn, hdn, bump_isSome, bump_isSome]
            obtain ⟨pk, p', g1, g2, g3, g4⟩ := ih ⟨(stay (waits p)).vps, (stay (waits p)).sps, (stay (waits p)).pps, t.2⟩ (by
              have hst : stay (waits p) = waits p ∨ stay (waits p) = ⟨none, none, none⟩ := by
                unfold stay
                split
                · exact Or.inr rfl
                · exact Or.inl rfl
              rcases hst with h | h
              · rw [h]; exact ⟨hk.1, hk.2.1, hk.2.2.1, by rw [htn]; exact bump_ok _ _⟩
              · rw [h]; exact ⟨(fun _ h => by cases h), (fun _ h => by cases h), (fun _ h => by cases h), by rw [htn]; exact bump_ok _ _⟩)
              (by show 3 + donSize t.2.isSome < mtu; rw [hsome]; exact hm) hv' (by
              intro s hs his
              show s.length + donSize t.2.isSome ≤ mtu
              rw [hsome]
              refine hf s ?_ his
              have hst : stay (waits p) = waits p ∨ stay (waits p) = ⟨none, none, none⟩ := by
                unfold stay
                split
                · exact Or.inr rfl
                · exact Or.inl rfl
              rcases hst with h | h
              · rw [h] at hs; exact hs.imp_left (List.mem_cons_of_mem _)
              · rw [h] at hs
                rcases hs with hs | hs | hs | hs
                · exact Or.inl (List.mem_cons_of_mem _ hs)
                · cases hs
                · cases hs
                · cases hs)
            rw [ea, et]
            simp only [Res.bind_def, Res.bind_ok, Res.pure_def]
            rw [g1]
            refine ⟨a.1 ++ t.1 ++ pk, p', rfl, g2, g3, ?_⟩
            have := Emits.append (Emits.append ga gt) g4
            rw [e, List.append_cons]
            exact this

end Str0m.H266
