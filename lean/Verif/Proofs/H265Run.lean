import Verif.Proofs.H265
/-
  H.265: what the packetizer emits, as items.
-/
namespace Str0m.H265
open Str0m.Packet
open Packet.Spec (FitsMtu)
open Spec
open H264.Spec (annexB delivered)

theorem Counts_mod : ∀ (ds : List Nat) (k l : Nat), k % 65536 = l % 65536 → Counts k ds → Counts l ds := by
  intro ds
  induction ds with
  | nil => intro k l _ _; trivial
  | cons i is ih =>
    intro k l h hn
    exact ⟨hn.1.trans h, ih _ _ (by omega) hn.2⟩

theorem Counts_append : ∀ (a b : List Nat) (k : Nat), Counts k a → Counts (k + a.length) b → Counts k (a ++ b) := by
  intro a
  induction a with
  | nil => intro b k _ h; simpa using h
  | cons i is ih =>
    intro b k h1 h2
    refine ⟨h1.1, ih b _ h1.2 ?_⟩
    rw [List.length_cons] at h2
    rwa [show k + 1 + is.length = k + (is.length + 1) by omega]

theorem after_length : ∀ (os : List (Byte × List Byte)) (v : Nat), (after v os).length = os.length := by
  intro os
  induction os with
  | nil => intro v; rfl
  | cons x xs ih => intro v; obtain ⟨x, n⟩ := x; simp [after, ih]

theorem dons_length (i : Item) : i.dons.length = i.units.length := by
  cases i with
  | single v n => rfl
  | ap v l h1 first others => simp [Item.dons, Item.units, after_length]
  | fu v b0 b1 first pieces => rfl

theorem allDons_length (items : List Item) : (items.flatMap Item.dons).length = (items.flatMap Item.units).length := by
  induction items with
  | nil => rfl
  | cons i is ih => simp only [List.flatMap_cons, List.length_append, dons_length, ih]

/-- Packets that carry units, in order, as items a receiver understands. -/
def Emits (all : List (List Byte)) (donl : Option Nat) (mtu : Nat) (pkts : List (List Byte)) (us : List (List Byte)) (donl' : Option Nat) : Prop :=
  donl' = bump donl us.length ∧ ∃ items : List Item, pkts = items.flatMap (Item.payloads donl.isSome) ∧
    (∀ i ∈ items, i.Legal ∧ IdsFrom all i ∧ FitsMtu (mtu + i.over donl.isSome) (i.payloads donl.isSome)) ∧ items.flatMap Item.units = us ∧ ∀ v, donl = some v → Counts v (items.flatMap Item.dons)

/-- The counter is a `u16`. -/
def DonlOk (donl : Option Nat) : Prop := ∀ v, donl = some v → v < 65536

theorem bump_isSome (donl : Option Nat) (k : Nat) : (bump donl k).isSome = donl.isSome := by cases donl <;> rfl

theorem bump_ok (donl : Option Nat) (k : Nat) : DonlOk (bump donl k) := by
  intro v h
  cases donl with
  | none => cases h
  | some w =>
    have : (w + k) % 65536 = v := by simpa [bump] using h
    omega

theorem bump_bump (donl : Option Nat) (a b : Nat) : bump (bump donl a) b = bump donl (a + b) := by
  cases donl with
  | none => rfl
  | some v => simp only [bump, Option.map_some, Option.some.injEq]; omega

theorem overhead_bump (donl : Option Nat) (k : Nat) : overhead (bump donl k) = overhead donl := by cases donl <;> rfl

theorem Emits.nil {all : List (List Byte)} {donl : Option Nat} (hd : DonlOk donl) (mtu : Nat) : Emits all donl mtu [] [] donl := by
  refine ⟨?_, [], rfl, by simp, rfl, fun _ _ => trivial⟩
  cases donl with
  | none => rfl
  | some v => have := hd v rfl; simp only [bump, List.length_nil, Option.map_some, Option.some.injEq]; omega

theorem Emits.append {all : List (List Byte)} {donl d1 d2 : Option Nat} {mtu : Nat} {p q us vs : List (List Byte)} (h1 : Emits all donl mtu p us d1) (h2 : Emits all d1 mtu q vs d2) :
    Emits all donl mtu (p ++ q) (us ++ vs) d2 := by
  obtain ⟨b1, i1, c1, e1, f1, g1⟩ := h1
  obtain ⟨b2, i2, c2, e2, f2, g2⟩ := h2
  refine ⟨?_, i1 ++ i2, ?_, ?_, ?_, ?_⟩
  · rw [b2, b1, bump_bump, List.length_append]
  · rw [c1, c2, b1, bump_isSome, List.flatMap_append]
  · intro i hi
    rcases List.mem_append.1 hi with h | h
    · exact e1 i h
    · have := e2 i h; rw [b1, bump_isSome] at this; exact this
  · rw [List.flatMap_append, f1, f2]
  · intro v hv
    rw [List.flatMap_append]
    refine Counts_append _ _ _ (g1 v hv) ?_
    rw [allDons_length, f1]
    subst hv
    rw [b1] at g2
    refine Counts_mod _ _ _ ?_ (g2 ((v + us.length) % 65536) rfl)
    omega

theorem don_bytes {donl : Option Nat} {v : Nat} (h : donl = none ∨ donl = some v) : don donl.isSome v = donlBytes donl := by
  rcases h with rfl | rfl <;> rfl

theorem exists_num (donl : Option Nat) : ∃ v, (donl = none ∨ donl = some v) ∧ ∀ w, donl = some w → v = w := by
  cases donl with
  | none => exact ⟨0, Or.inl rfl, fun _ h => by cases h⟩
  | some v => exact ⟨v, Or.inr rfl, fun w h => by cases h; rfl⟩

/-- One item. -/
theorem Emits.one {all : List (List Byte)} {donl : Option Nat} {mtu : Nat} {i : Item} {pkts : List (List Byte)} {us : List (List Byte)}
    (hp : pkts = i.payloads donl.isSome) (hl : i.Legal) (hi : IdsFrom all i) (hu : i.units = us) (hv : ∀ v, donl = some v → Counts v i.dons)
    (hf : FitsMtu (mtu + i.over donl.isSome) pkts) : Emits all donl mtu pkts us (bump donl us.length) := by
  refine ⟨rfl, [i], by simp [hp], by rw [hp] at hf; simpa using ⟨hl, hi, hf⟩, by simp [hu], ?_⟩
  intro v h
  simpa using hv v h

theorem overhead_don (donl : Option Nat) : overhead donl = donSize donl.isSome := by cases donl <;> rfl

theorem single_eq (n : List Byte) (h : 2 ≤ n.length) (donl : Option Nat) (v : Nat) (hv : donl = none ∨ donl = some v) :
    single n donl = .ok (n.take 2 ++ don donl.isSome v ++ n.drop 2) := by
  rcases hv with rfl | rfl
  · simp [single, don]
  · unfold single
    rw [Res.slice_of_le (by omega) h, Res.from_of_le h]
    simp [don]

theorem don_length (donl : Option Nat) (v : Nat) : (don donl.isSome v).length = overhead donl := by
  cases donl <;> simp [don, overhead]

theorem single_emits {all : List (List Byte)} {donl : Option Nat} {mtu : Nat} {n : List Byte} (h3 : 3 ≤ n.length) (ht : Travels n) (hf : n.length ≤ mtu) :
    ∃ q, single n donl = .ok q ∧ Emits all donl mtu [q] [n] (bump donl 1) := by
  obtain ⟨v, h1, h2⟩ := exists_num donl
  refine ⟨_, single_eq n (by omega) donl v h1, ?_⟩
  refine Emits.one (i := .single v n) rfl ⟨h3, ht⟩ trivial rfl (fun w hw => by rw [← h2 w hw]; exact ⟨rfl, trivial⟩) ?_
  intro q hq
  simp only [List.mem_singleton] at hq
  subst hq
  have := don_length donl v
  rw [overhead_don] at this
  simp only [List.length_append, List.length_take, List.length_drop, Item.over]
  omega

theorem singles_emits {all : List (List Byte)} {mtu : Nat} : ∀ (us : List (List Byte)) (donl : Option Nat), DonlOk donl →
    (∀ n ∈ us, 3 ≤ n.length ∧ Travels n ∧ n.length ≤ mtu) →
    ∃ r, singles us donl mtu = .ok r ∧ Emits all donl mtu r.1 us r.2 := by
  intro us
  induction us with
  | nil => intro donl hd _; exact ⟨_, rfl, Emits.nil hd mtu⟩
  | cons n ns ih =>
    intro donl hd h
    obtain ⟨h1, h2, h3⟩ := h n (by simp)
    obtain ⟨q, e1, g1⟩ := single_emits (all := all) (donl := donl) h1 h2 h3
    obtain ⟨r, e2, g2⟩ := ih (bump donl 1) (bump_ok _ _) (fun m hm => h m (List.mem_cons_of_mem _ hm))
    refine ⟨(q :: r.1, r.2), ?_, Emits.append g1 g2⟩
    unfold singles
    rw [if_pos h3, e1, Res.bind_def, Res.bind_ok, e2]
    rfl

theorem apLoop_rest (donl : Bool) (mtu : Nat) (hm : mtu ≤ 1200) : ∀ (us : List (List Byte)) (buf q : List Byte), buf.length ≤ mtu →
    apLoop donl mtu us false buf = some q →
    q = buf ++ aggregated donl (us.map (fun n => ((0 : Byte), n))) ∧ q.length ≤ mtu ∧ ∀ n ∈ us, n.length < 2 ^ 16 := by
  intro us
  induction us with
  | nil =>
    intro buf q hb h
    have h : some buf = some q := h
    cases h
    exact ⟨by simp [aggregated], hb, by simp⟩
  | cons n ns ih =>
    intro buf q hb h
    unfold apLoop at h
    have hdd : (if donl = true ∧ false = false then [0] else []) = dond donl 0 := by cases donl <;> simp [dond]
    rw [hdd] at h
    split at h
    · cases h
    · rename_i hc
      obtain ⟨h1, h2, h3⟩ := ih _ q (by omega) h
      have hn : n.length < 2 ^ 16 := by
        simp only [List.length_append] at hc
        omega
      refine ⟨?_, h2, ?_⟩
      · rw [h1, Nat.mod_eq_of_lt (by omega)]
        simp [aggregated]
      · intro m hm'
        rcases List.mem_cons.1 hm' with rfl | hm'
        · exact hn
        · exact h3 m hm'

theorem buildAp_some {b0 b1 : Byte} {n : List Byte} {ns : List (List Byte)} {donl : Option Nat} {mtu : Nat} {q : List Byte} (hm : mtu ≤ 1200)
    (h : buildAp b0 b1 (n :: ns) donl mtu = some q) :
    q = [withType 48 b0, b1] ++ donlBytes donl ++ (be16 n.length ++ n ++ aggregated donl.isSome (ns.map (fun n => ((0 : Byte), n)))) ∧ q.length ≤ mtu ∧
      ∀ m ∈ n :: ns, m.length < 2 ^ 16 := by
  unfold buildAp apLoop at h
  rw [show (if donl.isSome = true ∧ true = false then [(0 : Byte)] else []) = [] by simp] at h
  split at h
  · cases h
  · rename_i hc
    obtain ⟨h1, h2, h3⟩ := apLoop_rest _ mtu hm ns _ q (by omega) h
    have hn : n.length < 2 ^ 16 := by
      simp only [List.length_append] at hc
      omega
    refine ⟨?_, h2, ?_⟩
    · rw [h1, Nat.mod_eq_of_lt (by omega)]
      simp
    · intro m hm'
      rcases List.mem_cons.1 hm' with rfl | hm'
      · exact hn
      · exact h3 m hm'

theorem after_zero : ∀ (ns : List (List Byte)) (v : Nat), Counts (v + 1) (after v (ns.map (fun n => ((0 : Byte), n)))) := by
  intro ns
  induction ns with
  | nil => intro v; trivial
  | cons n ns ih =>
    intro v
    refine ⟨by simp, ?_⟩
    simpa using ih (v + 1)

theorem flush_emits {all : List (List Byte)} {mtu : Nat} (hm : mtu ≤ 1200) (b0 b1 : Byte) (hb : b0.val < 128) (ha : ∃ t ∈ all, unitLayer t = b0.val % 2 * 32 + b1.val / 8 ∧ unitTid t = b1.val % 8)
    (us : List (List Byte)) (h2 : 2 ≤ us.length) (donl : Option Nat) (hd : DonlOk donl)
    (h : ∀ n ∈ us, 3 ≤ n.length ∧ Travels n ∧ n.length ≤ mtu) :
    ∃ r, flush b0 b1 us donl mtu = .ok r ∧ Emits all donl mtu r.1 us r.2 := by
  unfold flush
  cases hq : buildAp b0 b1 us donl mtu with
  | none => exact singles_emits us donl hd h
  | some q =>
    refine ⟨([q], bump donl us.length), rfl, ?_⟩
    match us, h2 with
    | n :: m :: ns, _ =>
    obtain ⟨e1, e2, e3⟩ := buildAp_some hm hq
    obtain ⟨v, v1, v2⟩ := exists_num donl
    refine Emits.one (i := .ap v (decide (b0.val % 2 = 1)) b1 n ((m :: ns).map (fun n => ((0 : Byte), n)))) ?_ ⟨by simp, ⟨(h n (by simp)).2.1, e3 n (by simp)⟩, ?_⟩ ?_ ?_ ?_ ?_
    · rw [e1, ← don_bytes v1]
      have : withType 48 b0 = u8 (48 * 2 + (if decide (b0.val % 2 = 1) = true then 1 else 0)) := by
        unfold withType
        congr 1
        by_cases c : b0.val % 2 = 1
        · simp [c]; omega
        · simp [c]; omega
      rw [this]
      simp only [Item.payloads, List.cons_append, List.nil_append]
    · intro x hx
      obtain ⟨y, hy, rfl⟩ := List.mem_map.1 hx
      exact ⟨(h y (List.mem_cons_of_mem _ hy)).2.1, e3 y (List.mem_cons_of_mem _ hy)⟩
    · obtain ⟨t, ht, h1, h2⟩ := ha
      refine ⟨t, ht, ?_, h2.symm⟩
      rw [h1]
      by_cases c : b0.val % 2 = 1
      · simp [c]
      · simp [c]; omega
    · simp [Item.units, Function.comp_def]
    · intro w hw
      rw [← v2 w hw]
      exact ⟨rfl, after_zero (m :: ns) v⟩
    · intro x hx
      simp only [List.mem_singleton] at hx
      subst hx
      omega

/-- The fragments after the first. -/
theorem fuGo_rest (b0 b1 : Byte) (hb : b0.val < 128) (payload dn : List Byte) (fm m : Nat) (hm : 0 < m) : ∀ (fuel off : Nat), 0 < off → off ≤ payload.length → payload.length - off < fuel →
    ∃ ps, fuGo (withType 49 b0) b1 (ntype b0) payload dn fm m fuel off = .ok (fragRest b0 b1 ps) ∧ ps.flatten = payload.drop off ∧
      ∀ x ∈ ps, x.length ≤ m ∧ x ≠ [] := by
  have hW : withType 49 b0 = u8 (49 * 2 + b0.val % 2) := by unfold withType; congr 1; omega
  have hN : ntype b0 = b0.val / 2 := by unfold ntype; omega
  intro fuel
  induction fuel with
  | zero => intro off _ _ h; omega
  | succ fuel ih =>
    intro off h0 hl hf
    unfold fuGo
    by_cases hc : off < payload.length
    · rw [if_pos hc]
      simp only [if_neg (show ¬ off = 0 by omega)]
      obtain ⟨ps, e1, e2, e3⟩ := ih (off + min (payload.length - off) m) (by omega) (by omega) (by omega)
      rw [slice_piece _ _ _ (by omega), Res.bind_def, Res.bind_ok, e1, Res.bind_def, Res.bind_ok]
      refine ⟨((payload.drop off).take (min (payload.length - off) m)) :: ps, ?_, ?_, ?_⟩
      · cases ps with
        | nil =>
          have hend : off + min (payload.length - off) m = payload.length := by
            have := congrArg List.length e2
            simp at this
            omega
          rw [if_pos hend]
          show Res.ok _ = Res.ok [frag b0 b1 false true _]
          unfold frag
          simp [fragRest, hW, hN, Nat.add_comm]
        | cons y ys =>
          by_cases hend : off + min (payload.length - off) m = payload.length
          · -- no bytes left: the loop would have stopped
            exfalso
            rw [hend] at e1
            cases fuel with
            | zero => omega
            | succ fuel =>
              unfold fuGo at e1
              rw [if_neg (by omega)] at e1
              cases ys <;> simp [fragRest] at e1
          · rw [if_neg hend]
            show Res.ok _ = Res.ok (frag b0 b1 false false _ :: _)
            unfold frag
            simp [hW, hN]
      · rw [List.flatten_cons, e2, ← List.drop_drop, List.take_append_drop]
      · intro x hx
        rcases List.mem_cons.1 hx with rfl | hx
        · refine ⟨by rw [List.length_take]; omega, ?_⟩
          intro he
          have := congrArg List.length he
          simp only [List.length_take, List.length_drop, List.length_nil] at this
          omega
        · exact e3 x hx
    · rw [if_neg hc]
      exact ⟨[], rfl, by simp; omega, by simp⟩

theorem fragRest_mem (b0 b1 : Byte) : ∀ (ps : List (List Byte)) (q : List Byte), q ∈ fragRest b0 b1 ps →
    ∃ l x, x ∈ ps ∧ q = frag b0 b1 false l x ∧ (l = true → ps.getLast? = some x) := by
  intro ps
  induction ps with
  | nil => intro q h; cases h
  | cons x xs ih =>
    intro q h
    cases xs with
    | nil =>
      simp only [fragRest, List.mem_singleton] at h
      exact ⟨true, x, by simp, h, by simp⟩
    | cons y ys =>
      rw [show fragRest b0 b1 (x :: y :: ys) = frag b0 b1 false false x :: fragRest b0 b1 (y :: ys) from rfl] at h
      rcases List.mem_cons.1 h with rfl | h
      · exact ⟨false, x, by simp, rfl, by simp⟩
      · obtain ⟨l, z, hz, e, hl⟩ := ih q h
        exact ⟨l, z, List.mem_cons_of_mem _ hz, e, fun hh => by simpa using hl hh⟩

theorem nalu_emits {all : List (List Byte)} {donl : Option Nat} {mtu : Nat} (hm : 3 + overhead donl < mtu) (hm2 : mtu ≤ 1200) {b0 b1 : Byte} {body : List Byte}
    (h3 : 3 ≤ (b0 :: b1 :: body).length) (ht : Travels (b0 :: b1 :: body)) :
    ∃ r, emitNalu b0 b1 body donl mtu = .ok r ∧ Emits all donl mtu r.1 [b0 :: b1 :: body] r.2 := by
  unfold emitNalu
  have hlen : (b0 :: b1 :: body).length = body.length + 2 := rfl
  have hb : b0.val < 128 := by
    obtain ⟨b, r, e, hb⟩ := ht.2.1
    cases e
    exact hb
  have hW : withType 49 b0 = u8 (49 * 2 + b0.val % 2) := by unfold withType; congr 1; omega
  have hN : ntype b0 = b0.val / 2 := by unfold ntype; omega
  by_cases c1 : body.length + 2 ≤ mtu
  · rw [if_pos c1]
    obtain ⟨q, e, g⟩ := single_emits (all := all) (donl := donl) (mtu := mtu) h3 ht c1
    exact ⟨([q], bump donl 1), by rw [e]; rfl, g⟩
  · rw [Nat.min_eq_left hm2, if_neg c1, if_neg (by omega), if_neg (by omega)]
    obtain ⟨v, v1, v2⟩ := exists_num donl
    -- the first fragment
    have hfm : 0 < mtu - 3 - overhead donl := by omega
    have hlt : min (body.length - 0) (mtu - 3 - overhead donl) = mtu - 3 - overhead donl := by omega
    obtain ⟨ps, e1, e2, e3⟩ := fuGo_rest b0 b1 hb body (donlBytes donl) (mtu - 3 - overhead donl) (mtu - 3) (by omega) body.length
      (0 + (mtu - 3 - overhead donl)) (by omega) (by omega) (by omega)
    have e4 : fuGo (withType 49 b0) b1 (ntype b0) body (donlBytes donl) (mtu - 3 - overhead donl) (mtu - 3) (body.length + 1) 0
        = .ok (frag b0 b1 true false (don donl.isSome v ++ body.take (mtu - 3 - overhead donl)) :: fragRest b0 b1 ps) := by
      rw [show fuGo (withType 49 b0) b1 (ntype b0) body (donlBytes donl) (mtu - 3 - overhead donl) (mtu - 3) (body.length + 1) 0
        = (if 0 < body.length then _ else _) from rfl]
      rw [if_pos (by omega)]
      simp only [if_true, hlt]
      rw [slice_piece _ _ _ (by omega), Res.bind_def, Res.bind_ok, e1, Res.bind_def, Res.bind_ok, if_neg (by omega), don_bytes v1]
      simp [frag, hW, hN, Nat.add_comm]
    rw [e4, Res.bind_def, Res.bind_ok]
    refine ⟨_, rfl, ?_⟩
    have hty : unitType (b0 :: b1 :: body) = b0.val / 2 := hN
    have h6 := ht.2.2
    rw [hty] at h6
    refine Emits.one (i := .fu v b0 b1 (body.take (mtu - 3 - overhead donl)) ps) rfl ⟨⟨hb, h6⟩, ?_, ?_, fun x hx => (e3 x hx).2⟩ trivial ?_ (fun w hw => by rw [← v2 w hw]; exact ⟨rfl, trivial⟩) ?_
    · intro he
      have := congrArg List.length he
      simp only [List.length_take, List.length_nil] at this
      omega
    · rintro rfl
      have := congrArg List.length e2
      simp at this
      omega
    · simp only [Item.units, e2]
      rw [show 0 + (mtu - 3 - overhead donl) = mtu - 3 - overhead donl by omega, List.take_append_drop]
    · intro q hq
      rcases List.mem_cons.1 hq with rfl | hq
      · have := don_length donl v
        simp only [frag, List.length_cons, List.length_append, List.length_take]
        omega
      · obtain ⟨l, x, hx, rfl, -⟩ := fragRest_mem _ _ _ _ hq
        have := (e3 x hx).1
        simp only [frag, List.length_cons]
        omega

/-- The parameter sets kept by the packetizer are parameter sets; the counter is a `u16`. -/
def Kept (p : P) : Prop :=
  (∀ s, p.vps = some s → ValidUnit s ∧ unitType s = 32) ∧ (∀ s, p.sps = some s → ValidUnit s ∧ unitType s = 33) ∧
  (∀ s, p.pps = some s → ValidUnit s ∧ unitType s = 34) ∧ DonlOk p.donl

/-- What waits in the packetizer. -/
def waits (p : P) : Waiting := ⟨p.vps, p.sps, p.pps⟩

/-- Each parameter set fits one packet. -/
def SetsFit (mtu : Nat) (p : P) (us : List (List Byte)) : Prop :=
  ∀ s, (s ∈ us ∨ p.vps = some s ∨ p.sps = some s ∨ p.pps = some s) → IsSet s → s.length ≤ mtu

theorem emitAll_emits {mtu : Nat} (hm2 : mtu ≤ 1200) {all : List (List Byte)} : ∀ (us : List (List Byte)) (p : P), (∀ n ∈ us, n ∈ all) → Kept p → 3 + donSize p.donl.isSome < mtu →
    (∀ n ∈ us, ValidUnit n) → SetsFit mtu p us →
    ∃ pkts p', emitAll mtu us p = .ok (pkts, p') ∧ Kept p' ∧ waits p' = (sent (waits p) us).2 ∧ Emits all p.donl mtu pkts (sent (waits p) us).1 p'.donl := by
  intro us
  induction us with
  | nil => intro p _ hk _ _ _; exact ⟨[], p, rfl, hk, rfl, Emits.nil hk.2.2.2 mtu⟩
  | cons n ns ih =>
    intro p hin hk hm hv hf
    have hn : ValidUnit n := hv n (by simp)
    have hin' : ∀ m ∈ ns, m ∈ all := fun m hm => hin m (List.mem_cons_of_mem _ hm)
    have hv' : ∀ m ∈ ns, ValidUnit m := fun m hm => hv m (List.mem_cons_of_mem _ hm)
    obtain ⟨b0, b1, body, e⟩ : ∃ b0 b1 body, n = b0 :: b1 :: body := by
      have := hn.1
      match n, this with
      | b0 :: b1 :: body, _ => exact ⟨b0, b1, body, rfl⟩
    have hty : unitType n = ntype b0 := by subst e; rfl
    have hmtu : mtu ≠ 0 := by omega
    show ∃ pkts p', (emit p n mtu >>= _) = _ ∧ _
    have hfit' : SetsFit mtu p ns := fun s hs => hf s (hs.imp_left (List.mem_cons_of_mem _))
    unfold sent
    by_cases c1 : Dropped n
    · have he : emit p n mtu = .ok ([], p) := by
        unfold Dropped at c1
        rw [hty] at c1
        subst e; unfold emit; dsimp only; rw [if_neg hmtu]
        rw [if_pos c1]
      obtain ⟨pk, p', g1, g2, g3, g4⟩ := ih p hin' hk hm hv' hfit'
      rw [he, Res.bind_def, Res.bind_ok, g1, if_pos c1]
      exact ⟨pk, p', rfl, g2, g3, g4⟩
    · rw [if_neg c1]
      have d1 : ¬ (ntype b0 = 35 ∨ ntype b0 = 38) := by unfold Dropped at c1; rw [hty] at c1; omega
      rw [hty]
      by_cases c2 : ntype b0 = 32
      · have he : emit p n mtu = .ok ([], { p with vps := some n }) := by
          subst e; unfold emit; dsimp only; rw [if_neg hmtu, if_neg d1, if_pos c2]
        obtain ⟨pk, p', g1, g2, g3, g4⟩ := ih { p with vps := some n } hin' ⟨(fun s hs => by cases hs; exact ⟨hn, by omega⟩), hk.2.1, hk.2.2.1, hk.2.2.2⟩ hm hv' (by
          intro s hs
          refine hf s ?_
          rcases hs with hs | hs | hs | hs
          · exact Or.inl (List.mem_cons_of_mem _ hs)
          · cases hs; exact Or.inl (by simp)
          · exact Or.inr (Or.inr (Or.inl hs))
          · exact Or.inr (Or.inr (Or.inr hs)))
        rw [he, Res.bind_def, Res.bind_ok, g1, if_pos c2]
        exact ⟨pk, p', rfl, g2, g3, g4⟩
      · rw [if_neg c2]
        by_cases c3 : ntype b0 = 33
        · have he : emit p n mtu = .ok ([], { p with sps := some n }) := by
            subst e; unfold emit; dsimp only; rw [if_neg hmtu, if_neg d1, if_neg c2, if_pos c3]
          obtain ⟨pk, p', g1, g2, g3, g4⟩ := ih { p with sps := some n } hin' ⟨hk.1, (fun s hs => by cases hs; exact ⟨hn, by omega⟩), hk.2.2.1, hk.2.2.2⟩ hm hv' (by
            intro s hs
            refine hf s ?_
            rcases hs with hs | hs | hs | hs
            · exact Or.inl (List.mem_cons_of_mem _ hs)
            · exact Or.inr (Or.inl hs)
            · cases hs; exact Or.inl (by simp)
            · exact Or.inr (Or.inr (Or.inr hs)))
          rw [he, Res.bind_def, Res.bind_ok, g1, if_pos c3]
          exact ⟨pk, p', rfl, g2, g3, g4⟩
        · rw [if_neg c3]
          by_cases c4 : ntype b0 = 34
          · have he : emit p n mtu = .ok ([], { p with pps := some n }) := by
              subst e; unfold emit; dsimp only; rw [if_neg hmtu, if_neg d1, if_neg c2, if_neg c3, if_pos c4]
            obtain ⟨pk, p', g1, g2, g3, g4⟩ := ih { p with pps := some n } hin' ⟨hk.1, hk.2.1, (fun s hs => by cases hs; exact ⟨hn, by omega⟩), hk.2.2.2⟩ hm hv' (by
              intro s hs
              refine hf s ?_
              rcases hs with hs | hs | hs | hs
              · exact Or.inl (List.mem_cons_of_mem _ hs)
              · exact Or.inr (Or.inl hs)
              · exact Or.inr (Or.inr (Or.inl hs))
              · cases hs; exact Or.inl (by simp))
            rw [he, Res.bind_def, Res.bind_ok, g1, if_pos c4]
            exact ⟨pk, p', rfl, g2, g3, g4⟩
          · rw [if_neg c4]
            have ht : Travels n := by
              exact ⟨by have := hn.1; omega, hn.2.1, hn.2.2.1⟩
            have hb : b0.val < 128 := by
              obtain ⟨b, r, e', hb⟩ := hn.2.1
              rw [e] at e'
              cases e'
              exact hb
            -- what goes first
            have hflush : ∃ a : List (List Byte) × Option Nat,
                Emits all p.donl mtu a.1 (due (waits p)) a.2 ∧
                emit p n mtu = (emitNalu b0 b1 body a.2 mtu >>= fun t => pure (a.1 ++ t.1, ⟨(stay (waits p)).vps, (stay (waits p)).sps, (stay (waits p)).pps, t.2⟩)) := by
              obtain ⟨vp, sp, pp, dn⟩ := p
              have plain : (sp = none ∨ pp = none) → emit ⟨vp, sp, pp, dn⟩ n mtu
                  = (emitNalu b0 b1 body dn mtu >>= fun t => pure ([] ++ t.1, ⟨vp, sp, pp, t.2⟩)) := by
                intro h
                subst e; unfold emit; dsimp only; rw [if_neg hmtu, if_neg d1, if_neg c2, if_neg c3, if_neg c4]
                rcases h with rfl | rfl
                · rfl
                · cases sp <;> rfl
              cases sp with
              | none =>
                refine ⟨([], dn), Emits.nil hk.2.2.2 mtu, ?_⟩
                rw [plain (Or.inl rfl)]; rfl
              | some s =>
                cases pp with
                | none =>
                  refine ⟨([], dn), Emits.nil hk.2.2.2 mtu, ?_⟩
                  rw [plain (Or.inr rfl)]; rfl
                | some q =>
                  have hset : sets ⟨vp, some s, some q, dn⟩ s q = setsOf vp s q := by cases vp <;> rfl
                  obtain ⟨a, ea, ga⟩ := flush_emits (all := all) hm2 b0 b1 hb ⟨n, hin n (by simp), by rw [e]; rfl, by rw [e]; rfl⟩ (setsOf vp s q) (by cases vp <;> simp [setsOf]) dn hk.2.2.2 (by
                    have hall : ∀ m ∈ setsOf vp s q, ValidUnit m ∧ IsSet m ∧ (vp = some m ∨ s = m ∨ q = m) := by
                      intro m hm'
                      cases vp with
                      | none =>
                        simp only [setsOf, List.mem_cons, List.not_mem_nil, or_false] at hm'
                        rcases hm' with rfl | rfl
                        · exact ⟨(hk.2.1 _ rfl).1, Or.inr (Or.inl (hk.2.1 _ rfl).2), by tauto⟩
                        · exact ⟨(hk.2.2.1 _ rfl).1, Or.inr (Or.inr (hk.2.2.1 _ rfl).2), by tauto⟩
                      | some v =>
                        simp only [setsOf, List.mem_cons, List.not_mem_nil, or_false] at hm'
                        rcases hm' with rfl | rfl | rfl
                        · exact ⟨(hk.1 _ rfl).1, Or.inl (hk.1 _ rfl).2, by tauto⟩
                        · exact ⟨(hk.2.1 _ rfl).1, Or.inr (Or.inl (hk.2.1 _ rfl).2), by tauto⟩
                        · exact ⟨(hk.2.2.1 _ rfl).1, Or.inr (Or.inr (hk.2.2.1 _ rfl).2), by tauto⟩
                    intro m hm'
                    obtain ⟨h1, h2, h3⟩ := hall m hm'
                    refine ⟨h1.1, ⟨by have := h1.1; omega, h1.2.1, h1.2.2.1⟩, ?_⟩
                    · refine hf m (Or.inr ?_) h2
                      rcases h3 with h | h | h
                      · exact Or.inl h
                      · exact Or.inr (Or.inl (by rw [h]))
                      · exact Or.inr (Or.inr (by rw [h])))
                  refine ⟨a, ga, ?_⟩
                  have : emit ⟨vp, some s, some q, dn⟩ n mtu = (flush b0 b1 (sets ⟨vp, some s, some q, dn⟩ s q) dn mtu >>= fun a =>
                      emitNalu b0 b1 body a.2 mtu >>= fun t => pure (a.1 ++ t.1, ⟨none, none, none, t.2⟩)) := by
                    subst e; unfold emit; dsimp only; rw [if_neg hmtu, if_neg d1, if_neg c2, if_neg c3, if_neg c4]
                  rw [this, hset, ea, Res.bind_def, Res.bind_ok]
                  rfl
            obtain ⟨a, ga, ea⟩ := hflush
            have hdn : a.2 = bump p.donl (due (waits p)).length := ga.1
            obtain ⟨t, et, gt⟩ := nalu_emits (all := all) (donl := a.2) (mtu := mtu) (by rw [hdn, overhead_bump, overhead_don]; exact hm) hm2 (b0 := b0) (b1 := b1) (body := body)
              (by rw [← e]; exact hn.1) (by rw [← e]; exact ht)
            have htn : t.2 = bump a.2 1 := gt.1
            have hsome : t.2.isSome = p.donl.isSome := by rw [htn, hdn, bump_isSome, bump_isSome]
            obtain ⟨pk, p', g1, g2, g3, g4⟩ := ih ⟨(stay (waits p)).vps, (stay (waits p)).sps, (stay (waits p)).pps, t.2⟩ hin' (by
              have hst : stay (waits p) = waits p ∨ stay (waits p) = ⟨none, none, none⟩ := by
                unfold stay
                split
                · exact Or.inr rfl
                · exact Or.inl rfl
              rcases hst with h | h
              · rw [h]; exact ⟨hk.1, hk.2.1, hk.2.2.1, by rw [htn]; exact bump_ok _ _⟩
              · rw [h]; exact ⟨(fun _ h => by cases h), (fun _ h => by cases h), (fun _ h => by cases h), by rw [htn]; exact bump_ok _ _⟩)
              (by show 3 + donSize t.2.isSome < mtu; rw [hsome]; exact hm) hv' (by
              intro s hs his
              refine hf s ?_ his
              have hst : stay (waits p) = waits p ∨ stay (waits p) = ⟨none, none, none⟩ := by
                unfold stay
                split
                · exact Or.inr rfl
                · exact Or.inl rfl
              rcases hst with h | h
              · rw [h] at hs; exact hs.imp_left (List.mem_cons_of_mem _)
              · rw [h] at hs
                rcases hs with hs | hs | hs | hs
                · exact Or.inl (List.mem_cons_of_mem _ hs)
                · cases hs
                · cases hs
                · cases hs)
            rw [ea, et]
            simp only [Res.bind_def, Res.bind_ok, Res.pure_def]
            rw [g1]
            refine ⟨a.1 ++ t.1 ++ pk, p', rfl, g2, g3, ?_⟩
            have := Emits.append (Emits.append ga gt) g4
            rw [e, List.append_cons]
            exact this

end Str0m.H265
