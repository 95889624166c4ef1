import Verif.Proofs.H264Run
import Mathlib.Tactic.FinCases
/-
  C23, C24 for H.264 (RFC 6184 packetization mode 1).
-/
namespace Str0m.H264
open Str0m.Packet
open Spec

/-- The parameter sets kept by the packetizer are a SPS and a PPS. -/
def Kept (p : P) : Prop :=
  (∀ s, p.sps = some s → ValidUnit s ∧ unitType s = 7) ∧ (∀ q, p.pps = some q → ValidUnit q ∧ unitType q = 8)

/-- SPS and PPS fit one packet together. -/
def SetsFit (mtu : Nat) (p : P) (us : List (List Byte)) : Prop :=
  ∀ s q, (s ∈ us ∨ p.sps = some s) → (q ∈ us ∨ p.pps = some q) → unitType s = 7 → unitType q = 8 → s.length + q.length + 5 ≤ mtu

/-- What the receiver knows of key frames after some units. -/
def keyOf (e : Option Bool) : List (List Byte) → Option Bool
  | [] => e
  | n :: ns => keyOf (key e (unitType n)) ns

theorem keyOf_val : ∀ (us : List (List Byte)) (e : Option Bool), us ≠ [] →
    keyOf e us = some (us.any (fun n => unitType n == 5) || e.getD false) := by
  intro us
  induction us with
  | nil => intro e h; exact absurd rfl h
  | cons n ns ih =>
    intro e _
    show keyOf (key e (unitType n)) ns = _
    have hk : key e (unitType n) = some ((unitType n == 5) || e.getD false) := by cases e <;> rfl
    cases ns with
    | nil => simp [keyOf, hk]
    | cons m ms =>
      rw [ih _ (by simp), hk]
      simp only [List.any_cons, Option.getD_some]
      cases (unitType n == 5) <;> simp

theorem frame_cons (avc : Bool) (n : List Byte) (ns : List (List Byte)) : frame avc (n :: ns) = prefix_ avc n.length ++ n ++ frame avc ns := by
  unfold frame prefix_
  have h : be32 (n.length % 2 ^ 32) = be32 n.length := by
    unfold be32 u8
    have h1 : n.length % 2 ^ 32 / 2 ^ 24 % 256 = n.length / 2 ^ 24 % 256 := by omega
    have h2 : n.length % 2 ^ 32 / 2 ^ 16 % 256 = n.length / 2 ^ 16 % 256 := by omega
    have h3 : n.length % 2 ^ 32 / 2 ^ 8 % 256 = n.length / 2 ^ 8 % 256 := by omega
    have h4 : n.length % 2 ^ 32 % 256 = n.length % 256 := by omega
    have hf : ∀ a b : Nat, a % 256 = b % 256 → (Fin.ofNat 256 a) = (Fin.ofNat 256 b) := fun a b h => Fin.ext h
    simp only [hf _ _ h1, hf _ _ h2, hf _ _ h3, hf _ _ h4]
  cases avc
  · rfl
  · simp only [if_true, h, deliveredAvc]

theorem unit_head {n : List Byte} (h : ValidUnit n) : ∃ b t, n = b :: t ∧ b.val < 128 ∧ 1 ≤ ntype b ∧ ntype b ≤ 23 ∧ ntype b = unitType n := by
  obtain ⟨⟨b, t, rfl, hb⟩, h1, h2, -, -⟩ := h
  exact ⟨b, t, rfl, hb, h1, h2, rfl⟩

theorem runDepack_append {σ ε : Type} (depack : σ → List Byte → List Byte → Option ε → Res PErr (σ × List Byte × Option ε)) :
    ∀ (a b : List (List Byte)) (s : σ) (o : List Byte) (e : Option ε),
    runDepack depack (a ++ b) s o e = (runDepack depack a s o e >>= fun r => runDepack depack b r.1 r.2.1 r.2.2) := by
  intro a
  induction a with
  | nil => intro b s o e; rfl
  | cons x xs ih =>
    intro b s o e
    show (depack s x o e >>= fun r => runDepack depack (xs ++ b) r.1 r.2.1 r.2.2) = _
    show _ = ((depack s x o e >>= fun r => runDepack depack xs r.1 r.2.1 r.2.2) >>= _)
    cases depack s x o e with
    | ok r => simp only [Res.bind_def, Res.bind_ok, ih]
    | err _ => rfl
    | panic => rfl

/-- A unit that starts fragments, single packets or an aggregate: everything about a list of packets. -/
def Good (mtu : Nat) (pkts : List (List Byte)) (us : List (List Byte)) : Prop :=
  FitsMtu mtu pkts ∧ ((∃ q ∈ pkts, Detects q) ↔ ∃ n ∈ us, unitType n = 5) ∧
  ((∀ n ∈ us, 2 ≤ n.length) → ∀ q, pkts.head? = some q → head q = true) ∧ (us ≠ [] → pkts ≠ []) ∧
  ∀ avc out e, runDepack depacketize pkts ⟨avc, none⟩ out e = .ok (⟨avc, none⟩, out ++ frame avc us, keyOf e us)

theorem keyOf_append (us vs : List (List Byte)) : ∀ e, keyOf e (us ++ vs) = keyOf (keyOf e us) vs := by
  induction us with
  | nil => intro e; rfl
  | cons n ns ih => intro e; exact ih _

theorem frame_append (avc : Bool) (us vs : List (List Byte)) : frame avc (us ++ vs) = frame avc us ++ frame avc vs := by
  induction us with
  | nil => cases avc <;> rfl
  | cons n ns ih => rw [List.cons_append, frame_cons, frame_cons, ih]; simp [List.append_assoc]

theorem Good.append {mtu : Nat} {p q us vs : List (List Byte)} (h1 : Good mtu p us) (h2 : Good mtu q vs) (hp : us = [] → p = []) :
    Good mtu (p ++ q) (us ++ vs) := by
  obtain ⟨a1, b1, c1, d1, e1⟩ := h1
  obtain ⟨a2, b2, c2, d2, e2⟩ := h2
  refine ⟨?_, ?_, ?_, ?_, ?_⟩
  · intro x hx
    rcases List.mem_append.1 hx with h | h
    · exact a1 x h
    · exact a2 x h
  · constructor
    · rintro ⟨x, hx, hd⟩
      rcases List.mem_append.1 hx with h | h
      · obtain ⟨n, hn, h5⟩ := b1.1 ⟨x, h, hd⟩
        exact ⟨n, List.mem_append_left _ hn, h5⟩
      · obtain ⟨n, hn, h5⟩ := b2.1 ⟨x, h, hd⟩
        exact ⟨n, List.mem_append_right _ hn, h5⟩
    · rintro ⟨n, hn, h5⟩
      rcases List.mem_append.1 hn with h | h
      · obtain ⟨x, hx, hd⟩ := b1.2 ⟨n, h, h5⟩
        exact ⟨x, List.mem_append_left _ hx, hd⟩
      · obtain ⟨x, hx, hd⟩ := b2.2 ⟨n, h, h5⟩
        exact ⟨x, List.mem_append_right _ hx, hd⟩
  · intro hl x hx
    cases p with
    | nil => exact c2 (fun n hn => hl n (List.mem_append_right _ hn)) x hx
    | cons y ys => exact c1 (fun n hn => hl n (List.mem_append_left _ hn)) x hx
  · intro hne h0
    obtain ⟨h3, h4⟩ := List.append_eq_nil_iff.1 h0
    by_cases hu : us = []
    · subst hu
      exact d2 (by simpa using hne) h4
    · exact d1 hu h3
  · intro avc out e
    rw [runDepack_append, e1, Res.bind_def, Res.bind_ok, e2, frame_append, keyOf_append, List.append_assoc]

theorem Good.nil (mtu : Nat) : Good mtu [] [] := by
  refine ⟨by simp [FitsMtu], by simp, by simp, by simp, ?_⟩
  intro avc out e
  cases avc <;> simp [runDepack, frame, delivered, deliveredAvc, keyOf]

theorem good_nalu {mtu : Nat} (hm : 2 < mtu) {n : List Byte} (hn : ValidUnit n) {b : Byte} {t : List Byte} (e : n = b :: t) :
    ∃ pkts, emitNalu n b mtu = .ok pkts ∧ Good mtu pkts [n] := by
  obtain ⟨b', t', e', hb, h1, h2, h3⟩ := unit_head hn
  rw [e] at e'
  cases e'
  obtain ⟨q, qs, g1, g2, g3, g4, g5⟩ := emitNalu_run n b t e hb h1 h2 mtu hm
  refine ⟨_, g1, g2, ?_, ?_, by simp, ?_⟩
  · rw [g4, h3]; simp
  · intro hl x hx
    cases hx
    exact g3 (hl n (by simp))
  · intro avc out e
    rw [g5, frame_cons, h3]
    cases avc <;> simp [frame, delivered, deliveredAvc, keyOf]

theorem good_stapA {mtu : Nat} (hm : mtu < 2 ^ 16) {s q : List Byte} (hs : ValidUnit s) (hq : ValidUnit q) (ts : unitType s = 7) (tq : unitType q = 8)
    (hf : s.length + q.length + 5 ≤ mtu) : (stapA s q).length ≤ mtu ∧ Good mtu [stapA s q] [s, q] := by
  obtain ⟨bs, us, es, -, -, -, hs3⟩ := unit_head hs
  obtain ⟨bq, uq, eq, -, -, -, hq3⟩ := unit_head hq
  have hl : (stapA s q).length ≤ mtu := by unfold stapA; simp [be16]; omega
  refine ⟨hl, by simpa [FitsMtu] using hl, ?_, ?_, by simp, ?_⟩
  · have := detect_stapA s q bs us bq uq es eq (by omega) (by omega) (by omega) (by omega)
    simp [Detects, this, ts, tq]
  · intro _ x hx
    cases hx
    unfold stapA be16
    rfl
  · intro avc out e
    have := run_stapA avc s q bs us bq uq es eq (by omega) (by omega) none out e
    simp only [runDepack, this, Res.bind_def, Res.bind_ok, frame_cons, hs3, hq3, keyOf]
    cases avc <;> simp [frame, delivered, deliveredAvc, List.append_assoc]

theorem emitAll_good {mtu : Nat} (hm : 2 < mtu) (hm2 : mtu < 2 ^ 16) : ∀ (us : List (List Byte)) (p : P), Kept p →
    (∀ n ∈ us, ValidUnit n) → SetsFit mtu p us →
    ∃ pkts p', emitAll mtu us p = .ok (pkts, p') ∧ Kept p' ∧ Good mtu pkts (sent p.sps p.pps us) ∧
      (sent p.sps p.pps us = [] → pkts = []) := by
  intro us
  induction us with
  | nil => intro p hk _ _; exact ⟨[], p, rfl, hk, Good.nil mtu, fun _ => rfl⟩
  | cons n ns ih =>
    intro p hk hv hf
    have hn : ValidUnit n := hv n (by simp)
    have hv' : ∀ m ∈ ns, ValidUnit m := fun m hm => hv m (List.mem_cons_of_mem _ hm)
    obtain ⟨b, t, e, hb, h1, h2, h3⟩ := unit_head hn
    show ∃ pkts p', (emit p n mtu >>= _) = _ ∧ _
    unfold sent
    rw [← h3]
    by_cases c1 : ntype b = 9 ∨ ntype b = 12
    · have he : emit p n mtu = .ok ([], p) := by
        subst e; unfold emit; dsimp only; rw [if_pos c1]
      obtain ⟨pk, p', g1, g2, g3, g4⟩ := ih p hk hv' (fun s q hs hq => hf s q (hs.imp_left (List.mem_cons_of_mem _)) (hq.imp_left (List.mem_cons_of_mem _)))
      rw [he, Res.bind_def, Res.bind_ok, g1, if_pos c1]
      exact ⟨pk, p', rfl, g2, g3, g4⟩
    · rw [if_neg c1]
      by_cases c2 : ntype b = 7
      · have he : emit p n mtu = .ok ([], { p with sps := some n }) := by
          subst e; unfold emit; dsimp only; rw [if_neg c1, if_pos c2]
        obtain ⟨pk, p', g1, g2, g3, g4⟩ := ih { p with sps := some n } ⟨fun s hs => by cases hs; exact ⟨hn, by omega⟩, hk.2⟩ hv' (by
          intro s q hs hq
          refine hf s q ?_ (hq.imp_left (List.mem_cons_of_mem _))
          rcases hs with hs | hs
          · exact Or.inl (List.mem_cons_of_mem _ hs)
          · cases hs; exact Or.inl (by simp))
        rw [he, Res.bind_def, Res.bind_ok, g1, if_pos c2]
        exact ⟨pk, p', rfl, g2, g3, g4⟩
      · rw [if_neg c2]
        by_cases c3 : ntype b = 8
        · have he : emit p n mtu = .ok ([], { p with pps := some n }) := by
            subst e; unfold emit; dsimp only; rw [if_neg c1, if_neg c2, if_pos c3]
          obtain ⟨pk, p', g1, g2, g3, g4⟩ := ih { p with pps := some n } ⟨hk.1, fun s hs => by cases hs; exact ⟨hn, by omega⟩⟩ hv' (by
            intro s q hs hq
            refine hf s q (hs.imp_left (List.mem_cons_of_mem _)) ?_
            rcases hq with hq | hq
            · exact Or.inl (List.mem_cons_of_mem _ hq)
            · cases hq; exact Or.inl (by simp))
          rw [he, Res.bind_def, Res.bind_ok, g1, if_pos c3]
          exact ⟨pk, p', rfl, g2, g3, g4⟩
        · rw [if_neg c3]
          obtain ⟨npk, n1, n2⟩ := good_nalu hm hn e
          have hf' : SetsFit mtu p ns := fun s q hs hq => hf s q (hs.imp_left (List.mem_cons_of_mem _)) (hq.imp_left (List.mem_cons_of_mem _))
          have hplain : ∀ (hno : ¬ ∃ s q, p.sps = some s ∧ p.pps = some q), emit p n mtu = .ok (npk, p) := by
            intro hno
            subst e; unfold emit; dsimp only; rw [if_neg c1, if_neg c2, if_neg c3]
            obtain ⟨ps, pp⟩ := p
            cases ps with
            | none => dsimp only; rw [n1]; rfl
            | some s =>
              cases pp with
              | none => dsimp only; rw [n1]; rfl
              | some q => exact absurd ⟨s, q, rfl, rfl⟩ hno
          obtain ⟨ps, pp⟩ := p
          cases ps with
          | none =>
            obtain ⟨pk, p', g1, g2, g3, g4⟩ := ih ⟨none, pp⟩ hk hv' hf'
            rw [hplain (by rintro ⟨s, q, h, -⟩; cases h), Res.bind_def, Res.bind_ok, g1]
            refine ⟨npk ++ pk, p', rfl, g2, ?_, by simp⟩
            exact Good.append n2 g3 (by simp)
          | some s =>
            cases pp with
            | none =>
              obtain ⟨pk, p', g1, g2, g3, g4⟩ := ih ⟨some s, none⟩ hk hv' hf'
              rw [hplain (by rintro ⟨s, q, -, h⟩; cases h), Res.bind_def, Res.bind_ok, g1]
              refine ⟨npk ++ pk, p', rfl, g2, ?_, by simp⟩
              exact Good.append n2 g3 (by simp)
            | some q =>
              obtain ⟨hs1, hs2⟩ := hk.1 s rfl
              obtain ⟨hq1, hq2⟩ := hk.2 q rfl
              obtain ⟨k1, k2⟩ := good_stapA hm2 hs1 hq1 hs2 hq2 (hf s q (Or.inr rfl) (Or.inr rfl) hs2 hq2)
              have he : emit ⟨some s, some q⟩ n mtu = .ok ([stapA s q] ++ npk, ⟨none, none⟩) := by
                subst e; unfold emit; dsimp only; rw [if_neg c1, if_neg c2, if_neg c3, n1, Res.bind_def, Res.bind_ok, if_pos k1]; rfl
              obtain ⟨pk, p', g1, g2, g3, g4⟩ := ih ⟨none, none⟩ ⟨(fun _ h => by cases h), (fun _ h => by cases h)⟩ hv' (by
                intro s' q' hs' hq'
                refine hf s' q' ?_ ?_
                · rcases hs' with h | h
                  · exact Or.inl (List.mem_cons_of_mem _ h)
                  · cases h
                · rcases hq' with h | h
                  · exact Or.inl (List.mem_cons_of_mem _ h)
                  · cases h)
              rw [he, Res.bind_def, Res.bind_ok, g1]
              refine ⟨[stapA s q] ++ npk ++ pk, p', rfl, g2, ?_, by simp⟩
              exact Good.append (Good.append k2 n2 (by simp)) g3 (by simp)

/-- C23, H.264: for every Annex B frame of valid NAL units, every MTU over 2 (and below 2^16) and every state
the packetizer can be in, if SPS and PPS fit one packet: the packets fit the MTU, the first is a
partition head (if no unit is a single byte), and a receiver that gets them in order appends
exactly the units that `sent` names, in Annex B or AVC form, and says key frame iff one of them is
an IDR slice (or it knew before); the packet level detector agrees. -/
theorem C23_h264 (mtu : Nat) (hm : 2 < mtu) (hm2 : mtu < 2 ^ 16) (p : P) (hk : Kept p) (us : List (Nat × List Byte)) (hne : us ≠ [])
    (hus : ∀ x ∈ us, 2 ≤ x.1 ∧ ValidUnit x.2) (hfit : SetsFit mtu p (us.map (·.2))) :
    ∃ pkts p', packetize p mtu (annexB us) = .ok (pkts, p') ∧ Kept p' ∧ FitsMtu mtu pkts ∧
      ((∀ x ∈ us, 2 ≤ x.2.length) → (∀ s, p.sps = some s → 2 ≤ s.length) → (∀ s, p.pps = some s → 2 ≤ s.length) →
        ∀ q, pkts.head? = some q → head q = true) ∧
      ((∃ q ∈ pkts, detect q = .ok true) ↔ ∃ n ∈ sent p.sps p.pps (us.map (·.2)), unitType n = 5) ∧
      ∀ avc out e, ∃ k, runDepack depacketize pkts ⟨avc, none⟩ out e
          = .ok (⟨avc, none⟩, out ++ frame avc (sent p.sps p.pps (us.map (·.2))), k) ∧
        (k = some true ↔ e = some true ∨ ∃ n ∈ sent p.sps p.pps (us.map (·.2)), unitType n = 5) := by
  have hmem : ∀ n ∈ us.map (·.2), ValidUnit n := by
    intro n hn
    obtain ⟨x, hx, rfl⟩ := List.mem_map.1 hn
    exact (hus x hx).2
  obtain ⟨pkts, p', g1, g2, ⟨g3, g4, g5, -, g6⟩, -⟩ := emitAll_good hm hm2 (us.map (·.2)) p hk hmem hfit
  rw [packetize_units mtu (by omega) us hne hus p]
  refine ⟨pkts, p', g1, g2, g3, ?_, g4, ?_⟩
  · intro hl hl1 hl2
    refine g5 ?_
    have : ∀ (l : List (List Byte)) (a b : Option (List Byte)), (∀ n ∈ l, 2 ≤ n.length) → (∀ s, a = some s → 2 ≤ s.length) → (∀ s, b = some s → 2 ≤ s.length) →
        ∀ n ∈ sent a b l, 2 ≤ n.length := by
      intro l
      induction l with
      | nil => intro a b _ _ _ n hn; simp [sent] at hn
      | cons m ms ih =>
        intro a b h1 ha hb n hn
        have h1' : ∀ n ∈ ms, 2 ≤ n.length := fun n hn => h1 n (List.mem_cons_of_mem _ hn)
        have hm' : 2 ≤ m.length := h1 m (by simp)
        unfold sent at hn
        split at hn
        · exact ih a b h1' ha hb n hn
        · split at hn
          · exact ih (some m) b h1' (fun s hs => by cases hs; exact hm') hb n hn
          · split at hn
            · exact ih a (some m) h1' ha (fun s hs => by cases hs; exact hm') n hn
            · split at hn
              · rcases List.mem_cons.1 hn with rfl | hn
                · exact ha _ rfl
                · rcases List.mem_cons.1 hn with rfl | hn
                  · exact hb _ rfl
                  · rcases List.mem_cons.1 hn with rfl | hn
                    · exact hm'
                    · exact ih none none h1' (fun s hs => by cases hs) (fun s hs => by cases hs) n hn
              · rcases List.mem_cons.1 hn with rfl | hn
                · exact hm'
                · exact ih a b h1' ha hb n hn
    refine this _ _ _ ?_ hl1 hl2
    intro n hn
    obtain ⟨x, hx, rfl⟩ := List.mem_map.1 hn
    exact hl x hx
  · intro avc out e
    refine ⟨_, g6 avc out e, ?_⟩
    cases hs : sent p.sps p.pps (us.map (·.2)) with
    | nil => simp [keyOf]
    | cons n ns =>
      rw [keyOf_val _ _ (by simp)]
      have : (e.getD false = true) ↔ e = some true := by
        cases e with
        | none => simp
        | some v => cases v <;> simp
      rw [Option.some.injEq, Bool.or_eq_true, this, List.any_eq_true]
      constructor
      · rintro (⟨m, h1, h2⟩ | h)
        · exact Or.inr ⟨m, h1, by simpa using h2⟩
        · exact Or.inl h
      · rintro (h | ⟨m, h1, h2⟩)
        · exact Or.inr h
        · exact Or.inl ⟨m, h1, by simpa using h2⟩

/-- What travels of a usual frame when nothing waits is the frame without delimiters and filler. -/
theorem sent_usual (us : List (List Byte)) (hu : Usual us) : sent none none us = us.filter (fun n => ¬ Dropped n) := by
  -- units before the first kept unit are dropped, so work on the filtered list
  have hskip : ∀ (l : List (List Byte)) (a b : Option (List Byte)), sent a b l = sent a b (l.filter (fun n => ¬ Dropped n)) := by
    intro l
    induction l with
    | nil => intro a b; rfl
    | cons n ns ih =>
      intro a b
      by_cases hd : Dropped n
      · rw [List.filter_cons_of_neg (by simpa using hd), ← ih a b]
        rw [show sent a b (n :: ns) = (if unitType n = 9 ∨ unitType n = 12 then sent a b ns else _) from rfl]
        exact if_pos hd
      · rw [List.filter_cons_of_pos (by simpa using hd)]
        unfold sent
        simp only [ih]
  have hplain : ∀ (l : List (List Byte)), (∀ n ∈ l, ¬ Dropped n ∧ unitType n ≠ 7 ∧ unitType n ≠ 8) → sent none none l = l := by
    intro l
    induction l with
    | nil => intro _; rfl
    | cons n ns ih =>
      intro h
      obtain ⟨h1, h2, h3⟩ := h n (by simp)
      unfold sent
      rw [if_neg (show ¬ (unitType n = 9 ∨ unitType n = 12) from h1), if_neg h2, if_neg h3]
      dsimp only
      rw [ih (fun m hm => h m (List.mem_cons_of_mem _ hm))]
  obtain ⟨ps, slices, e, hne, hs, hp⟩ := hu
  have hnd : ∀ n ∈ ps ++ slices, ¬ Dropped n := by
    intro n hn
    rw [← e] at hn
    simpa using (List.mem_filter.1 hn).2
  rw [hskip, e]
  have hs' : ∀ n ∈ slices, ¬ Dropped n ∧ unitType n ≠ 7 ∧ unitType n ≠ 8 := fun n hn => ⟨hnd n (List.mem_append_right _ hn), hs n hn⟩
  rcases hp with rfl | ⟨s, p, rfl, h7, h8⟩
  · exact hplain _ hs'
  · cases slices with
    | nil => exact absurd rfl hne
    | cons n ns =>
      obtain ⟨n1, n2, n3⟩ := hs' n (by simp)
      show sent none none (s :: p :: n :: ns) = _
      rw [show sent none none (s :: p :: n :: ns) = (if unitType s = 9 ∨ unitType s = 12 then _ else if unitType s = 7 then sent (some s) none (p :: n :: ns) else _) from rfl,
        if_neg (by omega), if_pos h7]
      rw [show sent (some s) none (p :: n :: ns) = (if unitType p = 9 ∨ unitType p = 12 then _ else if unitType p = 7 then _
        else if unitType p = 8 then sent (some s) (some p) (n :: ns) else _) from rfl, if_neg (by omega), if_neg (by omega), if_pos h8]
      unfold sent
      rw [if_neg (show ¬ (unitType n = 9 ∨ unitType n = 12) from n1), if_neg n2, if_neg n3]
      dsimp only
      rw [hplain ns (fun m hm => hs' m (List.mem_cons_of_mem _ hm))]
      rfl

/-- C23, H.264, usual frames: the receiver gets the whole frame except delimiters and filler. -/
theorem C23_h264_usual (mtu : Nat) (hm : 2 < mtu) (hm2 : mtu < 2 ^ 16) (us : List (Nat × List Byte))
    (hus : ∀ x ∈ us, 2 ≤ x.1 ∧ ValidUnit x.2) (hu : Usual (us.map (·.2)))
    (hfit : ∀ s q, s ∈ us.map (·.2) → q ∈ us.map (·.2) → unitType s = 7 → unitType q = 8 → s.length + q.length + 5 ≤ mtu) :
    ∃ pkts p', packetize ⟨none, none⟩ mtu (annexB us) = .ok (pkts, p') ∧ FitsMtu mtu pkts ∧
      ∀ avc out e, ∃ k, runDepack depacketize pkts ⟨avc, none⟩ out e
          = .ok (⟨avc, none⟩, out ++ frame avc ((us.map (·.2)).filter (fun n => ¬ Dropped n)), k) ∧
        (k = some true ↔ e = some true ∨ ∃ x ∈ us, unitType x.2 = 5) := by
  have hne : us ≠ [] := by
    rintro rfl
    obtain ⟨ps, sl, e, hs, -, -⟩ := hu
    have : ps ++ sl = [] := e.symm
    exact hs (List.append_eq_nil_iff.1 this).2
  obtain ⟨pkts, p', g1, -, g3, -, -, g6⟩ := C23_h264 mtu hm hm2 ⟨none, none⟩ ⟨(fun _ h => by cases h), (fun _ h => by cases h)⟩ us hne hus (by
    intro s q hs hq
    rcases hs with hs | hs
    · rcases hq with hq | hq
      · exact hfit s q hs hq
      · cases hq
    · cases hs)
  rw [sent_usual _ hu] at g6
  refine ⟨pkts, p', g1, g3, fun avc out e => ?_⟩
  obtain ⟨k, k1, k2⟩ := g6 avc out e
  refine ⟨k, k1, k2.trans (or_congr_right ⟨?_, ?_⟩)⟩
  · rintro ⟨n, hn, h5⟩
    obtain ⟨x, hx, rfl⟩ := List.mem_map.1 (List.mem_filter.1 hn).1
    exact ⟨x, hx, h5⟩
  · rintro ⟨x, hx, h5⟩
    refine ⟨x.2, List.mem_filter.2 ⟨List.mem_map.2 ⟨x, hx, rfl⟩, ?_⟩, h5⟩
    simp [Dropped, h5]

/-- A key frame with delimiter, parameter sets, SEI and a slice that needs three packets. -/
def exampleFrame : List (Nat × List Byte) :=
  [(3, [u8 9, u8 0xf0]), (3, [u8 0x67, u8 1, u8 2]), (2, [u8 0x68, u8 3]), (2, [u8 6, u8 7]),
   (3, [u8 0x65, u8 1, u8 0, u8 0, u8 2, u8 3, u8 4, u8 5, u8 6, u8 7, u8 8, u8 9, u8 10])]

theorem example_valid (n : List Byte) (h : n ∈ exampleFrame.map (·.2)) : ValidUnit n := by
  have key : ∀ n : List Byte, (∃ b rest, n = b :: rest ∧ b.val < 128) → 1 ≤ unitType n → unitType n ≤ 23 →
      (∀ i, i < n.length → (n.drop i).take 3 ≠ [0, 0, 1]) → n.getLast? ≠ some 0 → ValidUnit n := by
    intro n h1 h2 h3 h4 h5
    refine ⟨h1, h2, h3, ?_, ?_⟩
    · rintro a c rfl
      refine h4 a.length (by simp) ?_
      rw [List.append_assoc, List.drop_left]
      rfl
    · rintro a rfl
      exact h5 (by simp)
  fin_cases h
  all_goals exact key _ ⟨_, _, rfl, by decide⟩ (by decide) (by decide) (by decide +kernel) (by decide)

example : ∃ pkts p', packetize ⟨none, none⟩ 10 (annexB exampleFrame) = .ok (pkts, p') ∧ pkts.length = 4 ∧
    runDepack depacketize pkts ⟨false, none⟩ [] none = .ok (⟨false, none⟩, frame false ((exampleFrame.map (·.2)).drop 1), some true) :=
  ⟨[[120, 0, 3, 0x67, 1, 2, 0, 2, 0x68, 3], [6, 7], [124, 0x85, 1, 0, 0, 2, 3, 4, 5, 6], [124, 0x45, 7, 8, 9, 10]], ⟨none, none⟩,
    by decide +kernel, rfl, by decide +kernel⟩

example : Usual (exampleFrame.map (·.2)) :=
  ⟨[[u8 0x67, u8 1, u8 2], [u8 0x68, u8 3]], [[u8 6, u8 7], [u8 0x65, u8 1, u8 0, u8 0, u8 2, u8 3, u8 4, u8 5, u8 6, u8 7, u8 8, u8 9, u8 10]],
    by decide +kernel, by simp, by decide, Or.inr ⟨_, _, rfl, by decide, by decide⟩⟩

/-! ### Totality -/

theorem nextIndGo_bounds : ∀ (l : List Byte) (i k a b : Nat), k ≤ i → nextIndGo l i k = some (a, b) → i - k ≤ a ∧ a + b ≤ i + l.length := by
  intro l
  induction l with
  | nil => intro i k a b _ h; cases h
  | cons c l ih =>
    intro i k a b hk h
    unfold nextIndGo at h
    rw [List.length_cons]
    split at h
    · have := ih _ _ _ _ (by omega) h
      omega
    · split at h
      · simp only [Option.some.injEq, Prod.mk.injEq] at h
        omega
      · have := ih _ _ _ _ (by omega) h
        omega

theorem fuaGo_safe (nalu : List Byte) (b0 ty m total : Nat) : ∀ (fuel rem ix : Nat), ix + rem ≤ nalu.length →
    (fuaGo nalu b0 ty m total fuel rem ix).NoPanic := by
  intro fuel
  induction fuel with
  | zero => intro _ _ _; trivial
  | succ fuel ih =>
    intro rem ix h
    unfold fuaGo
    split
    · rw [slice_piece _ _ _ (by omega), Res.bind_def, Res.bind_ok]
      have := ih (rem - min m rem) (ix + min m rem) (by omega)
      revert this
      cases fuaGo nalu b0 ty m total fuel (rem - min m rem) (ix + min m rem) with
      | ok r => intro _; trivial
      | err e => intro _; trivial
      | panic => intro h; exact h.elim
    · trivial

theorem emit_safe (p : P) (n : List Byte) (mtu : Nat) : (emit p n mtu).NoPanic := by
  unfold emit
  have hn : ∀ b, (emitNalu n b mtu).NoPanic := by
    intro b
    unfold emitNalu
    split
    · trivial
    · split
      · trivial
      · exact fuaGo_safe _ _ _ _ _ _ _ _ (by omega)
  cases n with
  | nil => trivial
  | cons b t =>
    dsimp only
    split
    · trivial
    · split
      · trivial
      · split
        · trivial
        · have := hn b
          revert this
          split <;> cases emitNalu (b :: t) b mtu <;> first | (intro _; trivial) | (intro h; exact h.elim)

theorem packGo_safe (mtu : Nat) (payload : List Byte) : ∀ (fuel : Nat) (p : P) (a b : Nat), a + b ≤ payload.length →
    (packGo mtu payload fuel p (a, b)).NoPanic := by
  intro fuel
  induction fuel with
  | zero => intro _ _ _ _; trivial
  | succ fuel ih =>
    intro p a b h
    unfold packGo nextInd
    rw [if_pos h, Res.bind_def, Res.bind_ok]
    cases hg : nextIndGo (payload.drop (a + b)) (a + b) 0 with
    | none =>
      dsimp only
      rw [Res.from_of_le h]
      exact emit_safe _ _ _
    | some q =>
      obtain ⟨c, d⟩ := q
      have hb := nextIndGo_bounds _ _ _ _ _ (by omega) hg
      rw [List.length_drop] at hb
      dsimp only
      rw [Res.slice_of_le (by omega) (by omega), Res.bind_def, Res.bind_ok]
      have he := emit_safe p ((payload.take c).drop (a + b)) mtu
      revert he
      cases emit p ((payload.take c).drop (a + b)) mtu with
      | err e => intro _; trivial
      | panic => intro h; exact h.elim
      | ok r =>
        intro _
        rw [Res.bind_def, Res.bind_ok]
        have := ih r.2 c d (by omega)
        revert this
        cases packGo mtu payload fuel r.2 (c, d) with
        | ok r => intro _; trivial
        | err e => intro _; trivial
        | panic => intro h; exact h.elim

/-- C24, H.264 packetizer: no frame bytes, MTU or state panic it. -/
theorem C24_h264_packetizer (p : P) (mtu : Nat) (payload : List Byte) : (packetize p mtu payload).NoPanic := by
  unfold packetize
  split
  · trivial
  · unfold nextInd
    rw [if_pos (by omega), Res.bind_def, Res.bind_ok]
    cases hg : nextIndGo (payload.drop 0) 0 0 with
    | none => exact emit_safe _ _ _
    | some q =>
      obtain ⟨a, b⟩ := q
      have hb := nextIndGo_bounds _ _ _ _ _ (by omega) hg
      rw [List.drop_zero] at hb
      exact packGo_safe _ _ _ _ _ _ (by omega)

theorem stapGo_safe (avc : Bool) (packet : List Byte) : ∀ (fuel off : Nat) (out : List Byte) (e : Option Bool),
    (stapGo avc packet fuel off out e).NoPanic := by
  intro fuel
  induction fuel with
  | zero => intro _ _ _; trivial
  | succ fuel ih =>
    intro off out e
    unfold stapGo
    split
    · rename_i h
      rw [Res.idx_of_lt (by omega), Res.bind_def, Res.bind_ok, Res.idx_of_lt h, Res.bind_def, Res.bind_ok]
      split
      · trivial
      · rename_i h2
        split
        · exact ih _ _ _
        · rw [Res.slice_of_le (by omega) (by omega), Res.bind_def, Res.bind_ok]
          exact ih _ _ _
    · trivial

theorem detectStap_safe (payload : List Byte) : ∀ (fuel off : Nat), (detectStap payload fuel off).NoPanic := by
  intro fuel
  induction fuel with
  | zero => intro _; trivial
  | succ fuel ih =>
    intro off
    unfold detectStap
    split
    · rename_i h
      rw [Res.idx_of_lt (by omega), Res.bind_def, Res.bind_ok, Res.idx_of_lt (by omega), Res.bind_def, Res.bind_ok]
      split
      · trivial
      · split
        · trivial
        · exact ih _
    · trivial

/-- C24, H.264: no bytes, in any state, panic the depacketizer or the key frame detector. -/
theorem C24_h264 (d : D) (packet out : List Byte) (e : Option Bool) :
    (depacketize d packet out e).NoPanic ∧ (detect packet).NoPanic := by
  constructor
  · unfold depacketize
    cases packet with
    | nil => trivial
    | cons b0 rest =>
      dsimp only
      split
      · trivial
      · split
        · have := stapGo_safe d.isAvc (b0 :: rest) ((b0 :: rest).length + 1) 1 out e
          revert this
          cases stapGo d.isAvc (b0 :: rest) ((b0 :: rest).length + 1) 1 out e with
          | ok r => intro _; trivial
          | err e => intro _; trivial
          | panic => intro h; exact h.elim
        · split
          · cases rest with
            | nil => trivial
            | cons b1 body => dsimp only; split <;> trivial
          · trivial
  · unfold detect
    cases packet with
    | nil => trivial
    | cons b0 rest =>
      dsimp only
      split
      · trivial
      · split
        · exact detectStap_safe _ _ _
        · split
          · split
            · trivial
            · rename_i h
              rw [Res.idx_of_lt (by omega), Res.bind_def, Res.bind_ok]
              split <;> trivial
          · trivial

/-! ### Where frames are not delivered -/

/-- Parameter sets too big for one packet are dropped in silence, the slice goes out without them. -/
theorem C23_h264_parameter_sets_violation (p : P) (s q n : List Byte) (b : Byte) (t : List Byte) (hp : p = ⟨some s, some q⟩) (hn : n = b :: t)
    (ht : ntype b ≠ 9 ∧ ntype b ≠ 12 ∧ ntype b ≠ 7 ∧ ntype b ≠ 8) (mtu : Nat) (hl : n.length ≤ mtu) (hf : mtu < s.length + q.length + 5) :
    emit p n mtu = .ok ([n], ⟨none, none⟩) := by
  subst hp hn
  unfold emit emitNalu
  dsimp only
  rw [if_neg (by omega), if_neg (by omega), if_neg (by omega), if_pos hl, Res.bind_def, Res.bind_ok, if_neg (by unfold stapA; simp [be16]; omega)]
  rfl

example : packetize ⟨none, none⟩ 10 (annexB [(3, [0x67, 1, 2, 3]), (3, [0x68, 1, 2, 3]), (3, [0x65, 1])]) = .ok ([[0x65, 1]], ⟨none, none⟩) := by
  decide +kernel

/-- Bytes before the first start code are dropped in silence. -/
theorem C23_h264_leading_bytes_violation : packetize ⟨none, none⟩ 100 [0x65, 1, 2, 0, 0, 1, 0x41, 7] = .ok ([[0x41, 7]], ⟨none, none⟩) := by
  decide +kernel

/-- A unit that does not fit is dropped in silence if the MTU is 1 or 2. -/
theorem C23_h264_small_mtu_violation (n : List Byte) (b : Byte) (mtu : Nat) (hm : mtu ≤ 2) (hl : mtu < n.length) : emitNalu n b mtu = .ok [] := by
  unfold emitNalu
  rw [if_neg (by omega), if_pos (Or.inl hm)]

/-- A start fragment does not clear what an earlier, unfinished unit left: the next fragmented unit comes
out with the old bytes inside, without an error. -/
theorem C24_h264_stale_fragments_violation (avc : Bool) (b : Byte) (hb : b.val < 128) (stale out : List Byte) (e : Option Bool) (x y : List Byte) :
    runDepack depacketize [fuaHdr (28 + refIdc b) (ntype b) true false ++ x, fuaHdr (28 + refIdc b) (ntype b) false true ++ y] ⟨avc, some stale⟩ out e
      = .ok (⟨avc, none⟩, out ++ prefix_ avc ((stale ++ x ++ y).length + 1) ++ b :: (stale ++ x ++ y), key e (ntype b)) := by
  simp only [runDepack, fua_mid, fua_last avc b hb, Res.bind_def, Res.bind_ok]

/-- Fragments without an end bit are kept for ever: any number of them, all their bytes. -/
theorem C24_h264_memory_violation (b : Byte) (x : List Byte) : ∀ (k : Nat) (acc : List Byte),
    runDepack depacketize (List.replicate k (fuaHdr (28 + refIdc b) (ntype b) true false ++ x)) ⟨false, some acc⟩ [] none
      = .ok (⟨false, some (acc ++ (List.replicate k x).flatten)⟩, [], none) := by
  intro k
  induction k with
  | zero => intro acc; simp [runDepack]
  | succ k ih =>
    intro acc
    rw [List.replicate_succ]
    simp only [runDepack, fua_mid, Res.bind_def, Res.bind_ok, ih, List.replicate_succ, List.flatten_cons, List.append_assoc]

/-- An aggregate with an empty unit makes the receiver read the byte after it as a unit type: here one stray
byte reports a key frame although no unit has any content. -/
theorem C23_h264_false_keyframe_violation :
    depacketize ⟨false, none⟩ [24, 0, 0, 5] [] none = .ok (⟨false, none⟩, [0, 0, 0, 1], some true) := by decide +kernel

end Str0m.H264
