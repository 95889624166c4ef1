import Verif.Proofs.StreamTable
/-
  C49, C70, C71: fresh SSRCs, which stream an incoming packet goes to, which stream feedback goes to.
-/
namespace Str0m.Routing
open Str0m

/-! ### Specification -/

/-- The stream uses this SSRC, itself or for its retransmissions. -/
def Rx.Uses (s : Rx) (ssrc : Nat) : Prop := s.ssrc = ssrc ∨ s.rtx = some ssrc

/-- The same for an outgoing stream -/
def Tx.Uses (s : Tx) (ssrc : Nat) : Prop := s.ssrc = ssrc ∨ s.rtx = some ssrc

/-- An incoming stream of the session -/
def Receiving (t : Table) (s : Rx) : Prop := ∃ k, (k, s) ∈ t.rx

/-- An outgoing stream of the session -/
def Sending (t : Table) (s : Tx) : Prop := ∃ k, (k, s) ∈ t.tx

/-- The application and the remote descriptions never give a stream whose RTX SSRC is known another one. -/
def KeepsRtx (ops : List Op) : Prop :=
  ∀ pre ssrc r mid rid n post t s, ops = pre ++ .expect ssrc (some r) mid rid n :: post → run {} pre = some t →
    Receiving t s → s.ssrc = ssrc → s.rtx = none ∨ s.rtx = some r

/-- The packet names a stream the session expects: the MID of a media, the payload type of a codec, and a RID the media
allows (or none, if the media asks for no particular one). -/
def Names (medias : List Media) (codecs : List Param) (h : Header) (mid : Nat) (rid : Option Nat) : Prop :=
  h.mid = some mid ∧ rid = (match h.rid with | some r => some r | none => h.ridRepair) ∧
  (∃ p ∈ codecs, p.pt = h.pt ∨ p.resend = some h.pt) ∧
  ∃ m, medias.find? (fun m => m.mid = mid) = some m ∧
    match rid, m.rids with
    | some _, .none => False
    | some _, .any => True
    | some r, .specific l => r ∈ l
    | none, .specific _ => False
    | none, _ => True

/-- The packet is a retransmission, for the routing: by its repaired-RID extension, or by its payload type. -/
def IsRepair (codecs : List Param) (h : Header) : Prop :=
  match h.rid, h.ridRepair with
  | some _, _ => False
  | none, some _ => True
  | none, none => ∃ p, codecs.find? (fun p => p.pt = h.pt ∨ p.resend = some h.pt) = some p ∧ p.pt ≠ h.pt

/-! ### C70: incoming packets -/

theorem KeepsRtx.calm {ops : List Op} (h : KeepsRtx ops) :
    ∀ pre op post u, ops = pre ++ op :: post → run {} pre = some u → Calm u op := by
  intro pre op post u he hr
  unfold Calm
  split
  · rename_i ssrc r mid rid n
    intro s hs
    obtain ⟨u', hu', g⟩ := run_good (b := false) pre {} (good_new _) (fun h => by cases h)
    rw [hr] at hu'
    cases hu'
    exact h pre ssrc r mid rid n post u s he hr ⟨_, hs⟩ (g.rxSsrc _ hs)
  · trivial

theorem reached_good {ops : List Op} {t : Table} (hr : run {} ops = some t) : Good false t := by
  obtain ⟨u, hu, g⟩ := run_good (b := false) ops {} (good_new _) (fun h => by cases h)
  rw [hr] at hu
  cases hu
  exact g

theorem reached_strict {ops : List Op} {t : Table} (hr : run {} ops = some t) (hk : KeepsRtx ops) : Good true t := by
  obtain ⟨u, hu, g⟩ := run_good (b := true) ops {} (good_new _) (fun _ => hk.calm)
  rw [hr] at hu
  cases hu
  exact g

/-- **C70.** No incoming packet, in any history of packets, declarations, removals, timeouts and resets, in any order
of the hash maps, makes the routing panic. -/
theorem C70_never_panics (ops : List Op) : ∃ t, run {} ops = some t := by
  obtain ⟨t, h, _⟩ := run_good (b := false) ops {} (good_new _) (fun h => by cases h)
  exact ⟨t, h⟩

/-- **C70.** A packet is only given to a stream of the session that uses the packet's SSRC, and it is reported with that
stream's MID. -/
theorem C70_right_stream {ops : List Op} {t t' : Table} (hr : run {} ops = some t) (hk : KeepsRtx ops)
    {now : Nat} {medias : List Media} {codecs : List Param} {h : Header} {mid : Nat} {s : Rx}
    (hp : route t now medias codecs h = some (t', some (mid, s))) : Receiving t' s ∧ s.Uses h.ssrc ∧ s.mid = mid := by
  obtain ⟨u, r, h1, _, _, h2⟩ := route_spec (reached_strict hr hk) now medias codecs h
  rw [hp] at h1
  cases h1
  obtain ⟨a, b, c⟩ := h2 mid s rfl
  exact ⟨⟨_, a⟩, c rfl, b⟩

/-- **C70.** In any history, the stream a packet is given to exists and is reported with its own MID. -/
theorem C70_stream_exists {ops : List Op} {t t' : Table} (hr : run {} ops = some t)
    {now : Nat} {medias : List Media} {codecs : List Param} {h : Header} {mid : Nat} {s : Rx}
    (hp : route t now medias codecs h = some (t', some (mid, s))) : Receiving t' s ∧ s.mid = mid := by
  obtain ⟨u, r, h1, _, _, h2⟩ := route_spec (reached_good hr) now medias codecs h
  rw [hp] at h1
  cases h1
  obtain ⟨a, b, _⟩ := h2 mid s rfl
  exact ⟨⟨_, a⟩, b⟩

/-- **C70.** A packet whose SSRC a stream uses is never dropped by the routing, whatever else is in it, and it does not
change the streams: it goes to a stream that uses its SSRC, so to *the* stream if there is only one. -/
theorem C70_known {ops : List Op} {t : Table} (hr : run {} ops = some t) (hk : KeepsRtx ops)
    (now : Nat) (medias : List Media) (codecs : List Param) (h : Header) {s : Rx} (hs : Receiving t s) (hu : s.Uses h.ssrc) :
    ∃ t' s', route t now medias codecs h = some (t', some (s'.mid, s')) ∧ t'.rx = t.rx ∧ Receiving t s' ∧ s'.Uses h.ssrc ∧
      ((∀ u, Receiving t u → u.Uses h.ssrc → u = s) → s' = s) := by
  obtain ⟨t', r, h1, _, hw, h2⟩ := route_spec (reached_strict hr hk) now medias codecs h
  have hnf : ¬ Fresh t h.ssrc := by
    intro hf
    obtain ⟨k, hk⟩ := hs
    rcases hu with hu | hu
    · exact (hf.rx _ hk).1 hu
    · exact (hf.rx _ hk).2 hu
  cases hw with
  | @known look s' hs' _ _ =>
    have h3 := (h2 _ _ rfl).2.2 rfl
    exact ⟨_, s', h1, rfl, ⟨_, hs'⟩, h3, fun huniq => huniq s' ⟨_, hs'⟩ h3⟩
  | dropped hf => exact absurd hf hnf
  | probe hf => exact absurd hf hnf
  | named hf => exact absurd hf hnf

theorem fresh_of_unknown {t : Table} (g : Good true t) {ssrc : Nat} (hn : ∀ s, Receiving t s → ¬ s.Uses ssrc) : Fresh t ssrc := by
  refine ⟨?_, ?_⟩
  · intro e he hk
    obtain ⟨s, hs, _, hb⟩ := g.routes e he
    apply hn s ⟨_, hs⟩
    rcases hb rfl with hb | hb
    · left
      rw [g.rxSsrc _ hs, ← hk, hb]
    · right
      rw [hb, hk]
  · intro e he
    have := hn e.2 ⟨e.1, he⟩
    unfold Rx.Uses at this
    push Not at this
    exact this

theorem names_of_wanted {medias : List Media} {codecs : List Param} {h : Header} {mid : Nat} {rid : Option Nat} {m : Bool}
    (hw : wanted medias codecs h = some (mid, rid, m)) : Names medias codecs h mid rid ∧ (m = false ↔ IsRepair codecs h) := by
  unfold wanted at hw
  obtain ⟨mid', h1, hw⟩ := Option.bind_eq_some_iff.mp hw
  obtain ⟨md, h2, hw⟩ := Option.bind_eq_some_iff.mp hw
  obtain ⟨p, h3, hw⟩ := Option.bind_eq_some_iff.mp hw
  have h3' := h3
  unfold findParam at h3'
  have hp1 := List.find?_some h3'
  have hp2 := List.mem_of_find?_eq_some h3'
  simp only [Bool.or_eq_true, beq_iff_eq] at hp1
  have hm2 : medias.find? (fun m => m.mid = mid') = some md := h2
  have hp4 : codecs.find? (fun p => p.pt = h.pt ∨ p.resend = some h.pt) = some p := by
    rw [← h3']
    congr 1
    funext q
    rw [Bool.eq_iff_iff]
    simp
  cases hr : h.rid with
  | some r =>
    rw [hr] at hw
    simp only [Option.some_or, Option.isSome_some] at hw
    split at hw
    · rename_i hh
      simp only [Option.some.injEq, Prod.mk.injEq] at hw
      obtain ⟨rfl, rfl, rfl⟩ := hw
      refine ⟨⟨h1, by simp [hr], ⟨p, hp2, hp1⟩, md, hm2, ?_⟩, by simp [IsRepair, hr]⟩
      cases hrr : md.rids <;> rw [hrr] at hh <;> simp [Rids.has] at hh ⊢
      exact hh
    · cases hw
  | none =>
    rw [hr] at hw
    simp only [Option.none_or, Option.isSome_none] at hw
    cases hrp : h.ridRepair with
    | some r =>
      rw [hrp] at hw
      simp only at hw
      split at hw
      · rename_i hh
        simp only [Option.some.injEq, Prod.mk.injEq] at hw
        obtain ⟨rfl, rfl, rfl⟩ := hw
        refine ⟨⟨h1, by simp [hr, hrp], ⟨p, hp2, hp1⟩, md, hm2, ?_⟩, by simp [IsRepair, hr, hrp]⟩
        cases hrr : md.rids <;> rw [hrr] at hh <;> simp [Rids.has] at hh ⊢
        exact hh
      · cases hw
    | none =>
      rw [hrp] at hw
      simp only at hw
      split at hw
      · cases hw
      · rename_i hh
        simp only [Option.some.injEq, Prod.mk.injEq] at hw
        obtain ⟨rfl, rfl, rfl⟩ := hw
        refine ⟨⟨h1, by simp [hr, hrp], ⟨p, hp2, hp1⟩, md, hm2, ?_⟩, ?_⟩
        · cases hrr : md.rids <;> rw [hrr] at hh <;> simp [Rids.isSpecific] at hh ⊢
        · simp only [IsRepair, hr, hrp, hp4, Option.some.injEq, exists_eq_left']
          simp

theorem wanted_of_names {medias : List Media} {codecs : List Param} {h : Header} {mid : Nat} {rid : Option Nat}
    (hn : Names medias codecs h mid rid) : ∃ m, wanted medias codecs h = some (mid, rid, m) := by
  obtain ⟨h1, h2, ⟨p, hp1, hp2⟩, md, h3, h4⟩ := hn
  have hm2 : medias.find? (fun m => m.mid == mid) = some md := by
    rw [← h3]
    congr 1
  have hp3 : ∃ q, findParam codecs h.pt = some q := by
    unfold findParam
    rw [← Option.isSome_iff_exists, List.find?_isSome]
    exact ⟨p, hp1, by simpa using hp2⟩
  obtain ⟨q, hq⟩ := hp3
  unfold wanted
  rw [h1]
  simp only [Option.bind_some, hm2, hq]
  have hor : h.rid.or h.ridRepair = rid := by
    rw [h2]
    cases h.rid <;> rfl
  rw [hor]
  cases rid with
  | some r =>
    have hh : md.rids.has r = true := by
      revert h4
      cases md.rids <;> simp [Rids.has]
    simp only [hh, if_true]
    exact ⟨_, rfl⟩
  | none =>
    have hh : md.rids.isSpecific = false := by
      revert h4
      cases md.rids <;> simp [Rids.isSpecific]
    simp only [hh, Bool.false_eq_true, if_false]
    exact ⟨_, rfl⟩

/-- **C70.** A packet of an SSRC no stream uses, that names no expected stream, is dropped and changes nothing
(SSRC 0, the probes, apart). -/
theorem C70_unknown {ops : List Op} {t : Table} (hr : run {} ops = some t) (hk : KeepsRtx ops)
    (now : Nat) {medias : List Media} {codecs : List Param} {h : Header} (hn : ∀ s, Receiving t s → ¬ s.Uses h.ssrc)
    (h0 : h.ssrc ≠ 0) (hx : ∀ mid rid, ¬ Names medias codecs h mid rid) : route t now medias codecs h = some (t, none) := by
  have g := reached_strict hr hk
  obtain ⟨t', r, h1, _, hw, _⟩ := route_spec g now medias codecs h
  have hf := fresh_of_unknown g hn
  cases hw with
  | known _ hnf _ => exact absurd hf hnf
  | dropped => exact h1
  | probe _ hz => exact absurd hz h0
  | named _ hw' => exact absurd (names_of_wanted hw').1 (hx _ _)

/-- No two streams of different MIDs share an RTX SSRC. -/
def RtxPerMid (t : Table) : Prop := ∀ a b, Receiving t a → Receiving t b → a.rtx ≠ none → a.rtx = b.rtx → a.mid = b.mid

theorem way_named {t : Table} (g : Good true t) {medias : List Media} {codecs : List Param} {h : Header} {mid : Nat} {rid : Option Nat} {m : Bool}
    {t' : Table} {r : Option (Nat × Rx)} (hf : Fresh t h.ssrc) (hwm : wanted medias codecs h = some (mid, rid, m))
    (hw : Way true t medias codecs h t' r) (hr : m = false → rxByMidRid t mid rid ≠ none) :
    ∃ u look s, t' = { u with look := look } ∧ r = some (s.mid, s) ∧ Mapped true t u h.ssrc mid rid m ∧
      (s.ssrc, s) ∈ u.rx ∧ (s.ssrc = h.ssrc ∨ s.rtx = some h.ssrc) := by
  cases hw with
  | known _ hnf _ => exact absurd hf hnf
  | dropped _ _ hw => exact absurd (hw _ _ _ hwm).2 (hr (hw _ _ _ hwm).1)
  | probe _ _ hw => exact absurd (hw _ _ _ hwm).2 (hr (hw _ _ _ hwm).1)
  | named _ hw' hmp hs hu =>
    rw [hwm] at hw'
    cases hw'
    exact ⟨_, _, _, rfl, rfl, hmp, hu, hs⟩

theorem mapped_others {b : Bool} {t u : Table} {ssrc mid : Nat} {rid : Option Nat} {m : Bool} (hm : Mapped b t u ssrc mid rid m) (hsh : RtxPerMid t)
    {look : List (Nat × Look)} : ∀ o, o.mid ≠ mid → (Receiving { u with look := look } o ↔ Receiving t o) := by
  intro o ho
  have := hm.same (fun d hd e he => hsh d.2 e.2 ⟨_, hd⟩ ⟨_, he⟩)
  constructor
  · rintro ⟨k, hk⟩
    exact ⟨k, (this (k, o) ho).mp hk⟩
  · rintro ⟨k, hk⟩
    exact ⟨k, (this (k, o) ho).mpr hk⟩

/-- **C70.** A packet of an SSRC no stream uses, that names an expected stream and is no retransmission, is given to the
stream that now has the packet's SSRC, the named MID and the named RID (if the packet had one). The streams of all
other MIDs stay as they are. -/
theorem C70_named {ops : List Op} {t : Table} (hr : run {} ops = some t) (hk : KeepsRtx ops)
    (now : Nat) {medias : List Media} {codecs : List Param} {h : Header} {mid : Nat} {rid : Option Nat}
    (hn : ∀ s, Receiving t s → ¬ s.Uses h.ssrc) (hx : Names medias codecs h mid rid) (hrep : ¬ IsRepair codecs h) :
    ∃ t' s, route t now medias codecs h = some (t', some (mid, s)) ∧ Receiving t' s ∧ s.ssrc = h.ssrc ∧
      s.mid = mid ∧ (rid = none ∨ s.rid = rid) ∧ (RtxPerMid t → ∀ o, o.mid ≠ mid → (Receiving t' o ↔ Receiving t o)) := by
  have g := reached_strict hr hk
  obtain ⟨t', r, h1, _, hw, h2⟩ := route_spec g now medias codecs h
  obtain ⟨m, hwm⟩ := wanted_of_names hx
  have hm : m = true := by
    cases m with
    | true => rfl
    | false => exact absurd ((names_of_wanted hwm).2.mp rfl) hrep
  subst hm
  obtain ⟨u, look, s, rfl, rfl, hmp, hu, hs⟩ := way_named g (fresh_of_unknown g hn) hwm hw (fun h => by cases h)
  obtain ⟨v, v1, v2, v3, v4⟩ := hmp.stream
  simp only [if_true] at v4
  have hs' : s.ssrc = h.ssrc := by
    rcases hs with hs | hs
    · exact hs
    · exact absurd hs (hmp.main rfl _ hu)
  have hsv : s = v := by
    have e1 := hmp.good.get hu
    have e2 := hmp.good.get v1
    simp only [hs', v4] at e1 e2
    rw [e1] at e2
    exact Option.some.inj e2
  subst hsv
  refine ⟨{ u with look := look }, s, by rw [h1, v2], ⟨_, hu⟩, hs', v2, ?_, ?_⟩
  · rcases v3 with v3 | v3
    · exact Or.inl v3
    · exact Or.inr v3.symm
  · intro hsh
    exact mapped_others hmp hsh

/-- **C70.** The same for a retransmission: if there is a stream with the named MID and RID, the packet is given to a
stream that uses its SSRC for retransmissions, of the named MID unless streams of different MIDs share RTX SSRCs. -/
theorem C70_named_repair {ops : List Op} {t : Table} (hr : run {} ops = some t) (hk : KeepsRtx ops)
    (now : Nat) {medias : List Media} {codecs : List Param} {h : Header} {mid : Nat} {rid : Option Nat}
    (hn : ∀ s, Receiving t s → ¬ s.Uses h.ssrc) (hx : Names medias codecs h mid rid) (hrep : IsRepair codecs h)
    (hex : ∃ s, Receiving t s ∧ s.mid = mid ∧ (rid = none ∨ s.rid = rid)) :
    ∃ t' s, route t now medias codecs h = some (t', some (s.mid, s)) ∧ Receiving t' s ∧ s.rtx = some h.ssrc ∧
      (RtxPerMid t → s.mid = mid) ∧ (RtxPerMid t → ∀ o, o.mid ≠ mid → (Receiving t' o ↔ Receiving t o)) := by
  have g := reached_strict hr hk
  obtain ⟨t', r, h1, _, hw, h2⟩ := route_spec g now medias codecs h
  obtain ⟨m, hwm⟩ := wanted_of_names hx
  have hm : m = false := (names_of_wanted hwm).2.mpr hrep
  subst hm
  have hf := fresh_of_unknown g hn
  have hsome : rxByMidRid t mid rid ≠ none := by
    intro he
    unfold rxByMidRid at he
    rw [Option.map_eq_none_iff, List.find?_eq_none] at he
    obtain ⟨s, ⟨k, hk⟩, h3, h4⟩ := hex
    refine he _ hk ?_
    simp only [matchesMidRid, h3, beq_self_eq_true, Bool.true_and, Bool.or_eq_true, beq_iff_eq]
    rcases h4 with h4 | h4
    · exact Or.inl h4
    · exact Or.inr h4.symm
  obtain ⟨u, look, s, rfl, rfl, hmp, hu, hs⟩ := way_named g hf hwm hw (fun _ => hsome)
  have hu' : Receiving u s := ⟨_, hu⟩
  refine ⟨{ u with look := look }, s, h1, ⟨_, hu⟩, ?_, ?_, fun hsh => mapped_others hmp hsh⟩
  · rcases hs with hs | hs
    · exfalso
      exact hmp.keys rfl _ hu hs
    · exact hs
  · intro hsh
    by_contra hne
    exact hn s ((mapped_others hmp hsh s hne).mp hu') hs

/-! ### C71: feedback -/

/-- The application resets no outgoing stream. -/
def NoReset (ops : List Op) : Prop := ∀ op ∈ ops, ∀ mid rid ssrc rtx, op ≠ .resetTx mid rid ssrc rtx

/-- The invariant of the outgoing streams -/
structure TxGood (t : Table) : Prop where
  keys : (t.tx.map (·.1)).Nodup
  ssrc : ∀ e ∈ t.tx, e.2.ssrc = e.1

theorem mapFinish_tx {t t' : Table} {mid : Nat} {rid : Option Nat} {main : Nat} {rtx : Option Nat} {p : Param}
    (h : mapFinish t mid rid main rtx p = some t') : t'.tx = t.tx := by
  unfold mapFinish at h
  obtain ⟨u, hu, rfl⟩ := Option.map_eq_some_iff.mp h
  show u.tx = t.tx
  unfold rebind at hu
  split at hu
  · cases hu; rfl
  · obtain ⟨v, hv, rfl⟩ := Option.map_eq_some_iff.mp hu
    have e1 : ∀ (x : Table) a b, (changeRtxOpt x a b).tx = x.tx := by
      intro x a b
      unfold changeRtxOpt
      split
      · split <;> rfl
      · rfl
    rw [e1]
    unfold changeSsrcIf at hv
    split at hv
    · cases hv; rfl
    · unfold changeSsrc at hv
      obtain ⟨s, _, rfl⟩ := Option.map_eq_some_iff.mp hv
      unfold moveRx
      split <;> rfl

theorem route_tx {b : Bool} {t t' : Table} (g : Good b t) {now : Nat} {medias : List Media} {codecs : List Param} {h : Header} {r : Option (Nat × Rx)}
    (hr : route t now medias codecs h = some (t', r)) : t'.tx = t.tx := by
  obtain ⟨u, r', h1, _, hw, _⟩ := route_spec g now medias codecs h
  rw [hr] at h1
  cases h1
  cases hw with
  | known => rfl
  | dropped => rfl
  | probe => rfl
  | named _ _ hm => exact hm.tx

theorem step_tx {b : Bool} {t t' : Table} (g : Good b t) (x : TxGood t) {op : Op} (ho : ∀ mid rid ssrc rtx, op ≠ .resetTx mid rid ssrc rtx)
    (h : step t op = some t') : TxGood t' := by
  cases op with
  | packet now medias codecs hd =>
    simp only [step] at h
    obtain ⟨r, hr, rfl⟩ := Option.map_eq_some_iff.mp h
    have := route_tx g hr
    exact ⟨by rw [this]; exact x.keys, by rw [this]; exact x.ssrc⟩
  | expect => cases h; exact ⟨x.keys, x.ssrc⟩
  | removeRx => cases h; exact ⟨x.keys, x.ssrc⟩
  | declareTx ssrc rtx mid rid =>
    cases h
    unfold declareTx
    split
    · exact ⟨x.keys, x.ssrc⟩
    · rename_i hg
      refine ⟨?_, ?_⟩
      · simp only [List.map_cons, List.nodup_cons]
        refine ⟨?_, x.keys⟩
        intro hm
        obtain ⟨e, he, hk⟩ := List.mem_map.mp hm
        subst hk
        exact hg (get_isSome_of_mem he)
      · intro e he
        rcases List.mem_cons.mp he with rfl | he
        · rfl
        · exact x.ssrc e he
  | removeTx ssrc => cases h; exact ⟨filter_keys_nodup _ x.keys, fun e he => x.ssrc e (List.mem_of_mem_filter he)⟩
  | resetTx mid rid ssrc rtx => exact absurd rfl (ho mid rid ssrc rtx)
  | removeMid mid => cases h; exact ⟨filter_keys_nodup _ x.keys, fun e he => x.ssrc e (List.mem_of_mem_filter he)⟩
  | timeout now =>
    cases h
    unfold timeout
    split <;> exact ⟨x.keys, x.ssrc⟩
  | reorder rx look tx =>
    cases h
    have h1 := reorder_perm t.tx tx
    exact ⟨((h1.map _).nodup_iff).mpr x.keys, fun e he => x.ssrc e (h1.mem_iff.mp he)⟩

theorem run_tx : ∀ (ops : List Op) (t t' : Table), Good false t → TxGood t → NoReset ops → run t ops = some t' → TxGood t' := by
  intro ops
  induction ops with
  | nil => intro t t' _ x _ h; cases h; exact x
  | cons op ops ih =>
    intro t t' g x hn h
    obtain ⟨u, h1, g1⟩ := step_good g op (fun h => by cases h)
    simp only [run, h1, Option.bind_some] at h
    exact ih u t' g1 (step_tx g x (hn op (by simp)) h1) (fun o ho => hn o (List.mem_cons_of_mem _ ho)) h

theorem reached_tx {ops : List Op} {t : Table} (hr : run {} ops = some t) (hn : NoReset ops) : TxGood t :=
  run_tx ops {} t (good_new _) ⟨List.nodup_nil, fun _ h => (by cases h)⟩ hn hr

/-- **C71.** Feedback on an SSRC reaches the outgoing stream that sends with it, and no other: in every history without
a reset of an outgoing stream's SSRC. -/
theorem C71_feedback {ops : List Op} {t : Table} (hr : run {} ops = some t) (hn : NoReset ops) (ssrc : Nat) (s : Tx) :
    feedbackTo t ssrc = some s ↔ Sending t s ∧ s.ssrc = ssrc := by
  have g := reached_tx hr hn
  constructor
  · intro h
    have := get_mem h
    exact ⟨⟨_, this⟩, g.ssrc _ this⟩
  · rintro ⟨⟨k, hk⟩, rfl⟩
    have h1 := g.ssrc _ hk
    simp only at h1
    rw [h1]
    exact get_of_mem g.keys hk

/-- **C71.** A sender report reaches the incoming stream with its SSRC, and no other: in every history. -/
theorem C71_sender_info {ops : List Op} {t : Table} (hr : run {} ops = some t) (ssrc : Nat) (s : Rx) :
    senderInfoTo t ssrc = some s ↔ Receiving t s ∧ s.ssrc = ssrc := by
  have g := reached_good hr
  constructor
  · intro h
    have := get_mem h
    exact ⟨⟨_, this⟩, g.rxSsrc _ this⟩
  · rintro ⟨⟨k, hk⟩, rfl⟩
    have h1 := g.rxSsrc _ hk
    simp only at h1
    rw [h1]
    exact get_of_mem g.rxKeys hk

/-- **C71, violation.** After `reset_stream_tx` the table still knows the stream under the old SSRC: a NACK or PLI for
the SSRC the stream now sends with reaches no stream. -/
theorem C71_violation_reset : ∃ (ops : List Op) (t : Table) (s : Tx), run {} ops = some t ∧ Sending t s ∧ s.ssrc = 20 ∧
    feedbackTo t 20 = none ∧ feedbackTo t 10 = some s :=
  ⟨[.declareTx 10 (some 11) 1 none, .resetTx 1 none 20 (some 21)], _, ⟨20, some 21, 1, none⟩, rfl, ⟨10, by simp [resetTx, declareTx, get, updFirst, matchesMidRid, Tx.reset, resettable]⟩, rfl,
    by decide +kernel, by decide +kernel⟩

/-- **C71, violation.** A report on an RTX SSRC reaches no stream (so a stream with RTX is never told its RTX SSRC is
known to the remote end). -/
theorem C71_violation_rtx {ops : List Op} {t : Table} (hr : run {} ops = some t) (hn : NoReset ops) (ssrc : Nat)
    (hm : ∀ s, Sending t s → s.ssrc ≠ ssrc) : feedbackTo t ssrc = none := by
  cases h : feedbackTo t ssrc with
  | none => rfl
  | some s =>
    obtain ⟨h1, h2⟩ := (C71_feedback hr hn ssrc s).mp h
    exact absurd h2 (hm s h1)

/-! ### C49: fresh SSRCs -/

/-- The SSRC is used by no stream of the session. -/
def Unused (t : Table) (ssrc : Nat) : Prop :=
  (∀ s, Receiving t s → ¬ s.Uses ssrc) ∧ ∀ s, Sending t s → ¬ s.Uses ssrc

theorem taken_iff {t : Table} (g : Good false t) (x : TxGood t) (ssrc : Nat) : taken t ssrc = false ↔ Unused t ssrc := by
  unfold taken Unused Rx.Uses Tx.Uses
  simp only [Bool.or_eq_false_iff, List.any_eq_false, beq_iff_eq]
  constructor
  · rintro ⟨⟨⟨h1, h2⟩, h3⟩, h4⟩
    have h1' : get t.rx ssrc = none := by simpa using h1
    have h2' : get t.tx ssrc = none := by simpa using h2
    refine ⟨?_, ?_⟩
    · rintro s ⟨k, hk⟩ (h | h)
      · exact get_none h1' _ hk ((g.rxSsrc _ hk).symm.trans h)
      · exact h3 _ hk h
    · rintro s ⟨k, hk⟩ (h | h)
      · exact get_none h2' _ hk ((x.ssrc _ hk).symm.trans h)
      · exact h4 _ hk h
  · rintro ⟨h1, h2⟩
    refine ⟨⟨⟨?_, ?_⟩, ?_⟩, ?_⟩
    · cases hg : get t.rx ssrc with
      | none => rfl
      | some s =>
        have := get_mem hg
        exact absurd (Or.inl (g.rxSsrc _ this)) (h1 s ⟨_, this⟩)
    · cases hg : get t.tx ssrc with
      | none => rfl
      | some s =>
        have := get_mem hg
        exact absurd (Or.inl (x.ssrc _ this)) (h2 s ⟨_, this⟩)
    · intro e he h
      exact h1 e.2 ⟨_, he⟩ (Or.inr h)
    · intro e he h
      exact h2 e.2 ⟨_, he⟩ (Or.inr h)

/-- **C49.** A new SSRC is the first of the random numbers drawn that is not 0 and not in use, as SSRC or RTX SSRC, for
sending or receiving: in every history without a reset of an outgoing stream's SSRC, for all draws. -/
theorem C49_fresh {ops : List Op} {t : Table} (hr : run {} ops = some t) (hn : NoReset ops) (draws rest : List Nat) (ssrc : Nat) :
    newSsrc t draws = some (ssrc, rest) ↔
      ∃ pre, draws = pre ++ ssrc :: rest ∧ (ssrc ≠ 0 ∧ Unused t ssrc) ∧ ∀ d ∈ pre, ¬ (d ≠ 0 ∧ Unused t d) := by
  have ht := taken_iff (reached_good hr) (reached_tx hr hn)
  induction draws with
  | nil => simp [newSsrc]
  | cons d ds ih =>
    unfold newSsrc
    by_cases hd : d = 0 ∨ taken t d = true
    · rw [if_pos (by simpa using hd)]
      refine ih.trans ?_
      have hnot : ¬ (d ≠ 0 ∧ Unused t d) := by
        rintro ⟨h1, h2⟩
        rcases hd with h | h
        · exact h1 h
        · rw [(ht d).mpr h2] at h; cases h
      constructor
      · rintro ⟨pre, h1, h2, h3⟩
        refine ⟨d :: pre, by simp [h1], h2, ?_⟩
        intro y hy
        rcases List.mem_cons.mp hy with rfl | hy
        · exact hnot
        · exact h3 y hy
      · rintro ⟨pre, h1, h2, h3⟩
        cases pre with
        | nil =>
          simp only [List.nil_append, List.cons.injEq] at h1
          obtain ⟨rfl, rfl⟩ := h1
          exact absurd h2 hnot
        | cons a pre =>
          simp only [List.cons_append, List.cons.injEq] at h1
          exact ⟨pre, h1.2, h2, fun y hy => h3 y (List.mem_cons_of_mem _ hy)⟩
    · push Not at hd
      have hok : d ≠ 0 ∧ Unused t d := ⟨hd.1, (ht d).mp (by simpa using hd.2)⟩
      rw [if_neg (by simpa using hd)]
      constructor
      · intro h
        simp only [Option.some.injEq, Prod.mk.injEq] at h
        obtain ⟨rfl, rfl⟩ := h
        exact ⟨[], rfl, hok, by simp⟩
      · rintro ⟨pre, h1, h2, h3⟩
        cases pre with
        | nil =>
          simp only [List.nil_append, List.cons.injEq] at h1
          rw [h1.1, h1.2]
        | cons a pre =>
          simp only [List.cons_append, List.cons.injEq] at h1
          exact absurd (h1.1 ▸ hok) (h3 a (by simp))

theorem newOther_ne {t : Table} {a : Nat} : ∀ (fuel : Nat) (ds : List Nat) (b : Nat) (rest : List Nat),
    newOther t a fuel ds = some (b, rest) → b ≠ a ∧ ∃ ds', newSsrc t ds' = some (b, rest) := by
  intro fuel
  induction fuel with
  | zero => intro ds b rest h; cases h
  | succ n ih =>
    intro ds b rest h
    unfold newOther at h
    obtain ⟨r, hr, h⟩ := Option.bind_eq_some_iff.mp h
    split at h
    · exact ih _ _ _ h
    · rename_i hne
      cases h
      exact ⟨hne, ds, hr⟩

/-- **C49.** A new pair of SSRCs: both unused, and different. -/
theorem C49_pair {ops : List Op} {t : Table} (hr : run {} ops = some t) (hn : NoReset ops) (draws rest : List Nat) (a b : Nat)
    (h : newPair t draws = some ((a, b), rest)) : a ≠ b ∧ a ≠ 0 ∧ b ≠ 0 ∧ Unused t a ∧ Unused t b := by
  unfold newPair at h
  obtain ⟨⟨a', r⟩, h1, h⟩ := Option.bind_eq_some_iff.mp h
  obtain ⟨⟨b', r'⟩, h2, h⟩ := Option.map_eq_some_iff.mp h
  cases h
  obtain ⟨h3, ds, h4⟩ := newOther_ne _ _ _ _ h2
  obtain ⟨_, _, ⟨a1, a2⟩, _⟩ := (C49_fresh hr hn _ _ _).mp h1
  obtain ⟨_, _, ⟨b1, b2⟩, _⟩ := (C49_fresh hr hn _ _ _).mp h4
  exact ⟨fun h => h3 h.symm, a1, b1, a2, b2⟩

/-- **C49, violation.** After `reset_stream_tx` a new SSRC may be one a stream of the session sends with. -/
theorem C49_violation_reset : ∃ (ops : List Op) (t : Table) (s : Tx), run {} ops = some t ∧ Sending t s ∧ s.ssrc = 20 ∧
    newSsrc t [20] = some (20, []) :=
  ⟨[.declareTx 10 (some 11) 1 none, .resetTx 1 none 20 (some 21)], _, ⟨20, some 21, 1, none⟩, rfl, ⟨10, by simp [resetTx, declareTx, get, updFirst, matchesMidRid, Tx.reset, resettable]⟩, rfl,
    by decide +kernel⟩

/-- **C49, violation.** The two SSRCs of a layer in an offer are drawn independently: they may be the same. -/
theorem C49_violation_offer : offerPair {} [7, 7] = some ((7, 7), []) := by decide +kernel

/-! ### C70: what goes wrong -/

/-- One video media without RIDs, one codec with RTX -/
def demoMedias : List Media := [{ mid := 1, rids := .none }]
/-- Payload type 96, retransmissions 97 -/
def demoCodecs : List Param := [{ pt := 96, resend := some 97 }]

/-- **C70, violation.** Flapping: the remote end changes its SSRC from 10 to 20, and a late packet of the old SSRC
arrives. The stream refuses to go back, but then a second stream is made with the same MID, the same RID and the same
RTX SSRC. -/
theorem C70_violation_flap : ∃ (ops : List Op) (t : Table) (a b : Rx), KeepsRtx ops ∧ run {} ops = some t ∧ Receiving t a ∧ Receiving t b ∧
    a ≠ b ∧ a.mid = b.mid ∧ a.rid = b.rid ∧ a.rtx = b.rtx ∧ a.rtx = some 11 := by
  refine ⟨[.packet 0 demoMedias demoCodecs { ssrc := 10, pt := 96, mid := some 1 }, .packet 0 demoMedias demoCodecs { ssrc := 11, pt := 97, mid := some 1 },
    .packet 0 demoMedias demoCodecs { ssrc := 20, pt := 96, mid := some 1 }, .packet 0 demoMedias demoCodecs { ssrc := 10, pt := 96, mid := some 1 }],
    { rx := [(10, ⟨10, none, some 11, 1, none, false⟩), (20, ⟨20, some 10, some 11, 1, none, false⟩)], look := [(10, ⟨1, 10, 0⟩), (20, ⟨1, 20, 0⟩)] },
    ⟨10, none, some 11, 1, none, false⟩, ⟨20, some 10, some 11, 1, none, false⟩, ?_, by decide +kernel, ⟨10, by simp⟩, ⟨20, by simp⟩, by decide, rfl, rfl, rfl, rfl⟩
  intro pre ssrc r mid rid n post t s he _ _ _
  have : (.expect ssrc (some r) mid rid n : Op) ∈ pre ++ .expect ssrc (some r) mid rid n :: post := by simp
  rw [← he] at this
  simp at this

/-- **C70, violation.** Routing happens before authentication: one packet, with the MID in its header and an SSRC of its
own, that anyone can send, moves the stream to that SSRC; the packets of the real sender (which no longer name the MID)
are dropped from then on. -/
theorem C70_violation_forged : ∃ (ops : List Op) (t t' : Table), run {} ops = some t ∧
    (∃ s, route t 5 demoMedias demoCodecs { ssrc := 10, pt := 96 } = some (t, some (1, s)) ∧ s.ssrc = 10) ∧
    step t (.packet 5 demoMedias demoCodecs { ssrc := 666, pt := 96, mid := some 1 }) = some t' ∧
    route t' 5 demoMedias demoCodecs { ssrc := 10, pt := 96 } = some (t', none) :=
  ⟨[.packet 5 demoMedias demoCodecs { ssrc := 10, pt := 96, mid := some 1 }], _, _, rfl, ⟨⟨10, none, none, 1, none, false⟩, by decide +kernel, rfl⟩, rfl,
    by decide +kernel⟩

/-- **C70, violation.** The application (or a new remote description) replaces the RTX SSRC of stream 10 and gives the
old one to stream 20: packets with that SSRC still go to stream 10, as long as they keep coming. -/
theorem C70_violation_stale : ∃ (ops : List Op) (t t' : Table) (a b : Rx), run {} ops = some t ∧
    route t 29999 demoMedias demoCodecs { ssrc := 11, pt := 97 } = some (t', some (1, a)) ∧ a.rtx = some 12 ∧
    Receiving t b ∧ b.rtx = some 11 ∧ b.mid = 2 :=
  ⟨[.expect 10 (some 11) 1 none false, .packet 0 demoMedias demoCodecs { ssrc := 11, pt := 97 }, .expect 10 (some 12) 1 none false,
    .expect 20 (some 11) 2 none false, .timeout 20000],
    { rx := [(20, ⟨20, none, some 11, 2, none, false⟩), (10, ⟨10, none, some 12, 1, none, false⟩)], look := [(11, ⟨1, 10, 0⟩)], lastCleanup := 20000 },
    { rx := [(20, ⟨20, none, some 11, 2, none, false⟩), (10, ⟨10, none, some 12, 1, none, false⟩)], look := [(11, ⟨1, 10, 29999⟩)], lastCleanup := 20000 },
    ⟨10, none, some 12, 1, none, false⟩, ⟨20, none, some 11, 2, none, false⟩, by decide +kernel, by decide +kernel, rfl, ⟨20, by simp⟩, rfl, rfl⟩

/-! ### The hypotheses are met -/

/-- A history with an `a=ssrc` line, a dynamically found RTX SSRC, a change of SSRC, a reordering and a timeout -/
def demoOps : List Op := [.expect 10 none 1 none false, .packet 0 demoMedias demoCodecs { ssrc := 11, pt := 97, mid := some 1 }, .declareTx 30 (some 31) 1 none,
  .packet 0 demoMedias demoCodecs { ssrc := 20, pt := 96, mid := some 1 }, .timeout 20000]

/-- Where it ends -/
def demoTable : Table :=
  { rx := [(20, ⟨20, some 10, some 11, 1, none, false⟩)], look := [(20, ⟨1, 20, 0⟩)], tx := [(30, ⟨30, some 31, 1, none⟩)], lastCleanup := 20000 }

theorem demo_run : run {} demoOps = some demoTable := by decide +kernel

theorem demo_keeps : KeepsRtx demoOps := by
  intro pre ssrc r mid rid n post t s he _ _ _
  have : (.expect ssrc (some r) mid rid n : Op) ∈ pre ++ .expect ssrc (some r) mid rid n :: post := by simp
  rw [← he] at this
  simp [demoOps] at this

theorem demo_noReset : NoReset demoOps := by
  intro op h mid rid ssrc rtx
  simp only [demoOps, List.mem_cons, List.not_mem_nil, or_false] at h
  rcases h with rfl | rfl | rfl | rfl | rfl <;> simp

/-- The RTX packet of a known SSRC, without MID: routed to its stream -/
example : ∃ t' s', route demoTable 20001 demoMedias demoCodecs { ssrc := 11, pt := 97 } = some (t', some (s'.mid, s')) ∧ s'.ssrc = 20 := by
  obtain ⟨t', s', h1, _, _, h2, h3⟩ := C70_known demo_run demo_keeps 20001 demoMedias demoCodecs { ssrc := 11, pt := 97 } (s := ⟨20, some 10, some 11, 1, none, false⟩)
    ⟨20, by simp [demoTable]⟩ (Or.inr rfl)
  refine ⟨t', s', h1, ?_⟩
  rw [h3 ?_]
  rintro u ⟨k, hk⟩ _
  simp only [demoTable, List.mem_singleton, Prod.mk.injEq] at hk
  exact hk.2

/-- A new SSRC that names the MID -/
example : Names demoMedias demoCodecs { ssrc := 40, pt := 96, mid := some 1 } 1 none ∧ ¬ IsRepair demoCodecs { ssrc := 40, pt := 96, mid := some 1 } := by
  refine ⟨⟨rfl, rfl, ⟨_, List.mem_cons_self .., Or.inl rfl⟩, ⟨1, .none⟩, by simp [demoMedias], trivial⟩, ?_⟩
  simp [IsRepair, demoCodecs]

/-- Feedback on the outgoing stream -/
example : feedbackTo demoTable 30 = some ⟨30, some 31, 1, none⟩ :=
  (C71_feedback demo_run demo_noReset 30 _).mpr ⟨⟨30, by simp [demoTable]⟩, rfl⟩

/-- Draws: 0 and all SSRCs in use are passed over -/
example : newSsrc demoTable [0, 20, 11, 30, 31, 99, 5] = some (99, [5]) := by decide +kernel

end Str0m.Routing
