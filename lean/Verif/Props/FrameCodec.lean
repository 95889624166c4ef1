import Verif.Props.FramePay

/-!
C125, continued: the codec's state goes from frame to frame; concrete cases, and what is not so.
-/

namespace Str0m.Frames
open Str0m Str0m.Tx Str0m.Pts

variable {σ : Type}

/-- The payloader of a key. -/
def slot (m : Media σ) (key : Nat × Option Nat) : Option (Codec σ × σ) := (m.payloaders.find? (fun e => e.1 == key)).map (·.2)

/-- The codec's state after frames. -/
def after (c : Codec σ) (room : Nat) : σ → List (List Byte) → σ
  | st, [] => st
  | st, d :: ds => after c room (c.cut st room d).2 ds

theorem after_append (c : Codec σ) (room : Nat) (a b : List (List Byte)) : ∀ st, after c room st (a ++ b) = after c room (after c room st a) b := by
  induction a with
  | nil => intro st; rfl
  | cons d ds ih => intro st; exact ih _

theorem cuts_append (c : Codec σ) (room : Nat) (a b : List (List Byte)) : ∀ st, cuts c room st (a ++ b) = cuts c room st a ++ cuts c room (after c room st a) b := by
  induction a with
  | nil => intro st; rfl
  | cons d ds ih =>
    intro st
    show _ :: cuts c room _ (ds ++ b) = _ :: (_ ++ _)
    rw [ih]
    rfl

theorem find_put (key k : Nat × Option Nat) (v : Codec σ × σ) (l : List ((Nat × Option Nat) × (Codec σ × σ))) :
    ((put key v l).find? (fun e => e.1 == k)).map (·.2) = if key = k then some v else (l.find? (fun e => e.1 == k)).map (·.2) := by
  induction l with
  | nil =>
    unfold put
    by_cases h : key = k
    · rw [if_pos h]; simp [h]
    · rw [if_neg h]; simp [h]
  | cons e es ih =>
    unfold put
    by_cases he : e.1 = key
    · rw [if_pos he]
      by_cases h : key = k
      · rw [if_pos h]; simp [h]
      · rw [if_neg h, List.find?_cons_of_neg (by simpa using h), List.find?_cons_of_neg (by rw [he]; simpa using h)]
    · rw [if_neg he]
      by_cases hk : e.1 = k
      · rw [List.find?_cons_of_pos (by simpa using hk), List.find?_cons_of_pos (by simpa using hk), if_neg (by intro h; exact he (by rw [h, hk]))]
      · rw [List.find?_cons_of_neg (by simpa using hk), List.find?_cons_of_neg (by simpa using hk), ih]

/-- What the media's payloader is, for the codec: the state is `st`. -/
def At (c : Codec σ) (key : Nat × Option Nat) (m : Media σ) (st : σ) : Prop := (slot m key = none ∧ st = c.init) ∨ slot m key = some (c, st)

/-- A frame that got to the codec under a key. -/
def hits (mid : Nat) (key : Nat × Option Nat) (d : Done) : Bool := decide (d.mid = mid ∧ d.item.pt = key.1 ∧ d.item.rid = key.2 ∧ d.fate ≠ .noSource)

theorem pay_at {params : List (Nat × Codec σ)} {mtu : Nat} {streams : List Tx} {m : Media σ} {it : Item} {r : Media σ × List Tx × Fate} {c : Codec σ}
    {key : Nat × Option Nat} {st : σ} (hp : ∀ p ∈ params, p.1 = key.1 → p.2 = c) (ha : At c key m st) (h : payItem params mtu streams m it = .ok r) :
    if it.pt = key.1 ∧ it.rid = key.2 ∧ r.2.2 ≠ .noSource then
      (⟨m.mid, it, r.2.2⟩ : Done).made = some (c.cut st (roomOf mtu) it.data).1 ∧ At c key r.1 (c.cut st (roomOf mtu) it.data).2
    else At c key r.1 st := by
  unfold payItem at h
  split at h
  · injection h with h
    subst h
    rw [if_neg (by simp)]
    exact ha
  · rename_i st' hst
    split at h
    · cases h
    · rename_i p hpl
      injection h with h
      subst h
      by_cases hk : (it.pt, it.rid) = key
      · have hk1 : it.pt = key.1 ∧ it.rid = key.2 := by rw [← hk]; exact ⟨rfl, rfl⟩
        have hpe : p = (c, st) := by
          rw [hk] at hpl
          unfold payloaderFor at hpl
          rcases ha with ⟨h1, h2⟩ | h1
          · unfold slot at h1
            rw [Option.map_eq_none_iff] at h1
            rw [h1] at hpl
            dsimp only at hpl
            split at hpl
            · rename_i q hq
              injection hpl with hpl
              have hq1 : q.2 = c := hp q (List.mem_of_find?_eq_some hq) (by simpa using List.find?_some hq)
              rw [← hpl, hq1, h2]
            · cases hpl
          · unfold slot at h1
            rw [Option.map_eq_some_iff] at h1
            obtain ⟨e, h1, h2⟩ := h1
            rw [h1] at hpl
            injection hpl with hpl
            rw [← hpl, h2]
        subst hpe
        unfold pay
        split
        · rename_i s' hc
          have hc' : c.cut st (roomOf mtu) it.data = (none, s') := hc
          rw [if_pos ⟨hk1.1, hk1.2, by simp⟩, hc']
          refine ⟨rfl, .inr ?_⟩
          show ((put _ _ _).find? _).map _ = _
          rw [find_put, if_pos hk]
        · rename_i cs s' hc
          have hc' : c.cut st (roomOf mtu) it.data = (some cs, s') := hc
          rw [if_pos ⟨hk1.1, hk1.2, by simp⟩, hc']
          refine ⟨rfl, .inr ?_⟩
          show ((put _ _ _).find? _).map _ = _
          rw [find_put, if_pos hk]
      · rw [if_neg (by rintro ⟨h1, h2, _⟩; exact hk (by rw [h1, h2]))]
        have hs : slot (pay mtu streams m it st' p).1 key = slot m key := by
          unfold pay
          split <;> (show ((put _ _ _).find? _).map _ = _; rw [find_put, if_neg hk]; rfl)
        unfold At
        rw [hs]
        exact ha

theorem payAll_mids (params : List (Nat × Codec σ)) (mtu : Nat) (ms : List (Media σ)) (streams : List Tx) (r : List (Media σ) × List Tx × List Done)
    (h : payAll params mtu streams ms = .ok r) : ∀ d ∈ r.2.2, d.mid ∈ ms.map (·.mid) := by
  intro d hd
  obtain ⟨h1, _, _⟩ := payAll_turns params mtu ms streams r h
  have : (d.mid, d.item) ∈ heads ms := h1.subset (List.mem_map.mpr ⟨d, hd, rfl⟩)
  unfold heads at this
  rw [List.mem_filterMap] at this
  obtain ⟨m, hm, he⟩ := this
  rw [Option.map_eq_some_iff] at he
  obtain ⟨it, _, he⟩ := he
  exact List.mem_map.mpr ⟨m, hm, (Prod.mk.inj he).1⟩

theorem payAll_at (params : List (Nat × Codec σ)) (mtu : Nat) (c : Codec σ) (mid : Nat) (key : Nat × Option Nat) (hp : ∀ p ∈ params, p.1 = key.1 → p.2 = c) :
    ∀ (ms : List (Media σ)) (streams : List Tx) (r : List (Media σ) × List Tx × List Done) (st : σ), (ms.map (·.mid)).Nodup →
    (∀ m ∈ ms, m.mid = mid → At c key m st) → payAll params mtu streams ms = .ok r →
      (r.2.2.filter (hits mid key)).map Done.made = (cuts c (roomOf mtu) st ((r.2.2.filter (hits mid key)).map (·.item.data))).map some ∧
      ∀ m ∈ r.1, m.mid = mid → At c key m (after c (roomOf mtu) st ((r.2.2.filter (hits mid key)).map (·.item.data))) := by
  intro ms
  induction ms with
  | nil =>
    intro streams r st _ _ h
    injection h with h
    subst h
    exact ⟨rfl, by simp⟩
  | cons m ms ih =>
    intro streams r st hn ha h
    rw [List.map_cons, List.nodup_cons] at hn
    unfold payAll at h
    obtain ⟨x, hx, h⟩ := bind_eq_ok h
    obtain ⟨hm, hq⟩ := doPayload_spec hx
    -- what the head gives
    have hhead : m.mid = mid → (x.2.2.toList.filter (hits mid key)).map Done.made =
          (cuts c (roomOf mtu) st ((x.2.2.toList.filter (hits mid key)).map (·.item.data))).map some ∧
        At c key x.1 (after c (roomOf mtu) st ((x.2.2.toList.filter (hits mid key)).map (·.item.data))) := by
      intro e
      have ham := ha m (List.mem_cons_self ..) e
      rcases hq with ⟨h1, h2⟩ | ⟨it, f, h1, h2, h3⟩
      · rw [h2]
        exact ⟨rfl, ham⟩
      · have hpa := pay_at (m := { m with queue := x.1.queue }) hp (by exact ham) h3
        rw [h2]
        by_cases hc : it.pt = key.1 ∧ it.rid = key.2 ∧ f ≠ .noSource
        · rw [if_pos hc] at hpa
          have hh : hits mid key ⟨m.mid, it, f⟩ = true := decide_eq_true ⟨e, hc.1, hc.2.1, hc.2.2⟩
          have hl : (some (⟨m.mid, it, f⟩ : Done)).toList.filter (hits mid key) = [⟨m.mid, it, f⟩] := by
            show List.filter _ [_] = _
            rw [List.filter_cons_of_pos hh]
            rfl
          rw [hl]
          refine ⟨?_, hpa.2⟩
          show [_] = [_]
          have h4 := hpa.1
          rw [show (⟨m.mid, it, f⟩ : Done).made = some (c.cut st (roomOf mtu) it.data).1 from h4]
        · rw [if_neg hc] at hpa
          have hh : hits mid key ⟨m.mid, it, f⟩ = false := decide_eq_false (fun hx => hc hx.2)
          have hl : (some (⟨m.mid, it, f⟩ : Done)).toList.filter (hits mid key) = [] := by
            show List.filter _ [_] = _
            rw [List.filter_cons_of_neg (by simp [hh])]
            rfl
          rw [hl]
          exact ⟨rfl, hpa⟩
    have hother : m.mid ≠ mid → x.2.2.toList.filter (hits mid key) = [] := by
      intro e
      rcases hq with ⟨h1, h2⟩ | ⟨it, f, h1, h2, h3⟩
      · rw [h2]
        rfl
      · rw [h2]
        have hh : hits mid key ⟨m.mid, it, f⟩ = false := decide_eq_false (fun hx => e hx.1)
        show List.filter _ [_] = _
        rw [List.filter_cons_of_neg (by simp [hh])]
        rfl
    split at h
    · injection h with h
      subst h
      by_cases e : m.mid = mid
      · refine ⟨(hhead e).1, ?_⟩
        intro m' hm' he'
        rcases List.mem_cons.mp hm' with rfl | hm'
        · exact (hhead e).2
        · exact absurd (List.mem_map.mpr ⟨m', hm', by rw [he', e]⟩) hn.1
      · dsimp only
        rw [hother e]
        refine ⟨rfl, ?_⟩
        intro m' hm' he'
        rcases List.mem_cons.mp hm' with rfl | hm'
        · exact absurd (by rw [← hm, he']) e
        · exact ha m' (List.mem_cons_of_mem _ hm') he'
    · obtain ⟨t, ht, h⟩ := bind_eq_ok h
      injection h with h
      subst h
      dsimp only
      rw [List.filter_append]
      by_cases e : m.mid = mid
      · have hz : t.2.2.filter (hits mid key) = [] := by
          rw [List.filter_eq_nil_iff]
          intro d hd hh
          have h1 := payAll_mids _ _ _ _ _ ht d hd
          have h2 : d.mid = mid := (of_decide_eq_true hh).1
          exact hn.1 (by rw [e, ← h2]; exact h1)
        rw [hz, List.append_nil]
        refine ⟨(hhead e).1, ?_⟩
        intro m' hm' he'
        rcases List.mem_cons.mp hm' with rfl | hm'
        · exact (hhead e).2
        · have hmm : m'.mid ∈ t.1.map (·.mid) := List.mem_map.mpr ⟨m', hm', rfl⟩
          rw [(payAll_spec _ _ _ _ _ ht).1] at hmm
          exact absurd (by rw [e, ← he']; exact hmm) hn.1
      · rw [hother e, List.nil_append]
        obtain ⟨i1, i2⟩ := ih _ _ st hn.2 (fun m' hm' => ha m' (List.mem_cons_of_mem _ hm')) ht
        refine ⟨i1, ?_⟩
        intro m' hm' he'
        rcases List.mem_cons.mp hm' with rfl | hm'
        · exact absurd (by rw [← hm, he']) e
        · exact i2 m' hm' he'

theorem reached_append (mid pt : Nat) (rid : Option Nat) (a b : List Ev) : reached mid pt rid (a ++ b) = reached mid pt rid a ++ reached mid pt rid b := by
  unfold reached
  rw [List.filterMap_append]

theorem reached_done (mid pt : Nat) (rid : Option Nat) (ds : List Done) : reached mid pt rid (ds.map .done) = ds.filter (hits mid (pt, rid)) := by
  induction ds with
  | nil => rfl
  | cons d ds ih =>
    rw [List.map_cons, List.filter_cons, show Ev.done d :: ds.map .done = [Ev.done d] ++ ds.map .done from rfl, reached_append, ih]
    by_cases h : d.mid = mid ∧ d.item.pt = pt ∧ d.item.rid = rid ∧ d.fate ≠ .noSource
    · have h1 : hits mid (pt, rid) d = true := decide_eq_true h
      rw [h1, if_pos rfl]
      show [Ev.done d].filterMap _ ++ _ = _
      rw [List.filterMap_cons]
      simp only [if_pos h]
      rfl
    · have h1 : hits mid (pt, rid) d = false := decide_eq_false h
      rw [h1, if_neg (by simp)]
      show [Ev.done d].filterMap _ ++ _ = _
      rw [List.filterMap_cons]
      simp only [if_neg h]
      rfl

theorem step_at {s : Sess σ} {op : Op σ} {r : Sess σ × List Ev} (c : Codec σ) (mid pt : Nat) (rid : Option Nat) (st : σ) (hd : Distinct s)
    (hrem : op ≠ .removeMedia mid) (hp : ∀ p ∈ s.params, p.1 = pt → p.2 = c) (ha : ∀ m ∈ s.medias, m.mid = mid → At c (pt, rid) m st)
    (hadd : ∀ a p, op = .addMedia mid a p → st = c.init) (h : s.step op = .ok r) :
    (reached mid pt rid r.2).map Done.made = (cuts c (roomOf s.mtu) st ((reached mid pt rid r.2).map (·.item.data))).map some ∧
    (∀ m ∈ r.1.medias, m.mid = mid → At c (pt, rid) m (after c (roomOf s.mtu) st ((reached mid pt rid r.2).map (·.item.data)))) ∧ r.1.mtu = s.mtu := by
  cases op with
  | write k it =>
    have hs : s.step (.write k it) = if s.closing then .ok (s, [.rejected k it .noMedia]) else
      match writeTo s.params k it s.medias with
      | .ok ms => .ok ({ s with medias := ms }, [.accepted k it])
      | .error e => .ok (s, [.rejected k it e]) := rfl
    rw [hs] at h
    split at h
    · injection h with h
      subst h
      exact ⟨rfl, ha, rfl⟩
    · rcases writeTo_spec s.params k it s.medias with ⟨h1, h2⟩ | ⟨a, m, b, h1, h2, h3, h4⟩
      · rw [h1] at h
        injection h with h
        subst h
        exact ⟨rfl, ha, rfl⟩
      · rcases h4 with ⟨e, h5, h6⟩ | ⟨m', h5, h6⟩
        · rw [h6] at h
          injection h with h
          subst h
          exact ⟨rfl, ha, rfl⟩
        · rw [h6] at h
          injection h with h
          subst h
          refine ⟨rfl, ?_, rfl⟩
          rcases accept_spec s.params m it with ⟨e', hx, _⟩ | ⟨hx, _⟩
          · rw [h5] at hx
            cases hx
          · rw [h5] at hx
            injection hx with hx
            subst hx
            intro x hx he
            have hx' : x ∈ a ++ { m with queue := m.queue ++ [it] } :: b := hx
            rcases List.mem_append.mp hx' with hx' | hx'
            · exact ha x (by rw [h1]; simp [hx']) he
            · rcases List.mem_cons.mp hx' with rfl | hx'
              · exact ha m (by rw [h1]; simp) he
              · exact ha x (by rw [h1]; simp [hx']) he
  | timeout =>
    obtain ⟨x, hx, h⟩ := bind_eq_ok h
    injection h with h
    subst h
    unfold Sess.timeout at hx
    split at hx
    · injection hx with hx
      subst hx
      exact ⟨rfl, ha, rfl⟩
    · obtain ⟨y, hy, hx⟩ := bind_eq_ok hx
      injection hx with hx
      subst hx
      dsimp only
      rw [reached_done]
      obtain ⟨h1, h2⟩ := payAll_at s.params s.mtu c mid (pt, rid) hp _ _ _ st hd ha hy
      exact ⟨h1, h2, rfl⟩
  | params l => injection h with h; subst h; exact ⟨rfl, ha, rfl⟩
  | streams l => injection h with h; subst h; exact ⟨rfl, ha, rfl⟩
  | close => injection h with h; subst h; exact ⟨rfl, ha, rfl⟩
  | rids k r' =>
    injection h with h
    subst h
    refine ⟨rfl, ?_, rfl⟩
    intro m hm he
    obtain ⟨m0, hm0, e⟩ := List.mem_map.mp hm
    have hmid : m0.mid = mid := by
      rw [← he, ← e]
      split <;> rfl
    have h0 := ha m0 hm0 hmid
    rw [← e]
    split
    · exact h0
    · exact h0
  | addMedia k audio pts =>
    injection h with h
    subst h
    refine ⟨rfl, ?_, rfl⟩
    intro m hm he
    have hm' : m ∈ s.medias ++ [{ mid := k, audio := audio, pts := pts }] := hm
    rcases List.mem_append.mp hm' with hm' | hm'
    · exact ha m hm' he
    · rw [List.mem_singleton] at hm'
      subst hm'
      have hk : k = mid := he
      subst hk
      exact .inl ⟨rfl, hadd _ _ rfl⟩
  | removeMedia k =>
    injection h with h
    subst h
    exact ⟨rfl, fun m hm he => ha m (List.mem_filter.mp hm).1 he, rfl⟩

theorem step_params {s : Sess σ} {op : Op σ} {r : Sess σ × List Ev} (h : s.step op = .ok r) : r.1.params = s.params ∨ ∃ l, op = .params l ∧ r.1.params = l := by
  cases op with
  | write k it =>
    have hs : s.step (.write k it) = if s.closing then .ok (s, [.rejected k it .noMedia]) else
      match writeTo s.params k it s.medias with
      | .ok ms => .ok ({ s with medias := ms }, [.accepted k it])
      | .error e => .ok (s, [.rejected k it e]) := rfl
    rw [hs] at h
    split at h
    · injection h with h; subst h; exact .inl rfl
    · split at h
      · injection h with h; subst h; exact .inl rfl
      · injection h with h; subst h; exact .inl rfl
  | timeout =>
    obtain ⟨x, hx, h⟩ := bind_eq_ok h
    injection h with h
    subst h
    unfold Sess.timeout at hx
    split at hx
    · injection hx with hx; subst hx; exact .inl rfl
    · obtain ⟨y, hy, hx⟩ := bind_eq_ok hx
      injection hx with hx; subst hx; exact .inl rfl
  | params l => injection h with h; subst h; exact .inr ⟨l, rfl, rfl⟩
  | streams l => injection h with h; subst h; exact .inl rfl
  | close => injection h with h; subst h; exact .inl rfl
  | rids k r' => injection h with h; subst h; exact .inl rfl
  | addMedia k audio pts => injection h with h; subst h; exact .inl rfl
  | removeMedia k => injection h with h; subst h; exact .inl rfl

theorem codec_run (c : Codec σ) (mid pt : Nat) (rid : Option Nat) : ∀ (ops : List (Op σ)) (s : Sess σ) (r : Sess σ × List Ev) (st : σ), Distinct s → AllFresh s ops →
    (∀ op ∈ ops, op ≠ .removeMedia mid ∧ ∀ a p, op ≠ .addMedia mid a p) → (∀ p ∈ s.params, p.1 = pt → p.2 = c) →
    (∀ l, .params l ∈ ops → ∀ p ∈ l, p.1 = pt → p.2 = c) → (∀ m ∈ s.medias, m.mid = mid → At c (pt, rid) m st) → s.run ops = .ok r →
    (reached mid pt rid r.2).map Done.made = (cuts c (roomOf s.mtu) st ((reached mid pt rid r.2).map (·.item.data))).map some := by
  intro ops
  induction ops with
  | nil =>
    intro s r st _ _ _ _ _ _ h
    injection h with h
    subst h
    rfl
  | cons op ops ih =>
    intro s r st hd hf ho hp hl ha h
    obtain ⟨x, hx, h⟩ := bind_eq_ok h
    obtain ⟨t, ht, h⟩ := bind_eq_ok h
    injection h with h
    subst h
    have ho1 := ho op (List.mem_cons_self ..)
    obtain ⟨h1, h2, h3⟩ := step_at c mid pt rid st hd ho1.1 hp ha (fun a p e => absurd e (ho1.2 a p)) hx
    have hp' : ∀ p ∈ x.1.params, p.1 = pt → p.2 = c := by
      rcases step_params hx with e | ⟨l, e, e2⟩
      · rw [e]; exact hp
      · rw [e2]; exact hl l (by rw [e]; exact List.mem_cons_self ..)
    have := ih _ _ _ (step_balance hd hf.1 hx).1 (hf.2 _ hx) (fun o hm => ho o (List.mem_cons_of_mem _ hm)) hp'
      (fun l hm => hl l (List.mem_cons_of_mem _ hm)) h2 ht
    rw [h3] at this
    show (reached mid pt rid (x.2 ++ t.2)).map _ = _
    rw [reached_append, List.map_append, List.map_append, cuts_append, List.map_append, h1, this]

/-- **C125** One codec instance sees all frames of a media with a payload type and RID, in order and each once: what it makes of them is what it makes of
the sequence of frames. (The codec of the payload type stays the same, and the media is there from the start.) -/
theorem C125_codec (c : Codec σ) (mid pt : Nat) (rid : Option Nat) (ops : List (Op σ)) (s : Sess σ) (r : Sess σ × List Ev) (hd : Distinct s) (hf : AllFresh s ops)
    (ho : ∀ op ∈ ops, op ≠ .removeMedia mid ∧ ∀ a p, op ≠ .addMedia mid a p) (hp : ∀ p ∈ s.params, p.1 = pt → p.2 = c)
    (hl : ∀ l, .params l ∈ ops → ∀ p ∈ l, p.1 = pt → p.2 = c) (hnew : ∀ m ∈ s.medias, m.mid = mid → m.payloaders = []) (h : s.run ops = .ok r) :
    (reached mid pt rid r.2).map Done.made =
      (cuts c (s.mtu - 16 - (s.mtu - 16) % 16) c.init ((reached mid pt rid r.2).map (·.item.data))).map some :=
  codec_run c mid pt rid ops s r c.init hd hf ho hp hl (fun m hm he => .inl ⟨by unfold slot; rw [hnew m hm he]; rfl, rfl⟩) h

/-! ### Concrete cases -/

/-- A codec that counts its frames: the first byte of each chunk. Empty frames it refuses. -/
def toy : Codec Nat :=
  { init := 0
    cut := fun n _ d => if d.isEmpty then (none, n + 1) else (some (d.map (fun b => [Fin.ofNat 256 n, b])), n + 1)
    marker := fun _ _ last => last
    clock := 90000
    noise := false }

/-- A frame for payload type `pt`. -/
def toyItem (pt : Nat) (rid : Option Nat) (data : List Byte) : Item :=
  { pt := pt, rid := rid, wallclock := 0, time := ⟨3000, 90000⟩, spurt := false, data := data, ext := {} }

/-- Two medias: an audio and a video one with a stream. -/
def toySess : Sess Nat :=
  { params := [(96, toy), (111, toy)], mtu := 1200, medias := [{ mid := 1, audio := true, pts := [111] }, { mid := 2, audio := false, pts := [96] }],
    streams := [Tx.new 10 none 1 none 1500 100 0, Tx.new 20 (some 21) 2 none 1500 200 0] }

/-- What can be seen of a run, if it does not panic. -/
def evsOf (r : Res Unit (Sess Nat × List Ev)) : Option (List Ev) :=
  match r with
  | .ok x => some x.2
  | _ => none

/-- **C125** A run: two frames of a media are packetized one per timeout, with the codec's state going on; one that the codec refuses is told. -/
theorem C125_example :
    evsOf (toySess.run [.write 2 (toyItem 96 none [7, 8]), .write 2 (toyItem 96 none []), .write 2 (toyItem 96 none [9]), .write 2 (toyItem 97 none [9]),
      .timeout, .timeout, .timeout]) =
    some [.accepted 2 (toyItem 96 none [7, 8]), .accepted 2 (toyItem 96 none []), .accepted 2 (toyItem 96 none [9]), .rejected 2 (toyItem 97 none [9]) .unknownPt,
      .done ⟨2, toyItem 96 none [7, 8], .sent 20 200 [[0, 7], [0, 8]]⟩, .done ⟨2, toyItem 96 none [], .refused⟩,
      .done ⟨2, toyItem 96 none [9], .sent 20 202 [[2, 9]]⟩] := by decide +kernel

example : Distinct toySess := by simp [Distinct, toySess]
example : AllFresh toySess [.write 2 (toyItem 96 none [7, 8]), .timeout] := ⟨trivial, fun _ _ => ⟨trivial, fun _ _ => trivial⟩⟩

/-- With frames waiting that can all be sent: what `C125_drains` asks for. -/
def toyBusy : Sess Nat :=
  { toySess with medias := [{ mid := 1, audio := true, queue := [toyItem 111 none [1], toyItem 111 none [2]] }, { mid := 2, audio := false, queue := [toyItem 96 none [7]] }] }

example : Sendable toyBusy := by
  intro m hm it hit
  have hp : ∀ p ∈ toyBusy.params, p.2 = toy := by simp [toyBusy, toySess]
  simp only [toyBusy, List.mem_cons, List.not_mem_nil, or_false] at hm
  rcases hm with rfl | rfl
  · simp only [List.mem_cons, List.not_mem_nil, or_false] at hit
    rcases hit with rfl | rfl
    · refine ⟨⟨_, List.mem_cons_self .., rfl, .inl rfl⟩, ⟨(111, toy), by simp [toyBusy, toySess], rfl⟩, ?_, by simp⟩
      intro p h st
      rw [hp p h]
      simp [toy, toyItem]
    · refine ⟨⟨_, List.mem_cons_self .., rfl, .inl rfl⟩, ⟨(111, toy), by simp [toyBusy, toySess], rfl⟩, ?_, by simp⟩
      intro p h st
      rw [hp p h]
      simp [toy, toyItem]
  · simp only [List.mem_cons, List.not_mem_nil, or_false] at hit
    subst hit
    refine ⟨⟨_, List.mem_cons_of_mem _ (List.mem_cons_self ..), rfl, .inl rfl⟩, ⟨(96, toy), by simp [toyBusy, toySess], rfl⟩, ?_, by simp⟩
    intro p h st
    rw [hp p h]
    simp [toy, toyItem]

/-! ### What is not so -/

/-- **C125** violated: a frame that was accepted is gone if there is no stream for it at the next timeout, although a stream comes later. -/
theorem C125_violation_lost :
    evsOf ({ toySess with streams := [] }.run [.write 2 (toyItem 96 none [7]), .timeout, .streams [Tx.new 20 none 2 none 1500 200 0], .timeout, .timeout]) =
    some [.accepted 2 (toyItem 96 none [7]), .done ⟨2, toyItem 96 none [7], .noSource⟩] := by decide +kernel

/-- A round: the application writes a frame to each media and hands in a timeout, as it is asked to. -/
def round : List (Op Nat) := [.write 1 (toyItem 111 none [1]), .write 2 (toyItem 96 none [7]), .timeout]

/-- **C125** violated: as long as one media has no stream, the frames of the media after it are not sent, and in the end refused as if the application
did not poll. -/
theorem C125_violation_starved :
    let evs := evsOf ({ toySess with streams := [Tx.new 20 none 2 none 1500 200 0] }.run (List.replicate 102 round).flatten)
    evs.map (fun l => (leftOf 2 l).length) = some 0 ∧ evs.map (fun l => (l.filter (fun e => e == .rejected 2 (toyItem 96 none [7]) .withoutPoll)).length) = some 1 := by
  decide +kernel

/-- **C125** violated: a frame is accepted, and sent, with a payload type that is not one of its media's (here the video's for audio). -/
theorem C125_violation_pt :
    evsOf (toySess.run [.write 1 (toyItem 96 none [7]), .timeout]) =
    some [.accepted 1 (toyItem 96 none [7]), .done ⟨1, toyItem 96 none [7], .sent 10 100 [[0, 7]]⟩] := by decide +kernel

/-- Simulcast: one media with two layers, in some order. -/
def layers (a b : Nat) : Sess Nat :=
  { params := [(96, toy)], mtu := 1200, medias := [{ mid := 2, audio := false, pts := [96], ridsTx := .specific [1, 2] }],
    streams := [Tx.new (20 + a) none 2 (some a) 1500 200 0, Tx.new (20 + b) none 2 (some b) 1500 300 0] }

/-- **C125** violated: with simulcast, a frame without a RID is accepted, and sent in whichever layer comes first. -/
theorem C125_violation_rid :
    evsOf ((layers 1 2).run [.write 2 (toyItem 96 none [7]), .timeout]) = some [.accepted 2 (toyItem 96 none [7]), .done ⟨2, toyItem 96 none [7], .sent 21 200 [[0, 7]]⟩] ∧
    evsOf ((layers 2 1).run [.write 2 (toyItem 96 none [7]), .timeout]) = some [.accepted 2 (toyItem 96 none [7]), .done ⟨2, toyItem 96 none [7], .sent 22 200 [[0, 7]]⟩] := by
  decide +kernel

/-- **C125** violated: if the payload type of a waiting frame is given another number before the timeout, the timeout panics. -/
theorem C125_violation_panic : evsOf (toySess.run [.write 1 (toyItem 96 none [7]), .params [(120, toy), (111, toy)], .timeout]) = none := by decide +kernel

/-- **C125** violated: frames that wait when the session is closed are neither sent nor told. -/
theorem C125_violation_closing :
    evsOf (toySess.run [.write 2 (toyItem 96 none [7]), .close, .timeout, .timeout]) = some [.accepted 2 (toyItem 96 none [7])] := by decide +kernel

end Str0m.Frames
