import Verif.Proofs.SctpStreams
import Verif.Spec.SctpStreams
/-
  C98-C102: the streams of SCTP.
-/
namespace Str0m.SctpStreams
open Str0m.Channel (Config DcepOpen Ppi)
open Str0m.RtcLoop (SctpEvent)

variable {W : Type}

theorem snoc_split {α : Type} {l : List α} {n : α} {a : List α} {m : α} {b : List α} (h : l ++ [n] = a ++ m :: b) :
    (b = [] ∧ l = a ∧ n = m) ∨ ∃ b', b = b' ++ [n] ∧ l = a ++ m :: b' := by
  rcases List.eq_nil_or_concat b with rfl | ⟨b', x, rfl⟩
  · left
    have := List.append_inj' (show l ++ [n] = a ++ [m] from h) rfl
    exact ⟨rfl, this.1, by simpa using this.2⟩
  · right
    have h' : l ++ [n] = (a ++ m :: b') ++ [x] := by rw [h]; simp
    obtain ⟨h1, h2⟩ := List.append_inj' h' rfl
    have : n = x := by simpa using h2
    exact ⟨b', by rw [this]; simp, h1⟩

theorem Live.snoc_open {l : List Note} {id : Nat} {n : Note} (h : n = .adopted id ∨ ∃ label, n = .event (.opened id label)) : Live (l ++ [n]) id :=
  ⟨l, n, [], rfl, h, by simp⟩

theorem Live.snoc {l : List Note} {id : Nat} {n : Note} (h : ∀ b, n ≠ .event (.closed id b)) (hl : Live l id) : Live (l ++ [n]) id := by
  obtain ⟨a, m, b, rfl, h1, h2⟩ := hl
  refine ⟨a, m, b ++ [n], by simp, h1, fun x hx => ?_⟩
  rcases List.mem_append.1 hx with hx | hx
  · exact h2 x hx
  · exact h x (List.mem_singleton.1 hx).symm

theorem Live.of_snoc {l : List Note} {id : Nat} {n : Note} (h : ¬ (n = .adopted id ∨ ∃ label, n = .event (.opened id label))) (hl : Live (l ++ [n]) id) :
    Live l id ∧ ∀ b, n ≠ .event (.closed id b) := by
  obtain ⟨a, m, b, hs, h1, h2⟩ := hl
  rcases snoc_split hs with ⟨rfl, rfl, rfl⟩ | ⟨b', rfl, rfl⟩
  · exact absurd h1 h
  · exact ⟨⟨a, m, b', rfl, h1, fun x hx => h2 x (List.mem_append.2 (.inl hx))⟩, fun x hx => h2 x (by simp [hx])⟩

theorem Live.snoc_iff {l : List Note} {id : Nat} {n : Note} (h1 : ∀ b, n ≠ .event (.closed id b)) (h : ¬ (n = .adopted id ∨ ∃ label, n = .event (.opened id label))) :
    Live (l ++ [n]) id ↔ Live l id := ⟨fun hl => (hl.of_snoc h).1, Live.snoc h1⟩

theorem not_live_closed {l : List Note} {id : Nat} {b : Bool} : ¬ Live (l ++ [.event (.closed id b)]) id := by
  intro h
  exact (h.of_snoc (by simp)).2 b rfl

/-- There is an open one. -/
def Opn (es : List Entry) (id : Nat) : Prop := ∃ e ∈ es, e.id = id ∧ e.state = .opened

/-- What holds at any time. -/
structure Inv (env : Env W) (c : Core) : Prop where
  sorted : Sorted c.entries
  config : ∀ e ∈ c.entries, e.config = none → e.state = .awaitConfig ∨ e.state = .closed
  waits : ∀ e ∈ c.entries, e.state = .awaitConfig → e.config ≠ none → e.doClose = true
  asked : ∀ e ∈ c.entries, ∀ cfg, e.config = some cfg → e.state = .awaitOpen ∨ e.state = .awaitAck → Note.openCall e.id cfg ∈ c.log
  opened : ∀ id, Opn c.entries id ↔ Live c.log id
  alternate : ∀ l₁ id l₂ n, c.log = l₁ ++ n :: l₂ → (n = .adopted id ∨ ∃ label, n = .event (.opened id label)) → ¬ Live l₁ id
  label : ∀ l₁ id label l₂, c.log = l₁ ++ .event (.opened id label) :: l₂ → AskedLabel l₁ id label ∨ ∃ d, PeerOpened env id d ∧ d.label = label
  held : ∀ l₁ id l₂, c.log = l₁ ++ .event (.closed id true) :: l₂ →
    id ∈ c.pending ∨ id ∈ c.complete ∨ Note.event (.resetComplete id) ∈ l₂ ∨ Note.event .lost ∈ l₂

theorem opn_same {es es' : List Entry} (h : List.Forall₂ Same es es') (id : Nat) : Opn es' id ↔ Opn es id := by
  have key : ∀ e e' : Entry, Same e e' → ((e'.id = id ∧ e'.state = .opened) ↔ (e.id = id ∧ e.state = .opened)) := by
    intro e e' hs
    rw [hs.hid]
    rcases hs.state with h | ⟨h1, h2, _⟩
    · rw [h]
    · rw [h1, h2]; simp
  unfold Opn
  induction h with
  | nil => simp
  | cons hh _ ih => simp only [List.mem_cons, exists_eq_or_imp, ih, key _ _ hh]

theorem forall₂_mem {es es' : List Entry} (h : List.Forall₂ Same es es') {e' : Entry} (he : e' ∈ es') : ∃ e ∈ es, Same e e' := by
  induction h with
  | nil => cases he
  | cons hh _ ih =>
    rcases List.mem_cons.1 he with rfl | he
    · exact ⟨_, List.mem_cons_self, hh⟩
    · obtain ⟨e, h1, h2⟩ := ih he
      exact ⟨e, List.mem_cons_of_mem _ h1, h2⟩

/-- A note that says nothing of streams being open or closed. -/
def Quiet (n : Note) : Prop := (∀ id b, n ≠ .event (.closed id b)) ∧ ∀ id, ¬ (n = .adopted id ∨ ∃ label, n = .event (.opened id label))

theorem Inv.say {env : Env W} {c : Core} (h : Inv env c) {n : Note} (hq : Quiet n) (p q : List Nat)
    (hp : ∀ id, id ∈ c.pending ∨ id ∈ c.complete → id ∈ p ∨ id ∈ q ∨ n = .event (.resetComplete id) ∨ n = .event .lost) :
    Inv env { c with log := c.log ++ [n], pending := p, complete := q } where
  sorted := h.sorted
  config := h.config
  waits := h.waits
  asked e he cfg hc hs := List.mem_append.2 (.inl (h.asked e he cfg hc hs))
  opened id := by
    show Opn c.entries id ↔ Live (c.log ++ [n]) id
    rw [Live.snoc_iff (hq.1 id) (hq.2 id)]
    exact h.opened id
  alternate l₁ id l₂ m hs hm := by
    rcases snoc_split hs with ⟨_, _, rfl⟩ | ⟨b', _, h2⟩
    · exact absurd hm (hq.2 id)
    · exact h.alternate l₁ id b' m h2 hm
  label l₁ id label l₂ hs := by
    rcases snoc_split hs with ⟨_, _, rfl⟩ | ⟨b', _, h2⟩
    · exact absurd (.inr ⟨label, rfl⟩) (hq.2 id)
    · exact h.label l₁ id label b' h2
  held l₁ id l₂ hs := by
    show id ∈ p ∨ id ∈ q ∨ _
    rcases snoc_split hs with ⟨_, _, rfl⟩ | ⟨b', rfl, h2⟩
    · exact absurd rfl (hq.1 id true)
    · have := h.held l₁ id b' h2
      rcases this with a | a | a | a
      · rcases hp id (.inl a) with x | x | x | x
        · exact .inl x
        · exact .inr (.inl x)
        · exact .inr (.inr (.inl (by simp [x])))
        · exact .inr (.inr (.inr (by simp [x])))
      · rcases hp id (.inr a) with x | x | x | x
        · exact .inl x
        · exact .inr (.inl x)
        · exact .inr (.inr (.inl (by simp [x])))
        · exact .inr (.inr (.inr (by simp [x])))
      · exact .inr (.inr (.inl (List.mem_append.2 (.inl a))))
      · exact .inr (.inr (.inr (List.mem_append.2 (.inl a))))

theorem split_mem {es₁ es₂ : List Entry} {e e' x : Entry} (hx : x ∈ es₁ ++ e' :: es₂) : x = e' ∨ x ∈ es₁ ++ e :: es₂ := by
  simp only [List.mem_append, List.mem_cons] at *
  tauto

theorem sorted_other {es₁ es₂ : List Entry} {e : Entry} (hs : Sorted (es₁ ++ e :: es₂)) {x : Entry} (hx : x ∈ es₁ ∨ x ∈ es₂) : x.id ≠ e.id := by
  intro h
  unfold Sorted ids at hs
  rw [List.map_append, List.map_cons, List.pairwise_append, List.pairwise_cons] at hs
  obtain ⟨_, ⟨h2, _⟩, h3⟩ := hs
  rcases hx with hx | hx
  · have := h3 x.id (List.mem_map.2 ⟨x, hx, rfl⟩) e.id List.mem_cons_self
    omega
  · have := h2 x.id (List.mem_map.2 ⟨x, hx, rfl⟩)
    omega

theorem Inv.fin {env : Env W} {c c' : Core} {ev : SctpEvent} (h : Inv env c) (hf : Fin env c (.event ev) c') : Inv env { c' with log := c'.log ++ [.event ev] } := by
  have hsort := hf.sorted (by simp) h.sorted
  cases hf with
  | transmit => exact h.say ⟨by simp, by simp⟩ _ _ (fun id hi => by tauto)
  | low => exact h.say ⟨by simp, by simp⟩ _ _ (fun id hi => by tauto)
  | data => exact h.say ⟨by simp, by simp⟩ _ _ (fun id hi => by tauto)
  | lost => exact h.say ⟨by simp, by simp⟩ _ _ (fun id hi => by tauto)
  | reset id rest hc =>
    refine h.say ⟨by simp, by simp⟩ _ _ (fun i hi => ?_)
    rw [hc] at hi
    simp only [List.mem_cons] at hi
    rcases hi with hi | rfl | hi
    · exact .inl hi
    · exact .inr (.inr (.inl rfl))
    · exact .inr (.inl hi)
  | opened es₁ e e' es₂ cfg label hl he hs hi hs' hc hk _ =>
    have hmem : e ∈ c.entries := by rw [he]; simp
    have hold : ∀ {x}, x ∈ es₁ ++ e' :: es₂ → x = e' ∨ x ∈ c.entries := fun hx => by rw [he]; exact split_mem hx
    have hnew : Note.event (.opened e.id label) ∈ c.log ++ [Note.event (.opened e.id label)] := by simp
    have hno : ¬ Live c.log e.id := by
      rw [← h.opened]
      rintro ⟨x, hx, hxi, hxs⟩
      rw [h.sorted.uniq hx hmem hxi] at hxs
      rcases hs with hs | ⟨hs | hs, _⟩ <;> (rw [hs] at hxs; cases hxs)
    refine { sorted := hsort, config := ?_, waits := ?_, asked := ?_, opened := ?_, alternate := ?_, label := ?_, held := ?_ }
    · intro x hx hn
      rcases hold hx with rfl | hx
      · rw [hc] at hn; cases hn
      · exact h.config x hx hn
    · intro x hx hst hn
      rcases hold hx with rfl | hx
      · rw [hs'] at hst; cases hst
      · exact h.waits x hx hst hn
    · intro x hx k hk hst
      rcases hold hx with rfl | hx
      · rw [hs'] at hst; simp at hst
      · exact List.mem_append.2 (.inl (h.asked x hx k hk hst))
    · intro id
      show Opn (es₁ ++ e' :: es₂) id ↔ Live (c.log ++ [.event (.opened e.id label)]) id
      by_cases hid : id = e.id
      · subst hid
        exact ⟨fun _ => Live.snoc_open (.inr ⟨label, rfl⟩), fun _ => ⟨e', by simp, hi, hs'⟩⟩
      · rw [Live.snoc_iff (by simp) (by simp; exact fun hh => absurd hh.symm hid), ← h.opened id, he]
        constructor
        · rintro ⟨x, hx, h1, h2⟩
          have : x ≠ e' := by rintro rfl; exact hid (h1 ▸ hi)
          exact ⟨x, by simp only [List.mem_append, List.mem_cons] at *; tauto, h1, h2⟩
        · rintro ⟨x, hx, h1, h2⟩
          have : x ≠ e := by rintro rfl; exact hid h1.symm
          exact ⟨x, by simp only [List.mem_append, List.mem_cons] at *; tauto, h1, h2⟩
    · intro l₁ id l₂ m hsp hm
      rcases snoc_split hsp with ⟨_, h1, rfl⟩ | ⟨b', _, h2⟩
      · rcases hm with hm | ⟨_, hm⟩
        · cases hm
        · cases hm
          rw [← h1]
          exact hno
      · exact h.alternate l₁ id b' m h2 hm
    · intro l₁ id lab l₂ hsp
      rcases snoc_split hsp with ⟨_, h1, h2⟩ | ⟨b', _, h2⟩
      · cases h2
        rw [← h1]
        rcases hl with ⟨hst, hlab⟩ | ⟨_, w, buf, d, hr, hp, hlab, _⟩
        · left
          have hst2 : e.state = .awaitOpen ∨ e.state = .awaitAck := by
            rcases hs with hs | ⟨hs | hs, _⟩
            · exact .inl hs
            · exact absurd hs hst
            · exact .inr hs
          cases hec : e.config with
          | none =>
            rcases h.config e hmem hec with hh | hh
            · exact absurd hh hst
            · rcases hst2 with h3 | h3 <;> (rw [h3] at hh; cases hh)
          | some y =>
            have := hk y hec
            subst this
            exact ⟨y, h.asked e hmem y hec hst2, hlab.symm⟩
        · exact .inr ⟨d, ⟨w, buf, hr, hp⟩, hlab.symm⟩
      · exact h.label l₁ id lab b' h2
    · intro l₁ id l₂ hsp
      rcases snoc_split hsp with ⟨_, _, h2⟩ | ⟨b', rfl, h2⟩
      · cases h2
      · rcases h.held l₁ id b' h2 with a | a | a | a
        · exact .inl a
        · exact .inr (.inl a)
        · exact .inr (.inr (.inl (List.mem_append.2 (.inl a))))
        · exact .inr (.inr (.inr (List.mem_append.2 (.inl a))))
  | closed es₁ e e' es₂ p he hs hi hs' hp =>
    have hmem : e ∈ c.entries := by rw [he]; simp
    have hold : ∀ {x}, x ∈ es₁ ++ e' :: es₂ → x = e' ∨ x ∈ c.entries := fun hx => by rw [he]; exact split_mem hx
    have hsub : ∀ id, id ∈ c.pending → id ∈ p := by
      rcases hp with rfl | rfl
      · exact fun _ h => h
      · exact fun _ h => List.mem_append.2 (.inl h)
    refine { sorted := hsort, config := ?_, waits := ?_, asked := ?_, opened := ?_, alternate := ?_, label := ?_, held := ?_ }
    · intro x hx hn
      rcases hold hx with rfl | hx
      · exact .inr hs'
      · exact h.config x hx hn
    · intro x hx hst hn
      rcases hold hx with rfl | hx
      · rw [hs'] at hst; cases hst
      · exact h.waits x hx hst hn
    · intro x hx k hk hst
      rcases hold hx with rfl | hx
      · rw [hs'] at hst; simp at hst
      · exact List.mem_append.2 (.inl (h.asked x hx k hk hst))
    · intro id
      show Opn (es₁ ++ e' :: es₂) id ↔ Live (c.log ++ [.event (.closed e.id (decide (e.id ∈ p)))]) id
      by_cases hid : id = e.id
      · subst hid
        refine ⟨?_, fun hl => absurd hl not_live_closed⟩
        rintro ⟨x, hx, h1, h2⟩
        exfalso
        have hx' : x = e' ∨ x ∈ es₁ ∨ x ∈ es₂ := by simp only [List.mem_append, List.mem_cons] at hx; tauto
        rcases hx' with rfl | hx'
        · rw [hs'] at h2; cases h2
        · exact sorted_other (he ▸ h.sorted) hx' h1
      · rw [Live.snoc_iff (by simp; exact fun hh => absurd hh.symm hid) (by simp), ← h.opened id, he]
        constructor
        · rintro ⟨x, hx, h1, h2⟩
          have : x ≠ e' := by rintro rfl; exact hid (h1 ▸ hi)
          exact ⟨x, by simp only [List.mem_append, List.mem_cons] at *; tauto, h1, h2⟩
        · rintro ⟨x, hx, h1, h2⟩
          have : x ≠ e := by rintro rfl; exact hid h1.symm
          exact ⟨x, by simp only [List.mem_append, List.mem_cons] at *; tauto, h1, h2⟩
    · intro l₁ id l₂ m hsp hm
      rcases snoc_split hsp with ⟨_, h1, rfl⟩ | ⟨b', _, h2⟩
      · simp at hm
      · exact h.alternate l₁ id b' m h2 hm
    · intro l₁ id lab l₂ hsp
      rcases snoc_split hsp with ⟨_, h1, h2⟩ | ⟨b', _, h2⟩
      · cases h2
      · exact h.label l₁ id lab b' h2
    · intro l₁ id l₂ hsp
      show id ∈ p ∨ id ∈ c.complete ∨ _
      rcases snoc_split hsp with ⟨_, _, h2⟩ | ⟨b', rfl, h2⟩
      · simp only [Note.event.injEq, SctpEvent.closed.injEq, decide_eq_true_eq] at h2
        exact .inl (h2.1 ▸ h2.2)
      · rcases h.held l₁ id b' h2 with a | a | a | a
        · exact .inl (hsub id a)
        · exact .inr (.inl a)
        · exact .inr (.inr (.inl (List.mem_append.2 (.inl a))))
        · exact .inr (.inr (.inr (List.mem_append.2 (.inl a))))

theorem update_mem {id : Nat} {f : Entry → Entry} {es : List Entry} {x : Entry} (h : x ∈ update id f es) :
    (x ∈ es ∧ x.id ≠ id) ∨ ∃ y ∈ es, y.id = id ∧ x = f y := by
  obtain ⟨y, hy, rfl⟩ := List.mem_map.1 h
  by_cases hi : y.id = id
  · exact .inr ⟨y, hy, hi, by simp [hi]⟩
  · exact .inl (by simp [hi, hy])

theorem mem_update_other {id : Nat} {f : Entry → Entry} {es : List Entry} {x : Entry} (h : x ∈ es) (hi : x.id ≠ id) : x ∈ update id f es :=
  List.mem_map.2 ⟨x, h, by simp [hi]⟩

theorem mem_update_self {id : Nat} {f : Entry → Entry} {es : List Entry} {x : Entry} (h : x ∈ es) (hi : x.id = id) : f x ∈ update id f es :=
  List.mem_map.2 ⟨x, h, by simp [hi]⟩

theorem Inv.micro {env : Env W} (c c' : Core) (hm : Micro env c c') (h : Inv env c) : Inv env c' := by
  have hsort := hm.sorted h.sorted
  cases hm with
  | conn => exact ⟨h.sorted, h.config, h.waits, h.asked, h.opened, h.alternate, h.label, h.held⟩
  | conn2 => exact ⟨h.sorted, h.config, h.waits, h.asked, h.opened, h.alternate, h.label, h.held⟩
  | time => exact ⟨h.sorted, h.config, h.waits, h.asked, h.opened, h.alternate, h.label, h.held⟩
  | hold id =>
    refine ⟨h.sorted, h.config, h.waits, h.asked, h.opened, h.alternate, h.label, ?_⟩
    intro l₁ i l₂ hs
    rcases h.held l₁ i l₂ hs with a | a
    · exact .inl (List.mem_append.2 (.inl a))
    · exact .inr a
  | release id =>
    refine ⟨h.sorted, h.config, h.waits, h.asked, h.opened, h.alternate, h.label, ?_⟩
    intro l₁ i l₂ hs
    show i ∈ List.filter _ _ ∨ i ∈ _ ++ [id] ∨ _
    rcases h.held l₁ i l₂ hs with a | a | a
    · by_cases hi : i = id
      · exact .inr (.inl (by simp [hi]))
      · exact .inl (List.mem_filter.2 ⟨a, by simpa using hi⟩)
    · exact .inr (.inl (List.mem_append.2 (.inl a)))
    · exact .inr (.inr a)
  | called id cfg => exact h.say ⟨by simp, by simp⟩ _ _ (fun id hi => by tauto)
  | closeCall id => exact h.say ⟨by simp, by simp⟩ _ _ (fun id hi => by tauto)
  | event e c' hf => exact h.fin hf
  | touch es hs =>
    refine ⟨hsort, ?_, ?_, ?_, ?_, h.alternate, h.label, h.held⟩
    · intro x hx hn
      obtain ⟨e, he, hsm⟩ := forall₂_mem hs hx
      have hec : e.config = none := by
        rcases hsm.config with hh | ⟨hh, _⟩
        · rw [← hh]; exact hn
        · exact hh
      rcases hsm.state with hh | ⟨_, _, hh⟩
      · rw [hh]; exact h.config e he hec
      · rw [hec] at hh; cases hh
    · intro x hx hst hn
      obtain ⟨e, he, hsm⟩ := forall₂_mem hs hx
      rcases hsm.state with hh | ⟨_, hh, _⟩
      · rw [hh] at hst
        rcases hsm.config with h2 | ⟨_, ⟨_, h2⟩ | h2⟩
        · exact hsm.doClose (h.waits e he hst (h2 ▸ hn))
        · exact h2
        · exact absurd hst h2
      · rw [hh] at hst; cases hst
    · intro x hx cfg hc hst
      obtain ⟨e, he, hsm⟩ := forall₂_mem hs hx
      have hes : e.state = .awaitOpen ∨ e.state = .awaitAck := by
        rcases hsm.state with hh | ⟨hh, _⟩
        · rw [← hh]; exact hst
        · exact .inl hh
      rw [hsm.hid]
      rcases hsm.config with h2 | ⟨h2, _⟩
      · exact h.asked e he cfg (h2 ▸ hc) hes
      · rcases h.config e he h2 with hh | hh <;> (rcases hes with h3 | h3 <;> (rw [h3] at hh; cases hh))
    · intro id
      rw [opn_same hs id]
      exact h.opened id
  | drop =>
    have hmem : ∀ {x}, x ∈ retain c.entries → x ∈ c.entries := fun hx => (List.mem_filter.1 hx).1
    refine ⟨hsort, fun x hx => h.config x (hmem hx), fun x hx => h.waits x (hmem hx), fun x hx => h.asked x (hmem hx), ?_, h.alternate, h.label, h.held⟩
    intro id
    show Opn (retain c.entries) id ↔ Live c.log id
    rw [← h.opened id]
    constructor
    · rintro ⟨x, hx, a⟩
      exact ⟨x, hmem hx, a⟩
    · rintro ⟨x, hx, a, b⟩
      exact ⟨x, List.mem_filter.2 ⟨hx, by rw [b]; simp⟩, a, b⟩
  | found id =>
    have hmem : ∀ {x}, x ∈ insert id .awaitConfig c.entries → x ∈ c.entries ∨ x = fresh id .awaitConfig := fun hx => insert_mem id _ _ _ hx
    refine ⟨hsort, ?_, ?_, ?_, ?_, h.alternate, h.label, h.held⟩
    · intro x hx hn
      rcases hmem hx with hx | rfl
      · exact h.config x hx hn
      · exact .inl rfl
    · intro x hx hst hn
      rcases hmem hx with hx | rfl
      · exact h.waits x hx hst hn
      · exact absurd rfl hn
    · intro x hx cfg hc hst
      rcases hmem hx with hx | rfl
      · exact h.asked x hx cfg hc hst
      · cases hc
    · intro i
      show Opn (insert id .awaitConfig c.entries) i ↔ Live c.log i
      rw [← h.opened i]
      constructor
      · rintro ⟨x, hx, a, b⟩
        rcases hmem hx with hx | rfl
        · exact ⟨x, hx, a, b⟩
        · cases b
      · rintro ⟨x, hx, a⟩
        exact ⟨x, insert_keeps id _ _ x hx, a⟩
  | new id cfg hnone hlog =>
    have hmem : ∀ {x}, x ∈ update id (fun e => { e with config := some cfg }) (insert id .awaitOpen c.entries) →
        x ∈ c.entries ∨ x = { fresh id .awaitOpen with config := some cfg } := by
      intro x hx
      rcases update_mem hx with ⟨hx, hi⟩ | ⟨y, hy, hyi, rfl⟩
      · rcases insert_mem id _ _ _ hx with hx | rfl
        · exact .inl hx
        · exact absurd rfl hi
      · rcases insert_mem id _ _ _ hy with hy | rfl
        · exact absurd hyi (find_none hnone y hy)
        · exact .inr rfl
    refine ⟨hsort, ?_, ?_, ?_, ?_, h.alternate, h.label, h.held⟩
    · intro x hx hn
      rcases hmem hx with hx | rfl
      · exact h.config x hx hn
      · cases hn
    · intro x hx hst hn
      rcases hmem hx with hx | rfl
      · exact h.waits x hx hst hn
      · cases hst
    · intro x hx k hk hst
      rcases hmem hx with hx | rfl
      · exact h.asked x hx k hk hst
      · cases hk; exact hlog
    · intro i
      show Opn (update id _ (insert id .awaitOpen c.entries)) i ↔ Live c.log i
      rw [← h.opened i]
      constructor
      · rintro ⟨x, hx, a, b⟩
        rcases hmem hx with hx | rfl
        · exact ⟨x, hx, a, b⟩
        · cases b
      · rintro ⟨x, hx, a⟩
        exact ⟨x, mem_update_other (insert_keeps id _ _ x hx) (find_none hnone x hx), a⟩
  | adopted id cfg e hf hst hc =>
    obtain ⟨he, hi⟩ := find_some hf
    have hmem : ∀ {x}, x ∈ update id (fun e => { e with config := some cfg, state := .opened }) c.entries →
        (x ∈ c.entries ∧ x.id ≠ id) ∨ x = { e with config := some cfg, state := .opened } := by
      intro x hx
      rcases update_mem hx with hx | ⟨y, hy, hyi, rfl⟩
      · exact .inl hx
      · rw [find_unique h.sorted hf hy hyi]
        exact .inr rfl
    have hno : ¬ Live c.log id := by
      rw [← h.opened]
      rintro ⟨x, hx, hxi, hxs⟩
      rw [find_unique h.sorted hf hx hxi, hst] at hxs
      cases hxs
    refine ⟨hsort, ?_, ?_, ?_, ?_, ?_, ?_, ?_⟩
    · intro x hx hn
      rcases hmem hx with ⟨hx, _⟩ | rfl
      · exact h.config x hx hn
      · cases hn
    · intro x hx hst hn
      rcases hmem hx with ⟨hx, _⟩ | rfl
      · exact h.waits x hx hst hn
      · cases hst
    · intro x hx k hk hs2
      rcases hmem hx with ⟨hx, _⟩ | rfl
      · exact List.mem_append.2 (.inl (h.asked x hx k hk hs2))
      · simp at hs2
    · intro i
      show Opn (update id _ c.entries) i ↔ Live (c.log ++ [.adopted id]) i
      by_cases hid : i = id
      · subst hid
        exact ⟨fun _ => Live.snoc_open (.inl rfl), fun _ => ⟨_, mem_update_self he hi, hi, rfl⟩⟩
      · rw [Live.snoc_iff (by simp) (by simp; exact fun hh => hid hh.symm), ← h.opened i]
        constructor
        · rintro ⟨x, hx, a, b⟩
          rcases hmem hx with ⟨hx, _⟩ | rfl
          · exact ⟨x, hx, a, b⟩
          · exact absurd (a.symm.trans hi) hid
        · rintro ⟨x, hx, a, b⟩
          exact ⟨x, mem_update_other hx (by rw [a]; exact hid), a, b⟩
    · intro l₁ i l₂ m hsp hm
      rcases snoc_split hsp with ⟨_, h1, rfl⟩ | ⟨b', _, h2⟩
      · rcases hm with hm | ⟨_, hm⟩
        · cases hm
          rw [← h1]
          exact hno
        · cases hm
      · exact h.alternate l₁ i b' m h2 hm
    · intro l₁ i lab l₂ hsp
      rcases snoc_split hsp with ⟨_, h1, h2⟩ | ⟨b', _, h2⟩
      · cases h2
      · exact h.label l₁ i lab b' h2
    · intro l₁ i l₂ hsp
      rcases snoc_split hsp with ⟨_, _, h2⟩ | ⟨b', rfl, h2⟩
      · cases h2
      · rcases h.held l₁ i b' h2 with a | a | a | a
        · exact .inl a
        · exact .inr (.inl a)
        · exact .inr (.inr (.inl (List.mem_append.2 (.inl a))))
        · exact .inr (.inr (.inr (List.mem_append.2 (.inl a))))

theorem Inv.new (env : Env W) (w : W) : Inv env (Sctp.new w).core where
  sorted := .nil
  config e he := by cases he
  waits e he := by cases he
  asked e he := by cases he
  opened id := by
    constructor
    · rintro ⟨e, he, _⟩; cases he
    · rintro ⟨a, n, b, h, _⟩
      simp [Sctp.core, Sctp.new] at h
  alternate a id b n h := by simp [Sctp.core, Sctp.new] at h
  label a id l b h := by simp [Sctp.core, Sctp.new] at h
  held a id b h := by simp [Sctp.core, Sctp.new] at h

theorem run_inv {env : Env W} {fuel : Nat} {ops : List (Op W)} {w : W} {s : Sctp W} (h : run env fuel (Sctp.new w) ops = some s) : Inv env s.core :=
  (run_steps env fuel ops (Sctp.new w) s List.Pairwise.nil h).inv Inv.micro (Inv.new env w)

/-- **C98** (open). In any history from the beginning, whatever sctp-proto and the peer do: a stream can be written to exactly if the
association is established and the stream was said to be open, or was taken over by `open_stream`, and not said to be closed since. -/
theorem C98_open (env : Env W) (fuel : Nat) (w : W) (ops : List (Op W)) (s : Sctp W) (h : run env fuel (Sctp.new w) ops = some s) (id : Nat) :
    isOpen s id = true ↔ s.conn = .established ∧ Live s.log id := by
  have hi := run_inv h
  rw [show Live s.log id ↔ Opn s.entries id from (hi.opened id).symm]
  unfold isOpen
  simp only [Bool.and_eq_true, decide_eq_true_eq]
  refine and_congr_right (fun _ => ?_)
  constructor
  · intro hh
    split at hh
    · rename_i e he
      obtain ⟨h1, h2⟩ := find_some he
      exact ⟨e, h1, h2, by simpa using hh⟩
    · cases hh
  · rintro ⟨e, h1, h2, h3⟩
    have := hi.sorted.find h1
    rw [h2] at this
    rw [show find s.entries id = some e from this]
    simpa using h3

/-- **C98** (alternation). No stream is said to be open, or taken over, that is open: between two times there is `Close` of it. -/
theorem C98_alternate (env : Env W) (fuel : Nat) (w : W) (ops : List (Op W)) (s : Sctp W) (h : run env fuel (Sctp.new w) ops = some s)
    (l₁ l₂ : List Note) (id : Nat) (n : Note) (hl : s.log = l₁ ++ n :: l₂) (hn : n = .adopted id ∨ ∃ label, n = .event (.opened id label)) : ¬ Live l₁ id :=
  (run_inv h).alternate l₁ id l₂ n hl hn

/-- **C98** (label). The label that is told with `Open` is the one the application asked this stream to be opened with before, or the one in a
`DATA_CHANNEL_OPEN` message of the peer on this stream. -/
theorem C98_label (env : Env W) (fuel : Nat) (w : W) (ops : List (Op W)) (s : Sctp W) (h : run env fuel (Sctp.new w) ops = some s)
    (l₁ l₂ : List Note) (id : Nat) (label : List Byte) (hl : s.log = l₁ ++ .event (.opened id label) :: l₂) :
    AskedLabel l₁ id label ∨ ∃ d, PeerOpened env id d ∧ d.label = label :=
  (run_inv h).label l₁ id label l₂ hl

/-- **C102**. A stream that is said to be closed with its reset pending is not forgotten: until the number is said to be reset, or the
association to be lost, it is kept as waiting for the peer or to be told next. -/
theorem C102_held (env : Env W) (fuel : Nat) (w : W) (ops : List (Op W)) (s : Sctp W) (h : run env fuel (Sctp.new w) ops = some s)
    (l₁ l₂ : List Note) (id : Nat) (hl : s.log = l₁ ++ .event (.closed id true) :: l₂) :
    id ∈ s.pending ∨ id ∈ s.complete ∨ Note.event (.resetComplete id) ∈ l₂ ∨ Note.event .lost ∈ l₂ :=
  (run_inv h).held l₁ id l₂ hl

/-- What becomes of an entry. -/
inductive After (c c' : Core) (e : Entry) : Prop
  | same (e') (h : e' ∈ c'.entries) (hi : e'.id = e.id) (hm : e.doClose = true → e'.doClose = true)
      (hs : e'.state = e.state) (hd : ∀ d, e.deadline = some d → e.state = .awaitOpen → e'.deadline = some d) (x) (hl : c'.log = c.log ++ x)
  | sent (e') (h : e' ∈ c'.entries) (hi : e'.id = e.id) (hm : e.doClose = true → e'.doClose = true)
      (hs : e.state = .awaitOpen) (hs' : e'.state = .awaitAck) (hl : c'.log = c.log)
  | opened (e') (h : e' ∈ c'.entries) (hi : e'.id = e.id) (hm : e.doClose = true → e'.doClose = true) (hs : e.state ≠ .opened)
      (hs' : e'.state = .opened) (n) (hn : n = .adopted e.id ∨ ∃ label, n = .event (.opened e.id label)) (hl : c'.log = c.log ++ [n])
  | closed (b) (hl : c'.log = c.log ++ [.event (.closed e.id b)])

theorem After.stay {c c' : Core} {e : Entry} (h : e ∈ c'.entries) (x) (hl : c'.log = c.log ++ x) : After c c' e :=
  .same e h rfl (fun h => h) rfl (fun _ h _ => h) x hl

theorem forall₂_mem' {es es' : List Entry} (h : List.Forall₂ Same es es') {e : Entry} (he : e ∈ es) : ∃ e' ∈ es', Same e e' := by
  induction h with
  | nil => cases he
  | cons hh _ ih =>
    rcases List.mem_cons.1 he with rfl | he
    · exact ⟨_, List.mem_cons_self, hh⟩
    · obtain ⟨e, h1, h2⟩ := ih he
      exact ⟨e, List.mem_cons_of_mem _ h1, h2⟩

theorem split_keep {es₁ es₂ : List Entry} {e e' x : Entry} (hx : x ∈ es₁ ++ e :: es₂) : x = e ∨ x ∈ es₁ ++ e' :: es₂ := by
  simp only [List.mem_append, List.mem_cons] at *
  tauto

theorem Micro.after {env : Env W} {c c' : Core} (hm : Micro env c c') (h : Inv env c) (e : Entry) (he : e ∈ c.entries) (hs : e.state ≠ .closed) : After c c' e := by
  cases hm with
  | conn | conn2 | time | hold | release => exact .stay he [] (by simp)
  | called id cfg => exact .stay he _ rfl
  | closeCall id => exact .stay he _ rfl
  | touch es ht =>
    obtain ⟨e', h1, h2⟩ := forall₂_mem' ht he
    rcases h2.state with h3 | ⟨h3, h4, _⟩
    · exact .same e' h1 h2.hid h2.doClose h3 (fun d hd ho => h2.deadline d hd (h3.trans ho)) [] (by simp)
    · exact .sent e' h1 h2.hid h2.doClose h3 h4 rfl
  | drop => exact .stay (List.mem_filter.2 ⟨he, by simpa using hs⟩) [] (by simp)
  | found id => exact .stay (insert_keeps id _ _ e he) [] (by simp)
  | new id cfg hn _ => exact .stay (mem_update_other (insert_keeps id _ _ e he) (find_none hn e he)) [] (by simp)
  | adopted id cfg x hf hst hc =>
    by_cases hi : e.id = id
    · have := find_unique h.sorted hf he hi
      subst this
      exact .opened _ (mem_update_self he hi) rfl (fun h => h) (by rw [hst]; simp) rfl _ (.inl (by rw [hi])) rfl
    · exact .stay (mem_update_other he hi) _ rfl
  | event ev c1 hf =>
    cases hf with
    | transmit | low | lost | reset | data => exact .stay he _ rfl
    | opened es₁ x x' es₂ cfg label hl hx hst hi hs' hc hk hd =>
      rw [hx] at he
      rcases split_keep (e' := x') he with rfl | he
      · refine .opened x' (by simp) hi hd ?_ hs' _ (.inr ⟨label, rfl⟩) rfl
        rcases hst with hst | ⟨hst | hst, _⟩ <;> (rw [hst]; simp)
      · exact .stay he _ rfl
    | closed es₁ x x' es₂ p hx hst hi hs' hp =>
      rw [hx] at he
      rcases split_keep (e' := x') he with rfl | he
      · exact .closed _ rfl
      · exact .stay he _ rfl

/-- The open stream that was closed is marked until it is said to be closed. -/
def Marked (c : Core) : Prop := ∀ l₁ id l₂, c.log = l₁ ++ .closeCall id :: l₂ → Live l₁ id →
  (∃ e ∈ c.entries, e.id = id ∧ e.doClose = true ∧ e.state = .opened) ∨ ∃ b, Note.event (.closed id b) ∈ l₂

theorem Marked.micro {env : Env W} (c c' : Core) (hm : Micro env c c') (h : Inv env c ∧ Marked c) : Inv env c' ∧ Marked c' := by
  refine ⟨Inv.micro c c' hm h.1, ?_⟩
  obtain ⟨hi, h⟩ := h
  intro l₁ id l₂ hl hlive
  -- the log grew
  have grew : ∃ x, c'.log = c.log ++ x ∧ ((x = [] ∨ ∃ n, x = [n])) ∧ (Note.closeCall id ∈ x → x = [.closeCall id] ∧ ∀ e ∈ c'.entries, e.id = id → e.doClose = true) := by
    cases hm with
    | conn | conn2 | time | hold | release | touch | drop | found | new => exact ⟨[], by simp, .inl rfl, by simp⟩
    | called i k => exact ⟨_, rfl, .inr ⟨_, rfl⟩, by simp⟩
    | closeCall i hh => exact ⟨_, rfl, .inr ⟨_, rfl⟩, fun hx => by simp at hx; subst hx; exact ⟨rfl, hh⟩⟩
    | adopted i k e => exact ⟨_, rfl, .inr ⟨_, rfl⟩, by simp⟩
    | event ev c1 hf => exact ⟨[.event ev], by cases hf <;> rfl, .inr ⟨_, rfl⟩, by simp⟩
  obtain ⟨x, hx, hx1, hx2⟩ := grew
  have old : ∀ l₂', c.log = l₁ ++ .closeCall id :: l₂' → l₂ = l₂' ++ x →
      (∃ e ∈ c'.entries, e.id = id ∧ e.doClose = true ∧ e.state = .opened) ∨ ∃ b, Note.event (.closed id b) ∈ l₂ := by
    intro l₂' h1 h2
    rcases h l₁ id l₂' h1 hlive with ⟨e, he, hid, hd, hst⟩ | ⟨b, hb⟩
    · rcases hm.after hi e he (by rw [hst]; simp) with ⟨e', a1, a2, a3, a4, _⟩ | ⟨_, _, _, _, a, _⟩ | ⟨_, _, _, _, a, _⟩ | ⟨b, a⟩
      · exact .inl ⟨e', a1, a2.trans hid, a3 hd, a4.trans hst⟩
      · rw [hst] at a; cases a
      · exact absurd hst a
      · right
        have : x = [.event (.closed e.id b)] := List.append_cancel_left (hx.symm.trans a)
        exact ⟨b, by rw [h2, this, hid]; simp⟩
    · exact .inr ⟨b, by rw [h2]; exact List.mem_append.2 (.inl hb)⟩
  rcases hx1 with rfl | ⟨n, rfl⟩
  · exact old l₂ (by rw [← hl, hx]; simp) (by simp)
  · rw [hx] at hl
    rcases snoc_split hl with ⟨rfl, h1, h2⟩ | ⟨b', rfl, h2⟩
    · subst h2
      obtain ⟨_, hall⟩ := hx2 (by simp)
      left
      rw [← h1] at hlive
      obtain ⟨e, he, hid, hst⟩ := (hi.opened id).2 hlive
      rcases hm.after hi e he (by rw [hst]; simp) with ⟨e', a1, a2, a3, a4, _⟩ | ⟨_, _, _, _, a, _⟩ | ⟨_, _, _, _, a, _⟩ | ⟨b, a⟩
      · exact ⟨e', a1, a2.trans hid, hall e' a1 (a2.trans hid), a4.trans hst⟩
      · rw [hst] at a; cases a
      · exact absurd hst a
      · have := List.append_cancel_left (hx.symm.trans a)
        simp at this
    · exact old b' h2 rfl

theorem run_marked {env : Env W} {fuel : Nat} {ops : List (Op W)} {w : W} {s : Sctp W} (h : run env fuel (Sctp.new w) ops = some s) : Marked s.core := by
  refine ((run_steps env fuel ops (Sctp.new w) s List.Pairwise.nil h).inv (P := fun c => Inv env c ∧ Marked c) Marked.micro ⟨Inv.new env w, ?_⟩).2
  intro l₁ id l₂ hl
  simp [Sctp.core, Sctp.new] at hl

theorem closeEntry_stop (env : Env W) (e : Entry) (p : List Nat) (w : W) : (closeEntry env e p w).1 ≠ .go := by
  unfold closeEntry
  simp

theorem considerOpen_stop (e : Entry) (p : List Nat) (w : W) : (considerOpen e p w).1 ≠ .go := by
  unfold considerOpen
  split
  · simp
  · split <;> simp

theorem openEntry_go (env : Env W) (now : Nat) (e : Entry) (p : List Nat) (w : W) (h : (openEntry env now e p w).1 = .go) :
    ∃ d, (openEntry env now e p w).2.1.deadline = some d ∧ now < d := by
  revert h
  unfold openEntry
  split
  · dsimp only
    split
    · intro h; cases h
    · intro h; exact absurd h (closeEntry_stop _ _ _ _)
    · split
      · intro h; cases h
      · split
        · split
          · split
            · intro h; cases h
            · intro h; exact absurd h (closeEntry_stop _ _ _ _)
          · intro h; cases h
        · intro h; exact absurd h (considerOpen_stop _ _ _)
  · intro h; exact absurd h (closeEntry_stop _ _ _ _)
  · split
    · intro h; cases h
    · split
      · dsimp only
        split
        · rename_i hlt
          intro _; exact ⟨_, rfl, hlt⟩
        · intro h; exact absurd h (closeEntry_stop _ _ _ _)
      · split
        · intro h; cases h
        · split
          · intro h; cases h
          · intro h; exact absurd h (closeEntry_stop _ _ _ _)
          · intro h; exact absurd h (considerOpen_stop _ _ _)
  · split
    · intro h; cases h
    · dsimp only
      split
      · rename_i hlt
        intro _; exact ⟨_, rfl, hlt⟩
      · intro h; exact absurd h (closeEntry_stop _ _ _ _)

theorem stepEntry_go (env : Env W) (now : Nat) (e : Entry) (p : List Nat) (w : W) (hn : e.state ≠ .closed) (h : (stepEntry env now e p w).1 = .go) :
    (e.doClose = true → e.state = .awaitOpen) ∧ ((stepEntry env now e p w).2.1.state = .awaitOpen → ∃ d, (stepEntry env now e p w).2.1.deadline = some d ∧ now < d) := by
  by_cases hs : e.state = .awaitOpen
  · refine ⟨fun _ => hs, fun _ => ?_⟩
    have he : stepEntry env now e p w = openEntry env now e p w := by unfold stepEntry; rw [if_pos hs]
    rw [he] at h ⊢
    exact openEntry_go env now e p w h
  · have hd := stepEntry_done env now e p w hn
    rw [h] at hd
    refine ⟨fun hc => ?_, fun ho => ?_⟩
    · exfalso
      unfold stepEntry at h
      rw [if_neg hs, if_pos (by rw [hc]; simpa using hn)] at h
      exact closeEntry_stop _ _ _ _ h
    · exfalso
      revert hd ho
      generalize (stepEntry env now e p w).2.1 = e'
      generalize (stepEntry env now e p w).2.2.1 = p'
      intro hd ho
      cases hd with
      | go _ hsame =>
        rcases hsame.state with hh | ⟨_, hh, _⟩
        · exact hs (hh ▸ ho)
        · rw [ho] at hh; cases hh

theorem loop_go (env : Env W) (now : Nat) : ∀ (es : List Entry) (p : List Nat) (w : W), Fresh es → (loopEntries env now es p w).1 = .go →
    (∀ e ∈ es, e.doClose = true → e.state = .awaitOpen) ∧
    ∀ e ∈ (loopEntries env now es p w).2.1, e.state = .awaitOpen → ∃ d, e.deadline = some d ∧ now < d := by
  intro es
  induction es with
  | nil =>
    intro p w _ _
    refine ⟨fun e he => (by cases he), ?_⟩
    intro e he
    cases he
  | cons e es ih =>
    intro p w hf h
    have hg := stepEntry_go env now e p w (hf e List.mem_cons_self)
    rw [loopEntries] at h ⊢
    revert h hg
    generalize stepEntry env now e p w = x
    obtain ⟨n, e', p', w'⟩ := x
    intro h hg
    cases n with
    | go =>
      dsimp only at h hg ⊢
      obtain ⟨g1, g2⟩ := hg rfl
      obtain ⟨i1, i2⟩ := ih p' w' (fun y hy => hf y (List.mem_cons_of_mem _ hy)) h
      refine ⟨fun y hy => ?_, fun y hy => ?_⟩
      · rcases List.mem_cons.1 hy with rfl | hy
        · exact g1
        · exact i1 y hy
      · rcases List.mem_cons.1 hy with rfl | hy
        · exact g2
        · exact i2 y hy
    | restart => cases h
    | stop => cases h
    | panic => cases h

/-- Those that are to be closed stay so. -/
def Keep (es es' : List Entry) : Prop := (∃ e ∈ es, e.doClose = true ∧ e.state ≠ .awaitOpen ∧ e.state ≠ .closed) →
  ∃ e ∈ es', e.doClose = true ∧ e.state ≠ .awaitOpen ∧ e.state ≠ .closed

theorem keep_same {es es' : List Entry} (h : List.Forall₂ Same es es') : Keep es es' := by
  rintro ⟨e, he, h1, h2, h3⟩
  obtain ⟨e', he', hs⟩ := forall₂_mem' h he
  refine ⟨e', he', hs.doClose h1, ?_⟩
  rcases hs.state with hh | ⟨hh, _⟩
  · rw [hh]; exact ⟨h2, h3⟩
  · exact absurd hh h2

theorem events_keep (env : Env W) : ∀ (fuel : Nat) (s s' : Sctp W) (n : Next), events env fuel s = some (n, s') →
    Keep s.entries s'.entries ∧ (s.conn = .established → s'.conn = .established) ∧ s'.hasAssoc = s.hasAssoc ∧ s'.now = s.now := by
  intro fuel
  induction fuel with
  | zero => intro s s' n h; simp [events] at h
  | succ k ih =>
    intro s s' n h
    rw [events] at h
    rcases hp : env.poll s.world with ⟨o, w⟩
    rw [hp] at h
    cases o with
    | none => cases h; exact ⟨fun h => h, fun h => h, rfl, rfl⟩
    | some ev =>
      cases ev with
      | connected => cases h; exact ⟨fun h => h, fun h => rfl, rfl, rfl⟩
      | lost => cases h; exact ⟨fun h => h, fun h => h, rfl, rfl⟩
      | low id => cases h; exact ⟨fun h => h, fun h => h, rfl, rfl⟩
      | other =>
        dsimp only at h
        exact ih { s with world := w } s' n h
      | readable id =>
        dsimp only at h
        obtain ⟨a, b⟩ := ih _ _ _ h
        refine ⟨fun hk => a ?_, b⟩
        obtain ⟨e, he, hh⟩ := hk
        exact ⟨e, insert_keeps id _ _ e he, hh⟩
      | resetComplete id =>
        dsimp only at h
        obtain ⟨a, b⟩ := ih _ _ _ h
        exact ⟨a, b⟩
      | finished id =>
        dsimp only at h
        obtain ⟨a, b⟩ := ih _ _ _ h
        refine ⟨fun hk => a (keep_same (forall₂_update id _ _ (fun e _ _ => ?_)) hk), b⟩
        split
        · exact ⟨rfl, .inl rfl, .inl rfl, fun _ => rfl, fun _ h _ => h⟩
        · exact Same.refl e

theorem doPoll_nothing (env : Env W) : ∀ (fuel : Nat) (s s' : Sctp W), doPoll env fuel s = some (.nothing, s') → s.conn = .established → s.hasAssoc = true →
    (¬ ∃ e ∈ s.entries, e.doClose = true ∧ e.state ≠ .awaitOpen ∧ e.state ≠ .closed) ∧
    (∀ e ∈ s'.entries, e.state = .awaitOpen → ∃ d, e.deadline = some d ∧ s.now < d) ∧ s'.now = s.now := by
  intro fuel
  induction fuel with
  | zero => intro s s' h; simp [doPoll] at h
  | succ k ih =>
    intro s s' h hc ha
    have hret : Keep s.entries (retain s.entries) := by
      rintro ⟨e, he, h1, h2, h3⟩
      exact ⟨e, List.mem_filter.2 ⟨he, by simpa using h3⟩, h1, h2, h3⟩
    rw [doPoll, if_neg (by rw [hc]; simp)] at h
    dsimp only at h
    split at h
    · cases h
    · rename_i w _
      rw [if_neg (by simp [hc]), if_neg (by simp [ha])] at h
      split at h
      · cases h
      · rename_i s1 he
        obtain ⟨a, b, d, e⟩ := events_keep env _ _ _ _ he
        obtain ⟨x, y, z⟩ := ih _ _ h (b hc) (d.trans ha)
        have e : s1.now = s.now := e
        rw [e] at y z
        exact ⟨fun hk => x (a (hret hk)), y, z⟩
      · cases h
      · cases h
      · rename_i s1 he
        obtain ⟨a, b, d, e⟩ := events_keep env _ _ _ _ he
        obtain ⟨_, hf, _⟩ := events_steps env _ _ _ _ (by exact Fresh.retain s.entries) he
        have b : s1.conn = .established := b hc
        have e : s1.now = s.now := e
        rw [if_neg (by simp [b])] at h
        have hl := loopEntries_done env s1.now s1.entries s1.pending s1.world hf
        have hg := loop_go env s1.now s1.entries s1.pending s1.world hf
        revert h hl hg
        generalize loopEntries env s1.now s1.entries s1.pending s1.world = r
        obtain ⟨n, es, p, w'⟩ := r
        intro h hl hg
        dsimp only at hl hg
        cases n with
        | restart =>
          dsimp only at h
          cases hl with
          | restart _ hs =>
            obtain ⟨x, y, z⟩ := ih _ _ h b (d.trans ha)
            rw [show ({ s1 with entries := es, pending := s1.pending, world := w' } : Sctp W).now = s.now from e] at y z
            exact ⟨fun hk => x (keep_same hs (a (hret hk))), y, z⟩
        | go =>
          dsimp only at h
          obtain ⟨g1, g2⟩ := hg rfl
          split at h
          · cases h
          · cases h
            refine ⟨fun hk => ?_, ?_, e⟩
            · obtain ⟨q, hq, h1, h2, _⟩ := a (hret hk)
              exact h2 (g1 q hq h1)
            · rw [← e]
              exact g2
        | panic => cases h
        | stop => cases h

theorem poll_nothing {env : Env W} {fuel : Nat} {s s' : Sctp W} (h : poll env fuel s = some (.nothing, s')) : doPoll env fuel s = some (.nothing, s') := by
  unfold poll at h
  split at h
  · cases h
  · cases h
  · rename_i hd
    cases h
    exact hd

/-- **C99**. In any history: if an open stream was closed with `close_stream`, and `poll` has nothing more to tell while the association is
established, then `Close` of the stream was told after the call. -/
theorem C99_told (env : Env W) (fuel : Nat) (w : W) (ops : List (Op W)) (s s' : Sctp W) (h : run env fuel (Sctp.new w) ops = some s)
    (hp : poll env fuel s = some (.nothing, s')) (hc : s.conn = .established) (ha : s.hasAssoc = true)
    (l₁ l₂ : List Note) (id : Nat) (hl : s.log = l₁ ++ .closeCall id :: l₂) (hlive : Live l₁ id) : ∃ b, Note.event (.closed id b) ∈ l₂ := by
  rcases run_marked h l₁ id l₂ hl hlive with ⟨e, he, _, hd, hs⟩ | hb
  · exact absurd ⟨e, he, hd, by rw [hs]; simp, by rw [hs]; simp⟩ (doPoll_nothing env fuel s s' (poll_nothing hp) hc ha).1
  · exact hb

/-- **C100** (deadline). When `poll` has nothing more to tell while the association is established, every stream that still waits to be opened has a
deadline, which is not over, and is to be asked again within half a second. -/
theorem C100_deadline (env : Env W) (fuel : Nat) (s s' : Sctp W) (timer : Option Nat)
    (hp : poll env fuel s = some (.nothing, s')) (hc : s.conn = .established) (ha : s.hasAssoc = true)
    (e : Entry) (he : e ∈ s'.entries) (hs : e.state = .awaitOpen) :
    (∃ d, e.deadline = some d ∧ s'.now < d) ∧ ∃ t, pollTimeout s' timer = some t ∧ t ≤ s'.now + 500 * 10^6 := by
  obtain ⟨_, h2, h3⟩ := doPoll_nothing env fuel s s' (poll_nothing hp) hc ha
  obtain ⟨d, hd, hlt⟩ := h2 e he hs
  refine ⟨⟨d, hd, by rw [h3]; exact hlt⟩, ?_⟩
  have hany : s'.entries.any (fun e => decide (e.state = .awaitOpen) && e.deadline.isSome) = true :=
    List.any_eq_true.2 ⟨e, he, by simp [hs, hd]⟩
  unfold pollTimeout
  rw [hany]
  simp only [if_true]
  cases timer with
  | none => exact ⟨_, rfl, le_refl _⟩
  | some a => exact ⟨_, rfl, Nat.min_le_right _ _⟩

/-- The attempt goes on, or something was told of the stream. -/
def Attempt (k : Nat) (id d : Nat) (c : Core) : Prop :=
  k ≤ c.log.length ∧ ((∃ e ∈ c.entries, e.id = id ∧ ((e.state = .awaitOpen ∧ e.deadline = some d) ∨ e.state = .awaitAck)) ∨
  ∃ n ∈ c.log.drop k, n = .adopted id ∨ (∃ label, n = .event (.opened id label)) ∨ ∃ b, n = .event (.closed id b))

theorem Attempt.micro {env : Env W} {k id d : Nat} (c c' : Core) (hm : Micro env c c') (h : Inv env c ∧ Attempt k id d c) : Inv env c' ∧ Attempt k id d c' := by
  refine ⟨Inv.micro c c' hm h.1, ?_⟩
  obtain ⟨hi, hk, h⟩ := h
  have grew : ∃ x, c'.log = c.log ++ x := by
    cases hm with
    | conn | conn2 | time | hold | release | touch | drop | found | new => exact ⟨[], by simp⟩
    | called i k => exact ⟨_, rfl⟩
    | closeCall i hh => exact ⟨_, rfl⟩
    | adopted i k e => exact ⟨_, rfl⟩
    | event ev c1 hf => exact ⟨[.event ev], by cases hf <;> rfl⟩
  obtain ⟨x, hx⟩ := grew
  have hlen : k ≤ c'.log.length := by rw [hx, List.length_append]; omega
  refine ⟨hlen, ?_⟩
  have hdrop : c'.log.drop k = c.log.drop k ++ x := by rw [hx, List.drop_append_of_le_length hk]
  rcases h with ⟨e, he, hid, hst⟩ | ⟨n, hn, hh⟩
  · have hnc : e.state ≠ .closed := by rcases hst with ⟨h, _⟩ | h <;> (rw [h]; simp)
    rcases hm.after hi e he hnc with ⟨e', a1, a2, a3, a4, a5, _⟩ | ⟨e', a1, a2, _, _, a3, _⟩ | ⟨e', a1, a2, a3, a4, a5, n, a6, a7⟩ | ⟨b, a⟩
    · left
      refine ⟨e', a1, a2.trans hid, ?_⟩
      rcases hst with ⟨h1, h2⟩ | h1
      · exact .inl ⟨a4.trans h1, a5 d h2 h1⟩
      · exact .inr (a4.trans h1)
    · exact .inl ⟨e', a1, a2.trans hid, .inr a3⟩
    · right
      have : x = [n] := List.append_cancel_left (hx.symm.trans a7)
      subst this
      rw [hid] at a6
      exact ⟨n, by rw [hdrop]; simp, a6.elim .inl (fun h => .inr (.inl h))⟩
    · right
      have : x = [.event (.closed e.id b)] := List.append_cancel_left (hx.symm.trans a)
      subst this
      rw [hid] at hdrop
      exact ⟨_, by rw [hdrop]; simp, .inr (.inr ⟨b, rfl⟩)⟩
  · exact .inr ⟨n, by rw [hdrop]; exact List.mem_append.2 (.inl hn), hh⟩

/-- **C100** (in time). Let a stream wait to be opened again until `d`. In every continuation: when the time is `d` and `poll` has nothing more to tell
while the association is established, either `DATA_CHANNEL_OPEN` was sent and its answer is awaited, or `Open` or `Close` of the stream was told since. -/
theorem C100_in_time (env : Env W) (fuel : Nat) (w : W) (ops ops' : List (Op W)) (s₀ s s' : Sctp W) (h₀ : run env fuel (Sctp.new w) ops = some s₀)
    (h : run env fuel s₀ ops' = some s) (e : Entry) (he : e ∈ s₀.entries) (hs : e.state = .awaitOpen) (d : Nat) (hd : e.deadline = some d)
    (hp : poll env fuel s = some (.nothing, s')) (hc : s.conn = .established) (ha : s.hasAssoc = true) (ht : d ≤ s.now) :
    (∃ x ∈ s'.entries, x.id = e.id ∧ x.state = .awaitAck) ∨
    ∃ n ∈ s'.log.drop s₀.log.length, n = .adopted e.id ∨ (∃ label, n = .event (.opened e.id label)) ∨ ∃ b, n = .event (.closed e.id b) := by
  have hi₀ := run_inv h₀
  have a := run_steps env fuel ops' s₀ s hi₀.sorted h
  have b := poll_steps env fuel s s' _ hp (by simp)
  obtain ⟨_, _, hh⟩ := Steps.inv (P := fun c => Inv env c ∧ Attempt s₀.log.length e.id d c) Attempt.micro (a.trans b)
    ⟨hi₀, le_refl _, .inl ⟨e, he, rfl, .inl ⟨hs, hd⟩⟩⟩
  obtain ⟨_, h2, h3⟩ := doPoll_nothing env fuel s s' (poll_nothing hp) hc ha
  rcases hh with ⟨x, hx, hid, ⟨h5, h6⟩ | h5⟩ | hh
  · obtain ⟨d', h7, h8⟩ := h2 x hx h5
    rw [h6] at h7
    cases h7
    omega
  · exact .inl ⟨x, hx, hid, h5⟩
  · exact .inr hh

theorem openMessage_ok (c : Config) (h : c.label.length + c.protocol.length ≤ 1488) : ∃ b, Channel.openMessage c = .ok b := by
  unfold Channel.openMessage DcepOpen.marshal
  rw [if_neg (by simp only [Config.toDcep]; omega)]
  exact ⟨_, rfl⟩

/-- **C101**. In any history in which each configuration given to `open_stream` fits the message that opens a stream, and with an sctp-proto that
has the streams it says exist, `poll` does not panic, whatever the peer sends; nor do `write` and the threshold on an open stream. -/
theorem C101_no_panic (env : Env W) (he : Honest env) (fuel : Nat) (w : W) (ops : List (Op W)) (s s' : Sctp W) (h : run env fuel (Sctp.new w) ops = some s)
    (hf : Fits s.log) : poll env fuel s ≠ some (.panic, s') ∧
    ∀ id, isOpen s id = true → (∀ b buf, write env s id b buf ≠ none) ∧ ∀ n, setThreshold s id n ≠ none := by
  have hi := run_inv h
  constructor
  · intro hp
    obtain ⟨c, e, a, hm, hb, hl⟩ := poll_panic env fuel s s' hp
    have hc : Inv env c := Steps.inv Inv.micro a hi
    obtain ⟨hs, hb⟩ := hb
    have hne : e.config ≠ none := by
      intro hn
      rcases hc.config e hm hn with h1 | h1 <;> (rcases hs with h2 | h2 <;> (rw [h2] at h1; cases h1))
    rcases hb with hb | ⟨hst, cfg, h1, h2⟩ | ⟨w, h1, h2⟩
    · exact hne hb
    · have := hc.asked e hm cfg h1 hs
      rw [hl] at this
      obtain ⟨b, hb⟩ := openMessage_ok cfg (hf e.id cfg this)
      exact h2 b hb
    · rw [he e.id w h1] at h2
      cases h2
  · intro id ho
    unfold isOpen at ho
    simp only [Bool.and_eq_true] at ho
    obtain ⟨_, ho⟩ := ho
    split at ho
    · rename_i e hfd
      refine ⟨fun b buf => ?_, fun n => ?_⟩
      · unfold write
        split
        · simp
        · rw [hfd]
          dsimp only
          split
          · simp
          · split <;> simp
      · unfold setThreshold
        rw [hfd]
        simp
    · cases ho

end Str0m.SctpStreams
