import Verif.Props.SdpApi

/-!
C114, C115 and C117: what single calls put into the list of changes, and what an accepted answer does to new channels.
-/

namespace Str0m.SdpApi
open Str0m.Negotiate (Dir)
open Str0m.Channel (Handler)

theorem firstRestart_one (cs : List Change) (c : Nat) :
    firstRestart (cs.filter (fun c => !c.isRestart) ++ [.restart c]) = some c := by
  have : ∀ l : List Change, (∀ x ∈ l, ∀ y, x ≠ .restart y) → firstRestart (l ++ [.restart c]) = some c := by
    intro l hl
    induction l with
    | nil => rfl
    | cons x l ih =>
      have hx := hl x (by simp)
      have := ih (fun z hz => hl z (by simp [hz]))
      cases x with
      | restart y => exact absurd rfl (hx y)
      | _ => simpa only [firstRestart, List.cons_append, List.findSome?_cons] using this
  apply this
  intro x hx y hxy
  subst hxy
  simp [Change.isRestart] at hx

/-- Asking for an ICE restart leaves exactly the last one asked for in the changes, every other change stays, and the offer carries the
credentials the application was given. -/
theorem C115_asked (a : Api) (c : Nat) :
    (∀ x, .restart x ∈ (a.iceRestart c).changes ↔ x = c) ∧
    (∀ x : Change, (∀ y, x ≠ .restart y) → (x ∈ (a.iceRestart c).changes ↔ x ∈ a.changes)) ∧
    (a.iceRestart c).peer = a.peer ∧
    ∃ p1 offer pend, (a.iceRestart c).apply = .ok (p1, some (offer, pend)) ∧ offer.creds = some c := by
  refine ⟨?_, ?_, rfl, ?_⟩
  · intro x
    simp [Api.iceRestart, Change.isRestart]
  · intro x hx
    cases x with
    | restart y => exact absurd rfl (hx y)
    | _ => simp [Api.iceRestart, Change.isRestart]
  · have hne : (a.iceRestart c).changes ≠ [] := by simp [Api.iceRestart]
    have hn : (a.iceRestart c).changes.any requiresNegotiation = true := by
      simp [Api.iceRestart, requiresNegotiation]
    refine ⟨_, _, _, by unfold Api.apply; rw [if_neg hne, if_pos hn], ?_⟩
    show some ((firstRestart (a.iceRestart c).changes).getD _) = some c
    rw [show firstRestart (a.iceRestart c).changes = some c from ?_]
    · rfl
    · exact firstRestart_one a.changes c

/-- The mids of the lines for data channels the changes ask for -/
def appMids (cs : List Change) : List Nat :=
  cs.filterMap (fun c => match c with
    | .app m => some m
    | _ => none)

theorem containsApp_iff (cs : List Change) : containsApp cs = false ↔ appMids cs = [] := by
  induction cs with
  | nil => simp [containsApp, appMids]
  | cons c cs ih =>
    cases c <;> simp_all [containsApp, appMids]

/-- However many channels are added, the changes ask for at most one line for them: one if the session has none, and none if it has. -/
theorem C114_app (a a' : Api) (mid id : Nat) (want : Option Nat) (h : a.addChannel mid want = .ok (a', id)) :
    (a.peer.sess.app ≠ none → appMids a'.changes = appMids a.changes) ∧
    (a.peer.sess.app = none → appMids a.changes ≠ [] → appMids a'.changes = appMids a.changes) ∧
    (a.peer.sess.app = none → appMids a.changes = [] → appMids a'.changes = [mid]) ∧
    a'.changes.getLast? = some (.channel id) ∧ a'.peer.sess = a.peer.sess := by
  unfold Api.addChannel at h
  dsimp only at h
  split at h
  · rename_i hh hi hn
    simp only [Res.ok.injEq, Prod.mk.injEq] at h
    obtain ⟨h1, rfl⟩ := h
    subst h1
    refine ⟨?_, ?_, ?_, ?_, rfl⟩
    · intro hx
      rw [if_neg (fun h => hx h.1)]
      simp [appMids]
    · intro hx hm
      rw [if_neg (fun h => hm ((containsApp_iff _).1 h.2))]
      simp [appMids]
    · intro hx hm
      rw [if_pos ⟨hx, (containsApp_iff _).2 hm⟩]
      simp only [appMids] at hm ⊢
      simp [List.filterMap_append, hm]
    · simp
  · simp at h
  · simp at h

/-! ### New channels -/

/-- The table of channels has this channel, waiting for nothing but time -/
def Confirmed (h : Handler) (id : Nat) : Prop := ∃ a ∈ h.allocs, a.id = id ∧ a.config = true

/-- The table has this channel -/
def Has (h : Handler) (id : Nat) : Prop := ∃ a ∈ h.allocs, a.id = id

theorem confirm_ok {h : Handler} {id : Nat} (hh : Has h id) :
    ∃ h', h.confirm id = .ok h' ∧ Confirmed h' id ∧ (∀ i, Has h i → Has h' i) ∧ (∀ i, Confirmed h i → Confirmed h' i) ∧
      (∀ i, Confirmed h' i → Confirmed h i ∨ i = id) ∧ (∀ i, Has h' i → Has h i) := by
  obtain ⟨a, ha, rfl⟩ := hh
  refine ⟨_, by unfold Handler.confirm; rw [if_pos (by simp only [List.any_eq_true, decide_eq_true_eq]; exact ⟨a, ha, rfl⟩)], ?_, ?_, ?_, ?_, ?_⟩
  · exact ⟨_, List.mem_map.2 ⟨a, ha, rfl⟩, by simp, by simp⟩
  · rintro i ⟨b, hb, rfl⟩
    refine ⟨_, List.mem_map.2 ⟨b, hb, rfl⟩, ?_⟩
    split <;> rfl
  · rintro i ⟨b, hb, rfl, hc⟩
    refine ⟨_, List.mem_map.2 ⟨b, hb, rfl⟩, ?_, ?_⟩
    · split <;> rfl
    · split
      · rfl
      · exact hc
  · rintro i ⟨b, hb, rfl, hc⟩
    obtain ⟨x, hx, rfl⟩ := List.mem_map.1 hb
    split at hc <;> rename_i hxa
    · right
      rw [if_pos hxa]
      exact hxa
    · left
      rw [if_neg hxa]
      exact ⟨x, hx, rfl, hc⟩
  · rintro i ⟨b, hb, rfl⟩
    obtain ⟨x, hx, rfl⟩ := List.mem_map.1 hb
    refine ⟨x, hx, ?_⟩
    split <;> rfl

theorem confirmAll_ok (ids : List Nat) : ∀ {h : Handler}, (∀ id ∈ ids, Has h id) →
    ∃ h', confirmAll h ids = .ok h' ∧ (∀ id ∈ ids, Confirmed h' id) ∧ (∀ i, Confirmed h i → Confirmed h' i) ∧
      (∀ i, Confirmed h' i → Confirmed h i ∨ i ∈ ids) := by
  induction ids with
  | nil =>
    intro h _
    exact ⟨h, rfl, by simp, fun _ h => h, fun _ h => .inl h⟩
  | cons id ids ih =>
    intro h hh
    obtain ⟨h1, e1, c1, k1, cc1, u1, -⟩ := confirm_ok (hh id (by simp))
    obtain ⟨h2, e2, c2, cc2, u2⟩ := ih (h := h1) (fun i hi => k1 i (hh i (by simp [hi])))
    refine ⟨h2, by simp only [confirmAll, e1, e2], ?_, fun i hi => cc2 i (cc1 i hi), ?_⟩
    · intro i hi
      rcases List.mem_cons.1 hi with rfl | hi
      · exact cc2 _ c1
      · exact c2 i hi
    · intro i hi
      rcases u2 i hi with h' | h'
      · rcases u1 i h' with h' | rfl
        · exact .inl h'
        · exact .inr (by simp)
      · exact .inr (by simp [h'])

theorem mem_newChannels {cs : List Change} {id : Nat} : id ∈ newChannels cs ↔ .channel id ∈ cs := by
  unfold newChannels
  rw [List.mem_reverse, List.mem_filterMap]
  constructor
  · rintro ⟨c, hc, h⟩
    cases c <;> simp at h
    subst h
    exact hc
  · intro h
    exact ⟨_, h, rfl⟩

theorem addIce_keeps (p : Peer) (cr new : Option Nat) : (p.addIce cr new).1.chans = p.chans ∧ (p.addIce cr new).1.sess = p.sess :=
  ⟨addIce_chans p cr new, by
    unfold Peer.addIce
    cases cr with
    | none => rfl
    | some c =>
      dsimp only
      split
      · cases new <;> rfl
      · rfl⟩

/-- An answer that is accepted confirms exactly the channels its offer asked for: those are now waiting for time to pass, and no other
channel is that was not. -/
theorem C117_confirmed (a a' : Peer) (pend : Pending) (answer : Desc) (hh : ∀ id, .channel id ∈ pend.changes → Has a.chans id)
    (h : a.acceptAnswer pend answer = (a', .ok ())) :
    (∀ id, .channel id ∈ pend.changes → Confirmed a'.chans id) ∧
    (∀ id, Confirmed a'.chans id → Confirmed a.chans id ∨ .channel id ∈ pend.changes) := by
  unfold Peer.acceptAnswer at h
  split at h
  · simp at h
  · split at h
    · simp at h
    · split at h
      · simp at h
      · simp at h
      · rename_i p hi
        have hch : p.chans = a.chans := by
          have := (addIce_keeps a answer.creds (firstRestart pend.changes)).1
          rw [hi] at this
          exact this
        obtain ⟨h', e, c, cc, u⟩ := confirmAll_ok (newChannels pend.changes) (h := p.chans)
          (fun id hid => by rw [hch]; exact hh id (mem_newChannels.1 hid))
        split at h
        · simp at h
        · simp at h
        · rename_i s hs
          split at h
          · rename_i h2 e2
            simp only [Prod.mk.injEq, and_true] at h
            subst h
            rw [e] at e2
            simp only [Res.ok.injEq] at e2
            subst e2
            refine ⟨fun id hid => c id (mem_newChannels.2 hid), fun id hid => ?_⟩
            rcases u id hid with h | h
            · rw [hch] at h
              exact .inl h
            · exact .inr (mem_newChannels.1 h)
          · simp at h

/-- Confirming them is never what panics, as long as the table has the channels of the offer: an answer that panics does so before, in
the negotiation. -/
theorem C117_no_panic (a a' : Peer) (pend : Pending) (answer : Desc) (hh : ∀ id, .channel id ∈ pend.changes → Has a.chans id)
    (h : a.acceptAnswer pend answer = (a', .panic)) :
    a.sess.acceptAnswer ⟨pend.changeId, pend.changes.map Change.toNeg⟩ answer.sdp = none := by
  unfold Peer.acceptAnswer at h
  split at h
  · simp at h
  · split at h
    · simp at h
    · split at h
      · simp at h
      · rename_i p hi
        exfalso
        unfold Peer.addIce at hi
        split at hi
        · simp at hi
        · split at hi
          · split at hi <;> simp at hi
          · simp at hi
      · rename_i p hi
        have hk := addIce_keeps a answer.creds (firstRestart pend.changes)
        rw [hi] at hk
        dsimp only at hk
        obtain ⟨h', e, -⟩ := confirmAll_ok (newChannels pend.changes) (h := p.chans)
          (fun id hid => by rw [hk.1]; exact hh id (mem_newChannels.1 hid))
        split at h
        · rename_i hs
          rw [← hk.2]
          exact hs
        · simp at h
        · rw [e] at h
          simp at h

/-- Changes that need no negotiation are in effect at once: channels of a session that has their line are confirmed by the call that makes
the changes, and no others are. -/
theorem C117_direct (a : Api) (hh : ∀ id, .channel id ∈ a.changes → Has a.peer.chans id) (hne : a.changes ≠ [])
    (hall : ∀ c ∈ a.changes, ∃ id, c = .channel id) :
    ∃ p1, a.apply = .ok (p1, none) ∧ (∀ id, .channel id ∈ a.changes → Confirmed p1.chans id) ∧
      (∀ id, Confirmed p1.chans id → Confirmed a.peer.chans id ∨ .channel id ∈ a.changes) := by
  obtain ⟨h', e, c, cc, u⟩ := confirmAll_ok (newChannels a.changes) (h := a.peer.chans) (fun id hid => hh id (mem_newChannels.1 hid))
  have hn : ¬ a.changes.any requiresNegotiation = true := by
    simp only [List.any_eq_true, not_exists, not_and, Bool.not_eq_true]
    intro x hx
    obtain ⟨id, rfl⟩ := hall x hx
    rfl
  refine ⟨_, by unfold Api.apply; rw [if_neg hne, if_neg hn, e], fun id hid => c id (mem_newChannels.2 hid), fun id hid => ?_⟩
  rcases u id hid with h | h
  · exact .inl h
  · exact .inr (mem_newChannels.1 h)

/-! ### Cases -/

/-- Alice asks for two restarts in a row -/
theorem C115_example_asked : ∀ x, .restart x ∈ ((((⟨alice, []⟩ : Api).addMedia 9 .sendRecv [111]).iceRestart 5).iceRestart 6).changes ↔ x = 6 :=
  (C115_asked _ 6).1

/-- A new peer adds two channels: what the changes ask for -/
def twoAdded : Option (List Change) :=
  match (⟨{ localCreds := 10 }, []⟩ : Api).addChannel 5 none with
  | .ok (a, _) =>
    match a.addChannel 6 none with
    | .ok (a, _) => some a.changes
    | _ => none
  | _ => none

theorem C114_example_app : twoAdded.map appMids = some [5] := by decide +kernel

/-- What it has of channels before and after the answer of another to an offer with two of them -/
def channelsAnswered : Option (List (Nat × Bool) × List (Nat × Bool)) :=
  match (⟨{ localCreds := 10 }, []⟩ : Api).addChannel 5 none with
  | .ok (a, _) =>
    match a.addChannel 6 none with
    | .ok (a, _) =>
      match a.apply with
      | .ok (a, some (offer, pend)) =>
        match ({ localCreds := 20 } : Peer).acceptOffer offer 50 with
        | (_, .ok answer) =>
          match a.acceptAnswer pend answer with
          | (a', .ok ()) => some (a.chans.allocs.map (fun x => (x.id, x.config)), a'.chans.allocs.map (fun x => (x.id, x.config)))
          | _ => none
        | _ => none
      | _ => none
    | _ => none
  | _ => none

theorem C117_example_confirmed : channelsAnswered = some ([(0, false), (1, false)], [(0, true), (1, true)]) := by decide +kernel

end Str0m.SdpApi
