import Verif.Spec.SdpApi
import Verif.Props.NegotiateRounds

/-!
C114-C118: the SDP API as the application uses it.
-/

namespace Str0m.SdpApi
open Str0m.Negotiate (Dir Sess Media Sdp Placed)

/-! ### C114 -/

theorem find_mid {l : List Media} {mid : Nat} (h : l.find? (fun m => decide (m.mid = mid)) = none) : ∀ m ∈ l, m.mid ≠ mid := by
  intro m hm
  have := List.find?_eq_none.mp h m hm
  simpa using this

theorem changesDirection_false {s : Sess} {mid : Nat} {dir : Dir} (hn : (s.medias.map (·.mid)).Nodup)
    (h : changesDirection s mid dir = false) : ∀ m ∈ s.medias, m.mid = mid → m.dir = dir := by
  intro m hm hmid
  unfold changesDirection at h
  cases hf : s.medias.find? (fun m => decide (m.mid = mid)) with
  | none => exact absurd hmid (find_mid hf m hm)
  | some m' =>
    rw [hf] at h
    have h1 := List.mem_of_find?_eq_some hf
    have h2 : m'.mid = mid := by simpa using List.find?_some hf
    have : m' = m := List.inj_on_of_nodup_map hn h1 hm (h2.trans hmid.symm)
    subst this
    simpa using h

/-- C114: a change of the pending offer is in the merged changes, or needs no negotiation any more -/
theorem C114_kept_partial (a : Api) (p : Pending) (h : OneMid a.peer) (c : Change) (hc : c ∈ p.changes) :
    c ∈ (a.merge p).changes ∨ Done a.peer c := by
  by_cases hr : relevant a.peer c = true
  · exact .inl (List.mem_append_left _ (List.mem_filter.mpr ⟨hc, hr⟩))
  · right
    have hr : relevant a.peer c = false := by simpa using hr
    cases c with
    | media mid dir pts =>
      simp only [relevant, Option.isNone_eq_false_iff, Option.isSome_iff_exists] at hr
      obtain ⟨m, hm⟩ := hr
      exact ⟨m, List.mem_of_find?_eq_some hm, by simpa using List.find?_some hm⟩
    | app mid =>
      simp only [relevant, Option.isNone_eq_false_iff, Option.isSome_iff_exists] at hr
      obtain ⟨m, hm⟩ := hr
      show a.peer.sess.app ≠ none
      rw [hm]; simp
    | channel id =>
      simp only [relevant, Option.isNone_eq_false_iff, Option.isSome_iff_exists, Channel.Handler.byId, Option.bind_eq_some_iff] at hr
      obtain ⟨s, al, h1, h2⟩ := hr
      exact ⟨al, List.mem_of_find?_eq_some h1, by simpa using List.find?_some h1, by rw [h2]; simp⟩
    | direction mid dir => exact changesDirection_false h hr
    | restart x => simpa [relevant, Done] using hr

/-- C114: the changes of the pending offer come first, in their order, then those made since; nothing is added -/
theorem C114_order (a : Api) (p : Pending) :
    ∃ kept, (a.merge p).changes = kept ++ a.changes ∧ kept.Sublist p.changes ∧ (a.merge p).peer = a.peer :=
  ⟨_, rfl, List.filter_sublist, rfl⟩

/-- the mid of the m-line that a change adds -/
def Change.newMid : Change → Option Nat
  | .media mid _ _ => some mid
  | .app mid => some mid
  | _ => none

theorem newLines_mids (i : Nat) (cs : List Change) :
    ((Negotiate.newLines i (cs.map Change.toNeg)).map (·.line)).map (·.mid) = cs.filterMap Change.newMid := by
  induction cs generalizing i with
  | nil => rfl
  | cons c cs ih =>
    simp only [List.map_cons]
    unfold Negotiate.newLines
    cases c <;> simp [Change.toNeg, Negotiate.Change.newLine, Change.newMid, Negotiate.appPlaced, List.filterMap_cons, ih]

theorem updateFirst_mids (p : Negotiate.Line → Bool) (f : Negotiate.Line → Negotiate.Line) (hf : ∀ l, (f l).mid = l.mid) (ls : List Negotiate.Line) :
    (Negotiate.updateFirst p f ls).map (·.mid) = ls.map (·.mid) := by
  induction ls with
  | nil => rfl
  | cons l ls ih =>
    unfold Negotiate.updateFirst
    split
    · simp [hf]
    · simp [ih]

theorem applyTo_mids (cs : List Negotiate.Change) (ls : List Negotiate.Line) :
    (cs.foldl Negotiate.Change.applyTo ls).map (·.mid) = ls.map (·.mid) := by
  induction cs generalizing ls with
  | nil => rfl
  | cons c cs ih =>
    rw [List.foldl_cons, ih]
    unfold Negotiate.Change.applyTo
    split
    · split
      · split
        · refine updateFirst_mids _ _ ?_ _
          intro l; rfl
        · rfl
      · rfl
    · rfl

theorem offer_mids (p : Peer) (cs : List Change) :
    mids (p.createOffer cs).2 = (p.sess.asLines.map (·.line)).map (·.mid) ++ cs.filterMap Change.newMid := by
  unfold mids Peer.createOffer Sess.offerOf
  simp only [applyTo_mids, List.map_append, newLines_mids]

theorem apply_offer {a : Api} {p1 : Peer} {d : Desc} {pend : Pending} (h : a.apply = .ok (p1, some (d, pend))) :
    p1 = (a.peer.nextChange.createOffer a.changes).1 ∧ d = (a.peer.nextChange.createOffer a.changes).2 ∧
      pend = ⟨a.peer.sess.changeCounter, a.changes⟩ := by
  unfold Api.apply at h
  split at h
  · simp at h
  · split at h
    · simp only [Res.ok.injEq, Prod.mk.injEq, Option.some.injEq] at h
      exact ⟨h.1.symm, h.2.1.symm, h.2.2.symm⟩
    · split at h <;> simp at h

theorem nextChange_asLines (p : Peer) : p.nextChange.sess.asLines = p.sess.asLines := rfl

/-- C114: when the m-lines of the session are the same as when the first offer was made, and none of what it adds is there yet, then
the merged offer has the m-lines of the first offer at the same places, and new ones behind -/
theorem C114_positions (a b : Api) (p1 p2 : Peer) (offer1 offer2 : Desc) (pend1 pend2 : Pending)
    (h1 : a.apply = .ok (p1, some (offer1, pend1))) (h2 : (b.merge pend1).apply = .ok (p2, some (offer2, pend2)))
    (hs : (b.peer.sess.asLines.map (·.line)).map (·.mid) = (a.peer.sess.asLines.map (·.line)).map (·.mid))
    (hn : ∀ mid dir pts, .media mid dir pts ∈ a.changes → ∀ m ∈ b.peer.sess.medias, m.mid ≠ mid)
    (ha : ∀ mid, .app mid ∈ a.changes → b.peer.sess.app = none) :
    mids offer1 <+: mids offer2 := by
  obtain ⟨-, e1, e2⟩ := apply_offer h1
  obtain ⟨-, e3, -⟩ := apply_offer h2
  subst e2
  rw [e1, e3, offer_mids, offer_mids]
  simp only [nextChange_asLines, Api.merge]
  rw [hs, List.filterMap_append]
  have : (a.changes.filter (relevant b.peer)).filterMap Change.newMid = a.changes.filterMap Change.newMid := by
    have key : ∀ l : List Change, (∀ c ∈ l, c ∈ a.changes) → (l.filter (relevant b.peer)).filterMap Change.newMid = l.filterMap Change.newMid := by
      intro l
      induction l with
      | nil => intro _; rfl
      | cons c l ih =>
        intro hl
        have ih' := ih (fun x hx => hl x (List.mem_cons_of_mem _ hx))
        have hc := hl c (by simp)
        rw [List.filter_cons]
        cases c with
        | media mid dir pts =>
          have : relevant b.peer (.media mid dir pts) = true := by
            simp only [relevant, Option.isNone_iff_eq_none, List.find?_eq_none, decide_eq_true_eq]
            exact hn mid dir pts hc
          rw [if_pos this, List.filterMap_cons, List.filterMap_cons, ih']
        | app mid =>
          have : relevant b.peer (.app mid) = true := by simp [relevant, ha mid hc]
          rw [if_pos this, List.filterMap_cons, List.filterMap_cons, ih']
        | channel id => split <;> simp [Change.newMid, List.filterMap_cons, ih']
        | direction mid dir => split <;> simp [Change.newMid, List.filterMap_cons, ih']
        | restart x => split <;> simp [Change.newMid, List.filterMap_cons, ih']
    exact key _ (fun _ h => h)
  rw [this, ← List.append_assoc]
  exact List.prefix_append _ _

theorem setDirection_find {s : Sess} {mid : Nat} {dir : Dir} (m : Media)
    (h : (s.setDirection mid dir).medias.find? (fun m => decide (m.mid = mid)) = some m) : m.dir = dir := by
  unfold Sess.setDirection at h
  simp only at h
  generalize s.medias = l at h
  induction l with
  | nil => simp [Negotiate.updateFirst] at h
  | cons x l ih =>
    unfold Negotiate.updateFirst at h
    split at h
    · rename_i hx
      have : decide (x.mid = mid) = true := hx
      rw [List.find?_cons] at h
      simp only [this, Option.some.injEq] at h
      rw [← h]
    · rename_i hx
      have : decide (x.mid = mid) = false := by simpa using hx
      rw [List.find?_cons] at h
      simp only [this] at h
      exact ih h

/-- C114: a direction that was set is never kept by a merge: `set_direction` takes effect at once, so `is_relevant` (change/sdp.rs 603)
takes it for done. When it was the only change there is then no offer, and the other side is never told. -/
theorem C114_violation_direction (p p1 : Peer) (mid : Nat) (dir : Dir) (offer : Desc) (pend : Pending)
    (h : ((⟨p, []⟩ : Api).setDirection mid dir).apply = .ok (p1, some (offer, pend))) :
    pend.changes = [.direction mid dir] ∧ ((⟨p1, []⟩ : Api).merge pend).apply = .ok (p1, none) := by
  unfold Api.setDirection at h
  split at h
  · obtain ⟨e1, -, e3⟩ := apply_offer h
    subst e3
    have hr : relevant p1 (.direction mid dir) = false := by
      rw [e1]
      simp only [Peer.createOffer, Peer.nextChange, relevant, changesDirection]
      cases hf : (p.sess.setDirection mid dir).medias.find? (fun m => decide (m.mid = mid)) with
      | none => rfl
      | some m => simp [setDirection_find m hf]
    refine ⟨rfl, ?_⟩
    have key : ∀ n, ((⟨p1, []⟩ : Api).merge ⟨n, [Change.direction mid dir]⟩) = ⟨p1, []⟩ := by
      intro n; simp [Api.merge, hr]
    simp only [List.nil_append]
    rw [key]; rfl
  · simp [Api.apply] at h

/-! Two peers with a media of mid 1 and an application's line, after one exchange -/

/-- the answer to the first offer, with the peer that answered -/
def firstBob : Peer × Res Err Desc :=
  ({ localCreds := 20 } : Peer).acceptOffer
    ((⟨{ localCreds := 10 }, [.media 1 .sendRecv [96], .app 2]⟩ : Api).peer.nextChange.createOffer [.media 1 .sendRecv [96], .app 2]).2 21

/-- the peer that offered -/
def alice : Peer :=
  match (⟨{ localCreds := 10 }, [.media 1 .sendRecv [96], .app 2]⟩ : Api).apply, firstBob.2 with
  | .ok (a, some (_, pend)), .ok answer => (a.acceptAnswer pend answer).1
  | _, _ => { localCreds := 0 }

/-- the peer that answered -/
def bob : Peer := firstBob.1

/-- The hypothesis of `C114_violation_direction` is met: a direction is set and offered -/
theorem C114_example_direction :
    ∃ p1 offer pend, ((⟨alice, []⟩ : Api).setDirection 1 .sendOnly).apply = .ok (p1, some (offer, pend)) := by
  refine ⟨_, _, _, rfl⟩

/-- The hypotheses of `C114_positions` are met: a media is offered, and merged with another one -/
theorem C114_example_positions :
    ∃ p1 offer1 pend1 p2 offer2 pend2, (⟨alice, [.media 3 .sendOnly [96], .channel 0]⟩ : Api).apply = .ok (p1, some (offer1, pend1)) ∧
      ((⟨p1, [.media 4 .recvOnly [96]]⟩ : Api).merge pend1).apply = .ok (p2, some (offer2, pend2)) ∧
      mids offer1 = [1, 2, 3] ∧ mids offer2 = [1, 2, 3, 4] := by
  refine ⟨_, _, _, _, _, _, rfl, rfl, ?_, ?_⟩ <;> decide +kernel

/-- a channel and a media are added and offered, then time passes -/
def channelOffered : Res Unit (Peer × Pending × Nat) :=
  match (⟨alice, []⟩ : Api).addChannel 5 none with
  | .ok (a, id) =>
    match (a.addMedia 3 .sendOnly [96]).apply with
    | .ok (p, some (_, pend)) => .ok (p.timeout.1, pend, id)
    | _ => .panic
  | _ => .panic

/-- C114: a channel that was added together with a media gets its stream while the offer is out (channel.rs 296), so a merge takes it
for done (change/sdp.rs 602) although it was never opened. The merged offer does not have it, and when the answer to it is accepted
nothing is opened, ever: the channel has no configuration. -/
theorem C114_violation_channel :
    ∃ p pend id, channelOffered = .ok (p, pend, id) ∧ .channel id ∈ pend.changes ∧ .channel id ∉ ((⟨p, []⟩ : Api).merge pend).changes ∧
      ∀ q : Peer, q.chans = p.chans → (q.timeout).2 = [] := by
  refine ⟨_, _, _, rfl, by decide +kernel, by decide +kernel, ?_⟩
  intro q hq
  unfold Peer.timeout
  split
  · rfl
  · simp only [hq]
    cases (q.sess.active == some true) <;> decide +kernel

/-- two peers without an application's line; a channel is offered, and before the answer comes another one is added and merged -/
def twoChannels : Res Unit (Peer × Option (Desc × Pending)) :=
  match (⟨{ localCreds := 10 }, []⟩ : Api).addChannel 1 none with
  | .ok (a, _) =>
    match a.apply with
    | .ok (p, some (_, pend)) =>
      match (⟨p, []⟩ : Api).addChannel 2 none with
      | .ok (b, _) => (b.merge pend).apply
      | _ => .panic
    | _ => .panic
  | _ => .panic

/-- C114: the merged offer then has two application's lines, and every peer refuses it -/
theorem C114_violation_apps :
    ∃ p offer pend, twoChannels = .ok (p, some (offer, pend)) ∧ mids offer = [1, 2] ∧
      ∀ c fresh, (({ localCreds := c } : Peer).acceptOffer offer fresh).2 = .err (.session .appMid) := by
  refine ⟨_, _, _, rfl, by decide +kernel, ?_⟩
  intro c fresh
  rfl

/-- C114: a restart is merged with an earlier one: the application was given the new credentials, but the earlier ones are offered -/
theorem C114_violation_restart :
    ∃ p1 offer1 pend1 p2 offer2 pend2, ((⟨alice, []⟩ : Api).iceRestart 11).apply = .ok (p1, some (offer1, pend1)) ∧
      (((⟨p1, []⟩ : Api).iceRestart 12).merge pend1).apply = .ok (p2, some (offer2, pend2)) ∧ offer2.creds = some 11 := by
  refine ⟨_, _, _, _, _, _, rfl, rfl, ?_⟩
  decide +kernel

/-! ### C115 -/

theorem nextChange_ice (p : Peer) : SameIce p p.nextChange := ⟨rfl, rfl, rfl, rfl, rfl⟩

theorem createOffer_keeps (p : Peer) (cs : List Change) :
    (p.createOffer cs).1.localCreds = p.localCreds ∧ (p.createOffer cs).1.remoteCreds = p.remoteCreds ∧ (p.createOffer cs).1.lite = p.lite ∧
    (p.createOffer cs).1.sess = p.sess ∧ (p.createOffer cs).1.controlling = (if p.sess.active = none then !p.lite else p.controlling) :=
  ⟨rfl, rfl, rfl, rfl, rfl⟩

theorem firstRestart_mem {cs : List Change} {c : Nat} (h : firstRestart cs = some c) : .restart c ∈ cs := by
  unfold firstRestart at h
  obtain ⟨x, hx, he⟩ := List.exists_of_findSome?_eq_some h
  cases x with
  | restart y => simp only [Option.some.injEq] at he; subst he; exact hx
  | _ => simp at he

theorem firstRestart_none {cs : List Change} (h : firstRestart cs = none) : ∀ c, .restart c ∉ cs := by
  intro c hc
  unfold firstRestart at h
  rw [List.findSome?_eq_none_iff] at h
  have := h _ hc
  simp at this

theorem acceptOffer_active {s s' : Sess} {sdp ans : Sdp} (h : s.acceptOffer sdp = (s', .ok ans)) : s'.active ≠ none := by
  unfold Sess.acceptOffer at h
  split at h
  · simp at h
  · have hi : ∀ t : Sess, (t.initDtls sdp.setup).active ≠ none := by
      intro t
      obtain ⟨x, hx⟩ := Negotiate.initDtls_active t sdp.setup
      rw [hx]; simp
    generalize ht : Sess.initDtls { s with changeCounter := s.changeCounter + 1 } sdp.setup = t at h
    have hta : t.active ≠ none := by rw [← ht]; exact hi _
    unfold Sess.applyOffer at h
    split at h
    · simp at h
    · rename_i s1 hs1
      split at hs1
      · simp at hs1
      · have f1 := Negotiate.syncFrom_frame true sdp.bundle sdp.lines t 0
        split at hs1
        · simp at hs1
        · rename_i s2 new hs2
          have f2 := Negotiate.addNewLines_frame true sdp.bundle new s2
          rw [hs1] at f2
          rw [hs2] at f1
          simp only [Prod.mk.injEq] at h
          rw [← h.1, f2.1, f1.1]
          exact hta

theorem acceptAnswer_active {s s' : Sess} {p : Negotiate.Pending} {sdp : Sdp} (h : s.acceptAnswer p sdp = some (s', .ok ())) :
    s'.active ≠ none := by
  unfold Sess.acceptAnswer at h
  have hi : (s.initDtls sdp.setup).active ≠ none := by
    obtain ⟨x, hx⟩ := Negotiate.initDtls_active s sdp.setup
    rw [hx]; simp
  generalize Sess.initDtls s sdp.setup = t at h hi
  split at h
  · simp at h
  · split at h
    · simp at h
    · have f1 := Negotiate.syncFrom_frame false sdp.bundle sdp.lines t 0
      split at h
      · simp at h
      · rename_i s2 new hs2
        split at h
        · simp at h
        · have f2 := Negotiate.addNewLines_frame false sdp.bundle new s2
          split at h
          · simp at h
          · rename_i s3 hs3
            split at h
            · simp only [Option.some.injEq, Prod.mk.injEq, and_true] at h
              rw [hs3] at f2
              rw [hs2] at f1
              rw [← h, f2.1, f1.1]
              exact hi
            · simp at h

/-- what an accepted offer does to the answerer -/
structure Offered (b b' : Peer) (offer answer : Desc) (fresh c : Nat) : Prop where
  creds : offer.creds = some c
  notBoth : ¬(b.lite = true ∧ offer.lite = true)
  told : answer.creds = some b'.localCreds
  answerLite : answer.lite = b.lite
  lite : b'.lite = b.lite
  remote : b'.remoteCreds = some c
  loc : b'.localCreds = if b.restarted c then fresh else b.localCreds
  controlling : b'.controlling = if b.sess.active = none then offer.lite else b.controlling
  active : b'.sess.active ≠ none

theorem addIce_ok {p p' : Peer} {cr new : Option Nat} (h : p.addIce cr new = (p', .ok ())) :
    ∃ c, cr = some c ∧ p'.remoteCreds = some c ∧ p'.localCreds = (if p.restarted c then new.getD p.localCreds else p.localCreds) ∧
      (p.restarted c = true → new ≠ none) ∧ p'.lite = p.lite ∧ p'.controlling = p.controlling ∧ p'.sess = p.sess ∧ p'.chans = p.chans := by
  unfold Peer.addIce at h
  split at h
  · simp at h
  · rename_i c
    refine ⟨c, rfl, ?_⟩
    split at h
    · rename_i hr
      split at h
      · simp at h
      · rename_i n
        simp only [Prod.mk.injEq, and_true] at h
        subst h
        exact ⟨rfl, by rw [if_pos hr]; rfl, fun _ => by simp, rfl, rfl, rfl, rfl⟩
    · rename_i hr
      simp only [Prod.mk.injEq, and_true] at h
      subst h
      exact ⟨rfl, by rw [if_neg hr], fun hh => absurd hh hr, rfl, rfl, rfl, rfl⟩

theorem answererRole_keeps (p : Peer) (l : Bool) :
    (p.answererRole l).sess = p.sess ∧ (p.answererRole l).lite = p.lite ∧ (p.answererRole l).localCreds = p.localCreds ∧
    (p.answererRole l).remoteCreds = p.remoteCreds ∧ (p.answererRole l).controlling = (if p.sess.active = none then l else p.controlling) := by
  unfold Peer.answererRole
  split <;> exact ⟨rfl, rfl, rfl, rfl, rfl⟩

theorem offered {b b' : Peer} {offer answer : Desc} {fresh : Nat} (h : b.acceptOffer offer fresh = (b', .ok answer)) :
    ∃ c, Offered b b' offer answer fresh c := by
  unfold Peer.acceptOffer at h
  split at h
  · simp at h
  · split at h
    · simp at h
    · rename_i hl
      split at h
      · simp at h
      · simp at h
      · rename_i p hi
        obtain ⟨c, h1, h2, h3, -, h5, h6, h7, -⟩ := addIce_ok hi
        obtain ⟨k1, k2, k3, k4, k5⟩ := answererRole_keeps p offer.lite
        simp only at h
        split at h
        · simp at h
        · rename_i s sdp hs
          simp only [Prod.mk.injEq, Res.ok.injEq] at h
          obtain ⟨rfl, rfl⟩ := h
          refine ⟨c, ⟨h1, hl, rfl, k2.trans h5, k2.trans h5, k4.trans h2, k3.trans h3, ?_, acceptOffer_active hs⟩⟩
          show (p.answererRole offer.lite).controlling = _
          rw [k5, h7, h6]

/-- what an accepted answer does to the offerer -/
structure Answered (a a' : Peer) (pend : Pending) (answer : Desc) (c : Nat) : Prop where
  creds : answer.creds = some c
  remote : a'.remoteCreds = some c
  loc : a'.localCreds = if a.restarted c then (firstRestart pend.changes).getD a.localCreds else a.localCreds
  lite : a'.lite = a.lite
  controlling : a'.controlling = a.controlling
  active : a'.sess.active ≠ none

theorem answered {a a' : Peer} {pend : Pending} {answer : Desc} (h : a.acceptAnswer pend answer = (a', .ok ())) :
    ∃ c, Answered a a' pend answer c := by
  unfold Peer.acceptAnswer at h
  split at h
  · simp at h
  · split at h
    · simp at h
    · split at h
      · simp at h
      · simp at h
      · rename_i p hi
        obtain ⟨c, h1, h2, h3, -, h5, h6, h7, -⟩ := addIce_ok hi
        split at h
        · simp at h
        · simp at h
        · rename_i s hs
          split at h
          · simp only [Prod.mk.injEq, and_true] at h
            subst h
            exact ⟨c, ⟨h1, h2, h3, h5, h6, acceptAnswer_active hs⟩⟩
          · simp at h

theorem Agree.symm {a b : Peer} (h : Agree a b) : Agree b a := by
  rcases h with ⟨h1, h2⟩ | ⟨h1, h2⟩
  · exact .inl ⟨h2, h1⟩
  · exact .inr ⟨h2, h1⟩

/-- C115: an exchange between two peers that agree: they agree afterwards. With a restart in the offer both have new credentials,
those of the offer and fresh ones; without one both keep theirs. -/
theorem C115_exchange_partial (a b a1 a' b' : Peer) (cs : List Change) (offer answer : Desc) (pend : Pending) (fresh : Nat) (h : Agree a b)
    (h1 : (⟨a, cs⟩ : Api).apply = .ok (a1, some (offer, pend))) (h2 : b.acceptOffer offer fresh = (b', .ok answer))
    (h3 : a1.acceptAnswer pend answer = (a', .ok ())) (hf : fresh ≠ b.localCreds)
    (hc : ∀ c, .restart c ∈ cs → c ≠ a.localCreds ∧ a.remoteCreds ≠ none) :
    a'.remoteCreds = some b'.localCreds ∧ b'.remoteCreds = some a'.localCreds ∧
    (firstRestart cs = none → a'.localCreds = a.localCreds ∧ b'.localCreds = b.localCreds) ∧
    (∀ c, firstRestart cs = some c → a'.localCreds = c ∧ b'.localCreds = fresh) := by
  obtain ⟨e1, e2, e3⟩ := apply_offer h1
  obtain ⟨c, ob⟩ := offered h2
  obtain ⟨c', an⟩ := answered h3
  have k1 : a1.localCreds = a.localCreds := by rw [e1]; rfl
  have k2 : a1.remoteCreds = a.remoteCreds := by rw [e1]; rfl
  have hcr : c = (firstRestart cs).getD a.localCreds := by
    have := ob.creds
    rw [e2] at this
    simp only [Peer.createOffer, Option.some.injEq] at this
    exact this.symm
  have hc' : c' = b'.localCreds := by
    have := an.creds
    rw [ob.told] at this
    exact (Option.some.inj this).symm
  have hpc : pend.changes = cs := by rw [e3]
  have hal := an.loc
  rw [k1, hpc, hc'] at hal
  have har : a1.restarted b'.localCreds = a.restarted b'.localCreds := by unfold Peer.restarted; rw [k2]
  rw [har] at hal
  refine ⟨by rw [an.remote, hc'], ?_⟩
  rw [ob.remote, hcr]
  cases hfr : firstRestart cs with
  | none =>
    rw [hfr] at hal hcr
    simp only [Option.getD_none, ite_self] at hal hcr ⊢
    have hb : b.restarted c = false := by
      unfold Peer.restarted
      rcases h with ⟨_, g⟩ | ⟨_, g⟩
      · rw [g]
      · rw [g, hcr]; simp
    have hbl := ob.loc
    rw [hb] at hbl
    simp only [Bool.false_eq_true, if_false] at hbl
    exact ⟨by rw [hal], fun _ => ⟨hal, hbl⟩, by simp⟩
  | some x =>
    rw [hfr] at hal hcr
    simp only [Option.getD_some] at hal hcr ⊢
    obtain ⟨hx1, hx2⟩ := hc x (firstRestart_mem hfr)
    rcases h with ⟨g, _⟩ | ⟨g1, g2⟩
    · exact absurd g hx2
    · have hb : b.restarted c = true := by
        unfold Peer.restarted
        rw [g2, hcr]
        simp only [Bool.not_eq_true', decide_eq_false_iff_not]
        exact fun hh => hx1 hh.symm
      have hbl := ob.loc
      rw [hb] at hbl
      simp only [if_true] at hbl
      have ha : a.restarted b'.localCreds = true := by
        unfold Peer.restarted
        rw [g1, hbl]
        simp only [Bool.not_eq_true', decide_eq_false_iff_not]
        exact fun hh => hf hh.symm
      rw [ha] at hal
      simp only [if_true] at hal
      refine ⟨by rw [hal], by simp, ?_⟩
      intro c0 h0
      obtain rfl := Option.some.inj h0
      exact ⟨hal, hbl⟩

theorem SameIce.agree {a a' b : Peer} (h : Agree a b) (hs : SameIce a a') : Agree a' b := by
  unfold Agree
  rw [hs.localCreds, hs.remoteCreds]
  exact h

theorem drop_agree {a a' b : Peer} {cs : List Change} {o : Desc × Pending} (h : Agree a b) (hd : (⟨a, cs⟩ : Api).apply = .ok (a', some o)) :
    Agree a' b := by
  obtain ⟨e1, -, -⟩ := apply_offer (d := o.1) (pend := o.2) hd
  subst e1
  exact h

/-- C115: after any number of exchanges, with offers dropped in between, each side knows the credentials of the other -/
theorem C115_rounds_partial (a b : Peer) (h : Rounds a b) : Agree a b := by
  induction h with
  | start => exact .inl ⟨rfl, rfl⟩
  | left _ he ih =>
    obtain ⟨cs, a1, offer, pend, fresh, answer, h1, h2, h3, h4, h5⟩ := he
    obtain ⟨g1, g2, _⟩ := C115_exchange_partial _ _ _ _ _ cs offer answer pend fresh ih h1 h2 h3 h4 h5
    exact .inr ⟨g1, g2⟩
  | right _ he ih =>
    obtain ⟨cs, a1, offer, pend, fresh, answer, h1, h2, h3, h4, h5⟩ := he
    obtain ⟨g1, g2, _⟩ := C115_exchange_partial _ _ _ _ _ cs offer answer pend fresh ih.symm h1 h2 h3 h4 h5
    exact .inr ⟨g2, g1⟩
  | dropLeft cs o _ hd ih => exact drop_agree ih hd
  | dropRight cs o _ hd ih => exact (drop_agree ih.symm hd).symm
  | otherLeft _ hs ih => exact hs.agree ih
  | otherRight _ hs ih => exact (hs.agree ih.symm).symm

/-- C115: the answer of a peer that agrees is not refused for its credentials (nor for being lite) -/
theorem C115_taken (a b a1 b' : Peer) (cs : List Change) (offer answer : Desc) (pend : Pending) (fresh : Nat) (e : Err) (h : Agree a b)
    (h1 : (⟨a, cs⟩ : Api).apply = .ok (a1, some (offer, pend))) (h2 : b.acceptOffer offer fresh = (b', .ok answer))
    (h3 : (a1.acceptAnswer pend answer).2 = .err e) : ∃ x, e = .session x := by
  obtain ⟨e1, e2, e3⟩ := apply_offer h1
  obtain ⟨c, ob⟩ := offered h2
  have k2 : a1.remoteCreds = a.remoteCreds := by rw [e1]; rfl
  have k3 : a1.lite = a.lite := by rw [e1]; rfl
  have hpc : pend.changes = cs := by rw [e3]
  have hcr : c = (firstRestart cs).getD a.localCreds := by
    have := ob.creds
    rw [e2] at this
    simp only [Peer.createOffer, Option.some.injEq] at this
    exact this.symm
  have hol : offer.lite = a.lite := by rw [e2]; rfl
  unfold Peer.acceptAnswer at h3
  split at h3
  · simp only [Res.err.injEq] at h3; exact ⟨_, h3.symm⟩
  · split at h3
    · rename_i hl
      rw [k3, ob.answerLite] at hl
      exact absurd ⟨hl.2, by rw [hol]; exact hl.1⟩ ob.notBoth
    · split at h3
      · rename_i p e' hi
        exfalso
        unfold Peer.addIce at hi
        rw [ob.told] at hi
        simp only at hi
        split at hi
        · rename_i hr
          split at hi
          · rename_i hn
            rw [hpc] at hn
            rw [hn] at hcr
            simp only [Option.getD_none] at hcr
            unfold Peer.restarted at hr
            rw [k2] at hr
            rcases h with ⟨g, _⟩ | ⟨g1, g2⟩
            · rw [g] at hr; simp at hr
            · have hb : b.restarted c = false := by
                unfold Peer.restarted
                rw [g2, hcr]; simp
              have hbl := ob.loc
              rw [hb] at hbl
              simp only [Bool.false_eq_true, if_false] at hbl
              rw [g1, hbl] at hr
              simp at hr
          · simp at hi
        · simp at hi
      · simp at h3
      · split at h3
        · simp at h3
        · simp only [Res.err.injEq] at h3; exact ⟨_, h3.symm⟩
        · split at h3 <;> simp at h3

/-- alice and bob are what one exchange leaves -/
theorem rounds_example : Rounds alice bob := by
  refine .left (.start false false 10 20) ⟨[.media 1 .sendRecv [96], .app 2], _, _, _, 21, _, rfl, rfl, rfl, by decide, ?_⟩
  intro c hc
  simp at hc

/-- C115: a restart that is asked for before the first exchange is in the offer, but the answer does not bring it into effect (change/sdp.rs
730-733): the other side uses credentials that this side does not know. -/
theorem C115_violation_first :
    ∃ a1 offer pend b' answer a', ((⟨{ localCreds := 10 }, [.media 1 .sendRecv [96]]⟩ : Api).iceRestart 11).apply = .ok (a1, some (offer, pend)) ∧
      ({ localCreds := 20 } : Peer).acceptOffer offer 21 = (b', .ok answer) ∧ a1.acceptAnswer pend answer = (a', .ok ()) ∧
      a'.localCreds = 10 ∧ b'.remoteCreds = some 11 := by
  refine ⟨_, _, _, _, _, _, rfl, rfl, rfl, ?_, ?_⟩ <;> decide +kernel

/-- The hypotheses of `C115_exchange_partial` are met with a restart -/
theorem C115_example :
    ∃ a1 offer pend b' answer a', (⟨alice, [.restart 11]⟩ : Api).apply = .ok (a1, some (offer, pend)) ∧
      bob.acceptOffer offer 21 = (b', .ok answer) ∧ a1.acceptAnswer pend answer = (a', .ok ()) ∧ Agree alice bob ∧
      a'.localCreds = 11 ∧ b'.localCreds = 21 := by
  refine ⟨_, _, _, _, _, _, rfl, rfl, rfl, C115_rounds_partial _ _ rounds_example, ?_, ?_⟩ <;> decide +kernel

/-! ### C116 -/

/-- One side is controlling and the other is not; a lite one is not -/
structure OneControls (a b : Peer) : Prop where
  one : a.controlling = !b.controlling
  left : a.lite = true → a.controlling = false
  right : b.lite = true → b.controlling = false

theorem OneControls.symm {a b : Peer} (h : OneControls a b) : OneControls b a :=
  ⟨by rw [h.one]; simp, h.right, h.left⟩

/-- no exchange yet, or both have their DTLS role and one controls -/
def Roles (a b : Peer) : Prop :=
  (a.sess.active = none ∧ b.sess.active = none) ∨ (a.sess.active ≠ none ∧ b.sess.active ≠ none ∧ OneControls a b)

theorem Roles.symm {a b : Peer} (h : Roles a b) : Roles b a := by
  rcases h with ⟨h1, h2⟩ | ⟨h1, h2, h3⟩
  · exact .inl ⟨h2, h1⟩
  · exact .inr ⟨h2, h1, h3.symm⟩

theorem exchange_roles {a b a' b' : Peer} (h : Roles a b) (he : Exchange a b a' b') : Roles a' b' := by
  obtain ⟨cs, a1, offer, pend, fresh, answer, h1, h2, h3, -, -⟩ := he
  obtain ⟨e1, e2, -⟩ := apply_offer h1
  obtain ⟨c, ob⟩ := offered h2
  obtain ⟨c', an⟩ := answered h3
  have hol : offer.lite = a.lite := by rw [e2]; rfl
  have k1 : a1.lite = a.lite := by rw [e1]; rfl
  have k2 : a1.controlling = if a.sess.active = none then !a.lite else a.controlling := by rw [e1]; rfl
  right
  refine ⟨an.active, ob.active, ?_⟩
  rcases h with ⟨g1, g2⟩ | ⟨g1, g2, g3⟩
  · have ha : a'.controlling = !a.lite := by rw [an.controlling, k2, if_pos g1]
    have hb : b'.controlling = a.lite := by rw [ob.controlling, if_pos g2, hol]
    refine ⟨by rw [ha, hb], fun hl => ?_, fun hl => ?_⟩
    · rw [an.lite, k1] at hl
      rw [ha, hl]; rfl
    · rw [ob.lite] at hl
      rw [hb]
      have := ob.notBoth
      rw [hol] at this
      cases hx : a.lite with
      | false => rfl
      | true => exact absurd ⟨hl, hx⟩ this
  · have ha : a'.controlling = a.controlling := by rw [an.controlling, k2, if_neg g1]
    have hb : b'.controlling = b.controlling := by rw [ob.controlling, if_neg g2]
    refine ⟨by rw [ha, hb]; exact g3.one, fun hl => ?_, fun hl => ?_⟩
    · rw [an.lite, k1] at hl
      rw [ha]; exact g3.left hl
    · rw [ob.lite] at hl
      rw [hb]; exact g3.right hl

theorem drop_roles {a a' b : Peer} {cs : List Change} {o : Desc × Pending} (h : Roles a b) (hd : (⟨a, cs⟩ : Api).apply = .ok (a', some o)) :
    Roles a' b := by
  obtain ⟨e1, -, -⟩ := apply_offer (d := o.1) (pend := o.2) hd
  have k0 : a'.sess.active = a.sess.active := by rw [e1]; rfl
  have k1 : a'.lite = a.lite := by rw [e1]; rfl
  have k2 : a'.controlling = if a.sess.active = none then !a.lite else a.controlling := by rw [e1]; rfl
  rcases h with ⟨g1, g2⟩ | ⟨g1, g2, g3⟩
  · exact .inl ⟨k0.trans g1, g2⟩
  · rw [if_neg g1] at k2
    refine .inr ⟨by rw [k0]; exact g1, g2, ⟨by rw [k2]; exact g3.one, fun hl => ?_, g3.right⟩⟩
    rw [k1] at hl
    rw [k2]; exact g3.left hl

theorem SameIce.roles {a a' b : Peer} (h : Roles a b) (hs : SameIce a a') : Roles a' b := by
  rcases h with ⟨g1, g2⟩ | ⟨g1, g2, g3⟩
  · exact .inl ⟨hs.active.trans g1, g2⟩
  · refine .inr ⟨by rw [hs.active]; exact g1, g2, ⟨by rw [hs.controlling]; exact g3.one, fun hl => ?_, g3.right⟩⟩
    rw [hs.lite] at hl
    rw [hs.controlling]; exact g3.left hl

theorem rounds_roles (a b : Peer) (h : Rounds a b) : Roles a b := by
  induction h with
  | start => exact .inl ⟨rfl, rfl⟩
  | left _ he ih => exact exchange_roles ih he
  | right _ he ih => exact (exchange_roles ih.symm he).symm
  | dropLeft cs o _ hd ih => exact drop_roles ih hd
  | dropRight cs o _ hd ih => exact (drop_roles ih.symm hd).symm
  | otherLeft _ hs ih => exact hs.roles ih
  | otherRight _ hs ih => exact (hs.roles ih.symm).symm

/-- C116: after the first exchange, whoever offers later and whatever is dropped, exactly one side is controlling, and not a lite one -/
theorem C116_one_partial (a b : Peer) (h : Rounds a b) (hx : a.sess.active ≠ none ∨ b.sess.active ≠ none) :
    a.controlling = !b.controlling ∧ (a.lite = true → b.controlling = true) ∧ (b.lite = true → a.controlling = true) := by
  rcases rounds_roles a b h with ⟨g1, g2⟩ | ⟨_, _, g⟩
  · rcases hx with hx | hx
    · exact absurd g1 hx
    · exact absurd g2 hx
  · refine ⟨g.one, fun hl => ?_, fun hl => ?_⟩
    · have := g.left hl
      rw [g.one] at this; simpa using this
    · rw [g.one, g.right hl]; rfl

/-- The hypotheses of `C116_one_partial` are met -/
theorem C116_example : Rounds alice bob ∧ alice.sess.active ≠ none ∧ alice.controlling = true ∧ bob.controlling = false := by
  refine ⟨rounds_example, ?_, ?_, ?_⟩ <;> decide +kernel

/-- C116: the answer to the first offer is lost, and then the other side offers: both are controlled -/
theorem C116_violation_half :
    ∃ a1 offer pend b1 answer b2 offer2 pend2 a2 answer2 b3,
      (⟨{ localCreds := 10 }, [.media 1 .sendRecv [96]]⟩ : Api).apply = .ok (a1, some (offer, pend)) ∧
      ({ localCreds := 20 } : Peer).acceptOffer offer 21 = (b1, .ok answer) ∧
      (⟨b1, [.media 2 .sendRecv [96]]⟩ : Api).apply = .ok (b2, some (offer2, pend2)) ∧
      a1.acceptOffer offer2 11 = (a2, .ok answer2) ∧ b2.acceptAnswer pend2 answer2 = (b3, .ok ()) ∧
      a2.controlling = false ∧ b3.controlling = false := by
  refine ⟨_, _, _, _, _, _, _, _, _, _, _, rfl, rfl, rfl, rfl, rfl, ?_, ?_⟩ <;> decide +kernel

/-! ### C117 -/

/-- C117: an offer without m-lines, without credentials, or from a lite peer to a lite one is refused, and nothing but the number of
changes is different; an answer that is overtaken, without credentials, from a lite peer to a lite one, or with a restart that
was not asked for is refused, and nothing is different. -/
theorem C117_clean_partial (p : Peer) :
    (∀ offer fresh, offer.sdp.lines = [] ∨ (p.lite = true ∧ offer.lite = true) ∨ offer.creds = none →
      ∃ e, p.acceptOffer offer fresh = (p.nextChange, .err e)) ∧
    (∀ pend answer, p.sess.changeCounter ≠ pend.changeId + 1 ∨ (p.lite = true ∧ answer.lite = true) ∨ answer.creds = none ∨
        (∃ c v, answer.creds = some c ∧ p.remoteCreds = some v ∧ v ≠ c ∧ ∀ x, .restart x ∉ pend.changes) →
      ∃ e, p.acceptAnswer pend answer = (p, .err e)) := by
  constructor
  · intro offer fresh h
    unfold Peer.acceptOffer
    split
    · exact ⟨_, rfl⟩
    · rename_i hl
      split
      · exact ⟨_, rfl⟩
      · rename_i hb
        rcases h with h | h | h
        · exact absurd h hl
        · exact absurd h hb
        · rw [h]; exact ⟨_, rfl⟩
  · intro pend answer h
    unfold Peer.acceptAnswer
    split
    · exact ⟨_, rfl⟩
    · rename_i hl
      split
      · exact ⟨_, rfl⟩
      · rename_i hb
        rcases h with h | h | h | ⟨c, v, h1, h2, h3, h4⟩
        · exact absurd h hl
        · exact absurd h hb
        · rw [h]; exact ⟨_, rfl⟩
        · have hn : firstRestart pend.changes = none := by
            cases hf : firstRestart pend.changes with
            | none => rfl
            | some x => exact absurd (firstRestart_mem hf) (h4 x)
          rw [h1, hn]
          have : p.restarted c = true := by
            unfold Peer.restarted
            rw [h2]; simpa using h3
          simp only [Peer.addIce, this, if_true]
          exact ⟨_, rfl⟩

theorem addIce_chans (p : Peer) (cr new : Option Nat) : (p.addIce cr new).1.chans = p.chans := by
  unfold Peer.addIce
  split
  · rfl
  · split
    · split <;> rfl
    · rfl

/-- C117: no offer, and no answer that is refused, changes a data channel -/
theorem C117_channels (p : Peer) :
    (∀ offer fresh, (p.acceptOffer offer fresh).1.chans = p.chans) ∧
    (∀ pend answer e, (p.acceptAnswer pend answer).2 = .err e → (p.acceptAnswer pend answer).1.chans = p.chans) := by
  constructor
  · intro offer fresh
    unfold Peer.acceptOffer
    split
    · rfl
    · split
      · rfl
      · have hc := addIce_chans p offer.creds (some fresh)
        have hr : ∀ (q : Peer) l, (q.answererRole l).chans = q.chans := by
          intro q l; unfold Peer.answererRole; split <;> rfl
        split
        · rename_i q _ hi; rw [hi] at hc; exact hc
        · rename_i q hi; rw [hi] at hc; exact hc
        · rename_i q hi
          rw [hi] at hc
          simp only
          split
          · exact (hr q _).trans hc
          · exact (hr q _).trans hc
  · intro pend answer e
    have hc := addIce_chans p answer.creds (firstRestart pend.changes)
    unfold Peer.acceptAnswer
    split
    · intro _; rfl
    · split
      · intro _; rfl
      · split
        · rename_i q _ hi; rw [hi] at hc; intro _; exact hc
        · rename_i q hi; rw [hi] at hc; intro _; exact hc
        · rename_i q hi
          rw [hi] at hc
          split
          · intro _; exact hc
          · intro _; exact hc
          · split
            · intro h; simp at h
            · intro _; exact hc

/-- an offer with new credentials that turns the media of `bob` round and has something else in the place of the application's line -/
def badOffer : Desc :=
  { sdp := { lines := [⟨.media, 1, false, .inactive, [96]⟩, ⟨.media, 7, false, .sendRecv, [96]⟩, ⟨.app, 2, false, .inactive, []⟩]
             bundle := some [1, 7, 2], setup := some .actPass }
    creds := some 77, lite := false }

/-- C117: an offer that is refused for the order of its m-lines has already restarted ICE: the connection is lost, and the other side,
whose offer was refused, does not know the new credentials. And the direction of the media before is already changed. -/
theorem C117_violation_restart :
    ∃ b', bob.acceptOffer badOffer 21 = (b', .err (.session .order)) ∧ bob.localCreds = 20 ∧ b'.localCreds = 21 ∧
      b'.remoteCreds = some 77 ∧ bob.sess.medias.map (·.dir) = [.sendRecv] ∧ b'.sess.medias.map (·.dir) = [.inactive] := by
  refine ⟨_, rfl, ?_, ?_, ?_, ?_, ?_⟩ <;> decide +kernel

/-! ### C118 -/

/-- the same session with another number of changes -/
def counted (s : Sess) (n : Nat) : Sess := { s with changeCounter := n }

theorem syncLine_counted (o : Bool) (b : Option (List Nat)) (s : Sess) (n i : Nat) (l : Negotiate.Line) :
    Negotiate.syncLine o b (counted s n) i l = (counted (Negotiate.syncLine o b s i l).1 n, (Negotiate.syncLine o b s i l).2) := by
  obtain ⟨ms, app, act, cc⟩ := s
  unfold Negotiate.syncLine counted
  simp only
  cases l.kind with
  | unknown => rfl
  | app =>
    simp only
    cases app with
    | none => rfl
    | some a => obtain ⟨m, j⟩ := a; simp only; split <;> rfl
  | media =>
    simp only
    cases ms.find? (fun m => decide (m.mid = l.mid)) with
    | some m => simp only; split <;> rfl
    | none =>
      simp only
      cases ms.findIdx? (fun m => decide (m.index = i)) with
      | none => rfl
      | some pos =>
        simp only
        split
        · rfl
        · cases ms[pos]? with
          | none => rfl
          | some m => simp only; split <;> rfl

theorem syncFrom_counted (o : Bool) (b : Option (List Nat)) (n : Nat) (ls : List Negotiate.Line) (s : Sess) (i : Nat) :
    Negotiate.syncFrom o b (counted s n) i ls = (counted (Negotiate.syncFrom o b s i ls).1 n, (Negotiate.syncFrom o b s i ls).2) := by
  induction ls generalizing s i with
  | nil => rfl
  | cons l ls ih =>
    unfold Negotiate.syncFrom
    rw [syncLine_counted]
    cases Negotiate.syncLine o b s i l with
    | mk s1 r =>
      cases r with
      | error e => rfl
      | ok isNew =>
        simp only
        rw [ih]
        cases Negotiate.syncFrom o b s1 (i + 1) ls with
        | mk s2 r2 => cases r2 <;> rfl

theorem addNewLines_counted (o : Bool) (b : Option (List Nat)) (n : Nat) (ls : List (Nat × Negotiate.Line)) (s : Sess) :
    Negotiate.addNewLines o b (counted s n) ls = (counted (Negotiate.addNewLines o b s ls).1 n, (Negotiate.addNewLines o b s ls).2) := by
  induction ls generalizing s with
  | nil => rfl
  | cons x ls ih =>
    obtain ⟨i, l⟩ := x
    unfold Negotiate.addNewLines
    cases l.kind with
    | unknown => rfl
    | media => exact ih { s with medias := s.medias ++ [Negotiate.updateMedia b l (Media.ofLine l i o)] }
    | app =>
      simp only
      have : (counted s n).setApp l.mid i = (match s.setApp l.mid i with
        | .error e => .error e
        | .ok t => .ok (counted t n)) := by
        obtain ⟨ms, app, act, cc⟩ := s
        unfold Sess.setApp counted
        simp only
        cases app with
        | none => rfl
        | some a => obtain ⟨m, j⟩ := a; simp only; split_ifs <;> rfl
      rw [this]
      cases s.setApp l.mid i with
      | error e => rfl
      | ok t => simp only; exact ih t

theorem applyOffer_counted (s : Sess) (n : Nat) (d : Sdp) :
    (counted s n).applyOffer d = (counted (s.applyOffer d).1 n, (s.applyOffer d).2) := by
  unfold Sess.applyOffer
  cases Negotiate.assertConsistency d with
  | error e => rfl
  | ok u =>
    simp only
    rw [syncFrom_counted]
    cases Negotiate.syncFrom true d.bundle s 0 d.lines with
    | mk s1 r =>
      cases r with
      | error e => rfl
      | ok new => simp only; exact addNewLines_counted true d.bundle n new s1

theorem sessOffer_counted (s : Sess) (n : Nat) (d : Sdp) :
    (counted s n).acceptOffer d = (counted (s.acceptOffer d).1 (n + 1), (s.acceptOffer d).2) := by
  unfold Sess.acceptOffer
  split
  · rfl
  · have h1 : Sess.initDtls { counted s n with changeCounter := (counted s n).changeCounter + 1 } d.setup =
        counted (Sess.initDtls { s with changeCounter := s.changeCounter + 1 } d.setup) (n + 1) := rfl
    rw [h1, applyOffer_counted]
    cases Sess.applyOffer (Sess.initDtls { s with changeCounter := s.changeCounter + 1 } d.setup) d with
    | mk t r => cases r <;> rfl

/-- C118: an offer that was made and dropped leaves the medias, the application's line, the DTLS role, the credentials and the channels
as they were; the next offer is the one that would have been made without it -/
theorem C118_dropped (p p1 : Peer) (cs : List Change) (o : Desc × Pending) (h : (⟨p, cs⟩ : Api).apply = .ok (p1, some o)) :
    (p1.sess.medias = p.sess.medias ∧ p1.sess.app = p.sess.app ∧ p1.sess.active = p.sess.active ∧ p1.localCreds = p.localCreds ∧
      p1.remoteCreds = p.remoteCreds ∧ p1.chans = p.chans) ∧
    ∀ cs' q q1 o' o1, (⟨p, cs'⟩ : Api).apply = .ok (q, some o') → (⟨p1, cs'⟩ : Api).apply = .ok (q1, some o1) → o1.1 = o'.1 := by
  obtain ⟨e1, -, -⟩ := apply_offer (d := o.1) (pend := o.2) h
  subst e1
  refine ⟨⟨rfl, rfl, rfl, rfl, rfl, rfl⟩, ?_⟩
  intro cs' q q1 o' o1 h1 h2
  obtain ⟨-, e2, -⟩ := apply_offer (d := o'.1) (pend := o'.2) h1
  obtain ⟨-, e3, -⟩ := apply_offer (d := o1.1) (pend := o1.2) h2
  rw [e2, e3]
  rfl

/-- C118: and an offer of the other side is answered as it would have been without it -/
theorem C118_answer (p p1 : Peer) (cs : List Change) (o : Desc × Pending) (h : (⟨p, cs⟩ : Api).apply = .ok (p1, some o))
    (offer : Desc) (fresh : Nat) : (p1.acceptOffer offer fresh).2 = (p.acceptOffer offer fresh).2 := by
  obtain ⟨e1, -, -⟩ := apply_offer (d := o.1) (pend := o.2) h
  have hs : p1.sess = counted p.sess (p.sess.changeCounter + 1) := by rw [e1]; rfl
  have hl : p1.lite = p.lite := by rw [e1]; rfl
  have hlc : p1.localCreds = p.localCreds := by rw [e1]; rfl
  have hrc : p1.remoteCreds = p.remoteCreds := by rw [e1]; rfl
  clear e1 h
  unfold Peer.acceptOffer
  split
  · rfl
  · rw [hl]
    split
    · rfl
    · cases offer.creds with
      | none => rfl
      | some c =>
        have hr : p1.restarted c = p.restarted c := by unfold Peer.restarted; rw [hrc]
        have ha : ∀ r : Peer, r.addIce (some c) (some fresh) =
            ({ r with localCreds := if r.restarted c then fresh else r.localCreds, remoteCreds := some c }, .ok ()) := by
          intro r
          unfold Peer.addIce
          cases hx : r.restarted c with
          | true => simp [hx]
          | false => simp [hx]
        rw [ha, ha]
        simp only
        have key : ∀ r r1 : Peer, r.sess = p.sess → r1.sess = p1.sess → r1.localCreds = r.localCreds → r1.lite = r.lite →
            (match (r1.answererRole offer.lite).sess.acceptOffer offer.sdp with
              | (s, .error e) => (({ (r1.answererRole offer.lite) with sess := s } : Peer), (Res.err (.session e) : Res Err Desc))
              | (s, .ok sdp) => ({ (r1.answererRole offer.lite) with sess := s },
                  .ok { sdp := sdp, creds := some (r1.answererRole offer.lite).localCreds, lite := (r1.answererRole offer.lite).lite })).2 =
            (match (r.answererRole offer.lite).sess.acceptOffer offer.sdp with
              | (s, .error e) => (({ (r.answererRole offer.lite) with sess := s } : Peer), (Res.err (.session e) : Res Err Desc))
              | (s, .ok sdp) => ({ (r.answererRole offer.lite) with sess := s },
                  .ok { sdp := sdp, creds := some (r.answererRole offer.lite).localCreds, lite := (r.answererRole offer.lite).lite })).2 := by
          intro r r1 g1 g2 g3 g4
          obtain ⟨k1, k2, k3, -, -⟩ := answererRole_keeps r offer.lite
          obtain ⟨m1, m2, m3, -, -⟩ := answererRole_keeps r1 offer.lite
          rw [k1, m1, g2, hs, g1, sessOffer_counted, k2, m2, k3, m3, g3, g4]
          cases Sess.acceptOffer p.sess offer.sdp with
          | mk t x => cases x <;> rfl
        exact key _ _ rfl rfl (by simp only [hr, hlc]) hl

/-- The hypotheses of `C118_dropped` and `C118_answer` are met -/
theorem C118_example :
    ∃ p1 o q o' q1 o1, (⟨alice, [.media 3 .sendOnly [96], .restart 11]⟩ : Api).apply = .ok (p1, some o) ∧
      (⟨alice, [.media 4 .recvOnly [96]]⟩ : Api).apply = .ok (q, some o') ∧ (⟨p1, [.media 4 .recvOnly [96]]⟩ : Api).apply = .ok (q1, some o1) ∧
      mids o1.1 = [1, 2, 4] := by
  refine ⟨_, _, _, _, _, _, rfl, rfl, rfl, ?_⟩
  decide +kernel

/-- C118: a direction that was set takes effect although it is never offered: dropping the changes does not roll it back (change/sdp.rs
358, against the comment at 567-569) -/
theorem C118_violation_direction :
    alice.sess.medias.map (·.dir) = [.sendRecv] ∧
    ((⟨alice, []⟩ : Api).setDirection 1 .recvOnly).peer.sess.medias.map (·.dir) = [.recvOnly] := by
  constructor <;> decide +kernel

/-- C118: a channel with a stream id of its own that was added and dropped cannot be added again: the process panics (channel.rs 210) -/
theorem C118_violation_channel (a a' : Api) (m m' w id : Nat) (cs : List Change) (h : a.addChannel m (some w) = .ok (a', id)) :
    (⟨a'.peer, cs⟩ : Api).addChannel m' (some w) = .panic := by
  unfold Api.addChannel at h
  simp only at h
  split at h
  · rename_i hh i hn
    simp only [Res.ok.injEq, Prod.mk.injEq] at h
    obtain ⟨rfl, -⟩ := h
    unfold Channel.Handler.newChannel at hn
    split at hn
    · simp at hn
    · simp only [Res.ok.injEq, Prod.mk.injEq] at hn
      obtain ⟨rfl, -⟩ := hn
      unfold Api.addChannel
      simp only
      have : ∀ x : Channel.Handler, (∃ y ∈ x.allocs, y.wanted = some w) → x.newChannel (some w) = .panic := by
        intro x ⟨y, hy, hw⟩
        unfold Channel.Handler.newChannel
        rw [if_pos]
        refine ⟨rfl, ?_⟩
        rw [List.any_eq_true]
        exact ⟨y, hy, by simp [hw]⟩
      rw [this _ ⟨_, List.mem_append_right _ (List.mem_singleton.mpr rfl), rfl⟩]
  · simp at h
  · simp at h

/-- The hypothesis of `C118_violation_channel` is met -/
theorem C118_example_channel : ∃ a id, (⟨alice, []⟩ : Api).addChannel 5 (some 7) = .ok (a, id) := by
  refine ⟨_, _, rfl⟩

end Str0m.SdpApi
