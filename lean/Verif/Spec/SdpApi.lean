import Verif.Model.SdpApi

/-!
What the properties C114-C118 are about, said without the functions of the model that decide it.
-/

namespace Str0m.SdpApi
open Str0m.Negotiate (Dir)

/-- A change that needs no negotiation any more: the media is there, the application's line is there, the channel has its stream, the
direction is the one asked for (or there is no such media), the credentials are in use -/
def Done (p : Peer) : Change → Prop
  | .media mid _ _ => ∃ m ∈ p.sess.medias, m.mid = mid
  | .app _ => p.sess.app ≠ none
  | .channel id => ∃ a ∈ p.chans.allocs, a.id = id ∧ a.stream ≠ none
  | .direction mid dir => ∀ m ∈ p.sess.medias, m.mid = mid → m.dir = dir
  | .restart c => p.localCreds = c

/-- No two medias with one mid -/
def OneMid (p : Peer) : Prop := (p.sess.medias.map (·.mid)).Nodup

/-- The mids of the m-lines, in order -/
def mids (d : Desc) : List Nat := d.sdp.lines.map (·.mid)

/-- What stays of a peer through everything that is not an offer or an answer -/
structure SameIce (p q : Peer) : Prop where
  active : q.sess.active = p.sess.active
  lite : q.lite = p.lite
  controlling : q.controlling = p.controlling
  localCreds : q.localCreds = p.localCreds
  remoteCreds : q.remoteCreds = p.remoteCreds

/-- One peer offers, the other answers, the answer is accepted; new credentials are new, and there is no restart before the first
exchange -/
def Exchange (a b a' b' : Peer) : Prop :=
  ∃ cs a1 offer pending fresh answer,
    (⟨a, cs⟩ : Api).apply = .ok (a1, some (offer, pending)) ∧
    b.acceptOffer offer fresh = (b', .ok answer) ∧
    a1.acceptAnswer pending answer = (a', .ok ()) ∧
    fresh ≠ b.localCreds ∧
    (∀ c, .restart c ∈ cs → c ≠ a.localCreds ∧ a.remoteCreds ≠ none)

/-- Two peers after any number of exchanges, either offering, with offers in between that are made and dropped, and whatever else
happens to each of them -/
inductive Rounds : Peer → Peer → Prop where
  | start (la lb : Bool) (ca cb : Nat) : Rounds { lite := la, localCreds := ca } { lite := lb, localCreds := cb }
  | left {a b a' b' : Peer} : Rounds a b → Exchange a b a' b' → Rounds a' b'
  | right {a b a' b' : Peer} : Rounds a b → Exchange b a b' a' → Rounds a' b'
  | dropLeft {a b a' : Peer} (cs : List Change) (o : Desc × Pending) : Rounds a b → (⟨a, cs⟩ : Api).apply = .ok (a', some o) → Rounds a' b
  | dropRight {a b b' : Peer} (cs : List Change) (o : Desc × Pending) : Rounds a b → (⟨b, cs⟩ : Api).apply = .ok (b', some o) → Rounds a b'
  | otherLeft {a b a' : Peer} : Rounds a b → SameIce a a' → Rounds a' b
  | otherRight {a b b' : Peer} : Rounds a b → SameIce b b' → Rounds a b'

/-- Each knows the credentials of the other, or neither knows any -/
def Agree (a b : Peer) : Prop :=
  (a.remoteCreds = none ∧ b.remoteCreds = none) ∨ (a.remoteCreds = some b.localCreds ∧ b.remoteCreds = some a.localCreds)

end Str0m.SdpApi
