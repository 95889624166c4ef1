import Verif.Model.RtcLoop
/-
  What a log says, without the model's functions.
-/
namespace Str0m.RtcLoop

/-- Whatever is in the log, at its place. -/
def Always (Q : List Note → Note → Prop) (l : List Note) : Prop := ∀ pre n post, l = pre ++ n :: post → Q pre n

/-- The last nomination of the ICE agent. -/
def NominatedLast (l : List Note) (a : SendAddr) : Prop :=
  ∃ l₁ l₂, l = l₁ ++ .ice (.nominated a) :: l₂ ∧ ∀ b, Note.ice (.nominated b) ∉ l₂

/-- The fingerprint that was set last. -/
def Expecting (l : List Note) (f : Fingerprint) : Prop := ∃ l₁ l₂, l = l₁ ++ .expects f :: l₂ ∧ ∀ g, Note.expects g ∉ l₂

/-- A certificate was shown that is not the one expected at that time: no fingerprint is known, or, with verification, it is not
the SHA-256 of the certificate. -/
def BadCert (sha256 : List Byte → List Byte) (verify : Bool) (l : List Note) : Prop :=
  ∃ l₁ der l₂, l = l₁ ++ .dtls (.peerCert der) :: l₂ ∧
    ¬ ∃ f, Expecting l₁ f ∧ (verify = true → f.hash = "sha-256" ∧ f.bytes = sha256 der)

/-- The channel an event is about. -/
def names : Event → Option Nat
  | .channelOpen id _ | .channelClose id | .channelData id _ _ | .channelLow id => some id
  | _ => none

/-- Known to the application: it made the channel, or was told that it is open. -/
def Announced (l : List Note) (id : Nat) : Prop := .created id ∈ l ∨ ∃ label, Note.out (.event (.channelOpen id label)) ∈ l

/-- The bytes in all datagrams handed out. -/
def sentBytes (l : List Note) : Nat := (l.map fun | .out (.transmit t) => t.contents.length | _ => 0).sum

/-- The bytes in all datagrams that came, STUN left out or not. -/
def arrivedBytes (withStun : Bool) (l : List Note) : Nat :=
  (l.map fun | .arrived stun len => (if stun && !withStun then 0 else len) | _ => 0).sum

end Str0m.RtcLoop
