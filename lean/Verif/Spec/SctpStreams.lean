import Verif.Model.SctpStreams
/-
  What a log of the streams says, without the model's functions.
-/
namespace Str0m.SctpStreams
open Str0m.Channel (Config DcepOpen Ppi)
open Str0m.RtcLoop (SctpEvent)

/-- The stream was said to be open (or was taken over when the application opened it), and not said to be closed since. -/
def Live (l : List Note) (id : Nat) : Prop :=
  ∃ l₁ n l₂, l = l₁ ++ n :: l₂ ∧ (n = .adopted id ∨ ∃ label, n = .event (.opened id label)) ∧ ∀ b, Note.event (.closed id b) ∉ l₂

/-- The application asked for the stream with a configuration of that label. -/
def AskedLabel (l : List Note) (id : Nat) (label : List Byte) : Prop := ∃ cfg, Note.openCall id cfg ∈ l ∧ cfg.label = label

/-- The message `DATA_CHANNEL_OPEN` that the stream hands out at some time. -/
def PeerOpened {W : Type} (env : Env W) (id : Nat) (d : DcepOpen) : Prop :=
  ∃ w buf, (env.read id w).1 = .data buf .dcep ∧ DcepOpen.parse env.utf8 buf = .ok d

/-- Every configuration asked for fits the message that opens the stream (1500 bytes, 12 of header). -/
def Fits (l : List Note) : Prop := ∀ id cfg, Note.openCall id cfg ∈ l → cfg.label.length + cfg.protocol.length ≤ 1488

/-- sctp-proto: a stream that exists can be got. -/
def Honest {W : Type} (env : Env W) : Prop := ∀ id w, (env.open_ id w).1 = .exists_ false → env.stream id (env.open_ id w).2 = true

/-- An sctp-proto that keeps in `g` the list of all messages it handed out, with the stream and the kind; nothing else changes `g`. -/
structure Records {W : Type} (env : Env W) (g : W → List (Nat × List Byte × Ppi)) : Prop where
  connect : ∀ w, g (env.connect w).2 = g w
  transmit : ∀ w, g (env.transmit w).2 = g w
  poll : ∀ w, g (env.poll w).2 = g w
  open_ : ∀ id w, g (env.open_ id w).2 = g w
  reliability : ∀ id d w, g (env.reliability id d w).2 = g w
  write : ∀ id b p w, g (env.write id b p w).2 = g w
  threshold : ∀ id n w, g (env.threshold id n w).2 = g w
  close : ∀ id w, g (env.close id w).2 = g w
  arrive : ∀ n d w, g (env.arrive n d w).2 = g w
  tick : ∀ n w, g (env.tick n w) = g w
  read : ∀ id w, g (env.read id w).2 = g w ++ (match (env.read id w).1 with | .data buf ppi => [(id, buf, ppi)] | _ => [])

/-- The messages of the application among those handed out: the kinds 51, 53, 56, 57 of RFC 8831 (empty ones have one byte of padding). -/
def messages (l : List (Nat × List Byte × Ppi)) : List (Nat × Bool × List Byte) :=
  l.filterMap fun (id, buf, ppi) =>
    match ppi with
    | .string => some (id, false, buf)
    | .binary => some (id, true, buf)
    | .stringEmpty => some (id, false, [])
    | .binaryEmpty => some (id, true, [])
    | _ => none

/-- The messages told to the application. -/
def told (l : List Note) : List (Nat × Bool × List Byte) :=
  l.filterMap fun
    | .event (.data id b d) => some (id, b, d)
    | _ => none

end Str0m.SctpStreams
