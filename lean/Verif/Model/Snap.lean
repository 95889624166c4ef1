/-!
Starting SCTP without its handshake: the `a=sctp-init` attribute in offers and answers. sctp/snap.rs 90-163, sctp/mod.rs 338-500,
change/sdp.rs 104-136, 192-229, 695-715, 797-835, 884-893, lib.rs 1502-1521.

Simplifications: of a description, whether it has an application line and the attribute of that line (`sctp_init()` is of the first,
sdp/data.rs 85-90; without a line there is no attribute); whether the rest is refused by `apply_offer` or `apply_answer` is given (`bad`).
The base64 code, the chunk that the SCTP library makes (it may fail to) and whether it takes a chunk of the peer are given. `snap_init` is
two options: without either chunk it does the same whether it is there or not. What follows the start (who sends INIT) is not here.
-/

namespace Str0m.Snap

/-- The encoding of chunks, and which chunks the library takes -/
structure Code (Chunk : Type) where
  encode : Chunk → String
  decode : String → Option Chunk
  takes : Chunk → Bool

/-- How SCTP was started -/
inductive Mode (Chunk : Type) where
  | handshake
  | snap (mine yours : Chunk)
deriving Repr, DecidableEq

/-- One side: `snap_enabled`, `session.app().is_some()`, the state, and the chunks of `snap_init` -/
structure Side (Chunk : Type) where
  enabled : Bool
  app : Bool := false
  mode : Option (Mode Chunk) := none
  mine : Option Chunk := none
  yours : Option Chunk := none
deriving Repr, DecidableEq

/-- A description -/
structure Desc where
  app : Bool
  init : Option String
deriving Repr, DecidableEq

variable {Chunk : Type}

/-- sctp/mod.rs 432-440 `ensure_local_snap_init`, sctp/snap.rs 90-97; `made` is the chunk that the library would make -/
def Side.ensure (s : Side Chunk) (made : Option Chunk) : Side Chunk :=
  match s.mine with
  | some _ => s
  | none => match made with
    | some c => { s with mine := some c }
    | none => { s with mine := none, yours := none }

/-- sctp/mod.rs 445-449 `disable_pending_snap` -/
def Side.drop (s : Side Chunk) : Side Chunk := if s.mode.isNone then { s with mine := none, yours := none } else s

/-- sctp/mod.rs 456-463 `local_sctp_init_for_sdp` -/
def Side.attribute (c : Code Chunk) (s : Side Chunk) : Option String :=
  if s.mode.isSome && s.yours.isNone then none else s.mine.map c.encode

/-- change/sdp.rs 797-835 `process_remote_sctp_init`, sctp/mod.rs 466-491: `none` is an error -/
def Side.process (c : Code Chunk) (s : Side Chunk) : Option String → Option (Side Chunk × Bool)
  | some str =>
    if s.mode.isSome then match s.yours.map c.encode with
      | some cached => if cached = str then some (s, false) else none
      | none => some (s, false)
    else match c.decode str with
      | some r => some ({ s with yours := some r }, true)
      | none => some (s.drop, false)
  | none => if s.mode.isSome && s.yours.isSome then none else some (s, false)

/-- lib.rs 1502-1521, sctp/mod.rs 338-411, 495-501: `false` is an error -/
def Side.start (c : Code Chunk) (s : Side Chunk) : Side Chunk × Bool :=
  if s.mode.isSome then (s, true)
  else match s.mine, s.yours with
    | some l, some r => if c.takes r then ({ s with mode := some (.snap l r) }, true) else (s, false)
    | _, _ => ({ s with mode := some .handshake }, true)

/-- change/sdp.rs 126-130, 219-223 -/
def Side.startApp (c : Code Chunk) (s : Side Chunk) : Side Chunk × Bool := if s.app then s.start c else (s, true)

/-- change/sdp.rs 695-715 `create_offer`, 884-893; `add` is `contains_add_app()` -/
def createOffer (c : Code Chunk) (s : Side Chunk) (add : Bool) (made : Option Chunk) : Side Chunk × Desc :=
  let s' := if s.enabled && (s.app || add) && s.mode.isNone then s.ensure made else s
  (s', { app := s.app || add, init := if s.app || add then s'.attribute c else none })

/-- change/sdp.rs 104-136 `accept_offer`: no answer is an error -/
def acceptOffer (c : Code Chunk) (s : Side Chunk) (d : Desc) (bad : Bool) (made : Option Chunk) : Side Chunk × Option Desc :=
  match s.process c d.init with
  | none => (s, none)
  | some (s, hasSnap) =>
    if bad then (s, none)
    else
      let s : Side Chunk := { s with app := s.app || d.app }
      let s := if hasSnap && s.mode.isNone then s.ensure made else s
      let r := s.startApp c
      if r.2 then (r.1, some { app := r.1.app, init := if r.1.app then r.1.attribute c else none }) else (r.1, none)

/-- change/sdp.rs 192-229 `accept_answer`: `false` is an error -/
def acceptAnswer (c : Code Chunk) (s : Side Chunk) (d : Desc) (bad : Bool) : Side Chunk × Bool :=
  let expected := s.mode.isNone && (s.attribute c).isSome
  match s.process c d.init with
  | none => (s, false)
  | some (s, hasSnap) =>
    if bad then (s, false)
    else
      let s : Side Chunk := { s with app := s.app || d.app }
      let s := if expected && !hasSnap then s.drop else s
      s.startApp c

/-! ### Two sides -/

/-- What happens between two sides, `true` the first: an offer that is answered, with the chunks that would be made; or one that is not sent -/
inductive Op (Chunk : Type) where
  | exchange (first : Bool) (add : Bool) (made made' : Option Chunk)
  | unsent (first : Bool) (add : Bool) (made : Option Chunk)
deriving Repr, DecidableEq

/-- An exchange: both sides, and whether it was accepted by both -/
def exchange (c : Code Chunk) (a b : Side Chunk) (add : Bool) (made made' : Option Chunk) : Side Chunk × Side Chunk × Bool :=
  let o := createOffer c a add made
  let r := acceptOffer c b o.2 false made'
  match r.2 with
  | none => (o.1, r.1, false)
  | some d => let q := acceptAnswer c o.1 d false
    (q.1, r.1, q.2)

/-- One step -/
def step (c : Code Chunk) (p : Side Chunk × Side Chunk × Bool) : Op Chunk → Side Chunk × Side Chunk × Bool
  | .exchange true add made made' => exchange c p.1 p.2.1 add made made'
  | .exchange false add made made' =>
    let q := exchange c p.2.1 p.1 add made made'
    (q.2.1, q.1, q.2.2)
  | .unsent true add made => ((createOffer c p.1 add made).1, p.2.1, p.2.2)
  | .unsent false add made => (p.1, (createOffer c p.2.1 add made).1, p.2.2)

/-- A history, from two new sides; the last component is whether the last exchange was accepted -/
def run (c : Code Chunk) (ea eb : Bool) (ops : List (Op Chunk)) : Side Chunk × Side Chunk × Bool :=
  ops.foldl (step c) ({ enabled := ea }, { enabled := eb }, true)

end Str0m.Snap
