import Verif.Model.RtcLoop
/-
  The streams of SCTP: src/sctp/mod.rs 84-129, 162-182, 232-263, 326-413, 503-643, 657-722, 734-1153, 1177-1293.

  The crate `sctp-proto` (endpoint, association, streams) is an opaque state `W` with arbitrary functions (`Env`):
  every theorem holds whatever it answers, except where a theorem asks for more. Loops that ask until there is no
  more have fuel, `none` where it was not enough. Pushed-back packets are in Model/RtcLoop. SNAP is a flag of `init`.
-/
namespace Str0m.SctpStreams
open Str0m.Channel (Config DcepOpen Ppi)
open Str0m.RtcLoop (SctpEvent)

/-- mod.rs 170-182 -/
inductive EState where
  | awaitOpen | awaitConfig | awaitAck | opened | closed
deriving Repr, DecidableEq

/-- mod.rs 108-115 -/
inductive Threshold where
  | unconfigured
  | desired (n : Nat)
  | configured (n : Nat)
deriving Repr, DecidableEq

/-- mod.rs 118-128 -/
def Threshold.set (t : Threshold) (v : Nat) : Threshold :=
  match t with
  | .unconfigured => .desired v
  | .desired w => if v ≠ w then .desired v else t
  | .configured x => if v ≠ x then .desired v else t

/-- mod.rs 85-100 -/
structure Entry where
  id : Nat
  state : EState
  config : Option Config
  doClose : Bool
  deadline : Option Nat
  threshold : Threshold
deriving Repr, DecidableEq

/-- mod.rs 68-73 -/
inductive Conn where
  | uninited | awaitRemote | awaitEstablished | established
deriving Repr, DecidableEq

/-- `Event` of sctp-proto, as far as mod.rs 770-827 tells them apart. -/
inductive AssocEvent where
  | connected
  | lost
  | readable (id : Nat)
  | finished (id : Nat)
  | resetComplete (id : Nat)
  | low (id : Nat)
  | other
deriving Repr, DecidableEq

/-- What `assoc.open_stream` answers, with whether an existing stream is neither readable nor writable (mod.rs 902-906). -/
inductive OpenRes where
  | ok
  | exists_ (stale : Bool)
  | resetPending
  | failed
deriving Repr, DecidableEq

/-- What `stream_read_data` answers (mod.rs 1258-1283). -/
inductive ReadRes where
  | nothing
  | failed
  | data (buf : List Byte) (ppi : Ppi)
deriving Repr, DecidableEq

/-- What a datagram is to the endpoint (mod.rs 670-696). -/
inductive Arrival where
  | nothing
  | newAssociation
  | event
deriving Repr, DecidableEq

/-- sctp-proto. `open_`, `reliability`, `write`, `threshold`, `read`, `close` are of the stream with the number; `stream`: there is one. -/
structure Env (W : Type) where
  utf8 : List Byte → Bool
  connect : W → Bool × W
  transmit : W → Option (List (List Byte)) × W
  poll : W → Option AssocEvent × W
  open_ : Nat → W → OpenRes × W
  stream : Nat → W → Bool
  reliability : Nat → DcepOpen → W → Bool × W
  write : Nat → List Byte → Ppi → W → Bool × W
  threshold : Nat → Nat → W → Bool × W
  read : Nat → W → ReadRes × W
  close : Nat → W → Bool × W
  arrive : Nat → List Byte → W → Arrival × W
  tick : Nat → W → W
  closing : W → Bool

/-- A ghost: what was emitted, and what open_stream and close_stream were told, in order. -/
inductive Note where
  | event (e : SctpEvent)
  | openCall (id : Nat) (cfg : Config)
  | closeCall (id : Nat)
  /-- `open_stream` found the stream of the peer and opened it -/
  | adopted (id : Nat)
deriving Repr, DecidableEq

/-- mod.rs 38-61 -/
structure Sctp (W : Type) where
  conn : Conn
  hasAssoc : Bool
  entries : List Entry
  pending : List Nat
  complete : List Nat
  now : Nat
  client : Bool
  world : W
  log : List Note

variable {W : Type}

/-- mod.rs 301-318 -/
def Sctp.new (w : W) : Sctp W :=
  { conn := .uninited, hasAssoc := false, entries := [], pending := [], complete := [], now := 0, client := false, world := w, log := [] }

/-- Ghost. -/
def Sctp.say (s : Sctp W) (n : Note) : Sctp W := { s with log := s.log ++ [n] }

/-- mod.rs 345-412; `snap` is that both INIT chunks are there. False: an error. -/
def init (env : Env W) (s : Sctp W) (client snap : Bool) (now : Nat) : Bool × Sctp W :=
  if s.conn ≠ .uninited then (false, s)
  else
    let s := { s with client := client, now := now }
    if snap then
      let a := env.connect s.world
      if a.1 then (true, { s with world := a.2, hasAssoc := true, conn := .established }) else (false, { s with world := a.2 })
    else if client then
      let a := env.connect s.world
      if a.1 then (true, { s with world := a.2, hasAssoc := true, conn := .awaitEstablished }) else (false, { s with world := a.2 })
    else (true, { s with conn := .awaitRemote })

/-- mod.rs 1218-1228: the list is sorted by the number; binary search finds the one with the number. -/
def find (es : List Entry) (id : Nat) : Option Entry := es.find? (fun e => decide (e.id = id))

/-- A new entry (mod.rs 1242-1249). -/
def fresh (id : Nat) (st : EState) : Entry :=
  { id := id, state := st, config := none, doClose := false, deadline := none, threshold := .unconfigured }

/-- mod.rs 1230-1256, the inserting part: before the first with a higher number. -/
def insert (id : Nat) (st : EState) : List Entry → List Entry
  | [] => [fresh id st]
  | e :: es => if e.id = id then e :: es else if id < e.id then fresh id st :: e :: es else e :: insert id st es

/-- Changes the entry with the number. -/
def update (id : Nat) (f : Entry → Entry) (es : List Entry) : List Entry := es.map (fun e => if e.id = id then f e else e)

/-- mod.rs 1180-1195 -/
def propagateClose (env : Env W) (hasAssoc : Bool) (id : Nat) (pending : List Nat) (w : W) : Bool × List Nat × W :=
  if hasAssoc && env.stream id w then
    let a := env.close id w
    let pending := if a.1 then (if id ∈ pending then pending else pending ++ [id]) else pending
    (decide (id ∈ pending), pending, a.2)
  else (decide (id ∈ pending), pending, w)

/-- mod.rs 504-555 -/
def openStream (env : Env W) (s : Sctp W) (id : Nat) (cfg : Config) : Sctp W :=
  let s := ({ s with entries := insert id .awaitOpen s.entries } : Sctp W).say (.openCall id cfg)
  match find s.entries id with
  | none => s
  | some e =>
    if e.config.isSome then { s with entries := update id (fun e => { e with doClose := true }) s.entries }
    else
      let s := { s with entries := update id (fun e => { e with config := some cfg }) s.entries }
      if e.state = .awaitConfig then
        if cfg.negotiated.isNone then { s with entries := update id (fun e => { e with doClose := true }) s.entries }
        else if s.hasAssoc = false || env.stream id s.world = false then
          { s with entries := update id (fun e => { e with doClose := true }) s.entries }
        else
          let a := env.reliability id cfg.toDcep s.world
          if a.1 then
            ({ s with world := a.2, entries := update id (fun e => { e with state := .opened }) s.entries } : Sctp W).say (.adopted id)
          else { s with world := a.2, entries := update id (fun e => { e with doClose := true }) s.entries }
      else s

/-- mod.rs 558-565 -/
def closeStream (env : Env W) (s : Sctp W) (id : Nat) : Sctp W :=
  match find s.entries id with
  | none => s
  | some _ =>
    let p := propagateClose env s.hasAssoc id s.pending s.world
    ({ s with entries := update id (fun e => { e with doClose := true }) s.entries, pending := p.2.1, world := p.2.2 } : Sctp W).say (.closeCall id)

/-- mod.rs 579-589 -/
def isOpen (s : Sctp W) (id : Nat) : Bool :=
  decide (s.conn = .established) && match find s.entries id with
    | some e => decide (e.state = .opened)
    | none => false

/-- mod.rs 612-643: `none` is the panic of the missing entry; whether it was written. -/
def write (env : Env W) (s : Sctp W) (id : Nat) (binary : Bool) (buf : List Byte) : Option (Bool × Sctp W) :=
  if s.conn ≠ .established || env.closing s.world || s.hasAssoc = false then some (false, s)
  else
    match find s.entries id with
    | none => none
    | some e =>
      if e.state ≠ .opened then some (false, s)
      else if env.stream id s.world = false then some (false, s)
      else
        let a := env.write id buf (Channel.ppiOf binary buf) s.world
        some (a.1, { s with world := a.2 })

/-- mod.rs 657-663; `none` is the panic. -/
def setThreshold (s : Sctp W) (id n : Nat) : Option (Sctp W) :=
  match find s.entries id with
  | none => none
  | some _ => some { s with entries := update id (fun e => { e with threshold := e.threshold.set n }) s.entries }

/-- mod.rs 665-697; `none` is the panic of an event without association. -/
def handleInput (env : Env W) (s : Sctp W) (now : Nat) (data : List Byte) : Option (Sctp W) :=
  match env.arrive now data s.world with
  | (.nothing, w) => some { s with world := w }
  | (.newAssociation, w) =>
    if s.hasAssoc then some { s with world := w } else some { s with world := w, hasAssoc := true, conn := .awaitEstablished }
  | (.event, w) => if s.hasAssoc then some { s with world := w } else none

/-- mod.rs 708 and 748 -/
def retain (es : List Entry) : List Entry := es.filter (fun e => decide (e.state ≠ .closed))

/-- mod.rs 699-722 -/
def handleTimeout (env : Env W) (s : Sctp W) (now : Nat) : Sctp W :=
  if s.conn = .uninited then s
  else
    let s := { s with now := now, entries := retain s.entries }
    if s.hasAssoc then { s with world := env.tick now s.world } else s

/-- How a part of `do_poll` goes on. -/
inductive Next where
  | go
  | restart
  | stop (e : SctpEvent)
  | panic
deriving Repr, DecidableEq

/-- mod.rs 770-828 -/
def events (env : Env W) : Nat → Sctp W → Option (Next × Sctp W)
  | 0, _ => none
  | fuel + 1, s =>
    match env.poll s.world with
    | (none, w) => some (.go, { s with world := w })
    | (some .connected, w) => some (.restart, { s with world := w, conn := .established })
    | (some .lost, w) => some (.stop .lost, { s with world := w, pending := [], complete := [] })
    | (some (.readable id), w) => events env fuel { s with world := w, entries := insert id .awaitConfig s.entries }
    | (some (.finished id), w) =>
      events env fuel { s with
        world := w
        pending := if id ∈ s.pending then s.pending else s.pending ++ [id]
        entries := update id (fun e => if e.state ≠ .closed ∧ e.state ≠ .awaitOpen then { e with doClose := true } else e) s.entries }
    | (some (.resetComplete id), w) =>
      events env fuel { s with world := w, pending := s.pending.filter (fun x => decide (x ≠ id)), complete := s.complete ++ [id] }
    | (some (.low id), w) => some (.stop (.low id), { s with world := w })
    | (some .other, w) => events env fuel { s with world := w }

/-- The close of an entry: mod.rs 845-851, 877-884, 932-939, 983-991 and the like. -/
def closeEntry (env : Env W) (e : Entry) (pending : List Nat) (w : W) : Next × Entry × List Nat × W :=
  let p := propagateClose env true e.id pending w
  (.stop (.closed e.id p.1), { e with state := .closed }, p.2.1, p.2.2)

/-- mod.rs 243-262, and `expect` -/
def configure (env : Env W) (e : Entry) (w : W) : Option (Bool × W) :=
  match e.config with
  | none => none
  | some c => some (env.reliability e.id c.toDcep w)

/-- mod.rs 969-980 -/
def considerOpen (e : Entry) (pending : List Nat) (w : W) : Next × Entry × List Nat × W :=
  match e.config with
  | none => (.panic, e, pending, w)
  | some c => if c.negotiated.isNone then (.panic, e, pending, w) else (.stop (.opened e.id c.label), { e with state := .opened }, pending, w)

/-- mod.rs 838-981: an entry that waits to be opened. -/
def openEntry (env : Env W) (now : Nat) (e : Entry) (pending : List Nat) (w : W) : Next × Entry × List Nat × W :=
  match env.open_ e.id w with
  | (.ok, w) =>
    let e := { e with deadline := none }
    match configure env e w with
    | none => (.panic, e, pending, w)
    | some (false, w) => closeEntry env { e with doClose := true } pending w
    | some (true, w) =>
      match e.config with
      | none => (.panic, e, pending, w)
      | some c =>
        if c.negotiated.isNone then
          match Channel.openMessage c with
          | .ok b =>
            match env.write e.id b .dcep w with
            | (true, w) => (.restart, { e with state := .awaitAck }, pending, w)
            | (false, w) => closeEntry env { e with doClose := true } pending w
          | _ => (.panic, e, pending, w)
        else considerOpen e pending w
  | (.failed, w) => closeEntry env { e with doClose := true } pending w
  | (.exists_ stale, w) =>
    match e.config with
    | none => (.panic, e, pending, w)
    | some c =>
      if c.negotiated.isNone || stale then
        let deadline := e.deadline.getD (now + 10 * 10^9)
        if now < deadline then (.go, { e with deadline := some deadline }, pending, w)
        else closeEntry env { e with deadline := some deadline, doClose := true } pending w
      else if env.stream e.id w = false then (.panic, e, pending, w)
      else
        match configure env e w with
        | none => (.panic, e, pending, w)
        | some (false, w) => closeEntry env { e with doClose := true } pending w
        | some (true, w) => considerOpen e pending w
  | (.resetPending, w) =>
    match e.config with
    | none => (.panic, e, pending, w)
    | some _ =>
      let deadline := e.deadline.getD (now + 10 * 10^9)
      if now < deadline then (.go, { e with deadline := some deadline }, pending, w)
      else closeEntry env { e with deadline := some deadline, doClose := true } pending w

/-- mod.rs 1033-1115: a message of DCEP. -/
def dcepEntry (env : Env W) (e : Entry) (buf : List Byte) (pending : List Nat) (w : W) : Next × Entry × List Nat × W :=
  match e.state with
  | .awaitConfig =>
    match DcepOpen.parse env.utf8 buf with
    | .ok d =>
      let e := { e with config := some (e.config.getD (Config.ofDcep d)) }
      match configure env e w with
      | none => (.panic, e, pending, w)
      | some (false, w) => (.go, { e with doClose := true }, pending, w)
      | some (true, w) =>
        match env.write e.id Channel.ackMarshal .dcep w with
        | (true, w) => (.stop (.opened e.id d.label), { e with state := .opened }, pending, w)
        | (false, w) => closeEntry env { e with doClose := true } pending w
    | .err _ => (.go, { e with doClose := true }, pending, w)
    | .panic => (.panic, e, pending, w)
  | .awaitAck =>
    match Channel.ackParse buf with
    | .ok _ =>
      match e.config with
      | none => (.panic, { e with state := .opened }, pending, w)
      | some c => (.stop (.opened e.id c.label), { e with state := .opened }, pending, w)
    | .err _ => (.go, { e with doClose := true }, pending, w)
    | .panic => (.panic, e, pending, w)
  | _ => (.go, { e with doClose := true }, pending, w)

/-- mod.rs 1016-1119: what the stream of an entry has to read. -/
def readEntry (env : Env W) (e : Entry) (pending : List Nat) (w : W) : Next × Entry × List Nat × W :=
  match env.read e.id w with
  | (.nothing, w) => (.go, e, pending, w)
  | (.failed, w) => (.go, { e with doClose := true }, pending, w)
  | (.data buf ppi, w) =>
    if ppi = .dcep then dcepEntry env e buf pending w
    else match Channel.deliver ppi buf with
      | some (binary, d) => (.stop (.data e.id binary d), e, pending, w)
      | none => (.go, { e with doClose := true }, pending, w)

/-- mod.rs 835-1120: one entry of the loop. -/
def stepEntry (env : Env W) (now : Nat) (e : Entry) (pending : List Nat) (w : W) : Next × Entry × List Nat × W :=
  if e.state = .awaitOpen then openEntry env now e pending w
  else if e.doClose && decide (e.state ≠ .closed) then closeEntry env e pending w
  else if env.stream e.id w = false then (.go, { e with doClose := true }, pending, w)
  else
    match e.threshold with
    | .desired x =>
      match env.threshold e.id x w with
      | (false, w) => (.go, { e with doClose := true, threshold := .unconfigured }, pending, w)
      | (true, w) => readEntry env { e with threshold := .configured x } pending w
    | _ => readEntry env e pending w

/-- mod.rs 835-1120: the loop over the entries. -/
def loopEntries (env : Env W) (now : Nat) : List Entry → List Nat → W → Next × List Entry × List Nat × W
  | [], pending, w => (.go, [], pending, w)
  | e :: es, pending, w =>
    match stepEntry env now e pending w with
    | (.go, e, pending, w) =>
      let r := loopEntries env now es pending w
      (r.1, e :: r.2.1, r.2.2)
    | (n, e, pending, w) => (n, e :: es, pending, w)

/-- What `do_poll` returns. -/
inductive Polled where
  | nothing
  | event (e : SctpEvent)
  | panic
deriving Repr, DecidableEq

/-- mod.rs 734-1130, without the pushed-back packets. -/
def doPoll (env : Env W) : Nat → Sctp W → Option (Polled × Sctp W)
  | 0, _ => none
  | fuel + 1, s =>
    if s.conn = .uninited then some (.nothing, s)
    else
      let s := { s with entries := retain s.entries }
      match env.transmit s.world with
      | (some p, w) => some (.event (.transmit p), { s with world := w })
      | (none, w) =>
        let s := { s with world := w }
        if s.conn ≠ .awaitEstablished ∧ s.conn ≠ .established then some (.nothing, s)
        else if s.hasAssoc = false then some (.nothing, s)
        else
          match events env fuel s with
          | none => none
          | some (.restart, s) => doPoll env fuel s
          | some (.stop e, s) => some (.event e, s)
          | some (.panic, s) => some (.panic, s)
          | some (.go, s) =>
            if s.conn ≠ .established then some (.nothing, s)
            else
              match loopEntries env s.now s.entries s.pending s.world with
              | (.restart, es, pending, w) => doPoll env fuel { s with entries := es, pending := pending, world := w }
              | (.stop e, es, pending, w) => some (.event e, { s with entries := es, pending := pending, world := w })
              | (.panic, es, pending, w) => some (.panic, { s with entries := es, pending := pending, world := w })
              | (.go, es, pending, w) =>
                match s.complete with
                | id :: rest => some (.event (.resetComplete id), { s with entries := es, pending := pending, world := w, complete := rest })
                | [] => some (.nothing, { s with entries := es, pending := pending, world := w })

/-- Ghost: what is emitted is noted. -/
def poll (env : Env W) (fuel : Nat) (s : Sctp W) : Option (Polled × Sctp W) :=
  match doPoll env fuel s with
  | none => none
  | some (.event e, s) => some (.event e, s.say (.event e))
  | some (o, s) => some (o, s)

/-- mod.rs 1132-1153; `timer` is what the association asks for. -/
def pollTimeout (s : Sctp W) (timer : Option Nat) : Option Nat :=
  let retry := if s.entries.any (fun e => decide (e.state = .awaitOpen) && e.deadline.isSome) then some (s.now + 500 * 10^6) else none
  match timer, retry with
  | some a, some r => some (min a r)
  | some a, none => some a
  | none, r => r

/-- What is done with it. -/
inductive Op (W : Type) where
  | init (client snap : Bool) (now : Nat)
  | openStream (id : Nat) (cfg : Config)
  | closeStream (id : Nat)
  | write (id : Nat) (binary : Bool) (buf : List Byte)
  | threshold (id n : Nat)
  | input (now : Nat) (data : List Byte)
  | timeout (now : Nat)
  | poll
  /-- anything else that changes only sctp-proto -/
  | other (f : W → W)

/-- One call; `none` is fuel or a panic. -/
def step (env : Env W) (fuel : Nat) (s : Sctp W) : Op W → Option (Sctp W)
  | .init client snap now => some (init env s client snap now).2
  | .openStream id cfg => some (openStream env s id cfg)
  | .closeStream id => some (closeStream env s id)
  | .write id binary buf => (write env s id binary buf).map (·.2)
  | .threshold id n => setThreshold s id n
  | .input now data => handleInput env s now data
  | .timeout now => some (handleTimeout env s now)
  | .poll =>
    match poll env fuel s with
    | some (.panic, _) => none
    | some (_, s) => some s
    | none => none
  | .other f => some { s with world := f s.world }

/-- A history. -/
def run (env : Env W) (fuel : Nat) (s : Sctp W) : List (Op W) → Option (Sctp W)
  | [] => some s
  | op :: ops =>
    match step env fuel s op with
    | none => none
    | some s' => run env fuel s' ops

end Str0m.SctpStreams
