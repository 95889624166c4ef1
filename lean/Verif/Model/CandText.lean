import Verif.Model.Sdp

/-!
`crates/is/src/parse.rs`: `Candidate::from_sdp_string`, the other parser of a candidate.
-/

namespace Str0m.Sdp
open Str0m.Text Str0m.StrId

/-- `str::split_whitespace` -/
def words : Str → List Str
  | [] => []
  | c :: cs =>
    if isWs c then words cs
    else match cs with
      | [] => [[c]]
      | d :: _ =>
        if isWs d then [c] :: words cs
        else match words cs with
          | [] => [[c]]
          | w :: ws => (c :: w) :: ws

/-- `str::strip_prefix` -/
def stripPrefix : Str → Str → Option Str
  | [], s => some s
  | _ :: _, [] => none
  | p :: ps, c :: cs => if p = c then stripPrefix ps cs else none

/-- parse.rs 55-61 -/
def CandKind.parse (s : Str) : Option CandKind :=
  if s = c!"host" then some .host else if s = c!"prflx" then some .prflx else if s = c!"srflx" then some .srflx
  else if s = c!"relay" then some .relay else none

/-- parse.rs 64-67 -/
structure Exts (Ip : Type) where
  raddr : Option Ip := none
  rport : Option Nat := none
  tcptype : Option TcpType := none
  ufrag : Option Str := none
deriving Repr, DecidableEq

/-- parse.rs 69-93: the loop; `none` is an error. A key without a value is an error only for the known ones. -/
def extGo (env : Env Ip) : List Str → Exts Ip → Option (Exts Ip)
  | [], e => some e
  | [k], e => if k = c!"raddr" ∨ k = c!"rport" ∨ k = c!"tcptype" ∨ k = c!"ufrag" then none else some e
  | k :: v :: rest, e =>
    if k = c!"raddr" then (env.ipParse v).bind (fun ip => extGo env rest { e with raddr := some ip })
    else if k = c!"rport" then (parseNat 65535 v).bind (fun n => extGo env rest { e with rport := some n })
    else if k = c!"tcptype" then (TcpType.parse v).bind (fun t => extGo env rest { e with tcptype := some t })
    else if k = c!"ufrag" then extGo env rest { e with ufrag := some v }
    else extGo env rest e

/-- parse.rs 95-98 -/
def Exts.addr (e : Exts Ip) : Option (Ip × Nat) :=
  match e.raddr, e.rport with
  | some ip, some port => some (ip, port)
  | _, _ => none

/-- parse.rs 15-111, candidate.rs 324-326 `from_sdp_string` -/
def parseCandidate (env : Env Ip) (s : Str) : Option (Cand Ip) :=
  (stripPrefix c!"candidate:" s).bind fun s =>
  match words s with
  | found :: comp :: proto :: prio :: ip :: port :: typ :: kind :: rest =>
    (parseNat 65535 comp).bind fun comp => (Net.parse proto).bind fun proto => (parseNat (2^32 - 1) prio).bind fun prio =>
    (env.ipParse ip).bind fun ip => (parseNat 65535 port).bind fun port =>
    if typ = c!"typ" then
      (CandKind.parse kind).bind fun kind => (extGo env rest {}).bind fun e =>
      some { foundation := found, component := comp, proto := proto, prio := prio, ip := ip, port := port, kind := kind,
             raddr := e.addr, tcptype := e.tcptype, ufrag := e.ufrag }
    else none
  | _ => none

end Str0m.Sdp
