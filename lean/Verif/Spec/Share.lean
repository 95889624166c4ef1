import Verif.Model.Share

/-!
What C119 and C120 are about, said without `accepts`.
-/

namespace Str0m.Share

/-- `addr` is the remote address of a candidate pair whose connectivity check was answered -/
def Answered (a : Ice.Agent) (addr : Ice.Addr) : Prop :=
  ∃ p ∈ a.pairs, p.state = .succeeded ∧ ∃ c, a.remotes[p.remoteIdx]? = some c ∧ c.addr = addr

/-- A new `Rtc`, in any configuration -/
structure Start (r : Rtc) : Prop where
  locals : r.agent.locals = []
  remotes : r.agent.remotes = []
  pairs : r.agent.pairs = []
  queue : r.agent.queue = []
  events : r.agent.events = []
  crash : r.agent.crash = false
  lastNow : r.agent.lastNow = none
  sendTo : r.sendTo = none

/-- candidates that are added are not already discarded -/
def Op.Sane : Op → Prop
  | .ice (.addLocal _ c) => c.discarded = false
  | .ice (.addRemote c) => c.discarded = false
  | _ => True

/-- The peer shows something: it answers a check of ours, or asks for a pair to be used -/
def Op.Evidence : Op → Prop
  | .ice (.response _ _ _) => True
  | .ice (.request r) => r.useCandidate = true
  | _ => False

end Str0m.Share
