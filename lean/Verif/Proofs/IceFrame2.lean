import Verif.Proofs.IceTable
/-
  Frame lemmas of request handling (generated).
-/
namespace Str0m.Ice

@[simp] theorem afterRequest_locals (a : Agent) (p : Pair) : (afterRequest a p).locals = a.locals := by
  unfold afterRequest; split <;> simp
@[simp] theorem afterRequest_tieBreaker (a : Agent) (p : Pair) : (afterRequest a p).tieBreaker = a.tieBreaker := by
  unfold afterRequest; split <;> simp
@[simp] theorem afterRequest_iceLite (a : Agent) (p : Pair) : (afterRequest a p).iceLite = a.iceLite := by
  unfold afterRequest; split <;> simp
@[simp] theorem afterRequest_maxPairs (a : Agent) (p : Pair) : (afterRequest a p).maxPairs = a.maxPairs := by
  unfold afterRequest; split <;> simp
@[simp] theorem afterRequest_timing (a : Agent) (p : Pair) : (afterRequest a p).timing = a.timing := by
  unfold afterRequest; split <;> simp
@[simp] theorem afterRequest_lastNow (a : Agent) (p : Pair) : (afterRequest a p).lastNow = a.lastNow := by
  unfold afterRequest; split <;> simp
@[simp] theorem afterRequest_remoteCreds (a : Agent) (p : Pair) : (afterRequest a p).remoteCreds = a.remoteCreds := by
  unfold afterRequest; split <;> simp
@[simp] theorem afterRequest_queue (a : Agent) (p : Pair) : (afterRequest a p).queue = a.queue := by
  unfold afterRequest; split <;> simp
@[simp] theorem afterRequest_nextTrans (a : Agent) (p : Pair) : (afterRequest a p).nextTrans = a.nextTrans := by
  unfold afterRequest; split <;> simp
@[simp] theorem afterRequest_connState (a : Agent) (p : Pair) : (afterRequest a p).connState = a.connState := by
  unfold afterRequest; split <;> simp
@[simp] theorem afterRequest_remotes (a : Agent) (p : Pair) : (afterRequest a p).remotes = a.remotes := by
  unfold afterRequest; split <;> simp
@[simp] theorem afterRequest_controlling (a : Agent) (p : Pair) : (afterRequest a p).controlling = a.controlling := by
  unfold afterRequest; split <;> simp
@[simp] theorem afterRequest_nextId (a : Agent) (p : Pair) : (afterRequest a p).nextId = a.nextId := by
  unfold afterRequest; split <;> simp
@[simp] theorem afterRequest_transmit (a : Agent) (p : Pair) : (afterRequest a p).transmit = a.transmit := by
  unfold afterRequest; split <;> simp
@[simp] theorem answerRequest_locals (a : Agent) (req : Req) (li ri : Nat) : (answerRequest a req li ri).locals = a.locals := by
  unfold answerRequest; split <;> simp
@[simp] theorem answerRequest_tieBreaker (a : Agent) (req : Req) (li ri : Nat) : (answerRequest a req li ri).tieBreaker = a.tieBreaker := by
  unfold answerRequest; split <;> simp
@[simp] theorem answerRequest_iceLite (a : Agent) (req : Req) (li ri : Nat) : (answerRequest a req li ri).iceLite = a.iceLite := by
  unfold answerRequest; split <;> simp
@[simp] theorem answerRequest_maxPairs (a : Agent) (req : Req) (li ri : Nat) : (answerRequest a req li ri).maxPairs = a.maxPairs := by
  unfold answerRequest; split <;> simp
@[simp] theorem answerRequest_timing (a : Agent) (req : Req) (li ri : Nat) : (answerRequest a req li ri).timing = a.timing := by
  unfold answerRequest; split <;> simp
@[simp] theorem answerRequest_lastNow (a : Agent) (req : Req) (li ri : Nat) : (answerRequest a req li ri).lastNow = a.lastNow := by
  unfold answerRequest; split <;> simp
@[simp] theorem answerRequest_remoteCreds (a : Agent) (req : Req) (li ri : Nat) : (answerRequest a req li ri).remoteCreds = a.remoteCreds := by
  unfold answerRequest; split <;> simp
@[simp] theorem answerRequest_queue (a : Agent) (req : Req) (li ri : Nat) : (answerRequest a req li ri).queue = a.queue := by
  unfold answerRequest; split <;> simp
@[simp] theorem answerRequest_nextTrans (a : Agent) (req : Req) (li ri : Nat) : (answerRequest a req li ri).nextTrans = a.nextTrans := by
  unfold answerRequest; split <;> simp
@[simp] theorem answerRequest_connState (a : Agent) (req : Req) (li ri : Nat) : (answerRequest a req li ri).connState = a.connState := by
  unfold answerRequest; split <;> simp
@[simp] theorem answerRequest_remotes (a : Agent) (req : Req) (li ri : Nat) : (answerRequest a req li ri).remotes = a.remotes := by
  unfold answerRequest; split <;> simp
@[simp] theorem answerRequest_controlling (a : Agent) (req : Req) (li ri : Nat) : (answerRequest a req li ri).controlling = a.controlling := by
  unfold answerRequest; split <;> simp
@[simp] theorem answerRequest_nextId (a : Agent) (req : Req) (li ri : Nat) : (answerRequest a req li ri).nextId = a.nextId := by
  unfold answerRequest; split <;> simp
@[simp] theorem ensurePair_locals (a : Agent) (req : Req) (li ri : Nat) : (ensurePair a req li ri).locals = a.locals := by
  unfold ensurePair; split
  · simp
  · split
    · split
      · rfl
      · split <;> simp
    · rfl
@[simp] theorem ensurePair_tieBreaker (a : Agent) (req : Req) (li ri : Nat) : (ensurePair a req li ri).tieBreaker = a.tieBreaker := by
  unfold ensurePair; split
  · simp
  · split
    · split
      · rfl
      · split <;> simp
    · rfl
@[simp] theorem ensurePair_iceLite (a : Agent) (req : Req) (li ri : Nat) : (ensurePair a req li ri).iceLite = a.iceLite := by
  unfold ensurePair; split
  · simp
  · split
    · split
      · rfl
      · split <;> simp
    · rfl
@[simp] theorem ensurePair_maxPairs (a : Agent) (req : Req) (li ri : Nat) : (ensurePair a req li ri).maxPairs = a.maxPairs := by
  unfold ensurePair; split
  · simp
  · split
    · split
      · rfl
      · split <;> simp
    · rfl
@[simp] theorem ensurePair_timing (a : Agent) (req : Req) (li ri : Nat) : (ensurePair a req li ri).timing = a.timing := by
  unfold ensurePair; split
  · simp
  · split
    · split
      · rfl
      · split <;> simp
    · rfl
@[simp] theorem ensurePair_lastNow (a : Agent) (req : Req) (li ri : Nat) : (ensurePair a req li ri).lastNow = a.lastNow := by
  unfold ensurePair; split
  · simp
  · split
    · split
      · rfl
      · split <;> simp
    · rfl
@[simp] theorem ensurePair_remoteCreds (a : Agent) (req : Req) (li ri : Nat) : (ensurePair a req li ri).remoteCreds = a.remoteCreds := by
  unfold ensurePair; split
  · simp
  · split
    · split
      · rfl
      · split <;> simp
    · rfl
@[simp] theorem ensurePair_queue (a : Agent) (req : Req) (li ri : Nat) : (ensurePair a req li ri).queue = a.queue := by
  unfold ensurePair; split
  · simp
  · split
    · split
      · rfl
      · split <;> simp
    · rfl
@[simp] theorem ensurePair_nextTrans (a : Agent) (req : Req) (li ri : Nat) : (ensurePair a req li ri).nextTrans = a.nextTrans := by
  unfold ensurePair; split
  · simp
  · split
    · split
      · rfl
      · split <;> simp
    · rfl
@[simp] theorem ensurePair_connState (a : Agent) (req : Req) (li ri : Nat) : (ensurePair a req li ri).connState = a.connState := by
  unfold ensurePair; split
  · simp
  · split
    · split
      · rfl
      · split <;> simp
    · rfl
@[simp] theorem ensurePair_remotes (a : Agent) (req : Req) (li ri : Nat) : (ensurePair a req li ri).remotes = a.remotes := by
  unfold ensurePair; split
  · simp
  · split
    · split
      · rfl
      · split <;> simp
    · rfl
@[simp] theorem ensurePair_controlling (a : Agent) (req : Req) (li ri : Nat) : (ensurePair a req li ri).controlling = a.controlling := by
  unfold ensurePair; split
  · simp
  · split
    · split
      · rfl
      · split <;> simp
    · rfl
@[simp] theorem findRemote_locals (a : Agent) (req : Req) (li : Nat) : (findRemote a req li).locals = a.locals := by
  unfold findRemote; split
  · rfl
  · split
    · simp
    · split <;> simp
@[simp] theorem findRemote_tieBreaker (a : Agent) (req : Req) (li : Nat) : (findRemote a req li).tieBreaker = a.tieBreaker := by
  unfold findRemote; split
  · rfl
  · split
    · simp
    · split <;> simp
@[simp] theorem findRemote_iceLite (a : Agent) (req : Req) (li : Nat) : (findRemote a req li).iceLite = a.iceLite := by
  unfold findRemote; split
  · rfl
  · split
    · simp
    · split <;> simp
@[simp] theorem findRemote_maxPairs (a : Agent) (req : Req) (li : Nat) : (findRemote a req li).maxPairs = a.maxPairs := by
  unfold findRemote; split
  · rfl
  · split
    · simp
    · split <;> simp
@[simp] theorem findRemote_timing (a : Agent) (req : Req) (li : Nat) : (findRemote a req li).timing = a.timing := by
  unfold findRemote; split
  · rfl
  · split
    · simp
    · split <;> simp
@[simp] theorem findRemote_lastNow (a : Agent) (req : Req) (li : Nat) : (findRemote a req li).lastNow = a.lastNow := by
  unfold findRemote; split
  · rfl
  · split
    · simp
    · split <;> simp
@[simp] theorem findRemote_remoteCreds (a : Agent) (req : Req) (li : Nat) : (findRemote a req li).remoteCreds = a.remoteCreds := by
  unfold findRemote; split
  · rfl
  · split
    · simp
    · split <;> simp
@[simp] theorem findRemote_queue (a : Agent) (req : Req) (li : Nat) : (findRemote a req li).queue = a.queue := by
  unfold findRemote; split
  · rfl
  · split
    · simp
    · split <;> simp
@[simp] theorem findRemote_nextTrans (a : Agent) (req : Req) (li : Nat) : (findRemote a req li).nextTrans = a.nextTrans := by
  unfold findRemote; split
  · rfl
  · split
    · simp
    · split <;> simp
@[simp] theorem findRemote_connState (a : Agent) (req : Req) (li : Nat) : (findRemote a req li).connState = a.connState := by
  unfold findRemote; split
  · rfl
  · split
    · simp
    · split <;> simp
@[simp] theorem findRemote_controlling (a : Agent) (req : Req) (li : Nat) : (findRemote a req li).controlling = a.controlling := by
  unfold findRemote; split
  · rfl
  · split
    · simp
    · split <;> simp
@[simp] theorem handleRequest_locals (a : Agent) (req : Req) : (handleRequest a req).locals = a.locals := by
  unfold handleRequest; split
  · rfl
  · split
    · rfl
    · split
      · rfl
      · split
        · split <;> simp
        · simp
@[simp] theorem handleRequest_tieBreaker (a : Agent) (req : Req) : (handleRequest a req).tieBreaker = a.tieBreaker := by
  unfold handleRequest; split
  · rfl
  · split
    · rfl
    · split
      · rfl
      · split
        · split <;> simp
        · simp
@[simp] theorem handleRequest_iceLite (a : Agent) (req : Req) : (handleRequest a req).iceLite = a.iceLite := by
  unfold handleRequest; split
  · rfl
  · split
    · rfl
    · split
      · rfl
      · split
        · split <;> simp
        · simp
@[simp] theorem handleRequest_maxPairs (a : Agent) (req : Req) : (handleRequest a req).maxPairs = a.maxPairs := by
  unfold handleRequest; split
  · rfl
  · split
    · rfl
    · split
      · rfl
      · split
        · split <;> simp
        · simp
@[simp] theorem handleRequest_timing (a : Agent) (req : Req) : (handleRequest a req).timing = a.timing := by
  unfold handleRequest; split
  · rfl
  · split
    · rfl
    · split
      · rfl
      · split
        · split <;> simp
        · simp
@[simp] theorem handleRequest_lastNow (a : Agent) (req : Req) : (handleRequest a req).lastNow = a.lastNow := by
  unfold handleRequest; split
  · rfl
  · split
    · rfl
    · split
      · rfl
      · split
        · split <;> simp
        · simp
@[simp] theorem handleRequest_remoteCreds (a : Agent) (req : Req) : (handleRequest a req).remoteCreds = a.remoteCreds := by
  unfold handleRequest; split
  · rfl
  · split
    · rfl
    · split
      · rfl
      · split
        · split <;> simp
        · simp
@[simp] theorem handleRequest_queue (a : Agent) (req : Req) : (handleRequest a req).queue = a.queue := by
  unfold handleRequest; split
  · rfl
  · split
    · rfl
    · split
      · rfl
      · split
        · split <;> simp
        · simp
@[simp] theorem handleRequest_nextTrans (a : Agent) (req : Req) : (handleRequest a req).nextTrans = a.nextTrans := by
  unfold handleRequest; split
  · rfl
  · split
    · rfl
    · split
      · rfl
      · split
        · split <;> simp
        · simp
@[simp] theorem handleRequest_connState (a : Agent) (req : Req) : (handleRequest a req).connState = a.connState := by
  unfold handleRequest; split
  · rfl
  · split
    · rfl
    · split
      · rfl
      · split
        · split <;> simp
        · simp
end Str0m.Ice
