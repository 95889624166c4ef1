import Verif.Model.IceAgent
/-
  Frame lemmas of the ICE agent model: which fields each function leaves alone (generated).
-/
namespace Str0m.Ice

@[simp] theorem formOne_locals (a : Agent) (ij : Nat × Nat) : (formOne a ij).locals = a.locals := by
  unfold formOne; split <;> (try rfl); split <;> (try rfl); split <;> rfl
@[simp] theorem formOne_remotes (a : Agent) (ij : Nat × Nat) : (formOne a ij).remotes = a.remotes := by
  unfold formOne; split <;> (try rfl); split <;> (try rfl); split <;> rfl
@[simp] theorem formOne_controlling (a : Agent) (ij : Nat × Nat) : (formOne a ij).controlling = a.controlling := by
  unfold formOne; split <;> (try rfl); split <;> (try rfl); split <;> rfl
@[simp] theorem formOne_tieBreaker (a : Agent) (ij : Nat × Nat) : (formOne a ij).tieBreaker = a.tieBreaker := by
  unfold formOne; split <;> (try rfl); split <;> (try rfl); split <;> rfl
@[simp] theorem formOne_iceLite (a : Agent) (ij : Nat × Nat) : (formOne a ij).iceLite = a.iceLite := by
  unfold formOne; split <;> (try rfl); split <;> (try rfl); split <;> rfl
@[simp] theorem formOne_maxPairs (a : Agent) (ij : Nat × Nat) : (formOne a ij).maxPairs = a.maxPairs := by
  unfold formOne; split <;> (try rfl); split <;> (try rfl); split <;> rfl
@[simp] theorem formOne_timing (a : Agent) (ij : Nat × Nat) : (formOne a ij).timing = a.timing := by
  unfold formOne; split <;> (try rfl); split <;> (try rfl); split <;> rfl
@[simp] theorem formOne_lastNow (a : Agent) (ij : Nat × Nat) : (formOne a ij).lastNow = a.lastNow := by
  unfold formOne; split <;> (try rfl); split <;> (try rfl); split <;> rfl
@[simp] theorem formOne_remoteCreds (a : Agent) (ij : Nat × Nat) : (formOne a ij).remoteCreds = a.remoteCreds := by
  unfold formOne; split <;> (try rfl); split <;> (try rfl); split <;> rfl
@[simp] theorem formOne_queue (a : Agent) (ij : Nat × Nat) : (formOne a ij).queue = a.queue := by
  unfold formOne; split <;> (try rfl); split <;> (try rfl); split <;> rfl
@[simp] theorem formOne_nextTrans (a : Agent) (ij : Nat × Nat) : (formOne a ij).nextTrans = a.nextTrans := by
  unfold formOne; split <;> (try rfl); split <;> (try rfl); split <;> rfl
@[simp] theorem formOne_transmit (a : Agent) (ij : Nat × Nat) : (formOne a ij).transmit = a.transmit := by
  unfold formOne; split <;> (try rfl); split <;> (try rfl); split <;> rfl
@[simp] theorem formOne_nominatedSend (a : Agent) (ij : Nat × Nat) : (formOne a ij).nominatedSend = a.nominatedSend := by
  unfold formOne; split <;> (try rfl); split <;> (try rfl); split <;> rfl
@[simp] theorem formOne_connState (a : Agent) (ij : Nat × Nat) : (formOne a ij).connState = a.connState := by
  unfold formOne; split <;> (try rfl); split <;> (try rfl); split <;> rfl

theorem formOne_foldl_locals (l : List (Nat × Nat)) (a : Agent) : (l.foldl formOne a).locals = a.locals := by
  induction l generalizing a with
  | nil => rfl
  | cons x xs ih => simp [ih]
@[simp] theorem formPairs_locals (a : Agent) (is js : List Nat) : (formPairs a is js).locals = a.locals := by
  simp [formPairs, formOne_foldl_locals]
theorem formOne_foldl_remotes (l : List (Nat × Nat)) (a : Agent) : (l.foldl formOne a).remotes = a.remotes := by
  induction l generalizing a with
  | nil => rfl
  | cons x xs ih => simp [ih]
@[simp] theorem formPairs_remotes (a : Agent) (is js : List Nat) : (formPairs a is js).remotes = a.remotes := by
  simp [formPairs, formOne_foldl_remotes]
theorem formOne_foldl_controlling (l : List (Nat × Nat)) (a : Agent) : (l.foldl formOne a).controlling = a.controlling := by
  induction l generalizing a with
  | nil => rfl
  | cons x xs ih => simp [ih]
@[simp] theorem formPairs_controlling (a : Agent) (is js : List Nat) : (formPairs a is js).controlling = a.controlling := by
  simp [formPairs, formOne_foldl_controlling]
theorem formOne_foldl_tieBreaker (l : List (Nat × Nat)) (a : Agent) : (l.foldl formOne a).tieBreaker = a.tieBreaker := by
  induction l generalizing a with
  | nil => rfl
  | cons x xs ih => simp [ih]
@[simp] theorem formPairs_tieBreaker (a : Agent) (is js : List Nat) : (formPairs a is js).tieBreaker = a.tieBreaker := by
  simp [formPairs, formOne_foldl_tieBreaker]
theorem formOne_foldl_iceLite (l : List (Nat × Nat)) (a : Agent) : (l.foldl formOne a).iceLite = a.iceLite := by
  induction l generalizing a with
  | nil => rfl
  | cons x xs ih => simp [ih]
@[simp] theorem formPairs_iceLite (a : Agent) (is js : List Nat) : (formPairs a is js).iceLite = a.iceLite := by
  simp [formPairs, formOne_foldl_iceLite]
theorem formOne_foldl_maxPairs (l : List (Nat × Nat)) (a : Agent) : (l.foldl formOne a).maxPairs = a.maxPairs := by
  induction l generalizing a with
  | nil => rfl
  | cons x xs ih => simp [ih]
@[simp] theorem formPairs_maxPairs (a : Agent) (is js : List Nat) : (formPairs a is js).maxPairs = a.maxPairs := by
  simp [formPairs, formOne_foldl_maxPairs]
theorem formOne_foldl_timing (l : List (Nat × Nat)) (a : Agent) : (l.foldl formOne a).timing = a.timing := by
  induction l generalizing a with
  | nil => rfl
  | cons x xs ih => simp [ih]
theorem formOne_foldl_lastNow (l : List (Nat × Nat)) (a : Agent) : (l.foldl formOne a).lastNow = a.lastNow := by
  induction l generalizing a with
  | nil => rfl
  | cons x xs ih => simp [ih]
@[simp] theorem formPairs_timing (a : Agent) (is js : List Nat) : (formPairs a is js).timing = a.timing := by
  simp [formPairs, formOne_foldl_timing]
@[simp] theorem formPairs_lastNow (a : Agent) (is js : List Nat) : (formPairs a is js).lastNow = a.lastNow := by
  simp [formPairs, formOne_foldl_lastNow]
theorem formOne_foldl_remoteCreds (l : List (Nat × Nat)) (a : Agent) : (l.foldl formOne a).remoteCreds = a.remoteCreds := by
  induction l generalizing a with
  | nil => rfl
  | cons x xs ih => simp [ih]
@[simp] theorem formPairs_remoteCreds (a : Agent) (is js : List Nat) : (formPairs a is js).remoteCreds = a.remoteCreds := by
  simp [formPairs, formOne_foldl_remoteCreds]
theorem formOne_foldl_queue (l : List (Nat × Nat)) (a : Agent) : (l.foldl formOne a).queue = a.queue := by
  induction l generalizing a with
  | nil => rfl
  | cons x xs ih => simp [ih]
@[simp] theorem formPairs_queue (a : Agent) (is js : List Nat) : (formPairs a is js).queue = a.queue := by
  simp [formPairs, formOne_foldl_queue]
theorem formOne_foldl_nextTrans (l : List (Nat × Nat)) (a : Agent) : (l.foldl formOne a).nextTrans = a.nextTrans := by
  induction l generalizing a with
  | nil => rfl
  | cons x xs ih => simp [ih]
@[simp] theorem formPairs_nextTrans (a : Agent) (is js : List Nat) : (formPairs a is js).nextTrans = a.nextTrans := by
  simp [formPairs, formOne_foldl_nextTrans]
theorem formOne_foldl_transmit (l : List (Nat × Nat)) (a : Agent) : (l.foldl formOne a).transmit = a.transmit := by
  induction l generalizing a with
  | nil => rfl
  | cons x xs ih => simp [ih]
@[simp] theorem formPairs_transmit (a : Agent) (is js : List Nat) : (formPairs a is js).transmit = a.transmit := by
  simp [formPairs, formOne_foldl_transmit]
theorem formOne_foldl_nominatedSend (l : List (Nat × Nat)) (a : Agent) : (l.foldl formOne a).nominatedSend = a.nominatedSend := by
  induction l generalizing a with
  | nil => rfl
  | cons x xs ih => simp [ih]
@[simp] theorem formPairs_nominatedSend (a : Agent) (is js : List Nat) : (formPairs a is js).nominatedSend = a.nominatedSend := by
  simp [formPairs, formOne_foldl_nominatedSend]
theorem formOne_foldl_connState (l : List (Nat × Nat)) (a : Agent) : (l.foldl formOne a).connState = a.connState := by
  induction l generalizing a with
  | nil => rfl
  | cons x xs ih => simp [ih]
@[simp] theorem formPairs_connState (a : Agent) (is js : List Nat) : (formPairs a is js).connState = a.connState := by
  simp [formPairs, formOne_foldl_connState]
@[simp] theorem discardByLocal_locals (a : Agent) (i : Nat) : (discardByLocal a i).locals = a.locals := by
  rfl
@[simp] theorem discardByLocal_remotes (a : Agent) (i : Nat) : (discardByLocal a i).remotes = a.remotes := by
  rfl
@[simp] theorem discardByLocal_controlling (a : Agent) (i : Nat) : (discardByLocal a i).controlling = a.controlling := by
  rfl
@[simp] theorem discardByLocal_tieBreaker (a : Agent) (i : Nat) : (discardByLocal a i).tieBreaker = a.tieBreaker := by
  rfl
@[simp] theorem discardByLocal_iceLite (a : Agent) (i : Nat) : (discardByLocal a i).iceLite = a.iceLite := by
  rfl
@[simp] theorem discardByLocal_maxPairs (a : Agent) (i : Nat) : (discardByLocal a i).maxPairs = a.maxPairs := by
  rfl
@[simp] theorem discardByLocal_timing (a : Agent) (i : Nat) : (discardByLocal a i).timing = a.timing := by
  rfl
@[simp] theorem discardByLocal_lastNow (a : Agent) (i : Nat) : (discardByLocal a i).lastNow = a.lastNow := by
  rfl
@[simp] theorem discardByLocal_remoteCreds (a : Agent) (i : Nat) : (discardByLocal a i).remoteCreds = a.remoteCreds := by
  rfl
@[simp] theorem discardByLocal_queue (a : Agent) (i : Nat) : (discardByLocal a i).queue = a.queue := by
  rfl
@[simp] theorem discardByLocal_nextTrans (a : Agent) (i : Nat) : (discardByLocal a i).nextTrans = a.nextTrans := by
  rfl
@[simp] theorem discardByLocal_nextId (a : Agent) (i : Nat) : (discardByLocal a i).nextId = a.nextId := by
  rfl
@[simp] theorem discardByLocal_transmit (a : Agent) (i : Nat) : (discardByLocal a i).transmit = a.transmit := by
  rfl
@[simp] theorem discardByLocal_nominatedSend (a : Agent) (i : Nat) : (discardByLocal a i).nominatedSend = a.nominatedSend := by
  rfl
@[simp] theorem discardByLocal_connState (a : Agent) (i : Nat) : (discardByLocal a i).connState = a.connState := by
  rfl

@[simp] theorem discardByRemote_locals (a : Agent) (i : Nat) : (discardByRemote a i).locals = a.locals := by
  rfl
@[simp] theorem discardByRemote_remotes (a : Agent) (i : Nat) : (discardByRemote a i).remotes = a.remotes := by
  rfl
@[simp] theorem discardByRemote_controlling (a : Agent) (i : Nat) : (discardByRemote a i).controlling = a.controlling := by
  rfl
@[simp] theorem discardByRemote_tieBreaker (a : Agent) (i : Nat) : (discardByRemote a i).tieBreaker = a.tieBreaker := by
  rfl
@[simp] theorem discardByRemote_iceLite (a : Agent) (i : Nat) : (discardByRemote a i).iceLite = a.iceLite := by
  rfl
@[simp] theorem discardByRemote_maxPairs (a : Agent) (i : Nat) : (discardByRemote a i).maxPairs = a.maxPairs := by
  rfl
@[simp] theorem discardByRemote_timing (a : Agent) (i : Nat) : (discardByRemote a i).timing = a.timing := by
  rfl
@[simp] theorem discardByRemote_lastNow (a : Agent) (i : Nat) : (discardByRemote a i).lastNow = a.lastNow := by
  rfl
@[simp] theorem discardByRemote_remoteCreds (a : Agent) (i : Nat) : (discardByRemote a i).remoteCreds = a.remoteCreds := by
  rfl
@[simp] theorem discardByRemote_queue (a : Agent) (i : Nat) : (discardByRemote a i).queue = a.queue := by
  rfl
@[simp] theorem discardByRemote_nextTrans (a : Agent) (i : Nat) : (discardByRemote a i).nextTrans = a.nextTrans := by
  rfl
@[simp] theorem discardByRemote_nextId (a : Agent) (i : Nat) : (discardByRemote a i).nextId = a.nextId := by
  rfl
@[simp] theorem discardByRemote_transmit (a : Agent) (i : Nat) : (discardByRemote a i).transmit = a.transmit := by
  rfl
@[simp] theorem discardByRemote_nominatedSend (a : Agent) (i : Nat) : (discardByRemote a i).nominatedSend = a.nominatedSend := by
  rfl
@[simp] theorem discardByRemote_connState (a : Agent) (i : Nat) : (discardByRemote a i).connState = a.connState := by
  rfl

@[simp] theorem setState_locals (a : Agent) (s : ConnState) : (setState a s).locals = a.locals := by
  unfold setState; split <;> rfl
@[simp] theorem setState_remotes (a : Agent) (s : ConnState) : (setState a s).remotes = a.remotes := by
  unfold setState; split <;> rfl
@[simp] theorem setState_controlling (a : Agent) (s : ConnState) : (setState a s).controlling = a.controlling := by
  unfold setState; split <;> rfl
@[simp] theorem setState_tieBreaker (a : Agent) (s : ConnState) : (setState a s).tieBreaker = a.tieBreaker := by
  unfold setState; split <;> rfl
@[simp] theorem setState_iceLite (a : Agent) (s : ConnState) : (setState a s).iceLite = a.iceLite := by
  unfold setState; split <;> rfl
@[simp] theorem setState_maxPairs (a : Agent) (s : ConnState) : (setState a s).maxPairs = a.maxPairs := by
  unfold setState; split <;> rfl
@[simp] theorem setState_timing (a : Agent) (s : ConnState) : (setState a s).timing = a.timing := by
  unfold setState; split <;> rfl
@[simp] theorem setState_lastNow (a : Agent) (s : ConnState) : (setState a s).lastNow = a.lastNow := by
  unfold setState; split <;> rfl
@[simp] theorem setState_remoteCreds (a : Agent) (s : ConnState) : (setState a s).remoteCreds = a.remoteCreds := by
  unfold setState; split <;> rfl
@[simp] theorem setState_queue (a : Agent) (s : ConnState) : (setState a s).queue = a.queue := by
  unfold setState; split <;> rfl
@[simp] theorem setState_nextTrans (a : Agent) (s : ConnState) : (setState a s).nextTrans = a.nextTrans := by
  unfold setState; split <;> rfl
@[simp] theorem setState_nextId (a : Agent) (s : ConnState) : (setState a s).nextId = a.nextId := by
  unfold setState; split <;> rfl
@[simp] theorem setState_transmit (a : Agent) (s : ConnState) : (setState a s).transmit = a.transmit := by
  unfold setState; split <;> rfl
@[simp] theorem setState_nominatedSend (a : Agent) (s : ConnState) : (setState a s).nominatedSend = a.nominatedSend := by
  unfold setState; split <;> rfl

@[simp] theorem switchRole_locals (a : Agent) (b : Bool) : (switchRole a b).locals = a.locals := by
  unfold switchRole; split <;> (try rfl); split <;> rfl
@[simp] theorem switchRole_remotes (a : Agent) (b : Bool) : (switchRole a b).remotes = a.remotes := by
  unfold switchRole; split <;> (try rfl); split <;> rfl
@[simp] theorem switchRole_tieBreaker (a : Agent) (b : Bool) : (switchRole a b).tieBreaker = a.tieBreaker := by
  unfold switchRole; split <;> (try rfl); split <;> rfl
@[simp] theorem switchRole_iceLite (a : Agent) (b : Bool) : (switchRole a b).iceLite = a.iceLite := by
  unfold switchRole; split <;> (try rfl); split <;> rfl
@[simp] theorem switchRole_maxPairs (a : Agent) (b : Bool) : (switchRole a b).maxPairs = a.maxPairs := by
  unfold switchRole; split <;> (try rfl); split <;> rfl
@[simp] theorem switchRole_timing (a : Agent) (b : Bool) : (switchRole a b).timing = a.timing := by
  unfold switchRole; split <;> (try rfl); split <;> rfl
@[simp] theorem switchRole_lastNow (a : Agent) (b : Bool) : (switchRole a b).lastNow = a.lastNow := by
  unfold switchRole; split <;> (try rfl); split <;> rfl
@[simp] theorem switchRole_remoteCreds (a : Agent) (b : Bool) : (switchRole a b).remoteCreds = a.remoteCreds := by
  unfold switchRole; split <;> (try rfl); split <;> rfl
@[simp] theorem switchRole_queue (a : Agent) (b : Bool) : (switchRole a b).queue = a.queue := by
  unfold switchRole; split <;> (try rfl); split <;> rfl
@[simp] theorem switchRole_nextTrans (a : Agent) (b : Bool) : (switchRole a b).nextTrans = a.nextTrans := by
  unfold switchRole; split <;> (try rfl); split <;> rfl
@[simp] theorem switchRole_nextId (a : Agent) (b : Bool) : (switchRole a b).nextId = a.nextId := by
  unfold switchRole; split <;> (try rfl); split <;> rfl
@[simp] theorem switchRole_transmit (a : Agent) (b : Bool) : (switchRole a b).transmit = a.transmit := by
  unfold switchRole; split <;> (try rfl); split <;> rfl
@[simp] theorem switchRole_nominatedSend (a : Agent) (b : Bool) : (switchRole a b).nominatedSend = a.nominatedSend := by
  unfold switchRole; split <;> (try rfl); split <;> rfl
@[simp] theorem switchRole_connState (a : Agent) (b : Bool) : (switchRole a b).connState = a.connState := by
  unfold switchRole; split <;> (try rfl); split <;> rfl

@[simp] theorem choosePair_locals (a : Agent) (i : Nat) (b : Pair) : (choosePair a i b).locals = a.locals := by
  unfold choosePair; dsimp only; split <;> rfl
@[simp] theorem choosePair_remotes (a : Agent) (i : Nat) (b : Pair) : (choosePair a i b).remotes = a.remotes := by
  unfold choosePair; dsimp only; split <;> rfl
@[simp] theorem choosePair_controlling (a : Agent) (i : Nat) (b : Pair) : (choosePair a i b).controlling = a.controlling := by
  unfold choosePair; dsimp only; split <;> rfl
@[simp] theorem choosePair_tieBreaker (a : Agent) (i : Nat) (b : Pair) : (choosePair a i b).tieBreaker = a.tieBreaker := by
  unfold choosePair; dsimp only; split <;> rfl
@[simp] theorem choosePair_iceLite (a : Agent) (i : Nat) (b : Pair) : (choosePair a i b).iceLite = a.iceLite := by
  unfold choosePair; dsimp only; split <;> rfl
@[simp] theorem choosePair_maxPairs (a : Agent) (i : Nat) (b : Pair) : (choosePair a i b).maxPairs = a.maxPairs := by
  unfold choosePair; dsimp only; split <;> rfl
@[simp] theorem choosePair_timing (a : Agent) (i : Nat) (b : Pair) : (choosePair a i b).timing = a.timing := by
  unfold choosePair; dsimp only; split <;> rfl
@[simp] theorem choosePair_lastNow (a : Agent) (i : Nat) (b : Pair) : (choosePair a i b).lastNow = a.lastNow := by
  unfold choosePair; dsimp only; split <;> rfl
@[simp] theorem choosePair_remoteCreds (a : Agent) (i : Nat) (b : Pair) : (choosePair a i b).remoteCreds = a.remoteCreds := by
  unfold choosePair; dsimp only; split <;> rfl
@[simp] theorem choosePair_queue (a : Agent) (i : Nat) (b : Pair) : (choosePair a i b).queue = a.queue := by
  unfold choosePair; dsimp only; split <;> rfl
@[simp] theorem choosePair_nextTrans (a : Agent) (i : Nat) (b : Pair) : (choosePair a i b).nextTrans = a.nextTrans := by
  unfold choosePair; dsimp only; split <;> rfl
@[simp] theorem choosePair_nextId (a : Agent) (i : Nat) (b : Pair) : (choosePair a i b).nextId = a.nextId := by
  unfold choosePair; dsimp only; split <;> rfl
@[simp] theorem choosePair_transmit (a : Agent) (i : Nat) (b : Pair) : (choosePair a i b).transmit = a.transmit := by
  unfold choosePair; dsimp only; split <;> rfl
@[simp] theorem choosePair_connState (a : Agent) (i : Nat) (b : Pair) : (choosePair a i b).connState = a.connState := by
  unfold choosePair; dsimp only; split <;> rfl

@[simp] theorem evalNomination_locals (a : Agent) : (evalNomination a).locals = a.locals := by
  unfold evalNomination; split <;> (try rfl); split <;> simp
@[simp] theorem evalNomination_remotes (a : Agent) : (evalNomination a).remotes = a.remotes := by
  unfold evalNomination; split <;> (try rfl); split <;> simp
@[simp] theorem evalNomination_controlling (a : Agent) : (evalNomination a).controlling = a.controlling := by
  unfold evalNomination; split <;> (try rfl); split <;> simp
@[simp] theorem evalNomination_tieBreaker (a : Agent) : (evalNomination a).tieBreaker = a.tieBreaker := by
  unfold evalNomination; split <;> (try rfl); split <;> simp
@[simp] theorem evalNomination_iceLite (a : Agent) : (evalNomination a).iceLite = a.iceLite := by
  unfold evalNomination; split <;> (try rfl); split <;> simp
@[simp] theorem evalNomination_maxPairs (a : Agent) : (evalNomination a).maxPairs = a.maxPairs := by
  unfold evalNomination; split <;> (try rfl); split <;> simp
@[simp] theorem evalNomination_timing (a : Agent) : (evalNomination a).timing = a.timing := by
  unfold evalNomination; split <;> (try rfl); split <;> simp
@[simp] theorem evalNomination_lastNow (a : Agent) : (evalNomination a).lastNow = a.lastNow := by
  unfold evalNomination; split <;> (try rfl); split <;> simp
@[simp] theorem evalNomination_remoteCreds (a : Agent) : (evalNomination a).remoteCreds = a.remoteCreds := by
  unfold evalNomination; split <;> (try rfl); split <;> simp
@[simp] theorem evalNomination_queue (a : Agent) : (evalNomination a).queue = a.queue := by
  unfold evalNomination; split <;> (try rfl); split <;> simp
@[simp] theorem evalNomination_nextTrans (a : Agent) : (evalNomination a).nextTrans = a.nextTrans := by
  unfold evalNomination; split <;> (try rfl); split <;> simp
@[simp] theorem evalNomination_nextId (a : Agent) : (evalNomination a).nextId = a.nextId := by
  unfold evalNomination; split <;> (try rfl); split <;> simp
@[simp] theorem evalNomination_transmit (a : Agent) : (evalNomination a).transmit = a.transmit := by
  unfold evalNomination; split <;> (try rfl); split <;> simp
@[simp] theorem evalNomination_connState (a : Agent) : (evalNomination a).connState = a.connState := by
  unfold evalNomination; split <;> (try rfl); split <;> simp

@[simp] theorem evalState_locals (a : Agent) (now : Nat) : (evalState a now).locals = a.locals := by
  unfold evalState; dsimp only; split <;> simp
@[simp] theorem evalState_remotes (a : Agent) (now : Nat) : (evalState a now).remotes = a.remotes := by
  unfold evalState; dsimp only; split <;> simp
@[simp] theorem evalState_controlling (a : Agent) (now : Nat) : (evalState a now).controlling = a.controlling := by
  unfold evalState; dsimp only; split <;> simp
@[simp] theorem evalState_tieBreaker (a : Agent) (now : Nat) : (evalState a now).tieBreaker = a.tieBreaker := by
  unfold evalState; dsimp only; split <;> simp
@[simp] theorem evalState_iceLite (a : Agent) (now : Nat) : (evalState a now).iceLite = a.iceLite := by
  unfold evalState; dsimp only; split <;> simp
@[simp] theorem evalState_maxPairs (a : Agent) (now : Nat) : (evalState a now).maxPairs = a.maxPairs := by
  unfold evalState; dsimp only; split <;> simp
@[simp] theorem evalState_timing (a : Agent) (now : Nat) : (evalState a now).timing = a.timing := by
  unfold evalState; dsimp only; split <;> simp
@[simp] theorem evalState_lastNow (a : Agent) (now : Nat) : (evalState a now).lastNow = a.lastNow := by
  unfold evalState; dsimp only; split <;> simp
@[simp] theorem evalState_remoteCreds (a : Agent) (now : Nat) : (evalState a now).remoteCreds = a.remoteCreds := by
  unfold evalState; dsimp only; split <;> simp
@[simp] theorem evalState_queue (a : Agent) (now : Nat) : (evalState a now).queue = a.queue := by
  unfold evalState; dsimp only; split <;> simp
@[simp] theorem evalState_nextTrans (a : Agent) (now : Nat) : (evalState a now).nextTrans = a.nextTrans := by
  unfold evalState; dsimp only; split <;> simp
@[simp] theorem evalState_nextId (a : Agent) (now : Nat) : (evalState a now).nextId = a.nextId := by
  unfold evalState; dsimp only; split <;> simp
@[simp] theorem evalState_transmit (a : Agent) (now : Nat) : (evalState a now).transmit = a.transmit := by
  unfold evalState; dsimp only; split <;> simp
@[simp] theorem evalState_nominatedSend (a : Agent) (now : Nat) : (evalState a now).nominatedSend = a.nominatedSend := by
  unfold evalState; dsimp only; split <;> simp

@[simp] theorem sendCheck_locals (a : Agent) (now i : Nat) : (sendCheck a now i).locals = a.locals := by
  unfold sendCheck; split <;> (try rfl); split <;> (try rfl); split <;> rfl
@[simp] theorem sendCheck_remotes (a : Agent) (now i : Nat) : (sendCheck a now i).remotes = a.remotes := by
  unfold sendCheck; split <;> (try rfl); split <;> (try rfl); split <;> rfl
@[simp] theorem sendCheck_controlling (a : Agent) (now i : Nat) : (sendCheck a now i).controlling = a.controlling := by
  unfold sendCheck; split <;> (try rfl); split <;> (try rfl); split <;> rfl
@[simp] theorem sendCheck_tieBreaker (a : Agent) (now i : Nat) : (sendCheck a now i).tieBreaker = a.tieBreaker := by
  unfold sendCheck; split <;> (try rfl); split <;> (try rfl); split <;> rfl
@[simp] theorem sendCheck_iceLite (a : Agent) (now i : Nat) : (sendCheck a now i).iceLite = a.iceLite := by
  unfold sendCheck; split <;> (try rfl); split <;> (try rfl); split <;> rfl
@[simp] theorem sendCheck_maxPairs (a : Agent) (now i : Nat) : (sendCheck a now i).maxPairs = a.maxPairs := by
  unfold sendCheck; split <;> (try rfl); split <;> (try rfl); split <;> rfl
@[simp] theorem sendCheck_timing (a : Agent) (now i : Nat) : (sendCheck a now i).timing = a.timing := by
  unfold sendCheck; split <;> (try rfl); split <;> (try rfl); split <;> rfl
@[simp] theorem sendCheck_lastNow (a : Agent) (now i : Nat) : (sendCheck a now i).lastNow = a.lastNow := by
  unfold sendCheck; split <;> (try rfl); split <;> (try rfl); split <;> rfl
@[simp] theorem sendCheck_remoteCreds (a : Agent) (now i : Nat) : (sendCheck a now i).remoteCreds = a.remoteCreds := by
  unfold sendCheck; split <;> (try rfl); split <;> (try rfl); split <;> rfl
@[simp] theorem sendCheck_queue (a : Agent) (now i : Nat) : (sendCheck a now i).queue = a.queue := by
  unfold sendCheck; split <;> (try rfl); split <;> (try rfl); split <;> rfl
@[simp] theorem sendCheck_nextId (a : Agent) (now i : Nat) : (sendCheck a now i).nextId = a.nextId := by
  unfold sendCheck; split <;> (try rfl); split <;> (try rfl); split <;> rfl
@[simp] theorem sendCheck_nominatedSend (a : Agent) (now i : Nat) : (sendCheck a now i).nominatedSend = a.nominatedSend := by
  unfold sendCheck; split <;> (try rfl); split <;> (try rfl); split <;> rfl
@[simp] theorem sendCheck_connState (a : Agent) (now i : Nat) : (sendCheck a now i).connState = a.connState := by
  unfold sendCheck; split <;> (try rfl); split <;> (try rfl); split <;> rfl

@[simp] theorem runChecks_locals (a : Agent) (now : Nat) : (runChecks a now).locals = a.locals := by
  unfold runChecks; dsimp only; split <;> (try rfl); split <;> simp
@[simp] theorem runChecks_remotes (a : Agent) (now : Nat) : (runChecks a now).remotes = a.remotes := by
  unfold runChecks; dsimp only; split <;> (try rfl); split <;> simp
@[simp] theorem runChecks_controlling (a : Agent) (now : Nat) : (runChecks a now).controlling = a.controlling := by
  unfold runChecks; dsimp only; split <;> (try rfl); split <;> simp
@[simp] theorem runChecks_tieBreaker (a : Agent) (now : Nat) : (runChecks a now).tieBreaker = a.tieBreaker := by
  unfold runChecks; dsimp only; split <;> (try rfl); split <;> simp
@[simp] theorem runChecks_iceLite (a : Agent) (now : Nat) : (runChecks a now).iceLite = a.iceLite := by
  unfold runChecks; dsimp only; split <;> (try rfl); split <;> simp
@[simp] theorem runChecks_maxPairs (a : Agent) (now : Nat) : (runChecks a now).maxPairs = a.maxPairs := by
  unfold runChecks; dsimp only; split <;> (try rfl); split <;> simp
@[simp] theorem runChecks_timing (a : Agent) (now : Nat) : (runChecks a now).timing = a.timing := by
  unfold runChecks; dsimp only; split <;> (try rfl); split <;> simp
@[simp] theorem runChecks_lastNow (a : Agent) (now : Nat) : (runChecks a now).lastNow = a.lastNow := by
  unfold runChecks; dsimp only; split <;> (try rfl); split <;> simp
@[simp] theorem runChecks_remoteCreds (a : Agent) (now : Nat) : (runChecks a now).remoteCreds = a.remoteCreds := by
  unfold runChecks; dsimp only; split <;> (try rfl); split <;> simp
@[simp] theorem runChecks_queue (a : Agent) (now : Nat) : (runChecks a now).queue = a.queue := by
  unfold runChecks; dsimp only; split <;> (try rfl); split <;> simp
@[simp] theorem runChecks_nextId (a : Agent) (now : Nat) : (runChecks a now).nextId = a.nextId := by
  unfold runChecks; dsimp only; split <;> (try rfl); split <;> simp
@[simp] theorem runChecks_nominatedSend (a : Agent) (now : Nat) : (runChecks a now).nominatedSend = a.nominatedSend := by
  unfold runChecks; dsimp only; split <;> (try rfl); split <;> simp
@[simp] theorem runChecks_connState (a : Agent) (now : Nat) : (runChecks a now).connState = a.connState := by
  unfold runChecks; dsimp only; split <;> (try rfl); split <;> simp

@[simp] theorem pruneFailed_locals (a : Agent) (now : Nat) : (pruneFailed a now).locals = a.locals := by
  unfold pruneFailed; dsimp only; split <;> simp
@[simp] theorem pruneFailed_remotes (a : Agent) (now : Nat) : (pruneFailed a now).remotes = a.remotes := by
  unfold pruneFailed; dsimp only; split <;> simp
@[simp] theorem pruneFailed_controlling (a : Agent) (now : Nat) : (pruneFailed a now).controlling = a.controlling := by
  unfold pruneFailed; dsimp only; split <;> simp
@[simp] theorem pruneFailed_tieBreaker (a : Agent) (now : Nat) : (pruneFailed a now).tieBreaker = a.tieBreaker := by
  unfold pruneFailed; dsimp only; split <;> simp
@[simp] theorem pruneFailed_iceLite (a : Agent) (now : Nat) : (pruneFailed a now).iceLite = a.iceLite := by
  unfold pruneFailed; dsimp only; split <;> simp
@[simp] theorem pruneFailed_maxPairs (a : Agent) (now : Nat) : (pruneFailed a now).maxPairs = a.maxPairs := by
  unfold pruneFailed; dsimp only; split <;> simp
@[simp] theorem pruneFailed_timing (a : Agent) (now : Nat) : (pruneFailed a now).timing = a.timing := by
  unfold pruneFailed; dsimp only; split <;> simp
@[simp] theorem pruneFailed_lastNow (a : Agent) (now : Nat) : (pruneFailed a now).lastNow = a.lastNow := by
  unfold pruneFailed; dsimp only; split <;> simp
@[simp] theorem pruneFailed_remoteCreds (a : Agent) (now : Nat) : (pruneFailed a now).remoteCreds = a.remoteCreds := by
  unfold pruneFailed; dsimp only; split <;> simp
@[simp] theorem pruneFailed_queue (a : Agent) (now : Nat) : (pruneFailed a now).queue = a.queue := by
  unfold pruneFailed; dsimp only; split <;> simp
@[simp] theorem pruneFailed_nextTrans (a : Agent) (now : Nat) : (pruneFailed a now).nextTrans = a.nextTrans := by
  unfold pruneFailed; dsimp only; split <;> simp
@[simp] theorem pruneFailed_nextId (a : Agent) (now : Nat) : (pruneFailed a now).nextId = a.nextId := by
  unfold pruneFailed; dsimp only; split <;> simp
@[simp] theorem pruneFailed_transmit (a : Agent) (now : Nat) : (pruneFailed a now).transmit = a.transmit := by
  unfold pruneFailed; dsimp only; split <;> simp

@[simp] theorem timeoutChecks_locals (a : Agent) (now : Nat) : (timeoutChecks a now).locals = a.locals := by
  unfold timeoutChecks; dsimp only; split <;> (try rfl); split <;> simp
@[simp] theorem timeoutChecks_remotes (a : Agent) (now : Nat) : (timeoutChecks a now).remotes = a.remotes := by
  unfold timeoutChecks; dsimp only; split <;> (try rfl); split <;> simp
@[simp] theorem timeoutChecks_controlling (a : Agent) (now : Nat) : (timeoutChecks a now).controlling = a.controlling := by
  unfold timeoutChecks; dsimp only; split <;> (try rfl); split <;> simp
@[simp] theorem timeoutChecks_tieBreaker (a : Agent) (now : Nat) : (timeoutChecks a now).tieBreaker = a.tieBreaker := by
  unfold timeoutChecks; dsimp only; split <;> (try rfl); split <;> simp
@[simp] theorem timeoutChecks_iceLite (a : Agent) (now : Nat) : (timeoutChecks a now).iceLite = a.iceLite := by
  unfold timeoutChecks; dsimp only; split <;> (try rfl); split <;> simp
@[simp] theorem timeoutChecks_maxPairs (a : Agent) (now : Nat) : (timeoutChecks a now).maxPairs = a.maxPairs := by
  unfold timeoutChecks; dsimp only; split <;> (try rfl); split <;> simp
@[simp] theorem timeoutChecks_timing (a : Agent) (now : Nat) : (timeoutChecks a now).timing = a.timing := by
  unfold timeoutChecks; dsimp only; split <;> (try rfl); split <;> simp
@[simp] theorem timeoutChecks_lastNow (a : Agent) (now : Nat) : (timeoutChecks a now).lastNow = a.lastNow := by
  unfold timeoutChecks; dsimp only; split <;> (try rfl); split <;> simp
@[simp] theorem timeoutChecks_remoteCreds (a : Agent) (now : Nat) : (timeoutChecks a now).remoteCreds = a.remoteCreds := by
  unfold timeoutChecks; dsimp only; split <;> (try rfl); split <;> simp
@[simp] theorem timeoutChecks_queue (a : Agent) (now : Nat) : (timeoutChecks a now).queue = a.queue := by
  unfold timeoutChecks; dsimp only; split <;> (try rfl); split <;> simp
@[simp] theorem timeoutChecks_nextId (a : Agent) (now : Nat) : (timeoutChecks a now).nextId = a.nextId := by
  unfold timeoutChecks; dsimp only; split <;> (try rfl); split <;> simp
@[simp] theorem timeoutChecks_nominatedSend (a : Agent) (now : Nat) : (timeoutChecks a now).nominatedSend = a.nominatedSend := by
  unfold timeoutChecks; dsimp only; split <;> (try rfl); split <;> simp
@[simp] theorem timeoutChecks_connState (a : Agent) (now : Nat) : (timeoutChecks a now).connState = a.connState := by
  unfold timeoutChecks; dsimp only; split <;> (try rfl); split <;> simp

@[simp] theorem recordOn_locals (a : Agent) (now t v : Nat) : (recordOn a now t v).locals = a.locals := by
  unfold recordOn; dsimp only; split <;> simp
@[simp] theorem recordOn_remotes (a : Agent) (now t v : Nat) : (recordOn a now t v).remotes = a.remotes := by
  unfold recordOn; dsimp only; split <;> simp
@[simp] theorem recordOn_controlling (a : Agent) (now t v : Nat) : (recordOn a now t v).controlling = a.controlling := by
  unfold recordOn; dsimp only; split <;> simp
@[simp] theorem recordOn_tieBreaker (a : Agent) (now t v : Nat) : (recordOn a now t v).tieBreaker = a.tieBreaker := by
  unfold recordOn; dsimp only; split <;> simp
@[simp] theorem recordOn_iceLite (a : Agent) (now t v : Nat) : (recordOn a now t v).iceLite = a.iceLite := by
  unfold recordOn; dsimp only; split <;> simp
@[simp] theorem recordOn_maxPairs (a : Agent) (now t v : Nat) : (recordOn a now t v).maxPairs = a.maxPairs := by
  unfold recordOn; dsimp only; split <;> simp
@[simp] theorem recordOn_timing (a : Agent) (now t v : Nat) : (recordOn a now t v).timing = a.timing := by
  unfold recordOn; dsimp only; split <;> simp
@[simp] theorem recordOn_lastNow (a : Agent) (now t v : Nat) : (recordOn a now t v).lastNow = a.lastNow := by
  unfold recordOn; dsimp only; split <;> simp
@[simp] theorem recordOn_remoteCreds (a : Agent) (now t v : Nat) : (recordOn a now t v).remoteCreds = a.remoteCreds := by
  unfold recordOn; dsimp only; split <;> simp
@[simp] theorem recordOn_queue (a : Agent) (now t v : Nat) : (recordOn a now t v).queue = a.queue := by
  unfold recordOn; dsimp only; split <;> simp
@[simp] theorem recordOn_nextTrans (a : Agent) (now t v : Nat) : (recordOn a now t v).nextTrans = a.nextTrans := by
  unfold recordOn; dsimp only; split <;> simp
@[simp] theorem recordOn_nextId (a : Agent) (now t v : Nat) : (recordOn a now t v).nextId = a.nextId := by
  unfold recordOn; dsimp only; split <;> simp
@[simp] theorem recordOn_transmit (a : Agent) (now t v : Nat) : (recordOn a now t v).transmit = a.transmit := by
  unfold recordOn; dsimp only; split <;> simp

@[simp] theorem pollTimeout_iceLite (a : Agent) : (pollTimeout a).1.iceLite = a.iceLite := by
  unfold pollTimeout; split <;> (try rfl); split <;> (try rfl); split <;> rfl
@[simp] theorem pollTimeout_maxPairs (a : Agent) : (pollTimeout a).1.maxPairs = a.maxPairs := by
  unfold pollTimeout; split <;> (try rfl); split <;> (try rfl); split <;> rfl
@[simp] theorem pollTimeout_remoteCreds (a : Agent) : (pollTimeout a).1.remoteCreds = a.remoteCreds := by
  unfold pollTimeout; split <;> (try rfl); split <;> (try rfl); split <;> rfl
@[simp] theorem pollTimeout_controlling (a : Agent) : (pollTimeout a).1.controlling = a.controlling := by
  unfold pollTimeout; split <;> (try rfl); split <;> (try rfl); split <;> rfl
@[simp] theorem pollTimeout_tieBreaker (a : Agent) : (pollTimeout a).1.tieBreaker = a.tieBreaker := by
  unfold pollTimeout; split <;> (try rfl); split <;> (try rfl); split <;> rfl
@[simp] theorem pollTimeout_connState (a : Agent) : (pollTimeout a).1.connState = a.connState := by
  unfold pollTimeout; split <;> (try rfl); split <;> (try rfl); split <;> rfl
@[simp] theorem pollTimeout_locals (a : Agent) : (pollTimeout a).1.locals = a.locals := by
  unfold pollTimeout; split <;> (try rfl); split <;> (try rfl); split <;> rfl
@[simp] theorem pollTimeout_remotes (a : Agent) : (pollTimeout a).1.remotes = a.remotes := by
  unfold pollTimeout; split <;> (try rfl); split <;> (try rfl); split <;> rfl
@[simp] theorem pollTimeout_transmit (a : Agent) : (pollTimeout a).1.transmit = a.transmit := by
  unfold pollTimeout; split <;> (try rfl); split <;> (try rfl); split <;> rfl
@[simp] theorem pollTimeout_events (a : Agent) : (pollTimeout a).1.events = a.events := by
  unfold pollTimeout; split <;> (try rfl); split <;> (try rfl); split <;> rfl
@[simp] theorem pollTimeout_queue (a : Agent) : (pollTimeout a).1.queue = a.queue := by
  unfold pollTimeout; split <;> (try rfl); split <;> (try rfl); split <;> rfl
@[simp] theorem pollTimeout_nominatedSend (a : Agent) : (pollTimeout a).1.nominatedSend = a.nominatedSend := by
  unfold pollTimeout; split <;> (try rfl); split <;> (try rfl); split <;> rfl
@[simp] theorem pollTimeout_timing (a : Agent) : (pollTimeout a).1.timing = a.timing := by
  unfold pollTimeout; split <;> (try rfl); split <;> (try rfl); split <;> rfl
@[simp] theorem pollTimeout_nextId (a : Agent) : (pollTimeout a).1.nextId = a.nextId := by
  unfold pollTimeout; split <;> (try rfl); split <;> (try rfl); split <;> rfl
@[simp] theorem pollTimeout_nextTrans (a : Agent) : (pollTimeout a).1.nextTrans = a.nextTrans := by
  unfold pollTimeout; split <;> (try rfl); split <;> (try rfl); split <;> rfl
@[simp] theorem pollTimeout_lastNow (a : Agent) : (pollTimeout a).1.lastNow = a.lastNow := by
  unfold pollTimeout; split <;> (try rfl); split <;> (try rfl); split <;> rfl
@[simp] theorem pollTimeout_timingAdvance (a : Agent) : (pollTimeout a).1.timingAdvance = a.timingAdvance := by
  unfold pollTimeout; split <;> (try rfl); split <;> (try rfl); split <;> rfl
@[simp] theorem pollTimeout_crash (a : Agent) : (pollTimeout a).1.crash = a.crash := by
  unfold pollTimeout; split <;> (try rfl); split <;> (try rfl); split <;> rfl

end Str0m.Ice
