import Verif.Props.StreamTx
/-
  C39 (second part): packets given to an outgoing stream leave in order, unchanged, and none is lost or doubled.
  C69: how a frame is split over packets.
-/
namespace Str0m.Tx
open Str0m Str0m.Pts

/-- What a packet is: number, bytes, payload type, time, marker, extensions. -/
abbrev Key := Nat × List Byte × Nat × Nat × Bool × TxExt

def Write.key (w : Write) : Key := (w.seqNo, w.payload, w.pt, w.time, w.marker, w.ext)

def Out.key (o : Out) : Key := (o.seqNo, o.body, o.pt, o.time, o.marker, o.ext)

/-- The new packets among the datagrams. -/
def fresh (outs : List Out) : List Key := (outs.filter (fun o => decide (o.kind = .regular))).map Out.key

/-- The packets given to the stream. -/
def given (l : List Key) : Op → List Key
  | .write w => l ++ [w.key]
  | _ => l

/-- The packets waiting in the queue. -/
def waiting (s : Tx) : List Key :=
  (s.infos.zip (s.queue.queue.map (·.payload))).map (fun x => (x.1.1, x.2, x.1.2.pt, x.1.2.time, x.1.2.marker, x.1.2.ext))

/-- No frames; and if nothing is to be lost, no reset, and the payload types of all packets are known. -/
def Plain (lossless : Bool) (l : List Key) : Op → Prop
  | .frame _ _ => False
  | .resetBuffers => lossless = false
  | .resetSsrc _ _ _ _ => lossless = false
  | .poll _ _ params _ => lossless = true → ∀ k ∈ l, ∃ p ∈ params, p.pt = k.2.2.1
  | _ => True

/-- All, or some, in order. -/
def Within (lossless : Bool) (a b : List Key) : Prop := if lossless then a = b else a.Sublist b

theorem stampLoop_payload (now : Nat) : ∀ (l : List QPacket) (t : TotalQueue) (r : List QPacket × TotalQueue),
    SendQueue.stampLoop now l t = .ok r → r.1.map (·.payload) = l.map (·.payload) := by
  intro l
  induction l with
  | nil => intro t r h; cases h; rfl
  | cons p ps ih =>
    intro t r h
    unfold SendQueue.stampLoop at h
    cases hp : p.timestamp with
    | some x => rw [hp] at h; cases h; rfl
    | none =>
      rw [hp] at h
      obtain ⟨t1, -, h⟩ := bind_eq_ok (x := TotalQueue.increase _ _ _) h
      obtain ⟨r2, h2, h⟩ := bind_eq_ok (x := SendQueue.stampLoop _ _ _) h
      cases h
      simp only [List.map_cons, ih _ _ h2]

theorem timeout_payload {q r : SendQueue} {now : Nat} (h : q.handleTimeout now = .ok r) : r.queue.map (·.payload) = q.queue.map (·.payload) := by
  unfold SendQueue.handleTimeout at h
  obtain ⟨x, h2, h⟩ := bind_eq_ok (x := SendQueue.stampLoop _ _ _) h
  cases h
  simp only [List.map_reverse, stampLoop_payload _ _ _ _ h2, List.reverse_reverse]

/-- In order: sent, then waiting. -/
structure Fifo (lossless : Bool) (l : List Key) (s : Tx) (outs : List Out) : Prop where
  len : s.queue.queue.length = s.infos.length
  order : Within lossless (fresh outs ++ waiting s) l

theorem Within.drop {ll : Bool} {a b c : List Key} (h : Within ll (a ++ b) c) (hl : ll = false) (d : List Key) (hd : d.Sublist b) : Within ll (a ++ d) c := by
  subst hl
  have h : (a ++ b).Sublist c := h
  exact ((List.Sublist.refl _).append hd).trans h

theorem fresh_append (a b : List Out) : fresh (a ++ b) = fresh a ++ fresh b := by
  unfold fresh; rw [List.filter_append, List.map_append]

theorem Fifo.same {ll : Bool} {l : List Key} {s t : Tx} {outs m : List Out} (h : Fifo ll l s outs) (hl : t.queue.queue.map (·.payload) = s.queue.queue.map (·.payload))
    (hi : t.infos = s.infos) (hm : fresh m = []) : Fifo ll l t (outs ++ m) := by
  refine ⟨?_, ?_⟩
  · have := congrArg List.length hl
    rw [List.length_map, List.length_map] at this
    rw [this, hi]; exact h.len
  · rw [fresh_append, hm, List.append_nil]
    have : waiting t = waiting s := by unfold waiting; rw [hl, hi]
    rw [this]; exact h.order

/-- The queue, taken apart. -/
theorem queue_head {s : Tx} {q : QPacket} {r : SendQueue × Option QPacket} {now : Nat} (hlen : s.queue.queue.length = s.infos.length) (hq : s.queue.peek = some q)
    (hr : (stampHead s.queue now).pop now = .ok r) : ∃ is, s.infos = headInfo s :: is ∧ r.1.queue.length = is.length ∧
      waiting s = ((headInfo s).1, q.payload, (headInfo s).2.pt, (headInfo s).2.time, (headInfo s).2.marker, (headInfo s).2.ext) ::
        (is.zip (r.1.queue.map (·.payload))).map (fun x => (x.1.1, x.2, x.1.2.pt, x.1.2.time, x.1.2.marker, x.1.2.ext)) := by
  obtain ⟨ht, hne⟩ := pop_tail hq hr
  cases hqq : s.queue.queue with
  | nil => exact absurd hqq hne
  | cons x xs =>
    have hx : x.payload = q.payload := by
      unfold SendQueue.peek at hq
      rw [hqq] at hq
      dsimp only at hq
      split at hq
      · cases hq
      · cases hq; rfl
    rw [hqq] at ht
    cases hi : s.infos with
    | nil => rw [hqq, hi] at hlen; cases hlen
    | cons i is =>
      have hh : headInfo s = i := by unfold headInfo; rw [hi]; rfl
      have hl2 : r.1.queue.length = is.length := by
        rw [ht]
        rw [hqq, hi] at hlen
        simpa using hlen
      refine ⟨is, by rw [hh], hl2, ?_⟩
      unfold waiting
      rw [hi, hqq, hh, ht, ← hx]
      rfl

theorem fifo_step (ll : Bool) (l : List Key) (s : Tx) (outs : List Out) (op : Op) (t : Tx) (o : Option Out) (h : Fifo ll l s outs) (ha : Plain ll l op)
    (hs : step s op = .ok (t, o)) : Fifo ll (given l op) t (outs ++ o.toList) := by
  cases op with
  | write w =>
    cases hs
    refine ⟨?_, ?_⟩
    · simp [Tx.write, SendQueue.push, h.len]
    · have hw : waiting (Tx.write s w) = waiting s ++ [w.key] := by
        unfold waiting Tx.write SendQueue.push
        dsimp only
        rw [List.map_append, List.zip_append (by rw [List.length_map]; exact h.len.symm), List.map_append]
        rfl
      simp only [Option.toList_none, List.append_nil]
      rw [hw, ← List.append_assoc]
      have := h.order
      unfold Within at this ⊢
      show if ll = true then _ = l ++ [w.key] else List.Sublist _ (l ++ [w.key])
      split
      · rename_i hl
        rw [if_pos hl] at this
        rw [this]
      · rename_i hl
        rw [if_neg hl] at this
        exact this.append (List.Sublist.refl _)
  | frame f cs => exact absurd ha (fun h => h)
  | timeout now pt =>
    obtain ⟨t1, h1, hs⟩ := bind_eq_ok hs
    cases hs
    obtain ⟨x, q, hq, rfl⟩ := timeout_eq h1
    exact h.same (timeout_payload hq) rfl rfl
  | poll now hdr params over =>
    obtain ⟨rs, pd, hsuf, hp⟩ := poll_ok hs
    cases hp with
    | none k => exact h.same rfl rfl rfl
    | resend p x pad hg pp pt ssrc hf hpt hr hs => exact h.same rfl rfl rfl
    | blank pm len hl hm pp pt ssrc hf hpt hr => exact h.same rfl rfl rfl
    | dropped q r hq hr hu =>
      obtain ⟨is, e1, e2, e3⟩ := queue_head h.len hq hr
      have hdrop : s.infos.drop 1 = is := by rw [e1]; rfl
      refine ⟨by rw [hdrop]; exact e2, ?_⟩
      cases hl : ll with
      | true =>
        exfalso
        rw [hl] at ha
        have ho := h.order
        rw [hl] at ho
        have ho : _ = l := ho
        obtain ⟨p, hp, he⟩ := ha rfl ((headInfo s).1, q.payload, (headInfo s).2.pt, (headInfo s).2.time, (headInfo s).2.marker, (headInfo s).2.ext)
          (by rw [← ho, e3]; exact List.mem_append_right _ (List.mem_cons_self ..))
        exact absurd (hu p hp) (fun hc => hc he)
      | false =>
        simp only [Option.toList_none, List.append_nil]
        have ho := h.order
        rw [hl] at ho
        refine ho.drop rfl _ ?_
        rw [e3]
        unfold waiting
        dsimp only
        rw [hdrop]
        exact List.sublist_cons_self _ _
    | regular q r p c i hq hr hf hi hc hfit =>
      obtain ⟨is, e1, e2, e3⟩ := queue_head h.len hq hr
      have hdrop : s.infos.drop 1 = is := by rw [e1]; rfl
      refine ⟨by rw [hdrop]; exact e2, ?_⟩
      have ho := h.order
      rw [e3] at ho
      rw [fresh_append]
      have hk : fresh (Option.toList (some (regularOut s { kind := Kind.regular, seqNo := (headInfo s).1, payload := q.payload, info := (headInfo s).2 } i false))) =
          [((headInfo s).1, q.payload, (headInfo s).2.pt, (headInfo s).2.time, (headInfo s).2.marker, (headInfo s).2.ext)] := by
        have ha : (announced s (headInfo s).2).time = (headInfo s).2.time ∧ (announced s (headInfo s).2).marker = (headInfo s).2.marker ∧
            (announced s (headInfo s).2).ext = (headInfo s).2.ext ∧ (announced s (headInfo s).2).pt = (headInfo s).2.pt := by
          unfold announced; split <;> exact ⟨rfl, rfl, rfl, rfl⟩
        unfold fresh regularOut Out.key
        subst hi
        simp [ha, bodyOf]
      rw [hk]
      have hw : waiting { s with resends := rs, padding := pd, queue := r.1, infos := s.infos.drop 1, cache := c, ptForPadding := (if p.resend.isSome then some p.pt else s.ptForPadding) } =
          (is.zip (r.1.queue.map (·.payload))).map (fun x => (x.1.1, x.2, x.1.2.pt, x.1.2.time, x.1.2.marker, x.1.2.ext)) := by
        unfold waiting
        dsimp only
        rw [hdrop]
      rw [hw, List.append_assoc]
      exact ho
  | nack es =>
    cases hs
    obtain ⟨l, hl⟩ := nack_eq s es
    rw [hl]
    exact h.same rfl rfl rfl
  | report x =>
    cases hs
    obtain ⟨a, b, hl⟩ := report_eq s x
    rw [hl]
    exact h.same rfl rfl rfl
  | padding n =>
    cases hs
    obtain ⟨a, hl⟩ := padding_eq s n
    rw [hl]
    exact h.same rfl rfl rfl
  | setCache a b c => cases hs; exact h.same rfl rfl rfl
  | resetBuffers =>
    cases hs
    refine ⟨rfl, ?_⟩
    simp only [Option.toList_none, List.append_nil]
    exact h.order.drop ha _ (List.nil_sublist _)
  | resetSsrc a b c d =>
    cases hs
    refine ⟨rfl, ?_⟩
    simp only [Option.toList_none, List.append_nil]
    exact h.order.drop ha _ (List.nil_sublist _)

/-- The packets written in a history. -/
def writesOf (ops : List Op) : List Key := ops.filterMap (fun op => match op with | .write w => some w.key | _ => none)

theorem given_fold (ops : List Op) : ∀ l, ops.foldl given l = l ++ writesOf ops := by
  induction ops with
  | nil => intro l; simp [writesOf]
  | cons op ops ih =>
    intro l
    rw [List.foldl_cons, ih]
    cases op <;> simp [given, writesOf]

/-- **C39**: packets written to a stream leave in the order they were written and unchanged; none is sent as a new packet twice. (Packets with an
unknown payload type and those waiting at a reset are not sent.) -/
theorem C39_in_order (ssrc : Nat) (rtx : Option Nat) (mid : Nat) (rid : Option Nat) (mtu s1 s2 : Nat) (ops : List Op) (hf : ∀ f cs, Op.frame f cs ∉ ops) (t : Tx)
    (outs : List Out) (h : run (new ssrc rtx mid rid mtu s1 s2) ops = .ok (t, outs)) : (fresh outs).Sublist (writesOf ops) := by
  have := run_induct (Fifo false) (Plain false) given (fun l s outs op t o hj ha hs => fifo_step false l s outs op t o hj ha hs) ops [] _ [] t outs
    (⟨rfl, List.nil_sublist _⟩ : Fifo false [] (new ssrc rtx mid rid mtu s1 s2) []) (fun pre op post he => by
      cases op with
      | frame f cs => exact absurd (by rw [he]; exact List.mem_append_right _ (List.mem_cons_self ..)) (hf f cs)
      | resetBuffers => rfl
      | resetSsrc a b c d => rfl
      | poll a b c d => exact fun h => by cases h
      | _ => trivial) h
  rw [given_fold] at this
  exact (List.sublist_append_left _ _).trans this.order

/-- **C39**: if there was no reset, and each poll knew the payload types of the packets written before it, then exactly the packets written have been sent, in order,
but for those still in the queue. -/
theorem C39_nothing_lost (ssrc : Nat) (rtx : Option Nat) (mid : Nat) (rid : Option Nat) (mtu s1 s2 : Nat) (ops : List Op)
    (hf : ∀ f cs, Op.frame f cs ∉ ops) (hr : Op.resetBuffers ∉ ops) (hr2 : ∀ a b c d, Op.resetSsrc a b c d ∉ ops)
    (hk : ∀ pre now hdr params over post, ops = pre ++ Op.poll now hdr params over :: post → ∀ w, Op.write w ∈ pre → ∃ p ∈ params, p.pt = w.pt) (t : Tx)
    (outs : List Out) (h : run (new ssrc rtx mid rid mtu s1 s2) ops = .ok (t, outs)) : fresh outs ++ waiting t = writesOf ops := by
  have := run_induct (Fifo true) (Plain true) given (fun l s outs op t o hj ha hs => fifo_step true l s outs op t o hj ha hs) ops [] _ [] t outs
    (⟨rfl, (by rfl)⟩ : Fifo true [] (new ssrc rtx mid rid mtu s1 s2) []) (fun pre op post he => by
      have hm : op ∈ ops := by rw [he]; exact List.mem_append_right _ (List.mem_cons_self ..)
      cases op with
      | frame f cs => exact absurd hm (hf f cs)
      | resetBuffers => exact absurd hm hr
      | resetSsrc a b c d => exact absurd hm (hr2 a b c d)
      | poll a b c d =>
        intro _ k hkm
        rw [given_fold] at hkm
        simp only [List.nil_append, writesOf, List.mem_filterMap] at hkm
        obtain ⟨op, ho, hw⟩ := hkm
        cases op with
        | write w =>
          cases hw
          exact hk pre a b c d post he w ho
        | _ => cases hw
      | _ => trivial) h
  rw [given_fold] at this
  exact this.order

/-! ### C69: frames -/

/-- The packets of a frame: consecutive numbers from `n`, the bytes of the packetizer, the frame's payload type and time in all of them. -/
def framePackets (pt time : Nat) : Nat → List (List Byte) → List (Nat × List Byte × Nat × Nat)
  | _, [] => []
  | n, c :: cs => (n, c, pt, time) :: framePackets pt time (n + 1) cs

/-- Which extensions go where: capture time and layer allocation only in the first packet, orientation, content type and timing only in the last, the rest in all. -/
structure ExtAt (e x : TxExt) (first last : Bool) : Prop where
  capture : x.absCapture = if first then e.absCapture else none
  layers : x.layers = if first then e.layers else none
  orientation : x.orientation = if last then e.orientation else none
  contentType : x.contentType = if last then e.contentType else none
  timing : x.timing = if last then e.timing else none
  other : x.other = e.other

theorem strip_ext (e : TxExt) (first last : Bool) : ExtAt e (stripNotLast last (stripNotFirst first e)) first last := by
  cases first <;> cases last <;> exact ⟨rfl, rfl, rfl, rfl, rfl, rfl⟩

/-- The bytes of the packet before the `i`-th of a frame, or before the frame. -/
def before (prev : Option (List Byte)) (cs : List (List Byte)) (i : Nat) : Option (List Byte) := if i = 0 then prev else cs[i - 1]?

theorem lastPacket_chunk (s : Tx) (f : Frame) (first last : Bool) (c : List Byte) : lastPacket (pushChunk s f first last c) = some c := by
  simp [lastPacket, pushChunk, Tx.write, SendQueue.push]

theorem chunks_packets (f : Frame) (cs : List (List Byte)) : ∀ (first : Bool) (s : Tx), s.queue.queue.length = s.infos.length →
    ∃ new : List Key, waiting (pushChunks s f first cs) = waiting s ++ new ∧
      new.map (fun k => (k.1, k.2.1, k.2.2.1, k.2.2.2.1)) = framePackets f.pt f.time s.seqNo cs ∧
      (∀ i (hi : i < new.length), ExtAt f.ext new[i].2.2.2.2.2 (first && i == 0) (i + 1 == cs.length) ∧
        ∀ c, cs[i]? = some c → new[i].2.2.2.2.1 = (f.isMarker c (before (lastPacket s) cs i) (i + 1 == cs.length) || (f.audio && f.spurt))) ∧
      (pushChunks s f first cs).seqNo = s.seqNo + cs.length := by
  induction cs with
  | nil => intro first s h; exact ⟨[], by simp [pushChunks], rfl, (fun i hi => by cases hi), rfl⟩
  | cons c cs ih =>
    intro first s h
    have hl : (pushChunk s f first cs.isEmpty c).queue.queue.length = (pushChunk s f first cs.isEmpty c).infos.length := by
      simp [pushChunk, Tx.write, SendQueue.push, h]
    obtain ⟨new, e1, e2, e3, e4⟩ := ih false _ hl
    have hw : waiting (pushChunk s f first cs.isEmpty c) = waiting s ++ [(s.seqNo, c, f.pt, f.time, (f.isMarker c (lastPacket s) cs.isEmpty || (f.audio && f.spurt)),
        stripNotLast cs.isEmpty (stripNotFirst first f.ext))] := by
      unfold waiting pushChunk Tx.write SendQueue.push
      dsimp only
      rw [List.map_append, List.zip_append (by rw [List.length_map]; exact h.symm), List.map_append]
      rfl
    have hsn : (pushChunk s f first cs.isEmpty c).seqNo = s.seqNo + 1 := rfl
    refine ⟨(s.seqNo, c, f.pt, f.time, (f.isMarker c (lastPacket s) cs.isEmpty || (f.audio && f.spurt)),
        stripNotLast cs.isEmpty (stripNotFirst first f.ext)) :: new, ?_, ?_, ?_, ?_⟩
    · rw [show pushChunks s f first (c :: cs) = pushChunks (pushChunk s f first cs.isEmpty c) f false cs from rfl, e1, hw, List.append_assoc]
      rfl
    · rw [List.map_cons, e2, hsn]
      rfl
    · intro i hi
      cases i with
      | zero =>
        have hz : (first && (0 : Nat) == 0) = first := by simp
        have hz2 : (0 + 1 == (c :: cs).length) = cs.isEmpty := by cases cs <;> simp
        rw [hz, hz2]
        refine ⟨strip_ext _ _ _, fun d hd => ?_⟩
        have hd : c = d := by simpa using hd
        subst hd
        rfl
      | succ i =>
        have hi' : i < new.length := by simpa using hi
        have := e3 i hi'
        have hz : (first && (i + 1 : Nat) == 0) = false := by simp
        have hz2 : (i + 1 + 1 == (c :: cs).length) = (i + 1 == cs.length) := by simp
        rw [hz, hz2]
        refine ⟨by simpa using this.1, fun d hd => ?_⟩
        have hd : cs[i]? = some d := by simpa using hd
        have h2 := this.2 d hd
        have hb : before (lastPacket (pushChunk s f first cs.isEmpty c)) cs i = before (lastPacket s) (c :: cs) (i + 1) := by
          rw [lastPacket_chunk]
          cases i with
          | zero => simp [before]
          | succ i => simp [before]
        rw [hb] at h2
        simpa using h2
    · rw [show pushChunks s f first (c :: cs) = pushChunks (pushChunk s f first cs.isEmpty c) f false cs from rfl, e4, hsn, List.length_cons]
      omega

theorem len_chunks (f : Frame) (cs : List (List Byte)) : ∀ (first : Bool) (s : Tx), s.queue.queue.length = s.infos.length →
    (pushChunks s f first cs).queue.queue.length = (pushChunks s f first cs).infos.length := by
  induction cs with
  | nil => intro first s h; exact h
  | cons c cs ih =>
    intro first s h
    exact ih false _ (by simp [pushChunk, Tx.write, SendQueue.push, h])

theorem len_step (s : Tx) (op : Op) (t : Tx) (o : Option Out) (h : s.queue.queue.length = s.infos.length) (hs : step s op = .ok (t, o)) :
    t.queue.queue.length = t.infos.length := by
  cases op with
  | write w => cases hs; simp [Tx.write, SendQueue.push, h]
  | frame f cs => cases hs; exact len_chunks f cs true s h
  | timeout now pt =>
    obtain ⟨t1, h1, hs⟩ := bind_eq_ok hs
    cases hs
    obtain ⟨x, q, hq, rfl⟩ := timeout_eq h1
    exact (timeout_length hq).trans h
  | poll now hdr params over =>
    obtain ⟨rs, pd, hsuf, hp⟩ := poll_ok hs
    have key : ∀ (q : QPacket) (r : SendQueue × Option QPacket), s.queue.peek = some q → (stampHead s.queue now).pop now = .ok r →
        r.1.queue.length = (s.infos.drop 1).length := by
      intro q r hq hr
      rw [(pop_tail hq hr).1, List.length_tail, List.length_drop, h]
    cases hp with
    | none k => exact h
    | resend p x pad hg pp pt ssrc hf hpt hr hs => exact h
    | blank pm len hl hm pp pt ssrc hf hpt hr => exact h
    | dropped q r hq hr hu => exact key q r hq hr
    | regular q r p c i hq hr hf hi hc hfit => exact key q r hq hr
  | nack es =>
    cases hs
    obtain ⟨l, hl⟩ := nack_eq s es
    rw [hl]; exact h
  | report x =>
    cases hs
    obtain ⟨a, b, hl⟩ := report_eq s x
    rw [hl]; exact h
  | padding n =>
    cases hs
    obtain ⟨a, hl⟩ := padding_eq s n
    rw [hl]; exact h
  | setCache a b c => cases hs; exact h
  | resetBuffers => cases hs; rfl
  | resetSsrc a b c d => cases hs; rfl

theorem len_run (ssrc : Nat) (rtx : Option Nat) (mid : Nat) (rid : Option Nat) (mtu s1 s2 : Nat) (ops : List Op) (s : Tx)
    (outs : List Out) (h : run (new ssrc rtx mid rid mtu s1 s2) ops = .ok (s, outs)) : s.queue.queue.length = s.infos.length :=
  run_induct (fun (_ : Unit) s _ => s.queue.queue.length = s.infos.length) (fun _ _ => True) (fun _ _ => ())
    (fun _ s _ op t o hj _ hs => len_step s op t o hj hs) ops () _ [] s outs rfl (fun _ _ _ _ => trivial) h

/-- **C69**: whatever happened before, a frame that is split into chunks puts exactly one packet per chunk at the end of the queue: consecutive numbers, the chunk's
bytes, the frame's payload type and time; capture time and layer allocation are only in the first, orientation, content type and timing only in the last; the marker
follows the codec's rule, which sees the bytes of the packet before and whether this is the last, and is set in every packet of an audio frame that begins a talk
spurt. -/
theorem C69_frame_packets (ssrc : Nat) (rtx : Option Nat) (mid : Nat) (rid : Option Nat) (mtu s1 s2 : Nat) (ops : List Op) (s : Tx)
    (outs : List Out) (h : run (new ssrc rtx mid rid mtu s1 s2) ops = .ok (s, outs)) (f : Frame) (cs : List (List Byte)) :
    ∃ (t : Tx) (new : List Key), step s (.frame f cs) = .ok (t, none) ∧ waiting t = waiting s ++ new ∧
      new.map (fun k => (k.1, k.2.1, k.2.2.1, k.2.2.2.1)) = framePackets f.pt f.time s.seqNo cs ∧
      (∀ i (hi : i < new.length), ExtAt f.ext new[i].2.2.2.2.2 (i == 0) (i + 1 == cs.length) ∧
        ∀ c, cs[i]? = some c → new[i].2.2.2.2.1 = (f.isMarker c (before (lastPacket s) cs i) (i + 1 == cs.length) || (f.audio && f.spurt))) ∧
      t.seqNo = s.seqNo + cs.length := by
  obtain ⟨new, e1, e2, e3, e4⟩ := chunks_packets f cs true s (len_run ssrc rtx mid rid mtu s1 s2 ops s outs h)
  exact ⟨_, new, rfl, e1, e2, fun i hi => by simpa using e3 i hi, e4⟩

/-- **C39**: from any reachable state on: with no reset, and if each poll knows the payload types of what waits or was written before it, exactly the waiting packets
and those written leave, in order, but for those still in the queue at the end. -/
theorem C39_drain (ssrc : Nat) (rtx : Option Nat) (mid : Nat) (rid : Option Nat) (mtu s1 s2 : Nat) (ops0 : List Op) (s : Tx)
    (outs0 : List Out) (h0 : run (new ssrc rtx mid rid mtu s1 s2) ops0 = .ok (s, outs0)) (ops : List Op)
    (hf : ∀ f cs, Op.frame f cs ∉ ops) (hr : Op.resetBuffers ∉ ops) (hr2 : ∀ a b c d, Op.resetSsrc a b c d ∉ ops)
    (hk : ∀ pre now hdr params over post, ops = pre ++ Op.poll now hdr params over :: post → ∀ k ∈ waiting s ++ writesOf pre, ∃ p ∈ params, p.pt = k.2.2.1) (t : Tx)
    (outs : List Out) (h : run s ops = .ok (t, outs)) : fresh outs ++ waiting t = waiting s ++ writesOf ops := by
  have := run_induct (Fifo true) (Plain true) given (fun l s outs op t o hj ha hs => fifo_step true l s outs op t o hj ha hs) ops (waiting s) s [] t outs
    (⟨len_run ssrc rtx mid rid mtu s1 s2 ops0 s outs0 h0, (by rfl)⟩) (fun pre op post he => by
      have hm : op ∈ ops := by rw [he]; exact List.mem_append_right _ (List.mem_cons_self ..)
      cases op with
      | frame f cs => exact absurd hm (hf f cs)
      | resetBuffers => exact absurd hm hr
      | resetSsrc a b c d => exact absurd hm (hr2 a b c d)
      | poll a b c d =>
        intro _ k hkm
        rw [given_fold] at hkm
        exact hk pre a b c d post he k hkm
      | _ => trivial) h
  rw [given_fold] at this
  exact this.order

/-! ### A frame on its way -/

/-- A video frame whose last packet has the marker. -/
def demoFrame : Frame := { pt := 96, time := 3000, audio := false, spurt := false, ext := { absCapture := some 1, orientation := some 2, other := 9 }, isMarker := fun _ _ last => last }

example : (run (new 1 (some 2) 5 none 1150 65535 20)
      [.frame demoFrame [[1], [2, 3], [4]], .timeout 0 none, .poll 0 20 [⟨96, some 97⟩] false, .poll 0 20 [⟨96, some 97⟩] false, .poll 0 20 [⟨96, some 97⟩] false]).bind
      (fun r => .ok (r.2.map (fun o => (o.seq16, o.marker, o.ext)))) =
    .ok [(65535, false, { absCapture := some 1, other := 9 }), (0, false, { other := 9 }), (1, true, { orientation := some 2, other := 9 })] := by decide +kernel

/-! ### The SSRC is taken into use again -/

/-- The history of `C39_violation_reset`: a frame is sent on SSRC 1, the stream is moved to SSRC 3 and back to SSRC 1
(the start of the numbers is drawn anew each time; here the last draw is the first one again), and another frame sent. -/
def thereAndBack (start : Nat) : List Op :=
  [.frame demoFrame [[1]], .timeout 0 none, .poll 0 20 [⟨96, some 97⟩] false,
   .resetSsrc 3 (some 4) 7 8, .resetSsrc 1 (some 2) start 20,
   .frame demoFrame [[9]], .timeout 1 none, .poll 1 20 [⟨96, some 97⟩] false]

theorem sketch_ok {α : Type} (r : Res Unit (Tx × List Out)) (f : Out → α) (l : List α) (h : r.bind (fun r => .ok (r.2.map f)) = .ok l) :
    ∃ t outs, r = .ok (t, outs) ∧ outs.map f = l := by
  cases r with
  | err e => cases h
  | panic => cases h
  | ok r => exact ⟨r.1, r.2, rfl, by injection h⟩

theorem thereAndBack_outs : (run (new 1 (some 2) 5 none 1150 10 20) (thereAndBack 10)).bind
    (fun r => .ok (r.2.map (fun o => (o.ssrc, o.seqNo, o.body)))) = .ok [(1, 10, [1]), (1, 10, [9])] := by decide +kernel

/-- **C39 does not hold of every use of the API**: `reset_stream_tx` only refuses the SSRC in use at the moment
(direct.rs 375-378), and every reset draws a new start from 1..32767 (rtp/id.rs 311-330) instead of going on. After a
reset away and back two different payloads go out with the same SSRC and the same number, so the same SRTP key stream. -/
theorem C39_violation_reset : ∃ t a b, run (new 1 (some 2) 5 none 1150 10 20) (thereAndBack 10) = .ok (t, [a, b]) ∧
    a.ssrc = b.ssrc ∧ a.seqNo = b.seqNo ∧ a.body = [1] ∧ b.body = [9] := by
  have hx := sketch_ok _ _ _ thereAndBack_outs
  generalize run (new 1 (some 2) 5 none 1150 10 20) (thereAndBack 10) = r at hx ⊢
  obtain ⟨t, outs, hr, h⟩ := hx
  rcases outs with _ | ⟨a, _ | ⟨b, _ | ⟨c, l⟩⟩⟩
  · simp at h
  · simp at h
  · simp only [List.map_cons, List.map_nil, List.cons.injEq, Prod.mk.injEq, and_true] at h
    exact ⟨t, a, b, hr, h.1.1.trans h.2.1.symm, h.1.2.1.trans h.2.2.1.symm, h.1.2.2, h.2.2.2⟩
  · simp at h

/-- It goes back even without the same draw: the second use may start below the numbers of the first. -/
theorem C39_violation_back : (run (new 1 (some 2) 5 none 1150 10 20) (thereAndBack 9)).bind
    (fun r => .ok (r.2.map (fun o => (o.ssrc, o.seqNo)))) = .ok [(1, 10), (1, 9)] := by decide +kernel

end Str0m.Tx
