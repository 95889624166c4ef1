import Verif.Proofs.StreamTx2
import Verif.Props.Extend
/-
  C39, C66, C67, C68: what an outgoing stream sends.
-/
namespace Str0m.Tx
open Str0m Str0m.Pts

/-! ### Specification -/

/-- What is known before a step: in RTP mode the lowest number the caller may still use, and all SSRCs so far. -/
structure Uses where
  lim : Nat
  used : List Nat

/-- What is known after it. -/
def account (u : Uses) : Op → Uses
  | .write w => { u with lim := w.seqNo + 1 }
  | .resetSsrc a b _ _ => { lim := 0, used := a :: b.toList ++ u.used }
  | _ => u

/-- In RTP mode the caller numbers the packets, and does not go back; otherwise the stream numbers them. An SSRC is
replaced by SSRCs not used before. -/
def Allowed (rtpMode : Bool) (u : Uses) : Op → Prop
  | .write w => rtpMode = true ∧ u.lim ≤ w.seqNo
  | .frame _ _ => rtpMode = false
  | .resetSsrc a b _ _ => a ∉ u.used ∧ ∀ r, b = some r → r ∉ u.used ∧ r ≠ a
  | _ => True

/-- A whole history. -/
def History (rtpMode : Bool) (u : Uses) (ops : List Op) : Prop :=
  ∀ pre op post, ops = pre ++ op :: post → Allowed rtpMode (pre.foldl account u) op

/-- `r` is repeated in `o`: RFC 4588. -/
structure Repeats (o r : Out) : Prop where
  orig : r.kind = .regular
  number : o.kind = .resend r.seqNo
  body : o.body = be16 r.seq16 ++ r.body
  time : o.time = r.time
  marker : o.marker = r.marker
  ext : o.ext = r.ext

/-- The NACK asks for this number on the wire: RFC 4585 6.2.1. -/
def Asks (e : NackEntry) (seq16 : Nat) : Prop :=
  seq16 = e.pid % 65536 ∨ ∃ i, i < 16 ∧ e.blp.testBit i = true ∧ seq16 = (e.pid + (i + 1)) % 65536

/-! ### C39 -/

theorem num_new (m : Bool) (ssrc : Nat) (rtx : Option Nat) (mid : Nat) (rid : Option Nat) (mtu s1 s2 : Nat) (hr : rtx ≠ some ssrc) :
    Num m 0 (ssrc :: rtx.toList) (new ssrc rtx mid rid mtu s1 s2) [] := by
  refine ⟨rfl, List.Pairwise.nil, (fun i hi => by cases hi), by simp [new], ?_, (fun o ho => by cases ho), List.Pairwise.nil,
    (fun o ho => by cases ho), (fun o ho => by cases ho), (fun o ho => by cases ho)⟩
  intro r h
  have h : rtx = some r := h
  subst h
  exact ⟨by simp, fun he => hr (by rw [he]; rfl)⟩

theorem num_step (m : Bool) (u : Uses) (s : Tx) (outs : List Out) (op : Op) (t : Tx) (o : Option Out) (h : Num m u.lim u.used s outs)
    (ha : Allowed m u op) (hs : step s op = .ok (t, o)) : Num m (account u op).lim (account u op).used t (outs ++ o.toList) := by
  cases op with
  | write w =>
    cases hs
    obtain ⟨rfl, ha⟩ := ha
    simp only [Option.toList_none, List.append_nil]
    exact h.write w s.seqNo ha (Nat.lt_succ_self _)
  | frame f cs =>
    cases hs
    have ha : m = false := ha
    subst ha
    simp only [Option.toList_none, List.append_nil]
    exact h.chunks f cs true
  | timeout now pt =>
    obtain ⟨t1, h1, hs⟩ := bind_eq_ok hs
    cases hs
    obtain ⟨x, q, hq, rfl⟩ := timeout_eq h1
    simp only [Option.toList_none, List.append_nil]
    exact h.same (timeout_length hq) rfl rfl rfl rfl (Nat.le_refl _)
  | poll now hdr params over =>
    obtain ⟨rs, pd, -, hp⟩ := poll_ok hs
    exact h.polled hp
  | nack es =>
    cases hs
    obtain ⟨l, hl⟩ := nack_eq s es
    rw [hl]
    simp only [Option.toList_none, List.append_nil]
    exact h.same rfl rfl rfl rfl rfl (Nat.le_refl _)
  | report x =>
    cases hs
    obtain ⟨a, b, hl⟩ := report_eq s x
    rw [hl]
    simp only [Option.toList_none, List.append_nil]
    exact h.same rfl rfl rfl rfl rfl (Nat.le_refl _)
  | padding n =>
    cases hs
    obtain ⟨a, hl⟩ := padding_eq s n
    rw [hl]
    simp only [Option.toList_none, List.append_nil]
    exact h.same rfl rfl rfl rfl rfl (Nat.le_refl _)
  | setCache a b c =>
    cases hs
    simp only [Option.toList_none, List.append_nil]
    exact h.same rfl rfl rfl rfl rfl (Nat.le_refl _)
  | resetBuffers =>
    cases hs
    simp only [Option.toList_none, List.append_nil]
    exact ⟨rfl, List.Pairwise.nil, (fun i hi => by cases hi), h.ssrcIn, h.rtxIn, h.outIn, h.pair,
      fun o ho he => ⟨(h.main o ho he).1, fun i hi => by cases hi⟩, h.side, h.low⟩
  | resetSsrc a b c d =>
    cases hs
    simp only [Option.toList_none, List.append_nil]
    exact h.reset a b c d ha.1 ha.2

/-- **C39**: over every history of an outgoing stream (frames or packets written, timeouts, polls, NACKs,
reports, padding requests, buffer and SSRC resets), whichever of new packets, resends and padding come out, the
sequence numbers on each SSRC strictly increase from datagram to datagram. The number in the RTP header is the low 16
bits of it. -/
theorem C39_numbers_increase (rtpMode : Bool) (ssrc : Nat) (rtx : Option Nat) (mid : Nat) (rid : Option Nat) (mtu s1 s2 : Nat) (hr : rtx ≠ some ssrc)
    (ops : List Op) (hh : History rtpMode ⟨0, ssrc :: rtx.toList⟩ ops) (t : Tx) (outs : List Out)
    (h : run (new ssrc rtx mid rid mtu s1 s2) ops = .ok (t, outs)) :
    outs.Pairwise (fun a b => a.ssrc = b.ssrc → a.seqNo < b.seqNo) ∧ ∀ o ∈ outs, o.seq16 = o.seqNo % 65536 := by
  have := run_induct (fun u s outs => Num rtpMode u.lim u.used s outs) (Allowed rtpMode) account
    (fun u s outs op t o => num_step rtpMode u s outs op t o) ops ⟨0, ssrc :: rtx.toList⟩ _ [] t outs
    (num_new rtpMode ssrc rtx mid rid mtu s1 s2 hr) hh h
  exact ⟨this.pair, this.low⟩

/-- **C39**: no pair of SSRC and (64-bit) sequence number is used twice, so no key stream of SRTP is. -/
theorem C39_never_reused (rtpMode : Bool) (ssrc : Nat) (rtx : Option Nat) (mid : Nat) (rid : Option Nat) (mtu s1 s2 : Nat) (hr : rtx ≠ some ssrc)
    (ops : List Op) (hh : History rtpMode ⟨0, ssrc :: rtx.toList⟩ ops) (t : Tx) (outs : List Out)
    (h : run (new ssrc rtx mid rid mtu s1 s2) ops = .ok (t, outs)) : (outs.map (fun o => (o.ssrc, o.seqNo))).Nodup := by
  rw [List.Nodup, List.pairwise_map]
  refine (C39_numbers_increase rtpMode ssrc rtx mid rid mtu s1 s2 hr ops hh t outs h).1.imp ?_
  intro a b hab he
  have he := Prod.mk.inj he
  have := hab he.1
  omega

/-! ### C66 -/

/-- The packet was sent on the present SSRC. -/
def SentAs (ssrc : Nat) (outs : List Out) (p : CachedPacket) : Prop :=
  ∃ r ∈ outs, r.kind = .regular ∧ r.ssrc = ssrc ∧ r.seqNo = p.seqNo ∧ r.seq16 = p.seqNo % 65536 ∧ r.body = p.payload ∧ r.pt = p.info.pt ∧
    r.time = p.info.time ∧ r.marker = p.info.marker ∧ r.ext = p.info.ext

theorem SentAs.mono {ssrc : Nat} {outs l : List Out} {p : CachedPacket} (h : SentAs ssrc outs p) : SentAs ssrc (outs ++ l) p := by
  obtain ⟨r, hr, h⟩ := h
  exact ⟨r, List.mem_append_left _ hr, h⟩

/-- All 16-bit numbers a list of NACKs asks for. -/
def Wanted (es : List NackEntry) (seq16 : Nat) : Prop := ∃ e ∈ es, Asks e seq16

structure Held (es : List NackEntry) (s : Tx) (outs : List Out) : Prop where
  cache : Cached (SentAs s.ssrc outs) s.cache
  resends : ∀ n ∈ s.resends, Wanted es (n % 65536)

theorem extend16_low (last n : Nat) : extendU16 (some last) n % 65536 = n % 65536 := by
  have key : ∀ v : Int, 0 ≤ v → (if v < 0 then 0 else v.toNat * 2 ^ 16 + n % 2 ^ 16) % 65536 = n % 65536 := by
    intro v hv
    rw [if_neg (by omega)]
    omega
  unfold extendU16 extend
  dsimp only
  apply key
  split <;> split <;> omega

theorem intoIter_asks {e : NackEntry} {last n : Nat} (h : n ∈ e.intoIter last) : Asks e (n % 65536) := by
  unfold NackEntry.intoIter at h
  rcases List.mem_cons.1 h with rfl | h
  · left
    exact extend16_low _ _
  · obtain ⟨i, hi, rfl⟩ := List.mem_map.1 h
    obtain ⟨h1, h2⟩ := List.mem_filter.1 hi
    refine Or.inr ⟨i, List.mem_range.1 h1, h2, ?_⟩
    have := extend16_low last ((e.pid + (i + 1)) % 2 ^ 16)
    omega

theorem Held.same {es : List NackEntry} {s t : Tx} {outs l : List Out} (h : Held es s outs) (h1 : t.ssrc = s.ssrc) (h2 : t.cache = s.cache)
    (h3 : ∀ n ∈ t.resends, n ∈ s.resends) : Held es t (outs ++ l) := by
  refine ⟨?_, fun n hn => h.resends n (h3 n hn)⟩
  rw [h1, h2]
  exact h.cache.mono (fun p hp => hp.mono)

theorem Held.polled {es : List NackEntry} {s t : Tx} {outs : List Out} {now hdr : Nat} {params : List Param} {rs : List Nat} {pd : Nat}
    {o : Option Out} (h : Held es s outs) (hsuf : rs <:+ s.resends) (hp : Polled s now hdr params rs pd t o) : Held es t (outs ++ o.toList) := by
  have hsub : ∀ n ∈ rs, n ∈ s.resends := fun n hn => hsuf.subset hn
  cases hp with
  | none k => exact h.same rfl rfl hsub
  | dropped q r hq hr hu => exact h.same rfl rfl hsub
  | resend p x pad hg pp pt ssrc hf hpt hr hs => exact h.same rfl rfl hsub
  | blank pm len hl hm pp pt ssrc hf hpt hr => exact h.same rfl rfl hsub
  | regular q r p c i hq hr hf hi hc hfit =>
    refine ⟨?_, fun n hn => h.resends n (hsub n hn)⟩
    have hm := h.cache.mono (fun p hp => hp.mono (l := [regularOut s { kind := .regular, seqNo := (headInfo s).1, payload := q.payload, info := (headInfo s).2 } i false]))
    rcases hc with ⟨-, hc⟩ | ⟨-, rfl⟩
    · refine Cached.sent hm ?_ hc
      exact ⟨_, List.mem_append_right _ (List.mem_singleton.2 rfl), rfl, rfl, rfl, rfl, rfl, rfl, rfl, rfl, rfl⟩
    · exact hm

theorem pushChunks_eq (f : Frame) (cs : List (List Byte)) : ∀ (first : Bool) (s : Tx), ∃ q i n, pushChunks s f first cs = { s with queue := q, infos := i, seqNo := n } := by
  induction cs with
  | nil => intro first s; exact ⟨s.queue, s.infos, s.seqNo, rfl⟩
  | cons c cs ih =>
    intro first s
    obtain ⟨q, i, n, h⟩ := ih false (pushChunk s f first cs.isEmpty c)
    exact ⟨q, i, n, h⟩

/-- The NACK entries of a step. -/
def asked (es : List NackEntry) : Op → List NackEntry
  | .nack l => es ++ l
  | _ => es

theorem held_step (es : List NackEntry) (s : Tx) (outs : List Out) (op : Op) (t : Tx) (o : Option Out) (h : Held es s outs)
    (hs : step s op = .ok (t, o)) : Held (asked es op) t (outs ++ o.toList) := by
  cases op with
  | write w =>
    cases hs
    exact h.same rfl rfl (fun n hn => hn)
  | frame f cs =>
    cases hs
    obtain ⟨q, i, n, hc⟩ := pushChunks_eq f cs true s
    rw [hc]
    exact h.same rfl rfl (fun n hn => hn)
  | timeout now pt =>
    obtain ⟨t1, h1, hs⟩ := bind_eq_ok hs
    cases hs
    obtain ⟨x, q, hq, rfl⟩ := timeout_eq h1
    exact h.same rfl rfl (fun n hn => hn)
  | poll now hdr params over =>
    obtain ⟨rs, pd, hsuf, hp⟩ := poll_ok hs
    exact h.polled hsuf hp
  | nack l =>
    cases hs
    unfold nack
    split
    · have := h.same (t := s) (l := []) rfl rfl (fun n hn => hn)
      exact ⟨this.cache, fun n hn => by
        obtain ⟨e, he, ha⟩ := h.resends n hn
        exact ⟨e, List.mem_append_left _ he, ha⟩⟩
    · rename_i last _
      refine ⟨h.cache.mono (fun p hp => hp.mono), fun n hn => ?_⟩
      rcases List.mem_append.1 hn with hn | hn
      · obtain ⟨e, he, ha⟩ := h.resends n hn
        exact ⟨e, List.mem_append_left _ he, ha⟩
      · obtain ⟨e, he, hi⟩ := List.mem_flatMap.1 (List.mem_filter.1 hn).1
        exact ⟨e, List.mem_append_right _ he, intoIter_asks hi⟩
  | report x =>
    cases hs
    obtain ⟨a, b, hl⟩ := report_eq s x
    rw [hl]
    exact h.same rfl rfl (fun n hn => hn)
  | padding n =>
    cases hs
    obtain ⟨a, hl⟩ := padding_eq s n
    rw [hl]
    exact h.same rfl rfl (fun n hn => hn)
  | setCache a b c =>
    cases hs
    exact ⟨cached_new _ _, h.resends⟩
  | resetBuffers =>
    cases hs
    exact ⟨cached_clear _, (fun n hn => by cases hn)⟩
  | resetSsrc a b c d =>
    cases hs
    exact ⟨cached_clear _, (fun n hn => by cases hn)⟩

/-- All NACK entries of a history. -/
def nacksOf (ops : List Op) : List NackEntry := ops.flatMap (fun op => match op with | .nack l => l | _ => [])

theorem asked_fold (ops : List Op) : ∀ es, ops.foldl asked es = es ++ nacksOf ops := by
  induction ops with
  | nil => intro es; simp [nacksOf]
  | cons op ops ih =>
    intro es
    rw [List.foldl_cons, ih]
    cases op <;> simp [asked, nacksOf]

theorem held_run (ssrc : Nat) (rtx : Option Nat) (mid : Nat) (rid : Option Nat) (mtu s1 s2 : Nat) (ops : List Op) (s : Tx) (outs : List Out)
    (h : run (new ssrc rtx mid rid mtu s1 s2) ops = .ok (s, outs)) : Held (nacksOf ops) s outs := by
  have := run_induct Held (fun _ _ => True) asked (fun es s outs op t o hj _ hs => held_step es s outs op t o hj hs) ops [] _ [] s outs
    (⟨cached_new _ _, (fun n hn => by cases hn)⟩) (fun _ _ _ _ => trivial) h
  rw [asked_fold] at this
  simpa using this

/-- **C66**: whatever happened before, a retransmission (and a packet repeated as padding) carries the original
sequence number and the bytes, time, marker and extensions of a packet that was really sent before on the present
SSRC; it goes out on the RTX SSRC, with the RTX payload type of the payload type that packet had. -/
theorem C66_repeats_a_sent_packet (ssrc : Nat) (rtx : Option Nat) (mid : Nat) (rid : Option Nat) (mtu s1 s2 : Nat) (ops : List Op) (s : Tx)
    (outs : List Out) (h : run (new ssrc rtx mid rid mtu s1 s2) ops = .ok (s, outs)) (now hdr : Nat) (params : List Param) (over : Bool) (t : Tx) (o : Out)
    (hp : step s (.poll now hdr params over) = .ok (t, some o)) (n : Nat) (hk : o.kind = .resend n) :
    ∃ r ∈ outs, Repeats o r ∧ r.ssrc = s.ssrc ∧ s.rtx = some o.ssrc ∧ ∃ p ∈ params, p.pt = r.pt ∧ p.resend = some o.pt := by
  have hh := held_run ssrc rtx mid rid mtu s1 s2 ops s outs h
  obtain ⟨rs, pd, hsuf, hp⟩ := poll_ok hp
  have ha : ∀ i : TxInfo, (announced s i).time = i.time ∧ (announced s i).marker = i.marker ∧ (announced s i).ext = i.ext := by
    intro i; unfold announced; split <;> exact ⟨rfl, rfl, rfl⟩
  cases hp with
  | regular q r p c i hq hr hf hi hc hfit => cases hk
  | blank pm len hl hm pp pt ssrc hf hpt hr => cases hk
  | resend p x pad hg pp pt ssrc hf hpt hr hs =>
    obtain ⟨-, r, hr1, e1, e2, e3, e4, e5, e6, e7, e8, e9⟩ := hh.cache.get hg
    obtain ⟨a1, a2, a3⟩ := ha p.info
    refine ⟨r, hr1, ⟨e1, ?_, ?_, ?_, ?_, ?_⟩, e2, hr, pp, List.mem_of_find?_eq_some hf, ?_, hpt⟩
    · rw [e3]; rfl
    · rw [e4, e5]; rfl
    · rw [e7]; exact a1
    · rw [e8]; exact a2
    · rw [e9]; exact a3
    · rw [e6]; simpa using List.find?_some hf

/-- **C66**: a retransmission that is not padding answers a NACK that asked for that number. -/
theorem C66_only_on_request (ssrc : Nat) (rtx : Option Nat) (mid : Nat) (rid : Option Nat) (mtu s1 s2 : Nat) (ops : List Op) (s : Tx)
    (outs : List Out) (h : run (new ssrc rtx mid rid mtu s1 s2) ops = .ok (s, outs)) (now hdr : Nat) (params : List Param) (over : Bool) (t : Tx) (o : Out)
    (hp : step s (.poll now hdr params over) = .ok (t, some o)) (n : Nat) (hk : o.kind = .resend n) (hnp : o.isPadding = false) :
    ∃ es, Op.nack es ∈ ops ∧ ∃ e ∈ es, Asks e (n % 65536) := by
  have hh := held_run ssrc rtx mid rid mtu s1 s2 ops s outs h
  obtain ⟨rs, pd, hsuf, hp⟩ := poll_ok hp
  cases hp with
  | regular q r p c i hq hr hf hi hc hfit => cases hk
  | blank pm len hl hm pp pt ssrc hf hpt hr => cases hk
  | resend p x pad hg pp pt ssrc hf hpt hr hs =>
    have hpad : pad = false := hnp
    have hx := (hs hpad).subset (List.mem_cons_self ..)
    obtain ⟨e1, -⟩ := hh.cache.get hg
    have hn : p.seqNo = n := by cases hk; rfl
    obtain ⟨e, he, ha⟩ := hh.resends x hx
    unfold nacksOf at he
    obtain ⟨op, ho, he⟩ := List.mem_flatMap.1 he
    cases op with
    | nack l => exact ⟨l, ho, e, he, by rw [← hn, e1]; exact ha⟩
    | _ => cases he

/-- The numbers an entry asks for, in order. -/
def numbers (e : NackEntry) : List Nat :=
  e.pid % 65536 :: ((List.range 16).filter (fun i => e.blp.testBit i)).map (fun i => (e.pid + (i + 1)) % 65536)

/-- The numbers (16 bits) repeated on request, in order. -/
def repeated (outs : List Out) : List Nat :=
  outs.filterMap (fun o => match o.kind, o.isPadding with
    | .resend n, false => some (n % 65536)
    | _, _ => none)

theorem intoIter_numbers (e : NackEntry) (last : Nat) : (e.intoIter last).map (· % 65536) = numbers e := by
  unfold NackEntry.intoIter numbers
  rw [List.map_cons, extend16_low, List.map_map]
  congr 1
  apply List.map_congr_left
  intro i _
  have := extend16_low last ((e.pid + (i + 1)) % 2 ^ 16)
  simp only [Function.comp]
  omega

theorem repeated_append (a b : List Out) : repeated (a ++ b) = repeated a ++ repeated b := List.filterMap_append

/-- Requests, in order: answered or waiting. -/
def Queued (es : List NackEntry) (s : Tx) (outs : List Out) : Prop :=
  Cached (fun _ => True) s.cache ∧ (repeated outs ++ s.resends.map (· % 65536)).Sublist (es.flatMap numbers)

theorem Queued.same {es : List NackEntry} {s t : Tx} {outs l : List Out} (h : Queued es s outs) (hc : Cached (fun _ => True) t.cache)
    (hr : t.resends.Sublist s.resends) (hl : repeated l = []) : Queued es t (outs ++ l) := by
  refine ⟨hc, ?_⟩
  rw [repeated_append, hl, List.append_nil]
  exact ((List.Sublist.refl _).append (hr.map _)).trans h.2

theorem queued_step (es : List NackEntry) (s : Tx) (outs : List Out) (op : Op) (t : Tx) (o : Option Out) (h : Queued es s outs)
    (hs : step s op = .ok (t, o)) : Queued (asked es op) t (outs ++ o.toList) := by
  cases op with
  | write w =>
    cases hs
    exact h.same h.1 (List.Sublist.refl _) rfl
  | frame f cs =>
    cases hs
    obtain ⟨q, i, n, hc⟩ := pushChunks_eq f cs true s
    rw [hc]
    exact h.same h.1 (List.Sublist.refl _) rfl
  | timeout now pt =>
    obtain ⟨t1, h1, hs⟩ := bind_eq_ok hs
    cases hs
    obtain ⟨x, q, hq, rfl⟩ := timeout_eq h1
    exact h.same h.1 (List.Sublist.refl _) rfl
  | poll now hdr params over =>
    obtain ⟨rs, pd, hsuf, hp⟩ := poll_ok hs
    cases hp with
    | none k => exact h.same h.1 hsuf.sublist rfl
    | dropped q r hq hr hu => exact h.same h.1 hsuf.sublist rfl
    | blank pm len hl hm pp pt ssrc hf hpt hr => exact h.same h.1 hsuf.sublist rfl
    | regular q r p c i hq hr hf hi hc hfit =>
      refine h.same ?_ hsuf.sublist rfl
      rcases hc with ⟨-, hc⟩ | ⟨-, rfl⟩
      · exact Cached.sent h.1 trivial hc
      · exact h.1
    | resend p x pad hg pp pt ssrc hf hpt hr hsx =>
      cases pad with
      | true => exact h.same h.1 hsuf.sublist rfl
      | false =>
        refine ⟨h.1, ?_⟩
        rw [repeated_append]
        have hx := (h.1.get hg).1
        have : repeated (Option.toList (some (rtxOut s ssrc pt { kind := Kind.resend p.seqNo, seqNo := s.seqNoRtx, payload := p.payload, info := p.info } (announced s p.info) false))) =
          [x % 65536] := by rw [← hx]; rfl
        rw [this, List.append_assoc]
        exact ((List.Sublist.refl _).append (((hsx rfl).sublist).map (· % 65536))).trans h.2
  | nack l =>
    cases hs
    have hsub : (es.flatMap numbers).Sublist ((es ++ l).flatMap numbers) := by
      rw [List.flatMap_append]; exact List.sublist_append_left _ _
    unfold nack
    split
    · refine ⟨h.1, ?_⟩
      simp only [Option.toList_none, List.append_nil]
      exact h.2.trans hsub
    · rename_i last _
      refine ⟨h.1, ?_⟩
      simp only [Option.toList_none, List.append_nil]
      rw [List.map_append, ← List.append_assoc]
      show List.Sublist _ ((es ++ l).flatMap numbers)
      rw [List.flatMap_append]
      refine h.2.append ((List.filter_sublist.map _).trans ?_)
      rw [List.map_flatMap]
      have : (fun a : NackEntry => List.map (· % 65536) (a.intoIter last)) = numbers := by
        funext e; exact intoIter_numbers e last
      rw [this]
  | report x =>
    cases hs
    obtain ⟨a, b, hl⟩ := report_eq s x
    rw [hl]
    exact h.same h.1 (List.Sublist.refl _) rfl
  | padding n =>
    cases hs
    obtain ⟨a, hl⟩ := padding_eq s n
    rw [hl]
    exact h.same h.1 (List.Sublist.refl _) rfl
  | setCache a b c =>
    cases hs
    exact h.same (cached_new _ _) (List.Sublist.refl _) rfl
  | resetBuffers =>
    cases hs
    exact h.same (cached_clear _) (List.nil_sublist _) rfl
  | resetSsrc a b c d =>
    cases hs
    exact h.same (cached_clear _) (List.nil_sublist _) rfl

/-- **C66**: the numbers repeated on request are a subsequence of the numbers asked for: each request is answered at most
once, in order. -/
theorem C66_once_per_request (ssrc : Nat) (rtx : Option Nat) (mid : Nat) (rid : Option Nat) (mtu s1 s2 : Nat) (ops : List Op) (s : Tx)
    (outs : List Out) (h : run (new ssrc rtx mid rid mtu s1 s2) ops = .ok (s, outs)) :
    (repeated outs).Sublist ((nacksOf ops).flatMap numbers) := by
  have := run_induct Queued (fun _ _ => True) asked (fun es s outs op t o hj _ hs => queued_step es s outs op t o hj hs) ops [] _ [] s outs
    (⟨cached_new _ _, List.Sublist.refl _⟩) (fun _ _ _ _ => trivial) h
  rw [asked_fold] at this
  simp only [List.nil_append] at this
  exact (List.sublist_append_left _ _).trans this.2

/-! ### C68: identification -/

/-- The remote end has reported on this SSRC since it was taken into use. -/
def confirmed (c : List Nat) : Op → List Nat
  | .report x => x :: c
  | .resetSsrc _ _ _ _ => []
  | _ => c

/-- The stream keeps its name, and only leaves it out after a report for the main SSRC. -/
structure Named (mid : Nat) (rid : Option Nat) (c : List Nat) (s : Tx) : Prop where
  mid : s.mid = mid
  rid : s.rid = rid
  acked : s.acked = true → s.rtx = none ∧ s.ssrc ∈ c
  all : ∀ x ∈ s.infos, x.2.mid = none ∧ x.2.rid = none

theorem named_chunks {mid : Nat} {rid : Option Nat} {c : List Nat} (f : Frame) (cs : List (List Byte)) : ∀ (first : Bool) (s : Tx), Named mid rid c s →
    Named mid rid c (pushChunks s f first cs) := by
  induction cs with
  | nil => intro first s h; exact h
  | cons x cs ih =>
    intro first s h
    refine ih false _ ⟨h.mid, h.rid, h.acked, ?_⟩
    intro y hy
    rcases List.mem_append.1 hy with hy | hy
    · exact h.all y hy
    · rw [List.mem_singleton.1 hy]; exact ⟨rfl, rfl⟩

theorem Named.same {mid : Nat} {rid : Option Nat} {c : List Nat} {s t : Tx} (h : Named mid rid c s) (h1 : t.mid = s.mid) (h2 : t.rid = s.rid)
    (h3 : t.acked = s.acked) (h4 : t.rtx = s.rtx) (h5 : t.ssrc = s.ssrc) (h6 : ∀ x ∈ t.infos, x ∈ s.infos) : Named mid rid c t := by
  refine ⟨by rw [h1]; exact h.mid, by rw [h2]; exact h.rid, by rw [h3, h4, h5]; exact h.acked, fun x hx => h.all x (h6 x hx)⟩

theorem named_step (mid : Nat) (rid : Option Nat) (c : List Nat) (s : Tx) (op : Op) (t : Tx) (o : Option Out) (h : Named mid rid c s)
    (hs : step s op = .ok (t, o)) : Named mid rid (confirmed c op) t := by
  cases op with
  | write w =>
    cases hs
    refine ⟨h.mid, h.rid, h.acked, ?_⟩
    intro y hy
    rcases List.mem_append.1 hy with hy | hy
    · exact h.all y hy
    · rw [List.mem_singleton.1 hy]; exact ⟨rfl, rfl⟩
  | frame f cs => cases hs; exact named_chunks f cs true s h
  | timeout now pt =>
    obtain ⟨t1, h1, hs⟩ := bind_eq_ok hs
    cases hs
    obtain ⟨x, q, hq, rfl⟩ := timeout_eq h1
    exact h.same rfl rfl rfl rfl rfl (fun x hx => hx)
  | poll now hdr params over =>
    obtain ⟨rs, pd, hsuf, hp⟩ := poll_ok hs
    cases hp with
    | none k => exact h.same rfl rfl rfl rfl rfl (fun x hx => hx)
    | dropped q r hq hr hu => exact h.same rfl rfl rfl rfl rfl (fun x hx => List.mem_of_mem_drop hx)
    | regular q r p c i hq hr hf hi hc hfit => exact h.same rfl rfl rfl rfl rfl (fun x hx => List.mem_of_mem_drop hx)
    | resend p x pad hg pp pt ssrc hf hpt hr hs => exact h.same rfl rfl rfl rfl rfl (fun x hx => hx)
    | blank pm len hl hm pp pt ssrc hf hpt hr => exact h.same rfl rfl rfl rfl rfl (fun x hx => hx)
  | nack es =>
    cases hs
    obtain ⟨l, hl⟩ := nack_eq s es
    rw [hl]
    exact h.same rfl rfl rfl rfl rfl (fun x hx => hx)
  | report x =>
    cases hs
    have hm : ∀ y, y ∈ c → y ∈ x :: c := fun y hy => List.mem_cons_of_mem _ hy
    unfold receptionReport
    split
    · rename_i r hr
      have ha : s.acked = true → False := fun ha => by rw [(h.acked ha).1] at hr; cases hr
      split
      · exact ⟨h.mid, h.rid, fun he => absurd he (fun he => ha he), h.all⟩
      · exact ⟨h.mid, h.rid, fun he => absurd he (fun he => ha he), h.all⟩
    · rename_i hr
      split
      · rename_i hx
        exact ⟨h.mid, h.rid, fun _ => ⟨hr, by rw [hx]; exact List.mem_cons_self ..⟩, h.all⟩
      · exact ⟨h.mid, h.rid, fun he => ⟨hr, hm _ (h.acked he).2⟩, h.all⟩
  | padding n =>
    cases hs
    obtain ⟨a, hl⟩ := padding_eq s n
    rw [hl]
    exact h.same rfl rfl rfl rfl rfl (fun x hx => hx)
  | setCache a b c => cases hs; exact h.same rfl rfl rfl rfl rfl (fun x hx => hx)
  | resetBuffers => cases hs; exact h.same rfl rfl rfl rfl rfl (fun x hx => by cases hx)
  | resetSsrc a b c d => cases hs; exact ⟨h.mid, h.rid, (fun he => by cases he), (fun x hx => by cases hx)⟩

theorem named_run (ssrc : Nat) (rtx : Option Nat) (mid : Nat) (rid : Option Nat) (mtu s1 s2 : Nat) (ops : List Op) (s : Tx)
    (outs : List Out) (h : run (new ssrc rtx mid rid mtu s1 s2) ops = .ok (s, outs)) : Named mid rid (ops.foldl confirmed []) s :=
  run_induct (fun c s _ => Named mid rid c s) (fun _ _ => True) confirmed (fun c s _ op t o hj _ hs => named_step mid rid c s op t o hj hs) ops [] _ [] s outs
    (⟨rfl, rfl, (fun he => by cases he), (fun x hx => by cases hx)⟩) (fun _ _ _ _ => trivial) h

/-- **C68**: every datagram names its stream: a new packet carries MID and (if the stream has one) RID, a
retransmission and padding carry MID and repaired RID; only new packets of a stream without RTX, after the remote end
has reported on its SSRC, may leave them out. -/
theorem C68_named_until_confirmed (ssrc : Nat) (rtx : Option Nat) (mid : Nat) (rid : Option Nat) (mtu s1 s2 : Nat) (ops : List Op) (s : Tx)
    (outs : List Out) (h : run (new ssrc rtx mid rid mtu s1 s2) ops = .ok (s, outs)) (now hdr : Nat) (params : List Param) (over : Bool) (t : Tx) (o : Out)
    (hp : step s (.poll now hdr params over) = .ok (t, some o)) :
    (o.kind = .regular ∧ o.ridRepair = none ∧
      ((o.mid = some mid ∧ o.rid = rid) ∨ (o.mid = none ∧ o.rid = none ∧ s.rtx = none ∧ o.ssrc ∈ ops.foldl confirmed []))) ∨
    (o.kind ≠ .regular ∧ o.mid = some mid ∧ o.rid = none ∧ o.ridRepair = rid) := by
  have hn := named_run ssrc rtx mid rid mtu s1 s2 ops s outs h
  obtain ⟨rs, pd, hsuf, hp⟩ := poll_ok hp
  have hmid : ∀ i : TxInfo, s.acked = false → (announced s i).mid = some mid := by
    intro i ha; unfold announced; rw [if_neg (by rw [ha]; decide), hn.mid]
  have hrx : ∀ i : TxInfo, s.rtx.isSome = true → rtxMid s (announced s i) = some mid := by
    intro i hr
    unfold rtxMid
    split
    · apply hmid
      cases ha : s.acked with
      | false => rfl
      | true => rw [(hn.acked ha).1] at hr; cases hr
    · rw [hn.mid]
  cases hp with
  | regular q r p c i hq hr hf hi hc hfit =>
    refine Or.inl ⟨rfl, rfl, ?_⟩
    show (i.mid = some mid ∧ i.rid = rid) ∨ _
    have e1 : i.mid = (announced s (headInfo s).2).mid := by rw [hi]
    have e2 : i.rid = (announced s (headInfo s).2).rid := by rw [hi]
    cases ha : s.acked with
    | false =>
      left
      rw [e1, e2, hmid _ ha]
      unfold announced
      rw [if_neg (by rw [ha]; decide)]
      exact ⟨rfl, hn.rid⟩
    | true =>
      right
      have hx : (headInfo s).2.mid = none ∧ (headInfo s).2.rid = none := by
        unfold headInfo
        cases hl : s.infos with
        | nil => exact ⟨rfl, rfl⟩
        | cons x xs => exact hn.all x (by rw [hl]; exact List.mem_cons_self ..)
      refine ⟨?_, ?_, hn.acked ha⟩
      · show i.mid = none
        rw [e1]; unfold announced; rw [if_pos ha]; exact hx.1
      · show i.rid = none
        rw [e2]; unfold announced; rw [if_pos ha]; exact hx.2
  | resend p x pad hg pp pt ssrc hf hpt hr hs =>
    exact Or.inr ⟨(by intro he; cases he), hrx _ (by rw [hr]; rfl), rfl, hn.rid⟩
  | blank pm len hl hm pp pt ssrc hf hpt hr =>
    exact Or.inr ⟨(by intro he; cases he), hrx _ (by rw [hr]; rfl), rfl, hn.rid⟩

/-- **C68**: a stream with RTX names itself in every datagram for ever, however often the remote end reports on it
(the acknowledgement of the main SSRC is only looked at when there is no RTX SSRC). -/
theorem C68_rtx_named_forever (ssrc : Nat) (rtx : Option Nat) (mid : Nat) (rid : Option Nat) (mtu s1 s2 : Nat) (ops : List Op) (s : Tx)
    (outs : List Out) (h : run (new ssrc rtx mid rid mtu s1 s2) ops = .ok (s, outs)) (hr : s.rtx ≠ none) (now hdr : Nat) (params : List Param) (over : Bool)
    (t : Tx) (o : Out) (hp : step s (.poll now hdr params over) = .ok (t, some o)) : o.mid = some mid := by
  rcases C68_named_until_confirmed ssrc rtx mid rid mtu s1 s2 ops s outs h now hdr params over t o hp with ⟨-, -, h1 | h1⟩ | h1
  · exact h1.1
  · exact absurd h1.2.2.1 hr
  · exact h1.2.1

end Str0m.Tx
