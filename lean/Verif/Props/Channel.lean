import Verif.Model.Channel
/-
  C35 (DCEP), C36 (stream ids), C60 (text, binary and empty messages).
-/
namespace Str0m.Channel
open Res

/-! ### C35 -/

/-- A configuration that can be sent: the strings are UTF-8 and fit the buffer of 1500 bytes, and the parameter is a `u16`. -/
structure Config.Valid (utf8 : List Byte → Bool) (c : Config) : Prop where
  label : utf8 c.label = true
  protocol : utf8 c.protocol = true
  room : c.label.length + c.protocol.length ≤ 1488
  param : ∀ n, c.reliability = .maxLifetime n ∨ c.reliability = .maxRetransmits n → n < 2^16

theorem typeByte (t : RelType) (un : Bool) :
    decide ((u8 (t.code ||| (if un then 0x80 else 0))).val &&& 0x80 > 0) = un ∧
    RelType.ofCode ((u8 (t.code ||| (if un then 0x80 else 0))).val &&& 0x7f) = t := by
  cases t <;> cases un <;> decide

/-- **C35** (message). Every OPEN message whose strings are UTF-8 and fit the buffer is parsed back
field by field, whatever follows it. -/
theorem C35_message_round_trip (utf8 : List Byte → Bool) (room : Nat) (hroom : room < 2^16) (d : DcepOpen)
    (hl : utf8 d.label = true) (hp : utf8 d.protocol = true) (hfit : 12 + d.label.length + d.protocol.length ≤ room)
    (hprio : d.priority < 2^16) (hparam : d.param < 2^32) :
    ∃ bytes, d.marshal room = .ok bytes ∧ bytes.length = 12 + d.label.length + d.protocol.length ∧
      ∀ rest, DcepOpen.parse utf8 (bytes ++ rest) = .ok d := by
  have e : d.marshal room = .ok ([3, u8 (d.channelType.code ||| (if d.unordered then 0x80 else 0))] ++ be16 d.priority ++ be32 d.param
    ++ be16 (d.label.length % 2^16) ++ be16 (d.protocol.length % 2^16) ++ d.label ++ d.protocol) := if_neg (by omega)
  refine ⟨_, e, ?_, ?_⟩
  · simp only [List.length_append, List.length_cons, List.length_nil, be16_length, be32_length]
  · intro rest
    obtain ⟨t1, t2⟩ := typeByte d.channelType d.unordered
    generalize u8 (d.channelType.code ||| (if d.unordered then 0x80 else 0)) = tb at t1 t2
    have e1 : d.label.length % 2^16 = d.label.length := by omega
    have e2 : d.protocol.length % 2^16 = d.protocol.length := by omega
    rw [e1, e2]
    have shape : [3, tb] ++ be16 d.priority ++ be32 d.param ++ be16 d.label.length ++ be16 d.protocol.length ++ d.label ++ d.protocol ++ rest
      = (3 : Byte) :: tb :: u8 (d.priority / 2^8) :: u8 d.priority :: u8 (d.param / 2^24) :: u8 (d.param / 2^16) :: u8 (d.param / 2^8) ::
        u8 d.param :: u8 (d.label.length / 2^8) :: u8 d.label.length :: u8 (d.protocol.length / 2^8) :: u8 d.protocol.length ::
        (d.label ++ (d.protocol ++ rest)) := by
      simp [be16, be32]
    rw [shape]
    have r1 := rd16_be16 (n := d.label.length) (by omega)
    have r2 := rd16_be16 (n := d.protocol.length) (by omega)
    have r3 := rd16_be16 hprio
    have r4 := rd32_be32 hparam
    generalize u8 (d.label.length / 2^8) = l0 at *
    generalize u8 d.label.length = l1 at *
    generalize u8 (d.protocol.length / 2^8) = q0 at *
    generalize u8 d.protocol.length = q1 at *
    generalize u8 (d.priority / 2^8) = p0 at *
    generalize u8 d.priority = p1 at *
    generalize u8 (d.param / 2^24) = m0 at *
    generalize u8 (d.param / 2^16) = m1 at *
    generalize u8 (d.param / 2^8) = m2 at *
    generalize u8 d.param = m3 at *
    unfold DcepOpen.parse
    rw [if_neg (by simp)]
    simp only [Res.idx, List.getElem?_cons_zero, List.getElem?_cons_succ, bind_def, bind_ok]
    rw [if_neg (by decide), r1, r2, if_neg (by simp only [List.length_cons, List.length_append]; omega), Res.from_of_le (by simp),
      bind_ok]
    simp only [List.drop_succ_cons, List.drop_zero]
    rw [Res.slice_of_le (by omega) (by simp), bind_ok]
    simp only [List.drop_zero, List.take_left, hl, Bool.true_eq_false, if_false]
    rw [Res.from_of_le (by simp), bind_ok, List.drop_left, Res.slice_of_le (by omega) (by simp), bind_ok]
    simp only [List.drop_zero, List.take_left, hp, Bool.true_eq_false, if_false, t1, t2, r3, r4]

/-- **C35** (configuration). What a channel is opened with is what the other end gets; negotiated channels are
not opened this way. -/
theorem C35_config_round_trip (utf8 : List Byte → Bool) (c : Config) (hc : c.Valid utf8) (hn : c.negotiated = none) :
    ∃ bytes, openMessage c = .ok bytes ∧ acceptOpen utf8 bytes = .ok c := by
  have hpar : c.toDcep.param < 2^16 := by
    have := hc.param
    cases h : c.reliability with
    | reliable => simp [Config.toDcep, h, Reliability.toWire]
    | maxLifetime n => simpa [Config.toDcep, h, Reliability.toWire] using this n (.inl h)
    | maxRetransmits n => simpa [Config.toDcep, h, Reliability.toWire] using this n (.inr h)
  obtain ⟨bytes, h1, -, h3⟩ := C35_message_round_trip utf8 1500 (by omega) c.toDcep hc.label hc.protocol
    (by have := hc.room; simp only [Config.toDcep]; omega) (by simp [Config.toDcep]) (by omega)
  refine ⟨bytes, h1, ?_⟩
  have h3' := h3 []
  rw [List.append_nil] at h3'
  unfold acceptOpen
  rw [h3', bind_def, bind_ok, pure_def]
  congr 1
  obtain ⟨label, ordered, reliability, negotiated, protocol⟩ := c
  simp only at hn
  subst hn
  simp only [Config.toDcep] at hpar
  simp only [Config.ofDcep, Config.toDcep, Bool.not_not, Config.mk.injEq, true_and, and_true]
  cases reliability with
  | reliable => rfl
  | maxLifetime n =>
    simp only [Reliability.toWire] at hpar
    simp only [Reliability.toWire, Reliability.ofWire, Nat.mod_eq_of_lt hpar]
  | maxRetransmits n =>
    simp only [Reliability.toWire] at hpar
    simp only [Reliability.toWire, Reliability.ofWire, Nat.mod_eq_of_lt hpar]

/-- **C35** (any input). No bytes make the parser panic, and what it accepts it has read from the bytes: type 3 and the two strings where the lengths say. -/
theorem C35_total (utf8 : List Byte → Bool) (buf : List Byte) :
    (DcepOpen.parse utf8 buf).NoPanic ∧
    ∀ d, DcepOpen.parse utf8 buf = .ok d →
      buf.getD 0 0 = 3 ∧ utf8 d.label = true ∧ utf8 d.protocol = true ∧
      (buf.drop 12).take d.label.length = d.label ∧ ((buf.drop 12).drop d.label.length).take d.protocol.length = d.protocol ∧
      12 + d.label.length + d.protocol.length ≤ buf.length ∧ d.priority < 2^16 ∧ d.param < 2^32 := by
  unfold DcepOpen.parse
  split
  · exact ⟨trivial, fun d h => by cases h⟩
  · rename_i hlen
    have shape : ∃ b0 b1 p0 p1 r0 r1 r2 r3 l0 l1 q0 q1 rest, buf =
        b0 :: b1 :: p0 :: p1 :: r0 :: r1 :: r2 :: r3 :: l0 :: l1 :: q0 :: q1 :: rest := by
      match buf with
      | [] | [_] | [_, _] | [_, _, _] | [_, _, _, _] | [_, _, _, _, _] | [_, _, _, _, _, _] | [_, _, _, _, _, _, _]
      | [_, _, _, _, _, _, _, _] | [_, _, _, _, _, _, _, _, _] | [_, _, _, _, _, _, _, _, _, _] | [_, _, _, _, _, _, _, _, _, _, _] =>
        exfalso; simp at hlen
      | a :: b :: c :: d :: e :: f :: g :: h :: i :: j :: k :: l :: r => exact ⟨a, b, c, d, e, f, g, h, i, j, k, l, r, rfl⟩
    obtain ⟨b0, b1, p0, p1, r0, r1, r2, r3, l0, l1, q0, q1, rest, rfl⟩ := shape
    · simp only [Res.idx, List.getElem?_cons_zero, List.getElem?_cons_succ, bind_def, bind_ok]
      split
      · exact ⟨trivial, fun d h => by cases h⟩
      · rename_i h0
        split
        · exact ⟨trivial, fun d h => by cases h⟩
        · rename_i hl2
          simp only [List.length_cons] at hl2
          rw [Res.from_of_le (by simp), bind_ok]
          simp only [List.drop_succ_cons, List.drop_zero]
          rw [Res.slice_of_le (by omega) (by omega), bind_ok]
          simp only [List.drop_zero]
          split
          · exact ⟨trivial, fun d h => by cases h⟩
          · rename_i hu1
            rw [Res.from_of_le (by omega), bind_ok, Res.slice_of_le (by omega) (by rw [List.length_drop]; omega), bind_ok]
            simp only [List.drop_zero]
            split
            · exact ⟨trivial, fun d h => by cases h⟩
            · rename_i hu2
              refine ⟨trivial, fun d h => ?_⟩
              simp only [Res.ok.injEq] at h
              subst h
              have n1 : min (rd16 l0 l1) rest.length = rd16 l0 l1 := by omega
              have n2 : min (rd16 q0 q1) (rest.length - rd16 l0 l1) = rd16 q0 q1 := by omega
              refine ⟨?_, ?_, ?_, ?_, ?_, ?_, rd16_lt _ _, rd32_lt _ _ _ _⟩
              · simp only [List.getD_cons_zero]
                have h3 : ((3 : Byte)).val = 3 := rfl
                exact Fin.ext (by rw [h3]; omega)
              · simpa using hu1
              · simpa using hu2
              · simp only [List.length_take, n1]
              · simp only [List.length_take, List.length_drop, n1, n2]
              · simp only [List.length_take, List.length_drop, n1, n2, List.length_cons]; omega

/-- The acknowledgement is recognised and parsing it is total. -/
theorem C35_ack (rest buf : List Byte) : ackParse (ackMarshal ++ rest) = .ok () ∧ (ackParse buf).NoPanic := by
  constructor
  · rfl
  · cases buf with
    | nil => trivial
    | cons b bs =>
      have : ackParse (b :: bs) = if b.val ≠ 2 then .err .messageType else .ok () := rfl
      rw [this]
      split <;> trivial

/-- **Violation**: opening a channel with a label and protocol of more than 1488 bytes together panics. -/
theorem C35_violation_long (c : Config) (h : 1488 < c.label.length + c.protocol.length) : openMessage c = .panic := by
  unfold openMessage DcepOpen.marshal
  rw [if_pos (by simp only [Config.toDcep]; omega)]

/-- **Violation**: a remote parameter above 16 bits is cut: 65536 retransmits are none. -/
theorem C35_violation_param :
    acceptOpen (fun _ => true) [3, 1, 0, 0, 0, 1, 0, 0, 0, 0, 0, 0] =
      .ok { label := [], ordered := true, reliability := .maxRetransmits 0, negotiated := none, protocol := [] } := by decide +kernel

example : ∃ bytes, openMessage { label := [104, 105], ordered := false, reliability := .maxRetransmits 3, negotiated := none, protocol := [120] } = .ok bytes ∧
    acceptOpen (fun s => s.all (fun b => decide (b.val < 128))) bytes =
      .ok { label := [104, 105], ordered := false, reliability := .maxRetransmits 3, negotiated := none, protocol := [120] } :=
  C35_config_round_trip _ _ ⟨by decide, by decide, by decide, by rintro n (h | h) <;> cases h; decide⟩ rfl

/-! ### C60 -/

/-- **C60**. What is written on a channel is delivered as written, also when it is empty, with the kind it was written as. `wire` is what
SCTP carries: it does not carry empty messages, so something else stands in for those. -/
theorem C60_delivered (binary : Bool) (buf wire : List Byte) (h : buf ≠ [] → wire = buf) :
    deliver (ppiOf binary buf) wire = some (binary, buf) := by
  unfold ppiOf
  by_cases hb : buf = []
  · subst hb; cases binary <;> rfl
  · rw [h hb]
    cases binary <;> simp [hb, deliver]

/-! ### C36 -/

/-- In every state the table can be in: ids of streams and channels are pairwise distinct, channel ids are below the next one. -/
structure Inv (h : Handler) : Prop where
  streams : h.live.Nodup
  ids : (h.allocs.map (·.id)).Nodup
  below : ∀ a ∈ h.allocs, a.id < h.nextId
  wanted : ∀ a ∈ h.allocs, ∀ w s, a.wanted = some w → a.stream = some s → s = w

theorem findFree_some {taken : List Nat} {fuel p q : Nat} (h : findFree taken fuel p = some q) :
    q ∉ taken ∧ p ≤ q ∧ q % 2 = p % 2 ∧ (p ≤ 65535 → q ≤ 65535) ∧ ∀ r, p ≤ r → r < q → r % 2 = p % 2 → r ∈ taken := by
  induction fuel generalizing p with
  | zero => cases h
  | succ fuel ih =>
    unfold findFree at h
    split at h
    · rename_i hp
      split at h
      · rename_i hb
        obtain ⟨a, b, c, d, e⟩ := ih h
        refine ⟨a, by omega, by omega, fun _ => d hb, fun r h1 h2 h3 => ?_⟩
        by_cases hr : r = p
        · rw [hr]; exact hp
        · exact e r (by omega) h2 (by omega)
      · cases h
    · rename_i hp
      cases h
      exact ⟨hp, Nat.le_refl _, rfl, fun h => h, fun r h1 h2 => by omega⟩

theorem findFree_none {taken : List Nat} {fuel p : Nat} (hf : 65535 < p + 2 * fuel) (h : findFree taken fuel p = none) :
    ∀ r, p ≤ r → r ≤ 65535 → r % 2 = p % 2 → r ∈ taken := by
  induction fuel generalizing p with
  | zero => intro r h1 h2; omega
  | succ fuel ih =>
    unfold findFree at h
    split at h
    · rename_i hp
      split at h
      · intro r h1 h2 h3
        by_cases hr : r = p
        · rw [hr]; exact hp
        · exact ih (by omega) h r (by omega) h2 (by omega)
      · intro r h1 h2 h3
        have : r = p := by omega
        rw [this]; exact hp
    · cases h

/-- What allocation does to each channel: nothing, or it gives it an id that no other has. -/
inductive Given (base : Nat) (before : List Nat) (a a' : Alloc) : Prop where
  | same (h : a' = a)
  | wanted (w : Nat) (h0 : a.stream = none) (h1 : a.wanted = some w) (h2 : a' = { a with stream := some w }) (h3 : w ∉ before)
  | auto (p : Nat) (h0 : a.stream = none) (h1 : a.wanted = none) (h2 : a' = { a with stream := some p }) (h3 : p ∉ before)
      (h4 : p % 2 = base % 2) (h5 : p ≤ 65535)

theorem allocate_given (base : Nat) (hb : base ≤ 1) :
    ∀ (as : List Alloc) (taken : List Nat), ∀ (k : Nat) (a a' : Alloc), as[k]? = some a →
      (allocate base taken as)[k]? = some a' → Given base taken a a' := by
  intro as
  induction as with
  | nil => intro taken k a a' h; simp at h
  | cons x rest ih =>
    intro taken k a a' h h'
    have mono : ∀ {t : Nat} {b b' : Alloc}, Given base (taken ++ [t]) b b' → Given base taken b b' := by
      intro t b b' g
      cases g with
      | same e => exact .same e
      | wanted w a b c d => exact .wanted w a b c (fun hc => d (List.mem_append_left _ hc))
      | auto p a b c d e f => exact .auto p a b c (fun hc => d (List.mem_append_left _ hc)) e f
    unfold allocate at h'
    split at h'
    · cases k with
      | zero => simp only [List.getElem?_cons_zero, Option.some.injEq] at h h'; subst h h'; exact .same rfl
      | succ k => simp only [List.getElem?_cons_succ] at h h'; exact ih taken k a a' h h'
    · rename_i hs
      have hs' : x.stream = none := by simpa using hs
      cases hw : x.wanted with
      | some w =>
        rw [hw] at h'
        simp only at h'
        split at h'
        · cases k with
          | zero => simp only [List.getElem?_cons_zero, Option.some.injEq] at h h'; subst h h'; exact .same rfl
          | succ k => simp only [List.getElem?_cons_succ] at h h'; exact ih taken k a a' h h'
        · rename_i hwt
          cases k with
          | zero =>
            simp only [List.getElem?_cons_zero, Option.some.injEq] at h h'
            subst h
            exact .wanted w hs' hw (by rw [← h', hw]) hwt
          | succ k =>
            simp only [List.getElem?_cons_succ] at h h'
            exact mono (ih _ k a a' h h')
      | none =>
        rw [hw] at h'
        simp only at h'
        cases hf : findFree taken 32768 base with
        | none =>
          rw [hf] at h'
          cases k with
          | zero => simp only [List.getElem?_cons_zero, Option.some.injEq] at h h'; subst h h'; exact .same rfl
          | succ k => simp only [List.getElem?_cons_succ] at h h'; exact ih taken k a a' h h'
        | some p =>
          rw [hf] at h'
          obtain ⟨f1, -, f3, f4, -⟩ := findFree_some hf
          cases k with
          | zero =>
            simp only [List.getElem?_cons_zero, Option.some.injEq] at h h'
            subst h
            exact .auto p hs' hw (by rw [← h', hw]) f1 (by omega) (f4 (by omega))
          | succ k =>
            simp only [List.getElem?_cons_succ] at h h'
            exact mono (ih _ k a a' h h')

theorem allocate_length (base : Nat) : ∀ (as : List Alloc) (taken : List Nat), (allocate base taken as).length = as.length := by
  intro as
  induction as with
  | nil => intro taken; rfl
  | cons x rest ih =>
    intro taken
    unfold allocate
    split
    · simp [ih]
    · split
      · split <;> simp [ih]
      · split <;> simp [ih]

/-- The ids after allocation: those before, and new ones, pairwise distinct and none of them taken. -/
theorem allocate_nodup (base : Nat) :
    ∀ (as : List Alloc) (taken : List Nat), (∀ s ∈ as.filterMap (·.stream), s ∈ taken) → (as.filterMap (·.stream)).Nodup →
      ((allocate base taken as).filterMap (·.stream)).Nodup ∧
      ∀ s ∈ (allocate base taken as).filterMap (·.stream), s ∈ as.filterMap (·.stream) ∨ s ∉ taken := by
  intro as
  induction as with
  | nil => intro taken _ _; exact ⟨List.nodup_nil, fun s hs => by simp [allocate] at hs⟩
  | cons x rest ih =>
    intro taken hsub hnd
    have new : ∀ (t : Nat) (y : Alloc), x.stream = none → y.stream = some t → t ∉ taken →
        ((y :: allocate base (taken ++ [t]) rest).filterMap (·.stream)).Nodup ∧
        ∀ s ∈ (y :: allocate base (taken ++ [t]) rest).filterMap (·.stream), s ∈ (x :: rest).filterMap (·.stream) ∨ s ∉ taken := by
      intro t y hx hy ht
      rw [List.filterMap_cons_none hx] at hsub hnd
      obtain ⟨i1, i2⟩ := ih (taken ++ [t]) (fun s hs => List.mem_append_left _ (hsub s hs)) hnd
      rw [List.filterMap_cons_some hy, List.filterMap_cons_none hx]
      constructor
      · refine List.nodup_cons.2 ⟨fun hm => ?_, i1⟩
        rcases i2 t hm with h | h
        · exact ht (hsub t h)
        · exact h (by simp)
      · intro s hs
        rcases List.mem_cons.1 hs with rfl | hs
        · exact .inr ht
        · rcases i2 s hs with h | h
          · exact .inl h
          · exact .inr (fun hc => h (List.mem_append_left _ hc))
    have keep : x.stream = none → ((x :: allocate base taken rest).filterMap (·.stream)).Nodup ∧
        ∀ s ∈ (x :: allocate base taken rest).filterMap (·.stream), s ∈ (x :: rest).filterMap (·.stream) ∨ s ∉ taken := by
      intro hx
      rw [List.filterMap_cons_none hx] at hsub hnd
      rw [List.filterMap_cons_none hx, List.filterMap_cons_none hx]
      exact ih taken hsub hnd
    unfold allocate
    split
    · rename_i hs
      obtain ⟨v, hv⟩ := Option.isSome_iff_exists.1 hs
      rw [List.filterMap_cons_some hv] at hsub hnd
      obtain ⟨i1, i2⟩ := ih taken (fun s hs => hsub s (List.mem_cons_of_mem _ hs)) (List.nodup_cons.1 hnd).2
      rw [List.filterMap_cons_some hv, List.filterMap_cons_some hv]
      constructor
      · refine List.nodup_cons.2 ⟨fun hm => ?_, i1⟩
        rcases i2 v hm with h | h
        · exact (List.nodup_cons.1 hnd).1 h
        · exact h (hsub v (by simp))
      · intro s hs
        rcases List.mem_cons.1 hs with rfl | hs
        · exact .inl (by simp)
        · rcases i2 s hs with h | h
          · exact .inl (List.mem_cons_of_mem _ h)
          · exact .inr h
    · rename_i hs
      have hx : x.stream = none := by simpa using hs
      split
      · split
        · exact keep hx
        · rename_i w _ hw; exact new w _ hx rfl hw
      · split
        · exact keep hx
        · rename_i p hf; exact new p _ hx rfl (findFree_some hf).1

theorem filterMap_map_stream {f : Alloc → Alloc} (hf : ∀ a, (f a).stream = a.stream) (as : List Alloc) :
    (as.map f).filterMap (·.stream) = as.filterMap (·.stream) := by
  rw [List.filterMap_map]
  congr 1
  funext a
  exact hf a

theorem map_map_id {f : Alloc → Alloc} (hf : ∀ a, (f a).id = a.id) (as : List Alloc) : (as.map f).map (·.id) = as.map (·.id) := by
  rw [List.map_map]
  congr 1
  funext a
  exact hf a

theorem allocate_ids (base : Nat) (hb : base ≤ 1) (taken : List Nat) (as : List Alloc) :
    (allocate base taken as).map (·.id) = as.map (·.id) := by
  apply List.ext_getElem?
  intro k
  simp only [List.getElem?_map]
  by_cases hk : k < as.length
  · have h1 : as[k]? = some as[k] := List.getElem?_eq_getElem hk
    have hk' : k < (allocate base taken as).length := by rw [allocate_length]; exact hk
    have h2 := List.getElem?_eq_getElem hk'
    rw [h1, h2]
    simp only [Option.map_some, Option.some.injEq]
    cases allocate_given base hb as taken k _ _ h1 h2 with
    | same e => rw [e]
    | wanted w _ _ e => rw [e]
    | auto p _ _ e => rw [e]
  · rw [List.getElem?_eq_none (by rw [allocate_length]; omega), List.getElem?_eq_none (by omega)]

theorem base_le (client : Bool) : (if client then 0 else 1) ≤ 1 := by cases client <;> simp

theorem doAllocations_inv {h : Handler} (i : Inv h) (client : Bool) : Inv (h.doAllocations client) := by
  unfold Handler.doAllocations
  split
  · have hb := base_le client
    constructor
    · exact (allocate_nodup _ h.allocs (h.live ++ h.held) (fun s hs => List.mem_append_left _ hs) i.streams).1
    · simp only [allocate_ids _ hb]; exact i.ids
    · intro a ha
      obtain ⟨k, hk, rfl⟩ := List.mem_iff_getElem.1 ha
      have hk' : k < h.allocs.length := by rw [← allocate_length]; exact hk
      have hid : ((allocate (if client then 0 else 1) (h.live ++ h.held) h.allocs).map (·.id))[k]? = (h.allocs.map (·.id))[k]? := by
        rw [allocate_ids _ hb]
      simp only [List.getElem?_map, List.getElem?_eq_getElem hk, List.getElem?_eq_getElem hk', Option.map_some, Option.some.injEq] at hid
      simp only at hid ⊢
      rw [hid]
      exact i.below _ (List.getElem_mem _)
    · intro a ha w s hw hs
      obtain ⟨k, hk, rfl⟩ := List.mem_iff_getElem.1 ha
      have hk' : k < h.allocs.length := by rw [← allocate_length]; exact hk
      have h1 := List.getElem?_eq_getElem hk'
      have h2 := List.getElem?_eq_getElem hk
      cases allocate_given _ hb _ _ k _ _ h1 h2 with
      | same e => rw [e] at hw hs; exact i.wanted _ (List.getElem_mem _) w s hw hs
      | wanted w' _ hw' e =>
        rw [e] at hw hs
        simp only at hw hs
        rw [hw] at hw'
        cases hw'
        cases hs
        rfl
      | auto p _ hn e =>
        rw [e] at hw
        simp only at hw
        rw [hw] at hn
        cases hn
  · exact i

theorem openChannels_inv {h : Handler} (i : Inv h) : Inv h.openChannels.1 := by
  unfold Handler.openChannels
  have f1 : ∀ a : Alloc, (if a.stream.isSome then { a with config := false } else a).stream = a.stream := by intro a; split <;> rfl
  have f2 : ∀ a : Alloc, (if a.stream.isSome then { a with config := false } else a).id = a.id := by intro a; split <;> rfl
  have f3 : ∀ a : Alloc, (if a.stream.isSome then { a with config := false } else a).wanted = a.wanted := by intro a; split <;> rfl
  constructor
  · show ((h.allocs.map _).filterMap _).Nodup
    rw [filterMap_map_stream f1]; exact i.streams
  · show ((h.allocs.map _).map _).Nodup
    rw [map_map_id f2]; exact i.ids
  · intro a ha
    obtain ⟨b, hb, rfl⟩ := List.mem_map.1 ha
    simp only [f2]; exact i.below b hb
  · intro a ha w s hw hs
    obtain ⟨b, hb, rfl⟩ := List.mem_map.1 ha
    rw [f3] at hw
    rw [f1] at hs
    exact i.wanted b hb w s hw hs

theorem step_inv {h h' : Handler} {op : Op} (i : Inv h) (hs : h.step op = .ok h') : Inv h' := by
  have add : ∀ (st : Option Nat) (w : Option Nat), (∀ s, st = some s → s ∉ h.live) → (st.isSome → w = none) →
      Inv { h with allocs := h.allocs ++ [{ id := h.nextId, stream := st, wanted := w, config := false }], nextId := h.nextId + 1 } := by
    intro st w hst hw
    constructor
    · show ((h.allocs ++ _).filterMap _).Nodup
      rw [List.filterMap_append]
      cases st with
      | none =>
        rw [show List.filterMap (fun x : Alloc => x.stream) [{ id := h.nextId, stream := none, wanted := w, config := false }] = [] from rfl,
          List.append_nil]
        exact i.streams
      | some s =>
        rw [show List.filterMap (fun x : Alloc => x.stream) [{ id := h.nextId, stream := some s, wanted := w, config := false }] = [s] from rfl]
        rw [List.nodup_append]
        exact ⟨i.streams, by simp, by intro a ha b hb; simp only [List.mem_singleton] at hb; subst hb; intro hc; subst hc; exact hst _ rfl ha⟩
    · show ((h.allocs ++ _).map _).Nodup
      rw [List.map_append, List.nodup_append]
      refine ⟨i.ids, by simp, ?_⟩
      intro a ha b hb
      simp only [List.map_cons, List.map_nil, List.mem_singleton] at hb
      obtain ⟨x, hx, rfl⟩ := List.mem_map.1 ha
      have := i.below x hx
      omega
    · intro a ha
      rcases List.mem_append.1 ha with ha | ha
      · have := i.below a ha; show a.id < h.nextId + 1; omega
      · simp only [List.mem_singleton] at ha; subst ha; show h.nextId < h.nextId + 1; omega
    · intro a ha w' s hw' hs'
      rcases List.mem_append.1 ha with ha | ha
      · exact i.wanted a ha w' s hw' hs'
      · simp only [List.mem_singleton] at ha
        subst ha
        simp only at hw' hs'
        rw [hw (by rw [hs']; rfl)] at hw'
        cases hw'
  cases op with
  | new w =>
    simp only [Handler.step, Handler.newChannel] at hs
    split at hs
    · cases hs
    · simp only [bind_def, bind_ok, pure_def, Res.ok.injEq] at hs
      subst hs
      exact add none w (fun s hc => by cases hc) (fun hc => by cases hc)
  | confirm id =>
    simp only [Handler.step, Handler.confirm] at hs
    split at hs
    · simp only [Res.ok.injEq] at hs
      subst hs
      have f1 : ∀ a : Alloc, (if a.id = id then { a with config := true } else a).stream = a.stream := by intro a; split <;> rfl
      have f2 : ∀ a : Alloc, (if a.id = id then { a with config := true } else a).id = a.id := by intro a; split <;> rfl
      have f3 : ∀ a : Alloc, (if a.id = id then { a with config := true } else a).wanted = a.wanted := by intro a; split <;> rfl
      constructor
      · show ((h.allocs.map _).filterMap _).Nodup
        rw [filterMap_map_stream f1]; exact i.streams
      · show ((h.allocs.map _).map _).Nodup
        rw [map_map_id f2]; exact i.ids
      · intro a ha
        obtain ⟨b, hb, rfl⟩ := List.mem_map.1 ha
        simp only [f2]; exact i.below b hb
      · intro a ha w s hw hs
        obtain ⟨b, hb, rfl⟩ := List.mem_map.1 ha
        rw [f3] at hw
        rw [f1] at hs
        exact i.wanted b hb w s hw hs
    · cases hs
  | timeout client =>
    simp only [Handler.step, Res.ok.injEq] at hs
    subst hs
    exact openChannels_inv (doAllocations_inv i client)
  | opened s =>
    simp only [Handler.step, Res.ok.injEq, Handler.ensure] at hs
    split at hs
    · subst hs; exact i
    · rename_i hn
      subst hs
      refine add (some s) none (fun s' hs' hm => ?_) (fun _ => rfl)
      cases hs'
      apply hn
      obtain ⟨a, ha, hs⟩ := List.mem_filterMap.1 hm
      exact List.any_eq_true.2 ⟨a, ha, by simpa using hs⟩
  | closed s pending =>
    simp only [Handler.step] at hs
    split at hs
    · simp only [Res.ok.injEq] at hs
      subst hs
      rename_i id _
      have sub : List.Sublist (h.allocs.filter (fun a => decide (a.id ≠ id))) h.allocs := List.filter_sublist
      constructor
      · exact (sub.filterMap _).nodup i.streams
      · exact (sub.map _).nodup i.ids
      · intro a ha; exact i.below a (sub.subset ha)
      · intro a ha; exact i.wanted a (sub.subset ha)
    · simp only [Res.ok.injEq] at hs; subst hs; exact i
  | resetComplete s =>
    simp only [Handler.step, Res.ok.injEq] at hs
    subst hs
    exact ⟨i.streams, i.ids, i.below, i.wanted⟩
  | lost =>
    simp only [Handler.step, Res.ok.injEq] at hs
    subst hs
    exact ⟨i.streams, i.ids, i.below, i.wanted⟩

theorem run_inv {h h' : Handler} {ops : List Op} (i : Inv h) (hr : h.run ops = .ok h') : Inv h' := by
  induction ops generalizing h with
  | nil => cases hr; exact i
  | cons op ops ih =>
    unfold Handler.run at hr
    cases hs : h.step op with
    | err | panic => rw [hs] at hr; cases hr
    | ok x =>
      rw [hs, bind_def, bind_ok] at hr
      exact ih (step_inv i hs) hr

/-- The states of the table: whatever was done to it since the start. -/
def Reachable (h : Handler) : Prop := ∃ ops, Handler.empty.run ops = .ok h

theorem inv_of_reachable {h : Handler} (hr : Reachable h) : Inv h := by
  obtain ⟨ops, ho⟩ := hr
  refine run_inv ⟨?_, ?_, ?_, ?_⟩ ho
  · exact List.nodup_nil
  · exact List.nodup_nil
  · intro a ha; cases ha
  · intro a ha; cases ha

/-- **C36** (distinct). After any history the stream ids of the channels are pairwise distinct, and so are the
channels' own ids. -/
theorem C36_distinct (h : Handler) (hr : Reachable h) : h.live.Nodup ∧ (h.allocs.map (·.id)).Nodup :=
  ⟨(inv_of_reachable hr).streams, (inv_of_reachable hr).ids⟩

/-- **C36** (allocation). In any reachable state, an id given at a timeout is the one asked for or, if none was, has the parity
of the role and is at most 65535; it is not the id of another channel, nor one awaiting a reset. Ids given before stay. -/
theorem C36_allocation (h : Handler) (client : Bool) (k : Nat) (a a' : Alloc)
    (ha : h.allocs[k]? = some a) (ha' : (h.timeout client).1.allocs[k]? = some a') :
    a'.id = a.id ∧ (∀ s, a.stream = some s → a'.stream = some s) ∧
    ∀ s, a.stream = none → a'.stream = some s →
      s ∉ h.live ∧ s ∉ h.held ∧
      (a.wanted = some s ∨ (a.wanted = none ∧ s % 2 = (if client then 0 else 1) ∧ s ≤ 65535)) := by
  have key : ∃ x, (h.doAllocations client).allocs[k]? = some x ∧ a'.id = x.id ∧ a'.stream = x.stream := by
    simp only [Handler.timeout, Handler.openChannels, List.getElem?_map] at ha'
    cases hx : (h.doAllocations client).allocs[k]? with
    | none => rw [hx] at ha'; cases ha'
    | some x =>
      rw [hx] at ha'
      simp only [Option.map_some, Option.some.injEq] at ha'
      refine ⟨x, rfl, ?_, ?_⟩
      · rw [← ha']; split <;> rfl
      · rw [← ha']; split <;> rfl
  obtain ⟨x, hx, e1, e2⟩ := key
  rw [e1, e2]
  unfold Handler.doAllocations at hx
  split at hx
  · cases allocate_given _ (base_le client) _ _ k _ _ ha hx with
    | same e =>
      subst e
      refine ⟨rfl, fun s hs => hs, fun s h1 h2 => ?_⟩
      rw [h1] at h2
      cases h2
    | wanted w h0 h1 h2 h3 =>
      subst h2
      refine ⟨rfl, fun s hs => ?_, fun s _ hs => ?_⟩
      · rw [h0] at hs; cases hs
      · cases hs
        exact ⟨fun hc => h3 (List.mem_append_left _ hc), fun hc => h3 (List.mem_append_right _ hc), .inl h1⟩
    | auto p h0 h1 h2 h3 h4 h5 =>
      subst h2
      refine ⟨rfl, fun s hs => ?_, fun s _ hs => ?_⟩
      · rw [h0] at hs; cases hs
      · cases hs
        refine ⟨fun hc => h3 (List.mem_append_left _ hc), fun hc => h3 (List.mem_append_right _ hc), .inr ⟨h1, ?_, h5⟩⟩
        rw [h4]; cases client <;> rfl
  · rw [ha] at hx
    cases hx
    refine ⟨rfl, fun s hs => hs, fun s h1 h2 => ?_⟩
    rw [h1] at h2
    cases h2

/-- **C36** (both ends). Ids given automatically by the two ends never meet: one has even ones, the other odd ones. -/
theorem C36_no_glare (h g : Handler) (k j : Nat) (a a' b b' : Alloc) (s t : Nat)
    (ha : h.allocs[k]? = some a) (ha' : (h.timeout true).1.allocs[k]? = some a')
    (hb : g.allocs[j]? = some b) (hb' : (g.timeout false).1.allocs[j]? = some b')
    (h1 : a.stream = none) (h2 : a.wanted = none) (h3 : a'.stream = some s)
    (g1 : b.stream = none) (g2 : b.wanted = none) (g3 : b'.stream = some t) : s ≠ t := by
  obtain ⟨-, -, x⟩ := C36_allocation h true k a a' ha ha'
  obtain ⟨-, -, y⟩ := C36_allocation g false j b b' hb hb'
  obtain ⟨-, -, x⟩ := x s h1 h3
  obtain ⟨-, -, y⟩ := y t g1 g3
  rcases x with x | ⟨-, x, -⟩
  · rw [h2] at x; cases x
  · rcases y with y | ⟨-, y, -⟩
    · rw [g2] at y; cases y
    · simp only [if_true, Bool.false_eq_true, if_false] at x y
      omega

/-- The ids a channel can be looked up by: the two lookups are inverse. -/
theorem C36_lookup (h : Handler) (hr : Reachable h) (id s : Nat) : h.byStream s = some id ↔ h.byId id = some s := by
  have i := inv_of_reachable hr
  have uniqS : ∀ (l : List Alloc), (l.filterMap (·.stream)).Nodup → ∀ a ∈ l, a.stream = some s →
      l.find? (fun x => decide (x.stream = some s)) = some a := by
    intro l
    induction l with
    | nil => intro _ a ha; cases ha
    | cons x rest ih =>
      intro hnd a ha hs
      by_cases hx : x.stream = some s
      · rw [List.find?_cons_of_pos (by simpa using hx)]
        rcases List.mem_cons.1 ha with rfl | hm
        · rfl
        · rw [List.filterMap_cons_some hx] at hnd
          exact absurd (List.mem_filterMap.2 ⟨a, hm, hs⟩) (List.nodup_cons.1 hnd).1
      · rw [List.find?_cons_of_neg (by simpa using hx)]
        rcases List.mem_cons.1 ha with rfl | hm
        · exact absurd hs hx
        · refine ih ?_ a hm hs
          cases hx2 : x.stream with
          | none => rwa [List.filterMap_cons_none hx2] at hnd
          | some v => rw [List.filterMap_cons_some hx2] at hnd; exact (List.nodup_cons.1 hnd).2
  have uniqI : ∀ (l : List Alloc), (l.map (·.id)).Nodup → ∀ a ∈ l, a.id = id → l.find? (fun x => decide (x.id = id)) = some a := by
    intro l
    induction l with
    | nil => intro _ a ha; cases ha
    | cons x rest ih =>
      intro hnd a ha hs
      rw [List.map_cons, List.nodup_cons] at hnd
      by_cases hx : x.id = id
      · rw [List.find?_cons_of_pos (by simpa using hx)]
        rcases List.mem_cons.1 ha with rfl | hm
        · rfl
        · exact absurd (List.mem_map.2 ⟨a, hm, by rw [hs, hx]⟩) hnd.1
      · rw [List.find?_cons_of_neg (by simpa using hx)]
        rcases List.mem_cons.1 ha with rfl | hm
        · exact absurd hs hx
        · exact ih hnd.2 a hm hs
  constructor
  · intro hb
    unfold Handler.byStream at hb
    cases hf : h.allocs.find? (fun a => decide (a.stream = some s)) with
    | none => rw [hf] at hb; cases hb
    | some a =>
      rw [hf] at hb
      simp only [Option.map_some, Option.some.injEq] at hb
      have hs : a.stream = some s := by simpa using List.find?_some hf
      unfold Handler.byId
      rw [uniqI _ i.ids a (List.mem_of_find?_eq_some hf) hb]
      exact hs
  · intro hb
    unfold Handler.byId at hb
    cases hf : h.allocs.find? (fun a => decide (a.id = id)) with
    | none => rw [hf] at hb; cases hb
    | some a =>
      rw [hf] at hb
      simp only [Option.bind_some] at hb
      have hs : a.id = id := by simpa using List.find?_some hf
      unfold Handler.byStream
      rw [uniqS _ i.streams a (List.mem_of_find?_eq_some hf) hb]
      simp [hs]


/-- What keeps a channel without an id after allocation: what it wants is taken. -/
theorem allocate_stuck (base : Nat) (hb : base ≤ 1) :
    ∀ (as : List Alloc) (taken : List Nat) (a : Alloc), a ∈ allocate base taken as → a.stream = none →
      (∀ w, a.wanted = some w → w ∈ taken ∨ w ∈ (allocate base taken as).filterMap (·.stream)) ∧
      (a.wanted = none → ∀ r, r % 2 = base → r ≤ 65535 → r ∈ taken ∨ r ∈ (allocate base taken as).filterMap (·.stream)) := by
  intro as
  induction as with
  | nil => intro taken a ha; cases ha
  | cons x rest ih =>
    intro taken a ha hs
    have keep : x.stream = none → a ∈ x :: allocate base taken rest →
        (∀ w, x.wanted = some w → w ∈ taken) → (x.wanted = none → ∀ r, r % 2 = base → r ≤ 65535 → r ∈ taken) →
        (∀ w, a.wanted = some w → w ∈ taken ∨ w ∈ (x :: allocate base taken rest).filterMap (·.stream)) ∧
        (a.wanted = none → ∀ r, r % 2 = base → r ≤ 65535 → r ∈ taken ∨ r ∈ (x :: allocate base taken rest).filterMap (·.stream)) := by
      intro hx hm h1 h2
      rw [List.filterMap_cons_none hx]
      rcases List.mem_cons.1 hm with rfl | hm
      · exact ⟨fun w hw => .inl (h1 w hw), fun hn r a b => .inl (h2 hn r a b)⟩
      · exact ih taken a hm hs
    have new : ∀ (t : Nat) (y : Alloc), y.stream = some t → a ∈ y :: allocate base (taken ++ [t]) rest →
        (∀ w, a.wanted = some w → w ∈ taken ∨ w ∈ (y :: allocate base (taken ++ [t]) rest).filterMap (·.stream)) ∧
        (a.wanted = none → ∀ r, r % 2 = base → r ≤ 65535 →
          r ∈ taken ∨ r ∈ (y :: allocate base (taken ++ [t]) rest).filterMap (·.stream)) := by
      intro t y hy hm
      rw [List.filterMap_cons_some hy]
      rcases List.mem_cons.1 hm with rfl | hm
      · rw [hs] at hy; cases hy
      · obtain ⟨i1, i2⟩ := ih (taken ++ [t]) a hm hs
        have fix : ∀ r, (r ∈ taken ++ [t] ∨ r ∈ (allocate base (taken ++ [t]) rest).filterMap (·.stream)) →
            r ∈ taken ∨ r ∈ t :: (allocate base (taken ++ [t]) rest).filterMap (·.stream) := by
          rintro r (h | h)
          · rcases List.mem_append.1 h with h | h
            · exact .inl h
            · exact .inr (List.mem_cons.2 (.inl (by simpa using h)))
          · exact .inr (List.mem_cons_of_mem _ h)
        exact ⟨fun w hw => fix w (i1 w hw), fun hn r a b => fix r (i2 hn r a b)⟩
    unfold allocate at ha ⊢
    split at ha
    · rename_i hx
      rw [if_pos hx]
      obtain ⟨v, hv⟩ := Option.isSome_iff_exists.1 hx
      rw [List.filterMap_cons_some hv]
      rcases List.mem_cons.1 ha with rfl | hm
      · rw [hs] at hv; cases hv
      · obtain ⟨i1, i2⟩ := ih taken a hm hs
        exact ⟨fun w hw => (i1 w hw).imp id (List.mem_cons_of_mem _),
          fun hn r a b => (i2 hn r a b).imp id (List.mem_cons_of_mem _)⟩
    · rename_i hx
      rw [if_neg hx]
      have hx' : x.stream = none := by simpa using hx
      cases hw : x.wanted with
      | some w =>
        rw [hw] at ha
        simp only at ha ⊢
        by_cases hwt : w ∈ taken
        · rw [if_pos hwt] at ha ⊢
          exact keep hx' ha (fun w' h => by rw [hw] at h; cases h; exact hwt) (fun hn => by rw [hw] at hn; cases hn)
        · rw [if_neg hwt] at ha ⊢
          exact new w _ rfl ha
      | none =>
        rw [hw] at ha
        simp only at ha ⊢
        cases hf : findFree taken 32768 base with
        | none =>
          rw [hf] at ha
          simp only at ha ⊢
          refine keep hx' ha (fun w' h => by rw [hw] at h; cases h) (fun _ r h1 h2 => ?_)
          exact findFree_none (by omega) hf r (by omega) h2 (by omega)
        | some p =>
          rw [hf] at ha
          simp only at ha ⊢
          exact new p _ rfl ha

/-- **C36** (progress). After a timeout a channel is without a stream id only if the id it asked for is in use or awaits a reset or,
when it did not ask, all 32768 ids of the parity are. -/
theorem C36_progress (h : Handler) (client : Bool) (a : Alloc) (ha : a ∈ (h.timeout client).1.allocs) (hs : a.stream = none) :
    (∀ w, a.wanted = some w → w ∈ (h.timeout client).1.live ∨ w ∈ h.held) ∧
    (a.wanted = none → ∀ r, r % 2 = (if client then 0 else 1) → r ≤ 65535 → r ∈ (h.timeout client).1.live ∨ r ∈ h.held) := by
  have f1 : ∀ a : Alloc, (if a.stream.isSome then { a with config := false } else a).stream = a.stream := by intro a; split <;> rfl
  have f3 : ∀ a : Alloc, (if a.stream.isSome then { a with config := false } else a).wanted = a.wanted := by intro a; split <;> rfl
  have hlive : (h.timeout client).1.live = (h.doAllocations client).live := by
    show ((h.doAllocations client).allocs.map _).filterMap _ = _
    rw [filterMap_map_stream f1]
    rfl
  rw [hlive]
  obtain ⟨b, hb, rfl⟩ := List.mem_map.1 (show a ∈ (h.doAllocations client).allocs.map _ from ha)
  rw [f1] at hs
  rw [f3]
  unfold Handler.doAllocations at hb ⊢
  by_cases hn : h.needAllocation = true
  · rw [if_pos hn] at hb ⊢
    have old : ∀ r, r ∈ h.live → r ∈ (allocate (if client then 0 else 1) (h.live ++ h.held) h.allocs).filterMap (·.stream) := by
      intro r hr
      obtain ⟨x, hx, hxs⟩ := List.mem_filterMap.1 hr
      obtain ⟨k, hk, rfl⟩ := List.mem_iff_getElem.1 hx
      have hk' : k < (allocate (if client then 0 else 1) (h.live ++ h.held) h.allocs).length := by rw [allocate_length]; exact hk
      have g := allocate_given _ (base_le client) _ (h.live ++ h.held) k _ _ (List.getElem?_eq_getElem hk) (List.getElem?_eq_getElem hk')
      refine List.mem_filterMap.2 ⟨_, List.getElem_mem hk', ?_⟩
      cases g with
      | same e => rw [e]; exact hxs
      | wanted w h0 => rw [h0] at hxs; cases hxs
      | auto p h0 => rw [h0] at hxs; cases hxs
    obtain ⟨i1, i2⟩ := allocate_stuck _ (base_le client) _ _ b hb hs
    have fix : ∀ r, (r ∈ h.live ++ h.held ∨ r ∈ (allocate (if client then 0 else 1) (h.live ++ h.held) h.allocs).filterMap (·.stream)) →
        r ∈ (allocate (if client then 0 else 1) (h.live ++ h.held) h.allocs).filterMap (·.stream) ∨ r ∈ h.held := by
      rintro r (hr | hr)
      · rcases List.mem_append.1 hr with hr | hr
        · exact .inl (old r hr)
        · exact .inr hr
      · exact .inl hr
    exact ⟨fun w hw => fix w (i1 w hw), fun hn r h1 h2 => fix r (i2 hn r h1 h2)⟩
  · rw [if_neg hn] at hb ⊢
    have hb' : ¬ (b.stream.isNone && (match b.wanted with | none => true | some w => !decide (w ∈ h.held))) = true :=
      fun hc => hn (List.any_eq_true.2 ⟨b, hb, hc⟩)
    rw [hs] at hb'
    constructor
    · intro w hw
      rw [hw] at hb'
      exact .inr (by simpa using hb')
    · intro hw
      rw [hw] at hb'
      simp at hb'

/-- **C36** (resets). Each close with a reset outstanding holds the id back once more, and each completed reset releases it once; nothing else but the
loss of the association touches what is held back. -/
theorem C36_held (h : Handler) (s t : Nat) :
    (∀ id, h.byId id = some s → (h.remove id true).held.count s = h.held.count s + 1) ∧
    (h.resetComplete s).held.count s = h.held.count s - 1 ∧
    (t ≠ s → (h.resetComplete s).held.count t = h.held.count t) ∧
    (∀ op h', h.step op = .ok h' → (∀ s', op ≠ .resetComplete s') → op ≠ .lost → h.held.count t ≤ h'.held.count t) := by
  refine ⟨?_, ?_, ?_, ?_⟩
  · intro id hid
    unfold Handler.remove
    rw [hid]
    simp [List.count_append]
  · unfold Handler.resetComplete
    simp
  · intro hne
    unfold Handler.resetComplete
    simp only
    rw [List.count_erase_of_ne hne]
  · intro op h' hs hr hl
    cases op with
    | new w =>
      simp only [Handler.step, Handler.newChannel] at hs
      split at hs
      · cases hs
      · simp only [bind_def, bind_ok, pure_def, Res.ok.injEq] at hs
        subst hs; exact Nat.le_refl _
    | confirm id =>
      simp only [Handler.step, Handler.confirm] at hs
      split at hs
      · simp only [Res.ok.injEq] at hs; subst hs; exact Nat.le_refl _
      · cases hs
    | timeout client =>
      simp only [Handler.step, Res.ok.injEq] at hs
      subst hs
      simp only [Handler.timeout, Handler.openChannels, Handler.doAllocations]
      split <;> exact Nat.le_refl _
    | opened s =>
      simp only [Handler.step, Res.ok.injEq, Handler.ensure] at hs
      split at hs <;> subst hs <;> exact Nat.le_refl _
    | closed s pending =>
      simp only [Handler.step] at hs
      split at hs
      · simp only [Res.ok.injEq, Handler.remove] at hs
        subst hs
        split
        · split
          · rw [List.count_append]; omega
          · exact Nat.le_refl _
        · exact Nat.le_refl _
      · simp only [Res.ok.injEq] at hs; subst hs; exact Nat.le_refl _
    | resetComplete s => exact absurd rfl (hr s)
    | lost => exact absurd rfl hl

/-- **C36** (opening). A timeout opens exactly the confirmed channels that have an id after it, each with its own id, and
they are not opened again: they are no longer confirmed. -/
theorem C36_opens (h : Handler) (client : Bool) :
    (∀ id s, (id, s) ∈ (h.timeout client).2 ↔ ∃ a ∈ (h.doAllocations client).allocs, a.id = id ∧ a.config = true ∧ a.stream = some s) ∧
    ∀ a ∈ (h.timeout client).1.allocs, a.stream.isSome → a.config = false := by
  constructor
  · intro id s
    simp only [Handler.timeout, Handler.openChannels, List.mem_filterMap]
    constructor
    · rintro ⟨a, ha, hm⟩
      refine ⟨a, ha, ?_⟩
      split at hm
      · rename_i s' hs'
        split at hm
        · rename_i hc; cases hm; exact ⟨rfl, hc, hs'⟩
        · cases hm
      · cases hm
    · rintro ⟨a, ha, rfl, hc, hs⟩
      refine ⟨a, ha, ?_⟩
      rw [hs]
      simp [hc]
  · intro a ha hs
    obtain ⟨b, hb, rfl⟩ := List.mem_map.1 (show a ∈ (h.doAllocations client).allocs.map _ from ha)
    split
    · rfl
    · rename_i hn
      rw [if_neg hn] at hs
      exact absurd hs hn

/-! Violations -/

theorem run_opened (ids : List Nat) (h : Handler) (hnd : (h.live ++ ids).Nodup) :
    ∃ h', h.run (ids.map .opened) = .ok h' ∧ h'.live = h.live ++ ids ∧ h'.held = h.held ∧
      ((∀ a ∈ h.allocs, a.stream.isSome) → ∀ a ∈ h'.allocs, a.stream.isSome) := by
  induction ids generalizing h with
  | nil => exact ⟨h, rfl, by simp, rfl, fun x => x⟩
  | cons s ids ih =>
    have hn : s ∉ h.live := by
      rw [List.nodup_append] at hnd
      exact fun hc => hnd.2.2 s hc s (by simp) rfl
    have he : h.ensure s = { h with allocs := h.allocs ++ [{ id := h.nextId, stream := some s, wanted := none, config := false }], nextId := h.nextId + 1 } := by
      unfold Handler.ensure
      rw [if_neg]
      intro hc
      obtain ⟨a, ha, hs⟩ := List.any_eq_true.1 hc
      exact hn (List.mem_filterMap.2 ⟨a, ha, by simpa using hs⟩)
    have hl : (h.ensure s).live = h.live ++ [s] := by
      rw [he]
      show (h.allocs ++ _).filterMap _ = _
      rw [List.filterMap_append]
      rfl
    obtain ⟨h', r1, r2, r3, r4⟩ := ih (h.ensure s) (by rw [hl, List.append_assoc]; exact hnd)
    refine ⟨h', ?_, ?_, ?_, ?_⟩
    · simp only [List.map_cons, Handler.run, Handler.step, bind_def, bind_ok]
      exact r1
    · rw [r2, hl, List.append_assoc]; rfl
    · rw [r3, he]
    · intro hall
      refine r4 (fun a ha => ?_)
      rw [he] at ha
      rcases List.mem_append.1 ha with ha | ha
      · exact hall a ha
      · simp only [List.mem_singleton] at ha; subst ha; rfl

/-- The first `n` odd ids. -/
theorem odd_ids (n : Nat) : ∃ ids : List Nat, ids.Nodup ∧ ∀ r, r ∈ ids ↔ r % 2 = 1 ∧ r < 2 * n + 1 := by
  refine ⟨(List.range n).map (fun i => 2 * i + 1), (List.nodup_range).map (fun a b (h : 2 * a + 1 = 2 * b + 1) => by omega), ?_⟩
  intro r
  simp only [List.mem_map, List.mem_range]
  constructor
  · rintro ⟨i, hi, rfl⟩; omega
  · rintro ⟨h1, h2⟩; exact ⟨r / 2, by omega, by omega⟩

/-- **Violation**: the id 65535, which RFC 8832 forbids, is given out: once a peer has opened the other odd ids. -/
theorem C36_violation_65535 : ∃ h, Reachable h ∧ 65535 ∈ (h.timeout false).1.live := by
  obtain ⟨ids, hnd, hids⟩ := odd_ids 32767
  obtain ⟨h, r1, r2, r3, r4⟩ := run_opened ids Handler.empty (by simpa [Handler.empty, Handler.live] using hnd)
  have r2' : h.live = ids := by rw [r2]; rfl
  have hall := r4 (fun a ha => by cases ha)
  let g : Handler := { h with allocs := h.allocs ++ [{ id := h.nextId, stream := none, wanted := none, config := false }], nextId := h.nextId + 1 }
  have hg : h.newChannel none = .ok (g, h.nextId) := by
    unfold Handler.newChannel
    rw [if_neg (by simp)]
  have runapp : ∀ (ops : List Op) (x : Handler) (op : Op), Handler.run x (ops ++ [op]) = (Handler.run x ops).bind (fun y => y.step op) := by
    intro ops
    induction ops with
    | nil =>
      intro x op
      simp only [List.nil_append, Handler.run, bind_ok]
      cases x.step op <;> rfl
    | cons o ops ih =>
      intro x op
      simp only [List.cons_append, Handler.run]
      cases x.step o with
      | ok y => simp only [bind_def, bind_ok]; exact ih y op
      | err e => rfl
      | panic => rfl
  refine ⟨g, ⟨ids.map .opened ++ [.new none], ?_⟩, ?_⟩
  · rw [runapp, r1, bind_ok]
    simp only [Handler.step, hg, bind_def, bind_ok, pure_def]
  · by_contra hc
    have hlast : ∃ a ∈ (g.timeout false).1.allocs, a.stream = none ∧ a.wanted = none ∨ 65535 ∈ (g.timeout false).1.live := by
      have hlen : h.allocs.length < (g.timeout false).1.allocs.length := by
        simp only [Handler.timeout, Handler.openChannels, Handler.doAllocations, List.length_map]
        split
        · simp only [allocate_length, g, List.length_append, List.length_singleton]; omega
        · simp only [g, List.length_append, List.length_singleton]; omega
      have hk : g.allocs[h.allocs.length]? = some { id := h.nextId, stream := none, wanted := none, config := false } := by
        simp [g]
      have hk' := List.getElem?_eq_getElem hlen
      obtain ⟨-, -, gi⟩ := C36_allocation g false _ _ _ hk hk'
      have hwant : (g.timeout false).1.allocs[h.allocs.length].wanted = none := by
        have : ((g.timeout false).1.allocs.map (·.wanted))[h.allocs.length]? = (g.allocs.map (·.wanted))[h.allocs.length]? := by
          have f3 : ∀ a : Alloc, (if a.stream.isSome then { a with config := false } else a).wanted = a.wanted := by intro a; split <;> rfl
          have e : (g.timeout false).1.allocs.map (·.wanted) = (g.doAllocations false).allocs.map (·.wanted) := by
            show ((g.doAllocations false).allocs.map _).map _ = _
            rw [List.map_map]
            congr 1
            funext a
            exact f3 a
          rw [e]
          unfold Handler.doAllocations
          split
          · have hl2 : h.allocs.length < (allocate (if false = true then 0 else 1) (g.live ++ g.held) g.allocs).length := by
              rw [allocate_length]; simp [g]
            have h2 := List.getElem?_eq_getElem hl2
            simp only [List.getElem?_map]
            rw [h2, hk]
            simp only [Option.map_some]
            cases allocate_given _ (by simp) _ _ _ _ _ hk h2 with
            | same e => rw [e]
            | wanted w _ _ e => rw [e]
            | auto p _ _ e => rw [e]
          · rfl
        simp only [List.getElem?_map, hk, hk', Option.map_some, Option.some.injEq] at this
        exact this
      cases hst : (g.timeout false).1.allocs[h.allocs.length].stream with
      | none => exact ⟨_, List.getElem_mem hlen, .inl ⟨hst, hwant⟩⟩
      | some s =>
        obtain ⟨n1, -, n3⟩ := gi s rfl hst
        rcases n3 with n3 | ⟨-, n4, n5⟩
        · cases n3
        · have hgl : g.live = ids := by
            show (h.allocs ++ _).filterMap _ = _
            rw [List.filterMap_append, ← r2']
            show h.live ++ [] = h.live
            rw [List.append_nil]
          rw [hgl, hids] at n1
          have : s = 65535 := by
            simp only [Bool.false_eq_true, if_false] at n4
            omega
          subst this
          exact ⟨_, List.getElem_mem hlen, .inr (List.mem_filterMap.2 ⟨_, List.getElem_mem hlen, hst⟩)⟩
    obtain ⟨a, ha, ⟨h1, h2⟩ | h1⟩ := hlast
    · have := (C36_progress g false a ha h1).2 h2 65535 (by simp) (by omega)
      rcases this with hh | hh
      · exact hc hh
      · have : g.held = [] := by show h.held = []; rw [r3]; rfl
        rw [this] at hh; cases hh
    · exact hc h1

/-- **Violation**: a channel with a negotiated id loses it to one created before without; it is never opened, and
the table wants a timeout at once, for ever. -/
theorem C36_violation_starved : ∃ h, Reachable h ∧ (∃ a ∈ h.allocs, a.config = true ∧ a.wanted = some 0 ∧ a.stream = none) ∧
    h.wantsTimeout = true ∧ (h.timeout true).1 = h ∧ (h.timeout true).2 = [] :=
  ⟨{ allocs := [{ id := 0, stream := some 0, wanted := none, config := false }, { id := 1, stream := none, wanted := some 0, config := true }],
     nextId := 2, held := [] },
   ⟨[.new none, .new (some 0), .confirm 0, .confirm 1, .timeout true], by decide +kernel⟩, by decide +kernel, by decide +kernel, by decide +kernel,
   by decide +kernel⟩

/-- **Violation**: asking for an id the remote has opened panics. -/
theorem C36_violation_panic : Handler.empty.run [.opened 4, .new (some 4)] = .panic := by decide +kernel

/-- A run with everything in it. -/
example : Handler.empty.run [.new none, .new (some 7), .confirm 0, .opened 0, .timeout true, .closed 2 true, .new none, .timeout true,
    .resetComplete 2, .new none, .timeout true] =
    .ok { allocs := [{ id := 1, stream := some 7, wanted := some 7, config := false }, { id := 2, stream := some 0, wanted := none, config := false },
            { id := 3, stream := some 4, wanted := none, config := false }, { id := 4, stream := some 2, wanted := none, config := false }],
          nextId := 5, held := [] } := by decide +kernel

end Str0m.Channel
