import Verif.Proofs.StunRound
import Verif.Proofs.StunCover
/-
  C27 STUN round trip, C28 totality, C29 address codec, C54 checking a parsed message,
  C55 what the integrity check covers, C56 two agents accept each other's messages.

  Everything is quantified over the HMAC, the CRC and the UTF-8 check (`Env`).
-/
namespace Str0m.Stun
open Res

/-! ### C27: round trip -/

/-- A message an application can build with the builder: known method and class (the builder
offers no other), a 12 byte transaction id, field values of their Rust types, within the
lengths and ranges the encoder and the receiver allow, and with the attributes a Binding
request/reply must have. -/
structure Sendable (env : Env) (m : Msg) (password : Option (List Byte)) : Prop where
  method : m.method ≠ .unknown
  cls : m.cls ≠ .unknown
  transId : m.transId.length = 12
  typed : m.attrs.Typed env
  short : m.attrs.Short
  range : m.attrs.InRange
  complete : m.Complete password

/-- C27 (authenticated). Whatever is serialised with a password parses back, with the same
method, class, transaction id and attributes; the receiver's integrity check with the same
password succeeds; and the FINGERPRINT is the CRC of everything before it xor 0x5354554e.
(`hattr`: at least one attribute besides the integrity and fingerprint; `hsize`: the STUN length
field has 16 bits.) -/
theorem C27_round_trip {env : Env} {m : Msg} {pw : List Byte} {cap : Nat} {out : List Byte}
    (hm : Sendable env m (some pw)) (hattr : m.attrs.onWire ≠ {})
    (hsize : out.length < 2^16 + 20)
    (h : toBytes env m (some pw) cap = .ok out) :
    out.length ≤ cap ∧
    ∃ r, parse env out = .ok r ∧ r.method = m.method ∧ r.cls = m.cls ∧ r.transId = m.transId ∧
      { r.attrs with messageIntegrity := none, fingerprint := none } = m.attrs.onWire ∧
      verify env r pw = .ok true ∧
      r.attrs.fingerprint = some (env.crc (out.take (out.length - 8)) ^^^ 0x5354554e) := by
  rw [toBytes_eq hm.typed hm.short hm.transId hm.cls hm.method] at h
  split at h
  · rename_i hcap
    cases h
    refine ⟨hcap, received env m (some pw), ?_, rfl, rfl, rfl, rfl, ?_, ?_⟩
    · exact parse_wire hm.typed hm.short hm.range hm.transId hm.cls hm.method hm.complete hsize
    · apply verify_received hm.transId
      by_contra hc
      apply hattr
      have h0 : paddedLen m.attrs = 0 := by omega
      clear hm hsize hcap hattr
      obtain ⟨method, cls, tid, a, _, _⟩ := m
      obtain ⟨x1, x2, x3, x4, x5, x6, x7, x8, x9, x10, x11, x12, x13, x14, x15, x16, x17, x18⟩ := a
      simp only [paddedLen] at h0
      cases x1 with
      | some v => simp [optLen] at h0
      | none =>
      cases x3 with
      | some v => simp [optLen] at h0
      | none =>
      cases x4 with
      | some v => simp [optLen] at h0
      | none =>
      cases x5 with
      | some v => simp [optLen] at h0
      | none =>
      cases x6 with
      | some v => simp [optLen] at h0
      | none =>
      cases x7 with
      | some v => simp [optLen] at h0
      | none =>
      cases x8 with
      | some v => simp [optLen] at h0
      | none =>
      cases x9 with
      | some v => simp [optLen] at h0
      | none =>
      cases x10 with
      | some v => simp [optLen] at h0
      | none =>
      cases x11 with
      | some v => simp [optLen] at h0
      | none =>
      cases x14 with
      | some v => simp [optLen] at h0
      | none =>
      cases x15 with
      | true => simp [optLen] at h0
      | false =>
      cases x16 with
      | some v => simp [optLen] at h0
      | none =>
      cases x17 with
      | some v => simp [optLen] at h0
      | none => rfl
    · have hl : (wire env m (some pw)).length - 8 = (front env m (some pw)).length := by
        rw [wire_length _ hm.typed hm.transId, front_length _ hm.typed hm.transId]; omega
      rw [hl]
      unfold wire
      rw [List.take_left]
      rfl
  · cases h

/-- C27 (without a password). -/
theorem C27_round_trip_plain {env : Env} {m : Msg} {cap : Nat} {out : List Byte}
    (hm : Sendable env m none) (hsize : out.length < 2^16 + 20)
    (h : toBytes env m none cap = .ok out) :
    out.length ≤ cap ∧
    ∃ r, parse env out = .ok r ∧ r.method = m.method ∧ r.cls = m.cls ∧ r.transId = m.transId ∧
      { r.attrs with fingerprint := none } = m.attrs.onWire ∧
      r.attrs.fingerprint = some (env.crc (out.take (out.length - 8)) ^^^ 0x5354554e) := by
  rw [toBytes_eq hm.typed hm.short hm.transId hm.cls hm.method] at h
  split at h
  · rename_i hcap
    cases h
    refine ⟨hcap, received env m none, ?_, rfl, rfl, rfl, rfl, ?_⟩
    · exact parse_wire hm.typed hm.short hm.range hm.transId hm.cls hm.method hm.complete hsize
    · have hl : (wire env m none).length - 8 = (front env m none).length := by
        rw [wire_length _ hm.typed hm.transId, front_length _ hm.typed hm.transId]; omega
      rw [hl]
      unfold wire
      rw [List.take_left]
      rfl
  · cases h

/-- C27 (no spurious failure). Serialising a sendable message fails only if the buffer is too
small: there is a length that suffices, and from it on the bytes do not depend on the buffer. -/
theorem C27_serialises {env : Env} {m : Msg} {password : Option (List Byte)}
    (hm : Sendable env m password) :
    ∃ out : List Byte, ∀ cap, toBytes env m password cap =
      if out.length ≤ cap then .ok out else .err () :=
  ⟨wire env m password, fun _ => toBytes_eq hm.typed hm.short hm.transId hm.cls hm.method⟩

/-- A concrete environment, for the examples. -/
def toyEnv : Env where
  hmac k m := List.replicate 20 (u8 (k.length + m.length))
  hmac_len := by simp
  crc m := m.length % 2^32
  crc_lt m := Nat.mod_lt _ (by decide)
  utf8 := fun _ => true

/-- A request as the agent sends it. -/
def sampleRequest : Msg :=
  bindingRequest [103, 58, 104] [1,2,3,4,5,6,7,8,9,10,11,12] true 0x0123456789abcdef 1853824767 true

example : Sendable toyEnv sampleRequest (some [1, 2, 3]) ∧ sampleRequest.attrs.onWire ≠ {} := by
  refine ⟨⟨by decide, by decide, rfl, ?_, ?_, ?_, ?_⟩, by decide⟩
  · constructor <;> simp [sampleRequest, bindingRequest, toyEnv]
  · constructor <;> simp [sampleRequest, bindingRequest]
  · constructor <;> simp [sampleRequest, bindingRequest]
  · constructor <;> simp [sampleRequest, bindingRequest]
    decide

/-! ### C28: totality -/

/-- C28. Parsing any datagram returns a message or an error: no index is out of bounds, no
subtraction underflows, and (the model being a total function) the attribute loop ends. -/
theorem C28_parse_total (env : Env) (buf : List Byte) : (parse env buf).NoPanic :=
  parse_noPanic env buf

/-- C28 (what is accepted is a STUN message): at least 20 bytes, a multiple of four, the magic
cookie, a 12 byte transaction id, a length field that matches the datagram. -/
theorem C28_parse_shape {env : Env} {buf : List Byte} {m : Msg} (h : parse env buf = .ok m) :
    20 ≤ buf.length ∧ buf.length % 4 = 0 ∧ (buf.drop 4).take 4 = magic ∧
    m.transId = (buf.drop 8).take 12 ∧ m.transId.length = 12 := by
  obtain ⟨h20, s, hm, hg, ht, -⟩ := parse_ok h
  refine ⟨h20, hm, hg, ht, ?_⟩
  rw [ht]; simp; omega

/-! ### C29: addresses -/

/-- C29. The address decoded from an XOR-MAPPED/PEER/RELAYED-ADDRESS attribute is the one that
was encoded, whatever follows it in the buffer. -/
theorem C29_xor_address {addr : Addr} {tid rest : List Byte} (ha : addr.Valid)
    (ht : tid.length = 12) : decodeXor (encodeXor addr tid ++ rest) tid = .ok addr :=
  decodeXor_encodeXor ha ht

/-- C29 (wire format of RFC 8489 section 14.2): 8 or 20 bytes, a zero byte, the family. -/
theorem C29_xor_format {addr : Addr} {tid : List Byte} (ha : addr.Valid) (ht : tid.length = 12) :
    (encodeXor addr tid).length = (match addr with | .v4 .. => 8 | .v6 .. => 20) ∧
    (encodeXor addr tid).take 2 = (match addr with | .v4 .. => [0, 1] | .v6 .. => [0, 2]) := by
  refine ⟨?_, ?_⟩
  · rw [encodeXor_length ha ht]; cases addr <;> rfl
  · cases addr <;> rfl

example : (Addr.v4 192 168 0 1 3478).Valid ∧
    encodeXor (.v4 192 168 0 1 3478) (List.replicate 12 7) = [0, 1, 44, 132, 225, 186, 164, 67] := by
  refine ⟨by show 3478 < 2^16; decide, by decide⟩

/-! ### C54: checking a parsed message never panics — false -/

/-- C54, the part that holds: a message parsed as a Binding request or success reply, or any
message whose MESSAGE-INTEGRITY is not its first attribute (then the covered part is not empty),
is checked without a panic. -/
theorem C54_verify_partial {env : Env} {buf : List Byte} {m : Msg} {pw : List Byte}
    (h : parse env buf = .ok m)
    (hcase : (m.method = .binding ∧ (m.cls = .request ∨ m.cls = .success)) ∨
      m.attrs.messageIntegrity = none ∨ m.integrity ≠ []) :
    (verify env m pw).NoPanic := by
  obtain ⟨h20, s, hm, hg, ht, -, -, hl, ha, hi, -, hsx, hrx⟩ := parse_ok h
  have key : m.attrs.messageIntegrity = none ∨ s.miOff > 0 := by
    rcases hcase with ⟨hb, hr | hs⟩ | hn | hne
    · exact Or.inr (hrx hb hr).1
    · exact Or.inr (hsx hb hs).1
    · exact Or.inl hn
    · right
      by_contra hc
      rw [if_neg hc] at hi
      exact hne hi
  unfold verify
  rcases key with hn | hpos
  · rw [hn]; trivial
  · rw [if_pos hpos] at hi
    have hlen : 20 ≤ m.integrity.length := by rw [hi]; simp; omega
    split
    · rw [upto_of_le (by omega), from_of_le (by omega)]; trivial
    · trivial

/-- C54, for the agent's check: no request, indication, success response or TURN message makes
`accepts_message` panic (requests are only outstanding once the remote credentials are known). -/
theorem C54_accept_partial {env : Env} {buf : List Byte} {m : Msg} {loc : Creds}
    {remote : Option Creds} {outstanding : List Byte → Bool}
    (h : parse env buf = .ok m) (hf : ¬ (m.method = .binding ∧ m.cls = .failure))
    (hrem : remote = none → outstanding m.transId = false) :
    (acceptsMessage env loc remote outstanding m).NoPanic := by
  unfold acceptsMessage
  split
  · rename_i hc
    obtain ⟨-, s, -, -, -, -, -, -, -, -, -, -, hrx⟩ := parse_ok h
    have hsu := (hrx hc.1 hc.2).2.1
    cases hs : splitUsername m.attrs with
    | none => rw [hs] at hsu; cases hsu
    | some lr =>
      simp only
      refine ite_noPanic trivial (ite_noPanic trivial ?_)
      exact C54_verify_partial h (Or.inl ⟨hc.1, Or.inl hc.2⟩)
  · split
    · rename_i hc
      have hs : m.cls = .success := by
        rcases hc.2 with h | h
        · exact h
        · exact absurd ⟨hc.1, h⟩ hf
      split
      · rename_i ho
        cases remote with
        | none => rw [hrem rfl] at ho; cases ho
        | some c => exact C54_verify_partial h (Or.inl ⟨hc.1, Or.inr hs⟩)
      · trivial
    · trivial

/-- C54 is false as stated: a 52 byte Binding error response whose first attribute is
MESSAGE-INTEGRITY parses, and the integrity check — and with it the agent's `accepts_message`,
when the transaction id is that of an outstanding request — panics, for every password and
every HMAC. The covered part is then the empty slice, of which `[..2]` is taken. -/
theorem C54_violation (env : Env) (pw tid : List Byte) (ht : tid.length = 12) :
    ∃ buf m, buf.length = 52 ∧ parse env buf = .ok m ∧ m.transId = tid ∧
      (∀ pw', verify env m pw' = .panic) ∧
      (∀ loc remote outstanding, outstanding tid = true →
        acceptsMessage env loc (some remote) outstanding m = .panic) := by
  let m : Msg := { method := .binding, cls := .failure, transId := tid, attrs := {} }
  have hw : m.attrs.Typed env := by constructor <;> simp [m]
  have hs : m.attrs.Short := by constructor <;> simp [m]
  have hr : m.attrs.InRange := by constructor <;> simp [m]
  have hc : m.Complete (some pw) := by constructor <;> simp [m]
  have hlen : (wire env m (some pw)).length = 52 := by
    rw [wire_length (some pw) hw ht]; simp [m, paddedLen, optLen]
  have hv : ∀ pw', verify env (received env m (some pw)) pw' = .panic := by
    intro pw'
    simp [verify, received, m, paddedLen, optLen, Res.upto]
  refine ⟨wire env m (some pw), received env m (some pw), hlen,
    parse_wire hw hs hr ht (by simp [m]) (by simp [m]) hc (by omega), rfl, hv, ?_⟩
  intro loc remote outstanding ho
  have e : acceptsMessage env loc (some remote) outstanding (received env m (some pw)) =
      verify env (received env m (some pw)) remote.pass := by
    unfold acceptsMessage
    rw [if_neg (by simp [received, m]), if_pos (by simp [received, m])]
    rw [if_pos (by simpa [received, m] using ho)]
  rw [e, hv]

/-! ### C55: only authenticated content is used -/

/-- C55. Two datagrams that agree up to and including the MESSAGE-INTEGRITY attribute of the
first (the length field aside) and that both parse, parse to the same method, class, transaction
id and attributes, fingerprint excepted: nothing behind the attribute, which its HMAC does not
cover, has any influence. `m₁.integrity` is the covered part; the attribute takes 24 bytes. -/
theorem C55_tail_irrelevant {env : Env} {b₁ b₂ : List Byte} {m₁ m₂ : Msg}
    (h₁ : parse env b₁ = .ok m₁) (h₂ : parse env b₂ = .ok m₂)
    (hmi : m₁.integrity ≠ [])
    (hhead : b₁.take 2 = b₂.take 2)
    (hpre : (b₁.take (m₁.integrity.length + 24)).drop 4 = (b₂.take (m₁.integrity.length + 24)).drop 4)
    (hlen : m₁.integrity.length + 24 ≤ b₂.length) :
    m₂.method = m₁.method ∧ m₂.cls = m₁.cls ∧ m₂.transId = m₁.transId ∧
    { m₂.attrs with fingerprint := none } = { m₁.attrs with fingerprint := none } ∧
    m₂.integrityLen = m₁.integrityLen ∧ m₂.integrity.length = m₁.integrity.length := by
  obtain ⟨h20, s, hm, hg, ht, hme, hcl, hl, ha, hi, hil, -, -⟩ := parse_ok h₁
  obtain ⟨h20', s', hm', hg', ht', hme', hcl', hl', ha', hi', hil', -, -⟩ := parse_ok h₂
  have hpos : s.miOff > 0 := by
    by_contra hc; rw [if_neg hc] at hi; exact hmi hi
  have hfound := parseLoop_miOff hl
  simp only [List.length_drop] at hfound
  have hmo : s.miOff + 24 ≤ b₁.length - 20 := by
    rcases hfound with h | h
    · have : s.miOff = 0 := h
      omega
    · omega
  have hilen : m₁.integrity.length = s.miOff + 20 := by
    rw [hi, if_pos hpos]; simp; omega
  rw [hilen] at hpre hlen
  have hig : s.ignoreRest = true := by
    by_contra hc
    have := (parseLoop_no_mi (by simpa using hc) hl).1
    simp only at this
    omega
  have hg01 : ∀ i (hi : i < 2), b₁[i] = b₂[i] := by
    intro i hi
    have h := congrArg (fun l : List Byte => l[i]?) hhead
    simp only [List.getElem?_take, hi, if_true] at h
    rw [List.getElem?_eq_getElem (by omega), List.getElem?_eq_getElem (by omega)] at h
    simpa using h
  have hbody : ∀ a b, 4 ≤ a → a + b ≤ s.miOff + 20 + 24 →
      (b₁.drop a).take b = (b₂.drop a).take b := by
    intro a b h4 hab
    have h := congrArg (fun l : List Byte => (l.drop (a - 4)).take b) hpre
    simp only [List.drop_drop, show 4 + (a - 4) = a by omega] at h
    rw [List.drop_take, List.drop_take, List.take_take, List.take_take,
      show min b (s.miOff + 20 + 24 - a) = b by omega] at h
    exact h
  have htid : m₂.transId = m₁.transId := by rw [ht, ht', hbody 8 12 (by omega) (by omega)]
  rw [htid] at hl'
  have hagree := parseLoop_agree (b1 := b₁.drop 20) (b2 := b₂.drop 20) rfl hig hl hl'
    (hbody 20 _ (by omega) (by omega)) (by simp; omega)
  have hmoff := (noFp_ignore hagree).2
  refine ⟨?_, ?_, htid, ?_, ?_, ?_⟩
  · rw [hme, hme', hg01 0 (by omega), hg01 1 (by omega)]
  · rw [hcl, hcl', hg01 0 (by omega), hg01 1 (by omega)]
  · rw [ha, ha']
    exact congrArg PState.attrs hagree
  · rw [hil, hil', hmoff]
  · rw [hi', hmoff, if_pos hpos, hilen]; simp; omega

/-- C55 (authenticity). If the agent accepts a datagram, then it is a Binding request whose
username starts with the agent's own fragment, or a Binding response to an outstanding request;
and somewhere behind the header it contains a MESSAGE-INTEGRITY attribute whose value is the HMAC,
under the agent's own password (requests) or the peer's (responses), of everything before it,
with the length field set to end at this attribute. -/
theorem C55_accept_authentic {env : Env} {buf : List Byte} {m : Msg} {loc : Creds}
    {remote : Option Creds} {outstanding : List Byte → Bool}
    (hsz : buf.length < 2^16)
    (hp : parse env buf = .ok m)
    (ha : acceptsMessage env loc remote outstanding m = .ok true) :
    m.method = .binding ∧
    ∃ key off, 20 < off ∧ off + 24 ≤ buf.length ∧
      (buf.drop off).take 24 = be16 0x0008 ++ be16 20 ++
        env.hmac key (buf.take 2 ++ be16 (off - 20 + 24) ++ (buf.take off).drop 4) ∧
      ((m.cls = .request ∧ key = loc.pass ∧
          ∃ r, m.attrs.username = some (loc.ufrag ++ [58] ++ r) ∧
            ∀ c ∈ remote, r = c.ufrag) ∨
       ((m.cls = .success ∨ m.cls = .failure) ∧ outstanding m.transId = true ∧
          ∃ c ∈ remote, key = c.pass)) := by
  obtain ⟨h20, s, hm, hg, ht, hme, hcl, hl, hat, hi, hil, -, -⟩ := parse_ok hp
  -- what a successful `verify` means
  have hver : ∀ key, verify env m key = .ok true →
      ∃ off, 20 < off ∧ off + 24 ≤ buf.length ∧
      (buf.drop off).take 24 = be16 0x0008 ++ be16 20 ++
        env.hmac key (buf.take 2 ++ be16 (off - 20 + 24) ++ (buf.take off).drop 4) := by
    intro key hv
    have hig : s.ignoreRest = true := by
      by_contra hc
      have := (parseLoop_no_mi (by simpa using hc) hl).2
      unfold verify at hv
      rw [hat, this] at hv
      simp at hv
    obtain ⟨v, hv1, hv2, hv3⟩ := parseLoop_mi_bytes rfl hig hl
    have hf := parseLoop_found rfl hig hl
    simp only [List.length_drop] at hf
    have hpos : s.miOff > 0 := by
      by_contra hc
      unfold verify at hv
      rw [hat, hv1, hi, if_neg hc] at hv
      simp [Res.upto] at hv
    refine ⟨s.miOff + 20, by omega, by omega, ?_⟩
    have hd : (buf.drop (s.miOff + 20)).take 24 = be16 MESSAGE_INTEGRITY ++ be16 20 ++ v := by
      rw [Nat.sub_zero, List.drop_drop, Nat.add_comm] at hv3
      exact hv3
    rw [hd]
    unfold verify at hv
    rw [hat, hv1, hi, if_pos hpos, hil, if_pos hpos] at hv
    simp only [bind_def] at hv
    rw [upto_of_le (by simp; omega), from_of_le (by simp; omega)] at hv
    simp only [bind_ok, pure_def, Res.ok.injEq, decide_eq_true_eq] at hv
    rw [← hv, List.take_take, show min 2 (s.miOff + 20) = 2 by omega,
      Nat.mod_eq_of_lt (show s.miOff + 24 < 2^16 by omega), Nat.add_sub_cancel]
    rfl
  unfold acceptsMessage at ha
  rcases ite_ok ha with ⟨hc, ha⟩ | ⟨hc, ha⟩
  · refine ⟨hc.1, ?_⟩
    cases hsu : splitUsername m.attrs with
    | none => rw [hsu] at ha; cases ha
    | some lr =>
      obtain ⟨l, r⟩ := lr
      rw [hsu] at ha
      simp only at ha
      rcases ite_ok ha with ⟨-, ha⟩ | ⟨hl1, ha⟩
      · simp at ha
      rcases ite_ok ha with ⟨-, ha⟩ | ⟨hr1, ha⟩
      · simp at ha
      obtain ⟨off, ho1, ho2, ho3⟩ := hver _ ha
      refine ⟨loc.pass, off, ho1, ho2, ho3, Or.inl ⟨hc.2, rfl, r, ?_, ?_⟩⟩
      · unfold splitUsername at hsu
        cases hu : m.attrs.username with
        | none => rw [hu] at hsu; cases hsu
        | some v =>
          rw [hu] at hsu
          simp only at hsu
          split at hsu
          · rename_i hmem
            split at hsu
            · cases hsu
            · rename_i hidx
              simp only [Option.some.injEq, Prod.mk.injEq] at hsu
              obtain ⟨h1, h2⟩ := hsu
              have hl' : l = loc.ufrag := by simpa using hl1
              rw [← hl', ← h1, ← h2]
              congr 1
              have hget : v[v.idxOf 58]'(by omega) = 58 := List.getElem_idxOf (by omega)
              have hdr : v.drop (v.idxOf 58) = 58 :: v.drop (v.idxOf 58 + 1) := by
                rw [List.drop_eq_getElem_cons (by omega), hget]
              have := List.take_append_drop (v.idxOf 58) v
              rw [hdr] at this
              rw [List.append_assoc]
              exact this.symm
          · cases hsu
      · intro c hcr
        cases hrem : remote with
        | none => rw [hrem] at hcr; cases hcr
        | some c' =>
          rw [hrem] at hcr hr1
          cases hcr
          simpa using hr1
  · rcases ite_ok ha with ⟨hc2, ha⟩ | ⟨-, ha⟩
    · refine ⟨hc2.1, ?_⟩
      rcases ite_ok ha with ⟨ho, ha⟩ | ⟨-, ha⟩
      · cases hrem : remote with
        | none => rw [hrem] at ha; cases ha
        | some c =>
          rw [hrem] at ha
          simp only at ha
          obtain ⟨off, ho1, ho2, ho3⟩ := hver _ ha
          exact ⟨c.pass, off, ho1, ho2, ho3, Or.inr ⟨hc2.2, ho, c, rfl, rfl⟩⟩
      · simp at ha
    · simp at ha

/-! ### C56: two agents accept each other's messages -/

/-- ICE credentials as agents generate them: the fragment is not empty, has no colon, and the
two fragments together fit the 128 byte limit of the encoder. -/
def Compatible (env : Env) (a b : Creds) : Prop :=
  a.ufrag ≠ [] ∧ (58 : Byte) ∉ b.ufrag ∧ a.ufrag.length + b.ufrag.length ≤ 127 ∧
  env.utf8 (b.ufrag ++ [58] ++ a.ufrag) = true

theorem splitUsername_request {a b : Creds} (x : Attrs) (hx : x.username = some (requestUsername a b))
    (ha : a.ufrag ≠ []) (hb : (58 : Byte) ∉ b.ufrag) :
    splitUsername x = some (b.ufrag, a.ufrag) := by
  unfold splitUsername
  rw [hx]
  simp only [requestUsername, List.append_assoc]
  rw [if_pos (by simp)]
  have hidx : (b.ufrag ++ ([58] ++ a.ufrag)).idxOf 58 = b.ufrag.length := by
    rw [List.idxOf_append_of_notMem hb]; simp
  rw [hidx]
  have : 0 < a.ufrag.length := List.length_pos_iff.2 ha
  rw [if_neg (by simp; omega)]
  congr 2
  · exact List.take_left
  · rw [← List.append_assoc]; exact List.drop_left' (by simp)

/-- C56 (requests). A Binding request agent `a` sends to agent `b`, each knowing the other's
credentials, always serialises into a buffer of 208 bytes, and `b` parses and accepts it, whatever
the priority, tie-breaker, role and nomination flag, and reads back exactly these. -/
theorem C56_request_accepted {env : Env} {a b : Creds} {tid : List Byte} {ctl uc : Bool}
    {tb prio cap : Nat} (hcred : Compatible env a b) (ht : tid.length = 12) (htb : tb < 2^64)
    (hprio : prio < 2^32) (hcap : 208 ≤ cap) (outstanding : List Byte → Bool) :
    ∃ out m, toBytes env (bindingRequest (requestUsername a b) tid ctl tb prio uc) (some b.pass) cap
        = .ok out ∧ parse env out = .ok m ∧
      acceptsMessage env b (some a) outstanding m = .ok true ∧
      m.transId = tid ∧ m.attrs.priority = some prio ∧ m.attrs.useCandidate = uc ∧
      m.attrs.iceControlling = (if ctl then some tb else none) ∧
      m.attrs.iceControlled = (if ctl then none else some tb) := by
  obtain ⟨ha, hb, hlen, hu⟩ := hcred
  set q := bindingRequest (requestUsername a b) tid ctl tb prio uc with hq
  have hul : (requestUsername a b).length = a.ufrag.length + b.ufrag.length + 1 := by
    simp [requestUsername]; omega
  have hsu : splitUsername q.attrs = some (b.ufrag, a.ufrag) :=
    splitUsername_request _ rfl ha hb
  have hw : q.attrs.Typed env := by
    constructor <;> simp [hq, bindingRequest, requestUsername] <;> first | simpa using hu | omega | skip
    all_goals (intro v hv; cases ctl <;> simp at hv <;> omega)
  have hs : q.attrs.Short := by
    constructor <;> simp [hq, bindingRequest] <;> omega
  have hr : q.attrs.InRange := by constructor <;> simp [hq, bindingRequest]
  have hc : q.Complete (some b.pass) := by
    constructor
    · simp [hq, bindingRequest]
    · intro _ _; exact ⟨rfl, by rw [hsu]; rfl, by simp [hq, bindingRequest]⟩
  have hpl : paddedLen q.attrs ≤ 156 := by
    have := calculatePad_lt (requestUsername a b).length
    have := calculatePad_add (requestUsername a b).length
    have hpad : (requestUsername a b).length + calculatePad (requestUsername a b).length ≤ 128 := by
      omega
    simp only [hq, bindingRequest, paddedLen, optLen]
    cases ctl <;> cases uc <;> simp [optLen] <;> omega
  have hp0 : 0 < paddedLen q.attrs := paddedLen_pos_of_priority (by simp [hq, bindingRequest])
  have hwl := wire_length (some b.pass) hw ht
  simp only [Option.isSome_some, if_true] at hwl
  refine ⟨wire env q (some b.pass), received env q (some b.pass), ?_, ?_, ?_, rfl, rfl, rfl, rfl, rfl⟩
  · rw [toBytes_eq hw hs ht (by simp [hq, bindingRequest]) (by simp [hq, bindingRequest]),
      if_pos (by omega)]
  · exact parse_wire hw hs hr ht (by simp [hq, bindingRequest]) (by simp [hq, bindingRequest]) hc
      (by omega)
  · unfold acceptsMessage
    have hsu' : splitUsername (received env q (some b.pass)).attrs = some (b.ufrag, a.ufrag) := hsu
    rw [if_pos ⟨rfl, rfl⟩, hsu']
    simp only [ne_eq, not_true_eq_false, if_false, decide_false, Bool.false_eq_true]
    exact verify_received ht hp0

/-- C56 (replies). The success reply of `b`, carrying the address it saw, and its role conflict
reply both fit a 128 byte buffer, and `a` parses and accepts them while the request is outstanding,
reading back the address, or the code 487. -/
theorem C56_reply_accepted {env : Env} {a b : Creds} {tid : List Byte} {addr : Addr} {cap : Nat}
    (ht : tid.length = 12) (haddr : addr.Valid) (htext : env.utf8 roleConflictText = true)
    (hcap : 128 ≤ cap) {outstanding : List Byte → Bool} (ho : outstanding tid = true) :
    (∃ out m, toBytes env (bindingReply tid addr) (some b.pass) cap = .ok out ∧
      parse env out = .ok m ∧ acceptsMessage env a (some b) outstanding m = .ok true ∧
      m.cls = .success ∧ m.transId = tid ∧ m.attrs.xorMappedAddress = some addr) ∧
    (∃ out m, toBytes env (roleConflictReply tid) (some b.pass) cap = .ok out ∧
      parse env out = .ok m ∧ acceptsMessage env a (some b) outstanding m = .ok true ∧
      m.cls = .failure ∧ m.transId = tid ∧ m.attrs.errorCode = some (487, roleConflictText)) := by
  constructor
  · set q := bindingReply tid addr with hq
    have hw : q.attrs.Typed env := by constructor <;> simp [hq, bindingReply, haddr]
    have hs : q.attrs.Short := by constructor <;> simp [hq, bindingReply]
    have hr : q.attrs.InRange := by constructor <;> simp [hq, bindingReply]
    have hc : q.Complete (some b.pass) := by constructor <;> simp [hq, bindingReply]
    have hpl : paddedLen q.attrs ≤ 24 ∧ 0 < paddedLen q.attrs := by
      simp only [hq, bindingReply, paddedLen, optLen]
      cases addr <;> simp [addrLen]
    have hwl := wire_length (some b.pass) hw ht
    simp only [Option.isSome_some, if_true] at hwl
    refine ⟨wire env q (some b.pass), received env q (some b.pass), ?_, ?_, ?_, rfl, rfl, rfl⟩
    · rw [toBytes_eq hw hs ht (by simp [hq, bindingReply]) (by simp [hq, bindingReply]),
        if_pos (by omega)]
    · exact parse_wire hw hs hr ht (by simp [hq, bindingReply]) (by simp [hq, bindingReply]) hc
        (by omega)
    · unfold acceptsMessage
      rw [if_neg (by rintro ⟨-, h⟩; cases h), if_pos ⟨rfl, Or.inl rfl⟩,
        if_pos (show outstanding (received env q (some b.pass)).transId = true from ho)]
      exact verify_received ht hpl.2
  · set q := roleConflictReply tid with hq
    have hw : q.attrs.Typed env := by constructor <;> simp [hq, roleConflictReply, htext]
    have hs : q.attrs.Short := by
      constructor <;> simp [hq, roleConflictReply, roleConflictText]
    have hr : q.attrs.InRange := by constructor <;> simp [hq, roleConflictReply]
    have hc : q.Complete (some b.pass) := by constructor <;> simp [hq, roleConflictReply]
    have hpl : paddedLen q.attrs = 24 := by
      simp [hq, roleConflictReply, paddedLen, optLen, roleConflictText, calculatePad]
    have hwl := wire_length (some b.pass) hw ht
    simp only [Option.isSome_some, if_true] at hwl
    refine ⟨wire env q (some b.pass), received env q (some b.pass), ?_, ?_, ?_, rfl, rfl, rfl⟩
    · rw [toBytes_eq hw hs ht (by simp [hq, roleConflictReply]) (by simp [hq, roleConflictReply]),
        if_pos (by omega)]
    · exact parse_wire hw hs hr ht (by simp [hq, roleConflictReply]) (by simp [hq, roleConflictReply])
        hc (by omega)
    · unfold acceptsMessage
      rw [if_neg (by rintro ⟨-, h⟩; cases h), if_pos ⟨rfl, Or.inr rfl⟩,
        if_pos (show outstanding (received env q (some b.pass)).transId = true from ho)]
      exact verify_received ht (by omega)

/-- C56 needs the length limit: with fragments of more than 127 bytes together (RFC 8445 allows
256 each, and the USERNAME parser accepts 513 bytes) the request cannot be serialised at all; the
agent's `expect` on this result panics. -/
theorem C56_long_username (env : Env) (a b : Creds) (tid : List Byte) (ctl uc : Bool)
    (tb prio cap : Nat) (pw : Option (List Byte)) (hlen : a.ufrag.length + b.ufrag.length > 127) :
    toBytes env (bindingRequest (requestUsername a b) tid ctl tb prio uc) pw cap = .err () := by
  have hul : ¬ (requestUsername a b).length ≤ 128 := by simp [requestUsername]; omega
  unfold toBytes
  simp only [bindingRequest, Class.toU16, Method.toU16, bind_def, bind_ok]
  rw [write_then, write_then, write_then]
  unfold attrsToBytes
  simp only [opt, bind_def, writeStr_eq, if_neg hul, bind_err]
  generalize hx : write cap _ _ = x
  have hnp : x.NoPanic := by rw [← hx]; unfold write; exact ite_noPanic trivial trivial
  cases x with
  | ok o => rfl
  | err e => rfl
  | panic => exact hnp.elim

example : Compatible toyEnv ⟨[97], [1]⟩ ⟨[98], [2]⟩ := by
  refine ⟨by decide, by decide, by decide, rfl⟩

end Str0m.Stun
