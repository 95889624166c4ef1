import Verif.Proofs.Stun
/-
  The STUN round trip: what is written, and that parsing it gives the message back.
-/
namespace Str0m.Stun
open Res

/-- One attribute on the wire (RFC 8489 section 14): type, length, value, padding to four
bytes. -/
def tlv (typ : Nat) (val : List Byte) : List Byte :=
  be16 typ ++ be16 val.length ++ val ++ List.replicate (calculatePad val.length) 0

theorem tlv_length (typ : Nat) (val : List Byte) :
    (tlv typ val).length = 4 + val.length + calculatePad val.length := by
  simp [tlv]; omega

/-! ### Writing -/

theorem write_write (cap : Nat) (a b out : List Byte) :
    (write cap a out).bind (write cap b) = write cap (a ++ b) out := by
  unfold write
  by_cases h : out.length + a.length ≤ cap
  · simp only [if_pos h, bind_ok, List.length_append, List.append_assoc, Nat.add_assoc]
  · rw [if_neg h, if_neg (by simp; omega)]; rfl

theorem write_nil (cap : Nat) (out : List Byte) (h : out.length ≤ cap) :
    write cap [] out = .ok out := by simp [write, h]

theorem calculatePad_eight : calculatePad 8 = 0 := rfl
theorem calculatePad_four : calculatePad 4 = 0 := rfl
theorem calculatePad_zero : calculatePad 0 = 0 := rfl

theorem bind_assoc' {α β γ : Type} (x : Res Unit α) (f : α → Res Unit β) (g : β → Res Unit γ) :
    (x.bind f).bind g = x.bind (fun a => (f a).bind g) := by cases x <;> rfl

theorem write_then (cap : Nat) (a b : List Byte) (out : List Byte)
    (g : List Byte → Res Unit (List Byte)) :
    (write cap a out).bind (fun o => (write cap b o).bind g) = (write cap (a ++ b) out).bind g := by
  rw [← write_write, bind_assoc']

theorem writeStr_eq (cap typ : Nat) (v out : List Byte) :
    writeStr cap typ v out = if v.length ≤ 128 then write cap (tlv typ v) out else .err () := by
  unfold writeStr encodeStrNoLen
  simp only [bind_def]
  by_cases h : v.length ≤ 128
  · simp only [if_neg (show ¬ v.length > 128 by omega), if_pos h]
    rw [write_then, write_then, write_write]; rfl
  · simp only [if_pos (show v.length > 128 by omega), if_neg h]
    rw [write_then]
    unfold write; split <;> rfl

theorem writeU64_eq (cap typ v : Nat) (out : List Byte) :
    writeU64 cap typ v out = write cap (tlv typ (be64 v)) out := by
  unfold writeU64
  simp only [bind_def]
  rw [write_then, write_write]
  simp [tlv, calculatePad_eight]

theorem writeU32_eq (cap typ v : Nat) (out : List Byte) :
    writeU32 cap typ v out = write cap (tlv typ (be32 v)) out := by
  unfold writeU32
  simp only [bind_def]
  rw [write_then, write_write]
  simp [tlv, calculatePad_four]

theorem xorBytes_length : ∀ (a b : List Byte), (xorBytes a b).length = min a.length b.length
  | [], b => by simp [xorBytes]
  | a :: as, [] => by simp [xorBytes]
  | a :: as, b :: bs => by simp [xorBytes, xorBytes_length as bs]

/-- A socket address that exists: 16 octets for IPv6, a 16-bit port. -/
def Addr.Valid : Addr → Prop
  | .v4 _ _ _ _ port => port < 2^16
  | .v6 ip port => ip.length = 16 ∧ port < 2^16

theorem encodeXor_length {addr : Addr} {tid : List Byte} (ha : addr.Valid)
    (ht : tid.length = 12) : (encodeXor addr tid).length = addrLen addr := by
  cases addr with
  | v4 => simp [encodeXor, addrLen, xorBytes_length, magic]
  | v6 ip port => simp [encodeXor, addrLen, xorBytes_length, magic, ht, ha.1]

theorem addrLen_pad (addr : Addr) : calculatePad (addrLen addr) = 0 := by
  cases addr <;> simp [addrLen, calculatePad]

theorem writeXor_eq (cap typ : Nat) {tid : List Byte} {v : Addr} (out : List Byte)
    (hv : v.Valid) (ht : tid.length = 12) :
    writeXor cap typ tid v out = write cap (tlv typ (encodeXor v tid)) out := by
  unfold writeXor
  simp only [bind_def]
  rw [write_then, write_write]
  simp [tlv, encodeXor_length hv ht, addrLen_pad]

theorem writeFlagIf_eq (cap typ : Nat) (b : Bool) (out : List Byte) (h : out.length ≤ cap) :
    writeFlagIf cap typ b out = write cap (if b then tlv typ [] else []) out := by
  unfold writeFlagIf
  cases b
  · simp [write_nil cap out h]
  · simp only [bind_def, if_true, write_write]; rfl

theorem writeData_eq (cap : Nat) (v out : List Byte) :
    writeData cap v out = if v.length ≤ 65535 then write cap (tlv DATA v) out else .err () := by
  unfold writeData
  by_cases h : v.length ≤ 65535
  · simp only [if_neg (show ¬ v.length > 65535 by omega), if_pos h, bind_def]
    rw [write_then, write_then, write_write]; rfl
  · simp only [if_pos (show v.length > 65535 by omega), if_neg h]

theorem writeChannel_eq (cap v : Nat) (out : List Byte) :
    writeChannel cap v out = write cap (tlv CHANNEL_NUMBER (be16 v ++ [0, 0])) out := by
  unfold writeChannel
  simp only [bind_def]
  rw [write_then, write_then, write_write]
  simp [tlv, calculatePad_four]

/-- The value of an ERROR-CODE attribute. -/
def errVal (v : Nat × List Byte) : List Byte :=
  [0, 0, u8 (7 &&& (v.1 / 100) % 256), u8 (v.1 % 100)] ++ v.2

theorem writeErrorCode_eq (cap : Nat) (v : Nat × List Byte) (out : List Byte)
    (hl : v.2.length < 65532) :
    writeErrorCode cap v out =
      if v.2.length ≤ 128 then write cap (tlv ERROR_CODE (errVal v)) out else .err () := by
  unfold writeErrorCode encodeStrNoLen
  simp only [bind_def, Nat.mod_eq_of_lt (show v.2.length < 2^16 by omega),
    if_neg (show ¬ 4 + v.2.length ≥ 2^16 by omega)]
  have hp : calculatePad (4 + v.2.length) = calculatePad v.2.length := by
    unfold calculatePad; omega
  by_cases h : v.2.length ≤ 128
  · simp only [if_neg (show ¬ v.2.length > 128 by omega), if_pos h]
    rw [write_then, write_then, write_then, write_then, write_then, write_write]
    have : (errVal v).length = 4 + v.2.length := by simp [errVal]; omega
    rw [tlv, this, hp]
    simp [errVal]
  · simp only [if_pos (show v.2.length > 128 by omega), if_neg h]
    rw [write_then, write_then, write_then, write_then]
    unfold write; split <;> rfl

/-- The bytes of an optional attribute. -/
def optTlv {α : Type} (v : Option α) (f : α → List Byte) : List Byte :=
  match v with
  | some x => f x
  | none => []

/-- The attribute section `Attributes::to_bytes` writes. -/
def encAttrs (tid : List Byte) (a : Attrs) : List Byte :=
  optTlv a.username (tlv USERNAME)
  ++ optTlv a.iceControlled (fun v => tlv ICE_CONTROLLED (be64 v))
  ++ optTlv a.iceControlling (fun v => tlv ICE_CONTROLLING (be64 v))
  ++ optTlv a.priority (fun v => tlv PRIORITY (be32 v))
  ++ optTlv a.xorMappedAddress (fun v => tlv XOR_MAPPED_ADDRESS (encodeXor v tid))
  ++ (if a.useCandidate then tlv USE_CANDIDATE [] else [])
  ++ optTlv a.data (tlv DATA)
  ++ optTlv a.xorRelayedAddress (fun v => tlv XOR_RELAYED_ADDRESS (encodeXor v tid))
  ++ optTlv a.xorPeerAddress (fun v => tlv XOR_PEER_ADDRESS (encodeXor v tid))
  ++ optTlv a.channelNumber (fun v => tlv CHANNEL_NUMBER (be16 v ++ [0, 0]))
  ++ optTlv a.lifetime (fun v => tlv LIFETIME (be32 v))
  ++ optTlv a.realm (tlv REALM)
  ++ optTlv a.nonce (tlv NONCE)
  ++ optTlv a.errorCode (fun v => tlv ERROR_CODE (errVal v))

/-- What the type system guarantees about the fields of `Attributes` (sizes of the integers
and addresses, UTF-8 strings), and nothing more. -/
structure Attrs.Typed (env : Env) (a : Attrs) : Prop where
  username : ∀ v ∈ a.username, env.utf8 v = true
  realm : ∀ v ∈ a.realm, env.utf8 v = true
  nonce : ∀ v ∈ a.nonce, env.utf8 v = true
  errorCode : ∀ v ∈ a.errorCode, v.1 < 2^16 ∧ env.utf8 v.2 = true
  channelNumber : ∀ v ∈ a.channelNumber, v < 2^16
  lifetime : ∀ v ∈ a.lifetime, v < 2^32
  priority : ∀ v ∈ a.priority, v < 2^32
  iceControlled : ∀ v ∈ a.iceControlled, v < 2^64
  iceControlling : ∀ v ∈ a.iceControlling, v < 2^64
  xorMappedAddress : ∀ v ∈ a.xorMappedAddress, v.Valid
  xorRelayedAddress : ∀ v ∈ a.xorRelayedAddress, v.Valid
  xorPeerAddress : ∀ v ∈ a.xorPeerAddress, v.Valid

/-- The length limits the encoder enforces. -/
structure Attrs.Short (a : Attrs) : Prop where
  username : ∀ v ∈ a.username, v.length ≤ 128
  realm : ∀ v ∈ a.realm, v.length ≤ 128
  nonce : ∀ v ∈ a.nonce, v.length ≤ 128
  errorCode : ∀ v ∈ a.errorCode, v.2.length ≤ 128
  data : ∀ v ∈ a.data, v.length ≤ 65535

theorem optTlv_length {α : Type} {v : Option α} {f : α → List Byte} {g : α → Nat}
    (h : ∀ x ∈ v, (f x).length = g x) : (optTlv v f).length = optLen v g := by
  cases v with
  | none => rfl
  | some x => exact h x rfl

theorem encAttrs_length {env : Env} {tid : List Byte} {a : Attrs} (hw : a.Typed env)
    (ht : tid.length = 12) : (encAttrs tid a).length = paddedLen a := by
  have hx : ∀ (typ : Nat) (o : Option Addr), (∀ v ∈ o, v.Valid) →
      (optTlv o (fun v => tlv typ (encodeXor v tid))).length =
        optLen o (fun v => 4 + addrLen v) := by
    intro typ o ho
    apply optTlv_length
    intro v hv
    rw [tlv_length, encodeXor_length (ho v hv) ht, addrLen_pad]; rfl
  have hs : ∀ (typ : Nat) (o : Option (List Byte)), (optTlv o (tlv typ)).length =
      optLen o (fun v => 4 + v.length + calculatePad v.length) := by
    intro typ o; exact optTlv_length (fun v _ => tlv_length typ v)
  have h64 : ∀ (typ : Nat) (o : Option Nat), (optTlv o (fun v => tlv typ (be64 v))).length =
      optLen o (fun _ => 4 + 8) := by
    intro typ o; exact optTlv_length (fun v _ => by simp [tlv_length, calculatePad_eight])
  have h32 : ∀ (typ : Nat) (o : Option Nat), (optTlv o (fun v => tlv typ (be32 v))).length =
      optLen o (fun _ => 4 + 4) := by
    intro typ o; exact optTlv_length (fun v _ => by simp [tlv_length, calculatePad_four])
  have hc : (optTlv a.channelNumber (fun v => tlv CHANNEL_NUMBER (be16 v ++ [0, 0]))).length =
      optLen a.channelNumber (fun _ => 4 + 4) :=
    optTlv_length (fun v _ => by simp [tlv_length, calculatePad_four])
  have he : (optTlv a.errorCode (fun v => tlv ERROR_CODE (errVal v))).length =
      optLen a.errorCode (fun v => 4 + 4 + v.2.length + calculatePad v.2.length) :=
    optTlv_length (fun v _ => by
      have : (errVal v).length = 4 + v.2.length := by simp [errVal]; omega
      have hp : calculatePad (4 + v.2.length) = calculatePad v.2.length := by
        unfold calculatePad; omega
      rw [tlv_length, this, hp]; omega)
  have hu : (if a.useCandidate then tlv USE_CANDIDATE [] else []).length =
      if a.useCandidate then 4 else 0 := by
    split <;> simp [tlv_length, calculatePad_zero]
  simp only [encAttrs, List.length_append, hs, h64, h32, hx _ _ hw.xorMappedAddress,
    hx _ _ hw.xorRelayedAddress, hx _ _ hw.xorPeerAddress, hc, he, hu, paddedLen]
  omega

theorem write_append {cap : Nat} {a b out : List Byte} :
    write cap (a ++ b) out = (write cap a out).bind (write cap b) := (write_write cap a b out).symm

theorem opt_eq {α : Type} {v : Option α} {cap : Nat}
    {f : α → List Byte → Res Unit (List Byte)} {g : α → List Byte} {out : List Byte}
    (hout : out.length ≤ cap) (h : ∀ x ∈ v, f x out = write cap (g x) out) :
    opt v f out = write cap (optTlv v g) out := by
  cases v with
  | none => simp [opt, optTlv, write_nil cap out hout]
  | some x => exact h x rfl

/-- Chaining: if every attribute writer is a plain write at any position, so is the sequence. -/
theorem bind_write {cap : Nat} {f : List Byte → Res Unit (List Byte)} {a b out : List Byte}
    (h : ∀ o, o.length ≤ cap → f o = write cap b o) :
    (write cap a out).bind f = write cap (a ++ b) out := by
  rw [← write_write]
  unfold write
  split
  · rename_i hc
    simp only [bind_ok]
    rw [h _ (by simpa using hc)]
    rfl
  · rfl

theorem attrsToBytes_eq {env : Env} {cap : Nat} {tid : List Byte} {a : Attrs} {out : List Byte}
    (hw : a.Typed env) (hs : a.Short) (ht : tid.length = 12) (hout : out.length ≤ cap) :
    attrsToBytes cap tid a out = write cap (encAttrs tid a) out := by
  have str : ∀ (typ : Nat) (o : Option (List Byte)), (∀ v ∈ o, v.length ≤ 128) →
      ∀ out, out.length ≤ cap → opt o (writeStr cap typ) out = write cap (optTlv o (tlv typ)) out := by
    intro typ o ho out hl
    exact opt_eq hl (fun x hx => by rw [writeStr_eq, if_pos (ho x hx)])
  have xr : ∀ (typ : Nat) (o : Option Addr), (∀ v ∈ o, v.Valid) → ∀ out, out.length ≤ cap →
      opt o (writeXor cap typ tid) out =
        write cap (optTlv o (fun v => tlv typ (encodeXor v tid))) out := by
    intro typ o ho out hl
    exact opt_eq hl (fun x hx => writeXor_eq cap typ out (ho x hx) ht)
  have u64 : ∀ (typ : Nat) (o : Option Nat), ∀ out, out.length ≤ cap →
      opt o (writeU64 cap typ) out = write cap (optTlv o (fun v => tlv typ (be64 v))) out :=
    fun typ o out hl => opt_eq hl (fun x _ => writeU64_eq cap typ x out)
  have u32 : ∀ (typ : Nat) (o : Option Nat), ∀ out, out.length ≤ cap →
      opt o (writeU32 cap typ) out = write cap (optTlv o (fun v => tlv typ (be32 v))) out :=
    fun typ o out hl => opt_eq hl (fun x _ => writeU32_eq cap typ x out)
  unfold attrsToBytes
  simp only [bind_def]
  rw [str _ _ hs.username _ hout]
  simp only [← bind_assoc']
  rw [bind_write (u64 ICE_CONTROLLED a.iceControlled),
    bind_write (u64 ICE_CONTROLLING a.iceControlling),
    bind_write (u32 PRIORITY a.priority),
    bind_write (xr XOR_MAPPED_ADDRESS a.xorMappedAddress hw.xorMappedAddress),
    bind_write (fun o ho => writeFlagIf_eq cap USE_CANDIDATE a.useCandidate o ho),
    bind_write (fun o ho => opt_eq (g := tlv DATA) ho (fun x hx => by
      rw [writeData_eq, if_pos (hs.data x hx)])),
    bind_write (xr XOR_RELAYED_ADDRESS a.xorRelayedAddress hw.xorRelayedAddress),
    bind_write (xr XOR_PEER_ADDRESS a.xorPeerAddress hw.xorPeerAddress),
    bind_write (fun o ho => opt_eq ho (fun x _ => writeChannel_eq cap x o)),
    bind_write (u32 LIFETIME a.lifetime),
    bind_write (str REALM a.realm hs.realm),
    bind_write (str NONCE a.nonce hs.nonce),
    bind_write (fun o ho => opt_eq (g := fun v => tlv ERROR_CODE (errVal v)) ho (fun x hx => by
      rw [writeErrorCode_eq cap x o (by have := hs.errorCode x hx; omega),
        if_pos (hs.errorCode x hx)]))]
  rfl

/-! ### Parsing what was written -/

theorem tlv_append (typ : Nat) (val rest : List Byte) :
    tlv typ val ++ rest = u8 (typ / 2^8) :: u8 typ :: u8 (val.length / 2^8) :: u8 val.length ::
      (val ++ (List.replicate (calculatePad val.length) 0 ++ rest)) := by
  simp [tlv, be16]

/-- One attribute at the front of the buffer is consumed exactly. -/
theorem parseLoop_tlv {env : Env} {tid : List Byte} {typ : Nat} {val rest : List Byte}
    {off : Nat} {s t : PState} (ht : typ < 2^16) (hv : val.length < 2^16)
    (h : dispatch env (tlv typ val ++ rest) tid off typ val.length s = .ok t) :
    parseLoop env tid (tlv typ val ++ rest) off s =
      parseLoop env tid rest (off + (tlv typ val).length) t := by
  have h4 : 4 ≤ (tlv typ val ++ rest).length := by simp [tlv_length]; omega
  have e1 : rd16 (tlv typ val ++ rest)[0] (tlv typ val ++ rest)[1] = typ := by
    simp only [tlv_append, List.getElem_cons_zero, List.getElem_cons_succ]; exact rd16_be16 ht
  have e2 : rd16 (tlv typ val ++ rest)[2] (tlv typ val ++ rest)[3] = val.length := by
    simp only [tlv_append, List.getElem_cons_zero, List.getElem_cons_succ]; exact rd16_be16 hv
  rw [parseLoop]
  rw [if_neg (by simp [tlv_append]), parseHead_eq h4, e1, e2,
    if_neg (by simp [tlv_length]; omega), h]
  simp only [bind_ok]
  rw [if_pos (by simp [tlv_length]; omega)]
  congr 1
  · have : 4 + (val.length + calculatePad val.length) = (tlv typ val).length := by
      rw [tlv_length]; omega
    rw [this, List.drop_left]
  · rw [tlv_length]; omega

theorem drop4_tlv (typ : Nat) (val rest : List Byte) :
    (tlv typ val ++ rest).drop 4 = val ++ (List.replicate (calculatePad val.length) 0 ++ rest) := by
  rw [tlv_append]; rfl

theorem four_le_tlv (typ : Nat) (val rest : List Byte) : 4 ≤ (tlv typ val ++ rest).length := by
  simp [tlv_length]; omega

theorem attrStr_tlv {env : Env} {typ n : Nat} {v rest : List Byte} (hn : v.length ≤ n)
    (hu : env.utf8 v = true) : attrStr env n (tlv typ v ++ rest) v.length = .ok v := by
  unfold attrStr decodeStr
  simp only [bind_def, from_of_le (four_le_tlv typ v rest), bind_ok, drop4_tlv]
  rw [if_neg (by omega), upto_of_le (by simp), bind_ok, List.take_left, hu]
  rfl

theorem rdU32_drop {buf : List Byte} {n : Nat} (rest : List Byte) (i : Nat)
    (hn : n < 2^32) (h : buf.drop i = be32 n ++ rest) : rdU32 buf i = .ok n := by
  have hl : i + 3 < buf.length := by
    have := congrArg List.length h
    simp at this; omega
  rw [rdU32_ok hl]
  have g : ∀ k (hk : i + k < buf.length), buf[i+k]? = (be32 n ++ rest)[k]? := by
    intro k hk; rw [← h, List.getElem?_drop]
  have g0 := g 0 (by omega)
  have g1 := g 1 (by omega)
  have g2 := g 2 (by omega)
  have g3 := g 3 (by omega)
  simp only [be32, List.cons_append, List.getElem?_cons_zero, List.getElem?_cons_succ,
    Nat.add_zero] at g0 g1 g2 g3
  rw [List.getElem?_eq_getElem (by omega)] at g0 g1 g2 g3
  simp only [Option.some.injEq] at g0 g1 g2 g3
  rw [g0, g1, g2, g3, rd32_be32 hn]

theorem rdU16_drop {buf : List Byte} {n : Nat} (rest : List Byte) (i : Nat)
    (hn : n < 2^16) (h : buf.drop i = be16 n ++ rest) : rdU16 buf i = .ok n := by
  have hl : i + 1 < buf.length := by
    have := congrArg List.length h
    simp at this; omega
  rw [rdU16_ok hl]
  have g : ∀ k (hk : i + k < buf.length), buf[i+k]? = (be16 n ++ rest)[k]? := by
    intro k hk; rw [← h, List.getElem?_drop]
  have g0 := g 0 (by omega)
  have g1 := g 1 (by omega)
  simp only [be16, List.cons_append, List.getElem?_cons_zero, List.getElem?_cons_succ,
    Nat.add_zero] at g0 g1
  rw [List.getElem?_eq_getElem (by omega)] at g0 g1
  simp only [Option.some.injEq] at g0 g1
  rw [g0, g1, rd16_be16 hn]

theorem attrU32_tlv {typ n : Nat} {rest : List Byte} (hn : n < 2^32) :
    attrU32 (tlv typ (be32 n) ++ rest) (be32 n).length = .ok n := by
  unfold attrU32
  rw [if_neg (by simp)]
  exact rdU32_drop _ 4 hn (drop4_tlv _ _ _)

theorem attrU64_tlv {typ n : Nat} {rest : List Byte} (hn : n < 2^64) :
    attrU64 (tlv typ (be64 n) ++ rest) (be64 n).length = .ok n := by
  unfold attrU64
  rw [if_neg (by simp)]
  have h1 : rdU32 (tlv typ (be64 n) ++ rest) 4 = .ok (n / 2^32) := by
    apply rdU32_drop (be32 n ++ (List.replicate (calculatePad (be64 n).length) 0 ++ rest)) 4
      (by omega)
    rw [drop4_tlv]; simp [be64]
  have h2 : rdU32 (tlv typ (be64 n) ++ rest) 8 = .ok (n % 2^32) := by
    apply rdU32_drop (List.replicate (calculatePad (be64 n).length) 0 ++ rest) 8 (by omega)
    have : (tlv typ (be64 n) ++ rest).drop 8 = ((tlv typ (be64 n) ++ rest).drop 4).drop 4 := by
      simp [List.drop_drop]
    rw [this, drop4_tlv, be64]
    have hb : be32 n = be32 (n % 2^32) := by
      simp only [be32, List.cons.injEq, and_true]
      refine ⟨?_, ?_, ?_, ?_⟩ <;> apply Fin.ext <;> simp <;> omega
    rw [List.append_assoc, ← hb]
    exact List.drop_left' (by simp)
  simp only [h1, h2, bind_def, bind_ok, pure_def, Res.ok.injEq]
  omega

theorem xor_xor_byte (a b : Byte) : u8 ((u8 (a.val ^^^ b.val)).val ^^^ b.val) = a := by
  apply Fin.ext
  have h1 : a.val ^^^ b.val < 256 := Nat.xor_lt_two_pow (n := 8) a.isLt b.isLt
  rw [u8_val, u8_val_of_lt h1, Nat.xor_assoc, Nat.xor_self, Nat.xor_zero]
  exact Nat.mod_eq_of_lt a.isLt

theorem xorBytes_xorBytes : ∀ (a b : List Byte), a.length ≤ b.length →
    xorBytes (xorBytes a b) b = a
  | [], b, _ => by simp [xorBytes]
  | a :: as, [], h => by simp at h
  | a :: as, b :: bs, h => by
    simp only [xorBytes, xorBytes_xorBytes as bs (by simpa using h), xor_xor_byte]

theorem port_xor {p : Nat} (h : p < 2^16) : p ^^^ 0x2112 < 2^16 :=
  Nat.xor_lt_two_pow h (by decide)

/-- The address codec is a left inverse, whatever follows in the buffer. -/
theorem decodeXor_encodeXor {addr : Addr} {tid rest : List Byte} (ha : addr.Valid)
    (ht : tid.length = 12) : decodeXor (encodeXor addr tid ++ rest) tid = .ok addr := by
  cases addr with
  | v4 a b c d port =>
    have hp := port_xor ha
    have e : encodeXor (.v4 a b c d port) tid ++ rest =
        0 :: 1 :: u8 ((port ^^^ 0x2112) / 2^8) :: u8 (port ^^^ 0x2112) ::
        u8 (a.val ^^^ 0x21) :: u8 (b.val ^^^ 0x12) :: u8 (c.val ^^^ 0xA4) :: u8 (d.val ^^^ 0x42) ::
        rest := by
      simp only [encodeXor, be16, magic, xorBytes, List.cons_append, List.nil_append]
      rfl
    rw [e]
    unfold decodeXor
    rw [if_neg (by simp)]
    simp only [Res.idx, Res.from_, bind_def, List.getElem?_cons_zero, List.getElem?_cons_succ,
      bind_ok, List.length_cons, List.drop_succ_cons, List.drop_zero]
    rw [if_pos (by omega)]
    simp only [bind_ok, List.length_cons]
    rw [if_pos ⟨by decide, by omega⟩]
    simp only [List.getElem?_cons_zero, List.getElem?_cons_succ, bind_ok, pure_def]
    rw [rd16_be16 hp, Nat.xor_assoc, Nat.xor_self, Nat.xor_zero]
    have h1 := xor_xor_byte a 0x21
    have h2 := xor_xor_byte b 0x12
    have h3 := xor_xor_byte c 0xA4
    have h4 := xor_xor_byte d 0x42
    simp only [show ((0x21 : Byte)).val = 0x21 from rfl, show ((0x12 : Byte)).val = 0x12 from rfl,
      show ((0xA4 : Byte)).val = 0xA4 from rfl, show ((0x42 : Byte)).val = 0x42 from rfl]
      at h1 h2 h3 h4
    rw [h1, h2, h3, h4]
  | v6 ip port =>
    obtain ⟨hi, hp'⟩ := ha
    have hp := port_xor hp'
    have hx : (xorBytes ip (magic ++ tid)).length = 16 := by
      simp [xorBytes_length, magic, ht, hi]
    have e : encodeXor (.v6 ip port) tid ++ rest =
        0 :: 2 :: u8 ((port ^^^ 0x2112) / 2^8) :: u8 (port ^^^ 0x2112) ::
        (xorBytes ip (magic ++ tid) ++ rest) := by
      simp [encodeXor, be16]
    rw [e]
    unfold decodeXor
    rw [if_neg (by simp)]
    simp only [Res.idx, Res.from_, bind_def, List.getElem?_cons_zero, List.getElem?_cons_succ,
      bind_ok, List.length_cons, List.drop_succ_cons, List.drop_zero]
    rw [if_pos (by omega)]
    simp only [bind_ok]
    rw [if_neg (by rintro ⟨h, -⟩; revert h; decide), if_pos ⟨by decide, by simp [hx]⟩,
      upto_of_le (by simp [hx]), bind_ok, List.take_left' hx,
      xorBytes_xorBytes _ _ (by simp [magic, ht, hi]), rd16_be16 hp, Nat.xor_assoc,
      Nat.xor_self, Nat.xor_zero]
    rfl

theorem attrXor_tlv {typ : Nat} {addr : Addr} {tid rest : List Byte} (ha : addr.Valid)
    (ht : tid.length = 12) :
    attrXor (tlv typ (encodeXor addr tid) ++ rest) tid = .ok addr := by
  unfold attrXor
  simp only [bind_def, from_of_le (four_le_tlv _ _ rest), bind_ok, drop4_tlv]
  exact decodeXor_encodeXor ha ht

theorem attrChannel_tlv {typ n : Nat} {rest : List Byte} (h1 : 0x4000 ≤ n) (h2 : n ≤ 0x7FFF) :
    attrChannel (tlv typ (be16 n ++ [0, 0]) ++ rest) (be16 n ++ [0, 0]).length = .ok n := by
  unfold attrChannel
  rw [if_neg (by simp)]
  rw [rdU16_drop (n := n) ([0, 0] ++ (List.replicate (calculatePad (be16 n ++ [0, 0]).length) 0 ++ rest)) 4
    (by omega) (by rw [drop4_tlv]; simp)]
  simp only [bind_def, bind_ok]
  rw [if_neg (by omega)]
  rfl

theorem slice_tlv {typ : Nat} {v rest : List Byte} :
    Res.slice (ε := Unit) (tlv typ v ++ rest) 4 (v.length + 4) = .ok v := by
  rw [slice_of_le (by omega) (by simp [tlv_length]; omega), Nat.add_comm, ← List.take_drop, drop4_tlv,
    List.take_left]

theorem attrIntegrity_tlv {v rest : List Byte} (hv : v.length = 20) :
    attrIntegrity (tlv MESSAGE_INTEGRITY v ++ rest) v.length = .ok v := by
  unfold attrIntegrity
  rw [if_neg (by omega)]
  have := slice_tlv (typ := MESSAGE_INTEGRITY) (v := v) (rest := rest)
  rw [hv] at this
  exact this

theorem parseErrorCode_tlv {env : Env} {v : Nat × List Byte} {rest : List Byte}
    (hl : v.2.length ≤ 128) (hu : env.utf8 v.2 = true) (h1 : 300 ≤ v.1) (h2 : v.1 ≤ 699) :
    parseErrorCode env (tlv ERROR_CODE (errVal v) ++ rest) (errVal v).length = .ok v := by
  have hlen : (errVal v).length = 4 + v.2.length := by simp [errVal]; omega
  have e : tlv ERROR_CODE (errVal v) ++ rest =
      u8 (ERROR_CODE / 2^8) :: u8 ERROR_CODE :: u8 ((errVal v).length / 2^8) ::
      u8 (errVal v).length :: 0 :: 0 :: u8 (7 &&& (v.1 / 100) % 256) :: u8 (v.1 % 100) ::
      (v.2 ++ (List.replicate (calculatePad (errVal v).length) 0 ++ rest)) := by
    rw [tlv_append, errVal]; rfl
  unfold parseErrorCode
  rw [if_neg (by omega), e]
  simp only [Res.idx, Res.from_, bind_def, List.getElem?_cons_zero, List.getElem?_cons_succ,
      bind_ok, List.length_cons, List.drop_succ_cons, List.drop_zero]
  have hc : 7 &&& (v.1 / 100) % 256 = v.1 / 100 := by
    have : v.1 / 100 = 3 ∨ v.1 / 100 = 4 ∨ v.1 / 100 = 5 ∨ v.1 / 100 = 6 := by omega
    rcases this with h | h | h | h <;> rw [h] <;> decide
  have hcv : (u8 (7 &&& (v.1 / 100) % 256)).val = v.1 / 100 := by
    rw [hc, u8_val_of_lt (by omega)]
  have hf : v.1 / 100 &&& 0xf8 = 0 := by
    have : v.1 / 100 = 3 ∨ v.1 / 100 = 4 ∨ v.1 / 100 = 5 ∨ v.1 / 100 = 6 := by omega
    rcases this with h | h | h | h <;> rw [h] <;> decide
  rw [hcv, if_neg (by simp [hf]), if_neg (by omega), if_pos (by omega)]
  simp only [bind_ok, hlen, Nat.add_sub_cancel_left]
  unfold decodeStr
  rw [if_neg (by omega)]
  simp only [bind_def, upto_of_le (show v.2.length ≤ (v.2 ++ _).length by simp), bind_ok,
    List.take_left, hu, if_true, pure_def, Res.ok.injEq]
  rw [u8_val_of_lt (by omega)]
  refine Prod.ext ?_ rfl
  simp; omega

/-- `x` is consumed by the attribute loop, taking the state from `s` to `t`, whatever follows. -/
def Consumes (env : Env) (tid x : List Byte) (s t : PState) : Prop :=
  ∀ off rest, parseLoop env tid (x ++ rest) off s = parseLoop env tid rest (off + x.length) t

theorem Consumes.append {env : Env} {tid x y : List Byte} {s t u : PState}
    (h1 : Consumes env tid x s t) (h2 : Consumes env tid y t u) :
    Consumes env tid (x ++ y) s u := by
  intro off rest
  rw [List.append_assoc, h1, h2, List.length_append, Nat.add_assoc]

/-- An optional attribute (other than MESSAGE-INTEGRITY) is parsed into its field. -/
theorem Consumes.opt {α : Type} {env : Env} {tid : List Byte} {o : Option α} (typ : Nat)
    {f : α → List Byte} (enc : α → List Byte) (mk : α → AV) {s t : PState}
    (hf : ∀ v ∈ o, f v = tlv typ (enc v))
    (ht : typ < 2^16) (hig : s.ignoreRest = false)
    (hlen : ∀ v ∈ o, (enc v).length < 2^16)
    (h : ∀ v ∈ o, ∀ rest,
      parseAttr env (tlv typ (enc v) ++ rest) tid typ (enc v).length = .ok (mk v))
    (hst : ∀ off, (match o with | some v => s.assign off (mk v) | none => s) = t) :
    Consumes env tid (optTlv o f) s t := by
  intro off rest
  have hst := hst off
  cases o with
  | none => subst hst; simp [optTlv]
  | some v =>
    subst hst
    simp only [optTlv, hf v rfl]
    apply parseLoop_tlv ht (hlen v rfl)
    unfold dispatch
    rw [if_pos (Or.inl hig), h v rfl]
    rfl

/-- What a peer must put into the fields for the parser to accept them: an error code in
300..=699 and a channel number in 0x4000..=0x7FFF. -/
structure Attrs.InRange (a : Attrs) : Prop where
  errorCode : ∀ v ∈ a.errorCode, 300 ≤ v.1 ∧ v.1 ≤ 699
  channelNumber : ∀ v ∈ a.channelNumber, 0x4000 ≤ v ∧ v ≤ 0x7FFF

/-- The part of the attributes `to_bytes` puts on the wire (SOFTWARE and NETWORK-COST are
accepted by the builder but never written). -/
def Attrs.onWire (a : Attrs) : Attrs :=
  { a with messageIntegrity := none, fingerprint := none, software := none, networkCost := none }

theorem consumes_encAttrs {env : Env} {tid : List Byte} {a : Attrs}
    (hw : a.Typed env) (hs : a.Short) (hr : a.InRange) (ht : tid.length = 12) :
    Consumes env tid (encAttrs tid a) {} { attrs := a.onWire } := by
  have l20 : ∀ v : Addr, v.Valid → (encodeXor v tid).length < 2^16 := by
    intro v hv; rw [encodeXor_length hv ht]; cases v <;> simp [addrLen]
  have lerr : ∀ v ∈ a.errorCode, (errVal v).length < 2^16 := by
    intro v hv
    have := hs.errorCode v hv
    simp [errVal]; omega
  let s1 : PState := { attrs := { username := a.username } }
  let s2 : PState := { s1 with attrs.iceControlled := a.iceControlled }
  let s3 : PState := { s2 with attrs.iceControlling := a.iceControlling }
  let s4 : PState := { s3 with attrs.priority := a.priority }
  let s5 : PState := { s4 with attrs.xorMappedAddress := a.xorMappedAddress }
  let s6 : PState := { s5 with attrs.useCandidate := a.useCandidate }
  let s7 : PState := { s6 with attrs.data := a.data }
  let s8 : PState := { s7 with attrs.xorRelayedAddress := a.xorRelayedAddress }
  let s9 : PState := { s8 with attrs.xorPeerAddress := a.xorPeerAddress }
  let s10 : PState := { s9 with attrs.channelNumber := a.channelNumber }
  let s11 : PState := { s10 with attrs.lifetime := a.lifetime }
  let s12 : PState := { s11 with attrs.realm := a.realm }
  let s13 : PState := { s12 with attrs.nonce := a.nonce }
  let s14 : PState := { attrs := a.onWire }
  have c1 : Consumes env tid (optTlv a.username (tlv USERNAME)) {} s1 :=
    Consumes.opt USERNAME id AV.username (fun _ _ => rfl) (by decide) rfl
      (fun v hv => by have := hs.username v hv; simp; omega)
      (fun v hv rest => by
        have := hs.username v hv
        unfold parseAttr
        rw [if_pos rfl, id, attrStr_tlv (by omega) (hw.username v hv)]; rfl)
      (fun _ => by cases h : a.username <;> simp [s1, h, PState.assign])
  have c2 : Consumes env tid (optTlv a.iceControlled (fun v => tlv ICE_CONTROLLED (be64 v))) s1 s2 :=
    Consumes.opt ICE_CONTROLLED be64 AV.iceControlled (fun _ _ => rfl) (by decide) rfl
      (fun v hv => by simp)
      (fun v hv rest => by
        unfold parseAttr
        rw [if_neg (by decide), if_neg (by decide), if_neg (by decide), if_neg (by decide), if_neg (by decide), if_neg (by decide), if_neg (by decide), if_neg (by decide), if_neg (by decide), if_neg (by decide), if_neg (by decide), if_neg (by decide), if_neg (by decide), if_neg (by decide), if_neg (by decide), if_pos rfl, attrU64_tlv (hw.iceControlled v hv)]; rfl)
      (fun _ => by cases h : a.iceControlled <;> simp [s2, s1, h, PState.assign])
  have c3 : Consumes env tid (optTlv a.iceControlling (fun v => tlv ICE_CONTROLLING (be64 v))) s2 s3 :=
    Consumes.opt ICE_CONTROLLING be64 AV.iceControlling (fun _ _ => rfl) (by decide) rfl
      (fun v hv => by simp)
      (fun v hv rest => by
        unfold parseAttr
        rw [if_neg (by decide), if_neg (by decide), if_neg (by decide), if_neg (by decide), if_neg (by decide), if_neg (by decide), if_neg (by decide), if_neg (by decide), if_neg (by decide), if_neg (by decide), if_neg (by decide), if_neg (by decide), if_neg (by decide), if_neg (by decide), if_neg (by decide), if_neg (by decide), if_pos rfl, attrU64_tlv (hw.iceControlling v hv)]; rfl)
      (fun _ => by cases h : a.iceControlling <;> simp [s3, s2, s1, h, PState.assign])
  have c4 : Consumes env tid (optTlv a.priority (fun v => tlv PRIORITY (be32 v))) s3 s4 :=
    Consumes.opt PRIORITY be32 AV.priority (fun _ _ => rfl) (by decide) rfl
      (fun v hv => by simp)
      (fun v hv rest => by
        unfold parseAttr
        rw [if_neg (by decide), if_neg (by decide), if_neg (by decide), if_neg (by decide), if_neg (by decide), if_neg (by decide), if_neg (by decide), if_neg (by decide), if_neg (by decide), if_neg (by decide), if_neg (by decide), if_neg (by decide), if_pos rfl, attrU32_tlv (hw.priority v hv)]; rfl)
      (fun _ => by cases h : a.priority <;> simp [s4, s3, s2, s1, h, PState.assign])
  have c5 : Consumes env tid (optTlv a.xorMappedAddress (fun v => tlv XOR_MAPPED_ADDRESS (encodeXor v tid))) s4 s5 :=
    Consumes.opt XOR_MAPPED_ADDRESS (fun v => encodeXor v tid) AV.xorMappedAddress (fun _ _ => rfl) (by decide) rfl
      (fun v hv => l20 v (hw.xorMappedAddress v hv))
      (fun v hv rest => by
        unfold parseAttr
        rw [if_neg (by decide), if_neg (by decide), if_neg (by decide), if_neg (by decide), if_neg (by decide), if_neg (by decide), if_neg (by decide), if_neg (by decide), if_neg (by decide), if_neg (by decide), if_pos rfl, attrXor_tlv (hw.xorMappedAddress v hv) ht]; rfl)
      (fun _ => by cases h : a.xorMappedAddress <;> simp [s5, s4, s3, s2, s1, h, PState.assign])
  have c6 : Consumes env tid (if a.useCandidate then tlv USE_CANDIDATE [] else []) s5 s6 := by
    intro off rest
    cases h : a.useCandidate
    · have : s6 = s5 := by simp [s6, h, s5, s4, s3, s2, s1]
      simp [this]
    · simp only [if_true]
      apply parseLoop_tlv (by decide) (by simp)
      unfold dispatch
      rw [if_pos (Or.inl rfl)]
      unfold parseAttr
      rw [if_neg (by decide), if_neg (by decide), if_neg (by decide), if_neg (by decide), if_neg (by decide), if_neg (by decide), if_neg (by decide), if_neg (by decide), if_neg (by decide), if_neg (by decide), if_neg (by decide), if_neg (by decide), if_neg (by decide), if_pos rfl]
      simp [attrFlag, rmap, PState.assign, s6, h]
  have c7 : Consumes env tid (optTlv a.data (tlv DATA)) s6 s7 :=
    Consumes.opt DATA id AV.data (fun _ _ => rfl) (by decide) rfl
      (fun v hv => by have := hs.data v hv; simp; omega)
      (fun v hv rest => by
        unfold parseAttr
        rw [if_neg (by decide), if_neg (by decide), if_neg (by decide), if_neg (by decide), if_neg (by decide), if_neg (by decide), if_pos rfl, id, slice_tlv]; rfl)
      (fun _ => by cases h : a.data <;> simp [s7, s6, s5, s4, s3, s2, s1, h, PState.assign])
  have c8 : Consumes env tid (optTlv a.xorRelayedAddress (fun v => tlv XOR_RELAYED_ADDRESS (encodeXor v tid))) s7 s8 :=
    Consumes.opt XOR_RELAYED_ADDRESS (fun v => encodeXor v tid) AV.xorRelayedAddress (fun _ _ => rfl) (by decide) rfl
      (fun v hv => l20 v (hw.xorRelayedAddress v hv))
      (fun v hv rest => by
        unfold parseAttr
        rw [if_neg (by decide), if_neg (by decide), if_neg (by decide), if_neg (by decide), if_neg (by decide), if_neg (by decide), if_neg (by decide), if_neg (by decide), if_neg (by decide), if_pos rfl, attrXor_tlv (hw.xorRelayedAddress v hv) ht]; rfl)
      (fun _ => by cases h : a.xorRelayedAddress <;> simp [s8, s7, s6, s5, s4, s3, s2, s1, h, PState.assign])
  have c9 : Consumes env tid (optTlv a.xorPeerAddress (fun v => tlv XOR_PEER_ADDRESS (encodeXor v tid))) s8 s9 :=
    Consumes.opt XOR_PEER_ADDRESS (fun v => encodeXor v tid) AV.xorPeerAddress (fun _ _ => rfl) (by decide) rfl
      (fun v hv => l20 v (hw.xorPeerAddress v hv))
      (fun v hv rest => by
        unfold parseAttr
        rw [if_neg (by decide), if_neg (by decide), if_neg (by decide), if_neg (by decide), if_neg (by decide), if_pos rfl, attrXor_tlv (hw.xorPeerAddress v hv) ht]; rfl)
      (fun _ => by cases h : a.xorPeerAddress <;> simp [s9, s8, s7, s6, s5, s4, s3, s2, s1, h, PState.assign])
  have c10 : Consumes env tid (optTlv a.channelNumber (fun v => tlv CHANNEL_NUMBER (be16 v ++ [0, 0]))) s9 s10 :=
    Consumes.opt CHANNEL_NUMBER (fun v => be16 v ++ [0, 0]) AV.channelNumber (fun _ _ => rfl) (by decide) rfl
      (fun v hv => by simp)
      (fun v hv rest => by
        unfold parseAttr
        rw [if_neg (by decide), if_neg (by decide), if_neg (by decide), if_pos rfl, attrChannel_tlv (hr.channelNumber v hv).1 (hr.channelNumber v hv).2]; rfl)
      (fun _ => by cases h : a.channelNumber <;> simp [s10, s9, s8, s7, s6, s5, s4, s3, s2, s1, h, PState.assign])
  have c11 : Consumes env tid (optTlv a.lifetime (fun v => tlv LIFETIME (be32 v))) s10 s11 :=
    Consumes.opt LIFETIME be32 AV.lifetime (fun _ _ => rfl) (by decide) rfl
      (fun v hv => by simp)
      (fun v hv rest => by
        unfold parseAttr
        rw [if_neg (by decide), if_neg (by decide), if_neg (by decide), if_neg (by decide), if_pos rfl, attrU32_tlv (hw.lifetime v hv)]; rfl)
      (fun _ => by cases h : a.lifetime <;> simp [s11, s10, s9, s8, s7, s6, s5, s4, s3, s2, s1, h, PState.assign])
  have c12 : Consumes env tid (optTlv a.realm (tlv REALM)) s11 s12 :=
    Consumes.opt REALM id AV.realm (fun _ _ => rfl) (by decide) rfl
      (fun v hv => by have := hs.realm v hv; simp; omega)
      (fun v hv rest => by
        unfold parseAttr
        rw [if_neg (by decide), if_neg (by decide), if_neg (by decide), if_neg (by decide), if_neg (by decide), if_neg (by decide), if_neg (by decide), if_pos rfl, id, attrStr_tlv (by have := hs.realm v hv; omega) (hw.realm v hv)]; rfl)
      (fun _ => by cases h : a.realm <;> simp [s12, s11, s10, s9, s8, s7, s6, s5, s4, s3, s2, s1, h, PState.assign])
  have c13 : Consumes env tid (optTlv a.nonce (tlv NONCE)) s12 s13 :=
    Consumes.opt NONCE id AV.nonce (fun _ _ => rfl) (by decide) rfl
      (fun v hv => by have := hs.nonce v hv; simp; omega)
      (fun v hv rest => by
        unfold parseAttr
        rw [if_neg (by decide), if_neg (by decide), if_neg (by decide), if_neg (by decide), if_neg (by decide), if_neg (by decide), if_neg (by decide), if_neg (by decide), if_pos rfl, id, attrStr_tlv (by have := hs.nonce v hv; omega) (hw.nonce v hv)]; rfl)
      (fun _ => by cases h : a.nonce <;> simp [s13, s12, s11, s10, s9, s8, s7, s6, s5, s4, s3, s2, s1, h, PState.assign])
  have c14 : Consumes env tid (optTlv a.errorCode (fun v => tlv ERROR_CODE (errVal v))) s13 s14 :=
    Consumes.opt ERROR_CODE errVal AV.errorCode (fun _ _ => rfl) (by decide) rfl
      (fun v hv => lerr v hv)
      (fun v hv rest => by
        unfold parseAttr
        rw [if_neg (by decide), if_neg (by decide), if_pos rfl, parseErrorCode_tlv (hs.errorCode v hv) (hw.errorCode v hv).2 (hr.errorCode v hv).1 (hr.errorCode v hv).2]; rfl)
      (fun _ => by cases h : a.errorCode <;> simp [s14, Attrs.onWire, s13, s12, s11, s10, s9, s8, s7, s6, s5, s4, s3, s2, s1, h, PState.assign])
  exact ((((((((((((c1.append c2).append c3).append c4).append c5).append c6).append c7).append
    c8).append c9).append c10).append c11).append c12).append c13).append c14

/-! ### The whole message -/

/-- The 20 byte header. -/
def hdr (typ len : Nat) (tid : List Byte) : List Byte := be16 typ ++ be16 len ++ magic ++ tid

theorem hdr_length {typ len : Nat} {tid : List Byte} (ht : tid.length = 12) :
    (hdr typ len tid).length = 20 := by simp [hdr, magic, ht]

theorem overwrite_mid (x y z v : List Byte) {n : Nat} (hn : x.length = n)
    (hv : y.length = v.length) : overwrite (x ++ y ++ z) n v = .ok (x ++ v ++ z) := by
  unfold overwrite
  rw [if_pos (by simp; omega)]
  have h1 : (x ++ y ++ z).take n = x := by rw [List.append_assoc]; exact List.take_left' hn
  have h2 : (x ++ y ++ z).drop (n + v.length) = z :=
    List.drop_left' (by simp; omega)
  rw [h1, h2]

/-- The class bits C1 C0 of the type field (RFC 8489 figure 3). -/
def classBits : Class → Nat
  | .request => 0x000 | .indication => 0x010 | .success => 0x100 | .failure => 0x110
  | .unknown => 0

/-- The method numbers of the IANA registry. -/
def methodBits : Method → Nat
  | .binding => 1 | .allocate => 3 | .refresh => 4 | .send => 6 | .data => 7
  | .createPermission => 8 | .channelBind => 9 | .unknown => 0

/-- The type field of a message. -/
def typOf (c : Class) (m : Method) : Nat := classBits c ||| methodBits m

/-- The MESSAGE-INTEGRITY attribute: the HMAC over the header, with the length field covering
everything up to and including this attribute, and the attributes before it. -/
def miPart (env : Env) (m : Msg) (password : Option (List Byte)) : List Byte :=
  match password with
  | some pw => tlv MESSAGE_INTEGRITY (env.hmac pw
      (hdr (typOf m.cls m.method) (paddedLen m.attrs + 24) m.transId ++ encAttrs m.transId m.attrs))
  | none => []

/-- The message without its FINGERPRINT. -/
def front (env : Env) (m : Msg) (password : Option (List Byte)) : List Byte :=
  hdr (typOf m.cls m.method) (paddedLen m.attrs + (if password.isSome then 24 else 0) + 8) m.transId
    ++ encAttrs m.transId m.attrs ++ miPart env m password

/-- The complete message. -/
def wire (env : Env) (m : Msg) (password : Option (List Byte)) : List Byte :=
  front env m password ++ tlv FINGERPRINT (be32 (env.crc (front env m password) ^^^ 0x5354554e))

theorem miPart_length (env : Env) (m : Msg) (password : Option (List Byte)) :
    (miPart env m password).length = if password.isSome then 24 else 0 := by
  cases password with
  | none => rfl
  | some pw => simp [miPart, tlv_length, env.hmac_len, calculatePad]

theorem front_length {env : Env} {m : Msg} (password : Option (List Byte))
    (hw : m.attrs.Typed env) (ht : m.transId.length = 12) :
    (front env m password).length =
      20 + paddedLen m.attrs + (if password.isSome then 24 else 0) := by
  simp only [front, List.length_append, hdr_length ht, encAttrs_length hw ht, miPart_length]

theorem wire_length {env : Env} {m : Msg} (password : Option (List Byte))
    (hw : m.attrs.Typed env) (ht : m.transId.length = 12) :
    (wire env m password).length =
      20 + paddedLen m.attrs + (if password.isSome then 24 else 0) + 8 := by
  simp only [wire, List.length_append, front_length password hw ht, tlv_length, be32_length,
    calculatePad_four]

theorem writeIntegrity_eq (cap : Nat) (b : Bool) (out : List Byte) (h : out.length ≤ cap) :
    writeIntegrity cap b out =
      write cap (if b then be16 MESSAGE_INTEGRITY ++ be16 20 ++ List.replicate 20 0 else []) out := by
  unfold writeIntegrity
  cases b
  · simp [write_nil cap out h]
  · simp only [bind_def, if_true]; rw [write_then, write_write]

/-- `to_bytes` succeeds exactly when the message fits the buffer, and then writes `wire`. -/
theorem toBytes_eq {env : Env} {m : Msg} {password : Option (List Byte)} {cap : Nat}
    (hw : m.attrs.Typed env) (hs : m.attrs.Short) (ht : m.transId.length = 12)
    (hc : m.cls ≠ .unknown) (hm : m.method ≠ .unknown) :
    toBytes env m password cap =
      if (wire env m password).length ≤ cap then .ok (wire env m password) else .err () := by
  have hcu : m.cls.toU16 = .ok (classBits m.cls) := by
    cases h : m.cls <;> simp_all [Class.toU16, classBits]
  have hmu : m.method.toU16 = .ok (methodBits m.method) := by
    cases h : m.method <;> simp_all [Method.toU16, methodBits]
  unfold toBytes
  simp only [bind_def, hcu, hmu, bind_ok]
  rw [write_then, write_then, write_then]
  simp only [← bind_assoc']
  rw [bind_write (fun o ho => attrsToBytes_eq hw hs ht ho),
    bind_write (fun o ho => writeIntegrity_eq cap password.isSome o ho), write_write, write_write,
    write_write]
  have hd0l := hdr_length (typ := typOf m.cls m.method)
    (len := paddedLen m.attrs + (if password.isSome = true then 24 else 0) + 4 + 4 - 8) ht
  rw [show be16 (classBits m.cls ||| methodBits m.method) ++
      be16 (paddedLen m.attrs + (if password.isSome = true then 24 else 0) + 4 + 4 - 8) ++
      magic ++ m.transId = hdr (typOf m.cls m.method)
        (paddedLen m.attrs + (if password.isSome = true then 24 else 0) + 4 + 4 - 8) m.transId
      from rfl]
  have hel := encAttrs_length hw ht
  have hwl := wire_length password hw ht
  unfold write
  by_cases hcap : (wire env m password).length ≤ cap
  · rw [if_pos (by
      simp only [List.length_append, List.length_nil, hd0l, hel, be16_length, List.length_replicate]
      cases password <;> simp at * <;> omega), if_pos hcap]
    simp only [bind_ok, List.nil_append]
    generalize hD : encAttrs m.transId m.attrs = D at *
    generalize hP : paddedLen m.attrs = P at *
    have ow2 : ∀ (n n' : Nat) (z : List Byte),
        overwrite (hdr (typOf m.cls m.method) n m.transId ++ z) 2 (be16 n') =
          .ok (hdr (typOf m.cls m.method) n' m.transId ++ z) := by
      intro n n' z
      have := overwrite_mid (be16 (typOf m.cls m.method)) (be16 n) (magic ++ m.transId ++ z)
        (be16 n') (n := 2) rfl rfl
      simpa [hdr] using this
    have hh : ∀ n, (hdr (typOf m.cls m.method) n m.transId).length = 20 :=
      fun n => hdr_length ht
    cases password with
    | none =>
      simp only [fillIntegrity, Option.isSome_none, Bool.false_eq_true, if_false, bind_ok, pure_def,
        List.append_nil, Nat.add_zero, List.append_assoc]
      rw [ow2]
      simp only [bind_ok]
      rw [upto_of_le (by simp [hh]; omega)]
      simp only [bind_ok]
      have hf : front env m none = hdr (typOf m.cls m.method) (P + 4 + 4) m.transId ++ D := by
        simp [front, miPart, hD, hP]
      have e1 : (hdr (typOf m.cls m.method) (P + 4 + 4) m.transId ++
          (D ++ (be16 FINGERPRINT ++ (be16 4 ++ List.replicate 4 0)))).take (20 + P + 4 - 4) =
          front env m none := by
        rw [hf, ← List.append_assoc]
        apply List.take_left'
        simp [hh]; omega
      rw [e1]
      have := overwrite_mid (front env m none ++ (be16 FINGERPRINT ++ be16 4)) (List.replicate 4 0) []
        (be32 (env.crc (front env m none) ^^^ 0x5354554e)) (n := 20 + P + 4)
        (by simp [hf, hh]; omega) (by simp)
      have e2 : front env m none ++ (be16 FINGERPRINT ++ be16 4) ++ List.replicate 4 0 ++ [] =
          hdr (typOf m.cls m.method) (P + 4 + 4) m.transId ++
          (D ++ (be16 FINGERPRINT ++ (be16 4 ++ List.replicate 4 0))) := by
        simp [hf]
      rw [e2] at this
      rw [this]
      simp [wire, tlv, calculatePad_four]
    | some pw =>
      simp only [fillIntegrity, Option.isSome_some, if_true, bind_ok, pure_def, bind_def,
        List.append_assoc]
      rw [upto_of_le (by simp [hh]; omega)]
      simp only [bind_ok]
      have e0 : (hdr (typOf m.cls m.method) (P + 24 + 4 + 4 - 8) m.transId ++
          (D ++ (be16 MESSAGE_INTEGRITY ++ (be16 20 ++ (List.replicate 20 0 ++
            (be16 FINGERPRINT ++ (be16 4 ++ List.replicate 4 0))))))).take (20 + P + 4 - 4) =
          hdr (typOf m.cls m.method) (P + 24) m.transId ++ D := by
        rw [← List.append_assoc]
        apply List.take_left'
        simp [hh]; omega
      rw [e0]
      have hl := env.hmac_len pw (hdr (typOf m.cls m.method) (P + 24) m.transId ++ D)
      have hmi : miPart env m (some pw) = be16 MESSAGE_INTEGRITY ++ be16 20 ++
          env.hmac pw (hdr (typOf m.cls m.method) (P + 24) m.transId ++ D) := by
        simp [miPart, tlv, hP, hD, hl, calculatePad]
      generalize hH : env.hmac pw (hdr (typOf m.cls m.method) (P + 24) m.transId ++ D) = H at *
      have o1 := overwrite_mid (hdr (typOf m.cls m.method) (P + 24 + 4 + 4 - 8) m.transId ++
          (D ++ (be16 MESSAGE_INTEGRITY ++ be16 20))) (List.replicate 20 0)
          (be16 FINGERPRINT ++ (be16 4 ++ List.replicate 4 0)) H (n := 20 + P + 4)
          (by simp [hh]; omega) (by simp [hl])
      simp only [List.append_assoc] at o1
      rw [o1]
      simp only [bind_ok]
      rw [ow2]
      simp only [bind_ok]
      rw [upto_of_le (by simp [hh]; omega)]
      simp only [bind_ok]
      have hf : front env m (some pw) = hdr (typOf m.cls m.method) (P + 24 + 4 + 4) m.transId ++ D ++
          (be16 MESSAGE_INTEGRITY ++ be16 20 ++ H) := by
        simp [front, hmi, hD, hP]
      have e1 : (hdr (typOf m.cls m.method) (P + 24 + 4 + 4) m.transId ++
          (D ++ (be16 MESSAGE_INTEGRITY ++ (be16 20 ++ (H ++
          (be16 FINGERPRINT ++ (be16 4 ++ List.replicate 4 0))))))).take (20 + P + 4 + 24 - 4) =
          front env m (some pw) := by
        rw [hf]
        simp only [← List.append_assoc]
        rw [List.append_assoc (_ ++ H), List.append_assoc (_ ++ H)]
        apply List.take_left'
        simp [hh, hl]; omega
      rw [e1]
      have := overwrite_mid (front env m (some pw) ++ (be16 FINGERPRINT ++ be16 4))
        (List.replicate 4 0) []
        (be32 (env.crc (front env m (some pw)) ^^^ 0x5354554e)) (n := 20 + P + 4 + 24)
        (by simp [hf, hh, hl]; omega) (by simp)
      have e2 : front env m (some pw) ++ (be16 FINGERPRINT ++ be16 4) ++ List.replicate 4 0 ++ [] =
          hdr (typOf m.cls m.method) (P + 24 + 4 + 4) m.transId ++
          (D ++ (be16 MESSAGE_INTEGRITY ++ (be16 20 ++ (H ++
          (be16 FINGERPRINT ++ (be16 4 ++ List.replicate 4 0)))))) := by
        simp [hf]
      rw [e2] at this
      rw [this]
      simp [wire, tlv, calculatePad_four]
  · rw [if_neg (by
      simp only [List.length_append, List.length_nil, hd0l, hel, be16_length, List.length_replicate]
      cases password <;> simp at * <;> omega), if_neg hcap]
    rfl

/-! ### Parsing the whole message -/

theorem optLen_mod {α : Type} {o : Option α} {f : α → Nat} (h : ∀ x, f x % 4 = 0) :
    optLen o f % 4 = 0 := by
  cases o with
  | none => rfl
  | some x => exact h x

theorem paddedLen_mod (a : Attrs) : paddedLen a % 4 = 0 := by
  have hs : ∀ o : Option (List Byte),
      optLen o (fun v => 4 + v.length + calculatePad v.length) % 4 = 0 :=
    fun o => optLen_mod (fun v => by have := calculatePad_add v.length; omega)
  have hx : ∀ o : Option Addr, optLen o (fun v => 4 + addrLen v) % 4 = 0 :=
    fun o => optLen_mod (fun v => by cases v <;> simp [addrLen])
  have h8 : ∀ o : Option Nat, optLen o (fun _ => 4 + 8) % 4 = 0 :=
    fun o => optLen_mod (fun v => rfl)
  have h4 : ∀ o : Option Nat, optLen o (fun _ => 4 + 4) % 4 = 0 :=
    fun o => optLen_mod (fun v => rfl)
  have he : optLen a.errorCode (fun v => 4 + 4 + v.2.length + calculatePad v.2.length) % 4 = 0 :=
    optLen_mod (fun v => by have := calculatePad_add v.2.length; omega)
  have hu : (if a.useCandidate then 4 else 0) % 4 = 0 := by split <;> rfl
  have := hs a.username
  have := h8 a.iceControlled
  have := h8 a.iceControlling
  have := h4 a.priority
  have := hx a.xorMappedAddress
  have := hx a.xorPeerAddress
  have := hx a.xorRelayedAddress
  have := hs a.data
  have := h4 a.channelNumber
  have := h4 a.lifetime
  have := hs a.realm
  have := hs a.nonce
  simp only [paddedLen]
  omega

theorem typ_roundtrip (c : Class) (m : Method) (hc : c ≠ .unknown) (hm : m ≠ .unknown) :
    Class.fromTyp (((u8 (typOf c m / 2^8)).val &&& 0x3f) * 256 + (u8 (typOf c m)).val) = c ∧
    Method.fromTyp (((u8 (typOf c m / 2^8)).val &&& 0x3f) * 256 + (u8 (typOf c m)).val) = m := by
  cases c <;> cases m <;> first | exact absurd rfl hc | exact absurd rfl hm | decide

/-- What the parser requires of Binding requests and replies on top of being well formed. -/
def Msg.Complete (m : Msg) (password : Option (List Byte)) : Prop :=
  (m.method = .binding → m.cls = .success →
    password.isSome ∧ m.attrs.xorMappedAddress.isSome) ∧
  (m.method = .binding → m.cls = .request →
    password.isSome ∧ (splitUsername m.attrs).isSome ∧ m.attrs.priority.isSome)

/-- The HMAC a message carries. -/
def macOf (env : Env) (m : Msg) (pw : List Byte) : List Byte :=
  env.hmac pw (hdr (typOf m.cls m.method) (paddedLen m.attrs + 24) m.transId ++
    encAttrs m.transId m.attrs)

/-- What parsing the serialised message gives. -/
def received (env : Env) (m : Msg) (password : Option (List Byte)) : Msg :=
  { method := m.method, cls := m.cls, transId := m.transId
    attrs := { m.attrs.onWire with
      messageIntegrity := password.map (macOf env m)
      fingerprint := some (env.crc (front env m password) ^^^ 0x5354554e) }
    integrity := if password.isSome ∧ paddedLen m.attrs > 0 then
        hdr (typOf m.cls m.method) (paddedLen m.attrs + 32) m.transId ++
          encAttrs m.transId m.attrs
      else []
    integrityLen := if password.isSome ∧ paddedLen m.attrs > 0 then paddedLen m.attrs + 24 else 0 }

theorem fp_lt (env : Env) (x : List Byte) : env.crc x ^^^ 0x5354554e < 2^32 :=
  Nat.xor_lt_two_pow (env.crc_lt x) (by decide)

theorem parseLoop_nil (env : Env) (tid : List Byte) (off : Nat) (s : PState) :
    parseLoop env tid [] off s = .ok s := by rw [parseLoop]; rfl

theorem parseLoop_fp {env : Env} {tid : List Byte} {off n : Nat} {s : PState} (hn : n < 2^32) :
    parseLoop env tid (tlv FINGERPRINT (be32 n)) off s =
      .ok { s with attrs.fingerprint := some n } := by
  have := parseLoop_tlv (env := env) (tid := tid) (typ := FINGERPRINT) (val := be32 n) (rest := [])
    (off := off) (s := s) (t := { s with attrs.fingerprint := some n }) (by decide) (by simp) (by
      unfold dispatch
      rw [if_pos (Or.inr rfl)]
      unfold parseAttr
      rw [if_neg (by decide), if_neg (by decide), if_neg (by decide), if_neg (by decide),
        if_neg (by decide), if_neg (by decide), if_neg (by decide), if_neg (by decide),
        if_neg (by decide), if_neg (by decide), if_neg (by decide), if_neg (by decide),
        if_neg (by decide), if_neg (by decide), if_pos rfl, attrU32_tlv hn]
      rfl)
  rw [List.append_nil] at this
  rw [this, parseLoop_nil]

theorem parseLoop_mi {env : Env} {tid rest v : List Byte} {off : Nat} {s : PState}
    (hv : v.length = 20) (hig : s.ignoreRest = false) :
    parseLoop env tid (tlv MESSAGE_INTEGRITY v ++ rest) off s =
      parseLoop env tid rest (off + (tlv MESSAGE_INTEGRITY v).length)
        { attrs := { s.attrs with messageIntegrity := some v }, ignoreRest := true,
          miOff := off } := by
  apply parseLoop_tlv (by decide) (by omega)
  unfold dispatch
  rw [if_pos (Or.inl hig)]
  unfold parseAttr
  rw [if_neg (by decide), if_pos rfl, attrIntegrity_tlv hv]
  rfl

theorem splitUsername_onWire (a : Attrs) (x : Option (List Byte)) (y : Option Nat) :
    splitUsername { a.onWire with messageIntegrity := x, fingerprint := y } = splitUsername a := rfl

theorem paddedLen_pos_of_priority {a : Attrs} (h : a.priority.isSome) : 0 < paddedLen a := by
  cases hp : a.priority with
  | none => simp [hp] at h
  | some v => simp [paddedLen, hp, optLen]

theorem paddedLen_pos_of_mapped {a : Attrs} (h : a.xorMappedAddress.isSome) :
    0 < paddedLen a := by
  cases hp : a.xorMappedAddress with
  | none => simp [hp] at h
  | some v => simp [paddedLen, hp, optLen]

theorem parse_wire {env : Env} {m : Msg} {password : Option (List Byte)}
    (hw : m.attrs.Typed env) (hs : m.attrs.Short) (hr : m.attrs.InRange)
    (ht : m.transId.length = 12) (hc : m.cls ≠ .unknown) (hm : m.method ≠ .unknown)
    (hcomp : m.Complete password) (hsize : (wire env m password).length < 2^16 + 20) :
    parse env (wire env m password) = .ok (received env m password) := by
  have hwl := wire_length password hw ht
  have hel := encAttrs_length hw ht
  have hmod := paddedLen_mod m.attrs
  obtain ⟨tc, tm⟩ := typ_roundtrip m.cls m.method hc hm
  set K := if password.isSome then 24 else 0 with hK
  have hKv : K % 4 = 0 := by rw [hK]; split <;> rfl
  -- the shape of the message
  have shape : wire env m password = u8 (typOf m.cls m.method / 2^8) :: u8 (typOf m.cls m.method) ::
      u8 ((paddedLen m.attrs + K + 8) / 2^8) :: u8 (paddedLen m.attrs + K + 8) ::
      (magic ++ m.transId ++ (encAttrs m.transId m.attrs ++ (miPart env m password ++
        tlv FINGERPRINT (be32 (env.crc (front env m password) ^^^ 0x5354554e))))) := by
    simp [wire, front, hdr, be16, hK]
  have hlenf : rdU16 (wire env m password) 2 = .ok (paddedLen m.attrs + K + 8) := by
    apply rdU16_drop (magic ++ m.transId ++ (encAttrs m.transId m.attrs ++ (miPart env m password ++
        tlv FINGERPRINT (be32 (env.crc (front env m password) ^^^ 0x5354554e))))) 2 (by omega)
    rw [shape]; rfl
  have hmg : Res.slice (ε := Unit) (wire env m password) 4 8 = .ok magic := by
    rw [slice_of_le (by omega) (by omega), shape]; rfl
  have htid : Res.slice (ε := Unit) (wire env m password) 8 20 = .ok m.transId := by
    rw [slice_of_le (by omega) (by omega), show (20 : Nat) = 8 + 12 from rfl, ← List.take_drop, shape]
    simp only [magic, List.drop_succ_cons, List.cons_append, List.drop_zero, List.nil_append]
    rw [List.take_left' ht]
  have hbody : Res.from_ (ε := Unit) (wire env m password) 20 =
      .ok (encAttrs m.transId m.attrs ++ (miPart env m password ++
        tlv FINGERPRINT (be32 (env.crc (front env m password) ^^^ 0x5354554e)))) := by
    rw [from_of_le (by omega), shape]
    simp only [magic, List.drop_succ_cons, List.cons_append, List.nil_append]
    rw [List.drop_left' ht]
  have hi0 : Res.idx (ε := Unit) (wire env m password) 0 = .ok (u8 (typOf m.cls m.method / 2^8)) := by
    rw [shape]; rfl
  have hi1 : Res.idx (ε := Unit) (wire env m password) 1 = .ok (u8 (typOf m.cls m.method)) := by
    rw [shape]; rfl
  unfold parse
  rw [if_neg (by omega)]
  simp only [bind_def, hi0, hi1, bind_ok, hlenf]
  rw [if_neg (by omega), if_neg (by omega)]
  simp only [hmg, bind_ok, ne_eq, not_true_eq_false, if_false, htid, hbody, tc, tm]
  rw [consumes_encAttrs hw hs hr ht]
  simp only [Nat.zero_add, hel]
  have hfp := fp_lt env (front env m password)
  cases password with
  | none =>
    simp only [miPart, List.nil_append]
    rw [parseLoop_fp hfp]
    simp only [bind_ok]
    have hcv : covered (wire env m none) 0 = .ok [] := rfl
    unfold parseFinish
    simp only [bind_def, hcv, bind_ok]
    rw [if_neg (by rintro ⟨a, b⟩; have := (hcomp.1 a b).1; simp at this),
      if_neg (by rintro ⟨a, b⟩; have := (hcomp.2 a b).1; simp at this)]
    simp [received, Attrs.onWire]
  | some pw =>
    have hK' : K = 24 := by simp [hK]
    simp only [miPart]
    rw [parseLoop_mi (env.hmac_len _ _) rfl, parseLoop_fp hfp]
    simp only [bind_ok]
    have hcv : covered (wire env m (some pw)) (paddedLen m.attrs) = .ok
        (if paddedLen m.attrs > 0 then
          hdr (typOf m.cls m.method) (paddedLen m.attrs + 32) m.transId ++
            encAttrs m.transId m.attrs else []) := by
      unfold covered
      split
      · rw [upto_of_le (by omega)]
        congr 1
        have : wire env m (some pw) = hdr (typOf m.cls m.method) (paddedLen m.attrs + 32) m.transId ++
            encAttrs m.transId m.attrs ++ (miPart env m (some pw) ++
              tlv FINGERPRINT (be32 (env.crc (front env m (some pw)) ^^^ 0x5354554e))) := by
          simp [wire, front]
        rw [this]
        apply List.take_left'
        simp [hdr_length ht, hel]; omega
      · rfl
    unfold parseFinish
    simp only [bind_def, hcv, bind_ok, splitUsername_onWire]
    have hlt : (paddedLen m.attrs + 24) % 2^16 = paddedLen m.attrs + 24 :=
      Nat.mod_eq_of_lt (by omega)
    by_cases h1 : m.method = .binding ∧ m.cls = .success
    · have hx := (hcomp.1 h1.1 h1.2).2
      have hp := paddedLen_pos_of_mapped hx
      rw [if_pos h1, if_neg (by omega), if_neg (by
        intro h; simp [Attrs.onWire] at h; simp [h] at hx)]
      simp only [received, Option.isSome_some, true_and, Option.map_some, macOf, hlt, pure_def]
    · rw [if_neg h1]
      by_cases h2 : m.method = .binding ∧ m.cls = .request
      · obtain ⟨-, hsu, hpr⟩ := hcomp.2 h2.1 h2.2
        have hp := paddedLen_pos_of_priority hpr
        rw [if_pos h2, if_neg (by omega), if_neg (by intro h; simp [h] at hsu), if_neg (by
          intro h; simp [Attrs.onWire] at h; simp [h] at hpr)]
        simp only [received, Option.isSome_some, true_and, Option.map_some, macOf, hlt, pure_def]
      · rw [if_neg h2]
        simp only [received, Option.isSome_some, true_and, Option.map_some, macOf, hlt, pure_def]

/-- The receiver's integrity check of a message serialised with the same password. -/
theorem verify_received {env : Env} {m : Msg} {pw : List Byte} (ht : m.transId.length = 12)
    (hp : 0 < paddedLen m.attrs) :
    verify env (received env m (some pw)) pw = .ok true := by
  have hl := hdr_length (typ := typOf m.cls m.method) (len := paddedLen m.attrs + 32) ht
  unfold verify
  simp only [received, Option.map_some, Option.isSome_some, true_and, gt_iff_lt, hp, if_true,
    bind_def]
  rw [upto_of_le (by simp [hl]; omega), from_of_le (by simp [hl]; omega)]
  simp only [bind_ok, pure_def, Res.ok.injEq, decide_eq_true_eq, macOf]
  congr 1
  simp [hdr, be16]

end Str0m.Stun
