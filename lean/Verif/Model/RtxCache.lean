import Verif.Base
/-
  Model of the sender's resend cache: src/streams/rtx_cache_buf.rs 1-264 and
  src/streams/rtx_cache.rs 1-74.
-/
namespace Str0m

/-- rtx_cache_buf.rs 31-40 -/
structure CacheEntry (T : Type) where
  position : Nat
  timestamp : Nat
  value : T
deriving Repr, DecidableEq

/-- rtx_cache_buf.rs 15-29. `Instant`/`Duration` are ticks. -/
structure EvictingBuffer (T : Type) where
  buf : List (Option (CacheEntry T))
  maxAge : Nat
  maxSize : Nat
  lastPosition : Option Nat
  nextEvict : Option Nat
  lastTimeout : Nat
deriving DecidableEq

namespace EvictingBuffer
variable {T : Type}

/-- rtx_cache_buf.rs 44-63. `already_happened()` is the beginning of time, 0. -/
def new (initialSize maxAge maxSize : Nat) : EvictingBuffer T :=
  { buf := List.replicate initialSize none, maxAge := maxAge, maxSize := maxSize,
    lastPosition := none, nextEvict := none, lastTimeout := 0 }

/-- rtx_cache_buf.rs 65-67 -/
def indexFor (b : EvictingBuffer T) (position : Nat) : Nat := position % b.buf.length

/-- rtx_cache_buf.rs 69-72 -/
def isInert (b : EvictingBuffer T) : Bool := b.buf.isEmpty || b.maxAge == 0

/-- `self.buf[index]` as a slot content. The index is always `position % len`, which is in
bounds because the buffer is not inert, so the default of `getD` is never used. -/
def slot (b : EvictingBuffer T) (i : Nat) : Option (CacheEntry T) := b.buf.getD i none

/-- rtx_cache_buf.rs 224-227: one step of moving the entries to the new buffer. -/
def putHome (m : Nat) (acc : List (Option (CacheEntry T))) (e : Option (CacheEntry T)) :
    List (Option (CacheEntry T)) :=
  match e with
  | none => acc
  | some e => acc.set (e.position % m) (some e)

/-- rtx_cache_buf.rs 219-227 -/
def rehash (m : Nat) (old : List (Option (CacheEntry T))) : List (Option (CacheEntry T)) :=
  old.foldl (putHome m) (List.replicate m none)

/-- rtx_cache_buf.rs 114-118: the write at the slot of `position`. -/
def store (b : EvictingBuffer T) (e : CacheEntry T) : EvictingBuffer T :=
  { b with lastPosition := some e.position, buf := b.buf.set (b.indexFor e.position) (some e) }

/-- rtx_cache_buf.rs 207-228 -/
def grow (b : EvictingBuffer T) : EvictingBuffer T :=
  if b.buf.length ≥ b.maxSize then b
  else
    let newSize := max (min b.maxSize ((b.buf.length * 133) / 100)) (b.buf.length + 1)
    { b with buf := rehash newSize b.buf }

/-- rtx_cache_buf.rs 102-111 -/
def makeSpace (b : EvictingBuffer T) (position : Nat) : EvictingBuffer T :=
  match b.slot (b.indexFor position) with
  | some entry => if entry.position ≠ position then b.grow else b
  | none => b

/-- rtx_cache_buf.rs 77-119 -/
def push (b : EvictingBuffer T) (position timestamp : Nat) (value : T) : EvictingBuffer T :=
  if b.isInert then b
  else if timestamp < b.lastTimeout then b
  else
    let nextEvict := b.nextEvict.getD position
    let b := { b with nextEvict := some nextEvict }
    if position < nextEvict then b
    else
      (b.makeSpace position).store { position := position, timestamp := timestamp, value := value }

/-- rtx_cache_buf.rs 123-149 (`get` and `get_mut`; the callers never change the value). -/
def get (b : EvictingBuffer T) (position : Nat) : Option T :=
  if b.isInert then none
  else match b.slot (b.indexFor position) with
    | some entry => if entry.position = position then some entry.value else none
    | none => none

/-- rtx_cache_buf.rs 174-202: the eviction loop, from `position`, with fuel. `none` means the
fuel ran out (proved impossible with fuel `len + 1`). -/
def evictLoop (b : EvictingBuffer T) (now startPos : Nat) :
    Nat → Nat → Option (EvictingBuffer T × Nat)
  | 0, _ => none
  | fuel + 1, position =>
    let index := b.indexFor position
    if index = b.indexFor startPos ∧ position > startPos then some (b, position)
    else match b.slot index with
      | none => evictLoop b now startPos fuel (position + 1)
      | some entry =>
        let age := now - entry.timestamp
        if age > b.maxAge then
          evictLoop { b with buf := b.buf.set index none } now startPos fuel (position + 1)
        else some (b, position)

/-- rtx_cache_buf.rs 165-205 -/
def evict (b : EvictingBuffer T) (now : Nat) : EvictingBuffer T :=
  match b.nextEvict with
  | none => b
  | some start =>
    match evictLoop b now start (b.buf.length + 1) start with
    | some (b, position) => { b with nextEvict := some position }
    | none => b

/-- rtx_cache_buf.rs 151-163 -/
def maybeEvict (b : EvictingBuffer T) (now : Nat) : EvictingBuffer T :=
  if b.isInert then b
  else if now < b.lastTimeout then b
  else evict { b with lastTimeout := now } now

/-- rtx_cache_buf.rs 230-237 -/
def contains (b : EvictingBuffer T) (position : Nat) : Bool :=
  if b.isInert then false else (b.slot (b.indexFor position)).isSome

/-- rtx_cache_buf.rs 239-245 -/
def lastPos (b : EvictingBuffer T) : Option Nat := if b.isInert then none else b.lastPosition

/-- rtx_cache_buf.rs 256-263 -/
def clear (b : EvictingBuffer T) : EvictingBuffer T :=
  { b with buf := List.replicate b.buf.length none, lastPosition := none, nextEvict := none,
           lastTimeout := 0 }

end EvictingBuffer

/-- rtx_cache.rs 10 -/
def RTX_QUANTIZER : Nat := 25
/-- rtx_cache.rs 11; `DATAGRAM_MAX_PACKET_SIZE = 2000` -/
def RTX_SLOTS : Nat := 2000 / 25
/-- `SeqNo::MAX`, the sentinel of rtx_cache.rs 18-21 -/
def SEQ_MAX : Nat := 2 ^ 64 - 1

/-- The header extension values of a frame, each an opaque number; `other` is all the rest:
src/rtp/ext.rs 640-720. -/
structure TxExt where
  absCapture : Option Nat := none
  layers : Option Nat := none
  orientation : Option Nat := none
  contentType : Option Nat := none
  timing : Option Nat := none
  other : Nat := 0
deriving Repr, DecidableEq

/-- The part of an outgoing `RtpPacket` that only `StreamTx` looks at: src/streams/mod.rs 30-78. -/
structure TxInfo where
  pt : Nat := 0
  time : Nat := 0
  marker : Bool := false
  nackable : Bool := false
  mid : Option Nat := none
  rid : Option Nat := none
  ext : TxExt := {}
deriving Repr, DecidableEq

/-- `RtpPacket` as the cache holds it: src/streams/mod.rs 30-78. -/
structure CachedPacket where
  seqNo : Nat
  payload : List Byte
  info : TxInfo := {}
deriving Repr, DecidableEq

/-- rtx_cache.rs 14-22 -/
structure RtxCache where
  packets : EvictingBuffer CachedPacket
  bySize : List Nat
deriving DecidableEq

namespace RtxCache

/-- rtx_cache.rs 25-30 -/
def new (maxPackets maxAge : Nat) : RtxCache :=
  { packets := .new 10 maxAge maxPackets, bySize := List.replicate RTX_SLOTS SEQ_MAX }

/-- rtx_cache.rs 32-39. Indexing `seq_no_by_quantized_size` with a payload of 2000 bytes or
more panics. -/
def cacheSent (c : RtxCache) (p : CachedPacket) (now : Nat) : Res Unit RtxCache :=
  let q := p.payload.length / RTX_QUANTIZER
  let packets := c.packets.push p.seqNo now p
  if q < c.bySize.length then
    .ok { packets := packets.maybeEvict now, bySize := c.bySize.set q p.seqNo }
  else .panic

/-- rtx_cache.rs 45-47 -/
def getBySeqNo (c : RtxCache) (seq : Nat) : Option CachedPacket := c.packets.get seq

/-- rtx_cache.rs 49-59. Slicing beyond the 80 slots panics. -/
def getSmallerThan (c : RtxCache) (maxSize : Nat) : Res Unit (Option CachedPacket) :=
  let q := maxSize / RTX_QUANTIZER
  if q ≤ c.bySize.length then
    .ok (((c.bySize.take q).reverse.filter (· ≠ SEQ_MAX)).find? (fun s => c.packets.contains s)
      |>.bind (fun s => c.getBySeqNo s))
  else .panic

/-- rtx_cache.rs 41-43 -/
def lastCached (c : RtxCache) : Option Nat := c.packets.lastPos

/-- rtx_cache.rs 65-68 with rtx_cache_buf.rs 247-254 -/
def lastPacket (c : RtxCache) : Option (List Byte) := (c.packets.lastPos.bind c.packets.get).map (·.payload)

/-- rtx_cache.rs 70-73 -/
def clear (c : RtxCache) : RtxCache :=
  { packets := c.packets.clear, bySize := List.replicate RTX_SLOTS SEQ_MAX }

end RtxCache
end Str0m
