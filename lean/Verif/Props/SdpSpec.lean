import Verif.Proofs.CandText

/-!
What an SDP must be like to be printed and read back, and what the reader then has (C75). Nothing here uses the parser.
-/

namespace Str0m.Sdp
open Str0m.Text Str0m.StrId Str0m.Profiles Str0m.Pts
open Str0m.Negotiate (Dir Setup)

/-- A value: not empty, on one line -/
def Val (s : Str) : Prop := s ≠ [] ∧ ∀ c ∈ s, c ≠ '\r' ∧ c ≠ '\n'

/-- The text of a `Mid`: up to 16 letters, digits and underscores -/
def MidText (m : Str) : Prop := m ≠ [] ∧ m.length ≤ 16 ∧ ∀ c ∈ m, isAlnum c = true ∨ c = '_'

/-- What is assumed of the surroundings: a map has an order, addresses have a text, the separators are not alphanumeric. -/
structure EnvOk (env : Env Ip) : Prop where
  order : env.Lawful
  ip : env.IpOk
  alnum : ∀ c ∈ [' ', ';', ',', '~', '\r', '\n'], env.alnum c = false
  version : ∀ c ∈ env.version, c ≠ ' ' ∧ c ≠ '\r' ∧ c ≠ '\n'

def FingerprintOk (f : Fingerprint) : Prop := Tok f.hash ∧ f.bytes ≠ []

def BwOk (b : Bandwidth) : Prop := b.typ ≠ [] ∧ (∀ c ∈ b.typ, c ≠ ':') ∧ Val b.val

/-- An unknown attribute: none of the known ones -/
def UnusedOk (keys flags : List Str) (v : Str) : Prop := Val v ∧ (∀ k ∈ keys, ¬ (k ++ c!":") <+: v) ∧ ∀ k ∈ flags, v ≠ k

def sessKeys : List Str := [c!"group", c!"msid-semantic", c!"ice-ufrag", c!"ice-pwd", c!"ice-options", c!"fingerprint", c!"setup", c!"candidate"]
def sessFlags : List Str := [c!"ice-lite", c!"end-of-candidates"]
def mediaKeys : List Str := [c!"ice-ufrag", c!"ice-pwd", c!"ice-options", c!"fingerprint", c!"setup", c!"mid", c!"sctp-port", c!"max-message-size",
  c!"sctp-init", c!"extmap", c!"msid", c!"rtcp", c!"candidate", c!"rtpmap", c!"rtcp-fb", c!"fmtp", c!"rid", c!"simulcast", c!"ssrc-group", c!"ssrc"]
def mediaFlags : List Str := [c!"recvonly", c!"sendrecv", c!"sendonly", c!"inactive", c!"rtcp-mux", c!"rtcp-mux-only", c!"rtcp-rsize", c!"end-of-candidates"]

/-- A session attribute that can be printed -/
def SessAttr.Ok : SessAttr Ip → Prop
  | .group typ mids => Tok typ ∧ ∀ m ∈ mids, MidText m
  | .msidSemantic s ids => Tok s ∧ ∀ i ∈ ids, Tok i
  | .iceUfrag v | .icePwd v | .iceOptions v => Val v
  | .fingerprint f => FingerprintOk f
  | .candidate c => CandOk c
  | .unused v => UnusedOk sessKeys sessFlags v
  | .allowMixedExts | .iceLite | .setup _ | .endOfCandidates => True

/-- What the reader has of it. `extmap-allow-mixed` is not known to the parser; a group without mids and an msid-semantic without ids
do not parse and become unknown attributes. -/
def SessAttr.received : SessAttr Ip → SessAttr Ip
  | .allowMixedExts => .unused c!"extmap-allow-mixed"
  | .group typ [] => .unused (c!"group:" ++ typ ++ c!" ")
  | .msidSemantic s [] => .unused (c!"msid-semantic: " ++ s ++ c!" ")
  | a => a

/-- A rid: not empty, alphanumeric -/
def RidText (env : Env Ip) (r : Str) : Prop := r ≠ [] ∧ ∀ c ∈ r, env.alnum c = true

def LayerOk (env : Env Ip) (l : Layer) : Prop := RidText env l.rid

/-- Format parameters that can be printed: within their widths, and when a composite is among them all with different names -/
def ParamsOk (vs : List FP) : Prop := (∀ v ∈ vs, v.Fits) ∧ ((∃ v ∈ vs, v.IsPtl) → vs.Pairwise (fun a b => a.name ≠ b.name))

/-- A media attribute that can be printed and read -/
def MediaAttr.Ok (env : Env Ip) : MediaAttr Ip → Prop
  | .rtcp v | .iceUfrag v | .icePwd v | .iceOptions v | .sctpInit v => Val v
  | .fingerprint f => FingerprintOk f
  | .mid m => MidText m
  | .sctpPort n => n ≤ 65535
  | .maxMessageSize n => n < 2 ^ 64
  | .extMap id e => id ≤ 255 ∧ Tok e.toUri ∧ ∀ s, e = .uri s → ∀ k : KnownExt, k.uri ≠ s
  | .msid s t => Tok s ∧ Val t
  | .candidate c => CandOk c
  | .rtpMap pt m => pt ≤ 127 ∧ m.codec ≠ .null ∧ 0 < m.clockRate ∧ m.clockRate < 2 ^ 32 ∧ ∀ n ∈ m.channels, n ≤ 255
  | .rtcpFb pt v => pt ≤ 127 ∧ Val v
  | .fmtp pt vs => pt ≤ 127 ∧ ParamsOk vs
  | .rid id _ pts rs => RidText env id ∧ pts = [] ∧ (∀ p ∈ rs, Plain p.1 ∧ Plain p.2) ∧ ∀ p ∈ rs.head?, p.1.head? ≠ some 'p'
  | .simulcast s => (s.send ≠ [] ∨ s.recv ≠ []) ∧ ∀ l ∈ s.send ++ s.recv, LayerOk env l
  | .ssrcGroup sem ssrcs => Tok sem ∧ ssrcs ≠ [] ∧ ∀ n ∈ ssrcs, n < 2 ^ 32
  | .ssrc n a v => n < 2 ^ 32 ∧ a ≠ [] ∧ (∀ c ∈ a, c ≠ ':') ∧ Val v
  | .unused v => UnusedOk mediaKeys mediaFlags v
  | .setup _ | .dir _ | .rtcpMux | .rtcpMuxOnly | .rtcpRsize | .endOfCandidates => True

/-- What the reader has of a media attribute: nothing of an fmtp without parameters and of a simulcast that came from munging; the
parameters of an fmtp in some order; no attributes of simulcast layers; otherwise the same. -/
def MediaAttr.Received : MediaAttr Ip → Option (MediaAttr Ip) → Prop
  | .fmtp pt vs, o => if vs = [] then o = none else ∃ vs', vs'.Perm vs ∧ ((∀ v ∈ vs, ¬ v.IsPtl) → vs' = vs) ∧ o = some (.fmtp pt vs')
  | .simulcast s, o => if s.munged then o = none else o = some (.simulcast { s with
      send := s.send.map (fun l => { l with attributes := none }), recv := s.recv.map (fun l => { l with attributes := none }) })
  | a, o => o = some a

/-- The type of an m-line -/
def MediaType.Ok : MediaType → Prop
  | .unknown s => Tok s ∧ ¬ c!"audio" <+: s ∧ ¬ c!"video" <+: s ∧ ¬ c!"application" <+: s
  | _ => True

/-- The attributes of a kind -/
def MediaAttr.isMid : MediaAttr Ip → Bool | .mid _ => true | _ => false
def MediaAttr.isSetup : MediaAttr Ip → Bool | .setup _ => true | _ => false
def MediaAttr.isDir : MediaAttr Ip → Bool | .dir _ => true | _ => false
def MediaAttr.maps (p : Nat) : MediaAttr Ip → Bool | .rtpMap pt _ => pt == p | _ => false

/-- An m-line that can be printed and read: exactly one mid, at most one setup; media has exactly one direction and some payload
types, each with exactly one rtpmap (none is enough for the static ones). A data channel has no payload types. -/
structure MediaLine.Ok (env : Env Ip) (m : MediaLine Ip) : Prop where
  typ : m.typ.Ok
  pts : ∀ p ∈ m.pts, p ≤ 255
  app : m.typ = .application → m.pts = []
  bw : ∀ b ∈ m.bw, BwOk b
  attrs : ∀ a ∈ m.attrs, a.Ok env
  mid : m.attrs.countP MediaAttr.isMid = 1
  setup : m.attrs.countP MediaAttr.isSetup ≤ 1
  dir : m.proto = .srtp → m.attrs.countP MediaAttr.isDir = 1
  media : m.proto = .srtp → m.pts ≠ []
  maps : ∀ p ∈ m.pts, m.attrs.countP (MediaAttr.maps p) = 1 ∨ (m.attrs.countP (MediaAttr.maps p) = 0 ∧ (p = 0 ∨ p = 8 ∨ p = 9 ∨ p = 13))

/-- What the reader has of an m-line -/
structure MediaLine.Received (m m' : MediaLine Ip) : Prop where
  typ : m'.typ = m.typ
  disabled : m'.disabled = m.disabled
  proto : m'.proto = m.proto
  pts : m'.pts = m.pts
  bw : m'.bw = m.bw
  attrs : ∃ os : List (Option (MediaAttr Ip)), List.Forall₂ MediaAttr.Received m.attrs os ∧ m'.attrs = os.filterMap id

/-- An SDP that can be printed and read -/
structure Desc.Ok (env : Env Ip) (s : Desc Ip) : Prop where
  id : s.session.id < 2 ^ 64
  bw : ∀ b ∈ s.session.bw, BwOk b
  attrs : ∀ a ∈ s.session.attrs, a.Ok
  media : ∀ m ∈ s.media, m.Ok env

/-- What the reader has of an SDP -/
structure Desc.Received (s s' : Desc Ip) : Prop where
  id : s'.session.id = s.session.id
  bw : s'.session.bw = s.session.bw
  attrs : s'.session.attrs = s.session.attrs.map SessAttr.received
  media : List.Forall₂ MediaLine.Received s.media s'.media

end Str0m.Sdp
