import Verif.Model.Fmtp
import Verif.Model.Negotiate

/-!
`sdp/data.rs` (`Display`, `check_consistent`, `assert_consistency`) and `sdp/parser.rs`: the text of an SDP, both ways.
Strings are lists of characters. A `Mid` is its text (`StrId.deref`). Parsers are the combinators of `Model/Text.lean`; the names
follow parser.rs.
-/

namespace Str0m.Sdp
open Str0m.Text Str0m.StrId Str0m.Profiles Str0m.Pts
open Str0m.Negotiate (Dir Setup)

/-! ### Candidates -/

/-- net.rs 10-21 -/
inductive Net where
  | udp | tcp | sslTcp | tls
deriving Repr, DecidableEq

/-- net.rs 30-48 -/
inductive TcpType where
  | active | passive | so
deriving Repr, DecidableEq

/-- candidate.rs 598-608 -/
inductive CandKind where
  | host | prflx | srflx | relay
deriving Repr, DecidableEq

/-- candidate.rs 16-102, the fields that are printed: `foundation` and `prio` are the values of the methods of the same names.
`from_parts` (197-226) makes a candidate from exactly these. -/
structure Cand (Ip : Type) where
  foundation : Str
  component : Nat
  proto : Net
  prio : Nat
  ip : Ip
  port : Nat
  kind : CandKind
  raddr : Option (Ip × Nat)
  tcptype : Option TcpType
  ufrag : Option Str
deriving Repr, DecidableEq

/-- net.rs 100-109 -/
def Net.show : Net → Str
  | .udp => c!"udp" | .tcp => c!"tcp" | .sslTcp => c!"ssltcp" | .tls => c!"tls"

/-- net.rs 85-98 -/
def Net.parse (s : Str) : Option Net :=
  let s := lower s
  if s = c!"udp" then some .udp else if s = c!"tcp" then some .tcp else if s = c!"ssltcp" then some .sslTcp
  else if s = c!"tls" then some .tls else none

/-- net.rs 50-59 -/
def TcpType.show : TcpType → Str
  | .active => c!"active" | .passive => c!"passive" | .so => c!"so"

/-- net.rs 72-83 -/
def TcpType.parse (s : Str) : Option TcpType :=
  let s := lower s
  if s = c!"active" then some .active else if s = c!"passive" then some .passive else if s = c!"so" then some .so else none

/-- candidate.rs 610-620 -/
def CandKind.show : CandKind → Str
  | .host => c!"host" | .prflx => c!"prflx" | .srflx => c!"srflx" | .relay => c!"relay"

/-- candidate.rs 576-579 -/
def showRaddr (env : Env Ip) : Option (Ip × Nat) → Str
  | some (ip, port) => c!" raddr " ++ env.ipShow ip ++ c!" rport " ++ dec port
  | none => []

/-- candidate.rs 582-584 -/
def showTcp : Option TcpType → Str
  | some t => c!" tcptype " ++ t.show
  | none => []

/-- candidate.rs 585-587 -/
def showUfrag : Option Str → Str
  | some u => c!" ufrag " ++ u
  | none => []

/-- candidate.rs 565-589 `to_sdp_string` -/
def Cand.show (env : Env Ip) (c : Cand Ip) : Str :=
  c!"candidate:" ++ c.foundation ++ c!" " ++ dec c.component ++ c!" " ++ c.proto.show ++ c!" " ++ dec c.prio ++ c!" " ++
  env.ipShow c.ip ++ c!" " ++ dec c.port ++ c!" typ " ++ c.kind.show ++ showRaddr env c.raddr ++ showTcp c.tcptype ++ showUfrag c.ufrag

/-! ### data.rs, the types -/

/-- ext.rs 23-69 without the last -/
inductive KnownExt where
  | absSendTime | absCaptureTime | audioLevel | txOffset | orientation | transportCc
  | playoutDelay | contentType | videoTiming | rid | ridRepair | mid | frameMarking | colorSpace
deriving Repr, DecidableEq

/-- ext.rs 23-69; two `UnknownUri` are equal when their URIs are (1252-1275) -/
inductive Ext where
  | known (k : KnownExt)
  | uri (s : Str)
deriving Repr, DecidableEq

/-- ext.rs 168-231, the strings of `EXT_URI` -/
def KnownExt.uri : KnownExt → Str
  | .absSendTime => c!"http://www.webrtc.org/experiments/rtp-hdrext/abs-send-time"
  | .absCaptureTime => c!"http://www.webrtc.org/experiments/rtp-hdrext/abs-capture-time"
  | .audioLevel => c!"urn:ietf:params:rtp-hdrext:ssrc-audio-level"
  | .txOffset => c!"urn:ietf:params:rtp-hdrext:toffset"
  | .orientation => c!"urn:3gpp:video-orientation"
  | .transportCc => c!"http://www.ietf.org/id/draft-holmer-rmcat-transport-wide-cc-extensions-01"
  | .playoutDelay => c!"http://www.webrtc.org/experiments/rtp-hdrext/playout-delay"
  | .contentType => c!"http://www.webrtc.org/experiments/rtp-hdrext/video-content-type"
  | .videoTiming => c!"http://www.webrtc.org/experiments/rtp-hdrext/video-timing"
  | .rid => c!"urn:ietf:params:rtp-hdrext:sdes:rtp-stream-id"
  | .ridRepair => c!"urn:ietf:params:rtp-hdrext:sdes:repaired-rtp-stream-id"
  | .mid => c!"urn:ietf:params:rtp-hdrext:sdes:mid"
  | .frameMarking => c!"http://tools.ietf.org/html/draft-ietf-avtext-framemarking-07"
  | .colorSpace => c!"http://www.webrtc.org/experiments/rtp-hdrext/color-space"

/-- ext.rs 168-231, the order of `EXT_URI` -/
def KnownExt.all : List KnownExt :=
  [.absSendTime, .absCaptureTime, .audioLevel, .txOffset, .orientation, .transportCc, .playoutDelay, .contentType, .videoTiming,
   .rid, .ridRepair, .mid, .frameMarking, .colorSpace]

/-- ext.rs 237-245 `from_sdp_uri` -/
def Ext.ofUri (s : Str) : Ext :=
  match KnownExt.all.find? (fun k => k.uri == s) with
  | some k => .known k
  | none => .uri s

/-- ext.rs 253-265 `as_uri` -/
def Ext.toUri : Ext → Str
  | .known k => k.uri
  | .uri s => s

/-- data.rs 143-146 -/
structure Bandwidth where
  typ : Str
  val : Str
deriving Repr, DecidableEq

/-- crypto `Fingerprint` -/
structure Fingerprint where
  hash : Str
  bytes : List Byte
deriving Repr, DecidableEq

/-- data.rs 218-237 -/
inductive SessAttr (Ip : Type) where
  | group (typ : Str) (mids : List Str)
  | msidSemantic (semantic : Str) (ids : List Str)
  | allowMixedExts
  | iceLite
  | iceUfrag (v : Str)
  | icePwd (v : Str)
  | iceOptions (v : Str)
  | fingerprint (f : Fingerprint)
  | setup (s : Setup)
  | candidate (c : Cand Ip)
  | endOfCandidates
  | unused (v : Str)
deriving Repr, DecidableEq

/-- data.rs 135-139 -/
structure Session (Ip : Type) where
  id : Nat
  bw : Option Bandwidth
  attrs : List (SessAttr Ip)
deriving Repr, DecidableEq

/-- data.rs 747-756 -/
inductive MediaType where
  | audio | video | application
  | unknown (s : Str)
deriving Repr, DecidableEq

/-- data.rs 769-773 -/
inductive Proto where
  | srtp | sctp
deriving Repr, DecidableEq

/-- data.rs 1174-1178 -/
structure RtpMap where
  codec : Codec
  clockRate : Nat
  channels : Option Nat
deriving Repr, DecidableEq

/-- data.rs 723 `RestrictionId`, 1246-1251 `SimulcastLayer` -/
structure Layer where
  rid : Str
  active : Bool
  attributes : Option (List (Str × Str))
deriving Repr, DecidableEq

/-- data.rs 1217-1222 -/
structure Simulcast where
  send : List Layer
  recv : List Layer
  munged : Bool
deriving Repr, DecidableEq

/-- data.rs 841-914. The direction of a rid (`"send"` or `"recv"`) is `true` for send; the id of an `a=rid` is always active
(parser.rs 625, sdp.rs 1532). -/
inductive MediaAttr (Ip : Type) where
  | rtcp (v : Str)
  | iceUfrag (v : Str)
  | icePwd (v : Str)
  | iceOptions (v : Str)
  | fingerprint (f : Fingerprint)
  | setup (s : Setup)
  | mid (m : Str)
  | sctpPort (n : Nat)
  | maxMessageSize (n : Nat)
  | sctpInit (v : Str)
  | extMap (id : Nat) (ext : Ext)
  | dir (d : Dir)
  | msid (stream track : Str)
  | rtcpMux
  | rtcpMuxOnly
  | rtcpRsize
  | candidate (c : Cand Ip)
  | endOfCandidates
  | rtpMap (pt : Nat) (m : RtpMap)
  | rtcpFb (pt : Nat) (v : Str)
  | fmtp (pt : Nat) (vs : List FP)
  | rid (id : Str) (send : Bool) (pts : List Nat) (restriction : List (Str × Str))
  | simulcast (s : Simulcast)
  | ssrcGroup (semantics : Str) (ssrcs : List Nat)
  | ssrc (ssrc : Nat) (attr value : Str)
  | unused (v : Str)
deriving Repr, DecidableEq

/-- data.rs 246-253 -/
structure MediaLine (Ip : Type) where
  typ : MediaType
  disabled : Bool
  proto : Proto
  pts : List Nat
  bw : Option Bandwidth
  attrs : List (MediaAttr Ip)
deriving Repr, DecidableEq

/-- data.rs 24-27 -/
structure Desc (Ip : Type) where
  session : Session Ip
  media : List (MediaLine Ip)
deriving Repr, DecidableEq

/-! ### data.rs, `Display` -/

/-- The end of a printed line -/
def nl : Str := ['\r', '\n']

/-- data.rs 1552-1563; the first line underflows on an empty list: see `showPanics` -/
def showFinger (bytes : List Byte) : Str := join c!":" (bytes.map (fun b => hex2U b.val))

/-- data.rs 807-813 -/
def showSetup : Setup → Str
  | .actPass => c!"actpass" | .active => c!"active" | .passive => c!"passive"

/-- data.rs 1315-1354 -/
def SessAttr.show (env : Env Ip) : SessAttr Ip → Str
  | .group typ mids => c!"a=group:" ++ typ ++ c!" " ++ join c!" " mids ++ nl
  | .allowMixedExts => c!"a=extmap-allow-mixed" ++ nl
  | .msidSemantic s ids => c!"a=msid-semantic: " ++ s ++ c!" " ++ join c!" " ids ++ nl
  | .iceLite => c!"a=ice-lite" ++ nl
  | .iceUfrag v => c!"a=ice-ufrag:" ++ v ++ nl
  | .icePwd v => c!"a=ice-pwd:" ++ v ++ nl
  | .iceOptions v => c!"a=ice-options:" ++ v ++ nl
  | .fingerprint f => c!"a=fingerprint:" ++ f.hash ++ c!" " ++ showFinger f.bytes ++ nl
  | .setup s => c!"a=setup:" ++ showSetup s ++ nl
  | .candidate c => c!"a=" ++ c.show env ++ nl
  | .endOfCandidates => c!"a=end-of-candidates" ++ nl
  | .unused v => c!"a=" ++ v ++ nl

/-- data.rs 1304-1306, 1374-1376 -/
def showBw : Option Bandwidth → Str
  | some bw => c!"b=" ++ bw.typ ++ c!":" ++ bw.val ++ nl
  | none => []

/-- data.rs 1299-1313 -/
def Session.show (env : Env Ip) (s : Session Ip) : Str :=
  c!"v=0" ++ nl ++ c!"o=str0m-" ++ env.version ++ c!" " ++ dec s.id ++ c!" 2 IN IP4 0.0.0.0" ++ nl ++ c!"s=-" ++ nl ++
  showBw s.bw ++ c!"t=0 0" ++ nl ++ (s.attrs.map (SessAttr.show env)).flatten

/-- data.rs 1384-1393 -/
def MediaType.show : MediaType → Str
  | .audio => c!"audio" | .video => c!"video" | .application => c!"application" | .unknown s => s

/-- data.rs 776-781 -/
def Proto.show : Proto → Str
  | .srtp => c!"UDP/TLS/RTP/SAVPF" | .sctp => c!"UDP/DTLS/SCTP"

/-- codec.rs 127-146 -/
def showCodec : Codec → Str
  | .opus => c!"opus" | .pcmu => c!"PCMU" | .pcma => c!"PCMA" | .g722 => c!"G722" | .cn => c!"CN" | .h264 => c!"H264"
  | .h265 => c!"H265" | .h266 => c!"H266" | .vp8 => c!"VP8" | .vp9 => c!"VP9" | .av1 => c!"AV1" | .rtx => c!"rtx"
  | .null => c!"null" | .unknown => c!"unknown"

/-- The text of a direction attribute, data.rs 1436-1439 -/
def showDir : Dir → Str
  | .recvOnly => c!"recvonly" | .sendRecv => c!"sendrecv" | .sendOnly => c!"sendonly" | .inactive => c!"inactive"

/-- data.rs 734-736 `to_sdp` -/
def Layer.show (l : Layer) : Str := (if l.active then [] else c!"~") ++ l.rid

/-- data.rs 1276-1287 -/
def showGroups (ls : List Layer) : Str := join c!";" (ls.map Layer.show)

/-- data.rs 1450-1452 -/
def showChannels : Option Nat → Str
  | some n => c!"/" ++ dec n
  | none => []

/-- data.rs 1456-1469; nothing at all without values -/
def showFmtp (pt : Nat) (vs : List FP) : Str :=
  if vs = [] then [] else c!"a=fmtp:" ++ dec pt ++ c!" " ++ join c!";" (vs.map FP.show) ++ nl

/-- `k=v` -/
def showKv (p : Str × Str) : Str := p.1 ++ c!"=" ++ p.2

/-- data.rs 1478-1487 -/
def showRidPts (pts : List Nat) : Str := if pts = [] then [] else c!" pt=" ++ join c!"," (pts.map dec)

/-- data.rs 1488-1501 -/
def showRidRestr (pts : List Nat) (rs : List (Str × Str)) : Str :=
  if rs = [] then [] else (if pts = [] then c!" " else c!";") ++ join c!";" (rs.map showKv)

/-- data.rs 1505-1530, without the assertion of 1511-1514: see `showPanics` -/
def Simulcast.show (s : Simulcast) : Str :=
  if s.munged then []
  else c!"a=simulcast:" ++ (if s.send = [] then [] else c!"send " ++ showGroups s.send) ++
    (if s.recv = [] then [] else (if s.send = [] then [] else c!" ") ++ c!"recv " ++ showGroups s.recv) ++ nl

/-- data.rs 1531-1540: the line end is printed after the last SSRC -/
def showSsrcs (ssrcs : List Nat) : Str := if ssrcs = [] then [] else join c!" " (ssrcs.map dec) ++ nl

/-- data.rs 1401-1548 -/
def MediaAttr.show (env : Env Ip) : MediaAttr Ip → Str
  | .rtcp v => c!"a=rtcp:" ++ v ++ nl
  | .iceUfrag v => c!"a=ice-ufrag:" ++ v ++ nl
  | .icePwd v => c!"a=ice-pwd:" ++ v ++ nl
  | .iceOptions v => c!"a=ice-options:" ++ v ++ nl
  | .fingerprint f => c!"a=fingerprint:" ++ f.hash ++ c!" " ++ showFinger f.bytes ++ nl
  | .setup s => c!"a=setup:" ++ showSetup s ++ nl
  | .mid m => c!"a=mid:" ++ m ++ nl
  | .sctpPort n => c!"a=sctp-port:" ++ dec n ++ nl
  | .maxMessageSize n => c!"a=max-message-size:" ++ dec n ++ nl
  | .sctpInit v => c!"a=sctp-init:" ++ v ++ nl
  | .extMap id ext => c!"a=extmap:" ++ dec id ++ c!" " ++ ext.toUri ++ nl
  | .dir d => c!"a=" ++ showDir d ++ nl
  | .msid s t => c!"a=msid:" ++ s ++ c!" " ++ t ++ nl
  | .rtcpMux => c!"a=rtcp-mux" ++ nl
  | .rtcpMuxOnly => c!"a=rtcp-mux-only" ++ nl
  | .rtcpRsize => c!"a=rtcp-rsize" ++ nl
  | .candidate c => c!"a=" ++ c.show env ++ nl
  | .endOfCandidates => c!"a=end-of-candidates" ++ nl
  | .rtpMap pt m => c!"a=rtpmap:" ++ dec pt ++ c!" " ++ showCodec m.codec ++ c!"/" ++ dec m.clockRate ++ showChannels m.channels ++ nl
  | .rtcpFb pt v => c!"a=rtcp-fb:" ++ dec pt ++ c!" " ++ v ++ nl
  | .fmtp pt vs => showFmtp pt vs
  | .rid id send pts rs => c!"a=rid:" ++ id ++ c!" " ++ (if send then c!"send" else c!"recv") ++ showRidPts pts ++ showRidRestr pts rs ++ nl
  | .simulcast s => s.show
  | .ssrcGroup sem ssrcs => c!"a=ssrc-group:" ++ sem ++ c!" " ++ showSsrcs ssrcs
  | .ssrc n a v => c!"a=ssrc:" ++ dec n ++ c!" " ++ a ++ c!":" ++ v ++ nl
  | .unused v => c!"a=" ++ v ++ nl

/-- data.rs 1361-1372 -/
def showPts (typ : MediaType) (pts : List Nat) : Str :=
  if typ = .application then c!"webrtc-datachannel" ++ nl else join c!" " (pts.map dec) ++ nl

/-- data.rs 1356-1382 -/
def MediaLine.show (env : Env Ip) (m : MediaLine Ip) : Str :=
  c!"m=" ++ m.typ.show ++ c!" " ++ (if m.disabled then c!"0" else c!"9") ++ c!" " ++ m.proto.show ++ c!" " ++ showPts m.typ m.pts ++
  c!"c=IN IP4 0.0.0.0" ++ nl ++ showBw m.bw ++ (m.attrs.map (MediaAttr.show env)).flatten

/-- The values that cannot be printed: data.rs 1511-1514 (assertion), 1554 (underflow) -/
def MediaAttr.showPanics : MediaAttr Ip → Bool
  | .fingerprint f => f.bytes.isEmpty
  | .simulcast s => s.send.isEmpty && s.recv.isEmpty
  | _ => false

/-- data.rs 1554 (underflow) -/
def SessAttr.showPanics : SessAttr Ip → Bool
  | .fingerprint f => f.bytes.isEmpty
  | _ => false

/-- data.rs 1289-1297, mod.rs 30-32 `to_sdp_string` -/
def Desc.show (env : Env Ip) (s : Desc Ip) : Res Unit Str :=
  if s.session.attrs.any SessAttr.showPanics || s.media.any (fun m => m.attrs.any MediaAttr.showPanics) then .panic
  else .ok (s.session.show env ++ (s.media.map (MediaLine.show env)).flatten)

/-! ### parser.rs, generic things -/

/-- parser.rs 830-836 -/
def notSp : P Str := many1c (fun c => c != ' ' && c != '\r' && c != '\n')

/-- parser.rs 839-845 -/
def anyValue : P Str := many1c (fun c => c != '\r' && c != '\n')

/-- parser.rs 821-827 -/
def name (env : Env Ip) : P Str := many1c env.alnum

/-- parser.rs 848-854 -/
def lineEnd : P Unit := choice [crlf, pmap (fun _ => ()) (token '\n'), eof]

/-- parser.rs 808-818 -/
def line (typ : P Char) (val : P α) : P α :=
  attempt (thenP typ fun _ => thenP (token '=') fun _ => thenP val fun v => thenP lineEnd fun _ => ret v)

/-- parser.rs 798-805 -/
def typedLine (t : Char) (val : P α) : P α := line (token t) val

/-- parser.rs 91-101 -/
def attrLine (k : Str) (val : P α) : P α := typedLine 'a' (thenP (string k) fun _ => thenP (token ':') fun _ => val)

/-- parser.rs 104-110 -/
def attrFlag (k : Str) : P Unit := typedLine 'a' (string k)

/-- parser.rs 857-869 -/
def keyValP : P (Str × Str) :=
  thenP (opt spaces) fun _ =>
  thenP (many1c (fun c => c != '=' && c != ' ' && c != '\r' && c != '\n')) fun k =>
  thenP (token '=') fun _ =>
  thenP (many1c (fun c => c != ';' && c != ' ' && c != '\r' && c != '\n')) fun v => ret (k, v)

/-- `not_sp().and_then(parse)` of a number up to `max` -/
def numTok (max : Nat) : P Nat := andThen notSp (parseNat max)

/-- parser.rs 81-88 -/
def bandwidthLine : P Bandwidth :=
  typedLine 'b' (thenP (many1c (fun c => c != ':')) fun typ => thenP (token ':') fun _ => thenP anyValue fun val => ret { typ := typ, val := val })

/-- parser.rs 60-78 -/
def originatorLine : P Nat :=
  andThen (typedLine 'o' (thenP notSp fun _ => thenP (token ' ') fun _ => thenP (many1c (fun c => (digitVal 10 c).isSome)) fun sess =>
    thenP (token ' ') fun _ => thenP anyValue fun _ => ret sess)) (parseNat (2^64 - 1))

/-! ### parser.rs, candidates -/

/-- parser.rs 228-233 -/
def candKind : P CandKind :=
  choice [pmap (fun _ => .host) (string c!"host"), pmap (fun _ => .prflx) (string c!"prflx"),
    pmap (fun _ => .srflx) (string c!"srflx"), pmap (fun _ => .relay) (string c!"relay")]

/-- parser.rs 263-268 -/
def candRaddr (env : Env Ip) : P (Ip × Nat) :=
  thenP (attempt (string c!" raddr ")) fun _ => thenP (andThen notSp env.ipParse) fun ip =>
  thenP (string c!" rport ") fun _ => thenP (numTok 65535) fun port => ret (ip, port)

/-- parser.rs 269-274 -/
def candTcp : P TcpType := thenP (attempt (string c!" tcptype ")) fun _ => andThen notSp TcpType.parse

/-- parser.rs 275-278: one of the extensions with a free value -/
def candExt (k : Str) : P Str := thenP (attempt (string k)) fun _ => notSp

/-- parser.rs 208-316 -/
def candidateP (env : Env Ip) : P (Cand Ip) :=
  thenP (string c!"candidate:") fun _ =>
  thenP notSp fun found => thenP (token ' ') fun _ =>
  thenP (numTok 65535) fun comp => thenP (token ' ') fun _ =>
  thenP (andThen notSp Net.parse) fun proto => thenP (token ' ') fun _ =>
  thenP (numTok (2^32 - 1)) fun prio => thenP (token ' ') fun _ =>
  thenP (andThen notSp env.ipParse) fun ip => thenP (token ' ') fun _ =>
  thenP (numTok 65535) fun port => thenP (string c!" typ ") fun _ =>
  thenP candKind fun kind =>
  thenP (opt (candRaddr env)) fun raddr => thenP (opt candTcp) fun tcp =>
  thenP (opt (candExt c!" generation ")) fun _ => thenP (opt (candExt c!" network-id ")) fun _ =>
  thenP (opt (candExt c!" ufrag ")) fun ufrag => thenP (opt (candExt c!" network-cost ")) fun _ =>
  ret { foundation := found, component := comp, proto := proto, prio := prio, ip := ip, port := port, kind := kind,
        raddr := raddr, tcptype := tcp, ufrag := ufrag }

/-- parser.rs 319-325 -/
def candidateAttr (env : Env Ip) : P (Cand Ip) :=
  thenP (string c!"a=") fun _ => thenP (candidateP env) fun c => thenP lineEnd fun _ => ret c

/-! ### parser.rs, session -/

/-- parser.rs 163-165, 456-458: two hex digits -/
def hexByte : P Byte :=
  andThen (thenP (satisfy (fun c => (digitVal 16 c).isSome)) fun a => thenP (satisfy (fun c => (digitVal 16 c).isSome)) fun b => ret [a, b])
    (fun s => (parseRadix 16 255 s).map u8)

/-- parser.rs 166-170, 459-463 -/
def fingerP : P Fingerprint :=
  attrLine c!"fingerprint" (thenP notSp fun h => thenP (token ' ') fun _ => thenP (sepBy1 hexByte (token ':')) fun bs => ret { hash := h, bytes := bs })

/-- parser.rs 172-179, 465-472 -/
def setupP : P Setup :=
  attrLine c!"setup" (choice [attempt (pmap (fun _ => .actPass) (string c!"actpass")), attempt (pmap (fun _ => .active) (string c!"active")),
    attempt (pmap (fun _ => .passive) (string c!"passive"))])

/-- id.rs 42-68: the text of the `Mid` made from a text (`StrId.deref_fromStr`) -/
def midOf (s : Str) : Str := (s.map sanitize).take 16

/-- parser.rs 120-128 -/
def groupP : P (SessAttr Ip) :=
  attrLine c!"group" (thenP notSp fun typ => thenP (token ' ') fun _ => thenP (sepBy1 (pmap midOf notSp) (token ' ')) fun mids =>
    ret (.group typ mids))

/-- parser.rs 131-145 -/
def msidSemanticP : P (SessAttr Ip) :=
  attrLine c!"msid-semantic" (thenP (opt (token ' ')) fun _ => thenP notSp fun s => thenP (token ' ') fun _ =>
    thenP (sepBy1 notSp (token ' ')) fun ids => ret (.msidSemantic s ids))

/-- parser.rs 113-205 -/
def sessAttrP (env : Env Ip) : P (SessAttr Ip) :=
  choice [
    attempt groupP,
    attempt msidSemanticP,
    attempt (pmap (fun _ => .iceLite) (attrFlag c!"ice-lite")),
    attempt (pmap .iceUfrag (attrLine c!"ice-ufrag" anyValue)),
    attempt (pmap .icePwd (attrLine c!"ice-pwd" anyValue)),
    attempt (pmap .iceOptions (attrLine c!"ice-options" anyValue)),
    attempt (pmap .fingerprint fingerP),
    attempt (pmap .setup setupP),
    attempt (pmap .candidate (candidateAttr env)),
    attempt (pmap (fun _ => .endOfCandidates) (attrFlag c!"end-of-candidates")),
    pmap .unused (typedLine 'a' anyValue)]

/-- parser.rs 328-344 -/
def ignoredLine : P Str :=
  line (choice [token 'i', token 'u', token 'e', token 'p', token 'c', token 'z', token 'k']) anyValue

/-- parser.rs 39-57 -/
def sessionP (env : Env Ip) : P (Session Ip) :=
  thenP (typedLine 'v' (token '0')) fun _ => thenP originatorLine fun id => thenP (typedLine 's' anyValue) fun _ =>
  thenP (many ignoredLine) fun _ => thenP (opt bandwidthLine) fun bw => thenP (typedLine 't' (string c!"0 0")) fun _ =>
  thenP (many (typedLine 'r' anyValue)) fun _ => thenP (many (sessAttrP env)) fun attrs => ret { id := id, bw := bw, attrs := attrs }

/-! ### parser.rs, media -/

/-- parser.rs 548-562 -/
def ptP : P Nat := andThen notSp (fun s => (parseNat 255 s).filter (· ≤ 127))

/-- codec.rs 106-125 -/
def codecOf (s : Str) : Codec :=
  let s := lower s
  if s = c!"opus" then .opus else if s = c!"pcmu" then .pcmu else if s = c!"pcma" then .pcma else if s = c!"g722" then .g722
  else if s = c!"cn" then .cn else if s = c!"h264" then .h264 else if s = c!"h265" then .h265 else if s = c!"h266" then .h266
  else if s = c!"vp8" then .vp8 else if s = c!"vp9" then .vp9 else if s = c!"av1" then .av1 else if s = c!"rtx" then .rtx else .unknown

/-- parser.rs 505-518 -/
def extMapP : P (MediaAttr Ip) :=
  attrLine c!"extmap" (thenP (andThen (many1c (fun c => c != '/' && c != ' ')) (parseNat 255)) fun id =>
    thenP (opt (thenP (token '/') fun _ => notSp)) fun _ => thenP (token ' ') fun _ => thenP notSp fun uri =>
    thenP (opt (thenP (token ' ') fun _ => anyValue)) fun _ => ret (.extMap id (Ext.ofUri uri)))

/-- parser.rs 520-525 -/
def directionP : P (MediaAttr Ip) :=
  choice [attempt (pmap (fun _ => .dir .recvOnly) (attrFlag c!"recvonly")), attempt (pmap (fun _ => .dir .sendRecv) (attrFlag c!"sendrecv")),
    attempt (pmap (fun _ => .dir .sendOnly) (attrFlag c!"sendonly")), attempt (pmap (fun _ => .dir .inactive) (attrFlag c!"inactive"))]

/-- parser.rs 529-536 -/
def msidP : P (MediaAttr Ip) :=
  attrLine c!"msid" (thenP notSp fun s => thenP (token ' ') fun _ => thenP anyValue fun t => ret (.msid s t))

/-- parser.rs 565-595 -/
def rtpMapP : P (MediaAttr Ip) :=
  attrLine c!"rtpmap" (thenP ptP fun pt => thenP (token ' ') fun _ =>
    thenP (many1c (fun c => c != '/' && c != '\r' && c != '\n')) fun codec => thenP (token '/') fun _ =>
    thenP (andThen (many1c (fun c => c != '/' && c != '\r' && c != '\n')) (fun s => (parseNat (2^32 - 1) s).filter (· ≠ 0))) fun rate =>
    thenP (opt (thenP (token '/') fun _ => andThen anyValue (parseNat 255))) fun ch =>
    ret (.rtpMap pt { codec := codecOf codec, clockRate := rate, channels := ch }))

/-- parser.rs 601-602 -/
def rtcpFbP : P (MediaAttr Ip) :=
  attrLine c!"rtcp-fb" (thenP ptP fun pt => thenP (token ' ') fun _ => thenP anyValue fun v => ret (.rtcpFb pt v))

/-- parser.rs 604-619 -/
def fmtpP (env : Env Ip) : P (MediaAttr Ip) :=
  choice [
    attempt (attrLine c!"fmtp" (thenP ptP fun pt => thenP (token ' ') fun _ => thenP (sepBy1 keyValP (token ';')) fun ps =>
      ret (.fmtp pt (parsePairs env ps)))),
    attempt (attrLine c!"fmtp" (thenP ptP fun pt => thenP (token ' ') fun _ => thenP notSp fun _ => ret (.fmtp pt [.unknown])))]

/-- parser.rs 630-637 -/
def ridPtsP : P (List Nat) :=
  thenP (string c!"pt=") fun _ => thenP (sepBy1 ptP (token ',')) fun pts => thenP (opt (token ';')) fun _ => ret pts

/-- parser.rs 628-639: the payload types and the restrictions -/
def ridTailP : P (List Nat × List (Str × Str)) :=
  thenP (token ' ') fun _ => thenP (opt ridPtsP) fun ps => thenP (sepBy keyValP (token ';')) fun rs => ret (ps.getD [], rs)

/-- parser.rs 627 -/
def sendRecvP : P Bool := choice [pmap (fun _ => true) (string c!"send"), pmap (fun _ => false) (string c!"recv")]

/-- parser.rs 622-658 -/
def ridP (env : Env Ip) : P (MediaAttr Ip) :=
  attrLine c!"rid" (thenP (name env) fun id => thenP (token ' ') fun _ => thenP sendRecvP fun d => thenP (opt ridTailP) fun x =>
    ret (.rid id d (x.getD ([], [])).1 (x.getD ([], [])).2))

/-- parser.rs 666-668: a rid, with `~` when it begins paused -/
def simRid (env : Env Ip) : P (Str × Bool) := thenP (opt (token '~')) fun t => thenP (name env) fun n => ret (n, t.isNone)

/-- parser.rs 660-674 -/
def simul1 (env : Env Ip) (d : Str) : P (List (List (Str × Bool))) :=
  thenP (string d) fun _ => thenP (token ' ') fun _ => sepBy1 (sepBy1 (simRid env) (token ',')) (token ';')

/-- parser.rs 687-700: the first alternative of each -/
def toSimul (groups : List (List (Str × Bool))) : List Layer :=
  groups.filterMap (fun g => g.head?.map (fun r => { rid := r.1, active := r.2, attributes := none }))

/-- parser.rs 677-718 -/
def simulcastP (env : Env Ip) : P (MediaAttr Ip) :=
  attrLine c!"simulcast" (choice [
    thenP (simul1 env c!"send") fun a => thenP (opt (thenP (token ' ') fun _ => simul1 env c!"recv")) fun b =>
      ret (.simulcast { send := toSimul a, recv := toSimul (b.getD []), munged := false }),
    thenP (simul1 env c!"recv") fun a => thenP (opt (thenP (token ' ') fun _ => simul1 env c!"send")) fun b =>
      ret (.simulcast { send := toSimul (b.getD []), recv := toSimul a, munged := false })])

/-- parser.rs 721-736 -/
def ssrcGroupP : P (MediaAttr Ip) :=
  attrLine c!"ssrc-group" (thenP notSp fun s => thenP (token ' ') fun _ => thenP (sepBy1 (numTok (2^32 - 1)) (token ' ')) fun ns =>
    ret (.ssrcGroup s ns))

/-- parser.rs 742-756 -/
def ssrcP : P (MediaAttr Ip) :=
  attrLine c!"ssrc" (thenP (numTok (2^32 - 1)) fun n => thenP (token ' ') fun _ => thenP (many1c (fun c => c != ':')) fun a =>
    thenP (token ':') fun _ => thenP anyValue fun v => ret (.ssrc n a v))

/-- parser.rs 762-776 -/
def mediaAlts1 : List (P (MediaAttr Ip)) := [
  attempt (pmap .iceUfrag (attrLine c!"ice-ufrag" anyValue)),
  attempt (pmap .icePwd (attrLine c!"ice-pwd" anyValue)),
  attempt (pmap .iceOptions (attrLine c!"ice-options" anyValue)),
  attempt (pmap .fingerprint fingerP),
  attempt (pmap .setup setupP),
  attempt (pmap (fun m => .mid (midOf m)) (attrLine c!"mid" anyValue)),
  attempt (pmap .sctpPort (attrLine c!"sctp-port" (numTok 65535))),
  attempt (pmap .maxMessageSize (attrLine c!"max-message-size" (numTok (2^64 - 1)))),
  attempt (pmap .sctpInit (attrLine c!"sctp-init" anyValue)),
  attempt extMapP,
  attempt directionP,
  attempt msidP,
  attempt (pmap .rtcp (attrLine c!"rtcp" anyValue))]

/-- parser.rs 777-790 -/
def mediaAlts2 (env : Env Ip) : List (P (MediaAttr Ip)) := [
  attempt (pmap (fun _ => .rtcpMux) (attrFlag c!"rtcp-mux")),
  attempt (pmap (fun _ => .rtcpMuxOnly) (attrFlag c!"rtcp-mux-only")),
  attempt (pmap (fun _ => .rtcpRsize) (attrFlag c!"rtcp-rsize")),
  attempt (pmap .candidate (candidateAttr env)),
  attempt (pmap (fun _ => .endOfCandidates) (attrFlag c!"end-of-candidates")),
  attempt rtpMapP,
  attempt rtcpFbP,
  attempt (fmtpP env),
  attempt (ridP env),
  attempt (simulcastP env),
  attempt ssrcGroupP,
  attempt ssrcP]

/-- parser.rs 435-793 -/
def mediaAttrP (env : Env Ip) : P (MediaAttr Ip) :=
  choice [attempt (choice mediaAlts1), attempt (choice (mediaAlts2 env)), pmap .unused (typedLine 'a' anyValue)]

/-- parser.rs 394-399 -/
def mediaTypeP : P MediaType :=
  choice [attempt (pmap (fun _ => .audio) (string c!"audio")), attempt (pmap (fun _ => .video) (string c!"video")),
    attempt (pmap (fun _ => .application) (string c!"application")), pmap .unknown notSp]

/-- parser.rs 401-405 -/
def protoP : P Proto :=
  choice [attempt (pmap (fun _ => .srtp) (string c!"UDP/TLS/RTP/SAVPF")), attempt (pmap (fun _ => .sctp) (string c!"DTLS/SCTP")),
    attempt (pmap (fun _ => .sctp) (string c!"UDP/DTLS/SCTP"))]

/-- parser.rs 407-411, 425-428 -/
def ptsP : P (List Nat) := choice [attempt (sepBy (numTok 255) (token ' ')), pmap (fun _ => []) anyValue]

/-- parser.rs 389-432 -/
def mLineP : P (MediaType × Str × Proto × List Nat) :=
  typedLine 'm' (thenP mediaTypeP fun typ => thenP (token ' ') fun _ => thenP notSp fun port => thenP (token ' ') fun _ =>
    thenP protoP fun proto => thenP (token ' ') fun _ => thenP ptsP fun pts => ret (typ, port, proto, pts))

/-- codec_config.rs 564-578 `from_static_pt`, whether it is one -/
def isStaticPt (pt : Nat) : Bool := pt == 0 || pt == 8 || pt == 9 || pt == 13

/-- data.rs 423-488 `check_consistent` gives `None` (no complaint). `self.mid()` (256-269) in the complaints is reached only with an
`a=mid` there. -/
def MediaLine.consistent (m : MediaLine Ip) : Bool :=
  let mids := (m.attrs.filter (fun a => match a with | .mid _ => true | _ => false)).length
  let setups := (m.attrs.filter (fun a => match a with | .setup _ => true | _ => false)).length
  let dirs := (m.attrs.filter (fun a => match a with | .dir _ => true | _ => false)).length
  let maps := fun (p : Nat) => (m.attrs.filter (fun a => match a with | .rtpMap pt _ => pt == p | _ => false)).length
  (mids == 1) && decide (setups ≤ 1) && (m.proto != .srtp || dirs == 1) && (m.proto != .srtp || m.pts != []) &&
  m.pts.all (fun p => (maps p != 0 || isStaticPt p) && decide (maps p ≤ 1))

/-- parser.rs 349-375 -/
def mediaP (env : Env Ip) : P (MediaLine Ip) :=
  andThen (thenP mLineP fun l => thenP (opt (typedLine 'c' anyValue)) fun _ => thenP (opt bandwidthLine) fun bw =>
    thenP (many (mediaAttrP env)) fun attrs =>
    ret ({ typ := l.1, disabled := l.2.1 == c!"0", proto := l.2.2.1, pts := l.2.2.2, bw := bw, attrs := attrs } : MediaLine Ip))
    (fun m => if m.consistent then some m else none)

/-- parser.rs 18-27 -/
def sdpP (env : Env Ip) : P (Desc Ip) :=
  thenP (sessionP env) fun s => thenP (many (mediaP env)) fun ms => ret { session := s, media := ms }

/-- data.rs 30-35 `Sdp::parse`: what is left after the parser is dropped -/
def Desc.parse (env : Env Ip) (input : Str) : Option (Desc Ip) :=
  match sdpP env input with
  | .ok v _ _ => some v
  | .err _ => none

/-! ### data.rs, consistency -/

/-- data.rs 256-269 `mid`, `None` where it would panic -/
def MediaLine.mid? (m : MediaLine Ip) : Option Str :=
  m.attrs.findSome? (fun a => match a with | .mid x => some x | _ => none)

/-- data.rs 118-124: the loop over the pairs. `media.check_consistent()?` leaves the function with `None` (no error) at the first
m-line that has no complaint. `true`: no error. -/
def groupLoop : List (MediaLine Ip × Str) → Bool
  | [] => true
  | (m, g) :: rest => if m.consistent then true else if m.mid? ≠ some g then false else groupLoop rest

/-- data.rs 49-54, 98-130 `assert_consistency`, `true`: `Ok`. Line 111 compares `!mids.len()` (bitwise not of a `usize`) with the number
of m-lines, which would take about `2^64` of them. -/
def Desc.assertConsistent (s : Desc Ip) : Bool :=
  match s.session.attrs.find? (fun a => match a with | .group _ _ => true | _ => false) with
  | some (.group _ mids) => if 2^64 - 1 - mids.length = s.media.length then false else groupLoop (s.media.zip mids)
  | _ => false

end Str0m.Sdp
