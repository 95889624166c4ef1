# Design of the formal model of str0m (Lean 4)

## Layout

* `lean/Verif/Base.lean` – bytes (`Byte = Fin 256`), big-endian integers, the result
  type `Res` (`ok | err | panic`) used wherever the Rust code can index out of bounds,
  overflow or hit an `assert!`.
* `lean/Verif/Model/*.lean` – the executable model, function by function. Every
  definition cites file and lines of `/repo`.
* `lean/Verif/Spec/*.lean` – where needed: small independent specifications.
* `lean/Verif/Proofs/*.lean` – helper lemmas and invariants.
* `lean/Verif/Props/*.lean` – only the property theorems (one per claim in
  `MANIFEST.json`) and the non-vacuity `example`s beside them.

## Conventions

* Unsigned integers are `Nat`, with explicit `% 2^n` where the Rust code casts or wraps,
  and an explicit `Res.panic` (or a separate no-overflow theorem) where the Rust code
  would panic in a debug build. `u8` is `Fin 256`.
* `&mut self` methods return the new state. `Vec`/`VecDeque`/slices are `List`.
  Fixed arrays are `List` with a length invariant or functions on an index.
* `Instant`/`Duration` are `Nat` (an abstract tick, nanoseconds where units matter).
  `Instant - Instant` in Rust saturates to zero; so does `Nat` subtraction.
* `HashMap`/`HashSet` become association lists/predicates. Logging is dropped.
* Cryptographic primitives, random number generators and hash functions are parameters
  of the model; the assumptions used about them are hypotheses of the theorems
  (e.g. `decrypt k iv (encrypt k iv m) = m`).
* Floating point code (bandwidth estimation, jitter, smoothing) is not modelled except
  where a theorem over the integers/rationals is meaningful; this is said there.

## Trusted base

Lean 4.33.0 kernel; axioms at most `propext`, `Classical.choice`, `Quot.sound`
(checked with `#print axioms` on each property theorem); the reading of the Rust source
by the author, documented by the citation on each definition. Nothing was executed from
`/repo`.

## Plan per property

| id | what is modelled | how it is proved |
|----|------------------|------------------|
| C01 | `mk_extend` for a generic bit width on 64-bit wrap arithmetic | arithmetic, `omega`, generic width |
| C02 | `MultiplexKind::try_from` | case analysis against an RFC table spec |
| C03 | `NackRegister` as a 101 slot ring | ring invariant: a slot is set iff a received seq of the window maps to it; induction over histories |
| C04, C05 | `nack_reports`, `NackIterator`, `NackEntry::into_iter`, `lists_from_iter` | invariant + exact set of the produced entries |
| C06 | `reception_report` integer part | ghost history refinement; negative witness where the code deviates |
| C07, C08 | `EvictingBuffer`, `RtxCache` | ring invariant, ghost map of last pushes |
| C09 | `SendQueue`, `TotalQueue` | invariant: totals equal the sums |
| C10 | `MediaTime` | rational comparison; counterexample for different frequencies, partial theorem |
| C11, C12 | `RtpHeader::write_to/parse`, `ExtensionMap` | round trip by induction over the extension list |
| C13, C14, C15 | all RTCP packet types, compound parser, packing | round trips, `Res.panic`-freeness, fuel-free termination |
| C16, C17, C18 | TWCC register, chunks, wire format, sender register | refinement to a function from seq to arrival |
| C19–C22 | `DepacketizingBuffer`, `Contiguity` | invariants over push/pop histories |
| C23, C24 | packetizers and depacketizers (`Model/Packet.lean`, `Model/H264.lean`, `Model/Av1.lean`), states threaded over any history | induction over fragmentation loops; `Safe` combinators for totality |
| C25, C26 | pair and candidate priority | arithmetic |
| C27–C29 | STUN codec | round trip; HMAC and CRC32 are parameters |
| C30 | role conflict handling of two agents and a message soup | invariant over all interleavings |
| C31–C33 | pair table, `CandidatePair` | invariants |
| C34 | leaky bucket debts | invariant over rationals/integers |
| C35, C36 | DCEP codec, channel id allocation | round trip; allocation invariant |
| C37, C38, C48 | SRTP layout, IV construction, SRTCP index | ciphers as parameters with inverse law |
| C39, C66-C69 | the outgoing stream (`Model/StreamTx.lean`: `StreamTx` with send queue, resend cache, NACK queue, padding and resets, and the splitting of frames; the ratio of resends to the cap is a parameter of each poll, statistics, sender reports and TWCC numbers are left out, a VP8 patch is applied at once) | one invariant per property over every history (`run_induct`): order of numbers per SSRC, origin of cached packets, queue of requests, FIFO, and absence of panics under a stated usage contract; violations as concrete histories |
| C49, C70, C71 | the table of streams (`Model/StreamTable.lean`: `Streams`, the cached routes, the dynamic mapping by MID/RID/PT, SSRC changes, `new_ssrc`; hash maps are lists with a reorder step, of a stream only its identity is kept, random draws are a list) | invariant of keys and cached routes over every history; the ways of a packet as a case analysis (`route_spec`); violations as concrete histories |
| C40, C41, C65 | payload type (`Model/PayloadType.lean`: the claim table as a list of numbers, feedback flags left out) and extmap negotiation | invariants over arbitrary remote lists; panics characterised; offer/answer of two model peers |
| C42, C43 | `Direction`, `Setup` | finite tables, history induction |
| C44 | LEB128, VLA (`Model/Vla.lean`): writer on a real buffer with panics, parser on any bytes | round trip induction; writer refines a byte list; case analysis for totality |
| C45 | `Soonest` fold | minimum of list |
| C46 | `ValueHistory` | invariant |
| C47 | `str_id` | string lemmas |
| C49 | `new_ssrc` | loop with arbitrary random source |
| C50 | H.264 profile tables, `BitPattern` | bitwise lemma, finite table |
| C51–C59 | VP9 contiguity, ICE scheduling, STUN totality, RTCP/TWCC totality, absolute send time, padding/RTX framing | as the module comments say |
| C63 | VP8 descriptor patch, parser, layer detector on the raw payload | byte case analysis, readers compared on every patched payload |
| C64 | the depacketizer models run on payloads built by a separate encoder of RFC 7741, RFC 9628 and RFC 6184 payloads (`Spec/Interop*.lean`) | the position after each field is the length of the encoded prefix; induction over packets |
| C72 | the DONL counter of the H.265/H.266 packetizers | packetizer invariant (`Numbered`, `Counts`), over any sequence of frames; H.265 also through `payload()` |
| C73 | `FormatParam` and its text (`Model/Fmtp.lean`), the order of the `HashMap` of the composites as a parameter | the pairs printed parse to the parameters printed; the order of the parameters does not matter because their names differ (`set_perm`) |
| C74 | `to_sdp_string`, both candidate parsers (`Model/CandText.lean`, `candidateP` of `Model/Sdp.lean`) | words and their separators; each optional extension is read or skipped |
| C75 | the whole of `Display` for `Sdp` and the whole of `sdp/parser.rs` over a model of the `combine` combinators (`Model/Text.lean`, `Model/Sdp.lean`) | `Reads p input value rest` for every parser on what the printer gives, `Errs` for every earlier alternative; induction over attributes and m-lines |
| C76 | the same parser on arbitrary attribute lines | `At p s`: a parser behaves the same on a line whatever comes after it, closed under the combinators; violations as concrete texts |
| C77 | `check_consistent` as used by the parser, `assert_consistency` | invariant of the parser's results over every text; violation as a concrete text |
| C78 | `NackRegister` (as C03) | `Floor`: what is below the window has arrived or is more than 100 behind; induction over histories; violation as a concrete history |
| C79 | one incoming stream with `handle_rtp` of the session (`Model/StreamRx.lean`: `StreamRx`, the highest numbers by SSRC, the packet that waits, SRTP and header parsing as C37, C12) | invariant `Good`: what was let through is refused by the registers, and is not above the remembered number |
| C80 | the same, in both modes | `receive_spec` for one datagram, positions in the history for the order; violations as concrete histories |
| C81 | the same | simulation `Sim`: the two runs differ only in registers that are still empty |
| C82 | the same, RTP mode | `Track`: each register is exactly the numbers let through (`Lane` from `Floor` of C78), so `extend` recovers the number and the window decides |
| C83 | the same, both modes | `Timed`: the last time is the true time of the last packet opened |
| C84 | the same, with timeouts and the order of events in `poll_event` | `Pausing`: the time of the next check is that of the last datagram opened |
| C85 | sending stream (C39, C66–C69), datagrams, receiving stream (C79–C84) composed; the network is any choice of datagrams | `Sender` (each retransmission and padding repeats a packet sent new) and `Inv` (what was handed over was sent, and each number once), induction over both histories |
| C86 | resend cache, `handle_nack`, `poll_packet` of the sending stream; receiving stream of C82 | `Kept` (the last packets are in their slots through growth and eviction), `Tracked` (the cache holds the packets that were sent), each poll brings a waiting number nearer to the head; with C82 for the receiver |
| C87 | `calculate_rtt`, NTP conversion in f64/f32 (rationals rounded to nearest even after each operation; no denormals), LSR/DLSR and DLRR fields | error bounds of each rounding, added up; violations for the wrap of 16 bits of seconds and for 2036 |
| C88 | pending reference times of the session and the DLRR report of `handle_timeout` | invariant: what waits is the last, unanswered word of its SSRC; the position in the queue decreases by 50 per report |
| C89 | `rtp_and_wallclock`, `clock_rate` and the counters of the sending stream of C39/C66; `sender_info`; SR encode and parse; `set_sender_info` of the receiver | history lemmas (what the last write and the last packet were), rounding of the sum in two bases, counters by induction with the payload types known; NTP errors of C87 |
| C90-C97 | `Rtc` itself (Model/RtcLoop): `poll_output`/`do_poll_output`, `handle_input`, `close`, `disconnect`, fingerprint and DTLS start of offer, answer and direct API, the DTLS wrapper, the pushed-back packets of SCTP, the channel table of C36; ICE, DTLS, SCTP, session and statistics are arbitrary functions of an opaque state (`Env`), loops that ask a part until it is quiet have fuel and the theorems hold for every fuel that suffices | every call is a sequence of small changes (`Micro`, Proofs/RtcLoop) of the fields that matter, with a ghost log of what the parts said and what the caller was given; each property is an invariant over these, stated on the log (Spec/RtcLoop); timers by the algebra of `soonest` |
| C98-C103 | The streams of SCTP (Model/SctpStreams): entries, `open_stream`, `close_stream`, `write`, `handle_input`, `handle_timeout`, `do_poll` with the retries and DCEP; sctp-proto is an opaque state with arbitrary answers; a ghost log of calls and events. Not modelled: `close`, buffered amounts, tracing; the pushed-back packets are in C94. Loops have fuel; statements are of the runs that end. | Each call is a sequence of small changes (Proofs/SctpStreams) that keep an invariant of entries and log; C103 by induction over the loops with a count kept by sctp-proto (`Records`; any sctp-proto can be made to count). |
| C104-C113 | Bandwidth estimation (Model/Bwe): `Bwe`, `ProbeControl`, `ProbeEstimator`, `EstimateSmoother`, `LinkCapacityEstimator`, `DelayController`, `RateControl` and the part of `Session` that drives them. Exact rationals for `f64`; what the trendline, acked-bitrate, loss and ALR detectors answer is arbitrary at each call (`Oracle`). Not modelled: those detectors, tracing. | A wake-up is one of three: silent, a left-over probe, a fresh decision (`wake`); invariants by induction over the history. |
| C114-C118 | SDP API (Model/SdpApi): `SdpApi` (add_media, set_direction, stop_media, add_channel, ice_restart, merge, apply), `accept_offer`, `accept_answer`, `add_ice_details`, on top of the negotiation model (Negotiate) and the table of channels (Channel). ICE credentials are names; of ICE only credentials, lite and controlling are modelled; the m-lines of an offer are those of C61. Not modelled: fingerprints, candidates in the description, codec/extension remapping (C65, C66). | Every call by cases; `Agree`/roles by induction over rounds in which either side offers and offers are dropped. |
| C119-C120 | `Rtc::accepts` (Model/Share) on the ICE agent model and the STUN model; several instances and the first that accepts. Credentials and transaction numbers of the agent stand for those of STUN (`Names`); the agent's events are drained at once; DTLS, RTP, RTCP are one kind. | Table invariant of the ICE agent (indices), no event of a nomination while nothing was heard (every function of the agent by cases), list induction for the choice; composes C56. |
| C121-C123 | statistics (`Model/Stats.lean`: `Stats`, the counters of the streams, the snapshot); hash maps are lists, a timeout is given the orders in which it walks them | what is told and what waits is what was made (`run_queue`), times by induction; sums over a map filled in any order; counters against a ledger read from the history (`owner`, `received`, `sender`, `sent`) |
| C124 | `Model/RtxCap.lean`: `ValueHistory`, the ratio measured every 50 ms, the cap, around the stream of `Model/StreamTx.lean` (to which it is proved a refinement, `C124_refines`); rationals instead of f32. | Invariant: the two histories are what was taken to be sent, minus entries over a second old; the last ratio is the share at a poll of the history. Violations: no cap between measurements, packets that are dropped count, after a reset without cap nothing is let go. |
| C125 | `Model/FrameQueue.lean`: writer, queue of frames, payloaders, `do_payload`, on the streams of `Model/StreamTx.lean`; a codec is any function of its state, the room and the frame. | Balance over histories: waiting + accepted = left + waiting (`C125_once`); when a write is refused (`C125_refused`), turns, wake, draining (`C125_turns`, `_wake`, `_drains`), the packets (`C125_packets`), one codec state (`C125_codec`). Violations: frames without a stream are lost, one media starves the next, payload type of another media, no RID with simulcast, a panic, closing. |
| C126 | `Model/MediaEvents.lean`: the flags `need_open_event` and `need_changed_event`, what sets them (lines of the peer, `declare_media`, `set_direction`, `stop_media`) and the poll that takes them; `Model/Negotiate.lean` has the order of lines. | Invariant over histories: what was told is so, or something waits (`C126_told`, if no media is changed twice between two polls); added once and first (`C126_added`), never for own medias (`C126_own`), events are true and end (`C126_truth`, `_ends`). Violations: a change lost, changes told that are none, `MediaAdded` for declared medias, own medias rejected silently. |
| C127 | As C126. | `stopped` stays (`C127_stays`); stopped or rejected: inactive while nobody gives a direction (`C127_stop`, `_rejected`). Violations: a line of the peer or `set_direction` revives it; `stop_media` without an agreed payload type does nothing. |
| C128 | `Model/FrameRx.lean`: the map of buffers (`Model/BufferRx.lean`) by payload type and RID, `depayload`, `poll_sample`, the resets; the map has an arbitrary order that may change at any time; codecs are any `Codec`s. | The invariant of C20 for each buffer, with what was heard for its key (`C128_frames`); in-order audio (`C128_inorder`); polls and packets leave nothing out (`C128_quiet`). Violations: an SSRC change resets one payload type only, frames of two payload types come out in map order. |
| C129 | `Model/Requests.lean`: the pending requests of both sides, `maybe_create_keyframe_request`, REMB, FIR numbers, the split of compound feedback by SSRC, `poll_event`. The wire format is that of C12. | What waits for a stream is a fold over what arrived and was told (Spec), equal to the slot of the stream (`C129_truth`, `_told`); the number that waits falls with each poll (`_ends`); what a timeout sends is a fold over what was wanted (`_asked`, `_numbers`); both together (`_through`). Violations: repeats of a FIR, application feedback overwritten, a request before a change of SSRC, `is_request_keyframe_possible`. |
| C130 | `Model/Alr.lean`: `IntervalBudget` and `AlrDetector` in exact integers (the program rounds each product to bytes and compares ratios of doubles); who calls them is C104–C113. | What remains of the budget is bounded by what was allowed and used in a stretch since the last clamp at the bottom (`sound_run`), or at least that since the last at the top; thresholds give `C130_truth`, `_long`, `_busy`, `_idle`, `_limited`, `_exit`. Violations: bursts, falling estimates. |
| C131 | `Model/Snap.lean`: `create_offer`, `accept_offer`, `accept_answer` as to `a=sctp-init`, and `snap.rs`; base64 (any code with a faithful decoder), the chunks of the SCTP library and the refusal of other parts of a description are given. | An invariant of the pair of sides (idle, both with the handshake, both without and crossed) kept by whole exchanges and unsent offers (`C131_both`, `_accepted`, `_when`); one side against any accepted descriptions keeps no chunk before the start (`C131_own_offer`, `_own_answer`, `_changed`). Violations: refused offers leave their chunk, unsolicited attributes. |
| C132 | `Model/Reports.lean`: the schedule of reports and NACK rounds over all streams (`handle_timeout`, `regular_feedback_at`, `nack_at`), with every way a stream comes, changes and goes; the contents of reports are C06/C87-C89/C04. The maps are lists, and nothing proved depends on their order. | An invariant: each stream's last time is the beginning of time or that of a report in the log; freshness of a media is kept by all steps that do not renew its streams. Violations: the stream of SSRC 0 probes is never reported but always asked about (universal over what follows); the cached answer on NACKs survives `stream_rx(..).suppress_nack(false)`. |
| C133 | `Model/SsrcLines.lean`: the SSRC lines and FID groups `as_media_line` writes, `ssrc_info`, the end of `update_media` and `expect_stream_rx`; closed form of the two passes over any attributes, then what the announced lines mean by uniqueness of the SSRC's owner, then induction over the streams told (`C133_pairs`, `_streams`, `_first`, `_again`, `_meaning`, `_meaning_rtx`, `_kept`, `_off`). The text of the attributes, names (cname, msid) and rids are left out. |
| C134 | `Model/Arrival.lean`: `ArrivalGroup` and `ArrivalGroupAccumulator` over whole nanoseconds; a ghost list of groups as invariant over every sequence of packets, then the deltas as its consecutive differences (`C134_groups`, `_exact`, `_in_order`, `_count`, `_sum`). The trendline that takes the deltas is floating point and not modelled. |
| C135 | `Model/MsidId.lean`: the filter of `add_media` over code points, against the grammar of RFC 8830 / RFC 4566 in `Spec/MsidId.lean`; list lemmas over strings of any length (`C135_tokens`, `_no_break`, `_kept`, `_places`, `_order`, `_again`). The random ids are assumed to have no space or end of line. |
| C60 | text/binary/empty data channel messages | case analysis |
| C62 | `LeakyBucketPacer`, `ProbeClusterState` with rational rates | potential: sent = debt + drained, invariant on when a queue is chosen |
| C61 | `sync_medias`, `add_new_lines`, `as_media_lines`, `as_sdp` over sessions of two peers | invariant (places are a permutation of a range), induction over rounds |

## What is modelled and what is not

**RTP plumbing.** `rtp/header.rs`, `rtp/ext.rs` (all built-in extensions except the VLA/dependency
descriptor/user serialisers), `rtp/id.rs` (sequence number extension), `rtp/mtime.rs`, `streams/register.rs`,
`streams/register_nack.rs`, `streams/rtx_cache.rs`, `streams/send_queue.rs`, `packet/buffer_rx.rs`,
`packet/contiguity*.rs`. Floats (jitter, frame marks) are not modelled.

**RTCP and TWCC.** Every packet type of `rtp/rtcp/*.rs` with parsing, writing, merging and packing; the TWCC
receive register (`build_report`) and the send register (`apply_report`). Not modelled: `SenderInfo` NTP
conversion from `Instant`, the bandwidth estimators that consume TWCC.

**STUN and ICE.** `crates/is`-level code: message parse/serialise/verify (`HMAC-SHA1`, `CRC32`, password
derivation are parameters; the theorems that need it assume the MAC result has 20 bytes), candidate and pair
priorities, the pair table, the checks schedule and retransmissions, nomination, role conflicts, and two
agents exchanging arbitrary messages over a network that loses, delays, duplicates and reorders (`IceRole`).
Not modelled: TURN/relay refresh, mDNS, the runtime setters for timing, role and tie breaker.

**SRTP.** `rtp/srtp.rs` completely, over abstract primitives (`Prim`: AES-ECB block, AES-CTR, AES-GCM, HMAC-SHA1).
Theorems name the laws they use: `Laws` (decryption inverts encryption, AEAD opens what it sealed, lengths),
`EcbLaws`/`EcbInj` (block size and injectivity for key separation), and for rejection theorems the hypothesis
that the attacker's tag differs from the MAC. DTLS and the key exporter are outside.

**Data channels.** `sctp/dcep.rs`, the DCEP/PPI part of `sctp/mod.rs`, `channel.rs`. The SCTP protocol itself
is the external `sctp-proto` crate and is not modelled; the table is driven by arbitrary sequences of its events.

**Negotiation** (`Model/Negotiate.lean`, `Props/Negotiate*.lean`). `rtp/dir.rs`, `Setup` of `sdp/data.rs`, and of
`change/sdp.rs`: `accept_offer`, `accept_answer`, `apply`, `apply_offer`, `apply_answer`, `sync_medias`, `add_new_lines`,
`update_media` (direction, stop, payload types), `as_media_lines`, `as_sdp` (lines, bundle, setup), `ensure_correct_answer`,
`as_new_medias`, `apply_to`, `add_pending_changes` (its panic), the change counter. Not modelled there: ICE and fingerprint
attributes, codec parameters, header extensions, SSRC/simulcast lines, SDP text.

**Deadlines, sums, ids, profiles.** `util/mod.rs` `Soonest`, `session.rs`/`lib.rs` poll_timeout folds (`Model/Timeout.lean`),
`util/value_history.rs`, `rtp/id.rs` `str_id!` (`Model/StrId.lean`; UTF-8 decoding is a parameter that reads ASCII as ASCII),
`util/bit_pattern.rs`, `packet/h26{4,5,6}_profile.rs` (`Model/Profiles.lean`).

**Pacer** (`Model/Pacer.lean`): all of `pacer/leaky.rs`, `pacer/queue.rs` (without `merge`), `bwe/probe/cluster.rs`. `Bitrate` is a
rational instead of an `f64`; byte counts do not overflow; the null pacer is not modelled.

**Video layers allocation** (`Model/Vla.lean`): all of `rtp/vla.rs` (LEB128, `parse`, `write_to` on a buffer).

**Codecs** (`Model/Packet.lean`, `Model/Vp8Desc.lean`): `packet/{opus,g7xx,null,comfort_noise,vp8,vp9}.rs` packetizers,
depacketizers, head/tail tests and key frame detectors, and the VP8 descriptor patch. The dispatch enums of
`packet/mod.rs` are not modelled separately (each arm is a plain call). `Model/H264.lean`: all of `packet/h264.rs`. `Model/Av1.lean`: all of
`packet/av1.rs` (OBU parser, packetizer, depacketizer, detector). `Model/H266.lean`: all of `packet/h266.rs` (the reused packet buffer is not modelled).
`Model/H265.lean`: all of `packet/h265.rs` (packetizer, PACI, depacketizer with its `payload()` view, detector; the reused packet buffer
is not modelled). C23/C24/C64 then cover every codec; AV1 packets of senders other than str0m are the gap left in C64.
* SDP text: `combine` is modelled by a parser with committed and uncommitted errors (`Model/Text.lean`): `attempt`, `choice`, `optional`,
  `many`, `sep_by`, `and_then`, `string` (commits after its first character), `spaces`, `crlf`. Positions and error values are dropped.
  Parameters (`Env`): the text of IP addresses, the crate version, `char::is_alphanumeric`, the order of a `HashMap`. Texts are lists of
  Unicode scalar values. `Rid`/`Mid` are their texts after sanitising.

## Where the code does not do what the property says

Each is a theorem (`…_violation…`) or a hypothesis/partial claim in the module named.

* C06: `fraction_lost` treats `expected_interval == 0` but not a negative lost count as RFC 3550 does; the clamp constant
  of the cumulative loss is `0x8000000`, not `0x7fffff`.
* C10: `MediaTime` equality and order are not transitive across different frequencies (rounding).
* C19: a frame can be served from the `depack_cache`, which is keyed by index range, after the packets changed.
* C21, C51: VP9 contiguity across the 7/15 bit picture id wrap; the history grows without bound on some streams.
* C25: overflow of pair priority outside the legal range of candidate priorities. C26: TCP candidate type order,
  relayed preferences can collide. C30: equal tie-breakers do not converge. C31: duplicates after the pair limit.
* C52: `max_retransmits = 0` panics. C54: `verify` panics when MESSAGE-INTEGRITY is the first attribute. C56: a user name
  longer than 127 bytes panics; an error reason of 65532 bytes or more overflows; SOFTWARE and NETWORK-COST are never
  written; the fingerprint is never verified on receipt.
* C08: an RTX payload of 2000 bytes or more panics the cache's size classes.
* C17/C57: the length of a large run is not advanced correctly while parsing, a run of 8192 is cut, an empty run panics
  the iterator, `base_seq + status_count` overflows, `build_report` panics for 19 bytes of room and underflows below 20;
  rounding errors of deltas accumulate; drained entries are reported as lost.
* C13–C15: REMB of 0 becomes 8388608; application payload padding can look like REMB; empty BYE/NACK/FIR are written but
  cannot be parsed; one oversized feedback blocks the queue; feedback packed while the SRTP context is missing is dropped.
* C41/C58: the audio level extension sets the voice bit, an extension block is written without the X bit, empty mid/rid
  assert, transmission time offset uses 4 bytes for 3, a locked extension can be displaced, absolute send time fails
  shortly after the beginning of time of the process.
* C37/C38/C48: `protect_rtcp` panics on fewer than 8 bytes; SRTCP has no replay protection and reuses its index and so its
  IV after 2^31 packets; dynamic SSRC mapping happens before authentication.
* C35/C36: labels longer than 1488 bytes (with protocol) panic; 65535 is given out; an automatic id can take one that was
  negotiated, which then never opens while a timeout is asked for at once for ever (also when ids run out); asking for an id
  the peer opened panics; `close_channel` before an id is assigned does nothing.
* C42: an answer is not compared with the offer, so it may widen a direction. C43: glare (both offers accepted) makes both
  sides passive for ever. C61: `do_assert_consistency` compares nothing (`check_consistent()?` returns early, `!len` is a bitwise
  not); duplicate mids in an offer give two medias with one mid; duplicate mids in an answer panic in `add_pending_changes`;
  an offer that fails after it recycled a place leaves a hole that moves later m-lines.
* C45: of several receive streams waiting for the pause check the first of the map is reported, not the earliest.
* C47: remote mids that differ only in special characters or after 16 characters become one mid; the answer shows the changed mid.
* C50: H.264 level 1b is taken from level byte 10 instead of 11.
* C34: `clear_debt` rounds `rate * elapsed` to whole bytes at each timeout and counts the time as used, so frequent timeouts
  (each below half a byte of time) never drain the debt, and others drain up to twice as fast.
* C44: the writer loses the bitmask of a third and fourth stream when streams differ, writes three or four inactive streams so
  that they do not parse, overflows the temporal count for five temporal layers, panics for no/five streams and a zero width;
  the parser panics on a width or height field of 0xFFFF and reads a truncated bitrate as 0; values of 2^63 and more do not
  round trip in LEB128.
* C23: the null packetizer ignores the MTU; an MTU not larger than the VP8/VP9 header drops the frame silently; VP9 profile 2 key
  frames are marked as inter frames (the code expects a reserved bit that only profile 3 has); a flexible mode VP9 packetizer marks
  every frame as key frame. C24: the VP9 depacketizer's `pgtid`/`pgpdiff` lists grow without bound.
  AV1: an MTU of 1 drops frames silently, OBUs of reserved types are dropped, and fragments that never end are kept without limit.
  H.264: SPS+PPS too big for one packet are dropped, bytes before the first start code are dropped, a start fragment does not
  clear an unfinished unit (stale bytes are delivered inside the next one), fragments without end are kept for ever.
  H.266: parameter sets too big for a packet are dropped, of two sets of a kind only the last is sent, zeros between units are sent as
  part of the unit before, a unit that is only its header is sent but refused, an end fragment without a start delivers the last unit
  again, an aggregate of one unit is refused but its unit stays in the output, the detector takes DONL for a size (C64).
  H.265: the same (but zeros between units are read as start code), and: with DONL a single packet is two bytes over the MTU; the ids of an
  aggregate are those of the slice after the parameter sets, not the lowest; a PACI packet is delivered without the two header bytes of its unit
  and its key frame flag is read from the body; the TSCI accessors are shifted by one byte and read one byte twice; empty units and
  bytes after the last unit of an aggregate are accepted; units of types 48 to 50 are sent as they are.
* C67: a stream declared without RTX SSRC whose payload type has RTX panics at the first NACK for a cached packet; a packet that just fits a
  datagram panics when it is repeated; with the size warning switched off (`usize::MAX`) padding of 1013 bytes or more panics.
* C78: when a packet is more than 101 ahead of all others, marks of old packets are taken for marks of new numbers, and up to 99 numbers that
  never arrived are left out of the window: not asked for, and refused when they arrive late.
* C80: a packet not fetched before the next one arrives is overwritten; a repair packet of one byte is handed over as number 0; a roll-over
  counter lower than what the session has seen is ignored.
* C81: before the first media packet one forged datagram with the media payload type on the RTX SSRC makes a wrong register and the stream is
  lost; a roll-over counter set by hand is used up by the first datagram, forged or not.
* C82: a packet before the first one of the stream by number is dropped, even if it is only one behind.
* C83: after a pause, a packet a little older than the last one gets a time half a cycle (2^31 ticks) later, and the next one is back.
* C84: without a poll between, the same pause event can come twice in a row.
* C85: a retransmission delayed by more than 2^15 packets is handed over a second time under a wrong number, and then packets are refused
  (`C85_violation_delayed_rtx`).
* C86: with gaps in the numbers the cache can lose a packet although it holds far fewer than the configured number: growing is only tried once
  per packet, so a collision in the grown buffer evicts (`C86_violation_gaps`: numbers 0, 3, 13 in a cache for 100 packets).
* C87: across a wrap of the 16 bits of seconds in the reports (every 18 hours) there is no round-trip time: str0m subtracts saturating where RFC 3550
  subtracts modulo 2^32 (`C87_violation_wrap`); from February 2036 on there is none at all: the NTP time saturates (`C87_violation_2036`).
* C89: a report made before anything was written or sent, or when the wallclock of the last write is in the future, says RTP time 0 at the current NTP
  time (`C89_violation_zero`); retransmissions are counted although they have another SSRC (`C89_violation_counts`); with two clock rates the time of the
  last write is extrapolated with the rate of the last packet sent (`C89_violation_rates`).
* C90: a DTLS packet that waits for a nominated address keeps a closing instance alive for ever (`C90_violation_never_over`); where SCTP cannot shut down
  (as during its handshake) `close()` fails, the instance stays alive with its RTP side closed, and each later `close()` fails too (`C90_violation_failed_close`).
* C91: a fingerprint whose hash is not written `sha-256` matches no certificate (`C91_violation_hash_name`); nothing makes `Connected` wait for a certificate
  (`C91_violation_no_certificate`; the DTLS library shows one first).
* C93: `close_data_channel` before the channel has a stream number is ignored, and the channel opens (`C93_violation_close_ignored`).
* C95: `Connected` is never given when DTLS says connected and closed in one go (`C95_violation_lost`); `Closed` can be given twice
  (`C95_violation_closed_twice`).
* C96: STUN counts when sent and not when received (`C96_violation_stun`).
* C97: a peer can make the taking of its answer panic: it opens and closes the stream number given to the channel of the pending offer
  (`C97_violation_answer_panics`).
- C98: a stream negotiated by the application on which the peer's data came first is opened by `open_stream` without `Open` being told
  (`C98_violation_adopted`); with SNAP a negotiated stream is open before anything was exchanged (`C98_violation_snap`); a peer's association is
  taken though SCTP was never initialised, and the initialisation after it fails (`C98_violation_uninvited`).
- C99: a stream that is gone is marked while the poll says there is nothing and no timer: `Close` comes only with some other poll
  (`C99_violation_late`).
- C103: data is told of streams that are not open, and Rtc then drops it (`C103_violation_early`).
- C104: the second of two probes is handed out as decided though the application has since asked for much less (`C104_violation_lowered`).
- C105: after a reset the ids start at zero again, and reports of packets sent before the reset become the result of the new probe (`C105_violation_reset`).
- C106: the second of a pair comes out in a congested network (`C106_violation_leftover`); and while the estimate stays the same the probe controller is not told of the congestion and decides on new probes (`C106_violation_unchanged`).
- C107: stagnation probes come every fifteen seconds, not every thirty as the comments at the code say (`C107_violation_thirty`).
- C108: with a measured round-trip time of zero the delay controller wants to be woken up at once after every wake-up, for ever
  (delay/control.rs 117-124, `C108_violation_instant`).
- C112: a calm network can lower the estimate: growth is skipped from 1.5 times what arrives plus 10 kbit/s on, but capped at 1.5 times
  (rate_control.rs 191, 242; `C112_violation_lowers`); and growing delay can raise one that began below 40 kbit/s (`C112_violation_raises`).
- C113: after a pause no probe comes out as long as the estimate stays exactly the same: the probe controller forgets the estimate when
  paused (control.rs 137) and is told it again only when it changes (mod.rs 337; `C113_violation_stuck`).
* C114: merging a pending offer drops a direction that was set (sdp.rs 603; it was changed at once) and a channel that was given a
  stream while the offer was out (sdp.rs 602, channel.rs 296); two application lines are offered after a merge that both add one, and
  refused; of two restarts the first is offered although the application was given the second.
* C115: an ICE restart before the first exchange is offered but not taken by the offerer (sdp.rs 730-733).
* C116: the answer to the first offer is lost, the other side offers: both sides are controlled.
* C117: an offer refused for the order of its m-lines has already restarted ICE and changed directions.
* C118: `set_direction` acts at once (sdp.rs 358, against the comment at 567-569); a negotiated channel cannot be added again after the
  offer is dropped, the process panics (channel.rs 210).
* C119: `send_addr` is never cleared: an instance that lost its connection still accepts everything from the address
  (`C119_violation_stale`); DTLS from a peer whose check we answered is accepted by no one before our own check is answered (`C119_violation_early`).
* C122: jitter, loss and round trip time of a mid/rid with several SSRCs are those of the stream visited last, in hash order: a stream long
  silent can hide the losses of the one in use (`C122_violation_stale`); PLIs sent for a stream without bytes are not told
  (`C122_violation_plis`).
* C123: the first receiver report makes no loss though one came (`C123_violation_loss`); `reset_stream_tx` sets totals back
  (`C123_violation_reset`); of two streams of one mid/rid one is told, by hash order (`C123_violation_two`).
* C124: requested packets are sent without a cap for up to 50 ms (`C124_violation_burst`); packets dropped for their payload type count as
  sent (`C124_violation_unsent`); after `reset_stream_tx` without a cap an account grows for ever (`C124_violation_grows`, `_kept`).
* C125: a frame without a stream at its timeout is lost (told by an error, `C125_violation_lost`), and that error keeps the frames of later
  medias waiting for as long as it lasts (`_starved`); the writer takes payload types of other medias (`_pt`), and frames without a RID
  although RIDs were negotiated, which go to whichever layer the map gives first (`_rid`); a frame waiting while its payload type is
  renumbered panics (`_panic`: needs a payload type not yet negotiated); frames waiting at `close` are dropped silently (`_closing`).
* C126: a change of direction is never told if another `set_direction`/offer with the same direction comes before the poll
  (`C126_violation_lost`); changes are told that are none (`_spurious`); `declare_media` does fire `MediaAdded`, which its documentation
  denies (`_declared`); of an own media that is rejected or answered otherwise nothing is told (`_rejected`).
* C127: the peer or `set_direction` gives a stopped media a direction again (`C127_violation_revived`, `_direction`), after which
  `stop_media` no longer works; `stop_media` ignores a media without an agreed payload type (`_unmatched`).
* C128: when the SSRC of a stream changes, only the buffer of one payload type is reset; the others drop all packets until the numbers pass
  the old ones (`C128_violation_reset`); frames of two payload types come out in the order of the hash map (`_order`).
* C129: a repeated FIR is told twice (`C129_violation_repeat`); of two application feedbacks before a poll the first is lost (`_app`); a
  request is dropped when the SSRC changes before the timeout (`_change`); `is_request_keyframe_possible` asks any codec of the session
  (`_possible`). Not modelled: `poll_timeout` does not look at what waits to be sent, so it may wait for the next other deadline.
* C130: what a burst uses beyond half a second's budget is forgotten, so an application far above the estimate counts as limited after
  each second of silence (`C130_violation_burst`); when the estimate falls, what was unused of the higher one counts whole (`_drop`).
* C132: one probe on SSRC 0, as libWebRTC sends, makes a stream that never needs a report but whose next report is always asked for: from then on
  every timeout asked for is in the past, so `poll_output` answers "now" and the instance spins (`C132_violation_probe`); turning NACKs on through
  `stream_rx` after a poll found none wanted has no effect until another stream comes (`C132_violation_nack`).
* C133: only FID groups are looked at, so the SSRC of an FEC stream (`a=ssrc-group:FEC-FR`) becomes a stream of the media (`C133_violation_fec`); a
  stream told first without RTX and later with it never asks for missing packets (`C133_violation_late`); an SSRC told no more keeps its stream
  (`C133_violation_changed`); an SSRC told for two medias stays with the first (`C133_violation_mid`).
* C134: when packets are given out of send order, a delta can have a negative send time (`C134_violation_back`), and the packets sent before the
  first of the current group are left out.
* C135: `~` is a token-char but is left out, since the last range of `is_token_char` excludes its end (`C135_violation_tilde`); an id with no
  token-char at all becomes empty, which is no msid-id (`C135_violation_empty`); two different ids can become one (`C135_violation_clash`).
* C39: `reset_stream_tx` away from an SSRC and back draws a new first number from the same small range: numbers go back and can repeat with
  another payload, so the SRTP key stream is reused (`C39_violation_reset`, `C39_violation_back`).
* C131: the chunk of a refused offer is kept: the next offer may start SCTP without the handshake against a peer that did not offer this
  (`C131_violation_stale`), or is refused for ever (`_poison`); an attribute in an answer that was not offered makes all later descriptions
  without it refused (`_unsolicited`).
* C09: `poll_packet` stamps a packet just before it pops it, so its waiting time is never subtracted from the total of the queue.
* C68: with RTX the acknowledgement of the main SSRC is never recorded, MID is sent for ever.
* C65: an offer can panic the receiver: two local entries of one format matching one remote entry; the same
  number for two codecs on two m-lines, or for RTX and another codec. A remote that lists one H.264 profile with two levels can get
  an answer in which one of the numbers is said to be VP9. A codec with another number on a second m-line is missing there.
* C40: the H.264 level is not narrowed to the remote's.
* C64: VP9 streams with more than three spatial layers are refused (RFC 9628 allows eight).
* C63: patching a payload whose descriptor str0m did not write panics; the layer detector accepts a layer index without the T
  bit; layer fields of the VP8 depacketizer are kept from an earlier packet.
* C49/C71: `reset_stream_tx` changes the SSRC of a stream but not its key in the table: NACK, PLI and reports for the new SSRC reach no
  stream, and `new_ssrc` may return it. The two SSRCs of an offered layer are drawn independently. Reports on RTX SSRCs reach no stream.
* C70: a late packet of the previous SSRC makes a second stream with the same MID, RID and RTX SSRC (the flap protection only protects
  the old stream); one forged packet naming the MID moves a stream to its SSRC (routing is before authentication); replacing a known RTX
  SSRC leaves a stale cached route that is preferred as long as it is used.
* C73: with `level-id` (or any other name of the H.265 composite) in the same fmtp a `profile-id` of VP9 is lost (`C73_profile_id_lost`).
* C74: Chrome's order of candidate extensions is read by `from_sdp_string` but not on an `a=candidate` line, which becomes an unknown
  attribute (`C74_extension_order`).
* C75: a rid with a sanitised character (`_`) and a rid with payload types are printed but never read as rids (`C75_rid_underscore`,
  `C75_rid_pt`; the unit tests pass because the unknown attribute prints the same); media with no common codec is printed with an empty
  list of payload types, which makes the whole SDP unreadable (`C75_no_pts`). Not read back as itself: `extmap-allow-mixed` and groups
  without mids (unknown attributes), a munged simulcast and an fmtp without parameters (nothing). A simulcast without layers and a
  fingerprint without bytes panic when printed; an ssrc-group without SSRCs prints no line end.
* C76: an fmtp ending in `;` or white space, an `a=ssrc` without `:`, and a rid with payload types swallow following lines
  (`C76_fmtp_swallows`, `C76_ssrc_swallows`, `C76_rid_swallows`); a line in an m-section that is not an attribute silently ends the SDP
  (`C76_rest_dropped`).
* C77: `assert_consistency` never compares the BUNDLE group with the m-lines: `check_consistent()?` leaves the function at the first
  m-line without complaint (`C77_group_present`, `C77_bundle_unchecked`).
