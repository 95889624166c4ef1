{"id": "C01", "title": "Extended sequence numbers are recovered across wrap-around", "statement": "When a packet whose true 64-bit index is i arrives on the wire as i mod 2^N (N = 7, 8, 15, 16, 32) and the receiver's previous index is within half the N-bit range of i, the extended number handed to the application (RtpPacket.seq_no, MediaTime, picture ids) is exactly i. In every case the low N bits of the result equal the wire value.", "quantifier": "every previous 64-bit index, every wire value, every N used by str0m", "why_tests_cant": "2^80 (previous, wire) pairs per width; wrap corners are where unit tests have the least samples.", "anchors": ["src/rtp/header.rs: mk_extend (extend_u7/u8/u15/u16/u32)", "RtpHeader::sequence_number"]}
{"id": "C02", "title": "Every datagram is routed to exactly one protocol", "statement": "Input::Receive classifies a non-empty datagram by its first two bytes and its length into STUN, DTLS, RTP, RTCP or rejects it; the classes are disjoint, follow the RFC 7983/5761 ranges, and no datagram of any length makes the classification panic.", "quantifier": "every byte string", "why_tests_cant": "The input space is all byte strings; disjointness and totality are universally quantified.", "anchors": ["src/io/mod.rs: MultiplexKind::try_from, DatagramRecv::try_from"]}
{"id": "C03", "title": "A received RTP packet is never accepted twice (replay window)", "statement": "In any history of packets offered to one receive stream, once a sequence number has been accepted, the same sequence number is never accepted again, and an unseen number not behind the window is always accepted.", "quantifier": "every sequence of arrivals (any order, duplication, loss, jumps)", "why_tests_cant": "Unbounded arrival histories over 64-bit sequence numbers and a 101 slot ring that aliases them.", "anchors": ["src/streams/register_nack.rs: NackRegister::accepts, update", "src/streams/register.rs: ReceiverRegister", "src/streams/receive.rs: is_new_packet, update_register"]}
{"id": "C04", "title": "NACKs only ask for packets that are missing, and only a bounded number of times", "statement": "Every sequence number requested in a generated NACK lies in the current window, has not been received, and no sequence number is requested more than 5 times while it stays in the window.", "quantifier": "every interleaving of packet arrivals and NACK report generations", "why_tests_cant": "The interleavings are unbounded; the ring buffer and bitmask (PID+BLP) logic can alias.", "anchors": ["src/streams/register_nack.rs: NackRegister::nack_reports, NackIterator"]}
{"id": "C05", "title": "NACK wire encoding denotes exactly the requested set", "statement": "The set of sequence numbers denoted by the PID/BLP pairs in a NACK, as decoded by the peer, is exactly the set of numbers the reporter decided to ask for: none is lost and none is added, also when the count exceeds one 31 entry message.", "quantifier": "every window content", "why_tests_cant": "All subsets of a window of up to 101 positions.", "anchors": ["src/streams/register_nack.rs", "src/rtp/rtcp/nack.rs: NackEntry::into_iter", "src/rtp/rtcp/list.rs: lists_from_iter"]}
{"id": "C06", "title": "Receiver report loss figures are correct", "statement": "In each generated reception report, cumulative packets_lost equals expected minus received, clamped to the signed 24 bit range of the wire format, and fraction_lost equals 256*lost/expected for the interval since the last report, and 0 when nothing was lost in the interval (including when more packets arrived than expected, because of late packets).", "quantifier": "every arrival history and every placement of report generation in it", "why_tests_cant": "Interval arithmetic depends on history; the signed corners only appear with late packets.", "anchors": ["src/streams/register.rs: reception_report, fraction_lost, packets_lost", "src/rtp/rtcp/rr.rs"]}
{"id": "C07", "title": "Retransmission cache returns the right packet or nothing", "statement": "A lookup by sequence number in the sender's resend cache returns the packet most recently sent with that sequence number, or nothing; it never returns another packet. Asking for padding smaller than N never yields a packet of size N or more.", "quantifier": "every history of sends, evictions, growth and lookups", "why_tests_cant": "The ring grows, wraps and evicts by time; histories are unbounded.", "anchors": ["src/streams/rtx_cache.rs", "src/streams/rtx_cache_buf.rs: EvictingBuffer"]}
{"id": "C08", "title": "Resend cache memory bound", "statement": "The resend cache never holds more than the configured maximum number of packets (or its initial 10 slots), and its eviction loop always terminates.", "quantifier": "every history of sends and timeouts", "why_tests_cant": "Growth is history dependent; termination is a liveness fact about a loop with skips.", "anchors": ["src/streams/rtx_cache_buf.rs: grow, evict", "src/streams/rtx_cache.rs: RtxCache::new"]}
{"id": "C09", "title": "Send queue accounting", "statement": "At every time the reported queue statistics (packet count, byte size, total queue time) equal the count, the sum of payload sizes and the sum of the individual waiting times of the timestamped packets in the queue; no internal assertion can fail as long as time does not go backwards; packets leave in the order they were pushed.", "quantifier": "every sequence of push/handle_timeout/pop/snapshot/clear with non-decreasing time", "why_tests_cant": "The bookkeeping is incremental; only an invariant over all histories shows it never drifts.", "anchors": ["src/streams/send_queue.rs: SendQueue, TotalQueue"]}
{"id": "C10", "title": "MediaTime arithmetic and ordering", "statement": "MediaTime comparison is a total order consistent with the rational value numer/denom, equality is an equivalence, addition and subtraction are exact inverses when both operands share a frequency, and rebasing never changes the value by one unit or more of the new frequency.", "quantifier": "every pair/triple of media times and frequencies", "why_tests_cant": "64x32 bit operand space, algebraic laws over triples.", "anchors": ["src/rtp/mtime.rs: MediaTime"]}
{"id": "C11", "title": "RTP header round trip", "statement": "Serialising any valid RTP header (fixed part, CSRC list, header extensions in one- or two-byte form) and parsing it with the same extension map yields the same fields and the right header length.", "quantifier": "every header value, CSRC list and extension map", "why_tests_cant": "Combinations of 16 optional extensions, padding, form and 15 CSRCs.", "anchors": ["src/rtp/header.rs: write_to, parse", "src/rtp/ext.rs: ExtensionMap::write_to, parse"]}
{"id": "C12", "title": "RTP header parsing is total and in bounds", "statement": "For every byte string RTP header parsing either rejects or returns a header whose length is at most the datagram length and at least 12; it never panics.", "quantifier": "every byte string and extension map", "why_tests_cant": "All byte strings.", "anchors": ["src/rtp/header.rs: parse, unpad_payload", "src/rtp/ext.rs: ExtensionMap::parse"]}
{"id": "C13", "title": "RTCP round trip", "statement": "Every RTCP message str0m can send (SR, RR, SDES, BYE, NACK, PLI, FIR, REMB, XR, TWCC, application feedback) is parsed back to an equal message, and consumes exactly the number of 32-bit words its length field announces.", "quantifier": "every well-formed message value", "why_tests_cant": "Value space unbounded (lists, 32/64 bit fields).", "anchors": ["src/rtp/rtcp/*.rs: write_to / TryFrom"]}
{"id": "C14", "title": "RTCP parsing is total", "statement": "Parsing any byte string as a compound RTCP packet terminates without panic and without reading past the end; each message consumes at least 4 bytes.", "quantifier": "every byte string", "why_tests_cant": "All byte strings.", "anchors": ["src/rtp/rtcp/mod.rs: Rtcp::read_packet, TryFrom", "src/rtp/rtcp/*.rs"]}
{"id": "C15", "title": "RTCP packing respects the buffer and loses nothing", "statement": "Packing queued feedback into a datagram never writes more than the given buffer size, merging never changes the multiset of reports that are sent or still queued, and sender/receiver reports come first.", "quantifier": "every queue of feedback messages and every buffer size", "why_tests_cant": "Combinatorial merge rules across message types.", "anchors": ["src/rtp/rtcp/mod.rs: write_packet, pack, merge", "src/rtp/rtcp/list.rs: append_all_possible"]}
{"id": "C16", "title": "TWCC feedback is faithful", "statement": "The transport-wide feedback a receiver builds, when decoded by the sender, reports for every sequence number in its range exactly whether it arrived, and the decoded arrival times differ from the true ones by less than the 250 us quantisation.", "quantifier": "every set of arrivals, arrival times and report size limits", "why_tests_cant": "Run-length / vector chunk choice and delta sizes interact over all arrival patterns.", "anchors": ["src/rtp/rtcp/twcc.rs: TwccRecvRegister::build_report, Twcc::into_iter, PacketChunk"]}
{"id": "C17", "title": "TWCC wire round trip", "statement": "A TWCC message that is serialised and parsed is equal to the original, its length is a multiple of four bytes and matches the announced length.", "quantifier": "every TWCC message with well-formed chunks", "why_tests_cant": "Chunk and delta lists are unbounded.", "anchors": ["src/rtp/rtcp/twcc.rs: write_to, TryFrom"]}
{"id": "C18", "title": "TWCC sender bookkeeping", "statement": "When feedback arrives, each sent packet is marked acknowledged at most with the status of its own sequence number; a packet not covered by any report stays unacknowledged; the record is bounded by the configured size and remains ordered by sequence number.", "quantifier": "every interleaving of sends and feedback", "why_tests_cant": "Unbounded histories, wrap-around of 16-bit sequence numbers.", "anchors": ["src/rtp/rtcp/twcc.rs: TwccSendRegister::register_seq, apply_report"]}
{"id": "C19", "title": "Frames come out in order and no packet is delivered in two frames", "statement": "With reordering enabled, the media frames delivered for one stream have strictly increasing sequence ranges, and no RTP packet contributes to more than one delivered frame.", "quantifier": "every arrival order of packets and every interleaving of polls", "why_tests_cant": "Permutations of arrivals with gaps, padding and caching of half-done results.", "anchors": ["src/packet/buffer_rx.rs: DepacketizingBuffer::push, pop"]}
{"id": "C20", "title": "A delivered frame is a complete run of packets", "statement": "Every delivered frame is assembled from packets with consecutive sequence numbers, equal timestamp, beginning with a packet that starts a partition.", "quantifier": "every arrival order and every interleaving of polls", "why_tests_cant": "Segment detection runs on every queue content.", "anchors": ["src/packet/buffer_rx.rs: update_segments, depacketize"]}
{"id": "C21", "title": "The contiguous flag is truthful", "statement": "For codecs without picture ids, a delivered frame is flagged contiguous exactly if no sequence number (other than padding) is missing between the previously delivered frame and it.", "quantifier": "every arrival order and every interleaving of polls", "why_tests_cant": "Depends on unbounded history.", "anchors": ["src/packet/buffer_rx.rs: is_following_last, discard_old_padding"]}
{"id": "C22", "title": "VP8/VP9 temporal contiguity", "statement": "With picture ids present, delivered pictures have strictly increasing picture ids, and an enhancement layer frame is only delivered when it directly follows the previous delivered picture and refers to the current base layer.", "quantifier": "every sequence of frame descriptors", "why_tests_cant": "Unbounded histories.", "anchors": ["src/packet/contiguity.rs: FrameContiguityState::next_frame", "src/packet/contiguity_vp8.rs", "src/packet/contiguity_vp9.rs"]}
{"id": "C23", "title": "Packetizers respect the MTU and lose no media bytes", "statement": "For every codec payload and MTU, each produced RTP payload is at most MTU bytes, and depacketizing the produced packets in order yields the original media (up to the codec's documented framing).", "quantifier": "every payload and MTU, per codec (Opus, G.711, VP8, VP9, H264, H265, H266, AV1)", "why_tests_cant": "Payload and MTU are unbounded; fragmentation boundary errors hit specific residues only.", "anchors": ["src/packet/opus.rs", "src/packet/g7xx.rs", "src/packet/vp8.rs", "src/packet/vp9.rs", "src/packet/h264.rs", "src/packet/av1.rs", "src/packet/h265.rs", "src/packet/h266.rs"]}
{"id": "C24", "title": "Depacketizers never panic on network input", "statement": "For every byte string received as an RTP payload the depacketizers return data or an error and never index out of bounds.", "quantifier": "every byte string and every depacketizer state", "why_tests_cant": "All byte strings; fuzzing can only sample.", "anchors": ["src/packet/*.rs: Depacketizer::depacketize"]}
{"id": "C25", "title": "ICE pair priorities agree on both sides", "statement": "The two ICE agents compute the same priority for the same candidate pair (one controlling, one controlled), distinct unordered priority pairs get distinct values, and the value follows RFC 8445 6.1.2.3 without overflow.", "quantifier": "every pair of 32-bit candidate priorities", "why_tests_cant": "2^64 pairs.", "anchors": ["crates/is/src/pair.rs: CandidatePair::calculate_prio"]}
{"id": "C26", "title": "ICE candidate priority range", "statement": "Every locally computed candidate priority is between 1 and 2^31-1, better candidate types get strictly higher priority than worse ones over the same transport, and local preferences of same-type candidates are distinct.", "quantifier": "every candidate kind, protocol, component and number of same-kind candidates", "why_tests_cant": "Arithmetic underflow only at large counts; ordering is universally quantified.", "anchors": ["crates/is/src/candidate.rs: do_prio", "crates/is/src/preference.rs: default_local_preference"]}
{"id": "C27", "title": "STUN message round trip and integrity", "statement": "A STUN message carrying at least one attribute that is serialised parses back to the same class, method, transaction id and attributes, passes its own integrity check with the same password, and its fingerprint is the CRC of everything before it; serialisation fails only when the buffer is too small or a string exceeds the documented limit.", "quantifier": "every message, transaction id and password", "why_tests_cant": "Attribute combinations and string lengths (padding residues).", "anchors": ["crates/is/src/stun.rs: StunMessage::to_bytes, parse, verify"]}
{"id": "C28", "title": "STUN parsing is total", "statement": "For every byte string STUN parsing returns a message or an error and never panics or loops.", "quantifier": "every byte string", "why_tests_cant": "All byte strings.", "anchors": ["crates/is/src/stun.rs: StunMessage::parse, Attributes::parse"]}
{"id": "C29", "title": "XOR address codec", "statement": "The address a peer decodes from an XOR-MAPPED-ADDRESS (XOR-PEER/RELAYED-ADDRESS) attribute is the address that was encoded, for IPv4 and IPv6.", "quantifier": "every address, port and transaction id", "why_tests_cant": "2^128 addresses x 2^96 ids.", "anchors": ["crates/is/src/stun.rs: encode_xor, decode_xor"]}
{"id": "C30", "title": "ICE role conflict converges", "statement": "When both agents start in the same role with different tie-breakers, processing each other's requests and 487 replies leads to opposite roles, with no flip-flop from in-flight requests.", "quantifier": "every pair of tie-breakers, every delivery order of requests and error replies", "why_tests_cant": "Message interleavings.", "anchors": ["crates/is/src/agent.rs: stun_server_handle_message, stun_client_handle_error, switch_role"]}
{"id": "C31", "title": "ICE candidate pair table invariants", "statement": "The agent's pair list stays sorted by priority, contains at most one pair per (local, remote) candidate combination, and never exceeds the configured maximum.", "quantifier": "every sequence of candidate additions, invalidations and restarts", "why_tests_cant": "Unbounded histories.", "anchors": ["crates/is/src/agent.rs: form_pairs, add_local_candidate, add_remote_candidate"]}
{"id": "C32", "title": "ICE check retransmission schedule", "statement": "A candidate pair with no answers is declared failed exactly after the configured number of retransmissions and the final wait, never earlier, and each wait is bounded by the maximum RTO.", "quantifier": "every timing configuration and history of attempts/answers", "why_tests_cant": "Time and configuration are unbounded.", "anchors": ["crates/is/src/pair.rs: is_still_possible, next_binding_attempt", "crates/is/src/stun.rs: StunTiming"]}
{"id": "C33", "title": "ICE nomination", "statement": "A pair becomes the nominated pair only after a successful check with the nomination flag (or the peer's USE-CANDIDATE), the nomination state never moves backwards on one pair, and responses for unknown transactions change nothing.", "quantifier": "every history of attempts and responses", "why_tests_cant": "Unbounded histories.", "anchors": ["crates/is/src/pair.rs: nominate, new_attempt, record_binding_response"]}
{"id": "C34", "title": "Pacer debt stays bounded", "statement": "The media and padding debts of the leaky bucket pacer are never negative, padding debt never exceeds its cap, and debts drain to zero when nothing is sent for long enough.", "quantifier": "every sequence of sends and timeouts and every bitrate", "why_tests_cant": "Unbounded histories and real-valued rates.", "anchors": ["src/pacer/leaky.rs: LeakyBucketPacer"]}
{"id": "C35", "title": "Data channel OPEN message round trip", "statement": "A DCEP OPEN message parses back to the same label, protocol, reliability, ordering and priority; parsing never panics on any input.", "quantifier": "every label/protocol/reliability and every byte string", "why_tests_cant": "Strings of all lengths.", "anchors": ["src/sctp/dcep.rs: DcepOpen"]}
{"id": "C36", "title": "Data channel ids are unique and have the right parity", "statement": "Automatically allocated SCTP stream ids are pairwise distinct among live and held channels, even for the DTLS client and odd for the server, and never the forbidden 65535.", "quantifier": "every sequence of channel openings, remote openings, closings and resets", "why_tests_cant": "Unbounded histories.", "anchors": ["src/channel.rs: ChannelHandler::do_allocations, ensure_channel_id_for, remove_channel"]}
{"id": "C37", "title": "SRTP protect/unprotect round trip", "statement": "Whatever is protected by one side is unprotected to the same plaintext by a peer with the same keys and index; ciphertext length is plaintext plus the profile's tag; truncated or tampered packets of any length are rejected without panic.", "quantifier": "every packet, profile and index", "why_tests_cant": "All byte strings; layout offsets matter for each length.", "anchors": ["src/rtp/srtp.rs: protect_rtp, unprotect_rtp, protect_rtcp, unprotect_rtcp"]}
{"id": "C38", "title": "SRTP IVs are never reused", "statement": "For a fixed key and salt, two packets with different (SSRC, extended sequence number) - or different SRTCP index - are encrypted under different IVs, as long as the index has not exhausted its range.", "quantifier": "every pair of (ssrc, index)", "why_tests_cant": "2^160 pairs.", "anchors": ["crates/proto/src/crypto/provider.rs: rtp_iv, rtcp_iv", "src/rtp/srtp.rs"]}
{"id": "C39", "title": "Each outgoing RTP packet gets a fresh sequence number", "statement": "On one outgoing SSRC the sequence numbers assigned to sent packets, resends and padding strictly increase, so no (SSRC, sequence number) is ever used for two different payloads.", "quantifier": "every interleaving of writes, NACKs and padding requests", "why_tests_cant": "Unbounded schedules.", "anchors": ["src/streams/send.rs: poll_packet, next_seq_no"]}
{"id": "C40", "title": "Payload type negotiation is conflict free", "statement": "After negotiating with any remote parameter list, no payload type number is used for two different codecs/roles, and a locked payload type is never changed by later negotiations.", "quantifier": "every local configuration in which no number is used twice, every remote parameter list and direction, every number of m-lines and renegotiations", "why_tests_cant": "Combinatorial assignment with fallbacks.", "anchors": ["src/format/codec_config.rs: update_params", "src/format/payload_params.rs: update_param, Claimed"]}
{"id": "C41", "title": "Header extension map negotiation keeps ids unique", "statement": "Remapping to the remote's extension ids keeps the map injective: every extension has at most one id, every id at most one extension, and every extension both sides support ends up at the remote's id.", "quantifier": "every local map and remote extension list", "why_tests_cant": "Permutations of 16 slots with swaps and locks.", "anchors": ["src/rtp/ext.rs: ExtensionMap::remap, swap, set"]}
{"id": "C42", "title": "Direction negotiation", "statement": "Inverting a media direction is an involution that exchanges sending and receiving, and an SDP answer never grants the remote more than was offered.", "quantifier": "every local and remote direction and history of offers/answers", "why_tests_cant": "Histories of renegotiation.", "anchors": ["src/rtp/dir.rs", "src/change/sdp.rs: update_media"]}
{"id": "C43", "title": "DTLS setup roles", "statement": "The a=setup negotiation yields complementary roles: whenever both sides accept, exactly one is active.", "quantifier": "every combination of setup values", "why_tests_cant": "Must hold for both sides jointly.", "anchors": ["src/sdp/data.rs: Setup::compare_to_remote, invert"]}
{"id": "C44", "title": "LEB128 and video layers allocation codec", "statement": "The LEB128 encoding round trips for every value, and a valid video layers allocation is parsed back unchanged; parsing is total.", "quantifier": "every value / allocation / byte string", "why_tests_cant": "Unbounded values and nested lists.", "anchors": ["src/rtp/vla.rs", "src/packet/av1.rs: leb128"]}
{"id": "C45", "title": "Timeouts: the soonest deadline wins", "statement": "The next timeout reported is the minimum over all component deadlines, and no component deadline earlier than the reported one exists.", "quantifier": "every combination of deadlines", "why_tests_cant": "All subsets of components.", "anchors": ["src/util/mod.rs: Soonest", "src/lib.rs: do_poll_output"]}
{"id": "C46", "title": "Windowed sums", "statement": "The rolling sum used for bitrate statistics always equals the sum of exactly the values not older than the window after a purge.", "quantifier": "every history of pushes and purges with non-decreasing time", "why_tests_cant": "Unbounded histories.", "anchors": ["src/util/value_history.rs: ValueHistory"]}
{"id": "C47", "title": "Identifier parsing", "statement": "Constructing a Mid/Rid from any string never panics, yields at most 16/8 alphanumeric-or-underscore characters, and is idempotent through its text form.", "quantifier": "every string", "why_tests_cant": "All strings.", "anchors": ["src/rtp/id.rs: str_id"]}
{"id": "C48", "title": "SRTCP index", "statement": "Each outgoing SRTCP packet carries a strictly larger 31-bit index than the one before with the encryption flag set, until it wraps; the receiver recovers it.", "quantifier": "every number of packets", "why_tests_cant": "Unbounded histories.", "anchors": ["src/rtp/srtp.rs: protect_rtcp"]}
{"id": "C49", "title": "Fresh SSRCs", "statement": "A newly generated SSRC differs from every SSRC in use for sending or receiving, including RTX SSRCs.", "quantifier": "every set of streams", "why_tests_cant": "All sets of streams.", "anchors": ["src/streams/mod.rs: Streams::new_ssrc"]}
{"id": "C50", "title": "H.264/H.265 profile negotiation", "statement": "Profile-level-id parsing and formatting are inverse on supported values, and profile matching is decided exactly by the RFC 6184 bit patterns.", "quantifier": "every 24-bit profile-level-id", "why_tests_cant": "All 2^24 values and pattern overlaps.", "anchors": ["src/packet/h264_profile.rs", "src/util/bit_pattern.rs"]}
{"id": "C51", "title": "VP9 delivery continues after the picture id wraps", "statement": "A VP9 receiver keeps delivering pictures when the 15-bit (or 7-bit) picture id of the stream wraps around to zero.", "quantifier": "every VP9 stream longer than 2^15 pictures", "why_tests_cant": "Needs a stream longer than the id space; tests use short streams that never wrap", "anchors": ["src/packet/contiguity_vp9.rs Vp9Contiguity::check", "src/packet/contiguity.rs next_frame", "src/packet/vp9.rs parse_picture_id"]}
{"id": "C52", "title": "The ICE agent never panics", "statement": "No sequence of user operations with legal candidates and of received STUN requests, responses and error replies, in any order and at any time, makes the ICE agent panic (no failed lookup, no violated assertion), provided at least one retransmission is configured.", "quantifier": "every history of agent operations and network input", "why_tests_cant": "Unbounded histories; the indices into the candidate tables must stay valid under every interleaving.", "anchors": ["crates/is/src/agent.rs: IceAgent (all handlers)", "crates/is/src/pair.rs: is_still_possible, new_attempt", "crates/is/src/candidate.rs: do_prio"]}
{"id": "C53", "title": "ICE timers neither spin nor stall", "statement": "Once handle_timeout has been called, poll_timeout always returns a time, never earlier than the pacing interval (3 s when idle) after the last time step and never later than the maximum of pacing interval, maximum RTO and 3 s; and whenever handle_timeout runs while some pair that is not given up is due, a new binding request is queued for transmission.", "quantifier": "every history of agent operations with a monotone clock", "why_tests_cant": "Deadlines are cached and invalidated across unbounded histories.", "anchors": ["crates/is/src/agent.rs: poll_timeout, handle_timeout", "crates/is/src/pair.rs: next_binding_attempt"]}
{"id": "C54", "title": "Checking a received STUN message never panics", "statement": "For every datagram that StunMessage::parse accepts, verifying its integrity and asking the ICE agent whether it accepts the message return a Boolean and never panic.", "quantifier": "all byte strings, passwords, credentials and sets of outstanding transactions", "why_tests_cant": "the panicking datagrams are a thin set (MESSAGE-INTEGRITY as the very first attribute of a non-request) no test happens to hit", "anchors": ["crates/is/src/stun.rs: StunMessage::parse, verify", "crates/is/src/agent.rs: accepts_message"]}
{"id": "C55", "title": "Only authenticated STUN content is used", "statement": "If the ICE agent accepts a datagram, it carries a MESSAGE-INTEGRITY attribute whose HMAC under the right password covers everything before it, requests are addressed to the agent's own ufrag and responses answer an outstanding request; bytes behind MESSAGE-INTEGRITY cannot change any accepted field except the fingerprint.", "quantifier": "all pairs of byte strings, credentials, HMAC functions", "why_tests_cant": "a claim about all possible tails an attacker may append", "anchors": ["crates/is/src/stun.rs: parse, verify, Attributes::parse", "crates/is/src/agent.rs: accepts_message, stun_credentials"]}
{"id": "C56", "title": "ICE agents accept each other's STUN messages", "statement": "Every binding request, success reply and role conflict reply an ICE agent builds for a peer serialises into its buffer, and the peer, knowing the credentials, parses and accepts it and reads back the priority, role, tie-breaker, nomination flag, mapped address or error code unchanged.", "quantifier": "all credentials, transaction ids, priorities, tie-breakers, roles, addresses", "why_tests_cant": "the composition of encoder, decoder and acceptance check over all values", "anchors": ["crates/is/src/stun.rs: binding_request, binding_reply, binding_role_conflict_reply, to_bytes, parse", "crates/is/src/agent.rs: stun_credentials, accepts_message"]}
{"id": "C57", "title": "Feedback never crashes the sender", "statement": "Any transport-wide feedback message the parser accepts can be applied by a sender in any state without a panic, and every sequence number it covers is read with the status its chunk gives it.", "quantifier": "every byte string accepted as TWCC feedback, every history of sends and feedback", "why_tests_cant": "The feedback is chosen by the peer; crashing inputs are isolated corners (empty runs, wrap around) in a space of arbitrary byte strings.", "anchors": ["src/rtp/rtcp/twcc.rs: TwccIter::next, Twcc::into_iter, TwccSendRegister::apply_report"]}
{"id": "C58", "title": "Absolute send time is recovered", "statement": "A packet's absolute send time extension (24 bits, wrapping every 64 s) received less than 64 s after it was sent gives back the send time to within 4 microseconds.", "quantifier": "every send time, arrival time and program start", "why_tests_cant": "Wrap points every 64 s combined with arbitrary delays and start times.", "anchors": ["src/rtp/ext.rs: write_to, parse_value, update_absolute_send_time"]}
{"id": "C59", "title": "Padding and RTX payload framing", "statement": "A padding packet has a positive multiple of the cipher block size of padding, at most 240 bytes and at least what was asked for up to that, and the receiver strips exactly the padding; the original sequence number in front of a retransmitted payload is read back together with the payload.", "quantifier": "every requested size, sequence number and payload", "why_tests_cant": "All sizes and payloads.", "anchors": ["src/rtp/header.rs: create_padding_packet, unpad_payload, read_original_sequence_number, write_original_sequence_number"]}
{"id": "C60", "title": "Messages are delivered as written", "statement": "A message written on a data channel is delivered at the other end with the same bytes and the same text/binary kind, including the empty message, which SCTP cannot carry and is sent as a placeholder.", "quantifier": "every message and kind", "why_tests_cant": "All messages; the empty one goes another way.", "anchors": ["src/sctp/mod.rs: write, poll, stream_read_data"]}
{"id": "C61", "title": "Order of the m-lines", "statement": "Offer/answer keeps the m-lines of both peers in step: an answer has the m-lines of the offer in the same order, an offer has every negotiated m-line at its place followed by the new ones, an exchange between two peers in step succeeds and leaves them in step, and an answer to an offer that was overtaken is refused without effect.", "quantifier": "every history of offers, answers, stops and changes by either side", "why_tests_cant": "Histories of renegotiation by both sides.", "anchors": ["src/change/sdp.rs: apply_offer, apply_answer, sync_medias, add_new_lines, as_media_lines, as_sdp, ensure_correct_answer", "src/lib.rs: is_correct_change_id"]}
{"id": "C62", "title": "The pacer keeps to its rate", "statement": "With a given pacing rate and without probes, unpaced queues or queues that wait too long, the bytes that leave over any stretch of time are at most what the rate allows in that time, plus 40 ms worth of data and one packet; between two timeouts at most one packet leaves; and a waiting packet is served as soon as the debt is below 40 ms. Probes never ask for more padding than their target.", "quantifier": "every rate, every history of timeouts, queue states and sends, every window of it", "why_tests_cant": "Unbounded histories and windows; rates and times are continuous.", "anchors": ["src/pacer/leaky.rs: LeakyBucketPacer", "src/bwe/probe/cluster.rs: ProbeClusterState", "crates/proto/src/bandwidth.rs"]}
{"id": "C63", "title": "A VP8 descriptor patch changes exactly the requested fields", "statement": "For every RTP payload whose VP8 descriptor parses and every combination of requested picture id, TL0PICIDX and KEYIDX: building the patch succeeds exactly when each requested field is present and the value fits its existing width (otherwise an error, never a panic); applying it keeps the payload length, every byte outside those fields, the media, the TID and Y bits and the picture id width, and parsing the result gives the requested values. The key frame detector, the descriptor and the depacketizer agree on every payload that parses.", "quantifier": "every payload, every request, every depacketizer state", "why_tests_cant": "Descriptor layouts, byte values and requests multiply; the property is about all bytes of all payloads.", "anchors": ["src/packet/vp8.rs: Vp8Descriptor::parse, Vp8PatchBuilder::build, Vp8Patch::copy_to, detect_vp8_keyframe, Vp8Depacketizer::depacketize"]}
{"id": "C64", "title": "Payloads of other implementations are understood", "statement": "For every sequence of RTP payloads another implementation may send for a picture under the payload format RFC (any legal VP8 or VP9 descriptor, any mix of single units, aggregates and fragments for H.264, H.265, H.266), in any state the receiver may be in, the depacketizer accepts all of them, appends exactly the media bytes in order, reports the picture ids, layer ids, resolutions and end offsets that were sent, and says key frame exactly if one was sent.", "quantifier": "every legal descriptor, every payload content, every receiver state, every number of packets", "why_tests_cant": "Each optional field multiplies the layouts and interacts with the offsets of all later ones; tests cover the layouts of one or two senders.", "anchors": ["src/packet/vp8.rs: Vp8Depacketizer::depacketize", "src/packet/vp9.rs: Vp9Depacketizer::depacketize, parse_picture_id, parse_layer_info, parse_ref_indices, parse_ssdata", "src/packet/h264.rs: H264Depacketizer::depacketize", "src/packet/h265.rs: H265Depacketizer::depacketize", "src/packet/h266.rs: H266Depacketizer::depacketize"]}
{"id": "C65", "title": "Both ends agree on payload types, and no remote list is fatal", "statement": "Processing a remote's list of payload types never panics. After an offer and its answer both ends have the same numbers (and the same RTX numbers) for the same media formats, and what is listed for a media (and may be sent on it) under a number is a format the remote listed under that number.", "quantifier": "every pair of configurations, every remote list, every direction, every m-line", "why_tests_cant": "Combinatorial: all pairs of lists with all clashes of numbers.", "anchors": ["src/format/payload_params.rs: match_score, update_param", "src/format/codec_config.rs: update_params, match_params, sdp_match_remote", "src/change/sdp.rs: add_new_lines, update_media", "src/media/writer.rs: payload_params"]}
{"id": "C66", "title": "A retransmission carries what was sent", "statement": "Whatever happened before on an outgoing stream, each retransmission (and each packet repeated as padding) carries the original sequence number, bytes, time, marker and extensions of a packet really sent before on the stream's present SSRC, goes out on the RTX SSRC with the RTX payload type of that packet, and (unless it is padding) answers a NACK that asked for that number; each request is answered at most once and in order.", "quantifier": "every history of writes, frames, timeouts, polls, NACKs (any bytes), reports, padding requests, cache settings and resets", "why_tests_cant": "The cache, the NACK queue, padding and resets interleave without bound; 16-bit numbers of the remote are extended to 64 bits.", "anchors": ["src/streams/send.rs: poll_packet, poll_packet_resend, poll_packet_padding, handle_nack", "src/rtp/rtcp/nack.rs: NackEntryIterator", "src/streams/rtx_cache.rs"]}
{"id": "C67", "title": "Sending never panics", "statement": "No remote NACK or report, no order of polls, timeouts, writes, padding requests and resets makes an outgoing stream panic, as long as payloads fit a datagram.", "quantifier": "every history", "why_tests_cant": "Each expect and assert depends on the whole history of queue, cache and negotiation.", "anchors": ["src/streams/send.rs: poll_packet, poll_packet_padding", "src/streams/send_queue.rs: TotalQueue", "src/streams/rtx_cache.rs: get_cached_packet_smaller_than"]}
{"id": "C68", "title": "Every datagram names its stream until the remote has bound it", "statement": "A new packet carries MID and RID, a retransmission MID and repaired RID, in every datagram until the remote end has reported on that SSRC.", "quantifier": "every history of an outgoing stream", "why_tests_cant": "Depends on all earlier reports and SSRC resets.", "anchors": ["src/streams/send.rs: poll_packet, handle_rtcp, reset_ssrc"]}
{"id": "C69", "title": "A frame becomes consecutive packets", "statement": "Writing a frame puts exactly one packet per payload chunk at the end of the queue, with consecutive sequence numbers, the chunk's bytes and the frame's payload type and time; one-time extensions are in the first or last packet only; they leave in that order, none lost, none doubled.", "quantifier": "every frame, every state of the stream", "why_tests_cant": "Every history before the frame and every number of chunks.", "anchors": ["src/packet/payload.rs: Payloader::push_sample", "src/streams/send.rs: write_rtp, poll_packet"]}
{"id": "C70", "title": "Incoming packets reach the stream they belong to", "statement": "No incoming packet makes the routing panic. A packet is only given to a stream that uses its SSRC (main or RTX); a packet whose SSRC is in use is never dropped by the routing and changes no stream; a packet of an unknown SSRC is dropped without effect unless its header names an expected MID, payload type and RID, and then it is given to that stream, other MIDs' streams staying as they are.", "quantifier": "every history of packets, declarations, removals, timeouts and resets, every order of the hash maps", "why_tests_cant": "The route of a packet depends on all earlier packets, on cached routes, their expiry and hash order.", "anchors": ["src/session.rs: mid_and_ssrc_for_header, map_dynamic, handle_rtp", "src/streams/mod.rs: mid_ssrc_rx_by_ssrc_or_rtx, map_dynamic_by_rid, map_dynamic_by_pt, expect_stream_rx, change_stream_rx_ssrc, change_stream_rx_rtx"]}
{"id": "C71", "title": "Feedback reaches the stream it is about", "statement": "A NACK, PLI, FIR, REMB or report on an SSRC reaches the outgoing stream that sends with that SSRC and no other; a sender report reaches the incoming stream with its SSRC and no other.", "quantifier": "every history", "why_tests_cant": "Depends on all earlier declarations, removals and SSRC changes.", "anchors": ["src/session.rs: handle_rtcp", "src/streams/mod.rs: stream_tx, stream_rx, declare_stream_tx", "src/change/direct.rs: reset_stream_tx"]}
{"id": "C72", "title": "Decoding order numbers count the NAL units", "statement": "When a packetizer for H.265 or H.266 writes decoding order numbers, each packet carries the number of the first NAL unit in it, consecutive units (also those inside an aggregate, through the difference fields) have consecutive numbers modulo 2^16, and the count goes on from frame to frame; a receiver that expects the numbers skips exactly them.", "quantifier": "every sequence of frames, every MTU, every starting number, every mix of single packets, aggregates and fragments", "why_tests_cant": "The number depends on the whole history of the packetizer and wraps after 65536 units; tests send a few units.", "anchors": ["src/packet/h265.rs: H265Packetizer::emit_nalu, build_ap_packet", "src/packet/h266.rs: H266Packetizer::emit_nalu, build_ap_packet"]}
{"id": "C73", "title": "Codec format parameters survive the fmtp line", "statement": "The format parameters of a codec, written as an a=fmtp line and read back, are the same parameters, whatever combination of parameters is set and whatever their values, and whatever the order in which hash maps give their entries.", "quantifier": "every set of format parameters within the widths of their fields", "why_tests_cant": "The combinations of optional parameters and values are unbounded for practical purposes, and the H.265/H.266 composites go through a HashMap whose order a test cannot control.", "anchors": ["src/sdp/data.rs: FormatParam, FormatParams", "src/format/codec_config.rs: FormatParams", "src/sdp/parser.rs: fmtp"]}
{"id": "C74", "title": "ICE candidates survive their text", "statement": "Candidate::from_sdp_string of Candidate::to_sdp_string is the same candidate, the a=candidate line of an SDP gives the same one, and the two parsers agree on every text str0m prints.", "quantifier": "every candidate: any foundation, component, protocol, priority, addresses, type, TCP type and ufrag", "why_tests_cant": "Tests try a handful of candidates; the optional parts combine freely and there are two independent parsers.", "anchors": ["crates/is/src/candidate.rs: to_sdp_string, from_sdp_string", "crates/is/src/parse.rs", "src/sdp/parser.rs: candidate"]}
{"id": "C75", "title": "An SDP that str0m prints is read back as printed", "statement": "Printing an offer or answer never panics, the text parses, and what is read has the same session id, bandwidths, attributes and m-lines in the same order, with the same values.", "quantifier": "every SDP value: any number of m-lines and attributes of any kind with any values", "why_tests_cant": "A parser with backtracking alternatives can confuse any two of the attribute kinds; only some texts are tried by tests, and several of those only compare printed texts.", "anchors": ["src/sdp/data.rs: Display impls", "src/sdp/parser.rs: sdp_parser, media_parser, session_attribute, media_attribute_line"]}
{"id": "C76", "title": "SDP attribute lines are read one by one", "statement": "How a line of a received SDP is read does not depend on the other lines: an unknown or malformed attribute changes nothing in what the others mean and no line is lost.", "quantifier": "every text of attribute lines, of any length and content", "why_tests_cant": "Remote texts are arbitrary.", "anchors": ["src/sdp/parser.rs: attribute_line, any_attribute_value, not_sp, key_val, ssrc_attr, bandwidth_line"]}
{"id": "C77", "title": "A parsed SDP is consistent", "statement": "In every SDP that is accepted each m-line has exactly one mid, at most one setup, media has one direction, payload types and one rtpmap for each; and the BUNDLE group lists the mids of the m-lines in their order.", "quantifier": "every text", "why_tests_cant": "Remote texts are arbitrary.", "anchors": ["src/sdp/data.rs: check_consistent, assert_consistency, do_assert_consistency", "src/sdp/parser.rs: media_parser"]}
{"id": "C78", "title": "Late packets within 100 of the highest are taken, and missing ones are asked for", "statement": "A packet is accepted exactly if it has not arrived before, is not before the first packet of the stream and is at most 100 behind the highest; a NACK asks for exactly the numbers that have not arrived, lie between the first and the highest, at most 100 behind it, and were asked for less than five times. (It holds as long as no packet is more than 101 ahead of all before it; after a larger jump it does not.)", "quantifier": "every interleaving of arrivals (any order, loss, duplication) and NACK generations", "why_tests_cant": "The window is a ring of 101 slots whose marks can belong to older numbers; only some distances between packets expose it.", "anchors": ["src/streams/register_nack.rs: NackRegister::accepts, update, nack_reports"]}
{"id": "C79", "title": "A packet is handed over at most once", "statement": "In RTP mode no pair of SSRC and extended sequence number is handed over twice, whether it came as media or by way of RTX, across resets, SSRC changes and removed and re-added streams; no datagram is decrypted twice.", "quantifier": "every history of datagrams (any bytes, order, duplication), polls, timeouts, reports, resets, SSRC changes", "why_tests_cant": "Unbounded histories over two registers that feed each other and a table that outlives the stream.", "anchors": ["src/session.rs: handle_rtp", "src/streams/receive.rs: StreamRx"]}
{"id": "C80", "title": "A packet handed over is an authentic datagram, or the packet it repairs", "statement": "No history makes the receive path panic. Every packet handed over comes from one datagram that arrived, that authenticates under the session keys at the extended sequence number, and its header and payload are those of the datagram (or, for RTX, those of the packet it repairs per RFC 4588); different packets come from different datagrams, in order of arrival.", "quantifier": "every history, every datagram, every key and cipher", "why_tests_cant": "Arbitrary bytes from the network in arbitrary states.", "anchors": ["src/session.rs: handle_rtp, handle_rtp_receive", "src/streams/receive.rs: extend_seq, update_register, handle_rtp, un_rtx"]}
{"id": "C81", "title": "Forged datagrams have no effect", "statement": "A datagram that no key of the session opens has no effect that shows, at once or later: the history without it gives the same events.", "quantifier": "every history and every set of forged datagrams in it (labelled as media or repair by SSRC and payload type)", "why_tests_cant": "A forged datagram may change state that only matters much later.", "anchors": ["src/session.rs: handle_rtp", "src/streams/receive.rs: extend_seq, is_new_packet"]}
{"id": "C82", "title": "What arrives is handed over, under its own number", "statement": "In RTP mode an authentic media packet is handed over exactly if its extended number was not handed over before, is not before the first one and at most 100 behind the highest; then with its true extended number, header and payload. The packet carried by a new RTX packet is handed over under the same rule, with SSRC and payload type of the media stream.", "quantifier": "every history of datagrams, polls, timeouts, reports and requests on the stream in which packets are fetched and no number is more than 101 ahead of all before; every key and cipher", "why_tests_cant": "Extension of 16 bit numbers, two sliding windows and decryption interact over unbounded histories.", "anchors": ["src/session.rs: handle_rtp", "src/streams/receive.rs: extend_seq, is_new_packet, update_register, un_rtx", "src/streams/register_nack.rs: NackRegister"]}
{"id": "C83", "title": "A packet carries its true time", "statement": "If consecutive packets of a stream are less than 2^31 ticks apart, and after a pause not before the last one, every packet handed over has the 64 bit media time of its datagram, counted over all wraps of the 32 bit time stamp, in the clock rate of its payload type.", "quantifier": "every history of datagrams (order, loss, repairs, pauses, resets) and every assignment of true times", "why_tests_cant": "The extension depends on the previous packet and on the pause state, over unbounded histories.", "anchors": ["src/streams/receive.rs: update_register"]}
{"id": "C84", "title": "Pause events tell the truth", "statement": "After a poll, the last pause event says active exactly if a datagram was opened on the stream and since the last of these no timeout was handled at or after its arrival plus the threshold; dropped datagrams do not count. If the application polls after every call the events alternate.", "quantifier": "every history of datagrams, timeouts, polls, threshold changes and requests", "why_tests_cant": "Unbounded interleavings of datagrams, timeouts and polls.", "anchors": ["src/streams/receive.rs: update_register, handle_timeout, poll_paused", "src/session.rs: poll_event"]}
{"id": "C85", "title": "End to end over a hostile network", "statement": "Whatever the network does to the datagrams of a sending stream (loss, repetition, reordering, delay, datagrams made up without the key), each packet the receiving application gets is one the sending application wrote: same bytes, 64-bit number, payload type, marker, SSRC and 32-bit time stamp, whether it came directly, as a retransmission or as padding; no number is handed over twice.", "quantifier": "every history of the sender (writes, timeouts, polls, NACKs), every behaviour of the network (any datagrams in any order), every history of the receiver", "why_tests_cant": "Unbounded product of two histories and an adversary.", "anchors": ["src/streams/send.rs: StreamTx", "src/streams/receive.rs: StreamRx", "src/session.rs: handle_rtp, open_srtp", "src/rtp/srtp.rs: protect_rtp, unprotect_rtp"]}
{"id": "C86", "title": "A packet that is asked for is sent again and handed over", "statement": "If the application writes consecutive numbers, a NACK for one of the last N nackable packets (N the configured cache size) sent at most the configured age ago is answered: after at most as many polls as numbers were asked for, the packet was sent again on the RTX SSRC as RFC 4588 says, whatever is written or asked for in between (below the retransmission cap). A receiver that does not have the packet yet hands it over with number, bytes, payload type, time stamp and marker of the original.", "quantifier": "every history of the sender (writes, timeouts, polls, NACKs, reports), every cache size up to 2^15 and age, every receiver state", "why_tests_cant": "The cache grows, wraps and evicts depending on all numbers and times before; unbounded histories.", "anchors": ["src/streams/rtx_cache_buf.rs: EvictingBuffer", "src/streams/rtx_cache.rs: RtxCache", "src/streams/send.rs: handle_nack, poll_packet, poll_packet_resend", "src/streams/receive.rs: un_rtx, update_register", "src/session.rs: handle_rtp"]}
{"id": "C87", "title": "The round-trip time is right", "statement": "When a sender report (or receiver reference time) is answered, the round-trip time the statistics report is there and differs from the true time on the way (time between sending and answer minus the time the other side held it) by at most 60 microseconds, although the time goes through doubles, singles and 16.16 fixed point.", "quantifier": "every time of sending, holding and answering before 2036 (and the cases where it fails: across a wrap of the 16 bits of seconds, after 2036)", "why_tests_cant": "All combinations of 64-bit times and rounding errors.", "anchors": ["src/util/mod.rs: calculate_rtt", "src/util/time_tricks.rs: as_ntp_64, from_ntp_64", "src/streams/receive.rs: create_receiver_report", "src/session.rs: handle_rtcp, create_dlrr"]}
{"id": "C88", "title": "Receiver reference times are answered", "statement": "Each DLRR item answers the last reference time of its SSRC, not answered before, with its middle 32 bits and the delay since it came; a report has at most 50 items, with different SSRCs, and goes out with a sender report. If at most 300 SSRCs ask, each is answered at the latest with the sixth sender report.", "quantifier": "every history of reference times and timeouts", "why_tests_cant": "Unbounded histories, bounded memory with eviction.", "anchors": ["src/session.rs: handle_rtcp (ExtendedReport), handle_timeout, MAX_PENDING_RRTRS, MAX_DLRR_PER_REPORT"]}
{"id": "C89", "title": "Sender reports map RTP time to wall clock time", "statement": "A sender report gives an NTP time and the RTP time that belongs to it: on the line through the last write (its RTP time and wallclock, at the clock rate of the last packet sent), too small by less than a tick and two microseconds; the receiving application is told a pair that is right to a tick and ten microseconds. The counters are those of all datagrams sent so far that are not padding.", "quantifier": "every history of an outgoing stream (writes, frames, polls, NACKs, timeouts), every time of a report, every state of the receiver", "why_tests_cant": "All 32-bit RTP times, clock rates and histories; rounding of two time bases and of doubles.", "anchors": ["src/streams/send.rs: write_rtp, sender_info, current_rtp_time, poll_packet", "src/streams/send_stats.rs: update_packet_counts", "src/rtp/mtime.rs: add, rebase", "src/rtp/rtcp/sr.rs", "src/streams/receive.rs: set_sender_info"]}
{"id": "C90", "title": "The life of an instance goes one way, and ends", "statement": "`is_alive` never comes back: once it is false every poll says that nothing will happen, inputs change nothing, no part is asked for anything and nothing can be written; while closing nothing can be written either. A closing instance whose last packets are taken is over with the next quiet poll.", "quantifier": "every history of calls, every behaviour of ICE, DTLS, SCTP, session and statistics", "why_tests_cant": "Any order of calls and any behaviour of the parts below.", "anchors": ["src/lib.rs: is_alive, disconnect, close, start_close, start_dtls_close, is_close_drained, poll_output, handle_input, writer, channel"]}
{"id": "C91", "title": "A peer with another certificate is cut off", "statement": "After the peer has shown a certificate that is not the one the fingerprint known at that time names, nothing is sent and no event is given any more, and the instance is not alive; a known fingerprint is not changed by a later offer or answer.", "quantifier": "every history of calls, every behaviour of the parts, every certificate and fingerprint", "why_tests_cant": "Every order of offer, answer, DTLS output and polls.", "anchors": ["src/lib.rs: do_poll_output (PeerCert), init_dtls", "src/change/sdp.rs: accept_offer, accept_answer", "src/crypto/finger.rs"]}
{"id": "C92", "title": "Timeouts are ahead and in time", "statement": "A timeout that `poll_output` returns is not before a time given to `handle_input` before (or the start), and not later than any part of a living instance asks for; a time earlier than one already given changes nothing.", "quantifier": "every history of calls and times, every behaviour of the parts", "why_tests_cant": "All interleavings of times and timers.", "anchors": ["src/lib.rs: do_poll_output, do_handle_timeout, do_handle_receive", "src/util/mod.rs: Soonest"]}
{"id": "C93", "title": "Events of data channels name known channels", "statement": "Each event of a data channel is about a channel the application made or was told of before, and none comes after the `ChannelClose` of that channel; a new channel never has the id of an old one.", "quantifier": "every history of calls, every behaviour of SCTP", "why_tests_cant": "Every order of opens, closes, data and timeouts.", "anchors": ["src/lib.rs: do_poll_output (SCTP)", "src/channel.rs: ChannelHandler"]}
{"id": "C94", "title": "Datagrams go where ICE says", "statement": "Every datagram that is handed out was made by the ICE agent, or goes from and to the addresses nominated last; before a nomination there is no other.", "quantifier": "every history of calls, every behaviour of the parts", "why_tests_cant": "Every order of nominations and datagrams.", "anchors": ["src/lib.rs: do_poll_output (NominatedSend, poll_transmit, poll_datagram)"]}
{"id": "C95", "title": "Connected is told once", "statement": "`Event::Connected` is given at most once, and only after DTLS has said that it is connected.", "quantifier": "every history of calls, every behaviour of the parts", "why_tests_cant": "Every order of DTLS output.", "anchors": ["src/lib.rs: do_poll_output (Connected, CloseNotify, AssociationLost)"]}
{"id": "C96", "title": "The byte counters are right", "statement": "The counters behind `PeerStats` are the bytes of all datagrams handed out, and of all that came in and are not STUN.", "quantifier": "every history of calls", "why_tests_cant": "Unbounded histories.", "anchors": ["src/lib.rs: poll_output, do_handle_receive", "src/stats.rs: PeerStats"]}
{"id": "C97", "title": "The top level does not panic", "statement": "`poll_output` panics only if DTLS gives keys before it was started or a depacketizer does; of the other calls only the documented one does, and the taking of an answer whose channel is gone.", "quantifier": "every history of calls, every behaviour of the parts", "why_tests_cant": "Every order of calls and packets.", "anchors": ["src/lib.rs: do_poll_output", "src/sctp/mod.rs: push_back_transmit", "src/channel.rs: confirm, new_channel"]}
{"id": "C98", "title": "Data channel streams open and close in turn", "statement": "A stream can be written to exactly while the association is established and the last told of the stream is `Open`. `Open` is not told twice without `Close` in between. Its label is the one asked for with `open_stream`, or the one in the peer's DATA_CHANNEL_OPEN on that stream.", "quantifier": "every history of calls, every behaviour of sctp-proto and of the peer", "why_tests_cant": "Every interleaving of opening, closing, resets and messages.", "anchors": ["src/sctp/mod.rs: open_stream, close_stream, is_open, do_poll"]}
{"id": "C99", "title": "Closing a stream is told", "statement": "When an open stream was closed with `close_stream` and there is nothing more to poll, `Close` was told.", "quantifier": "every history, every closed stream", "why_tests_cant": "Unbounded histories.", "anchors": ["src/sctp/mod.rs: close_stream, do_poll"]}
{"id": "C100", "title": "Opening a stream does not wait for ever", "statement": "A stream whose number is still in use is tried again at least every half second and given up at its deadline ten seconds after the first try: then it was opened, DATA_CHANNEL_OPEN was sent, or `Close` was told.", "quantifier": "every history, every time", "why_tests_cant": "Every behaviour of the association.", "anchors": ["src/sctp/mod.rs: do_poll, poll_timeout"]}
{"id": "C101", "title": "The SCTP streams do not panic", "statement": "`poll` of the streams does not panic, whatever the peer sends, if the labels asked for fit the message; nor do writing and thresholds on an open stream.", "quantifier": "every history, every message", "why_tests_cant": "Any message of the peer at any time.", "anchors": ["src/sctp/mod.rs: do_poll, write, set_buffered_amount_low_threshold"]}
{"id": "C102", "title": "A stream number waiting for its reset is not forgotten", "statement": "A number told as closed with its reset pending is told as reset when the peer answers, or the association is lost; until then it is held.", "quantifier": "every history", "why_tests_cant": "Unbounded histories.", "anchors": ["src/sctp/mod.rs: do_poll, sctp_propagate_close"]}
{"id": "C103", "title": "Messages are told once and in order", "statement": "The `Data` told are exactly the application's messages that sctp-proto handed out: same stream, kind and bytes, in order, none lost, repeated or altered.", "quantifier": "every history, every message", "why_tests_cant": "Unbounded histories.", "anchors": ["src/sctp/mod.rs: do_poll, stream_read_data, ppi_adjust_buf"]}
{"id": "C104", "title": "Probes are no larger than what the application asked for", "statement": "A probe only comes out of a wake-up at which the session may probe; it runs 15 ms and five packets at least, at 5 kbit/s or more and at no more than twice the bitrate the application desired when it was decided, at that wake-up or the one before. With nothing desired nothing is probed.", "quantifier": "every history of wake-ups, reports, completions, desired bitrates, resets and polls, whatever the delay, loss and ALR detectors answer", "why_tests_cant": "Unbounded histories and arbitrary answers of the estimators.", "anchors": ["src/bwe/probe/control.rs: queue_probe, handle_timeout", "src/bwe/mod.rs: handle_timeout", "src/session.rs: handle_timeout_bwe"]}
{"id": "C105", "title": "The ids of probes are never used twice", "statement": "The probes that come out have ids that only grow, so that a packet's cluster id names one probe.", "quantifier": "every history without reset", "why_tests_cant": "Unbounded histories.", "anchors": ["src/bwe/probe/control.rs: queue_probe", "src/rtp/id.rs: TwccClusterId::inc"]}
{"id": "C106", "title": "No probe into a congested network", "statement": "While the delay is growing or the loss controller limits the estimate, no probe comes out.", "quantifier": "every history", "why_tests_cant": "Depends on the order of congestion, estimate changes and wake-ups.", "anchors": ["src/bwe/probe/control.rs: can_probe, set_estimated_bitrate", "src/bwe/mod.rs: propagate_estimate, bandwidth_limited_cause"]}
{"id": "C107", "title": "Probes are spaced", "statement": "A periodic probe or one after a large drop comes out only when in the five seconds before at most one other probe came out (the second of a pair); stagnation probes are at least fifteen seconds apart; at most two initial probes come out while probing stays possible.", "quantifier": "every history whose times do not go back", "why_tests_cant": "Unbounded histories; all kinds of probes interact.", "anchors": ["src/bwe/probe/control.rs: maybe_periodic_alr, maybe_large_drop, maybe_stagnant, maybe_initial"]}
{"id": "C108", "title": "The bandwidth estimator lets the session sleep", "statement": "After a wake-up that puts out no probe, the estimator wants the next wake-up strictly later; and of seven wake-ups at the same instant with an unchanged estimate one puts out no probe. So the session does not spin.", "quantifier": "every history, every time, every answer of the detectors", "why_tests_cant": "A busy loop appears only for particular combinations of pending probes and timers.", "anchors": ["src/bwe/mod.rs: poll_timeout, handle_timeout", "src/bwe/delay/control.rs: handle_timeout, poll_timeout", "src/bwe/probe/control.rs: handle_timeout"]}
{"id": "C109", "title": "Probe results are what the probe's packets tell", "statement": "A feedback report yields a result for a probe only when that probe was put out before, enough of its packets arrived, and the result is the smaller of the send and the receive rate of exactly its packets that arrived (limited as the receive rate demands); the last result becomes the delay-based estimate, within 40 kbit/s and 10 Gbit/s.", "quantifier": "every history without reset", "why_tests_cant": "Depends on all reports so far, in any order, with lost packets and packets of other probes in between.", "anchors": ["src/bwe/probe/estimator.rs: update, calculate_bitrate", "src/bwe/mod.rs: update"]}
{"id": "C110", "title": "Bounded probe measurement", "statement": "At most twenty probes are measured at a time; a probe is refused only when twenty others came out within the five seconds before; a probe that was completed is forgotten by a wake-up a second later, and no later report yields a result for it.", "quantifier": "every history", "why_tests_cant": "Needs many probes in flight and late reports.", "anchors": ["src/bwe/probe/estimator.rs: probe_start, handle_timeout, end_probe"]}
{"id": "C111", "title": "The application is told smoothed estimates", "statement": "The bandwidth estimate in an event lies between estimates of the last three seconds (or is the current one); an event comes only when the value is off by 5 % from the last one told or is the current estimate and differs; once the estimate has been the same for three seconds the application was told it.", "quantifier": "every history whose times do not go back", "why_tests_cant": "Sliding window over arbitrary histories.", "anchors": ["src/bwe/mod.rs: EstimateSmoother, poll_estimate"]}
{"id": "C112", "title": "How the delay-based estimate moves", "statement": "Without a probe result the estimate stays while nothing is known to arrive or the delay shrinks, does not go up while the delay grows, and otherwise goes up to no more than one and a half times what arrives; growing delay reported at least 200 ms after the last change brings it to 85 % of what arrives or below; it stays within 40 kbit/s and 10 Gbit/s once changed, and the estimate told is never above it.", "quantifier": "every history, every answer of the detectors", "why_tests_cant": "Depends on the history of the rate control.", "anchors": ["src/bwe/delay/rate_control.rs: update, increase, decrease", "src/bwe/mod.rs: last_estimate"]}
{"id": "C113", "title": "Probing resumes after a pause", "statement": "When probing becomes possible again after a pause and the network is not congested, an initial probe comes out at the next wake-up.", "quantifier": "every history", "why_tests_cant": "Depends on what changed during the pause.", "anchors": ["src/bwe/probe/control.rs: enable, set_estimated_bitrate", "src/bwe/mod.rs: propagate_estimate"]}
{"id": "C114", "title": "Merging a pending offer keeps its changes", "statement": "When a pending offer is merged into a new set of changes, every change of the pending offer that is not yet in effect is offered again, ahead of the new ones and in the same order, and the m-lines of the earlier offer keep their places.", "quantifier": "every session, every set of changes, every pending offer", "why_tests_cant": "Depends on what was negotiated between the first offer and the merge.", "anchors": ["src/change/sdp.rs: SdpApi::merge, apply, retain_relevant"]}
{"id": "C115", "title": "After an exchange both sides know the other's ICE credentials", "statement": "After any number of completed offer/answer exchanges, from either side, each side has the ICE credentials the other side uses; an ICE restart that was asked for puts new credentials into use on both sides, and without one neither changes.", "quantifier": "every history of exchanges, dropped offers and other calls", "why_tests_cant": "Holds for any number of exchanges in any order of who offers.", "anchors": ["src/change/sdp.rs: add_ice_details, create_offer, accept_offer, accept_answer, ice_restart"]}
{"id": "C116", "title": "Exactly one side controls ICE", "statement": "Once an exchange is completed exactly one of the two sides is the controlling ICE agent, and an ICE lite side is the controlled one.", "quantifier": "every history of exchanges, dropped offers and other calls; every combination of lite and full", "why_tests_cant": "Depends on who offered first and on what was lost in between.", "anchors": ["src/change/sdp.rs: accept_offer, accept_answer, create_offer"]}
{"id": "C117", "title": "A refused description changes nothing", "statement": "An offer or answer that is refused leaves the session as it was.", "quantifier": "every state, every description", "why_tests_cant": "Every place a description can be refused must come before every place that changes something.", "anchors": ["src/change/sdp.rs: accept_offer, accept_answer, apply_offer, apply_answer"]}
{"id": "C118", "title": "Dropping a pending offer rolls it back", "statement": "A pending offer that is dropped leaves no trace: the next offer, and the answer to any offer, is what it would have been without it.", "quantifier": "every state, every set of changes, every description", "why_tests_cant": "It compares two histories for every continuation.", "anchors": ["src/change/sdp.rs: SdpApi, SdpPendingOffer", "src/channel.rs: new_channel"]}
{"id": "C119", "title": "On a shared socket the right instance gets a datagram", "statement": "When several instances share a socket, a binding request a peer makes for one of them is accepted by this one and by no other, from whatever address; a STUN response only by the instance that sent the request; and DTLS, RTP and RTCP by the first instance that nominated the address or had a check answered from it.", "quantifier": "every list of instances, every credentials, address and message; every history of each instance", "why_tests_cant": "Depends on all the instances together and on what each went through.", "anchors": ["src/lib.rs: Rtc::accepts", "crates/is/src/agent.rs: accepts_message, has_viable_remote_candidate"]}
{"id": "C120", "title": "Only the peer makes an address accepted", "statement": "DTLS, RTP and RTCP are accepted exactly from the address last nominated and the remote addresses of candidate pairs whose check was answered; as long as the peer answered no check and asked for no pair to be used, from no address. accepts does not panic on them.", "quantifier": "every history, every address", "why_tests_cant": "Holds after any sequence of candidates, restarts, checks and timeouts.", "anchors": ["src/lib.rs: Rtc::accepts", "crates/is/src/agent.rs: has_viable_remote_candidate, evaluate_nomination"]}
{"id": "C121", "title": "Statistics come on time and complete", "statement": "Two PeerStats events are at least the configured interval apart; nothing is told before the time poll_timeout says, at the first timeout from then on a report is made; a report is one PeerStats, then each received mid/rid once, then each sent mid/rid once, all with the same timestamp, and reports come one after the other.", "quantifier": "every history of timeouts, packets, streams and polls, every order of the internal maps", "why_tests_cant": "Timing and completeness hold over arbitrary histories and map orders.", "anchors": ["src/stats.rs: Stats", "src/lib.rs: do_handle_timeout, do_poll_output"]}
{"id": "C122", "title": "Ingress statistics add up", "statement": "The bytes of a MediaIngressStats are all payload bytes that came for its mid/rid since the start, over all the SSRCs it had, packets, FIRs, PLIs and NACKs are the sums over its streams; as long as no stream is removed no counter goes back.", "quantifier": "every history, every order in which the streams are visited", "why_tests_cant": "Depends on every packet and SSRC change since the start and on hash order.", "anchors": ["src/stats.rs: MediaIngressStats::merge_by_mid_rid", "src/streams/receive.rs: visit_stats, fill, handle_rtp"]}
{"id": "C123", "title": "Egress statistics add up", "statement": "The bytes and packets of a MediaEgressStats are all that was counted as sent for its mid/rid since the start and never go back; its loss is an average of the losses of receiver reports.", "quantifier": "every history without removed or reset streams in which each mid/rid has one stream; for the loss every history", "why_tests_cant": "Depends on all packets and reports since the start, in any order.", "anchors": ["src/streams/send_stats.rs: StreamTxStats", "src/stats.rs: Stats", "src/session.rs: visit_stats"]}
{"id": "C124", "title": "Retransmissions stay below their cap", "statement": "With a retransmission cap, a packet is sent again only if, in the last second before a measurement at most 50 ms old, the bytes sent again were no more than the cap's share of all bytes sent; above the cap nothing is sent again until the peer asks again, and at or below it requested packets that are still cached go before anything else. Accounting never fails, and keeps no more than the last second.", "quantifier": "every history of writes, polls, NACKs, reports, resets and settings, every cap", "why_tests_cant": "The share depends on everything sent during the last second; the cap has to hold for every pattern of requests.", "anchors": ["src/streams/send.rs: rtx_ratio_downsampled, poll_packet_resend, poll_packet_regular, set_rtx_cache, reset_ssrc", "src/util/value_history.rs: ValueHistory"]}
{"id": "C125", "title": "Every frame written is sent once and in order, or an error tells", "statement": "`Writer::write` accepts a frame exactly if its payload type is one of the media's, its RID (or none) is one that was negotiated and fewer than about a hundred frames wait. Every accepted frame is packetized exactly once, in the order written, into a stream of its media with its RID, as consecutive packets behind those already there; or an error tells that it was not. While frames wait the session asks for a timeout at once, and each timeout takes one frame of every media, so that frames wait no longer than those before them. A codec sees all frames of a media, payload type and RID in order.", "quantifier": "every history of writes, timeouts, renegotiations and changes of streams, every codec", "why_tests_cant": "The order of writes, timeouts and changes of medias and streams is arbitrary, and so is what a codec makes of a frame.", "anchors": ["src/media/writer.rs: Writer::write", "src/media/mod.rs: Rids, set_to_payload, payloader_for, do_payload, poll_timeout", "src/packet/payload.rs: Payloader", "src/session.rs: do_payload, handle_timeout, poll_timeout"]}
{"id": "C126", "title": "The application is told which medias there are and their directions", "statement": "A media that the peer offers (and does not reject) or that is declared is told as added once, before any of its changes; a media the application offered itself is never told as added. Every event has the direction the media has at that time, and every change of direction is told: when polling has nothing left to tell, what was told last about a media is its direction. The events end after at most two for each media.", "quantifier": "every history of offers, answers, changes of direction, stops, removals and polls", "why_tests_cant": "Renegotiations, changes by the application and polls interleave arbitrarily; whether an event is lost depends on the order.", "anchors": ["src/lib.rs: Event::MediaAdded, Event::MediaChanged", "src/session.rs: poll_event, set_direction, stop_media", "src/media/mod.rs: set_direction, from_remote_media_line", "src/change/sdp.rs: add_new_lines, update_media", "src/change/direct.rs: declare_media"]}
{"id": "C127", "title": "A stopped media cannot be reactivated", "statement": "A media that the application stops, or that the peer rejects (port 0, not in the bundle), is stopped and inactive from then on, until its m-line is recycled.", "quantifier": "every history of offers, answers, changes of direction, stops, removals and polls", "why_tests_cant": "Any renegotiation or call later may touch the media again.", "anchors": ["src/change/sdp.rs: SdpApi::stop_media, update_media", "src/session.rs: stop_media, set_direction", "src/media/mod.rs: disabled, stopped"]}
{"id": "C128", "title": "A frame handed over is made of one stream's packets, and streams do not disturb each other", "statement": "A frame handed over by the frame API is made of a complete run of packets received with its mid, payload type and RID, while the media was receiving and since the stream was last paused or changed its SSRC, decoded by the codec of that payload type; packets of another payload type of the stream count as empty and those of other RIDs not at all. Audio that arrives in order is handed over at once, whatever the reordering settings. When polling gives nothing no frame is left behind. The frames of a stream come out in order and none is dropped, also when its payload type or SSRC changes. Nothing panics.", "quantifier": "every history of packets of all payload types and RIDs, polls, pauses, SSRC changes and changes of direction, every codec", "why_tests_cant": "Packets of several payload types and RIDs, resets and polls interleave arbitrarily, and the buffers live in a hash map with an arbitrary order.", "anchors": ["src/media/mod.rs: depayload, poll_sample, reset_depayloader, reset_depayloaders_for_rid", "src/session.rs: handle_rtp, poll_event, poll_event_fallible", "src/streams/mod.rs: map_dynamic_by_rid", "src/packet/buffer_rx.rs: DepacketizingBuffer"]}
{"id": "C129", "title": "Requests of keyframes go from one application to the other, and each is told once", "statement": "The application is told of a request for a keyframe only when the peer made it, by PLI or FIR, of a stream that is sent with that mid and RID and it was not told since; the kind is that of the latest. When a poll has nothing to tell, no request was kept back, and polls end. In the other direction each timeout sends, of each stream, one request if the application wanted a keyframe since the last timeout, of the kind it wanted last, and none otherwise; the numbers of FIR go 0, 1, 2, ... modulo 256; a bitrate that the application set is sent once, the latest. Together: what an application wants of a stream reaches the application that sends it. Repeats of a FIR are ignored, application feedback is not lost, and `is_request_keyframe_possible` is about the media line.", "quantifier": "every set of streams, every interleaving of requests, feedback of every kind, polls, timeouts and changes of direction on both sides", "why_tests_cant": "Requests of several streams and kinds interleave with polls and timeouts; each is kept in one slot that another may overwrite.", "anchors": ["src/streams/receive.rs: request_keyframe, maybe_create_keyframe_request, maybe_create_remb, reset_buffers, change_ssrc", "src/streams/send.rs: handle_rtcp, poll_keyframe_request, poll_remb_request", "src/streams/mod.rs: poll_keyframe_request, poll_remb_request, handle_timeout", "src/rtp/rtcp/rtcpfb.rs: from_rtcp, ssrc", "src/session.rs: handle_rtcp, poll_event, is_request_keyframe_possible", "src/media/writer.rs: request_keyframe, is_request_keyframe_possible"]}
{"id": "C130", "title": "The application counts as limited when, and only when, it sends well below what it may", "statement": "The bandwidth estimator begins to count the application as limited (which lets it probe) only at a packet, and only when in some stretch of time up to it the application sent less than 65% of the estimate allows, by more than that allows in 400 ms; so never in the first 400 ms with one estimate, and never when each packet is at least what is allowed since the one before. It must count it as limited when, with one estimate, each packet is at most what is allowed and together they are less by what is allowed in 900 ms, and after 900 ms of silence. It stops only after a stretch in which more was sent than allowed, by what is allowed in 150 ms. An application that sends more than it may is not counted as limited, also when it sends in bursts or the estimate falls.", "quantifier": "every history of packets of all sizes and times and of estimates", "why_tests_cant": "Whether the threshold is crossed depends on the whole history of sizes and gaps and on the clamps of the budget at both ends; tests send at a few rates.", "anchors": ["src/bwe/alr_detector/budget.rs: set_target_rate, increase_budget, use_budget, budget_ratio", "src/bwe/alr_detector/detector.rs: on_bytes_sent, set_estimated_bitrate, alr_start_time", "src/bwe/mod.rs: on_media_sent, handle_timeout"]}
{"id": "C131", "title": "SCTP starts without its handshake on both sides or on none", "statement": "After any exchanges of offers and answers between two instances, in either direction and with offers in between that are never sent, SCTP was started on both sides the same way: with its handshake, or without it (`a=sctp-init`), each side with the chunk that the other told, or not yet; it is left out exactly when the side that made the first offer with an application line enabled this. Neither refuses a description of the other for it, also in later exchanges. Against any peer: a side starts without the handshake only when the description that makes it start has the attribute, with the chunk of it, and when the peer was told its own; a later description with another attribute or none is refused and changes nothing. A refused description has no effect on this.", "quantifier": "every history of offers, answers and unsent offers in both directions, settings of both sides, chunks that the library makes, fails to make or refuses, and every peer", "why_tests_cant": "Chunks are kept across exchanges, and which are there when SCTP starts depends on the whole history of offers sent, dropped and refused; one mistake leaves one side waiting for a handshake that the other left out.", "anchors": ["src/sctp/snap.rs: SctpInitData", "src/sctp/mod.rs: init, ensure_local_snap_init, disable_pending_snap, local_sctp_init_for_sdp, is_snap_established, set_remote_snap_init_string, build_snap_init_data", "src/change/sdp.rs: accept_offer, accept_answer, create_offer, process_remote_sctp_init", "src/lib.rs: try_init_sctp"]}
{"id": "C132", "title": "Reports are made in time and not too often, and the session sleeps in between", "statement": "After every timeout handled, each incoming stream (but the one of the probes) has had a receiver report, and each outgoing stream that has been through a timeout a sender report, within the interval of its kind; streams of one media are reported together, each once per timeout, and two timeouts with reports on a media are at least the shorter interval apart unless a stream of it is new. Missing packets are asked for in timeouts at least 33 ms apart, and of every stream with NACKs on. The time asked for next is never later than a report is due, and after a second timeout in a row it is ahead: the session does not spin.", "quantifier": "every history of streams made, changed, reset and removed, NACKs turned on and off, polls and timeouts, and all report intervals", "why_tests_cant": "The times of all streams interact over unbounded histories; one stream that is asked about but never reported keeps the whole session awake.", "anchors": ["src/streams/mod.rs: handle_timeout, regular_feedback_at, any_nack_enabled, expect_stream_rx, change_stream_rx_ssrc", "src/streams/receive.rs: receiver_report_at, need_rr, create_rr_and_update", "src/streams/send.rs: sender_report_at, need_sr, create_sr_and_update, on_first_timeout, reset_ssrc", "src/session.rs: handle_timeout, nack_at, ensure_probe_stream"]}
{"id": "C133", "title": "The streams one side tells in its SDP are the ones the other expects", "statement": "If an m-line carries the SSRCs that str0m writes for its outgoing streams, another str0m that receives the media expects exactly these streams: each with this media's mid and its own RTX SSRC, with NACKs off for those without RTX, in the same order, whatever other attributes stand in the m-line. Telling the same again changes nothing, telling more adds what is new. Whatever any peer tells, the streams expected are the a=ssrc SSRCs that no FID group has second, each once; no SSRC gets two streams and no stream goes away or moves to another media. Nothing is expected for a media that does not receive or has simulcast.", "quantifier": "every list of m-line attributes, every list of outgoing streams with distinct SSRCs, every set of streams already expected", "why_tests_cant": "Lines and groups come in any number and order, about any SSRCs, over any number of renegotiations.", "anchors": ["src/change/sdp.rs: as_media_line, update_media", "src/sdp/data.rs: MediaLine::ssrc_info", "src/streams/mod.rs: expect_stream_rx", "src/streams/receive.rs: maybe_reset_rtx"]}
{"id": "C134", "title": "Delay is measured between groups of packets that follow the grouping rule, and no time is lost between them", "statement": "The acknowledged packets given to the delay based estimator are grouped: each packet of a group is sent within 5 ms of its first, or together with its last, or arrives in a burst (within 5 ms of the last, closer than it was sent, less than 100 ms after the first), and each group ends where the next packet does not go with it. The deltas are exactly the differences of the last send and arrival times of each two finished groups in a row, so together they are the time from the first to the last. In send order no packet is left out and every delta has a send time above 0. There is at most one delta for each 5 ms of sending.", "quantifier": "every sequence of acknowledged packets with any send and arrival times", "why_tests_cant": "Groups depend on all packets before; bursts, reordering and loss can come in any pattern.", "anchors": ["src/bwe/delay/arrival_group.rs: ArrivalGroup, ArrivalGroupAccumulator", "src/bwe/delay/control.rs: DelayController::update"]}
{"id": "C135", "title": "Stream and track ids given by the application cannot break the SDP", "statement": "Whatever strings the application gives as stream and track id of a media, what is written in a=msid and as cname is at most 64 token-chars: no space and no end of line gets into the SDP through them. A legal msid-id of RFC 8830 is written as it is, in its place; of others exactly the characters that are no token-chars are left out, in order and up to 64; doing it again changes nothing.", "quantifier": "all strings, or none, for stream and track id", "why_tests_cant": "Any code point can stand anywhere in a string of any length.", "anchors": ["src/change/sdp.rs: SdpApi::add_media, is_token_char"]}
