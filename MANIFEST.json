{
 "claims": [
  {
   "property": "C01",
   "status": "proved",
   "theorems": [
    "Str0m.C01_extend_recovers",
    "Str0m.C01_extend_first",
    "Str0m.C01_extend_low_bits",
    "Str0m.C01_extend_nearest",
    "Str0m.C01_history"
   ],
   "note": "mk_extend macro for an arbitrary bit width."
  },
  {
   "property": "C02",
   "status": "proved",
   "theorems": [
    "Str0m.C02_demux",
    "Str0m.C02_disjoint"
   ],
   "note": "MultiplexKind::try_from against an RFC 7983 table."
  },
  {
   "property": "C03",
   "status": "proved",
   "theorems": [
    "Str0m.C03_never_accepted_twice",
    "Str0m.C03_accepts_iff",
    "Str0m.C03_window_monotone"
   ],
   "note": "NackRegister as a 101 slot ring."
  },
  {
   "property": "C04",
   "status": "proved",
   "theorems": [
    "Str0m.C04_at_most_five",
    "Str0m.C04_only_missing"
   ],
   "note": ""
  },
  {
   "property": "C05",
   "status": "proved",
   "theorems": [
    "Str0m.C05_exact_set"
   ],
   "note": ""
  },
  {
   "property": "C06",
   "status": "partial",
   "theorems": [
    "Str0m.C06_packets_lost",
    "Str0m.C06_fraction_lost_partial",
    "Str0m.C06_packets_lost_wire",
    "Str0m.C06_fraction_violation",
    "Str0m.C06_clamp_violation"
   ],
   "note": "The code deviates: fraction_lost tests lost_interval == 0 (not <= 0) and the clamp constant does not fit 24 bits; both are proved as violations with witnesses."
  },
  {
   "property": "C07",
   "status": "proved",
   "theorems": [
    "Str0m.C07_latest_or_nothing",
    "Str0m.C07_smaller_than",
    "Str0m.C07_last_sent_retrievable"
   ],
   "note": "All histories of sends and clears with time not going backwards; payloads below 2000 bytes (longer ones panic in the code)."
  },
  {
   "property": "C08",
   "status": "proved",
   "theorems": [
    "Str0m.C08_bound",
    "Str0m.C08_evict_terminates"
   ],
   "note": ""
  },
  {
   "property": "C09",
   "status": "proved",
   "theorems": [
    "Str0m.C09_refines_fifo",
    "Str0m.C09_merge_adds",
    "Str0m.C09_merge_priority",
    "Str0m.Tx.C09_violation_queue_time"
   ],
   "note": "Refinement to a FIFO of (packet, start of waiting). In use by the outgoing stream the total queue time is wrong (C09_violation_queue_time), because the packet is re-stamped before pop."
  },
  {
   "property": "C10",
   "status": "partial",
   "theorems": [
    "Str0m.MediaTime.C10_rebase",
    "Str0m.MediaTime.C10_cmp_laws",
    "Str0m.MediaTime.C10_cmp_sound",
    "Str0m.MediaTime.C10_cmp_exact_partial",
    "Str0m.MediaTime.C10_add_sub",
    "Str0m.MediaTime.C10_add_error",
    "Str0m.MediaTime.C10_duration_roundtrip",
    "Str0m.MediaTime.C10_violation_eq_not_transitive",
    "Str0m.MediaTime.C10_violation_lt_not_transitive",
    "Str0m.MediaTime.C10_violation_truncation"
   ],
   "note": "Full order laws hold on one frequency; across frequencies the code's equality and order are not transitive, proved as violations; soundness of Less/Greater is proved for all."
  },
  {
   "property": "C100",
   "status": "proved",
   "theorems": [
    "Str0m.SctpStreams.C100_deadline",
    "Str0m.SctpStreams.C100_in_time",
    "Str0m.SctpStreams.C100_ten_seconds",
    "Str0m.SctpStreams.C100_example"
   ],
   "note": "Every history."
  },
  {
   "property": "C101",
   "status": "proved",
   "theorems": [
    "Str0m.SctpStreams.C101_no_panic",
    "Str0m.SctpStreams.C101_example",
    "Str0m.SctpStreams.C101_example_honest"
   ],
   "note": "For labels that fit (C35_violation_long otherwise) and an sctp-proto that has the streams it says exist."
  },
  {
   "property": "C102",
   "status": "proved",
   "theorems": [
    "Str0m.SctpStreams.C102_held",
    "Str0m.SctpStreams.C99_example"
   ],
   "note": "Every history."
  },
  {
   "property": "C103",
   "status": "partial",
   "theorems": [
    "Str0m.SctpStreams.C103_exactly",
    "Str0m.SctpStreams.recording_records",
    "Str0m.SctpStreams.C103_violation_early",
    "Str0m.SctpStreams.C103_example"
   ],
   "note": "Proved from sctp-proto to SctpEvent; data before Open is dropped by Rtc (violation)."
  },
  {
   "property": "C104",
   "status": "partial",
   "theorems": [
    "Str0m.BwEst.C104_size",
    "Str0m.BwEst.C104_nothing_desired",
    "Str0m.BwEst.C104_violation_lowered"
   ],
   "note": "The bound holds against what was desired when the probe was decided (this wake-up or the one before); against what is desired now it fails: C104_violation_lowered. Detectors are arbitrary."
  },
  {
   "property": "C105",
   "status": "partial",
   "theorems": [
    "Str0m.BwEst.C105_ids",
    "Str0m.BwEst.C105_example",
    "Str0m.BwEst.C105_violation_reset"
   ],
   "note": "Without reset, for 2^62 wake-ups. With reset it fails: C105_violation_reset."
  },
  {
   "property": "C106",
   "status": "partial",
   "theorems": [
    "Str0m.BwEst.C106_congested_partial",
    "Str0m.BwEst.C106_example",
    "Str0m.BwEst.C106_violation_leftover",
    "Str0m.BwEst.C106_violation_unchanged"
   ],
   "note": "Holds when the estimate moved and nothing was left over; both exceptions are shown."
  },
  {
   "property": "C107",
   "status": "proved",
   "theorems": [
    "Str0m.BwEst.C107_five_seconds",
    "Str0m.BwEst.C107_stagnant",
    "Str0m.BwEst.C107_initial",
    "Str0m.BwEst.C107_violation_thirty",
    "Str0m.BwEst.C107_example"
   ],
   "note": "The code's comments promise thirty seconds for stagnation probes: C107_violation_thirty."
  },
  {
   "property": "C108",
   "status": "partial",
   "theorems": [
    "Str0m.BwEst.C108_later_partial",
    "Str0m.BwEst.C108_settles",
    "Str0m.BwEst.C108_violation_instant",
    "Str0m.BwEst.C108_example"
   ],
   "note": "Fails when the measured RTT is zero (violation theorem)."
  },
  {
   "property": "C109",
   "status": "proved",
   "theorems": [
    "Str0m.BwEst.C109_result",
    "Str0m.BwEst.C109_applied",
    "Str0m.BwEst.C109_example"
   ],
   "note": "Histories without reset and with fewer than 2^62 wake-ups (the cluster id counter)."
  },
  {
   "property": "C11",
   "status": "partial",
   "theorems": [
    "Str0m.Rtp.C11_round_trip_partial",
    "Str0m.Rtp.C11_nothing_lost",
    "Str0m.Rtp.C11_send_time",
    "Str0m.Rtp.C11_violation_audio",
    "Str0m.Rtp.C11_violation_no_extension",
    "Str0m.Rtp.C11_violation_empty_mid"
   ],
   "note": "Full statement restricted to: audio level 0 without voice activity, extension bit set, non-empty ids. Outside of this the code is wrong (violation theorems). Buffer sizes are not modelled; capture times are in NTP form."
  },
  {
   "property": "C110",
   "status": "proved",
   "theorems": [
    "Str0m.BwEst.C110_twenty",
    "Str0m.BwEst.C110_refused",
    "Str0m.BwEst.C110_forgotten",
    "Str0m.BwEst.C110_example_refused",
    "Str0m.BwEst.C110_example_forgotten"
   ],
   "note": "Completion part: histories without reset."
  },
  {
   "property": "C111",
   "status": "proved",
   "theorems": [
    "Str0m.BwEst.C111_between",
    "Str0m.BwEst.C111_again",
    "Str0m.BwEst.C111_settles",
    "Str0m.BwEst.C111_example"
   ],
   "note": ""
  },
  {
   "property": "C112",
   "status": "partial",
   "theorems": [
    "Str0m.BwEst.C112_moves",
    "Str0m.BwEst.C112_reduces",
    "Str0m.BwEst.C112_bounds",
    "Str0m.BwEst.C112_violation_lowers",
    "Str0m.BwEst.C112_violation_raises",
    "Str0m.BwEst.C112_example"
   ],
   "note": "Two places where the code itself breaks the full claim are theorems. Detectors are arbitrary oracles, bitrates exact rationals."
  },
  {
   "property": "C113",
   "status": "partial",
   "theorems": [
    "Str0m.BwEst.C113_resumes_partial",
    "Str0m.BwEst.C113_example",
    "Str0m.BwEst.C113_violation_stuck"
   ],
   "note": "The code does not resume when the estimate stays the same (violation theorem)."
  },
  {
   "property": "C114",
   "status": "partial",
   "theorems": [
    "Str0m.SdpApi.C114_kept_partial",
    "Str0m.SdpApi.C114_order",
    "Str0m.SdpApi.C114_positions",
    "Str0m.SdpApi.C114_example_direction",
    "Str0m.SdpApi.C114_example_positions",
    "Str0m.SdpApi.C114_violation_direction",
    "Str0m.SdpApi.C114_violation_channel",
    "Str0m.SdpApi.C114_violation_apps",
    "Str0m.SdpApi.C114_violation_restart",
    "Str0m.SdpApi.C114_app",
    "Str0m.SdpApi.C114_example_app"
   ],
   "note": "Order and places proved. That every change not in effect is kept is proved with 'in effect' as: media or application line there, channel has a stream, direction as asked, credentials in use (C114_kept_partial). Refuted beyond that: a direction is dropped by the merge because set_direction acts at once, so it is never offered; a channel that got its stream id while the offer was out is dropped and never opened; a second application line is refused by the other side; of two restarts the first is offered though the application was given the second."
  },
  {
   "property": "C115",
   "status": "partial",
   "theorems": [
    "Str0m.SdpApi.C115_exchange_partial",
    "Str0m.SdpApi.C115_rounds_partial",
    "Str0m.SdpApi.C115_taken",
    "Str0m.SdpApi.C115_example",
    "Str0m.SdpApi.C115_violation_first",
    "Str0m.SdpApi.C115_asked",
    "Str0m.SdpApi.C115_example_asked"
   ],
   "note": "Proved for all histories in which no restart is asked for before the first exchange, completed exchanges, new credentials being new; refuted for a restart before the first exchange (sdp.rs 730-733)."
  },
  {
   "property": "C116",
   "status": "partial",
   "theorems": [
    "Str0m.SdpApi.C116_one_partial",
    "Str0m.SdpApi.C116_example",
    "Str0m.SdpApi.C116_violation_half"
   ],
   "note": "Proved for all histories of completed exchanges; refuted when the answer to the first offer is lost and the other side offers next."
  },
  {
   "property": "C117",
   "status": "partial",
   "theorems": [
    "Str0m.SdpApi.C117_clean_partial",
    "Str0m.SdpApi.C117_channels",
    "Str0m.SdpApi.C117_violation_restart",
    "Str0m.SdpApi.C117_confirmed",
    "Str0m.SdpApi.C117_no_panic",
    "Str0m.SdpApi.C117_direct",
    "Str0m.SdpApi.C117_example_confirmed"
   ],
   "note": "Proved for refusals before the session is touched (empty, both lite, no credentials, answer out of order, unasked restart in answer) and for the channels; refuted for an offer refused for its m-lines, which has already restarted ICE and changed directions."
  },
  {
   "property": "C118",
   "status": "partial",
   "theorems": [
    "Str0m.SdpApi.C118_dropped",
    "Str0m.SdpApi.C118_answer",
    "Str0m.SdpApi.C118_example",
    "Str0m.SdpApi.C118_example_channel",
    "Str0m.SdpApi.C118_violation_direction",
    "Str0m.SdpApi.C118_violation_channel"
   ],
   "note": "Proved for the offer itself (apply then drop) and for the answer to any offer; refuted for set_direction, which acts at once, and for a negotiated channel, whose stream id stays taken: adding it again panics."
  },
  {
   "property": "C119",
   "status": "partial",
   "theorems": [
    "Str0m.Share.C119_request_partial",
    "Str0m.Share.C119_stun_owner",
    "Str0m.Share.C119_one_partial",
    "Str0m.Share.C119_media",
    "Str0m.Share.C119_example",
    "Str0m.Share.C119_violation_stale",
    "Str0m.Share.C119_violation_early"
   ],
   "note": "Proved for addresses no instance has nominated (requests) and no instance before knows (media). Refuted beyond: an instance keeps everything from the address it nominated last, also after the connection is lost, so that a peer of another instance at this address is never heard; and DTLS of a peer whose check was answered is accepted only after the own check is answered."
  },
  {
   "property": "C12",
   "status": "proved",
   "theorems": [
    "Str0m.Rtp.C12_total",
    "Str0m.Rtp.C12_unpad"
   ],
   "note": "All byte strings and maps; user parsers are assumed not to panic."
  },
  {
   "property": "C120",
   "status": "proved",
   "theorems": [
    "Str0m.Share.C120_media",
    "Str0m.Share.C120_needs_peer",
    "Str0m.Share.C120_example"
   ],
   "note": "For all histories of candidates, credentials, requests, responses, timeouts, restarts and polls; that a message counts as a response is C55."
  },
  {
   "property": "C121",
   "status": "proved",
   "theorems": [
    "Str0m.Stats.C121_spacing",
    "Str0m.Stats.C121_due",
    "Str0m.Stats.C121_reports",
    "Str0m.Stats.C121_example"
   ],
   "note": "PeerStats fields other than byte counters and time are not modelled. The interval passes once before the first report, contrary to the comment at Stats::new."
  },
  {
   "property": "C122",
   "status": "partial",
   "theorems": [
    "Str0m.Stats.C122_sum",
    "Str0m.Stats.C122_received",
    "Str0m.Stats.C122_packets_partial",
    "Str0m.Stats.C122_monotone",
    "Str0m.Stats.C121_example",
    "Str0m.Stats.C122_violation_stale",
    "Str0m.Stats.C122_violation_plis"
   ],
   "note": "Bytes are exact in every history without removed streams; packets if none is without payload (streams on which no byte came are left out). Jitter, round trip time and loss are those of whichever stream is visited last (C122_violation_stale); PLIs for a stream without bytes are not told (C122_violation_plis)."
  },
  {
   "property": "C123",
   "status": "partial",
   "theorems": [
    "Str0m.Stats.C123_sent",
    "Str0m.Stats.C123_monotone",
    "Str0m.Stats.C123_loss",
    "Str0m.Stats.C123_fraction",
    "Str0m.Stats.C121_example",
    "Str0m.Stats.C123_violation_loss",
    "Str0m.Stats.C123_violation_reset",
    "Str0m.Stats.C123_violation_two"
   ],
   "note": "That what is counted is what is sent is C89. One receiver report makes no loss (C123_violation_loss), reset_stream_tx makes totals go back (C123_violation_reset), two streams of one mid/rid hide each other (C123_violation_two). Loss is rational instead of f32."
  },
  {
   "property": "C124",
   "status": "partial",
   "theorems": [
    "Str0m.RtxCap.C124_capped",
    "Str0m.RtxCap.C124_decides",
    "Str0m.RtxCap.C124_silent",
    "Str0m.RtxCap.C124_counted",
    "Str0m.RtxCap.C124_refines",
    "Str0m.RtxCap.C124_no_assert",
    "Str0m.RtxCap.C124_kept_second",
    "Str0m.RtxCap.C124_fresh",
    "Str0m.RtxCap.C124_example",
    "Str0m.RtxCap.C124_violation_burst",
    "Str0m.RtxCap.C124_violation_unsent",
    "Str0m.RtxCap.C124_violation_grows",
    "Str0m.RtxCap.C124_violation_kept"
   ],
   "note": "What the code does is proved exactly for all histories. Not so: between two measurements there is no cap (burst), packets dropped for their payload type count as sent, and after a reset without cap the account grows for ever. Rationals instead of f32."
  },
  {
   "property": "C125",
   "status": "partial",
   "theorems": [
    "Str0m.Frames.C125_refused",
    "Str0m.Frames.C125_once",
    "Str0m.Frames.C125_turns",
    "Str0m.Frames.C125_wake",
    "Str0m.Frames.C125_drains",
    "Str0m.Frames.C125_packets",
    "Str0m.Frames.C125_codec",
    "Str0m.Frames.C125_example",
    "Str0m.Frames.C125_violation_lost",
    "Str0m.Frames.C125_violation_starved",
    "Str0m.Frames.C125_violation_pt",
    "Str0m.Frames.C125_violation_rid",
    "Str0m.Frames.C125_violation_panic",
    "Str0m.Frames.C125_violation_closing"
   ],
   "note": "Exactly-once, order, turns, draining, packets and the codec's state are proved for every history and codec. The full claim is false of the code: frames without a stream are lost (with an error), one media's error starves later medias, the writer accepts payload types of other medias and frames without RID in simulcast, renumbering panics, closing drops silently (violations)."
  },
  {
   "property": "C126",
   "status": "partial",
   "theorems": [
    "Str0m.MediaEv.C126_told",
    "Str0m.MediaEv.C126_added",
    "Str0m.MediaEv.C126_own",
    "Str0m.MediaEv.C126_truth",
    "Str0m.MediaEv.C126_ends",
    "Str0m.MediaEv.C126_example",
    "Str0m.MediaEv.C126_example_added",
    "Str0m.MediaEv.C126_violation_lost",
    "Str0m.MediaEv.C126_violation_spurious",
    "Str0m.MediaEv.C126_violation_declared",
    "Str0m.MediaEv.C126_violation_rejected"
   ],
   "note": "The code violates the full claim: a change that is followed by one with the same direction before the poll is never told (C126_violation_lost; set_direction overwrites the flag), so C126_told asks that no media is touched twice between two complete polls."
  },
  {
   "property": "C127",
   "status": "partial",
   "theorems": [
    "Str0m.MediaEv.C127_stays",
    "Str0m.MediaEv.C127_stop",
    "Str0m.MediaEv.C127_rejected",
    "Str0m.MediaEv.C127_example",
    "Str0m.MediaEv.C127_violation_revived",
    "Str0m.MediaEv.C127_violation_direction",
    "Str0m.MediaEv.C127_violation_unmatched"
   ],
   "note": "The code violates the full claim: a line of the peer or set_direction gives a stopped media a direction again (update_media and set_direction do not look at stopped). Proved: it stays stopped, and inactive while nobody gives it a direction."
  },
  {
   "property": "C128",
   "status": "partial",
   "theorems": [
    "Str0m.FrameRx.C128_frames",
    "Str0m.FrameRx.C128_inorder",
    "Str0m.FrameRx.C128_quiet",
    "Str0m.FrameRx.C128_apart",
    "Str0m.FrameRx.C128_example",
    "Str0m.FrameRx.opus_whole",
    "Str0m.FrameRx.C128_violation_reset",
    "Str0m.FrameRx.C128_violation_order"
   ],
   "note": "Proved: what frames are made of, for all codecs and histories, no panic, in-order audio, nothing left behind. The code violates the rest: an SSRC change resets only one payload type's buffer, the others drop everything until the numbers pass the old ones; frames of two payload types come out in hash map order. Order within one payload type is C19."
  },
  {
   "property": "C129",
   "status": "partial",
   "theorems": [
    "Str0m.Requests.C129_truth",
    "Str0m.Requests.C129_told",
    "Str0m.Requests.C129_ends",
    "Str0m.Requests.C129_reaches",
    "Str0m.Requests.C129_asked",
    "Str0m.Requests.C129_numbers",
    "Str0m.Requests.C129_remb",
    "Str0m.Requests.C129_through",
    "Str0m.Requests.C129_example",
    "Str0m.Requests.C129_forgotten",
    "Str0m.Requests.C129_violation_repeat",
    "Str0m.Requests.C129_violation_app",
    "Str0m.Requests.C129_violation_change",
    "Str0m.Requests.C129_violation_possible"
   ],
   "note": "proved for keyframe requests with streams of distinct mids and RIDs; the code violates the full claim for repeated FIR, overwritten application feedback and SSRC changes; is_request_keyframe_possible looks at the session, not the line"
  },
  {
   "property": "C13",
   "status": "partial",
   "theorems": [
    "Str0m.Rtcp.C13_round_trip_partial",
    "Str0m.Rtcp.C13_consumes_partial",
    "Str0m.Rtcp.C13_violation_remb_zero",
    "Str0m.Rtcp.C13_violation_app"
   ],
   "note": "All eleven kinds; excluded: TWCC with deltas after a large run (C17_violation), REMB bitrates that are not exact or zero, app payloads of partial words or looking like REMB, empty BYE/NACK/FIR."
  },
  {
   "property": "C130",
   "status": "partial",
   "theorems": [
    "Str0m.Alr.C130_truth",
    "Str0m.Alr.C130_long",
    "Str0m.Alr.C130_busy",
    "Str0m.Alr.C130_idle",
    "Str0m.Alr.C130_limited",
    "Str0m.Alr.C130_exit",
    "Str0m.Alr.C130_example",
    "Str0m.Alr.C130_violation_burst",
    "Str0m.Alr.C130_violation_drop"
   ],
   "note": "proved in exact arithmetic (the program rounds to bytes); the last sentence of the claim is violated by the code for bursts and falling estimates"
  },
  {
   "property": "C131",
   "status": "partial",
   "theorems": [
    "Str0m.Snap.C131_both",
    "Str0m.Snap.C131_accepted",
    "Str0m.Snap.C131_when",
    "Str0m.Snap.C131_own_offer",
    "Str0m.Snap.C131_own_answer",
    "Str0m.Snap.C131_changed",
    "Str0m.Snap.C131_example",
    "Str0m.Snap.C131_violation_stale",
    "Str0m.Snap.C131_violation_poison",
    "Str0m.Snap.C131_violation_unsolicited"
   ],
   "note": "proved for exchanges of two instances and for one side against any accepted descriptions; the code keeps the chunk of a refused description, which violates the last sentence"
  },
  {
   "property": "C132",
   "status": "partial",
   "theorems": [
    "Str0m.Reports.C132_received",
    "Str0m.Reports.C132_sent",
    "Str0m.Reports.C132_kind",
    "Str0m.Reports.C132_of_streams",
    "Str0m.Reports.C132_together",
    "Str0m.Reports.C132_together_tx",
    "Str0m.Reports.C132_once",
    "Str0m.Reports.C132_apart",
    "Str0m.Reports.C132_apart_tx",
    "Str0m.Reports.C132_nack_apart",
    "Str0m.Reports.C132_nack_due",
    "Str0m.Reports.C132_asked",
    "Str0m.Reports.C132_sleeps",
    "Str0m.Reports.C132_nack_sleeps",
    "Str0m.Reports.C132_closing",
    "Str0m.Reports.C132_violation_probe",
    "Str0m.Reports.C132_violation_nack",
    "Str0m.Reports.C132_example"
   ],
   "note": "All histories and intervals. The code violates two parts: with a probe stream (SSRC 0) the session never sleeps again, and NACKs turned on through stream_rx are not asked for (violation theorems). Sender reports together/apart when no two outgoing streams have the same SSRC."
  },
  {
   "property": "C133",
   "status": "partial",
   "theorems": [
    "Str0m.SsrcLines.C133_pairs",
    "Str0m.SsrcLines.C133_streams",
    "Str0m.SsrcLines.C133_first",
    "Str0m.SsrcLines.C133_again",
    "Str0m.SsrcLines.C133_meaning",
    "Str0m.SsrcLines.C133_meaning_rtx",
    "Str0m.SsrcLines.C133_kept",
    "Str0m.SsrcLines.C133_off",
    "Str0m.SsrcLines.C133_violation_fec",
    "Str0m.SsrcLines.C133_violation_late",
    "Str0m.SsrcLines.C133_violation_changed",
    "Str0m.SsrcLines.C133_violation_mid",
    "Str0m.SsrcLines.C133_example"
   ],
   "note": "What str0m tells is what str0m expects, again and with more, and what any peer's lines mean; partial because the code treats FEC SSRCs as media, keeps NACKs off for a stream whose RTX comes later, keeps streams no longer told, and leaves an SSRC told for two medias with the first (the _violation theorems)."
  },
  {
   "property": "C134",
   "status": "proved",
   "theorems": [
    "Str0m.Arrival.C134_groups",
    "Str0m.Arrival.C134_exact",
    "Str0m.Arrival.C134_in_order",
    "Str0m.Arrival.C134_count",
    "Str0m.Arrival.C134_sum",
    "Str0m.Arrival.C134_violation_back",
    "Str0m.Arrival.C134_example"
   ],
   "note": "For every sequence of packets and all times: the grouping rule (exactly, including which packets are left out), the deltas, their sums and their number; positive send deltas in send order (out of order they can be negative: C134_violation_back)."
  },
  {
   "property": "C135",
   "status": "partial",
   "theorems": [
    "Str0m.MsidId.C135_tokens",
    "Str0m.MsidId.C135_no_break",
    "Str0m.MsidId.C135_kept",
    "Str0m.MsidId.C135_places",
    "Str0m.MsidId.C135_order",
    "Str0m.MsidId.C135_again",
    "Str0m.MsidId.C135_violation_tilde",
    "Str0m.MsidId.C135_violation_empty",
    "Str0m.MsidId.C135_violation_clash",
    "Str0m.MsidId.C135_example"
   ],
   "note": "For all strings: only token-chars, at most 64, nothing that ends a word or line, legal ids without ~ kept. Partial because the code drops the legal ~ and writes an empty id when nothing is left (the _violation theorems)."
  },
  {
   "property": "C14",
   "status": "proved",
   "theorems": [
    "Str0m.Rtcp.C14_total",
    "Str0m.Rtcp.C14_one"
   ],
   "note": "Every byte string; the model's fuel shows termination."
  },
  {
   "property": "C15",
   "status": "proved",
   "theorems": [
    "Str0m.Rtcp.C15_pack",
    "Str0m.Rtcp.C15_violation_blocked"
   ],
   "note": "Every queue of well-formed messages (WF as in C13) and every buffer size; C15_violation_blocked shows an oversized message blocks the queue."
  },
  {
   "property": "C16",
   "status": "partial",
   "theorems": [
    "Str0m.Twcc.C16_faithful_partial",
    "Str0m.Twcc.C16_accounted",
    "Str0m.Twcc.C16_reported",
    "Str0m.Twcc.C16_total_partial",
    "Str0m.Twcc.C16_violation_error",
    "Str0m.Twcc.C16_violation_forgotten",
    "Str0m.Twcc.C16_violation_panic",
    "Str0m.Twcc.C16_violation_overflow"
   ],
   "note": "Faithful decoding for every history whose report spans and sizes stay in the stated limits; the violation theorems show the code loses the 250 us bound, forgets packets, and panics outside them."
  },
  {
   "property": "C17",
   "status": "partial",
   "theorems": [
    "Str0m.Twcc.C17_round_trip_partial",
    "Str0m.Twcc.C17_violation",
    "Str0m.Twcc.C17_violation_run"
   ],
   "note": "Holds unless a chunk with deltas follows a run of large deltas; C17_violation proves the code wrong there."
  },
  {
   "property": "C18",
   "status": "proved",
   "theorems": [
    "Str0m.Twcc.C18_records",
    "Str0m.Twcc.C18_own_status",
    "Str0m.Twcc.C18_uncovered",
    "Str0m.Twcc.C18_step",
    "Str0m.Twcc.C18_stays",
    "Str0m.Twcc.C18_returned_once",
    "Str0m.Twcc.C18_wrap"
   ],
   "note": "Every history of sends (consecutive numbers) and of feedback, including feedback that cannot be read to its end."
  },
  {
   "property": "C19",
   "status": "partial",
   "theorems": [
    "Str0m.C19_in_order_partial",
    "Str0m.C19_in_order_arrival",
    "Str0m.C19_hold_back_one",
    "Str0m.C19_violation"
   ],
   "note": "The full property is false of the code: C19_violation is a counterexample (stale decoded-frame cache keyed by index range). Proved for hold-back 1, for in-order arrival, and generally under the condition that the cache matches the queue."
  },
  {
   "property": "C20",
   "status": "proved",
   "theorems": [
    "Str0m.C20_frames_complete"
   ],
   "note": "for every codec and every history of pushes, padding and polls"
  },
  {
   "property": "C21",
   "status": "partial",
   "theorems": [
    "Str0m.C21_flag_truthful_partial",
    "Str0m.C21_flag_complete",
    "Str0m.C21_violation"
   ],
   "note": "Soundness of the flag proved (with the cache condition of C19); the converse fails in the code when padding is discarded early (C21_violation)."
  },
  {
   "property": "C22",
   "status": "proved",
   "theorems": [
    "Str0m.C22_decodable",
    "Str0m.C22_ids_increase",
    "Str0m.C22_base_delivered"
   ],
   "note": ""
  },
  {
   "property": "C23",
   "status": "partial",
   "theorems": [
    "Str0m.Packet.C23_opus",
    "Str0m.Packet.C23_g7xx",
    "Str0m.Packet.C23_comfort_noise",
    "Str0m.Packet.C23_null_ignores_mtu_violation",
    "Str0m.Packet.C23_vp8",
    "Str0m.Packet.C23_vp8_small_mtu_violation",
    "Str0m.Packet.C23_vp9",
    "Str0m.Packet.C23_vp9_keyframe",
    "Str0m.Packet.C23_vp9_profile2_violation",
    "Str0m.Packet.C23_vp9_flexible_keyframe_violation",
    "Str0m.H264.C23_h264",
    "Str0m.H264.C23_h264_usual",
    "Str0m.H264.C23_h264_parameter_sets_violation",
    "Str0m.H264.C23_h264_leading_bytes_violation",
    "Str0m.H264.C23_h264_small_mtu_violation",
    "Str0m.H264.C23_h264_false_keyframe_violation",
    "Str0m.Av1.C23_av1",
    "Str0m.Av1.C23_av1_example",
    "Str0m.Av1.C23_av1_small_mtu_violation",
    "Str0m.Av1.C23_av1_reserved_violation",
    "Str0m.H266.C23_h266",
    "Str0m.H266.C23_h266_usual",
    "Str0m.H266.C23_h266_example",
    "Str0m.H266.C23_h266_header_only_violation",
    "Str0m.H266.C23_h266_trailing_zeros_violation",
    "Str0m.H266.C23_h266_parameter_sets_violation",
    "Str0m.H266.C23_h266_many_sets_violation",
    "Str0m.H266.C23_h266_leading_bytes_violation",
    "Str0m.H265.C23_h265",
    "Str0m.H265.C23_h265_usual",
    "Str0m.H265.C23_h265_ids",
    "Str0m.H265.C23_h265_example",
    "Str0m.H265.C23_h265_mtu_violation",
    "Str0m.H265.C23_h265_ids_violation",
    "Str0m.H265.C23_h265_header_only_violation",
    "Str0m.H265.C23_h265_parameter_sets_violation",
    "Str0m.H265.C23_h265_many_sets_violation",
    "Str0m.H265.C23_h265_leading_bytes_violation",
    "Str0m.H265.C23_h265_reserved_type_violation"
   ],
   "note": "All codecs (Opus, G.711/G.722, comfort noise, VP8, VP9, H.264, H.265, H.266, AV1) for every frame and MTU. Partial because the code violates the claim: null packetizer ignores the MTU, an MTU not above the header silently drops the frame, VP9 profile 2 key frames are marked inter frames, flexible VP9 marks every frame a key frame, H.264/H.265/H.266 parameter sets too big for one packet are dropped, as are all but the last of a kind; H.265 single packets with DONL are two bytes over the MTU. AV1 OBUs of reserved types are dropped."
  },
  {
   "property": "C24",
   "status": "partial",
   "theorems": [
    "Str0m.Packet.C24_plain",
    "Str0m.Packet.C24_vp8",
    "Str0m.Packet.C24_vp9",
    "Str0m.Packet.C24_vp9_memory_violation",
    "Str0m.H264.C24_h264",
    "Str0m.H264.C24_h264_packetizer",
    "Str0m.H264.C24_h264_stale_fragments_violation",
    "Str0m.H264.C24_h264_memory_violation",
    "Str0m.Av1.C24_av1",
    "Str0m.Av1.C24_av1_packetizer",
    "Str0m.Av1.C24_av1_grows_violation",
    "Str0m.H266.C24_h266_packetizer",
    "Str0m.H266.C24_h266",
    "Str0m.H266.C24_h266_keeps",
    "Str0m.H266.C24_h266_aggregate_error_violation",
    "Str0m.H266.C24_h266_single_error_violation",
    "Str0m.H266.C24_h266_stale_fragments_violation",
    "Str0m.H266.C24_h266_memory_violation",
    "Str0m.H265.C24_h265",
    "Str0m.H265.C24_h265_packetizer",
    "Str0m.H265.C24_h265_keeps",
    "Str0m.H265.C24_h265_tsci",
    "Str0m.H265.C24_h265_paci_violation",
    "Str0m.H265.C24_h265_aggregate_error_violation",
    "Str0m.H265.C24_h265_aggregate_junk_violation",
    "Str0m.H265.C24_h265_stale_fragments_violation",
    "Str0m.H265.C24_h265_memory_violation"
   ],
   "note": "All codecs: every state and byte string. Partial because VP9 picture group lists and AV1, H.264, H.265, H.266 fragment buffers grow without bound; an unfinished H.264 unit's bytes are prepended to the next; building an H.265 PACI packet of a unit shorter than two bytes panics."
  },
  {
   "property": "C25",
   "status": "proved",
   "theorems": [
    "Str0m.Ice.C25_both_sides_agree",
    "Str0m.Ice.C25_no_overflow",
    "Str0m.Ice.C25_injective",
    "Str0m.Ice.C25_overflow_witness"
   ],
   "note": "calculate_prio"
  },
  {
   "property": "C26",
   "status": "partial",
   "theorems": [
    "Str0m.Ice.C26_range",
    "Str0m.Ice.C26_type_order_partial",
    "Str0m.Ice.C26_violation",
    "Str0m.Ice.C26_default_preference_range",
    "Str0m.Ice.C26_default_preference_total",
    "Str0m.Ice.C26_preferences_distinct",
    "Str0m.Ice.C26_violation_relayed"
   ],
   "note": "range and distinctness proved; type order is false of the code over TCP (C26_violation); relayed preferences across IP versions can coincide (C26_violation_relayed)"
  },
  {
   "property": "C27",
   "status": "proved",
   "theorems": [
    "Str0m.Stun.C27_round_trip",
    "Str0m.Stun.C27_round_trip_plain",
    "Str0m.Stun.C27_serialises"
   ],
   "note": "All builder messages within the encoder's limits, for every HMAC/CRC. SOFTWARE and NETWORK-COST are never put on the wire by to_bytes (onWire)."
  },
  {
   "property": "C28",
   "status": "proved",
   "theorems": [
    "Str0m.Stun.C28_parse_total",
    "Str0m.Stun.C28_parse_shape"
   ],
   "note": "All byte strings."
  },
  {
   "property": "C29",
   "status": "proved",
   "theorems": [
    "Str0m.Stun.C29_xor_address",
    "Str0m.Stun.C29_xor_format"
   ],
   "note": "IPv4 and IPv6, any trailing bytes."
  },
  {
   "property": "C30",
   "status": "proved",
   "theorems": [
    "Str0m.Ice.C30_higher_keeps_role",
    "Str0m.Ice.C30_stable",
    "Str0m.Ice.C30_switches_to_opposite",
    "Str0m.Ice.C30_resolved_by_request",
    "Str0m.Ice.C30_resolved_by_reply",
    "Str0m.Ice.C30_conflict_is_answered",
    "Str0m.Ice.C30_violation_equal_tie_breakers"
   ],
   "note": "Two agents and a network that delays, reorders, duplicates and loses but does not forge (STUN integrity). Tie-breakers and roles not reconfigured during the execution. Equal tie-breakers do not converge (violation theorem)."
  },
  {
   "property": "C31",
   "status": "partial",
   "theorems": [
    "Str0m.Ice.C31_sorted",
    "Str0m.Ice.C31_refers_to_live_candidates",
    "Str0m.Ice.C31_size",
    "Str0m.Ice.C31_max_without_requests",
    "Str0m.Ice.C31_max_on_forming",
    "Str0m.Ice.C31_unique_partial",
    "Str0m.Ice.C31_violation_max",
    "Str0m.Ice.C31_violation_duplicate"
   ],
   "note": "sorted in every history; the maximum can be exceeded by request-created pairs and duplicates are possible (violations proved), the true bounds are proved"
  },
  {
   "property": "C32",
   "status": "proved",
   "theorems": [
    "Str0m.Ice.C32_delay_bounded",
    "Str0m.Ice.C32_delay_value",
    "Str0m.Ice.C32_next_bounded",
    "Str0m.Ice.C32_failed_iff",
    "Str0m.Ice.C32_never_early",
    "Str0m.Ice.C32_attempts_bounded",
    "Str0m.Ice.C32_total_wait",
    "Str0m.Ice.C32_given_up_exactly"
   ],
   "note": "Timing configuration arbitrary but fixed during a history; clock in ms, monotone."
  },
  {
   "property": "C33",
   "status": "proved",
   "theorems": [
    "Str0m.Ice.C33_never_backwards",
    "Str0m.Ice.C33_nominated_only_if",
    "Str0m.Ice.C33_succeeded_only_by_response",
    "Str0m.Ice.C33_confirmed_only_if",
    "Str0m.Ice.C33_unknown_transaction",
    "Str0m.Ice.C33_no_evidence_no_connection"
   ],
   "note": "Message authentication is outside the model: the responses are those that passed accepts_message."
  },
  {
   "property": "C34",
   "status": "partial",
   "theorems": [
    "Str0m.Pacer.C34_debts",
    "Str0m.Pacer.C34_cap",
    "Str0m.Pacer.C34_drain",
    "Str0m.Pacer.C34_clears",
    "Str0m.Pacer.C34_violation_busy"
   ],
   "note": "bounds proved for every history; draining holds up to rounding: with very frequent timeouts the debt never drains (violation theorem). Rates are exact rationals, not floats."
  },
  {
   "property": "C35",
   "status": "proved",
   "theorems": [
    "Str0m.Channel.C35_message_round_trip",
    "Str0m.Channel.C35_config_round_trip",
    "Str0m.Channel.C35_total",
    "Str0m.Channel.C35_ack",
    "Str0m.Channel.C35_violation_long",
    "Str0m.Channel.C35_violation_param"
   ],
   "note": "for the buffer str0m uses (label + protocol up to 1488 bytes); longer labels panic on opening (C35_violation_long), and a 32 bit reliability parameter a peer sends is cut to 16 bits (C35_violation_param)"
  },
  {
   "property": "C36",
   "status": "partial",
   "theorems": [
    "Str0m.Channel.C36_distinct",
    "Str0m.Channel.C36_allocation",
    "Str0m.Channel.C36_no_glare",
    "Str0m.Channel.C36_lookup",
    "Str0m.Channel.C36_progress",
    "Str0m.Channel.C36_held",
    "Str0m.Channel.C36_opens",
    "Str0m.Channel.C36_violation_65535",
    "Str0m.Channel.C36_violation_starved",
    "Str0m.Channel.C36_violation_panic"
   ],
   "note": "distinctness, parity and holding proved for all histories; the code does give out 65535 (C36_violation_65535), can starve a negotiated id and then asks for a timeout at once for ever (C36_violation_starved), and panics for an id the peer opened (C36_violation_panic)"
  },
  {
   "property": "C37",
   "status": "proved",
   "theorems": [
    "Str0m.Srtp.C37_rtp_round_trip",
    "Str0m.Srtp.C37_rtp_end_to_end",
    "Str0m.Srtp.C37_rtp_total",
    "Str0m.Srtp.C37_recv_total",
    "Str0m.Srtp.C37_rtp_verified",
    "Str0m.Srtp.C37_rtp_authentic",
    "Str0m.Srtp.C37_rtcp_round_trip",
    "Str0m.Srtp.C37_rtcp_total",
    "Str0m.Srtp.C37_rtcp_verified",
    "Str0m.Srtp.C37_rtcp_authentic",
    "Str0m.Srtp.C37_contexts",
    "Str0m.Srtp.C37_material",
    "Str0m.Srtp.C37_violation_short"
   ],
   "note": "The cipher, the MAC and the block cipher are parameters with stated laws (Spec/Srtp.lean); tampering is rejected unless the primitive verifies something that was never sent. protect_rtcp panics on fewer than 8 bytes (C37_violation_short)."
  },
  {
   "property": "C38",
   "status": "proved",
   "theorems": [
    "Str0m.Srtp.C38_cm",
    "Str0m.Srtp.C38_gcm_rtp",
    "Str0m.Srtp.C38_gcm_rtp_index",
    "Str0m.Srtp.C38_gcm_rtcp",
    "Str0m.Srtp.C38_rtcp_run",
    "Str0m.Srtp.C38_keys_differ",
    "Str0m.Srtp.C38_violation_cm"
   ],
   "note": "Range: index below 2^48 (RTP) and 2^31 (SRTCP); above 2^48 the AES-CM IV overlaps the SSRC (C38_violation_cm)."
  },
  {
   "property": "C39",
   "status": "proved",
   "theorems": [
    "Str0m.Tx.C39_numbers_increase",
    "Str0m.Tx.C39_never_reused",
    "Str0m.Tx.C39_in_order",
    "Str0m.Tx.C39_nothing_lost",
    "Str0m.Tx.C39_drain",
    "Str0m.Tx.C39_violation_reset",
    "Str0m.Tx.C39_violation_back"
   ],
   "note": "Every history of one outgoing stream, frames or RTP mode (where the caller's numbers must not go back, new SSRCs must be unused). Outside the quantifier: reset_stream_tx back to an SSRC used before can repeat numbers (violation theorems)."
  },
  {
   "property": "C40",
   "status": "proved",
   "theorems": [
    "Str0m.Pts.C40_update",
    "Str0m.Pts.C40_run",
    "Str0m.Pts.C40_update_good",
    "Str0m.Pts.C40_best",
    "Str0m.Pts.C40_match",
    "Str0m.Pts.C40_match_params",
    "Str0m.Pts.C40_h265_level",
    "Str0m.Pts.C40_h266_level",
    "Str0m.Pts.C40_h264_level_violation",
    "Str0m.Pts.C40_profile_truncated_violation",
    "Str0m.Pts.C40_example"
   ],
   "note": "For every configuration without duplicate numbers, every remote list and direction and any number of rounds: all numbers stay different and in range and negotiated ones never change. Feedback flags are not modelled."
  },
  {
   "property": "C41",
   "status": "partial",
   "theorems": [
    "Str0m.Rtp.C41_permutation",
    "Str0m.Rtp.C41_injective",
    "Str0m.Rtp.C41_remote_ids_partial",
    "Str0m.Rtp.C41_first_negotiation",
    "Str0m.Rtp.C41_stable",
    "Str0m.Rtp.C41_locked_stays",
    "Str0m.Rtp.C41_kept",
    "Str0m.Rtp.C41_violation_locked"
   ],
   "note": "Injectivity for every remote list; remote's ids when the remote list has no duplicates and honours locked ids. A remote reusing a locked id moves the locked extension (violation)."
  },
  {
   "property": "C42",
   "status": "partial",
   "theorems": [
    "Str0m.Negotiate.C42_invert",
    "Str0m.Negotiate.C61_answer",
    "Str0m.Negotiate.C61_exchange",
    "Str0m.Negotiate.C42_violation_widen"
   ],
   "note": "An answer never grants more than was offered (C61_answer), and after a whole exchange the directions of both sides fit (C61_exchange). Not so: an answer that was received is not compared with the offer, so the other side may widen it (C42_violation_widen)."
  },
  {
   "property": "C43",
   "status": "partial",
   "theorems": [
    "Str0m.Negotiate.C43_compare",
    "Str0m.Negotiate.C61_exchange",
    "Str0m.Negotiate.C43_rounds",
    "Str0m.Negotiate.C43_fixed",
    "Str0m.Negotiate.C43_violation_glare"
   ],
   "note": "Complementary roles after any sequence of exchanges, never changed by anything. Not so under glare: both offers accepted makes both passive for ever (C43_violation_glare)."
  },
  {
   "property": "C44",
   "status": "partial",
   "theorems": [
    "Str0m.Vla.C44_leb_round_trip",
    "Str0m.Vla.C44_leb_violation_above_63_bits",
    "Str0m.Vla.C44_vla_round_trip",
    "Str0m.Vla.C44_vla_inactive",
    "Str0m.Vla.C44_parse_total_partial",
    "Str0m.Vla.C44_parse_bounds",
    "Str0m.Vla.C44_violation_width_65536",
    "Str0m.Vla.C44_violation_truncated_bitrate",
    "Str0m.Vla.C44_violation_third_stream",
    "Str0m.Vla.C44_violation_three_inactive",
    "Str0m.Vla.C44_violation_write_panics",
    "Str0m.Vla.C44_violation_five_temporal"
   ],
   "note": "Round trip proved for every representable allocation of at most two streams, with equal layers in all streams, or with nothing in streams 3-4; it is false otherwise (violations). Parsing is total except for 0xFFFF dimensions, which panic with overflow checks (violation)."
  },
  {
   "property": "C45",
   "status": "partial",
   "theorems": [
    "Str0m.Timeout.C45_soonest_partial",
    "Str0m.Timeout.C45_violation_paused"
   ],
   "note": "Full up to the pause checks: of several receive streams waiting for theirs the first found is reported, not the earliest (violation theorem). The deadlines of the parts themselves are inputs."
  },
  {
   "property": "C46",
   "status": "proved",
   "theorems": [
    "Str0m.Timeout.C46_window"
   ],
   "note": "ValueHistory over any history with times that do not go back"
  },
  {
   "property": "C47",
   "status": "proved",
   "theorems": [
    "Str0m.StrId.C47_text",
    "Str0m.StrId.C47_eq",
    "Str0m.StrId.C47_keeps",
    "Str0m.StrId.C47_new",
    "Str0m.StrId.C47_violation_collide"
   ],
   "note": "Mid/Rid from text; C47_violation_collide shows the consequence for remote SDP mids"
  },
  {
   "property": "C48",
   "status": "proved",
   "theorems": [
    "Str0m.Srtp.C48_index",
    "Str0m.Srtp.C48_increasing",
    "Str0m.Srtp.C48_wraps"
   ],
   "note": "For every run of packets of at least 8 bytes; C48_wraps shows the index is reused after 2^31 packets without rekeying."
  },
  {
   "property": "C49",
   "status": "partial",
   "theorems": [
    "Str0m.Routing.C49_fresh",
    "Str0m.Routing.C49_pair",
    "Str0m.Routing.C49_violation_reset",
    "Str0m.Routing.C49_violation_offer"
   ],
   "note": "newSsrc returns exactly the first draw that is not 0 and not used by any stream (main or RTX, both directions), in every history without reset_stream_tx. Violated after reset_stream_tx (C49_violation_reset) and between the two SSRCs of one offered layer, drawn independently (C49_violation_offer)."
  },
  {
   "property": "C50",
   "status": "partial",
   "theorems": [
    "Str0m.Profiles.C50_pattern",
    "Str0m.Profiles.C50_h264_partial",
    "Str0m.Profiles.C50_h265",
    "Str0m.Profiles.C50_h266",
    "Str0m.Profiles.C50_disjoint",
    "Str0m.Profiles.C50_level_ids",
    "Str0m.Profiles.C50_profile_ids",
    "Str0m.Profiles.C50_h264_order",
    "Str0m.Profiles.C50_h264_order_1b",
    "Str0m.Profiles.C50_h264_ordinal_inj",
    "Str0m.Profiles.C50_h265_order",
    "Str0m.Profiles.C50_h266_order",
    "Str0m.Profiles.C50_violation_level1b"
   ],
   "note": "H.264 level 1b is recognised at level byte 10, not 11 as RFC 6184 says (violation theorem); all else exact"
  },
  {
   "property": "C51",
   "status": "partial",
   "theorems": [
    "Str0m.C51_before_wrap_partial",
    "Str0m.C51_violation"
   ],
   "note": "The property is false of the code: after picture id 32767 a VP9 stream with base layer ids is never delivered again."
  },
  {
   "property": "C52",
   "status": "proved",
   "theorems": [
    "Str0m.Ice.C52_never_panics",
    "Str0m.Ice.C52_violation_zero_retransmits"
   ],
   "note": "agent model: every history of legal operations"
  },
  {
   "property": "C53",
   "status": "proved",
   "theorems": [
    "Str0m.Ice.C53_none_iff",
    "Str0m.Ice.C53_bounds",
    "Str0m.Ice.C53_due_check_sent"
   ],
   "note": "Timing configuration fixed during a history."
  },
  {
   "property": "C54",
   "status": "partial",
   "theorems": [
    "Str0m.Stun.C54_verify_partial",
    "Str0m.Stun.C54_accept_partial",
    "Str0m.Stun.C54_violation"
   ],
   "note": "False as stated: C54_violation exhibits a panicking datagram for every HMAC; the _partial theorems prove it for requests, success replies and whenever integrity is not the first attribute."
  },
  {
   "property": "C55",
   "status": "proved",
   "theorems": [
    "Str0m.Stun.C55_tail_irrelevant",
    "Str0m.Stun.C55_accept_authentic"
   ],
   "note": "For every HMAC function; cryptographic strength of HMAC is outside the model."
  },
  {
   "property": "C56",
   "status": "proved",
   "theorems": [
    "Str0m.Stun.C56_request_accepted",
    "Str0m.Stun.C56_reply_accepted",
    "Str0m.Stun.C56_long_username"
   ],
   "note": "For ufrags of at most 127 bytes together; C56_long_username shows longer ones (allowed by the RFC) cannot be serialised, and the agent's expect then panics."
  },
  {
   "property": "C57",
   "status": "partial",
   "theorems": [
    "Str0m.Twcc.C57_applies_partial",
    "Str0m.Twcc.C57_violation",
    "Str0m.Twcc.C57_violation_overflow",
    "Str0m.Twcc.C57_violation_status"
   ],
   "note": "Holds without empty run chunks once 2^15 packets were sent; the violations show both conditions are needed: the code panics."
  },
  {
   "property": "C58",
   "status": "partial",
   "theorems": [
    "Str0m.Rtp.C58_send_time_partial",
    "Str0m.Rtp.C58_violation_start"
   ],
   "note": "When the program started before the last multiple of 64 s; otherwise the code is wrong (violation). One clock."
  },
  {
   "property": "C59",
   "status": "proved",
   "theorems": [
    "Str0m.Rtp.C59_padding",
    "Str0m.Rtp.C59_unpad_exact",
    "Str0m.Rtp.C59_osn"
   ],
   "note": "Block size 16 and cap 240 as in src/rtp/mod.rs."
  },
  {
   "property": "C60",
   "status": "proved",
   "theorems": [
    "Str0m.Channel.C60_delivered"
   ],
   "note": ""
  },
  {
   "property": "C61",
   "status": "partial",
   "theorems": [
    "Str0m.Negotiate.C61_answer",
    "Str0m.Negotiate.C61_offer",
    "Str0m.Negotiate.C61_exchange",
    "Str0m.Negotiate.C61_rounds",
    "Str0m.Negotiate.C61_stale",
    "Str0m.Negotiate.C61_violation_panic",
    "Str0m.Negotiate.C61_violation_duplicate",
    "Str0m.Negotiate.C61_violation_hole"
   ],
   "note": "Proved for offers that keep to the negotiated lines and exchanges without glare. Not so: duplicate mids are accepted in an offer, and panic in an answer; a failing offer leaves a hole."
  },
  {
   "property": "C62",
   "status": "proved",
   "theorems": [
    "Str0m.Pacer.C62_rate",
    "Str0m.Pacer.C62_one",
    "Str0m.Pacer.C62_timeout",
    "Str0m.Pacer.C62_serves",
    "Str0m.Pacer.C62_probe"
   ],
   "note": "exact rationals in place of f64"
  },
  {
   "property": "C63",
   "status": "proved",
   "theorems": [
    "Str0m.Vp8Desc.C63_patch",
    "Str0m.Vp8Desc.C63_readers_agree",
    "Str0m.Vp8Desc.C63_foreign_payload_violation",
    "Str0m.Vp8Desc.C63_detector_malformed_violation",
    "Str0m.Vp8Desc.C63_sticky_layer_violation"
   ],
   "note": "A patch attached to a different, shorter payload panics at serialization (documented contract of the API, not checked); the key frame detector accepts L without T; layer fields stick when T=0."
  },
  {
   "property": "C64",
   "status": "partial",
   "theorems": [
    "Str0m.Packet.C64_vp8",
    "Str0m.Packet.C64_vp8_example",
    "Str0m.Packet.C64_vp9",
    "Str0m.Packet.C64_vp9_picture",
    "Str0m.Packet.C64_vp9_example",
    "Str0m.Packet.C64_vp9_layers_violation",
    "Str0m.H264.C64_h264",
    "Str0m.H264.C64_h264_example",
    "Str0m.H266.C64_h266",
    "Str0m.H266.C64_h266_detect",
    "Str0m.H266.C64_h266_detect_violation",
    "Str0m.H266.C64_h266_partition",
    "Str0m.H265.C64_h265",
    "Str0m.H265.C64_h265_detect",
    "Str0m.H265.C64_h265_detect_violation",
    "Str0m.H265.C64_h265_partition",
    "Str0m.H265.C64_h265_payload",
    "Str0m.H265.C64_h265_paci",
    "Str0m.H265.C64_h265_paci_violation",
    "Str0m.H265.C64_h265_paci_keyframe_violation",
    "Str0m.H265.C64_h265_tsci_violation"
   ],
   "note": "VP8 (RFC 7741), VP9 (RFC 9628), H.264 (RFC 6184 mode 1), H.265 (RFC 7798) and H.266 (RFC 9328) proved for every legal payload. VP9 with more than three spatial layers is refused, H.265 PACI packets lose the unit header, the H.265/H.266 packet level detectors misread aggregates with DONL (violation theorems). Missing: AV1 senders other than str0m."
  },
  {
   "property": "C65",
   "status": "partial",
   "theorems": [
    "Str0m.Pts.C40_sendonly_total",
    "Str0m.Pts.C40_receiving_iff",
    "Str0m.Pts.C40_receiving_total",
    "Str0m.Pts.C40_sendonly_same",
    "Str0m.Pts.C40_media_sendonly",
    "Str0m.Pts.C40_media",
    "Str0m.Pts.C40_offer_answer",
    "Str0m.Pts.C40_two_entries_violation",
    "Str0m.Pts.C40_second_line_violation",
    "Str0m.Pts.C40_rtx_violation",
    "Str0m.Pts.C40_media_two_levels_violation",
    "Str0m.Pts.C40_media_other_number_violation"
   ],
   "note": "Panics are characterised exactly (iff). Offer/answer agreement is proved for two fresh peers, all configurations with one entry per format. Missing because false: remote lists that clash (panic), one profile listed with two levels, a codec with another number on a second m-line - each shown by a violation theorem."
  },
  {
   "property": "C66",
   "status": "proved",
   "theorems": [
    "Str0m.Tx.C66_repeats_a_sent_packet",
    "Str0m.Tx.C66_only_on_request",
    "Str0m.Tx.C66_once_per_request"
   ],
   "note": "Every history. The ratio cap and the RTP header length are parameters of each poll."
  },
  {
   "property": "C67",
   "status": "partial",
   "theorems": [
    "Str0m.Tx.C67_no_panic_partial",
    "Str0m.Tx.C67_violation_no_rtx_ssrc",
    "Str0m.Tx.C67_violation_exact_fit",
    "Str0m.Tx.C67_violation_no_mtu_warning",
    "Str0m.Tx.C67_violation_too_large"
   ],
   "note": "False in general: four concrete histories panic. Proved under a usage contract (RTX SSRC if any payload type has RTX, fixed payload types, payload + header + 2 within 2000, warning size 80..2104)."
  },
  {
   "property": "C68",
   "status": "proved",
   "theorems": [
    "Str0m.Tx.C68_named_until_confirmed",
    "Str0m.Tx.C68_rtx_named_forever"
   ],
   "note": "Proved; with RTX the name is never left out, even after reports."
  },
  {
   "property": "C69",
   "status": "proved",
   "theorems": [
    "Str0m.Tx.C69_frame_packets",
    "Str0m.Tx.C39_drain"
   ],
   "note": "The chunks are any list (packetizers are C23); C39_drain says how they leave."
  },
  {
   "property": "C70",
   "status": "partial",
   "theorems": [
    "Str0m.Routing.C70_never_panics",
    "Str0m.Routing.C70_right_stream",
    "Str0m.Routing.C70_stream_exists",
    "Str0m.Routing.C70_known",
    "Str0m.Routing.C70_unknown",
    "Str0m.Routing.C70_named",
    "Str0m.Routing.C70_named_repair",
    "Str0m.Routing.C70_violation_flap",
    "Str0m.Routing.C70_violation_forged",
    "Str0m.Routing.C70_violation_stale"
   ],
   "note": "Panic freedom for all histories; the rest for histories in which the RTX SSRC of a known stream is not replaced from outside (otherwise C70_violation_stale). Further violations: an old SSRC's late packet makes a second stream for the same MID/RID (flap); one unauthenticated packet naming the MID moves the stream (forged)."
  },
  {
   "property": "C71",
   "status": "partial",
   "theorems": [
    "Str0m.Routing.C71_feedback",
    "Str0m.Routing.C71_sender_info",
    "Str0m.Routing.C71_violation_reset",
    "Str0m.Routing.C71_violation_rtx"
   ],
   "note": "Exact in every history without reset_stream_tx; after it, feedback for the new SSRC reaches no stream (C71_violation_reset). Reports on RTX SSRCs reach no stream (C71_violation_rtx)."
  },
  {
   "property": "C72",
   "status": "proved",
   "theorems": [
    "Str0m.H266.C23_h266",
    "Str0m.H266.C23_h266_example",
    "Str0m.H265.C23_h265",
    "Str0m.H265.C72_h265_frames",
    "Str0m.H265.C72_h265",
    "Str0m.H266.C72_h266_frames"
   ],
   "note": "Both codecs, for every sequence of frames, MTU and starting number."
  },
  {
   "property": "C73",
   "status": "partial",
   "theorems": [
    "Str0m.Sdp.C73_fmtp_roundtrip",
    "Str0m.Sdp.C73_profile_id_lost"
   ],
   "note": "Proved for every set of parameters within their widths with at most one of profile-id / H.265 composite / H.266 composite (the three share a name; the violation shows what happens otherwise)."
  },
  {
   "property": "C74",
   "status": "partial",
   "theorems": [
    "Str0m.Sdp.C74_from_to_sdp_string",
    "Str0m.Sdp.C74_sdp_line",
    "Str0m.Sdp.C74_parsers_agree",
    "Str0m.Sdp.C74_extension_order"
   ],
   "note": "The round trips hold for every candidate; the parsers do not agree on the extension order Chrome uses (violation)."
  },
  {
   "property": "C75",
   "status": "partial",
   "theorems": [
    "Str0m.Sdp.C75_sdp_roundtrip",
    "Str0m.Sdp.C75_attribute",
    "Str0m.Sdp.C75_rid_underscore",
    "Str0m.Sdp.C75_rid_pt",
    "Str0m.Sdp.C75_no_pts"
   ],
   "note": "Round trip for every SDP whose values fit one line and their widths; rids with payload types or a sanitised character and media without payload types are violations."
  },
  {
   "property": "C76",
   "status": "partial",
   "theorems": [
    "Str0m.Sdp.C76_lines",
    "Str0m.Sdp.C76_fmtp_swallows",
    "Str0m.Sdp.C76_ssrc_swallows",
    "Str0m.Sdp.C76_rid_swallows",
    "Str0m.Sdp.C76_rest_dropped"
   ],
   "note": "Proved for every text of attribute lines with CRLF except the listed forms of fmtp, rid and ssrc, which violate it; lines ended by LF alone are not covered."
  },
  {
   "property": "C77",
   "status": "partial",
   "theorems": [
    "Str0m.Sdp.C77_media_sections",
    "Str0m.Sdp.C77_group_present",
    "Str0m.Sdp.C77_bundle_unchecked"
   ],
   "note": "The m-line part holds for every text; the BUNDLE part is violated by the code."
  },
  {
   "property": "C78",
   "status": "partial",
   "theorems": [
    "Str0m.C78_accepts_exact",
    "Str0m.C78_asks_exact",
    "Str0m.C78_violation_jump"
   ],
   "note": "proved for histories without a jump of more than 101; false after one (violation)"
  },
  {
   "property": "C79",
   "status": "partial",
   "theorems": [
    "Str0m.Rcv.C79_at_most_once"
   ],
   "note": "RTP mode; media SSRCs carry media payload types and repair SSRCs repair payload types, roll-over counter not set by hand"
  },
  {
   "property": "C80",
   "status": "partial",
   "theorems": [
    "Str0m.Rcv.C80_provenance",
    "Str0m.Rcv.C80_violation_overwritten",
    "Str0m.Rcv.C80_violation_one_byte",
    "Str0m.Rcv.C80_violation_roc_lower"
   ],
   "note": "provenance, totality and order proved for every history; violations: one-byte repair packets, overwritten packets, ignored roll-over counter"
  },
  {
   "property": "C81",
   "status": "partial",
   "theorems": [
    "Str0m.Rcv.C81_forged_no_effect",
    "Str0m.Rcv.C81_violation_mislabelled",
    "Str0m.Rcv.C81_violation_roc"
   ],
   "note": "labelled histories; false for mislabelled forgeries before the first packet and after reset_roc (violations)"
  },
  {
   "property": "C82",
   "status": "partial",
   "theorems": [
    "Str0m.Rcv.C82_media",
    "Str0m.Rcv.C82_repair",
    "Str0m.Rcv.C82_sent_is_authentic",
    "Str0m.Rcv.C82_violation_first"
   ],
   "note": "Missing: jumps of more than 101 (C78_violation_jump), a change of SSRC, frame mode, jitter and statistics. The condition on the first packet is a limit of the code (C82_violation_first)."
  },
  {
   "property": "C83",
   "status": "partial",
   "theorems": [
    "Str0m.Rcv.C83_time",
    "Str0m.Rcv.C83_violation_after_pause"
   ],
   "note": "Missing: changes of SSRC within a history; the condition after a pause is needed (C83_violation_after_pause)."
  },
  {
   "property": "C84",
   "status": "partial",
   "theorems": [
    "Str0m.Rcv.C84_told",
    "Str0m.Rcv.C84_alternate",
    "Str0m.Rcv.C84_violation_repeat"
   ],
   "note": "Missing: changes of SSRC within a history, several streams polled together."
  },
  {
   "property": "C85",
   "status": "partial",
   "theorems": [
    "Str0m.E2E.C85_only_what_was_sent",
    "Str0m.E2E.C85_only_what_was_written",
    "Str0m.E2E.C85_carried",
    "Str0m.E2E.C85_violation_delayed_rtx"
   ],
   "note": "Proved for a receiver with known SSRCs in RTP mode (steady: no SSRC change or reset; each packet polled before the next datagram), with SRTP tags naming the index, and retransmissions that arrive less than 2^15 packets late. Without the last assumption it fails (C85_violation_delayed_rtx)."
  },
  {
   "property": "C86",
   "status": "partial",
   "theorems": [
    "Str0m.C86_kept",
    "Str0m.Tx.C86_resent",
    "Str0m.E2E.C86_repaired",
    "Str0m.C86_violation_gaps"
   ],
   "note": "Sender: kept and resent for consecutive numbers, all packets nackable (video) and below the retransmission cap; receiver: handed over in RTP mode. With gaps in the numbers the claim is false (C86_violation_gaps). Not covered: mixed nackable and other packets on one stream; the datagram is assumed to open with the index it was sent with (C37 gives this for what the sender writes)."
  },
  {
   "property": "C87",
   "status": "partial",
   "theorems": [
    "Str0m.Rtt.C87_rtt",
    "Str0m.Rtt.C87_violation_wrap",
    "Str0m.Rtt.C87_violation_2036"
   ],
   "note": "Right to 60 us when the 16 bits of seconds do not wrap and before 2036; the violations prove that the code gives no RTT otherwise. Floating point as rationals rounded to nearest even."
  },
  {
   "property": "C88",
   "status": "proved",
   "theorems": [
    "Str0m.Dlrr.C88_answers",
    "Str0m.Dlrr.C88_answered"
   ],
   "note": "Proved for all histories of the model of the pending queue; the sender report condition is an input."
  },
  {
   "property": "C89",
   "status": "partial",
   "theorems": [
    "Str0m.Sr.C89_time",
    "Str0m.Sr.C89_counts",
    "Str0m.Sr.C89_seen",
    "Str0m.Sr.C89_violation_zero",
    "Str0m.Sr.C89_violation_counts",
    "Str0m.Sr.C89_violation_rates"
   ],
   "note": "Time mapping and counters for all histories; the violations show when the report claims RTP time 0, counts retransmissions of another SSRC, and mixes clock rates."
  },
  {
   "property": "C90",
   "status": "partial",
   "theorems": [
    "Str0m.RtcLoop.C90_forward",
    "Str0m.RtcLoop.C90_over",
    "Str0m.RtcLoop.C90_no_writes_while_closing",
    "Str0m.RtcLoop.C90_drain",
    "Str0m.RtcLoop.C90_violation_never_over",
    "Str0m.RtcLoop.C90_violation_failed_close"
   ],
   "note": "Two ways in which close() comes to no end are proved as violations. Parts below are arbitrary."
  },
  {
   "property": "C91",
   "status": "partial",
   "theorems": [
    "Str0m.RtcLoop.C91_bad_certificate",
    "Str0m.RtcLoop.C91_connected",
    "Str0m.RtcLoop.C91_pinned",
    "Str0m.RtcLoop.C91_violation_hash_name",
    "Str0m.RtcLoop.C91_violation_no_certificate"
   ],
   "note": "That DTLS shows a certificate before it says connected is the DTLS library's, not modelled."
  },
  {
   "property": "C92",
   "status": "proved",
   "theorems": [
    "Str0m.RtcLoop.C92_timeouts_ahead",
    "Str0m.RtcLoop.C92_after_start",
    "Str0m.RtcLoop.C92_early",
    "Str0m.RtcLoop.C92_soonest"
   ],
   "note": "Parts below are arbitrary functions."
  },
  {
   "property": "C93",
   "status": "partial",
   "theorems": [
    "Str0m.RtcLoop.C93_channel_events",
    "Str0m.RtcLoop.C93_violation_close_ignored"
   ],
   "note": "A close before the channel has a stream number is ignored."
  },
  {
   "property": "C94",
   "status": "proved",
   "theorems": [
    "Str0m.RtcLoop.C94_addresses"
   ],
   "note": "Parts below are arbitrary functions."
  },
  {
   "property": "C95",
   "status": "partial",
   "theorems": [
    "Str0m.RtcLoop.C95_connected_once",
    "Str0m.RtcLoop.C95_connected_after",
    "Str0m.RtcLoop.C95_violation_lost",
    "Str0m.RtcLoop.C95_violation_closed_twice"
   ],
   "note": "Connected can be lost and Closed given twice."
  },
  {
   "property": "C96",
   "status": "partial",
   "theorems": [
    "Str0m.RtcLoop.C96_counters",
    "Str0m.RtcLoop.C96_violation_stun"
   ],
   "note": "STUN is counted one way only."
  },
  {
   "property": "C97",
   "status": "partial",
   "theorems": [
    "Str0m.RtcLoop.C97_no_panic",
    "Str0m.RtcLoop.C97_calls",
    "Str0m.RtcLoop.C97_violation_answer_panics"
   ],
   "note": "A peer can make accept_answer panic."
  },
  {
   "property": "C98",
   "status": "partial",
   "theorems": [
    "Str0m.SctpStreams.C98_open",
    "Str0m.SctpStreams.C98_alternate",
    "Str0m.SctpStreams.C98_label",
    "Str0m.SctpStreams.C98_violation_adopted",
    "Str0m.SctpStreams.C98_violation_snap",
    "Str0m.SctpStreams.C98_violation_uninvited",
    "Str0m.SctpStreams.C98_example",
    "Str0m.SctpStreams.C98_example_open"
   ],
   "note": "Proved for every sctp-proto; open_stream on a stream of the peer opens it without Open (violation), with SNAP before the handshake (violation), uninvited associations (violation)."
  },
  {
   "property": "C99",
   "status": "partial",
   "theorems": [
    "Str0m.SctpStreams.C99_told",
    "Str0m.SctpStreams.C99_violation_late",
    "Str0m.SctpStreams.C99_example"
   ],
   "note": "Proved for close_stream; a stream that vanishes is told late (violation)."
  }
 ]
}