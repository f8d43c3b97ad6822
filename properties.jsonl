{"id": "C01", "title": "Uplink blocks are reassembled in order, each exactly once", "statement": "Whatever order, loss and repetition the radio imposes on the RLC data blocks of an acknowledged uplink TBF, as long as the mobile respects its transmit window, the blocks the PCU hands to LLC reassembly are exactly block 0, 1, 2, ... of the mobile's stream, with no gap, no repetition and no foreign payload, across any number of sequence-number wrap-arounds.", "quantifier": "all legal window sizes, all arrival histories of any length that a window-respecting sender can produce", "why_tests_cant": "The failure modes are wrap-around and duplicate patterns; there are infinitely many arrival histories and tests cover a handful of short ones.", "anchors": ["src/rlc_window_ul.cpp: gprs_rlc_ul_window::receive_bsn, raise_v_r, raise_v_q, is_in_window", "src/rlc_window_ul.h: gprs_rlc_v_n", "src/tbf_ul.cpp: gprs_rlcmac_ul_tbf::rcv_data_block_acknowledged"]}
{"id": "C02", "title": "Uplink receive bitmap tells the truth", "statement": "In every Packet Uplink Ack/Nack, bit i of the 64-bit received-block bitmap is set if and only if the block with sequence number SSN-1-i lies in the receive window and has been received; blocks never received are never acknowledged.", "quantifier": "all window states reachable by any reception history", "why_tests_cant": "A single wrong bit makes the mobile drop user data silently; needs all window positions including wrap-around.", "anchors": ["src/rlc_window_ul.cpp: update_rbb, update_egprs_rbb", "src/encoding.cpp: write_packet_ack_nack_desc_gprs"]}
{"id": "C03", "title": "Downlink window never overruns and only forgets acknowledged blocks", "statement": "At every moment the number of blocks sent and not yet forgotten is at most the window size, the next sequence number is fresh, and a block stops being retransmittable only after the mobile has acknowledged it.", "quantifier": "all window sizes, all interleavings of transmissions, acknowledgement bitmaps, retransmission marks", "why_tests_cant": "State space is unbounded in history length; corner cases arise only when the sequence space wraps.", "anchors": ["src/rlc_window_dl.cpp: move_window, update, mark_for_resend, resend_needed, count_unacked", "src/rlc_window_dl.h: gprs_rlc_dl_window", "src/tbf_dl.cpp: gprs_rlcmac_dl_tbf::update_window, take_next_bsn"]}
{"id": "C04", "title": "Downlink scheduling choice of the next block", "statement": "When asked for a downlink block the TBF picks, in this order: a block the mobile reported missing or that is marked for resend, a fresh block when the window is open and data is available, otherwise (finished or stalled) a not yet acknowledged block; it never transmits a block outside the window and never a block already acknowledged while unacknowledged ones remain; the choice procedure terminates.", "quantifier": "all window contents, queue fill states and TBF states", "why_tests_cant": "The procedure is recursive over window contents; termination and priority have to be established for every window.", "anchors": ["src/tbf_dl.cpp: gprs_rlcmac_dl_tbf::take_next_bsn, have_data, create_new_bsn", "src/rlc_window_dl.cpp: resend_needed, mark_for_resend"]}
{"id": "C05", "title": "GPRS Ack/Nack decoding is exact", "statement": "For a GPRS Packet Downlink Ack/Nack (SSN, 64-bit bitmap, final flag) the list of block verdicts the PCU derives covers exactly the outstanding blocks between the window start and SSN, each with the verdict the bitmap carries for it.", "quantifier": "all window starts, SSNs and bitmaps", "why_tests_cant": "2^64 bitmaps times 128x128 positions.", "anchors": ["src/decoding.cpp: Decoding::decode_gprs_acknack_bits"]}
{"id": "C06", "title": "EGPRS Ack/Nack decoding is exact", "statement": "For an EGPRS Packet Downlink Ack/Nack the verdict list is a contiguous range beginning at the window start, never longer than the window's outstanding blocks, and every verdict is the one the bitmap carries for that sequence number.", "quantifier": "all window positions, SSNs, bitmap lengths and contents", "why_tests_cant": "bitmap length up to window size 1024.", "anchors": ["src/decoding.cpp: Decoding::decode_egprs_acknack_bits"]}
{"id": "C07", "title": "LLC frames survive GPRS segmentation and reassembly", "statement": "For every sequence of LLC frames and every sequence of RLC block sizes, cutting the frames into GPRS RLC data blocks with length indicators and reassembling the blocks yields the same frames, in order, byte for byte, and nothing else.", "quantifier": "all frame lists (frames of at least 5 octets: LLC address, control and FCS), all block-size sequences, all moments of TBF finality", "why_tests_cant": "Corner cases: frame ends exactly at block end, extension bits, zero/0x3f length indicators; infinitely many combinations.", "anchors": ["src/encoding.cpp: Encoding::rlc_data_to_dl_append_gprs", "src/decoding.cpp: Decoding::rlc_data_from_ul_data_gprs, parse_extensions_gprs", "src/tbf_ul.cpp: assemble_forward_llc"]}
{"id": "C08", "title": "LLC frames survive EGPRS segmentation and reassembly", "statement": "Same as the GPRS property for the EGPRS block format (LI values 0 .. 127, including LI=0 for a frame that ended exactly at the end of the previous block, and LI=127 filling).", "quantifier": "all frame lists (frames of at least 5 octets), all block-size sequences, all moments of TBF finality", "why_tests_cant": "The LI=0 case spans two blocks, combinations unbounded.", "anchors": ["src/encoding.cpp: Encoding::rlc_data_to_dl_append_egprs", "src/decoding.cpp: Decoding::rlc_data_from_ul_data_egprs, parse_extensions_egprs"]}
{"id": "C09", "title": "Length-indicator parsing stays inside the received block", "statement": "Decoding the length indicators of a received uplink block reads only octets of that block and yields chunk boundaries inside the block, for every content a (possibly malicious) mobile can send.", "quantifier": "all block contents and lengths", "why_tests_cant": "Every byte string is a possible input.", "anchors": ["src/decoding.cpp: parse_extensions_gprs, parse_extensions_egprs, rlc_data_from_ul_data_*"]}
{"id": "C10", "title": "Bit-shifted EGPRS payload copy is lossless and bounded", "statement": "Copying a data block out of an EGPRS radio block at its bit offset and copying it back reproduces exactly the payload bits, never disturbs neighbouring bits beyond the documented ones, and never touches memory outside the radio block.", "quantifier": "all coding schemes, data-block numbers, payload contents", "why_tests_cant": "All payload contents.", "anchors": ["src/decoding.cpp: Decoding::rlc_copy_to_aligned_buffer", "src/encoding.cpp: Encoding::rlc_copy_from_aligned_buffer", "src/rlc.cpp: gprs_rlc_data_block_info_init"]}
{"id": "C11", "title": "RLC/MAC data header fields round-trip", "statement": "The header fields (TFI, USF, polling, BSN(s), CPS, ...) written for a downlink data block are recovered exactly when the header is decoded according to the bit layout in 3GPP TS 44.060, for every field value within range, for GPRS and all three EGPRS header types.", "quantifier": "all field values within their widths", "why_tests_cant": "Cross product of field values is astronomically large.", "anchors": ["src/encoding.cpp: Encoding::rlc_write_dl_data_header", "src/decoding.cpp: rlc_parse_ul_data_header_*", "src/rlc.h: gprs_rlc_dl_header_egprs_1/2/3"]}
{"id": "C12", "title": "Coding and puncturing scheme signalling is unambiguous", "statement": "Decoding the CPS field that was generated for a coding scheme and its puncturing schemes gives back this coding scheme and these puncturing schemes.", "quantifier": "all coding schemes, all puncturing schemes valid for them, both padding flags", "why_tests_cant": "Whole-table claim; the existing tests only sample it.", "anchors": ["src/rlc.cpp: gprs_rlc_mcs_cps, gprs_rlc_mcs_cps_decode, gprs_get_punct_scheme, gprs_update_punct_scheme"]}
{"id": "C13", "title": "Coding scheme tables are mutually consistent", "statement": "Block size identifies the coding scheme uniquely; stepping up or down stays in the same family kind and is monotone; the retransmission scheme of a block always carries payload that fits the original one (same family, equal or half payload).", "quantifier": "all coding schemes, all kinds", "why_tests_cant": "Whole-table claims with cross-table relations.", "anchors": ["src/coding_scheme.c: mcs_info, mcs_get_by_size_ul, mcs_inc_kind, mcs_dec_kind, get_retx_mcs"]}
{"id": "C14", "title": "Per-mobile LLC queue is FIFO per priority, lossless and correctly accounted", "statement": "Frames leave the downlink queue in the order they were put in within each priority, higher-priority frames first; no frame is lost, duplicated or altered; the reported queue size and octet count always equal the real content; moving or merging queues (mobile identity merge) keeps all frames.", "quantifier": "all operation sequences on queues", "why_tests_cant": "Unbounded histories.", "anchors": ["src/llc.c: llc_queue_enqueue, llc_queue_dequeue, llc_queue_merge_prepend, llc_queue_move_and_merge, llc_queue_clear"]}
{"id": "C15", "title": "Only expired or congestion-dropped frames are discarded at dequeue", "statement": "Taking the next frame of a mobile's queue returns the first frame that is neither past its lifetime nor selected by CoDel / the queue-size hysteresis, and exactly the frames before it are discarded; if all frames expired the queue ends empty.", "quantifier": "all queue contents, times, configurations", "why_tests_cant": "Depends on arbitrary arrival times and lifetimes.", "anchors": ["src/llc.c: llc_queue_dequeue, llc_pdu_can_be_discarded (llc_pdu_is_expired)", "src/gprs_codel.c: gprs_codel_control"]}
{"id": "C16", "title": "CoDel never drops while the queue is short or delay is below target", "statement": "The queue-management algorithm asks to drop a frame only if the sojourn time has stayed at or above target for a full interval and more than one maximum-size packet is queued; while dropping the drop intervals never grow until the state is left.", "quantifier": "all call histories and clock values", "why_tests_cant": "Unbounded histories of timestamps.", "anchors": ["src/gprs_codel.c: gprs_codel_control, gprs_codel_init, control_law"]}
{"id": "C17", "title": "LLC reassembly buffer is never overrun", "statement": "For every sequence of uplink RLC data blocks the amount of data assembled for one LLC frame stays within the fixed reassembly buffer.", "quantifier": "all received block histories", "why_tests_cant": "Attacker-controlled input; memory corruption is silent.", "anchors": ["src/llc.c: llc_append_frame", "src/tbf_ul.cpp: assemble_forward_llc", "src/llc.h: LLC_MAX_LEN"]}
{"id": "C18", "title": "An uplink block is promised to one owner only", "statement": "At every moment each frame number of a PDCH's uplink has at most one reservation (USF, poll, single-block); a request for a taken block is refused and changes nothing; freeing a TBF removes all and only its reservations; expiry removes only passed frames and notifies each owner exactly once.", "quantifier": "all histories of reserve / release / expire operations", "why_tests_cant": "Unbounded histories with frame-number wrap-around.", "anchors": ["src/pdch_ul_controller.c: pdch_ulc_reserve_*, pdch_ulc_release_fn, pdch_ulc_release_tbf, pdch_ulc_expire_fn", "src/sba.c: sba_alloc"]}
{"id": "C19", "title": "Polls are scheduled at the block the mobile is told to answer in", "statement": "The poll offset signalled to the mobile (RRBP) always denotes, per 3GPP TS 44.060 table 10.4.5, exactly the uplink block the PCU reserved; that block is a real radio block start, is free, and lies ahead of the current block; if none of the candidates is free the poll is refused.", "quantifier": "all frame numbers, all reservation states", "why_tests_cant": "2715648 frame numbers times all reservation states.", "anchors": ["src/pdch_ul_controller.c: pdch_ulc_get_next_free_rrbp_fn, rrbp_opts, rrbp_fn_offsets", "src/tbf.cpp: tbf_check_polling, tbf_set_polling"]}
{"id": "C20", "title": "Frame number arithmetic is correct modulo the hyperframe", "statement": "The next-block computation maps every block start to the next block start in the 52-multiframe (skipping idle/PTCCH frames) modulo the hyperframe, and visits all block starts; reconstructing a full frame number from the 16-bit relative one returns the true frame number whenever that frame lies less than half an RFN period in the past.", "quantifier": "all frame numbers", "why_tests_cant": "2715648^2 combinations; wrap corner cases.", "anchors": ["src/pcu_utils.h: fn_next_block, fn2bn, fn_valid, rts_next_fn", "src/bts.cpp: bts_rfn_to_fn, delta_fn"]}
{"id": "C21", "title": "TFI and USF are never shared on a PDCH", "statement": "Across any history of TBF establishment and release no two TBFs of the same direction on one PDCH share a TFI and no two uplink TBFs share a USF; looking a TFI up gives exactly the TBF owning it; USF 7 is never assigned; everything is freed again on release.", "quantifier": "all histories of attach/detach/allocate with arbitrary candidate sets", "why_tests_cant": "Unbounded histories of allocation and release.", "anchors": ["src/pdch.cpp: attach_tbf, detach_tbf, ul_tbf_by_tfi, dl_tbf_by_tfi", "src/alloc_algo.cpp: find_free_usf, find_free_tfi", "src/bts.cpp: bts_tfi_find_free, trx_count_free_tfi"]}
{"id": "C22", "title": "PDCH occupancy counters equal the real occupancy", "statement": "The per-PDCH TBF counters equal the number of attached TBFs of that kind and direction, and the BTS occupancy statistics equal the number of PDCHs with at least one TBF (all / GPRS / EGPRS), after any history.", "quantifier": "all histories of attach/detach", "why_tests_cant": "Counters drift only after particular histories.", "anchors": ["src/pdch.cpp: num_tbfs_update, attach_tbf, detach_tbf", "src/pdch.h: num_tbfs"]}
{"id": "C23", "title": "Multislot allocation respects the mobile's multislot class", "statement": "The time slots assigned to a mobile never exceed the Rx, Tx and Sum limits of its multislot class, lie on enabled PDCHs, and contain a common slot for both directions.", "quantifier": "all sets of enabled/occupied PDCHs, all multislot classes, all allocation histories of the mobile", "why_tests_cant": "256 x 256 masks x 46 classes x load states.", "anchors": ["src/alloc_algo.cpp: find_multi_slots, alloc_algorithm_b, alloc_algorithm_a", "src/mslot_class.c: mslot_fill_tx_mask..., mslot_class_get_*"]}
{"id": "C24", "title": "TBF life-cycle state machine is well-behaved", "statement": "Whatever order of radio, timer and confirmation events arrives, a TBF only makes legal state changes, never hits an unhandled-event assertion, and once releasing it never carries data again.", "quantifier": "all event sequences", "why_tests_cant": "Unbounded event sequences.", "anchors": ["src/tbf_dl_fsm.c", "src/tbf_ul_fsm.c", "src/tbf_fsm.h"]}
{"id": "C25", "title": "Assignment and acknowledgement sub-state machines are well-behaved", "statement": "The downlink-assignment, uplink-assignment and uplink-acknowledgement procedures never lose a pending message: after a poll timeout the message is sent again, after a confirmation it is not, and no event order triggers an assertion.", "quantifier": "all event sequences", "why_tests_cant": "Unbounded event sequences.", "anchors": ["src/tbf_dl_ass_fsm.c", "src/tbf_ul_ass_fsm.c", "src/tbf_ul_ack_fsm.c"]}
{"id": "C26", "title": "Supervision counters release a dead TBF after exactly N consecutive failures", "statement": "A TBF is given up exactly when N3101 / N3103 / N3105 consecutive supervision failures have occurred since the last success; any success restarts the count.", "quantifier": "all histories of success/failure events, all configured limits", "why_tests_cant": "Unbounded histories, 8-bit counter wrap.", "anchors": ["src/tbf.cpp: gprs_rlcmac_tbf::n_inc, n_reset, poll_timeout", "src/tbf_ul.cpp: usf_timeout"]}
{"id": "C27", "title": "GPRS-only mobiles regain sync: GMSK block at least every 18 blocks", "statement": "On a PDCH with a GPRS-only mobile attached, among any 18 consecutive downlink radio blocks at least one is sent with CS-1..4.", "quantifier": "all scheduling histories, all TBF mixes", "why_tests_cant": "Liveness-like window claim over arbitrary schedules.", "anchors": ["src/gprs_rlcmac_sched.cpp: gprs_rlcmac_rcv_rts_block, MS_RESYNC_NUM_FRAMES", "src/pdch.h: fn_without_cs14"]}
{"id": "C28", "title": "Uplink grants only to eligible TBFs, in round-robin order", "statement": "The USF put in a downlink block belongs to a TBF entitled to transmit in the corresponding uplink block, that block is reserved for it, polls and single-block reservations are never overridden, and every continuously eligible TBF is served within one full round.", "quantifier": "all reservation states, TBF populations and schedules", "why_tests_cant": "Fairness over unbounded schedules.", "anchors": ["src/gprs_rlcmac_sched.cpp: sched_select_usf, sched_select_uplink"]}
{"id": "C29", "title": "Downlink scheduler picks the highest-priority TBF, round-robin among equals", "statement": "Among the TBFs ready to send, the downlink block goes to one of maximal priority; among equals service rotates so that nobody waits for more than one full round.", "quantifier": "all TBF populations and priorities, all schedules", "why_tests_cant": "Unbounded schedules.", "anchors": ["src/gprs_rlcmac_sched.cpp: sched_select_dl_data_msg, tbf_compute_priority"]}
{"id": "C30", "title": "Control messages take precedence and rotate fairly", "statement": "A downlink block is used for data only if no control message is pending; pending assignment/ack messages are rotated so that each pending kind is served within a bounded number of blocks.", "quantifier": "all sets of pending control messages and rotation states", "why_tests_cant": "Unbounded schedules.", "anchors": ["src/gprs_rlcmac_sched.cpp: sched_select_ctrl_msg, gprs_rlcmac_rcv_rts_block"]}
{"id": "C31", "title": "Packet Application Information reaches the mobiles", "statement": "Once application information is queued, each pending mobile with an active TBF is eventually sent the message, and the pending counter equals the number of mobiles still waiting.", "quantifier": "all mobile populations and schedules", "why_tests_cant": "History dependent.", "anchors": ["src/gprs_rlcmac_sched.cpp: sched_app_info", "src/pcu_l1_if.cpp: pcu_rx_app_info_req"]}
{"id": "C32", "title": "A block carrying a USF for a GPRS-only mobile is GMSK modulated", "statement": "Whenever the USF in a downlink block addresses a mobile that can only read GMSK, the block itself is GMSK (or CS) coded.", "quantifier": "all TBF mixes, retransmission states", "why_tests_cant": "Depends on retransmission history of another TBF.", "anchors": ["src/gprs_rlcmac_sched.cpp: sched_select_dl_data_msg, tbf_compute_priority, can_produce_gmsk_data_block_next"]}
{"id": "C33", "title": "TLLI change is completed only when both sides confirmed it", "statement": "A mobile keeps being found under its old TLLI until the new one has been announced by one side and confirmed by the other; after that exactly the new one is valid; no sequence of announcements loses the mobile.", "quantifier": "all sequences of uplink/downlink TLLI announcements", "why_tests_cant": "Unbounded histories.", "anchors": ["src/gprs_ms.c: ms_set_tlli, ms_confirm_tlli, ms_update_announced_tlli", "src/gprs_ms.h: ms_tlli, ms_check_tlli", "src/bts.cpp: bts_get_ms"]}
{"id": "C34", "title": "Link adaptation stays within configured limits", "statement": "Whatever error rates are reported, the downlink coding scheme of a mobile remains a valid scheme of its mode (GPRS/EGPRS/GMSK-only), never exceeds the configured maximum and changes by at most one step per report; the scheme used for a block is never above the current one and fits the requested modulation.", "quantifier": "all report histories and configurations", "why_tests_cant": "Unbounded histories.", "anchors": ["src/gprs_ms.c: ms_update_error_rate, ms_max_cs_dl, ms_current_cs_dl, ms_set_mode", "src/bts.cpp: bts_cs_dl_is_supported, bts_recalc_max_cs, bts_recalc_initial_cs"]}
{"id": "C35", "title": "Packet paging requests fit the block and lose nobody", "statement": "A Packet Paging Request never exceeds the control block; every queued paging record is either in the message or still queued afterwards (unless its identity is malformed).", "quantifier": "all paging queues", "why_tests_cant": "Arbitrary mixes of identities.", "anchors": ["src/pdch.cpp: packet_paging_request, add_paging, dequeue_paging", "src/encoding.cpp: write_paging_request, write_repeated_page_info"]}
{"id": "C36", "title": "Neighbour caches return only fresh and latest entries", "statement": "Looking up a key returns a value only if it was stored no longer than the keep time ago, and then the most recently stored value; no key is stored twice.", "quantifier": "all histories of add/lookup/expiry with any clock", "why_tests_cant": "Unbounded histories.", "anchors": ["src/neigh_cache.c: neigh_cache_add, neigh_cache_lookup_value, neigh_cache_cleanup_cb, si_cache_*"]}
{"id": "C37", "title": "Pending PS pagings are tracked per subscriber", "statement": "A subscriber counts as being paged from the start of paging until it is heard, stopped or timed out; stopping removes only this subscriber's record; there is never more than one record per subscriber.", "quantifier": "all histories of start/stop/timeout", "why_tests_cant": "Unbounded histories.", "anchors": ["src/bts_pch_timer.c", "src/gprs_bssgp_pcu.c: gprs_bssgp_pcu_rx_paging_ps"]}
{"id": "C38", "title": "EGPRS window size is legal for every configuration", "statement": "The EGPRS window size chosen for a TBF is a legal value (64..1024, multiple of 32, within the 3GPP limit for the number of slots) and its 5-bit encoding decodes to it.", "quantifier": "all configurations and slot counts", "why_tests_cant": "Arithmetic corner cases over two 16-bit parameters.", "anchors": ["src/tbf.cpp: gprs_rlcmac_tbf::egprs_calc_window_size", "src/encoding.cpp: enc_ws"]}
{"id": "C39", "title": "Compressed receive bitmaps decode to the original", "statement": "Decoding a compressed EGPRS receive bitmap produced by the encoder gives back the bitmap prefix it claims to encode; the code tables are prefix-free and run lengths are never mis-decoded.", "quantifier": "all bitmaps", "why_tests_cant": "2^1024 bitmaps.", "anchors": ["src/egprs_rlc_compression.cpp", "src/encoding.cpp: write_packet_ack_nack_desc_egprs, compress_bitmap"]}
{"id": "C40", "title": "Timing advance values and TA indices stay valid", "statement": "TA handed to a mobile is always within 0..63 after any sequence of measurements; a TA index is never given to two TBFs of a PDCH at once and becomes free again on release.", "quantifier": "all measurement sequences, all reserve/release histories", "why_tests_cant": "Unbounded histories, signed arithmetic.", "anchors": ["src/bts.cpp: update_tbf_ta, set_tbf_ta", "src/pdch.cpp: reserve_tai, release_tai, update_ta", "src/pcu_l1_if.h: ta_limit, qta2ta"]}
{"id": "C41", "title": "Neighbour system information reaches the mobile complete and for the right cell", "statement": "The containers sent to a mobile in the cell-change procedure concatenate to exactly the stored system information of the cell the mobile asked for, end with a non-full container, and the final Continue message names this cell.", "quantifier": "all system information lengths and contents, all event histories", "why_tests_cant": "Boundary cases when length is a multiple of the container size; stale state after repeated requests.", "anchors": ["src/nacc_fsm.c: create_packet_neighbour_cell_data, st_wait_request_si_on_enter, handle_retrans_pkt_cell_chg_notif"]}
{"id": "C42", "title": "Old TLLI of a downlink UNITDATA is honoured", "statement": "When the SGSN sends a downlink PDU with a new TLLI and the old TLLI, the mobile known under the old TLLI is found.", "quantifier": "all TLLI pairs", "why_tests_cant": "32-bit value space; needs the full decode path.", "anchors": ["src/gprs_bssgp_pcu.c: gprs_bssgp_pcu_rx_dl_ud", "src/tbf_dl.cpp: dl_tbf_handle"]}
{"id": "C43", "title": "Merging two mobile contexts terminates and preserves user data", "statement": "When two contexts turn out to be the same mobile, all LLC frames queued or not yet acknowledged in the old one end up, in order, in the surviving one and the old one is released.", "quantifier": "all queue contents and TBF states of both contexts", "why_tests_cant": "Depends on pending timers and history.", "anchors": ["src/gprs_ms.c: ms_merge_and_clear_ms, ms_reset", "src/tbf_dl.cpp: dl_tbf_copy_unacked_pdus_to_llc_queue"]}
{"id": "C44", "title": "Split EGPRS retransmissions reassemble to the original block", "statement": "When an EGPRS block is retransmitted in two halves, the receiver obtains the original payload from the two halves in either order, and never from two equal halves or halves of different blocks.", "quantifier": "all payloads, all arrival orders", "why_tests_cant": "Arbitrary interleavings of halves and full blocks.", "anchors": ["src/tbf_ul.cpp: handle_egprs_ul_spb, handle_egprs_ul_first_seg, handle_egprs_ul_second_seg", "src/tbf_dl.cpp: get_egprs_dl_spb, egprs_dl_get_data"]}
{"id": "C45", "title": "Random access requests are classified correctly", "statement": "Every access burst is answered with exactly one of Immediate Assignment or Reject; single-block access is granted exactly for the request types that ask for it (or when two-phase is forced); unsupported requests are rejected without allocating resources.", "quantifier": "all burst types, all 8/11-bit request values", "why_tests_cant": "All request values and resource states.", "anchors": ["src/bts.cpp: bts_rcv_rach, parse_rach_ind, parse_egprs_pkt_ch_req, bts_alloc_sba"]}
{"id": "C46", "title": "Slot reservations of mobiles balance", "statement": "The per-slot reservation counters used for load balancing equal the number of mobiles reserving the slot and return to zero when all mobiles are idle.", "quantifier": "all histories of reservation changes", "why_tests_cant": "Unbounded histories.", "anchors": ["src/gprs_ms.c: ms_set_reserved_slots", "src/bts.cpp: bts_trx_reserve_slots, bts_trx_unreserve_slots"]}
{"id": "C47", "title": "TBF starting time is encoded so the mobile recovers the frame", "statement": "The encoded starting time (T1', T3, T2) of a single-block assignment identifies the assigned frame uniquely among the next 42432 frames.", "quantifier": "all frame numbers", "why_tests_cant": "CRT argument over all frames.", "anchors": ["src/encoding.cpp: write_tbf_start_time, write_ia_rest_uplink_sba"]}
{"id": "C48", "title": "Flow-control parameters sent to the SGSN are within protocol limits", "statement": "Bucket sizes and leak rates announced to the SGSN never exceed the protocol maximum, are never zero while a PDCH is available, and the announced average delay is the real average in milliseconds.", "quantifier": "all configurations and measurement histories", "why_tests_cant": "Arithmetic over many parameters.", "anchors": ["src/gprs_bssgp_pcu.c: gprs_bssgp_tx_fc_bvc, compute_bucket_size, get_and_reset_avg_queue_delay"]}
{"id": "C49", "title": "A page reaches every mobile that may be meant", "statement": "A circuit-switched page for an unknown mobile is queued on at least one slot of every TBF of the cell, at most once per slot and only on slots that a TBF uses; for a known mobile it is queued on a slot of one of its TBFs whenever it has one.", "quantifier": "all sets of TBFs of a cell", "why_tests_cant": "Every overlap of TBF slots on every TRX.", "anchors": ["src/bts.cpp: bts_add_paging, bts_add_paging_known_ms"]}
{"id": "C50", "title": "An Immediate Assignment says what was assigned", "statement": "Whenever the PCU sends an Immediate Assignment, a mobile that decodes it according to the protocol reads exactly the channel, training sequence, frequency or hopping parameters, request reference, timing advance and TBF or block that the PCU assigned, and nothing else; and a message is sent whenever it fits.", "quantifier": "all channels, hopping lists, TBFs, power control parameters, frames, timing advances and kinds of access burst", "why_tests_cant": "Optional fields shift all later ones: the combinations of parameters and lengths are too many.", "anchors": ["src/encoding.cpp: write_immediate_assignment, write_ia_rest_downlink, write_ia_rest_uplink_sba, write_ia_rest_uplink_mba, write_ia_rest_egprs_uplink_mba, write_ia_rest_egprs_uplink_sba", "src/bts.cpp: bts_snd_dl_ass, bts_rcv_rach"]}
{"id": "C51", "title": "An Immediate Assignment Reject names exactly the rejected request", "statement": "A mobile that decodes an Immediate Assignment Reject finds the request it sent (8-bit, or 11-bit in the extension octets), the frame in which it sent it and the configured waiting time, and no other request is rejected by the message.", "quantifier": "all requests, frames and waiting times", "why_tests_cant": "All 8 and 11 bit requests in all frames.", "anchors": ["src/encoding.cpp: write_immediate_assignment_reject", "src/bts.cpp: bts_rcv_rach"]}
{"id": "C52", "title": "The announced leak rate is not more than the channels can carry", "statement": "Unless the user fixes it, the leak rate announced to the SGSN for the cell is never more than the enabled PDCHs can carry with the best allowed coding scheme, and the default leak rate of a mobile is never more than four PDCHs can carry.", "quantifier": "all configurations and measurement histories", "why_tests_cant": "Mixed signed and unsigned arithmetic over measured numbers.", "anchors": ["src/gprs_bssgp_pcu.c: gprs_bssgp_tx_fc_bvc, get_and_reset_measured_leak_rate, gprs_bssgp_max_leak_rate"]}
{"id": "C53", "title": "The error rate of a report is that of the reported blocks", "statement": "The error rate that a Packet Downlink Ack/Nack contributes to link adaptation is the percentage of lost blocks among the reported blocks that were sent with the current coding scheme (lost, or received for the first time), and the octets and blocks counted for the leak rate are those reported for the first time.", "quantifier": "all window states, reports and assignments of schemes to blocks", "why_tests_cant": "All positions in the sequence number space.", "anchors": ["src/tbf_dl.cpp: gprs_rlcmac_dl_tbf::analyse_errors, update_window"]}
{"id": "C54", "title": "Packet paging on the paging channel names the subscriber", "statement": "For a PAGING-PS of the SGSN with a valid IMSI, each BTS in which the subscriber is not being paged yet sends exactly one Paging Request of 23 octets in the paging group of the IMSI, from which a mobile reads packet paging of the P-TMSI given by the SGSN (else of the IMSI) and of nobody else; the subscriber then counts as being paged for the time T3113. A PAGING-PS without valid IMSI or with a P-TMSI of wrong length is answered with STATUS and pages nobody.", "quantifier": "all subscribers, P-TMSIs, BTSs and states of paging", "why_tests_cant": "All identities and lengths of identities; the rest octets depend on the alignment with the padding.", "anchors": ["src/encoding.cpp: write_paging_request", "src/gprs_rlcmac.c: gprs_rlcmac_paging_request", "src/gprs_bssgp_pcu.c: gprs_bssgp_pcu_rx_paging_ps, get_paging_ps_mi"]}
{"id": "C55", "title": "Application information is sent unchanged in a control block", "statement": "A mobile that receives the Packet Application Information asked for by the BTS reads a control block with the application type and exactly the octets of the request, in their order.", "quantifier": "all types, data and uplink state flags", "why_tests_cant": "All lengths and contents, and all values of the USF that is added when sending.", "anchors": ["src/gprs_rlcmac.c: gprs_rlcmac_app_info_msg", "src/gprs_rlcmac_sched.cpp: gprs_rlcmac_rcv_rts_block"]}
{"id": "C56", "title": "A control block from a mobile is stored inside the arrays meant for it", "statement": "Whatever 23 octets a mobile sends in a control block, decoding it stores every element inside the array of the message structure that is meant for it.", "quantifier": "all control blocks: all payload types, message types, lengths and contents", "why_tests_cant": "A mobile controls every bit; counts, lengths and nested options can be combined in more ways than can be tried, and a store outside of an array is silent.", "anchors": ["src/csn1_dec.c: csnStreamDecoder", "src/gsm_rlcmac.c: decode_gsm_rlcmac_uplink and the message tables", "src/gsm_rlcmac.h: array sizes"]}
{"id": "C57", "title": "Acknowledgements reach the window as the mobile sent them", "statement": "When the mobile that was polled sends a Packet Downlink Ack/Nack or an EGPRS Packet Downlink Ack/Nack as TS 44.060 defines it, with any of its optional parts, then afterwards each outstanding block counts as acknowledged exactly if the bitmap of the message says that it was received, blocks the message is silent about keep their state, and a message with another TFI changes nothing.", "quantifier": "all messages (options, bitmaps, lengths), padding, windows reachable in any history", "why_tests_cant": "All combinations of optional parts move the bitmap to different positions; bitmaps have any length and content.", "anchors": ["src/csn1_dec.c: csnStreamDecoder", "src/gsm_rlcmac.c: Packet_Downlink_Ack_Nack_t, EGPRS_PD_AckNack_t", "src/pdch.cpp: rcv_control_dl_ack_nack, rcv_control_egprs_dl_ack_nack", "src/decoding.cpp: decode_gprs_acknack_bits, decode_egprs_acknack_bits"]}
{"id": "C58", "title": "A downlink assignment describes the TBF it assigns", "statement": "When the PCU sends a Packet Downlink Assignment to a mobile, the radio block is, bit for bit, the message of TS 44.060 11.2.7 that describes the TBF: addressed mobile, time slots, frequency or hopping parameters, TFI, timing advance, power control and for EGPRS the window size; and one is sent for every TBF.", "quantifier": "all TBFs: identities, sets of time slots, channels, timing advances, indexes, EGPRS or not", "why_tests_cant": "Optional parts move all that follows; the length of the message depends on all values together, so that the boundary at 22 octets can be met in many ways.", "anchors": ["src/encoding.cpp: write_packet_downlink_assignment, gen_freq_params", "src/gsm_rlcmac.c: encode_gsm_rlcmac_downlink, Packet_Downlink_Assignment_t", "src/csn1_enc.c: csnStreamEncoder"]}
{"id": "C59", "title": "An uplink assignment describes the TBF it assigns", "statement": "When the PCU sends a Packet Uplink Assignment to a mobile, the radio block is, bit for bit, the message of TS 44.060 11.2.29 that describes the TBF: addressed mobile, coding scheme, channel, time slots with their USF, TFI, power control, timing advance and for EGPRS the window size; and one is sent for every TBF.", "quantifier": "all TBFs: identities, sets of time slots and USFs, channels, windows, timing advances, EGPRS or not", "why_tests_cant": "Optional parts move all that follows; the length depends on all values together.", "anchors": ["src/encoding.cpp: write_packet_uplink_assignment, gen_freq_params", "src/gsm_rlcmac.c: encode_gsm_rlcmac_downlink, Packet_Uplink_Assignment_t", "src/csn1_enc.c: csnStreamEncoder"]}
{"id": "C60", "title": "Messages of an assisted cell change are complete", "statement": "Every container of system information made for a mobile that changes the cell is sent as the Packet Neighbour Cell Data message of TS 44.060 which carries all its octets, its index and for the first one the cell; the procedure ends with the Packet Cell Change Continue message that names the cell.", "quantifier": "all system information, positions in it, cells, TFIs", "why_tests_cant": "All contents and all states of the procedure.", "anchors": ["src/encoding.cpp: write_packet_neighbour_cell_data, write_packet_cell_change_continue", "src/nacc_fsm.c: create_packet_neighbour_cell_data, create_packet_cell_chg_continue", "src/gsm_rlcmac.c: Packet_Neighbour_Cell_Data_t, Packet_Cell_Change_Continue_t", "src/csn1_enc.c: csnStreamEncoder"]}
{"id": "C61", "title": "Acknowledgements, measurement reports and cell change notifications of mobiles are understood", "statement": "Every control acknowledgement, packet measurement report and packet cell change notification a mobile sends as TS 44.060 describes them is dispatched to the handler of its kind, and the handler is given the TLLI, or the direction and number of the TBF and the target cell, that the mobile wrote.", "quantifier": "all messages: identities, targets, lists of neighbour cells, optional parts, padding", "why_tests_cant": "Optional parts and lists move everything behind them; no list of sample messages covers the combinations of values and lengths.", "anchors": ["src/pdch.cpp: rcv_control_block, rcv_control_ack, rcv_measurement_report, rcv_cell_change_notification", "src/nacc_fsm.c: fill_neigh_key_from_bts_pkt_cell_chg_not", "src/gsm_rlcmac.c: decode_gsm_rlcmac_uplink, Packet_Control_Acknowledgement_t, Packet_Measurement_Report_t, Packet_Cell_Change_Notification_t"]}
{"id": "C62", "title": "The uplink delivers a mobile's LLC frames to the SGSN in order, unchanged and exactly once", "statement": "When a mobile cuts a sequence of LLC frames into RLC data blocks as TS 44.060 prescribes (any block sizes, frames spanning blocks or sharing them, with or without its TLLI in the blocks) and sends them in an acknowledged uplink TBF over a radio that loses, repeats and reorders blocks, then at any time the UL-UNITDATA sent to the SGSN are exactly the first frames of the sequence, unchanged, in order, each once, under the mobile's TLLI; and every frame whose blocks have been acknowledged to the mobile has been sent.", "quantifier": "all frame sequences, all legal ways to cut them, all window sizes, all schedules of loss, repetition, reordering and acknowledgement, any length of the transfer", "why_tests_cant": "It is the composition of segmentation, sliding window, TLLI check and reassembly over unbounded histories and all ways of cutting frames; a test runs a few frames in a few orders.", "anchors": ["src/tbf_ul.cpp:rcv_data_block_acknowledged", "src/tbf_ul.cpp:assemble_forward_llc", "src/tbf_ul.cpp:snd_ul_ud", "src/decoding.cpp:rlc_data_from_ul_data", "src/rlc_window_ul.cpp"]}
{"id": "C63", "title": "The downlink delivers LLC frames to a mobile in order, unchanged, exactly once and completely", "statement": "LLC frames handed over for a mobile are cut into RLC data blocks, sent in a sliding window, repeated when reported missing, and put together by a mobile that follows TS 44.060. Over a radio that loses any blocks, with reports that are truthful but may be lost, late or incomplete, at any time the frames the mobile has put together are exactly the first frames handed over, unchanged, in order, each once, with only LLC dummy commands in between; when the TBF is finished or idle and all is acknowledged it has all of them; and from any state, once the radio stops losing blocks, a bounded number of rounds delivers everything.", "quantifier": "all frame sequences and block sizes, all window sizes, all schedules of sending, loss, split blocks, reports and preemptive retransmission, any length of the transfer", "why_tests_cant": "It is the composition of segmentation, sequence numbers that wrap, retransmission and the acknowledgement state over unbounded histories with arbitrary loss; a test runs a few frames with a few losses, and completeness is a liveness claim.", "anchors": ["src/tbf_dl.cpp:take_next_bsn", "src/tbf_dl.cpp:create_new_bsn", "src/tbf_dl.cpp:create_dl_acked_block", "src/tbf_dl.cpp:update_window", "src/rlc_window_dl.cpp", "src/encoding.cpp:rlc_data_to_dl_append"]}
{"id": "C64", "title": "The Packet Uplink Ack/Nack tells the mobile the truth about which blocks arrived", "statement": "A mobile that reads the Packet Uplink Ack/Nack as TS 44.060 defines it finds the TFI, channel coding, TLLI and timing advance of its TBF and whether it is final and to be answered; of none of its outstanding blocks does it conclude that it was received although it was not, nor that it is missing although it was received; if the message claims to cover the whole window every received block is acknowledged; and moving the window accordingly never loses a block.", "quantifier": "all histories of an uplink TBF (loss, repetition, reordering, split blocks), GPRS and all EGPRS window sizes, with and without TLLI and timing advance, any previous content of the message buffer", "why_tests_cant": "The layout depends on the whole receive state: on its length, on the runs in it and on the space left by optional fields. Tests use a few bitmaps, mostly short ones, and do not decode the result as a mobile would.", "anchors": ["src/encoding.cpp:write_packet_uplink_ack", "src/encoding.cpp:write_packet_uplink_ack_gprs", "src/encoding.cpp:write_packet_uplink_ack_egprs", "src/encoding.cpp:write_packet_ack_nack_desc_egprs", "src/encoding.cpp:write_packet_ack_nack_desc_gprs", "src/egprs_rlc_compression.cpp:compress_rbb"]}
{"id": "C65", "title": "The Gb interface comes up and recovers by itself", "statement": "While the link to the SGSN is up the PCU keeps trying; PCU and SGSN never answer each other endlessly; whatever the two think of each other, one expiry of the PCU's timer followed by an exchange without loss ends with the cell's BVC reset and unblocked on both sides; the PCU takes the BVC as unblocked only if the SGSN has unblocked it since the link came up; nothing but a reset of the signalling BVC is sent before that reset.", "quantifier": "all histories of link failures and recoveries, SGSN restarts and resets, lost, delayed and reordered messages, timer expiries", "why_tests_cant": "Whether the state machines of both sides can get stuck against each other depends on the interleaving of resets, acknowledgements, status messages and losses, of which there are infinitely many.", "anchors": ["src/gprs_bssgp_pcu.c:bvc_timeout", "src/gprs_bssgp_pcu.c:gprs_bssgp_pcu_rx_sign", "src/gprs_bssgp_pcu.c:handle_nm_status", "src/gprs_bssgp_pcu.c:bssgp_prim_cb", "src/gprs_bssgp_pcu.c:gprs_ns_prim_status_cb"]}
{"id": "C66", "title": "Messages of the SGSN are understood, or refused as the standard says", "statement": "A DL-UNITDATA coded as TS 48.018 defines, with any further elements in any order, is passed on with exactly its frame, TLLI, IMSI, lifetime and radio access capability; nothing else is ever passed on as a frame; pagings are passed on with the subscriber, TMSI, TLLI and channel they name; incomplete or wrong messages have no effect and are answered with a STATUS with the right cause, which names the BVCI if and only if it must; no message reads octets beyond its end or ends the program.", "quantifier": "all octet strings received on any BVCI, all lists of information elements in all codings and orders, blocked and unknown BVCs", "why_tests_cant": "The elements come in any order and number, with two codings of the length each; malformed ones are unlimited in number, and reading beyond the end is not observable in a test.", "anchors": ["src/gprs_bssgp_pcu.c:gprs_bssgp_pcu_rcvmsg", "src/gprs_bssgp_pcu.c:gprs_bssgp_pcu_rx_ptp", "src/gprs_bssgp_pcu.c:gprs_bssgp_pcu_rx_sign", "src/gprs_bssgp_pcu.c:gprs_bssgp_pcu_rx_dl_ud", "src/gprs_bssgp_pcu.c:get_paging_cs_mi", "src/gprs_bssgp_pcu.c:get_paging_ps_mi"]}
{"id": "C67", "title": "The multislot classes of a mobile are those it states in its radio access capability", "statement": "From a radio access capability as TS 24.008 defines it, of a mobile of any release including ones newer than the PCU, with any number of access technologies, the PCU takes exactly the GPRS and EGPRS multislot class the first stating entry states, and none if none is stated; frames from the SGSN are handled with these classes; whatever the octets are, the decoder stays inside of its structures and the classes are ones that exist in the coding.", "quantifier": "all radio access capabilities (all releases, all optional parts, all lengths, spare and unknown extension bits), all octet strings", "why_tests_cant": "The element has dozens of optional parts, release dependent ends, unknown extensions and up to eleven entries; a test covers single captures.", "anchors": ["src/gprs_bssgp_pcu.c:parse_ra_cap", "src/gsm_rlcmac.c:decode_gsm_ra_cap", "src/gsm_rlcmac.c:Content_t", "src/gsm_rlcmac.c:Multislot_capability_t", "src/csn1_dec.c:csnStreamDecoder", "src/decoding.cpp:Decoding::get_ms_class_by_capability", "src/decoding.cpp:Decoding::get_egprs_ms_class_by_capability"]}
{"id": "C68", "title": "A Packet Resource Request is understood as the mobile meant it", "statement": "A Packet Resource Request written as TS 44.060 defines it, by a mobile of any release up to 12, is not dropped: the PCU takes it for one of the mobile with the TLLI, uplink TFI or downlink TFI it names, with the GPRS and EGPRS multislot class the mobile states, its C value, SIGN_VAR and interference levels of each time slot, whichever optional parts it has and whatever padding follows.", "quantifier": "all requests (all identities, capabilities, measurements, additions of all releases without Iu mode and extended channel requests) and all padding", "why_tests_cant": "The message has more than twenty optional parts, among them a list of variable length; tests use a few captured ones.", "anchors": ["src/pdch.cpp:gprs_rlcmac_pdch::rcv_resource_request", "src/pdch.cpp:get_meas", "src/pdch.cpp:gprs_rlcmac_pdch::rcv_control_block", "src/gsm_rlcmac.c:Packet_Resource_Request_t", "src/gsm_rlcmac.c:PRR_AdditionsR99_t", "src/csn1_dec.c:csnStreamDecoder"]}
{"id": "C69", "title": "Messages of the BTS are understood as it sent them", "statement": "A message of the BTS laid out as the interface defines it is handed on with exactly the content the BTS put in: received blocks with their octets, frame number and measurements if their channel is in use (and dropped if it is not), requests to send for channels in use, random access bursts with the frame number they were received in, confirmations with the identifier of the message sent, paging requests, suspend requests, application information, addresses of neighbour cells. The E1 connection of a time slot is the one last given for it.", "quantifier": "all messages of each type, all values of their fields and spare octets, all states of the PCU; all histories of E1 indications", "why_tests_cant": "The layout mixes byte orders, signed fields and arrays used in part; tests send a few messages with values that do not show sign, order or range errors.", "anchors": ["src/pcu_l1_if.cpp:pcu_rx", "src/pcu_l1_if.cpp:pcu_rx_data_ind", "src/pcu_l1_if.cpp:pcu_rx_data_cnf2", "src/pcu_l1_if.cpp:pcu_rx_rts_req", "src/pcu_l1_if.cpp:pcu_rx_rach_ind", "src/pcu_l1_if.cpp:pcu_rx_pag_req", "src/pcu_l1_if.cpp:pcu_rx_susp_req", "src/pcu_l1_if.cpp:pcu_rx_app_info_req", "src/pcu_l1_if.cpp:pcu_rx_neigh_addr_cnf", "src/pcu_l1_if.cpp:pcu_rx_e1_ccu_ind", "include/osmocom/pcu/pcuif_proto.h"]}
{"id": "C70", "title": "The PCU uses a BTS as it last announced itself", "statement": "After any history of messages of one or several BTSs the PCU uses a BTS as its last announcement says: cell, ARFCNs, exactly the channels announced, each with its training sequence and its frequency hopping or none, the coding schemes permitted up to the configured limits, timers and counters. The channels in use are those the BTS was last requested to activate, and each request changes the state of its channel. The system information the PCU has is the one last broadcast and not withdrawn.", "quantifier": "all histories of messages with any octets, all announcements, all numbers of BTSs", "why_tests_cant": "What is kept from earlier announcements shows only after particular sequences of them; tests send one announcement.", "anchors": ["src/pcu_l1_if.cpp:pcu_rx_info_ind", "src/pcu_l1_if.cpp:pcu_info_ind_ns", "src/pcu_l1_if.cpp:pcu_rx_data_ind_bcch", "src/pcu_l1_if.cpp:pcu_tx_act_req", "src/bts.cpp:bts_alloc", "src/bts.cpp:bts_recalc_max_cs"]}
{"id": "C71", "title": "No message of the BTS makes the PCU stop or read outside of it", "statement": "Whatever octets a message on the interface to the BTS has, and however long it is, the PCU handles it or refuses it, without using memory outside the message and its tables and without stopping; only an announcement may end it, for the reasons documented (other version, BTS no longer active, no connection to the SGSN, direct access to the PHY). A message that is refused hands nothing on and leaves the configuration of all BTSs unchanged.", "quantifier": "all messages (all lengths, all octets), all states of the PCU", "why_tests_cant": "Every field of every message would have to be tested with every value; the tests send well-formed messages.", "anchors": ["src/pcu_l1_if.cpp:pcu_rx", "src/pcu_l1_if.cpp:pcu_rx_data_ind", "src/pcu_l1_if.cpp:pcu_rx_data_ind_pdtch", "src/pcu_l1_if.cpp:pcu_rx_info_ind", "src/pcu_l1_if.cpp:pcu_rx_container", "src/pcuif_sock.c:pcu_sock_read", "src/bts.cpp:bts_set_current_block_frame_number"]}
{"id": "C72", "title": "Other networks are given the system information that a cell sends", "statement": "Whatever happened before, when another network asks for the system information of a cell of the PCU, it gets exactly one answer, at once, with the system information 1, 3 and 13 that the BTS of this cell last said it sends, about that cell. A request for a cell that is not of the PCU, for another application or about another cell than it is addressed to is refused with the message provided for that. The PCU sends no answers that were not asked for. System information reported by other networks replaces what was known of the cell.", "quantifier": "all histories of messages from BTSs, RIM PDUs and cell change procedures, all requests and reports", "why_tests_cant": "The answer depends on everything the BTSs have ever announced, in any order and mixed with other events.", "anchors": ["src/gprs_bssgp_rim.c:handle_rim", "src/gprs_bssgp_rim.c:handle_ran_info_request", "src/gprs_bssgp_rim.c:handle_ran_info_response_nacc", "src/gprs_bssgp_rim.c:format_response_pdu", "src/nacc_fsm.c:bts_fill_si_cache_value", "src/gprs_pcu.c:gprs_pcu_get_bts_by_cgi_ps"]}
{"id": "C73", "title": "A mobile that changes the cell gets what the network last said about the new cell", "statement": "Whatever messages of BTSs, SGSN and mobiles came before, in any order: when a mobile is told to continue to a cell, it is the cell it last asked for, and the containers it got since it asked are, put together, exactly the system information that was the last one reported, at some time since it asked, for the address that was the last one a BTS gave for this cell; or it got none because a message could not be sent, the BTS refused, or an answer came too late. If that report came from another such PCU, the mobile gets what the BTS of the other PCU said it sends.", "quantifier": "all histories of a PCU with all its mobiles and BTSs, pairs of histories of two PCUs", "why_tests_cant": "The information goes through two caches with expiry and a state machine for each mobile; retransmitted and changed requests, late answers and expiry interleave freely.", "anchors": ["src/nacc_fsm.c", "src/neigh_cache.c", "src/gprs_bssgp_rim.c:handle_rim", "src/pcu_l1_if.cpp:pcu_rx_neigh_addr_cnf"]}
{"id": "C74", "title": "An uplink block promised to a TBF never outlives it", "statement": "In every history of a BTS (TBFs come and go, PDCHs are switched on and off by the BSC, TBFs are polled, uplink blocks are given out by USF and as single blocks, answers arrive or not, in any order) every uplink block that is promised on a PDCH is promised to a TBF that exists, has the direction the promise is about, and has the PDCH as one of its slots or as control slot. So no TBF is used after it was freed, no promise is kept on a PDCH that is off, and the PCU does not crash when TBFs end or PDCHs are switched off.", "quantifier": "all histories of allocations, requests, polls, answers, timeouts, releases and PDCH changes", "why_tests_cant": "A dangling promise needs a TBF to end between the promise and its answer on another slot than the one it has; the possible interleavings cannot be enumerated.", "anchors": ["src/pdch_ul_controller.c", "src/tbf.cpp:tbf_unlink_pdch", "src/tbf.cpp:tbf_assign_control_ts", "src/tbf.cpp:tbf_check_polling", "src/pdch.cpp:pdch_free_all_tbf", "src/pdch.cpp:rcv_resource_request", "src/alloc_algo.cpp:find_trx"]}
{"id": "C75", "title": "The BTS is told what the PCU meant, in order, nothing twice and nothing left behind", "statement": "Every message the PCU makes for the BTS (its version, activation of channels, blocks for packet channels, timing advance blocks, AGCH and PCH blocks with identifier and subscriber, address requests for neighbours) is read by a BTS that follows the interface definition as exactly the values the PCU meant, for all values in range. Whatever the socket does (full, slow, failing, closed), the BTS receives a beginning of the messages handed over since the connection was made, the version first, in order, each once; when the socket becomes writable everything that waits is sent, and the PCU never forgets to wait for that. The connection ends only when the BTS closes it, the socket fails or the PCU is told to stop.", "quantifier": "all values of the messages, all histories of connection attempts, sends and socket results", "why_tests_cant": "Tests write to a socket that takes everything; the partial writes, refusals and arrivals in between, and all values of all fields, cannot be enumerated.", "anchors": ["src/pcuif_sock.c:pcu_sock_send", "src/pcuif_sock.c:pcu_sock_write", "src/pcuif_sock.c:pcu_sock_cb", "src/pcuif_sock.c:pcu_l1if_open", "src/pcu_l1_if.cpp:pcu_tx_data_req", "src/pcu_l1_if.cpp:pcu_l1if_tx_pch2", "src/pcu_l1_if.cpp:pcu_tx_neigh_addr_res_req", "include/osmocom/pcu/pcuif_proto.h"]}
{"id": "C76", "title": "A TBF whose mobile is not heard any more is given up", "statement": "Whatever happens on a packet channel, every uplink and every downlink TBF that exists is one for which something is still pending: a timer runs, blocks are granted or data is sent, the BTS has still to confirm, a message is due, or a block is promised in which the answer can come or fail to come. And a TBF whose mobile is silent takes only a limited number of such turns (N3101 unused blocks, N3103 final acknowledgements, N3105 polls with the assignments between them, and the timer of the release) before it is gone. No history makes the PCU stop with a failed assertion.", "quantifier": "all histories of access, timers, scheduling, received blocks and expired blocks on any number of TBFs, all limits of 8 bits", "why_tests_cant": "Being stuck is about what can never happen in any continuation; it needs particular messages in particular blocks at any time of the life of several TBFs.", "anchors": ["src/tbf.cpp:poll_timeout", "src/tbf_ul.cpp:usf_timeout", "src/tbf_ul_ack_fsm.c", "src/tbf_dl_fsm.c", "src/tbf_ul_fsm.c", "src/pdch.cpp:rcv_control_ack", "src/pdch.cpp:rcv_measurement_report", "src/pdch.cpp:rcv_cell_change_notification", "src/pdch_ul_controller.c:pdch_ulc_expire_fn"]}
{"id": "C77", "title": "The configuration that the PCU writes is read back as the same configuration", "statement": "When the configuration is written to a file and the PCU is started with that file, every line of it is accepted, and afterwards all settings have the values they had when it was written; written again, the file is the same. Whatever is typed, all settings stay in the ranges of the manual, and the neighbour and system information caches keep entries for the configured time.", "quantifier": "all configuration files and all sequences of commands", "why_tests_cant": "There are some sixty settings with ranges up to millions, and what is lost depends on which of them were set, reset or left at the default.", "anchors": ["src/pcu_vty.c:config_write_pcu", "src/pcu_vty.c:pcu_vty_init", "src/gprs_pcu.c:gprs_pcu_alloc", "src/gprs_pcu.h:gprs_pcu"]}
{"id": "C78", "title": "A configuration command changes what it names, and nothing else", "statement": "When a configuration command is accepted, the configuration afterwards says about the named setting what the command said, and all it says about other settings stays as it was. What two commands about different settings leave behind does not depend on their order.", "quantifier": "all configurations and all command lines", "why_tests_cant": "There are sixty commands and as many settings, any of which a command could change by mistake, for any values of the others.", "anchors": ["src/pcu_vty.c:config_write_pcu", "src/pcu_vty.c:pcu_vty_init", "src/gprs_pcu.c:gprs_pcu_set_initial_cs", "src/gprs_pcu.c:gprs_pcu_set_max_cs"]}
{"id": "C79", "title": "Limits of the coding schemes changed in operation take effect", "statement": "While the PCU runs, the greatest coding schemes used in a cell are always the greatest ones that the operator allows now and the BTS has announced; schemes to begin with demanded by the operator are used; no mobile is sent to or told to send with a scheme above the limits or not announced, whatever was typed, announced and reported before, and no such change stops the PCU.", "quantifier": "all configuration files and all orders of commands typed, announcements of BTSs and reports of mobiles", "why_tests_cant": "The operator may type any command at any moment, with any mobiles present in any mode and scheme, and BTSs announce themselves before or after; what is calculated again after each must fit for all orders.", "anchors": ["src/gprs_pcu.c:gprs_pcu_set_initial_cs", "src/gprs_pcu.c:gprs_pcu_set_max_cs", "src/bts.cpp:bts_recalc_max_cs", "src/bts.cpp:bts_recalc_initial_cs", "src/pcu_l1_if.cpp:pcu_rx_info_ind", "src/gprs_ms.c:ms_update_error_rate"]}
{"id": "C80", "title": "The record of a mobile is kept while it is used and for the configured time after", "statement": "What the PCU knows of a mobile (identities, classes, waiting frames) is kept as long as the mobile has a TBF, whatever messages, requests and times pass, and for the time of timer X2030 after its last TBF; a mobile without TBF that requests nothing is forgotten after that time. No message is handled with the record of a mobile that has been forgotten. Frames that wait for the mobile are not lost by this before their lifetime is over.", "quantifier": "all histories of accesses, requests, PDUs, reports, TBF ends, times that pass and settings of timer X2030, for any number of mobiles", "why_tests_cant": "A mobile can become idle and active again at any moment within handlers that use it, and the timer can run out between any two messages; only a count of users that is right for every order prevents use after free and leaks.", "anchors": ["src/gprs_ms.c:ms_use_cb", "src/gprs_ms.c:ms_becomes_idle", "src/gprs_ms.c:ms_becomes_active", "src/gprs_ms.c:ms_release_timer_cb", "src/gprs_ms.c:ms_attach_tbf", "src/gprs_ms.c:ms_detach_tbf", "src/pdch.cpp:gprs_rlcmac_pdch::rcv_resource_request", "src/tbf_ul_fsm.c:st_finished", "src/tbf_dl.cpp:dl_tbf_handle", "src/bts.cpp:bts_rcv_rach"]}
{"id": "C81", "title": "Frames waiting for a mobile get a downlink TBF, where the mobile listens, and only one", "statement": "A frame the SGSN sends to a mobile for which resources are available starts a downlink TBF unless one is in use; if the mobile cannot be told at this moment (contention on its uplink TBF is not resolved, or it is about to leave the uplink TBF) the downlink TBF is started as soon as it can be told. So whenever frames wait, a downlink TBF is in use or the uplink TBF is at a point at which one will be started. The assignment is sent where the mobile listens: on the PACCH of an uplink TBF it uses, on that of its previous downlink TBF, or on the PCH only if it has no uplink TBF. At most one downlink TBF of a mobile is in use.", "quantifier": "all histories of frames, timers, uplink data, answered and unanswered polls, requests, accesses and allocation results, for a mobile with any number of older TBFs", "why_tests_cant": "The start of the downlink TBF is spread over the handlers of the frame, of contention resolution, of confirmed assignments and of the end of either TBF; a frame is forgotten or assigned twice only in particular orders of these.", "anchors": ["src/gprs_ms.c:ms_append_llc_dl_data", "src/gprs_ms.h:ms_need_dl_tbf", "src/gprs_ms.c:ms_is_reachable_for_dl_ass", "src/gprs_ms.c:ms_new_dl_tbf_assigned_on_pacch", "src/gprs_ms.c:ms_new_dl_tbf_assigned_on_pch", "src/tbf_ul.cpp:gprs_rlcmac_ul_tbf::contention_resolution_success", "src/tbf_ul_fsm.c:st_finished", "src/tbf_dl_fsm.c:st_wait_release_on_enter", "src/pdch.cpp:gprs_rlcmac_pdch::rcv_control_ack", "src/pdch.cpp:gprs_rlcmac_pdch::rcv_resource_request"]}
{"id": "C82", "title": "A Packet Resource Request is answered to the mobile that asked, where it asked", "statement": "A Packet Resource Request is answered exactly if it comes in an uplink block that was given to the mobile that asks: a single block, a block granted to one of its uplink TBFs, or the block in which it confirms the end of such a TBF. The answer is an assignment if there are resources and a Packet Access Reject if not; it is for the mobile that asked, is sent on the slot on which it asked, and names the mobile by the TLLI by which it asked, whatever the SGSN sends in the meantime. A reject is read by this mobile and by no other, and tells it to wait for the configured time T3172, never longer, and less than one unit (20 ms, or a second from 5.12 seconds on) shorter.", "quantifier": "all TLLIs, all values of T3172 that can be configured, all reservations of uplink blocks, all histories of TLLI announcements by mobiles and SGSN", "why_tests_cant": "Which TLLI a record answers to depends on the history of announcements by both sides, and the reject is written bit by bit over padding that must end it for every TLLI and time.", "anchors": ["src/pdch.cpp:gprs_rlcmac_pdch::rcv_resource_request", "src/encoding.cpp:write_packet_access_reject", "src/tbf_ul_ass_fsm.c:create_packet_access_reject", "src/tbf_ul_ass_fsm.c:create_packet_ul_assign", "src/gprs_ms.c:ms_new_ul_tbf_rejected_pacch", "src/gprs_ms.h:ms_tlli", "src/gprs_pcu.c:T_defs_pcu"]}
{"id": "C83", "title": "A mobile is turned away only when there is no room", "statement": "A mobile without resources that asks for a downlink TBF gets one if some PDCH in operation has a free TFI, and a mobile that asks for an uplink TBF gets one if some PDCH in operation has a free USF. It is refused only if there is none; and what is given is never more than what is free.", "quantifier": "all histories of mobiles, TBFs and PDCHs, all multislot classes, each allocation algorithm, requests for one slot and for several", "why_tests_cant": "The search goes over windows of slots filtered by the class of the mobile and weighted by the load of the slots; that it finds something for every class, set of enabled slots and load, and that the choice of the TRX does not lead it to a full one, cannot be sampled.", "anchors": ["src/alloc_algo.cpp:alloc_algorithm_a", "src/alloc_algo.cpp:alloc_algorithm_b", "src/alloc_algo.cpp:alloc_algorithm_dynamic", "src/alloc_algo.cpp:find_multi_slots", "src/alloc_algo.cpp:compute_capacity", "src/alloc_algo.cpp:find_trx", "src/alloc_algo.cpp:find_least_busy_pdch", "src/bts.cpp:bts_tfi_find_free"]}
{"id": "C84", "title": "The counters of a cell add up", "statement": "At any time the number of TBFs counted as allocated is the number counted as released plus the number of TBFs that exist, for each direction; every request for a TBF is counted once, as an allocated TBF or as a failure. Every request on the RACH is counted as one phase, two phase or unexpected, and as an assignment or a rejection, and the assignments counted are the ones made. The single blocks counted as allocated are those counted as released plus those still reserved.", "quantifier": "all histories of mobiles, TBFs and PDCHs, all sequences of requests on the RACH in all situations, all histories of reservations on a PDCH", "why_tests_cant": "A balance over a history fails only if one of the many ways in which a TBF or a single block ends forgets to count, or counts twice; a test sees the ways it takes.", "anchors": ["src/bts.cpp:bts_rcv_rach", "src/bts.cpp:bts_alloc_sba", "src/sba.c:sba_alloc", "src/sba.c:sba_free", "src/sba.c:sba_timeout", "src/tbf.cpp:tbf_free", "src/tbf_ul.cpp:ul_tbf_alloc", "src/tbf_dl.cpp:dl_tbf_alloc", "src/gprs_ms.c:ms_new_ul_tbf_assigned_pacch", "src/pdch.cpp:rcv_cell_change_notification", "src/pdch.cpp:free_resources"]}
{"id": "C85", "title": "A mobile has the time it needs to switch between receiving and transmitting", "statement": "The slots given to a mobile that cannot receive and transmit at the same time leave it, in every frame, the number of slots its multislot class needs to get ready to transmit after receiving and to receive after transmitting, and once per frame the time to measure a neighbour cell; it is never asked to do both at once. Its slots in each direction lie within as many consecutive slots as its class allows.", "quantifier": "all multislot classes, loads of the cell, sets of enabled PDCHs, allocation algorithms and histories of TBFs", "why_tests_cant": "The slots chosen depend on the class, on which PDCHs are enabled and on the load of each; the masks that keep the gaps are combined by shifting and wrapping, and a test compares only a few results with values computed the same way.", "anchors": ["src/mslot_class.c:mslot_fill_rx_mask", "src/mslot_class.c:mslot_filter_bad", "src/mslot_class.c:gprs_ms_multislot_class", "src/alloc_algo.cpp:find_multi_slots", "src/alloc_algo.cpp:skip_slot", "src/alloc_algo.cpp:alloc_algorithm_b"]}
{"id": "C86", "title": "What is known of the capabilities of a mobile is kept and completed", "statement": "The multislot classes (GPRS and EGPRS) the PCU knows of a mobile do not change while its record exists. If two records turn out to be of one mobile, the remaining one knows the classes and the IMSI either of them knew. A downlink frame that comes with the classes of the mobile completes the ones that are not known, and a mobile first known by a frame has the classes that came with it.", "quantifier": "all histories of frames from the SGSN, announcements of TLLIs, requests, reports, TBFs and times, for any number of mobiles", "why_tests_cant": "Classes are taken over at several places during merges that depend on which identities are known in which record; a wrong one shows only in a later allocation.", "anchors": ["src/gprs_ms.c:ms_merge_and_clear_ms", "src/gprs_ms.c:ms_set_ms_class", "src/gprs_ms.c:ms_set_egprs_ms_class", "src/tbf_dl.cpp:dl_tbf_handle", "src/gprs_ms.c:ms_set_imsi"]}
{"id": "C87", "title": "A downlink TBF carries nothing before the mobile can know of it", "statement": "A downlink TBF that is assigned through the BTS (on PCH or AGCH) does not begin to carry data before the BTS has confirmed that it sent the assignment and the waiting time X2002 has passed, or the mobile has acknowledged an assignment on the PACCH. The confirmation names the assignment by the TLLI it was given with; it reaches the TBF of this mobile, and no other TBF or mobile is affected by it.", "quantifier": "all histories of starting, ending and handling of downlink TBFs of any number of mobiles whose identities change, with confirmations of the BTS in any order and at any time", "why_tests_cant": "Confirmations come later than the TBF they are for may live, and may meet another TBF of the mobile in any state.", "anchors": ["src/bts.cpp:bts_rcv_imm_ass_cnf", "src/bts.cpp:bts_snd_dl_ass", "src/pcu_l1_if.cpp:pcu_rx_data_cnf2", "src/tbf_dl_fsm.c:st_assign", "src/tbf_dl_fsm.c:handle_timeout_X2002", "src/gprs_ms.c:ms_new_dl_tbf_assigned_on_pch"]}
{"id": "C88", "title": "What is shown about the radio link of a mobile is what was last measured", "statement": "The command 'show ms' prints, for signal strength, burst timing offset, link quality, bit error rate, reception quality, C value, variance and interference levels, the value that was last measured by the BTS or reported by the mobile, converted to the unit printed, and prints nothing for what was never measured.", "quantifier": "all sequences of blocks received from a mobile, with all measured and reported values", "why_tests_cant": "What is shown depends on which of the values each of any number of former blocks carried.", "anchors": ["src/gprs_ms.c:ms_update_l1_meas", "src/pdch.cpp:get_meas", "src/pdch.cpp:get_rx_qual_meas", "src/pcu_l1_if.cpp:pcu_rx_data_ind", "src/pcu_vty_functions.cpp:show_ms"]}
{"id": "C89", "title": "The figures given once a second for a TBF are about all that happened since the last time", "statement": "While a TBF lasts, the PCU gives the mean signal strength (uplink), the share of lost blocks and the throughput (downlink) at most once a second. Each figure is about all blocks or frames since the last one, each of them counted once: the mean of the signal strengths, the percentage of the lost blocks, the amount of data by the time it took. The throughput shown by 'show ms' is this rate, in kbit/s.", "quantifier": "all sequences of blocks, acknowledgements and frames of a TBF, with all values and all times", "why_tests_cant": "The figures depend on the times and values of all that came since the last report; sums are kept in few bits.", "anchors": ["src/gprs_rlcmac_meas.cpp:gprs_rlcmac_rssi", "src/gprs_rlcmac_meas.cpp:gprs_rlcmac_received_lost", "src/gprs_rlcmac_meas.cpp:gprs_rlcmac_lost_rep", "src/gprs_rlcmac_meas.cpp:gprs_rlcmac_dl_bw", "src/pcu_vty_functions.cpp:show_ms"]}
{"id": "C90", "title": "A mobile that sends data is told that its transfer is complete exactly when it is, and is answered while it sends", "statement": "When the network sends a Packet Uplink Ack/Nack that is marked as final, it has received every block of the mobile and passed every LLC frame of the transfer on to the SGSN, in order and complete; and when the last missing block arrives, the transfer is finished and the final acknowledgement is due. While the mobile sends, an acknowledgement is due whenever the mobile says that it is stalled, when it includes its TLLI, when its last block arrived and at every 20th radio block.", "quantifier": "all LLC frames cut into blocks by the mobile, all losses, repetitions and reorderings of radio blocks within the windows, halves of split blocks, all events of the state machines and all interleavings of them", "why_tests_cant": "Completeness is concluded from the window state and the countdown value of one stored block; whether this is right depends on every order in which the blocks may have arrived.", "anchors": ["src/tbf_ul.cpp:gprs_rlcmac_ul_tbf::rcv_data_block_acknowledged", "src/tbf_ul.cpp:gprs_rlcmac_ul_tbf::maybe_schedule_uplink_acknack", "src/tbf_ul_ack_fsm.c:create_ul_acknack", "src/tbf_ul_fsm.c:st_flow"]}
{"id": "C91", "title": "A mobile that receives data is asked for acknowledgements in time, and not for no reason", "statement": "A radio block of a downlink transfer that is sent on the slot where the mobile may be asked, when an uplink block is free for the answer, asks the mobile to acknowledge if 20 radio blocks were sent from the last one with which it was asked, or its last answer did not come, or, since it was last asked or with this block, the last block of the transfer or the last of the waiting frames was sent, or a block was sent although nothing waited, or no frame came for a while. It is asked in no other case.", "quantifier": "all histories of frames, radio blocks on all slots, acknowledgements, missing answers and timers of a TBF, GPRS and EGPRS, one or two data blocks in a radio block", "why_tests_cant": "Three flags and a counter stand for the history of the TBF; whether they stand for the right thing depends on all orders of events.", "anchors": ["src/tbf_dl.cpp:gprs_rlcmac_dl_tbf::create_dl_acked_block", "src/tbf_dl.cpp:gprs_rlcmac_dl_tbf::create_new_bsn", "src/tbf_dl.cpp:gprs_rlcmac_dl_tbf::need_poll_for_dl_ack_nack", "src/tbf_dl.cpp:gprs_rlcmac_dl_tbf::rcvd_dl_ack", "src/tbf.cpp:gprs_rlcmac_tbf::poll_timeout", "src/gprs_ms.c:ms_llc_timer_cb"]}
{"id": "C92", "title": "The connections to the SGSN are those that were announced last", "statement": "After an announcement of the BTS, if all attempts to connect succeed, the PCU has exactly the connections (local address, address of the SGSN, NSVCI) that are announced, each as often as announced, under the announced NSEI. Whatever fails, no connection stays that is not announced. A connection that there is and that is announced again with the same NSEI is the same connection as before, and the same announcement again changes nothing and does not end the PCU. With IP-SNS the PCU only uses SGSNs that are announced.", "quantifier": "all histories of announcements with all addresses and NSEIs, and all failures of the NS library", "why_tests_cant": "Which connections are kept, removed and made depends on the whole history of announcements and on which calls of the library failed.", "anchors": ["src/gprs_bssgp_pcu.c:gprs_ns_update_config", "src/gprs_bssgp_pcu.c:ns_conf_vc_cb", "src/gprs_bssgp_pcu.c:ns_configure_nse", "src/pcu_l1_if.cpp:pcu_info_ind_ns"]}
{"id": "C93", "title": "The clock of the PCU follows the radio blocks", "statement": "When the layer below reports a radio block that is newer than those before, the current frame number is afterwards that of the block or at most 500 frames later, also around the end of the hyperframe, and it is not changed if it was so before. A report of an older block changes nothing. A block is counted as late if and only if the clock was 13 frames or more ahead of it. No frame number stops the PCU.", "quantifier": "all histories of blocks and reports with all frame numbers", "why_tests_cant": "The comparison works on a circle of 2715648 numbers, and the clock and the last block can stand anywhere on it.", "anchors": ["src/bts.cpp:bts_set_current_block_frame_number", "src/bts.cpp:bts_set_current_frame_number", "src/bts.cpp:delta_fn", "src/pcu_l1_if.cpp:pcu_rx_block_time", "src/pcu_l1_if.cpp:pcu_rx_data_ind_pdtch"]}
{"id": "C94", "title": "With an Ericsson RBS, blocks have the frame numbers of the channel coding unit", "statement": "From the moment on that the PCU is in step with the channel coding unit (CCU), and as long as the CCU counts right, the PCU is told the right first frame of every uplink block, and for every TRAU frame, also one that cannot be decoded, it is asked for exactly one downlink block with its right frame number and number in the multiframe, without gap, as many blocks ahead as the sequence number of the CCU says. When the CCU names other frame numbers than expected, the PCU is asked for nothing until the CCU confirms the expected ones; a CCU that counts right is confirmed when it names its numbers for the second time. A block to send is marked with the coding that its length has.", "quantifier": "all sequences of TRAU frames, all positions in the hyperframe, all latencies, all blocks", "why_tests_cant": "The numbers are counted on between rare synchronisation frames for hours, around the ends of the multiframe and the hyperframe.", "anchors": ["src/ericsson-rbs/er_ccu_l1_if.c:er_ccu_rx_cb", "src/ericsson-rbs/er_ccu_l1_if.c:fn_dl_advance", "src/ericsson-rbs/er_ccu_l1_if.c:fn_to_block_nr", "src/ericsson-rbs/er_ccu_l1_if.c:mac_block_is_noise", "src/ericsson-rbs/er_ccu_l1_if.c:cs_hdr_from_len", "src/ericsson-rbs/er_ccu_l1_if.c:er_ccu_empty_cb"]}
{"id": "C95", "title": "With an Ericsson RBS, an E1 time slot is open as long as a channel coding unit uses it", "statement": "An E1 time slot is configured exactly as long as at least one channel coding unit is connected on it. A unit whose parameters were announced is connected on the announced line, time slot and subslot when its time slot of the radio interface is switched on, and the other units are not touched. Switching it off disconnects it and no other unit, and the E1 time slots of the other units stay open.", "quantifier": "all sequences of announcing parameters, switching on and switching off, all numbers of units below 256, all answers of the E1 library when opening", "why_tests_cant": "The count of users of a time slot depends on the whole history of all the units that share it.", "anchors": ["src/ericsson-rbs/er_ccu_if.c:er_ccu_if_open", "src/ericsson-rbs/er_ccu_if.c:er_ccu_if_close", "src/ericsson-rbs/er_ccu_if.c:open_e1_timeslot", "src/ericsson-rbs/er_ccu_if.c:close_e1_timeslot", "src/ericsson-rbs/er_ccu_if.c:add_i460_subslot", "src/ericsson-rbs/er_ccu_l1_if.c:l1if_connect_pdch", "src/ericsson-rbs/er_ccu_l1_if.c:l1if_disconnect_pdch", "src/pcu_l1_if.cpp:pcu_rx_e1_ccu_ind"]}
{"id": "C96", "title": "The statistic 'all PDCHs allocated' tells when the cell is full", "statement": "The flag from which the time during which all PDCHs are allocated is counted is set exactly when on every PDCH in operation all 32 TFIs of one direction or all seven USFs are in use by TBFs that exist. While it is not set a mobile without resources gets the TBF that it needs; while it is set a mobile is refused in at least one direction.", "quantifier": "all histories of TBFs, mobiles and PDCHs, all algorithms A and dynamic", "why_tests_cant": "The flag is derived from bit maps that are kept up to date by every allocation and release in the history.", "anchors": ["src/bts.cpp:bts_all_pdch_allocated", "src/pdch.cpp:pdch_is_full", "src/gprs_pcu.c:_update_stats_timer_cb", "src/alloc_algo.cpp:alloc_algorithm_a"]}
{"id": "C97", "title": "Data blocks are counted by coding scheme", "statement": "The counters of a BTS with the name of a direction and a coding scheme say how many RLC data radio blocks were sent or received in that scheme; the counters of a TBF say this for its own blocks. No other counter of the BTS is changed by this and counting never touches a counter that does not exist, whatever blocks mobiles send.", "quantifier": "all histories of TBFs being allocated and freed and of blocks sent and received, all schemes", "why_tests_cant": "The counters are the sum of an unbounded history of many TBFs; which counters exist depends on the kind a TBF had when it was allocated.", "anchors": ["src/tbf_dl.cpp:update_coding_scheme_counter_dl", "src/tbf_dl.cpp:dl_tbf_alloc", "src/tbf_dl.cpp:create_dl_acked_block", "src/tbf_ul.cpp:update_coding_scheme_counter_ul", "src/bts.cpp:bts_ctr_description"]}
{"id": "C98", "title": "Counters and GSMTAP say what is on the air", "statement": "The counters rlc:sent, rlc:sent-control and rlc:sent-dummy say how many requests of the BTS were answered with a data, control or dummy block, rlc:dl_bytes and rlc:ul_bytes how many bytes were in the blocks sent and received. With the categories enabled, GSMTAP shows every block and access burst once and as it is on the air (ARFCN, time slot, frame number, bytes with the USF); frames of categories that are not enabled are never shown. Showing frames never makes the PCU read outside its memory.", "quantifier": "all histories of requests, received blocks and access bursts, all messages, all settings of the categories", "why_tests_cant": "The counters are sums over unbounded histories; the settings have 2^15 combinations and blocks and bursts are arbitrary input from the air.", "anchors": ["src/gprs_rlcmac_sched.cpp:tap_n_acc", "src/gprs_rlcmac_sched.cpp:gprs_rlcmac_rcv_rts_block", "src/bts.cpp:bts_send_gsmtap_meas", "src/bts.cpp:bts_send_gsmtap_rach", "src/pdch.cpp:rcv_block", "src/pcu_l1_if.cpp:pcu_rx_data_ind"]}
{"id": "C99", "title": "Requests for the PTCCH are answered with the latest timing advance", "statement": "Each request of the BTS for a PTCCH block on a packet data time slot is answered once and in order. The message has, for each of the 16 sub-slots, the timing advance of the last access burst in this sub-slot on this time slot (127 if there was none); it is empty if no TBF uses the time slot and the carrier need not be filled. Other requests are not answered, GSMTAP shows exactly the messages sent when the category is enabled, and no history of bursts and requests makes the PCU fail.", "quantifier": "all histories of access bursts and requests on all TRX and time slots, all delays and frame numbers, all settings", "why_tests_cant": "The message depends on the last burst in each sub-slot of an unbounded history interleaved over 64 time slots.", "anchors": ["src/pcu_l1_if.cpp:pcu_rx_rts_req_ptcch", "src/pcu_l1_if.cpp:pcu_l1if_tx_ptcch", "src/bts.cpp:bts_rcv_ptcch_rach", "src/pdch.cpp:update_ta"]}
