{
 "claims": [
  {
   "property": "C01",
   "status": "proved",
   "theorems": [
    "Verif.RlcUl.C01_in_order_exactly_once",
    "Verif.RlcUl.C01_forwarded_is_final",
    "Verif.RlcUl.C01_complete_egprs_partial",
    "Verif.RlcUl.C01_complete_gprs_partial",
    "Verif.RlcUl.C01_gprs_window_edge_deadlock",
    "Verif.RlcUl.C01_egprs_ws1024_first_copy_lost"
   ],
   "note": "Safety (the stated property) for GPRS and all EGPRS window sizes. Additionally completeness where it holds, and negations where it does not."
  },
  {
   "property": "C02",
   "status": "partial",
   "theorems": [
    "Verif.RlcUl.C02_never_acks_unreceived",
    "Verif.RlcUl.C02_bitmap_exact_partial",
    "Verif.RlcUl.C02_edge_block_reported_missing",
    "Verif.RlcUl.C02_egprs_bitmap_exact_partial",
    "Verif.RlcUl.C02_egprs_bitmap_empty_at_wrap"
   ],
   "note": "No false acknowledgement: proved for all histories. The converse is false in the window-edge case (negation proved); proved without that case."
  },
  {
   "property": "C03",
   "status": "proved",
   "theorems": [
    "Verif.RlcDl.C03_never_overrun",
    "Verif.RlcDl.C03_unacked_is_kept",
    "Verif.RlcDl.C03_next_is_fresh",
    "Verif.RlcDl.C03_outstanding_distinct",
    "Verif.RlcDl.C03_oldest_monotone",
    "Verif.RlcDl.C03_count_unacked",
    "Verif.RlcDl.C03_shrinking_defeats_stall_check"
   ],
   "note": "Every history of block requests, Ack/Nack bitmaps, split retransmissions, final acks and window size changes not below the outstanding count; the last theorem shows why that proviso is needed."
  },
  {
   "property": "C04",
   "status": "proved",
   "theorems": [
    "Verif.RlcDl.C04_first_block",
    "Verif.RlcDl.C04_sends_only_window_blocks",
    "Verif.RlcDl.C04_refusal_only_for_second",
    "Verif.RlcDl.C04_terminates",
    "Verif.RlcDl.C04_no_software_error"
   ],
   "note": "Complete decision table for the first block, safety for both blocks, bounded recursion."
  },
  {
   "property": "C05",
   "status": "proved",
   "theorems": [
    "Verif.AckNack.C05_gprs_exact",
    "Verif.AckNack.C05_gprs_out_of_range_ignored",
    "Verif.AckNack.C05_gprs_final"
   ],
   "note": "All SSNs, all bitmaps, all reachable windows."
  },
  {
   "property": "C06",
   "status": "partial",
   "theorems": [
    "Verif.AckNack.C06_egprs_exact_partial",
    "Verif.AckNack.C06_egprs_final",
    "Verif.AckNack.C06_window_respected",
    "Verif.AckNack.C06_not_bow_misplaced",
    "Verif.AckNack.C06_stale_ssn_acks_all"
   ],
   "note": "Exact for messages with 'beginning of window' and an SSN of the window, including compressed bitmaps; the full property is false (two negations proved)."
  },
  {
   "property": "C07",
   "status": "partial",
   "theorems": [
    "Verif.Seg.C07_frames_survive_partial",
    "Verif.Seg.C07_frames_survive_open",
    "Verif.Seg.C07_block_has_its_size_partial",
    "Verif.Seg.C07_last_block_completes_partial",
    "Verif.Seg.C07_all_delivered",
    "Verif.Seg.C07_violated",
    "Verif.Seg.C07_not_all_delivered"
   ],
   "note": "False of the code when the last frame of a TBF exactly fills the rest of a block after another frame end (negation proved: the frame is lost). Proved for every other history, and without exception while the TBF is kept open."
  },
  {
   "property": "C08",
   "status": "proved",
   "theorems": [
    "Verif.Seg.C08_frames_survive",
    "Verif.Seg.C08_block_has_its_size",
    "Verif.Seg.C08_last_block_completes",
    "Verif.Seg.C08_all_delivered",
    "Verif.Seg.C08_tiny_frames_dropped"
   ],
   "note": "Every history of frames (>= 5 octets, shown necessary) and block sizes 20..74; safety, completion on the last block, and progress."
  },
  {
   "property": "C09",
   "status": "partial",
   "theorems": [
    "Verif.Seg.C09_reassembly_stays_inside",
    "Verif.Seg.C09_tlli_call_partial",
    "Verif.Seg.C09_violated"
   ],
   "note": "Reassembly call: all reads and pieces inside the block, all contents. TLLI-only call: can read exactly one octet past the block (negation proved), never more."
  },
  {
   "property": "C10",
   "status": "proved",
   "theorems": [
    "Verif.Blk.C10_copy_in",
    "Verif.Blk.C10_copy_out",
    "Verif.Blk.C10_store_large_enough",
    "Verif.Blk.C10_roundtrip",
    "Verif.Blk.C10_two_blocks"
   ],
   "note": "All coding schemes, layouts, buffers and contents; memory safety included."
  },
  {
   "property": "C11",
   "status": "proved",
   "theorems": [
    "Verif.Blk.C11_dl_header",
    "Verif.Blk.C11_dl_unambiguous",
    "Verif.Blk.C11_ul_header"
   ],
   "note": "All coding schemes and header values against the header figures of TS 44.060; octets outside are never touched, payload never changed."
  },
  {
   "property": "C12",
   "status": "partial",
   "theorems": [
    "Verif.Cs.C12_cps_defined",
    "Verif.Cs.C12_cps_unambiguous",
    "Verif.Cs.C12_decode_partial",
    "Verif.Cs.C12_decode_mcs9",
    "Verif.Cs.C12_violated",
    "Verif.Cs.C12_padding_only_where_defined",
    "Verif.Split.C44_dl_puncturing"
   ],
   "note": "False of the code for MCS-9 on the decoding side (negation proved); proved for every other combination."
  },
  {
   "property": "C13",
   "status": "proved",
   "theorems": [
    "Verif.Cs.C13_size_identifies",
    "Verif.Cs.C13_sizes_distinct",
    "Verif.Cs.C13_kind",
    "Verif.Cs.C13_step_up",
    "Verif.Cs.C13_step_down",
    "Verif.Cs.C13_step_foreign",
    "Verif.Cs.C13_step_plain",
    "Verif.Cs.C13_retx_fits",
    "Verif.Cs.C13_retx_obeys_command",
    "Verif.Cs.C13_retx_domain",
    "Verif.Cs.C13_block_layout",
    "Verif.Cs.C13_dec_to_single"
   ],
   "note": "Whole tables, lifted to all schemes."
  },
  {
   "property": "C14",
   "status": "proved",
   "theorems": [
    "Verif.Llc.C14_accounting",
    "Verif.Llc.C14_lossless",
    "Verif.Llc.C14_fifo",
    "Verif.Llc.C14_priority",
    "Verif.Llc.C14_put_back",
    "Verif.Llc.C14_merge",
    "Verif.Llc.C14_classes"
   ],
   "note": "All histories of enqueue, dequeue, put back, clear; merging of queues in C14_merge and C14_accounting."
  },
  {
   "property": "C15",
   "status": "proved",
   "theorems": [
    "Verif.Llc.C15_dequeue",
    "Verif.Llc.C15_never_expired",
    "Verif.Llc.C15_all_expired",
    "Verif.Llc.C15_nothing_lost",
    "Verif.Llc.C15_lifetime",
    "Verif.Llc.C15_droppable",
    "Verif.Llc.C15_hysteresis_void"
   ],
   "note": "Also shows that the hysteresis never discards a valid LLC frame (the code tests the control field bits on the address octet)."
  },
  {
   "property": "C16",
   "status": "proved",
   "theorems": [
    "Verif.Codel.C16_drop_only_if_congested",
    "Verif.Codel.C16_drop_spacing",
    "Verif.Codel.C16_inverse_sqrt",
    "Verif.Codel.C16_drop_not_early",
    "Verif.Codel.C16_leaves_when_relieved"
   ],
   "note": "Clock values are non-negative; fewer than 2^32 calls for the spacing claim (32-bit counter)."
  },
  {
   "property": "C17",
   "status": "partial",
   "theorems": [
    "Verif.Seg.C17_wellformed_peer_partial",
    "Verif.Seg.C17_wellformed_peer_gprs_partial",
    "Verif.Seg.C17_violated",
    "Verif.Seg.C17_overflow_after_21_blocks"
   ],
   "note": "False of the code (no bounds check): unbounded overrun proved for a misbehaving mobile; bound proved for well-formed senders."
  },
  {
   "property": "C18",
   "status": "proved",
   "theorems": [
    "Verif.Ulc.C18_unique",
    "Verif.Ulc.C18_reserve",
    "Verif.Ulc.C18_lookup",
    "Verif.Ulc.C18_release_fn",
    "Verif.Ulc.C18_release_tbf",
    "Verif.Ulc.C18_expire",
    "Verif.Ulc.C18_expire_freeing",
    "Verif.Ulc.C18_sba"
   ],
   "note": "Reservations within 1,000,000 frames (77 minutes) of the current frame; the tree is modelled as its ordered list of nodes."
  },
  {
   "property": "C19",
   "status": "proved",
   "theorems": [
    "Verif.Ulc.C19_rrbp_unambiguous",
    "Verif.Ulc.C19_poll",
    "Verif.Ulc.C19_refused"
   ],
   "note": ""
  },
  {
   "property": "C20",
   "status": "proved",
   "theorems": [
    "Verif.Fn.C20_blocks_ordered",
    "Verif.Fn.C20_blocks_all",
    "Verif.Fn.C20_next_block",
    "Verif.Fn.C20_next_block_visits",
    "Verif.Fn.C20_valid",
    "Verif.Fn.C20_block_number",
    "Verif.Fn.C20_rts_next",
    "Verif.Fn.C20_rfn"
   ],
   "note": ""
  },
  {
   "property": "C21",
   "status": "proved",
   "theorems": [
    "Verif.Alloc.C21_no_abort",
    "Verif.Alloc.C21_tfi_unique",
    "Verif.Alloc.C21_usf_unique",
    "Verif.Alloc.C21_usf_not_7",
    "Verif.Alloc.C21_lookup",
    "Verif.Alloc.C21_no_leak",
    "Verif.Alloc.C21_release"
   ],
   "note": "All histories of allocation (three algorithms), upgrade, reject, release, PDCH enable/disable."
  },
  {
   "property": "C22",
   "status": "proved",
   "theorems": [
    "Verif.Alloc.C22_counters",
    "Verif.Alloc.C22_statistics"
   ],
   "note": "Same histories."
  },
  {
   "property": "C23",
   "status": "partial",
   "theorems": [
    "Verif.Alloc.C23_table",
    "Verif.Alloc.C23_allocation_partial",
    "Verif.Alloc.C23_history_partial",
    "Verif.Alloc.C23_single_slot_exceeds",
    "Verif.Alloc.C23_class_change_exceeds"
   ],
   "note": "False of the code (two negations proved: the single slot fallback uses a slot index as a mask; a class learnt late is not enforced). Proved for the other histories; PDCH deactivation is excluded from the history theorem."
  },
  {
   "property": "C24",
   "status": "proved",
   "theorems": [
    "Verif.Tbf.C24_dl_legal",
    "Verif.Tbf.C24_ul_legal",
    "Verif.Tbf.C24_dl_ended",
    "Verif.Tbf.C24_ul_ended",
    "Verif.Tbf.C24_dl_released",
    "Verif.Tbf.C24_ul_released",
    "Verif.Tbf.C24_dl_no_use_after_free"
   ],
   "note": "All histories of events, timers, polls, confirmations, data and requests; poll reasons are those a TBF of that direction sets up. The no-use-after-free part also assumes how the rest of the PCU drives the TBF (DlSane), shown necessary by an example."
  },
  {
   "property": "C25",
   "status": "partial",
   "theorems": [
    "Verif.Tbf.C25_no_assert",
    "Verif.Tbf.C25_dl_dlAss",
    "Verif.Tbf.C25_dl_dlAss_kept",
    "Verif.Tbf.C25_ul_dlAss",
    "Verif.Tbf.C25_dl_ulAss_partial",
    "Verif.Tbf.C25_ul_ulAss_partial",
    "Verif.Tbf.C25_final_ack_pending",
    "Verif.Tbf.C25_final_ack",
    "Verif.Tbf.C25_ulAss_lost",
    "Verif.Tbf.C25_dlAss_request_dropped"
   ],
   "note": "Downlink assignment and final acknowledgement are never lost. An uplink assignment on a TBF past its own assignment is dropped after one unanswered poll, and a second downlink assignment request during the wait is dropped (negations proved)."
  },
  {
   "property": "C26",
   "status": "proved",
   "theorems": [
    "Verif.Tbf.C26_n3105",
    "Verif.Tbf.C26_n3101",
    "Verif.Tbf.C26_n3103"
   ],
   "note": "All histories and all 8-bit limits (0 stands for 256). N3101: unused grants are reported only for a TBF past its assignment, as the scheduler grants blocks only in FLOW."
  },
  {
   "property": "C27",
   "status": "proved",
   "theorems": [
    "Verif.Sched.C27_resync"
   ],
   "note": "All histories of requests; the TBFs are an arbitrary snapshot at each request."
  },
  {
   "property": "C28",
   "status": "proved",
   "theorems": [
    "Verif.Sched.C28_usf",
    "Verif.Sched.C28_fair",
    "Verif.Sched.C28_progress"
   ],
   "note": "All histories of requests, reservations and expiry; reservations within the window of C18."
  },
  {
   "property": "C29",
   "status": "proved",
   "theorems": [
    "Verif.Sched.C29_most_urgent",
    "Verif.Sched.C29_no_idle",
    "Verif.Sched.C29_fair",
    "Verif.Sched.C29_frames"
   ],
   "note": "Urgency is specified separately (Spec/Sched.lean) from what a user of the scheduler knows of a TBF."
  },
  {
   "property": "C30",
   "status": "partial",
   "theorems": [
    "Verif.Sched.C30_sent_pending",
    "Verif.Sched.C30_control_first_partial",
    "Verif.Sched.C30_tbf_before_paging_partial",
    "Verif.Sched.C30_rotation_partial",
    "Verif.Sched.C30_ack_rotation",
    "Verif.Sched.C30_app_info_skips_control",
    "Verif.Sched.C30_ack_starved",
    "Verif.Sched.C30_own_direction_starved"
   ],
   "note": "False of the code in three situations (negations proved): application information waiting, an assignment that cannot be built hides the acknowledgement of the same TBF, own-direction assignments starve. Proved otherwise, with the bound of four blocks for kinds and one turn per TBF for acknowledgements."
  },
  {
   "property": "C31",
   "status": "partial",
   "theorems": [
    "Verif.Sched.C31_never_sent",
    "Verif.Sched.C31_counter_partial",
    "Verif.Sched.C31_only_with_dl_assignment",
    "Verif.Sched.C31_freed_is_counted",
    "Verif.Sched.C31_second_request"
   ],
   "note": "False of the code: the message is never sent in any history, and the counter drifts when a mobile is freed or a second request comes (negations proved). The counter is proved right for orderly histories."
  },
  {
   "property": "C32",
   "status": "partial",
   "theorems": [
    "Verif.Sched.C32_gmsk_partial",
    "Verif.Sched.C32_mcs8_repeated",
    "Verif.Sched.C32_arq2_repeated",
    "Verif.Sched.C32_final_repeated"
   ],
   "note": "False of the code when a block of MCS-8 is repeated, under ARQ type II, and when the final block is repeated (negations proved); proved otherwise."
  },
  {
   "property": "C33",
   "status": "partial",
   "theorems": [
    "Verif.Store.C33_kept",
    "Verif.Store.C33_announced",
    "Verif.Store.C33_change",
    "Verif.Store.C33_confirmed",
    "Verif.Store.C33_never_lost",
    "Verif.Store.C33_lookup_partial",
    "Verif.Store.C33_uplink_found_partial",
    "Verif.Store.C33_store_kept_partial",
    "Verif.Store.C33_merge_forgets_old",
    "Verif.Store.C33_reserved_loses",
    "Verif.Store.C33_two_mobiles"
   ],
   "note": "Proved for one mobile over all announcements; for the list of mobiles when the SGSN does not name two mobiles in one PDU and uses proper TLLIs. Negations: a merge forgets the old TLLI of the merged record, a PDU with the reserved TLLI leaves a mobile under no TLLI, one PDU can make two mobiles valid under one TLLI."
  },
  {
   "property": "C34",
   "status": "partial",
   "theorems": [
    "Verif.Ms.C34_config",
    "Verif.Ms.C34_max",
    "Verif.Ms.C34_current_partial",
    "Verif.Ms.C34_one_step",
    "Verif.Ms.C34_block",
    "Verif.Ms.C34_block_defined",
    "Verif.Ms.C34_block_exceeds_max",
    "Verif.Ms.C34_forced_exceeds_max",
    "Verif.Ms.C34_forced_not_of_mode",
    "Verif.Ms.C34_lowered_max",
    "Verif.Ms.C34_unsupported_scheme"
   ],
   "note": "The adapted scheme stays within configured limits and moves one step at a time; negations show where the scheme of a block leaves them (fallback and control blocks, forced schemes, limits lowered later, schemes the BTS does not support)."
  },
  {
   "property": "C35",
   "status": "partial",
   "theorems": [
    "Verif.Paging.C35_message",
    "Verif.Paging.C35_unambiguous",
    "Verif.Paging.C35_dropped",
    "Verif.Paging.C35_sent_partial",
    "Verif.Paging.C35_exact_fill_lost",
    "Verif.Paging.C35_six_lost"
   ],
   "note": "Messages that are sent are exact. Records are lost if the entries fill the block to the last bit or there are more than five, because the check before sending fails (negations proved); this cannot happen with TMSIs and identities of six octets or more."
  },
  {
   "property": "C36",
   "status": "partial",
   "theorems": [
    "Verif.Cache.C36_latest",
    "Verif.Cache.C36_once",
    "Verif.Cache.C36_fresh_partial",
    "Verif.Cache.C36_cleaned",
    "Verif.Cache.C36_kept",
    "Verif.Cache.C36_stale"
   ],
   "note": "The age is checked by a timer only: between the moment the timer is due and its callback a value that is too old is returned (negation proved); fresh at all other times. The value is always the one stored last."
  },
  {
   "property": "C37",
   "status": "partial",
   "theorems": [
    "Verif.Pch.C37_paged_partial",
    "Verif.Pch.C37_once",
    "Verif.Pch.C37_due",
    "Verif.Pch.C37_stop",
    "Verif.Pch.C37_stop_one",
    "Verif.Pch.C37_foreign_tlli"
   ],
   "note": "Proved when the PCU can tell which subscriber it hears; a subscriber heard under a foreign TLLI without IMSI stays paged (negation proved)."
  },
  {
   "property": "C38",
   "status": "partial",
   "theorems": [
    "Verif.Ws.C38_legal",
    "Verif.Ws.C38_read",
    "Verif.Ws.C38_configured",
    "Verif.Ws.C38_uplink_assignment"
   ],
   "note": "Legal for every configuration and slot mask, and read correctly from the assignment messages that use enc_ws. False of the Packet Uplink Assignment, in which the window size is always read as 64 (negation proved)."
  },
  {
   "property": "C39",
   "status": "partial",
   "theorems": [
    "Verif.Crbb.C39_prefix_free",
    "Verif.Crbb.C39_decode_meaning",
    "Verif.Crbb.C39_decode_bounded",
    "Verif.Crbb.C39_unambiguous",
    "Verif.Crbb.C39_encode_prefix",
    "Verif.Crbb.C39_encode_claim_partial",
    "Verif.Crbb.C39_encode_whole_partial",
    "Verif.Crbb.C39_roundtrip",
    "Verif.Crbb.C39_encoder_buffer",
    "Verif.Crbb.C39_claim_wrong_after_cut",
    "Verif.Crbb.C39_claim_truncated"
   ],
   "note": "Decoder correct for every input; encoder always encodes a prefix of the bitmap; its claimed prefix length is proved right in the stated cases and wrong in two others (negations)."
  },
  {
   "property": "C40",
   "status": "partial",
   "theorems": [
    "Verif.Ta.C40_range",
    "Verif.Ta.C40_burst",
    "Verif.Ta.C40_data",
    "Verif.Ta.C40_message",
    "Verif.Ta.C40_index_partial",
    "Verif.Ta.C40_released",
    "Verif.Ta.C40_no_assert",
    "Verif.Ta.C40_early",
    "Verif.Ta.C40_unknown",
    "Verif.Ta.C40_index_lost"
   ],
   "note": "Timing advance always in range and equal to the delay of the last burst. Indices are unique and reusable as long as bursts come only from mobiles that hold an index; negations: other bursts take indices away for good, a correction of an unknown timing advance makes it 63, small early errors are corrected though late ones are not."
  },
  {
   "property": "C41",
   "status": "partial",
   "theorems": [
    "Verif.Nacc.C41_continue_partial",
    "Verif.Nacc.C41_first_partial",
    "Verif.Nacc.C41_progress_partial",
    "Verif.Nacc.C41_local",
    "Verif.Nacc.C41_other_rat",
    "Verif.Nacc.C41_long"
   ],
   "note": "Proved for GSM cells of other PCUs with up to 573 octets of system information: what the mobile got was given since it asked. Negations proved: for another BTS of the same PCU the own system information is sent; after a second request for another kind of network the Continue message names the old cell; with more than 573 octets the container index wraps. Continue is sent without any container if the network gives no information."
  },
  {
   "property": "C42",
   "status": "partial",
   "theorems": [
    "Verif.Store.C42_handle_partial",
    "Verif.Store.C42_decoded",
    "Verif.Store.C42_wrong_tlli",
    "Verif.Store.C42_violated"
   ],
   "note": "False of the code: the old TLLI is read from two of its four octets and only if the lifetime IE has two octets (negation proved for every TLLI of 2^16 or more). Proved for the handling behind the decoder."
  },
  {
   "property": "C43",
   "status": "partial",
   "theorems": [
    "Verif.Store.C43_frames_partial",
    "Verif.Store.C43_released",
    "Verif.Store.C43_released_later",
    "Verif.Store.C43_terminates_partial",
    "Verif.Store.C43_hang",
    "Verif.Store.C43_acked_lost"
   ],
   "note": "False of the code: frames sent after the first acknowledgement are lost, and the loop does not end if a replaced TBF has a timer pending (negations proved). Proved in all other cases."
  },
  {
   "property": "C44",
   "status": "partial",
   "theorems": [
    "Verif.Split.C44_dl_correct_partial",
    "Verif.Split.C44_dl_halves_partial",
    "Verif.Split.C44_dl_no_abort",
    "Verif.Split.C44_pair_scheme",
    "Verif.Split.C44_pair_plain",
    "Verif.Split.C44_dl_violated",
    "Verif.Split.C44_dl_puncturing",
    "Verif.Split.C44_ul_one_block",
    "Verif.Split.C44_ul_unequal_partial",
    "Verif.Split.C44_ul_all_blocks_partial",
    "Verif.Split.C44_ul_violated_order",
    "Verif.Split.C44_ul_violated_overflow",
    "Verif.Split.C44_ul_violated_mixed"
   ],
   "note": "Downlink: correct for every history but one situation (MCS-4, negation proved). Uplink: correct for equal halves in any order; false for MCS-8 halves in reverse order and when a whole copy follows a half (stale status, write past the block store): negations proved."
  },
  {
   "property": "C45",
   "status": "partial",
   "theorems": [
    "Verif.Rach.C45_block",
    "Verif.Rach.C45_tbf",
    "Verif.Rach.C45_unsupported",
    "Verif.Rach.C45_busy",
    "Verif.Rach.C45_only",
    "Verif.Rach.C45_answered_partial",
    "Verif.Rach.C45_not_answered",
    "Verif.Rach.C45_gprs_tbf_as_egprs"
   ],
   "note": "All bursts and all request values; the allocators are an arbitrary environment. Every request is answered if the mobile allocation has up to five octets; negations: with a longer one resources are allocated and nothing is sent, and some EGPRS requests get a GPRS TBF announced by an EGPRS assignment."
  },
  {
   "property": "C46",
   "status": "proved",
   "theorems": [
    "Verif.Alloc.C46_counters",
    "Verif.Alloc.C46_enabled",
    "Verif.Alloc.C46_idle"
   ],
   "note": "Counters are unbounded numbers in the model (8 bits in the code)."
  },
  {
   "property": "C47",
   "status": "proved",
   "theorems": [
    "Verif.Ia.C47_start",
    "Verif.Ia.C47_unique"
   ],
   "note": ""
  },
  {
   "property": "C48",
   "status": "partial",
   "theorems": [
    "Verif.Fc.C48_bucket",
    "Verif.Fc.C48_limits",
    "Verif.Fc.C48_nonzero",
    "Verif.Fc.C48_forced",
    "Verif.Fc.C48_delay_partial",
    "Verif.Fc.C48_delay_lost",
    "Verif.Fc.C48_leak_unit"
   ],
   "note": "Limits and non-zero hold for all configurations and measurements. The delay is false of the code: parts of a second of the sum are lost (negation proved); leak rates that the user gives in bit/s are announced as octets per second (negation proved)."
  },
  {
   "property": "C49",
   "status": "proved",
   "theorems": [
    "Verif.Paging.C49_everywhere",
    "Verif.Paging.C49_needed",
    "Verif.Paging.C49_known"
   ],
   "note": "bts_add_paging on every list of TBFs."
  },
  {
   "property": "C50",
   "status": "partial",
   "theorems": [
    "Verif.Ia.C50_ul_tbf",
    "Verif.Ia.C50_ul_block",
    "Verif.Ia.C50_egprs_ul_tbf",
    "Verif.Ia.C50_egprs_ul_block",
    "Verif.Ia.C50_dl_partial",
    "Verif.Ia.C50_dl_bep_period",
    "Verif.Ia.C50_ul_sent",
    "Verif.Ia.C50_dl_sent",
    "Verif.Ia.C50_ul_not_sent",
    "Verif.Ia.C50_dl_not_sent"
   ],
   "note": "Read by an independent parser of TS 44.018. All uplink assignments and downlink assignments of GPRS TBFs are exact; a downlink assignment of an EGPRS TBF announces a BEP_PERIOD2 that was not written (negation proved), all else is exact."
  },
  {
   "property": "C51",
   "status": "partial",
   "theorems": [
    "Verif.Ia.C51_sent",
    "Verif.Ia.C51_reject",
    "Verif.Ia.C51_egprs_partial",
    "Verif.Ia.C51_egprs_wrong"
   ],
   "note": "Exact for 8-bit requests. For 11-bit requests the reject also names another request, because 0/1 are written in place of L/H (negation proved)."
  },
  {
   "property": "C52",
   "status": "partial",
   "theorems": [
    "Verif.Fc.C52_leak_partial",
    "Verif.Fc.C52_ms_leak",
    "Verif.Fc.C52_two_per_block",
    "Verif.Fc.C52_late_reports",
    "Verif.Fc.C52_overflow"
   ],
   "note": "Holds if not more blocks are reported than sent; with MCS-7 to MCS-9 or late reports the unsigned subtraction wraps and the largest rate is announced (negations proved)."
  },
  {
   "property": "C53",
   "status": "partial",
   "theorems": [
    "Verif.Analyse.C53_error_rate_partial",
    "Verif.Analyse.C53_gprs",
    "Verif.Analyse.C53_egprs_wrong"
   ],
   "note": "Proved for GPRS and for EGPRS up to sequence number 255. Beyond, the starting sequence number is cut to an octet and other blocks are judged (negation proved)."
  },
  {
   "property": "C54",
   "status": "proved",
   "theorems": [
    "Verif.Ia.C54_understood",
    "Verif.Ia.C54_status",
    "Verif.Ia.C54_paged",
    "Verif.Ia.C54_imsi_str"
   ],
   "note": "Encoding of identities by libosmocore is modelled, decoding of the IMSI of a PDU is taken as its result. IMSI of 1 to 15 digits."
  },
  {
   "property": "C55",
   "status": "partial",
   "theorems": [
    "Verif.Ia.C55_content_partial",
    "Verif.Ia.C55_no_header",
    "Verif.Ia.C55_usf_overwrites"
   ],
   "note": "The stored message has type and data; what is sent lacks the MAC header, so no mobile takes it for a control message, and the USF is written over the type and data. To whom it is sent is C33."
  },
  {
   "property": "C56",
   "status": "partial",
   "theorems": [
    "Verif.Csn1.C56_partial",
    "Verif.Csn1.C56_measurement_report",
    "Verif.Csn1.C56_cell_change",
    "Verif.Csn1.C56_pause"
   ],
   "note": "Proved for every block of every message type but three. Negations: a Packet Measurement Report or Cell Change Notification with seven or more measurements and every Packet Pause message is stored outside of the array meant for it."
  },
  {
   "property": "C57",
   "status": "partial",
   "theorems": [
    "Verif.Csn1.C57_gprs",
    "Verif.Csn1.C57_gprs_final",
    "Verif.Csn1.C57_wrong_tfi",
    "Verif.Csn1.C57_wrong_tfi_egprs",
    "Verif.Csn1.C57_egprs_partial",
    "Verif.Csn1.C57_egprs_misread"
   ],
   "note": "GPRS: all messages. EGPRS: messages without extension bits whose bitmaps are whole octets; otherwise the last bits are stored at the wrong end of their octet and a block that the mobile misses can be taken as acknowledged (negation proved)."
  },
  {
   "property": "C58",
   "status": "partial",
   "theorems": [
    "Verif.C58.C58_fits",
    "Verif.C58.C58_sent_partial",
    "Verif.C58.C58_too_long",
    "Verif.C58.C58_exact_fit",
    "Verif.C58.C58_single_arfcn",
    "Verif.C58.C58_egprs_lost"
   ],
   "note": "Every assignment that fits into a block is sent exactly; without frequency hopping every assignment fits. Negations: longer ones (hopping) are not sent; if exactly the EGPRS parameters do not fit, the assignment is sent without them, as for a GPRS TBF."
  },
  {
   "property": "C59",
   "status": "partial",
   "theorems": [
    "Verif.C59.C59_gprs",
    "Verif.C59.C59_egprs_partial",
    "Verif.C59.C59_window_wrong",
    "Verif.C59.C59_gprs_single_arfcn",
    "Verif.C59.C59_egprs_single_arfcn_partial",
    "Verif.C59.C59_eight_slots_not_sent"
   ],
   "note": "GPRS: sent exactly if it fits, which is always so without hopping. EGPRS: exact except for the window size, which is wrong for every window but the smallest (negation proved); with eight time slots, TLLI and timing advance nothing is sent."
  },
  {
   "property": "C60",
   "status": "proved",
   "theorems": [
    "Verif.C60.C60_neighbour_data",
    "Verif.C60.C60_procedure",
    "Verif.C60.C60_continue"
   ],
   "note": "Bit for bit, for every container that C41's procedure can make."
  },
  {
   "property": "C61",
   "status": "partial",
   "theorems": [
    "Verif.Csn1.C61_control_ack",
    "Verif.Csn1.C61_measurement",
    "Verif.Csn1.C61_cell_change",
    "Verif.Csn1.C61_cell_change_utran",
    "Verif.Csn1.C61_cell_change_r8",
    "Verif.Csn1.C61_cell_change_r8_other",
    "Verif.Csn1.C61_tlli_distinct"
   ],
   "note": "Control acknowledgements with all optional parts; reports and notifications without the additions of releases 99 to 8 and with up to six neighbours (C56 shows that seven are stored outside their array); notifications for GSM, UTRAN and E-UTRAN cells, not for closed subscriber groups."
  },
  {
   "property": "C62",
   "status": "partial",
   "theorems": [
    "Verif.UlService.C62_in_order_unchanged",
    "Verif.UlService.C62_acknowledged_is_sent",
    "Verif.UlService.C62_all_acknowledged",
    "Verif.UlService.C62_arrived_is_sent_egprs_partial",
    "Verif.UlService.C62_arrived_is_sent_gprs_partial",
    "Verif.UlService.C62_gprs_frame_lost"
   ],
   "note": "Order, integrity and 'acknowledged implies sent' are proved in full for all windows. That arrived frames are sent at once is proved for EGPRS windows up to 512 and for GPRS without the block 63 ahead of V(R); in that case it is false (C62_gprs_frame_lost)."
  },
  {
   "property": "C63",
   "status": "partial",
   "theorems": [
    "Verif.DlService.C63_waiting_is_sent",
    "Verif.DlService.C63_in_order_unchanged",
    "Verif.DlService.C63_finished_is_delivered",
    "Verif.DlService.C63_idle_is_delivered",
    "Verif.DlService.C63_always_sends",
    "Verif.DlService.C63_all_delivered",
    "Verif.DlService.C63_in_order_unchanged_gprs_partial",
    "Verif.DlService.C63_finished_is_delivered_gprs_partial",
    "Verif.DlService.C63_idle_is_delivered_gprs_partial",
    "Verif.DlService.C63_always_sends_gprs_partial",
    "Verif.DlService.C63_all_delivered_gprs_partial",
    "Verif.DlService.C63_gprs_frame_lost"
   ],
   "note": "Proved in full for EGPRS, all window sizes. GPRS: except when the last block of the TBF is filled exactly by a frame that follows a delimited one; there it is false (C63_gprs_frame_lost, see C07)."
  },
  {
   "property": "C64",
   "status": "partial",
   "theorems": [
    "Verif.UlAckMsg.C64_gprs_never_acks_unreceived",
    "Verif.UlAckMsg.C64_gprs_step",
    "Verif.UlAckMsg.C64_gprs_exact_partial",
    "Verif.UlAckMsg.C64_egprs_exact_small_window",
    "Verif.UlAckMsg.C64_egprs_never_acks_unreceived_partial",
    "Verif.UlAckMsg.C64_egprs_step_partial",
    "Verif.UlAckMsg.C64_egprs_exact_partial",
    "Verif.UlAckMsg.C64_egprs_false_ack",
    "Verif.UlAckMsg.C64_egprs_false_ack_cut",
    "Verif.UlAckMsg.C64_egprs_unreadable"
   ],
   "note": "GPRS: no false acknowledgement in any history; exact except for the block of C02. EGPRS windows up to 79: proved in full. Larger windows: for bitmaps that fit uncompressed, or are compressed as in C39 with room for the rest. Beyond that it is false: bitmaps of 256 and more and cut runs acknowledge blocks never received (C64_egprs_false_ack, C64_egprs_false_ack_cut), and some messages overflow and cannot be read (C64_egprs_unreadable)."
  },
  {
   "property": "C65",
   "status": "partial",
   "theorems": [
    "Verif.Bvc.C65_keeps_trying",
    "Verif.Bvc.C65_down",
    "Verif.Bvc.C65_unblocked",
    "Verif.Bvc.C65_signalling_first",
    "Verif.Bvc.C65_no_endless_exchange",
    "Verif.Bvc.C65_becomes_quiet",
    "Verif.Bvc.C65_recovers",
    "Verif.Bvc.C65_comes_up",
    "Verif.Bvc.C65_reset_mistaken",
    "Verif.Bvc.C65_data_before_unblocked"
   ],
   "note": "All parts hold except that data of mobiles is sent before any reset (C65_data_before_unblocked); also acknowledgements of the signalling reset can be taken for those of the cell's BVC (C65_reset_mistaken)."
  },
  {
   "property": "C66",
   "status": "partial",
   "theorems": [
    "Verif.Bssgp.C66_unitdata",
    "Verif.Bssgp.C66_unitdata_refused",
    "Verif.Bssgp.C66_unitdata_sent",
    "Verif.Bssgp.C66_paging_cs",
    "Verif.Bssgp.C66_paging_ps",
    "Verif.Bssgp.C66_paging_refused",
    "Verif.Bssgp.C66_reset",
    "Verif.Bssgp.C66_blocked",
    "Verif.Bssgp.C66_no_assertion",
    "Verif.Bssgp.C66_inside_partial",
    "Verif.Bssgp.C66_reads_beyond",
    "Verif.Bssgp.C66_status_partial",
    "Verif.Bssgp.C66_status_without_bvci"
   ],
   "note": "Understanding and refusal of DL-UNITDATA and pagings proved in full. Octets beyond the message are read if a TLLI or BVCI element is shorter than it must be or the fixed part is cut (C66_inside_partial, C66_reads_beyond); the STATUS for an unknown BVC does not name it (C66_status_without_bvci). The old TLLI is C42."
  },
  {
   "property": "C67",
   "status": "partial",
   "theorems": [
    "Verif.RaCap.C67_classes_partial",
    "Verif.RaCap.C67_unitdata_partial",
    "Verif.RaCap.C67_any_octets",
    "Verif.RaCap.C67_fails_additional",
    "Verif.RaCap.C67_fails_unknown"
   ],
   "note": "Proved for all capabilities with at most three further technologies in a list of additional ones. With more the classes are read from that list (C67_fails_additional); an entry of the unused type 14 makes the PCU lose everything (C67_fails_unknown). C67_any_octets is complete."
  },
  {
   "property": "C68",
   "status": "partial",
   "theorems": [
    "Verif.ResReq.C68_request_partial",
    "Verif.ResReq.C68_fails_type2"
   ],
   "note": "Proved for all requests without link quality measurements of type 2 (release 7) and with at most three further technologies in a list of additional ones (C67). A request with measurements of type 2 is dropped although it conforms (C68_fails_type2): the tables read the second member of an absent pair. Iu mode and extended channel requests are not in the specification."
  },
  {
   "property": "C69",
   "status": "proved",
   "theorems": [
    "Verif.PcuIf.C69_block",
    "Verif.PcuIf.C69_block_unused",
    "Verif.PcuIf.C69_confirm",
    "Verif.PcuIf.C69_ready",
    "Verif.PcuIf.C69_rach",
    "Verif.PcuIf.C69_page",
    "Verif.PcuIf.C69_suspend",
    "Verif.PcuIf.C69_app_info",
    "Verif.PcuIf.C69_neighbour",
    "Verif.PcuIf.C69_e1"
   ],
   "note": "For the messages as Spec/PcuIf lays them out, on a little-endian machine, BER at most 100 percent, channels of the 8 TRXs and 8 time slots. What the messages configure is C70, malformed ones are C71."
  },
  {
   "property": "C70",
   "status": "partial",
   "theorems": [
    "Verif.PcuIf.C70_accepted",
    "Verif.PcuIf.C70_config_partial",
    "Verif.PcuIf.C70_no_hopping_partial",
    "Verif.PcuIf.C70_requested",
    "Verif.PcuIf.C70_toggles",
    "Verif.PcuIf.C70_timers_partial",
    "Verif.PcuIf.C70_system_information",
    "Verif.PcuIf.C70_fails_hopping_off",
    "Verif.PcuIf.C70_fails_timers"
   ],
   "note": "Proved for all histories but for two points where the code deviates. Hopping that was announced for a channel is kept when a later announcement has none (C70_fails_hopping_off); it is right for channels never announced with hopping. The timers are one array for all BTSs and set to their defaults when a message with another BTS number arrives (C70_fails_timers); they are right with a single BTS. Limits configured at the PCU are constant during the history."
  },
  {
   "property": "C71",
   "status": "partial",
   "theorems": [
    "Verif.PcuIf.C71_octets_partial",
    "Verif.PcuIf.C71_exit",
    "Verif.PcuIf.C71_refused",
    "Verif.PcuIf.C71_fails_trx",
    "Verif.PcuIf.C71_fails_length",
    "Verif.PcuIf.C71_fails_frame_number",
    "Verif.PcuIf.C71_fails_mobile_allocation"
   ],
   "note": "Proved for all messages but blocks with a TRX or time slot beyond 7 or a length beyond 162 (memory outside the arrays is used), blocks with a frame number beyond the hyperframe and announcements with a mobile allocation beyond 64 bits (an assertion fails); each exception is shown to occur. Alignment of packed structures and the parser of mobile identities of libosmocore are not modelled."
  },
  {
   "property": "C72",
   "status": "partial",
   "theorems": [
    "Verif.Rim.C72_answer_partial",
    "Verif.Rim.C72_not_ours",
    "Verif.Rim.C72_refused",
    "Verif.Rim.C72_only_answers",
    "Verif.Rim.C72_report_kept",
    "Verif.Rim.C72_fails_undecoded",
    "Verif.Rim.C72_fails_cell"
   ],
   "note": "The cell named in the answer is the right one if all BTSs of the PCU have the same cell; with two cells it is that of the first BTS (fails_cell). A PDU that cannot be decoded is not answered although an error PDU is made for it (fails_undecoded). Encoding of BSSGP messages is libosmocore and not modelled; --mcc and --mnc are not modelled."
  },
  {
   "property": "C73",
   "status": "partial",
   "theorems": [
    "Verif.Rim.C73_continue_partial",
    "Verif.Rim.C73_between_pcus_partial",
    "Verif.Rim.C73_local_fails",
    "Verif.Rim.C73_waits",
    "Verif.Rim.C73_request_partial"
   ],
   "note": "For mobiles that ask for GSM cells (AsksGsm; see C41_other_rat), cells of other PCUs (Abroad; see C73_local_fails, C41_local), up to 573 octets (see C41_long), and BTSs that keep location area and cell identity (Steady). between_pcus: the other PCU has one BTS (see C72_fails_cell)."
  },
  {
   "property": "C74",
   "status": "partial",
   "theorems": [
    "Verif.Polls.C74_safe_partial",
    "Verif.Polls.C74_promises_partial",
    "Verif.Polls.C74_freed_partial",
    "Verif.Polls.C74_control_partial",
    "Verif.Polls.C74_disabled_partial",
    "Verif.Polls.C74_fails_trx",
    "Verif.Polls.C74_fails_continue"
   ],
   "note": "For Careful histories: a mobile with slots on one TRX makes no request on another, and a control slot is moved only when nothing is left promised on the old one and to a slot of the TBF. Negations: C74_fails_trx (find_trx of algorithm A ignores the TRX asked for: control slot on another TRX, the PCU crashes if that PDCH is switched off), C74_fails_continue (the poll of a Packet Cell Change Continue outlives its TBF when the control slot moves)."
  },
  {
   "property": "C75",
   "status": "proved",
   "theorems": [
    "Verif.PcuTx.C75_read",
    "Verif.PcuTx.C75_made",
    "Verif.PcuTx.C75_order",
    "Verif.PcuTx.C75_flush",
    "Verif.PcuTx.C75_stays",
    "Verif.PcuTx.C75_told"
   ],
   "note": "Little-endian machine, allocations succeed, SOCK_SEQPACKET (a write takes a whole message or nothing). Messages handed over without a connection are dropped, as the statement says; after the end of the connection the process exits."
  },
  {
   "property": "C76",
   "status": "partial",
   "theorems": [
    "Verif.Live.C76_left",
    "Verif.Live.C76_no_crash",
    "Verif.Live.C76_moves_partial",
    "Verif.Live.C76_ul",
    "Verif.Live.C76_dl",
    "Verif.Live.C76_stuck"
   ],
   "note": "The code violates the first part: rcv_measurement_report and rcv_cell_change_notification give back the block in which the answer to a poll was promised without telling the state machine that waits for it; after that nothing wakes the uplink TBF any more (C76_stuck, for all continuations). Proved in full for histories without that; the number of turns is limited in all histories. One PDCH, the control slot of the TBFs; that the BTS confirms an immediate assignment and that the scheduler grants blocks (C20) is taken as given."
  },
  {
   "property": "C77",
   "status": "partial",
   "theorems": [
    "Verif.Vty.C77_reads",
    "Verif.Vty.C77_partial",
    "Verif.Vty.C77_again",
    "Verif.Vty.C77_valid",
    "Verif.Vty.C77_caches",
    "Verif.Vty.C77_fails_bucket_time",
    "Verif.Vty.C77_fails_cs_max",
    "Verif.Vty.C77_fails_mcs_max",
    "Verif.Vty.C77_fails_idle_ack"
   ],
   "note": "The code violates it in exactly four places: config_write_pcu never writes flow-control bucket-time, and does not write that cs max, mcs max or queue idle-ack-delay were switched off, although the defaults are not off (C77_fails_*). C77_reads says for all configurations what the settings are after the restart; the file is always accepted. Matching of lines and conversion of numbers by libosmocore is taken as given; the nodes ns, log, etc. of libosmocore are not modelled."
  },
  {
   "property": "C78",
   "status": "partial",
   "theorems": [
    "Verif.Vty.C78_others",
    "Verif.Vty.C78_own_partial",
    "Verif.Vty.C78_order",
    "Verif.Vty.C78_bucket",
    "Verif.Vty.C78_fails"
   ],
   "note": "Violated by one command: flow-control bucket-time sets its value (C78_bucket) but the written configuration never shows it (C78_fails). For all other commands C78_own_partial and C78_others are complete. What is expected is said in Spec/VtyOne.lean in terms of the lines typed and written, without the settings in between."
  },
  {
   "property": "C79",
   "status": "partial",
   "theorems": [
    "Verif.Lim.C79_max",
    "Verif.Lim.C79_forced",
    "Verif.Lim.C79_announced",
    "Verif.Lim.C79_announced_stays",
    "Verif.Lim.C79_threshold",
    "Verif.Lim.C79_ranges_cs",
    "Verif.Lim.C79_ranges_mcs",
    "Verif.Lim.C79_mobiles_partial",
    "Verif.Lim.C79_fails_initial",
    "Verif.Lim.C79_fails_lowered",
    "Verif.Lim.C79_stops",
    "Verif.Lim.C79_fails_support"
   ],
   "note": "C79_max, C79_forced and C79_announced hold for every history. The claim about mobiles is violated when limits are lowered: schemes to begin with are not calculated again (C79_fails_initial), a mobile keeps a scheme above the limit (C79_fails_lowered), no mcs max stops the PCU at the next report (C79_stops), no cs max lets it use schemes the BTS did not announce (C79_fails_support). C79_mobiles_partial is for histories that do not lower limits of BTSs in operation and do not demand schemes above them."
  },
  {
   "property": "C80",
   "status": "partial",
   "theorems": [
    "Verif.Store.C80_used",
    "Verif.Store.C80_kept",
    "Verif.Store.C80_gone",
    "Verif.Store.C80_safe",
    "Verif.Store.C80_fails_frames",
    "Verif.Store.C80_fails_heard"
   ],
   "note": "C80_used, C80_kept, C80_gone and C80_safe hold for every history; what takes a record away before its time is another mobile that claims its identity (C43) or a PDU with the reserved TLLI (C33). The claim about frames is violated: frames that wait because no TBF could be started do not stop the timer and are discarded with the record although their lifetime is not over (C80_fails_frames); measurement reports do not restart the timer, rejected requests do (C80_fails_heard). The endless loop of C43 is the only other outcome (C80_safe)."
  },
  {
   "property": "C81",
   "status": "partial",
   "theorems": [
    "Verif.Start.C81_kept_partial",
    "Verif.Start.C81_idle_partial",
    "Verif.Start.C81_one",
    "Verif.Start.C81_queue",
    "Verif.Start.C81_sent",
    "Verif.Start.C81_frame",
    "Verif.Start.C81_where_partial",
    "Verif.Start.C81_fails_none",
    "Verif.Start.C81_fails_silent_ul",
    "Verif.Start.C81_fails_silent_dl",
    "Verif.Start.C81_fails_pch"
   ],
   "note": "C81_one, C81_queue, C81_sent and C81_frame hold in every history. C81_kept_partial and C81_idle_partial are for histories in which allocations succeed and the current TBFs are not given up; otherwise frames are left without a TBF and nothing but another frame or request starts one (C81_fails_none: no resources; C81_fails_silent_ul: T3141; C81_fails_silent_dl: X2001). C81_where_partial leaves out the confirmed final acknowledgement of an older uplink TBF, after which the assignment goes to the PCH although the mobile has an uplink TBF (C81_fails_pch), and a confirmed uplink assignment that is not that of an uplink TBF being assigned."
  },
  {
   "property": "C82",
   "status": "partial",
   "theorems": [
    "Verif.Req.C82_reject",
    "Verif.Req.C82_answered",
    "Verif.Req.C82_who_partial",
    "Verif.Req.C82_tfi",
    "Verif.Req.C82_named_partial",
    "Verif.Req.C82_stable",
    "Verif.Req.C82_fails"
   ],
   "note": "C82_reject, C82_answered and C82_stable hold for all inputs. A mobile that begins to use a TLLI which the SGSN has used already is answered by its former TLLI (C82_fails); C82_named_partial says exactly when the TLLI is that of the request, for histories in which the SGSN does not name two mobiles in one PDU."
  },
  {
   "property": "C83",
   "status": "partial",
   "theorems": [
    "Verif.Alloc.C83_dl",
    "Verif.Alloc.C83_dl_b_partial",
    "Verif.Alloc.C83_ul_a",
    "Verif.Alloc.C83_ul_one_trx",
    "Verif.Alloc.C83_ul_b_partial",
    "Verif.Alloc.C83_fails_dl",
    "Verif.Alloc.C83_fails_ul"
   ],
   "note": "Downlink with the algorithms A and dynamic: proved as stated (C83_dl). Algorithm B refuses a downlink TBF when a PDCH has more than 32 reservations (C83_fails_dl); without that, C83_dl_b_partial. Uplink: each algorithm chooses the TRX without looking at its USFs and so refuses a mobile although another TRX has room (C83_fails_ul); C83_ul_a says exactly when algorithm A refuses, C83_ul_one_trx that with one TRX the property holds, C83_ul_b_partial that algorithm B refuses nobody while every PDCH has a free USF."
  },
  {
   "property": "C84",
   "status": "partial",
   "theorems": [
    "Verif.Alloc.C84_tbf",
    "Verif.Alloc.C84_request",
    "Verif.Rach.C84_rach",
    "Verif.Ulc.C84_sba_partial",
    "Verif.Ulc.C84_fails"
   ],
   "note": "TBFs and RACH: proved as stated. Single blocks: a Packet Cell Change Notification received in a single block, and disabling a PDCH, remove the reservation without releasing the block (C84_fails); otherwise the counters balance (C84_sba_partial)."
  },
  {
   "property": "C85",
   "status": "partial",
   "theorems": [
    "Verif.Alloc.C85_table",
    "Verif.Alloc.C85_allocation_partial",
    "Verif.Alloc.C85_row",
    "Verif.Alloc.C85_history_partial",
    "Verif.Alloc.C85_fails"
   ],
   "note": "Proved for one allocation and for the histories of C23 (the class does not change while slots are held, no PDCH is disabled, single slot uplink requests find a free USF). C85_fails: a class learned after slots were reserved under the default class."
  },
  {
   "property": "C86",
   "status": "partial",
   "theorems": [
    "Verif.Store.C86_kept",
    "Verif.Store.C86_merged",
    "Verif.Store.C86_learned_partial",
    "Verif.Store.C86_new"
   ],
   "note": "Kept, merged and new: proved for all histories. Learned: for histories in which no frame has TLLIs of two different mobiles (as C33). Not modelled here: the capabilities in a Packet Resource Request (C61 decodes them)."
  },
  {
   "property": "C87",
   "status": "partial",
   "theorems": [
    "Verif.Confirm.C87_begins",
    "Verif.Confirm.C87_confirm",
    "Verif.Confirm.C87_handed",
    "Verif.Confirm.C87_progress",
    "Verif.Confirm.C87_reference",
    "Verif.Confirm.C87_own_partial",
    "Verif.Confirm.C87_fails"
   ],
   "note": "Proved for all histories: no data before a confirmation for the mobile since the last assignment of the TBF was handed over, and X2002, or an acknowledgement; a confirmation affects only the TBF of the mobile that waits for it; the reference comes back as it was sent. False of the code for the assignment itself: the confirmation of the assignment of an earlier TBF of the mobile starts the later one (C87_fails); own_partial says when this does not happen."
  },
  {
   "property": "C88",
   "status": "partial",
   "theorems": [
    "Verif.Link.C88_link",
    "Verif.Link.C88_ber",
    "Verif.Link.C88_rx_quality",
    "Verif.Link.C88_reported",
    "Verif.Link.C88_levels_partial",
    "Verif.Link.C88_fails"
   ],
   "note": "Proved for all sequences of blocks: each value shown is that of the last block that carries it, in the unit shown. False of the code in two places (C88_fails): interference levels stay when the last report has none, and a block with an EGPRS acknowledgement changes nothing, not even the signal strength."
  },
  {
   "property": "C89",
   "status": "partial",
   "theorems": [
    "Verif.Reports.C89_parts",
    "Verif.Reports.C89_rssi",
    "Verif.Reports.C89_loss",
    "Verif.Reports.C89_rate_partial",
    "Verif.Reports.C89_fails"
   ],
   "note": "Proved: the division of the measurements into reports exists, is unique and leaves none out; mean and percentage are those of the part (fewer than 2^24 blocks of an uplink TBF, and 2^16 of a downlink TBF, between two reports); the throughput is the number of octets per second, at most 3.7 percent too large (fewer than 4 MiB between two reports). False of the code: the number is shown as kbit/s, 125 times the rate, and stays when nothing is sent any more (C89_fails)."
  },
  {
   "property": "C90",
   "status": "partial",
   "theorems": [
    "Verif.UlEnd.C90_final_partial",
    "Verif.UlEnd.C90_finished_partial",
    "Verif.UlEnd.C90_marked",
    "Verif.UlEnd.C90_complete_egprs_partial",
    "Verif.UlEnd.C90_complete_gprs_partial",
    "Verif.UlEnd.C90_answered_partial",
    "Verif.UlEnd.C90_final_too_early",
    "Verif.UlEnd.C90_halves_unanswered"
   ],
   "note": "Proved: a final acknowledgement, and the state FINISHED, imply that all frames were passed on (window below 1024 blocks); the arrival of the last missing block finishes the transfer, and from the arrival of the last block on an acknowledgement is due (EGPRS window up to 512; GPRS if no arriving block is 63 ahead of V(R)); stalled, TLLI and 20th radio block make an acknowledgement due if the radio block has whole blocks only. False of the code: with a window of 1024 the transfer may be declared complete when only its last block arrived (C90_final_too_early); a mobile that sends halves of split blocks is never answered (C90_halves_unanswered)."
  },
  {
   "property": "C91",
   "status": "partial",
   "theorems": [
    "Verif.DlPoll.C91_asked_partial",
    "Verif.DlPoll.C91_reason",
    "Verif.DlPoll.C91_every_20",
    "Verif.DlPoll.C91_fails"
   ],
   "note": "Proved for all histories: the mobile is asked for each of the reasons but one, is asked for no other reason, and is asked at every 20th radio block at the latest if it always can be. False of the code: if the end of the last frame fills its block exactly and the TBF is kept open, the mobile is not asked with this block (C91_fails). Frames are not empty and blocks have at least 20 octets."
  },
  {
   "property": "C92",
   "status": "partial",
   "theorems": [
    "Verif.NsCfg.C92_exact_partial",
    "Verif.NsCfg.C92_only",
    "Verif.NsCfg.C92_made",
    "Verif.NsCfg.C92_local",
    "Verif.NsCfg.C92_kept",
    "Verif.NsCfg.C92_again",
    "Verif.NsCfg.C92_fails",
    "Verif.NsCfg.C92_sns",
    "Verif.NsCfg.C92_sns_local_fails"
   ],
   "note": "Proved for all histories and all failures of the library. False of the code: if one of two connections cannot be made the PCU goes on, but the same announcement again ends it (C92_fails); with IP-SNS a changed local address is ignored while the SGSN is the same (C92_sns_local_fails). The NS library is an input: what its calls answer. Addresses are numbers."
  },
  {
   "property": "C93",
   "status": "partial",
   "theorems": [
    "Verif.Clock.C93_follows_partial",
    "Verif.Clock.C93_late_partial",
    "Verif.Clock.C93_older",
    "Verif.Clock.C93_goes_on",
    "Verif.Clock.C93_zero_fails",
    "Verif.Clock.C93_first_fails",
    "Verif.Clock.C93_no_frame_stops"
   ],
   "note": "Proved for all histories with numbers below the hyperframe and a clock that is not at frame 0. False of the code: frame 0 is taken for a clock that is not set (C93_zero_fails), the first block can be counted as late (C93_first_fails), and a block of data with a number beyond the hyperframe ends the PCU (C93_no_frame_stops)."
  },
  {
   "property": "C94",
   "status": "partial",
   "theorems": [
    "Verif.Ccu.C94_in_step",
    "Verif.Ccu.C94_no_gap",
    "Verif.Ccu.C94_quiet",
    "Verif.Ccu.C94_lost",
    "Verif.Ccu.C94_recovers",
    "Verif.Ccu.C94_ahead_partial",
    "Verif.Ccu.C94_wrap_fails",
    "Verif.Ccu.C94_data_fails",
    "Verif.Ccu.C94_stuck_fails",
    "Verif.Ccu.C94_type"
   ],
   "note": "Proved for all sequences of frames, except that the distance is that of the sequence number only while the counter of the PCU fits into 22 bits; it is not reduced to them, so that after less than a day the PCU asks for blocks 16 minutes ahead (C94_wrap_fails, if the field of the TRAU frame has 22 bits as the code suggests by 0x3FFFFF). Also false of the code: data before the first frame numbers is handed on with a wrong number (C94_data_fails); numbers at which no block begins are confirmed (C94_stuck_fails). The coding of TRAU frames is not part of this code."
  },
  {
   "property": "C95",
   "status": "partial",
   "theorems": [
    "Verif.E1.C95_open_partial",
    "Verif.E1.C95_disconnect_partial",
    "Verif.E1.C95_connect_partial",
    "Verif.E1.C95_announced_partial",
    "Verif.E1.C95_refused",
    "Verif.E1.C95_moved_fails",
    "Verif.E1.C95_leak_fails",
    "Verif.E1.C95_subslot_fails",
    "Verif.E1.C95_stuck_fails",
    "Verif.E1.C95_crash",
    "Verif.E1.C95_slot31"
   ],
   "note": "Proved for histories in which the parameters of a connected unit do not change, subchannels can be added and the E1 library does not fail when closing. False of the code otherwise: changed parameters make the PCU close the time slot of another unit (C95_moved_fails); a subchannel that cannot be added leaves the time slot open for ever (C95_leak_fails, C95_subslot_fails); a failed synchroniser bars the unit for ever (C95_stuck_fails). Switching on before the parameters are announced dereferences NULL in a log message (C95_crash). Time slot 31 is accepted although the array has 31 elements (C95_slot31)."
  },
  {
   "property": "C96",
   "status": "partial",
   "theorems": [
    "Verif.Alloc.C96_flag",
    "Verif.Alloc.C96_room_dl",
    "Verif.Alloc.C96_room_ul_partial",
    "Verif.Alloc.C96_one_pdch_partial",
    "Verif.Alloc.C96_fails_ul",
    "Verif.Alloc.C96_fails_dl",
    "Verif.Alloc.C96_none"
   ],
   "note": "The flag is exact and a downlink TBF is given while it is not set, for all histories. For uplink TBFs proved for cells with one TRX; false with several, as the TRX is chosen without looking at its USFs (C96_fails_ul). That a set flag means a refusal is proved for cells with one PDCH; even there only one direction need be full (C96_fails_dl). A cell without any PDCH counts as full (C96_none). The counting of time is in libosmocore."
  },
  {
   "property": "C97",
   "status": "partial",
   "theorems": [
    "Verif.BlkCtr.C97_ul",
    "Verif.BlkCtr.C97_dl_partial",
    "Verif.BlkCtr.C97_dl_chosen",
    "Verif.BlkCtr.C97_tbf",
    "Verif.BlkCtr.C97_others",
    "Verif.BlkCtr.C97_no_null_partial",
    "Verif.BlkCtr.C97_kind_gprs",
    "Verif.BlkCtr.C97_kind_egprs",
    "Verif.BlkCtr.C97_dl_fails"
   ],
   "note": "Uplink exact. Downlink exact except for MCS-5, 6, 7 and 9, of which only the sums 5+7 and 6+9 are right: a block alone in its radio block is sent one scheme lower after it was counted (C97_dl_fails). That no missing counter is touched is proved under the condition that downlink blocks have a scheme of the kind of their TBF; the scheduler is proved to keep to it for TBFs that hold blocks of their kind (C97_kind_gprs, C97_kind_egprs); an invariant over all histories of a TBF is not. Counters are unbounded in the model."
  },
  {
   "property": "C98",
   "status": "partial",
   "theorems": [
    "Verif.Tap.C98_counts",
    "Verif.Tap.C98_sums",
    "Verif.Tap.C98_dl_tap",
    "Verif.Tap.C98_kinds",
    "Verif.Tap.C98_usf",
    "Verif.Tap.C98_contents",
    "Verif.Tap.C98_form",
    "Verif.Tap.C98_names",
    "Verif.Tap.C98_egprs",
    "Verif.Tap.C98_only_enabled",
    "Verif.Tap.C98_ul_counts",
    "Verif.Tap.C98_ul_tap_partial",
    "Verif.Tap.C98_ul_times",
    "Verif.Tap.C98_rach",
    "Verif.Tap.C98_rts_safe",
    "Verif.Tap.C98_ul_fails",
    "Verif.Tap.C98_trx_fails",
    "Verif.Tap.C98_block_fails",
    "Verif.Tap.C98_ul_safe_partial"
   ],
   "note": "Counters and the downlink are exact. Two parts of the claim are false of the code: with everything enabled an uplink control block that cannot be decoded is shown twice and one with the payload type 2 not at all (C98_ul_fails; C98_ul_tap_partial is about the others, C98_ul_times says how often any block is shown), and an access burst indicated for a TRX above 7 makes the PCU read behind the array of TRX if access bursts are shown (C98_trx_fails); so does a block on a TRX or time slot above 7 (C98_block_fails), others are safe (C98_ul_safe_partial). AGCH, PCH and PTCCH of the downlink and signal levels are not modelled; which message the scheduler finds is input here (C26, C27)."
  },
  {
   "property": "C99",
   "status": "proved",
   "theorems": [
    "Verif.PtcchTx.C99_answers",
    "Verif.PtcchTx.C99_tap",
    "Verif.PtcchTx.C99_range"
   ],
   "note": "For a fixed set of enabled time slots. That a burst for a TRX above 7 is read for GSMTAP before it is checked is C98_trx_fails. The meaning of the announced values for mobiles is C40."
  }
 ]
}