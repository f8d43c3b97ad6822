'Verif.RlcUl.C01_in_order_exactly_once' depends on axioms: [propext, Classical.choice, Quot.sound]
'Verif.RlcUl.C01_forwarded_is_final' depends on axioms: [propext]
'Verif.RlcUl.C01_complete_egprs_partial' depends on axioms: [propext, Classical.choice, Quot.sound]
'Verif.RlcUl.C01_complete_gprs_partial' depends on axioms: [propext, Classical.choice, Quot.sound]
'Verif.RlcUl.C01_gprs_window_edge_deadlock' depends on axioms: [propext, Quot.sound]
'Verif.RlcUl.C01_egprs_ws1024_first_copy_lost' depends on axioms: [propext, Quot.sound]
'Verif.RlcUl.C02_never_acks_unreceived' depends on axioms: [propext, Classical.choice, Quot.sound]
'Verif.RlcUl.C02_bitmap_exact_partial' depends on axioms: [propext, Classical.choice, Quot.sound]
'Verif.RlcUl.C02_edge_block_reported_missing' depends on axioms: [propext, Quot.sound]
'Verif.RlcUl.C02_egprs_bitmap_exact_partial' depends on axioms: [propext, Classical.choice, Quot.sound]
'Verif.RlcUl.C02_egprs_bitmap_empty_at_wrap' depends on axioms: [propext, Classical.choice, Quot.sound]
'Verif.RlcDl.C03_never_overrun' depends on axioms: [propext, Classical.choice, Quot.sound]
'Verif.RlcDl.C03_unacked_is_kept' depends on axioms: [propext, Classical.choice, Quot.sound]
'Verif.RlcDl.C03_next_is_fresh' depends on axioms: [propext, Classical.choice, Quot.sound]
'Verif.RlcDl.C03_outstanding_distinct' depends on axioms: [propext, Classical.choice, Quot.sound]
'Verif.RlcDl.C03_oldest_monotone' depends on axioms: [propext, Classical.choice, Quot.sound]
'Verif.RlcDl.C03_count_unacked' depends on axioms: [propext, Classical.choice, Quot.sound]
'Verif.RlcDl.C03_shrinking_defeats_stall_check' does not depend on any axioms
'Verif.RlcDl.C04_first_block' depends on axioms: [propext, Classical.choice, Quot.sound]
'Verif.RlcDl.C04_sends_only_window_blocks' depends on axioms: [propext, Classical.choice, Quot.sound]
'Verif.RlcDl.C04_refusal_only_for_second' depends on axioms: [propext, Classical.choice, Quot.sound]
'Verif.RlcDl.C04_terminates' depends on axioms: [propext, Classical.choice, Quot.sound]
'Verif.RlcDl.C04_no_software_error' depends on axioms: [propext, Classical.choice, Quot.sound]
'Verif.AckNack.C05_gprs_exact' depends on axioms: [propext, Classical.choice, Quot.sound]
'Verif.AckNack.C05_gprs_out_of_range_ignored' depends on axioms: [propext, Classical.choice, Quot.sound]
'Verif.AckNack.C05_gprs_final' depends on axioms: [propext, Classical.choice, Quot.sound]
'Verif.AckNack.C06_egprs_exact_partial' depends on axioms: [propext, Classical.choice, Quot.sound]
'Verif.AckNack.C06_egprs_final' depends on axioms: [propext, Classical.choice, Quot.sound]
'Verif.AckNack.C06_window_respected' depends on axioms: [propext, Classical.choice, Quot.sound]
'Verif.AckNack.C06_not_bow_misplaced' depends on axioms: [propext, Classical.choice, Quot.sound]
'Verif.AckNack.C06_stale_ssn_acks_all' depends on axioms: [propext, Classical.choice, Quot.sound]
'Verif.Seg.C07_frames_survive_partial' depends on axioms: [propext, Classical.choice, Quot.sound]
'Verif.Seg.C07_frames_survive_open' depends on axioms: [propext, Classical.choice, Quot.sound]
'Verif.Seg.C07_block_has_its_size_partial' depends on axioms: [propext, Classical.choice, Quot.sound]
'Verif.Seg.C07_last_block_completes_partial' depends on axioms: [propext, Classical.choice, Quot.sound]
'Verif.Seg.C07_all_delivered' depends on axioms: [propext, Classical.choice, Quot.sound]
'Verif.Seg.C07_violated' depends on axioms: [propext, Quot.sound]
'Verif.Seg.C07_not_all_delivered' depends on axioms: [propext, Quot.sound]
'Verif.Seg.C08_frames_survive' depends on axioms: [propext, Classical.choice, Quot.sound]
'Verif.Seg.C08_block_has_its_size' depends on axioms: [propext, Classical.choice, Quot.sound]
'Verif.Seg.C08_last_block_completes' depends on axioms: [propext, Classical.choice, Quot.sound]
'Verif.Seg.C08_all_delivered' depends on axioms: [propext, Classical.choice, Quot.sound]
'Verif.Seg.C08_tiny_frames_dropped' depends on axioms: [propext]
'Verif.Seg.C09_reassembly_stays_inside' depends on axioms: [propext, Classical.choice, Quot.sound]
'Verif.Seg.C09_tlli_call_partial' depends on axioms: [propext, Quot.sound]
'Verif.Seg.C09_violated' depends on axioms: [propext, Classical.choice, Quot.sound]
'Verif.Blk.C10_copy_in' depends on axioms: [propext, Classical.choice, Quot.sound]
'Verif.Blk.C10_copy_out' depends on axioms: [propext, Classical.choice, Quot.sound]
'Verif.Blk.C10_store_large_enough' depends on axioms: [propext, Quot.sound]
'Verif.Blk.C10_roundtrip' depends on axioms: [propext, Classical.choice, Quot.sound]
'Verif.Blk.C10_two_blocks' depends on axioms: [propext, Classical.choice, Quot.sound]
'Verif.Blk.C11_dl_header' depends on axioms: [propext, Classical.choice, Quot.sound]
'Verif.Blk.C11_dl_unambiguous' depends on axioms: [propext]
'Verif.Blk.C11_ul_header' depends on axioms: [propext, Classical.choice, Quot.sound]
'Verif.Cs.C12_cps_defined' depends on axioms: [propext, Quot.sound]
'Verif.Cs.C12_cps_unambiguous' depends on axioms: [propext, Quot.sound]
'Verif.Cs.C12_decode_partial' depends on axioms: [propext, Quot.sound]
'Verif.Cs.C12_decode_mcs9' depends on axioms: [propext, Quot.sound]
'Verif.Cs.C12_violated' depends on axioms: [propext]
'Verif.Cs.C12_padding_only_where_defined' depends on axioms: [propext]
'Verif.Split.C44_dl_puncturing' depends on axioms: [propext, Quot.sound]
'Verif.Cs.C13_size_identifies' does not depend on any axioms
'Verif.Cs.C13_sizes_distinct' does not depend on any axioms
'Verif.Cs.C13_kind' depends on axioms: [propext]
'Verif.Cs.C13_step_up' depends on axioms: [propext]
'Verif.Cs.C13_step_down' depends on axioms: [propext]
'Verif.Cs.C13_step_foreign' depends on axioms: [propext]
'Verif.Cs.C13_step_plain' depends on axioms: [propext]
'Verif.Cs.C13_retx_fits' depends on axioms: [propext, Quot.sound]
'Verif.Cs.C13_retx_obeys_command' depends on axioms: [propext]
'Verif.Cs.C13_retx_domain' depends on axioms: [propext]
'Verif.Cs.C13_block_layout' depends on axioms: [propext]
'Verif.Cs.C13_dec_to_single' depends on axioms: [propext]
'Verif.Llc.C14_accounting' depends on axioms: [propext, Classical.choice, Quot.sound]
'Verif.Llc.C14_lossless' depends on axioms: [propext, Classical.choice, Quot.sound]
'Verif.Llc.C14_fifo' depends on axioms: [propext, Classical.choice, Quot.sound]
'Verif.Llc.C14_priority' depends on axioms: [propext, Classical.choice, Quot.sound]
'Verif.Llc.C14_put_back' depends on axioms: [propext, Classical.choice, Quot.sound]
'Verif.Llc.C14_merge' depends on axioms: [propext, Quot.sound]
'Verif.Llc.C14_classes' depends on axioms: [propext, Quot.sound]
'Verif.Llc.C15_dequeue' depends on axioms: [propext, Classical.choice, Quot.sound]
'Verif.Llc.C15_never_expired' depends on axioms: [propext, Classical.choice, Quot.sound]
'Verif.Llc.C15_all_expired' depends on axioms: [propext, Classical.choice, Quot.sound]
'Verif.Llc.C15_nothing_lost' depends on axioms: [propext, Classical.choice, Quot.sound]
'Verif.Llc.C15_lifetime' depends on axioms: [propext, Classical.choice, Quot.sound]
'Verif.Llc.C15_droppable' depends on axioms: [propext, Classical.choice, Quot.sound]
'Verif.Llc.C15_hysteresis_void' depends on axioms: [propext, Classical.choice, Quot.sound]
'Verif.Codel.C16_drop_only_if_congested' depends on axioms: [propext, Classical.choice, Quot.sound]
'Verif.Codel.C16_drop_spacing' depends on axioms: [propext, Classical.choice, Quot.sound]
'Verif.Codel.C16_inverse_sqrt' depends on axioms: [propext, Quot.sound]
'Verif.Codel.C16_drop_not_early' depends on axioms: [propext, Classical.choice, Quot.sound]
'Verif.Codel.C16_leaves_when_relieved' depends on axioms: [propext, Classical.choice, Quot.sound]
'Verif.Seg.C17_wellformed_peer_partial' depends on axioms: [propext, Classical.choice, Quot.sound]
'Verif.Seg.C17_wellformed_peer_gprs_partial' depends on axioms: [propext, Classical.choice, Quot.sound]
'Verif.Seg.C17_violated' depends on axioms: [propext, Quot.sound]
'Verif.Seg.C17_overflow_after_21_blocks' depends on axioms: [propext, Quot.sound]
'Verif.Ulc.C18_unique' depends on axioms: [propext, Classical.choice, Quot.sound]
'Verif.Ulc.C18_reserve' depends on axioms: [propext, Classical.choice, Quot.sound]
'Verif.Ulc.C18_lookup' depends on axioms: [propext, Classical.choice, Quot.sound]
'Verif.Ulc.C18_release_fn' depends on axioms: [propext, Classical.choice, Quot.sound]
'Verif.Ulc.C18_release_tbf' depends on axioms: [propext, Classical.choice, Quot.sound]
'Verif.Ulc.C18_expire' depends on axioms: [propext, Classical.choice, Quot.sound]
'Verif.Ulc.C18_expire_freeing' depends on axioms: [propext, Classical.choice, Quot.sound]
'Verif.Ulc.C18_sba' depends on axioms: [propext, Classical.choice, Quot.sound]
'Verif.Ulc.C19_rrbp_unambiguous' depends on axioms: [propext, Classical.choice, Quot.sound]
'Verif.Ulc.C19_poll' depends on axioms: [propext, Classical.choice, Quot.sound]
'Verif.Ulc.C19_refused' depends on axioms: [propext, Classical.choice, Quot.sound]
'Verif.Fn.C20_blocks_ordered' depends on axioms: [propext, Quot.sound]
'Verif.Fn.C20_blocks_all' depends on axioms: [propext, Quot.sound]
'Verif.Fn.C20_next_block' depends on axioms: [propext, Quot.sound]
'Verif.Fn.C20_next_block_visits' depends on axioms: [propext, Quot.sound]
'Verif.Fn.C20_valid' depends on axioms: [propext, Classical.choice, Quot.sound]
'Verif.Fn.C20_block_number' depends on axioms: [propext, Quot.sound]
'Verif.Fn.C20_rts_next' depends on axioms: [propext, Quot.sound]
'Verif.Fn.C20_rfn' depends on axioms: [propext, Classical.choice, Quot.sound]
'Verif.Alloc.C21_no_abort' depends on axioms: [propext, Classical.choice, Quot.sound]
'Verif.Alloc.C21_tfi_unique' depends on axioms: [propext, Classical.choice, Quot.sound]
'Verif.Alloc.C21_usf_unique' depends on axioms: [propext, Classical.choice, Quot.sound]
'Verif.Alloc.C21_usf_not_7' depends on axioms: [propext, Classical.choice, Quot.sound]
'Verif.Alloc.C21_lookup' depends on axioms: [propext, Classical.choice, Quot.sound]
'Verif.Alloc.C21_no_leak' depends on axioms: [propext, Classical.choice, Quot.sound]
'Verif.Alloc.C21_release' depends on axioms: [propext, Classical.choice, Quot.sound]
'Verif.Alloc.C22_counters' depends on axioms: [propext, Classical.choice, Quot.sound]
'Verif.Alloc.C22_statistics' depends on axioms: [propext, Classical.choice, Quot.sound]
'Verif.Alloc.C23_table' depends on axioms: [propext, Quot.sound]
'Verif.Alloc.C23_allocation_partial' depends on axioms: [propext, Classical.choice, Quot.sound]
'Verif.Alloc.C23_history_partial' depends on axioms: [propext, Classical.choice, Quot.sound]
'Verif.Alloc.C23_single_slot_exceeds' depends on axioms: [propext, Quot.sound]
'Verif.Alloc.C23_class_change_exceeds' depends on axioms: [propext, Quot.sound]
'Verif.Tbf.C24_dl_legal' depends on axioms: [propext, Quot.sound]
'Verif.Tbf.C24_ul_legal' depends on axioms: [propext, Quot.sound]
'Verif.Tbf.C24_dl_ended' depends on axioms: [propext, Quot.sound]
'Verif.Tbf.C24_ul_ended' depends on axioms: [propext, Quot.sound]
'Verif.Tbf.C24_dl_released' depends on axioms: [propext, Quot.sound]
'Verif.Tbf.C24_ul_released' depends on axioms: [propext, Quot.sound]
'Verif.Tbf.C24_dl_no_use_after_free' depends on axioms: [propext, Quot.sound]
'Verif.Tbf.C25_no_assert' depends on axioms: [propext]
'Verif.Tbf.C25_dl_dlAss' depends on axioms: [propext, Quot.sound]
'Verif.Tbf.C25_dl_dlAss_kept' depends on axioms: [propext, Quot.sound]
'Verif.Tbf.C25_ul_dlAss' depends on axioms: [propext, Quot.sound]
'Verif.Tbf.C25_dl_ulAss_partial' depends on axioms: [propext, Quot.sound]
'Verif.Tbf.C25_ul_ulAss_partial' depends on axioms: [propext, Quot.sound]
'Verif.Tbf.C25_final_ack_pending' depends on axioms: [propext, Quot.sound]
'Verif.Tbf.C25_final_ack' depends on axioms: [propext, Quot.sound]
'Verif.Tbf.C25_ulAss_lost' depends on axioms: [propext, Quot.sound]
'Verif.Tbf.C25_dlAss_request_dropped' depends on axioms: [propext]
'Verif.Tbf.C26_n3105' depends on axioms: [propext, Classical.choice, Quot.sound]
'Verif.Tbf.C26_n3101' depends on axioms: [propext, Classical.choice, Quot.sound]
'Verif.Tbf.C26_n3103' depends on axioms: [propext, Classical.choice, Quot.sound]
'Verif.Sched.C27_resync' depends on axioms: [propext, Classical.choice, Quot.sound]
'Verif.Sched.C28_usf' depends on axioms: [propext, Classical.choice, Quot.sound]
'Verif.Sched.C28_fair' depends on axioms: [propext, Classical.choice, Quot.sound]
'Verif.Sched.C28_progress' depends on axioms: [propext, Classical.choice, Quot.sound]
'Verif.Sched.C29_most_urgent' depends on axioms: [propext, Classical.choice, Quot.sound]
'Verif.Sched.C29_no_idle' depends on axioms: [propext, Classical.choice, Quot.sound]
'Verif.Sched.C29_fair' depends on axioms: [propext, Classical.choice, Quot.sound]
'Verif.Sched.C29_frames' depends on axioms: [propext, Classical.choice, Quot.sound]
'Verif.Sched.C30_sent_pending' depends on axioms: [propext, Quot.sound]
'Verif.Sched.C30_control_first_partial' depends on axioms: [propext, Classical.choice, Quot.sound]
'Verif.Sched.C30_tbf_before_paging_partial' depends on axioms: [propext, Classical.choice, Quot.sound]
'Verif.Sched.C30_rotation_partial' depends on axioms: [propext, Classical.choice, Quot.sound]
'Verif.Sched.C30_ack_rotation' depends on axioms: [propext, Classical.choice, Quot.sound]
'Verif.Sched.C30_app_info_skips_control' depends on axioms: [propext]
'Verif.Sched.C30_ack_starved' depends on axioms: [propext]
'Verif.Sched.C30_own_direction_starved' depends on axioms: [propext]
'Verif.Sched.C31_never_sent' depends on axioms: [propext, Quot.sound]
'Verif.Sched.C31_counter_partial' depends on axioms: [propext, Classical.choice, Quot.sound]
'Verif.Sched.C31_only_with_dl_assignment' depends on axioms: [propext]
'Verif.Sched.C31_freed_is_counted' depends on axioms: [propext, Quot.sound]
'Verif.Sched.C31_second_request' depends on axioms: [propext, Quot.sound]
'Verif.Sched.C32_gmsk_partial' depends on axioms: [propext, Quot.sound]
'Verif.Sched.C32_mcs8_repeated' depends on axioms: [propext]
'Verif.Sched.C32_arq2_repeated' depends on axioms: [propext]
'Verif.Sched.C32_final_repeated' depends on axioms: [propext]
'Verif.Store.C33_kept' depends on axioms: [propext, Classical.choice, Quot.sound]
'Verif.Store.C33_announced' depends on axioms: [propext, Classical.choice, Quot.sound]
'Verif.Store.C33_change' depends on axioms: [propext, Classical.choice, Quot.sound]
'Verif.Store.C33_confirmed' depends on axioms: [propext, Classical.choice, Quot.sound]
'Verif.Store.C33_never_lost' depends on axioms: [propext, Classical.choice, Quot.sound]
'Verif.Store.C33_lookup_partial' depends on axioms: [propext, Classical.choice, Quot.sound]
'Verif.Store.C33_uplink_found_partial' depends on axioms: [propext, Classical.choice, Quot.sound]
'Verif.Store.C33_store_kept_partial' depends on axioms: [propext, Classical.choice, Quot.sound]
'Verif.Store.C33_merge_forgets_old' depends on axioms: [propext, Quot.sound]
'Verif.Store.C33_reserved_loses' depends on axioms: [propext, Quot.sound]
'Verif.Store.C33_two_mobiles' depends on axioms: [propext, Quot.sound]
'Verif.Ms.C34_config' depends on axioms: [propext, Quot.sound]
'Verif.Ms.C34_max' depends on axioms: [propext, Quot.sound]
'Verif.Ms.C34_current_partial' depends on axioms: [propext, Quot.sound]
'Verif.Ms.C34_one_step' depends on axioms: [propext, Quot.sound]
'Verif.Ms.C34_block' depends on axioms: [propext, Quot.sound]
'Verif.Ms.C34_block_defined' depends on axioms: [propext, Quot.sound]
'Verif.Ms.C34_block_exceeds_max' depends on axioms: [propext]
'Verif.Ms.C34_forced_exceeds_max' depends on axioms: [propext]
'Verif.Ms.C34_forced_not_of_mode' depends on axioms: [propext]
'Verif.Ms.C34_lowered_max' depends on axioms: [propext, Quot.sound]
'Verif.Ms.C34_unsupported_scheme' depends on axioms: [propext]
'Verif.Paging.C35_message' depends on axioms: [propext, Classical.choice, Quot.sound]
'Verif.Paging.C35_unambiguous' depends on axioms: [propext, Classical.choice, Quot.sound]
'Verif.Paging.C35_dropped' depends on axioms: [propext, Classical.choice, Quot.sound]
'Verif.Paging.C35_sent_partial' depends on axioms: [propext, Classical.choice, Quot.sound]
'Verif.Paging.C35_exact_fill_lost' depends on axioms: [propext]
'Verif.Paging.C35_six_lost' depends on axioms: [propext]
'Verif.Cache.C36_latest' depends on axioms: [propext, Classical.choice, Quot.sound]
'Verif.Cache.C36_once' depends on axioms: [propext, Classical.choice, Quot.sound]
'Verif.Cache.C36_fresh_partial' depends on axioms: [propext, Classical.choice, Quot.sound]
'Verif.Cache.C36_cleaned' depends on axioms: [propext, Classical.choice, Quot.sound]
'Verif.Cache.C36_kept' depends on axioms: [propext, Classical.choice, Quot.sound]
'Verif.Cache.C36_stale' does not depend on any axioms
'Verif.Pch.C37_paged_partial' depends on axioms: [propext, Classical.choice, Quot.sound]
'Verif.Pch.C37_once' depends on axioms: [propext, Classical.choice, Quot.sound]
'Verif.Pch.C37_due' depends on axioms: [propext, Classical.choice, Quot.sound]
'Verif.Pch.C37_stop' depends on axioms: [propext, Classical.choice, Quot.sound]
'Verif.Pch.C37_stop_one' depends on axioms: [propext, Classical.choice, Quot.sound]
'Verif.Pch.C37_foreign_tlli' does not depend on any axioms
'Verif.Ws.C38_legal' depends on axioms: [propext, Quot.sound]
'Verif.Ws.C38_read' depends on axioms: [propext, Quot.sound]
'Verif.Ws.C38_configured' depends on axioms: [propext, Classical.choice, Quot.sound]
'Verif.Ws.C38_uplink_assignment' depends on axioms: [propext, Quot.sound]
'Verif.Crbb.C39_prefix_free' depends on axioms: [propext, Quot.sound]
'Verif.Crbb.C39_decode_meaning' depends on axioms: [propext, Classical.choice, Quot.sound]
'Verif.Crbb.C39_decode_bounded' depends on axioms: [propext, Quot.sound]
'Verif.Crbb.C39_unambiguous' depends on axioms: [propext, Classical.choice, Quot.sound]
'Verif.Crbb.C39_encode_prefix' depends on axioms: [propext, Classical.choice, Quot.sound]
'Verif.Crbb.C39_encode_claim_partial' depends on axioms: [propext, Classical.choice, Quot.sound]
'Verif.Crbb.C39_encode_whole_partial' depends on axioms: [propext, Classical.choice, Quot.sound]
'Verif.Crbb.C39_roundtrip' depends on axioms: [propext, Classical.choice, Quot.sound]
'Verif.Crbb.C39_encoder_buffer' depends on axioms: [propext, Quot.sound]
'Verif.Crbb.C39_claim_wrong_after_cut' depends on axioms: [propext, Classical.choice, Quot.sound]
'Verif.Crbb.C39_claim_truncated' depends on axioms: [propext, Quot.sound]
'Verif.Ta.C40_range' depends on axioms: [propext, Classical.choice, Quot.sound]
'Verif.Ta.C40_burst' depends on axioms: [propext, Classical.choice, Quot.sound]
'Verif.Ta.C40_data' depends on axioms: [propext, Classical.choice, Quot.sound]
'Verif.Ta.C40_message' depends on axioms: [propext, Classical.choice, Quot.sound]
'Verif.Ta.C40_index_partial' depends on axioms: [propext, Classical.choice, Quot.sound]
'Verif.Ta.C40_released' depends on axioms: [propext, Classical.choice, Quot.sound]
'Verif.Ta.C40_no_assert' depends on axioms: [propext, Classical.choice, Quot.sound]
'Verif.Ta.C40_early' depends on axioms: [propext, Quot.sound]
'Verif.Ta.C40_unknown' depends on axioms: [propext, Classical.choice, Quot.sound]
'Verif.Ta.C40_index_lost' depends on axioms: [propext]
'Verif.Nacc.C41_continue_partial' depends on axioms: [propext, Classical.choice, Quot.sound]
'Verif.Nacc.C41_first_partial' depends on axioms: [propext, Classical.choice, Quot.sound]
'Verif.Nacc.C41_progress_partial' depends on axioms: [propext, Classical.choice, Quot.sound]
'Verif.Nacc.C41_local' depends on axioms: [propext]
'Verif.Nacc.C41_other_rat' depends on axioms: [propext]
'Verif.Nacc.C41_long' depends on axioms: [propext]
'Verif.Store.C42_handle_partial' depends on axioms: [propext, Classical.choice, Quot.sound]
'Verif.Store.C42_decoded' depends on axioms: [propext, Quot.sound]
'Verif.Store.C42_wrong_tlli' depends on axioms: [propext, Quot.sound]
'Verif.Store.C42_violated' depends on axioms: [propext, Classical.choice, Quot.sound]
'Verif.Store.C43_frames_partial' depends on axioms: [propext, Quot.sound]
'Verif.Store.C43_released' depends on axioms: [propext, Quot.sound]
'Verif.Store.C43_released_later' depends on axioms: [propext, Quot.sound]
'Verif.Store.C43_terminates_partial' depends on axioms: [propext, Quot.sound]
'Verif.Store.C43_hang' depends on axioms: [propext, Quot.sound]
'Verif.Store.C43_acked_lost' depends on axioms: [propext, Quot.sound]
'Verif.Split.C44_dl_correct_partial' depends on axioms: [propext, Quot.sound]
'Verif.Split.C44_dl_halves_partial' depends on axioms: [propext, Quot.sound]
'Verif.Split.C44_dl_no_abort' depends on axioms: [propext, Quot.sound]
'Verif.Split.C44_pair_scheme' depends on axioms: [propext, Quot.sound]
'Verif.Split.C44_pair_plain' depends on axioms: [propext, Quot.sound]
'Verif.Split.C44_dl_violated' depends on axioms: [propext]
'Verif.Split.C44_dl_puncturing' depends on axioms: [propext, Quot.sound]
'Verif.Split.C44_ul_one_block' depends on axioms: [propext, Quot.sound]
'Verif.Split.C44_ul_unequal_partial' depends on axioms: [propext, Quot.sound]
'Verif.Split.C44_ul_all_blocks_partial' depends on axioms: [propext, Quot.sound]
'Verif.Split.C44_ul_violated_order' depends on axioms: [propext, Quot.sound]
'Verif.Split.C44_ul_violated_overflow' depends on axioms: [propext, Quot.sound]
'Verif.Split.C44_ul_violated_mixed' does not depend on any axioms
'Verif.Rach.C45_block' depends on axioms: [propext, Classical.choice, Quot.sound]
'Verif.Rach.C45_tbf' depends on axioms: [propext, Classical.choice, Quot.sound]
'Verif.Rach.C45_unsupported' depends on axioms: [propext, Classical.choice, Quot.sound]
'Verif.Rach.C45_busy' depends on axioms: [propext, Classical.choice, Quot.sound]
'Verif.Rach.C45_only' depends on axioms: [propext]
'Verif.Rach.C45_answered_partial' depends on axioms: [propext, Classical.choice, Quot.sound]
'Verif.Rach.C45_not_answered' depends on axioms: [propext]
'Verif.Rach.C45_gprs_tbf_as_egprs' depends on axioms: [propext, Classical.choice, Quot.sound]
'Verif.Alloc.C46_counters' depends on axioms: [propext, Classical.choice, Quot.sound]
'Verif.Alloc.C46_enabled' depends on axioms: [propext, Classical.choice, Quot.sound]
'Verif.Alloc.C46_idle' depends on axioms: [propext, Classical.choice, Quot.sound]
'Verif.Ia.C47_start' depends on axioms: [propext, Classical.choice, Quot.sound]
'Verif.Ia.C47_unique' depends on axioms: [propext, Classical.choice, Quot.sound]
'Verif.Fc.C48_bucket' depends on axioms: [propext, Quot.sound]
'Verif.Fc.C48_limits' depends on axioms: [propext, Classical.choice, Quot.sound]
'Verif.Fc.C48_nonzero' depends on axioms: [propext, Classical.choice, Quot.sound]
'Verif.Fc.C48_forced' depends on axioms: [propext, Quot.sound]
'Verif.Fc.C48_delay_partial' depends on axioms: [propext, Classical.choice, Quot.sound]
'Verif.Fc.C48_delay_lost' depends on axioms: [propext, Classical.choice, Quot.sound]
'Verif.Fc.C48_leak_unit' depends on axioms: [propext, Quot.sound]
'Verif.Paging.C49_everywhere' depends on axioms: [propext, Classical.choice, Quot.sound]
'Verif.Paging.C49_needed' depends on axioms: [propext, Quot.sound]
'Verif.Paging.C49_known' depends on axioms: [propext, Quot.sound]
'Verif.Ia.C50_ul_tbf' depends on axioms: [propext, Classical.choice, Quot.sound]
'Verif.Ia.C50_ul_block' depends on axioms: [propext, Classical.choice, Quot.sound]
'Verif.Ia.C50_egprs_ul_tbf' depends on axioms: [propext, Classical.choice, Quot.sound]
'Verif.Ia.C50_egprs_ul_block' depends on axioms: [propext, Classical.choice, Quot.sound]
'Verif.Ia.C50_dl_partial' depends on axioms: [propext, Classical.choice, Quot.sound]
'Verif.Ia.C50_dl_bep_period' depends on axioms: [propext, Classical.choice, Quot.sound]
'Verif.Ia.C50_ul_sent' depends on axioms: [propext, Classical.choice, Quot.sound]
'Verif.Ia.C50_dl_sent' depends on axioms: [propext, Classical.choice, Quot.sound]
'Verif.Ia.C50_ul_not_sent' depends on axioms: [propext, Quot.sound]
'Verif.Ia.C50_dl_not_sent' depends on axioms: [propext, Quot.sound]
'Verif.Ia.C51_sent' depends on axioms: [propext, Classical.choice, Quot.sound]
'Verif.Ia.C51_reject' depends on axioms: [propext, Classical.choice, Quot.sound]
'Verif.Ia.C51_egprs_partial' depends on axioms: [propext, Classical.choice, Quot.sound]
'Verif.Ia.C51_egprs_wrong' depends on axioms: [propext, Classical.choice, Quot.sound]
'Verif.Fc.C52_leak_partial' depends on axioms: [propext, Classical.choice, Quot.sound]
'Verif.Fc.C52_ms_leak' depends on axioms: [propext, Quot.sound]
'Verif.Fc.C52_two_per_block' depends on axioms: [propext]
'Verif.Fc.C52_late_reports' depends on axioms: [propext]
'Verif.Fc.C52_overflow' depends on axioms: [propext]
'Verif.Analyse.C53_error_rate_partial' depends on axioms: [propext, Quot.sound]
'Verif.Analyse.C53_gprs' depends on axioms: [propext, Quot.sound]
'Verif.Analyse.C53_egprs_wrong' depends on axioms: [propext]
'Verif.Ia.C54_understood' depends on axioms: [propext, Classical.choice, Quot.sound]
'Verif.Ia.C54_status' depends on axioms: [propext, Quot.sound]
'Verif.Ia.C54_paged' depends on axioms: [propext, Classical.choice, Quot.sound]
'Verif.Ia.C54_imsi_str' depends on axioms: [propext, Classical.choice, Quot.sound]
'Verif.Ia.C55_content_partial' depends on axioms: [propext, Classical.choice, Quot.sound]
'Verif.Ia.C55_no_header' depends on axioms: [propext, Classical.choice, Quot.sound]
'Verif.Ia.C55_usf_overwrites' depends on axioms: [propext]
'Verif.Csn1.C56_partial' depends on axioms: [propext, Classical.choice, Quot.sound]
'Verif.Csn1.C56_measurement_report' depends on axioms: [propext]
'Verif.Csn1.C56_cell_change' depends on axioms: [propext]
'Verif.Csn1.C56_pause' depends on axioms: [propext, Classical.choice, Quot.sound]
'Verif.Csn1.C57_gprs' depends on axioms: [propext, Classical.choice, Quot.sound]
'Verif.Csn1.C57_gprs_final' depends on axioms: [propext, Classical.choice, Quot.sound]
'Verif.Csn1.C57_wrong_tfi' depends on axioms: [propext, Classical.choice, Quot.sound]
'Verif.Csn1.C57_wrong_tfi_egprs' depends on axioms: [propext, Classical.choice, Quot.sound]
'Verif.Csn1.C57_egprs_partial' depends on axioms: [propext, Classical.choice, Quot.sound]
'Verif.Csn1.C57_egprs_misread' depends on axioms: [propext, Classical.choice, Quot.sound]
'Verif.C58.C58_fits' depends on axioms: [propext, Quot.sound]
'Verif.C58.C58_sent_partial' depends on axioms: [propext, Quot.sound]
'Verif.C58.C58_too_long' depends on axioms: [propext, Quot.sound]
'Verif.C58.C58_exact_fit' depends on axioms: [propext, Quot.sound]
'Verif.C58.C58_single_arfcn' depends on axioms: [propext, Quot.sound]
'Verif.C58.C58_egprs_lost' depends on axioms: [propext, Quot.sound]
'Verif.C59.C59_gprs' depends on axioms: [propext, Classical.choice, Quot.sound]
'Verif.C59.C59_egprs_partial' depends on axioms: [propext, Classical.choice, Quot.sound]
'Verif.C59.C59_window_wrong' depends on axioms: [propext, Classical.choice, Quot.sound]
'Verif.C59.C59_gprs_single_arfcn' depends on axioms: [propext, Classical.choice, Quot.sound]
'Verif.C59.C59_egprs_single_arfcn_partial' depends on axioms: [propext, Classical.choice, Quot.sound]
'Verif.C59.C59_eight_slots_not_sent' depends on axioms: [propext, Classical.choice, Quot.sound]
'Verif.C60.C60_neighbour_data' depends on axioms: [propext, Quot.sound]
'Verif.C60.C60_procedure' depends on axioms: [propext, Quot.sound]
'Verif.C60.C60_continue' depends on axioms: [propext, Quot.sound]
'Verif.Csn1.C61_control_ack' depends on axioms: [propext, Classical.choice, Quot.sound]
'Verif.Csn1.C61_measurement' depends on axioms: [propext, Classical.choice, Quot.sound]
'Verif.Csn1.C61_cell_change' depends on axioms: [propext, Classical.choice, Quot.sound]
'Verif.Csn1.C61_cell_change_utran' depends on axioms: [propext, Classical.choice, Quot.sound]
'Verif.Csn1.C61_cell_change_r8' depends on axioms: [propext, Classical.choice, Quot.sound]
'Verif.Csn1.C61_cell_change_r8_other' depends on axioms: [propext, Classical.choice, Quot.sound]
'Verif.Csn1.C61_tlli_distinct' depends on axioms: [propext, Classical.choice, Quot.sound]
'Verif.UlService.C62_in_order_unchanged' depends on axioms: [propext, Classical.choice, Quot.sound]
'Verif.UlService.C62_acknowledged_is_sent' depends on axioms: [propext, Classical.choice, Quot.sound]
'Verif.UlService.C62_all_acknowledged' depends on axioms: [propext, Classical.choice, Quot.sound]
'Verif.UlService.C62_arrived_is_sent_egprs_partial' depends on axioms: [propext, Classical.choice, Quot.sound]
'Verif.UlService.C62_arrived_is_sent_gprs_partial' depends on axioms: [propext, Classical.choice, Quot.sound]
'Verif.UlService.C62_gprs_frame_lost' depends on axioms: [propext, Quot.sound]
'Verif.DlService.C63_waiting_is_sent' depends on axioms: [propext, Classical.choice, Quot.sound]
'Verif.DlService.C63_in_order_unchanged' depends on axioms: [propext, Classical.choice, Quot.sound]
'Verif.DlService.C63_finished_is_delivered' depends on axioms: [propext, Classical.choice, Quot.sound]
'Verif.DlService.C63_idle_is_delivered' depends on axioms: [propext, Classical.choice, Quot.sound]
'Verif.DlService.C63_always_sends' depends on axioms: [propext, Classical.choice, Quot.sound]
'Verif.DlService.C63_all_delivered' depends on axioms: [propext, Classical.choice, Quot.sound]
'Verif.DlService.C63_in_order_unchanged_gprs_partial' depends on axioms: [propext, Classical.choice, Quot.sound]
'Verif.DlService.C63_finished_is_delivered_gprs_partial' depends on axioms: [propext, Classical.choice, Quot.sound]
'Verif.DlService.C63_idle_is_delivered_gprs_partial' depends on axioms: [propext, Classical.choice, Quot.sound]
'Verif.DlService.C63_always_sends_gprs_partial' depends on axioms: [propext, Classical.choice, Quot.sound]
'Verif.DlService.C63_all_delivered_gprs_partial' depends on axioms: [propext, Classical.choice, Quot.sound]
'Verif.DlService.C63_gprs_frame_lost' depends on axioms: [propext]
'Verif.UlAckMsg.C64_gprs_never_acks_unreceived' depends on axioms: [propext, Classical.choice, Quot.sound]
'Verif.UlAckMsg.C64_gprs_step' depends on axioms: [propext, Classical.choice, Quot.sound]
'Verif.UlAckMsg.C64_gprs_exact_partial' depends on axioms: [propext, Classical.choice, Quot.sound]
'Verif.UlAckMsg.C64_egprs_exact_small_window' depends on axioms: [propext, Classical.choice, Quot.sound]
'Verif.UlAckMsg.C64_egprs_never_acks_unreceived_partial' depends on axioms: [propext, Classical.choice, Quot.sound]
'Verif.UlAckMsg.C64_egprs_step_partial' depends on axioms: [propext, Classical.choice, Quot.sound]
'Verif.UlAckMsg.C64_egprs_exact_partial' depends on axioms: [propext, Classical.choice, Quot.sound]
'Verif.UlAckMsg.C64_egprs_false_ack' depends on axioms: [propext, Classical.choice, Quot.sound]
'Verif.UlAckMsg.C64_egprs_false_ack_cut' depends on axioms: [propext, Quot.sound]
'Verif.UlAckMsg.C64_egprs_unreadable' depends on axioms: [propext, Classical.choice, Quot.sound]
'Verif.Bvc.C65_keeps_trying' depends on axioms: [propext, Quot.sound]
'Verif.Bvc.C65_down' depends on axioms: [propext, Quot.sound]
'Verif.Bvc.C65_unblocked' depends on axioms: [propext, Quot.sound]
'Verif.Bvc.C65_signalling_first' depends on axioms: [propext, Quot.sound]
'Verif.Bvc.C65_no_endless_exchange' depends on axioms: [propext, Classical.choice, Quot.sound]
'Verif.Bvc.C65_becomes_quiet' depends on axioms: [propext, Classical.choice, Quot.sound]
'Verif.Bvc.C65_recovers' depends on axioms: [propext, Quot.sound]
'Verif.Bvc.C65_comes_up' depends on axioms: [propext, Classical.choice, Quot.sound]
'Verif.Bvc.C65_reset_mistaken' depends on axioms: [propext]
'Verif.Bvc.C65_data_before_unblocked' depends on axioms: [propext]
'Verif.Bssgp.C66_unitdata' depends on axioms: [propext, Quot.sound]
'Verif.Bssgp.C66_unitdata_refused' depends on axioms: [propext, Quot.sound]
'Verif.Bssgp.C66_unitdata_sent' depends on axioms: [propext, Quot.sound]
'Verif.Bssgp.C66_paging_cs' depends on axioms: [propext, Quot.sound]
'Verif.Bssgp.C66_paging_ps' depends on axioms: [propext, Quot.sound]
'Verif.Bssgp.C66_paging_refused' depends on axioms: [propext, Quot.sound]
'Verif.Bssgp.C66_reset' depends on axioms: [propext, Quot.sound]
'Verif.Bssgp.C66_blocked' depends on axioms: [propext, Quot.sound]
'Verif.Bssgp.C66_no_assertion' depends on axioms: [propext, Quot.sound]
'Verif.Bssgp.C66_inside_partial' depends on axioms: [propext, Quot.sound]
'Verif.Bssgp.C66_reads_beyond' depends on axioms: [propext, Quot.sound]
'Verif.Bssgp.C66_status_partial' depends on axioms: [propext, Quot.sound]
'Verif.Bssgp.C66_status_without_bvci' depends on axioms: [propext, Quot.sound]
'Verif.RaCap.C67_classes_partial' depends on axioms: [propext, Classical.choice, Quot.sound]
'Verif.RaCap.C67_unitdata_partial' depends on axioms: [propext, Classical.choice, Quot.sound]
'Verif.RaCap.C67_any_octets' depends on axioms: [propext, Quot.sound]
'Verif.RaCap.C67_fails_additional' depends on axioms: [propext]
'Verif.RaCap.C67_fails_unknown' depends on axioms: [propext]
'Verif.ResReq.C68_request_partial' depends on axioms: [propext, Classical.choice, Quot.sound]
'Verif.ResReq.C68_fails_type2' depends on axioms: [propext]
'Verif.PcuIf.C69_block' depends on axioms: [propext, Quot.sound]
'Verif.PcuIf.C69_block_unused' depends on axioms: [propext, Quot.sound]
'Verif.PcuIf.C69_confirm' depends on axioms: [propext, Quot.sound]
'Verif.PcuIf.C69_ready' depends on axioms: [propext, Quot.sound]
'Verif.PcuIf.C69_rach' depends on axioms: [propext, Classical.choice, Quot.sound]
'Verif.PcuIf.C69_page' depends on axioms: [propext, Quot.sound]
'Verif.PcuIf.C69_suspend' depends on axioms: [propext, Quot.sound]
'Verif.PcuIf.C69_app_info' depends on axioms: [propext, Quot.sound]
'Verif.PcuIf.C69_neighbour' depends on axioms: [propext, Quot.sound]
'Verif.PcuIf.C69_e1' depends on axioms: [propext, Quot.sound]
'Verif.PcuIf.C70_accepted' depends on axioms: [propext, Quot.sound]
'Verif.PcuIf.C70_config_partial' depends on axioms: [propext, Classical.choice, Quot.sound]
'Verif.PcuIf.C70_no_hopping_partial' depends on axioms: [propext, Classical.choice, Quot.sound]
'Verif.PcuIf.C70_requested' depends on axioms: [propext, Quot.sound]
'Verif.PcuIf.C70_toggles' depends on axioms: [propext, Quot.sound]
'Verif.PcuIf.C70_timers_partial' depends on axioms: [propext, Quot.sound]
'Verif.PcuIf.C70_system_information' depends on axioms: [propext, Quot.sound]
'Verif.PcuIf.C70_fails_hopping_off' depends on axioms: [propext, Classical.choice, Quot.sound]
'Verif.PcuIf.C70_fails_timers' depends on axioms: [propext, Quot.sound]
'Verif.PcuIf.C71_octets_partial' depends on axioms: [propext, Quot.sound]
'Verif.PcuIf.C71_exit' depends on axioms: [propext, Quot.sound]
'Verif.PcuIf.C71_refused' depends on axioms: [propext, Quot.sound]
'Verif.PcuIf.C71_fails_trx' depends on axioms: [propext, Quot.sound]
'Verif.PcuIf.C71_fails_length' depends on axioms: [propext, Quot.sound]
'Verif.PcuIf.C71_fails_frame_number' depends on axioms: [propext, Quot.sound]
'Verif.PcuIf.C71_fails_mobile_allocation' depends on axioms: [propext, Quot.sound]
'Verif.Rim.C72_answer_partial' depends on axioms: [propext, Classical.choice, Quot.sound]
'Verif.Rim.C72_not_ours' depends on axioms: [propext, Quot.sound]
'Verif.Rim.C72_refused' depends on axioms: [propext, Quot.sound]
'Verif.Rim.C72_only_answers' depends on axioms: [propext, Quot.sound]
'Verif.Rim.C72_report_kept' depends on axioms: [propext, Classical.choice, Quot.sound]
'Verif.Rim.C72_fails_undecoded' depends on axioms: [propext, Quot.sound]
'Verif.Rim.C72_fails_cell' depends on axioms: [propext, Classical.choice, Quot.sound]
'Verif.Rim.C73_continue_partial' depends on axioms: [propext, Classical.choice, Quot.sound]
'Verif.Rim.C73_between_pcus_partial' depends on axioms: [propext, Classical.choice, Quot.sound]
'Verif.Rim.C73_local_fails' depends on axioms: [propext, Quot.sound]
'Verif.Rim.C73_waits' depends on axioms: [propext, Quot.sound]
'Verif.Rim.C73_request_partial' depends on axioms: [propext, Classical.choice, Quot.sound]
'Verif.Polls.C74_safe_partial' depends on axioms: [propext, Classical.choice, Quot.sound]
'Verif.Polls.C74_promises_partial' depends on axioms: [propext, Classical.choice, Quot.sound]
'Verif.Polls.C74_freed_partial' depends on axioms: [propext, Classical.choice, Quot.sound]
'Verif.Polls.C74_control_partial' depends on axioms: [propext, Classical.choice, Quot.sound]
'Verif.Polls.C74_disabled_partial' depends on axioms: [propext, Classical.choice, Quot.sound]
'Verif.Polls.C74_fails_trx' depends on axioms: [propext, Quot.sound]
'Verif.Polls.C74_fails_continue' depends on axioms: [propext, Quot.sound]
'Verif.PcuTx.C75_read' depends on axioms: [propext, Quot.sound]
'Verif.PcuTx.C75_made' depends on axioms: [propext, Quot.sound]
'Verif.PcuTx.C75_order' depends on axioms: [propext, Quot.sound]
'Verif.PcuTx.C75_flush' depends on axioms: [propext, Classical.choice, Quot.sound]
'Verif.PcuTx.C75_stays' depends on axioms: [propext, Quot.sound]
'Verif.PcuTx.C75_told' depends on axioms: [propext, Quot.sound]
'Verif.Live.C76_left' depends on axioms: [propext, Quot.sound]
'Verif.Live.C76_no_crash' depends on axioms: [propext, Classical.choice, Quot.sound]
'Verif.Live.C76_moves_partial' depends on axioms: [propext, Classical.choice, Quot.sound]
'Verif.Live.C76_ul' depends on axioms: [propext, Classical.choice, Quot.sound]
'Verif.Live.C76_dl' depends on axioms: [propext, Classical.choice, Quot.sound]
'Verif.Live.C76_stuck' depends on axioms: [propext, Classical.choice, Quot.sound]
'Verif.Vty.C77_reads' depends on axioms: [propext, Classical.choice, Quot.sound]
'Verif.Vty.C77_partial' depends on axioms: [propext, Classical.choice, Quot.sound]
'Verif.Vty.C77_again' depends on axioms: [propext, Classical.choice, Quot.sound]
'Verif.Vty.C77_valid' depends on axioms: [propext, Classical.choice, Quot.sound]
'Verif.Vty.C77_caches' depends on axioms: [propext, Classical.choice, Quot.sound]
'Verif.Vty.C77_fails_bucket_time' depends on axioms: [propext, Classical.choice, Quot.sound]
'Verif.Vty.C77_fails_cs_max' depends on axioms: [propext, Classical.choice, Quot.sound]
'Verif.Vty.C77_fails_mcs_max' depends on axioms: [propext, Classical.choice, Quot.sound]
'Verif.Vty.C77_fails_idle_ack' depends on axioms: [propext, Classical.choice, Quot.sound]
'Verif.Vty.C78_others' depends on axioms: [propext, Classical.choice, Quot.sound]
'Verif.Vty.C78_own_partial' depends on axioms: [propext, Classical.choice, Quot.sound]
'Verif.Vty.C78_order' depends on axioms: [propext, Classical.choice, Quot.sound]
'Verif.Vty.C78_bucket' depends on axioms: [propext, Classical.choice, Quot.sound]
'Verif.Vty.C78_fails' depends on axioms: [propext, Classical.choice, Quot.sound]
'Verif.Lim.C79_max' depends on axioms: [propext, Quot.sound]
'Verif.Lim.C79_forced' depends on axioms: [propext, Quot.sound]
'Verif.Lim.C79_announced' depends on axioms: [propext, Quot.sound]
'Verif.Lim.C79_announced_stays' depends on axioms: [propext, Quot.sound]
'Verif.Lim.C79_threshold' depends on axioms: [propext, Classical.choice, Quot.sound]
'Verif.Lim.C79_ranges_cs' depends on axioms: [propext, Classical.choice, Quot.sound]
'Verif.Lim.C79_ranges_mcs' depends on axioms: [propext, Classical.choice, Quot.sound]
'Verif.Lim.C79_mobiles_partial' depends on axioms: [propext, Classical.choice, Quot.sound]
'Verif.Lim.C79_fails_initial' depends on axioms: [propext, Quot.sound]
'Verif.Lim.C79_fails_lowered' depends on axioms: [propext, Quot.sound]
'Verif.Lim.C79_stops' depends on axioms: [propext, Quot.sound]
'Verif.Lim.C79_fails_support' depends on axioms: [propext, Quot.sound]
'Verif.Store.C80_used' depends on axioms: [propext, Classical.choice, Quot.sound]
'Verif.Store.C80_kept' depends on axioms: [propext, Classical.choice, Quot.sound]
'Verif.Store.C80_gone' depends on axioms: [propext, Classical.choice, Quot.sound]
'Verif.Store.C80_safe' depends on axioms: [propext, Classical.choice, Quot.sound]
'Verif.Store.C80_fails_frames' depends on axioms: [propext, Quot.sound]
'Verif.Store.C80_fails_heard' depends on axioms: [propext, Quot.sound]
'Verif.Start.C81_kept_partial' depends on axioms: [propext, Classical.choice, Quot.sound]
'Verif.Start.C81_idle_partial' depends on axioms: [propext, Classical.choice, Quot.sound]
'Verif.Start.C81_one' depends on axioms: [propext, Classical.choice, Quot.sound]
'Verif.Start.C81_queue' depends on axioms: [propext, Classical.choice, Quot.sound]
'Verif.Start.C81_sent' depends on axioms: [propext, Classical.choice, Quot.sound]
'Verif.Start.C81_frame' depends on axioms: [propext, Classical.choice, Quot.sound]
'Verif.Start.C81_where_partial' depends on axioms: [propext, Classical.choice, Quot.sound]
'Verif.Start.C81_fails_none' depends on axioms: [propext]
'Verif.Start.C81_fails_silent_ul' depends on axioms: [propext, Quot.sound]
'Verif.Start.C81_fails_silent_dl' depends on axioms: [propext, Quot.sound]
'Verif.Start.C81_fails_pch' depends on axioms: [propext, Quot.sound]
'Verif.Req.C82_reject' depends on axioms: [propext, Classical.choice, Quot.sound]
'Verif.Req.C82_answered' depends on axioms: [propext, Quot.sound]
'Verif.Req.C82_who_partial' depends on axioms: [propext, Classical.choice, Quot.sound]
'Verif.Req.C82_tfi' depends on axioms: [propext, Quot.sound]
'Verif.Req.C82_named_partial' depends on axioms: [propext, Classical.choice, Quot.sound]
'Verif.Req.C82_stable' depends on axioms: [propext]
'Verif.Req.C82_fails' depends on axioms: [propext, Quot.sound]
'Verif.Alloc.C83_dl' depends on axioms: [propext, Classical.choice, Quot.sound]
'Verif.Alloc.C83_dl_b_partial' depends on axioms: [propext, Classical.choice, Quot.sound]
'Verif.Alloc.C83_ul_a' depends on axioms: [propext, Classical.choice, Quot.sound]
'Verif.Alloc.C83_ul_one_trx' depends on axioms: [propext, Classical.choice, Quot.sound]
'Verif.Alloc.C83_ul_b_partial' depends on axioms: [propext, Classical.choice, Quot.sound]
'Verif.Alloc.C83_fails_dl' depends on axioms: [propext, Classical.choice, Quot.sound]
'Verif.Alloc.C83_fails_ul' depends on axioms: [propext, Classical.choice, Quot.sound]
'Verif.Alloc.C84_tbf' depends on axioms: [propext, Classical.choice, Quot.sound]
'Verif.Alloc.C84_request' depends on axioms: [propext, Classical.choice, Quot.sound]
'Verif.Rach.C84_rach' depends on axioms: [propext, Classical.choice, Quot.sound]
'Verif.Ulc.C84_sba_partial' depends on axioms: [propext, Classical.choice, Quot.sound]
'Verif.Ulc.C84_fails' depends on axioms: [propext, Quot.sound]
'Verif.Alloc.C85_table' depends on axioms: [propext, Quot.sound]
'Verif.Alloc.C85_allocation_partial' depends on axioms: [propext, Classical.choice, Quot.sound]
'Verif.Alloc.C85_row' depends on axioms: [propext, Classical.choice, Quot.sound]
'Verif.Alloc.C85_history_partial' depends on axioms: [propext, Classical.choice, Quot.sound]
'Verif.Alloc.C85_fails' depends on axioms: [propext, Quot.sound]
'Verif.Store.C86_kept' depends on axioms: [propext, Quot.sound]
'Verif.Store.C86_merged' depends on axioms: [propext, Quot.sound]
'Verif.Store.C86_learned_partial' depends on axioms: [propext, Classical.choice, Quot.sound]
'Verif.Store.C86_new' depends on axioms: [propext, Quot.sound]
'Verif.Confirm.C87_begins' depends on axioms: [propext, Classical.choice, Quot.sound]
'Verif.Confirm.C87_confirm' depends on axioms: [propext, Quot.sound]
'Verif.Confirm.C87_handed' depends on axioms: [propext, Quot.sound]
'Verif.Confirm.C87_progress' depends on axioms: [propext, Quot.sound]
'Verif.Confirm.C87_reference' depends on axioms: [propext, Quot.sound]
'Verif.Confirm.C87_own_partial' depends on axioms: [propext]
'Verif.Confirm.C87_fails' depends on axioms: [propext, Quot.sound]
'Verif.Link.C88_link' depends on axioms: [propext, Quot.sound]
'Verif.Link.C88_ber' depends on axioms: [propext, Quot.sound]
'Verif.Link.C88_rx_quality' depends on axioms: [propext, Quot.sound]
'Verif.Link.C88_reported' depends on axioms: [propext, Classical.choice, Quot.sound]
'Verif.Link.C88_levels_partial' depends on axioms: [propext, Quot.sound]
'Verif.Link.C88_fails' depends on axioms: [propext]
'Verif.Reports.C89_parts' depends on axioms: [propext, Classical.choice, Quot.sound]
'Verif.Reports.C89_rssi' depends on axioms: [propext, Classical.choice, Quot.sound]
'Verif.Reports.C89_loss' depends on axioms: [propext, Classical.choice, Quot.sound]
'Verif.Reports.C89_rate_partial' depends on axioms: [propext, Classical.choice, Quot.sound]
'Verif.Reports.C89_fails' depends on axioms: [propext, Classical.choice, Quot.sound]
'Verif.UlEnd.C90_final_partial' depends on axioms: [propext, Classical.choice, Quot.sound]
'Verif.UlEnd.C90_finished_partial' depends on axioms: [propext, Classical.choice, Quot.sound]
'Verif.UlEnd.C90_marked' depends on axioms: [propext]
'Verif.UlEnd.C90_complete_egprs_partial' depends on axioms: [propext, Classical.choice, Quot.sound]
'Verif.UlEnd.C90_complete_gprs_partial' depends on axioms: [propext, Classical.choice, Quot.sound]
'Verif.UlEnd.C90_answered_partial' depends on axioms: [propext, Quot.sound]
'Verif.UlEnd.C90_final_too_early' depends on axioms: [propext, Quot.sound]
'Verif.UlEnd.C90_halves_unanswered' depends on axioms: [propext, Quot.sound]
'Verif.DlPoll.C91_asked_partial' depends on axioms: [propext, Classical.choice, Quot.sound]
'Verif.DlPoll.C91_reason' depends on axioms: [propext, Classical.choice, Quot.sound]
'Verif.DlPoll.C91_every_20' depends on axioms: [propext, Classical.choice, Quot.sound]
'Verif.DlPoll.C91_fails' depends on axioms: [propext, Quot.sound]
'Verif.NsCfg.C92_exact_partial' depends on axioms: [propext, Classical.choice, Quot.sound]
'Verif.NsCfg.C92_only' depends on axioms: [propext, Classical.choice, Quot.sound]
'Verif.NsCfg.C92_made' depends on axioms: [propext, Classical.choice, Quot.sound]
'Verif.NsCfg.C92_local' depends on axioms: [propext, Quot.sound]
'Verif.NsCfg.C92_kept' depends on axioms: [propext, Classical.choice, Quot.sound]
'Verif.NsCfg.C92_again' depends on axioms: [propext, Classical.choice, Quot.sound]
'Verif.NsCfg.C92_fails' depends on axioms: [propext, Quot.sound]
'Verif.NsCfg.C92_sns' depends on axioms: [propext, Classical.choice, Quot.sound]
'Verif.NsCfg.C92_sns_local_fails' depends on axioms: [propext, Quot.sound]
'Verif.Clock.C93_follows_partial' depends on axioms: [propext, Classical.choice, Quot.sound]
'Verif.Clock.C93_late_partial' depends on axioms: [propext, Classical.choice, Quot.sound]
'Verif.Clock.C93_older' depends on axioms: [propext, Classical.choice, Quot.sound]
'Verif.Clock.C93_goes_on' depends on axioms: [propext, Classical.choice, Quot.sound]
'Verif.Clock.C93_zero_fails' does not depend on any axioms
'Verif.Clock.C93_first_fails' does not depend on any axioms
'Verif.Clock.C93_no_frame_stops' depends on axioms: [propext, Quot.sound]
'Verif.Ccu.C94_in_step' depends on axioms: [propext, Classical.choice, Quot.sound]
'Verif.Ccu.C94_no_gap' depends on axioms: [propext, Classical.choice, Quot.sound]
'Verif.Ccu.C94_quiet' depends on axioms: [propext]
'Verif.Ccu.C94_lost' depends on axioms: [propext, Classical.choice, Quot.sound]
'Verif.Ccu.C94_recovers' depends on axioms: [propext, Classical.choice, Quot.sound]
'Verif.Ccu.C94_ahead_partial' depends on axioms: [propext, Classical.choice, Quot.sound]
'Verif.Ccu.C94_wrap_fails' depends on axioms: [propext, Quot.sound]
'Verif.Ccu.C94_data_fails' depends on axioms: [propext, Quot.sound]
'Verif.Ccu.C94_stuck_fails' depends on axioms: [propext]
'Verif.Ccu.C94_type' does not depend on any axioms
'Verif.E1.C95_open_partial' depends on axioms: [propext, Classical.choice, Quot.sound]
'Verif.E1.C95_disconnect_partial' depends on axioms: [propext, Classical.choice, Quot.sound]
'Verif.E1.C95_connect_partial' depends on axioms: [propext, Classical.choice, Quot.sound]
'Verif.E1.C95_announced_partial' depends on axioms: [propext, Classical.choice, Quot.sound]
'Verif.E1.C95_refused' depends on axioms: [propext, Quot.sound]
'Verif.E1.C95_moved_fails' depends on axioms: [propext]
'Verif.E1.C95_leak_fails' depends on axioms: [propext]
'Verif.E1.C95_subslot_fails' depends on axioms: [propext]
'Verif.E1.C95_stuck_fails' depends on axioms: [propext, Quot.sound]
'Verif.E1.C95_crash' depends on axioms: [propext]
'Verif.E1.C95_slot31' depends on axioms: [propext]
'Verif.Alloc.C96_flag' depends on axioms: [propext, Classical.choice, Quot.sound]
'Verif.Alloc.C96_room_dl' depends on axioms: [propext, Classical.choice, Quot.sound]
'Verif.Alloc.C96_room_ul_partial' depends on axioms: [propext, Classical.choice, Quot.sound]
'Verif.Alloc.C96_one_pdch_partial' depends on axioms: [propext, Classical.choice, Quot.sound]
'Verif.Alloc.C96_fails_ul' depends on axioms: [propext, Classical.choice, Quot.sound]
'Verif.Alloc.C96_fails_dl' depends on axioms: [propext, Classical.choice, Quot.sound]
'Verif.Alloc.C96_none' depends on axioms: [propext, Classical.choice, Quot.sound]
'Verif.BlkCtr.C97_ul' depends on axioms: [propext, Quot.sound]
'Verif.BlkCtr.C97_dl_partial' depends on axioms: [propext, Quot.sound]
'Verif.BlkCtr.C97_dl_chosen' depends on axioms: [propext, Quot.sound]
'Verif.BlkCtr.C97_tbf' depends on axioms: [propext, Quot.sound]
'Verif.BlkCtr.C97_others' depends on axioms: [propext, Quot.sound]
'Verif.BlkCtr.C97_no_null_partial' depends on axioms: [propext, Quot.sound]
'Verif.BlkCtr.C97_kind_gprs' depends on axioms: [propext, Quot.sound]
'Verif.BlkCtr.C97_kind_egprs' depends on axioms: [propext, Quot.sound]
'Verif.BlkCtr.C97_dl_fails' depends on axioms: [propext, Quot.sound]
'Verif.Tap.C98_counts' depends on axioms: [propext, Classical.choice, Quot.sound]
'Verif.Tap.C98_sums' depends on axioms: [propext, Classical.choice, Quot.sound]
'Verif.Tap.C98_dl_tap' depends on axioms: [propext, Classical.choice, Quot.sound]
'Verif.Tap.C98_kinds' depends on axioms: [propext, Classical.choice, Quot.sound]
'Verif.Tap.C98_usf' depends on axioms: [propext, Classical.choice, Quot.sound]
'Verif.Tap.C98_contents' depends on axioms: [propext, Classical.choice, Quot.sound]
'Verif.Tap.C98_form' depends on axioms: [propext, Quot.sound]
'Verif.Tap.C98_names' depends on axioms: [propext, Quot.sound]
'Verif.Tap.C98_egprs' depends on axioms: [propext, Classical.choice, Quot.sound]
'Verif.Tap.C98_only_enabled' depends on axioms: [propext, Quot.sound]
'Verif.Tap.C98_ul_counts' depends on axioms: [propext, Classical.choice, Quot.sound]
'Verif.Tap.C98_ul_tap_partial' depends on axioms: [propext, Quot.sound]
'Verif.Tap.C98_ul_times' depends on axioms: [propext, Classical.choice, Quot.sound]
'Verif.Tap.C98_rach' depends on axioms: [propext, Quot.sound]
'Verif.Tap.C98_rts_safe' depends on axioms: [propext, Quot.sound]
'Verif.Tap.C98_ul_fails' depends on axioms: [propext]
'Verif.Tap.C98_trx_fails' depends on axioms: [propext]
'Verif.Tap.C98_block_fails' depends on axioms: [propext]
'Verif.Tap.C98_ul_safe_partial' depends on axioms: [propext, Quot.sound]
'Verif.PtcchTx.C99_answers' depends on axioms: [propext, Classical.choice, Quot.sound]
'Verif.PtcchTx.C99_tap' depends on axioms: [propext, Classical.choice, Quot.sound]
'Verif.PtcchTx.C99_range' depends on axioms: [propext, Quot.sound]
