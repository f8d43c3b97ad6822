# Formal model of osmo-pcu in Lean 4: design

## Layout

* `lean/Verif/Model/*.lean`: executable model, one file per source area.
  Every definition cites `/repo/src/...` file and lines.
* `lean/Verif/Spec/*.lean`: small specifications written without the model's helpers
  (absolute block numbers, association lists, 3GPP tables, message writers and readers of TS 44.018/44.060).
* `lean/Verif/Lemmas/*.lean`: helper lemmas.
* `lean/Verif/Props/*.lean`: the property theorems, named `Cnn_...`, with a
  non-vacuity `example` next to each.
* `properties.jsonl`: the English properties; `MANIFEST.json`: which theorem
  carries which property; `seeded/LOG.jsonl`: mutation experiments; `AXIOMS.txt`: axioms of every theorem
  named in the manifest.

## Modelling conventions

* C integers are `Nat`/`Int` with the wrap-around written explicitly
  (`% 2^k`, `&&& (sns-1)`) where the code relies on it.
* Undefined behaviour and failed `OSMO_ASSERT` are distinct outcomes
  (`none` / `.ub` / `.abort` / `.spill`), never silently totalised.
* Pointers to TBFs, MSs, messages are abstract identities (`Nat`).
* Logging, counters without a property, memory allocation failure and the VTY commands that only print (except those of
  C88 and C89) are not modelled.
* Time (`osmo_clock_gettime`) is an input of the operation.
* What code outside of a model decides is an argument of the operation (a snapshot, an oracle), so a
  theorem holds for every such decision.
* Where the code violates a property, the negation is proved on a concrete
  reachable witness, and a `_partial` theorem states what does hold.

## Trusted base

* Lean 4.33.0 kernel; axioms `propext`, `Classical.choice`, `Quot.sound` only
  (no axioms of ours, no `sorry`, no `native_decide`, no `bv_decide`). `AXIOMS.txt` lists them per theorem.
* The reading of the C/C++ code that produced the model (cited line by line). The CSN.1 tables
  `Model/Csn1Ul.lean` and `Model/Csn1Dl.lean` were transcribed mechanically from `gsm_rlcmac.c`; the transcription
  itself is not verified, the result can be compared line by line.
* The specifications: what TS 44.060, 44.018, 45.002 and 48.018 say is written down in `Spec/` from knowledge of
  these documents.
* libosmocore behaviour assumed as documented: `llist_*`, `rbtree`, `msgb` queues,
  `bitvec_*` (a read past the end gives 0 and does not advance, a write past the end is ignored),
  `osmo_fsm` (event masks, state masks, timers), `osmo_timer`, `osmo_use_count`, `osmo_mobile_identity_*`,
  `osmo_cgi_ps_cmp`, `gsm0502_fncmp`, `gsm48_ta_is_valid`, `GSM_TDMA_FN_*` macros, timespec macros,
  `tlvp_val16be`, `bssgp_tx_fc_bvc`.

## What is modelled

| Source | Model | Left out |
|---|---|---|
| `rlc_window*.cpp`, `rlc.cpp`, ack part of `tbf_ul.cpp`, `tbf_dl.cpp` | `RlcWindowUl`, `RlcWindowDl` | unacknowledged mode |
| `decoding.cpp` ack/nack, `egprs_rlc_compression.cpp` | `AckNack`, `Crbb` | |
| `encoding.cpp`, `decoding.cpp` data blocks, `create_new_bsn`, `assemble_forward_llc` | `Segment`, `DataBlock`, `CodingScheme`, `Split` | |
| `llc.c`, `gprs_codel.c` | `LlcQueue`, `Codel` | floating point average delay |
| `pdch_ul_controller.c`, `sba.c`, `pcu_utils.h` | `Ulc`, `Fn` | the tree is its ordered list of nodes; reservations within 1,000,000 frames of the current one |
| `mslot_class.c`, `alloc_algo.cpp`, attach/detach | `Mslot`, `AllocAlgo`, `World` | counters of reservations are unbounded (8 bits in the code) |
| `tbf*_fsm.c`, counters and polls of `tbf.cpp` | `TbfFsm` | control time slot, effects on other TBFs |
| `gprs_rlcmac_sched.cpp` | `Sched` | the TBFs are an arbitrary snapshot per request |
| `gprs_ms.c`, mobile list of `bts.cpp` | `MsStore`, `MsCs` | |
| `pdch.cpp` paging, `bts_pch_timer.c`, `neigh_cache.c` | `Paging`, `PchTimer`, `Cache` | |
| `encoding.cpp` AGCH/PCH messages, RACH part of `bts.cpp` | `ImmAss`, `Rach`, `PagingReq` | the allocators are an arbitrary environment |
| timing advance in `bts.cpp`, `pdch.cpp` | `Ta` | |
| flow control in `gprs_bssgp_pcu.c` | `FlowCtl` | |
| `nacc_fsm.c` | `Nacc` | encoding of the SGSN side messages |
| `csn1_dec.c`, `csn1_enc.c`, `gsm_rlcmac.c` | `Csn1`, `Csn1Ul`, `Csn1Dl`, `UlCtrl` | `CSN_EXIST`, `CSN_CALLBACK`, `_LH` kinds and tables of messages the PCU neither sends nor receives; overlap of C unions |
| `rcv_control_*dl_ack_nack` in `pdch.cpp` | `DlAck` | measurements, uplink TBF request |
| `write_packet_{downlink,uplink}_assignment`, `gen_freq_params`, `write_packet_neighbour_cell_data`, `write_packet_cell_change_continue` in `encoding.cpp`, `encode_gsm_rlcmac_downlink` | `DlCtrl` | callers' choice of `ta_idx`, alpha, gamma; logging |
| `rcv_control_block`, reading of members in its handlers (`pdch.cpp`), `fill_neigh_key_from_bts_pkt_cell_chg_not` (`nacc_fsm.c`), `get_*ms_class_by_capability` (`decoding.cpp`) | `UlRx` | what the handlers do afterwards (C40, C41, C46, C57), E-UTRAN targets in detail |
| `tbf_ul.cpp` 246-418 as a whole: window, TLLI check, reassembly, forwarding | `UlData` | RSSI, FSM events, scheduling of acknowledgements, change of the TLLI by other events during the TBF |
| `take_next_bsn`, `create_new_bsn`, block store, `rcvd_dl_ack` in `tbf_dl.cpp` together | `DlData` | choice of the coding scheme and of two blocks for a radio block (C11, C12), polling (C19), the final acknowledgement, release |
| `write_packet_uplink_ack*`, `write_packet_ack_nack_desc_*` (`encoding.cpp` 851-1139) | `UlAckMsg` | when the message is sent (C19, C46) |
| `bvc_timeout`, BVC-RESET-ACK, BVC-UNBLOCK-ACK, `handle_nm_status`, `bssgp_prim_cb`, `gprs_ns_prim_status_cb` (`gprs_bssgp_pcu.c`) | `Bvc` | libosmogb itself, NS, flow control values (C37) |
| `gprs_bssgp_pcu_rcvmsg`, `_rx_ptp`, `_rx_sign`, `_rx_dl_ud`, `_rx_paging_cs`, `_rx_paging_ps` (`gprs_bssgp_pcu.c`) | `Bssgp` | libosmocore: `bssgp_tlv_parse` is modelled from the standard, `osmo_mobile_identity_decode` and the decoder of the radio access capability are parameters |
| `parse_ra_cap` (`gprs_bssgp_pcu.c`), `decode_gsm_ra_cap` (`gsm_rlcmac.c`) | `RaCap` | - |
| `pcu_l1_if.cpp`, `pcuif_proto.h` (receiving side) | `PcuIf` | direct access to a PHY; log; contents of SI2 and the rest octets of SI13 |
| `handle_rim` and what it calls (`gprs_bssgp_rim.c`), `fill_rim_ran_info_req`, `bts_fill_si_cache_value` (`nacc_fsm.c`), `pcu_rx_neigh_addr_cnf` (`pcu_l1_if.cpp`) | `Rim` | encoding and decoding of BSSGP messages (libosmocore), replaced MCC and MNC, mobiles that change the cell |
| `src/tbf.cpp` control slots and polls, `src/pdch.cpp` free_resources, `rcv_resource_request` (end) | `Model/Polls.lean` | when the state machines ask for polls (any time is allowed); what answers do to a TBF |
| `src/pcuif_sock.c`, `src/pcu_l1_if.cpp` (messages to the BTS) | `Model/PcuTx.lean` | direct PHY access, measurement files, released TBFs when the socket closes (the process exits) |
| `src/tbf.cpp` (poll_timeout), `src/pdch.cpp` (received blocks), `src/pdch_ul_controller.c` (promised blocks), with the state machines of `Model/TbfFsm.lean` | `Model/Live.lean` | other slots than the control slot, frame numbers (`Model/Ulc.lean`), single blocks for access |
| `src/pcu_vty.c` (configuration commands and config_write_pcu), `src/gprs_pcu.c` (defaults), `src/gprs_pcu.h` | `Model/Vty.lean` | the show commands, the line editing and matching of libosmocore, other configuration nodes |
| `src/gprs_pcu.c` 170-214, `src/bts.cpp` 1344-1452, `src/pcu_l1_if.cpp` 843-871 | `Model/Limits.lean` | the remaining fields of the announcement; deactivation of a BTS |
| `src/gprs_ms.c` 68-108, 220-259, 334-395, `src/pdch.cpp` 677-830, `src/tbf_ul_fsm.c` 230-253, `src/bts.cpp` 1006-1012 | `Model/MsLife.lean`, `Model/MsStore.lean` | reserved slots (C22), the LLC timer, counters |
| `src/gprs_ms.c` 334-356, 1091-1124, 1268-1410, `src/gprs_ms.h` 160-184, `src/tbf_ul.cpp` 223-243, `src/tbf_ul_fsm.c` 187-253, `src/tbf_dl_fsm.c` 274-295, 424-434, `src/pdch.cpp` 116-131, 336-468, 678-830 | `Model/DlStart.lean` | the content of the queue, the allocation algorithm (`Model/AllocAlgo.lean`), paging of mobiles that are in standby |
| `src/pdch.cpp` 629-826, `src/encoding.cpp` 1728-1751, `src/tbf_ul_ass_fsm.c` 60-81, 123-128 | `Model/ReqAnswer.lean` | counters, logging; when the answer is scheduled (C30) |
| `bts_do_rate_ctr_inc` in src/bts.cpp 943-1049, src/sba.c, src/tbf.cpp 249-257, src/tbf_ul.cpp 123, src/tbf_dl.cpp 145, 517, src/gprs_ms.c 1152-1336 | `World`, `Counters` | the counters of the allocation algorithms by cause, of polls, of coding schemes and of control messages |
| `src/bts.cpp` (`bts_snd_dl_ass`, `bts_rcv_imm_ass_cnf`), `src/gprs_ms.c` (attaching and detaching of downlink TBFs), with `TbfFsm`, `MsStore` | `Confirm` | extraction of the TLLI from a returned message (no caller passes one); identities change freely |
| `ms_update_l1_meas` (`src/gprs_ms.c`), `get_meas` (`src/pdch.cpp`), `show_ms` (`src/pcu_vty_functions.cpp` 179-207) | `Link` | the other lines of `show ms`; merging of mobiles |
| `src/gprs_rlcmac_meas.cpp` | `Reports` | `gprs_rlcmac_meas_rep` (log of the report of a mobile) |
| `rcv_data_block_acknowledged`, `maybe_schedule_uplink_acknack` in `src/tbf_ul.cpp` with the state machines | `UlEnd` | encoding of the message (`UlAckMsg`) |
| polling in `create_dl_acked_block`, `create_new_bsn`, `need_poll_for_dl_ack_nack` in `src/tbf_dl.cpp` | `DlPoll` | choice of the uplink block (`Ulc`) |
| `gprs_ns_update_config`, `ns_conf_vc_cb`, `ns_configure_nse` in `src/gprs_bssgp_pcu.c`, `pcu_info_ind_ns` in `src/pcu_l1_if.cpp` | `NsCfg` | the NS library, form of addresses, DSCP and priority |
| `bts_set_current_frame_number`, `bts_set_current_block_frame_number`, `delta_fn` in `src/bts.cpp` | `Clock` | notice about a jump |
| `er_ccu_rx_cb`, `fn_dl_advance`, `fn_to_block_nr`, `mac_block_is_noise`, `cs_hdr_from_len` in `src/ericsson-rbs/er_ccu_l1_if.c` | `Ccu` | coding of TRAU frames, measurements, timing adjustment, E1 |
| `er_ccu_if_open`, `er_ccu_if_close`, `open_e1_timeslot`, `close_e1_timeslot`, `add_i460_subslot`, `del_i460_subslot` in `src/ericsson-rbs/er_ccu_if.c`, `l1if_connect_pdch`, `l1if_disconnect_pdch`, `pcu_rx_e1_ccu_ind` | `E1` | E1 and I.460 libraries (inputs: success or failure), bits on the line |
| `bts_all_pdch_allocated` in `src/bts.cpp`, `pdch_is_full` in `src/pdch.cpp` | `AllFull` | counting of time (libosmocore) |
| `update_coding_scheme_counter_dl/ul`, allocation of the counter groups in `dl_tbf_alloc` and the uplink TBF, `bts_ctr_description` | `BlkCtr` | rate counters of libosmocore; overflow at 2^64 |
| `tap_n_acc`, end of `gprs_rlcmac_rcv_rts_block`, `bts_send_gsmtap*`, beginning of `rcv_block`, `rcv_block_gprs`, `rcv_data_block`, `rcv_control_block`, GSMTAP in `pcu_rx_data_ind` | `Tap` | GSMTAP sockets; signal levels; AGCH, PCH, PTCCH downlink |
| `pcu_rx_rts_req_ptcch`, `pcu_l1if_tx_ptcch`, `bts_rcv_ptcch_rach` for all PDCHs | `PtcchTx` | direct access to the PHY |

Not modelled: NS transport, encoding of BSSGP messages (libosmogb), GSMTAP, logging, the printing of `show tbf` and of the
other VTY commands without a property, L1 hardware back ends, `pcu_main.cpp`.

## Assumptions that restrict theorems

* C16: clock values non-negative, fewer than 2^32 calls for the spacing claim. C18/C28: reservations within
  1,000,000 frames of the current frame.
* C24: poll reasons are those a TBF of that direction sets up (`DlOk`, `UlOk`); the use-after-free part also assumes how
  the rest of the PCU drives a TBF (`DlSane`), shown necessary by an example. C26: unused grants are reported only for
  a TBF past its assignment (`UsfSaneRun`).
* C23: PDCH deactivation is excluded from the history theorem.
* C46: reservation counters do not overflow eight bits.
* C54: the IMSI of a PDU is taken as decoded by libosmocore, 1 to 15 digits.

## Plan per property

| Id | Model | Proof |
|---|---|---|
| C01 | UL window (`v_n` ring of 1024, V(R), V(Q)), `rcv_data_block_acknowledged` | refinement: ring state represents a set of absolute block numbers; induction over arrivals; negation for ws > 512 |
| C02 | `update_rbb` on the same window | pointwise iff against the absolute set |
| C03 | DL window ring `v_b`, V(S), V(A) | invariant by induction over send/ack/resend operations, absolute numbering |
| C04 | `take_next_bsn` on the DL window | case analysis + termination measure |
| C05, C06 | ack/nack decoders | pointwise characterisation of the produced list |
| C07, C08 | append / parse LI functions, `assemble_forward_llc` | round-trip by induction over frames and blocks |
| C09 | parse functions with out-of-bounds read as distinct outcome | negation for the off-by-one; partial under the guard that avoids it |
| C10 | byte-shift copy loops | bit-level characterisation, round-trip |
| C11 | header bit-fields | decode ∘ encode = id by arithmetic on fields |
| C12, C13 | tables | exhaustive `decide` over the finite tables (genuinely finite quantifier) |
| C14, C15 | LLC queue as two lists with counters | invariant + refinement to a pair of FIFO lists |
| C16 | CoDel state machine | invariants over call history |
| C17 | frame assembly with overflow outcome | negation witness; partial bound |
| C18, C19 | ULC as finite map keyed by FN | invariant over operation histories; case analysis for RRBP |
| C20 | FN arithmetic | `omega` |
| C21, C22 | PDCH/TRX tables, attach/detach | invariant over histories |
| C23 | multislot allocation | invariants of the slot search |
| C24, C25 | FSM tables with timers | invariant over event sequences |
| C26 | counters | induction over events |
| C27–C32 | RTS scheduler | step model; invariants and fairness by measure; negations for the defects |
| C33 | TLLI triple | invariant over announcements |
| C34 | link adaptation | invariant over reports |
| C35 | paging message packing | induction over the queue |
| C36, C37 | caches, timers | refinement to latest-write map with timestamps |
| C38 | window size arithmetic | `omega` |
| C39 | run-length codes | prefix-freeness by table, round-trip by induction |
| C40 | TA arithmetic, TAI table | invariant |
| C41 | NACC FSM and container segmentation | induction over the containers; negations for the defects |
| C42 | DL-UNITDATA parsing of the old TLLI | negation; partial |
| C43 | merge | list reasoning; negation (non-termination) |
| C44 | split-block reassembly | case analysis over arrival orders |
| C45 | RACH decision | case analysis |
| C46 | reservation counters | invariant |
| C47 | T1'/T2/T3 encoding | CRT argument |
| C48 | flow control arithmetic | `omega`; negation for the delay unit |
| C49 | `bts_add_paging` | list reasoning over all TBFs |
| C50, C51 | writers of Immediate Assignment (Reject) | independent reader of TS 44.018 run on the written bits; negations |
| C52, C53 | leak rate, error rate of a report | `omega` with explicit wrap-around; negations |
| C54, C55 | paging request, application information | independent reader on the written octets; negations |
| C56 | CSN.1 decoder with `spill` for a store outside an array, tables of uplink messages | static check of a table proved sound for every block, evaluated on the tables; negations on concrete blocks |
| C57 | decoder of CSN.1 tables, reading of the decoded bitmaps, window | independent message writers; general theorem that a table reads what its declarative meaning writes; composition with C05/C06; negation |
| C58, C59 | writers of assignments, CSN.1 encoder, tables of downlink messages | independent message writers; general theorem that the encoder writes the declarative meaning of a table or fails for lack of room; negations |
| C60 | writers of NACC messages, CSN.1 encoder | as C58, composed with the containers of C41 |
| C61 | dispatch of control blocks, what the handlers read, decoder of CSN.1 tables | independent message writers; the general theorem of C57 |
| C62 | A mobile written from TS 44.060 (cutting of frames, length indicators, TLLI), radio, `rcv_data_block_acknowledged` | Each block has its effect on reassembly (reading of length octets by induction); agreement of reassembly with what the mobile has left; simulation of the whole by the stream of C01 |
| C63 | `take_next_bsn`, `create_new_bsn`, window update; a mobile written from TS 44.060 (receive window, reading of blocks, reassembly, reports), radio with losses | Invariant tying the blocks made so far, the block store, the window (C03), the mobile's window and the frames (C07, C08) together; progress by a measure (blocks missing plus octets and frames waiting) that every round without loss lowers |
| C64 | writers of the Packet Uplink Ack/Nack, a mobile reading it written from TS 44.060 11.2.28, 12.3, 12.3.1 | Round trip of the fields; the bitmap compared with the window of C01/C02 in absolute numbers; meaning of compressed bitmaps from C39; counterexamples by evaluation in the kernel |
| C65 | BSSGP state of the PCU (timer, acknowledgements, status, resets, NS events); an SGSN written from TS 48.018 8.3/8.4; a network that loses and reorders | Invariant over all histories; termination of any exchange by a lexicographic measure; recovery by following the single message on the way from all states |
| C66 | reception of BSSGP messages from octets on; elements and messages written from TS 48.016/48.018 | Round trip of elements in both codings and its converse; case analysis of the dispatch |
| C67 | radio access capability: CSN.1 tables with the interpreter of C55, `parse_ra_cap`, search for the class; capability written from TS 24.008 release by release | Walk through the table entry by entry, zeros and ends for older releases, induction over entries; bounds of members for arbitrary octets |
| C68 | Packet Resource Request: tables of C56, dispatch and what `rcv_resource_request` reads of it; message written from TS 44.060 release by release | Walk through the table entry by entry, capability from C67, loop over time slots; frame conditions for members read later |
| C69 | Reception of `pcu_rx` and its handlers over the octets of the message; messages written from `pcuif_proto.h` | Offsets of fields by lemmas on concatenations, sign and byte order by arithmetic, list of E1 connections by induction over the history |
| C70 | `pcu_rx_info_ind` over the octets of the announcement, list of BTSs, `pcu_rx_data_ind_bcch`; specification `Follows` of a BTS used as announced | Fields of the announcement by offset lemmas; what each message may change, for any octets; induction over the history; two witnesses |
| C71 | Outcomes of the model of C69 and C70: memory access outside a structure and failing assertions are outcomes of their own | Case analysis over all message types for arbitrary octets; witnesses by evaluation in the kernel |
| C72 | RIM handler joined with the models of the BTS interface (C69-C71), of the caches (C36) and of the cell change procedures (C41); histories with all their events | Induction over histories, projection to runs of the BTS interface and to histories of the caches; C70 for the system information last announced |
| C73 | the same model as C72; what a mobile asked for and got, addresses given and reports received are read off the events of a history | Projection of a history to the events of one mobile (C41) and to those of the two caches (C36), C72 and C70 for the other PCU |
| C74 | the BTS of C17 with the uplink controllers of C21 and the control slots; polls, answers, timeouts and PDCH changes as operations in any order | Invariant of one step for all operations, with what freeing and allocating leaves alone; TRX of an allocation; two concrete histories for the negations |
| C75 | messages to the BTS as octets; the socket with its queue and its results as operations | Round trip with an independent reader by offsets; invariant of every history (written ++ queue = handed over), induction over the write loop |
| C76 | the control states of all TBFs of a PDCH together with the uplink blocks promised to them | Invariants by induction over histories; a rank of each TBF that no step increases and every turn decreases; for the negation an invariant that no continuation leaves |
| C77 | all commands of the configuration node and the function that writes the configuration | Ranges as an invariant by induction over commands; the effect of each written line; composition over the whole file |
| C78 | all commands of the configuration node and the written configuration | The written file as a list of parts with names; for every command, its own part is as expected and no other part changes |
| C79 | commands, announcements and mobiles in one state; the recalculations called by each command | Invariant over all histories; a command that changes a configured limit is shown to call the recalculation, by going through the command table; concrete histories for the failures |
| C80 | mobiles with their users, the release timer and the time; requests and confirmations during which a mobile loses its TBFs; use of a freed record is `none` | For each act, what becomes of each mobile (same, busy, idle with a new timer, gone, claimed); invariant and induction over histories |
| C81 | one mobile: number of waiting frames, current and older TBFs with their state machines (`TbfFsm`), the allocation result as input, a log of where assignments were started | Effects of each event on a single TBF; then two invariants of the mobile (all histories; histories without loss) by induction, with one lemma per handler |
| C82 | the bits of the reject; reservations of one PDCH, its TBFs by TFI, and the records of `MsStore`; reader of the message after 3GPP TS 44.060 | Field by field reading of what was written, the remaining padding by computation; case analysis of the request; histories of C33 for the records |
| C83 | the allocation algorithms on reachable states of C21; room stated in TFIs and USFs of existing TBFs | Completeness of each search; the window of one transmit slot always survives the filter (finite facts about the classes), invariant of the search over all windows; pigeonhole: uplink TFIs never run out before the USFs; histories as counterexamples |
| C84 | counters as part of the state of the cell (C21), of the answer to a request on the RACH (C49) and of the uplink controller (C18) | Invariant over all operations: only creating and releasing a TBF changes the set of TBFs and the counters; induction over the requests; invariant of the histories of C18 with the number of single blocks; two histories as counterexamples |
| C85 | the masks of src/mslot_class.c, the search of C23, the times of TS 45.002 table B.1 as a separate table, slots as times of absolute frames | Bits of a shifted and wrapped mask, invariant of the search, then the invariant of C23 over histories, which keeps every subset of the slots found; a history as counterexample |
| C86 | the mobiles of C33 and C43 with their classes | Relation between the records before and after, transitive, shown for every operation; what a merge and a frame do to the record they concern |
| C87 | downlink TBFs of C24 with the mobiles of C33, assignments handed to the BTS and confirmations in any order | Invariant over all histories: X2002 runs in the assignment state only after a confirmation since the last hand-over; counterexample with two TBFs of a mobile |
| C88 | measurements of a mobile as kept and shown, with the blocks that carry them | Induction over the blocks: each value is that of the last block carrying it; counterexamples |
| C89 | the sums, time stamps and reports of a TBF in their integer sizes | Induction over the division of the measurements at the reports; bounds for the integer division of the rate; counterexample for the unit |
| C90 | reception (C62) composed with the state machines of the TBF (C26) | Simulation by the uplink service of C62; invariant: FINISHED, or a final acknowledgement, only if V(Q) is past the last block; counterexamples for the window of 1024 and for split blocks |
| C91 | the loop that fills a block and the decision to poll, on top of the transmission of C63 | Invariant: counter and flags are functions of the history; induction over the loop for the reasons that come from it; counterexample for exactly filled blocks |
| C92 | comparison of the connections with an announcement, and configuration, with the answers of the NS library as input | Permutations and counts over the loop that compares; induction over histories; counterexample for a connection that fails twice |
| C93 | the two functions that set the frame number, with the integer division of C | Closed form of the difference on the circle; case distinction with linear arithmetic; counterexamples for frame 0 and for the first block |
| C94 | counting of frame numbers between synchronisation frames of the CCU, compensation, choice of the downlink block | Blocks are numbered from the begin of a hyperframe; counting is proved to be the successor; induction over the frames; counterexamples for the 22 bit field and the time before the first synchronisation |
| C95 | opening, sharing and closing of E1 time slots by the channel coding units, the table of parameters | Invariant: the count of each time slot is the number of connected units on it; induction over the history; counterexamples |
| C96 | the flag behind the counter of the time during which all PDCHs are allocated | From the invariant of the maps (C21) to the TBFs; with the theorems on refusals (C83) to what a mobile gets; counterexamples |
| C97 | counters of data blocks per BTS and TBF, by name | Induction over the history, compared with the list of blocks on the air; counterexample for blocks sent alone |
| C98 | end of the answer to a request, beginning of the reception, GSMTAP | Induction over the history, compared with the requests sent to the BTS; counterexamples for blocks that fail and for TRX numbers |
| C99 | messages of all PDCHs, answers to requests for the PTCCH | Invariant: each message is the function of the history given in the specification |

## Results per property

* **C01** (proved): `RlcUl.C01_in_order_exactly_once`, `RlcUl.C01_forwarded_is_final`, `RlcUl.C01_complete_egprs_partial`, `RlcUl.C01_complete_gprs_partial`, `RlcUl.C01_gprs_window_edge_deadlock`, `RlcUl.C01_egprs_ws1024_first_copy_lost`. Safety (the stated property) for GPRS and all EGPRS window sizes. Additionally completeness where it holds, and negations where it does not.
* **C02** (partial): `RlcUl.C02_never_acks_unreceived`, `RlcUl.C02_bitmap_exact_partial`, `RlcUl.C02_edge_block_reported_missing`, `RlcUl.C02_egprs_bitmap_exact_partial`, `RlcUl.C02_egprs_bitmap_empty_at_wrap`. No false acknowledgement: proved for all histories. The converse is false in the window-edge case (negation proved); proved without that case.
* **C03** (proved): `RlcDl.C03_never_overrun`, `RlcDl.C03_unacked_is_kept`, `RlcDl.C03_next_is_fresh`, `RlcDl.C03_outstanding_distinct`, `RlcDl.C03_oldest_monotone`, `RlcDl.C03_count_unacked`, `RlcDl.C03_shrinking_defeats_stall_check`. Every history of block requests, Ack/Nack bitmaps, split retransmissions, final acks and window size changes not below the outstanding count; the last theorem shows why that proviso is needed.
* **C04** (proved): `RlcDl.C04_first_block`, `RlcDl.C04_sends_only_window_blocks`, `RlcDl.C04_refusal_only_for_second`, `RlcDl.C04_terminates`, `RlcDl.C04_no_software_error`. Complete decision table for the first block, safety for both blocks, bounded recursion.
* **C05** (proved): `AckNack.C05_gprs_exact`, `AckNack.C05_gprs_out_of_range_ignored`, `AckNack.C05_gprs_final`. All SSNs, all bitmaps, all reachable windows.
* **C06** (partial): `AckNack.C06_egprs_exact_partial`, `AckNack.C06_egprs_final`, `AckNack.C06_window_respected`, `AckNack.C06_not_bow_misplaced`, `AckNack.C06_stale_ssn_acks_all`. Exact for messages with 'beginning of window' and an SSN of the window, including compressed bitmaps; the full property is false (two negations proved).
* **C07** (partial): `Seg.C07_frames_survive_partial`, `Seg.C07_frames_survive_open`, `Seg.C07_block_has_its_size_partial`, `Seg.C07_last_block_completes_partial`, `Seg.C07_all_delivered`, `Seg.C07_violated`, `Seg.C07_not_all_delivered`. False of the code when the last frame of a TBF exactly fills the rest of a block after another frame end (negation proved: the frame is lost). Proved for every other history, and without exception while the TBF is kept open.
* **C08** (proved): `Seg.C08_frames_survive`, `Seg.C08_block_has_its_size`, `Seg.C08_last_block_completes`, `Seg.C08_all_delivered`, `Seg.C08_tiny_frames_dropped`. Every history of frames (>= 5 octets, shown necessary) and block sizes 20..74; safety, completion on the last block, and progress.
* **C09** (partial): `Seg.C09_reassembly_stays_inside`, `Seg.C09_tlli_call_partial`, `Seg.C09_violated`. Reassembly call: all reads and pieces inside the block, all contents. TLLI-only call: can read exactly one octet past the block (negation proved), never more.
* **C10** (proved): `Blk.C10_copy_in`, `Blk.C10_copy_out`, `Blk.C10_store_large_enough`, `Blk.C10_roundtrip`, `Blk.C10_two_blocks`. All coding schemes, layouts, buffers and contents; memory safety included.
* **C11** (proved): `Blk.C11_dl_header`, `Blk.C11_dl_unambiguous`, `Blk.C11_ul_header`. All coding schemes and header values against the header figures of TS 44.060; octets outside are never touched, payload never changed.
* **C12** (partial): `Cs.C12_cps_defined`, `Cs.C12_cps_unambiguous`, `Cs.C12_decode_partial`, `Cs.C12_decode_mcs9`, `Cs.C12_violated`, `Cs.C12_padding_only_where_defined`, `Split.C44_dl_puncturing`. False of the code for MCS-9 on the decoding side (negation proved); proved for every other combination.
* **C13** (proved): `Cs.C13_size_identifies`, `Cs.C13_sizes_distinct`, `Cs.C13_kind`, `Cs.C13_step_up`, `Cs.C13_step_down`, `Cs.C13_step_foreign`, `Cs.C13_step_plain`, `Cs.C13_retx_fits`, `Cs.C13_retx_obeys_command`, `Cs.C13_retx_domain`, `Cs.C13_block_layout`, `Cs.C13_dec_to_single`. Whole tables, lifted to all schemes.
* **C14** (proved): `Llc.C14_accounting`, `Llc.C14_lossless`, `Llc.C14_fifo`, `Llc.C14_priority`, `Llc.C14_put_back`, `Llc.C14_merge`, `Llc.C14_classes`. All histories of enqueue, dequeue, put back, clear; merging of queues in C14_merge and C14_accounting.
* **C15** (proved): `Llc.C15_dequeue`, `Llc.C15_never_expired`, `Llc.C15_all_expired`, `Llc.C15_nothing_lost`, `Llc.C15_lifetime`, `Llc.C15_droppable`, `Llc.C15_hysteresis_void`. Also shows that the hysteresis never discards a valid LLC frame (the code tests the control field bits on the address octet).
* **C16** (proved): `Codel.C16_drop_only_if_congested`, `Codel.C16_drop_spacing`, `Codel.C16_inverse_sqrt`, `Codel.C16_drop_not_early`, `Codel.C16_leaves_when_relieved`. Clock values are non-negative; fewer than 2^32 calls for the spacing claim (32-bit counter).
* **C17** (partial): `Seg.C17_wellformed_peer_partial`, `Seg.C17_wellformed_peer_gprs_partial`, `Seg.C17_violated`, `Seg.C17_overflow_after_21_blocks`. False of the code (no bounds check): unbounded overrun proved for a misbehaving mobile; bound proved for well-formed senders.
* **C18** (proved): `Ulc.C18_unique`, `Ulc.C18_reserve`, `Ulc.C18_lookup`, `Ulc.C18_release_fn`, `Ulc.C18_release_tbf`, `Ulc.C18_expire`, `Ulc.C18_expire_freeing`, `Ulc.C18_sba`. Reservations within 1,000,000 frames (77 minutes) of the current frame; the tree is modelled as its ordered list of nodes.
* **C19** (proved): `Ulc.C19_rrbp_unambiguous`, `Ulc.C19_poll`, `Ulc.C19_refused`. 
* **C20** (proved): `Fn.C20_blocks_ordered`, `Fn.C20_blocks_all`, `Fn.C20_next_block`, `Fn.C20_next_block_visits`, `Fn.C20_valid`, `Fn.C20_block_number`, `Fn.C20_rts_next`, `Fn.C20_rfn`. 
* **C21** (proved): `Alloc.C21_no_abort`, `Alloc.C21_tfi_unique`, `Alloc.C21_usf_unique`, `Alloc.C21_usf_not_7`, `Alloc.C21_lookup`, `Alloc.C21_no_leak`, `Alloc.C21_release`. All histories of allocation (three algorithms), upgrade, reject, release, PDCH enable/disable.
* **C22** (proved): `Alloc.C22_counters`, `Alloc.C22_statistics`. Same histories.
* **C23** (partial): `Alloc.C23_table`, `Alloc.C23_allocation_partial`, `Alloc.C23_history_partial`, `Alloc.C23_single_slot_exceeds`, `Alloc.C23_class_change_exceeds`. False of the code (two negations proved: the single slot fallback uses a slot index as a mask; a class learnt late is not enforced). Proved for the other histories; PDCH deactivation is excluded from the history theorem.
* **C24** (proved): `Tbf.C24_dl_legal`, `Tbf.C24_ul_legal`, `Tbf.C24_dl_ended`, `Tbf.C24_ul_ended`, `Tbf.C24_dl_released`, `Tbf.C24_ul_released`, `Tbf.C24_dl_no_use_after_free`. All histories of events, timers, polls, confirmations, data and requests; poll reasons are those a TBF of that direction sets up. The no-use-after-free part also assumes how the rest of the PCU drives the TBF (DlSane), shown necessary by an example.
* **C25** (partial): `Tbf.C25_no_assert`, `Tbf.C25_dl_dlAss`, `Tbf.C25_dl_dlAss_kept`, `Tbf.C25_ul_dlAss`, `Tbf.C25_dl_ulAss_partial`, `Tbf.C25_ul_ulAss_partial`, `Tbf.C25_final_ack_pending`, `Tbf.C25_final_ack`, `Tbf.C25_ulAss_lost`, `Tbf.C25_dlAss_request_dropped`. Downlink assignment and final acknowledgement are never lost. An uplink assignment on a TBF past its own assignment is dropped after one unanswered poll, and a second downlink assignment request during the wait is dropped (negations proved).
* **C26** (proved): `Tbf.C26_n3105`, `Tbf.C26_n3101`, `Tbf.C26_n3103`. All histories and all 8-bit limits (0 stands for 256). N3101: unused grants are reported only for a TBF past its assignment, as the scheduler grants blocks only in FLOW.
* **C27** (proved): `Sched.C27_resync`. All histories of requests; the TBFs are an arbitrary snapshot at each request.
* **C28** (proved): `Sched.C28_usf`, `Sched.C28_fair`, `Sched.C28_progress`. All histories of requests, reservations and expiry; reservations within the window of C18.
* **C29** (proved): `Sched.C29_most_urgent`, `Sched.C29_no_idle`, `Sched.C29_fair`, `Sched.C29_frames`. Urgency is specified separately (Spec/Sched.lean) from what a user of the scheduler knows of a TBF.
* **C30** (partial): `Sched.C30_sent_pending`, `Sched.C30_control_first_partial`, `Sched.C30_tbf_before_paging_partial`, `Sched.C30_rotation_partial`, `Sched.C30_ack_rotation`, `Sched.C30_app_info_skips_control`, `Sched.C30_ack_starved`, `Sched.C30_own_direction_starved`. False of the code in three situations (negations proved): application information waiting, an assignment that cannot be built hides the acknowledgement of the same TBF, own-direction assignments starve. Proved otherwise, with the bound of four blocks for kinds and one turn per TBF for acknowledgements.
* **C31** (partial): `Sched.C31_never_sent`, `Sched.C31_counter_partial`, `Sched.C31_only_with_dl_assignment`, `Sched.C31_freed_is_counted`, `Sched.C31_second_request`. False of the code: the message is never sent in any history, and the counter drifts when a mobile is freed or a second request comes (negations proved). The counter is proved right for orderly histories.
* **C32** (partial): `Sched.C32_gmsk_partial`, `Sched.C32_mcs8_repeated`, `Sched.C32_arq2_repeated`, `Sched.C32_final_repeated`. False of the code when a block of MCS-8 is repeated, under ARQ type II, and when the final block is repeated (negations proved); proved otherwise.
* **C33** (partial): `Store.C33_kept`, `Store.C33_announced`, `Store.C33_change`, `Store.C33_confirmed`, `Store.C33_never_lost`, `Store.C33_lookup_partial`, `Store.C33_uplink_found_partial`, `Store.C33_store_kept_partial`, `Store.C33_merge_forgets_old`, `Store.C33_reserved_loses`, `Store.C33_two_mobiles`. Proved for one mobile over all announcements; for the list of mobiles when the SGSN does not name two mobiles in one PDU and uses proper TLLIs. Negations: a merge forgets the old TLLI of the merged record, a PDU with the reserved TLLI leaves a mobile under no TLLI, one PDU can make two mobiles valid under one TLLI.
* **C34** (partial): `Ms.C34_config`, `Ms.C34_max`, `Ms.C34_current_partial`, `Ms.C34_one_step`, `Ms.C34_block`, `Ms.C34_block_defined`, `Ms.C34_block_exceeds_max`, `Ms.C34_forced_exceeds_max`, `Ms.C34_forced_not_of_mode`, `Ms.C34_lowered_max`, `Ms.C34_unsupported_scheme`. The adapted scheme stays within configured limits and moves one step at a time; negations show where the scheme of a block leaves them (fallback and control blocks, forced schemes, limits lowered later, schemes the BTS does not support).
* **C35** (partial): `Paging.C35_message`, `Paging.C35_unambiguous`, `Paging.C35_dropped`, `Paging.C35_sent_partial`, `Paging.C35_exact_fill_lost`, `Paging.C35_six_lost`. Messages that are sent are exact. Records are lost if the entries fill the block to the last bit or there are more than five, because the check before sending fails (negations proved); this cannot happen with TMSIs and identities of six octets or more.
* **C36** (partial): `Cache.C36_latest`, `Cache.C36_once`, `Cache.C36_fresh_partial`, `Cache.C36_cleaned`, `Cache.C36_kept`, `Cache.C36_stale`. The age is checked by a timer only: between the moment the timer is due and its callback a value that is too old is returned (negation proved); fresh at all other times. The value is always the one stored last.
* **C37** (partial): `Pch.C37_paged_partial`, `Pch.C37_once`, `Pch.C37_due`, `Pch.C37_stop`, `Pch.C37_stop_one`, `Pch.C37_foreign_tlli`. Proved when the PCU can tell which subscriber it hears; a subscriber heard under a foreign TLLI without IMSI stays paged (negation proved).
* **C38** (partial): `Ws.C38_legal`, `Ws.C38_read`, `Ws.C38_configured`, `Ws.C38_uplink_assignment`. Legal for every configuration and slot mask, and read correctly from the assignment messages that use enc_ws. False of the Packet Uplink Assignment, in which the window size is always read as 64 (negation proved).
* **C39** (partial): `Crbb.C39_prefix_free`, `Crbb.C39_decode_meaning`, `Crbb.C39_decode_bounded`, `Crbb.C39_unambiguous`, `Crbb.C39_encode_prefix`, `Crbb.C39_encode_claim_partial`, `Crbb.C39_encode_whole_partial`, `Crbb.C39_roundtrip`, `Crbb.C39_encoder_buffer`, `Crbb.C39_claim_wrong_after_cut`, `Crbb.C39_claim_truncated`. Decoder correct for every input; encoder always encodes a prefix of the bitmap; its claimed prefix length is proved right in the stated cases and wrong in two others (negations).
* **C40** (partial): `Ta.C40_range`, `Ta.C40_burst`, `Ta.C40_data`, `Ta.C40_message`, `Ta.C40_index_partial`, `Ta.C40_released`, `Ta.C40_no_assert`, `Ta.C40_early`, `Ta.C40_unknown`, `Ta.C40_index_lost`. Timing advance always in range and equal to the delay of the last burst. Indices are unique and reusable as long as bursts come only from mobiles that hold an index; negations: other bursts take indices away for good, a correction of an unknown timing advance makes it 63, small early errors are corrected though late ones are not.
* **C41** (partial): `Nacc.C41_continue_partial`, `Nacc.C41_first_partial`, `Nacc.C41_progress_partial`, `Nacc.C41_local`, `Nacc.C41_other_rat`, `Nacc.C41_long`. Proved for GSM cells of other PCUs with up to 573 octets of system information: what the mobile got was given since it asked. Negations proved: for another BTS of the same PCU the own system information is sent; after a second request for another kind of network the Continue message names the old cell; with more than 573 octets the container index wraps. Continue is sent without any container if the network gives no information.
* **C42** (partial): `Store.C42_handle_partial`, `Store.C42_decoded`, `Store.C42_wrong_tlli`, `Store.C42_violated`. False of the code: the old TLLI is read from two of its four octets and only if the lifetime IE has two octets (negation proved for every TLLI of 2^16 or more). Proved for the handling behind the decoder.
* **C43** (partial): `Store.C43_frames_partial`, `Store.C43_released`, `Store.C43_released_later`, `Store.C43_terminates_partial`, `Store.C43_hang`, `Store.C43_acked_lost`. False of the code: frames sent after the first acknowledgement are lost, and the loop does not end if a replaced TBF has a timer pending (negations proved). Proved in all other cases.
* **C44** (partial): `Split.C44_dl_correct_partial`, `Split.C44_dl_halves_partial`, `Split.C44_dl_no_abort`, `Split.C44_pair_scheme`, `Split.C44_pair_plain`, `Split.C44_dl_violated`, `Split.C44_dl_puncturing`, `Split.C44_ul_one_block`, `Split.C44_ul_unequal_partial`, `Split.C44_ul_all_blocks_partial`, `Split.C44_ul_violated_order`, `Split.C44_ul_violated_overflow`, `Split.C44_ul_violated_mixed`. Downlink: correct for every history but one situation (MCS-4, negation proved). Uplink: correct for equal halves in any order; false for MCS-8 halves in reverse order and when a whole copy follows a half (stale status, write past the block store): negations proved.
* **C45** (partial): `Rach.C45_block`, `Rach.C45_tbf`, `Rach.C45_unsupported`, `Rach.C45_busy`, `Rach.C45_only`, `Rach.C45_answered_partial`, `Rach.C45_not_answered`, `Rach.C45_gprs_tbf_as_egprs`. All bursts and all request values; the allocators are an arbitrary environment. Every request is answered if the mobile allocation has up to five octets; negations: with a longer one resources are allocated and nothing is sent, and some EGPRS requests get a GPRS TBF announced by an EGPRS assignment.
* **C46** (proved): `Alloc.C46_counters`, `Alloc.C46_enabled`, `Alloc.C46_idle`. Counters are unbounded numbers in the model (8 bits in the code).
* **C47** (proved): `Ia.C47_start`, `Ia.C47_unique`. 
* **C48** (partial): `Fc.C48_bucket`, `Fc.C48_limits`, `Fc.C48_nonzero`, `Fc.C48_forced`, `Fc.C48_delay_partial`, `Fc.C48_delay_lost`, `Fc.C48_leak_unit`. Limits and non-zero hold for all configurations and measurements. The delay is false of the code: parts of a second of the sum are lost (negation proved); leak rates that the user gives in bit/s are announced as octets per second (negation proved).
* **C49** (proved): `Paging.C49_everywhere`, `Paging.C49_needed`, `Paging.C49_known`. bts_add_paging on every list of TBFs.
* **C50** (partial): `Ia.C50_ul_tbf`, `Ia.C50_ul_block`, `Ia.C50_egprs_ul_tbf`, `Ia.C50_egprs_ul_block`, `Ia.C50_dl_partial`, `Ia.C50_dl_bep_period`, `Ia.C50_ul_sent`, `Ia.C50_dl_sent`, `Ia.C50_ul_not_sent`, `Ia.C50_dl_not_sent`. Read by an independent parser of TS 44.018. All uplink assignments and downlink assignments of GPRS TBFs are exact; a downlink assignment of an EGPRS TBF announces a BEP_PERIOD2 that was not written (negation proved), all else is exact.
* **C51** (partial): `Ia.C51_sent`, `Ia.C51_reject`, `Ia.C51_egprs_partial`, `Ia.C51_egprs_wrong`. Exact for 8-bit requests. For 11-bit requests the reject also names another request, because 0/1 are written in place of L/H (negation proved).
* **C52** (partial): `Fc.C52_leak_partial`, `Fc.C52_ms_leak`, `Fc.C52_two_per_block`, `Fc.C52_late_reports`, `Fc.C52_overflow`. Holds if not more blocks are reported than sent; with MCS-7 to MCS-9 or late reports the unsigned subtraction wraps and the largest rate is announced (negations proved).
* **C53** (partial): `Analyse.C53_error_rate_partial`, `Analyse.C53_gprs`, `Analyse.C53_egprs_wrong`. Proved for GPRS and for EGPRS up to sequence number 255. Beyond, the starting sequence number is cut to an octet and other blocks are judged (negation proved).
* **C54** (proved): `Ia.C54_understood`, `Ia.C54_status`, `Ia.C54_paged`, `Ia.C54_imsi_str`. Encoding of identities by libosmocore is modelled, decoding of the IMSI of a PDU is taken as its result. IMSI of 1 to 15 digits.
* **C55** (partial): `Ia.C55_content_partial`, `Ia.C55_no_header`, `Ia.C55_usf_overwrites`. The stored message has type and data; what is sent lacks the MAC header, so no mobile takes it for a control message, and the USF is written over the type and data. To whom it is sent is C33.
* **C56** (partial): `Csn1.C56_partial`, `Csn1.C56_measurement_report`, `Csn1.C56_cell_change`, `Csn1.C56_pause`. Proved for every block of every message type but three. Negations: a Packet Measurement Report or Cell Change Notification with seven or more measurements and every Packet Pause message is stored outside of the array meant for it.
* **C57** (partial): `Csn1.C57_gprs`, `Csn1.C57_gprs_final`, `Csn1.C57_wrong_tfi`, `Csn1.C57_wrong_tfi_egprs`, `Csn1.C57_egprs_partial`, `Csn1.C57_egprs_misread`. GPRS: all messages. EGPRS: messages without extension bits whose bitmaps are whole octets; otherwise the last bits are stored at the wrong end of their octet and a block that the mobile misses can be taken as acknowledged (negation proved).
* **C58** (partial): `C58.C58_fits`, `C58.C58_sent_partial`, `C58.C58_too_long`, `C58.C58_exact_fit`, `C58.C58_single_arfcn`, `C58.C58_egprs_lost`. Every assignment that fits into a block is sent exactly; without frequency hopping every assignment fits. Negations: longer ones (hopping) are not sent; if exactly the EGPRS parameters do not fit, the assignment is sent without them, as for a GPRS TBF.
* **C59** (partial): `C59.C59_gprs`, `C59.C59_egprs_partial`, `C59.C59_window_wrong`, `C59.C59_gprs_single_arfcn`, `C59.C59_egprs_single_arfcn_partial`, `C59.C59_eight_slots_not_sent`. GPRS: sent exactly if it fits, which is always so without hopping. EGPRS: exact except for the window size, which is wrong for every window but the smallest (negation proved); with eight time slots, TLLI and timing advance nothing is sent.
* **C60** (proved): `C60.C60_neighbour_data`, `C60.C60_procedure`, `C60.C60_continue`. Bit for bit, for every container that C41's procedure can make.
* **C61** (partial): `Csn1.C61_control_ack`, `Csn1.C61_measurement`, `Csn1.C61_cell_change`, `Csn1.C61_cell_change_utran`, `Csn1.C61_cell_change_r8`, `Csn1.C61_cell_change_r8_other`, `Csn1.C61_tlli_distinct`. Control acknowledgements with all optional parts; reports and notifications without the additions of releases 99 to 8 and with up to six neighbours (C56 shows that seven are stored outside their array); notifications for GSM, UTRAN and E-UTRAN cells, not for closed subscriber groups.
* **C62** (partial): `UlService.C62_in_order_unchanged`, `UlService.C62_acknowledged_is_sent`, `UlService.C62_all_acknowledged`, `UlService.C62_arrived_is_sent_egprs_partial`, `UlService.C62_arrived_is_sent_gprs_partial`, `UlService.C62_gprs_frame_lost`. Order, integrity and 'acknowledged implies sent' are proved in full for all windows. That arrived frames are sent at once is proved for EGPRS windows up to 512 and for GPRS without the block 63 ahead of V(R); in that case it is false (C62_gprs_frame_lost).
* **C63** (partial): `DlService.C63_waiting_is_sent`, `DlService.C63_in_order_unchanged`, `DlService.C63_finished_is_delivered`, `DlService.C63_idle_is_delivered`, `DlService.C63_always_sends`, `DlService.C63_all_delivered`, `DlService.C63_in_order_unchanged_gprs_partial`, `DlService.C63_finished_is_delivered_gprs_partial`, `DlService.C63_idle_is_delivered_gprs_partial`, `DlService.C63_always_sends_gprs_partial`, `DlService.C63_all_delivered_gprs_partial`, `DlService.C63_gprs_frame_lost`. Proved in full for EGPRS, all window sizes. GPRS: except when the last block of the TBF is filled exactly by a frame that follows a delimited one; there it is false (C63_gprs_frame_lost, see C07).
* **C64** (partial): `UlAckMsg.C64_gprs_never_acks_unreceived`, `UlAckMsg.C64_gprs_step`, `UlAckMsg.C64_gprs_exact_partial`, `UlAckMsg.C64_egprs_exact_small_window`, `UlAckMsg.C64_egprs_never_acks_unreceived_partial`, `UlAckMsg.C64_egprs_step_partial`, `UlAckMsg.C64_egprs_exact_partial`, `UlAckMsg.C64_egprs_false_ack`, `UlAckMsg.C64_egprs_false_ack_cut`, `UlAckMsg.C64_egprs_unreadable`. GPRS: no false acknowledgement in any history; exact except for the block of C02. EGPRS windows up to 79: proved in full. Larger windows: for bitmaps that fit uncompressed, or are compressed as in C39 with room for the rest. Beyond that it is false: bitmaps of 256 and more and cut runs acknowledge blocks never received (C64_egprs_false_ack, C64_egprs_false_ack_cut), and some messages overflow and cannot be read (C64_egprs_unreadable).
* **C65** (partial): `Bvc.C65_keeps_trying`, `Bvc.C65_down`, `Bvc.C65_unblocked`, `Bvc.C65_signalling_first`, `Bvc.C65_no_endless_exchange`, `Bvc.C65_becomes_quiet`, `Bvc.C65_recovers`, `Bvc.C65_comes_up`, `Bvc.C65_reset_mistaken`, `Bvc.C65_data_before_unblocked`. All parts hold except that data of mobiles is sent before any reset (C65_data_before_unblocked); also acknowledgements of the signalling reset can be taken for those of the cell's BVC (C65_reset_mistaken).
* **C66** (partial): `Bssgp.C66_unitdata`, `Bssgp.C66_unitdata_refused`, `Bssgp.C66_unitdata_sent`, `Bssgp.C66_paging_cs`, `Bssgp.C66_paging_ps`, `Bssgp.C66_paging_refused`, `Bssgp.C66_reset`, `Bssgp.C66_blocked`, `Bssgp.C66_no_assertion`, `Bssgp.C66_inside_partial`, `Bssgp.C66_reads_beyond`, `Bssgp.C66_status_partial`, `Bssgp.C66_status_without_bvci`. Understanding and refusal of DL-UNITDATA and pagings proved in full. Octets beyond the message are read if a TLLI or BVCI element is shorter than it must be or the fixed part is cut (C66_inside_partial, C66_reads_beyond); the STATUS for an unknown BVC does not name it (C66_status_without_bvci). The old TLLI is C42.
* **C67** (partial): `RaCap.C67_classes_partial`, `RaCap.C67_unitdata_partial`, `RaCap.C67_any_octets`, `RaCap.C67_fails_additional`, `RaCap.C67_fails_unknown`. Proved for all capabilities with at most three further technologies in a list of additional ones. With more the classes are read from that list (C67_fails_additional); an entry of the unused type 14 makes the PCU lose everything (C67_fails_unknown). C67_any_octets is complete.
* **C68** (partial): `ResReq.C68_request_partial`, `ResReq.C68_fails_type2`. Proved for all requests without link quality measurements of type 2 (release 7) and with at most three further technologies in a list of additional ones (C67). A request with measurements of type 2 is dropped although it conforms (C68_fails_type2): the tables read the second member of an absent pair. Iu mode and extended channel requests are not in the specification.
* **C69** (proved): `PcuIf.C69_block`, `PcuIf.C69_block_unused`, `PcuIf.C69_confirm`, `PcuIf.C69_ready`, `PcuIf.C69_rach`, `PcuIf.C69_page`, `PcuIf.C69_suspend`, `PcuIf.C69_app_info`, `PcuIf.C69_neighbour`, `PcuIf.C69_e1`. For the messages as Spec/PcuIf lays them out, on a little-endian machine, BER at most 100 percent, channels of the 8 TRXs and 8 time slots. What the messages configure is C70, malformed ones are C71.
* **C70** (partial): `PcuIf.C70_accepted`, `PcuIf.C70_config_partial`, `PcuIf.C70_no_hopping_partial`, `PcuIf.C70_requested`, `PcuIf.C70_toggles`, `PcuIf.C70_timers_partial`, `PcuIf.C70_system_information`, `PcuIf.C70_fails_hopping_off`, `PcuIf.C70_fails_timers`. Proved for all histories but for two points where the code deviates. Hopping that was announced for a channel is kept when a later announcement has none (C70_fails_hopping_off); it is right for channels never announced with hopping. The timers are one array for all BTSs and set to their defaults when a message with another BTS number arrives (C70_fails_timers); they are right with a single BTS. Limits configured at the PCU are constant during the history.
* **C71** (partial): `PcuIf.C71_octets_partial`, `PcuIf.C71_exit`, `PcuIf.C71_refused`, `PcuIf.C71_fails_trx`, `PcuIf.C71_fails_length`, `PcuIf.C71_fails_frame_number`, `PcuIf.C71_fails_mobile_allocation`. Proved for all messages but blocks with a TRX or time slot beyond 7 or a length beyond 162 (memory outside the arrays is used), blocks with a frame number beyond the hyperframe and announcements with a mobile allocation beyond 64 bits (an assertion fails); each exception is shown to occur. Alignment of packed structures and the parser of mobile identities of libosmocore are not modelled.
* **C72** (partial): `Rim.C72_answer_partial`, `Rim.C72_not_ours`, `Rim.C72_refused`, `Rim.C72_only_answers`, `Rim.C72_report_kept`, `Rim.C72_fails_undecoded`, `Rim.C72_fails_cell`. The cell named in the answer is the right one if all BTSs of the PCU have the same cell; with two cells it is that of the first BTS (fails_cell). A PDU that cannot be decoded is not answered although an error PDU is made for it (fails_undecoded). Encoding of BSSGP messages is libosmocore and not modelled; --mcc and --mnc are not modelled.
* **C73** (partial): `Rim.C73_continue_partial`, `Rim.C73_between_pcus_partial`, `Rim.C73_local_fails`, `Rim.C73_waits`, `Rim.C73_request_partial`. For mobiles that ask for GSM cells (AsksGsm; see C41_other_rat), cells of other PCUs (Abroad; see C73_local_fails, C41_local), up to 573 octets (see C41_long), and BTSs that keep location area and cell identity (Steady). between_pcus: the other PCU has one BTS (see C72_fails_cell).
* **C74** (partial): `Polls.C74_safe_partial`, `Polls.C74_promises_partial`, `Polls.C74_freed_partial`, `Polls.C74_control_partial`, `Polls.C74_disabled_partial`, `Polls.C74_fails_trx`, `Polls.C74_fails_continue`. For Careful histories: a mobile with slots on one TRX makes no request on another, and a control slot is moved only when nothing is left promised on the old one and to a slot of the TBF. Negations: C74_fails_trx (find_trx of algorithm A ignores the TRX asked for: control slot on another TRX, the PCU crashes if that PDCH is switched off), C74_fails_continue (the poll of a Packet Cell Change Continue outlives its TBF when the control slot moves).
* **C75** (proved): `PcuTx.C75_read`, `PcuTx.C75_made`, `PcuTx.C75_order`, `PcuTx.C75_flush`, `PcuTx.C75_stays`, `PcuTx.C75_told`. Little-endian machine, allocations succeed, SOCK_SEQPACKET (a write takes a whole message or nothing). Messages handed over without a connection are dropped, as the statement says; after the end of the connection the process exits.
* **C76** (partial): `Live.C76_left`, `Live.C76_no_crash`, `Live.C76_moves_partial`, `Live.C76_ul`, `Live.C76_dl`, `Live.C76_stuck`. The code violates the first part: rcv_measurement_report and rcv_cell_change_notification give back the block in which the answer to a poll was promised without telling the state machine that waits for it; after that nothing wakes the uplink TBF any more (C76_stuck, for all continuations). Proved in full for histories without that; the number of turns is limited in all histories. One PDCH, the control slot of the TBFs; that the BTS confirms an immediate assignment and that the scheduler grants blocks (C20) is taken as given.
* **C77** (partial): `Vty.C77_reads`, `Vty.C77_partial`, `Vty.C77_again`, `Vty.C77_valid`, `Vty.C77_caches`, `Vty.C77_fails_bucket_time`, `Vty.C77_fails_cs_max`, `Vty.C77_fails_mcs_max`, `Vty.C77_fails_idle_ack`. The code violates it in exactly four places: config_write_pcu never writes flow-control bucket-time, and does not write that cs max, mcs max or queue idle-ack-delay were switched off, although the defaults are not off (C77_fails_*). C77_reads says for all configurations what the settings are after the restart; the file is always accepted. Matching of lines and conversion of numbers by libosmocore is taken as given; the nodes ns, log, etc. of libosmocore are not modelled.
* **C78** (partial): `Vty.C78_others`, `Vty.C78_own_partial`, `Vty.C78_order`, `Vty.C78_bucket`, `Vty.C78_fails`. Violated by one command: flow-control bucket-time sets its value (C78_bucket) but the written configuration never shows it (C78_fails). For all other commands C78_own_partial and C78_others are complete. What is expected is said in Spec/VtyOne.lean in terms of the lines typed and written, without the settings in between.
* **C79** (partial): `Lim.C79_max`, `Lim.C79_forced`, `Lim.C79_announced`, `Lim.C79_announced_stays`, `Lim.C79_threshold`, `Lim.C79_ranges_cs`, `Lim.C79_ranges_mcs`, `Lim.C79_mobiles_partial`, `Lim.C79_fails_initial`, `Lim.C79_fails_lowered`, `Lim.C79_stops`, `Lim.C79_fails_support`. C79_max, C79_forced and C79_announced hold for every history. The claim about mobiles is violated when limits are lowered: schemes to begin with are not calculated again (C79_fails_initial), a mobile keeps a scheme above the limit (C79_fails_lowered), no mcs max stops the PCU at the next report (C79_stops), no cs max lets it use schemes the BTS did not announce (C79_fails_support). C79_mobiles_partial is for histories that do not lower limits of BTSs in operation and do not demand schemes above them.
* **C80** (partial): `Store.C80_used`, `Store.C80_kept`, `Store.C80_gone`, `Store.C80_safe`, `Store.C80_fails_frames`, `Store.C80_fails_heard`. C80_used, C80_kept, C80_gone and C80_safe hold for every history; what takes a record away before its time is another mobile that claims its identity (C43) or a PDU with the reserved TLLI (C33). The claim about frames is violated: frames that wait because no TBF could be started do not stop the timer and are discarded with the record although their lifetime is not over (C80_fails_frames); measurement reports do not restart the timer, rejected requests do (C80_fails_heard). The endless loop of C43 is the only other outcome (C80_safe).
* **C81** (partial): `Start.C81_kept_partial`, `Start.C81_idle_partial`, `Start.C81_one`, `Start.C81_queue`, `Start.C81_sent`, `Start.C81_frame`, `Start.C81_where_partial`, `Start.C81_fails_none`, `Start.C81_fails_silent_ul`, `Start.C81_fails_silent_dl`, `Start.C81_fails_pch`. C81_one, C81_queue, C81_sent and C81_frame hold in every history. C81_kept_partial and C81_idle_partial are for histories in which allocations succeed and the current TBFs are not given up; otherwise frames are left without a TBF and nothing but another frame or request starts one (C81_fails_none: no resources; C81_fails_silent_ul: T3141; C81_fails_silent_dl: X2001). C81_where_partial leaves out the confirmed final acknowledgement of an older uplink TBF, after which the assignment goes to the PCH although the mobile has an uplink TBF (C81_fails_pch), and a confirmed uplink assignment that is not that of an uplink TBF being assigned.
* **C82** (partial): `Req.C82_reject`, `Req.C82_answered`, `Req.C82_who_partial`, `Req.C82_tfi`, `Req.C82_named_partial`, `Req.C82_stable`, `Req.C82_fails`. C82_reject, C82_answered and C82_stable hold for all inputs. A mobile that begins to use a TLLI which the SGSN has used already is answered by its former TLLI (C82_fails); C82_named_partial says exactly when the TLLI is that of the request, for histories in which the SGSN does not name two mobiles in one PDU.
* **C83** (partial): `Alloc.C83_dl`, `Alloc.C83_dl_b_partial`, `Alloc.C83_ul_a`, `Alloc.C83_ul_one_trx`, `Alloc.C83_ul_b_partial`, `Alloc.C83_fails_dl`, `Alloc.C83_fails_ul`. Downlink with the algorithms A and dynamic: proved as stated (C83_dl). Algorithm B refuses a downlink TBF when a PDCH has more than 32 reservations (C83_fails_dl); without that, C83_dl_b_partial. Uplink: each algorithm chooses the TRX without looking at its USFs and so refuses a mobile although another TRX has room (C83_fails_ul); C83_ul_a says exactly when algorithm A refuses, C83_ul_one_trx that with one TRX the property holds, C83_ul_b_partial that algorithm B refuses nobody while every PDCH has a free USF.
* **C84** (partial): `Alloc.C84_tbf`, `Alloc.C84_request`, `Rach.C84_rach`, `Ulc.C84_sba_partial`, `Ulc.C84_fails`. TBFs and RACH: proved as stated. Single blocks: a Packet Cell Change Notification received in a single block, and disabling a PDCH, remove the reservation without releasing the block (C84_fails); otherwise the counters balance (C84_sba_partial).
* **C85** (partial): `Alloc.C85_table`, `Alloc.C85_allocation_partial`, `Alloc.C85_row`, `Alloc.C85_history_partial`, `Alloc.C85_fails`. Proved for one allocation and for the histories of C23 (the class does not change while slots are held, no PDCH is disabled, single slot uplink requests find a free USF). C85_fails: a class learned after slots were reserved under the default class.
* **C86** (partial): `Store.C86_kept`, `Store.C86_merged`, `Store.C86_learned_partial`, `Store.C86_new`. Kept, merged and new: proved for all histories. Learned: for histories in which no frame has TLLIs of two different mobiles (as C33). Not modelled here: the capabilities in a Packet Resource Request (C61 decodes them).
* **C87** (partial): `Confirm.C87_begins`, `Confirm.C87_confirm`, `Confirm.C87_handed`, `Confirm.C87_progress`, `Confirm.C87_reference`, `Confirm.C87_own_partial`, `Confirm.C87_fails`. Proved for all histories: no data before a confirmation for the mobile since the last assignment of the TBF was handed over, and X2002, or an acknowledgement; a confirmation affects only the TBF of the mobile that waits for it; the reference comes back as it was sent. False of the code for the assignment itself: the confirmation of the assignment of an earlier TBF of the mobile starts the later one (C87_fails); own_partial says when this does not happen.
* **C88** (partial): `Link.C88_link`, `Link.C88_ber`, `Link.C88_rx_quality`, `Link.C88_reported`, `Link.C88_levels_partial`, `Link.C88_fails`. Proved for all sequences of blocks: each value shown is that of the last block that carries it, in the unit shown. False of the code in two places (C88_fails): interference levels stay when the last report has none, and a block with an EGPRS acknowledgement changes nothing, not even the signal strength.
* **C89** (partial): `Reports.C89_parts`, `Reports.C89_rssi`, `Reports.C89_loss`, `Reports.C89_rate_partial`, `Reports.C89_fails`. Proved: the division of the measurements into reports exists, is unique and leaves none out; mean and percentage are those of the part (fewer than 2^24 blocks of an uplink TBF, and 2^16 of a downlink TBF, between two reports); the throughput is the number of octets per second, at most 3.7 percent too large (fewer than 4 MiB between two reports). False of the code: the number is shown as kbit/s, 125 times the rate, and stays when nothing is sent any more (C89_fails).
* **C90** (partial): `UlEnd.C90_final_partial`, `UlEnd.C90_finished_partial`, `UlEnd.C90_marked`, `UlEnd.C90_complete_egprs_partial`, `UlEnd.C90_complete_gprs_partial`, `UlEnd.C90_answered_partial`, `UlEnd.C90_final_too_early`, `UlEnd.C90_halves_unanswered`. Proved: a final acknowledgement, and the state FINISHED, imply that all frames were passed on (window below 1024 blocks); the arrival of the last missing block finishes the transfer, and from the arrival of the last block on an acknowledgement is due (EGPRS window up to 512; GPRS if no arriving block is 63 ahead of V(R)); stalled, TLLI and 20th radio block make an acknowledgement due if the radio block has whole blocks only. False of the code: with a window of 1024 the transfer may be declared complete when only its last block arrived (C90_final_too_early); a mobile that sends halves of split blocks is never answered (C90_halves_unanswered).
* **C91** (partial): `DlPoll.C91_asked_partial`, `DlPoll.C91_reason`, `DlPoll.C91_every_20`, `DlPoll.C91_fails`. Proved for all histories: the mobile is asked for each of the reasons but one, is asked for no other reason, and is asked at every 20th radio block at the latest if it always can be. False of the code: if the end of the last frame fills its block exactly and the TBF is kept open, the mobile is not asked with this block (C91_fails). Frames are not empty and blocks have at least 20 octets.
* **C92** (partial): `NsCfg.C92_exact_partial`, `NsCfg.C92_only`, `NsCfg.C92_made`, `NsCfg.C92_local`, `NsCfg.C92_kept`, `NsCfg.C92_again`, `NsCfg.C92_fails`, `NsCfg.C92_sns`, `NsCfg.C92_sns_local_fails`. Proved for all histories and all failures of the library. False of the code: if one of two connections cannot be made the PCU goes on, but the same announcement again ends it (C92_fails); with IP-SNS a changed local address is ignored while the SGSN is the same (C92_sns_local_fails). The NS library is an input: what its calls answer. Addresses are numbers.
* **C93** (partial): `Clock.C93_follows_partial`, `Clock.C93_late_partial`, `Clock.C93_older`, `Clock.C93_goes_on`, `Clock.C93_zero_fails`, `Clock.C93_first_fails`, `Clock.C93_no_frame_stops`. Proved for all histories with numbers below the hyperframe and a clock that is not at frame 0. False of the code: frame 0 is taken for a clock that is not set (C93_zero_fails), the first block can be counted as late (C93_first_fails), and a block of data with a number beyond the hyperframe ends the PCU (C93_no_frame_stops).
* **C94** (partial): `Ccu.C94_in_step`, `Ccu.C94_no_gap`, `Ccu.C94_quiet`, `Ccu.C94_lost`, `Ccu.C94_recovers`, `Ccu.C94_ahead_partial`, `Ccu.C94_wrap_fails`, `Ccu.C94_data_fails`, `Ccu.C94_stuck_fails`, `Ccu.C94_type`. Proved for all sequences of frames, except that the distance is that of the sequence number only while the counter of the PCU fits into 22 bits; it is not reduced to them, so that after less than a day the PCU asks for blocks 16 minutes ahead (C94_wrap_fails, if the field of the TRAU frame has 22 bits as the code suggests by 0x3FFFFF). Also false of the code: data before the first frame numbers is handed on with a wrong number (C94_data_fails); numbers at which no block begins are confirmed (C94_stuck_fails). The coding of TRAU frames is not part of this code.
* **C95** (partial): `E1.C95_open_partial`, `E1.C95_disconnect_partial`, `E1.C95_connect_partial`, `E1.C95_announced_partial`, `E1.C95_refused`, `E1.C95_moved_fails`, `E1.C95_leak_fails`, `E1.C95_subslot_fails`, `E1.C95_stuck_fails`, `E1.C95_crash`, `E1.C95_slot31`. Proved for histories in which the parameters of a connected unit do not change, subchannels can be added and the E1 library does not fail when closing. False of the code otherwise: changed parameters make the PCU close the time slot of another unit (C95_moved_fails); a subchannel that cannot be added leaves the time slot open for ever (C95_leak_fails, C95_subslot_fails); a failed synchroniser bars the unit for ever (C95_stuck_fails). Switching on before the parameters are announced dereferences NULL in a log message (C95_crash). Time slot 31 is accepted although the array has 31 elements (C95_slot31).
* **C96** (partial): `Alloc.C96_flag`, `Alloc.C96_room_dl`, `Alloc.C96_room_ul_partial`, `Alloc.C96_one_pdch_partial`, `Alloc.C96_fails_ul`, `Alloc.C96_fails_dl`, `Alloc.C96_none`. The flag is exact and a downlink TBF is given while it is not set, for all histories. For uplink TBFs proved for cells with one TRX; false with several, as the TRX is chosen without looking at its USFs (C96_fails_ul). That a set flag means a refusal is proved for cells with one PDCH; even there only one direction need be full (C96_fails_dl). A cell without any PDCH counts as full (C96_none). The counting of time is in libosmocore.
* **C97** (partial): `BlkCtr.C97_ul`, `BlkCtr.C97_dl_partial`, `BlkCtr.C97_dl_chosen`, `BlkCtr.C97_tbf`, `BlkCtr.C97_others`, `BlkCtr.C97_no_null_partial`, `BlkCtr.C97_kind_gprs`, `BlkCtr.C97_kind_egprs`, `BlkCtr.C97_dl_fails`. Uplink exact. Downlink exact except for MCS-5, 6, 7 and 9, of which only the sums 5+7 and 6+9 are right: a block alone in its radio block is sent one scheme lower after it was counted (C97_dl_fails). That no missing counter is touched is proved under the condition that downlink blocks have a scheme of the kind of their TBF; the scheduler is proved to keep to it for TBFs that hold blocks of their kind (C97_kind_gprs, C97_kind_egprs); an invariant over all histories of a TBF is not. Counters are unbounded in the model.
* **C98** (partial): `Tap.C98_counts`, `Tap.C98_sums`, `Tap.C98_dl_tap`, `Tap.C98_kinds`, `Tap.C98_usf`, `Tap.C98_contents`, `Tap.C98_form`, `Tap.C98_names`, `Tap.C98_egprs`, `Tap.C98_only_enabled`, `Tap.C98_ul_counts`, `Tap.C98_ul_tap_partial`, `Tap.C98_ul_times`, `Tap.C98_rach`, `Tap.C98_rts_safe`, `Tap.C98_ul_fails`, `Tap.C98_trx_fails`, `Tap.C98_block_fails`, `Tap.C98_ul_safe_partial`. Counters and the downlink are exact. Two parts of the claim are false of the code: with everything enabled an uplink control block that cannot be decoded is shown twice and one with the payload type 2 not at all (C98_ul_fails; C98_ul_tap_partial is about the others, C98_ul_times says how often any block is shown), and an access burst indicated for a TRX above 7 makes the PCU read behind the array of TRX if access bursts are shown (C98_trx_fails); so does a block on a TRX or time slot above 7 (C98_block_fails), others are safe (C98_ul_safe_partial). AGCH, PCH and PTCCH of the downlink and signal levels are not modelled; which message the scheduler finds is input here (C26, C27).
* **C99** (proved): `PtcchTx.C99_answers`, `PtcchTx.C99_tap`, `PtcchTx.C99_range`. For a fixed set of enabled time slots. That a burst for a TRX above 7 is read for GSMTAP before it is checked is C98_trx_fails. The meaning of the announced values for mobiles is C40.
