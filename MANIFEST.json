{
 "claims": [
  {
   "property": "C01",
   "status": "proved",
   "theorems": [
    "Gosms.octetString_exact",
    "Gosms.trim_octetString",
    "Gosms.trimStr_exact",
    "Gosms.bytes2StringSlice_fields"
   ],
   "note": ""
  },
  {
   "property": "C02",
   "status": "proved",
   "theorems": [
    "Gosms.uint64HexString_value",
    "Gosms.uint32HexString_value",
    "Gosms.uint64HexString_injective",
    "Gosms.uint32HexString_injective"
   ],
   "note": ""
  },
  {
   "property": "C03",
   "status": "proved",
   "theorems": [
    "Gosms.bcd_lossless"
   ],
   "note": ""
  },
  {
   "property": "C04",
   "status": "proved",
   "theorems": [
    "Gosms.newBcdSequence_worker",
    "Gosms.bcd_id_format",
    "Gosms.bcd_ids_unique",
    "Gosms.neverReturns_of_monotone",
    "Gosms.bcd_repeats_after_million"
   ],
   "note": ""
  },
  {
   "property": "C05",
   "status": "proved",
   "theorems": [
    "Gosms.cycle_unique",
    "Gosms.cycle_window_nodup"
   ],
   "note": ""
  },
  {
   "property": "C06",
   "status": "partial",
   "theorems": [
    "Gosms.cycle_nodes_disjoint_partial",
    "Gosms.cycle_datacenter_collision_fails",
    "Gosms.cycle_nodes_collide_iff"
   ],
   "note": "The code violates the full statement: data centers of the same parity, as 0/2 and 1/3, return identical values (proved for all). Proved for different workers and for data centers of different parity: a value in common exactly when worker and parity are the same."
  },
  {
   "property": "C07",
   "status": "proved",
   "theorems": [
    "Gosms.snowflake_ids_increasing",
    "Gosms.snowflake_progress",
    "Gosms.snowflake_clock_backwards_fails",
    "Gosms.snowflake_range_fails",
    "Gosms.Times.snowflake_valid_years",
    "Gosms.Times.snowflake_after_2089_fails"
   ],
   "note": ""
  },
  {
   "property": "C08",
   "status": "proved",
   "theorems": [
    "Gosms.snowflake_origin",
    "Gosms.snowflake_run_origin",
    "Gosms.snowflake_nodes_disjoint",
    "Gosms.snowflake_parse",
    "Gosms.snowflake_node_range_fails",
    "Gosms.Times.snowflake_valid_years",
    "Gosms.Times.snowflake_time"
   ],
   "note": "Outside the range of node numbers ids collide (proved for every data center of the range plus eight, at every even millisecond)."
  },
  {
   "property": "C09",
   "status": "proved",
   "theorems": [
    "Gosms.snowflake32_ids_increasing",
    "Gosms.snowflake32_origin",
    "Gosms.snowflake32_parse"
   ],
   "note": ""
  },
  {
   "property": "C10",
   "status": "partial",
   "theorems": [
    "Gosms.snowflake32_progress_partial",
    "Gosms.snowflake32_hangs_fails"
   ],
   "note": "The code violates the full statement: NextVal hangs when 512 ids were drawn in second 86399 (proved)."
  },
  {
   "property": "C11",
   "status": "proved",
   "theorems": [
    "Gosms.sgip_sequence_unique",
    "Gosms.sgip_workers_disjoint",
    "Gosms.sgip_timestamp",
    "Gosms.sgip_worker_0_31_collide_fails"
   ],
   "note": ""
  },
  {
   "property": "C12",
   "status": "proved",
   "theorems": [
    "Gosms.tlv_new_value",
    "Gosms.tlv_roundtrip",
    "Gosms.tlv_overlong"
   ],
   "note": ""
  },
  {
   "property": "C13",
   "status": "proved",
   "theorems": [
    "Gosms.tlv_list_roundtrip",
    "Gosms.tlv_write_never_fails"
   ],
   "note": ""
  },
  {
   "property": "C14",
   "status": "partial",
   "theorems": [
    "Gosms.tlv_truncation_partial",
    "Gosms.tlv_truncation_fails",
    "Gosms.tlv_area_split"
   ],
   "note": "The code violates the full statement: some truncations are accepted silently (proved witness). Proved which truncations are reported."
  },
  {
   "property": "C15",
   "status": "proved",
   "theorems": [
    "Gosms.tlv_list_ops"
   ],
   "note": ""
  },
  {
   "property": "C16",
   "status": "proved",
   "theorems": [
    "Gosms.msgFmt_ascii_iff"
   ],
   "note": ""
  },
  {
   "property": "C17",
   "status": "proved",
   "theorems": [
    "Gosms.utf8ToUcs2_error_iff",
    "Gosms.ucs2_roundtrip"
   ],
   "note": ""
  },
  {
   "property": "C18",
   "status": "partial",
   "theorems": [
    "Gosms.long_message_reassembly_partial",
    "Gosms.long_message_reassembled",
    "Gosms.long_message_reassembly_fails",
    "Gosms.long_message_exact_multiple_loses_tail"
   ],
   "note": "The code violates the full statement: the last slice carries the head of the content instead of the tail (proved). Proved what reassembly yields in every case."
  },
  {
   "property": "C19",
   "status": "proved",
   "theorems": [
    "Gosms.long_message_slices_wellformed"
   ],
   "note": ""
  },
  {
   "property": "C20",
   "status": "proved",
   "theorems": [
    "Gosms.short_message_unchanged",
    "Gosms.msgSlices_short",
    "Gosms.msgSlices_fit"
   ],
   "note": ""
  },
  {
   "property": "C21",
   "status": "proved",
   "theorems": [
    "Gosms.header12_roundtrip",
    "Gosms.header20_roundtrip",
    "Gosms.unpackHead_short",
    "Gosms.unpackHead_value"
   ],
   "note": ""
  },
  {
   "property": "C22",
   "status": "proved",
   "theorems": [
    "Gosms.Cmpp.cmpp_newSubmit_length",
    "Gosms.Cmpp.cmpp_newDelivery_length",
    "Gosms.Cmpp.cmpp_report_length",
    "Gosms.Cmpp.cmpp_other_lengths",
    "Gosms.Cmpp.cmpp_link_packets_roundtrip",
    "Gosms.Smgp.smgp_newSubmit_length",
    "Gosms.Smgp.smgp_newDeliver_length",
    "Gosms.Smgp.smgp_newDeliveryReport",
    "Gosms.Smgp.smgp_other_lengths",
    "Gosms.Smgp.smgp_link_packets_roundtrip",
    "Gosms.Sgip.sgip_newSubmit_length",
    "Gosms.Sgip.sgip_other_lengths",
    "Gosms.Sgip.sgip_responses_roundtrip",
    "Gosms.Sgip.sgip_unbind_roundtrip"
   ],
   "note": ""
  },
  {
   "property": "C23",
   "status": "proved",
   "theorems": [
    "Gosms.Cmpp.cmpp_connect_roundtrip",
    "Gosms.Cmpp.cmpp_connect_overlong"
   ],
   "note": ""
  },
  {
   "property": "C24",
   "status": "proved",
   "theorems": [
    "Gosms.Cmpp.cmpp_login_decision",
    "Gosms.Cmpp.cmpp_login_secret"
   ],
   "note": ""
  },
  {
   "property": "C25",
   "status": "proved",
   "theorems": [
    "Gosms.Cmpp.cmpp_login_complete",
    "Gosms.Cmpp.cmpp_login_overlong_id_fails"
   ],
   "note": ""
  },
  {
   "property": "C26",
   "status": "proved",
   "theorems": [
    "Gosms.Cmpp.cmpp_connect_response",
    "Gosms.Cmpp.cmpp_login_response_digest"
   ],
   "note": ""
  },
  {
   "property": "C27",
   "status": "partial",
   "theorems": [
    "Gosms.Cmpp.cmpp3_submit_roundtrip_partial",
    "Gosms.Cmpp.cmpp_submit_content_exactly",
    "Gosms.Cmpp.cmpp_submit_unchanged_exactly",
    "Gosms.Cmpp.cmpp3_submit_long_text",
    "Gosms.Cmpp.cmpp_submit_empty_content_fails",
    "Gosms.Cmpp.cmpp3_submit_ascii_slice_fails",
    "Gosms.Cmpp.cmpp_ascii_part_fails",
    "Gosms.Cmpp.cmpp_long_ascii_fails",
    "Gosms.Cmpp.cmpp_newSubmit"
   ],
   "note": "The code violates the full statement: empty content makes the decoder panic (proved for every such submit) and the parts of long ASCII texts arrive as different text (proved for every part and every ASCII text of 160 bytes or more). Proved for every content that does not begin like a concatenation header, and for UCS2 slices; cmpp_submit_content_exactly says what becomes of the content in every case, cmpp_submit_unchanged_exactly that it arrives unchanged if and only if it does not begin like a header."
  },
  {
   "property": "C28",
   "status": "partial",
   "theorems": [
    "Gosms.Cmpp.cmpp2_submit_roundtrip_partial",
    "Gosms.Cmpp.cmpp2_submit_many_recipients_fails"
   ],
   "note": "The code violates the statement for 13 or more recipients (proved for every such submit); proved for up to 12."
  },
  {
   "property": "C29",
   "status": "partial",
   "theorems": [
    "Gosms.Cmpp.cmpp_deliver_text_roundtrip_partial",
    "Gosms.Cmpp.cmpp_deliver_report_roundtrip_partial",
    "Gosms.Cmpp.cmpp_deliver_destination_fails",
    "Gosms.Cmpp.cmpp_deliver_ucs2_cut",
    "Gosms.Cmpp.cmpp_deliver_ucs2_differs",
    "Gosms.Cmpp.cmpp_deliver_ucs2_fails",
    "Gosms.Cmpp.cmpp_deliver_160_fails"
   ],
   "note": "The code violates the statement: the destination number is overwritten by the service id, no text with a character outside ASCII and no 160-byte text survives (proved for all such texts). Everything else is proved to survive."
  },
  {
   "property": "C30",
   "status": "proved",
   "theorems": [
    "Gosms.Cmpp.cmpp_report_tied"
   ],
   "note": ""
  },
  {
   "property": "C31",
   "status": "proved",
   "theorems": [
    "Gosms.Cmpp.cmpp_responses_echo",
    "Gosms.Smgp.smgp_responses_echo",
    "Gosms.Sgip.sgip_responses_echo"
   ],
   "note": ""
  },
  {
   "property": "C32",
   "status": "proved",
   "theorems": [
    "Gosms.Cmpp.cmpp_submit_response_roundtrip",
    "Gosms.Cmpp.cmpp_deliver_response_roundtrip",
    "Gosms.Cmpp.cmpp_link_packets_roundtrip"
   ],
   "note": ""
  },
  {
   "property": "C33",
   "status": "partial",
   "theorems": [
    "Gosms.Smgp.smgp_login_roundtrip_partial",
    "Gosms.Smgp.smgp_login_frame",
    "Gosms.Smgp.smgp_login_decision",
    "Gosms.Smgp.smgp_login_secret",
    "Gosms.Smgp.smgp_login_digest",
    "Gosms.Smgp.smgp_login_complete_partial",
    "Gosms.Smgp.smgp_login_short_id_fails"
   ],
   "note": "The code violates the statement for client ids shorter than 8 bytes (proved); everything else is proved."
  },
  {
   "property": "C34",
   "status": "partial",
   "theorems": [
    "Gosms.Smgp.smgp_submit_roundtrip_partial",
    "Gosms.Smgp.smgp_submit_content_exactly",
    "Gosms.Smgp.smgp_submit_long_text",
    "Gosms.Smgp.smgp_submit_empty_content_fails",
    "Gosms.Smgp.smgp_newSubmit",
    "Gosms.Smgp.smgp_newSubmit_delivered",
    "Gosms.Smgp.smgp_newSubmit_coder_error",
    "Gosms.Smgp.smgp_newSubmit_too_many"
   ],
   "note": "The code violates the full statement: empty content makes the decoder panic (proved for every such submit). Proved for content that does not begin like a concatenation header and for slices; smgp_submit_content_exactly covers every content."
  },
  {
   "property": "C35",
   "status": "proved",
   "theorems": [
    "Gosms.Smgp.smgp_deliver_roundtrip",
    "Gosms.Smgp.smgp_report_roundtrip",
    "Gosms.Smgp.smgp_deliver_report_roundtrip",
    "Gosms.Smgp.smgp_newDeliveryReport",
    "Gosms.Smgp.smgp_newDeliver_delivered",
    "Gosms.Smgp.smgp_report_length_byte_fails",
    "Gosms.Smgp.smgp_newDeliver_wide_text_fails"
   ],
   "note": "Additional findings: the length byte of a report packet is 115 for 122 bytes; a text whose GB18030 form exceeds 255 bytes is cut."
  },
  {
   "property": "C36",
   "status": "proved",
   "theorems": [
    "Gosms.Smgp.smgp_login_response",
    "Gosms.Smgp.smgp_responses_roundtrip",
    "Gosms.Smgp.smgp_link_packets_roundtrip"
   ],
   "note": ""
  },
  {
   "property": "C37",
   "status": "proved",
   "theorems": [
    "Gosms.Sgip.sgip_bind_roundtrip",
    "Gosms.Sgip.sgip_bind_decision",
    "Gosms.Sgip.sgip_bind_client",
    "Gosms.Sgip.sgip_bind_login_name_fails"
   ],
   "note": "Additional finding: NewBind sends the client id, Check compares with the login name, so an account whose login name differs cannot log in with this client."
  },
  {
   "property": "C38",
   "status": "partial",
   "theorems": [
    "Gosms.Sgip.sgip_submit_roundtrip_partial",
    "Gosms.Sgip.sgip_submit_content_exactly",
    "Gosms.Sgip.sgip_submit_unchanged_exactly",
    "Gosms.Sgip.sgip_submit_long_text",
    "Gosms.Sgip.sgip_submit_empty_content_fails",
    "Gosms.Sgip.sgip_submit_ascii_slice_fails",
    "Gosms.Sgip.sgip_ascii_part_fails",
    "Gosms.Sgip.sgip_long_ascii_fails",
    "Gosms.Sgip.sgip_newSubmit"
   ],
   "note": "The code violates the full statement: empty content makes the decoder panic; the slices of long ASCII texts decode to other text (proved for every part and every ASCII text of 160 bytes or more). sgip_submit_content_exactly says what becomes of the content in every case, sgip_submit_unchanged_exactly that it arrives unchanged if and only if it does not begin like a concatenation header."
  },
  {
   "property": "C39",
   "status": "partial",
   "theorems": [
    "Gosms.Sgip.sgip_deliver_roundtrip",
    "Gosms.Sgip.sgip_newDeliver_delivered",
    "Gosms.Sgip.sgip_report_roundtrip",
    "Gosms.Sgip.sgip_newReport_content",
    "Gosms.Sgip.sgip_newReport_command_fails",
    "Gosms.Sgip.sgip_newReport_crashes_receiver_fails"
   ],
   "note": "The code violates the last clause: NewReport's command id is always that of a deliver, and a receiver that goes by it panics (proved)."
  },
  {
   "property": "C40",
   "status": "partial",
   "theorems": [
    "Gosms.Cmpp.cmpp_submit_overlong_isolated",
    "Gosms.Cmpp.cmpp_deliver_overlong_isolated",
    "Gosms.Cmpp.cmpp_connect_overlong",
    "Gosms.Smgp.smgp_submit_overlong_isolated",
    "Gosms.Smgp.smgp_deliver_overlong_isolated",
    "Gosms.Smgp.smgp_login_frame",
    "Gosms.Sgip.sgip_bind_overlong_isolated",
    "Gosms.Sgip.sgip_report_overlong_isolated",
    "Gosms.Sgip.sgip_submit_overlong_fails",
    "Gosms.Sgip.sgip_deliver_overlong_fails"
   ],
   "note": "Holds for CMPP and SMGP and for the SGIP bind and report; the code violates it for the SGIP submit and deliver (proved)."
  },
  {
   "property": "C41",
   "status": "partial",
   "theorems": [
    "Gosms.Traffic.framing_partial",
    "Gosms.Traffic.framing_segmentation_partial",
    "Gosms.Traffic.cut_unique",
    "Gosms.Traffic.framing_fails"
   ],
   "note": "Proved for every stream, segmentation and handler behaviour when the network library's Peek(0)/Discard(0) mean nothing, or no packet is a bare header. With the library version's reading of 0 (whole buffer) the code violates it for every bare-header packet followed by data in the same buffer (proved)."
  },
  {
   "property": "C42",
   "status": "partial",
   "theorems": [
    "Gosms.Traffic.packet_progress_partial",
    "Gosms.Traffic.packet_per_arrival_partial",
    "Gosms.Traffic.second_packet_waits_fails"
   ],
   "note": "One complete packet is processed per arrival. The code violates the rest: of any two packets arriving together the second waits for further data (proved)."
  },
  {
   "property": "C43",
   "status": "proved",
   "theorems": [
    "Gosms.Traffic.header_decision"
   ],
   "note": ""
  },
  {
   "property": "C44",
   "status": "partial",
   "theorems": [
    "Gosms.Handlers.event_loop_crash_partial",
    "Gosms.Handlers.login_body_crashes_fails",
    "Gosms.Handlers.empty_message_crashes_fails"
   ],
   "note": "The exact condition for a panic in the event loop is proved for every packet and session state. The code violates the property: any short login body, without credentials, ends the process (proved for all of them)."
  },
  {
   "property": "C45",
   "status": "proved",
   "theorems": [
    "Gosms.Sessions.login_before_service",
    "Gosms.Sessions.accepted_login",
    "Gosms.Sessions.loginAccount_iff",
    "Gosms.Sessions.accepted_credentials",
    "Gosms.Sessions.service_before_login_closes"
   ],
   "note": ""
  },
  {
   "property": "C46",
   "status": "partial",
   "theorems": [
    "Gosms.Sessions.max_conns_partial",
    "Gosms.Sessions.max_conns_fails"
   ],
   "note": "Proved when no login is checked while another checked login is still to be completed. The code violates the property: logins checked at the same time are all accepted, for every limit and any number of connections (proved)."
  },
  {
   "property": "C47",
   "status": "partial",
   "theorems": [
    "Gosms.Sessions.active_counter_partial",
    "Gosms.Sessions.refusal_crashes_fails",
    "Gosms.Sessions.one_connection_too_many_fails",
    "Gosms.Counter.counter_exact_partial",
    "Gosms.Counter.cap_exceeded_fails",
    "Gosms.Counter.counter_drift_fails",
    "Gosms.Counter.empty_server_refuses_fails"
   ],
   "note": "The counter is exact with one event loop until the maximum is reached. The code violates the rest: refusing a connection ends the process, and with several event loops the maximum can be exceeded and the counter drifts (all proved)."
  },
  {
   "property": "C48",
   "status": "partial",
   "theorems": [
    "Gosms.Window.window_bound_partial",
    "Gosms.Window.slot_freed_partial",
    "Gosms.Window.slot_granted_partial",
    "Gosms.Window.relogin_window_fails",
    "Gosms.Window.close_leaks_fails",
    "Gosms.Window.zero_window_fails",
    "Gosms.Window.negative_window_fails",
    "Gosms.Window.handlers_accounted"
   ],
   "note": "Proved for sessions that log in once. The code violates the property for sessions that log in again (n logins, n*W handlers), and handlers running when the session closes never end (both proved for all sizes)."
  },
  {
   "property": "C49",
   "status": "proved",
   "theorems": [
    "Gosms.Heartbeat.terminated_after_three",
    "Gosms.Heartbeat.answering_peer_kept",
    "Gosms.Heartbeat.tick_decision",
    "Gosms.Heartbeat.task_decision",
    "Gosms.Heartbeat.heartbeat_only_when_silent",
    "Gosms.Heartbeat.sgip_no_heartbeat",
    "Gosms.ServerTicks.session_history",
    "Gosms.ServerTicks.termination_reason",
    "Gosms.ServerTicks.heartbeat_reason",
    "Gosms.ServerTicks.silent_session_terminated"
   ],
   "note": "The third part assumes that at each tick at most 252 heartbeat tasks of the session still wait for a goroutine. The same for everything written on a connection (ServerTicks)."
  },
  {
   "property": "C50",
   "status": "partial",
   "theorems": [
    "Gosms.loadMtOptions_partial",
    "Gosms.withMtOptions_fails"
   ],
   "note": "Every attribute ends with the last value given for it. The clause about WithMtOptions is violated by the code: it has no effect (proved)."
  },
  {
   "property": "C51",
   "status": "partial",
   "theorems": [
    "Gosms.Cmpp.cmpp_options",
    "Gosms.Sgip.sgip_options_partial",
    "Gosms.Sgip.sgip_fee_options_fails",
    "Gosms.Smgp.smgp_options_partial",
    "Gosms.Smgp.smgp_options_exact",
    "Gosms.Smgp.smgp_options_fails"
   ],
   "note": "CMPP in full; SGIP and SMGP hold for the options named in the theorems, the rest is refuted by the _fails theorems."
  },
  {
   "property": "C52",
   "status": "partial",
   "theorems": [
    "Gosms.Auth.yaml_store_lookup_partial",
    "Gosms.Auth.yaml_store_first_load_partial",
    "Gosms.Auth.yaml_store_removed_fails",
    "Gosms.Auth.yaml_store_upper_case_fails",
    "Gosms.Auth.yaml_store_short_name_crashes",
    "Gosms.Auth.mongo_store_lookup",
    "Gosms.Auth.lower_case"
   ],
   "note": "Exact lookup result for every history of loads. The code violates two clauses (proved): removed accounts stay available, client ids with capitals are never found."
  },
  {
   "property": "C53",
   "status": "proved",
   "theorems": [
    "Gosms.Events.event_registry",
    "Gosms.Events.shutdown_hook"
   ],
   "note": ""
  },
  {
   "property": "C54",
   "status": "partial",
   "theorems": [
    "Gosms.Events.concurrent_register_partial",
    "Gosms.Events.sequential_register_partial",
    "Gosms.Events.concurrent_register_fails"
   ],
   "note": "At least one winner, and a winner's functions are kept, in every interleaving. The code violates uniqueness (proved)."
  },
  {
   "property": "C55",
   "status": "partial",
   "theorems": [
    "Gosms.Client.response_recorded_sgip_partial",
    "Gosms.Client.sequence2Uint64_inj",
    "Gosms.Client.response_recorded_cmpp_smgp_fails",
    "Gosms.Client.results_never_updated"
   ],
   "note": "Proved for SGIP in every history. The code violates the property for CMPP and SMGP in every history (proved): responses are looked up with a 32 bit key in a map with 64 bit keys, so no result is ever updated and every result reads as success."
  },
  {
   "property": "C56",
   "status": "partial",
   "theorems": [
    "Gosms.Client.query_results_partial",
    "Gosms.Client.query_ids",
    "Gosms.Client.query_unknown",
    "Gosms.Client.query_panics_fails",
    "Gosms.Client.query_drops_sent_fails"
   ],
   "note": "Proved for calls that got something sent, for the numbers whose packets were all written. The code violates the rest (proved): Query panics for a call that sent nothing, and the packets sent before a write error are missing."
  },
  {
   "property": "C57",
   "status": "proved",
   "theorems": [
    "Gosms.Client.clean_batches",
    "Gosms.Client.clean_exact",
    "Gosms.Client.clean_removes_old",
    "Gosms.Client.handed_once"
   ],
   "note": "Age of an entry: that of its first result."
  },
  {
   "property": "C58",
   "status": "partial",
   "theorems": [
    "Gosms.ClientPool.select_first_partial",
    "Gosms.ClientPool.select_empty_segment",
    "Gosms.ClientPool.select_bad_pattern_fails",
    "Gosms.ClientPool.select_bad_pattern_later_fails"
   ],
   "note": "Proved for every history if all patterns compile. The code violates the property otherwise (proved): a pattern that does not compile makes the first send panic."
  },
  {
   "property": "C59",
   "status": "partial",
   "theorems": [
    "Gosms.ClientPool.prune_exact",
    "Gosms.ClientPool.lru_order_partial",
    "Gosms.ClientPool.peek_healthy",
    "Gosms.ClientPool.lru_overflow_fails",
    "Gosms.ClientPool.sorted_exists",
    "Gosms.ClientPool.period_counts"
   ],
   "note": "Order proved for at most 10^10 messages per period; beyond that the priority wraps around (proved)."
  },
  {
   "property": "C60",
   "status": "partial",
   "theorems": [
    "Gosms.ClientLogin.newSession_full",
    "Gosms.ClientLogin.new_session_partial",
    "Gosms.ClientLogin.new_session_io_error",
    "Gosms.ClientLogin.new_session_short_read_fails",
    "Gosms.ClientLogin.new_session_status_fails"
   ],
   "note": "Decision proved for every complete answer. The code violates the property (proved): an answer of which the first read returns only a part makes a session that is not logged in, without an error, and a CMPP 3 status that is a multiple of 256 counts as success."
  },
  {
   "property": "C61",
   "status": "partial",
   "theorems": [
    "Gosms.ClientConc.closed_at_most_once",
    "Gosms.ClientConc.close_never_blocks",
    "Gosms.ClientConc.close_partial",
    "Gosms.ClientConc.close_concurrent_fails"
   ],
   "note": "At most one close and no deadlock in every interleaving; no panic for calls that do not overlap. The code violates the rest (proved): of any two overlapping calls the second one can call a method of a nil connection."
  },
  {
   "property": "C62",
   "status": "partial",
   "theorems": [
    "Gosms.ClientReceive.receive_partial",
    "Gosms.ClientReceive.receive_whole_partial",
    "Gosms.ClientReceive.receive_exactly",
    "Gosms.ClientReceive.receive_bad_length",
    "Gosms.ClientReceive.receive_terminates",
    "Gosms.ClientReceive.receive_split_fails"
   ],
   "note": "Proved exactly when it holds (receive_exactly): all packets of a stream are processed if and only if no head and no body arrives in two reads; otherwise those before the torn one are and the session is closed. So the code violates the property for every packet and split point (receive_split_fails)."
  },
  {
   "property": "C63",
   "status": "partial",
   "theorems": [
    "Gosms.Limiter.throughput_partial",
    "Gosms.Limiter.throughput_default",
    "Gosms.Limiter.limiter_upper",
    "Gosms.Limiter.limiter_lower",
    "Gosms.Limiter.limiter_spaced",
    "Gosms.Limiter.client_limiter",
    "Gosms.Limiter.throughput_unlimited_fails",
    "Gosms.Limiter.throughput_no_window_fails"
   ],
   "note": "Holds for throughputs up to a million and a window of at least 1; violated outside (proved)."
  },
  {
   "property": "C64",
   "status": "proved",
   "theorems": [
    "Gosms.Auth.structCopy_exact",
    "Gosms.Auth.structCopy_guard",
    "Gosms.Auth.structCopy_unexported_fails",
    "Gosms.Auth.findAuthConf_exact"
   ],
   "note": ""
  },
  {
   "property": "C65",
   "status": "proved",
   "theorems": [
    "Gosms.command_names",
    "Gosms.command_names_distinct"
   ],
   "note": ""
  },
  {
   "property": "C66",
   "status": "partial",
   "theorems": [
    "Gosms.Cmpp.cmpp_part_numbers",
    "Gosms.Cmpp.cmpp_newSubmit",
    "Gosms.Smgp.smgp_part_numbers_fail"
   ],
   "note": "Holds for CMPP (exact numbers up to 255 parts); the code violates it for SMGP (proved)."
  },
  {
   "property": "C67",
   "status": "partial",
   "theorems": [
    "Gosms.Sessions.login_accepted_partial",
    "Gosms.Sessions.late_callback_lockout_fails"
   ],
   "note": "Proved if the network library runs no write callback after a close. Refuted for a library that does (a session stored again after its connection was closed stays for ever)."
  },
  {
   "property": "C68",
   "status": "proved",
   "theorems": [
    "Gosms.Heartbeat.tick_decision",
    "Gosms.ServerTicks.session_history",
    "Gosms.ServerTicks.termination_reason",
    "Gosms.ServerTicks.silent_session_terminated"
   ],
   "note": ""
  },
  {
   "property": "C69",
   "status": "partial",
   "theorems": [
    "Gosms.Client.report_recorded_fails",
    "Gosms.Client.report_id_is_answer_id"
   ],
   "note": "The code violates the property in every history (proved): no report is ever recorded in any result, for any protocol."
  },
  {
   "property": "C70",
   "status": "partial",
   "theorems": [
    "Gosms.ClientConc.no_close_no_crash_partial",
    "Gosms.ClientConc.latecomers_leave",
    "Gosms.ClientConc.healthy_iff",
    "Gosms.ClientConc.send_while_closing_fails",
    "Gosms.ClientConc.write_while_closing_fails",
    "Gosms.ClientConc.receive_while_closing_fails",
    "Gosms.ClientConc.send_failure_fails"
   ],
   "note": "Proved while nobody closes the session, and for all who come after the closing has begun. The code violates the property (proved for any goroutines): a session closed between the health check and the use of its fields crashes the sender or the receiver."
  },
  {
   "property": "C71",
   "status": "partial",
   "theorems": [
    "Gosms.ClientPool.pool_never_exceeds",
    "Gosms.ClientPool.pool_bound",
    "Gosms.ClientPool.pool_filled",
    "Gosms.ClientPool.pool_filled_healthy",
    "Gosms.ClientPool.pool_lowered_fails"
   ],
   "note": "Proved for an unchanged configuration; in general the bound is the largest configured value. If the configuration is lowered at run time the pool keeps its healthy sessions (proved)."
  },
  {
   "property": "C72",
   "status": "partial",
   "theorems": [
    "Gosms.ClientPool.peek_limited_partial",
    "Gosms.ClientPool.peek_returns_partial",
    "Gosms.ClientPool.peek_no_connection_fails",
    "Gosms.ClientPool.peek_exactly",
    "Gosms.ClientPool.peek_waits_exactly_fails"
   ],
   "note": "Proved for the rate limit. The code violates the rest (proved): without a healthy session the call never returns. peek_exactly says which session an admitted call returns and when, peek_waits_exactly_fails when it is still waiting."
  },
  {
   "property": "C73",
   "status": "partial",
   "theorems": [
    "Gosms.ClientTraffic.carrier_packet_panics_exactly_partial",
    "Gosms.ClientTraffic.carrier_packet_never_panics_fails_login",
    "Gosms.ClientTraffic.carrier_packet_never_panics_fails_short"
   ],
   "note": "The exact set of crashing packets is proved; the property itself is false: rejected login responses and short submit responses always crash the client."
  },
  {
   "property": "C74",
   "status": "partial",
   "theorems": [
    "Gosms.ClientTraffic.carrier_request_answered_partial",
    "Gosms.ClientTraffic.session_closed_exactly",
    "Gosms.ClientTraffic.results_changed_as_told",
    "Gosms.ClientTraffic.carrier_request_answered_fails"
   ],
   "note": "Proved for every packet that does not crash the client; refuted for all SGIP deliveries and reports, which are ignored, and false for SMGP texts that cannot be decoded."
  },
  {
   "property": "C75",
   "status": "partial",
   "theorems": [
    "Gosms.ClientTraffic.submit_answer_recorded_sgip_partial",
    "Gosms.ClientTraffic.submit_answer_recorded_cmpp_smgp_fails",
    "Gosms.Client.sgip_msg_id_text"
   ],
   "note": "Proved for SGIP under the assumptions that the sequence number is unique and the cache entry not expired; refuted for CMPP and SMGP."
  },
  {
   "property": "C76",
   "status": "partial",
   "theorems": [
    "Gosms.ServerTraffic.response_at_most_once",
    "Gosms.ServerTraffic.frame_answers",
    "Gosms.ServerTraffic.server_settles",
    "Gosms.ServerTraffic.server_can_settle",
    "Gosms.ServerTraffic.packet_answered_partial",
    "Gosms.ServerTraffic.packet_answered_once_partial",
    "Gosms.ServerTraffic.slotless_answered",
    "Gosms.ServerTraffic.submit_answered_fails",
    "Gosms.ServerTraffic.zero_window_answers_fails",
    "Gosms.ServerTraffic.second_login_answers_fails",
    "Gosms.ServerTraffic.second_login_unanswered_fails",
    "Gosms.ServerTicks.response_at_most_once",
    "Gosms.ServerTicks.frame_answers",
    "Gosms.ServerTicks.server_settles",
    "Gosms.ServerTicks.packet_answered_partial",
    "Gosms.ServerTicks.packet_answered_once_partial",
    "Gosms.ServerTicks.slotless_answered"
   ],
   "note": "At most one answer, exact bytes and coming to rest proved for all histories. Logins and submits over the rate limit are always answered (slotless_answered). For the other packets being answered is proved if the account is known, windows have at least one slot, there is no second login and the minimal processing time is below the maximal one; without each of these conditions it is refuted; a request waiting for a slot when a login is completed can be given up from every such state and is then never answered (second_login_unanswered_fails). Also with the server's own frames in between (ServerTicks)."
  },
  {
   "property": "C77",
   "status": "proved",
   "theorems": [
    "Gosms.ServerTraffic.report_after_response",
    "Gosms.ServerTraffic.reports_at_most_once",
    "Gosms.ServerTraffic.reports_only_when_drawn",
    "Gosms.ServerTraffic.sgip_no_reports",
    "Gosms.ServerTicks.delivery_origin",
    "Gosms.ServerTicks.deliveries_per_tick"
   ],
   "note": "For all histories; the id in an SMGP report is that of the response if ids have their 10 bytes (they do: C04). Also with simulated texts in between."
  },
  {
   "property": "C78",
   "status": "partial",
   "theorems": [
    "Gosms.ServerTraffic.account_rules_fails"
   ],
   "note": "Refuted for all accounts, submits and histories that otherwise lead to an answer."
  },
  {
   "property": "C79",
   "status": "proved",
   "theorems": [
    "Gosms.ServerTraffic.login_before_service",
    "Gosms.ServerTraffic.service_after_login",
    "Gosms.ServerTraffic.login_response_honest",
    "Gosms.ServerTraffic.termination_closes",
    "Gosms.ServerTicks.login_before_service",
    "Gosms.ServerTicks.service_after_login",
    "Gosms.ServerTicks.login_response_honest"
   ],
   "note": "Closing means the server has asked for the connection to be closed. Also with the server's own frames: only terminations are sent before a login."
  },
  {
   "property": "C80",
   "status": "proved",
   "theorems": [
    "Gosms.ServerTraffic.counters_exact",
    "Gosms.ServerTicks.counters_exact",
    "Gosms.ServerTicks.counters_apart"
   ],
   "note": "Counters are 64 bit and wrap. Also with simulated texts, which have their own counter."
  },
  {
   "property": "C81",
   "status": "partial",
   "theorems": [
    "Gosms.Cmpp.cmpp_mo_wire",
    "Gosms.Cmpp.cmpp_mo_text_partial",
    "Gosms.Cmpp.cmpp_mo_long_fails",
    "Gosms.Cmpp.cmpp_mo_astral_fails",
    "Gosms.Smgp.smgp_mo_text_partial",
    "Gosms.Sgip.sgip_mo_text"
   ],
   "note": "Exact bytes for every text in CMPP; the property is refuted there for all longest texts and all texts with wide characters. SMGP: proved if the coder can write the kept text in 255 bytes. SGIP: proved."
  },
  {
   "property": "C82",
   "status": "partial",
   "theorems": [
    "Gosms.Random.randNum_range",
    "Gosms.Random.randNum_empty_fails",
    "Gosms.Random.rate_partial",
    "Gosms.Random.rate_one",
    "Gosms.Random.rate_zero_fails"
   ],
   "note": "Range proved for non-empty ranges; the code panics for empty ones (proved), which leaves submits unanswered (C76). The number of passing draws is counted exactly; it is one too many (proved)."
  },
  {
   "property": "C83",
   "status": "partial",
   "theorems": [
    "Gosms.Shutdown.hooks_at_most_once",
    "Gosms.Shutdown.exit_after_hooks_partial",
    "Gosms.Shutdown.graceful_partial",
    "Gosms.Shutdown.registered_hooks_run_partial",
    "Gosms.Shutdown.signal_lost_fails",
    "Gosms.Shutdown.panic_skips_fails",
    "Gosms.Shutdown.early_signal_fails",
    "Gosms.Shutdown.second_signal_fails"
   ],
   "note": "At most once in every schedule; exactly once before exit if the signal finds the process waiting, no hook panics and no further signal comes. Each of these conditions is needed (refuted without)."
  },
  {
   "property": "C84",
   "status": "partial",
   "theorems": [
    "Gosms.Command.command_count",
    "Gosms.Command.command_prompt_partial",
    "Gosms.Command.command_last_number_fails",
    "Gosms.Command.command_number_missed_fails"
   ],
   "note": "The property is refuted for every list of different numbers (at most as many as the pool has goroutines); it holds if each task runs before the loop goes on."
  },
  {
   "property": "C85",
   "status": "partial",
   "theorems": [
    "Gosms.Command.savePid_partial",
    "Gosms.Command.savePid_fails"
   ],
   "note": "Holds if and only if the file did not hold a longer text."
  },
  {
   "property": "C86",
   "status": "partial",
   "theorems": [
    "Gosms.Startup.generators_configured_partial",
    "Gosms.Startup.configured_ids_disjoint",
    "Gosms.Startup.b32_settings_ignored_fails",
    "Gosms.Startup.b32_workers_collide_fails",
    "Gosms.Startup.sgip_workers_collide_fails"
   ],
   "note": "Proved for 64 bit ids, SGIP node and BCD code; refuted for 32 bit ids and SGIP workers."
  },
  {
   "property": "C87",
   "status": "partial",
   "theorems": [
    "Gosms.Startup.logger_settings_partial",
    "Gosms.Startup.logger_level_fails",
    "Gosms.Startup.server_log_levels",
    "Gosms.Startup.client_error_level_fails",
    "Gosms.Startup.default_log_settings"
   ],
   "note": "All settings but the level; the level is refuted for every name and configuration."
  },
  {
   "property": "C88",
   "status": "partial",
   "theorems": [
    "Gosms.Startup.store_starts_partial",
    "Gosms.Startup.mongoUri_filled",
    "Gosms.Startup.store_panics_fails"
   ],
   "note": "Exact conditions for starting; the panics are proved."
  },
  {
   "property": "C89",
   "status": "proved",
   "theorems": [
    "Gosms.Segments.matchString_iff",
    "Gosms.Segments.shipped_at_most_one",
    "Gosms.Segments.shipped_numbers",
    "Gosms.Segments.shipped_selection",
    "Gosms.Segments.shipped_numbers_exactly"
   ],
   "note": "The patterns are parsed by the model from the text of the configuration; the fragment of regexp they use is modelled."
  },
  {
   "property": "C90",
   "status": "proved",
   "theorems": [
    "Gosms.ServerTicks.delivery_origin",
    "Gosms.ServerTicks.heartbeat_origin",
    "Gosms.ServerTicks.heartbeat_reason",
    "Gosms.ServerTicks.termination_origin",
    "Gosms.ServerTicks.termination_reason",
    "Gosms.ServerTicks.termination_written_closes",
    "Gosms.ServerTicks.heartbeats_per_tick",
    "Gosms.ServerTicks.terminations_per_tick",
    "Gosms.ServerTicks.deliveries_per_tick",
    "Gosms.ServerTicks.silent_session_terminated",
    "Gosms.ServerTicks.server_settles",
    "Gosms.ServerTicks.frame_answers",
    "Gosms.ServerTicks.counters_exact",
    "Gosms.ServerTicks.sim_run"
   ],
   "note": "Terminations for unanswered heartbeats are guaranteed if 3 to 255 are unanswered (a byte counts them) and the goroutine pool takes the task."
  },
  {
   "property": "C91",
   "status": "partial",
   "theorems": [
    "Gosms.ServerTraffic.closing_reason",
    "Gosms.ServerTicks.closing_reason",
    "Gosms.ServerTraffic.termination_response_closes_partial",
    "Gosms.ServerTicks.termination_response_closes_partial",
    "Gosms.ServerTraffic.zero_window_closing_fails",
    "Gosms.ServerTraffic.termination_closes",
    "Gosms.ServerTicks.termination_written_closes",
    "Gosms.ServerTraffic.login_response_honest"
   ],
   "note": "The reasons are proved in full; that a confirmation closes is proved at rest, for windows of at least one slot and no second login. With windows of size 0 it is refuted: no confirmation ever closes. Not counted as requests of the server: the handlers for packets of a session that is not logged in, which return an action (C43)."
  },
  {
   "property": "C92",
   "status": "partial",
   "theorems": [
    "Gosms.Ticker.server_survives_partial",
    "Gosms.Ticker.closing_ends_server_fails",
    "Gosms.Ticker.pool_ends_server_fails",
    "Gosms.Ticker.relogin_ends_server_fails",
    "Gosms.Ticker.termination_write_ends_server_fails",
    "Gosms.Ticker.closed_leaves_nothing",
    "Gosms.Ticker.visits_registered",
    "Gosms.Ticker.termination_kept",
    "Gosms.Ticker.renewed_once"
   ],
   "note": "False of the code: from every state with a connected client there is a schedule that ends the process. Proved: it goes on if no connection opens, logs in or closes while the check is at it and the library drops callbacks of failed writes."
  },
  {
   "property": "C93",
   "status": "partial",
   "theorems": [
    "Gosms.ServerTraffic.accepted_submit_reported",
    "Gosms.ServerTicks.accepted_submit_reported",
    "Gosms.ServerTraffic.accepted_submit_reported_partial",
    "Gosms.ServerTicks.accepted_submit_reported_partial",
    "Gosms.ServerTraffic.smgp_unreported_fails",
    "Gosms.ServerTraffic.reports_only_when_drawn"
   ],
   "note": "accepted_submit_reported: for every history, any windows and any number of logins, an accepting response on the connection of a server at rest has its report behind it exactly if the draw allowed it and, in SMGP, the account was still known and the submit named a recipient. So the property holds for CMPP; for SMGP it is refuted in those two cases (the task panics after the response). The _partial theorems add that the response itself is there, for windows of at least one slot and one login."
  },
  {
   "property": "C94",
   "status": "partial",
   "theorems": [
    "Gosms.LoginExchange.login_exchange_partial",
    "Gosms.LoginExchange.login_exchange_any",
    "Gosms.LoginExchange.login_answered_partial",
    "Gosms.ServerTraffic.slotless_answered",
    "Gosms.ServerTicks.slotless_answered",
    "Gosms.LoginExchange.login_cut_id_fails",
    "Gosms.ServerTicks.login_exchange_partial",
    "Gosms.ServerTicks.login_exchange_any",
    "Gosms.ServerTicks.login_answered_partial",
    "Gosms.LoginExchange.request_fields",
    "Gosms.LoginExchange.client_reads"
   ],
   "note": "Proved for ids that arrive whole (CMPP up to 6 bytes, SMGP exactly 8, SGIP up to 16 with the password), for a response that arrives in one read (C60), with one login on the connection that the server's pool takes (C100); answered at rest whatever the windows. login_exchange_any says what decides for ids of any size; for ids that do not arrive whole the property is refuted (login_cut_id_fails)."
  },
  {
   "property": "C95",
   "status": "partial",
   "theorems": [
    "Gosms.LoginExchange.login_replay_fails",
    "Gosms.ServerTicks.login_replay_fails",
    "Gosms.LoginExchange.login_not_transferable_partial"
   ],
   "note": "False of the code: every accepted login is accepted again, by anyone, at any time, while the account is unchanged and has room. Proved: a digest is good for one account, secret and time only, if the hash does not collide on the two inputs."
  },
  {
   "property": "C96",
   "status": "partial",
   "theorems": [
    "Gosms.LoginExchange.server_unproven_fails",
    "Gosms.LoginExchange.sgip_unrelated_answer_fails",
    "Gosms.LoginExchange.server_proof_offered_partial"
   ],
   "note": "False of the code: the client checks neither digest nor sequence number. Proved: the response of this library's server has the digest and the sequence number that could be checked."
  },
  {
   "property": "C97",
   "status": "partial",
   "theorems": [
    "Gosms.Logging.client_log",
    "Gosms.Logging.login_log",
    "Gosms.Logging.submit_log",
    "Gosms.Logging.other_log",
    "Gosms.Logging.sent_log",
    "Gosms.Logging.report_log",
    "Gosms.Logging.report_log_fails"
   ],
   "note": "Proved for every packet decoded and everything the server makes. An SGIP report made by an application without the sequence of its message cannot be logged. The log library itself is not modelled."
  },
  {
   "property": "C98",
   "status": "partial",
   "theorems": [
    "Gosms.Logging.sgip_password_partial",
    "Gosms.Logging.cmpp_secret_partial",
    "Gosms.Logging.smgp_secret_partial",
    "Gosms.Logging.sgip_password_debug_fails",
    "Gosms.Logging.login_pool_full_fails",
    "Gosms.Logging.login_digest_debug_fails",
    "Gosms.Logging.login_replay_fails",
    "Gosms.Startup.database_password_logged_fails"
   ],
   "note": "Proved at the shipped level (info) for SGIP passwords and for refused CMPP and SMGP logins while the goroutine pool takes tasks. False otherwise: debug level and the error record of a full pool show the whole packet; debug level shows the digest that would be accepted; the log of an accepted CMPP or SMGP login is enough to log in again; a start with a database logs its user name and password."
  },
  {
   "property": "C99",
   "status": "partial",
   "theorems": [
    "Gosms.Logging.text_hidden",
    "Gosms.Logging.submit_silent_partial",
    "Gosms.Logging.submit_logged_whole_fails"
   ],
   "note": "Proved for the packets' own log lines at every level, and that nothing is shown at the shipped level while the goroutine pool takes tasks. False at debug level and, at every level, when the pool is full: the record holds the whole packet."
  },
  {
   "property": "C100",
   "status": "partial",
   "theorems": [
    "Gosms.Pools.server_bound",
    "Gosms.Pools.taken_or_refused",
    "Gosms.Pools.refused_iff",
    "Gosms.Pools.logins_taken_partial",
    "Gosms.Pools.few_logins_taken",
    "Gosms.Pools.closed_mem",
    "Gosms.Pools.login_crowd_fails"
   ],
   "note": "Proved while fewer tasks run than there are CPUs. False otherwise: any logins beyond that number are disconnected unanswered."
  },
  {
   "property": "C101",
   "status": "partial",
   "theorems": [
    "Gosms.Pools.session_tasks_bounded",
    "Gosms.Pools.waits_only_when_full",
    "Gosms.Pools.loop_recovers",
    "Gosms.Pools.written_once",
    "Gosms.Pools.served_at_once_partial",
    "Gosms.Pools.waiting_stops_all_fails",
    "Gosms.Pools.one_client_stops_all_fails",
    "Gosms.Pools.termination_stops_all_fails"
   ],
   "note": "Proved: bounds on what a session occupies, and that the loop can always go on after two steps of the session it waits for. False: while it waits, or sleeps in the callback of a termination, no connection of the loop is served."
  },
  {
   "property": "C102",
   "status": "partial",
   "theorems": [
    "Gosms.Pools.tick_taken_partial",
    "Gosms.Pools.refused_iff",
    "Gosms.Pools.closed_mem",
    "Gosms.Pools.tick_crowd_fails"
   ],
   "note": "Proved while the server has idle workers for all tasks of a tick. False for more sessions than CPUs: if the tasks of a tick end only after its visits, the same sessions can be passed over at every tick."
  },
  {
   "property": "C103",
   "status": "partial",
   "theorems": [
    "Gosms.Client.requests_freed",
    "Gosms.Client.ids_freed_partial",
    "Gosms.Client.all_freed_partial",
    "Gosms.Client.ids_freed_fails"
   ],
   "note": "Proved for requests and queries in every history, for message ids if no carrier answers one request under two ids. False otherwise: an SGIP carrier leaves any number of entries that no cleaning removes."
  },
  {
   "property": "C104",
   "status": "partial",
   "theorems": [
    "Gosms.ClientHeartbeat.heartbeat_exact",
    "Gosms.ClientHeartbeat.heartbeat_only_checks",
    "Gosms.ClientHeartbeat.health_exact",
    "Gosms.ClientHeartbeat.dead_connection_noticed_fails",
    "Gosms.ClientHeartbeat.heartbeats_paced_fails",
    "Gosms.ClientHeartbeat.sgip_tested_fails"
   ],
   "note": "Proved when heartbeats are written and what they are. The code violates the rest (proved for all histories): failed or unanswered heartbeats change nothing, they are repeated at every check, and SGIP sessions are not tested."
  },
  {
   "property": "C105",
   "status": "partial",
   "theorems": [
    "Gosms.Journal.journal_at_most_once",
    "Gosms.Journal.journal_complete_partial",
    "Gosms.Journal.journal_values",
    "Gosms.Journal.journal_starts_iff",
    "Gosms.Journal.failed_insertion_fails",
    "Gosms.Journal.shutdown_fails"
   ],
   "note": "Proved: never twice in any history, and exactly the results handed over if no insertion fails and the process goes on. The code violates the rest (proved): what a failed insertion should have stored, and what is not yet expired at shutdown, is lost."
  },
  {
   "property": "C106",
   "status": "partial",
   "theorems": [
    "Gosms.SubmitExchange.sgip_text_answered_partial",
    "Gosms.ServerTicks.sgip_text_answered_partial",
    "Gosms.SubmitExchange.record_stays",
    "Gosms.ClientTraffic.submit_answer_recorded_cmpp_smgp_fails",
    "Gosms.Client.sgip_msg_id_text"
   ],
   "note": "Proved for SGIP, client and server joined by the bytes between them, for a connection that stays open, accounts with a window, one login, a known account and sequence numbers used once. The code violates the property for CMPP and SMGP (proved): no answer is ever recorded."
  },
  {
   "property": "C107",
   "status": "partial",
   "theorems": [
    "Gosms.ClientSelect.choice_any_schedule",
    "Gosms.ClientSelect.dialed_once",
    "Gosms.ClientSelect.sender_proceeds_partial",
    "Gosms.ClientSelect.carriers_independent_fails",
    "Gosms.ClientSelect.panic_ends_sending_fails",
    "Gosms.ClientSelect.bad_carrier_ends_sending_fails",
    "Gosms.ClientSelect.bad_dial_ends_sending_fails",
    "Gosms.ClientSelect.bad_carrier_blocks_fails"
   ],
   "note": "Proved in every schedule: who gets a carrier gets the right one, each carrier is dialed once, no deadlock if the configuration is right and the dialing ends. The code violates the rest (proved for all states and schedules): the lock is held while dialing and logging in, without a limit of time, and is never released after a panic."
  },
  {
   "property": "C108",
   "status": "partial",
   "theorems": [
    "Gosms.ClientPoolFill.usable_used_when_full_partial",
    "Gosms.ClientPoolFill.got_usable",
    "Gosms.ClientPoolFill.broken_first_blocks_fails",
    "Gosms.ClientPoolFill.usable_unused_fails"
   ],
   "note": "Proved from a tick with a full pool on. The code violates the rest (proved for all pools and schedules): broken connections are only removed when the pool is full, and senders look at the first one only."
  },
  {
   "property": "C109",
   "status": "partial",
   "theorems": [
    "Gosms.Limiter.client_window_burst_partial",
    "Gosms.Limiter.client_window_fails",
    "Gosms.Limiter.client_window_ignored_fails",
    "Gosms.Limiter.client_no_window_fails",
    "Gosms.Limiter.client_negative_window_fails"
   ],
   "note": "Proved: the window bounds what is sent at one moment. The code violates the rest (proved): the window is only used as the burst of the rate limiter."
  },
  {
   "property": "C110",
   "status": "partial",
   "theorems": [
    "Gosms.Reload.account_whole",
    "Gosms.Reload.account_stays",
    "Gosms.Reload.reload_applied_partial",
    "Gosms.Reload.survives_partial",
    "Gosms.Reload.directory_gone_fails",
    "Gosms.Reload.removed_while_reloading_fails",
    "Gosms.Reload.short_name_fails",
    "Gosms.Reload.mongo_account_stays",
    "Gosms.Reload.mongo_reload_applied",
    "Gosms.Reload.mongo_no_timeout_fails"
   ],
   "note": "Proved for all interleavings: lookups see whole accounts, accounts stay, an undisturbed reload is applied. The process survives only an operator who never removes a file, keeps the directory readable and gives no short names; proved for all histories that it ends otherwise. Without a configured time limit the database store never finds an account (proved)."
  },
  {
   "property": "C111",
   "status": "partial",
   "theorems": [
    "Gosms.ClientConns.used_or_closed_partial",
    "Gosms.ClientConns.dropped_closed",
    "Gosms.ClientConns.pool_not_collected",
    "Gosms.ClientConns.refused_left_open_fails",
    "Gosms.ClientConns.refused_piles_up_fails"
   ],
   "note": "Proved as long as no login is refused. The code does not close the connection of a refused login (proved for all histories before and after); such connections pile up."
  },
  {
   "property": "C112",
   "status": "partial",
   "theorems": [
    "Gosms.Startup.base_is_working_directory",
    "Gosms.Startup.test_base_partial",
    "Gosms.Startup.test_outside_fails",
    "Gosms.Startup.test_prefix_fails"
   ],
   "note": "Proved for programs; for tests up to the first occurrence of the project's name in the path. The code violates the rest (proved): a directory above with a name starting like the project's, or a path without it."
  },
  {
   "property": "C113",
   "status": "partial",
   "theorems": [
    "Gosms.Process.serves_at_configured_port",
    "Gosms.Process.all_serve_partial",
    "Gosms.Process.each_protocol_served_partial",
    "Gosms.Process.one_port_ends_all_fails",
    "Gosms.Process.one_server_ends_all_fails",
    "Gosms.Process.no_port_fails",
    "Gosms.Process.fatal_final"
   ],
   "note": "Proved for proper, different and free ports. The code violates the rest (proved): one port that cannot be bound, or one failing server, ends the process; without a configured port the system picks one."
  },
  {
   "property": "C114",
   "status": "partial",
   "theorems": [
    "Gosms.Accept.one_loop_exact_partial",
    "Gosms.Accept.several_loops_partial",
    "Gosms.Accept.arriving_exact_partial",
    "Gosms.Accept.limit_exceeded_fails",
    "Gosms.Accept.lost_count_fails",
    "Gosms.Accept.lost_close_fails",
    "Gosms.Accept.empty_but_full_fails",
    "Gosms.Accept.unbounded_fails"
   ],
   "note": "Proved for one event loop; with several, if they never change the count at the same time, or if no connection closes, the count is right and the limit exceeded by less than the number of loops. The code violates the rest (proved for every limit): arrivals at the same time exceed it, lost updates leave an empty server full (the next client ends the process) or let the number of sessions grow without bound."
  },
  {
   "property": "C115",
   "status": "partial",
   "theorems": [
    "Gosms.Printing.smgp_header_string",
    "Gosms.Printing.sgip_header_string",
    "Gosms.Printing.status_string",
    "Gosms.Printing.server_statuses",
    "Gosms.Printing.packets_print_partial",
    "Gosms.Printing.new_submits_print",
    "Gosms.Printing.short_part_prints_fails",
    "Gosms.Printing.submit_text_hidden",
    "Gosms.Printing.delivery_text_hidden_fails",
    "Gosms.Printing.snowflake_string",
    "Gosms.Printing.snowflake32_string",
    "Gosms.Printing.fresh_snowflake_string_fails",
    "Gosms.Printing.cycle_string"
   ],
   "note": "Proved for headers, statuses, logins, responses, deliveries, submits made by the library, and generators that were used. The code violates the rest (proved): a decoded SMGP part of at most five bytes cannot be printed, the print of a delivery shows its whole text, and a generator not yet used prints a negative number."
  },
  {
   "property": "C116",
   "status": "partial",
   "theorems": [
    "Gosms.ClientStop.pooled_closed_partial",
    "Gosms.ClientStop.dropped_closed",
    "Gosms.ClientStop.forgotten_collected",
    "Gosms.ClientStop.at_rest_all_closed_partial",
    "Gosms.ClientStop.being_made_left_open_fails",
    "Gosms.ClientStop.told_obeyed_partial",
    "Gosms.ClientStop.told_once_fails"
   ],
   "note": "Proved: what the pool holds as its closing function begins is closed, and what it dropped before is; a pool at rest ends with nothing open; told, and with no tick left in its channel, the pool opens at most the connection it is dialing. The code violates the rest (proved for every order of the functions): a connection being made during shutdown is left open, and the signal to open no more is good for one time, so that a tick left in the channel fills the whole pool again."
  },
  {
   "property": "C117",
   "status": "partial",
   "theorems": [
    "Gosms.IdLock.ids_own",
    "Gosms.IdLock.taken_iter",
    "Gosms.IdLock.returned_nodup",
    "Gosms.IdLock.order_kept",
    "Gosms.IdLock.cycle_concurrent",
    "Gosms.IdLock.bcd_concurrent",
    "Gosms.IdLock.sgip_concurrent",
    "Gosms.IdLock.snowflake_concurrent",
    "Gosms.IdLock.snowflake32_concurrent",
    "Gosms.IdLock.pending_returns",
    "Gosms.IdLock.cycle_pending_returns",
    "Gosms.IdLock.bcd_pending_returns",
    "Gosms.IdLock.sgip_pending_returns",
    "Gosms.IdLock.snowflake_pending_returns",
    "Gosms.IdLock.snowflake32_blocks_everyone_fails",
    "Gosms.IdLock.sgip_curval_torn_fails"
   ],
   "note": "Proved for all five generators: one after the other, nothing twice, order kept; every call returns for four of them. The code violates the rest (proved): a 32-bit snowflake generator out of numbers at 23:59:59 keeps its mutex for ever, so that no goroutine gets an id from it again; CurVal of the SGIP sequencer does not take the mutex and can return a number that is never handed out."
  },
  {
   "property": "C118",
   "status": "partial",
   "theorems": [
    "Gosms.Buffers.handlers_read_what_arrived",
    "Gosms.Buffers.frames_leave_as_encoded",
    "Gosms.Buffers.decoded_packets_keep",
    "Gosms.Buffers.decoded_packets_share_fails",
    "Gosms.Buffers.recipients_shared_fails"
   ],
   "note": "Proved for the server, in a model with arrays and slices in which the event loop's memory is overwritten at any time. The code violates the rest (proved): decoded CMPP and SGIP submits and CMPP and SMGP logins show what is later written into the buffer they were decoded from, and SMGP and SGIP packets are encoded for the numbers the caller's slice holds at that time."
  },
  {
   "property": "C119",
   "status": "partial",
   "theorems": [
    "Gosms.Reuse.decode_forgets_partial",
    "Gosms.Reuse.forgets_iff",
    "Gosms.Reuse.encode_keeps",
    "Gosms.Reuse.decode_fresh",
    "Gosms.Reuse.smgp_submit_again_fails",
    "Gosms.Reuse.cmpp_deliver_again_fails",
    "Gosms.Reuse.smgp_deliver_again_fails",
    "Gosms.Reuse.cmpp_connect_resp_again_fails",
    "Gosms.Reuse.decode_forgets_fails"
   ],
   "note": "Proved for eighteen of the 22 packets with a body, and for Encode of all. The code violates the rest (proved, for all such pairs of bodies): an SMGP submit decoded into an object that holds one gets the recipients of both, the earlier first, and cannot be encoded; a CMPP or SMGP text decoded into an object that holds a report keeps the report; a CMPP connect response is read in the layout of the version the response before it carried. In the server and the client each packet is decoded into a new object, so only users of the codec packages meet this. Packets that are a header only assign all their fields and are left out. Check, which stores the secret in a login, is not among the uses."
  },
  {
   "property": "C120",
   "status": "partial",
   "theorems": [
    "Gosms.Logging.cmpp_answers_join",
    "Gosms.Logging.smgp_answers_join",
    "Gosms.Logging.sgip_answers_join",
    "Gosms.Logging.sgip_seq_12_tells",
    "Gosms.Logging.sgip_seq_number_fails",
    "Gosms.Logging.sgip_report_join",
    "Gosms.Logging.smgp_report_join",
    "Gosms.Logging.cmpp_report_join_partial",
    "Gosms.Logging.cmpp_report_join_fails",
    "Gosms.Logging.cmpp_report_text",
    "Gosms.Logging.cmpp_login_told",
    "Gosms.Logging.smgp_login_told",
    "Gosms.Logging.sgip_login_told",
    "Gosms.Logging.submit_told",
    "Gosms.Logging.report_text_both_ends",
    "Gosms.Logging.levels_shown"
   ],
   "note": "Answers join their requests by seq (CMPP, SMGP) and seq_12 (SGIP) for all packets; SMGP and SGIP reports join their submits; what the server logs of an answer is what the peer reads from it; both ends log a report with the same text; levels filter exactly. The code violates the rest (proved): a CMPP report's text prints the id without leading zeros while the response's record has sixteen digits, so that they agree exactly for ids from 2^60 on (cmpp_report_join_partial) and for no id drawn before September 2028 with a datacenter below 8 (cmpp_report_join_fails); the number SGIP logs under seq leaves out the node, so that records of different nodes agree in it (sgip_seq_number_fails)."
  },
  {
   "property": "C121",
   "status": "partial",
   "theorems": [
    "Gosms.Restart.b64_again_iff",
    "Gosms.Restart.b64_again_partial",
    "Gosms.Restart.b64_same_ms_fails",
    "Gosms.Restart.bcd_again_iff",
    "Gosms.Restart.bcd_same_minute_fails",
    "Gosms.Restart.smgp_responses_same_id_fails",
    "Gosms.Restart.sgip_again_iff",
    "Gosms.Restart.sgip_same_second_fails",
    "Gosms.Restart.b32_again_iff",
    "Gosms.Restart.b32_again_fails"
   ],
   "note": "Exactly when it holds is proved for each of the four generators, over any number of lives: 64 bit ids are unique if no two lives draw in the same millisecond, BCD ids if no two in the same minute, SGIP numbers if no two lives draw their i-th number in the same second of the year. The code violates the rest (proved for all configurations): a server started again within the minute gives SMGP message ids again, from the first on; 32 bit sequence numbers are the same in every life. A life that ends between drawing an id and writing it is a life with one id more; nothing depends on it."
  },
  {
   "property": "C122",
   "status": "partial",
   "theorems": [
    "Gosms.EventCalls.registered_run_partial",
    "Gosms.EventCalls.arguments_dropped_fails",
    "Gosms.EventCalls.reused_slice_fails",
    "Gosms.EventCalls.told_partial",
    "Gosms.EventCalls.told_slice_partial",
    "Gosms.EventCalls.second_shutdown_fails",
    "Gosms.EventCalls.shared_slice_told_fails",
    "Gosms.EventCalls.refused_registration_fails"
   ],
   "note": "Proved for functions given one by one, over all later histories: they are run by each call, and the signal follows them. The code violates the rest (proved for all keys, slices and arguments): no function ever gets an argument; a slice given with dots is kept, not copied, so that what the caller writes to it is run; with room behind the slice, of two who ask to be told one never is and the shutdown hangs, and a refused registration makes the shutdown panic; a second shutdown hangs if the signal of the first was not received. Functions that use the event manager themselves and calls at the same time are not modelled."
  },
  {
   "property": "C123",
   "status": "partial",
   "theorems": [
    "Gosms.LiveConfig.process_time_partial",
    "Gosms.LiveConfig.process_time_panics_iff",
    "Gosms.LiveConfig.replaced_range_fails",
    "Gosms.LiveConfig.pool_bounded_partial",
    "Gosms.LiveConfig.raised_reached",
    "Gosms.LiveConfig.lowered_fails",
    "Gosms.LiveConfig.lowered_while_filling_fails"
   ],
   "note": "Proved: a number of connections raised is reached by the run of the ticker that reads it, whatever is configured before and after; there are never more connections than the largest number configured so far; the processing time is in the range if the maximum read is above the minimum read. The code violates the rest (proved for all values): the two ends of the range are read one after the other, so that a range replaced by one below it in between panics, although both are valid; a number lowered closes no connection that works, at any later tick, and is not noticed by a run that is making connections. That each read gives the value at that moment is assumed of the configuration library. What the processes read only once (addresses, patterns, windows, rates, the client's tick) does not change at all and is no part of the claim."
  },
  {
   "property": "C124",
   "status": "partial",
   "theorems": [
    "Gosms.ServerStop.at_most_once_partial",
    "Gosms.ServerStop.frame_answers_partial",
    "Gosms.ServerStop.at_rest_partial",
    "Gosms.ServerStop.proc_alone",
    "Gosms.ServerStop.conn_alone",
    "Gosms.ServerStop.last_moment",
    "Gosms.ServerStop.ends_at_once_fails",
    "Gosms.ServerStop.told_takes_requests_fails"
   ],
   "note": "Proved for every history of all connections and every moment of the end: what is written is exact answers, none twice, and a connection at rest has all its answers (under the conditions of C76). The code violates the rest (proved for all states): nothing is registered for the shutdown in the server process, so that the process ends five steps after the signal, with every request under way unanswered for ever and no termination sent on any connection; until then packets are handled as ever. OnShutdown, which would wait until the clients have closed their connections, is not reached, because nothing stops the engine."
  },
  {
   "property": "C125",
   "status": "partial",
   "theorems": [
    "Gosms.Window.working_left_fails",
    "Gosms.Window.others_end_partial",
    "Gosms.Window.can_rest",
    "Gosms.Window.any_number_left_fails"
   ],
   "note": "Refuted: a handler at work when the connection is closed is left for ever, for it gives back its place by receiving from a channel that is nil by then; exactly the handlers at work at the closing are left, any number of them. Proved: those waiting for a place or already giving it back end (by a panic or the closed channel), whatever the schedule, and rest can be reached from every state. The worker pool's own limit on handlers is not modelled."
  },
  {
   "property": "C126",
   "status": "partial",
   "theorems": [
    "Gosms.ClientRaces.fast_answer_lost_fails",
    "Gosms.ClientRaces.kept_until_old",
    "Gosms.ClientRaces.answer_recorded_partial",
    "Gosms.ClientRaces.half_answer_seen_fails",
    "Gosms.ClientRaces.timed_result_whole",
    "Gosms.ClientRaces.fresh_request_removed_fails",
    "Gosms.ClientRaces.cleaner_deletes"
   ],
   "note": "Refuted: the packet is written before its result is stored, and an answer that comes in between is lost for ever; Query shows the code of an answer before its message id; the cleaner deletes by key, and a new request stored under the key since the cleaner looked is deleted with it. Proved for every interleaving: a request with a number of its own is kept until it is old, an answer looked up after the store is recorded once its receiver has taken its four steps, and a result that shows a response time is whole. Assumes sequentially consistent memory: Go promises nothing for these unsynchronised assignments."
  },
  {
   "property": "C127",
   "status": "proved",
   "theorems": [
    "Gosms.Farm.message_ids_unique",
    "Gosms.Farm.report_for_own_message"
   ],
   "note": "For any number of connections, any packets and any schedule; the ids of accepted submits are values returned by the generators of Model/IdLock.lean to calls of their own (Drawn), the clocks as in C07 and C04. A delivery that is no report is one of the configured simulated texts. SGIP has no message ids and no reports. Over restarts see C121."
  },
  {
   "property": "C128",
   "status": "partial",
   "theorems": [
    "Gosms.Farm.connections_isolated_partial",
    "Gosms.Farm.one_packet_ends_all_fails"
   ],
   "note": "Proved: up to the end of the process each connection is exactly as if alone, and the process ends only with a panic on a connection. The code violates the rest (proved for all states): a login packet with a short body on any open connection, also one never logged in, ends the process: nothing is written on any connection any more. What connections share through the rate limiter, the accounts, the session counts and the ids enters as what steps draw (C46, C52, C110, C127)."
  },
  {
   "property": "C129",
   "status": "partial",
   "theorems": [
    "Gosms.ServerTicks.response_by_roll",
    "Gosms.ServerTicks.full_rate_refuses_only_over_limit",
    "Gosms.ServerTicks.full_rate_reports_all",
    "Gosms.ServerTicks.negative_rate_accepts_nothing",
    "Gosms.ServerTicks.zero_rate_accepts_fails",
    "Gosms.ServerTicks.negative_delivery_rate_no_texts",
    "Gosms.Random.rate_applied_twice_fails"
   ],
   "note": "Proved for every history: a response accepts exactly if the submit is within the limit and its roll is not above the rate; a rate of at least 0.9999 refuses nothing at random and reports every accepted CMPP submit; a negative rate accepts and reports nothing and sends no texts. The code violates the rest (proved): at rate 0 a submit that rolls 0 is accepted, and the rate counts twice: (k+1)^2 of 10000^2 submits are accepted and reported at the rate k/10000. Floating point enters as an order with growing k/10000."
  },
  {
   "property": "C130",
   "status": "partial",
   "theorems": [
    "Gosms.AuthLock.lookup_immediate_partial",
    "Gosms.AuthLock.lookup_waits_fails",
    "Gosms.AuthLock.wait_bounded",
    "Gosms.AuthLock.lookups_agree",
    "Gosms.AuthLock.answers_whole",
    "Gosms.AuthLock.lock_after_query"
   ],
   "note": "Proved for every history: while no reload is reading records a lookup is answered at its next step; lookups between two readings see the same accounts; what is answered is a whole record of the database. The code violates the rest (proved for all histories that get there): while a reload reads, nobody who asks is answered, until its end or its time limit (wait_bounded). The driver is assumed to end Next when the time of its context is over."
  },
  {
   "property": "C131",
   "status": "partial",
   "theorems": [
    "Gosms.Intervals.job_runs_when_due_partial",
    "Gosms.Intervals.job_not_more_often",
    "Gosms.Intervals.negative_interval_fails",
    "Gosms.Intervals.server_ticks_spaced",
    "Gosms.Intervals.server_ticks_on_time",
    "Gosms.Intervals.missing_tick_duration_fails",
    "Gosms.Intervals.no_pause_cuts_off_fails"
   ],
   "note": "Proved for every history: a job runs exactly if its interval was over since it last ran, with the configured or default interval, so never more often; server ticks are apart by at least the configured delay and begin when it is over. The code violates the rest (proved for all): a negative interval ends the process; without a configured tick interval there is no pause, and four ticks at one moment cut off a silent client. Assumed: the documentation of time.Ticker and of the network library's OnTick."
  },
  {
   "property": "C132",
   "status": "partial",
   "theorems": [
    "Gosms.Cmpp.cmpp_text_arrives_exactly",
    "Gosms.Cmpp.cmpp_text_arrives_fails",
    "Gosms.Cmpp.cmpp_one_packet_exactly",
    "Gosms.Sgip.sgip_text_arrives_exactly",
    "Gosms.Sgip.sgip_text_arrives_fails",
    "Gosms.Smgp.smgp_text_arrives_partial",
    "Gosms.Smgp.smgp_newSubmit_delivered"
   ],
   "note": "Proved for every text below the size of a packet: it arrives exactly if it is not like a concatenation header, and which texts are is stated in characters (CMPP, SGIP). The code violates the rest (proved for all such texts): what happens to each of them, and that a text filling one packet is sent as two. For SMGP the characters are those of GB18030, an assumed coder, so that the condition is stated on the bytes."
  },
  {
   "property": "C133",
   "status": "partial",
   "theorems": [
    "Gosms.Shipped.shipped_accounts_found",
    "Gosms.Shipped.shipped_login",
    "Gosms.Shipped.shipped_ports",
    "Gosms.Shipped.shipped_debug_served",
    "Gosms.Shipped.shipped_store_fails"
   ],
   "note": "Proved with the accounts as files: each account is found after every load, each login is answered and accepted exactly while fewer other sessions than the client opens are there, and each protocol is served at the client's address if the ports are free. As shipped the store is a database, so that neither process starts without credentials and a reachable database (proved). What the YAML library makes of the files is assumed."
  },
  {
   "property": "C134",
   "status": "partial",
   "theorems": [
    "Gosms.Times.cmpp_validity_exactly",
    "Gosms.Times.sgip_validity_exactly",
    "Gosms.Times.smgp_validity_fails",
    "Gosms.Times.send_at_exactly",
    "Gosms.Times.cmpp_report_times_exactly",
    "Gosms.Times.smgp_report_times_exactly",
    "Gosms.Times.smgp_text_time",
    "Gosms.Times.civil_real"
   ],
   "note": "Proved with the calendar from 2000 to 2099: exactly in which time zone validity and sending time are read right (UTC+8), what minutes a report tells, and that a text tells the right second. The property fails in the code: the zone is fixed in the text of the time, SMGP submits are valid up to the moment of sending, reports tell the time of their own making."
  },
  {
   "property": "C135",
   "status": "partial",
   "theorems": [
    "Gosms.Times.bcd_unique_for_a_year_partial",
    "Gosms.Times.bcd_year_later_fails",
    "Gosms.Times.bcd_clock_put_back_fails"
   ],
   "note": "Proved for runs of less than a year on a clock that is not put back. The property fails in the code over longer times and when the clock is put back, for every first draw."
  },
  {
   "property": "C136",
   "status": "partial",
   "theorems": [
    "Gosms.Cmpp.cmpp_recipients_listed",
    "Gosms.Cmpp.cmpp_first_recipient_only_fails",
    "Gosms.Smgp.smgp_first_recipient_only_fails",
    "Gosms.Sgip.sgip_no_recipient_fails"
   ],
   "note": "The record lists all recipients. The second half fails in the code for every submit with two or more recipients: only the first is reported on (CMPP, SMGP), or none (SGIP)."
  },
  {
   "property": "C137",
   "status": "partial",
   "theorems": [
    "Gosms.Parts.mixed_parts_partial",
    "Gosms.Parts.whole",
    "Gosms.Parts.submits_hold_parts",
    "Gosms.Parts.own_parts_fails",
    "Gosms.Parts.same_reference_fails",
    "Gosms.Parts.swapped_other",
    "Gosms.Parts.references_run_out_fails",
    "Gosms.Parts.groupId_eq_iff"
   ],
   "note": "Proved for any number of messages of at most 255 parts that differ in reference or number of parts, whatever order, repetitions and losses: a message is put together exactly when all its parts are there, from its own parts. The property fails in the code: references agree for all times a multiple of 256 ns apart, and then no receiver can tell the messages (proved for all pairs of texts of the same length and more than two parts); the last part holds the beginning of the text."
  },
  {
   "property": "C138",
   "status": "partial",
   "theorems": [
    "Gosms.Cmpp.cmpp_terms_read",
    "Gosms.Cmpp.cmpp_terms_exactly",
    "Gosms.Cmpp.cmpp_source_fails",
    "Gosms.Smgp.smgp_terms_read_partial",
    "Gosms.Smgp.smgp_terms_fails",
    "Gosms.Sgip.sgip_terms_read_partial",
    "Gosms.Sgip.sgip_source_fails",
    "Gosms.slot_eq_iff"
   ],
   "note": "Proved for every packet of every text on the wire: CMPP exactly (if and only if each term fits its field), SGIP for all terms that fit, SMGP for number, service and send time. The property fails in the code: CMPP sends the display number as the company, SGIP drops five characters of longer client ids and all billing, SMGP sends 15 for report wish and priority that were not asked for and is valid until the moment of sending (all refuted for every text and option list)."
  },
  {
   "property": "C139",
   "status": "partial",
   "theorems": [
    "Gosms.Traffic.handed_exactly",
    "Gosms.Traffic.keeps_up_iff_partial",
    "Gosms.Traffic.backlog_fails",
    "Gosms.Traffic.made_up",
    "Gosms.Traffic.lag_stays_fails",
    "Gosms.Traffic.heartbeat_swallows_fails"
   ],
   "note": "Proved exactly for every sequence of packets and every segmentation: how many packets have been handed over and which bytes are held back, and when the server keeps up. The property fails in the code: two packets in each segment leave a backlog of one packet for each segment, without bound (backlog_fails). With the library's reading of 0 as everything, packets without body are excluded (C41); a heartbeat that arrives while the server is behind swallows the packet after it (heartbeat_swallows_fails)."
  },
  {
   "property": "C140",
   "status": "partial",
   "theorems": [
    "Gosms.Cmpp.cmpp_recipients",
    "Gosms.Cmpp.cmpp_recipient_limits_partial",
    "Gosms.Cmpp.cmpp_newSubmit_too_many",
    "Gosms.Smgp.smgp_recipients",
    "Gosms.Smgp.smgp_recipient_limits_partial",
    "Gosms.Smgp.smgp_newSubmit_too_many",
    "Gosms.Sgip.sgip_recipients",
    "Gosms.Sgip.sgip_recipient_limits_partial"
   ],
   "note": "Proved exactly: the length of every packet of every text, and that the server takes it if it has at most 5120 bytes and otherwise closes the connection. So the property fails in the code from 155 recipients (CMPP 3) or 238 (the others) on, and with more than 255 the constructor panics (CMPP) or nothing is encoded (SMGP)."
  },
  {
   "property": "C141",
   "status": "partial",
   "theorems": [
    "Gosms.ServerStream.stream_as_packets",
    "Gosms.ServerStream.stream_at_most_once",
    "Gosms.ServerStream.stream_answered_partial",
    "Gosms.ServerStream.cut_anywhere",
    "Gosms.ServerStream.together_unanswered_fails"
   ],
   "note": "Framing and answering composed into one machine over bytes (Model/ServerStream). For every stream, every cutting and every schedule: it does what some history of packets does, no request is answered more often than it was sent, and cuts inside packets make no difference. Answered exactly once is proved under the conditions of C76 and if the server is not behind with reading (C139); refuted without that: of two packets that come together the second is not answered, in no schedule, until more data comes."
  },
  {
   "property": "C142",
   "status": "partial",
   "theorems": [
    "Gosms.ClientStream.client_stream_partial",
    "Gosms.ClientStream.torn_stream_fails",
    "Gosms.ClientStream.stream_terminated",
    "Gosms.ClientStream.stream_panics_fails",
    "Gosms.ClientStream.stream_never_recorded_fails",
    "Gosms.ClientStream.stream_answer_recorded_partial"
   ],
   "note": "The client's framing and its handlers composed into one receiver over bytes (Model/ClientStream), with other goroutines' steps between packets. Proved: all packets acted on in order if no read tears a header or body; after a termination nothing. Refuted: every other cutting loses packets and closes the session; short bodies end the process; whatever a CMPP or SMGP carrier sends, no result changes. For SGIP an answer in the stream is recorded."
  },
  {
   "property": "C143",
   "status": "partial",
   "theorems": [
    "Gosms.TextOverNetwork.text_over_network_partial",
    "Gosms.ClientStream.stream_never_recorded_fails",
    "Gosms.ServerStream.together_unanswered_fails",
    "Gosms.ClientStream.torn_stream_fails"
   ],
   "note": "C106 over both networks: C141 and C142 composed. Proved for SGIP, every text and every packet of it, every stream it is part of, every schedule, every segmentation that lets the server keep up (C139) and, on the way back, tears no header or body (C62), under the conditions of C76 and C106. Without these conditions it fails (C141, C142), and for CMPP and SMGP always."
  },
  {
   "property": "C144",
   "status": "partial",
   "theorems": [
    "Gosms.ServerLife.life_as_packets",
    "Gosms.ServerLife.life_at_most_once",
    "Gosms.ServerLife.life_answered_partial",
    "Gosms.ServerLife.life_answered_alone_partial",
    "Gosms.ServerLife.termination_reason_partial",
    "Gosms.ServerLife.answering_client_kept_partial",
    "Gosms.ServerLife.answering_client_kept_alone_partial",
    "Gosms.ServerLife.answering_client_cut_off_fails",
    "Gosms.ServerTicks.answer_counted_partial"
   ],
   "note": "Framing, answering and the ticks composed (Model/ServerLife). Proved: the connection over bytes does what a history of packets and ticks does, so C76 to C93 carry over; requests answered at most once, and once at rest, with the server's own frames in between; a termination has the reason the property gives, if at the tick the server is at rest and not behind with reading (windows of at least one slot, no second login). With the library's reading of 0 as everything, packets without body (SMGP answers) must come alone (the _alone theorems). Without keeping up refuted by a run: four submits sent together, then three heartbeats answered within a second each, and the server terminates."
  },
  {
   "property": "C145",
   "status": "partial",
   "theorems": [
    "Gosms.ServerLife.idle_client_kept_partial",
    "Gosms.ServerLife.idle_client_kept_alone_partial",
    "Gosms.ServerLife.sgip_idle_kept_fails",
    "Gosms.ServerTicks.answer_used"
   ],
   "note": "Proved for CMPP and SMGP over bytes, for every history with a clock that does not go back: a termination is sent only to a client that was not logged in and was idle, if the client answers heartbeats, at ticks the server is at rest and not behind with reading, and the pool takes the tasks (conditions of C144: windows of at least one slot, no second login; packets without body come alone). For SGIP refuted for every idle client: whatever it sends short of accepted texts and logins, the termination is written."
  },
  {
   "property": "C146",
   "status": "partial",
   "theorems": [
    "Gosms.Link.own_client_kept_partial",
    "Gosms.Link.own_sgip_client_kept_fails"
   ],
   "note": "Client and server joined by a network (Model/Link): the client's answers to heartbeats are what its receiver writes, not an assumption; they arrive in pieces of any length. Proved for CMPP and SMGP for every history, under the conditions of C145 on times, pool and windows, if at every tick with the server's end open all that was written has been read at both ends; the client reads whole packets (torn reads end the session: C142). For SGIP refuted for every idle connection."
  },
  {
   "property": "C147",
   "status": "proved",
   "theorems": [
    "Gosms.Link.termination_ends_session",
    "Gosms.Link.confirmation_ends_session",
    "Gosms.Link.session_given_up_only"
   ],
   "note": "Model/Link: client and server joined by a network; the client reads whole packets (torn reads end the session too: C142), so that a packet cut by the network on its way back is not covered."
  },
  {
   "property": "C148",
   "status": "partial",
   "theorems": [
    "Gosms.Link.answers_read_were_asked_for_partial",
    "Gosms.Link.answers_read_were_asked_for_fails",
    "Gosms.Link.client_answers_what_it_reads",
    "Gosms.Link.quiet_all_answered_partial"
   ],
   "note": "Client to server: proved if packets without body (heartbeats of the client, terminations) arrive alone, or the network library reads a length of 0 as nothing; refuted otherwise: after such a packet the server goes on reading in the midst of the next and answers requests that a text spells. The direction from server to client holds without that. That all is answered when all is quiet is proved for windows of at least one slot and one login, for submits whose account is still known and whose report delay is a range."
  }
 ]
}