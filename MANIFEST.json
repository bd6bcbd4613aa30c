{
 "claims": [
  {
   "property": "C01",
   "status": "proved",
   "theorems": [
    "Rmq.C01_table_round_trip"
   ],
   "note": "Full round trip on real buffers, either endianness on either side."
  },
  {
   "property": "C02",
   "status": "proved",
   "theorems": [
    "Rmq.C02_decode_table_safe"
   ],
   "note": "Buffers up to 2^30 bytes."
  },
  {
   "property": "C03",
   "status": "proved",
   "theorems": [
    "Rmq.C03_encode_table_exact",
    "Rmq.C03_encode_table_in_bounds"
   ],
   "note": "Exact bytes (serTable) and exact success condition; nothing outside [off, limit) is touched."
  },
  {
   "property": "C04",
   "status": "proved",
   "theorems": [
    "Rmq.C04_within_limit_accepted",
    "Rmq.C04_beyond_limit_rejected",
    "Rmq.C04_decoded_depth_bounded"
   ],
   "note": "Rejection for every byte string whose grammar nests too deep, acceptance up to the limit."
  },
  {
   "property": "C05",
   "status": "proved",
   "theorems": [
    "Rmq.C05_encoders_big_endian",
    "Rmq.C05_decoders_big_endian",
    "Rmq.C05_encode_32_in_buffer"
   ],
   "note": "Both endiannesses, every value."
  },
  {
   "property": "C06",
   "status": "proved",
   "theorems": [
    "Rmq.C06_clone_deep_copy",
    "Rmq.C06_clone_errors",
    "Rmq.C06_clone_succeeds_iff"
   ],
   "note": "Deep copy, freshness of storage, exact set of cloneable tables and of errors."
  },
  {
   "property": "C07",
   "status": "proved",
   "theorems": [
    "Rmq.C07_entry_cmp_lexicographic",
    "Rmq.C07_entry_cmp_antisymmetric",
    "Rmq.C07_entry_cmp_transitive",
    "Rmq.C07_huge_key_compares_equal"
   ],
   "note": "Keys below 2^31 bytes; C07_huge_key_compares_equal shows the bound is needed."
  },
  {
   "property": "C08",
   "status": "proved",
   "theorems": [
    "Rmq.C08_lookup_first_match"
   ],
   "note": "For any memcmp meeting the C standard."
  },
  {
   "property": "C09",
   "status": "partial",
   "theorems": [
    "Rmq.C09_merge_partial",
    "Rmq.C09_null_add",
    "Rmq.C09_merge_lookup",
    "Rmq.C09_merge_any",
    "Rmq.C09_undefined_iff",
    "Rmq.C09_no_twins",
    "Rmq.C09_any_lookup",
    "Rmq.C09_distinct_no_twins",
    "Rmq.C09_duplicate_key_null_deref",
    "Rmq.C09_empty_merge_fails"
   ],
   "note": "The recursive-merge statement is proved for inputs without duplicate keys. For any inputs the exact result is proved (C09_merge_any, C09_any_lookup), and that the code dereferences an invalid pointer exactly when the second table has two tables under one key, nothing between them, and the first has no table there (C09_undefined_iff, witness C09_duplicate_key_null_deref); two empty tables give NO_MEMORY (C09_empty_merge_fails)."
  },
  {
   "property": "C10",
   "status": "proved",
   "theorems": [
    "Rmq.C10_method_wire_layout",
    "Rmq.C10_method_round_trip",
    "Rmq.C10_structs_are_the_arguments"
   ],
   "note": "Every method of the protocol table (typed from the AMQP specification), layout and round trip."
  },
  {
   "property": "C11",
   "status": "proved",
   "theorems": [
    "Rmq.C11_decode_method_safe"
   ],
   "note": "Every id, every byte string of up to 2^30 bytes."
  },
  {
   "property": "C12",
   "status": "proved",
   "theorems": [
    "Rmq.C12_known_methods",
    "Rmq.C12_unknown_methods",
    "Rmq.C12_names_distinct",
    "Rmq.C12_named"
   ],
   "note": "All 2^32 ids."
  },
  {
   "property": "C13",
   "status": "proved",
   "theorems": [
    "Rmq.C13_properties_wire_layout",
    "Rmq.C13_properties_round_trip"
   ],
   "note": "Layout and round trip for every flag subset."
  },
  {
   "property": "C14",
   "status": "partial",
   "theorems": [
    "Rmq.C14_decode_properties_safe_partial",
    "Rmq.C14_continuation_words_undefined"
   ],
   "note": "The full property is false: flag-word continuation lets a peer trigger an undefined shift. C14_continuation_words_undefined proves UB on exactly the inputs excluded by the hypothesis of the _partial theorem."
  },
  {
   "property": "C15",
   "status": "partial",
   "theorems": [
    "Rmq.C15_methods_partial",
    "Rmq.C15_properties_partial",
    "Rmq.C15_table_key_truncated"
   ],
   "note": "Methods and properties: over-long strings always make encoding fail. False for field-table keys (C15_table_key_truncated): the key length octet is truncated and encoding reports success."
  },
  {
   "property": "C16",
   "status": "proved",
   "theorems": [
    "Rmq.C16_frame_wire_layout",
    "Rmq.C16_frame_round_trip",
    "Rmq.C16_constants"
   ],
   "note": "Both byte orders on either side, any bytes following."
  },
  {
   "property": "C17",
   "status": "proved",
   "theorems": [
    "Rmq.C17_chunking_irrelevant",
    "Rmq.C17_byte_by_byte"
   ],
   "note": "Any two splittings of the same stream."
  },
  {
   "property": "C18",
   "status": "proved",
   "theorems": [
    "Rmq.C18_oversized_refused",
    "Rmq.C18_buffers_bounded"
   ],
   "note": ""
  },
  {
   "property": "C19",
   "status": "proved",
   "theorems": [
    "Rmq.C19_bad_end_never_delivered",
    "Rmq.C19_error_is_sticky"
   ],
   "note": ""
  },
  {
   "property": "C20",
   "status": "partial",
   "theorems": [
    "Rmq.C20_safe_streams_partial",
    "Rmq.C20_unsafe_frames",
    "Rmq.C20_null_after_no_memory"
   ],
   "note": "The full property is false: frames shorter than their fixed part make the receiver read outside them (C20_unsafe_frames: for every such frame), and a failed buffer allocation leads to a NULL write (C20_null_after_no_memory). Proved for all other streams."
  },
  {
   "property": "C21",
   "status": "partial",
   "theorems": [
    "Rmq.C21_first_frame_partial",
    "Rmq.C21_methods_start_with_zero",
    "Rmq.C21_first_method_frame",
    "Rmq.C21_protocol_header",
    "Rmq.C21_empty_first_frame"
   ],
   "note": "The full property is false: the first payload octet of the first frame is taken from the receive buffer. C21_first_frame_partial says exactly what happens; C21_first_method_frame shows when it is harmless; C21_empty_first_frame refutes the rest."
  },
  {
   "property": "C22",
   "status": "partial",
   "theorems": [
    "Rmq.C22_stays_inside_partial",
    "Rmq.C22_too_big_refused",
    "Rmq.C22_body_exact",
    "Rmq.C22_tiny_buffer"
   ],
   "note": "False for body frames that do not fit (C22_body_exact) and for frame_max below 12 (C22_tiny_buffer). Proved for every other frame."
  },
  {
   "property": "C23",
   "status": "proved",
   "theorems": [
    "Rmq.C23_sent_bytes_are_the_frame",
    "Rmq.C23_error_means_prefix"
   ],
   "note": "Every schedule of partial writes, would-blocks, clock readings."
  },
  {
   "property": "C24",
   "status": "proved",
   "theorems": [
    "Rmq.C24_publish_fragments"
   ],
   "note": ""
  },
  {
   "property": "C25",
   "status": "partial",
   "theorems": [
    "Rmq.C25_last_frame_flushed_partial",
    "Rmq.C25_exact_multiple_never_flushed"
   ],
   "note": "False for bodies that are a non-zero exact multiple of frame_max-8 (C25_exact_multiple_never_flushed, for every such body). Proved for all others."
  },
  {
   "property": "C26",
   "status": "partial",
   "theorems": [
    "Rmq.C26_in_order_exactly_once_partial",
    "Rmq.C26_stream_partial",
    "Rmq.C26_frame_lost"
   ],
   "note": "False when a heartbeat send blocks during a wait (C26_frame_lost). Proved, for every history, when no heartbeat is held up (NeverBlocks, HeartbeatsPass, or heartbeats off); everything else may block for any time."
  },
  {
   "property": "C27",
   "status": "partial",
   "theorems": [
    "Rmq.C27_channel_order_kept",
    "Rmq.C27_others_kept_partial",
    "Rmq.C27_earlier_frames_lost",
    "Rmq.C27_loss_example"
   ],
   "note": "Order on the channel itself proved in full; frames of other channels queued ahead are dropped by the code (C27_earlier_frames_lost: always). Proved in full in the remaining case."
  },
  {
   "property": "C28",
   "status": "proved",
   "theorems": [
    "Rmq.C28_put_back_is_next",
    "Rmq.C28_put_back_delivered"
   ],
   "note": ""
  },
  {
   "property": "C29",
   "status": "partial",
   "theorems": [
    "Rmq.C29_no_heartbeat_partial",
    "Rmq.C29_no_heartbeat_off_partial",
    "Rmq.C29_heartbeat_delivered"
   ],
   "note": "False: with heartbeats on, amqp_basic_publish can queue a received heartbeat (C29_heartbeat_delivered). Proved for histories without publishing, or with heartbeats off."
  },
  {
   "property": "C30",
   "status": "partial",
   "theorems": [
    "Rmq.C30_reply_and_rest_partial",
    "Rmq.C30_blocked_request_partial",
    "Rmq.C30_early_close_missed"
   ],
   "note": "C30_reply_and_rest_partial: sending the request is not held up. C30_blocked_request_partial: it may be held up; frames arriving meanwhile are queued and kept, but an answer among them (a close) is not seen by this call (C30_early_close_missed)."
  },
  {
   "property": "C31",
   "status": "proved",
   "theorems": [
    "Rmq.C31_timeout_closes",
    "Rmq.C31_no_late_reply",
    "Rmq.C31_close_failure"
   ],
   "note": "Under the stated assumptions on the outside; C31_close_failure shows the one on close() is needed."
  },
  {
   "property": "C32",
   "status": "proved",
   "theorems": [
    "Rmq.C32_wait_method",
    "Rmq.C32_ok_only_if"
   ],
   "note": ""
  },
  {
   "property": "C33",
   "status": "proved",
   "theorems": [
    "Rmq.C33_queued_frames_stay_valid",
    "Rmq.C33_release_keeps_queued",
    "Rmq.C33_frame_in_progress"
   ],
   "note": "Every history of every modelled call."
  },
  {
   "property": "C34",
   "status": "partial",
   "theorems": [
    "Rmq.C34_server_properties_partial",
    "Rmq.C34_client_properties_dangle"
   ],
   "note": "Server properties: proved for every later history. Client properties: false after every successful login (C34_client_properties_dangle)."
  },
  {
   "property": "C35",
   "status": "proved",
   "theorems": [
    "Rmq.C35_negotiation",
    "Rmq.C35_param16",
    "Rmq.C35_param32",
    "Rmq.C35_tune"
   ],
   "note": ""
  },
  {
   "property": "C36",
   "status": "proved",
   "theorems": [
    "Rmq.C36_credentials"
   ],
   "note": "Whatever the broker does and however login ends."
  },
  {
   "property": "C37",
   "status": "proved",
   "theorems": [
    "Rmq.C37_mechanism",
    "Rmq.C37_response",
    "Rmq.C37_response_if",
    "Rmq.C37_on_the_wire"
   ],
   "note": ""
  },
  {
   "property": "C38",
   "status": "partial",
   "theorems": [
    "Rmq.C38_normal_partial",
    "Rmq.C38_failed_partial",
    "Rmq.C38_half_open",
    "Rmq.C38_sends"
   ],
   "note": "False for the last step (C38_half_open); a NORMAL reply does not imply that the header was sent (C57). Proved apart from these."
  },
  {
   "property": "C39",
   "status": "partial",
   "theorems": [
    "Rmq.C39_as_called",
    "Rmq.C39_deadline_partial",
    "Rmq.C39_overflow_refused",
    "Rmq.C39_special_cases",
    "Rmq.C39_seconds",
    "Rmq.C39_first",
    "Rmq.C39_has_past",
    "Rmq.C39_huge_timeout_wraps"
   ],
   "note": "Full for timeouts below 2^64 ns; beyond it wraps (C39_huge_timeout_wraps)."
  },
  {
   "property": "C40",
   "status": "partial",
   "theorems": [
    "Rmq.C40_as_called",
    "Rmq.C40_poll_timeout_partial",
    "Rmq.C40_special_cases",
    "Rmq.C40_select_timeout",
    "Rmq.C40_long_wait_is_infinite"
   ],
   "note": "Full below 2^31 ms; beyond, the int conversion wraps (C40_long_wait_is_infinite)."
  },
  {
   "property": "C41",
   "status": "partial",
   "theorems": [
    "Rmq.C41_tune",
    "Rmq.C41_heartbeats_partial",
    "Rmq.C41_timeout_partial",
    "Rmq.C41_not_timeout_partial",
    "Rmq.C41_off",
    "Rmq.C41_blocked_stays_open"
   ],
   "note": "False when sending the heartbeat blocks (C41_blocked_stays_open) and up to one millisecond early; proved otherwise, for every history."
  },
  {
   "property": "C42",
   "status": "proved",
   "theorems": [
    "Rmq.C42_components",
    "Rmq.C42_junk_before_port"
   ],
   "note": "Every component string and every way of writing it."
  },
  {
   "property": "C43",
   "status": "proved",
   "theorems": [
    "Rmq.C43_safe"
   ],
   "note": ""
  },
  {
   "property": "C44",
   "status": "partial",
   "theorems": [
    "Rmq.C44_malformed_rejected_partial",
    "Rmq.C44_non_ascii_rejected",
    "Rmq.C44_odd_escapes_accepted"
   ],
   "note": "False for escapes sscanf accepts, such as \"%+5\" (C44_odd_escapes_accepted). Proved with exactly these excluded (AcceptedEscape)."
  },
  {
   "property": "C45",
   "status": "proved",
   "theorems": [
    "Rmq.C45_body_assembly",
    "Rmq.C45_envelope",
    "Rmq.C45_empty_fields"
   ],
   "note": ""
  },
  {
   "property": "C46",
   "status": "partial",
   "theorems": [
    "Rmq.C46_not_a_delivery_partial",
    "Rmq.C46_wait_failed",
    "Rmq.C46_frame_lost"
   ],
   "note": "False when memory runs out (C46_frame_lost); proved otherwise."
  },
  {
   "property": "C47",
   "status": "partial",
   "theorems": [
    "Rmq.C47_confirmation",
    "Rmq.C47_only_confirmations",
    "Rmq.C47_other_frames_partial",
    "Rmq.C47_wait_failed",
    "Rmq.C47_frame_lost"
   ],
   "note": "The second half is false when memory runs out (C47_frame_lost); everything else proved."
  },
  {
   "property": "C48",
   "status": "partial",
   "theorems": [
    "Rmq.C48_grants_disjoint_partial",
    "Rmq.C48_succeeds",
    "Rmq.C48_wraparound"
   ],
   "note": "False within 8 bytes of 2^64 (C48_wraparound); proved for all other histories."
  },
  {
   "property": "C49",
   "status": "partial",
   "theorems": [
    "Rmq.C49_no_double_free_partial",
    "Rmq.C49_empty_frees_all",
    "Rmq.C49_recycle_frees_large",
    "Rmq.C49_recycled_pages_reused",
    "Rmq.C49_page_leak"
   ],
   "note": "A page is leaked when its bookkeeping allocation fails (C49_page_leak); everything else proved for all histories."
  },
  {
   "property": "C50",
   "status": "partial",
   "theorems": [
    "Rmq.C50_open",
    "Rmq.C50_verified",
    "Rmq.C50_matching_error",
    "Rmq.C50_failure_closes_partial",
    "Rmq.C50_success_holds",
    "Rmq.C50_defaults",
    "Rmq.C50_session_leak"
   ],
   "note": "Proved except that a failed open can leave its session allocated when the deadline cannot be computed (C50_session_leak)."
  },
  {
   "property": "C51",
   "status": "proved",
   "theorems": [
    "Rmq.C51_versions",
    "Rmq.C51_refused",
    "Rmq.C51_half_done",
    "Rmq.C51_default"
   ],
   "note": ""
  },
  {
   "property": "C52",
   "status": "partial",
   "theorems": [
    "Rmq.C52_life_cycle_partial",
    "Rmq.C52_release_build",
    "Rmq.C52_new",
    "Rmq.C52_delete",
    "Rmq.C52_failed_setup"
   ],
   "note": "False in debug builds when setting up fails (C52_failed_setup aborts); release builds covered for every history (C52_release_build)."
  },
  {
   "property": "C53",
   "status": "partial",
   "theorems": [
    "Rmq.C53_named",
    "Rmq.C53_messages_partial",
    "Rmq.C53_always_a_message",
    "Rmq.C53_distinct",
    "Rmq.C53_aliases"
   ],
   "note": "Values outside (-65536, 0] alias documented statuses (C53_aliases); proved for all values inside and that a message is always returned (except INT_MIN, undefined)."
  },
  {
   "property": "C54",
   "status": "partial",
   "theorems": [
    "Rmq.C54_in_order",
    "Rmq.C54_noblock",
    "Rmq.C54_first_that_connects",
    "Rmq.C54_all_tried",
    "Rmq.C54_no_leak",
    "Rmq.C54_polls_partial",
    "Rmq.C54_stops",
    "Rmq.C54_timeout_partial",
    "Rmq.C54_returns",
    "Rmq.C54_blocking",
    "Rmq.C54_empty_list",
    "Rmq.C54_far_deadline"
   ],
   "note": "Order, descriptors, deadline proved; the bounds on poll are for deadlines less than 2^31 ms away (C54_far_deadline)."
  },
  {
   "property": "C55",
   "status": "partial",
   "theorems": [
    "Rmq.C55_history",
    "Rmq.C55_closed",
    "Rmq.C55_in_use",
    "Rmq.C55_close_twice",
    "Rmq.C55_send",
    "Rmq.C55_recv",
    "Rmq.C55_defined",
    "Rmq.C55_tls_history",
    "Rmq.C55_tls_closed",
    "Rmq.C55_tls_defined_partial",
    "Rmq.C55_tls_failed_close",
    "Rmq.C55_no_timeouts"
   ],
   "note": "TCP in full; TLS as long as close() succeeds (C55_tls_failed_close)."
  },
  {
   "property": "C56",
   "status": "partial",
   "theorems": [
    "Rmq.C56_received_is_parsed_or_kept_partial",
    "Rmq.C56_login_partial",
    "Rmq.C56_data_lost"
   ],
   "note": "False in general (C56_data_lost); proved when no heartbeat is held up, for every history including login."
  },
  {
   "property": "C57",
   "status": "proved",
   "theorems": [
    "Rmq.C57_never_cut_short",
    "Rmq.C57_header_handed_over",
    "Rmq.C57_timeout_reported_as_ok"
   ],
   "note": "amqp_send_header proved; the internal variant with a deadline used by login is not covered by the property as stated (C57_timeout_reported_as_ok)."
  },
  {
   "property": "C58",
   "status": "partial",
   "theorems": [
    "Rmq.C58_polls_partial",
    "Rmq.C58_timeout_partial",
    "Rmq.C58_early",
    "Rmq.C58_blocked"
   ],
   "note": "False by up to a millisecond (C58_early) and when a heartbeat send blocks (C58_blocked); proved apart from these."
  },
  {
   "property": "C59",
   "status": "proved",
   "theorems": [
    "Rmq.C59_bytes_equal",
    "Rmq.C59_bytes_malloc_dup"
   ],
   "note": ""
  },
  {
   "property": "C60",
   "status": "partial",
   "theorems": [
    "Rmq.C60_set_rpc_partial",
    "Rmq.C60_set_handshake_partial",
    "Rmq.C60_histories",
    "Rmq.C60_unnormalised_accepted"
   ],
   "note": "Everything proved except that a tv_usec of 10^6 or more is accepted (C60_unnormalised_accepted)."
  },
  {
   "property": "C61",
   "status": "proved",
   "theorems": [
    "Rmq.C61_stream_framed",
    "Rmq.C61_cut_at_the_end",
    "Rmq.C61_new",
    "Rmq.C61_tuned",
    "Rmq.C61_example",
    "Rmq.C61_session",
    "Rmq.C61_session_new"
   ],
   "note": "For output buffers of 20 octets or more (a new connection, any frame_max >= 20), arguments of the method's own struct type and a poll that does not time out when told to wait for ever. Login itself (which starts with the protocol header) is not one of the calls. C61_example also shows that the restriction to calls that did not fail is needed."
  },
  {
   "property": "C62",
   "status": "proved",
   "theorems": [
    "Rmq.C62_rpc_function",
    "Rmq.C62_is_rpc",
    "Rmq.C62_all_functions"
   ],
   "note": "All twenty functions, all argument values, any transport. Hypotheses: an output buffer of at least 20 octets, a poll that does not time out when told to wait for ever, and argument values of the C types."
  },
  {
   "property": "C63",
   "status": "proved",
   "theorems": [
    "Rmq.C63_close_invalid",
    "Rmq.C63_channel_close",
    "Rmq.C63_connection_close",
    "Rmq.C63_ack",
    "Rmq.C63_reject",
    "Rmq.C63_nack",
    "Rmq.C63_get"
   ],
   "note": "Same hypotheses as C62 (ack, reject and nack: only the output buffer)."
  },
  {
   "property": "C64",
   "status": "partial",
   "theorems": [
    "Rmq.C64_memory_partial",
    "Rmq.C64_tune_refused",
    "Rmq.C64_tune_zero"
   ],
   "note": "All histories with frame sizes from 1 to 2^31-1 and requests up to 2^64-8. C64_tune_refused and C64_tune_zero show the two failures: a tuning that is refused memory leaves the library with a wrong idea of the buffer's size, and a frame size of 0 makes realloc free the buffer (glibc), which is then freed again by amqp_destroy_connection."
  },
  {
   "property": "C65",
   "status": "partial",
   "theorems": [
    "Rmq.C65_destroy_partial",
    "Rmq.C65_new",
    "Rmq.C65_new_leak"
   ],
   "note": "The socket object is not part of it (see C52, C55). C65_new_leak: the output buffer is lost when the input buffer cannot be allocated; C49_page_leak: pages are lost when their bookkeeping cannot grow."
  },
  {
   "property": "C66",
   "status": "proved",
   "theorems": [
    "Rmq.C66_known",
    "Rmq.C66_unknown",
    "Rmq.C66_injective"
   ],
   "note": ""
  },
  {
   "property": "C67",
   "status": "proved",
   "theorems": [
    "Rmq.C67_decoded_is_spelled",
    "Rmq.C67_accepts_exactly",
    "Rmq.C67_strict_is_wire_grammar",
    "Rmq.C67_forwarded_unchanged",
    "Rmq.C67_forwarded_same_length",
    "Rmq.C67_overrun_accepted"
   ],
   "note": ""
  },
  {
   "property": "C68",
   "status": "partial",
   "theorems": [
    "Rmq.C68_read",
    "Rmq.C68_read_exit",
    "Rmq.C68_write",
    "Rmq.C68_write_exit",
    "Rmq.C68_safe",
    "Rmq.C68_block_partial",
    "Rmq.C68_null"
   ],
   "note": "C68_read, C68_write and the exit theorems hold for every schedule. Partial because realloc is not checked: C68_null (and C71_null) show a length of 4096 with a NULL pointer."
  },
  {
   "property": "C69",
   "status": "partial",
   "theorems": [
    "Rmq.C69_copy_partial",
    "Rmq.C69_size",
    "Rmq.C69_exit",
    "Rmq.C69_get",
    "Rmq.C69_overrun"
   ],
   "note": "Copied fits the property for bodies below 2^64 octets (C69_size). C69_overrun: a body frame beyond the announced size is written whole and the loop goes on."
  },
  {
   "property": "C70",
   "status": "partial",
   "theorems": [
    "Rmq.C70_consume_partial",
    "Rmq.C70_exit",
    "Rmq.C70_no_ack",
    "Rmq.C70_round",
    "Rmq.C70_demo",
    "Rmq.C70_count_other",
    "Rmq.C70_closed_stdin"
   ],
   "note": "The pairing of command success and acknowledgement is complete for every run (C70_consume_partial, C70_exit, C70_round, C70_no_ack). Partial because frames that are not deliveries count toward --count (C70_count_other) and a pipe on descriptor 0 leaves the command without input (C70_closed_stdin)."
  },
  {
   "property": "C71",
   "status": "partial",
   "theorems": [
    "Rmq.C71_publish_partial",
    "Rmq.C71_lines",
    "Rmq.C71_props",
    "Rmq.C71_no_colon",
    "Rmq.C71_line_body",
    "Rmq.C71_nul",
    "Rmq.C71_null"
   ],
   "note": "Deviations proved: C71_no_colon, C71_line_body, C71_nul, C71_null. Line mode is exact for lines up to 32766 octets without NUL (C71_lines); longer lines are split."
  },
  {
   "property": "C72",
   "status": "partial",
   "theorems": [
    "Rmq.C72_accepts_partial",
    "Rmq.C72_out_of_bounds"
   ],
   "note": "Acceptance is characterised exactly; the other files are refused except those of C72_out_of_bounds, which lead to a read before a string."
  },
  {
   "property": "C73",
   "status": "partial",
   "theorems": [
    "Rmq.C73_safe",
    "Rmq.C73_injective_partial",
    "Rmq.C73_plain",
    "Rmq.C73_collision"
   ],
   "note": "Injective on names without backslash; C73_collision shows why."
  },
  {
   "property": "C74",
   "status": "partial",
   "theorems": [
    "Rmq.C74_setup_partial",
    "Rmq.C74_refused",
    "Rmq.C74_no_key",
    "Rmq.C74_null_key"
   ],
   "note": "C74_no_key/C74_null_key: an exchange without a routing key dereferences NULL."
  },
  {
   "property": "C75",
   "status": "partial",
   "theorems": [
    "Rmq.C75_options_partial",
    "Rmq.C75_safe",
    "Rmq.C75_port_wraps",
    "Rmq.C75_ssl_port"
   ],
   "note": "Exact characterisation of accepted options; ConnectTo contains the deviations C75_port_wraps and C75_ssl_port. C75_safe: out of bounds only through C72_out_of_bounds."
  },
  {
   "property": "C76",
   "status": "partial",
   "theorems": [
    "Rmq.C76_accepted_partial",
    "Rmq.C76_odd_urls_accepted"
   ],
   "note": "Every accepted string derives in LooseText, the URL grammar with the deviations spelled out there, and the result is what is written; C76_odd_urls_accepted and C42_junk_before_port show that the deviations are real."
  },
  {
   "property": "C77",
   "status": "proved",
   "theorems": [
    "Rmq.C77_repeated",
    "Rmq.C77_failing_call",
    "Rmq.C77_example"
   ],
   "note": ""
  },
  {
   "property": "C78",
   "status": "partial",
   "theorems": [
    "Rmq.C78_arrives_partial",
    "Rmq.C78_nothing_else",
    "Rmq.C78_in_order_partial",
    "Rmq.C78_two_channels_partial",
    "Rmq.C78_third_channel",
    "Rmq.C78_trailing_empty",
    "Rmq.C78_end_to_end_partial",
    "Rmq.C78_empty_key",
    "Rmq.C78_sample_heartbeats",
    "Rmq.C78_after_login",
    "Rmq.C78_after_calls"
   ],
   "note": "Soundness (C78_nothing_else) is unconditional. Completeness: one message with any interleaving (C78_arrives_partial), any number of messages one after the other on any channels (C78_in_order_partial), any number of messages on two channels with their frames interleaved anyhow (C78_two_channels_partial), publisher to consumer (C78_end_to_end_partial). Partial because the code deviates: messages whose tables have an empty key are never returned (C78_empty_key), a message is lost when three channels interleave (C78_third_channel), an empty body frame after the body is left in the way (C78_trailing_empty). Heartbeats may be off, or on with each going out in one piece and the clock working (HeartbeatsFine); a missed server heartbeat counts as a failure of the outside. The premise (the connection is ready to receive) is what amqp_login establishes (C78_after_login)."
  },
  {
   "property": "C79",
   "status": "partial",
   "theorems": [
    "Rmq.C79_history_partial",
    "Rmq.C79_key",
    "Rmq.C79_why",
    "Rmq.C79_aborts",
    "Rmq.C79_chain_replaced",
    "Rmq.C79_engine"
   ],
   "note": "Partial because the code deviates: a call that fails on the private key leaves the new certificate chain in force (C79_chain_replaced). Everything else in the statement is proved."
  },
  {
   "property": "C80",
   "status": "proved",
   "theorems": [
    "Rmq.C80_write",
    "Rmq.C80_read"
   ],
   "note": ""
  },
  {
   "property": "C81",
   "status": "partial",
   "theorems": [
    "Rmq.C81_enqueued",
    "Rmq.C81_nothing_ready",
    "Rmq.C81_data",
    "Rmq.C81_timed_out_partial",
    "Rmq.C81_timed_out_ready"
   ],
   "note": "The part about timeouts needs that heartbeats are not held up (C81_timed_out_ready shows why); the rest is proved in full."
  },
  {
   "property": "C82",
   "status": "proved",
   "theorems": [
    "Rmq.C82_publish",
    "Rmq.C82_get",
    "Rmq.C82_consume",
    "Rmq.C82_exit",
    "Rmq.C82_tls_ignored"
   ],
   "note": ""
  },
  {
   "property": "C83",
   "status": "proved",
   "theorems": [
    "Rmq.C83_declare",
    "Rmq.C83_delete",
    "Rmq.C83_exit_declare",
    "Rmq.C83_exit_delete"
   ],
   "note": ""
  },
  {
   "property": "C84",
   "status": "partial",
   "theorems": [
    "Rmq.C84_received_is_what_it_says",
    "Rmq.C84_forwarded_unchanged_partial",
    "Rmq.C84_second_flag_word"
   ],
   "note": "Content headers whose property flags take more than one word are not covered: C84_second_flag_word shows one that goes out with other flags than it came in with. Everything else is proved in full."
  },
  {
   "property": "C85",
   "status": "partial",
   "theorems": [
    "Rmq.C85_no_undefined_behaviour_partial",
    "Rmq.C85_short_method",
    "Rmq.C85_alien_header",
    "Rmq.C85_null_after_no_memory",
    "Rmq.C85_heartbeat_held_up",
    "Rmq.C85_large_body"
   ],
   "note": "Partial because the code deviates: short method and header frames, content headers of another class than basic, an allocation that fails, a heartbeat that is held up while data are read, and body frames sent by hand that are too large all lead to undefined behaviour (one theorem each beside it). Not claimed for frame limits above 2^30 or below 20."
  },
  {
   "property": "C86",
   "status": "partial",
   "theorems": [
    "Rmq.C86_whole_session_partial",
    "Rmq.C86_login_ends_well",
    "Rmq.C86_login_fails",
    "Rmq.C86_tune_ok_held_up",
    "Rmq.C86_tiny_frame_max",
    "Rmq.C86_after_failed_tune"
   ],
   "note": "Partial because the code deviates: tune-ok held up with heartbeats on aborts, a tiny frame_max offered by the server overruns the output buffer, and after a login that failed because of the clock the frame size exceeds the buffer (one theorem each beside it; calls after logins that failed otherwise are covered); client properties with twin tables under one key dereference NULL (C09_undefined_iff). What C85 excludes is excluded here."
  },
  {
   "property": "C87",
   "status": "partial",
   "theorems": [
    "Rmq.C87_messages_apart",
    "Rmq.C87_message_complete",
    "Rmq.C87_messages_outlive",
    "Rmq.C87_nothing_left_partial",
    "Rmq.C87_body_refused",
    "Rmq.C87_destroy_after_failure",
    "Rmq.C87_other_class",
    "Rmq.C87_all_properties",
    "Rmq.C87_copy_inside"
   ],
   "note": "No double free, separation, completeness and survival are proved for every history and every pattern of refused memory. That nothing is left is proved when the system never refuses memory: a refused body allocation loses the copied properties (C87_body_refused), and so does a refused page record (C49_page_leak). The application must not destroy the envelope of a failed call (C87_destroy_after_failure). The frames of a script are any that amqp_handle_input delivers (content headers: of class basic, see C87_other_class)."
  },
  {
   "property": "C88",
   "status": "partial",
   "theorems": [
    "Rmq.C88_bounded_partial",
    "Rmq.C88_pool",
    "Rmq.C88_refused_grows"
   ],
   "note": "Proved for every history on a system that never refuses memory, with explicit constants. With refusals the bound fails: C88_refused_grows shows a page lost per refusal while nothing is pending."
  },
  {
   "property": "C89",
   "status": "proved",
   "theorems": [
    "Rmq.C89_lost",
    "Rmq.C89_login",
    "Rmq.C89_bound",
    "Rmq.C89_bound_login",
    "Rmq.C89_outcome"
   ],
   "note": ""
  },
  {
   "property": "C90",
   "status": "proved",
   "theorems": [
    "Rmq.C90_silent",
    "Rmq.C90_silent_heartbeats",
    "Rmq.C90_login"
   ],
   "note": ""
  },
  {
   "property": "C91",
   "status": "proved",
   "theorems": [
    "Rmq.C91_refused",
    "Rmq.C91_set",
    "Rmq.C91_limits",
    "Rmq.C91_never"
   ],
   "note": ""
  },
  {
   "property": "C92",
   "status": "partial",
   "theorems": [
    "Rmq.C92_silent_partial",
    "Rmq.C92_flood"
   ],
   "note": "Proved for a server that falls silent. The full claim is false of the code: C92_flood shows, for every number of rounds, a wait limited to one second that never returns because octets keep arriving."
  },
  {
   "property": "C93",
   "status": "proved",
   "theorems": [
    "Rmq.C93_sleeps",
    "Rmq.C93_watched",
    "Rmq.C93_from_the_start",
    "Rmq.C93_header",
    "Rmq.C93_without"
   ],
   "note": ""
  },
  {
   "property": "C94",
   "status": "proved",
   "theorems": [
    "Rmq.C94_announced",
    "Rmq.C94_kept",
    "Rmq.C94_set",
    "Rmq.C94_capabilities"
   ],
   "note": ""
  },
  {
   "property": "C95",
   "status": "proved",
   "theorems": [
    "Rmq.C95_read_message",
    "Rmq.C95_unique",
    "Rmq.C95_determined",
    "Rmq.C95_closed",
    "Rmq.C95_consume",
    "Rmq.C95_connection_close_unseen"
   ],
   "note": ""
  },
  {
   "property": "C96",
   "status": "proved",
   "theorems": [
    "Rmq.C96_returns",
    "Rmq.C96_inert",
    "Rmq.C96_any_network",
    "Rmq.C96_no_send",
    "Rmq.C96_no_login",
    "Rmq.C96_no_receive"
   ],
   "note": ""
  },
  {
   "property": "C97",
   "status": "partial",
   "theorems": [
    "Rmq.C97_wait_partial",
    "Rmq.C97_confirm_partial",
    "Rmq.C97_rpc_partial",
    "Rmq.C97_login_partial",
    "Rmq.C97_login_default",
    "Rmq.C97_request_unlimited",
    "Rmq.C97_open_unlimited",
    "Rmq.C97_login_late",
    "Rmq.C97_message_unlimited"
   ],
   "note": "Full claim false of the code: request of an RPC / connection.open / heartbeats are sent without the limit, and a login's deadline can slip by the time between two clock readings (C97_request_unlimited, C97_open_unlimited, C97_login_late, C97_message_unlimited). Proved for every call with exactly these exemptions."
  },
  {
   "property": "C98",
   "status": "partial",
   "theorems": [
    "Rmq.C98_wait_partial",
    "Rmq.C98_wait_on_partial",
    "Rmq.C98_rpc_partial",
    "Rmq.C98_send_partial",
    "Rmq.C98_publish_partial",
    "Rmq.C98_published",
    "Rmq.C98_frame_lost"
   ],
   "note": "Full claim false of the code: a frame that cannot be queued for lack of memory is lost (C98_frame_lost); waits also need that no heartbeat is held up while waiting (see C26_frame_lost). Proved for every other failure; for lack of memory, that the queue still holds the first frames to come, in order."
  },
  {
   "property": "C99",
   "status": "proved",
   "theorems": [
    "Rmq.C99_built_tables_arrive",
    "Rmq.C99_built_tables_encode"
   ],
   "note": ""
  },
  {
   "property": "C100",
   "status": "partial",
   "theorems": [
    "Rmq.C100_documented",
    "Rmq.C100_login_partial",
    "Rmq.C100_login_total",
    "Rmq.C100_transport",
    "Rmq.C100_far_deadline",
    "Rmq.C100_login_three"
   ],
   "note": "Timeouts below 2^31 ms (C100_far_deadline shows the bound is needed). Proved in full for all calls but login, whose status may also be the positive number of octets sent of a protocol header cut short (C100_login_partial; C100_login_three shows that it happens). C100_transport: the hypothesis on the transport holds of the library's TCP and TLS sockets."
  },
  {
   "property": "C101",
   "status": "proved",
   "theorems": [
    "Rmq.C101_same_on_every_machine",
    "Rmq.C101_same_from_anywhere"
   ],
   "note": ""
  },
  {
   "property": "C102",
   "status": "partial",
   "theorems": [
    "Rmq.C102_leftovers_unseen_partial",
    "Rmq.C102_leftovers_unseen_later",
    "Rmq.C102_first_octet"
   ],
   "note": "Proved for every program and every content of memory, with one exception the code makes: the eighth octet of the buffer the first frame is received into (the first frame's first payload octet, see C21) is read unwritten (C102_first_octet). Past the first frame's header nothing is excepted (C102_leftovers_unseen_later)."
  },
  {
   "property": "C103",
   "status": "partial",
   "theorems": [
    "Rmq.C103_defined_partial",
    "Rmq.C103_orderly_partial",
    "Rmq.C103_held_partial",
    "Rmq.C103_returned_partial",
    "Rmq.C103_replaced",
    "Rmq.C103_sample",
    "Rmq.C103_failed_close",
    "Rmq.C103_replaced_lost",
    "Rmq.C103_session_lost",
    "Rmq.C103_misuse"
   ],
   "note": "C103_orderly_partial, C103_held_partial, C103_returned_partial, C103_defined_partial assume that no close() fails, that getaddrinfo does not succeed with an empty list, and that amqp_tcp_socket_set_sockfd is used on closed sockets only; sessions are given back when no open has a time limit. The code fails the full claim: C103_failed_close, C103_replaced_lost, C103_session_lost."
  },
  {
   "property": "C104",
   "status": "partial",
   "theorems": [
    "Rmq.C104_safe_partial",
    "Rmq.C104_progress_partial",
    "Rmq.C104_end_partial",
    "Rmq.C104_fair_partial",
    "Rmq.C104_atomic",
    "Rmq.C104_failed_setup",
    "Rmq.C104_sample"
   ],
   "note": "C104_safe_partial, C104_progress_partial, C104_fair_partial and C104_end_partial assume that BIO_meth_new does not fail (SetUpsWork). The code fails the full claim: C104_failed_setup shows a schedule in which a failed set-up in one thread releases what another thread uses, and a data race. C104_atomic holds without the assumption. Each socket is used by one thread; sequential consistency between threads is assumed in the model."
  },
  {
   "property": "C105",
   "status": "partial",
   "theorems": [
    "Rmq.C105_in_order_partial",
    "Rmq.C105_two_channels_partial",
    "Rmq.C105_sample",
    "Rmq.C105_publish_sample",
    "Rmq.C105_session_partial",
    "Rmq.C105_session_sample",
    "Rmq.C105_session_ack"
   ],
   "note": "Partial for the reasons C78 is: messages whose content header has an empty property list key, a body followed by an empty body frame and a third channel are not covered by the code's behaviour or the statement; heartbeats may be on (HeartbeatsFine: settings as kept, clock working) as long as each goes out in one piece, since one held up loses a frame already received (C26_frame_lost)."
  }
 ]
}