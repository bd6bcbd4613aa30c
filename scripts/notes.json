{
 "C01": {
  "note": "Full round trip on real buffers, either endianness on either side."
 },
 "C02": {
  "note": "Buffers up to 2^30 bytes."
 },
 "C07": {
  "note": "Keys below 2^31 bytes; C07_huge_key_compares_equal shows the bound is needed."
 },
 "C09": {
  "note": "The recursive-merge statement is proved for inputs without duplicate keys. For any inputs the exact result is proved (C09_merge_any, C09_any_lookup), and that the code dereferences an invalid pointer exactly when the second table has two tables under one key, nothing between them, and the first has no table there (C09_undefined_iff, witness C09_duplicate_key_null_deref); two empty tables give NO_MEMORY (C09_empty_merge_fails)."
 },
 "C14": {
  "note": "The full property is false: flag-word continuation lets a peer trigger an undefined shift. C14_continuation_words_undefined proves UB on exactly the inputs excluded by the hypothesis of the _partial theorem."
 },
 "C15": {
  "note": "Methods and properties: over-long strings always make encoding fail. False for field-table keys (C15_table_key_truncated): the key length octet is truncated and encoding reports success."
 },
 "C03": {
  "note": "Exact bytes (serTable) and exact success condition; nothing outside [off, limit) is touched."
 },
 "C04": {
  "note": "Rejection for every byte string whose grammar nests too deep, acceptance up to the limit."
 },
 "C05": {
  "note": "Both endiannesses, every value."
 },
 "C06": {
  "note": "Deep copy, freshness of storage, exact set of cloneable tables and of errors."
 },
 "C08": {
  "note": "For any memcmp meeting the C standard."
 },
 "C10": {
  "note": "Every method of the protocol table (typed from the AMQP specification), layout and round trip."
 },
 "C11": {
  "note": "Every id, every byte string of up to 2^30 bytes."
 },
 "C12": {
  "note": "All 2^32 ids."
 },
 "C13": {
  "note": "Layout and round trip for every flag subset."
 },
 "C16": {
  "note": "Both byte orders on either side, any bytes following."
 },
 "C17": {
  "note": "Any two splittings of the same stream."
 },
 "C18": {
  "note": ""
 },
 "C19": {
  "note": ""
 },
 "C20": {
  "note": "The full property is false: frames shorter than their fixed part make the receiver read outside them (C20_unsafe_frames: for every such frame), and a failed buffer allocation leads to a NULL write (C20_null_after_no_memory). Proved for all other streams."
 },
 "C21": {
  "note": "The full property is false: the first payload octet of the first frame is taken from the receive buffer. C21_first_frame_partial says exactly what happens; C21_first_method_frame shows when it is harmless; C21_empty_first_frame refutes the rest."
 },
 "C22": {
  "note": "False for body frames that do not fit (C22_body_exact) and for frame_max below 12 (C22_tiny_buffer). Proved for every other frame."
 },
 "C23": {
  "note": "Every schedule of partial writes, would-blocks, clock readings."
 },
 "C24": {
  "note": ""
 },
 "C25": {
  "note": "False for bodies that are a non-zero exact multiple of frame_max-8 (C25_exact_multiple_never_flushed, for every such body). Proved for all others."
 },
 "C26": {
  "note": "False when a heartbeat send blocks during a wait (C26_frame_lost). Proved, for every history, when no heartbeat is held up (NeverBlocks, HeartbeatsPass, or heartbeats off); everything else may block for any time."
 },
 "C27": {
  "note": "Order on the channel itself proved in full; frames of other channels queued ahead are dropped by the code (C27_earlier_frames_lost: always). Proved in full in the remaining case."
 },
 "C28": {
  "note": ""
 },
 "C29": {
  "note": "False: with heartbeats on, amqp_basic_publish can queue a received heartbeat (C29_heartbeat_delivered). Proved for histories without publishing, or with heartbeats off."
 },
 "C30": {
  "note": "C30_reply_and_rest_partial: sending the request is not held up. C30_blocked_request_partial: it may be held up; frames arriving meanwhile are queued and kept, but an answer among them (a close) is not seen by this call (C30_early_close_missed)."
 },
 "C31": {
  "note": "Under the stated assumptions on the outside; C31_close_failure shows the one on close() is needed."
 },
 "C33": {
  "note": "Every history of every modelled call."
 },
 "C34": {
  "note": "Server properties: proved for every later history. Client properties: false after every successful login (C34_client_properties_dangle)."
 },
 "C35": {
  "note": ""
 },
 "C36": {
  "note": "Whatever the broker does and however login ends."
 },
 "C37": {
  "note": ""
 },
 "C38": {
  "note": "False for the last step (C38_half_open); a NORMAL reply does not imply that the header was sent (C57). Proved apart from these."
 },
 "C39": {
  "note": "Full for timeouts below 2^64 ns; beyond it wraps (C39_huge_timeout_wraps)."
 },
 "C40": {
  "note": "Full below 2^31 ms; beyond, the int conversion wraps (C40_long_wait_is_infinite)."
 },
 "C41": {
  "note": "False when sending the heartbeat blocks (C41_blocked_stays_open) and up to one millisecond early; proved otherwise, for every history."
 },
 "C42": {
  "note": "Every component string and every way of writing it."
 },
 "C43": {
  "note": ""
 },
 "C44": {
  "note": "False for escapes sscanf accepts, such as \"%+5\" (C44_odd_escapes_accepted). Proved with exactly these excluded (AcceptedEscape)."
 },
 "C45": {
  "note": ""
 },
 "C46": {
  "note": "False when memory runs out (C46_frame_lost); proved otherwise."
 },
 "C47": {
  "note": "The second half is false when memory runs out (C47_frame_lost); everything else proved."
 },
 "C48": {
  "note": "False within 8 bytes of 2^64 (C48_wraparound); proved for all other histories."
 },
 "C49": {
  "note": "A page is leaked when its bookkeeping allocation fails (C49_page_leak); everything else proved for all histories."
 },
 "C50": {
  "note": "Proved except that a failed open can leave its session allocated when the deadline cannot be computed (C50_session_leak)."
 },
 "C51": {
  "note": ""
 },
 "C52": {
  "note": "False in debug builds when setting up fails (C52_failed_setup aborts); release builds covered for every history (C52_release_build)."
 },
 "C53": {
  "note": "Values outside (-65536, 0] alias documented statuses (C53_aliases); proved for all values inside and that a message is always returned (except INT_MIN, undefined)."
 },
 "C54": {
  "note": "Order, descriptors, deadline proved; the bounds on poll are for deadlines less than 2^31 ms away (C54_far_deadline)."
 },
 "C55": {
  "note": "TCP in full; TLS as long as close() succeeds (C55_tls_failed_close)."
 },
 "C56": {
  "note": "False in general (C56_data_lost); proved when no heartbeat is held up, for every history including login."
 },
 "C57": {
  "note": "amqp_send_header proved; the internal variant with a deadline used by login is not covered by the property as stated (C57_timeout_reported_as_ok)."
 },
 "C58": {
  "note": "False by up to a millisecond (C58_early) and when a heartbeat send blocks (C58_blocked); proved apart from these."
 },
 "C59": {
  "note": ""
 },
 "C60": {
  "note": "Everything proved except that a tv_usec of 10^6 or more is accepted (C60_unnormalised_accepted)."
 },
 "C61": {
  "note": "For output buffers of 20 octets or more (a new connection, any frame_max >= 20), arguments of the method's own struct type and a poll that does not time out when told to wait for ever. Login itself (which starts with the protocol header) is not one of the calls. C61_example also shows that the restriction to calls that did not fail is needed."
 },
 "C62": {
  "note": "All twenty functions, all argument values, any transport. Hypotheses: an output buffer of at least 20 octets, a poll that does not time out when told to wait for ever, and argument values of the C types."
 },
 "C63": {
  "note": "Same hypotheses as C62 (ack, reject and nack: only the output buffer)."
 },
 "C64": {
  "note": "All histories with frame sizes from 1 to 2^31-1 and requests up to 2^64-8. C64_tune_refused and C64_tune_zero show the two failures: a tuning that is refused memory leaves the library with a wrong idea of the buffer's size, and a frame size of 0 makes realloc free the buffer (glibc), which is then freed again by amqp_destroy_connection."
 },
 "C65": {
  "note": "The socket object is not part of it (see C52, C55). C65_new_leak: the output buffer is lost when the input buffer cannot be allocated; C49_page_leak: pages are lost when their bookkeeping cannot grow."
 },
 "C68": {
  "note": "C68_read, C68_write and the exit theorems hold for every schedule. Partial because realloc is not checked: C68_null (and C71_null) show a length of 4096 with a NULL pointer."
 },
 "C69": {
  "note": "Copied fits the property for bodies below 2^64 octets (C69_size). C69_overrun: a body frame beyond the announced size is written whole and the loop goes on."
 },
 "C70": {
  "note": "The pairing of command success and acknowledgement is complete for every run (C70_consume_partial, C70_exit, C70_round, C70_no_ack). Partial because frames that are not deliveries count toward --count (C70_count_other) and a pipe on descriptor 0 leaves the command without input (C70_closed_stdin)."
 },
 "C71": {
  "note": "Deviations proved: C71_no_colon, C71_line_body, C71_nul, C71_null. Line mode is exact for lines up to 32766 octets without NUL (C71_lines); longer lines are split."
 },
 "C72": {
  "note": "Acceptance is characterised exactly; the other files are refused except those of C72_out_of_bounds, which lead to a read before a string."
 },
 "C73": {
  "note": "Injective on names without backslash; C73_collision shows why."
 },
 "C74": {
  "note": "C74_no_key/C74_null_key: an exchange without a routing key dereferences NULL."
 },
 "C75": {
  "note": "Exact characterisation of accepted options; ConnectTo contains the deviations C75_port_wraps and C75_ssl_port. C75_safe: out of bounds only through C72_out_of_bounds."
 },
 "C76": {
  "note": "Every accepted string derives in LooseText, the URL grammar with the deviations spelled out there, and the result is what is written; C76_odd_urls_accepted and C42_junk_before_port show that the deviations are real."
 },
 "C78": {
  "note": "Soundness (C78_nothing_else) is unconditional. Completeness: one message with any interleaving (C78_arrives_partial), any number of messages one after the other on any channels (C78_in_order_partial), any number of messages on two channels with their frames interleaved anyhow (C78_two_channels_partial), publisher to consumer (C78_end_to_end_partial). Partial because the code deviates: messages whose tables have an empty key are never returned (C78_empty_key), a message is lost when three channels interleave (C78_third_channel), an empty body frame after the body is left in the way (C78_trailing_empty). Heartbeats may be off, or on with each going out in one piece and the clock working (HeartbeatsFine); a missed server heartbeat counts as a failure of the outside. The premise (the connection is ready to receive) is what amqp_login establishes (C78_after_login)."
 },
 "C79": {
  "note": "Partial because the code deviates: a call that fails on the private key leaves the new certificate chain in force (C79_chain_replaced). Everything else in the statement is proved."
 },
 "C81": {
  "note": "The part about timeouts needs that heartbeats are not held up (C81_timed_out_ready shows why); the rest is proved in full."
 },
 "C84": {
  "note": "Content headers whose property flags take more than one word are not covered: C84_second_flag_word shows one that goes out with other flags than it came in with. Everything else is proved in full."
 },
 "C85": {
  "note": "Partial because the code deviates: short method and header frames, content headers of another class than basic, an allocation that fails, a heartbeat that is held up while data are read, and body frames sent by hand that are too large all lead to undefined behaviour (one theorem each beside it). Not claimed for frame limits above 2^30 or below 20."
 },
 "C86": {
  "note": "Partial because the code deviates: tune-ok held up with heartbeats on aborts, a tiny frame_max offered by the server overruns the output buffer, and after a login that failed because of the clock the frame size exceeds the buffer (one theorem each beside it; calls after logins that failed otherwise are covered); client properties with twin tables under one key dereference NULL (C09_undefined_iff). What C85 excludes is excluded here."
 },
 "C87": {
  "note": "No double free, separation, completeness and survival are proved for every history and every pattern of refused memory. That nothing is left is proved when the system never refuses memory: a refused body allocation loses the copied properties (C87_body_refused), and so does a refused page record (C49_page_leak). The application must not destroy the envelope of a failed call (C87_destroy_after_failure). The frames of a script are any that amqp_handle_input delivers (content headers: of class basic, see C87_other_class)."
 },
 "C88": {
  "note": "Proved for every history on a system that never refuses memory, with explicit constants. With refusals the bound fails: C88_refused_grows shows a page lost per refusal while nothing is pending."
 },
 "C92": {
  "note": "Proved for a server that falls silent. The full claim is false of the code: C92_flood shows, for every number of rounds, a wait limited to one second that never returns because octets keep arriving."
 },
 "C97": {
  "note": "Full claim false of the code: request of an RPC / connection.open / heartbeats are sent without the limit, and a login's deadline can slip by the time between two clock readings (C97_request_unlimited, C97_open_unlimited, C97_login_late, C97_message_unlimited). Proved for every call with exactly these exemptions."
 },
 "C98": {
  "note": "Full claim false of the code: a frame that cannot be queued for lack of memory is lost (C98_frame_lost); waits also need that no heartbeat is held up while waiting (see C26_frame_lost). Proved for every other failure; for lack of memory, that the queue still holds the first frames to come, in order."
 },
 "C100": {
  "note": "Timeouts below 2^31 ms (C100_far_deadline shows the bound is needed). Proved in full for all calls but login, whose status may also be the positive number of octets sent of a protocol header cut short (C100_login_partial; C100_login_three shows that it happens). C100_transport: the hypothesis on the transport holds of the library's TCP and TLS sockets."
 },
 "C102": {
  "note": "Proved for every program and every content of memory, with one exception the code makes: the eighth octet of the buffer the first frame is received into (the first frame's first payload octet, see C21) is read unwritten (C102_first_octet). Past the first frame's header nothing is excepted (C102_leftovers_unseen_later)."
 },
 "C103": {
  "note": "C103_orderly_partial, C103_held_partial, C103_returned_partial, C103_defined_partial assume that no close() fails, that getaddrinfo does not succeed with an empty list, and that amqp_tcp_socket_set_sockfd is used on closed sockets only; sessions are given back when no open has a time limit. The code fails the full claim: C103_failed_close, C103_replaced_lost, C103_session_lost."
 },
 "C104": {
  "note": "C104_safe_partial, C104_progress_partial, C104_fair_partial and C104_end_partial assume that BIO_meth_new does not fail (SetUpsWork). The code fails the full claim: C104_failed_setup shows a schedule in which a failed set-up in one thread releases what another thread uses, and a data race. C104_atomic holds without the assumption. Each socket is used by one thread; sequential consistency between threads is assumed in the model."
 },
 "C105": {
  "note": "Partial for the reasons C78 is: messages whose content header has an empty property list key, a body followed by an empty body frame and a third channel are not covered by the code's behaviour or the statement; heartbeats may be on (HeartbeatsFine: settings as kept, clock working) as long as each goes out in one piece, since one held up loses a frame already received (C26_frame_lost)."
 }
}