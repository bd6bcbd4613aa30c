{"id": "C01", "title": "Field-table round trip", "statement": "If amqp_encode_table succeeds on a well-formed table (keys <= 255 bytes, only AMQP field kinds, booleans 0 or 1, string lengths < 2^32, nesting within the decoder limit), then amqp_decode_table on the written bytes succeeds, returns an equal table, and leaves the offset exactly where the encoder stopped.", "quantifier": "every well-formed table of every size and nesting, every buffer and start offset, both host byte orders, with allocation succeeding", "why_tests_cant": "tables are recursive and unbounded; tests sample a handful of values", "anchors": ["librabbitmq/amqp_table.c:amqp_encode_table", "librabbitmq/amqp_table.c:amqp_decode_table", "librabbitmq/amqp_table.c:amqp_encode_field_value", "librabbitmq/amqp_table.c:amqp_decode_field_value"]}
{"id": "C02", "title": "Decoding untrusted tables is memory safe and terminates", "statement": "amqp_decode_table / field value decoding on arbitrary bytes never reads outside the supplied buffer, always terminates, returns only OK, BAD_AMQP_DATA or NO_MEMORY, and on OK the offset has advanced and is within the buffer.", "quantifier": "every byte string of up to 2^30 bytes (beyond that the decoder's int capacity doubling can overflow), every start offset within it, every allocator behaviour", "why_tests_cant": "the input space is all byte strings; fuzzing samples it", "anchors": ["librabbitmq/amqp_table.c:amqp_decode_table_internal", "librabbitmq/amqp_table.c:amqp_decode_field_value", "librabbitmq/amqp_table.c:amqp_decode_array", "librabbitmq/amqp_private.h:DECLARE_CODEC_BASE_TYPE,amqp_decode_bytes"]}
{"id": "C03", "title": "Table encoding never writes out of bounds; succeeds when it fits", "statement": "amqp_encode_table never writes outside the supplied buffer and never touches bytes before the start offset; for a well-formed table it succeeds iff the encoding fits in the remaining space, and it then writes exactly the table's serialisation.", "quantifier": "every table, every buffer size, every offset", "why_tests_cant": "boundary sizes times recursive values is unbounded", "anchors": ["librabbitmq/amqp_table.c:amqp_encode_table", "librabbitmq/amqp_table.c:amqp_encode_array", "librabbitmq/amqp_private.h:DECLARE_CODEC_BASE_TYPE,amqp_encode_bytes"]}
{"id": "C04", "title": "Nesting depth limit", "statement": "Decoding rejects any table nested more than the limit (100) with BAD_AMQP_DATA, whatever its size, so the recursion depth of the decoder is bounded; every well-formed table within the limit is accepted.", "quantifier": "every byte string and every depth", "why_tests_cant": "needs all depths and all shapes", "anchors": ["librabbitmq/amqp_table.c:amqp_decode_table_internal", "librabbitmq/amqp_table.c:amqp_decode_field_value", "librabbitmq/amqp_table.c:TABLE_DEPTH_LIMIT"]}
{"id": "C05", "title": "Wire integers are big-endian on every host", "statement": "Every multi-byte integer the library encodes appears big-endian on the wire and is decoded from big-endian, on both little- and big-endian hosts.", "quantifier": "every 8/16/32/64-bit value, both host byte orders", "why_tests_cant": "2^64 values, and tests run on one endianness only", "anchors": ["librabbitmq/amqp_private.h:is_bigendian,amqp_e16,amqp_e32,amqp_e64,amqp_d64", "librabbitmq/amqp_private.h:DECLARE_CODEC_BASE_TYPE"]}
{"id": "C06", "title": "amqp_table_clone makes an equal deep copy", "statement": "If amqp_table_clone returns OK the copy equals the original (all entries, in order, at every nesting level) and none of its storage is the original's; on failure it returns NO_MEMORY or INVALID_PARAMETER.", "quantifier": "every table, every allocator behaviour", "why_tests_cant": "recursive unbounded data", "anchors": ["librabbitmq/amqp_table.c:amqp_table_clone", "librabbitmq/amqp_table.c:amqp_field_value_clone", "librabbitmq/amqp_table.c:amqp_table_entry_clone"]}
{"id": "C07", "title": "amqp_table_entry_cmp is a total preorder", "statement": "amqp_table_entry_cmp orders entries lexicographically by key bytes, shorter prefix first; it is antisymmetric in sign, transitive and returns 0 exactly for equal keys, so it is a valid qsort comparator.", "quantifier": "every pair and triple of entries with keys below 2^31 bytes (AMQP allows 255)", "why_tests_cant": "all byte strings", "anchors": ["librabbitmq/amqp_table.c:amqp_table_entry_cmp"]}
{"id": "C08", "title": "Table lookup by key finds the first match", "statement": "amqp_table_get_entry_by_key returns the first entry whose key equals the given key, or NULL iff there is none.", "quantifier": "every table and key", "why_tests_cant": "all tables", "anchors": ["librabbitmq/amqp_table.c:amqp_table_get_entry_by_key"]}
{"id": "C09", "title": "Client-property merge", "statement": "amqp_merge_capabilities yields a table in which every key of the two inputs is present, keys of the second argument override, nested tables with the same key are merged recursively, and it never dereferences an invalid pointer.", "quantifier": "every pair of tables, every allocator behaviour", "why_tests_cant": "recursive unbounded data; duplicate keys", "anchors": ["librabbitmq/amqp_socket.c:amqp_merge_capabilities"]}
{"id": "C10", "title": "Method argument round trip", "statement": "For every AMQP method the library knows and every argument value whose strings and tables are encodable, decoding the encoded method gives back equal arguments and consumes exactly the bytes written.", "quantifier": "every method, every argument record, every buffer large enough, both endiannesses", "why_tests_cant": "64 methods times unbounded argument values", "anchors": ["librabbitmq/amqp_framing.c:amqp_encode_method", "librabbitmq/amqp_framing.c:amqp_decode_method"]}
{"id": "C11", "title": "Decoding untrusted methods is memory safe", "statement": "amqp_decode_method on arbitrary bytes and arbitrary method id never reads outside the buffer and returns OK, BAD_AMQP_DATA, NO_MEMORY or UNKNOWN_METHOD.", "quantifier": "every method id, every byte string", "why_tests_cant": "all byte strings", "anchors": ["librabbitmq/amqp_framing.c:amqp_decode_method"]}
{"id": "C12", "title": "Method set agreement", "statement": "A method id is decodable iff it is encodable iff it has a name; unknown ids give UNKNOWN_METHOD / NULL; exactly the content-bearing methods are reported as carrying content; names are distinct.", "quantifier": "every 32-bit method id", "why_tests_cant": "2^32 ids", "anchors": ["librabbitmq/amqp_framing.c:amqp_method_name", "librabbitmq/amqp_framing.c:amqp_method_has_content", "librabbitmq/amqp_framing.c:amqp_decode_method", "librabbitmq/amqp_framing.c:amqp_encode_method"]}
{"id": "C13", "title": "Basic properties round trip", "statement": "For any subset of the basic content properties and any encodable values, encoding then decoding gives the same flags and the same values for every flagged property.", "quantifier": "every flag subset and every value", "why_tests_cant": "2^14 subsets times unbounded values", "anchors": ["librabbitmq/amqp_framing.c:amqp_encode_properties", "librabbitmq/amqp_framing.c:amqp_decode_properties"]}
{"id": "C14", "title": "Decoding untrusted content properties is safe", "statement": "amqp_decode_properties on arbitrary bytes has no undefined behaviour: it never reads out of bounds and the property-flag continuation words never shift out of range.", "quantifier": "every class id and byte string", "why_tests_cant": "all byte strings, including chains of continuation words", "anchors": ["librabbitmq/amqp_framing.c:amqp_decode_properties"]}
{"id": "C15", "title": "Over-long short strings are rejected, never truncated", "statement": "Encoding a method or property list whose short string exceeds 255 bytes fails with an error status instead of emitting a frame with a truncated length; likewise for table keys.", "quantifier": "every string length", "why_tests_cant": "all lengths; the failure is a silent wrap modulo 256", "anchors": ["librabbitmq/amqp_framing.c:amqp_encode_method", "librabbitmq/amqp_framing.c:amqp_encode_properties", "librabbitmq/amqp_table.c:amqp_encode_table"]}
{"id": "C16", "title": "Frame round trip", "statement": "The bytes amqp_send_frame puts on the wire for a frame, fed to a peer's amqp_handle_input in the steady state, produce exactly one frame with the same channel, type and contents and consume exactly those bytes.", "quantifier": "every encodable frame of every type, every frame_max", "why_tests_cant": "unbounded frames", "anchors": ["librabbitmq/amqp_connection.c:amqp_frame_to_bytes", "librabbitmq/amqp_connection.c:amqp_handle_input"]}
{"id": "C17", "title": "Frame parsing is independent of how bytes are split", "statement": "The sequence of frames and the final status obtained from a byte stream do not depend on how the transport splits the stream across reads.", "quantifier": "every byte stream and every way of splitting it", "why_tests_cant": "exponentially many splits of unbounded streams", "anchors": ["librabbitmq/amqp_connection.c:amqp_handle_input", "librabbitmq/amqp_connection.c:consume_data"]}
{"id": "C18", "title": "Inbound frame size limit", "statement": "A frame whose declared size exceeds the negotiated frame_max is rejected with BAD_AMQP_DATA before its payload is buffered; memory allocated per frame never exceeds frame_max.", "quantifier": "every header, every frame_max", "why_tests_cant": "all 32-bit sizes at the boundary and beyond; wraparound", "anchors": ["librabbitmq/amqp_connection.c:amqp_handle_input"]}
{"id": "C19", "title": "Bad frames are rejected and the error is sticky", "statement": "A frame not ending in the frame-end octet is never delivered; after a framing error every later amqp_handle_input call with data reports an error and no frame is delivered.", "quantifier": "every byte stream, every continuation", "why_tests_cant": "all histories after the error", "anchors": ["librabbitmq/amqp_connection.c:amqp_handle_input"]}
{"id": "C20", "title": "Frame payload parsing is memory safe", "statement": "amqp_handle_input never reads outside the bytes of the frame it has received, for any frame a peer can send.", "quantifier": "every byte stream", "why_tests_cant": "all byte streams; payload lengths below the fixed prefix of method/header frames underflow", "anchors": ["librabbitmq/amqp_connection.c:amqp_handle_input"]}
{"id": "C21", "title": "First frame is handled like any other", "statement": "The first frame received on a connection is parsed exactly as it would be later on.", "quantifier": "every first frame", "why_tests_cant": "all frames; only the first differs", "anchors": ["librabbitmq/amqp_connection.c:amqp_handle_input"]}
{"id": "C22", "title": "Outbound frames stay inside the outbound buffer", "statement": "Serialising a frame never writes outside the outbound buffer of size frame_max; frames that do not fit are refused with an error.", "quantifier": "every frame, every frame_max the peer can negotiate", "why_tests_cant": "all sizes including those negotiated below protocol minimum", "anchors": ["librabbitmq/amqp_connection.c:amqp_frame_to_bytes", "librabbitmq/amqp_connection.c:amqp_tune_connection"]}
{"id": "C23", "title": "Sent bytes are exactly the frame", "statement": "When amqp_send_frame returns OK, exactly the frame's bytes have been passed to the transport, in order and once, however the transport splits partial writes; on an error a prefix has been passed.", "quantifier": "every sequence of partial writes, would-block results and clock readings", "why_tests_cant": "schedules of the transport", "anchors": ["librabbitmq/amqp_socket.c:amqp_send_frame_inner", "librabbitmq/amqp_socket.c:amqp_try_send"]}
{"id": "C24", "title": "Publish fragments the body faithfully", "statement": "A successful amqp_basic_publish sends one method frame, one header frame carrying the body length, and body frames each non-empty and at most frame_max-8 long whose concatenation is the body.", "quantifier": "every body, every frame_max > 8", "why_tests_cant": "all body sizes relative to frame_max", "anchors": ["librabbitmq/amqp_api.c:amqp_basic_publish", "librabbitmq/amqp_api.c:amqp_basic_publish"]}
{"id": "C25", "title": "The last frame of a publish is flushed", "statement": "All frames of a publish but the last are sent with the MORE hint, and the last frame is sent without it, so nothing is held back.", "quantifier": "every body length", "why_tests_cant": "boundary: body an exact multiple of the usable size", "anchors": ["librabbitmq/amqp_api.c:amqp_basic_publish"]}
{"id": "C26", "title": "Frames are delivered in order, exactly once", "statement": "Successive amqp_simple_wait_frame calls deliver the frames of the incoming stream exactly once, in order, independent of read splitting, timeouts and retries.", "quantifier": "every stream, every recv schedule, every sequence of calls", "why_tests_cant": "schedules and call histories", "anchors": ["librabbitmq/amqp_socket.c:amqp_simple_wait_frame_noblock", "librabbitmq/amqp_socket.c:wait_frame_inner", "librabbitmq/amqp_socket.c:amqp_queue_frame"]}
{"id": "C27", "title": "Waiting on one channel keeps other channels' frames", "statement": "Waiting for a frame on one channel returns the earliest pending frame of that channel and leaves every other pending frame available in its original order.", "quantifier": "every queue content, every stream", "why_tests_cant": "all interleavings of channels", "anchors": ["librabbitmq/amqp_socket.c:amqp_simple_wait_frame_on_channel"]}
{"id": "C28", "title": "A frame put back is the next one delivered", "statement": "After a frame has been put back it is the next frame delivered by amqp_simple_wait_frame, and the rest of the queue is unchanged.", "quantifier": "every queue content", "why_tests_cant": "all histories", "anchors": ["librabbitmq/amqp_socket.c:amqp_put_back_frame", "librabbitmq/amqp_socket.c:amqp_simple_wait_frame_noblock"]}
{"id": "C29", "title": "Heartbeat frames never reach the application", "statement": "Heartbeat frames received from the peer are consumed by the library and never returned from amqp_simple_wait_frame or a RPC.", "quantifier": "every stream and schedule, including those where sending blocks", "why_tests_cant": "depends on timing of blocked sends", "anchors": ["librabbitmq/amqp_socket.c:wait_frame_inner", "librabbitmq/amqp_socket.c:amqp_try_recv"]}
{"id": "C30", "title": "RPC returns its own reply and keeps the rest", "statement": "amqp_simple_rpc returns the first method frame on its channel that is one of the expected replies or a close of the channel/connection; all other frames received meanwhile are queued, none lost, in arrival order.", "quantifier": "every stream of frames interleaved with the reply", "why_tests_cant": "all interleavings", "anchors": ["librabbitmq/amqp_socket.c:simple_rpc_inner", "librabbitmq/amqp_socket.c:amqp_id_in_reply_list"]}
{"id": "C31", "title": "RPC timeout closes the connection", "statement": "If the RPC deadline expires with no reply, the RPC reports TIMEOUT as a library exception and the socket is closed, so a late reply can never be mistaken for the answer of a later RPC.", "quantifier": "every stream and clock schedule", "why_tests_cant": "timing", "anchors": ["librabbitmq/amqp_socket.c:simple_rpc_inner", "librabbitmq/amqp_socket.c:amqp_simple_rpc"]}
{"id": "C32", "title": "amqp_simple_wait_method returns only what was asked for", "statement": "amqp_simple_wait_method returns OK only with a method frame of the expected channel and method id; any other frame gives WRONG_METHOD.", "quantifier": "every frame", "why_tests_cant": "all frames", "anchors": ["librabbitmq/amqp_socket.c:amqp_simple_wait_method_list", "librabbitmq/amqp_socket.c:amqp_simple_wait_method"]}
{"id": "C33", "title": "Releasing buffers never invalidates pending data", "statement": "amqp_maybe_release_buffers and amqp_maybe_release_buffers_on_channel never release memory that a frame still queued for delivery points into.", "quantifier": "every history of receives, queueing and releases on every channel", "why_tests_cant": "histories", "anchors": ["librabbitmq/amqp_connection.c:amqp_maybe_release_buffers", "librabbitmq/amqp_connection.c:amqp_maybe_release_buffers_on_channel", "librabbitmq/amqp_socket.c:amqp_queue_frame"]}
{"id": "C34", "title": "Properties returned by accessors stay valid", "statement": "After login, the tables returned by amqp_get_server_properties and amqp_get_client_properties remain valid memory until the connection is destroyed.", "quantifier": "every later history of the connection", "why_tests_cant": "use-after-recycle only shows after later traffic", "anchors": ["librabbitmq/amqp_socket.c:amqp_login_inner", "librabbitmq/amqp_connection.c:amqp_get_client_properties", "librabbitmq/amqp_connection.c:amqp_get_server_properties"]}
{"id": "C35", "title": "Tune negotiation", "statement": "After a successful login the channel_max, frame_max and heartbeat in force never exceed a non-zero value asked for by either side (with 0 meaning \"no preference\" where the code says so), and the values sent in tune-ok are those used locally.", "quantifier": "every pair of client parameters and server tune", "why_tests_cant": "2^80 combinations and zero cases", "anchors": ["librabbitmq/amqp_socket.c:amqp_login_inner", "librabbitmq/amqp_connection.c:amqp_tune_connection"]}
{"id": "C36", "title": "Credentials are not sent to an unsuitable broker", "statement": "The login credentials are put on the wire only after the broker has announced protocol 0-9 and listed the requested SASL mechanism; otherwise login fails without sending them.", "quantifier": "every server behaviour", "why_tests_cant": "all server messages", "anchors": ["librabbitmq/amqp_socket.c:amqp_login_inner", "librabbitmq/amqp_socket.c:sasl_mechanism_in_list"]}
{"id": "C37", "title": "SASL responses and mechanism matching", "statement": "The PLAIN response is NUL user NUL password byte for byte, EXTERNAL is the identity; a mechanism is accepted iff it is a whole space-separated word of the broker's list.", "quantifier": "every user, password and mechanism list", "why_tests_cant": "all strings", "anchors": ["librabbitmq/amqp_socket.c:sasl_response", "librabbitmq/amqp_socket.c:sasl_mechanism_in_list"]}
{"id": "C38", "title": "A failed login leaves no usable half-open connection", "statement": "If login fails with a library error after the parameters were accepted the socket has been closed; a NORMAL reply implies the whole handshake was carried out in order.", "quantifier": "every server behaviour and transport schedule", "why_tests_cant": "all failure points", "anchors": ["librabbitmq/amqp_socket.c:amqp_login_inner"]}
{"id": "C39", "title": "Deadline arithmetic", "statement": "A deadline computed from a timeout is the current time plus the timeout; infinite and zero timeouts are handled specially; invalid timevals are refused.", "quantifier": "every timeval and clock value", "why_tests_cant": "2^128 values, overflow", "anchors": ["librabbitmq/amqp_time.c:amqp_time_from_now", "librabbitmq/amqp_time.c:amqp_time_s_from_now"]}
{"id": "C40", "title": "Poll timeouts never exceed the deadline", "statement": "The millisecond timeout handed to poll is at most the time left, is zero once the deadline has passed and is -1 only for an infinite deadline.", "quantifier": "every deadline and clock value", "why_tests_cant": "overflow of int for far deadlines", "anchors": ["librabbitmq/amqp_time.c:amqp_time_ms_until", "librabbitmq/amqp_time.c:amqp_time_tv_until"]}
{"id": "C41", "title": "Heartbeat supervision", "statement": "With heartbeat interval h: a heartbeat is sent when nothing was sent for h seconds while waiting; if nothing is received for 2h seconds the wait fails with HEARTBEAT_TIMEOUT and closes the socket; with h = 0 neither happens.", "quantifier": "every schedule of traffic and clock", "why_tests_cant": "timing", "anchors": ["librabbitmq/amqp_socket.c:wait_frame_inner", "librabbitmq/amqp_socket.c:amqp_try_recv", "librabbitmq/amqp_socket.c:recv_with_timeout", "librabbitmq/amqp_connection.c:amqp_tune_connection", "librabbitmq/amqp_private.h:amqp_heartbeat_send,amqp_heartbeat_recv"]}
{"id": "C42", "title": "URL parsing recovers the components", "statement": "amqp_parse_url on amqp(s)://user:password@host:port/vhost with percent-encoding returns the decoded components; omitted components take their defaults (guest, guest, localhost, 5672/5671, /).", "quantifier": "every component string", "why_tests_cant": "all strings", "anchors": ["librabbitmq/amqp_url.c:amqp_parse_url"]}
{"id": "C43", "title": "URL parsing is safe and terminates", "statement": "amqp_parse_url on any NUL-terminated string never reads or writes outside it, never lengthens it, terminates, and returns OK or BAD_URL.", "quantifier": "every string", "why_tests_cant": "all strings", "anchors": ["librabbitmq/amqp_url.c:amqp_parse_url", "librabbitmq/amqp_url.c:find_delim"]}
{"id": "C44", "title": "Malformed percent escapes are rejected", "statement": "A percent sign not followed by two hexadecimal digits, or encoding a non-ASCII byte, makes amqp_parse_url return BAD_URL.", "quantifier": "every string", "why_tests_cant": "sscanf semantics on all inputs", "anchors": ["librabbitmq/amqp_url.c:find_delim"]}
{"id": "C45", "title": "Message body assembly", "statement": "amqp_read_message returns OK only with the body equal to the concatenation of the body frames received on that channel and of exactly the length declared in the header frame.", "quantifier": "every fragmentation of every body, every interleaving", "why_tests_cant": "fragmentations", "anchors": ["librabbitmq/amqp_consumer.c:amqp_read_message"]}
{"id": "C46", "title": "amqp_consume_message leaves non-delivery frames pending", "statement": "If the next frame is not a basic.deliver, amqp_consume_message returns UNEXPECTED_STATE and the frame is still the next one delivered.", "quantifier": "every frame", "why_tests_cant": "all frames", "anchors": ["librabbitmq/amqp_consumer.c:amqp_consume_message"]}
{"id": "C47", "title": "Publisher-confirm wait", "statement": "amqp_publisher_confirm_wait returns the ack, nack or reject frame's payload iff the next frame is that method, and on any other frame reports an error without losing the frame.", "quantifier": "every frame", "why_tests_cant": "all frames", "anchors": ["librabbitmq/amqp_api.c:amqp_publisher_confirm_wait"]}
{"id": "C48", "title": "Pool allocations are disjoint, aligned and in bounds", "statement": "Successive successful pool allocations return pairwise disjoint, 8-byte aligned blocks of at least the requested size, inside memory obtained from the system.", "quantifier": "every sequence of requests, every page size, every malloc behaviour", "why_tests_cant": "histories", "anchors": ["librabbitmq/amqp_mem.c:amqp_pool_alloc", "librabbitmq/amqp_mem.c:record_pool_block"]}
{"id": "C49", "title": "Pool recycling and emptying", "statement": "Recycling a pool frees every large block and makes every page reusable, without leaking or double-freeing; emptying frees every block exactly once.", "quantifier": "every history", "why_tests_cant": "histories, malloc failure points", "anchors": ["librabbitmq/amqp_mem.c:recycle_amqp_pool", "librabbitmq/amqp_mem.c:empty_amqp_pool", "librabbitmq/amqp_mem.c:empty_blocklist"]}
{"id": "C50", "title": "TLS peer verification", "statement": "If opening a TLS socket succeeds with peer verification on, the handshake verified the certificate chain; with hostname verification on, the certificate matches the host given; failing either closes the socket and returns the matching error.", "quantifier": "every OpenSSL result", "why_tests_cant": "all combinations of external results and failure points", "anchors": ["librabbitmq/amqp_openssl.c:amqp_ssl_socket_open"]}
{"id": "C51", "title": "TLS version selection", "statement": "amqp_ssl_socket_set_ssl_versions succeeds iff min <= max and both are supported, and then restricts the context to that range.", "quantifier": "every pair of version values", "why_tests_cant": "all values", "anchors": ["librabbitmq/amqp_openssl.c:amqp_ssl_socket_set_ssl_versions"]}
{"id": "C52", "title": "OpenSSL library life cycle", "statement": "The library's global TLS I/O state is set up when the first TLS socket is created, is in place as long as any TLS socket exists, is torn down exactly when the last one is deleted, and is never set up twice or torn down while in use; a failed set-up counts no socket.", "quantifier": "every history of socket creation and destruction", "why_tests_cant": "histories", "anchors": ["librabbitmq/amqp_openssl.c:initialize_ssl_and_increment_connections,decrement_ssl_connections"]}
{"id": "C53", "title": "Status strings", "statement": "amqp_error_string2 returns a specific non-NULL message for every status code the API defines and the unknown-error message otherwise, without undefined behaviour.", "quantifier": "every int", "why_tests_cant": "2^32 values", "anchors": ["librabbitmq/amqp_api.c:amqp_error_string2"]}
{"id": "C54", "title": "Connecting tries every address", "statement": "Opening a TCP connection tries the resolved addresses in order, returns the first that connects, leaks no descriptor for the failed ones and stops at the deadline.", "quantifier": "every address list and failure pattern", "why_tests_cant": "all patterns", "anchors": ["librabbitmq/amqp_socket.c:amqp_open_socket_inner", "librabbitmq/amqp_socket.c:amqp_open_socket_noblock"]}
{"id": "C55", "title": "Socket state machine", "statement": "On a closed socket send/recv return SOCKET_CLOSED without a system call, opening an open socket returns SOCKET_INUSE, closing twice returns SOCKET_CLOSED, and interrupted system calls are retried.", "quantifier": "every history of socket operations and errno results", "why_tests_cant": "histories", "anchors": ["librabbitmq/amqp_tcp_socket.c:amqp_tcp_socket_send,amqp_tcp_socket_recv,amqp_tcp_socket_close,amqp_tcp_socket_open"]}
{"id": "C56", "title": "No received data is discarded by a wait", "statement": "Data received from the transport during a wait for frames is either parsed or kept for a later call.", "quantifier": "every schedule, including heartbeats being sent while the send side is blocked", "why_tests_cant": "timing", "anchors": ["librabbitmq/amqp_socket.c:wait_frame_inner", "librabbitmq/amqp_socket.c:amqp_try_send", "librabbitmq/amqp_socket.c:amqp_try_recv"]}
{"id": "C57", "title": "Protocol header", "statement": "amqp_send_header reports OK only if the eight protocol header bytes were handed to the transport.", "quantifier": "every transport schedule", "why_tests_cant": "timing of would-block", "anchors": ["librabbitmq/amqp_socket.c:send_header_inner"]}
{"id": "C58", "title": "Non-blocking wait never blocks past its deadline", "statement": "amqp_simple_wait_frame_noblock with a finite timeout returns TIMEOUT only after the deadline was reached according to the clock, and never polls for longer than the remaining time.", "quantifier": "every schedule", "why_tests_cant": "timing", "anchors": ["librabbitmq/amqp_socket.c:recv_with_timeout", "librabbitmq/amqp_socket.c:amqp_poll"]}
{"id": "C59", "title": "Byte-string helpers", "statement": "amqp_bytes_equal is extensional equality; amqp_bytes_malloc_dup copies exactly, or on allocation failure yields a NULL pointer (with the original length).", "quantifier": "every byte string", "why_tests_cant": "all strings", "anchors": ["librabbitmq/amqp_mem.c:amqp_bytes_equal", "librabbitmq/amqp_mem.c:amqp_bytes_malloc_dup"]}
{"id": "C60", "title": "Timeout setters validate and store", "statement": "amqp_set_rpc_timeout and amqp_set_handshake_timeout accept exactly the non-negative normalised timevals, store a copy, and the getters return it; a rejected value changes nothing.", "quantifier": "every timeval, every history of calls", "why_tests_cant": "histories", "anchors": ["librabbitmq/amqp_api.c:amqp_set_rpc_timeout", "librabbitmq/amqp_api.c:amqp_set_handshake_timeout"]}
{"id": "C61", "title": "The outgoing stream stays framed", "statement": "As long as every call on an open connection succeeds, is refused by the server, or reports that time ran out, the octets handed to the transport form a sequence of complete, well-delimited frames; a call that fails in any other way cuts at most one frame short, the last one.", "quantifier": "every history of calls (sending, publishing, RPC, waiting, consuming, confirming, releasing), every transport and poll schedule, every heartbeat timing", "why_tests_cant": "histories and schedules", "anchors": ["librabbitmq/amqp_socket.c:amqp_try_send,amqp_send_frame_inner,wait_frame_inner", "librabbitmq/amqp_connection.c:amqp_frame_to_bytes", "librabbitmq/amqp_api.c:amqp_basic_publish"]}
{"id": "C62", "title": "Every RPC function sends its method and returns its -ok", "statement": "Each function that makes a request of the broker (amqp_queue_declare, amqp_basic_consume, ...) sends one frame holding its AMQP method with the caller's values in the protocol's argument order (reserved arguments zero, no-wait false) on the caller's channel, then at most heartbeats; it returns the arguments of the matching -ok method or NULL, and amqp_get_rpc_reply then tells which of -ok, server refusal or library error it was.", "quantifier": "every such function, every argument value, channel, transport schedule and reply", "why_tests_cant": "twenty functions times all values and schedules; a swapped pair of same-typed arguments is only visible on the wire", "anchors": ["librabbitmq/amqp_framing.c:amqp_queue_declare,amqp_basic_consume,amqp_exchange_declare", "librabbitmq/amqp_socket.c:amqp_simple_rpc_decoded,amqp_get_rpc_reply"]}
{"id": "C63", "title": "Closing, acknowledging and getting", "statement": "amqp_channel_close and amqp_connection_close refuse reply codes outside 0..65535 without sending, and otherwise send close with the code and its decimal notation; amqp_basic_ack, _reject and _nack send the method with exactly the caller's tag and flags; amqp_basic_get awaits get-ok or get-empty, and amqp_get_rpc_reply repeats its result.", "quantifier": "every code, tag, flag and transport schedule", "why_tests_cant": "all values and schedules", "anchors": ["librabbitmq/amqp_api.c:amqp_channel_close,amqp_connection_close,amqp_basic_ack,amqp_basic_reject,amqp_basic_nack,amqp_basic_get"]}
{"id": "C64", "title": "Memory of a connection", "statement": "Whatever the library stores for a channel (frames, queued frames, replies) stays in place and overlaps nothing else until that channel's buffers are released, no matter what happens on other channels, how often the connection is tuned, or which allocations fail; after a successful tuning the output buffer really has the negotiated size; nothing is freed twice.", "quantifier": "every history of storing, releasing and tuning over all 65536 channels (16 hash buckets), every pattern of refused allocations", "why_tests_cant": "histories; bucket collisions and allocation failures", "anchors": ["librabbitmq/amqp_mem.c:amqp_get_or_create_channel_pool,amqp_get_channel_pool", "librabbitmq/amqp_connection.c:amqp_tune_connection,amqp_maybe_release_buffers_on_channel"]}
{"id": "C65", "title": "Creating and destroying a connection", "statement": "amqp_destroy_connection gives back all memory of the connection, exactly once, after any history; a failing amqp_new_connection leaves nothing behind.", "quantifier": "every history, every pattern of refused allocations", "why_tests_cant": "histories and allocation failure points", "anchors": ["librabbitmq/amqp_connection.c:amqp_new_connection,amqp_destroy_connection"]}
{"id": "C66", "title": "Names and severity of protocol constants", "statement": "amqp_constant_name returns, for every constant of AMQP 0-9-1, its own name, and \"(unknown)\" for every other integer; amqp_constant_is_hard_error is 1 exactly for the reply codes after which the connection is closed.", "quantifier": "every int", "why_tests_cant": "2^32 values; a misplaced case is only visible for the one code it affects", "anchors": ["librabbitmq/amqp_framing.c:amqp_constant_name,amqp_constant_is_hard_error"]}
{"id": "C67", "title": "The table decoder reads exactly what the octets spell", "statement": "A table returned by amqp_decode_table is what the octets it consumed spell in the AMQP grammar, the grammar being relaxed in exactly two ways: a container's last entry may end after the container's declared length, and any non-zero boolean octet is true.  Conversely every table spelled that way inside the buffer, nested within the limit, is returned.  Octets that keep to the unrelaxed grammar are sent on unchanged when the decoded table is encoded again.", "quantifier": "every buffer, offset, host byte order and allocation schedule; for the converse every spelling with memory available", "why_tests_cant": "the grammar is recursive and its language infinite; over-acceptance shows only on inputs no test author writes", "anchors": ["librabbitmq/amqp_table.c:amqp_decode_table,amqp_decode_array,amqp_decode_field_value,amqp_encode_table"]}
{"id": "C68", "title": "Tools: the whole input is read, the whole output written", "statement": "When a tool reads a message from its standard input it gets every octet up to the end of the file; when it writes one it hands over every octet in order, whatever portions the operating system takes; it ends otherwise only with status 1 after a failed read or write.", "quantifier": "every portioning of reads and writes, every interruption, every allocation pattern", "why_tests_cant": "portionings", "anchors": ["tools/common.c:read_all,write_all"]}
{"id": "C69", "title": "Tools: a message body is copied completely", "statement": "amqp-get and amqp-consume write exactly the contents of the body frames of the message, as many octets as its header announces, and on failure a beginning of it.", "quantifier": "every fragmentation of the body, every transport schedule, every portioning of writes", "why_tests_cant": "fragmentations and schedules", "anchors": ["tools/common.c:copy_body", "tools/get.c:do_get"]}
{"id": "C70", "title": "amqp-consume acknowledges exactly the messages its command accepted", "statement": "For each delivery the command is started once with a pipe, the pipe gets the body and is closed, the command is waited for, and that delivery is acknowledged if and only if the command exited with status 0 and acknowledgements are wanted; --count limits the number of messages.", "quantifier": "every run: frames, command results, failures at every point", "why_tests_cant": "histories of frames and commands", "anchors": ["tools/consume.c:do_consume", "tools/unix/process.c:pipeline,finish_pipeline"]}
{"id": "C71", "title": "amqp-publish publishes what it was given", "statement": "One message with the --body, or with all of the standard input, or one per line of it; to the exchange, with the routing key, properties and headers of the options.", "quantifier": "every combination of options, every input", "why_tests_cant": "all inputs and options", "anchors": ["tools/publish.c:main,do_publish"]}
{"id": "C72", "title": "Tools: the authentication file", "statement": "Accepted are exactly files of the two lines username:... and password:...; any other file is refused with status 1.", "quantifier": "every file", "why_tests_cant": "all byte strings", "anchors": ["tools/common.c:read_authfile"]}
{"id": "C73", "title": "amqp-consume prints queue names safely", "statement": "The printed form of a name stays inside its buffer, has only printable characters and identifies the name.", "quantifier": "every name", "why_tests_cant": "all byte strings", "anchors": ["tools/consume.c:stringify_bytes"]}
{"id": "C74", "title": "amqp-consume sets up its queue as the options say", "statement": "The queue is declared and bound once with every routing key of the list, and the consumer uses that queue.", "quantifier": "every combination of options and server replies", "why_tests_cant": "all combinations", "anchors": ["tools/consume.c:setup_queue"]}
{"id": "C75", "title": "Tools: connection options", "statement": "The server, port, credentials, virtual host and use of TLS are those of the options or the URL, contradictory options are refused, and no option value leads to an access out of bounds.", "quantifier": "every combination of option values", "why_tests_cant": "all strings and combinations", "anchors": ["tools/common.c:init_connection_info"]}
{"id": "C76", "title": "URL parsing accepts only URLs", "statement": "If amqp_parse_url returns OK, the string was amqp:// or amqps://, an optional user and password, a host (possibly in brackets), an optional decimal port up to 65535 and an optional virtual host of a single path segment, percent-encoded, and the result holds exactly the components written, with the documented defaults for those absent.", "quantifier": "every NUL-terminated string accepted", "why_tests_cant": "every accepted string has to be of that form; tests only show that some bad strings are refused", "anchors": ["librabbitmq/amqp_url.c:amqp_parse_url,find_delim"]}
{"id": "C77", "title": "A write the transport could not carry out is repeated with the same octets before anything else is written", "statement": "Whenever the transport reports that a write cannot be carried out right now (it wants to read or write first, as a TLS socket in the middle of a renegotiation or a full TCP socket does), the next write the library performs on the connection presents exactly the same octets, no matter how many polls, received frames, heartbeat expirations or deadline checks lie in between, and no matter in which public call they happen; no call that returns success, a server exception or a time-out leaves a write to be repeated; after a call that fails, at most one is left, the last. This is what OpenSSL requires of SSL_write: a retried write with different contents is an error there and corrupts the record stream.", "quantifier": "every sequence of publishes, frames sent by hand, RPCs, deliveries and waits, every amount the transport accepts at each step, every pattern of blocked writes, and every clock, provided no poll reports success for a deadline that has passed and the transport never returns the time-out code for a write", "why_tests_cant": "Which write blocks, how much of a frame is accepted before it, and whether a heartbeat or a received frame intervenes depends on the schedule of the network; tests with a loopback socket almost never see a blocked write.", "anchors": ["librabbitmq/amqp_connection.c:amqp_try_send,amqp_send_frame_inner", "librabbitmq/amqp_socket.c:amqp_socket_send"]}
{"id": "C78", "title": "A message arrives as it was published", "statement": "When a server passes on the content header and the body octets of a message sent by amqp_basic_publish (cut into body frames in any way, on any channel, interleaved with frames of other channels and heartbeats), amqp_consume_message on an open connection returns exactly the delivery's fields, the flagged properties and the body that were published, unless the socket fails or memory runs out; and consecutive deliveries are returned by consecutive calls in order, none lost or repeated.", "quantifier": "every message, every way of cutting the stream into body frames and of receiving it in pieces, every interleaving with other channels", "why_tests_cant": "quantifies over all messages, fragmentations and read schedules at both ends, and claims that nothing but an outside failure keeps a message from arriving", "anchors": ["librabbitmq/amqp_consumer.c:amqp_consume_message,amqp_read_message,amqp_basic_properties_clone", "librabbitmq/amqp_api.c:amqp_basic_publish", "librabbitmq/amqp_socket.c:amqp_simple_wait_frame_on_channel,wait_frame_inner", "librabbitmq/amqp_table.c:amqp_table_clone"]}
{"id": "C79", "title": "TLS credentials are in force exactly when the call says so", "statement": "After any history of calls of amqp_ssl_socket_set_key, set_key_buffer, set_key_engine, set_cert, set_cacert, set_key_passwd and enable_default_verify_paths on a TLS socket, what is in force (certificate chain, private key, trusted certificates) is exactly what the calls that returned OK were given; a failed call returns a negative status because OpenSSL refused something, because the key buffer has 2^31 octets or more, or because the build has no engine API, and leaves everything as it was; no temporary object is leaked or used after being freed, whatever OpenSSL answers.", "quantifier": "every history of calls, every sequence of OpenSSL answers", "why_tests_cant": "OpenSSL failures at every point of every history", "anchors": ["librabbitmq/amqp_openssl.c:amqp_ssl_socket_set_key", "librabbitmq/amqp_openssl.c:amqp_ssl_socket_set_key_buffer", "librabbitmq/amqp_openssl.c:amqp_ssl_socket_set_key_engine", "librabbitmq/amqp_openssl.c:amqp_ssl_socket_set_cert", "librabbitmq/amqp_openssl.c:amqp_ssl_socket_set_cacert", "librabbitmq/amqp_openssl.c:amqp_ssl_socket_enable_default_verify_paths", "librabbitmq/amqp_openssl.c:amqp_ssl_socket_set_key_passwd"]}
{"id": "C80", "title": "TLS I/O is repeated exactly after transient socket errors", "statement": "Each read and write OpenSSL makes through a TLS socket is one recv or send that cannot raise SIGPIPE, its result is passed on unchanged, and OpenSSL is told to retry exactly if the call failed with EINTR, EAGAIN/EWOULDBLOCK, EINPROGRESS, EALREADY, ENOTCONN or EPROTO, regardless of earlier calls; never at the end of the stream.", "quantifier": "every errno, every earlier state of the retry flags", "why_tests_cant": "all errno values, all earlier states", "anchors": ["librabbitmq/amqp_openssl_bio.c:amqp_openssl_bio_write", "librabbitmq/amqp_openssl_bio.c:amqp_openssl_bio_read", "librabbitmq/amqp_openssl_bio.c:amqp_openssl_bio_should_retry"]}
{"id": "C81", "title": "amqp_frames_enqueued and amqp_data_in_buffer say when waiting is safe", "statement": "If amqp_frames_enqueued is true, the next wait for a frame returns the oldest enqueued frame without touching the transport; if the data in the receive buffer completes a frame, so does a wait then; if both functions say no, a frame is only returned after something was received. When a wait times out both say no and every frame received so far has been delivered, so the application may wait for the descriptor to become readable without missing a frame.", "quantifier": "every connection state, every history of waits and sends, every transport", "why_tests_cant": "all schedules of arrival and blocking", "anchors": ["librabbitmq/amqp_socket.c:amqp_frames_enqueued", "librabbitmq/amqp_socket.c:amqp_data_in_buffer", "librabbitmq/amqp_socket.c:amqp_simple_wait_frame_noblock", "librabbitmq/amqp_socket.c:wait_frame_inner"]}
{"id": "C82", "title": "A run of a tool is one whole session on the wire", "statement": "amqp-publish, amqp-get or amqp-consume that returns from its main function has connected to the host and port the options say, logged in once with the user, password and virtual host they say, opened channel 1, sent on it exactly the requests of what it did (published messages, gets, acknowledgements, queue set-up) in order, then closed the channel and the connection with the code 200; open and closes were each answered after they had been sent, and nothing else was sent but heartbeats. The status is 0 (amqp-get: 2 if there was no message); every other exit has status 1. Whether the CA certificate and key given could be loaded makes no difference.", "quantifier": "all options, authentication files, inputs, operating system and transport behaviours that let the tool end", "why_tests_cant": "all options and all schedules of the transport and server", "anchors": ["tools/common.c:make_connection,close_connection,die_rpc", "tools/publish.c:main", "tools/get.c:main", "tools/consume.c:main"]}
{"id": "C83", "title": "amqp-declare-queue and amqp-delete-queue print only what the server answered", "statement": "The tool declares (deletes) exactly the queue of the options with exactly the flags of the options, prints the name (number of messages) in the answer that came in after the request and a newline, closes channel and connection, and returns 0. If it exits otherwise, the status is 1 and it has printed nothing, or the answer the server gave to the request.", "quantifier": "all options, operating system and transport behaviours", "why_tests_cant": "all schedules of the transport and server", "anchors": ["tools/declare_queue.c:main", "tools/delete_queue.c:main", "tools/common.c:make_connection,close_connection"]}
{"id": "C84", "title": "What was received can be sent on", "statement": "A frame handed to the application is of a kind the protocol has and carries exactly the fields its method number or its class and property flags prescribe, each of its type, whatever octets the peer sent. Sent on over another connection with a frame limit at least as large, on any channel, it is accepted and its receiver gets the same contents: no spelling a peer can choose (over-long tables, unusual booleans, trailing octets) produces a value that does not survive forwarding.", "quantifier": "all octet streams in all pieces, all frame limits up to 2^30, all receivers, all byte orders", "why_tests_cant": "quantifies over all octet streams a peer can send", "anchors": ["librabbitmq/amqp_connection.c:amqp_handle_input,amqp_frame_to_bytes", "librabbitmq/amqp_framing.c:amqp_decode_method,amqp_decode_properties,amqp_encode_method,amqp_encode_properties", "librabbitmq/amqp_table.c:amqp_decode_table,amqp_encode_table"]}
{"id": "C85", "title": "No sequence of calls has undefined behaviour", "statement": "On a connection that is logged in, while allocations succeed, the application sends only frames that are what their type says and body frames within the negotiated size, and the server sends frames of any kind with any contents (complete or not, too large, wrongly ended), no sequence of calls of the library - waiting, sending, RPCs, reading and consuming messages, waiting for confirms, publishing, releasing memory, closing the socket, each whatever the earlier ones returned - reads or writes outside an object, follows a NULL pointer or aborts.", "quantifier": "every sequence of calls with any arguments, every octet stream of the server, every network schedule, failure and clock", "why_tests_cant": "quantifies over all histories of calls, all server octets and all schedules; a test sees one of each and notices an out-of-bounds access only by luck", "anchors": ["librabbitmq/amqp_socket.c:amqp_simple_wait_frame,amqp_simple_rpc,recv_with_timeout", "librabbitmq/amqp_connection.c:amqp_handle_input,amqp_send_frame,amqp_frame_to_bytes", "librabbitmq/amqp_consumer.c:amqp_consume_message,amqp_read_message,amqp_basic_properties_clone", "librabbitmq/amqp_api.c:amqp_basic_publish,amqp_publisher_confirm_wait"]}
{"id": "C86", "title": "No undefined behaviour from the first octet of a connection on", "statement": "A client that logs in on a new connection, whatever vhost, sizes, heartbeat, properties and credentials it passes, and then makes any calls in any order, never triggers undefined behaviour or an abort: neither in the login nor after it, however the octets of the server are cut into pieces. This needs memory, a server whose frames have the sizes AMQP prescribes (within the limit of a new connection before connection.tune, within the limit then agreed upon after it), and heartbeats that are off or never held up.", "quantifier": "every server octet stream, every fragmentation, schedule and clock, every login argument, every sequence of calls after the login", "why_tests_cant": "all octet streams and schedules over a whole session, across the change of the frame limit", "anchors": ["librabbitmq/amqp_socket.c:amqp_login_with_properties,amqp_login_inner,wait_frame_inner", "librabbitmq/amqp_connection.c:amqp_tune_connection,amqp_handle_input,amqp_release_buffers,amqp_send_frame_inner"]}
{"id": "C87", "title": "Messages belong to the application", "statement": "A message or envelope that amqp_read_message or amqp_consume_message hands over with AMQP_RESPONSE_NORMAL is the application\u2019s: every piece of memory it points to (body, strings, copies of properties) exists with the length stated, and stays so, apart from everything else in the process, whatever is done with the connection afterwards, including destroying it, until the application destroys the message; destroying it frees exactly what it owned, in any order relative to other messages and to the connection; a call that fails leaves nothing allocated; nothing is ever freed twice or copied outside its block", "quantifier": "Every history of consuming, reading, destroying and other use of a connection, with any frames and failures in any wait of any call, and any pattern of the system refusing memory", "why_tests_cant": "The interleavings of deliveries, partial deliveries, releases and destructions, and the patterns of refused allocations, are unbounded; tests see neither leaks on rare error paths nor double frees in untried orders", "anchors": ["librabbitmq/amqp_consumer.c:amqp_consume_message,amqp_read_message,amqp_destroy_message,amqp_destroy_envelope,amqp_basic_properties_clone", "librabbitmq/amqp_mem.c:amqp_bytes_malloc_dup,amqp_bytes_malloc,amqp_bytes_free"]}
{"id": "C88", "title": "Memory use is bounded by what is pending, not by the age of the connection", "statement": "If the application releases the buffers of its channels often enough that at no time more than K octets are pending for any one channel, then after any history of storing, tuning and releasing the connection occupies at most a fixed number of octets determined by K, the number of channels used and the largest frame size agreed; the same holds of an amqp_pool_t that is recycled or emptied.", "quantifier": "all heaps, all finite histories of stores, releases, tunings and properties on any channels, all K; unbounded length", "why_tests_cant": "A test runs for a finite time on one workload; slow growth shows only on a long-lived connection, and the bound must hold for every interleaving of channels and sizes.", "anchors": ["librabbitmq/amqp_mem.c:amqp_pool_alloc,recycle_amqp_pool,empty_amqp_pool,record_pool_block,amqp_get_or_create_channel_pool", "librabbitmq/amqp_connection.c:amqp_release_buffers,amqp_maybe_release_buffers_on_channel,amqp_tune_connection"]}
{"id": "C89", "title": "Once the connection is lost every call returns", "statement": "If from some moment on the network only reports that the connection is gone, every sequence of calls on the connection (waiting, sending, requests, publishing, consuming, confirms, releasing, closing) comes to an end, and so does a login and what follows it, whatever arrived before and whatever memory is refused.", "quantifier": "every network behaviour before the loss, every connection state, every sequence of calls, every allocator behaviour", "why_tests_cant": "termination: a test can only see that one call returned, not that no loop can go round for ever", "anchors": ["librabbitmq/amqp_connection.c:amqp_send_frame_inner", "librabbitmq/amqp_socket.c:wait_frame_inner,recv_with_timeout,amqp_try_send,amqp_poll,simple_rpc_inner,amqp_login_inner", "librabbitmq/amqp_consumer.c:amqp_read_message,amqp_consume_message"]}
{"id": "C90", "title": "A call on a connection whose server has fallen silent comes back", "statement": "Once the server has fallen silent - nothing arrives from it any more, what is sent to it is refused or swallowed, the polls made run out - every call, amqp_login included, returns, whatever had arrived before; with heartbeats on, provided the clock goes on.", "quantifier": "every network behaviour up to the point of silence, every connection state, every sequence of calls", "why_tests_cant": "termination under every schedule", "anchors": ["librabbitmq/amqp_socket.c:wait_frame_inner,recv_with_timeout,amqp_poll", "librabbitmq/amqp_connection.c:amqp_send_frame_inner"]}
{"id": "C91", "title": "A negative time limit is refused without effect", "statement": "Waiting for a frame, a message or a confirm with a negative time limit returns INVALID_PARAMETER and leaves the connection, the network and the clock untouched; the setters of the handshake and RPC time limits refuse negative values and keep the old ones, so the limits in force are never negative.", "quantifier": "every connection state, every time value, every sequence of settings", "why_tests_cant": "needs all values and all histories of settings", "anchors": ["librabbitmq/amqp_time.c:amqp_time_from_now", "librabbitmq/amqp_api.c:amqp_set_handshake_timeout,amqp_set_rpc_timeout", "librabbitmq/amqp_socket.c:amqp_simple_wait_frame_noblock"]}
{"id": "C92", "title": "A call with a time limit comes back", "statement": "A wait with a time limit returns, whatever the server does.", "quantifier": "every network behaviour, every limit, every connection state", "why_tests_cant": "termination under every schedule", "anchors": ["librabbitmq/amqp_socket.c:wait_frame_inner,recv_with_timeout,amqp_poll"]}
{"id": "C93", "title": "With heartbeats on, no call sleeps for longer than two intervals", "statement": "Once heartbeats are in force with an interval of h seconds, no sleep in any call lasts longer than 2h seconds at a go, whether the call waits to receive or to send and whether or not it was given a time limit; the only exception is the sending of the protocol header.", "quantifier": "every network behaviour, every clock, every sequence of calls from the creation of the connection on", "why_tests_cant": "the length of every poll, in every history, under every schedule", "anchors": ["librabbitmq/amqp_socket.c:amqp_poll,recv_with_timeout,wait_frame_inner,do_poll", "librabbitmq/amqp_connection.c:amqp_send_frame_inner,amqp_tune_connection"]}
{"id": "C94", "title": "How the client introduces itself", "statement": "In a successful login the properties sent to the server in start-ok are exactly the library's own identity and capabilities (including that it understands authentication-failure closes and exchange-to-exchange bindings) when the application gives none, and otherwise these merged with the application's: a property the application sets is sent as set, every other one stays the library's, and capabilities are merged one by one.", "quantifier": "every login that succeeds, every table of properties without a key occurring twice", "why_tests_cant": "all tables of properties, every network behaviour during the handshake", "anchors": ["librabbitmq/amqp_socket.c:amqp_login_inner", "librabbitmq/amqp_table.c:amqp_merge_capabilities"]}
{"id": "C95", "title": "What reading a message yields", "statement": "What amqp_read_message (and amqp_consume_message after a delivery) returns is determined by the frames on the channel: the message if its header and exactly its body come; SERVER_EXCEPTION with the server's method if a channel.close or connection.close comes on the channel before it is complete; UNEXPECTED_STATE, the frame left unread, for anything else in place of the header; BAD_AMQP_DATA for anything else, or too much, in place of the body. All other frames of the channel remain to be read. The only other result is the status of a failed wait, or of properties that cannot be copied.", "quantifier": "every sequence of frames on all channels, every way they are cut into reads, every connection state, memory not running out", "why_tests_cant": "all interleavings of frames and all splits into reads", "anchors": ["librabbitmq/amqp_consumer.c:amqp_read_message,amqp_consume_message"]}
{"id": "C96", "title": "A closed connection is inert", "statement": "Once the socket of a connection is closed (by amqp_socket_close, a timed-out RPC, a failed login or a broken connection), every call on the connection returns; none of them, nor a new login, sends, receives, polls or closes anything, or makes the connection usable again; what they return does not depend on the network; sending calls and RPCs fail; waiting calls deliver what had been received before and fail once that is used up.", "quantifier": "every state with a closed socket, every network, clock and allocator, every sequence of calls", "why_tests_cant": "the calls after a failure are arbitrary, and what an application must be able to rely on is the absence of any effect; tests check one call after one failure", "anchors": ["librabbitmq/amqp_socket.c:amqp_try_send,recv_with_timeout,wait_frame_inner", "librabbitmq/amqp_connection.c:amqp_send_frame_inner", "librabbitmq/amqp_openssl.c:amqp_tcp_socket_send"]}
{"id": "C97", "title": "Time limits bound every sleep of the call", "statement": "During a call with a time limit - a wait for a frame or a confirm, an RPC under amqp_set_rpc_timeout, amqp_login under its handshake timeout (12 seconds unless set otherwise) - no sleep lasts beyond the limit, counted from the start of the call.", "quantifier": "every network behaviour, every clock that does not go back, every connection state and every limit below 24 days", "why_tests_cant": "the length of every poll under every schedule", "anchors": ["librabbitmq/amqp_socket.c:simple_rpc_inner,amqp_simple_rpc,amqp_login_inner,amqp_simple_wait_frame_noblock,wait_frame_inner,amqp_poll", "librabbitmq/amqp_api.c:amqp_publisher_confirm_wait,amqp_set_rpc_timeout,amqp_set_handshake_timeout"]}
{"id": "C98", "title": "A call that fails costs no received frame", "statement": "If waiting for a frame, waiting on a channel, an RPC, sending a frame or publishing a message fails, the frames that arrived before or during the call and are not its own answer are still delivered later, each once and in order; and if it fails because of what the peer sent, all frames before that are.", "quantifier": "every network behaviour, every failure and every connection state, including frames queued earlier", "why_tests_cant": "the frames in flight at every possible point of failure", "anchors": ["librabbitmq/amqp_socket.c:amqp_simple_wait_frame_noblock,amqp_simple_wait_frame_on_channel,simple_rpc_inner,amqp_try_recv,amqp_queue_frame,wait_frame_inner", "librabbitmq/amqp_connection.c:amqp_send_frame_inner", "librabbitmq/amqp_api.c:amqp_basic_publish"]}
{"id": "C99", "title": "Tables built with the constructors arrive as written", "statement": "A table an application builds with amqp_table_construct_utf8_entry, _bool_entry and _table_entry from C strings is read by the peer exactly as written: keys and strings up to their first NUL, in order, booleans 1 for any value but 0, at every level.", "quantifier": "every nesting of up to 101 levels of tables, all strings (keys up to 255 octets), every buffer and position in it, hosts of either endianness", "why_tests_cant": "all shapes and contents of tables", "anchors": ["librabbitmq/amqp_table.c:amqp_table_construct_utf8_entry,amqp_table_construct_bool_entry,amqp_table_construct_table_entry,amqp_encode_table,amqp_decode_table", "librabbitmq/amqp_mem.c:amqp_cstring_bytes"]}
{"id": "C100", "title": "A failing call reports a documented status", "statement": "Whatever a connection has been used for, whatever the server sends and however the transport behaves (as long as it gives a reason when it fails, as the library's TCP and TLS sockets do): when a call fails, the status the application is given, returned or in library_error, is a negative code of amqp_status_enum, and amqp_error_string2 has a message for it.", "quantifier": "all histories of calls from amqp_new_connection on, with any timeouts set; all further calls and their arguments (timeouts below 2^31 ms); all servers, schedules, clock readings and allocation failures", "why_tests_cant": "Statuses pass through several layers (operating system, OpenSSL, polling, parser, encoder, allocator, RPC), which use positive counts and private codes among themselves; that none of these ever reaches the application is a statement about every path.", "anchors": ["librabbitmq/amqp_socket.c:wait_frame_inner,do_poll,amqp_try_send,recv_with_timeout,amqp_simple_rpc,amqp_login_with_properties,send_header_inner", "librabbitmq/amqp_api.c:amqp_error_string2,amqp_basic_publish,amqp_publisher_confirm_wait", "librabbitmq/amqp_openssl.c:amqp_ssl_socket_send,amqp_ssl_socket_recv"]}
{"id": "C101", "title": "A program does the same on big-endian and little-endian machines", "statement": "Take a program that makes any sequence of calls on a connection (login, tune, send, publish, wait for frames, RPCs, reading and consuming messages, waiting for confirms, releasing buffers, setting time limits, closing), each call depending in any way on what the calls before it returned. Given the same answers of network, clock and allocator, its result is the same whether the host is big-endian or little-endian; and so is everything that happens outside: the same octets are offered to the socket in the same portions, the same polls and clock readings, in the same order.", "quantifier": "all programs (arbitrary adaptive call sequences), all network/clock/allocator behaviours, both byte orders, every connection reached by calls", "why_tests_cant": "test suites run on one architecture; the equality ranges over all programs and all inputs from the network", "anchors": ["librabbitmq/amqp_connection.c:amqp_handle_input,amqp_frame_to_bytes", "librabbitmq/amqp_private.h:amqp_d16,amqp_d32,amqp_d64,amqp_e16,amqp_e32,amqp_e64", "librabbitmq/amqp_socket.c:amqp_login,wait_frame_inner"]}
{"id": "C102", "title": "What memory contained before is never observable", "statement": "Take a program as in C101. Neither its result nor anything that happens outside depends on what memory contained before the library wrote to it: the send buffer of a new connection, the part of it that realloc adds when the frame size is tuned, the buffers that frames are received into. No such octet is sent to the peer, handed to the application, or decides a branch.", "quantifier": "all programs, all network/clock/allocator behaviours, all contents of uninitialised memory", "why_tests_cant": "a leak of uninitialised memory shows only for particular contents and inputs; a test sees one content, a sanitizer one execution", "anchors": ["librabbitmq/amqp_connection.c:amqp_handle_input,amqp_frame_to_bytes,amqp_new_connection,amqp_tune_connection", "librabbitmq/amqp_mem.c:amqp_pool_alloc"]}
{"id": "C103", "title": "A connection owns its sockets: every descriptor is opened, used and closed properly", "statement": "In every history of calls that respects the API (connections are made, given TCP or TLS sockets or descriptors of the application, used, re-equipped and destroyed), every system call and every OpenSSL call is made on a descriptor or session that is open at that moment: opened by the library or handed over by the application, and not closed since; nothing is closed or freed twice; the open descriptors are exactly those amqp_get_sockfd reports for some connection; giving a connection another socket, or destroying it, closes the descriptor it had; and when no connection is left everything that was opened or handed over has been closed.", "quantifier": "every history of calls on any number of connections, every behaviour of the operating system and of OpenSSL", "why_tests_cant": "leaks and double closes show only over particular sequences of calls and failures; a test looks at a few", "anchors": ["librabbitmq/amqp_connection.c:amqp_set_socket,amqp_get_sockfd,amqp_set_sockfd,amqp_destroy_connection", "librabbitmq/amqp_socket.c:amqp_socket_delete", "librabbitmq/amqp_tcp_socket.c:amqp_tcp_socket_new,amqp_tcp_socket_delete,amqp_tcp_socket_set_sockfd", "librabbitmq/amqp_openssl.c:amqp_ssl_socket_new,amqp_ssl_socket_delete"]}
{"id": "C104", "title": "Threads may share the TLS library", "statement": "Threads may create, connect, use and delete TLS sockets of their own and set the engine at the same time: under every schedule nothing undefined happens (nothing the library shares is used after it is released or released twice, no assertion fails), no data race arises, no deadlock, under every fair schedule all threads finish, each call is atomic, and in the end the shared state is that of the sockets still alive.", "quantifier": "every number of threads, all their programs, every interleaving of their accesses", "why_tests_cant": "interleavings: a test runs a few of them", "anchors": ["librabbitmq/amqp_openssl.c:amqp_ssl_socket_new,amqp_ssl_socket_delete,initialize_ssl_and_increment_connections,decrement_ssl_connections,amqp_set_ssl_engine", "librabbitmq/amqp_openssl_bio.c:amqp_openssl_bio,amqp_openssl_bio_init,amqp_openssl_bio_destroy"]}
{"id": "C105", "title": "A consumer that polls misses nothing", "statement": "Any number of amqp_consume_message calls, each with any time limit or none and repeated after those whose limit ran out, with acknowledgements or other methods sent in between (and messages published, if heartbeats are off), return between them the deliveries the broker sent: in the order sent, each once, with its own content, and none left out before the last one returned - also when the deliveries are on two channels with their frames interleaved, where the order is kept per channel. A call that returns no message had a limit and fails with a library error - AMQP_STATUS_TIMEOUT, if the clock works and the limit is not negative -, and what it had already received is not lost to the next. This holds for a whole session: from creating the connection and logging in over the methods that start the consumer.", "quantifier": "All sequences of calls and limits and of methods sent and messages published between them, all deliveries and their contents and framing, all interleavings of two channels, all segmentations of the stream into reads and all moments at which a limit runs out, between two octets of a frame or anywhere else.", "why_tests_cant": "A limit may run out after any octet of any frame and at any step of assembling a message; tests can only time a few of these moments.", "anchors": ["librabbitmq/amqp_connection.c:amqp_consume_message,amqp_read_message", "librabbitmq/amqp_socket.c:amqp_simple_wait_frame_noblock,wait_frame_inner,recv_with_timeout"]}
