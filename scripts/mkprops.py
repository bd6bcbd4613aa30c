#!/usr/bin/env python3
# Generates /verif/properties.jsonl (run by hand; output is committed).
import json
P=[]
def p(id,title,statement,quant,why,*anchors):
    P.append(dict(id=id,title=title,statement=statement,quantifier=quant,why_tests_cant=why,anchors=[b for a in anchors for b in a.split(';')]))
T='librabbitmq/amqp_table.c'; C='librabbitmq/amqp_connection.c'; S='librabbitmq/amqp_socket.c'
F='librabbitmq/amqp_framing.c'; A='librabbitmq/amqp_api.c'; M='librabbitmq/amqp_mem.c'
U='librabbitmq/amqp_url.c'; TI='librabbitmq/amqp_time.c'; CO='librabbitmq/amqp_consumer.c'
PR='librabbitmq/amqp_private.h'; O='librabbitmq/amqp_openssl.c'; TC='librabbitmq/amqp_tcp_socket.c'

p('C01','Field-table round trip','If amqp_encode_table succeeds on a well-formed table (keys <= 255 bytes, only AMQP field kinds, booleans 0 or 1, string lengths < 2^32, nesting within the decoder limit), then amqp_decode_table on the written bytes succeeds, returns an equal table, and leaves the offset exactly where the encoder stopped.',
 'every well-formed table of every size and nesting, every buffer and start offset, both host byte orders, with allocation succeeding','tables are recursive and unbounded; tests sample a handful of values',f'{T}:amqp_encode_table',f'{T}:amqp_decode_table',f'{T}:amqp_encode_field_value',f'{T}:amqp_decode_field_value')
p('C02','Decoding untrusted tables is memory safe and terminates','amqp_decode_table / field value decoding on arbitrary bytes never reads outside the supplied buffer, always terminates, returns only OK, BAD_AMQP_DATA or NO_MEMORY, and on OK the offset has advanced and is within the buffer.',
 'every byte string of up to 2^30 bytes (beyond that the decoder\'s int capacity doubling can overflow), every start offset within it, every allocator behaviour','the input space is all byte strings; fuzzing samples it',f'{T}:amqp_decode_table_internal',f'{T}:amqp_decode_field_value',f'{T}:amqp_decode_array',f'{PR}:DECLARE_CODEC_BASE_TYPE,amqp_decode_bytes')
p('C03','Table encoding never writes out of bounds; succeeds when it fits','amqp_encode_table never writes outside the supplied buffer and never touches bytes before the start offset; for a well-formed table it succeeds iff the encoding fits in the remaining space, and it then writes exactly the table\'s serialisation.',
 'every table, every buffer size, every offset','boundary sizes times recursive values is unbounded',f'{T}:amqp_encode_table',f'{T}:amqp_encode_array',f'{PR}:DECLARE_CODEC_BASE_TYPE,amqp_encode_bytes')
p('C04','Nesting depth limit','Decoding rejects any table nested more than the limit (100) with BAD_AMQP_DATA, whatever its size, so the recursion depth of the decoder is bounded; every well-formed table within the limit is accepted.',
 'every byte string and every depth','needs all depths and all shapes',f'{T}:amqp_decode_table_internal',f'{T}:amqp_decode_field_value',f'{T}:TABLE_DEPTH_LIMIT')
p('C05','Wire integers are big-endian on every host','Every multi-byte integer the library encodes appears big-endian on the wire and is decoded from big-endian, on both little- and big-endian hosts.',
 'every 8/16/32/64-bit value, both host byte orders','2^64 values, and tests run on one endianness only',f'{PR}:is_bigendian,amqp_e16,amqp_e32,amqp_e64,amqp_d64',f'{PR}:DECLARE_CODEC_BASE_TYPE')
p('C06','amqp_table_clone makes an equal deep copy','If amqp_table_clone returns OK the copy equals the original (all entries, in order, at every nesting level) and none of its storage is the original\'s; on failure it returns NO_MEMORY or INVALID_PARAMETER.',
 'every table, every allocator behaviour','recursive unbounded data',f'{T}:amqp_table_clone',f'{T}:amqp_field_value_clone',f'{T}:amqp_table_entry_clone')
p('C07','amqp_table_entry_cmp is a total preorder','amqp_table_entry_cmp orders entries lexicographically by key bytes, shorter prefix first; it is antisymmetric in sign, transitive and returns 0 exactly for equal keys, so it is a valid qsort comparator.',
 'every pair and triple of entries with keys below 2^31 bytes (AMQP allows 255)','all byte strings',f'{T}:amqp_table_entry_cmp')
p('C08','Table lookup by key finds the first match','amqp_table_get_entry_by_key returns the first entry whose key equals the given key, or NULL iff there is none.',
 'every table and key','all tables',f'{T}:amqp_table_get_entry_by_key')
p('C09','Client-property merge','amqp_merge_capabilities yields a table in which every key of the two inputs is present, keys of the second argument override, nested tables with the same key are merged recursively, and it never dereferences an invalid pointer.',
 'every pair of tables, every allocator behaviour','recursive unbounded data; duplicate keys',f'{S}:amqp_merge_capabilities')
p('C10','Method argument round trip','For every AMQP method the library knows and every argument value whose strings and tables are encodable, decoding the encoded method gives back equal arguments and consumes exactly the bytes written.',
 'every method, every argument record, every buffer large enough, both endiannesses','64 methods times unbounded argument values',f'{F}:amqp_encode_method',f'{F}:amqp_decode_method')
p('C11','Decoding untrusted methods is memory safe','amqp_decode_method on arbitrary bytes and arbitrary method id never reads outside the buffer and returns OK, BAD_AMQP_DATA, NO_MEMORY or UNKNOWN_METHOD.',
 'every method id, every byte string','all byte strings',f'{F}:amqp_decode_method')
p('C12','Method set agreement','A method id is decodable iff it is encodable iff it has a name; unknown ids give UNKNOWN_METHOD / NULL; exactly the content-bearing methods are reported as carrying content; names are distinct.',
 'every 32-bit method id','2^32 ids',f'{F}:amqp_method_name',f'{F}:amqp_method_has_content',f'{F}:amqp_decode_method',f'{F}:amqp_encode_method')
p('C13','Basic properties round trip','For any subset of the basic content properties and any encodable values, encoding then decoding gives the same flags and the same values for every flagged property.',
 'every flag subset and every value','2^14 subsets times unbounded values',f'{F}:amqp_encode_properties',f'{F}:amqp_decode_properties')
p('C14','Decoding untrusted content properties is safe','amqp_decode_properties on arbitrary bytes has no undefined behaviour: it never reads out of bounds and the property-flag continuation words never shift out of range.',
 'every class id and byte string','all byte strings, including chains of continuation words',f'{F}:amqp_decode_properties')
p('C15','Over-long short strings are rejected, never truncated','Encoding a method or property list whose short string exceeds 255 bytes fails with an error status instead of emitting a frame with a truncated length; likewise for table keys.',
 'every string length','all lengths; the failure is a silent wrap modulo 256',f'{F}:amqp_encode_method',f'{F}:amqp_encode_properties',f'{T}:amqp_encode_table')
p('C16','Frame round trip','The bytes amqp_send_frame puts on the wire for a frame, fed to a peer\'s amqp_handle_input in the steady state, produce exactly one frame with the same channel, type and contents and consume exactly those bytes.',
 'every encodable frame of every type, every frame_max','unbounded frames',f'{C}:amqp_frame_to_bytes',f'{C}:amqp_handle_input')
p('C17','Frame parsing is independent of how bytes are split','The sequence of frames and the final status obtained from a byte stream do not depend on how the transport splits the stream across reads.',
 'every byte stream and every way of splitting it','exponentially many splits of unbounded streams',f'{C}:amqp_handle_input',f'{C}:consume_data')
p('C18','Inbound frame size limit','A frame whose declared size exceeds the negotiated frame_max is rejected with BAD_AMQP_DATA before its payload is buffered; memory allocated per frame never exceeds frame_max.',
 'every header, every frame_max','all 32-bit sizes at the boundary and beyond; wraparound',f'{C}:amqp_handle_input')
p('C19','Bad frames are rejected and the error is sticky','A frame not ending in the frame-end octet is never delivered; after a framing error every later amqp_handle_input call with data reports an error and no frame is delivered.',
 'every byte stream, every continuation','all histories after the error',f'{C}:amqp_handle_input')
p('C20','Frame payload parsing is memory safe','amqp_handle_input never reads outside the bytes of the frame it has received, for any frame a peer can send.',
 'every byte stream','all byte streams; payload lengths below the fixed prefix of method/header frames underflow',f'{C}:amqp_handle_input')
p('C21','First frame is handled like any other','The first frame received on a connection is parsed exactly as it would be later on.',
 'every first frame','all frames; only the first differs',f'{C}:amqp_handle_input')
p('C22','Outbound frames stay inside the outbound buffer','Serialising a frame never writes outside the outbound buffer of size frame_max; frames that do not fit are refused with an error.',
 'every frame, every frame_max the peer can negotiate','all sizes including those negotiated below protocol minimum',f'{C}:amqp_frame_to_bytes',f'{C}:amqp_tune_connection')
p('C23','Sent bytes are exactly the frame','When amqp_send_frame returns OK, exactly the frame\'s bytes have been passed to the transport, in order and once, however the transport splits partial writes; on an error a prefix has been passed.',
 'every sequence of partial writes, would-block results and clock readings','schedules of the transport',f'{S}:amqp_send_frame_inner',f'{S}:amqp_try_send')
p('C24','Publish fragments the body faithfully','A successful amqp_basic_publish sends one method frame, one header frame carrying the body length, and body frames each non-empty and at most frame_max-8 long whose concatenation is the body.',
 'every body, every frame_max > 8','all body sizes relative to frame_max',f'{A}:amqp_basic_publish',f'{A}:amqp_basic_publish')
p('C25','The last frame of a publish is flushed','All frames of a publish but the last are sent with the MORE hint, and the last frame is sent without it, so nothing is held back.',
 'every body length','boundary: body an exact multiple of the usable size',f'{A}:amqp_basic_publish')
p('C26','Frames are delivered in order, exactly once','Successive amqp_simple_wait_frame calls deliver the frames of the incoming stream exactly once, in order, independent of read splitting, timeouts and retries.',
 'every stream, every recv schedule, every sequence of calls','schedules and call histories',f'{S}:amqp_simple_wait_frame_noblock',f'{S}:wait_frame_inner',f'{S}:amqp_queue_frame')
p('C27','Waiting on one channel keeps other channels\' frames','Waiting for a frame on one channel returns the earliest pending frame of that channel and leaves every other pending frame available in its original order.',
 'every queue content, every stream','all interleavings of channels',f'{S}:amqp_simple_wait_frame_on_channel')
p('C28','A frame put back is the next one delivered','After a frame has been put back it is the next frame delivered by amqp_simple_wait_frame, and the rest of the queue is unchanged.',
 'every queue content','all histories',f'{S}:amqp_put_back_frame',f'{S}:amqp_simple_wait_frame_noblock')
p('C29','Heartbeat frames never reach the application','Heartbeat frames received from the peer are consumed by the library and never returned from amqp_simple_wait_frame or a RPC.',
 'every stream and schedule, including those where sending blocks','depends on timing of blocked sends',f'{S}:wait_frame_inner',f'{S}:amqp_try_recv')
p('C30','RPC returns its own reply and keeps the rest','amqp_simple_rpc returns the first method frame on its channel that is one of the expected replies or a close of the channel/connection; all other frames received meanwhile are queued, none lost, in arrival order.',
 'every stream of frames interleaved with the reply','all interleavings',f'{S}:simple_rpc_inner',f'{S}:amqp_id_in_reply_list')
p('C31','RPC timeout closes the connection','If the RPC deadline expires with no reply, the RPC reports TIMEOUT as a library exception and the socket is closed, so a late reply can never be mistaken for the answer of a later RPC.',
 'every stream and clock schedule','timing',f'{S}:simple_rpc_inner',f'{S}:amqp_simple_rpc')
p('C32','amqp_simple_wait_method returns only what was asked for','amqp_simple_wait_method returns OK only with a method frame of the expected channel and method id; any other frame gives WRONG_METHOD.',
 'every frame','all frames',f'{S}:amqp_simple_wait_method_list',f'{S}:amqp_simple_wait_method')
p('C33','Releasing buffers never invalidates pending data','amqp_maybe_release_buffers and amqp_maybe_release_buffers_on_channel never release memory that a frame still queued for delivery points into.',
 'every history of receives, queueing and releases on every channel','histories',f'{C}:amqp_maybe_release_buffers',f'{C}:amqp_maybe_release_buffers_on_channel',f'{S}:amqp_queue_frame')
p('C34','Properties returned by accessors stay valid','After login, the tables returned by amqp_get_server_properties and amqp_get_client_properties remain valid memory until the connection is destroyed.',
 'every later history of the connection','use-after-recycle only shows after later traffic',f'{S}:amqp_login_inner',f'{C}:amqp_get_client_properties',f'{C}:amqp_get_server_properties')
p('C35','Tune negotiation','After a successful login the channel_max, frame_max and heartbeat in force never exceed a non-zero value asked for by either side (with 0 meaning "no preference" where the code says so), and the values sent in tune-ok are those used locally.',
 'every pair of client parameters and server tune','2^80 combinations and zero cases',f'{S}:amqp_login_inner',f'{C}:amqp_tune_connection')
p('C36','Credentials are not sent to an unsuitable broker','The login credentials are put on the wire only after the broker has announced protocol 0-9 and listed the requested SASL mechanism; otherwise login fails without sending them.',
 'every server behaviour','all server messages',f'{S}:amqp_login_inner',f'{S}:sasl_mechanism_in_list')
p('C37','SASL responses and mechanism matching','The PLAIN response is NUL user NUL password byte for byte, EXTERNAL is the identity; a mechanism is accepted iff it is a whole space-separated word of the broker\'s list.',
 'every user, password and mechanism list','all strings',f'{S}:sasl_response',f'{S}:sasl_mechanism_in_list')
p('C38','A failed login leaves no usable half-open connection','If login fails with a library error after the parameters were accepted the socket has been closed; a NORMAL reply implies the whole handshake was carried out in order.',
 'every server behaviour and transport schedule','all failure points',f'{S}:amqp_login_inner')
p('C39','Deadline arithmetic','A deadline computed from a timeout is the current time plus the timeout; infinite and zero timeouts are handled specially; invalid timevals are refused.',
 'every timeval and clock value','2^128 values, overflow',f'{TI}:amqp_time_from_now',f'{TI}:amqp_time_s_from_now')
p('C40','Poll timeouts never exceed the deadline','The millisecond timeout handed to poll is at most the time left, is zero once the deadline has passed and is -1 only for an infinite deadline.',
 'every deadline and clock value','overflow of int for far deadlines',f'{TI}:amqp_time_ms_until',f'{TI}:amqp_time_tv_until')
p('C41','Heartbeat supervision','With heartbeat interval h: a heartbeat is sent when nothing was sent for h seconds while waiting; if nothing is received for 2h seconds the wait fails with HEARTBEAT_TIMEOUT and closes the socket; with h = 0 neither happens.',
 'every schedule of traffic and clock','timing',f'{S}:wait_frame_inner',f'{S}:amqp_try_recv',f'{S}:recv_with_timeout','librabbitmq/amqp_connection.c:amqp_tune_connection',f'{PR}:amqp_heartbeat_send,amqp_heartbeat_recv')
p('C42','URL parsing recovers the components','amqp_parse_url on amqp(s)://user:password@host:port/vhost with percent-encoding returns the decoded components; omitted components take their defaults (guest, guest, localhost, 5672/5671, /).',
 'every component string','all strings',f'{U}:amqp_parse_url')
p('C43','URL parsing is safe and terminates','amqp_parse_url on any NUL-terminated string never reads or writes outside it, never lengthens it, terminates, and returns OK or BAD_URL.',
 'every string','all strings',f'{U}:amqp_parse_url',f'{U}:find_delim')
p('C44','Malformed percent escapes are rejected','A percent sign not followed by two hexadecimal digits, or encoding a non-ASCII byte, makes amqp_parse_url return BAD_URL.',
 'every string','sscanf semantics on all inputs',f'{U}:find_delim')
p('C45','Message body assembly','amqp_read_message returns OK only with the body equal to the concatenation of the body frames received on that channel and of exactly the length declared in the header frame.',
 'every fragmentation of every body, every interleaving','fragmentations',f'{CO}:amqp_read_message')
p('C46','amqp_consume_message leaves non-delivery frames pending','If the next frame is not a basic.deliver, amqp_consume_message returns UNEXPECTED_STATE and the frame is still the next one delivered.',
 'every frame','all frames',f'{CO}:amqp_consume_message')
p('C47','Publisher-confirm wait','amqp_publisher_confirm_wait returns the ack, nack or reject frame\'s payload iff the next frame is that method, and on any other frame reports an error without losing the frame.',
 'every frame','all frames',f'{A}:amqp_publisher_confirm_wait')
p('C48','Pool allocations are disjoint, aligned and in bounds','Successive successful pool allocations return pairwise disjoint, 8-byte aligned blocks of at least the requested size, inside memory obtained from the system.',
 'every sequence of requests, every page size, every malloc behaviour','histories',f'{M}:amqp_pool_alloc',f'{M}:record_pool_block')
p('C49','Pool recycling and emptying','Recycling a pool frees every large block and makes every page reusable, without leaking or double-freeing; emptying frees every block exactly once.',
 'every history','histories, malloc failure points',f'{M}:recycle_amqp_pool',f'{M}:empty_amqp_pool',f'{M}:empty_blocklist')
p('C50','TLS peer verification','If opening a TLS socket succeeds with peer verification on, the handshake verified the certificate chain; with hostname verification on, the certificate matches the host given; failing either closes the socket and returns the matching error.',
 'every OpenSSL result','all combinations of external results and failure points',f'{O}:amqp_ssl_socket_open')
p('C51','TLS version selection','amqp_ssl_socket_set_ssl_versions succeeds iff min <= max and both are supported, and then restricts the context to that range.',
 'every pair of version values','all values',f'{O}:amqp_ssl_socket_set_ssl_versions')
p('C52','OpenSSL library life cycle','The library\'s global TLS I/O state is set up when the first TLS socket is created, is in place as long as any TLS socket exists, is torn down exactly when the last one is deleted, and is never set up twice or torn down while in use; a failed set-up counts no socket.',
 'every history of socket creation and destruction','histories',f'{O}:initialize_ssl_and_increment_connections,decrement_ssl_connections')
p('C53','Status strings','amqp_error_string2 returns a specific non-NULL message for every status code the API defines and the unknown-error message otherwise, without undefined behaviour.',
 'every int','2^32 values',f'{A}:amqp_error_string2')
p('C54','Connecting tries every address','Opening a TCP connection tries the resolved addresses in order, returns the first that connects, leaks no descriptor for the failed ones and stops at the deadline.',
 'every address list and failure pattern','all patterns',f'{S}:amqp_open_socket_inner',f'{S}:amqp_open_socket_noblock')
p('C55','Socket state machine','On a closed socket send/recv return SOCKET_CLOSED without a system call, opening an open socket returns SOCKET_INUSE, closing twice returns SOCKET_CLOSED, and interrupted system calls are retried.',
 'every history of socket operations and errno results','histories',f'{TC}:amqp_tcp_socket_send,amqp_tcp_socket_recv,amqp_tcp_socket_close,amqp_tcp_socket_open')
p('C56','No received data is discarded by a wait','Data received from the transport during a wait for frames is either parsed or kept for a later call.',
 'every schedule, including heartbeats being sent while the send side is blocked','timing',f'{S}:wait_frame_inner',f'{S}:amqp_try_send',f'{S}:amqp_try_recv')
p('C57','Protocol header','amqp_send_header reports OK only if the eight protocol header bytes were handed to the transport.',
 'every transport schedule','timing of would-block',f'{S}:send_header_inner')
p('C58','Non-blocking wait never blocks past its deadline','amqp_simple_wait_frame_noblock with a finite timeout returns TIMEOUT only after the deadline was reached according to the clock, and never polls for longer than the remaining time.',
 'every schedule','timing',f'{S}:recv_with_timeout',f'{S}:amqp_poll')
p('C59','Byte-string helpers','amqp_bytes_equal is extensional equality; amqp_bytes_malloc_dup copies exactly, or on allocation failure yields a NULL pointer (with the original length).',
 'every byte string','all strings',f'{M}:amqp_bytes_equal',f'{M}:amqp_bytes_malloc_dup')
p('C60','Timeout setters validate and store','amqp_set_rpc_timeout and amqp_set_handshake_timeout accept exactly the non-negative normalised timevals, store a copy, and the getters return it; a rejected value changes nothing.',
 'every timeval, every history of calls','histories',f'{A}:amqp_set_rpc_timeout',f'{A}:amqp_set_handshake_timeout')
p('C61','The outgoing stream stays framed','As long as every call on an open connection succeeds, is refused by the server, or reports that time ran out, the octets handed to the transport form a sequence of complete, well-delimited frames; a call that fails in any other way cuts at most one frame short, the last one.',
 'every history of calls (sending, publishing, RPC, waiting, consuming, confirming, releasing), every transport and poll schedule, every heartbeat timing','histories and schedules',f'{S}:amqp_try_send,amqp_send_frame_inner,wait_frame_inner',f'{C}:amqp_frame_to_bytes',f'{A}:amqp_basic_publish')
p('C62','Every RPC function sends its method and returns its -ok','Each function that makes a request of the broker (amqp_queue_declare, amqp_basic_consume, ...) sends one frame holding its AMQP method with the caller\'s values in the protocol\'s argument order (reserved arguments zero, no-wait false) on the caller\'s channel, then at most heartbeats; it returns the arguments of the matching -ok method or NULL, and amqp_get_rpc_reply then tells which of -ok, server refusal or library error it was.',
 'every such function, every argument value, channel, transport schedule and reply','twenty functions times all values and schedules; a swapped pair of same-typed arguments is only visible on the wire',f'{F}:amqp_queue_declare,amqp_basic_consume,amqp_exchange_declare',f'{S}:amqp_simple_rpc_decoded,amqp_get_rpc_reply')
p('C63','Closing, acknowledging and getting','amqp_channel_close and amqp_connection_close refuse reply codes outside 0..65535 without sending, and otherwise send close with the code and its decimal notation; amqp_basic_ack, _reject and _nack send the method with exactly the caller\'s tag and flags; amqp_basic_get awaits get-ok or get-empty, and amqp_get_rpc_reply repeats its result.',
 'every code, tag, flag and transport schedule','all values and schedules',f'{A}:amqp_channel_close,amqp_connection_close,amqp_basic_ack,amqp_basic_reject,amqp_basic_nack,amqp_basic_get')
p('C64','Memory of a connection','Whatever the library stores for a channel (frames, queued frames, replies) stays in place and overlaps nothing else until that channel\'s buffers are released, no matter what happens on other channels, how often the connection is tuned, or which allocations fail; after a successful tuning the output buffer really has the negotiated size; nothing is freed twice.',
 'every history of storing, releasing and tuning over all 65536 channels (16 hash buckets), every pattern of refused allocations','histories; bucket collisions and allocation failures',f'{M}:amqp_get_or_create_channel_pool,amqp_get_channel_pool',f'{C}:amqp_tune_connection,amqp_maybe_release_buffers_on_channel')
p('C65','Creating and destroying a connection','amqp_destroy_connection gives back all memory of the connection, exactly once, after any history; a failing amqp_new_connection leaves nothing behind.',
 'every history, every pattern of refused allocations','histories and allocation failure points',f'{C}:amqp_new_connection,amqp_destroy_connection')
p('C66','Names and severity of protocol constants','amqp_constant_name returns, for every constant of AMQP 0-9-1, its own name, and "(unknown)" for every other integer; amqp_constant_is_hard_error is 1 exactly for the reply codes after which the connection is closed.',
 'every int','2^32 values; a misplaced case is only visible for the one code it affects',f'{F}:amqp_constant_name,amqp_constant_is_hard_error')
p('C67','The table decoder reads exactly what the octets spell','A table returned by amqp_decode_table is what the octets it consumed spell in the AMQP grammar, the grammar being relaxed in exactly two ways: a container\'s last entry may end after the container\'s declared length, and any non-zero boolean octet is true.  Conversely every table spelled that way inside the buffer, nested within the limit, is returned.  Octets that keep to the unrelaxed grammar are sent on unchanged when the decoded table is encoded again.',
 'every buffer, offset, host byte order and allocation schedule; for the converse every spelling with memory available','the grammar is recursive and its language infinite; over-acceptance shows only on inputs no test author writes',f'{T}:amqp_decode_table,amqp_decode_array,amqp_decode_field_value,amqp_encode_table')
TL='tools/common.c'
p('C68','Tools: the whole input is read, the whole output written','When a tool reads a message from its standard input it gets every octet up to the end of the file; when it writes one it hands over every octet in order, whatever portions the operating system takes; it ends otherwise only with status 1 after a failed read or write.',
 'every portioning of reads and writes, every interruption, every allocation pattern','portionings',f'{TL}:read_all,write_all')
p('C69','Tools: a message body is copied completely','amqp-get and amqp-consume write exactly the contents of the body frames of the message, as many octets as its header announces, and on failure a beginning of it.',
 'every fragmentation of the body, every transport schedule, every portioning of writes','fragmentations and schedules',f'{TL}:copy_body','tools/get.c:do_get')
p('C70','amqp-consume acknowledges exactly the messages its command accepted','For each delivery the command is started once with a pipe, the pipe gets the body and is closed, the command is waited for, and that delivery is acknowledged if and only if the command exited with status 0 and acknowledgements are wanted; --count limits the number of messages.',
 'every run: frames, command results, failures at every point','histories of frames and commands',"tools/consume.c:do_consume","tools/unix/process.c:pipeline,finish_pipeline")
p('C71','amqp-publish publishes what it was given','One message with the --body, or with all of the standard input, or one per line of it; to the exchange, with the routing key, properties and headers of the options.',
 'every combination of options, every input','all inputs and options',"tools/publish.c:main,do_publish")
p('C72','Tools: the authentication file','Accepted are exactly files of the two lines username:... and password:...; any other file is refused with status 1.',
 'every file','all byte strings',f'{TL}:read_authfile')
p('C73','amqp-consume prints queue names safely','The printed form of a name stays inside its buffer, has only printable characters and identifies the name.',
 'every name','all byte strings',"tools/consume.c:stringify_bytes")
p('C74','amqp-consume sets up its queue as the options say','The queue is declared and bound once with every routing key of the list, and the consumer uses that queue.',
 'every combination of options and server replies','all combinations',"tools/consume.c:setup_queue")
p('C75','Tools: connection options','The server, port, credentials, virtual host and use of TLS are those of the options or the URL, contradictory options are refused, and no option value leads to an access out of bounds.',
 'every combination of option values','all strings and combinations',f'{TL}:init_connection_info')
p('C76','URL parsing accepts only URLs','If amqp_parse_url returns OK, the string was amqp:// or amqps://, an optional user and password, a host (possibly in brackets), an optional decimal port up to 65535 and an optional virtual host of a single path segment, percent-encoded, and the result holds exactly the components written, with the documented defaults for those absent.','every NUL-terminated string accepted','every accepted string has to be of that form; tests only show that some bad strings are refused',f'{U}:amqp_parse_url,find_delim')
p('C77','A write the transport could not carry out is repeated with the same octets before anything else is written','Whenever the transport reports that a write cannot be carried out right now (it wants to read or write first, as a TLS socket in the middle of a renegotiation or a full TCP socket does), the next write the library performs on the connection presents exactly the same octets, no matter how many polls, received frames, heartbeat expirations or deadline checks lie in between, and no matter in which public call they happen; no call that returns success, a server exception or a time-out leaves a write to be repeated; after a call that fails, at most one is left, the last. This is what OpenSSL requires of SSL_write: a retried write with different contents is an error there and corrupts the record stream.','every sequence of publishes, frames sent by hand, RPCs, deliveries and waits, every amount the transport accepts at each step, every pattern of blocked writes, and every clock, provided no poll reports success for a deadline that has passed and the transport never returns the time-out code for a write','Which write blocks, how much of a frame is accepted before it, and whether a heartbeat or a received frame intervenes depends on the schedule of the network; tests with a loopback socket almost never see a blocked write.',f'{C}:amqp_try_send,amqp_send_frame_inner;{S}:amqp_socket_send')
p('C78','A message arrives as it was published','When a server passes on the content header and the body octets of a message sent by amqp_basic_publish (cut into body frames in any way, on any channel, interleaved with frames of other channels and heartbeats), amqp_consume_message on an open connection returns exactly the delivery\'s fields, the flagged properties and the body that were published, unless the socket fails or memory runs out; and consecutive deliveries are returned by consecutive calls in order, none lost or repeated.','every message, every way of cutting the stream into body frames and of receiving it in pieces, every interleaving with other channels','quantifies over all messages, fragmentations and read schedules at both ends, and claims that nothing but an outside failure keeps a message from arriving',f'{CO}:amqp_consume_message,amqp_read_message,amqp_basic_properties_clone;{A}:amqp_basic_publish;{S}:amqp_simple_wait_frame_on_channel,wait_frame_inner;{T}:amqp_table_clone')
p('C79','TLS credentials are in force exactly when the call says so','After any history of calls of amqp_ssl_socket_set_key, set_key_buffer, set_key_engine, set_cert, set_cacert, set_key_passwd and enable_default_verify_paths on a TLS socket, what is in force (certificate chain, private key, trusted certificates) is exactly what the calls that returned OK were given; a failed call returns a negative status because OpenSSL refused something, because the key buffer has 2^31 octets or more, or because the build has no engine API, and leaves everything as it was; no temporary object is leaked or used after being freed, whatever OpenSSL answers.','every history of calls, every sequence of OpenSSL answers','OpenSSL failures at every point of every history',f'librabbitmq/amqp_openssl.c:amqp_ssl_socket_set_key;librabbitmq/amqp_openssl.c:amqp_ssl_socket_set_key_buffer;librabbitmq/amqp_openssl.c:amqp_ssl_socket_set_key_engine;librabbitmq/amqp_openssl.c:amqp_ssl_socket_set_cert;librabbitmq/amqp_openssl.c:amqp_ssl_socket_set_cacert;librabbitmq/amqp_openssl.c:amqp_ssl_socket_enable_default_verify_paths;librabbitmq/amqp_openssl.c:amqp_ssl_socket_set_key_passwd')
p('C80','TLS I/O is repeated exactly after transient socket errors','Each read and write OpenSSL makes through a TLS socket is one recv or send that cannot raise SIGPIPE, its result is passed on unchanged, and OpenSSL is told to retry exactly if the call failed with EINTR, EAGAIN/EWOULDBLOCK, EINPROGRESS, EALREADY, ENOTCONN or EPROTO, regardless of earlier calls; never at the end of the stream.','every errno, every earlier state of the retry flags','all errno values, all earlier states',f'librabbitmq/amqp_openssl_bio.c:amqp_openssl_bio_write;librabbitmq/amqp_openssl_bio.c:amqp_openssl_bio_read;librabbitmq/amqp_openssl_bio.c:amqp_openssl_bio_should_retry')
p('C81','amqp_frames_enqueued and amqp_data_in_buffer say when waiting is safe','If amqp_frames_enqueued is true, the next wait for a frame returns the oldest enqueued frame without touching the transport; if the data in the receive buffer completes a frame, so does a wait then; if both functions say no, a frame is only returned after something was received. When a wait times out both say no and every frame received so far has been delivered, so the application may wait for the descriptor to become readable without missing a frame.','every connection state, every history of waits and sends, every transport','all schedules of arrival and blocking',f'{S}:amqp_frames_enqueued;{S}:amqp_data_in_buffer;{S}:amqp_simple_wait_frame_noblock;{S}:wait_frame_inner')
p('C82','A run of a tool is one whole session on the wire','amqp-publish, amqp-get or amqp-consume that returns from its main function has connected to the host and port the options say, logged in once with the user, password and virtual host they say, opened channel 1, sent on it exactly the requests of what it did (published messages, gets, acknowledgements, queue set-up) in order, then closed the channel and the connection with the code 200; open and closes were each answered after they had been sent, and nothing else was sent but heartbeats. The status is 0 (amqp-get: 2 if there was no message); every other exit has status 1. Whether the CA certificate and key given could be loaded makes no difference.','all options, authentication files, inputs, operating system and transport behaviours that let the tool end','all options and all schedules of the transport and server','tools/common.c:make_connection,close_connection,die_rpc;tools/publish.c:main;tools/get.c:main;tools/consume.c:main')
p('C83','amqp-declare-queue and amqp-delete-queue print only what the server answered','The tool declares (deletes) exactly the queue of the options with exactly the flags of the options, prints the name (number of messages) in the answer that came in after the request and a newline, closes channel and connection, and returns 0. If it exits otherwise, the status is 1 and it has printed nothing, or the answer the server gave to the request.','all options, operating system and transport behaviours','all schedules of the transport and server','tools/declare_queue.c:main;tools/delete_queue.c:main;tools/common.c:make_connection,close_connection')
p('C84','What was received can be sent on','A frame handed to the application is of a kind the protocol has and carries exactly the fields its method number or its class and property flags prescribe, each of its type, whatever octets the peer sent. Sent on over another connection with a frame limit at least as large, on any channel, it is accepted and its receiver gets the same contents: no spelling a peer can choose (over-long tables, unusual booleans, trailing octets) produces a value that does not survive forwarding.','all octet streams in all pieces, all frame limits up to 2^30, all receivers, all byte orders','quantifies over all octet streams a peer can send',f'{C}:amqp_handle_input,amqp_frame_to_bytes;{F}:amqp_decode_method,amqp_decode_properties,amqp_encode_method,amqp_encode_properties;{T}:amqp_decode_table,amqp_encode_table')
p('C85','No sequence of calls has undefined behaviour','On a connection that is logged in, while allocations succeed, the application sends only frames that are what their type says and body frames within the negotiated size, and the server sends frames of any kind with any contents (complete or not, too large, wrongly ended), no sequence of calls of the library - waiting, sending, RPCs, reading and consuming messages, waiting for confirms, publishing, releasing memory, closing the socket, each whatever the earlier ones returned - reads or writes outside an object, follows a NULL pointer or aborts.','every sequence of calls with any arguments, every octet stream of the server, every network schedule, failure and clock','quantifies over all histories of calls, all server octets and all schedules; a test sees one of each and notices an out-of-bounds access only by luck',f'{S}:amqp_simple_wait_frame,amqp_simple_rpc,recv_with_timeout;{C}:amqp_handle_input,amqp_send_frame,amqp_frame_to_bytes;{CO}:amqp_consume_message,amqp_read_message,amqp_basic_properties_clone;{A}:amqp_basic_publish,amqp_publisher_confirm_wait')
p('C86','No undefined behaviour from the first octet of a connection on','A client that logs in on a new connection, whatever vhost, sizes, heartbeat, properties and credentials it passes, and then makes any calls in any order, never triggers undefined behaviour or an abort: neither in the login nor after it, however the octets of the server are cut into pieces. This needs memory, a server whose frames have the sizes AMQP prescribes (within the limit of a new connection before connection.tune, within the limit then agreed upon after it), and heartbeats that are off or never held up.','every server octet stream, every fragmentation, schedule and clock, every login argument, every sequence of calls after the login','all octet streams and schedules over a whole session, across the change of the frame limit',f'{S}:amqp_login_with_properties,amqp_login_inner,wait_frame_inner;{C}:amqp_tune_connection,amqp_handle_input,amqp_release_buffers,amqp_send_frame_inner')
p('C87','Messages belong to the application','A message or envelope that amqp_read_message or amqp_consume_message hands over with AMQP_RESPONSE_NORMAL is the application’s: every piece of memory it points to (body, strings, copies of properties) exists with the length stated, and stays so, apart from everything else in the process, whatever is done with the connection afterwards, including destroying it, until the application destroys the message; destroying it frees exactly what it owned, in any order relative to other messages and to the connection; a call that fails leaves nothing allocated; nothing is ever freed twice or copied outside its block','Every history of consuming, reading, destroying and other use of a connection, with any frames and failures in any wait of any call, and any pattern of the system refusing memory','The interleavings of deliveries, partial deliveries, releases and destructions, and the patterns of refused allocations, are unbounded; tests see neither leaks on rare error paths nor double frees in untried orders',f'librabbitmq/amqp_consumer.c:amqp_consume_message,amqp_read_message,amqp_destroy_message,amqp_destroy_envelope,amqp_basic_properties_clone;librabbitmq/amqp_mem.c:amqp_bytes_malloc_dup,amqp_bytes_malloc,amqp_bytes_free')
p('C88','Memory use is bounded by what is pending, not by the age of the connection','If the application releases the buffers of its channels often enough that at no time more than K octets are pending for any one channel, then after any history of storing, tuning and releasing the connection occupies at most a fixed number of octets determined by K, the number of channels used and the largest frame size agreed; the same holds of an amqp_pool_t that is recycled or emptied.','all heaps, all finite histories of stores, releases, tunings and properties on any channels, all K; unbounded length','A test runs for a finite time on one workload; slow growth shows only on a long-lived connection, and the bound must hold for every interleaving of channels and sizes.',f'{M}:amqp_pool_alloc,recycle_amqp_pool,empty_amqp_pool,record_pool_block,amqp_get_or_create_channel_pool;{C}:amqp_release_buffers,amqp_maybe_release_buffers_on_channel,amqp_tune_connection')
p('C89','Once the connection is lost every call returns','If from some moment on the network only reports that the connection is gone, every sequence of calls on the connection (waiting, sending, requests, publishing, consuming, confirms, releasing, closing) comes to an end, and so does a login and what follows it, whatever arrived before and whatever memory is refused.','every network behaviour before the loss, every connection state, every sequence of calls, every allocator behaviour','termination: a test can only see that one call returned, not that no loop can go round for ever',f'{C}:amqp_send_frame_inner;{S}:wait_frame_inner,recv_with_timeout,amqp_try_send,amqp_poll,simple_rpc_inner,amqp_login_inner;librabbitmq/amqp_consumer.c:amqp_read_message,amqp_consume_message')
p('C90','A call on a connection whose server has fallen silent comes back','Once the server has fallen silent - nothing arrives from it any more, what is sent to it is refused or swallowed, the polls made run out - every call, amqp_login included, returns, whatever had arrived before; with heartbeats on, provided the clock goes on.','every network behaviour up to the point of silence, every connection state, every sequence of calls','termination under every schedule',f'{S}:wait_frame_inner,recv_with_timeout,amqp_poll;{C}:amqp_send_frame_inner')
p('C91','A negative time limit is refused without effect','Waiting for a frame, a message or a confirm with a negative time limit returns INVALID_PARAMETER and leaves the connection, the network and the clock untouched; the setters of the handshake and RPC time limits refuse negative values and keep the old ones, so the limits in force are never negative.','every connection state, every time value, every sequence of settings','needs all values and all histories of settings',f'{TI}:amqp_time_from_now;{A}:amqp_set_handshake_timeout,amqp_set_rpc_timeout;{S}:amqp_simple_wait_frame_noblock')
p('C92','A call with a time limit comes back','A wait with a time limit returns, whatever the server does.','every network behaviour, every limit, every connection state','termination under every schedule',f'{S}:wait_frame_inner,recv_with_timeout,amqp_poll')
p('C93','With heartbeats on, no call sleeps for longer than two intervals','Once heartbeats are in force with an interval of h seconds, no sleep in any call lasts longer than 2h seconds at a go, whether the call waits to receive or to send and whether or not it was given a time limit; the only exception is the sending of the protocol header.','every network behaviour, every clock, every sequence of calls from the creation of the connection on','the length of every poll, in every history, under every schedule',f'{S}:amqp_poll,recv_with_timeout,wait_frame_inner,do_poll;{C}:amqp_send_frame_inner,amqp_tune_connection')
p('C94','How the client introduces itself','In a successful login the properties sent to the server in start-ok are exactly the library\'s own identity and capabilities (including that it understands authentication-failure closes and exchange-to-exchange bindings) when the application gives none, and otherwise these merged with the application\'s: a property the application sets is sent as set, every other one stays the library\'s, and capabilities are merged one by one.','every login that succeeds, every table of properties without a key occurring twice','all tables of properties, every network behaviour during the handshake',f'{S}:amqp_login_inner;{T}:amqp_merge_capabilities')
p('C95','What reading a message yields','What amqp_read_message (and amqp_consume_message after a delivery) returns is determined by the frames on the channel: the message if its header and exactly its body come; SERVER_EXCEPTION with the server\'s method if a channel.close or connection.close comes on the channel before it is complete; UNEXPECTED_STATE, the frame left unread, for anything else in place of the header; BAD_AMQP_DATA for anything else, or too much, in place of the body. All other frames of the channel remain to be read. The only other result is the status of a failed wait, or of properties that cannot be copied.','every sequence of frames on all channels, every way they are cut into reads, every connection state, memory not running out','all interleavings of frames and all splits into reads','librabbitmq/amqp_consumer.c:amqp_read_message,amqp_consume_message')
p('C96','A closed connection is inert','Once the socket of a connection is closed (by amqp_socket_close, a timed-out RPC, a failed login or a broken connection), every call on the connection returns; none of them, nor a new login, sends, receives, polls or closes anything, or makes the connection usable again; what they return does not depend on the network; sending calls and RPCs fail; waiting calls deliver what had been received before and fail once that is used up.','every state with a closed socket, every network, clock and allocator, every sequence of calls','the calls after a failure are arbitrary, and what an application must be able to rely on is the absence of any effect; tests check one call after one failure',f'{S}:amqp_try_send,recv_with_timeout,wait_frame_inner;{C}:amqp_send_frame_inner;{O}:amqp_tcp_socket_send')
p('C97','Time limits bound every sleep of the call','During a call with a time limit - a wait for a frame or a confirm, an RPC under amqp_set_rpc_timeout, amqp_login under its handshake timeout (12 seconds unless set otherwise) - no sleep lasts beyond the limit, counted from the start of the call.','every network behaviour, every clock that does not go back, every connection state and every limit below 24 days','the length of every poll under every schedule',f'{S}:simple_rpc_inner,amqp_simple_rpc,amqp_login_inner,amqp_simple_wait_frame_noblock,wait_frame_inner,amqp_poll;{A}:amqp_publisher_confirm_wait,amqp_set_rpc_timeout,amqp_set_handshake_timeout')
p('C98','A call that fails costs no received frame','If waiting for a frame, waiting on a channel, an RPC, sending a frame or publishing a message fails, the frames that arrived before or during the call and are not its own answer are still delivered later, each once and in order; and if it fails because of what the peer sent, all frames before that are.','every network behaviour, every failure and every connection state, including frames queued earlier','the frames in flight at every possible point of failure',f'{S}:amqp_simple_wait_frame_noblock,amqp_simple_wait_frame_on_channel,simple_rpc_inner,amqp_try_recv,amqp_queue_frame,wait_frame_inner;librabbitmq/amqp_connection.c:amqp_send_frame_inner;librabbitmq/amqp_api.c:amqp_basic_publish')
p('C99','Tables built with the constructors arrive as written','A table an application builds with amqp_table_construct_utf8_entry, _bool_entry and _table_entry from C strings is read by the peer exactly as written: keys and strings up to their first NUL, in order, booleans 1 for any value but 0, at every level.','every nesting of up to 101 levels of tables, all strings (keys up to 255 octets), every buffer and position in it, hosts of either endianness','all shapes and contents of tables',f'librabbitmq/amqp_table.c:amqp_table_construct_utf8_entry,amqp_table_construct_bool_entry,amqp_table_construct_table_entry,amqp_encode_table,amqp_decode_table;librabbitmq/amqp_mem.c:amqp_cstring_bytes')
p('C100','A failing call reports a documented status','Whatever a connection has been used for, whatever the server sends and however the transport behaves (as long as it gives a reason when it fails, as the library\'s TCP and TLS sockets do): when a call fails, the status the application is given, returned or in library_error, is a negative code of amqp_status_enum, and amqp_error_string2 has a message for it.','all histories of calls from amqp_new_connection on, with any timeouts set; all further calls and their arguments (timeouts below 2^31 ms); all servers, schedules, clock readings and allocation failures','Statuses pass through several layers (operating system, OpenSSL, polling, parser, encoder, allocator, RPC), which use positive counts and private codes among themselves; that none of these ever reaches the application is a statement about every path.',f'{S}:wait_frame_inner,do_poll,amqp_try_send,recv_with_timeout,amqp_simple_rpc,amqp_login_with_properties,send_header_inner;{A}:amqp_error_string2,amqp_basic_publish,amqp_publisher_confirm_wait;{O}:amqp_ssl_socket_send,amqp_ssl_socket_recv')
p('C101','A program does the same on big-endian and little-endian machines','Take a program that makes any sequence of calls on a connection (login, tune, send, publish, wait for frames, RPCs, reading and consuming messages, waiting for confirms, releasing buffers, setting time limits, closing), each call depending in any way on what the calls before it returned. Given the same answers of network, clock and allocator, its result is the same whether the host is big-endian or little-endian; and so is everything that happens outside: the same octets are offered to the socket in the same portions, the same polls and clock readings, in the same order.','all programs (arbitrary adaptive call sequences), all network/clock/allocator behaviours, both byte orders, every connection reached by calls','test suites run on one architecture; the equality ranges over all programs and all inputs from the network',f'{C}:amqp_handle_input,amqp_frame_to_bytes;librabbitmq/amqp_private.h:amqp_d16,amqp_d32,amqp_d64,amqp_e16,amqp_e32,amqp_e64;{S}:amqp_login,wait_frame_inner')
p('C102','What memory contained before is never observable','Take a program as in C101. Neither its result nor anything that happens outside depends on what memory contained before the library wrote to it: the send buffer of a new connection, the part of it that realloc adds when the frame size is tuned, the buffers that frames are received into. No such octet is sent to the peer, handed to the application, or decides a branch.','all programs, all network/clock/allocator behaviours, all contents of uninitialised memory','a leak of uninitialised memory shows only for particular contents and inputs; a test sees one content, a sanitizer one execution',f'{C}:amqp_handle_input,amqp_frame_to_bytes,amqp_new_connection,amqp_tune_connection;{M}:amqp_pool_alloc')
p('C103','A connection owns its sockets: every descriptor is opened, used and closed properly',
 'In every history of calls that respects the API (connections are made, given TCP or TLS sockets or descriptors of the application, used, re-equipped and destroyed), every system call and every OpenSSL call is made on a descriptor or session that is open at that moment: opened by the library or handed over by the application, and not closed since; nothing is closed or freed twice; the open descriptors are exactly those amqp_get_sockfd reports for some connection; giving a connection another socket, or destroying it, closes the descriptor it had; and when no connection is left everything that was opened or handed over has been closed.',
 'every history of calls on any number of connections, every behaviour of the operating system and of OpenSSL',
 'leaks and double closes show only over particular sequences of calls and failures; a test looks at a few',
 f'{C}:amqp_set_socket,amqp_get_sockfd,amqp_set_sockfd,amqp_destroy_connection;librabbitmq/amqp_socket.c:amqp_socket_delete;librabbitmq/amqp_tcp_socket.c:amqp_tcp_socket_new,amqp_tcp_socket_delete,amqp_tcp_socket_set_sockfd;librabbitmq/amqp_openssl.c:amqp_ssl_socket_new,amqp_ssl_socket_delete')
p('C104','Threads may share the TLS library','Threads may create, connect, use and delete TLS sockets of their own and set the engine at the same time: under every schedule nothing undefined happens (nothing the library shares is used after it is released or released twice, no assertion fails), no data race arises, no deadlock, under every fair schedule all threads finish, each call is atomic, and in the end the shared state is that of the sockets still alive.','every number of threads, all their programs, every interleaving of their accesses','interleavings: a test runs a few of them','librabbitmq/amqp_openssl.c:amqp_ssl_socket_new,amqp_ssl_socket_delete,initialize_ssl_and_increment_connections,decrement_ssl_connections,amqp_set_ssl_engine','librabbitmq/amqp_openssl_bio.c:amqp_openssl_bio,amqp_openssl_bio_init,amqp_openssl_bio_destroy')
p('C105','A consumer that polls misses nothing','Any number of amqp_consume_message calls, each with any time limit or none and repeated after those whose limit ran out, with acknowledgements or other methods sent in between (and messages published, if heartbeats are off), return between them the deliveries the broker sent: in the order sent, each once, with its own content, and none left out before the last one returned - also when the deliveries are on two channels with their frames interleaved, where the order is kept per channel. A call that returns no message had a limit and fails with a library error - AMQP_STATUS_TIMEOUT, if the clock works and the limit is not negative -, and what it had already received is not lost to the next. This holds for a whole session: from creating the connection and logging in over the methods that start the consumer.','All sequences of calls and limits and of methods sent and messages published between them, all deliveries and their contents and framing, all interleavings of two channels, all segmentations of the stream into reads and all moments at which a limit runs out, between two octets of a frame or anywhere else.','A limit may run out after any octet of any frame and at any step of assembling a message; tests can only time a few of these moments.',f'{C}:amqp_consume_message,amqp_read_message;{S}:amqp_simple_wait_frame_noblock,wait_frame_inner,recv_with_timeout')
with open('/verif/properties.jsonl','w') as f:
    for x in P: f.write(json.dumps(x)+'\n')
print(len(P))
