# DESIGN — a Lean 4 model of alanxz/rabbitmq-c

The C library in `/repo/librabbitmq` is modelled function by function in Lean 4 (`lean/Verif/`), and the
properties of `properties.jsonl` are stated and proved about that model.  The model is written from the text of
the C code; the code is never run.  Every model definition cites the file and lines it models.

## Modelling conventions

* **Bytes** are `List UInt8`; C integers of fixed width are `UInt8/16/32/64`, `Int8/16/32/64` where width matters.
  `size_t` is modelled by `Nat`, with explicit `mod 2^64` wherever the C expression can actually underflow/overflow
  for some input (frame length subtraction, time arithmetic, pool size rounding).  A 64-bit `size_t` is assumed.
* **Undefined behaviour is an outcome.**  Results are `Res σ α` = `ok a s | err status s | ub | …`; every memory access
  is checked against the *real* allocation, not against the length the C code believes in; an access outside it
  is `ub`.  Signed overflow and out-of-range shifts are `ub` where an input can trigger them.
* **Errors keep state**: `err status s` carries the state at the error, so partial writes are visible.
* **Allocation** is an oracle (`Nat → Bool`, the answer to the n-th request), universally quantified in theorems.
* **The outside world** (transport, clock, poll, OpenSSL) is a list of responses, universally quantified; the model logs every
  call it makes so that theorems can speak about bytes sent, calls made, and order.
* **Loops** that are bounded by their data recurse structurally; others carry fuel, with running out of fuel a distinct outcome;
  theorems either hold for every fuel or show the outcome impossible.
* **Host endianness** is a Boolean parameter, universally quantified.

## Trusted base

Lean 4.33.0 kernel; the axioms `propext`, `Classical.choice`, `Quot.sound` at most (checked with `#print axioms`);
the reading of the C code documented by the citations; no axioms of our own, no compiled decision procedures.

See "Modelled / not modelled" at the end.

## Plan per property

| id | what is modelled | how it is proved |
|----|------------------|------------------|
| C01 | amqp_table.c encoder/decoder on real buffers, recursion over field values | encoder writes `rawSer` (spec grammar), decoder inverts it; mutual induction on values |
| C02 | decoder with checked reads and allocator oracle | induction on depth and loop; `≠ ub`, status set, offset bounds |
| C03 | encoder with checked writes | mutual induction; frame condition on memory outside the window |
| C04 | decoder depth counter | rejection by induction over a spec of nesting; acceptance from C01 |
| C05 | the shift/mask swaps and native memcpy for both endiannesses | bit-level lemmas over BitVec, equality to `beBytes` |
| C06 | clone over values with pool oracle | mutual induction, equality of the copy |
| C07 | entry_cmp with memcmp as spec'd by C standard (any sign-correct value) | relation to lexicographic order |
| C08 | linear search | induction |
| C09 | merge with NULL-pointer outcome | spec by key lookup; for tables with duplicate keys an entry-by-entry spec (Spec/Merge.lean), undefined exactly for `Twins`; negation witnesses for NULL deref and empty merge; partial |
| C10 | generated schema tables for encode and decode, generic interpreter | field-by-field induction over schema |
| C11 | same | safety lemma per field type, induction over schema |
| C12 | name / has_content / encode / decode id tables parsed from amqp_framing.c | finite tables, `decide`, lifted to all 2^32 ids |
| C13 | properties encoder/decoder | induction over the property list |
| C14 | flag continuation loop with shift-UB | negation witness + partial |
| C15 | shortstr encode, table key encode | general theorem for methods/properties; negation witness for table keys |
| C16 | frame_to_bytes, handle_input | composition of C10/C13 with parser lemmas |
| C17 | handle_input state machine, driver loop | parse of concatenation = parse of chunks, induction |
| C18,C19 | same | case analysis on state machine; sticky-state invariant |
| C20 | same, with underflowed lengths | negation witness; partial under payload ≥ fixed prefix |
| C21 | INITIAL state | negation witness; partial for frames whose first payload byte is 0 |
| C22 | frame_to_bytes with real buffer | negation witness; partial for frame_max ≥ 4096 etc |
| C23 | amqp_try_send, send_frame_inner over response lists | invariant: sent ++ rest = frame bytes |
| C24,C25 | basic_publish loop | induction on remaining body; C25 negation witness + partial |
| C26,C27,C28 | queue, wait_frame_inner, recv loop | refinement to "pending frames" list; C27 negation witness + partial |
| C29 | heartbeat filter | wait path proved; try_recv path negation witness |
| C30,C31,C32 | simple_rpc_inner, wait_method | induction over the receive loop |
| C33,C34 | pool generations | invariant; C34 negation witness for client properties |
| C35 | tune rules | arithmetic |
| C36,C38 | login sequence over responses | log inspection; `C38_sends` (Props/Session) gives the exact octets of a whole login |
| C37 | sasl functions | string lemmas |
| C39,C40 | amqp_time.c on UInt64 | arithmetic; witnesses for overflow; the functions as the connection calls them, which read the clock at most once, answer the same (`C39_as_called`, `C40_as_called`) |
| C41 | heartbeat deadlines in recv loop | case analysis |
| C42,C43,C44 | amqp_url.c on a byte buffer | parser lemmas; C44 negation witness + partial |
| C76 | the same | soundness: from an accepting run to a derivation in a relaxed grammar (`LooseText`); negation witnesses for the relaxations |
| C77 | the sending loop and all calls above it, over an arbitrary transport | the invariant of C61 carries, besides the framing of the stream, the state of a two-state automaton over the event log (`Retries`): a write to be repeated, or none; induction over histories |
| C78 | publishing at one end, parsing, queueing, copying of properties and message assembly at the other | a stream of frames is one on which the (idealised) parser never fails (`Sane`); receiving keeps that, so a failed call implies a failure of the outside; waiting with heartbeats on (`HeartbeatsFine`) sends them and goes on, and fails only after an event that is a failure of the outside; combined with the accounting of C45 and the fragmentation theorem C24; induction over body frames and over the sequence of deliveries; that logging in establishes the premise `Receiving` (`C78_after_login`): a success anywhere on the way keeps the parser live and the descriptor open (`Runs`), and a frame could not have been sent on a closed one |
| C45,C46,C47 | amqp_consumer.c, confirm wait | induction over body frames |
| C48,C49 | amqp_mem.c pool | invariants over operation histories |
| C50,C51,C52 | amqp_openssl.c decision logic over OpenSSL responses | case analysis, invariants |
| C79 | the credential setters of amqp_openssl.c, over a log of the OpenSSL calls made | what OpenSSL does with each call, including which objects are alive, is a small machine in the specification (Spec/TlsCreds: `Ctx.step`); the log of each setter is run through it; induction over the history; negation witness for the replaced chain |
| C80 | the read and write functions of amqp_openssl_bio.c, errno values of Linux | case analysis over all answers |
| C81 | amqp_frames_enqueued, amqp_data_in_buffer beside the waiting functions | invariant "the buffer is empty unless something was received" closed under all elementary actions; induction over the waiting loop; accounting of C26; negation witness for a wait held up by a heartbeat |
| C53 | error_string2 | all ints; negation witness at INT_MIN |
| C54,C55 | amqp_open_socket_inner, amqp_tcp_socket.c | induction over address list; state machine invariant |
| C56 | wait_frame_inner with heartbeat sends | negation witness + partial |
| C57 | send_header_inner | negation witness + partial |
| C58 | recv_with_timeout / poll | loop invariant over clock responses |
| C59,C60 | helpers, setters | direct / histories |
| C61 | all calls on an open connection (Spec/Outgoing: `GoodCall`, `AnyCall`) | per call: what was sent is whole frames, or whole frames and a prefix of one; induction over the history; `C61_session` (Props/Session) starts from the first octet of a connection |
| C62 | the twenty RPC wrappers, generated by scripts/genrpc.py (RpcTable), amqp_simple_rpc_decoded, amqp_get_rpc_reply (Rpc) | kernel-decided agreement of the finite function table with the protocol table; then, for all values, the send and RPC lemmas |
| C63 | closes, ack/reject/nack, get (Rpc) | the same; decimal notation by induction |
| C64,C65 | the connection object's memory: buffers, bucket table of channel pools, properties pool on the heap of Model/Pool (ConnMem) | invariant over histories: all tenants of the heap touch disjoint blocks; built on the single-pool invariant of C48/C49 |
| C66 | both switches of amqp_framing.c (Constants) | specification: list of the constants of the protocol with their class, written from the protocol definition; all other integers by case distinction |
| C67 | same as C01–C04 | specification: the grammar as an inductive relation between octets and tables with two switches (Spec/Spelling); soundness by induction on the recursion of the decoder, completeness by recursion on the derivation |
| C68,C69 | read_all, write_all, copy_body, do_get over an operating system that answers arbitrarily (Tools) | what is on the list of acts: induction over the loops |
| C70,C74 | do_consume, setup_queue, pipeline, finish_pipeline, on top of the connection model (Tools) | a grammar of rounds (Spec/Tools) the acts must fit; induction over the loop |
| C71 | publish.c (Tools) | division of the input into lines as an inductive relation; the properties on the wire by the encoder's own filter |
| C72,C75 | read_authfile, init_connection_info (Tools), amqp_parse_url (Url) | equivalence with a relation between options and result |
| C82,C83 | make_connection, close_connection and the five main functions after option parsing (Tools), on top of login, the RPC wrappers and the connection model | a session on the wire is composed of `Exchange`s (Spec/Session): a request sent whole, then nothing but heartbeats, and its answer received after it; what each act says (`Says`, `Talk`) by induction over the tools' loops; exits by a closure property of the monad |
| C84 | same as C16–C20 | every decoder consumes octets that its value serialises to in the same number (`Yields … Again`), by recursion on the lax spelling relation of C67; then C16 |
| C85 | sequences of API calls (`perform`), a server that sends an arbitrary `Harmless` octet stream (`Serves`) | invariant `Fit` of every call: output buffer as negotiated, queued frames digestible, and what is still to come parses without undefined behaviour from the parser's present state (or the parser has given up); preserved by each function of the receive, send, rpc, consume and publish paths |
| C86 | the whole session: `login` on `newConn`, then `perform`; a `HarmlessServer` (frames within the initial limit up to connection.tune, within the agreed one after it) | C85's invariant, made generic in what is known of the frames still to come; before connection.tune that is: *if this frame is a tune, the rest parses with the limit it leads to*; the parser's first state (which looks for a protocol header) is walked separately; no frame is half received where the login calls amqp_release_buffers |
| C87 | the heap under amqp_consumer.c (Model/Message.lean): every malloc, free, pool request and body copy of reading, consuming and destroying, with the connection using the same heap while it waits | a frame rule for the world of C64/C65 (blocks and pools of one owner are foreign to the others), an invariant over histories with everything the application holds, then destruction in any order |
| C88 | the pools and the connection's memory (Model/Pool.lean, Model/ConnMem.lean) | a ledger saying, block by block, whose every octet of the heap is (a permutation of the live blocks), with each pool's pages bounded by twice what was pending when they were last needed; induction over histories, then the sizes are added up |
| C89 | every loop of the library (Model/Conn.lean, Model/Api.lean) | a measure — network events before the loss, octets received but not parsed, frames queued — that every round of every loop lowers; the parser is shown to end by itself and to take at least one octet |
| C90 | as C89, with a network that falls silent instead of failing: nothing arrives, sends are refused or swallowed whole, polls run out | as C89; with heartbeats on, the measure counts also the heartbeats that can still fall due, for which the clock must go on (`TimePasses`); login is split at the server's tune, its first half has one definite outcome (C89_bound), its second is measured from there |
| C91 | amqp_time_from_now's first check, the two setters | case analysis; induction over calls of the setters |
| C92 | as C89 | for servers that fall silent, from C90; the full claim is refuted: a server that keeps sending heartbeats keeps a time-limited wait from ever looking at its limit (`C92_flood`) |
| C93 | as C66 (heartbeats), with the poll events in the log | invariant over all calls: the receive deadline is never more than 2h after any reading of the clock and is finite, so every poll of every call is limited by it (`naps_api`); complements C90: polls do run out; `C93_header`, `C93_without` show the exemption and the hypothesis are needed |
| C94 | as C36 (login), with the merge of C09 | the handshake theorem `login_normal` carries the result of the merge; the identity is spelled out in Spec/Identity.lean |
| C95 | as C45 (`Reads`, Spec/Reads.lean, says what the frames mean; non-recursive) | induction over the body loop, with the accounting of pending frames of C27; `C95_unique` shows the frames determine the result, hence `C95_determined` |
| C96 | as C89, with the record of what was asked of the network (`Ev.network`) | invariant of every call on a closed connection (`inert_login`); a closed connection cannot tell its network from one that is lost (`perform_deaf`), so C89 gives termination |
| C97 | as C58, with the poll events in the log (`Keeps`) | invariant of wait_frame_inner, the RPC loop and the steps of login: each poll is limited by a deadline no later than the limit; exempt are polls while the RPC's request or a heartbeat is waiting to be sent, and in login the deadline can slip by the time between two readings of the clock; all of these are real (`C97_request_unlimited`, `C97_open_unlimited`, `C97_login_late`) |
| C98 | as C26, the failing outcomes of the calls | every failing path of the receive and send loops keeps `pending` (`NothingLost`), or stops at bytes the parser rejects, of which the split lemma shows that no later bytes make a frame (`StoppedAtBadData`); for lack of memory only the order and completeness of the queue (`QueueIsStart`) — a frame is lost then (`C98_frame_lost`) |
| C99 | amqp_cstring_bytes (with `strlen` running off its object undefined), the three amqp_table_construct_* functions, and the codec of C01 | induction over the calls: a built table and the table to be seen have the same wire form; then C01/C03 |
| C100 | every call of the connection layer, on any history of calls; the TCP and TLS sockets of C55 for the transport's own statuses | each function's failures are traced to their source; for a deadline the invariant that heartbeat deadlines, and those of short timeouts, are near, so that the milliseconds left do not wrap |
| C101 | programs (trees of calls branching on everything returned) over the connection layer, run on environments that differ in the byte order | relational proof: two runs are related by equality of everything but unwritten memory; the codec's word functions are the same function in both byte orders |
| C102 | the same programs, run on environments that differ in the contents of fresh memory (send buffer, realloc'ed part, receive buffers) | the same relation: receive buffers agree up to the fill mark, the send buffer in its length only; every encoder writes each octet it then sends |
| C103 | heap of socket objects and of connections' `socket` pointers (freed memory is `none`); histories of calls: new connection, tcp/ssl socket new, set_sockfd, get_sockfd, socket operations, destroy | ledger over system calls (each call needs, creates, gives back descriptors and sessions): from the per-operation specifications of C55 each operation is a move of the ledger; heap invariant (each object live, owned by exactly one connection); induction over histories |
| C104 | threads as the accesses left to them (one statement at a time) to the shared variables, the mutex and the objects they point to; a schedule is any list of thread numbers | invariant: the critical section in progress, run to its end, leaves a consistent state, and while any other thread has a socket it neither changes nor touches the BIO method; from it safety, absence of races, progress, termination under fair schedules (each action leaves a smaller list of programs) and the final state by induction over schedules; atomicity separately, without assuming that set-ups work |
| C105 | any list of amqp_consume_message calls with any limits, and of methods sent between them (acknowledgements) and messages published (without heartbeats), against any arrival of the deliveries' frames in pieces, the limits running out at any step; the log of waits is any that fits | a call that fails for its limit leaves what was received where the next call finds it (the part of a frame in the parser, the frames of a part of a message back in the queue): invariant that the frames to come are the queue, then the parser's remainder, then the stream; induction over the calls; for a whole session (`C105_session_partial`): creating the connection, logging in, methods called and answered, then polling — by what each successful call leaves behind (`Running`); a frame sent on a connection that takes it changes nothing that receiving depends on (`sendFrame_unharmed`, `basicPublish_unharmed`; with heartbeats on, amqp_basic_publish may itself take frames in) |
| C73 | stringify_bytes (Tools) | induction; all 256 octets decided by the kernel |

## How the Lean files are organised

* `Verif/Model/*` — the code, one definition per C function (or loop of it), each with file and lines.
* `Verif/Spec/*` — the vocabulary of the properties, written from the AMQP 0-9-1 specification, the API documentation, POSIX and the
  OpenSSL manual, not from the code: the wire grammar, the protocol's method table, what a merge is, what is on the log of outside
  events, histories of calls, observers of heartbeats, descriptors and sessions.
* `Verif/Proofs/*` — lemmas.
* `Verif/Props/*` — the theorems, named `Cnn_…` after the property.  A theorem whose name ends in `_partial` proves less than the
  property; its comment says what is missing.  Theorems stating that the code does *not* have (part of) a property stand beside it:
  they are statements about concrete inputs, or, where possible, about every input outside the hypothesis of the partial theorem.
  Examples after each theorem show that its hypotheses are met.

## Modelled / not modelled

Modelled, from `/repo/librabbitmq`:

| file | functions |
|---|---|
| amqp_private.h, codegen'd integer helpers | the endianness swaps, encode/decode of 8/16/32/64 bits and bytes (Model/Endian, Codec) |
| amqp_table.c | all: decode, encode, clone, cmp, lookup (Table, TableOps), construct (Construct) |
| amqp_framing.c | amqp_method_name, amqp_method_has_content, decode/encode of all methods and properties — tables generated by scripts/genmethods.py, which aborts on any statement it does not recognise (MethodTable, Methods); the RPC wrappers — generated by scripts/genrpc.py (RpcTable) |
| amqp_connection.c | the parser (amqp_handle_input and its states), frame serialisation, send_frame, tune, new, maybe_release…, release_buffers (Frame, Conn); new, tune and destroy again for their memory (ConnMem); amqp_set_socket, amqp_get_sockfd, amqp_set_sockfd and the socket part of destroy (Sockets) |
| amqp_socket.c | try_send, poll, recv_with_timeout, wait_frame_inner, queueing, wait on a channel, wait_method, RPC, simple_rpc_decoded, get_rpc_reply, header, merge_capabilities, sasl, login, open_socket_inner, frames_enqueued, data_in_buffer (Conn, Api, TableOps, Os, Ready) |
| amqp_api.c | error strings, bytes helpers, basic_publish, channel/connection close, ack, reject, nack, get, timeouts (Rpc, Time, TableOps, Api) |
| amqp_consumer.c | read_message, consume_message, publisher_confirm_wait (Api); read_message, consume_message, destroy_message, destroy_envelope, basic_properties_clone again for their memory (Message) |
| amqp_mem.c | pools (Pool), the table of channel pools (ConnMem) |
| amqp_time.c | all of the arithmetic (Time) |
| amqp_url.c | all (Url) |
| amqp_tcp_socket.c | all (Os; new and delete: Sockets) |
| amqp_openssl.c | open, close, send, recv, setters of verification and versions, new/delete with the global BIO state (Tls), and the same with amqp_set_ssl_engine statement by statement for threads under openssl_init_mutex (Threads; sequential consistency between threads is assumed, data races are shown absent); setters of keys, certificates, trust, password and engine (TlsCreds) |
| amqp_openssl_bio.c | all (Tls, TlsCreds) |

and from `/repo/tools`:

| file | functions |
|---|---|
| common.c | die_amqp_error, die_rpc, read_authfile, init_connection_info, make_connection, close_connection, read_all, write_all, copy_body (Tools) |
| unix/process.c | all (Tools) |
| consume.c | stringify_bytes, setup_queue, do_consume (Tools) |
| publish.c, get.c, consume.c, declare_queue.c, delete_queue.c | main after option parsing, do_publish, do_get (Tools) |

Not modelled: option parsing (popt) and the text of error messages in the tools, examples and tests; the Windows variants; varargs formatting;
the `int` counters of table entries in the encoder (tables are lists, so counts are naturals); struct padding; the internals of libc,
the kernel and OpenSSL, which appear only as arbitrary answers to calls.

Simplifications that matter when reading the theorems:

* Connection memory is modelled by *generations*: a decoded frame remembers the length of the event log when it was decoded, releasing a
  channel's pool is an event, and "valid" means there was no such event since.  That a pool's blocks are disjoint and in bounds is proved
  separately of amqp_mem.c itself (C48, C49), and for all channels' pools of a connection together in C64, whose statement is exactly this
  abstraction: what was handed out for a channel is in place until that channel is released.
* In the connection layer `send`, `recv`, `poll`, the clock and `close` answer arbitrarily (`NetEnv`), as a function of the number of events
  so far, so every schedule is covered; that the real socket classes answer within what the theorems assume of them (never TIMEOUT) is C55.
* Pointers returned to the caller are values in the model, except where the property is about storage (C06, C09, C34, C43, C48).

**Fuel.**  Loops that wait for the outside (retry after EINTR, receive until a frame is complete, …) have no bound in C.  The model gives each a
number of iterations (`NetEnv.fuel`, universally quantified), and running out is the outcome `.fuel`, distinct from every C outcome.  All
theorems are about runs whose outcome is not `.fuel`, for *every* fuel; a run of the C code that returns makes finitely many iterations, so it
is a run of the model for every larger fuel, and the theorem applies to it.  That the bound is no part of the outcome — a call that ends with one
bound ends the same way, in the same state, with every larger one — is proved for every call and for login (`C89_bound`, `C89_bound_login`).  Where termination is part of a property (C02, C43, C54, C89, C90, C92) absence
of `.fuel` is proved.

## Findings

Behaviour of the code at the pinned commit that differs from what a user would expect, each established by a theorem:

* The first payload octet of the very first frame is read from memory the library never wrote (`C102_first_octet`): a program can see what the receive buffer contained before. On memory fresh from `calloc` it is 0, which is what methods and headers start with.
* When BIO_meth_new fails, amqp_ssl_socket_new cleans up through amqp_ssl_socket_delete, which decrements openssl_connections although it was not incremented; if another thread has created a TLS socket between the two critical sections, the decrement releases the BIO method that thread's sessions use, and races with amqp_openssl_bio, which reads without the mutex (`C104_failed_setup`). In one thread the slip is harmless apart from the assertion (C52).
* A failed close() leaves the socket its descriptor number, so deleting the socket closes the number again (`C103_failed_close`); amqp_tcp_socket_set_sockfd on an open socket forgets the old descriptor (`C103_replaced_lost`); amqp_ssl_socket_open never frees the session it made when it refuses its time limit (`C103_session_lost`).
* A wait with a timeout of 2^31 milliseconds (24.8 days) or more fails at once with a status that is none: the number of milliseconds
  left wraps to a negative int, which amqp_poll returns (`C100_far_deadline`).
* If the login deadline passes when some, but not all, of the protocol header has been sent, the library_error of the reply is that
  positive number of octets (`C100_login_three`).
* A frame of another channel that arrives while an RPC or a wait on a channel is running, or while sending is held up, is lost if
  there is no memory to queue it: the call fails with AMQP_STATUS_NO_MEMORY, but the connection goes on without the frame
  (`C98_frame_lost`).
* The request of an RPC is sent without a time limit, whatever amqp_set_rpc_timeout says, and so is connection.open in a login under its handshake timeout; a login's waits compute their deadline anew from two readings of the clock and can end late by the time between these; amqp_consume_message applies its limit to the first frame of a message only (C97).
* amqp_read_message and amqp_consume_message test for a connection.close among the frames of the channel they read, but a connection.close comes on channel 0: it is queued unseen, the call goes on waiting, and in the end reports the broken connection instead of the server's reason (`C95_connection_close_unseen`).
* A time limit is only looked at when there is nothing to read: recv_with_timeout reads first and polls (with the limit) only when the read would block. A server that keeps the socket readable with heartbeats (or with frames that are never complete for the caller, e.g. for another channel in an RPC) keeps amqp_simple_wait_frame_noblock, amqp_consume_message or an RPC with a timeout waiting for ever (C92_flood: a theorem for every number of rounds).
* A content header received with a second, empty flag word has flag bit 0 set; amqp_encode_properties drops that bit, so the header goes out with
  other flags than it came in with (C84).
* A content header frame of another class than basic that has property flags makes `amqp_read_message` read beyond the property structure
  received (C85).  Octets lost because a heartbeat is held up make the next read start in the middle of a frame; with the right contents
  of a body frame that is an out-of-bounds read, although every frame the server sent is well-formed (C85).
- amqp_login calls amqp_release_buffers after sending connection.tune-ok; if heartbeats are on, the send is held up and part of a frame is
  received meanwhile, the program aborts (C86).  A server that tunes frame_max to 10 makes the login write past the output buffer (C86).  If
  the clock fails in amqp_tune_connection, the connection keeps the new frame_max but the old output buffer: sending a body frame of that
  size writes past its end (C86).
* A header frame can contain property-flag continuation words that make the decoder shift out of range (C14); payloads shorter than their fixed
  part are read beyond their end, and a failed frame-buffer allocation is followed by a write through NULL (C20).
* The first payload octet of the first frame on a connection is taken from uninitialised memory; an empty first frame is refused (C21).
* A body frame that does not fit the output buffer is written past its end; with frame_max below 12 the bounds wrap (C22).
* A field-table key longer than 255 bytes is encoded with a truncated length (C15).
* amqp_merge_capabilities dereferences NULL on duplicate keys and reports NO_MEMORY for two empty tables (C09).
* amqp_basic_publish leaves the last frame unflushed (MORE) if the body is an exact multiple of the payload size (C25).
* A heartbeat send that blocks during a wait loses received data (C26, C56), may outlast the wait's deadline (C58), and HEARTBEAT_TIMEOUT then
  leaves the socket open (C41).
* amqp_simple_wait_frame_on_channel drops frames of other channels queued ahead of the one returned (C27).
* Received heartbeats can be delivered to the application after amqp_basic_publish (C29).
* The client properties dangle after login (C34); a failing connection.open leaves the connection open (C38); the protocol header may be
  reported as sent although nothing was (C57).
* Poll timeouts of more than 2^31 ms wrap (C40, C54); timeouts of 2^64 ns wrap (C39); waits can end up to 1 ms early (C58).
* An RPC does not see a channel.close that was already received when its request is still being sent (C30).
* A table or array whose last entry runs past the declared length of its container is accepted, and the octets after it are read as if they
  followed (C67).
* Malformed percent escapes such as `%+5` are accepted (C44); so are escapes of NUL, which cut the component short, blanks and a sign before
  the port, and an ignored part between host and port (C42, C76).
* amqp_consume_message and amqp_publisher_confirm_wait lose the frame when putting it back fails (C46, C47).
* A wait during which the sending of a heartbeat was held up can report TIMEOUT although a frame has been received and lies in the buffer (C81).
* A message whose headers contain an empty key can be published and decoded but not received: amqp_read_message answers INVALID_PARAMETER and
  leaves its body frames pending (C78).
* The tools ignore a CA certificate or client key that cannot be loaded and connect all the same (C82); a --cert without --key is never
  used; amqp_new_connection returning NULL is not checked.
* amqp_consume_message with three consumers on three channels: if the frames of their messages are interleaved, reading one message can
  drop the delivery of another that was queued ahead of it, and from then on every call fails with UNEXPECTED_STATE (C78_third_channel;
  with two channels nothing is lost, C78_two_channels_partial).  An empty body frame after a complete body has the same effect
  (C78_trailing_empty).
* A pool request near 2^64 returns a pointer to no memory (C48); a page is leaked if its bookkeeping allocation fails (C49), so that a pool which is emptied again and again can grow without bound while nothing is pending (C88).
* TLS: a session is leaked if the deadline cannot be computed (C50); a refused maximum leaves the new minimum in force (C51); a failed
  set-up aborts debug builds (C52); a failing close() leads to a NULL dereference at the next use (C55).
* A TLS key that is refused leaves the certificate chain given with it in force, beside the old key (C79); a password-protected key given in a
  buffer aborts the process even if a password was set (C79).
* amqp_error_string2 has undefined behaviour at INT_MIN and aliases out-of-range values (C53); unnormalised timevals are accepted (C60).
* A tuning refused memory leaves the library believing in a larger output buffer; frame_max 0 frees the buffer twice (C64); a failing
  amqp_new_connection can leak its output buffer (C65).
* If the memory for a message's body (whose size the broker announces) is refused, amqp_read_message loses the copies of the properties; after an
  amqp_consume_message that failed once the delivery had arrived, the envelope's pointers dangle: destroying it frees its strings twice (C87).
* Tools: an input of exactly 4096·2^k octets and a refused allocation publish through a NULL pointer (C68, C71); a body frame beyond the announced size
  makes the copy run on (C69); frames that are not deliveries count toward --count (C70); with descriptor 0 closed the command gets no input
  (C70); --line-buffered with --body publishes nothing, a NUL cuts a line short, a header without a colon makes every publication fail
  (C71); an authentication file ending after "username:" is read before the start of a string (C72); backslashes are not escaped (C73);
  an exchange without a routing key is a NULL dereference (C74); ports are accepted modulo 2^32, --ssl alone keeps port 5672 (C75).
