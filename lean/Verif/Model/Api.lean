import Verif.Model.Conn
import Verif.Model.TableOps
/-!
# Publishing, consuming, publisher confirms and login — librabbitmq/amqp_api.c, amqp_consumer.c, amqp_socket.c
-/
namespace Rmq

/-! ## Method numbers used below, include/rabbitmq-c/framing.h:150-710 -/
/-- AMQP_CONNECTION_START_METHOD, include/rabbitmq-c/framing.h:150-151. -/
def CONNECTION_START : UInt32 := 0x000A000A
/-- AMQP_CONNECTION_START_OK_METHOD, include/rabbitmq-c/framing.h:162-163. -/
def CONNECTION_START_OK : UInt32 := 0x000A000B
/-- AMQP_CONNECTION_TUNE_METHOD, include/rabbitmq-c/framing.h:189-190. -/
def CONNECTION_TUNE : UInt32 := 0x000A001E
/-- AMQP_CONNECTION_TUNE_OK_METHOD, include/rabbitmq-c/framing.h:199-200. -/
def CONNECTION_TUNE_OK : UInt32 := 0x000A001F
/-- AMQP_CONNECTION_OPEN_METHOD, include/rabbitmq-c/framing.h:209-210. -/
def CONNECTION_OPEN : UInt32 := 0x000A0028
/-- AMQP_CONNECTION_OPEN_OK_METHOD, include/rabbitmq-c/framing.h:219-220. -/
def CONNECTION_OPEN_OK : UInt32 := 0x000A0029
/-- AMQP_BASIC_PUBLISH_METHOD, include/rabbitmq-c/framing.h:598-599. -/
def BASIC_PUBLISH : UInt32 := 0x003C0028
/-- AMQP_BASIC_DELIVER_METHOD, include/rabbitmq-c/framing.h:621-622. -/
def BASIC_DELIVER : UInt32 := 0x003C003C
/-- AMQP_BASIC_ACK_METHOD, include/rabbitmq-c/framing.h:663-664. -/
def BASIC_ACK : UInt32 := 0x003C0050
/-- AMQP_BASIC_REJECT_METHOD, include/rabbitmq-c/framing.h:672-673. -/
def BASIC_REJECT : UInt32 := 0x003C005A
/-- AMQP_BASIC_NACK_METHOD, include/rabbitmq-c/framing.h:705-706. -/
def BASIC_NACK : UInt32 := 0x003C0078
/-- AMQP_BASIC_CLASS, include/rabbitmq-c/framing.h:825. -/
def BASIC_CLASS : UInt16 := 60

/-! ## Publishing, amqp_api.c:160-249 -/

/-- The method struct filled in at amqp_api.c:175-179. -/
def publishArgs (exchange routingKey : Bytes) (mandatory immediate : Int32) : Rec :=
  [(.ticket, .u16 0), (.exchange, .bytes exchange), (.routing_key, .bytes routingKey), (.mandatory, .bool mandatory),
   (.immediate, .bool immediate)]

/-- `state->frame_max - (HEADER_SIZE + FOOTER_SIZE)` stored in a `size_t`, amqp_api.c:166-167. -/
def usablePayload (frameMax : Int) : Nat := ((frameMax - (HEADER_SIZE + FOOTER_SIZE : Nat)) % 2 ^ 64).toNat

/-- The body loop, amqp_api.c:221-246; `rest` is the body from `body_offset` on. -/
def publishBody (E : NetEnv) (ch : UInt16) (usable : Nat) : Nat → Bytes → M Conn Unit
  | 0, _ => M.outOfFuel
  | n + 1, rest => fun s =>
    if rest.length = 0 then .ok () s
    else if rest.length ≥ usable then
      match sendFrame E ⟨ch, .body (rest.take usable)⟩ SF_MORE TIME_INF s with
      | .ok () s => publishBody E ch usable n (rest.drop usable) s
      | .err e s => .err e s
      | .ub => .ub
      | .fuel => .fuel
    else
      match sendFrame E ⟨ch, .body rest⟩ SF_NONE TIME_INF s with
      | .ok () s => publishBody E ch usable n (rest.drop rest.length) s
      | .err e s => .err e s
      | .ub => .ub
      | .fuel => .fuel

/-- The heartbeat check of amqp_api.c:181-193. -/
def publishCheck (E : NetEnv) : M Conn Unit := fun s =>
  match hasPastIO E s.nextRecv s with
  | (res, s) =>
    if res = St.TIMER_FAILURE then .err res s
    else if res = St.TIMEOUT then
      match tryRecv E s with
      | .ok () s => .ok () s
      | .err e s => if e = St.TIMEOUT then .err St.HEARTBEAT_TIMEOUT s else .err e s
      | .ub => .ub
      | .fuel => .fuel
    else .ok () s

/-- amqp_basic_publish, amqp_api.c:160-249.  `props = none` is a NULL pointer: no property is flagged then. -/
def basicPublish (E : NetEnv) (ch : UInt16) (exchange routingKey : Bytes) (mandatory immediate : Int32)
    (props : Option (UInt32 × Rec)) (body : Bytes) : M Conn Unit := fun s =>
  (do
    let usable := usablePayload s.frameMax
    publishCheck E
    sendMethod E ch BASIC_PUBLISH (publishArgs exchange routingKey mandatory immediate) SF_MORE TIME_INF
    let p := props.getD (0, [])
    sendFrame E ⟨ch, .header BASIC_CLASS (UInt64.ofNat body.length) p.1 p.2⟩ (if body.length > 0 then SF_MORE else SF_NONE) TIME_INF
    publishBody E ch usable E.fuel body : M Conn Unit) s

/-! ## Allocating computations inside the connection -/

/-- Run a computation that allocates with the connection's allocator. (amqp_mem.c:81-133 called from amqp_api.c, amqp_socket.c and amqp_consumer.c.) -/
def withAlloc (E : NetEnv) {α : Type} (x : (Nat → Bool) → M AState α) : M Conn α := fun s =>
  match x E.pe.alloc ⟨s.ps.allocs⟩ with
  | .ok a st => .ok a { s with ps := { s.ps with allocs := st.allocs } }
  | .err e st => .err e { s with ps := { s.ps with allocs := st.allocs } }
  | .ub => .ub
  | .fuel => .fuel

/-- One allocation (malloc, or amqp_pool_alloc of a non-zero size), failing with NO_MEMORY. (amqp_mem.c:81-133 called from amqp_api.c, amqp_socket.c and amqp_consumer.c.) -/
def allocOr (E : NetEnv) : M Conn Unit := fun s =>
  match smallAlloc E s with
  | (true, s) => .ok () s
  | (false, s) => .err St.NO_MEMORY s

/-! A decoded table in memory: the decoder leaves a NULL pointer exactly for empty strings, arrays and tables
(amqp_table.c:53-110, 112-160; amqp_pool_alloc of size 0 is NULL). -/
def decodedBlk (n : Nat) : Option Blk := if n = 0 then none else some ⟨0, 0, n⟩
mutual
/-- A decoded value with the memory it occupies: amqp_table.c:29-282 puts it there. -/
def FV.store : FV → PV
  | .boolean v => .boolean v | .i8 v => .i8 v | .u8 v => .u8 v | .i16 v => .i16 v | .u16 v => .u16 v
  | .i32 v => .i32 v | .u32 v => .u32 v | .i64 v => .i64 v | .u64 v => .u64 v
  | .f32 v => .f32 v | .f64 v => .f64 v | .decimal d v => .decimal d v
  | .utf8 b => .utf8 (decodedBlk b.length) b | .bytes b => .bytes (decodedBlk b.length) b
  | .array vs => .array (decodedBlk (vs.length * SIZEOF_FV)) (FV.stores vs)
  | .timestamp v => .timestamp v
  | .table es => .table (decodedBlk (es.length * SIZEOF_ENTRY)) (FV.storeEs es)
  | .void => .void
  | .other k => .other k
/-- A decoded value with the memory it occupies: amqp_table.c:29-282 puts it there. -/
def FV.stores : List FV → List PV
  | [] => []
  | v :: vs => v.store :: FV.stores vs
/-- A decoded value with the memory it occupies: amqp_table.c:29-282 puts it there. -/
def Entry.store : Entry → PE
  | .mk k v => .mk (decodedBlk k.length) k v.store
/-- A decoded value with the memory it occupies: amqp_table.c:29-282 puts it there. -/
def FV.storeEs : List Entry → List PE
  | [] => []
  | e :: es => e.store :: FV.storeEs es
end
/-- A decoded value with the memory it occupies: amqp_table.c:29-282 puts it there. -/
def storeTable (t : Table) : PTable := ⟨decodedBlk (t.length * SIZEOF_ENTRY), FV.storeEs t⟩

/-! ## Consuming, amqp_consumer.c -/

/-- The properties copied by amqp_basic_properties_clone, amqp_consumer.c:28-83: flag bit and field, in order.  (The type is that of the
field in amqp_basic_properties_t, framing.h:842-871.) -/
def clonedProps : List (Nat × Fld) :=
  [(15, .content_type), (14, .content_encoding), (13, .headers), (12, .delivery_mode), (11, .priority), (10, .correlation_id),
   (9, .reply_to), (8, .expiration), (7, .message_id), (6, .timestamp), (5, .type), (4, .user_id), (3, .app_id), (2, .cluster_id)]

/-- Copying one property, amqp_consumer.c:17-26 (strings: nothing is allocated for an empty one), 37-42 (headers), 44-50, 67-69
(integers). -/
def cloneProp (E : NetEnv) : Val → M Conn Val
  | .bytes b => if b.length = 0 then pure (.bytes []) else do allocOr E; pure (.bytes b)
  | .table t => do
    let t' ← withAlloc E fun alloc => cloneTable alloc 0 (storeTable t)
    pure (.table t'.erase)
  | v => pure v

/-- amqp_basic_properties_clone, amqp_consumer.c:11-86.  A flagged property that the struct does not have (the header frame's class is
not basic, so another struct is read through the pointer) is undefined behaviour. -/
def cloneProps (E : NetEnv) (flags : UInt32) (r : Rec) : List (Nat × Fld) → M Conn Rec
  | [] => pure []
  | (bit, f) :: ps =>
    if flags &&& UInt32.ofNat (1 <<< bit) ≠ 0 then
      match r.get? f with
      | none => M.ub
      | some v => do
        let v' ← cloneProp E v
        let rest ← cloneProps E flags r ps
        pure ((f, v') :: rest)
    else cloneProps E flags r ps

/-- `amqp_message_t`: the flagged properties and the body. (include/rabbitmq-c/amqp.h:2073-2077.) -/
structure Message where
  flags : UInt32
  props : Rec
  body : Bytes

/-- What the functions returning an amqp_rpc_reply_t and filling in a struct do. (amqp_rpc_reply_t, include/rabbitmq-c/amqp.h:541-568; e.g. amqp_consumer.c:110-282.) -/
inductive Outcome (α : Type) where
  | normal (a : α)
  | serverException (id : UInt32) (args : Rec)
  | libraryException (st : Int)

/-- Is it a channel.close or connection.close (amqp_consumer.c:196-198, 247-249)? -/
def isClose (id : UInt32) : Bool := id == CHANNEL_CLOSE || id == CONNECTION_CLOSE

/-- The body loop of amqp_read_message, amqp_consumer.c:237-272.  `got` is what has been copied into message->body so far, `len` is
message->body.len.  A frame that does not fit is refused, so the copy stays inside the buffer. -/
def readBody (E : NetEnv) (ch : UInt16) (len : Nat) : Nat → Bytes → M Conn (Outcome Bytes)
  | 0, _ => M.outOfFuel
  | n + 1, got => fun s =>
    if got.length < len then
      match waitFrameOn E ch s with
      | .ok f s =>
        match f.frame.payload with
        | .body b =>
          if got.length + b.length > len then .ok (.libraryException St.BAD_AMQP_DATA) s
          else readBody E ch len n (got ++ b) s
        | .method id args =>
          if isClose id then .ok (.serverException id args) s else .ok (.libraryException St.BAD_AMQP_DATA) s
        | _ => .ok (.libraryException St.BAD_AMQP_DATA) s
      | .err e s => .ok (.libraryException e) s
      | .ub => .ub
      | .fuel => .fuel
    else .ok (.normal got) s

/-- amqp_put_back_frame with its result ignored, as all callers do. (amqp_socket.c:848-864; called at amqp_consumer.c:131, 204.) -/
def putBackIgnored (E : NetEnv) (f : DFrame) : M Conn Unit := fun s =>
  match putBackFrame E f s with
  | .ok () s => .ok () s
  | .err _ s => .ok () s
  | .ub => .ub
  | .fuel => .fuel

/-- The part of amqp_read_message after the header frame, amqp_consumer.c:210-276. -/
def readContent (E : NetEnv) (ch : UInt16) (size : UInt64) (flags : UInt32) (r : Rec) : M Conn (Outcome Message) := fun s =>
  match cloneProps E flags r clonedProps s with
  | .err e s => .ok (.libraryException e) s
  | .ub => .ub
  | .fuel => .fuel
  | .ok props s =>
    match (if size.toNat = 0 then .ok () s else allocOr E s) with
    | .err e s => .ok (.libraryException e) s
    | .ub => .ub
    | .fuel => .fuel
    | .ok () s =>
      match readBody E ch size.toNat E.fuel [] s with
      | .ok (.normal body) s => .ok (.normal ⟨flags, props, body⟩) s
      | .ok (.serverException id args) s => .ok (.serverException id args) s
      | .ok (.libraryException e) s => .ok (.libraryException e) s
      | .err e s => .err e s
      | .ub => .ub
      | .fuel => .fuel

/-- amqp_read_message, amqp_consumer.c:170-282.  (What is allocated and freed is in Model/Message.lean.) -/
def readMessage (E : NetEnv) (ch : UInt16) : M Conn (Outcome Message) := fun s =>
  match waitFrameOn E ch s with
  | .err e s => .ok (.libraryException e) s
  | .ub => .ub
  | .fuel => .fuel
  | .ok f s =>
    match f.frame.payload with
    | .header _ size flags r => readContent E ch size flags r s
    | .method id args =>
      if isClose id then .ok (.serverException id args) s
      else
        match putBackIgnored E f s with
        | .ok () s => .ok (.libraryException St.UNEXPECTED_STATE) s
        | .err e s => .err e s
        | .ub => .ub
        | .fuel => .fuel
    | _ =>
      match putBackIgnored E f s with
      | .ok () s => .ok (.libraryException St.UNEXPECTED_STATE) s
      | .err e s => .err e s
      | .ub => .ub
      | .fuel => .fuel

/-- `amqp_envelope_t`. (include/rabbitmq-c/amqp.h:2119-2130.) -/
structure Envelope where
  channel : UInt16
  consumerTag : Bytes
  deliveryTag : UInt64
  redelivered : Int32
  exchange : Bytes
  routingKey : Bytes
  message : Message

/-- amqp_bytes_malloc_dup and amqp_bytes_malloc_dup_failed, amqp_mem.c:142-150, amqp_consumer.c:102-107: did the copy succeed? -/
def mallocDup (E : NetEnv) (b : Bytes) (s : Conn) : Bool × Conn :=
  match smallAlloc E s with
  | (a, s) => (!(b.length != 0 && !a), s)

/-- The part of amqp_consume_message from amqp_consumer.c:136 on. -/
def takeDelivery (E : NetEnv) (ch : UInt16) (r : Rec) : M Conn (Outcome Envelope) := fun s =>
  match r.get? .consumer_tag, r.get? .delivery_tag, r.get? .redelivered, r.get? .exchange, r.get? .routing_key with
  | some (.bytes tag), some (.u64 dt), some (.bool red), some (.bytes ex), some (.bytes rk) =>
    match mallocDup E tag s with
    | (a, s) =>
    match mallocDup E ex s with
    | (b, s) =>
    match mallocDup E rk s with
    | (c, s) =>
      if a && b && c then
        match readMessage E ch s with
        | .ok (.normal m) s => .ok (.normal ⟨ch, tag, dt, red, ex, rk, m⟩) s
        | .ok (.serverException id args) s => .ok (.serverException id args) s
        | .ok (.libraryException e) s => .ok (.libraryException e) s
        | .err e s => .err e s
        | .ub => .ub
        | .fuel => .fuel
      else .ok (.libraryException St.NO_MEMORY) s
  | _, _, _, _, _ => .ub

/-- amqp_consume_message, amqp_consumer.c:109-168. -/
def consumeMessage (E : NetEnv) (timeout : Option TimeVal) : M Conn (Outcome Envelope) := fun s =>
  match waitFrame E timeout s with
  | .err e s => .ok (.libraryException e) s
  | .ub => .ub
  | .fuel => .fuel
  | .ok f s =>
    match f.frame.payload with
    | .method id r =>
      if id = BASIC_DELIVER then takeDelivery E f.frame.channel r s
      else
        match putBackIgnored E f s with
        | .ok () s => .ok (.libraryException St.UNEXPECTED_STATE) s
        | .err e s => .err e s
        | .ub => .ub
        | .fuel => .fuel
    | _ =>
      match putBackIgnored E f s with
      | .ok () s => .ok (.libraryException St.UNEXPECTED_STATE) s
      | .err e s => .err e s
      | .ub => .ub
      | .fuel => .fuel

/-! ## Publisher confirms, amqp_api.c:368-421 -/

/-- `amqp_publisher_confirm_t`: the method struct copied, its id and channel. (include/rabbitmq-c/amqp.h:2465-2469.) -/
structure Confirm where
  channel : UInt16
  method : UInt32
  args : Rec

/-- amqp_publisher_confirm_wait, amqp_api.c:368-421.  (The `default:` of the second switch cannot be reached.) -/
def confirmWait (E : NetEnv) (timeout : Option TimeVal) : M Conn (Outcome Confirm) := fun s =>
  match waitFrame E timeout s with
  | .err e s => .ok (.libraryException e) s
  | .ub => .ub
  | .fuel => .fuel
  | .ok f s =>
    match f.frame.payload with
    | .method id r =>
      if id ≠ BASIC_ACK ∧ id ≠ BASIC_NACK ∧ id ≠ BASIC_REJECT then
        match putBackIgnored E f s with
        | .ok () s => .ok (.libraryException St.UNEXPECTED_STATE) s
        | .err e s => .err e s
        | .ub => .ub
        | .fuel => .fuel
      else .ok (.normal ⟨f.frame.channel, id, r⟩) s
    | _ =>
      match putBackIgnored E f s with
      | .ok () s => .ok (.libraryException St.UNEXPECTED_STATE) s
      | .err e s => .err e s
      | .ub => .ub
      | .fuel => .fuel

/-! ## SASL, amqp_socket.c:507-614 -/

/-- The method and its variable arguments (C strings without their final NUL). (amqp_socket.c:507-523; the variable arguments amqp_socket.c:571-616.) -/
inductive Sasl where
  | plain (user password : Bytes)
  | external (identity : Bytes)

/-- sasl_method_name, amqp_socket.c:507-523. -/
def Sasl.name : Sasl → Bytes
  | .plain _ _ => [80, 76, 65, 73, 78]
  | .external _ => [69, 88, 84, 69, 82, 78, 65, 76]

/-- bytes_equal, amqp_socket.c:525-534, on non-NULL pointers (the mechanisms' address is asserted not to be NULL). -/
def bytesEq (memcmp : Bytes → Bytes → Int) (l r : Bytes) : Bool := l.length == r.length && memcmp l r == 0

/-- `memchr(start, ' ', end - start)`: the word up to the space, and what follows the space if there is one. (sasl_mechanism_in_list, amqp_socket.c:536-569.) -/
def nextWord : Bytes → Bytes × Option Bytes
  | [] => ([], none)
  | b :: rest => if b = 32 then ([], some rest) else let (w, r) := nextWord rest; (b :: w, r)

/-- The loop of sasl_mechanism_in_list, amqp_socket.c:550-567; `start` is what is left of the list.  `n` bounds the number of words. -/
def mechLoop (memcmp : Bytes → Bytes → Int) (name : Bytes) : Nat → Bytes → Bool
  | 0, _ => false
  | n + 1, start =>
    match nextWord start with
    | (w, rest) =>
      if bytesEq memcmp name w then true
      else
        match rest with
        | none => false
        | some start => mechLoop memcmp name n start

/-- sasl_mechanism_in_list, amqp_socket.c:536-570: the loop is not entered at all for an empty list. -/
def mechanismInList (memcmp : Bytes → Bytes → Int) (mechanisms : Bytes) (m : Sasl) : Bool :=
  if mechanisms.length = 0 then false else mechLoop memcmp m.name (mechanisms.length + 1) mechanisms

/-- sasl_response, amqp_socket.c:572-614: the bytes, or NO_MEMORY when the allocation gives NULL, as it does for an empty identity. -/
def saslResponse (E : NetEnv) : Sasl → M Conn Bytes
  | .plain u p => do
    allocOr E
    pure ([0] ++ u ++ [0] ++ p)
  | .external i => if i.length = 0 then M.fail St.NO_MEMORY else do allocOr E; pure i

/-! ## Login, amqp_socket.c:1203-1434 -/

/-- Texts fixed when the library is built (AMQP_VERSION_STRING, AMQ_PLATFORM). (librabbitmq/CMakeLists.txt, include/rabbitmq-c/amqp.h; used at amqp_socket.c:1203-1434.) -/
structure Build where
  version : Bytes
  platform : Bytes

/-- amqp_cstring_bytes of a literal, amqp_mem.c:135-140. -/
def cstr (s : String) : Bytes := s.toUTF8.toList
/-- An entry of the client properties: amqp_table_construct_utf8_entry and amqp_table_construct_bool_entry, amqp_table.c:615-640; used at amqp_socket.c:1203-1434. -/
def utf8Entry (key : String) (v : Bytes) : PE := .mk (some ⟨0, 0, key.length⟩) (cstr key) (.utf8 (some ⟨0, 0, v.length⟩) v)
/-- An entry of the client properties: amqp_table_construct_utf8_entry and amqp_table_construct_bool_entry, amqp_table.c:615-640; used at amqp_socket.c:1203-1434. -/
def boolEntry (key : String) (v : Int32) : PE := .mk (some ⟨0, 0, key.length⟩) (cstr key) (.boolean v)

/-- The default properties of amqp_socket.c:1303-1328. -/
def defaultProperties (b : Build) : PTable :=
  ⟨some ⟨0, 0, 6 * SIZEOF_ENTRY⟩,
   [utf8Entry "product" (cstr "rabbitmq-c"), utf8Entry "version" b.version, utf8Entry "platform" b.platform,
    utf8Entry "copyright" (cstr "Copyright (c) 2007-2014 VMWare Inc, Tony Garnock-Jones, and Alan Antonuk."),
    utf8Entry "information" (cstr "See https://github.com/alanxz/rabbitmq-c"),
    .mk (some ⟨0, 0, 12⟩) (cstr "capabilities") (.table (some ⟨0, 0, 2 * SIZEOF_ENTRY⟩)
      [boolEntry "authentication_failure_close" 1, boolEntry "exchange_exchange_bindings" 1])]⟩

/-- The negotiation of amqp_socket.c:1370-1383: channel_max, frame_max, heartbeat. -/
def negotiate (clientChannel : UInt16) (clientFrame : UInt32) (clientHb : UInt16) (serverChannel : UInt16) (serverFrame : UInt32)
    (serverHb : UInt16) : UInt16 × UInt32 × UInt16 :=
  (if serverChannel ≠ 0 ∧ (serverChannel < clientChannel ∨ clientChannel = 0) then serverChannel
   else if serverChannel = 0 ∧ clientChannel = 0 then 65535 else clientChannel,
   if serverFrame ≠ 0 ∧ serverFrame < clientFrame then serverFrame else clientFrame,
   if serverHb ≠ 0 ∧ serverHb < clientHb then serverHb else clientHb)

/-- What the application asks for. (The arguments of amqp_login_inner, amqp_socket.c:1203-1209.) -/
structure LoginArgs where
  vhost : Bytes
  channelMax : Int
  frameMax : Int
  heartbeat : Int
  /-- `none` is a NULL pointer -/
  clientProperties : Option PTable
  sasl : Sasl

/-- amqp_socket.c:1249-1275: waiting for connection.start and looking at it. -/
def awaitStart (E : NetEnv) (memcmp : Bytes → Bytes → Int) (sasl : Sasl) (deadline : Nat) : M Conn Unit := do
  let (_, r) ← waitMethodList E 0 [CONNECTION_START] deadline
  match r.get? .version_major, r.get? .version_minor, r.get? .server_properties, r.get? .mechanisms with
  | some (.u8 major), some (.u8 minor), some (.table sp), some (.bytes mech) =>
    if major ≠ 0 ∨ minor ≠ 9 then M.fail St.INCOMPATIBLE_AMQP_VERSION
    else do
      let t ← withAlloc E fun alloc => cloneTable alloc 1 (storeTable sp)
      (fun s => .ok () { s with serverProps := t.erase } : M Conn Unit)
      if mechanismInList memcmp mech sasl then pure () else M.fail St.BROKER_UNSUPPORTED_SASL_METHOD
  | _, _, _, _ => M.ub

/-- amqp_socket.c:1277-1345: connection.start-ok. -/
def sendStartOk (E : NetEnv) (b : Build) (memcmp : Bytes → Bytes → Int) (props : Option PTable) (sasl : Sasl) (deadline : Nat) :
    M Conn Unit := do
  (fun s => match getPool E.pe s.ps 0 with
    | (true, ps) => .ok () { s with ps := ps }
    | (false, ps) => .err St.NO_MEMORY { s with ps := ps } : M Conn Unit)
  let response ← saslResponse E sasl
  let t ← withAlloc E fun alloc => mergeCapabilities memcmp alloc 0 (defaultProperties b) props
  (fun s => .ok () { s with clientProps := t.erase, clientBorn := s.time } : M Conn Unit)
  sendMethod E 0 CONNECTION_START_OK
    [(.client_properties, .table t.erase), (.mechanism, .bytes sasl.name), (.response, .bytes response), (.locale, .bytes (cstr "en_US"))]
    SF_NONE deadline

/-- amqp_socket.c:1385-1406: adopting the negotiated values and telling the broker. -/
def tuneOk (E : NetEnv) (mem : Nat → UInt8) (v : UInt16 × UInt32 × UInt16) (deadline : Nat) : M Conn Unit := do
  tune E v.1.toNat v.2.1.toNat v.2.2.toNat mem
  sendMethod E 0 CONNECTION_TUNE_OK [(.channel_max, .u16 v.1), (.frame_max, .u32 v.2.1), (.heartbeat, .u16 v.2.2)] SF_NONE deadline

/-- amqp_socket.c:1408-1431: connection.open. -/
def openVhost (E : NetEnv) (vhost : Bytes) (deadline : Nat) : M Conn (Outcome Unit) := fun s =>
  match rpcInner E 0 CONNECTION_OPEN [CONNECTION_OPEN_OK]
      [(.virtual_host, .bytes vhost), (.capabilities, .bytes []), (.insist, .bool 1)] deadline s with
  | .ok (.normal _ _) s => .ok (.normal ()) (maybeRelease s)
  | .ok (.serverException id args) s => .ok (.serverException id args) s
  | .ok (.libraryException e) s => .ok (.libraryException e) s
  | .err e s => .err e s
  | .ub => .ub
  | .fuel => .fuel

/-- amqp_login_inner from amqp_socket.c:1239 on; an `err` is `goto error_res`. -/
def loginSteps (E : NetEnv) (b : Build) (memcmp : Bytes → Bytes → Int) (mem : Nat → UInt8) (a : LoginArgs)
    (timeout : Option TimeVal) : M Conn (Outcome Unit) := do
  let deadline ← fromNowIO E timeout
  let r ← sendHeaderInner E deadline
  if r ≠ St.OK then M.fail r
  else do
    awaitStart E memcmp a.sasl deadline
    sendStartOk E b memcmp a.clientProperties a.sasl deadline
    releaseBuffers
    let (id, r) ← waitMethodList E 0 [CONNECTION_TUNE, CONNECTION_CLOSE] deadline
    if id = CONNECTION_CLOSE then pure (.serverException id r)
    else
      match r.get? .channel_max, r.get? .frame_max, r.get? .heartbeat with
      | some (.u16 c), some (.u32 f), some (.u16 h) => do
        tuneOk E mem (negotiate (UInt16.ofNat a.channelMax.toNat) (UInt32.ofNat a.frameMax.toNat)
          (UInt16.ofNat a.heartbeat.toNat) c f h) deadline
        releaseBuffers
        openVhost E a.vhost deadline
      | _, _, _ => M.ub

/-- amqp_login_inner, amqp_socket.c:1203-1434. -/
def loginInner (E : NetEnv) (b : Build) (memcmp : Bytes → Bytes → Int) (mem : Nat → UInt8) (a : LoginArgs)
    (timeout : Option TimeVal) : M Conn (Outcome Unit) := fun s =>
  if a.channelMax < 0 ∨ a.channelMax > 65535 then .ok (.libraryException St.INVALID_PARAMETER) s
  else if a.frameMax < 0 then .ok (.libraryException St.INVALID_PARAMETER) s
  else if a.heartbeat < 0 ∨ a.heartbeat > 65535 then .ok (.libraryException St.INVALID_PARAMETER) s
  else
    match loginSteps E b memcmp mem a timeout s with
    | .ok r s => .ok r s
    | .err e s => .ok (.libraryException e) (sockClose E s).2
    | .ub => .ub
    | .fuel => .fuel

/-- amqp_login_with_properties, amqp_socket.c:1454-1470; amqp_login, 1436-1452, is this with an empty table. -/
def login (E : NetEnv) (b : Build) (memcmp : Bytes → Bytes → Int) (mem : Nat → UInt8) (a : LoginArgs) : M Conn (Outcome Unit) :=
  fun s => loginInner E b memcmp mem a (getHandshakeTimeout s.timeouts) s

end Rmq
