import Verif.Model.Frame
import Verif.Model.Time
/-!
# The connection's input/output layer — librabbitmq/amqp_socket.c, amqp_connection.c

The transport (TCP or TLS socket class), the kernel's poll, the clock and the allocator are an environment `NetEnv` that answers
the k-th request as it likes; every theorem quantifies over all of them.  Every request and its answer is an event of the
connection's `log`, which also drives the choice of the next answer (its length is the number of requests so far).

Loops that can go on for ever (busy transport, interrupted calls) take a bound `NetEnv.fuel`; `Res.fuel` means that the bound was
hit.  Theorems hold for every bound.
-/
namespace Rmq

/-- AMQP_SF_NONE, AMQP_SF_MORE of amqp_socket.h:31-36 (as given to `send`). -/
def SF_NONE : Nat := 0
/-- AMQP_SF_MORE, amqp_socket.h:18. -/
def SF_MORE : Nat := 1

/-- The event polled for: AMQP_SF_POLLIN, AMQP_SF_POLLOUT. (amqp_socket.h:19-20.) -/
inductive Dir where
  | read | write
deriving Repr, DecidableEq

/-- Answer of the socket class's `send`: a number of bytes accepted, or the negative status `-(n+1)`. (amqp_socket.c:89-101; the classes: amqp_tcp_socket.c:32-144, amqp_openssl.c.) -/
inductive SendR where
  | sent (n : Nat)
  | fail (n : Nat)
deriving Repr, DecidableEq

/-- Answer of the socket class's `recv`: bytes, or the negative status `-(n+1)`. (amqp_socket.c:89-101; the classes: amqp_tcp_socket.c:32-144, amqp_openssl.c.) -/
inductive RecvR where
  | data (b : Bytes)
  | fail (n : Nat)
deriving Repr, DecidableEq

/-- Answer of `poll(2)` on one descriptor: a positive result, 0, -1 with EINTR, -1 with another errno. (amqp_socket.c:149-161.) -/
inductive PollR where
  | ready | timeout | intr | error
deriving Repr, DecidableEq

/-- The world outside the connection.  Argument: the number of events so far. (No lines of /repo: what amqp_socket.c:89-180 and amqp_time.c:71-82 call.) -/
structure NetEnv where
  /-- parser environment: byte order, allocator -/
  pe : PEnv
  /-- amqp_get_monotonic_timestamp; 0 is a failure -/
  clock : Nat → Nat
  /-- the answer may also depend on what is offered -/
  send : Nat → Bytes → SendR
  /-- the answer may also depend on how many octets were received so far -/
  recv : Nat → Nat → RecvR
  poll : Nat → PollR
  /-- does closing the descriptor succeed? -/
  close : Nat → Bool
  /-- bound on the number of iterations of each loop -/
  fuel : Nat

/-- What happened outside. (No lines of /repo: what amqp_socket.c:89-180 and amqp_time.c:71-82 call.) -/
inductive Ev where
  /-- the clock was read -/
  | clock (now : Nat)
  /-- `send` was called with these bytes and flags and returned `res` -/
  | send (offered : Bytes) (flags : Nat) (res : Int)
  /-- `recv` returned these bytes -/
  | recvData (b : Bytes)
  /-- `recv` returned a negative status -/
  | recvFail (st : Int)
  | poll (d : Dir) (ms : Int) (r : PollR)
  | close (ok : Bool)
  /-- (ghost) the parser took these bytes from the receive buffer -/
  | parsed (b : Bytes)
  /-- the pool of a channel was recycled: everything allocated from it so far is gone -/
  | recycle (ch : UInt16)
deriving Repr, DecidableEq

/-- A frame as delivered or queued.  `born` (ghost) is the number of events when it was decoded; the memory its payload points to
was allocated from its channel's pool at that time. (amqp_frame_t, include/rabbitmq-c/amqp.h:502-529; amqp_link_t, amqp_private.h:101-104.) -/
structure DFrame where
  frame : AFrame
  born : Nat

/-- The connection state of amqp_private.h:114-165 as far as this file uses it.  Simplifications: the receive buffer
(sock_inbound_buffer with offset and limit) is the list of bytes between offset and limit; the linked list of queued frames is a
list; the socket is just open or not. -/
structure Conn where
  ps : PState
  /-- unparsed bytes of sock_inbound_buffer -/
  inb : Bytes
  queue : List DFrame
  /-- state->heartbeat -/
  heartbeat : Int
  nextRecv : Nat
  nextSend : Nat
  /-- memory of outbound_buffer.bytes -/
  outMem : Bytes
  /-- outbound_buffer.len -/
  outLen : Nat
  /-- does the socket have a descriptor (amqp_get_sockfd(state) != -1)? -/
  isOpen : Bool
  channelMax : Int
  frameMax : Int
  timeouts : Timeouts
  /-- state->server_properties, which live in a pool of their own (state->properties_pool) until the connection is destroyed -/
  serverProps : Table
  /-- state->client_properties -/
  clientProps : Table
  /-- (ghost) the number of events when client_properties were made: they live in the pool of channel 0, amqp_socket.c:1329-1330 -/
  clientBorn : Nat
  /-- ghost -/
  log : List Ev

/-- Bookkeeping of the model, no lines of /repo; for the calls at amqp_socket.c:89-180. -/
def Conn.push (s : Conn) (e : Ev) : Conn := { s with log := s.log ++ [e] }
/-- The number of events so far. (Bookkeeping of the model, no lines of /repo; for the calls at amqp_socket.c:89-180.) -/
def Conn.time (s : Conn) : Nat := s.log.length
/-- The number of octets received so far. (Bookkeeping of the model, no lines of /repo; for the calls at amqp_socket.c:89-180.) -/
def Conn.received (s : Conn) : Nat := (s.log.map fun | .recvData b => b.length | _ => 0).sum

/-- Size of sock_inbound_buffer, amqp_connection.c:25-27. -/
def SOCK_BUF : Nat := 131072

/-! ## Reading the clock (amqp_time.c, where the clock is only read when it is needed) -/

/-- amqp_get_monotonic_timestamp. (amqp_time.c:71-82.) -/
def readClock (E : NetEnv) (s : Conn) : Nat × Conn := (E.clock s.time, s.push (.clock (E.clock s.time)))

/-- amqp_time_ms_until, amqp_time.c:145-170. -/
def msUntilIO (E : NetEnv) (t : Nat) (s : Conn) : Int × Conn :=
  if TIME_INF = t ∨ 0 = t then (msUntil 0 t, s)
  else (msUntil (E.clock s.time) t, (readClock E s).2)

/-- amqp_time_has_past, amqp_time.c:209-225. -/
def hasPastIO (E : NetEnv) (t : Nat) (s : Conn) : Int × Conn :=
  if TIME_INF = t then (hasPast 0 t, s)
  else (hasPast (E.clock s.time) t, (readClock E s).2)

/-- amqp_time_from_now, amqp_time.c:83-112. -/
def fromNowIO (E : NetEnv) (tv : Option TimeVal) : M Conn Nat := fun s =>
  match tv with
  | none => .ok TIME_INF s
  | some v =>
    if v.sec < 0 ∨ v.usec < 0 then .err St.INVALID_PARAMETER s
    else
      match timeFromNow (E.clock s.time) (some v) with
      | .ok t => .ok t (readClock E s).2
      | .error e => .err e (readClock E s).2

/-- amqp_time_tv_until, amqp_time.c:172-207. -/
def tvUntilIO (E : NetEnv) (t : Nat) : M Conn (Option TimeVal) := fun s =>
  if TIME_INF = t then .ok none s
  else if 0 = t then .ok (some ⟨0, 0⟩) s
  else
    match tvUntil (E.clock s.time) t with
    | .ok v => .ok v (readClock E s).2
    | .error e => .err e (readClock E s).2

/-- amqp_time_s_from_now, amqp_time.c:114-137, storing into `*time`: the status, the value then found in `*time` (`old` if it was not
written), and the connection. -/
def sFromNowIO (E : NetEnv) (seconds : Int) (old : Nat) (s : Conn) : Int × Nat × Conn :=
  if 0 ≥ seconds then (St.OK, TIME_INF, s)
  else
    let now := E.clock s.time
    let s := (readClock E s).2
    if now = 0 then (St.TIMER_FAILURE, old, s)
    else
      let delta := (seconds.toNat * 1000000000) % 2 ^ 64
      let t := (now + delta) % 2 ^ 64
      if now > t ∨ delta > t then (St.INVALID_PARAMETER, t, s) else (St.OK, t, s)

/-- `amqp_time_s_from_now(&state->next_send_heartbeat, amqp_heartbeat_send(state))`, amqp_connection.c:560-562; amqp_heartbeat_send is
state->heartbeat, amqp_private.h:172-174. -/
def restartSend (E : NetEnv) : M Conn Unit := fun s =>
  match sFromNowIO E s.heartbeat s.nextSend s with
  | (st, t, s) => if st = St.OK then .ok () { s with nextSend := t } else .err st { s with nextSend := t }

/-- `amqp_time_s_from_now(&state->next_recv_heartbeat, amqp_heartbeat_recv(state))`, amqp_socket.c:686-690; amqp_heartbeat_recv is
2 * state->heartbeat, amqp_private.h:176-178. -/
def restartRecv (E : NetEnv) : M Conn Unit := fun s =>
  match sFromNowIO E (2 * s.heartbeat) s.nextRecv s with
  | (st, t, s) => if st = St.OK then .ok () { s with nextRecv := t } else .err st { s with nextRecv := t }

/-! ## Polling and sending -/

/-- amqp_poll (HAVE_POLL version), amqp_socket.c:137-180. -/
def pollFd (E : NetEnv) (d : Dir) (deadline : Nat) : Nat → M Conn Unit
  | 0 => M.outOfFuel
  | n + 1 => fun s =>
    match msUntilIO E deadline s with
    | (ms, s) =>
      if -1 > ms then .err ms s
      else
        match E.poll s.time with
        | .ready => .ok () (s.push (.poll d ms .ready))
        | .timeout => .err St.TIMEOUT (s.push (.poll d ms .timeout))
        | .intr => pollFd E d deadline n (s.push (.poll d ms .intr))
        | .error => .err St.SOCKET_ERROR (s.push (.poll d ms .error))

/-- amqp_socket_send, amqp_socket.c:88-93, on a socket class: SOCKET_CLOSED without a descriptor (amqp_tcp_socket.c:38-40,
amqp_openssl.c:150-152), otherwise the transport's answer, which is at most the number of bytes offered. -/
def sockSend (E : NetEnv) (buf : Bytes) (flags : Nat) (s : Conn) : Int × Conn :=
  if s.isOpen then
    match E.send s.time buf with
    | .sent n => ((min n buf.length : Nat), s.push (.send buf flags (min n buf.length : Nat)))
    | .fail n => (-(n + 1 : Nat), s.push (.send buf flags (-(n + 1 : Nat))))
  else (St.SOCKET_CLOSED, s)

/-- do_poll, amqp_socket.c:229-245, on a result that is not positive. -/
def doPoll (E : NetEnv) (res : Int) (deadline : Nat) : M Conn Unit := fun s =>
  if s.isOpen = false then .err St.SOCKET_CLOSED s
  else if res = St.PRIVATE_NEED_READ then pollFd E .read deadline E.fuel s
  else if res = St.PRIVATE_NEED_WRITE then pollFd E .write deadline E.fuel s
  else if res = St.OK then .ok () s
  else .err res s

/-- The loop of amqp_try_send, amqp_socket.c:247-275: `len` bytes in all, `left` still to go.  The value is the number of bytes
sent. -/
def trySend (E : NetEnv) (deadline : Nat) (flags : Nat) (len : Nat) : Nat → Bytes → M Conn Nat
  | 0, _ => M.outOfFuel
  | n + 1, left => fun s =>
    match sockSend E left flags s with
    | (res, s) =>
      if res > 0 then
        if (left.drop res.toNat).length = 0 then .ok len s
        else trySend E deadline flags len n (left.drop res.toNat) s
      else
        match doPoll E res deadline s with
        | .ok () s => trySend E deadline flags len n left s
        | .err e s => if e = St.TIMEOUT then .ok (len - left.length) s else .err e s
        | .ub => .ub
        | .fuel => .fuel

/-! ## Receiving -/

/-- consume_one_frame, amqp_socket.c:630-648. -/
def consumeOne (E : NetEnv) : M Conn (Option DFrame) := fun s =>
  match handleInput E.pe s.ps s.inb with
  | .ok (k, f) ps =>
    let s' := ({ s with ps := ps, inb := s.inb.drop k }).push (.parsed (s.inb.take k))
    .ok (f.map fun f => ⟨f, s'.time⟩) s'
  | .err e ps => .err e { s with ps := ps }
  | .ub => .ub
  | .fuel => .fuel

/-- recv_with_timeout, amqp_socket.c:650-692. -/
def recvWithTimeout (E : NetEnv) (timeout : Nat) : Nat → M Conn Unit
  | 0 => M.outOfFuel
  | n + 1 => fun s =>
    if s.isOpen = false then .err St.CONNECTION_CLOSED s
    else
      match E.recv s.time s.received with
      | .data b => restartRecv E ({ s with inb := b.take SOCK_BUF }.push (.recvData (b.take SOCK_BUF)))
      | .fail k =>
        let st : Int := -(k + 1 : Nat)
        let s := s.push (.recvFail st)
        if st = St.PRIVATE_NEED_READ then
          match pollFd E .read timeout E.fuel s with
          | .ok () s => recvWithTimeout E timeout n s
          | .err e s => .err e s
          | .ub => .ub
          | .fuel => .fuel
        else if st = St.PRIVATE_NEED_WRITE then
          match pollFd E .write timeout E.fuel s with
          | .ok () s => recvWithTimeout E timeout n s
          | .err e s => .err e s
          | .ub => .ub
          | .fuel => .fuel
        else .err st s

/-- One small allocation from a channel's pool (amqp_pool_alloc): its answer is the allocator's. (amqp_mem.c:81-133; called at amqp_socket.c:805-846.) -/
def smallAlloc (E : NetEnv) (s : Conn) : Bool × Conn :=
  (E.pe.alloc s.ps.allocs, { s with ps := { s.ps with allocs := s.ps.allocs + 1 } })

/-- amqp_create_link_for_frame, amqp_socket.c:805-830, also written out in amqp_socket.c:710-725 (amqp_try_recv) and
amqp_socket.c:1055-1072 (simple_rpc_inner): a pool for the channel, a link and a copy of the frame. -/
def createLink (E : NetEnv) (ch : UInt16) (s : Conn) : Bool × Conn :=
  match getPool E.pe s.ps ch with
  | (false, ps) => (false, { s with ps := ps })
  | (true, ps) =>
    match smallAlloc E { s with ps := ps } with
    | (a, s) =>
      match smallAlloc E s with
      | (b, s) => (a && b, s)

/-- amqp_queue_frame, amqp_socket.c:830-846 (the same statements in amqp_try_recv and simple_rpc_inner). -/
def queueFrame (E : NetEnv) (f : DFrame) : M Conn Unit := fun s =>
  match createLink E f.frame.channel s with
  | (true, s) => .ok () { s with queue := s.queue ++ [f] }
  | (false, s) => .err St.NO_MEMORY s

/-- amqp_put_back_frame, amqp_socket.c:851-869. -/
def putBackFrame (E : NetEnv) (f : DFrame) : M Conn Unit := fun s =>
  match createLink E f.frame.channel s with
  | (true, s) => .ok () { s with queue := f :: s.queue }
  | (false, s) => .err St.NO_MEMORY s

/-- The `while (amqp_data_in_buffer(state))` loop of amqp_try_recv, amqp_socket.c:698-737. -/
def drainToQueue (E : NetEnv) : Nat → M Conn Unit
  | 0 => M.outOfFuel
  | n + 1 => fun s =>
    if s.inb = [] then .ok () s
    else
      match consumeOne E s with
      | .ok none s => drainToQueue E n s
      | .ok (some f) s =>
        match queueFrame E f s with
        | .ok () s => drainToQueue E n s
        | .err e s => .err e s
        | .ub => .ub
        | .fuel => .fuel
      | .err e s => .err e s
      | .ub => .ub
      | .fuel => .fuel

/-- amqp_try_recv, amqp_socket.c:694-745. -/
def tryRecv (E : NetEnv) : M Conn Unit := do
  drainToQueue E E.fuel
  let timeout ← fromNowIO E (some ⟨0, 0⟩)
  recvWithTimeout E timeout E.fuel

/-- The part of amqp_send_frame_inner from `start_send`, amqp_connection.c:530-563. -/
def sendLoop (E : NetEnv) (flags : Nat) (deadline : Nat) : Nat → Bytes → M Conn Unit
  | 0, _ => M.outOfFuel
  | n + 1, enc => fun s =>
    let next := timeFirst deadline s.nextRecv
    match trySend E next flags enc.length E.fuel enc s with
    | .ok sent s =>
      if enc.length ≠ sent then
        if timeEqual next deadline then .err St.TIMEOUT s
        else
          match tryRecv E s with
          | .ok () s => sendLoop E flags deadline n (enc.drop sent) s
          | .err e s => if e = St.TIMEOUT then .err St.HEARTBEAT_TIMEOUT s else .err e s
          | .ub => .ub
          | .fuel => .fuel
      else restartSend E s
    | .err e s => .err e s
    | .ub => .ub
    | .fuel => .fuel

/-- amqp_send_frame_inner, amqp_connection.c:512-563. -/
def sendFrame (E : NetEnv) (f : AFrame) (flags : Nat) (deadline : Nat) : M Conn Unit := fun s =>
  match frameToBytes E.pe.be s.outMem s.outLen f with
  | .ok enc mem => sendLoop E flags deadline E.fuel enc { s with outMem := mem }
  | .err e mem => .err e { s with outMem := mem }
  | .ub => .ub
  | .fuel => .fuel

/-! ## Closing and releasing -/

/-- amqp_socket_close on a socket class, amqp_socket.c:116-120; amqp_tcp_socket.c:186-199: the descriptor is forgotten only if closing
it succeeded. -/
def sockClose (E : NetEnv) (s : Conn) : Int × Conn :=
  if s.isOpen = false then (St.SOCKET_CLOSED, s)
  else if E.close s.time then (St.OK, { s with isOpen := false }.push (.close true))
  else (St.SOCKET_ERROR, s.push (.close false))

/-- amqp_maybe_release_buffers_on_channel, amqp_connection.c:405-429. -/
def maybeReleaseOn (ch : UInt16) (s : Conn) : Conn :=
  if s.ps.mode ≠ .idle then s
  else if s.queue.any (fun f => f.frame.channel == ch) then s
  else if ch ∈ s.ps.pools then s.push (.recycle ch)
  else s

/-- amqp_release_buffers, amqp_connection.c:386-397, in the state it demands (otherwise it aborts the process). -/
def releaseBuffers : M Conn Unit := fun s =>
  if s.ps.mode ≠ .idle then .ub
  else .ok () (s.ps.pools.foldl (fun s ch => maybeReleaseOn ch s) s)

/-- amqp_maybe_release_buffers, amqp_connection.c:399-403. -/
def maybeRelease (s : Conn) : Conn :=
  if s.ps.mode = .idle then s.ps.pools.foldl (fun s ch => maybeReleaseOn ch s) s else s

/-! ## Waiting for frames -/

/-- From `beginrecv` to the end of the loop body of wait_frame_inner, amqp_socket.c:768-801.  `true` is `goto beginrecv`, `false` is the
next iteration.  `amqp_abort` is `.ub`. -/
def beginRecv (E : NetEnv) (timeoutDeadline : Nat) : M Conn Bool := fun s =>
  match hasPastIO E s.nextSend s with
  | (res, s) =>
    if res = St.TIMER_FAILURE then .err res s
    else
      match (if res = St.TIMEOUT then sendFrame E ⟨0, .heartbeat⟩ SF_NONE TIME_INF s else .ok () s) with
      | .err e s => .err e s
      | .ub => .ub
      | .fuel => .fuel
      | .ok () s =>
        let deadline := timeFirst timeoutDeadline (timeFirst s.nextRecv s.nextSend)
        match recvWithTimeout E deadline E.fuel s with
        | .ok () s => .ok false s
        | .err e s =>
          if e = St.TIMEOUT then
            if timeEqual deadline s.nextRecv then .err St.HEARTBEAT_TIMEOUT (sockClose E s).2
            else if timeEqual deadline timeoutDeadline then .err St.TIMEOUT s
            else if timeEqual deadline s.nextSend then .ok true s
            else .ub
          else .err e s
        | .ub => .ub
        | .fuel => .fuel

/-- wait_frame_inner, amqp_socket.c:747-803.  `atRecv`: continue at `beginrecv`. -/
def waitInner (E : NetEnv) (deadline : Nat) : Nat → Bool → M Conn DFrame
  | 0, _ => M.outOfFuel
  | n + 1, atRecv => fun s =>
    if atRecv = false ∧ s.inb ≠ [] then
      match consumeOne E s with
      | .ok none s => waitInner E deadline n false s
      | .ok (some f) s =>
        match f.frame.payload with
        | .heartbeat => waitInner E deadline n false (maybeReleaseOn 0 s)
        | _ => .ok f s
      | .err e s => .err e s
      | .ub => .ub
      | .fuel => .fuel
    else
      match beginRecv E deadline s with
      | .ok again s => waitInner E deadline n again s
      | .err e s => .err e s
      | .ub => .ub
      | .fuel => .fuel

/-- wait_frame_inner called from its start. (amqp_socket.c:740-803.) -/
def waitFrameInner (E : NetEnv) (deadline : Nat) : M Conn DFrame := waitInner E deadline E.fuel false

/-- amqp_simple_wait_frame_noblock, amqp_socket.c:912-935; amqp_simple_wait_frame is this with no timeout, amqp_socket.c:907-910. -/
def waitFrame (E : NetEnv) (timeout : Option TimeVal) : M Conn DFrame := do
  let deadline ← fromNowIO E timeout
  fun s =>
    match s.queue with
    | f :: rest => .ok f { s with queue := rest }
    | [] => waitFrameInner E deadline s

/-- The first queued frame of a channel and what is left of the queue: amqp_socket.c:878-891.  (The frames before it are dropped: the code
sets first_queued_frame to the next of the frame found.) -/
def findQueued (ch : UInt16) : List DFrame → Option (DFrame × List DFrame)
  | [] => none
  | f :: rest => if f.frame.channel = ch then some (f, rest) else findQueued ch rest

/-- The second loop of amqp_simple_wait_frame_on_channel, amqp_socket.c:893-904. -/
def waitOnLoop (E : NetEnv) (ch : UInt16) : Nat → M Conn DFrame
  | 0 => M.outOfFuel
  | n + 1 => fun s =>
    match waitFrameInner E TIME_INF s with
    | .ok f s =>
      if f.frame.channel = ch then .ok f s
      else
        match queueFrame E f s with
        | .ok () s => waitOnLoop E ch n s
        | .err e s => .err e s
        | .ub => .ub
        | .fuel => .fuel
    | .err e s => .err e s
    | .ub => .ub
    | .fuel => .fuel

/-- amqp_simple_wait_frame_on_channel, amqp_socket.c:871-905. -/
def waitFrameOn (E : NetEnv) (ch : UInt16) : M Conn DFrame := fun s =>
  match findQueued ch s.queue with
  | some (f, rest) => .ok f { s with queue := rest }
  | none => waitOnLoop E ch E.fuel s

/-! ## Methods and RPC -/

/-- amqp_simple_wait_method_list, amqp_socket.c:937-960.  `expected` is the zero-terminated list without its end
(amqp_id_in_reply_list, amqp_socket.c:999-1009). -/
def waitMethodList (E : NetEnv) (ch : UInt16) (expected : List UInt32) (deadline : Nat) : M Conn (UInt32 × Rec) := do
  let tv ← tvUntilIO E deadline
  let f ← waitFrame E tv
  match f.frame.payload with
  | .method id args =>
    if f.frame.channel = ch ∧ id ∈ expected then pure (id, args) else M.fail St.WRONG_METHOD
  | _ => M.fail St.WRONG_METHOD

/-- amqp_simple_wait_method, amqp_socket.c:974-980, through simple_wait_method_inner, amqp_socket.c:962-972. -/
def waitMethod (E : NetEnv) (ch : UInt16) (id : UInt32) : M Conn (UInt32 × Rec) := waitMethodList E ch [id] TIME_INF

/-- amqp_send_method_inner, amqp_socket.c:988-999. -/
def sendMethod (E : NetEnv) (ch : UInt16) (id : UInt32) (args : Rec) (flags : Nat) (deadline : Nat) : M Conn Unit :=
  sendFrame E ⟨ch, .method id args⟩ flags deadline

/-- `amqp_rpc_reply_t`, include/rabbitmq-c/amqp.h:545-560. -/
inductive Reply where
  | normal (id : UInt32) (args : Rec)
  | serverException (id : UInt32) (args : Rec)
  | libraryException (st : Int)

/-- AMQP_CHANNEL_CLOSE_METHOD, AMQP_CONNECTION_CLOSE_METHOD of framing.h. -/
def CHANNEL_CLOSE : UInt32 := 0x00140028
/-- AMQP_CONNECTION_CLOSE_METHOD, include/rabbitmq-c/framing.h:227-228. -/
def CONNECTION_CLOSE : UInt32 := 0x000A0032

/-- The test of amqp_socket.c:1041-1048: does the frame end the RPC on channel `ch`? -/
def endsRpc (ch : UInt16) (expected : List UInt32) (f : AFrame) : Bool :=
  match f.payload with
  | .method id _ =>
    (f.channel == ch && (expected.contains id || id == CHANNEL_CLOSE)) || (f.channel == 0 && id == CONNECTION_CLOSE)
  | _ => false

/-- From `retry` in simple_rpc_inner, amqp_socket.c:1029-1090.  The function returns a struct, so it always returns (`ok`). -/
def rpcLoop (E : NetEnv) (ch : UInt16) (expected : List UInt32) (deadline : Nat) : Nat → M Conn Reply
  | 0 => M.outOfFuel
  | n + 1 => fun s =>
    match waitFrameInner E deadline s with
    | .ok f s =>
      if endsRpc ch expected f.frame then
        match f.frame.payload with
        | .method id args =>
          .ok (if expected.contains id then .normal id args else .serverException id args) s
        | _ => .ub
      else
        match queueFrame E f s with
        | .ok () s => rpcLoop E ch expected deadline n s
        | .err _ s => .ok (.libraryException St.NO_MEMORY) s
        | .ub => .ub
        | .fuel => .fuel
    | .err e s =>
      .ok (.libraryException e) (if e = St.TIMEOUT then (sockClose E s).2 else s)
    | .ub => .ub
    | .fuel => .fuel

/-- simple_rpc_inner, amqp_socket.c:1011-1091. -/
def rpcInner (E : NetEnv) (ch : UInt16) (id : UInt32) (expected : List UInt32) (args : Rec) (deadline : Nat) : M Conn Reply :=
  fun s =>
    match sendMethod E ch id args SF_NONE TIME_INF s with
    | .ok () s => rpcLoop E ch expected deadline E.fuel s
    | .err e s => .ok (.libraryException e) s
    | .ub => .ub
    | .fuel => .fuel

/-- amqp_simple_rpc, amqp_socket.c:1093-1108. -/
def simpleRpc (E : NetEnv) (ch : UInt16) (id : UInt32) (expected : List UInt32) (args : Rec) : M Conn Reply := fun s =>
  match fromNowIO E (getRpcTimeout s.timeouts) s with
  | .ok deadline s => rpcInner E ch id expected args deadline s
  | .err e s => .ok (.libraryException e) s
  | .ub => .ub
  | .fuel => .fuel

/-! ## Protocol header -/

/-- The eight octets of send_header_inner, amqp_socket.c:485-493. -/
def protocolHeaderBytes : Bytes := [65, 77, 81, 80, 0, 0, 9, 1]

/-- send_header_inner, amqp_socket.c:483-501: the `int` it returns. -/
def sendHeaderInner (E : NetEnv) (deadline : Nat) : M Conn Int := fun s =>
  match trySend E deadline SF_NONE 8 E.fuel protocolHeaderBytes s with
  | .ok n s => .ok (if n = 8 then St.OK else (n : Int)) s
  | .err e s => .ok e s
  | .ub => .ub
  | .fuel => .fuel

/-! ## Tuning and creation -/

/-- amqp_tune_connection, amqp_connection.c:108-143.  The argument `mem` gives the contents of the reallocated buffer if `realloc`
succeeds (`alloc`).  `(size_t)frame_max` for a negative int wraps. -/
def tune (E : NetEnv) (channelMax frameMax heartbeat : Int) (mem : Nat → UInt8) : M Conn Unit := fun s =>
  if s.ps.mode ≠ .idle then .ub
  else
    let size := (frameMax % 2 ^ 64).toNat
    let s := { s with channelMax := channelMax, frameMax := frameMax, ps := { s.ps with frameMax := size },
                      heartbeat := if 0 > heartbeat then 0 else heartbeat }
    match restartSend E s with
    | .err e s => .err e s
    | .ub => .ub
    | .fuel => .fuel
    | .ok () s =>
      match restartRecv E s with
      | .err e s => .err e s
      | .ub => .ub
      | .fuel => .fuel
      | .ok () s =>
        let s := { s with outLen := size }
        match smallAlloc E s with
        | (true, s) => .ok () { s with outMem := (List.range size).map fun i => s.outMem.getD i (mem i) }
        | (false, s) => .err St.NO_MEMORY s

/-- AMQP_INITIAL_FRAME_POOL_PAGE_SIZE, amqp_connection.c:21-23. -/
def INITIAL_FRAME_MAX : Nat := 65536

/-- amqp_new_connection, amqp_connection.c:44-86, when it succeeds, with an open socket set (amqp_set_sockfd or a socket opened by the
application). -/
def newConn (mem : Nat → UInt8) : Conn :=
  { ps := newParser INITIAL_FRAME_MAX, inb := [], queue := [], heartbeat := 0, nextRecv := TIME_INF, nextSend := TIME_INF,
    outMem := (List.range INITIAL_FRAME_MAX).map mem, outLen := INITIAL_FRAME_MAX, isOpen := true, channelMax := 0,
    frameMax := INITIAL_FRAME_MAX, timeouts := newTimeouts, serverProps := [], clientProps := [],
    clientBorn := 0, log := [] }

end Rmq
