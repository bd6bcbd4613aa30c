import Verif.Model.Time
/-!
# System calls, connecting, and the TCP socket — librabbitmq/amqp_socket.c, librabbitmq/amqp_tcp_socket.c (POSIX build with poll)

The operating system is an oracle `Os`: what the system answers to a call may depend on how many calls were made before it.  Every call
is recorded with its arguments and its answer in a log; the log is the only state.
-/
namespace Rmq

/-- One `struct addrinfo` of getaddrinfo's list. (amqp_socket.c:440-483.) -/
abbrev Addr := Bytes

/-- Events poll waits for: POLLIN, POLLOUT. (amqp_socket.c:138-161.) -/
inductive PollEv where | pollIn | pollOut
deriving Repr, DecidableEq

/-- Answers of poll: at least one event, 0, -1 with EINTR, -1 with any other errno. (amqp_socket.c:138-161.) -/
inductive PollAns where | ready | timeout | intr | error
deriving Repr, DecidableEq

/-- Answers of connect: 0, -1 with EINPROGRESS, -1 with any other errno. (amqp_socket.c:362-437.) -/
inductive ConnAns where | ok | inProgress | error
deriving Repr, DecidableEq

/-- Answers of send: the number of octets taken; -1 with EINTR, with EAGAIN/EWOULDBLOCK, with any other errno. (amqp_tcp_socket.c:32-104.) -/
inductive SendAns where | sent (n : Nat) | intr | again | error
deriving Repr, DecidableEq

/-- Answers of recv: the octets delivered (none: end of file); errors as for send. (amqp_tcp_socket.c:106-144.) -/
inductive RecvAns where | data (b : Bytes) | intr | again | error
deriving Repr, DecidableEq

/-- The fcntl and setsockopt calls of connect_socket. (amqp_socket.c:362-437.) -/
inductive OptCall where
  /-- fcntl(fd, F_GETFD) -/ | getFd
  /-- fcntl(fd, F_SETFD, flags | FD_CLOEXEC) -/ | setCloexec
  /-- fcntl(fd, F_GETFL) -/ | getFl
  /-- fcntl(fd, F_SETFL, flags | O_NONBLOCK) -/ | setNonblock
  /-- setsockopt(TCP_NODELAY, 1) -/ | noDelay
  /-- setsockopt(SO_KEEPALIVE, 1) -/ | keepAlive
deriving Repr, DecidableEq

/-- Answers of SSL_connect: 1; otherwise what SSL_get_error says. (amqp_openssl.c:149-271.) -/
inductive HsAns where | done | wantRead | wantWrite | other
deriving Repr, DecidableEq

/-- Answers of SSL_write: a positive count; otherwise what SSL_get_error says. (amqp_openssl.c:65-108.) -/
inductive TlsSendAns where | sent (n : Nat) | wantRead | wantWrite | zeroReturn | other
deriving Repr, DecidableEq

/-- Answers of SSL_read. (amqp_openssl.c:110-147.) -/
inductive TlsRecvAns where | data (b : Bytes) | wantRead | wantWrite | zeroReturn | other
deriving Repr, DecidableEq

/-- A call with its arguments and its answer. (No lines of /repo: the calls made at amqp_socket.c:135-483, amqp_tcp_socket.c:32-174, amqp_openssl.c:65-294.) -/
inductive Sys where
  /-- clock_gettime as nanoseconds; 0 if it failed -/ | clock (now : Nat)
  /-- getaddrinfo -/ | resolve (host : Bytes) (port : Int) (ans : Option (List Addr))
  /-- socket -/ | socket (a : Addr) (ans : Option Nat)
  /-- fcntl, setsockopt -/ | opt (fd : Nat) (o : OptCall) (ok : Bool)
  /-- connect -/ | connect (fd : Nat) (a : Addr) (ans : ConnAns)
  /-- poll with one descriptor -/ | poll (fd : Int) (ev : PollEv) (ms : Int) (ans : PollAns)
  /-- getsockopt(SO_ERROR); `none`: the call failed -/ | soError (fd : Nat) (ans : Option Int)
  /-- close -/ | close (fd : Int) (ok : Bool)
  /-- send(fd, buf, len, MSG_NOSIGNAL | (more ? MSG_MORE : 0)) -/ | send (fd : Int) (buf : Bytes) (more : Bool) (ans : SendAns)
  /-- recv(fd, buf, len, flags) -/ | recv (fd : Int) (len : Nat) (ans : RecvAns)
  /-- SSL_new -/ | sslNew (ans : Option Nat)
  /-- BIO_new, BIO_set_fd, SSL_set_bio -/ | bioNew (ssl : Nat) (fd : Int) (ok : Bool)
  /-- SSL_set_tlsext_host_name -/ | sni (ssl : Nat) (host : Bytes) (ok : Bool)
  /-- SSL_connect -/ | sslConnect (ssl : Nat) (ans : HsAns)
  /-- SSL_get1_peer_certificate -/ | peerCert (ssl : Nat) (ans : Option Nat)
  /-- SSL_get_verify_result; X509_V_OK is 0 -/ | verifyResult (ssl : Nat) (ans : Int)
  /-- X509_check_host with X509_CHECK_FLAG_NO_PARTIAL_WILDCARDS -/ | checkHost (cert : Nat) (host : Bytes) (ans : Int)
  /-- X509_free of a certificate -/ | certFree (cert : Nat)
  /-- SSL_shutdown -/ | sslShutdown (ssl : Nat)
  /-- SSL_free -/ | sslFree (ssl : Nat)
  /-- SSL_write -/ | sslWrite (ssl : Nat) (buf : Bytes) (ans : TlsSendAns)
  /-- SSL_read -/ | sslRead (ssl : Nat) (len : Nat) (ans : TlsRecvAns)
deriving Repr, DecidableEq

/-- The log of calls, oldest first. (No lines of /repo: the calls made at amqp_socket.c:135-483, amqp_tcp_socket.c:32-174, amqp_openssl.c:65-294.) -/
abbrev OsLog := List Sys

/-- The operating system and OpenSSL: answers indexed by the number of calls made before. (No lines of /repo: the calls made at amqp_socket.c:135-483, amqp_tcp_socket.c:32-174, amqp_openssl.c:65-294.) -/
structure Os where
  clock : Nat → Nat
  addrs : Nat → Option (List Addr)
  newFd : Nat → Option Nat
  optOk : Nat → Bool
  connect : Nat → ConnAns
  poll : Nat → PollAns
  soError : Nat → Option Int
  closeOk : Nat → Bool
  send : Nat → SendAns
  recv : Nat → RecvAns
  sslNew : Nat → Option Nat
  bioNew : Nat → Bool
  sni : Nat → Bool
  hs : Nat → HsAns
  peerCert : Nat → Option Nat
  verifyResult : Nat → Int
  checkHost : Nat → Int
  tlsSend : Nat → TlsSendAns
  tlsRecv : Nat → TlsRecvAns
  /-- bound for the model's loops (interrupted calls, handshake rounds) -/
  fuel : Nat

/-- amqp_get_monotonic_timestamp, amqp_time.c:65-80: a `uint64_t`. -/
def Os.now (O : Os) (i : Nat) : Nat := O.clock i % 2 ^ 64

/-- Make a call: ask the oracle with the length of the log and record call and answer. (No lines of /repo: the calls made at amqp_socket.c:135-483, amqp_tcp_socket.c:32-174, amqp_openssl.c:65-294.) -/
def sys {α : Type} (f : Nat → α) (e : α → Sys) : M OsLog α := fun l => .ok (f l.length) (l ++ [e (f l.length)])

/-- amqp_time_ms_until, amqp_time.c:145-170, with the clock read only when it is needed. -/
def osMsUntil (O : Os) (t : Nat) : M OsLog Int :=
  if TIME_INF = t then pure (-1) else
  if 0 = t then pure 0 else do
  let now ← sys O.now .clock
  pure (msUntil now t)

/-- amqp_poll, amqp_socket.c:135-180 (the HAVE_POLL branch). -/
def osPoll (O : Os) (fd : Int) (ev : PollEv) (deadline : Nat) : Nat → M OsLog Int
  | 0 => M.outOfFuel
  | n + 1 => do
    let ms ← osMsUntil O deadline
    if -1 > ms then pure ms else do
    let a ← sys O.poll (.poll fd ev ms)
    match a with
    | .ready => pure St.OK
    | .timeout => pure St.TIMEOUT
    | .intr => osPoll O fd ev deadline n
    | .error => pure St.SOCKET_ERROR

/-- connect_socket after socket() succeeded, amqp_socket.c:373-431: OK, or the `last_error` of the `goto err`. SO_NOSIGPIPE exists only on
BSD and macOS and is left out. -/
def connectFd (O : Os) (fd : Nat) (a : Addr) (deadline : Nat) : M OsLog Int := do
  let b ← sys O.optOk (.opt fd .getFd)
  if b = false then pure St.SOCKET_ERROR else do
  let b ← sys O.optOk (.opt fd .setCloexec)
  if b = false then pure St.SOCKET_ERROR else do
  let b ← sys O.optOk (.opt fd .getFl)
  if b = false then pure St.SOCKET_ERROR else do
  let b ← sys O.optOk (.opt fd .setNonblock)
  if b = false then pure St.SOCKET_ERROR else do
  let b ← sys O.optOk (.opt fd .noDelay)
  if b = false then pure St.SOCKET_ERROR else do
  let b ← sys O.optOk (.opt fd .keepAlive)
  if b = false then pure St.SOCKET_ERROR else do
  let c ← sys O.connect (.connect fd a)
  match c with
  | .ok => pure St.OK
  | .error => pure St.SOCKET_ERROR
  | .inProgress => do
    let r ← osPoll O fd .pollOut deadline O.fuel
    if r ≠ St.OK then pure r else do
    let e ← sys O.soError (.soError fd)
    if e = some 0 then pure St.OK else pure St.SOCKET_ERROR

/-- connect_socket, amqp_socket.c:362-437. -/
def connectSocket (O : Os) (a : Addr) (deadline : Nat) : M OsLog Int := do
  let f ← sys O.newFd (.socket a)
  match f with
  | none => pure St.SOCKET_ERROR
  | some fd => do
    let r ← connectFd O fd a deadline
    if r = St.OK then pure (fd : Int) else do
    let _ ← sys O.closeOk (.close fd)
    pure r

/-- The loop of amqp_open_socket_inner, amqp_socket.c:466-476: `sockfd` and `last_error` at its end.  `last_error` is 0 when the loop
starts, because getaddrinfo returned 0. -/
def connectLoop (O : Os) (deadline : Nat) : List Addr → Int → M OsLog (Int × Int)
  | [], sockfd => pure (sockfd, St.OK)
  | a :: rest, _ => do
    let sockfd ← connectSocket O a deadline
    if sockfd ≥ 0 then pure (sockfd, St.OK) else
    if sockfd = St.TIMEOUT then pure (sockfd, sockfd) else
    connectLoop O deadline rest sockfd

/-- amqp_open_socket_inner, amqp_socket.c:440-483.  amqp_os_socket_init does nothing on POSIX. -/
def openSocketInner (O : Os) (host : Bytes) (port : Int) (deadline : Nat) : M OsLog Int := do
  let ans ← sys O.addrs (.resolve host port)
  match ans with
  | none => pure St.HOSTNAME_RESOLUTION_FAILED
  | some l => do
    let (sockfd, lastError) ← connectLoop O deadline l (-1)
    if lastError ≠ St.OK ∨ sockfd = -1 then pure lastError else pure sockfd

/-- amqp_open_socket, amqp_socket.c:278-280. -/
def openSocket (O : Os) (host : Bytes) (port : Int) : M OsLog Int := openSocketInner O host port TIME_INF

/-- amqp_time_from_now, amqp_time.c:83-112, with the clock read only when it is needed. -/
def osTimeFromNow (O : Os) (timeout : Option TimeVal) : M OsLog (Except Int Nat) :=
  match timeout with
  | none => pure (.ok TIME_INF)
  | some tv =>
    if tv.sec < 0 ∨ tv.usec < 0 then pure (.error St.INVALID_PARAMETER) else do
    let now ← sys O.now .clock
    pure (timeFromNow now (some tv))

/-- amqp_open_socket_noblock, amqp_socket.c:282-290. -/
def openSocketNoblock (O : Os) (host : Bytes) (port : Int) (timeout : Option TimeVal) : M OsLog Int := do
  let d ← osTimeFromNow O timeout
  match d with
  | .error e => pure e
  | .ok deadline => openSocketInner O host port deadline

/-! ## The TCP socket.  Its state is `sockfd` (-1: none). -/

/-- The loop `start:` of amqp_tcp_socket_send, amqp_tcp_socket.c:74-101; NEEDWRITE is AMQP_PRIVATE_STATUS_SOCKET_NEEDWRITE. -/
def tcpSendLoop (O : Os) (fd : Int) (buf : Bytes) (more : Bool) : Nat → M OsLog Int
  | 0 => M.outOfFuel
  | n + 1 => do
    let a ← sys O.send (.send fd buf more)
    match a with
    | .sent k => pure (k : Int)
    | .intr => tcpSendLoop O fd buf more n
    | .again => pure St.PRIVATE_NEED_WRITE
    | .error => pure St.SOCKET_ERROR

/-- amqp_tcp_socket_send, amqp_tcp_socket.c:32-104, on a system with MSG_NOSIGNAL and MSG_MORE; `more` is `flags & AMQP_SF_MORE`. -/
def tcpSend (O : Os) (fd : Int) (buf : Bytes) (more : Bool) : M OsLog Int :=
  if -1 = fd then pure St.SOCKET_CLOSED else tcpSendLoop O fd buf more O.fuel

/-- The loop `start:` of amqp_tcp_socket_recv, amqp_tcp_socket.c:114-141: the return value and the octets stored in the buffer. -/
def tcpRecvLoop (O : Os) (fd : Int) (len : Nat) : Nat → M OsLog (Int × Bytes)
  | 0 => M.outOfFuel
  | n + 1 => do
    let a ← sys O.recv (.recv fd len)
    match a with
    | .data b => if b.length = 0 then pure (St.CONNECTION_CLOSED, []) else pure ((b.length : Int), b)
    | .intr => tcpRecvLoop O fd len n
    | .again => pure (St.PRIVATE_NEED_READ, [])
    | .error => pure (St.SOCKET_ERROR, [])

/-- amqp_tcp_socket_recv, amqp_tcp_socket.c:106-144. -/
def tcpRecv (O : Os) (fd : Int) (len : Nat) : M OsLog (Int × Bytes) :=
  if -1 = fd then pure (St.SOCKET_CLOSED, []) else tcpRecvLoop O fd len O.fuel

/-- amqp_tcp_socket_open, amqp_tcp_socket.c:146-159: the status and the new `sockfd`. -/
def tcpOpen (O : Os) (fd : Int) (host : Bytes) (port : Int) (timeout : Option TimeVal) : M OsLog (Int × Int) :=
  if -1 ≠ fd then pure (St.SOCKET_INUSE, fd) else do
  let r ← openSocketNoblock O host port timeout
  if 0 > r then pure (r, -1) else pure (St.OK, r)

/-- amqp_tcp_socket_close, amqp_tcp_socket.c:161-174: the status and the new `sockfd`. -/
def tcpClose (O : Os) (fd : Int) : M OsLog (Int × Int) :=
  if -1 = fd then pure (St.SOCKET_CLOSED, fd) else do
  let ok ← sys O.closeOk (.close fd)
  if ok = false then pure (St.SOCKET_ERROR, fd) else pure (St.OK, -1)

/-- The operations on a TCP socket. (The operations of amqp_tcp_socket_class, amqp_tcp_socket.c:190-197, and amqp_tcp_socket_set_sockfd, 212-219.) -/
inductive TcpOp where
  | send (buf : Bytes) (more : Bool)
  | recv (len : Nat)
  | open (host : Bytes) (port : Int) (timeout : Option TimeVal)
  | close
  /-- amqp_tcp_socket_set_sockfd -/ | setFd (fd : Int)
  /-- amqp_tcp_socket_get_sockfd -/ | getFd
deriving Repr, DecidableEq

/-- One operation: return value, octets received, new `sockfd`.  amqp_tcp_socket_set_sockfd is amqp_tcp_socket.c:212-219,
amqp_tcp_socket_get_sockfd amqp_tcp_socket.c:176-179. -/
def tcpOp (O : Os) (op : TcpOp) (fd : Int) : M OsLog (Int × Bytes × Int) :=
  match op with
  | .send buf more => do
    let r ← tcpSend O fd buf more
    pure (r, [], fd)
  | .recv len => do
    let (r, b) ← tcpRecv O fd len
    pure (r, b, fd)
  | .open host port tv => do
    let (r, fd') ← tcpOpen O fd host port tv
    pure (r, [], fd')
  | .close => do
    let (r, fd') ← tcpClose O fd
    pure (r, [], fd')
  | .setFd fd' => pure (0, [], fd')
  | .getFd => pure (fd, [], fd)

/-- A history of operations on one socket, from amqp_tcp_socket_new (amqp_tcp_socket.c:199-210) with `fd = -1`: the results, in order, and
the last `sockfd`. -/
def tcpRun (O : Os) : List TcpOp → Int → M OsLog (List (Int × Bytes) × Int)
  | [], fd => pure ([], fd)
  | op :: rest, fd => do
    let (r, b, fd') ← tcpOp O op fd
    let (rs, fd'') ← tcpRun O rest fd'
    pure ((r, b) :: rs, fd'')

end Rmq
