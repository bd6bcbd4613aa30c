import Verif.Model.Tls
/-!
# Socket objects and the connections that own them — librabbitmq/amqp_connection.c, amqp_socket.c, amqp_tcp_socket.c, amqp_openssl.c

Objects and connections are named by the order of their creation.  Memory that was freed is `none`; using it is undefined.  (The memory of the
rest of a connection is in Model/ConnMem.lean; the counter of TLS sockets in Model/Tls.lean.)
-/
namespace Rmq

/-- `amqp_socket_t`: one of the two classes, amqp_tcp_socket.c:25-30, amqp_openssl.c:55-63. -/
inductive SockObj where
  | tcp (fd : Int)
  | tls (s : TlsSock)
deriving Repr, DecidableEq

/-- The heap as far as sockets go: the socket objects, and of every connection its `socket` (amqp_private.h:148; `some none` is NULL). -/
structure Sockets where
  objs : List (Option SockObj)
  conns : List (Option (Option Nat))
deriving Repr, DecidableEq

/-- What can be done with the socket of a connection. (amqp_socket.h:26-130; amqp_socket.c:89-127.) -/
inductive SockOp where
  | send (buf : Bytes) (more : Bool)
  | recv (len : Nat)
  /-- amqp_socket_open, amqp_socket_open_noblock -/ | open (host : Bytes) (port : Int) (timeout : Option TimeVal)
  /-- `force` is AMQP_SC_FORCE -/ | close (force : Bool)
  /-- amqp_tcp_socket_set_sockfd -/ | setFd (fd : Int)
  /-- amqp_ssl_socket_set_verify_peer -/ | setVerifyPeer (b : Bool)
  /-- amqp_ssl_socket_set_verify_hostname -/ | setVerifyHost (b : Bool)
deriving Repr, DecidableEq

/-- Dispatch through `klass` (amqp_socket.c:89-133).  amqp_tcp_socket_set_sockfd aborts on a TLS socket (amqp_tcp_socket.c:214-216), the
setters of the TLS socket abort on a TCP socket (amqp_openssl.c:523-525, 533-535): a failure here. -/
def SockObj.op (O : Os) : SockOp → SockObj → M OsLog (Int × Bytes × SockObj)
  | .send b more, .tcp fd => do let (r, d, fd) ← tcpOp O (.send b more) fd; pure (r, d, .tcp fd)
  | .recv n, .tcp fd => do let (r, d, fd) ← tcpOp O (.recv n) fd; pure (r, d, .tcp fd)
  | .open h p tv, .tcp fd => do let (r, d, fd) ← tcpOp O (.open h p tv) fd; pure (r, d, .tcp fd)
  | .close _, .tcp fd => do let (r, d, fd) ← tcpOp O .close fd; pure (r, d, .tcp fd)
  | .setFd f, .tcp fd => do let (r, d, fd) ← tcpOp O (.setFd f) fd; pure (r, d, .tcp fd)
  | .send b _, .tls s => do let (r, d, s) ← tlsOp O (.send b) s; pure (r, d, .tls s)
  | .recv n, .tls s => do let (r, d, s) ← tlsOp O (.recv n) s; pure (r, d, .tls s)
  | .open h p tv, .tls s => do let (r, d, s) ← tlsOp O (.open h p tv) s; pure (r, d, .tls s)
  | .close f, .tls s => do let (r, d, s) ← tlsOp O (.close f) s; pure (r, d, .tls s)
  | .setVerifyPeer b, .tls s => do let (r, d, s) ← tlsOp O (.setVerifyPeer b) s; pure (r, d, .tls s)
  | .setVerifyHost b, .tls s => do let (r, d, s) ← tlsOp O (.setVerifyHost b) s; pure (r, d, .tls s)
  | .setFd _, .tls _ => M.fail 0
  | .setVerifyPeer _, .tcp _ => M.fail 0
  | .setVerifyHost _, .tcp _ => M.fail 0

/-- An operation on the socket of connection `c`.  Without a socket it fails an assertion (amqp_socket.c:90-131): undefined here. -/
def Sockets.use (O : Os) (c : Nat) (op : SockOp) (w : Sockets) : M OsLog (Int × Bytes × Sockets) :=
  match w.conns[c]? with
  | some (some (some i)) =>
    match w.objs[i]? with
    | some (some o) => do
      let (r, b, o) ← o.op O op
      pure (r, b, { w with objs := w.objs.set i (some o) })
    | _ => M.ub
  | _ => M.ub

/-- amqp_get_sockfd, amqp_connection.c:88-90. -/
def Sockets.getSockfd (c : Nat) (w : Sockets) : M OsLog Int :=
  match w.conns[c]? with
  | some (some none) => pure (-1)
  | some (some (some i)) =>
    match w.objs[i]? with
    | some (some (.tcp fd)) => pure fd
    | some (some (.tls s)) => pure s.fd
    | _ => M.ub
  | _ => M.ub

/-- amqp_socket_delete, amqp_socket.c:122-127, amqp_tcp_socket.c:181-188, amqp_openssl.c:301-311: close (AMQP_SC_NONE) and free. -/
def Sockets.delete (O : Os) (socket : Option Nat) (w : Sockets) : M OsLog Sockets :=
  match socket with
  | none => pure w
  | some i =>
    match w.objs[i]? with
    | some (some o) => do
      let _ ← o.op O (.close false)
      pure { w with objs := w.objs.set i none }
    | _ => M.ub

/-- amqp_set_socket, amqp_connection.c:100-103. -/
def Sockets.setSocket (O : Os) (c i : Nat) (w : Sockets) : M OsLog Sockets :=
  match w.conns[c]? with
  | some (some old) => do
    let w ← w.delete O old
    pure { w with conns := w.conns.set c (some (some i)) }
  | _ => M.ub

/-- amqp_tcp_socket_new, amqp_tcp_socket.c:199-210; amqp_ssl_socket_new, amqp_openssl.c:322-360, where a failure deletes the new object, which
has no descriptor yet.  `ok`: did allocating (and preparing) succeed? -/
def Sockets.attach (O : Os) (c : Nat) (o : SockObj) (ok : Bool) (w : Sockets) : M OsLog Sockets :=
  if ok then Sockets.setSocket O c w.objs.length { w with objs := w.objs ++ [some o] } else pure w

/-- amqp_set_sockfd, amqp_connection.c:92-98: a new TCP socket with the given descriptor.  If there is no memory it aborts: a failure here. -/
def Sockets.setSockfd (O : Os) (c : Nat) (fd : Int) (ok : Bool) (w : Sockets) : M OsLog Sockets :=
  if ok = false then M.fail 0 else do
  let w' ← w.attach O c (.tcp (-1)) true
  pure { w' with objs := w'.objs.set w.objs.length (some (.tcp fd)) }

/-- amqp_destroy_connection, amqp_connection.c:157-178: of its doings, deleting the socket and freeing the connection. -/
def Sockets.destroy (O : Os) (c : Nat) (w : Sockets) : M OsLog Sockets :=
  match w.conns[c]? with
  | some (some old) => do
    let w ← w.delete O old
    pure { w with conns := w.conns.set c none }
  | _ => M.ub

/-- The calls of an application. (amqp_connection.c:44-178, amqp_tcp_socket.c:199-219, amqp_openssl.c:322-360.) -/
inductive AppOp where
  /-- amqp_new_connection, amqp_connection.c:44-86: calloc leaves `socket` NULL -/ | newConnection (ok : Bool)
  | tcpSocketNew (c : Nat) (ok : Bool)
  | sslSocketNew (c : Nat) (ok : Bool)
  | setSockfd (c : Nat) (fd : Int) (ok : Bool)
  /-- any call that uses the connection's socket -/ | use (c : Nat) (op : SockOp)
  | getSockfd (c : Nat)
  | destroy (c : Nat)
deriving Repr, DecidableEq

/-- One call: the objects afterwards. (amqp_connection.c:44-178, amqp_tcp_socket.c:199-219, amqp_openssl.c:322-360.) -/
def AppOp.step (O : Os) (w : Sockets) : AppOp → M OsLog Sockets
  | .newConnection ok => pure (if ok then { w with conns := w.conns ++ [some none] } else w)
  | .tcpSocketNew c ok => w.attach O c (.tcp (-1)) ok
  | .sslSocketNew c ok => w.attach O c (.tls newTlsSock) ok
  | .setSockfd c fd ok => w.setSockfd O c fd ok
  | .use c op => do let (_, _, w) ← w.use O c op; pure w
  | .getSockfd c => do let _ ← w.getSockfd c; pure w
  | .destroy c => w.destroy O c

/-- A history of calls. (amqp_connection.c:44-178, amqp_tcp_socket.c:199-219, amqp_openssl.c:322-360.) -/
def appRun (O : Os) : List AppOp → Sockets → M OsLog Sockets
  | [], w => pure w
  | op :: rest, w => do
    let w ← op.step O w
    appRun O rest w

end Rmq
