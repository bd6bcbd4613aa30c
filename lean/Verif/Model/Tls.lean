import Verif.Model.Os
/-!
# The TLS socket — librabbitmq/amqp_openssl.c, life cycle of librabbitmq/amqp_openssl_bio.c

OpenSSL is part of the oracle `Os`.  SSL objects and certificates are named by numbers.
-/
namespace Rmq

/-- `struct amqp_ssl_socket_t`, amqp_openssl.c:55-63, without `klass`, `ctx` and `internal_error`; `ssl = none` is NULL. -/
structure TlsSock where
  fd : Int
  ssl : Option Nat
  verifyPeer : Bool
  verifyHost : Bool
deriving Repr, DecidableEq

/-- The socket amqp_ssl_socket_new builds, amqp_openssl.c:322-332. -/
def newTlsSock : TlsSock := ⟨-1, none, true, true⟩

/-- amqp_ssl_socket_send, amqp_openssl.c:65-108.  SSL_write on NULL is undefined. -/
def tlsSend (O : Os) (s : TlsSock) (buf : Bytes) : M OsLog Int :=
  if -1 = s.fd then pure St.SOCKET_CLOSED else
  if buf.length > 2147483647 then pure St.INVALID_PARAMETER else
  match s.ssl with
  | none => M.ub
  | some h => do
    let a ← sys O.tlsSend (.sslWrite h buf)
    match a with
    | .sent k => pure (k : Int)
    | .wantRead => pure St.PRIVATE_NEED_READ
    | .wantWrite => pure St.PRIVATE_NEED_WRITE
    | .zeroReturn => pure St.CONNECTION_CLOSED
    | .other => pure St.SSL_ERROR

/-- amqp_ssl_socket_recv, amqp_openssl.c:110-147. -/
def tlsRecv (O : Os) (s : TlsSock) (len : Nat) : M OsLog (Int × Bytes) :=
  if -1 = s.fd then pure (St.SOCKET_CLOSED, []) else
  if len > 2147483647 then pure (St.INVALID_PARAMETER, []) else
  match s.ssl with
  | none => M.ub
  | some h => do
    let a ← sys O.tlsRecv (.sslRead h len)
    match a with
    | .data b => pure ((b.length : Int), b)
    | .wantRead => pure (St.PRIVATE_NEED_READ, [])
    | .wantWrite => pure (St.PRIVATE_NEED_WRITE, [])
    | .zeroReturn => pure (St.CONNECTION_CLOSED, [])
    | .other => pure (St.SSL_ERROR, [])

/-- The loop `start_connect:` of amqp_ssl_socket_open, amqp_openssl.c:198-216: OK once SSL_connect returned 1, otherwise the status. -/
def tlsHandshake (O : Os) (h : Nat) (fd : Int) (deadline : Nat) : Nat → M OsLog Int
  | 0 => M.outOfFuel
  | n + 1 => do
    let a ← sys O.hs (.sslConnect h)
    match a with
    | .done => pure St.OK
    | .wantRead => do
      let r ← osPoll O fd .pollIn deadline O.fuel
      if r = St.OK then tlsHandshake O h fd deadline n else pure r
    | .wantWrite => do
      let r ← osPoll O fd .pollOut deadline O.fuel
      if r = St.OK then tlsHandshake O h fd deadline n else pure r
    | .other => pure St.SSL_CONNECTION_FAILED

/-- amqp_openssl.c:253, 261: X509_free(cert); on NULL it does nothing. -/
def certFree (cert : Option Nat) : M OsLog Unit :=
  match cert with
  | none => pure ()
  | some c => sys (fun _ => ()) (fun _ => .certFree c)

/-- The checks after the handshake, amqp_openssl.c:218-263, and the part of the clean-up that depends on them (error_out4, error_out3):
OK or the status with which error_out2 is reached. -/
def tlsCheck (O : Os) (s : TlsSock) (h : Nat) (host : Bytes) : M OsLog Int := do
  let cert ← sys O.peerCert (.peerCert h)
  let r ← (if s.verifyPeer then
      match cert with
      | none => pure St.SSL_PEER_VERIFY_FAILED
      | some _ => do
        let v ← sys O.verifyResult (.verifyResult h)
        if v = 0 then pure St.OK else pure St.SSL_PEER_VERIFY_FAILED
    else pure St.OK)
  let r ← (if r ≠ St.OK then pure r else if s.verifyHost then
      match cert with
      | none => pure St.SSL_HOSTNAME_VERIFY_FAILED
      | some c => do
        let v ← sys O.checkHost (.checkHost c host)
        if v = 1 then pure St.OK else pure St.SSL_HOSTNAME_VERIFY_FAILED
    else pure St.OK)
  certFree cert
  if r = St.OK then pure r else do
  sys (fun _ => ()) (fun _ => .sslShutdown h)
  pure r

/-- amqp_openssl.c:182-255: what is done with the connected descriptor; OK or the status with which error_out2 is reached. -/
def tlsSession (O : Os) (s : TlsSock) (h : Nat) (fd : Int) (host : Bytes) (deadline : Nat) : M OsLog Int := do
  let b ← sys O.bioNew (.bioNew h fd)
  if b = false then pure St.NO_MEMORY else do
  let b ← sys O.sni (.sni h host)
  if b = false then pure St.SSL_ERROR else do
  let r ← tlsHandshake O h fd deadline O.fuel
  if r ≠ St.OK then pure r else tlsCheck O s h host

/-- amqp_ssl_socket_open, amqp_openssl.c:149-271: status and new socket. -/
def tlsOpen (O : Os) (s : TlsSock) (host : Bytes) (port : Int) (timeout : Option TimeVal) : M OsLog (Int × TlsSock) :=
  if -1 ≠ s.fd then pure (St.SOCKET_INUSE, s) else do
  let n ← sys O.sslNew .sslNew
  match n with
  | none => pure (St.SSL_ERROR, { s with ssl := none })
  | some h => do
    let d ← osTimeFromNow O timeout
    match d with
    | .error e => pure (e, { s with ssl := some h })
    | .ok deadline => do
      let fd ← openSocketInner O host port deadline
      if 0 > fd then do
        sys (fun _ => ()) (fun _ => .sslFree h)
        pure (fd, { s with fd := -1, ssl := none })
      else do
        let r ← tlsSession O s h fd host deadline
        if r = St.OK then pure (St.OK, { s with fd := fd, ssl := some h }) else do
        let _ ← sys O.closeOk (.close fd)
        sys (fun _ => ()) (fun _ => .sslFree h)
        pure (r, { s with fd := -1, ssl := none })

/-- amqp_ssl_socket_close, amqp_openssl.c:273-294; `force` is AMQP_SC_FORCE.  SSL_shutdown on NULL is undefined, SSL_free on NULL does
nothing. -/
def tlsClose (O : Os) (s : TlsSock) (force : Bool) : M OsLog (Int × TlsSock) :=
  if -1 = s.fd then pure (St.SOCKET_CLOSED, s) else
  match s.ssl with
  | none =>
    if force = false then M.ub else do
    let ok ← sys O.closeOk (.close s.fd)
    if ok = false then pure (St.SOCKET_ERROR, s) else pure (St.OK, { s with fd := -1 })
  | some h => do
    (if force = false then sys (fun _ => ()) (fun _ => .sslShutdown h) else pure ())
    sys (fun _ => ()) (fun _ => .sslFree h)
    let ok ← sys O.closeOk (.close s.fd)
    if ok = false then pure (St.SOCKET_ERROR, { s with ssl := none }) else pure (St.OK, { s with fd := -1, ssl := none })

/-- The operations on a TLS socket. (amqp_openssl.c:313-320, 520-538.) -/
inductive TlsOp where
  | send (buf : Bytes)
  | recv (len : Nat)
  | open (host : Bytes) (port : Int) (timeout : Option TimeVal)
  | close (force : Bool)
  /-- amqp_ssl_socket_set_verify_peer -/ | setVerifyPeer (b : Bool)
  /-- amqp_ssl_socket_set_verify_hostname -/ | setVerifyHost (b : Bool)
deriving Repr, DecidableEq

/-- One operation: return value, octets received, new socket.  The setters are amqp_openssl.c:520-538. -/
def tlsOp (O : Os) (op : TlsOp) (s : TlsSock) : M OsLog (Int × Bytes × TlsSock) :=
  match op with
  | .send buf => do
    let r ← tlsSend O s buf
    pure (r, [], s)
  | .recv len => do
    let (r, b) ← tlsRecv O s len
    pure (r, b, s)
  | .open host port tv => do
    let (r, s') ← tlsOpen O s host port tv
    pure (r, [], s')
  | .close force => do
    let (r, s') ← tlsClose O s force
    pure (r, [], s')
  | .setVerifyPeer b => pure (0, [], { s with verifyPeer := b })
  | .setVerifyHost b => pure (0, [], { s with verifyHost := b })

/-- A history of operations on one socket. (amqp_openssl.c:65-320.) -/
def tlsRun (O : Os) : List TlsOp → TlsSock → M OsLog (List (Int × Bytes) × TlsSock)
  | [], s => pure ([], s)
  | op :: rest, s => do
    let (r, b, s') ← tlsOp O op s
    let (rs, s'') ← tlsRun O rest s'
    pure ((r, b) :: rs, s'')

/-! ## Versions -/

/-- The protocol range of an SSL_CTX; values are OpenSSL's TLS1_2_VERSION = 0x0303 and TLS1_3_VERSION = 0x0304, 0 is "no limit". (amqp_openssl.c:540-589.) -/
structure TlsCtx where
  minVer : Nat
  maxVer : Nat
deriving Repr, DecidableEq

/-- get_tls_version, amqp_openssl.c:540-553, for any value of the enumeration's integer type: AMQP_TLSv1_2 = 3, AMQP_TLSv1_3 = 4,
AMQP_TLSvLATEST = 0xFFFF (ssl_socket.h:191-197). -/
def getTlsVersion (v : Nat) : Except Int Nat :=
  if v = 3 then .ok 0x0303 else
  if v = 4 then .ok 0x0304 else
  if v = 0xFFFF then .ok 0x0304 else .error St.UNSUPPORTED

/-- amqp_ssl_socket_set_ssl_versions, amqp_openssl.c:555-589; `minOk`, `maxOk`: do SSL_CTX_set_min_proto_version and
SSL_CTX_set_max_proto_version accept the version. -/
def setSslVersions (minOk maxOk : Nat → Bool) (c : TlsCtx) (min max : Nat) : Int × TlsCtx :=
  if max < min then (St.INVALID_PARAMETER, c) else
  match getTlsVersion min with
  | .error e => (e, c)
  | .ok minVer =>
    match getTlsVersion max with
    | .error e => (e, c)
    | .ok maxVer =>
      if minOk minVer = false then (St.INVALID_PARAMETER, c) else
      let c := { c with minVer := minVer }
      if maxOk maxVer = false then (St.INVALID_PARAMETER, c) else
      (St.OK, { c with maxVer := maxVer })

/-! ## Library life cycle -/

/-- What happens to the global BIO method. (amqp_openssl.c:32-53; amqp_openssl_bio.c:105-146.) -/
inductive LifeEv where
  /-- BIO_meth_new succeeded -/ | setUp
  /-- BIO_meth_new failed -/ | setUpFailed
  /-- BIO_meth_free of the method that was set up -/ | tearDown
  /-- amqp_openssl_bio_destroy with nothing set up -/ | strayTearDown
deriving Repr, DecidableEq

/-- The globals openssl_bio_initialized, openssl_connections (amqp_openssl.c:40-41), amqp_ssl_bio_initialized and amqp_bio_method
(amqp_openssl_bio.c:23,27), the sockets alive, the number for the next one, and what happened so far.  The mutex openssl_init_mutex makes
every change of the globals atomic, so a history of calls is a sequence (proved in C104_atomic, from Verif.Model.Threads); pthread failures abort and are not modelled.  Overflow of the
`int` counter is not modelled. -/
structure TlsGlobal where
  initialized : Bool
  connections : Nat
  bioInitialized : Bool
  method : Bool
  live : List Nat
  next : Nat
  trace : List LifeEv
deriving Repr, DecidableEq

/-- The static initializers. (amqp_openssl.c:32-53; amqp_openssl_bio.c:105-146.) -/
def tlsGlobal0 : TlsGlobal := ⟨false, 0, false, false, [], 0, []⟩

/-- amqp_openssl_bio_init, amqp_openssl_bio.c:105-137; `none`: the assertion failed (`asserts`: not compiled with NDEBUG). -/
def bioInit (asserts bioOk : Bool) (g : TlsGlobal) : Option (Bool × TlsGlobal) :=
  if asserts && g.bioInitialized then none else
  if bioOk = false then some (false, { g with method := false, trace := g.trace ++ [.setUpFailed] })
  else some (true, { g with method := true, bioInitialized := true, trace := g.trace ++ [.setUp] })

/-- amqp_openssl_bio_destroy, amqp_openssl_bio.c:139-146. -/
def bioDestroy (asserts : Bool) (g : TlsGlobal) : Option TlsGlobal :=
  if asserts && !g.bioInitialized then none else
  some { g with method := false, bioInitialized := false,
                trace := g.trace ++ [if g.method then .tearDown else .strayTearDown] }

/-- initialize_ssl_and_increment_connections, amqp_openssl.c:634-651: `true` is AMQP_STATUS_OK. -/
def incConnections (asserts bioOk : Bool) (g : TlsGlobal) : Option (Bool × TlsGlobal) :=
  if g.initialized = false then
    match bioInit asserts bioOk g with
    | none => none
    | some (false, g) => some (false, g)
    | some (true, g) => some (true, { g with initialized := true, connections := g.connections + 1 })
  else some (true, { g with connections := g.connections + 1 })

/-- decrement_ssl_connections, amqp_openssl.c:653-667. -/
def decConnections (asserts : Bool) (g : TlsGlobal) : Option TlsGlobal :=
  let g := if g.connections > 0 then { g with connections := g.connections - 1 } else g
  if g.connections = 0 then
    match bioDestroy asserts g with
    | none => none
    | some g => some { g with initialized := false }
  else some g

/-- The answers amqp_ssl_socket_new depends on: calloc, BIO_meth_new, SSL_CTX_new, setting the version range. (amqp_openssl.c:322-360.) -/
structure NewAns where
  calloc : Bool
  bio : Bool
  ctx : Bool
  versions : Bool
deriving Repr, DecidableEq

/-- amqp_ssl_socket_new, amqp_openssl.c:322-360, with amqp_ssl_socket_delete, amqp_openssl.c:301-311, on its error path; the socket that
amqp_set_socket replaces is deleted by a `LifeOp.delete`. -/
def tlsNew (asserts : Bool) (a : NewAns) (g : TlsGlobal) : Option (Option Nat × TlsGlobal) :=
  if a.calloc = false then some (none, g) else
  match incConnections asserts a.bio g with
  | none => none
  | some (false, g) => (decConnections asserts g).map (fun g => (none, g))
  | some (true, g) =>
    if a.ctx = false ∨ a.versions = false then (decConnections asserts g).map (fun g => (none, g))
    else some (some g.next, { g with live := g.next :: g.live, next := g.next + 1 })

/-- amqp_ssl_socket_delete, amqp_openssl.c:301-311, of a socket that exists. -/
def tlsDelete (asserts : Bool) (i : Nat) (g : TlsGlobal) : Option TlsGlobal :=
  decConnections asserts { g with live := g.live.erase i }

/-- Creating and deleting TLS sockets. (amqp_openssl.c:301-360, 634-667.) -/
inductive LifeOp where
  | new (a : NewAns)
  | delete (i : Nat)
deriving Repr, DecidableEq

/-- A history; `none`: an assertion failed. (amqp_openssl.c:301-360, 634-667.) -/
def lifeRun (asserts : Bool) : List LifeOp → TlsGlobal → Option TlsGlobal
  | [], g => some g
  | .new a :: rest, g =>
    match tlsNew asserts a g with
    | none => none
    | some (_, g) => lifeRun asserts rest g
  | .delete i :: rest, g =>
    match tlsDelete asserts i g with
    | none => none
    | some g => lifeRun asserts rest g

end Rmq
