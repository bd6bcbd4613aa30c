import Verif.Model.Os
/-!
# Keys, certificates and the BIO of the TLS socket — librabbitmq/amqp_openssl.c, librabbitmq/amqp_openssl_bio.c

OpenSSL is an oracle: what it answers may depend on everything asked before.  Every call is recorded with its arguments and its answer; the
record is the only state.  BIOs and keys are named by numbers.
-/
namespace Rmq

/-- Answers of PEM_read_bio_RSAPrivateKey: a key, NULL, or a call of the password callback. (amqp_openssl.c:362-513.) -/
inductive PemAns where | key (rsa : Nat) | none | password
deriving Repr, DecidableEq

/-- A call on the SSL_CTX of one socket, with its arguments and its answer (`true`: OpenSSL returned 1). (amqp_openssl.c:362-513.) -/
inductive CtxEv where
  /-- SSL_CTX_set_default_verify_paths -/ | defaultPaths (ok : Bool)
  /-- SSL_CTX_load_verify_locations(ctx, file, NULL) -/ | caFile (file : Bytes) (ok : Bool)
  /-- SSL_CTX_use_certificate_chain_file -/ | chainFile (file : Bytes) (ok : Bool)
  /-- SSL_CTX_use_PrivateKey_file(ctx, file, SSL_FILETYPE_PEM) -/ | keyFile (file : Bytes) (ok : Bool)
  /-- BIO_new_mem_buf(key, n) -/ | bioMem (key : Bytes) (ans : Option Nat)
  /-- PEM_read_bio_RSAPrivateKey(bio, NULL, password_cb, NULL) -/ | readKey (bio : Nat) (ans : PemAns)
  /-- SSL_CTX_use_RSAPrivateKey -/ | useRsa (rsa : Nat) (ok : Bool)
  /-- BIO_vfree -/ | bioFree (bio : Nat)
  /-- RSA_free -/ | rsaFree (rsa : Nat)
  /-- ENGINE_load_private_key(openssl_engine, key, NULL, NULL) -/ | engineKey (id : Bytes) (ans : Option Nat)
  /-- SSL_CTX_use_PrivateKey -/ | usePkey (pkey : Nat) (ok : Bool)
  /-- EVP_PKEY_free -/ | pkeyFree (pkey : Nat)
  /-- SSL_CTX_set_default_passwd_cb_userdata: the pointer is stored, not the text -/ | passwd (ptr : Nat)
deriving Repr, DecidableEq

/-- The record of the calls on one SSL_CTX. (amqp_openssl.c:362-513.) -/
abbrev CtxLog := List CtxEv

/-- What OpenSSL answers, and whether the build has ENABLE_SSL_ENGINE_API. (amqp_openssl.c:362-513.) -/
structure CtxOracle where
  defaultPaths : CtxLog → Bool
  caFile : CtxLog → Bool
  chainFile : CtxLog → Bool
  keyFile : CtxLog → Bool
  bioMem : CtxLog → Option Nat
  readKey : CtxLog → PemAns
  useRsa : CtxLog → Bool
  engineKey : CtxLog → Option Nat
  usePkey : CtxLog → Bool
  engineApi : Bool

/-- Ask the oracle and record the call. (amqp_openssl.c:362-513.) -/
def ctxCall {α : Type} (ans : CtxLog → α) (ev : α → CtxEv) (l : CtxLog) : α × CtxLog := (ans l, l ++ [ev (ans l)])

/-- The public functions that configure the SSL_CTX. (amqp_openssl.c:369-513.) -/
inductive CredOp where
  /-- amqp_ssl_socket_enable_default_verify_paths -/ | defaultPaths
  /-- amqp_ssl_socket_set_cacert -/ | caCert (file : Bytes)
  /-- amqp_ssl_socket_set_key -/ | setKey (cert key : Bytes)
  /-- amqp_ssl_socket_set_key_engine -/ | setKeyEngine (cert key : Bytes)
  /-- amqp_ssl_socket_set_key_buffer; `n` is the length of the buffer -/ | setKeyBuffer (cert key : Bytes)
  /-- amqp_ssl_socket_set_cert -/ | setCert (cert : Bytes)
  /-- amqp_ssl_socket_set_key_passwd -/ | setPasswd (ptr : Nat)
deriving Repr, DecidableEq

/-- amqp_ssl_socket_enable_default_verify_paths, amqp_openssl.c:369-381. -/
def enableDefaultPaths (O : CtxOracle) (l : CtxLog) : Int × CtxLog :=
  let (ok, l) := ctxCall O.defaultPaths .defaultPaths l
  if ok = false then (St.SSL_ERROR, l) else (St.OK, l)

/-- amqp_ssl_socket_set_cacert, amqp_openssl.c:383-395. -/
def setCacert (O : CtxOracle) (file : Bytes) (l : CtxLog) : Int × CtxLog :=
  let (ok, l) := ctxCall O.caFile (.caFile file) l
  if ok = false then (St.SSL_ERROR, l) else (St.OK, l)

/-- amqp_ssl_socket_set_key, amqp_openssl.c:397-414. -/
def setKey (O : CtxOracle) (cert key : Bytes) (l : CtxLog) : Int × CtxLog :=
  let (ok, l) := ctxCall O.chainFile (.chainFile cert) l
  if ok = false then (St.SSL_ERROR, l) else
  let (ok, l) := ctxCall O.keyFile (.keyFile key) l
  if ok = false then (St.SSL_ERROR, l) else (St.OK, l)

/-- amqp_ssl_socket_set_key_engine, amqp_openssl.c:416-446. -/
def setKeyEngine (O : CtxOracle) (cert key : Bytes) (l : CtxLog) : Int × CtxLog :=
  if O.engineApi = false then (St.SSL_UNIMPLEMENTED, l) else
  let (ok, l) := ctxCall O.chainFile (.chainFile cert) l
  if ok = false then (St.SSL_ERROR, l) else
  let (pkey, l) := ctxCall O.engineKey (.engineKey key) l
  match pkey with
  | none => (St.SSL_ERROR, l)
  | some p =>
    let (ok, l) := ctxCall O.usePkey (.usePkey p) l
    let (_, l) := ctxCall (fun _ => ()) (fun _ => .pkeyFree p) l
    if ok = false then (St.SSL_ERROR, l) else (St.OK, l)

/-- The label `exit:` of amqp_ssl_socket_set_key_buffer, amqp_openssl.c:483-486; freeing NULL does nothing. -/
def keyBufferExit (bio rsa : Option Nat) (status : Int) (l : CtxLog) : Int × CtxLog :=
  let l := match bio with
    | none => l
    | some b => l ++ [.bioFree b]
  let l := match rsa with
    | none => l
    | some r => l ++ [.rsaFree r]
  (status, l)

/-- amqp_ssl_socket_set_key_buffer, amqp_openssl.c:453-490, with password_cb, amqp_openssl.c:448-451; `none`: the process was aborted. -/
def setKeyBuffer (O : CtxOracle) (cert key : Bytes) (l : CtxLog) : Option (Int × CtxLog) :=
  if key.length > 2147483647 then some (St.INVALID_PARAMETER, l) else
  let (ok, l) := ctxCall O.chainFile (.chainFile cert) l
  if ok = false then some (St.SSL_ERROR, l) else
  let (buf, l) := ctxCall O.bioMem (.bioMem key) l
  match buf with
  | none => some (keyBufferExit none none St.SSL_ERROR l)
  | some b =>
    let (rsa, l) := ctxCall O.readKey (.readKey b) l
    match rsa with
    | .password => none
    | .none => some (keyBufferExit (some b) none St.SSL_ERROR l)
    | .key r =>
      let (ok, l) := ctxCall O.useRsa (.useRsa r) l
      if ok = false then some (keyBufferExit (some b) (some r) St.SSL_ERROR l)
      else some (keyBufferExit (some b) (some r) St.OK l)

/-- amqp_ssl_socket_set_cert, amqp_openssl.c:492-504. -/
def setCert (O : CtxOracle) (cert : Bytes) (l : CtxLog) : Int × CtxLog :=
  let (ok, l) := ctxCall O.chainFile (.chainFile cert) l
  if ok = false then (St.SSL_ERROR, l) else (St.OK, l)

/-- One of the functions, on a socket that is (`tls`) or is not of the TLS class; `none`: amqp_abort.  A void function returns 0.
Without the engine API amqp_ssl_socket_set_key_engine does not look at the class. (amqp_openssl.c:369-513.) -/
def credOp (O : CtxOracle) (tls : Bool) (op : CredOp) (l : CtxLog) : Option (Int × CtxLog) :=
  match op, tls with
  | .setKeyEngine _ _, false => if O.engineApi then none else some (St.SSL_UNIMPLEMENTED, l)
  | _, false => none
  | .defaultPaths, true => some (enableDefaultPaths O l)
  | .caCert f, true => some (setCacert O f l)
  | .setKey c k, true => some (setKey O c k l)
  | .setKeyEngine c k, true => some (setKeyEngine O c k l)
  | .setKeyBuffer c k, true => setKeyBuffer O c k l
  | .setCert c, true => some (setCert O c l)
  | .setPasswd p, true => some (0, (ctxCall (fun _ => ()) (fun _ => .passwd p) l).2)

/-- A history of such calls on one TLS socket. (amqp_openssl.c:369-513.) -/
def credRun (O : CtxOracle) : List CredOp → CtxLog → Option (List Int × CtxLog)
  | [], l => some ([], l)
  | op :: rest, l =>
    match credOp O true op l with
    | none => none
    | some (r, l) => (credRun O rest l).map (fun (rs, l) => (r :: rs, l))

/-! ## The engine -/

/-- What amqp_set_ssl_engine does to the world: pthread_mutex_lock, ENGINE_free, ENGINE_by_id, ENGINE_set_default, pthread_mutex_unlock.
ENGINE_load_builtin_engines is left out. (amqp_openssl.c:598-632.) -/
inductive EngEv where
  | lock
  | free (e : Nat)
  | byId (name : Bytes) (ans : Option Nat)
  | setDefault (e : Nat) (ok : Bool)
  | unlock
deriving Repr, DecidableEq

/-- The beginning of amqp_set_ssl_engine, amqp_openssl.c:601-606. -/
def dropEngine (cur : Option Nat) : List EngEv :=
  match cur with
  | some e => [.lock, .free e]
  | none => [.lock]

/-- amqp_set_ssl_engine, amqp_openssl.c:598-632, in a build with ENABLE_SSL_ENGINE_API: `cur` is the global openssl_engine, `name` the argument,
`byId` and `dflt` the answers of OpenSSL.  Result: status, new value of the global, and what was done. -/
def setSslEngine (name : Option Bytes) (byId : Option Nat) (dflt : Bool) (cur : Option Nat) : Int × Option Nat × List EngEv :=
  let ev := dropEngine cur
  match name with
  | none => (St.OK, none, ev ++ [.unlock])
  | some n =>
    match byId with
    | none => (St.SSL_SET_ENGINE_FAILED, none, ev ++ [.byId n none, .unlock])
    | some e =>
      if dflt = false then (St.SSL_SET_ENGINE_FAILED, none, ev ++ [.byId n (some e), .setDefault e false, .free e, .unlock])
      else (St.OK, some e, ev ++ [.byId n (some e), .setDefault e true, .unlock])

/-- A history of amqp_set_ssl_engine calls from the start of the process: (argument, answers) of each. (amqp_openssl.c:598-632.) -/
def engineRun : List (Option Bytes × Option Nat × Bool) → Option Nat → List Int × Option Nat × List EngEv
  | [], cur => ([], cur, [])
  | (n, b, d) :: rest, cur =>
    let (r, cur, ev) := setSslEngine n b d cur
    let (rs, cur, ev') := engineRun rest cur
    (r :: rs, cur, ev ++ ev')

/-! ## The BIO -/

/-- Answers of send and recv as the BIO sees them: a count, or -1 with an errno. (amqp_openssl_bio.c:29-102.) -/
inductive RawAns where | count (n : Nat) | fail (errno : Nat)
deriving Repr, DecidableEq

/-- The `int` the call returned. (amqp_openssl_bio.c:29-102.) -/
def RawAns.res : RawAns → Int
  | .count n => n
  | .fail _ => -1

/-- What the BIO does: its flags BIO_FLAGS_READ/WRITE/SHOULD_RETRY, and the system calls with their flags. (amqp_openssl_bio.c:29-102.) -/
structure BioState where
  retryRead : Bool
  retryWrite : Bool
  calls : List (Bool × Bytes × Nat × Bool × RawAns)
deriving Repr, DecidableEq

/-- amqp_openssl_bio_should_retry, amqp_openssl_bio.c:30-61, with Linux's errno values: EWOULDBLOCK = EAGAIN = 11, ENOTCONN = 107, EINTR = 4,
EPROTO = 71, EINPROGRESS = 115, EALREADY = 114. -/
def bioShouldRetry (a : RawAns) : Bool :=
  match a with
  | .count _ => false
  | .fail err => err == 11 || err == 107 || err == 4 || err == 11 || err == 71 || err == 115 || err == 114 || false

/-- amqp_openssl_bio_write, amqp_openssl_bio.c:63-82; a recorded call is (is it a send, octets given, room, MSG_NOSIGNAL, answer). -/
def bioWrite (buf : Bytes) (a : RawAns) (b : BioState) : Int × BioState :=
  let b := { b with calls := b.calls ++ [(true, buf, buf.length, true, a)] }
  let b := { b with retryRead := false, retryWrite := false }
  if a.res ≤ 0 ∧ bioShouldRetry a = true then (a.res, { b with retryWrite := true }) else (a.res, b)

/-- amqp_openssl_bio_read, amqp_openssl_bio.c:84-103. -/
def bioRead (room : Nat) (a : RawAns) (b : BioState) : Int × BioState :=
  let b := { b with calls := b.calls ++ [(false, [], room, true, a)] }
  let b := { b with retryRead := false, retryWrite := false }
  if a.res ≤ 0 ∧ bioShouldRetry a = true then (a.res, { b with retryRead := true }) else (a.res, b)

end Rmq
