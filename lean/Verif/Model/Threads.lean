import Verif.Model.Tls

/-!
# Threads sharing the TLS library

amqp_openssl.c:38-42, 301-360, 598-667 and amqp_openssl_bio.c:20-27, 105-155: the variables that all TLS sockets of a process share, the
mutex that guards some of their uses, and the statements of the functions that touch them, one access at a time.  A thread is what is left
of its statements; a schedule says which thread moves next.  Sequential consistency is assumed between threads; a data race is a state in
which two threads are about to access the same variable and one of them writes (that is undefined behaviour in C11, and the theorems show
that there is none, so that sequential consistency is what C11 promises).
-/

namespace Rmq

/-- The shared variables: openssl_bio_initialized, openssl_connections, openssl_engine (amqp_openssl.c:39-42), amqp_ssl_bio_initialized and
amqp_bio_method (amqp_openssl_bio.c:23, 27). -/
inductive GVar where
  | init | conns | bioInit | method | engine
deriving Repr, DecidableEq

/-- Their values; pointers are numbers, NULL is 0.  (amqp_openssl.c:39-42; amqp_openssl_bio.c:23, 27.) -/
structure GVals where
  init : Nat
  conns : Nat
  bioInit : Nat
  method : Nat
  engine : Nat
deriving Repr, DecidableEq

/-- Reading a variable.  (amqp_openssl.c:39-42.) -/
def GVals.get (g : GVals) : GVar → Nat
  | .init => g.init | .conns => g.conns | .bioInit => g.bioInit | .method => g.method | .engine => g.engine

/-- Writing a variable.  (amqp_openssl.c:39-42.) -/
def GVals.set (g : GVals) (x : Nat) : GVar → GVals
  | .init => { g with init := x } | .conns => { g with conns := x } | .bioInit => { g with bioInit := x }
  | .method => { g with method := x } | .engine => { g with engine := x }

/-- The three functions that take openssl_init_mutex: initialize_ssl_and_increment_connections (with the answer of BIO_meth_new if it is
asked), decrement_ssl_connections, amqp_set_ssl_engine.  A label: which of them a thread is in.  (amqp_openssl.c:598-667.) -/
inductive TlsCall where
  | inc (bio : Bool)
  | dec
  | engine
deriving Repr, DecidableEq

/-- What is left for a thread to execute.  Every constructor is one indivisible action; `lock c` takes the mutex for the call `c`; `alloc`
is BIO_meth_new or ENGINE_by_id (`ok = false`: it fails, NULL), `free` is BIO_meth_free or ENGINE_free (of NULL: nothing), `use` is any use
OpenSSL makes of the object (through a BIO or an SSL).  (Statements of amqp_openssl.c:301-360, 598-667, amqp_openssl_bio.c:105-155.) -/
inductive Code where
  | done
  | lock (c : TlsCall) (k : Code)
  | unlock (k : Code)
  | get (v : GVar) (k : Nat → Code)
  | set (v : GVar) (x : Nat) (k : Code)
  | check (b : Bool) (k : Code)
  | alloc (ok : Bool) (k : Nat → Code)
  | free (p : Nat) (k : Code)
  | use (p : Nat) (k : Code)

/-- `assert(cond)` on a variable read for it; `asserts`: not compiled with NDEBUG.  (amqp_openssl_bio.c:106, 140, 149.) -/
def assertC (asserts : Bool) (v : GVar) (p : Nat → Bool) (k : Code) : Code :=
  if asserts then .get v fun x => .check (p x) k else k

/-- `openssl_connections += 1` and leaving, amqp_openssl.c:645-650. -/
def incTail (k : Bool → Code) : Code :=
  .get .conns fun c => .set .conns (c + 1) (.unlock (k true))

/-- amqp_openssl_bio_init, amqp_openssl_bio.c:105-137, within amqp_openssl.c:639-643; `k false`: it failed. -/
def bioInitC (asserts ok : Bool) (k : Bool → Code) : Code :=
  assertC asserts .bioInit (· == 0) <|
  .alloc ok fun m => .set .method m <| .get .method fun m =>
    if m = 0 then k false else .set .bioInit 1 (k true)

/-- initialize_ssl_and_increment_connections between lock and unlock, amqp_openssl.c:638-649. -/
def incBody (asserts bio : Bool) (k : Bool → Code) : Code :=
  .get .init fun i =>
    if i = 0 then bioInitC asserts bio fun ok => if ok = false then .unlock (k false) else .set .init 1 (incTail k)
    else incTail k

/-- initialize_ssl_and_increment_connections, amqp_openssl.c:634-651: `k true` is AMQP_STATUS_OK. -/
def incC (asserts bio : Bool) (k : Bool → Code) : Code := .lock (.inc bio) (incBody asserts bio k)

/-- amqp_openssl_bio_destroy, amqp_openssl_bio.c:139-146. -/
def bioDestroyC (asserts : Bool) (k : Code) : Code :=
  assertC asserts .bioInit (· != 0) <|
  .get .method fun m => .free m <| .set .method 0 <| .set .bioInit 0 k

/-- The second half of decrement_ssl_connections, amqp_openssl.c:660-666. -/
def decTail (asserts : Bool) (k : Code) : Code :=
  .get .conns fun c => if c = 0 then bioDestroyC asserts (.set .init 0 (.unlock k)) else .unlock k

/-- decrement_ssl_connections between lock and unlock, amqp_openssl.c:656-665. -/
def decBody (asserts : Bool) (k : Code) : Code :=
  .get .conns fun c => if c > 0 then .get .conns fun c => .set .conns (c - 1) (decTail asserts k) else decTail asserts k

/-- decrement_ssl_connections, amqp_openssl.c:653-667. -/
def decC (asserts : Bool) (k : Code) : Code := .lock .dec (decBody asserts k)

/-- amqp_set_ssl_engine after the engine it replaces is gone, amqp_openssl.c:608-628: `some`: a name, whether ENGINE_by_id finds it and
whether ENGINE_set_default accepts it. -/
def engineTail (a : Option (Bool × Bool)) (k : Code) : Code :=
  match a with
  | none => .unlock k
  | some (found, usable) =>
    .alloc found fun p => .set .engine p <| .get .engine fun p =>
      if p = 0 then .unlock k else
      .use p <| if usable = false then .free p (.set .engine 0 (.unlock k)) else .unlock k

/-- amqp_set_ssl_engine between lock and unlock, amqp_openssl.c:603-627. -/
def engineBody (a : Option (Bool × Bool)) (k : Code) : Code :=
  .get .engine fun e => if e = 0 then engineTail a k else .free e (.set .engine 0 (engineTail a k))

/-- amqp_set_ssl_engine (ENABLE_SSL_ENGINE_API), amqp_openssl.c:598-632. -/
def engineC (a : Option (Bool × Bool)) (k : Code) : Code := .lock .engine (engineBody a k)

/-- amqp_openssl_bio, amqp_openssl_bio.c:148-155: it does not take the mutex. -/
def bioC (asserts : Bool) (k : Nat → Code) : Code :=
  assertC asserts .bioInit (· != 0) (.get .method k)

/-- What a thread does with TLS sockets of its own, named by their position among those it has: create one, connect one (`ok`: the
handshake succeeds), send or receive, delete one; and amqp_set_ssl_engine.  (amqp_openssl.c:65-360, 598-632.) -/
inductive TlsCmd where
  | create (a : NewAns)
  | connect (i : Nat) (ok : Bool)
  | io (i : Nat)
  | delete (i : Nat)
  | engine (a : Option (Bool × Bool))
deriving Repr

/-- The accesses to what is shared that a thread makes for its commands; `socks`: for each of its sockets the BIO method of its session, 0
when it has none.  amqp_ssl_socket_new, amqp_openssl.c:322-360; amqp_ssl_socket_open, 149-271 (BIO_new, line 181; a failed handshake frees
the session, 258-270); send and recv, 65-147; amqp_ssl_socket_delete, 301-311, with SSL_free at 286. -/
def threadCode (asserts : Bool) : List TlsCmd → List Nat → Code
  | [], _ => .done
  | .create a :: cs, socks =>
    if a.calloc = false then threadCode asserts cs socks else
    incC asserts a.bio fun ok =>
      if ok = false ∨ a.ctx = false ∨ a.versions = false then decC asserts (threadCode asserts cs socks)
      else threadCode asserts cs (socks ++ [0])
  | .connect i ok :: cs, socks =>
    if socks[i]? = some 0 then
      bioC asserts fun m => .use m <|
        if ok then threadCode asserts cs (socks.set i m) else .use m (threadCode asserts cs socks)
    else threadCode asserts cs socks
  | .io i :: cs, socks =>
    if socks.getD i 0 ≠ 0 then .use (socks.getD i 0) (threadCode asserts cs socks) else threadCode asserts cs socks
  | .delete i :: cs, socks =>
    if i < socks.length then
      if socks.getD i 0 ≠ 0 then .use (socks.getD i 0) (decC asserts (threadCode asserts cs (socks.eraseIdx i)))
      else decC asserts (threadCode asserts cs (socks.eraseIdx i))
    else threadCode asserts cs socks
  | .engine a :: cs, socks => engineC a (threadCode asserts cs socks)

/-- What the threads share: the variables, the objects OpenSSL holds for the library, the number of the next one.  (amqp_openssl.c:39-42;
amqp_openssl_bio.c:23, 27.) -/
structure Shared where
  g : GVals
  heap : List Nat
  next : Nat
deriving Repr, DecidableEq

/-- The process: what is shared, who holds openssl_init_mutex, the threads, and the calls that have taken the mutex so far, in order.
(amqp_openssl.c:38.) -/
structure Procs where
  sh : Shared
  owner : Option Nat
  threads : List Code
  calls : List (Nat × TlsCall)

/-- The static initializers.  (amqp_openssl.c:38-42; amqp_openssl_bio.c:23, 27.) -/
def shared0 : Shared := ⟨⟨0, 0, 0, 0, 0⟩, [], 1⟩

/-- A process whose threads are about to carry out their commands.  (Before any of amqp_openssl.c:301-360, 598-667.) -/
def procs0 (asserts : Bool) (progs : List (List TlsCmd)) : Procs :=
  ⟨shared0, none, progs.map fun p => threadCode asserts p [], []⟩

/-- One action of thread `i`; `none`: a failed assertion, a use of an object that does not exist (any more), a second release of one, or an
unlock by a thread that does not hold the mutex.  A thread that has finished, and one that waits for the mutex, does nothing.
(amqp_openssl.c:301-360, 598-667.) -/
def Procs.step (i : Nat) (w : Procs) : Option Procs :=
  match w.threads[i]? with
  | none => some w
  | some .done => some w
  | some (.lock c k) =>
    if w.owner = none then some { w with owner := some i, threads := w.threads.set i k, calls := w.calls ++ [(i, c)] } else some w
  | some (.unlock k) => if w.owner = some i then some { w with owner := none, threads := w.threads.set i k } else none
  | some (.get v k) => some { w with threads := w.threads.set i (k (w.sh.g.get v)) }
  | some (.set v x k) => some { w with sh := { w.sh with g := w.sh.g.set x v }, threads := w.threads.set i k }
  | some (.check b k) => if b then some { w with threads := w.threads.set i k } else none
  | some (.alloc ok k) =>
    if ok then some { w with sh := { w.sh with heap := w.sh.next :: w.sh.heap, next := w.sh.next + 1 },
                             threads := w.threads.set i (k w.sh.next) }
    else some { w with threads := w.threads.set i (k 0) }
  | some (.free p k) =>
    if p = 0 then some { w with threads := w.threads.set i k }
    else if p ∈ w.sh.heap then some { w with sh := { w.sh with heap := w.sh.heap.erase p }, threads := w.threads.set i k }
    else none
  | some (.use p k) => if p ∈ w.sh.heap then some { w with threads := w.threads.set i k } else none

/-- A schedule: which thread acts next, again and again.  (No lines of /repo: the scheduler, for amqp_openssl.c:301-360, 598-667.) -/
def Procs.run : List Nat → Procs → Option Procs
  | [], w => some w
  | i :: rest, w =>
    match w.step i with
    | none => none
    | some w => Procs.run rest w

end Rmq
