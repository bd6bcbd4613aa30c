import Verif.Model.TlsCreds
/-!
# What the calls on an SSL_CTX amount to

`Ctx.step` says what OpenSSL does with each call: what is in force afterwards and which objects are alive.  It gets stuck (`none`) on the use of an
object that is not alive.
-/
namespace Rmq.TlsSpec

/-- Where a private key came from. -/
inductive KeySrc where | file (f : Bytes) | buffer (b : Bytes) | engine (id : Bytes)
deriving Repr, DecidableEq

/-- What is in force in an SSL_CTX, and the objects alive: BIOs with the octets they read from, RSA keys and engine keys with the octets or
names they were read from. -/
structure Ctx where
  chain : Option Bytes
  key : Option KeySrc
  cas : List Bytes
  defaultCas : Bool
  passwd : Option Nat
  bios : List (Nat × Bytes)
  rsas : List (Nat × Bytes)
  pkeys : List (Nat × Bytes)
deriving Repr, DecidableEq

/-- A fresh SSL_CTX. -/
def Ctx.new : Ctx := ⟨none, none, [], false, none, [], [], []⟩

/-- Remove object `n`; `none`: it is not there. -/
def remove (n : Nat) : List (Nat × Bytes) → Option (List (Nat × Bytes))
  | [] => none
  | (m, b) :: l => if m = n then some l else (remove n l).map ((m, b) :: ·)

/-- One call.  A call that failed changes nothing in force. -/
def Ctx.step (c : Ctx) : CtxEv → Option Ctx
  | .defaultPaths ok => some (if ok then { c with defaultCas := true } else c)
  | .caFile f ok => some (if ok then { c with cas := f :: c.cas } else c)
  | .chainFile f ok => some (if ok then { c with chain := some f } else c)
  | .keyFile f ok => some (if ok then { c with key := some (.file f) } else c)
  | .bioMem b (some n) => some { c with bios := (n, b) :: c.bios }
  | .bioMem _ none => some c
  | .readKey n a => (c.bios.lookup n).map fun b =>
      match a with
      | .key r => { c with rsas := (r, b) :: c.rsas }
      | _ => c
  | .useRsa r ok => (c.rsas.lookup r).map fun b => if ok then { c with key := some (.buffer b) } else c
  | .bioFree n => (remove n c.bios).map fun l => { c with bios := l }
  | .rsaFree n => (remove n c.rsas).map fun l => { c with rsas := l }
  | .engineKey id (some p) => some { c with pkeys := (p, id) :: c.pkeys }
  | .engineKey _ none => some c
  | .usePkey p ok => (c.pkeys.lookup p).map fun id => if ok then { c with key := some (.engine id) } else c
  | .pkeyFree n => (remove n c.pkeys).map fun l => { c with pkeys := l }
  | .passwd p => some { c with passwd := some p }

/-- A sequence of calls. -/
def Ctx.steps : Ctx → List CtxEv → Option Ctx
  | c, [] => some c
  | c, e :: l => (c.step e).bind (·.steps l)

/-- What a successful configuration call puts in force. -/
def put (op : CredOp) (c : Ctx) : Ctx :=
  match op with
  | .defaultPaths => { c with defaultCas := true }
  | .caCert f => { c with cas := f :: c.cas }
  | .setKey cert key => { c with chain := some cert, key := some (.file key) }
  | .setKeyEngine cert key => { c with chain := some cert, key := some (.engine key) }
  | .setKeyBuffer cert key => { c with chain := some cert, key := some (.buffer key) }
  | .setCert cert => { c with chain := some cert }
  | .setPasswd p => { c with passwd := some p }

/-- What is left in force by a configuration call that failed: nothing, or only the certificate chain. -/
def Leaves (op : CredOp) (c c' : Ctx) : Prop :=
  c' = c ∨ ∃ cert key, (op = .setKey cert key ∨ op = .setKeyEngine cert key ∨ op = .setKeyBuffer cert key) ∧ c' = { c with chain := some cert }

/-- What a history of calls with the statuses they returned has to leave. -/
inductive Configured : Ctx → List CredOp → List Int → Ctx → Prop where
  | nil {c} : Configured c [] [] c
  | ok {c op ops rs c'} : Configured (put op c) ops rs c' → Configured c (op :: ops) (St.OK :: rs) c'
  | failed {c op ops r rs c1 c'} : r < 0 → Leaves op c c1 → Configured c1 ops rs c' → Configured c (op :: ops) (r :: rs) c'

/-- Runs the engine calls: is the mutex held, and the engine references held with the names they were looked up by (`none`: lock or unlock twice, anything outside the mutex,
or the use of a reference not held). -/
def engines : Bool × List (Nat × Bytes) → List EngEv → Option (Bool × List (Nat × Bytes))
  | s, [] => some s
  | (false, h), .lock :: l => engines (true, h) l
  | (true, h), .unlock :: l => engines (false, h) l
  | (true, h), .free e :: l => (remove e h).bind (fun h => engines (true, h) l)
  | (true, h), .byId n (some e) :: l => engines (true, (e, n) :: h) l
  | (true, h), .byId _ none :: l => engines (true, h) l
  | (true, h), .setDefault e _ :: l => (h.lookup e).bind (fun _ => engines (true, h) l)
  | _, _ :: _ => none

/-- The errno values after which an operation on a non-blocking socket is worth repeating (Linux): EINTR 4, EAGAIN = EWOULDBLOCK 11, EPROTO 71,
ENOTCONN 107, EALREADY 114, EINPROGRESS 115. -/
def transient : List Nat := [4, 11, 71, 107, 114, 115]

end Rmq.TlsSpec
