/-!
# Basic vocabulary of the model

Results of modelled C functions, status codes, and the little monad the codec functions are written in.
-/
namespace Rmq

/-- A run of bytes in memory.  The bytes of an amqp_bytes_t, include/rabbitmq-c/amqp.h:296-299, and of every buffer. -/
abbrev Bytes := List UInt8

/-- Outcome of a modelled C function.
* `ok a s`   – the C function returned normally (status OK or its ordinary return value);
* `err st s` – the C function returned the negative status `st`; `s` is the state it left behind;
* `ub`       – the C code executed undefined behaviour (out-of-bounds access, NULL dereference, …);
* `fuel`     – the *model's* loop bound was hit (each use is proved unreachable). (Semantics of C, standing for no lines of /repo: how a call ends in any function modelled, e.g. amqp_table.c:29-94.) -/
inductive Res (σ : Type) (α : Type) where
  | ok (a : α) (s : σ)
  | err (st : Int) (s : σ)
  | ub
  | fuel
deriving Repr, DecidableEq

/-- The value of a normal return. (Semantics of C, standing for no lines of /repo: how a call ends in any function modelled, e.g. amqp_table.c:29-94.) -/
def Res.val? {σ α : Type} : Res σ α → Option α | .ok a _ => some a | _ => none
/-- The status of an error return. (Semantics of C, standing for no lines of /repo: how a call ends in any function modelled, e.g. amqp_table.c:29-94.) -/
def Res.errCode? {σ α : Type} : Res σ α → Option Int | .err e _ => some e | _ => none
/-- The state left by a normal or error return. (Semantics of C, standing for no lines of /repo: how a call ends in any function modelled, e.g. amqp_table.c:29-94.) -/
def Res.state? {σ α : Type} : Res σ α → Option σ | .ok _ s => some s | .err _ s => some s | _ => none
/-- Did undefined behaviour happen? (Semantics of C, standing for no lines of /repo: how a call ends in any function modelled, e.g. amqp_table.c:29-94.) -/
def Res.isUB {σ α : Type} : Res σ α → Bool | .ub => true | _ => false

theorem Res.isUB_iff {σ α : Type} {r : Res σ α} : r.isUB = true ↔ r = .ub := by cases r <;> simp [Res.isUB]

/-- State-passing computations with C-style failure. (Semantics of C, standing for no lines of /repo: how a call ends in any function modelled, e.g. amqp_table.c:29-94.) -/
def M (σ α : Type) := σ → Res σ α

/-- Sequencing: a failing/undefined first part ends the whole function. (Semantics of C, standing for no lines of /repo: how a call ends in any function modelled, e.g. amqp_table.c:29-94.) -/
@[inline] def M.bind {σ α β : Type} (x : M σ α) (f : α → M σ β) : M σ β := fun s =>
  match x s with
  | .ok a s' => f a s'
  | .err st s' => .err st s'
  | .ub => .ub
  | .fuel => .fuel

/-- Semantics of C, standing for no lines of /repo: how a call ends in any function modelled, e.g. amqp_table.c:29-94. -/
@[inline] def M.pure {σ α : Type} (a : α) : M σ α := fun s => .ok a s

instance {σ : Type} : Monad (M σ) where
  pure := M.pure
  bind := M.bind

/-- `return st;` for a negative status. (As in amqp_table.c:39.) -/
@[inline] def M.fail {σ α : Type} (st : Int) : M σ α := fun s => .err st s
/-- Undefined behaviour of C, standing for no lines of /repo (e.g. of a read past the end at amqp_private.h:205-290). -/
@[inline] def M.ub {σ α : Type} : M σ α := fun _ => .ub
/-- The bound of a model loop is reached: nothing is claimed.  (No lines of /repo; for loops such as amqp_socket.c:138.) -/
@[inline] def M.outOfFuel {σ α : Type} : M σ α := fun _ => .fuel
/-- Reading the state: a C function reading through its pointer arguments, e.g. `*offset`, amqp_private.h:292-296. -/
@[inline] def M.get {σ : Type} : M σ σ := fun s => .ok s s
/-- Writing the state: a C function writing through its pointer arguments, e.g. amqp_private.h:303. -/
@[inline] def M.set {σ : Type} (s' : σ) : M σ Unit := fun _ => .ok () s'

/-- The C idiom `if (!x) { res = st; goto out; }`. (As throughout amqp_table.c, e.g. amqp_table.c:40-45.) -/
@[inline] def M.orFail {σ : Type} (st : Int) (x : M σ Bool) : M σ Unit := fun s =>
  match x s with
  | .ok true s' => .ok () s'
  | .ok false s' => .err st s'
  | .err e s' => .err e s'
  | .ub => .ub
  | .fuel => .fuel

/-- The C idiom `if (!x(…, &out)) { res = st; goto out; }` where `x` also produces a value. (As throughout amqp_table.c, e.g. amqp_table.c:40-45.) -/
@[inline] def M.orFailVal {σ α : Type} (st : Int) (x : M σ (Option α)) : M σ α := fun s =>
  match x s with
  | .ok (some a) s' => .ok a s'
  | .ok none s' => .err st s'
  | .err e s' => .err e s'
  | .ub => .ub
  | .fuel => .fuel

theorem M.bind_def {σ α β : Type} (x : M σ α) (f : α → M σ β) (s : σ) :
    (x >>= f) s = match x s with
      | .ok a s' => f a s'
      | .err st s' => .err st s'
      | .ub => .ub
      | .fuel => .fuel := rfl
@[simp] theorem M.pure_def {σ α : Type} (a : α) (s : σ) : (Pure.pure a : M σ α) s = .ok a s := rfl
@[simp] theorem M.fail_def {σ α : Type} (st : Int) (s : σ) : (M.fail st : M σ α) s = .err st s := rfl
@[simp] theorem M.ub_def {σ α : Type} (s : σ) : (M.ub : M σ α) s = .ub := rfl
@[simp] theorem M.outOfFuel_def {σ α : Type} (s : σ) : (M.outOfFuel : M σ α) s = .fuel := rfl
@[simp] theorem M.get_def {σ : Type} (s : σ) : (M.get : M σ σ) s = .ok s s := rfl
@[simp] theorem M.set_def {σ : Type} (s s' : σ) : (M.set s' : M σ Unit) s = .ok () s' := rfl

/-! ## Status codes — include/rabbitmq-c/amqp.h, `amqp_status_enum` (AMQP_STATUS_OK … ) and the two
private codes of librabbitmq/amqp_socket.h -/
namespace St
/-- AMQP_STATUS_OK, include/rabbitmq-c/amqp.h:605. -/
def OK : Int := 0
/-- AMQP_STATUS_NO_MEMORY, include/rabbitmq-c/amqp.h:606. -/
def NO_MEMORY : Int := -0x0001
/-- AMQP_STATUS_BAD_AMQP_DATA, include/rabbitmq-c/amqp.h:608. -/
def BAD_AMQP_DATA : Int := -0x0002
/-- AMQP_STATUS_UNKNOWN_CLASS, include/rabbitmq-c/amqp.h:612. -/
def UNKNOWN_CLASS : Int := -0x0003
/-- AMQP_STATUS_UNKNOWN_METHOD, include/rabbitmq-c/amqp.h:615. -/
def UNKNOWN_METHOD : Int := -0x0004
/-- AMQP_STATUS_HOSTNAME_RESOLUTION_FAILED, include/rabbitmq-c/amqp.h:618. -/
def HOSTNAME_RESOLUTION_FAILED : Int := -0x0005
/-- AMQP_STATUS_INCOMPATIBLE_AMQP_VERSION, include/rabbitmq-c/amqp.h:620. -/
def INCOMPATIBLE_AMQP_VERSION : Int := -0x0006
/-- AMQP_STATUS_CONNECTION_CLOSED, include/rabbitmq-c/amqp.h:623. -/
def CONNECTION_CLOSED : Int := -0x0007
/-- AMQP_STATUS_BAD_URL, include/rabbitmq-c/amqp.h:626. -/
def BAD_URL : Int := -0x0008
/-- AMQP_STATUS_SOCKET_ERROR, include/rabbitmq-c/amqp.h:627. -/
def SOCKET_ERROR : Int := -0x0009
/-- AMQP_STATUS_INVALID_PARAMETER, include/rabbitmq-c/amqp.h:629. -/
def INVALID_PARAMETER : Int := -0x000A
/-- AMQP_STATUS_TABLE_TOO_BIG, include/rabbitmq-c/amqp.h:632. -/
def TABLE_TOO_BIG : Int := -0x000B
/-- AMQP_STATUS_WRONG_METHOD, include/rabbitmq-c/amqp.h:636. -/
def WRONG_METHOD : Int := -0x000C
/-- AMQP_STATUS_TIMEOUT, include/rabbitmq-c/amqp.h:638. -/
def TIMEOUT : Int := -0x000D
/-- AMQP_STATUS_TIMER_FAILURE, include/rabbitmq-c/amqp.h:639. -/
def TIMER_FAILURE : Int := -0x000E
/-- AMQP_STATUS_HEARTBEAT_TIMEOUT, include/rabbitmq-c/amqp.h:641. -/
def HEARTBEAT_TIMEOUT : Int := -0x000F
/-- AMQP_STATUS_UNEXPECTED_STATE, include/rabbitmq-c/amqp.h:643. -/
def UNEXPECTED_STATE : Int := -0x0010
/-- AMQP_STATUS_SOCKET_CLOSED, include/rabbitmq-c/amqp.h:645. -/
def SOCKET_CLOSED : Int := -0x0011
/-- AMQP_STATUS_SOCKET_INUSE, include/rabbitmq-c/amqp.h:647. -/
def SOCKET_INUSE : Int := -0x0012
/-- AMQP_STATUS_BROKER_UNSUPPORTED_SASL_METHOD, include/rabbitmq-c/amqp.h:649. -/
def BROKER_UNSUPPORTED_SASL_METHOD : Int := -0x0013
/-- AMQP_STATUS_UNSUPPORTED, include/rabbitmq-c/amqp.h:652. -/
def UNSUPPORTED : Int := -0x0014
/-- AMQP_STATUS_TCP_ERROR, include/rabbitmq-c/amqp.h:656. -/
def TCP_ERROR : Int := -0x0100
/-- AMQP_STATUS_TCP_SOCKETLIB_INIT_ERROR, include/rabbitmq-c/amqp.h:658. -/
def TCP_SOCKETLIB_INIT_ERROR : Int := -0x0101
/-- AMQP_STATUS_SSL_ERROR, include/rabbitmq-c/amqp.h:663. -/
def SSL_ERROR : Int := -0x0200
/-- AMQP_STATUS_SSL_HOSTNAME_VERIFY_FAILED, include/rabbitmq-c/amqp.h:665. -/
def SSL_HOSTNAME_VERIFY_FAILED : Int := -0x0201
/-- AMQP_STATUS_SSL_PEER_VERIFY_FAILED, include/rabbitmq-c/amqp.h:669. -/
def SSL_PEER_VERIFY_FAILED : Int := -0x0202
/-- AMQP_STATUS_SSL_CONNECTION_FAILED, include/rabbitmq-c/amqp.h:671. -/
def SSL_CONNECTION_FAILED : Int := -0x0203
/-- AMQP_STATUS_SSL_SET_ENGINE_FAILED, include/rabbitmq-c/amqp.h:672. -/
def SSL_SET_ENGINE_FAILED : Int := -0x0204
/-- AMQP_STATUS_SSL_UNIMPLEMENTED, include/rabbitmq-c/amqp.h:673. -/
def SSL_UNIMPLEMENTED : Int := -0x0205
/-- AMQP_PRIVATE_STATUS_SOCKET_NEEDREAD, amqp_private.h:91. -/
def PRIVATE_NEED_READ : Int := -0x1301
/-- AMQP_PRIVATE_STATUS_SOCKET_NEEDWRITE, amqp_private.h:92. -/
def PRIVATE_NEED_WRITE : Int := -0x1302
end St

end Rmq
