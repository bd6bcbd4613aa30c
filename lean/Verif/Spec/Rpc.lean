import Verif.Model.Rpc
import Verif.Spec.Outgoing
import Verif.Spec.Methods
/-!
# Specification: the functions that call the server

Typed in from the API documentation (include/rabbitmq-c/framing.h, amqp.h) and the protocol definition.
-/
namespace Rmq

/-- The functions of the API that send a method and wait for its `-ok`: name, class and method. -/
def rpcFunctions : List (String × String × String) := [
  ("amqp_connection_update_secret", "connection", "update-secret"),
  ("amqp_channel_open", "channel", "open"), ("amqp_channel_flow", "channel", "flow"),
  ("amqp_exchange_declare", "exchange", "declare"), ("amqp_exchange_delete", "exchange", "delete"),
  ("amqp_exchange_bind", "exchange", "bind"), ("amqp_exchange_unbind", "exchange", "unbind"),
  ("amqp_queue_declare", "queue", "declare"), ("amqp_queue_bind", "queue", "bind"), ("amqp_queue_purge", "queue", "purge"),
  ("amqp_queue_delete", "queue", "delete"), ("amqp_queue_unbind", "queue", "unbind"),
  ("amqp_basic_qos", "basic", "qos"), ("amqp_basic_consume", "basic", "consume"), ("amqp_basic_cancel", "basic", "cancel"),
  ("amqp_basic_recover", "basic", "recover"),
  ("amqp_tx_select", "tx", "select"), ("amqp_tx_commit", "tx", "commit"), ("amqp_tx_rollback", "tx", "rollback"),
  ("amqp_confirm_select", "confirm", "select")]

/-- Arguments of the protocol that the caller is not asked for: reserved ones, and no-wait (these functions wait). -/
def fixedArg : Fld → Bool
  | .ticket | .nowait | .out_of_band => true
  | _ => false

/-- The value that stands for "nothing": 0, false, the empty string, the empty table. -/
def Dom.nothing : Dom → Val
  | .octet => .u8 0
  | .short => .u16 0
  | .long => .u32 0
  | .longlong => .u64 0
  | .shortstr | .longstr => .bytes []
  | .table => .table []
  | .bit => .bool 0

/-- What the caller is asked for: the protocol's arguments in order, without the fixed ones. -/
def askedFor (args : List (Fld × Dom)) : List (Fld × Dom) := args.filter fun a => !fixedArg a.1

/-- The caller's values have the types asked for. -/
def TypedArgs : List (Fld × Dom) → List Val → Prop
  | [], [] => True
  | (_, d) :: as, v :: vs => d.admits v ∧ TypedArgs as vs
  | _, _ => False

/-- The arguments of the method: the caller's values in order, nothing in the fixed ones. -/
def filled : List (Fld × Dom) → List Val → Rec
  | [], _ => []
  | (f, d) :: as, vs =>
    if fixedArg f then (f, d.nothing) :: filled as vs
    else match vs with
      | v :: vs => (f, v) :: filled as vs
      | [] => []

/-- Did the call fail in the library? -/
def Reply.failed : Reply → Prop
  | .libraryException _ => True
  | _ => False

/-- What a request and the wait for its reply send (`failed`: did the call fail in the library?): part of the request, if that failed; or
the request and after it nothing but heartbeats, all complete unless the call failed. -/
def RequestOut (frame : Bytes) (failed : Prop) (b : Bytes) : Prop :=
  failed ∧ b <+: frame ∨ ∃ rest, b = frame ++ rest ∧ FramesCut Beat rest ∧ (¬ failed → FramesOf Beat rest)

/-- A normal reply is one of those expected; the server refuses with channel.close or connection.close. -/
def Reply.expects (expected : List UInt32) : Reply → Prop
  | .normal id _ => id ∈ expected
  | .serverException id _ => id = 0x00140028 ∨ id = 0x000A0032
  | .libraryException _ => True

/-- Decimal notation: digits, most significant first, no superfluous zeros. -/
def IsDecimal (n : Nat) (b : Bytes) : Prop :=
  b ≠ [] ∧ (∀ c ∈ b, 48 ≤ c ∧ c ≤ 57) ∧ (b.head? = some 48 → b = [48]) ∧ b.foldl (fun a c => 10 * a + (c.toNat - 48)) 0 = n

end Rmq
