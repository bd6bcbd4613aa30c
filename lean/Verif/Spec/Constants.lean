/-!
# The constants of AMQP 0-9-1

Written from the protocol's definition (the `constant` elements of amqp0-9-1.xml, with RabbitMQ's no-route), not from the library: each has a
value, a name, and for the reply codes a class: a soft error closes the channel, a hard error closes the connection.
-/
namespace Rmq.ConstSpec

inductive Class where
  | plain | soft | hard
deriving DecidableEq

structure Const where
  value : Nat
  name : String
  cls : Class
deriving DecidableEq

def constants : List Const :=
  [⟨1, "frame-method", .plain⟩, ⟨2, "frame-header", .plain⟩, ⟨3, "frame-body", .plain⟩, ⟨8, "frame-heartbeat", .plain⟩,
   ⟨4096, "frame-min-size", .plain⟩, ⟨206, "frame-end", .plain⟩, ⟨200, "reply-success", .plain⟩,
   ⟨311, "content-too-large", .soft⟩, ⟨312, "no-route", .soft⟩, ⟨313, "no-consumers", .soft⟩, ⟨320, "connection-forced", .hard⟩,
   ⟨402, "invalid-path", .hard⟩, ⟨403, "access-refused", .soft⟩, ⟨404, "not-found", .soft⟩, ⟨405, "resource-locked", .soft⟩,
   ⟨406, "precondition-failed", .soft⟩, ⟨501, "frame-error", .hard⟩, ⟨502, "syntax-error", .hard⟩, ⟨503, "command-invalid", .hard⟩,
   ⟨504, "channel-error", .hard⟩, ⟨505, "unexpected-frame", .hard⟩, ⟨506, "resource-error", .hard⟩, ⟨530, "not-allowed", .hard⟩,
   ⟨540, "not-implemented", .hard⟩, ⟨541, "internal-error", .hard⟩]

/-- How the C API spells a constant of the protocol: AMQP_ and the name in capitals with underscores. -/
def spelled (name : String) : List Char :=
  "AMQP_".toList ++ name.toList.map fun c => if c = '-' then '_' else c.toUpper

end Rmq.ConstSpec
