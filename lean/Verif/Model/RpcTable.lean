import Verif.Model.Methods0
/-!
# The generated RPC functions — GENERATED by scripts/genrpc.py from amqp_framing.c and framing.h

One entry per function; the script aborts on a function that does not have the expected shape, so nothing is dropped.
-/
namespace Rmq

/-- Where a field of the request comes from: the caller's `i`-th argument (after the connection and the channel), the literal 0 in a
field of this type, or amqp_empty_bytes. (codegen.py:244-484, amqp_framing.c.) -/
inductive Src where
  | param (i : Nat)
  | zero (t : CType)
  | empty
deriving Repr, DecidableEq

/-- A generated function: name, types of the arguments after the connection and the channel, the assignments to `req`, and the method
numbers of the request and of the reply (values from framing.h). -/
structure RpcFn where
  name : String
  params : List CType
  req : List (Fld × Src)
  request : UInt32
  reply : UInt32
deriving Repr, DecidableEq

/-- The functions of amqp_framing.c:2457-2920. -/
def rpcTable : List RpcFn := [
  -- amqp_framing.c:2466-2477
  ⟨"amqp_connection_update_secret", [.bytes, .bytes],
    [(.new_secret, .param 0), (.reason, .param 1)],
    0x000A0046, 0x000A0047⟩,
  -- amqp_framing.c:2486-2494
  ⟨"amqp_channel_open", [],
    [(.out_of_band, .empty)],
    0x0014000A, 0x0014000B⟩,
  -- amqp_framing.c:2504-2513
  ⟨"amqp_channel_flow", [.bool],
    [(.active, .param 0)],
    0x00140014, 0x00140015⟩,
  -- amqp_framing.c:2529-2548
  ⟨"amqp_exchange_declare", [.bytes, .bytes, .bool, .bool, .bool, .bool, .table],
    [(.ticket, .zero .short), (.exchange, .param 0), (.type, .param 1), (.passive, .param 2), (.durable, .param 3), (.auto_delete, .param 4), (.internal, .param 5), (.nowait, .zero .bool), (.arguments, .param 6)],
    0x0028000A, 0x0028000B⟩,
  -- amqp_framing.c:2559-2571
  ⟨"amqp_exchange_delete", [.bytes, .bool],
    [(.ticket, .zero .short), (.exchange, .param 0), (.if_unused, .param 1), (.nowait, .zero .bool)],
    0x00280014, 0x00280015⟩,
  -- amqp_framing.c:2584-2599
  ⟨"amqp_exchange_bind", [.bytes, .bytes, .bytes, .table],
    [(.ticket, .zero .short), (.destination, .param 0), (.source, .param 1), (.routing_key, .param 2), (.nowait, .zero .bool), (.arguments, .param 3)],
    0x0028001E, 0x0028001F⟩,
  -- amqp_framing.c:2612-2627
  ⟨"amqp_exchange_unbind", [.bytes, .bytes, .bytes, .table],
    [(.ticket, .zero .short), (.destination, .param 0), (.source, .param 1), (.routing_key, .param 2), (.nowait, .zero .bool), (.arguments, .param 3)],
    0x00280028, 0x00280033⟩,
  -- amqp_framing.c:2642-2659
  ⟨"amqp_queue_declare", [.bytes, .bool, .bool, .bool, .bool, .table],
    [(.ticket, .zero .short), (.queue, .param 0), (.passive, .param 1), (.durable, .param 2), (.exclusive, .param 3), (.auto_delete, .param 4), (.nowait, .zero .bool), (.arguments, .param 5)],
    0x0032000A, 0x0032000B⟩,
  -- amqp_framing.c:2672-2686
  ⟨"amqp_queue_bind", [.bytes, .bytes, .bytes, .table],
    [(.ticket, .zero .short), (.queue, .param 0), (.exchange, .param 1), (.routing_key, .param 2), (.nowait, .zero .bool), (.arguments, .param 3)],
    0x00320014, 0x00320015⟩,
  -- amqp_framing.c:2696-2707
  ⟨"amqp_queue_purge", [.bytes],
    [(.ticket, .zero .short), (.queue, .param 0), (.nowait, .zero .bool)],
    0x0032001E, 0x0032001F⟩,
  -- amqp_framing.c:2719-2732
  ⟨"amqp_queue_delete", [.bytes, .bool, .bool],
    [(.ticket, .zero .short), (.queue, .param 0), (.if_unused, .param 1), (.if_empty, .param 2), (.nowait, .zero .bool)],
    0x00320028, 0x00320029⟩,
  -- amqp_framing.c:2745-2758
  ⟨"amqp_queue_unbind", [.bytes, .bytes, .bytes, .table],
    [(.ticket, .zero .short), (.queue, .param 0), (.exchange, .param 1), (.routing_key, .param 2), (.arguments, .param 3)],
    0x00320032, 0x00320033⟩,
  -- amqp_framing.c:2770-2783
  ⟨"amqp_basic_qos", [.long, .short, .bool],
    [(.prefetch_size, .param 0), (.prefetch_count, .param 1), (.global, .param 2)],
    0x003C000A, 0x003C000B⟩,
  -- amqp_framing.c:2798-2815
  ⟨"amqp_basic_consume", [.bytes, .bytes, .bool, .bool, .bool, .table],
    [(.ticket, .zero .short), (.queue, .param 0), (.consumer_tag, .param 1), (.no_local, .param 2), (.no_ack, .param 3), (.exclusive, .param 4), (.nowait, .zero .bool), (.arguments, .param 5)],
    0x003C0014, 0x003C0015⟩,
  -- amqp_framing.c:2825-2835
  ⟨"amqp_basic_cancel", [.bytes],
    [(.consumer_tag, .param 0), (.nowait, .zero .bool)],
    0x003C001E, 0x003C001F⟩,
  -- amqp_framing.c:2845-2854
  ⟨"amqp_basic_recover", [.bool],
    [(.requeue, .param 0)],
    0x003C006E, 0x003C006F⟩,
  -- amqp_framing.c:2863-2870
  ⟨"amqp_tx_select", [],
    [],
    0x005A000A, 0x005A000B⟩,
  -- amqp_framing.c:2879-2886
  ⟨"amqp_tx_commit", [],
    [],
    0x005A0014, 0x005A0015⟩,
  -- amqp_framing.c:2895-2902
  ⟨"amqp_tx_rollback", [],
    [],
    0x005A001E, 0x005A001F⟩,
  -- amqp_framing.c:2911-2919
  ⟨"amqp_confirm_select", [],
    [(.nowait, .zero .bool)],
    0x0055000A, 0x0055000B⟩]

end Rmq
