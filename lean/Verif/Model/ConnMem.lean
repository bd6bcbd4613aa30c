import Verif.Model.Pool
/-!
# The memory of a connection — librabbitmq/amqp_connection.c:44-178, amqp_mem.c:161-202

What a connection allocates and frees: itself, its two buffers, the table of channel pools and the pool of properties.  The socket object
(amqp_socket_delete) is not here, see Model/Os.lean and Model/Tls.lean.
-/
namespace Rmq.PoolM

/-- `amqp_pool_table_entry_t`, amqp_private.h:108-112, with the block it lives in. -/
structure Entry where
  channel : UInt16
  node : Nat
  pool : Pool
deriving Repr, DecidableEq

/-- `POOL_TABLE_SIZE`, amqp_private.h:106. -/
def TABLE : Nat := 16

/-- The parts of `amqp_connection_state_t_` (amqp_private.h:114-168) that hold memory.  `self` is the block of the object, `out` is
`outbound_buffer.bytes`, `outLen` `outbound_buffer.len`, `table` `pool_table`, a list of `POOL_TABLE_SIZE` chains. -/
structure CMem where
  self : Nat
  out : Nat
  outLen : Nat
  sockBuf : Nat
  frameMax : Nat
  table : List (List Entry)
  props : Pool
deriving Repr, DecidableEq

/-- `realloc(p, size)` for a `p` that is not NULL, as in amqp_connection.c:138.  For size 0 this is glibc's: the block is freed and NULL
returned. -/
def hRealloc0 (A : Nat → Bool) (h : Heap) (b size : Nat) : Option (Option Nat × Heap) :=
  if size = 0 then (hFree h b).map fun h => (none, h) else hRealloc A h b size

/-- amqp_tune_connection, amqp_connection.c:109-146, the part about memory.  `clock` says whether the two readings of the clock work;
the result is the status.  (`frame_max` is an `int`, here not negative.) -/
def tuneMem (A : Nat → Bool) (clock : Bool) (frameMax : Nat) (c : CMem) (h : Heap) : Option (Int × CMem × Heap) :=
  let c := { c with frameMax := frameMax }
  if !clock then some (St.TIMER_FAILURE, c, h) else
  let c := { c with outLen := frameMax }
  (hRealloc0 A h c.out frameMax).map fun
    | (none, h) => (St.NO_MEMORY, c, h)
    | (some b, h) => (St.OK, { c with out := b }, h)

/-- Size of the connection object, of a table entry and of the input buffer: `sizeof` and amqp_connection.c:25-27. -/
def CONN_SIZE : Nat := 640
/-- sizeof(amqp_pool_table_entry_t), amqp_private.h:108-112, on 64 bits. -/
def ENTRY_SIZE : Nat := 72
/-- AMQP_INITIAL_INBOUND_SOCK_BUFFER_SIZE, amqp_connection.c:25. -/
def SOCK_BUF : Nat := 131072

/-- amqp_new_connection, amqp_connection.c:44-86: `none` is NULL; the outer `none` a double free.  (At line 53 the output buffer is NULL, so
`realloc` is `malloc`.) -/
def newConn (A : Nat → Bool) (clock : Bool) (h : Heap) : Option (Option CMem × Heap) :=
  match hAlloc A h CONN_SIZE with
  | (none, h) => some (none, h)
  | (some self, h) =>
    -- out_nomem: free(NULL) is nothing
    let nomem (h : Heap) : Option (Option CMem × Heap) := (hFree h self).map fun h => (none, h)
    if !clock then nomem h else
    match hAlloc A h 65536 with
    | (none, h) => nomem h
    | (some out, h) =>
      match hAlloc A h SOCK_BUF with
      | (none, h) => nomem h
      | (some sock, h) =>
        some (some { self := self, out := out, outLen := 65536, sockBuf := sock, frameMax := 65536, table := List.replicate TABLE [],
                     props := initPool 512 }, h)

/-- The bucket of a channel: `channel % POOL_TABLE_SIZE`. (amqp_mem.c:161-202.) -/
def slot (ch : UInt16) : Nat := ch.toNat % TABLE

/-- The loop of amqp_get_channel_pool over a chain, amqp_mem.c:194-198. -/
def findEntry (ch : UInt16) : List Entry → Option Entry
  | [] => none
  | e :: es => if ch = e.channel then some e else findEntry ch es

/-- amqp_get_channel_pool, amqp_mem.c:187-202. -/
def getPool (c : CMem) (ch : UInt16) : Option Pool := (findEntry ch (c.table.getD (slot ch) [])).map (·.pool)

/-- amqp_get_or_create_channel_pool, amqp_mem.c:161-185. -/
def getOrCreate (A : Nat → Bool) (ch : UInt16) (c : CMem) (h : Heap) : Option Pool × CMem × Heap :=
  match findEntry ch (c.table.getD (slot ch) []) with
  | some e => (some e.pool, c, h)
  | none =>
    match hAlloc A h ENTRY_SIZE with
    | (none, h) => (none, c, h)
    | (some b, h) =>
      let e : Entry := ⟨ch, b, initPool c.frameMax⟩
      (some e.pool, { c with table := c.table.set (slot ch) (e :: c.table.getD (slot ch) []) }, h)

/-- A write through the pointer to the pool that the table lookup returned. (amqp_mem.c:161-202.) -/
def putEntry (ch : UInt16) (p : Pool) : List Entry → List Entry
  | [] => []
  | e :: es => if ch = e.channel then { e with pool := p } :: es else e :: putEntry ch p es

/-- amqp_mem.c:161-202. -/
def putPool (ch : UInt16) (p : Pool) (c : CMem) : CMem :=
  { c with table := c.table.set (slot ch) (putEntry ch p (c.table.getD (slot ch) [])) }

/-- What the library does to store something for a channel (amqp_connection.c:277-282, 316; amqp_socket.c:707-713, 811-818, 1056-1062): find or create the
channel's pool and allocate from it. -/
def chanAlloc (A : Nat → Bool) (ch : UInt16) (n : Nat) (c : CMem) (h : Heap) : Res (CMem × Heap) (Option (Nat × Nat)) :=
  match getOrCreate A ch c h with
  | (none, c, h) => .ok none (c, h)
  | (some p, c, h) =>
    match poolAlloc A p h n with
    | .ok r (p, h) => .ok r (putPool ch p c, h)
    | .err e (p, h) => .err e (putPool ch p c, h)
    | .ub => .ub
    | .fuel => .fuel

/-- The same for the pool of properties (amqp_socket.c:1262-1265). -/
def propsAlloc (A : Nat → Bool) (n : Nat) (c : CMem) (h : Heap) : Res (CMem × Heap) (Option (Nat × Nat)) :=
  match poolAlloc A c.props h n with
  | .ok r (p, h) => .ok r ({ c with props := p }, h)
  | .err e (p, h) => .err e ({ c with props := p }, h)
  | .ub => .ub
  | .fuel => .fuel

/-- The end of amqp_maybe_release_buffers_on_channel, amqp_connection.c:424-428 (whether it is reached is in Model/Conn.lean). -/
def releaseChan (ch : UInt16) (c : CMem) (h : Heap) : Option (CMem × Heap) :=
  match getPool c ch with
  | none => some (c, h)
  | some p => (recyclePool p h).map fun (p, h) => (putPool ch p c, h)

/-- The inner loop of amqp_destroy_connection, amqp_connection.c:163-168. -/
def destroyChain (h : Heap) : List Entry → Option Heap
  | [] => some h
  | e :: es => (emptyPool e.pool h).bind fun (_, h) => (hFree h e.node).bind fun h => destroyChain h es

/-- The outer loop, amqp_connection.c:161-169. -/
def destroyTable (h : Heap) : List (List Entry) → Option Heap
  | [] => some h
  | es :: ess => (destroyChain h es).bind fun h => destroyTable h ess

/-- amqp_destroy_connection, amqp_connection.c:157-178, without the socket object. -/
def destroyConn (c : CMem) (h : Heap) : Option Heap :=
  (destroyTable h c.table).bind fun h => (hFree h c.out).bind fun h => (hFree h c.sockBuf).bind fun h =>
    (emptyPool c.props h).bind fun (_, h) => hFree h c.self

end Rmq.PoolM
