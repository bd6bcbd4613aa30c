import Verif.Model.Api
import Verif.Spec.ConnMem
/-!
# The memory of a message — librabbitmq/amqp_consumer.c, amqp_mem.c:142-159

What amqp_consume_message and amqp_read_message take from the system and give back.  The contents of what they hand to the application are in
Model/Api.lean; here the blocks are what matters.  The functions of the library that wait for a frame use the same heap: what they do to it while
one call waits, and the frame they return, come from a `Script`.
-/
namespace Rmq.PoolM

/-- What the waits of one call do and return, in order: while waiting the connection's memory goes through the operations `ops`; then the wait
fails with a status, or returns a frame.  A script ends where a wait fails. (No lines of /repo: the waits at amqp_consumer.c:110-282.) -/
inductive Script where
  | fails (ops : List ConnOp) (status : Int)
  | frame (ops : List ConnOp) (f : AFrame) (rest : Script)

/-- `amqp_bytes_t` with memory from `malloc`: the block (NULL is `none`) and `len`. (amqp_mem.c:142-157; include/rabbitmq-c/amqp.h:296-299.) -/
structure Buf where
  ptr : Option Nat
  len : Nat
deriving Repr, DecidableEq

/-- `amqp_message_t`, include/rabbitmq-c/amqp.h:2073-2077: the pool, the memory its properties point to (the latest first), the body. -/
structure Msg where
  pool : Pool
  ptrs : List Grant
  body : Buf
deriving Repr, DecidableEq

/-- `memset(message, 0, sizeof(*message))`, amqp_consumer.c:183. -/
def Msg.zero : Msg := ⟨⟨0, ⟨[], none⟩, ⟨[], none⟩, 0, none, 0⟩, [], ⟨none, 0⟩⟩

/-- The parts of `amqp_envelope_t` (include/rabbitmq-c/amqp.h:2119-2130) that own memory. -/
structure Envl where
  tag : Buf
  exchange : Buf
  routingKey : Buf
  msg : Msg
deriving Repr, DecidableEq

/-- `memset(envelope, 0, sizeof(*envelope))`, amqp_consumer.c:119. -/
def Envl.zero : Envl := ⟨⟨none, 0⟩, ⟨none, 0⟩, ⟨none, 0⟩, .zero⟩

/-- The `reply_type` (and `library_error`) of an amqp_rpc_reply_t. (include/rabbitmq-c/amqp.h:541-568.) -/
inductive Ret where
  | normal
  | server
  | library (status : Int)
deriving Repr, DecidableEq

/-- amqp_bytes_malloc, amqp_mem.c:152-157, and the allocation in amqp_bytes_malloc_dup, amqp_mem.c:142-150 (the copy is of the length that
was allocated).  As in glibc, `malloc(0)` gives a block. -/
def bytesMalloc (A : Nat → Bool) (h : Heap) (n : Nat) : Buf × Heap :=
  match hAlloc A h n with
  | (p, h) => (⟨p, n⟩, h)

/-- amqp_bytes_free, amqp_mem.c:159: `free(NULL)` does nothing; `none` is a double free. -/
def bytesFree (h : Heap) (b : Buf) : Option Heap :=
  match b.ptr with
  | none => some h
  | some p => hFree h p

/-- amqp_destroy_message, amqp_consumer.c:88-91. -/
def destroyMessage (m : Msg) (h : Heap) : Option Heap := (emptyPool m.pool h).bind fun (_, h) => bytesFree h m.body

/-- The three strings of an envelope, amqp_consumer.c:95-97 and 159-161. -/
def freeStrings (e : Envl) (h : Heap) : Option Heap :=
  (bytesFree h e.routingKey).bind fun h => (bytesFree h e.exchange).bind fun h => bytesFree h e.tag

/-- amqp_destroy_envelope, amqp_consumer.c:93-98. -/
def destroyEnvelope (e : Envl) (h : Heap) : Option Heap := (destroyMessage e.msg h).bind fun h => freeStrings e h

/-! ## Copying the properties, amqp_consumer.c:11-86, amqp_table.c:460-613 -/

/-- The message's pool, the heap, and the memory the copied properties point to. (The generated amqp_basic_properties copy, amqp_consumer.c:11-89; amqp_mem.c:81-133.) -/
abbrev Copying := Pool × Heap × List Grant

/-- Memory for `n` octets from the pool, then filled with `n` octets. (The generated amqp_basic_properties copy, amqp_consumer.c:11-89; amqp_mem.c:81-133.) -/
def grab (A : Nat → Bool) (n : Nat) : M Copying Unit := fun (p, h, gs) =>
  match poolAlloc A p h n with
  | .ok (some (b, o)) (p, h) => .ok () (p, h, ⟨b, o, n⟩ :: gs)
  | .ok none (p, h) => .err St.NO_MEMORY (p, h, gs)
  | .err e (p, h) => .err e (p, h, gs)
  | .ub => .ub
  | .fuel => .fuel

/-- A string: CLONE_BYTES_POOL, amqp_consumer.c:17-26, and amqp_table.c:517-530. -/
def grabBytes (A : Nat → Bool) (b : Bytes) : M Copying Unit := if b.length = 0 then pure () else grab A b.length

mutual
/-- amqp_field_value_clone, amqp_table.c:460-565.  (An array without elements has no entries: `entries` is NULL.) -/
def grabFV (A : Nat → Bool) : FV → M Copying Unit
  | .utf8 b => grabBytes A b
  | .bytes b => grabBytes A b
  | .array vs => if vs.length = 0 then pure () else do grab A (vs.length * SIZEOF_FV); grabFVs A vs
  | .table es => if es.length = 0 then pure () else do grab A (es.length * SIZEOF_ENTRY); grabEntries A es
  | .other _ => M.fail St.INVALID_PARAMETER
  | _ => pure ()
/-- The loop at amqp_table.c:542-548. -/
def grabFVs (A : Nat → Bool) : List FV → M Copying Unit
  | [] => pure ()
  | v :: vs => do grabFV A v; grabFVs A vs
/-- amqp_table_entry_clone, amqp_table.c:567-582. -/
def grabEntry (A : Nat → Bool) : Rmq.Entry → M Copying Unit
  | .mk k v => if k.length = 0 then M.fail St.INVALID_PARAMETER else do grab A k.length; grabFV A v
/-- The loop at amqp_table.c:601-608. -/
def grabEntries (A : Nat → Bool) : List Rmq.Entry → M Copying Unit
  | [] => pure ()
  | e :: es => do grabEntry A e; grabEntries A es
end

/-- One property: amqp_consumer.c:28-83; amqp_table_clone, amqp_table.c:584-613, for the headers. -/
def grabProp (A : Nat → Bool) : Val → M Copying Unit
  | .bytes b => grabBytes A b
  | .table t => if t.length = 0 then pure () else do grab A (t.length * SIZEOF_ENTRY); grabEntries A t
  | _ => pure ()

/-- amqp_basic_properties_clone, amqp_consumer.c:11-86, for the properties of `clonedProps` (Model/Api.lean). -/
def grabProps (A : Nat → Bool) (flags : UInt32) (r : Rec) : List (Nat × Fld) → M Copying Unit
  | [] => pure ()
  | (bit, f) :: ps =>
    if flags &&& UInt32.ofNat (1 <<< bit) ≠ 0 then
      match r.get? f with
      | none => M.ub
      | some v => do grabProp A v; grabProps A flags r ps
    else grabProps A flags r ps

/-! ## Reading -/

/-- Sizes of amqp_link_t (amqp_private.h:101-104) and amqp_frame_t (amqp.h:502-529). -/
def LINK_SIZE : Nat := 16
/-- sizeof(amqp_frame_t), include/rabbitmq-c/amqp.h:502-529, on 64 bits, as amqp_socket.c:805-828 allocates it. -/
def FRAME_SIZE : Nat := 48

/-- The memory of amqp_put_back_frame, amqp_socket.c:805-828 and 848-864. -/
def putBackMem (A : Nat → Bool) (ch : UInt16) (r : ConnRun) : Option ConnRun :=
  match getOrCreate A ch r.conn r.heap with
  | (none, c, h) => some { r with conn := c, heap := h }
  | (some _, c, h) => connRun A { r with conn := c, heap := h } [.store ch LINK_SIZE, .store ch FRAME_SIZE]

/-- The size of a live block. (amqp_consumer.c:170-282: the memcpy of a body fragment.) -/
def Heap.size? (h : Heap) (b : Nat) : Option Nat := (h.live.find? fun x => x.1 = b).map (·.2)

/-- `memcpy` of `n` octets to offset `off` of what `b` points to: may it? (amqp_consumer.c:170-282: the memcpy of a body fragment.) -/
def mayCopy (h : Heap) (b : Buf) (off n : Nat) : Bool :=
  match b.ptr with
  | none => false
  | some p => match h.size? p with
    | none => false
    | some size => off + n ≤ size

/-- The loop of amqp_read_message, amqp_consumer.c:237-272.  `got` is body_read.  The outer `none` is undefined behaviour (a copy outside the
body's block, or a double free). -/
def readBodyMem (A : Nat → Bool) (body : Buf) : Script → (got : Nat) → ConnRun → Option (Ret × ConnRun)
  | .fails ops st, got, r =>
    if got < body.len then (connRun A r ops).map fun r => (.library st, r)
    else some (.normal, r)
  | .frame ops f rest, got, r =>
    if got < body.len then
      (connRun A r ops).bind fun r =>
        match f.payload with
        | .body b =>
          if got + b.length > body.len then some (.library St.BAD_AMQP_DATA, r)
          else if mayCopy r.heap body got b.length then readBodyMem A body rest (got + b.length) r else none
        | .method id _ => some (if isClose id then .server else .library St.BAD_AMQP_DATA, r)
        | _ => some (.library St.BAD_AMQP_DATA, r)
    else some (.normal, r)

/-- `error_out3` of amqp_read_message, amqp_consumer.c:279-281. -/
def dropPool (ret : Ret) (m : Msg) (r : ConnRun) : Option (Ret × Msg × ConnRun) :=
  (emptyPool m.pool r.heap).map fun (p, h) => (ret, { m with pool := p }, { r with heap := h })

/-- `error_out2`, amqp_consumer.c:277-281. -/
def dropBody (ret : Ret) (m : Msg) (r : ConnRun) : Option (Ret × Msg × ConnRun) :=
  (bytesFree r.heap m.body).bind fun h => dropPool ret m { r with heap := h }

/-- amqp_read_message from the loop on, amqp_consumer.c:234-281. -/
def finishBody (A : Nat → Bool) (m : Msg) (rest : Script) (r : ConnRun) : Option (Ret × Msg × ConnRun) :=
  (readBodyMem A m.body rest 0 r).bind fun
    | (.normal, r) => some (.normal, m, r)
    | (ret, r) => dropBody ret m r

/-- amqp_read_message from amqp_consumer.c:220 on: the body's memory.  If the system refuses it (line 231) everything else is left as it is. -/
def readSizedMem (A : Nat → Bool) (size : Nat) (m : Msg) (rest : Script) (r : ConnRun) : Option (Ret × Msg × ConnRun) :=
  if size = 0 then finishBody A m rest r
  else
    match bytesMalloc A r.heap size with
    | (⟨none, n⟩, h) => some (.library St.NO_MEMORY, { m with body := ⟨none, n⟩ }, { r with heap := h })
    | (⟨some b, n⟩, h) => finishBody A { m with body := ⟨some b, n⟩ } rest { r with heap := h }

/-- amqp_read_message from amqp_consumer.c:210 on. -/
def readContentMem (A : Nat → Bool) (size : Nat) (flags : UInt32) (props : Rec) (rest : Script) (r : ConnRun) : Option (Ret × Msg × ConnRun) :=
  match grabProps A flags props clonedProps (initPool 4096, r.heap, []) with
  | .ok () (p, h, gs) => readSizedMem A size ⟨p, gs, ⟨none, 0⟩⟩ rest { r with heap := h }
  | .err e (p, h, gs) => dropPool (.library e) ⟨p, gs, ⟨none, 0⟩⟩ { r with heap := h }
  | .ub => none
  | .fuel => none

/-- amqp_read_message, amqp_consumer.c:170-282. -/
def readMem (A : Nat → Bool) : Script → ConnRun → Option (Ret × Msg × ConnRun)
  | .fails ops st, r => (connRun A r ops).map fun r => (.library st, .zero, r)
  | .frame ops f rest, r =>
    (connRun A r ops).bind fun r =>
      match f.payload with
      | .header _ size flags props => readContentMem A size.toNat flags props rest r
      | .method id _ =>
        if isClose id then some (.server, .zero, r)
        else (putBackMem A f.channel r).map fun r => (.library St.UNEXPECTED_STATE, .zero, r)
      | _ => (putBackMem A f.channel r).map fun r => (.library St.UNEXPECTED_STATE, .zero, r)

/-- amqp_bytes_malloc_dup_failed, amqp_consumer.c:100-105. -/
def dupFailed (b : Buf) : Bool := b.len != 0 && b.ptr.isNone

/-- `error_out2` of amqp_consume_message, amqp_consumer.c:158-161. -/
def dropStrings (ret : Ret) (e : Envl) (r : ConnRun) : Option (Ret × Envl × ConnRun) :=
  (freeStrings e r.heap).map fun h => (ret, e, { r with heap := h })

/-- amqp_consume_message from amqp_consumer.c:136 on. -/
def takeMem (A : Nat → Bool) (args : Rec) (rest : Script) (r : ConnRun) : Option (Ret × Envl × ConnRun) :=
  match args.get? .consumer_tag, args.get? .exchange, args.get? .routing_key with
  | some (.bytes tag), some (.bytes ex), some (.bytes rk) =>
    match bytesMalloc A r.heap tag.length with
    | (bt, h) =>
      match bytesMalloc A h ex.length with
      | (be, h) =>
        match bytesMalloc A h rk.length with
        | (bk, h) =>
          if dupFailed bt || dupFailed be || dupFailed bk then
            dropStrings (.library St.NO_MEMORY) ⟨bt, be, bk, .zero⟩ { r with heap := h }
          else
            (readMem A rest { r with heap := h }).bind fun
              | (.normal, m, r) => some (.normal, ⟨bt, be, bk, m⟩, r)
              | (ret, m, r) => dropStrings ret ⟨bt, be, bk, m⟩ r
  | _, _, _ => none

/-- amqp_consume_message, amqp_consumer.c:107-164. -/
def consumeMem (A : Nat → Bool) : Script → ConnRun → Option (Ret × Envl × ConnRun)
  | .fails ops st, r => (connRun A r ops).map fun r => (.library st, .zero, r)
  | .frame ops f rest, r =>
    (connRun A r ops).bind fun r =>
      match f.payload with
      | .method id args =>
        if id = BASIC_DELIVER then takeMem A args rest r
        else (putBackMem A f.channel r).map fun r => (.library St.UNEXPECTED_STATE, .zero, r)
      | _ => (putBackMem A f.channel r).map fun r => (.library St.UNEXPECTED_STATE, .zero, r)

end Rmq.PoolM
