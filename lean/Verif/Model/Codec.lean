import Verif.Model.Endian
/-!
# Checked buffer primitives — librabbitmq/amqp_private.h:180-202, 291-322

A buffer `amqp_bytes_t encoded` is a pointer and a *claimed* length.  The model keeps the memory really available from
`encoded.bytes` onwards (`mem`) apart from the claimed length (`len`): reads and writes are allowed by the C code when they
fit the claimed length, and are undefined behaviour when they leave `mem`.

`size_t` offsets are `Nat`: offsets never exceed `mem.length + 2^32` before an error or `ub`, so they cannot wrap.
-/
namespace Rmq

/-- Overwrite `mem` at `off` with `bs` (the C `memcpy(mem+off, bs, |bs|)`), assuming it fits. (amqp_private.h:205-306: memcpy into the output.) -/
def splice (mem : Bytes) (off : Nat) (bs : Bytes) : Bytes :=
  mem.take off ++ bs ++ mem.drop (off + bs.length)

/-- Encoder state: the memory of the output buffer and `*offset`. (amqp_bytes_t encoded, size_t *offset: amqp_private.h:292-293.) -/
structure EState where
  mem : Bytes
  off : Nat
deriving Repr, DecidableEq

/-- A checked write of `bs` at `o`. (amqp_private.h:205-306: memcpy into the output.) -/
def writeAt (bs : Bytes) (o : Nat) : M EState Unit := fun s =>
  if o + bs.length ≤ s.mem.length then .ok () { s with mem := splice s.mem o bs } else .ub

/-- The body of `DECLARE_CODEC_BASE_TYPE(bits)`'s encoder, amqp_private.h:182-190: `*offset` is advanced first, also when the
value does not fit.  `bs` is the encoded integer (`amqp_eN` of the value). -/
def encRaw (len : Nat) (bs : Bytes) : M EState Bool := fun s =>
  let o := s.off
  let s' := { s with off := o + bs.length }
  if s'.off ≤ len then
    match writeAt bs o s' with
    | .ok () s'' => .ok true s''
    | _ => .ub
  else .ok false s'

/-- amqp_encode_8 (amqp_private.h:182-190 with bits = 8, instantiated at 286). -/
def enc8 (len : Nat) (v : UInt8) : M EState Bool := encRaw len (e8 v)
/-- amqp_encode_16 (amqp_private.h:182-190, instantiated at 287). -/
def enc16 (be : Bool) (len : Nat) (v : UInt16) : M EState Bool := encRaw len (e16 be v)
/-- amqp_encode_32 (amqp_private.h:182-190, instantiated at 288). -/
def enc32 (be : Bool) (len : Nat) (v : UInt32) : M EState Bool := encRaw len (e32 be v)
/-- amqp_encode_64 (amqp_private.h:182-190, instantiated at 289). -/
def enc64 (be : Bool) (len : Nat) (v : UInt64) : M EState Bool := encRaw len (e64 be v)

/-- amqp_encode_bytes, amqp_private.h:291-308: empty input succeeds without looking at the buffer. -/
def encBytes (len : Nat) (input : Bytes) : M EState Bool := fun s =>
  if input.length = 0 then .ok true s else encRaw len input s

/-- What the decoder reads from: the memory really there, the claimed length, host byte order, and the allocator's
answers (`alloc n` = does the n-th allocation request succeed). (The arguments of the decoders: amqp_table.c:182-184, amqp_private.h:310-311.) -/
structure DEnv where
  mem : Bytes
  len : Nat
  be : Bool
  alloc : Nat → Bool

/-- Decoder state: `*offset` and the number of allocation requests made so far. (The arguments of the decoders: amqp_table.c:182-184, amqp_private.h:310-311.) -/
structure DState where
  off : Nat
  allocs : Nat := 0
deriving Repr, DecidableEq

/-- The memory window `[o, o+n)`, or `none` when it is not inside the allocation. (amqp_private.h:205-290, 310-325: memcpy from the input.) -/
def readAt (mem : Bytes) (o n : Nat) : Option Bytes :=
  if o + n ≤ mem.length then some ((mem.drop o).take n) else none

/-- The body of `DECLARE_CODEC_BASE_TYPE(bits)`'s decoder, amqp_private.h:192-201, for an integer of `n` bytes converted by `d`. -/
def decRaw {α : Type} (E : DEnv) (n : Nat) (d : Bytes → Option α) : M DState (Option α) := fun s =>
  let o := s.off
  let s' := { s with off := o + n }
  if s'.off ≤ E.len then
    match readAt E.mem o n with
    | some bs => match d bs with
      | some v => .ok (some v) s'
      | none => .ub
    | none => .ub
  else .ok none s'

/-- amqp_decode_8 (amqp_private.h:192-201, instantiated at 286). -/
def dec8 (E : DEnv) : M DState (Option UInt8) := decRaw E 1 d8
/-- amqp_decode_16 (amqp_private.h:192-201, instantiated at 287). -/
def dec16 (E : DEnv) : M DState (Option UInt16) := decRaw E 2 (d16 E.be)
/-- amqp_decode_32 (amqp_private.h:192-201, instantiated at 288). -/
def dec32 (E : DEnv) : M DState (Option UInt32) := decRaw E 4 (d32 E.be)
/-- amqp_decode_64 (amqp_private.h:192-201, instantiated at 289). -/
def dec64 (E : DEnv) : M DState (Option UInt64) := decRaw E 8 (d64 E.be)

/-- amqp_decode_bytes, amqp_private.h:310-321.  The C function returns a pointer into the buffer; the model returns the bytes
seen through it (forming a pointer outside the allocation is `ub`). -/
def decBytes (E : DEnv) (n : Nat) : M DState (Option Bytes) := decRaw E n some

/-- One allocation request (`malloc`, `realloc` or `amqp_pool_alloc` with a non-zero size). (amqp_mem.c:81-133; amqp_table.c:29-175.) -/
def allocate (E : DEnv) : M DState Bool := fun s =>
  .ok (E.alloc s.allocs) { s with allocs := s.allocs + 1 }

end Rmq
