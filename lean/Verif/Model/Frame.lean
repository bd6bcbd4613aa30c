import Verif.Model.Methods
/-!
# Frames — librabbitmq/amqp_connection.c:179-380 (receiving) and 431-505 (serialising)
-/
namespace Rmq

/-- The decoded payload of a frame (`amqp_frame_t.payload`, include/rabbitmq-c/amqp.h:502-529).  The `raw` copy of a header
frame's property bytes is not kept. -/
inductive Payload where
  | method (id : UInt32) (args : Rec)
  | header (classId : UInt16) (bodySize : UInt64) (flags : UInt32) (props : Rec)
  | body (fragment : Bytes)
  | heartbeat
  | protocolHeader (transportHigh transportLow major minor : UInt8)
  /-- any other `frame_type` value (only ever given to the sender) -/
  | other (frameType : UInt8)

/-- `amqp_frame_t`, include/rabbitmq-c/amqp.h:502-529. -/
structure AFrame where
  channel : UInt16
  payload : Payload

/-- Frame types, include/rabbitmq-c/framing.h:20-23 (AMQP_FRAME_METHOD …) and the pseudo frame 'A' of amqp_private.h:99. -/
def Payload.frameType : Payload → UInt8
  | .method _ _ => 1
  | .header _ _ _ _ => 2
  | .body _ => 3
  | .heartbeat => 8
  | .protocolHeader _ _ _ _ => 65
  | .other t => t

/-- AMQP_FRAME_END, include/rabbitmq-c/framing.h:25. -/
def FRAME_END : UInt8 := 206
/-- HEADER_SIZE, amqp_private.h:96. -/
def HEADER_SIZE : Nat := 7
/-- FOOTER_SIZE, amqp_private.h:97. -/
def FOOTER_SIZE : Nat := 1

/-- `size_t` subtraction (wraps). (amqp_connection.c:205-380.) -/
def subWrap (a b : Nat) : Nat := if b ≤ a then a - b else a + 2 ^ 64 - b

/-! ## Serialising -/

/-- An unchecked store of `bs` at `o`: `none` when it leaves the buffer's memory. (amqp_private.h:205-269, as used in amqp_connection.c:431-505.) -/
def poke (mem : Bytes) (o : Nat) (bs : Bytes) : Option Bytes :=
  if o + bs.length ≤ mem.length then some (splice mem o bs) else none

/-- The part of amqp_frame_to_bytes after the `switch`, amqp_connection.c:495-503: size, end octet, and the encoded run. -/
def finishFrame (be : Bool) (mem : Bytes) (outLen : Nat) : Res Bytes Bytes :=
  match poke mem 3 (e32 be (UInt32.ofNat outLen)) with
  | none => .ub
  | some mem =>
    match poke mem (HEADER_SIZE + outLen) (e8 FRAME_END) with
    | none => .ub
    | some mem => .ok (mem.take (outLen + HEADER_SIZE + FOOTER_SIZE)) mem

/-- amqp_frame_to_bytes, amqp_connection.c:431-505.  `mem` is the memory of `buffer`, `buflen` its claimed length.  The value
is the encoded run of bytes (a prefix of the buffer). -/
def frameToBytes (be : Bool) (mem : Bytes) (buflen : Nat) (f : AFrame) : Res Bytes Bytes :=
  match poke mem 0 (e8 f.payload.frameType) with
  | none => .ub
  | some mem =>
  match poke mem 1 (e16 be f.channel) with
  | none => .ub
  | some mem =>
  match f.payload with
  | .body b =>
    match poke mem HEADER_SIZE b with
    | none => .ub
    | some mem => finishFrame be mem b.length
  | .method id args =>
    match poke mem HEADER_SIZE (e32 be id) with
    | none => .ub
    | some mem =>
      match encMethod be (mem.drop (HEADER_SIZE + 4)) (subWrap buflen (HEADER_SIZE + 4 + FOOTER_SIZE)) id args with
      | .ok n s => finishFrame be (mem.take (HEADER_SIZE + 4) ++ s.mem) (n + 4)
      | .err e s => .err e (mem.take (HEADER_SIZE + 4) ++ s.mem)
      | .ub => .ub
      | .fuel => .fuel
  | .header cls size flags props =>
    match poke mem HEADER_SIZE (e16 be cls) with
    | none => .ub
    | some mem =>
    match poke mem (HEADER_SIZE + 2) (e16 be 0) with
    | none => .ub
    | some mem =>
    match poke mem (HEADER_SIZE + 4) (e64 be size) with
    | none => .ub
    | some mem =>
      match encProperties be (mem.drop (HEADER_SIZE + 12)) (subWrap buflen (HEADER_SIZE + 12 + FOOTER_SIZE)) cls flags
          props with
      | .ok n s => finishFrame be (mem.take (HEADER_SIZE + 12) ++ s.mem) (n + 12)
      | .err e s => .err e (mem.take (HEADER_SIZE + 12) ++ s.mem)
      | .ub => .ub
      | .fuel => .fuel
  | .heartbeat => finishFrame be mem 0
  | .protocolHeader _ _ _ _ => .err St.INVALID_PARAMETER mem
  | .other _ => .err St.INVALID_PARAMETER mem

/-! ## Receiving -/

/-- amqp_connection_state_enum, amqp_private.h:80-85. -/
inductive PMode where
  | idle | initial | header | body
deriving Repr, DecidableEq

/-- Where `state->inbound_buffer.bytes` points. (The fields inbound_buffer, inbound_offset and target_size, amqp_private.h:132-136; set at amqp_connection.c:180-260.) -/
inductive Inb where
  /-- the 8-byte `header_buffer` inside the connection state -/
  | hdr
  /-- a block of the channel's pool, with its contents -/
  | pool (mem : Bytes)
  /-- NULL (after a failed allocation) -/
  | null
deriving Repr, DecidableEq

/-- The part of the connection state used by the frame parser (amqp_private.h:114-155).  Simplification: `frameMax` is
`(size_t)state->frame_max`; the channel pools are represented by the set of channels having one; `bufLog` records the sizes of the
frame buffers asked from the pools. -/
structure PState where
  mode : PMode
  hdr : Bytes
  inb : Inb
  off : Nat
  target : Nat
  frameMax : Nat
  pools : List UInt16
  allocs : Nat
  bufLog : List Nat
deriving Repr, DecidableEq

/-- What the parser depends on outside the connection: host byte order, the allocator's answers, and the initial contents of
pool memory (recycled pool pages are not cleared). (What amqp_connection.c:205-380 depends on besides `state`.) -/
structure PEnv where
  be : Bool
  alloc : Nat → Bool
  fresh : Nat → Nat → UInt8

/-- amqp_new_connection, amqp_connection.c:44-86: the parser part of a new connection (`calloc`ed). -/
def newParser (frameMax : Nat) : PState :=
  { mode := .initial, hdr := List.replicate 8 0, inb := .hdr, off := 0, target := 8, frameMax := frameMax,
    pools := [], allocs := 0, bufLog := [] }

/-- return_to_idle, amqp_connection.c:179-185. -/
def PState.idle (s : PState) : PState := { s with inb := .hdr, off := 0, target := HEADER_SIZE, mode := .idle }

/-- The memory `inbound_buffer.bytes` points to. (`raw_frame`, amqp_connection.c:205-380.) -/
def PState.raw (s : PState) : Option Bytes :=
  match s.inb with
  | .hdr => some s.hdr
  | .pool m => some m
  | .null => none

/-- Replace that memory. (`raw_frame`, amqp_connection.c:205-380.) -/
def PState.setRaw (s : PState) (m : Bytes) : PState :=
  match s.inb with
  | .hdr => { s with hdr := m }
  | .pool _ => { s with inb := .pool m }
  | .null => s

/-- consume_data, amqp_connection.c:187-203: how many bytes are taken and the state after copying them; `none` is an
out-of-bounds or NULL store. -/
def consumeData (s : PState) (data : Bytes) : Option (Nat × PState) :=
  let n := min (subWrap s.target s.off) data.length
  match s.raw with
  | none => none
  | some m =>
    match poke m s.off (data.take n) with
    | none => none
    | some m' => some (n, { s.setRaw m' with off := s.off + n })

/-- Unchecked reads from `raw_frame`: `none` when outside its memory. (amqp_private.h:205-290, as used at amqp_connection.c:205-380.) -/
def rd8 (m : Bytes) (o : Nat) : Option UInt8 := (readAt m o 1).bind d8
/-- amqp_private.h:205-290, as used at amqp_connection.c:205-380. -/
def rd16 (be : Bool) (m : Bytes) (o : Nat) : Option UInt16 := (readAt m o 2).bind (d16 be)
/-- amqp_private.h:205-290, as used at amqp_connection.c:205-380. -/
def rd32 (be : Bool) (m : Bytes) (o : Nat) : Option UInt32 := (readAt m o 4).bind (d32 be)
/-- amqp_private.h:205-290, as used at amqp_connection.c:205-380. -/
def rd64 (be : Bool) (m : Bytes) (o : Nat) : Option UInt64 := (readAt m o 8).bind (d64 be)

/-- amqp_get_or_create_channel_pool, amqp_mem.c:161-185 (whether it succeeds, and the state after). -/
def getPool (E : PEnv) (s : PState) (ch : UInt16) : Bool × PState :=
  if ch ∈ s.pools then (true, s)
  else if E.alloc s.allocs then (true, { s with allocs := s.allocs + 1, pools := ch :: s.pools })
  else (false, { s with allocs := s.allocs + 1 })

/-- `CONNECTION_STATE_BODY`, amqp_connection.c:299-372: the frame is complete.  `consumed` is the number of bytes taken by
this call. -/
def bodyPhase (E : PEnv) (s : PState) (consumed : Nat) : Res PState (Nat × Option AFrame) :=
  match s.raw with
  | none => .ub
  | some raw =>
  match rd8 raw (subWrap s.target 1) with
  | none => .ub
  | some fend =>
  if fend ≠ FRAME_END then .err St.BAD_AMQP_DATA s else
  match rd8 raw 0, rd16 E.be raw 1 with
  | some ty, some ch =>
    match getPool E s ch with
    | (false, s) => .err St.NO_MEMORY s
    | (true, s) =>
      if ty = 1 then
        match rd32 E.be raw HEADER_SIZE with
        | none => .ub
        | some id =>
          match decMethod ⟨raw.drop (HEADER_SIZE + 4), subWrap s.target (HEADER_SIZE + 4 + FOOTER_SIZE), E.be, E.alloc⟩ id
              s.allocs with
          | .ok args d => .ok (consumed, some ⟨ch, .method id args⟩) { s with allocs := d.allocs }.idle
          | .err e d => .err e { s with allocs := d.allocs }
          | .ub => .ub
          | .fuel => .fuel
      else if ty = 2 then
        match rd16 E.be raw HEADER_SIZE, rd64 E.be raw (HEADER_SIZE + 4) with
        | some cls, some size =>
          match decProperties ⟨raw.drop (HEADER_SIZE + 12), subWrap s.target (HEADER_SIZE + 12 + FOOTER_SIZE), E.be,
              E.alloc⟩ cls s.allocs with
          | .ok (flags, props) d => .ok (consumed, some ⟨ch, .header cls size flags props⟩) { s with allocs := d.allocs }.idle
          | .err e d => .err e { s with allocs := d.allocs }
          | .ub => .ub
          | .fuel => .fuel
        | _, _ => .ub
      else if ty = 3 then
        match readAt raw HEADER_SIZE (subWrap s.target (HEADER_SIZE + FOOTER_SIZE)) with
        | none => .ub
        | some b => .ok (consumed, some ⟨ch, .body b⟩) s.idle
      else if ty = 8 then .ok (consumed, some ⟨ch, .heartbeat⟩) s.idle
      else .ok (consumed, none) s.idle
  | _, _ => .ub

/-- `CONNECTION_STATE_HEADER`, amqp_connection.c:256-297: the frame header is complete. -/
def headerPhase (E : PEnv) (s : PState) (consumed : Nat) (rest : Bytes) : Res PState (Nat × Option AFrame) :=
  match s.raw with
  | none => .ub
  | some raw =>
  match rd16 E.be raw 1, rd32 E.be raw 3 with
  | some ch, some fs =>
    if fs.toNat ≥ 2147483647 then .err St.BAD_AMQP_DATA s
    else
      let frameSize := fs.toNat + HEADER_SIZE + FOOTER_SIZE
      if s.frameMax < frameSize then .err St.BAD_AMQP_DATA s
      else
        match getPool E s ch with
        | (false, s) => .err St.NO_MEMORY s
        | (true, s) =>
          let n := s.allocs
          let s := { s with allocs := n + 1, bufLog := frameSize :: s.bufLog }
          if E.alloc n then
            let mem := (List.range frameSize).map (E.fresh n)
            match poke mem 0 (s.hdr.take HEADER_SIZE) with
            | none => .ub
            | some mem =>
              let s := { s with inb := .pool mem, mode := .body, target := frameSize }
              match consumeData s rest with
              | none => .ub
              | some (k, s) =>
                if s.off < s.target then .ok (consumed + k, none) s
                else bodyPhase E s (consumed + k)
          else .err St.NO_MEMORY { s with inb := .null }
  | _, _ => .ub

/-- amqp_handle_input, amqp_connection.c:205-380: the number of bytes consumed and the frame delivered, if any
(`frame_type == 0` is `none`). -/
def handleInput (E : PEnv) (s : PState) (data : Bytes) : Res PState (Nat × Option AFrame) :=
  if data.length = 0 then .ok (0, none) s else
  let s := if s.mode = .idle then { s with mode := .header } else s
  match consumeData s data with
  | none => .ub
  | some (k, s) =>
    if s.off < s.target then .ok (k, none) s
    else
      match s.mode with
      | .initial =>
        match s.raw with
        | none => .ub
        | some raw =>
          if raw.take 4 = [65, 77, 81, 80] then
            match rd8 raw 4, rd8 raw 5, rd8 raw 6, rd8 raw 7 with
            | some a, some b, some c, some d => .ok (k, some ⟨0, .protocolHeader a b c d⟩) s.idle
            | _, _, _, _ => .ub
          else headerPhase E s k (data.drop k)
      | .header => headerPhase E s k (data.drop k)
      | .body => bodyPhase E s k
      | .idle => .ub

end Rmq
