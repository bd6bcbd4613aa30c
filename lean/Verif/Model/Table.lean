import Verif.Model.Codec
/-!
# Field values and tables — librabbitmq/amqp_table.c, include/rabbitmq-c/amqp.h:320-460
-/
namespace Rmq

mutual
/-- `amqp_field_value_t`, include/rabbitmq-c/amqp.h:385-406, with the union resolved by `kind`
(kinds: amqp.h:426-453).  `f32`/`f64` hold the bit pattern (the C code only ever puns them).  `other k` is a value whose
`kind` byte is none of the enumerated ones. -/
inductive FV where
  | boolean (v : Int32)          -- 't', amqp_boolean_t is int
  | i8 (v : Int8)                -- 'b'
  | u8 (v : UInt8)               -- 'B'
  | i16 (v : Int16)              -- 's'
  | u16 (v : UInt16)             -- 'u'
  | i32 (v : Int32)              -- 'I'
  | u32 (v : UInt32)             -- 'i'
  | i64 (v : Int64)              -- 'l'
  | u64 (v : UInt64)             -- 'L'
  | f32 (bits : UInt32)          -- 'f'
  | f64 (bits : UInt64)          -- 'd'
  | decimal (decimals : UInt8) (value : UInt32)  -- 'D'
  | utf8 (b : Bytes)             -- 'S'
  | array (vs : List FV)         -- 'A'
  | timestamp (v : UInt64)       -- 'T'
  | table (es : List Entry)      -- 'F'
  | void                         -- 'V'
  | bytes (b : Bytes)            -- 'x'
  | other (kind : UInt8)
/-- `amqp_table_entry_t`, include/rabbitmq-c/amqp.h:415-421. -/
inductive Entry where
  | mk (key : Bytes) (value : FV)
end

/-- `amqp_table_t` (amqp.h:316-322): the entries in order. -/
abbrev Table := List Entry

/-- amqp_table_entry_t, include/rabbitmq-c/amqp.h:415-419. -/
def Entry.key : Entry → Bytes | .mk k _ => k
/-- amqp_table_entry_t, include/rabbitmq-c/amqp.h:415-419. -/
def Entry.value : Entry → FV | .mk _ v => v

/-! Field kind characters, include/rabbitmq-c/amqp.h:426-453. -/
namespace Kind
/-- AMQP_FIELD_KIND_BOOLEAN, include/rabbitmq-c/amqp.h:427. -/
def BOOLEAN : UInt8 := 't'.toUInt8
/-- AMQP_FIELD_KIND_I8, include/rabbitmq-c/amqp.h:429. -/
def I8 : UInt8 := 'b'.toUInt8
/-- AMQP_FIELD_KIND_U8, include/rabbitmq-c/amqp.h:430. -/
def U8 : UInt8 := 'B'.toUInt8
/-- AMQP_FIELD_KIND_I16, include/rabbitmq-c/amqp.h:431. -/
def I16 : UInt8 := 's'.toUInt8
/-- AMQP_FIELD_KIND_U16, include/rabbitmq-c/amqp.h:432. -/
def U16 : UInt8 := 'u'.toUInt8
/-- AMQP_FIELD_KIND_I32, include/rabbitmq-c/amqp.h:433. -/
def I32 : UInt8 := 'I'.toUInt8
/-- AMQP_FIELD_KIND_U32, include/rabbitmq-c/amqp.h:434. -/
def U32 : UInt8 := 'i'.toUInt8
/-- AMQP_FIELD_KIND_I64, include/rabbitmq-c/amqp.h:435. -/
def I64 : UInt8 := 'l'.toUInt8
/-- AMQP_FIELD_KIND_U64, include/rabbitmq-c/amqp.h:436. -/
def U64 : UInt8 := 'L'.toUInt8
/-- AMQP_FIELD_KIND_F32, include/rabbitmq-c/amqp.h:437. -/
def F32 : UInt8 := 'f'.toUInt8
/-- AMQP_FIELD_KIND_F64, include/rabbitmq-c/amqp.h:439. -/
def F64 : UInt8 := 'd'.toUInt8
/-- AMQP_FIELD_KIND_DECIMAL, include/rabbitmq-c/amqp.h:441. -/
def DECIMAL : UInt8 := 'D'.toUInt8
/-- AMQP_FIELD_KIND_UTF8, include/rabbitmq-c/amqp.h:443. -/
def UTF8 : UInt8 := 'S'.toUInt8
/-- AMQP_FIELD_KIND_ARRAY, include/rabbitmq-c/amqp.h:445. -/
def ARRAY : UInt8 := 'A'.toUInt8
/-- AMQP_FIELD_KIND_TIMESTAMP, include/rabbitmq-c/amqp.h:447. -/
def TIMESTAMP : UInt8 := 'T'.toUInt8
/-- AMQP_FIELD_KIND_TABLE, include/rabbitmq-c/amqp.h:448. -/
def TABLE : UInt8 := 'F'.toUInt8
/-- AMQP_FIELD_KIND_VOID, include/rabbitmq-c/amqp.h:450. -/
def VOID : UInt8 := 'V'.toUInt8
/-- AMQP_FIELD_KIND_BYTES, include/rabbitmq-c/amqp.h:451. -/
def BYTES : UInt8 := 'x'.toUInt8
end Kind

/-! ## Encoding — amqp_table.c:285-433 -/

/-- amqp_encode_array, amqp_table.c:285-310, with its element loop (292-297) as the argument `loop`:
the size is back-patched at `start` once the elements are written. -/
def encArrayWith (be : Bool) (len : Nat) (loop : M EState Unit) : M EState Unit := fun s0 =>
  let start := s0.off
  match loop { s0 with off := s0.off + 4 } with
  | .ok () s1 =>
      -- `amqp_encode_32(encoded, &start, (uint32_t)(*offset - start - 4))` writes at `start` and leaves `*offset`
      match M.orFail St.TABLE_TOO_BIG (enc32 be len (UInt32.ofNat (s1.off - start - 4)))
          { s1 with off := start } with
      | .ok () s2 => .ok () { s2 with off := s1.off }
      | .err e s2 => .err e { s2 with off := s1.off }
      | .ub => .ub
      | .fuel => .fuel
  | r => r

/-- amqp_encode_table, amqp_table.c:311-344, with its entry loop (318-334) as the argument `loop`. -/
def encTableWith (be : Bool) (len : Nat) (loop : M EState Unit) : M EState Unit := fun s0 =>
  let start := s0.off
  match loop { s0 with off := s0.off + 4 } with
  | .ok () s1 =>
      match M.orFail St.TABLE_TOO_BIG (enc32 be len (UInt32.ofNat (s1.off - start - 4)))
          { s1 with off := start } with
      | .ok () s2 => .ok () { s2 with off := s1.off }
      | .err e s2 => .err e { s2 with off := s1.off }
      | .ub => .ub
      | .fuel => .fuel
  | r => r

mutual
/-- amqp_encode_field_value, amqp_table.c:346-433. -/
def encFV (be : Bool) (len : Nat) : FV → M EState Unit
  | .boolean v => do
      M.orFail St.BAD_AMQP_DATA (enc8 len Kind.BOOLEAN)
      M.orFail St.TABLE_TOO_BIG (enc8 len (if v ≠ 0 then 1 else 0))          -- 363-364
  | .i8 v => do
      M.orFail St.BAD_AMQP_DATA (enc8 len Kind.I8)
      M.orFail St.TABLE_TOO_BIG (enc8 len v.toUInt8)                          -- 366-367
  | .u8 v => do
      M.orFail St.BAD_AMQP_DATA (enc8 len Kind.U8)
      M.orFail St.TABLE_TOO_BIG (enc8 len v)
  | .i16 v => do
      M.orFail St.BAD_AMQP_DATA (enc8 len Kind.I16)
      M.orFail St.TABLE_TOO_BIG (enc16 be len v.toUInt16)
  | .u16 v => do
      M.orFail St.BAD_AMQP_DATA (enc8 len Kind.U16)
      M.orFail St.TABLE_TOO_BIG (enc16 be len v)
  | .i32 v => do
      M.orFail St.BAD_AMQP_DATA (enc8 len Kind.I32)
      M.orFail St.TABLE_TOO_BIG (enc32 be len v.toUInt32)
  | .u32 v => do
      M.orFail St.BAD_AMQP_DATA (enc8 len Kind.U32)
      M.orFail St.TABLE_TOO_BIG (enc32 be len v)
  | .i64 v => do
      M.orFail St.BAD_AMQP_DATA (enc8 len Kind.I64)
      M.orFail St.TABLE_TOO_BIG (enc64 be len v.toUInt64)
  | .u64 v => do
      M.orFail St.BAD_AMQP_DATA (enc8 len Kind.U64)
      M.orFail St.TABLE_TOO_BIG (enc64 be len v)
  | .f32 v => do
      M.orFail St.BAD_AMQP_DATA (enc8 len Kind.F32)
      M.orFail St.TABLE_TOO_BIG (enc32 be len v)
  | .f64 v => do
      M.orFail St.BAD_AMQP_DATA (enc8 len Kind.F64)
      M.orFail St.TABLE_TOO_BIG (enc64 be len v)
  | .decimal d v => do                                                         -- 394-400
      M.orFail St.BAD_AMQP_DATA (enc8 len Kind.DECIMAL)
      M.orFail St.TABLE_TOO_BIG (enc8 len d)
      M.orFail St.TABLE_TOO_BIG (enc32 be len v)
  | .utf8 b => do                                                              -- 402-412
      M.orFail St.BAD_AMQP_DATA (enc8 len Kind.UTF8)
      M.orFail St.TABLE_TOO_BIG (enc32 be len (UInt32.ofNat b.length))
      M.orFail St.TABLE_TOO_BIG (encBytes len b)
  | .bytes b => do
      M.orFail St.BAD_AMQP_DATA (enc8 len Kind.BYTES)
      M.orFail St.TABLE_TOO_BIG (enc32 be len (UInt32.ofNat b.length))
      M.orFail St.TABLE_TOO_BIG (encBytes len b)
  | .array vs => do                                                            -- 414-416
      M.orFail St.BAD_AMQP_DATA (enc8 len Kind.ARRAY)
      encArrayWith be len (encFVs be len vs)
  | .timestamp v => do
      M.orFail St.BAD_AMQP_DATA (enc8 len Kind.TIMESTAMP)
      M.orFail St.TABLE_TOO_BIG (enc64 be len v)
  | .table es => do                                                            -- 421-423
      M.orFail St.BAD_AMQP_DATA (enc8 len Kind.TABLE)
      encTableWith be len (encEntries be len es)
  | .void => do                                                                -- 425-426
      M.orFail St.BAD_AMQP_DATA (enc8 len Kind.VOID)
  | .other k => do                                                             -- 428-430
      M.orFail St.BAD_AMQP_DATA (enc8 len k)
      M.fail St.INVALID_PARAMETER

/-- The element loop of amqp_encode_array, amqp_table.c:292-297. -/
def encFVs (be : Bool) (len : Nat) : List FV → M EState Unit
  | [] => pure ()
  | v :: vs => do
      encFV be len v
      encFVs be len vs

/-- One iteration of the loop of amqp_encode_table, amqp_table.c:319-333; note the cast `(uint8_t)key.len`. -/
def encEntry (be : Bool) (len : Nat) : Entry → M EState Unit
  | .mk key value => do
      M.orFail St.TABLE_TOO_BIG (enc8 len (UInt8.ofNat key.length))
      M.orFail St.TABLE_TOO_BIG (encBytes len key)
      encFV be len value

/-- The entry loop of amqp_encode_table, amqp_table.c:318-334. -/
def encEntries (be : Bool) (len : Nat) : List Entry → M EState Unit
  | [] => pure ()
  | e :: es => do
      encEntry be len e
      encEntries be len es
end

/-- amqp_encode_table, amqp_table.c:311-344. -/
def encTable (be : Bool) (len : Nat) (es : Table) : M EState Unit := encTableWith be len (encEntries be len es)

/-! ## Decoding — amqp_table.c:29-283 -/

/-- TABLE_DEPTH_LIMIT, amqp_table.c:18. -/
def TABLE_DEPTH_LIMIT : Nat := 100
/-- INITIAL_ARRAY_SIZE and INITIAL_TABLE_SIZE, amqp_table.c:16-17. -/
def INITIAL_SIZE : Nat := 16
/-- limits.h; the sizes checked against it: amqp_table.c:29-175. -/
def INT_MAX : Nat := 2147483647

/-- The growth step at the head of both decode loops, amqp_table.c:53-64 and 124-135: when the array is full its capacity
(an `int`) is doubled — signed overflow is `ub` — and reallocated. -/
def growCap (E : DEnv) (num allocated : Nat) : M DState Nat := do
  if num ≥ allocated then
    if allocated * 2 > INT_MAX then M.ub
    else
      M.orFail St.NO_MEMORY (allocate E)
      pure (allocated * 2)
  else pure allocated

/-- Growing, and then addressing `entries[num]` (amqp_table.c:53-68 and 124-145): an entry outside the block is `ub`. -/
def growEntries (E : DEnv) (num allocated : Nat) : M DState Nat := do
  let cap ← growCap E num allocated
  if num < cap then pure cap else M.ub

/-- The copy-out at the end of both decoders, amqp_table.c:74-88 and 150-164: a zero-length block is a legitimate NULL. -/
def finishEntries (E : DEnv) (num : Nat) : M DState Unit := do
  if num = 0 then pure ()
  else M.orFail St.NO_MEMORY (allocate E)

mutual
/-- amqp_decode_field_value, amqp_table.c:179-283.  (`fuel` bounds the recursion of the model only.) -/
def decFV (E : DEnv) : Nat → Nat → M DState FV
  | 0, _ => M.outOfFuel
  | fuel + 1, depth =>
    if depth > TABLE_DEPTH_LIMIT then M.fail St.BAD_AMQP_DATA                  -- 184-186
    else do
      let kind ← M.orFailVal St.BAD_AMQP_DATA (dec8 E)                         -- 188-190
      if kind = Kind.BOOLEAN then do
        let v ← M.orFailVal St.BAD_AMQP_DATA (dec8 E)
        pure (.boolean (if v ≠ 0 then 1 else 0))
      else if kind = Kind.I8 then do
        let v ← M.orFailVal St.BAD_AMQP_DATA (dec8 E)
        pure (.i8 v.toInt8)
      else if kind = Kind.U8 then do
        let v ← M.orFailVal St.BAD_AMQP_DATA (dec8 E)
        pure (.u8 v)
      else if kind = Kind.I16 then do
        let v ← M.orFailVal St.BAD_AMQP_DATA (dec16 E)
        pure (.i16 v.toInt16)
      else if kind = Kind.U16 then do
        let v ← M.orFailVal St.BAD_AMQP_DATA (dec16 E)
        pure (.u16 v)
      else if kind = Kind.I32 then do
        let v ← M.orFailVal St.BAD_AMQP_DATA (dec32 E)
        pure (.i32 v.toInt32)
      else if kind = Kind.U32 then do
        let v ← M.orFailVal St.BAD_AMQP_DATA (dec32 E)
        pure (.u32 v)
      else if kind = Kind.I64 then do
        let v ← M.orFailVal St.BAD_AMQP_DATA (dec64 E)
        pure (.i64 v.toInt64)
      else if kind = Kind.U64 then do
        let v ← M.orFailVal St.BAD_AMQP_DATA (dec64 E)
        pure (.u64 v)
      else if kind = Kind.F32 then do
        let v ← M.orFailVal St.BAD_AMQP_DATA (dec32 E)
        pure (.f32 v)
      else if kind = Kind.F64 then do
        let v ← M.orFailVal St.BAD_AMQP_DATA (dec64 E)
        pure (.f64 v)
      else if kind = Kind.DECIMAL then do
        let d ← M.orFailVal St.BAD_AMQP_DATA (dec8 E)
        let v ← M.orFailVal St.BAD_AMQP_DATA (dec32 E)
        pure (.decimal d v)
      else if kind = Kind.UTF8 then do
        let n ← M.orFailVal St.BAD_AMQP_DATA (dec32 E)
        let b ← M.orFailVal St.BAD_AMQP_DATA (decBytes E n.toNat)
        pure (.utf8 b)
      else if kind = Kind.BYTES then do
        let n ← M.orFailVal St.BAD_AMQP_DATA (dec32 E)
        let b ← M.orFailVal St.BAD_AMQP_DATA (decBytes E n.toNat)
        pure (.bytes b)
      else if kind = Kind.ARRAY then do
        let vs ← decArray E fuel (depth + 1)
        pure (.array vs)
      else if kind = Kind.TIMESTAMP then do
        let v ← M.orFailVal St.BAD_AMQP_DATA (dec64 E)
        pure (.timestamp v)
      else if kind = Kind.TABLE then do
        let es ← decTable E fuel (depth + 1)
        pure (.table es)
      else if kind = Kind.VOID then pure .void
      else M.fail St.BAD_AMQP_DATA                                             -- 275-276

/-- amqp_decode_array, amqp_table.c:29-94. -/
def decArray (E : DEnv) : Nat → Nat → M DState (List FV)
  | 0, _ => M.outOfFuel
  | fuel + 1, depth => do
    let size ← M.orFailVal St.BAD_AMQP_DATA (dec32 E)                          -- 38-40
    let s ← M.get
    if size.toNat + s.off > E.len then M.fail St.BAD_AMQP_DATA                 -- 42-44
    else do
      M.orFail St.NO_MEMORY (allocate E)                                       -- 46-49
      let limit := s.off + size.toNat
      let vs ← decArrayLoop E fuel depth limit 0 INITIAL_SIZE
      finishEntries E vs.length
      pure vs

/-- The loop of amqp_decode_array, amqp_table.c:52-73: `num` entries so far, capacity `allocated`. -/
def decArrayLoop (E : DEnv) : Nat → Nat → Nat → Nat → Nat → M DState (List FV)
  | 0, _, _, _, _ => M.outOfFuel
  | fuel + 1, depth, limit, num, allocated => do
    let s ← M.get
    if s.off < limit then do
      let allocated ← growEntries E num allocated
      let v ← decFV E fuel depth
      let vs ← decArrayLoop E fuel depth limit (num + 1) allocated
      pure (v :: vs)
    else pure []

/-- amqp_decode_table_internal, amqp_table.c:96-170. -/
def decTable (E : DEnv) : Nat → Nat → M DState (List Entry)
  | 0, _ => M.outOfFuel
  | fuel + 1, depth => do
    let size ← M.orFailVal St.BAD_AMQP_DATA (dec32 E)                          -- 106-108
    let s ← M.get
    if size.toNat + s.off > E.len then M.fail St.BAD_AMQP_DATA                 -- 110-112
    else do
      M.orFail St.NO_MEMORY (allocate E)                                       -- 114-117
      let limit := s.off + size.toNat
      let es ← decTableLoop E fuel depth limit 0 INITIAL_SIZE
      finishEntries E es.length
      pure es

/-- The loop of amqp_decode_table_internal, amqp_table.c:120-148. -/
def decTableLoop (E : DEnv) : Nat → Nat → Nat → Nat → Nat → M DState (List Entry)
  | 0, _, _, _, _ => M.outOfFuel
  | fuel + 1, depth, limit, num, allocated => do
    let s ← M.get
    if s.off < limit then do
      let keylen ← M.orFailVal St.BAD_AMQP_DATA (dec8 E)                       -- 123-126
      let allocated ← growEntries E num allocated                              -- 128-139
      let key ← M.orFailVal St.BAD_AMQP_DATA (decBytes E keylen.toNat)         -- 141-145
      let v ← decFV E fuel depth                                               -- 147-151
      let es ← decTableLoop E fuel depth limit (num + 1) allocated
      pure (.mk key v :: es)
    else pure []
end

/-- Loop bound of the model for a decode starting at offset `off`: every level of recursion and every iteration consumes input
(shown sufficient in `Verif.Proofs.TableDecode`). (No lines of /repo: the recursion and loops of amqp_table.c:29-282.) -/
def decFuel (E : DEnv) (off : Nat) : Nat := 3 * (E.len - off) + 4

/-- amqp_decode_table, amqp_table.c:177-180. -/
def decodeTable (E : DEnv) : M DState Table := fun s => decTable E (decFuel E s.off) 0 s

end Rmq
