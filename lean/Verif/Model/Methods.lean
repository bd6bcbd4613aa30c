import Verif.Model.MethodTable
/-!
# The generated (de)serialisers — librabbitmq/amqp_framing.c:102-2450

The C code is one `switch` per function; each `case` is a straight line of a few statement shapes.  `MethodTable.lean` lists
the shapes of every `case`; here each shape gets its meaning.  A field that is absent from the record, or has another type,
stands for reading another struct through the `void *` (undefined behaviour).

Simplification: `return (int)offset` is a `Nat` (the C cast only loses information for buffers beyond 2 GiB).
-/
namespace Rmq

/-- `table.find` on a `switch` with distinct labels. (The switch statements of the generated librabbitmq/amqp_framing.c, codegen.py:244-484.) -/
def switch {κ α : Type} [DecidableEq κ] (k : κ) (cases : List (κ × α)) : Option α :=
  (cases.find? (fun p => p.1 = k)).map (·.2)

/-- amqp_method_name, amqp_framing.c:102-239 (`none` is the NULL of `default:`). -/
def methodName (id : UInt32) : Option String := switch id nameTable
/-- amqp_method_has_content, amqp_framing.c:241-254. -/
def methodHasContent (id : UInt32) : Bool := contentTable.contains id

/-- One encoded field; statement shapes of amqp_encode_method, e.g. amqp_framing.c:1622-1625 (integers), 1626-1629 (table),
1630-1633 (long string: `UINT32_MAX < len || …`), 1646-1649 (short string: `UINT8_MAX < len || …`). -/
def encField (be : Bool) (len : Nat) (t : FT) (v : Option Val) : M EState Unit :=
  match t, v with
  | .octet, some (.u8 x) => M.orFail St.BAD_AMQP_DATA (enc8 len x)
  | .short, some (.u16 x) => M.orFail St.BAD_AMQP_DATA (enc16 be len x)
  | .long, some (.u32 x) => M.orFail St.BAD_AMQP_DATA (enc32 be len x)
  | .longlong, some (.u64 x) => M.orFail St.BAD_AMQP_DATA (enc64 be len x)
  | .shortstr, some (.bytes b) =>
    if 255 < b.length then M.fail St.BAD_AMQP_DATA else do
      M.orFail St.BAD_AMQP_DATA (enc8 len (UInt8.ofNat b.length))
      M.orFail St.BAD_AMQP_DATA (encBytes len b)
  | .longstr, some (.bytes b) =>
    if 4294967295 < b.length then M.fail St.BAD_AMQP_DATA else do
      M.orFail St.BAD_AMQP_DATA (enc32 be len (UInt32.ofNat b.length))
      M.orFail St.BAD_AMQP_DATA (encBytes len b)
  | .table, some (.table es) => encTable be len es
  | _, _ => M.ub

/-- `bit_buffer = 0; if (m->f) bit_buffer |= (1 << k); …`, e.g. amqp_framing.c:1693-1694. -/
def bitBuffer (r : Rec) : List (Fld × Nat) → UInt8 → Option UInt8
  | [], acc => some acc
  | (f, k) :: bs, acc =>
    match r.get? f with
    | some (.bool v) => bitBuffer r bs (if v ≠ 0 then acc ||| UInt8.ofNat (1 <<< k) else acc)
    | _ => none

/-- One statement group of a `case` of amqp_encode_method. (Generated by codegen.py:25-172, 244-484 into amqp_framing.c.) -/
def encOp (be : Bool) (len : Nat) (r : Rec) : Op → M EState Unit
  | .field t f => encField be len t (r.get? f)
  | .bits bs =>
    match bitBuffer r bs 0 with
    | some b => M.orFail St.BAD_AMQP_DATA (enc8 len b)
    | none => M.ub

/-- The statements of a `case`, in order. (Generated by codegen.py:25-172, 244-484 into amqp_framing.c.) -/
def encOps (be : Bool) (len : Nat) (r : Rec) : List Op → M EState Unit
  | [] => pure ()
  | o :: os => do
    encOp be len r o
    encOps be len r os

/-- amqp_encode_method, amqp_framing.c:1614-2321, writing to `mem` (claimed length `len`) from offset 0; the value is the
number of bytes written. -/
def encMethod (be : Bool) (mem : Bytes) (len : Nat) (id : UInt32) (r : Rec) : Res EState Nat :=
  match switch id encTableOps with
  | none => .err St.UNKNOWN_METHOD ⟨mem, 0⟩
  | some ops =>
    match encOps be len r ops ⟨mem, 0⟩ with
    | .ok () s => .ok s.off s
    | .err e s => .err e s
    | .ub => .ub
    | .fuel => .fuel

/-- One decoded field; statement shapes of amqp_decode_method, e.g. amqp_framing.c:268-271 (integers), 272-276 (table),
277-282 (long string), 306-311 (short string). -/
def decField (E : DEnv) : FT → M DState Val
  | .octet => do
    let x ← M.orFailVal St.BAD_AMQP_DATA (dec8 E)
    pure (.u8 x)
  | .short => do
    let x ← M.orFailVal St.BAD_AMQP_DATA (dec16 E)
    pure (.u16 x)
  | .long => do
    let x ← M.orFailVal St.BAD_AMQP_DATA (dec32 E)
    pure (.u32 x)
  | .longlong => do
    let x ← M.orFailVal St.BAD_AMQP_DATA (dec64 E)
    pure (.u64 x)
  | .shortstr => do
    let n ← M.orFailVal St.BAD_AMQP_DATA (dec8 E)
    let b ← M.orFailVal St.BAD_AMQP_DATA (decBytes E n.toNat)
    pure (.bytes b)
  | .longstr => do
    let n ← M.orFailVal St.BAD_AMQP_DATA (dec32 E)
    let b ← M.orFailVal St.BAD_AMQP_DATA (decBytes E n.toNat)
    pure (.bytes b)
  | .table => do
    let t ← decodeTable E
    pure (.table t)

/-- `m->f = (bit_buffer & (1 << k)) ? 1 : 0;`, e.g. amqp_framing.c:405. -/
def unpackBit (b : UInt8) (p : Fld × Nat) : Fld × Val :=
  (p.1, .bool (if b &&& UInt8.ofNat (1 <<< p.2) ≠ 0 then 1 else 0))

/-- One statement group of a `case` of amqp_decode_method: the fields it assigns. (Generated by codegen.py:25-172, 244-484 into amqp_framing.c.) -/
def decOp (E : DEnv) : Op → M DState Rec
  | .field t f => do
    let v ← decField E t
    pure [(f, v)]
  | .bits bs => do
    let b ← M.orFailVal St.BAD_AMQP_DATA (dec8 E)
    pure (bs.map (unpackBit b))

/-- The statements of a `case`, in order. (Generated by codegen.py:25-172, 244-484 into amqp_framing.c.) -/
def decOps (E : DEnv) : List Op → M DState Rec
  | [] => pure []
  | o :: os => do
    let a ← decOp E o
    let b ← decOps E os
    pure (a ++ b)

/-- amqp_decode_method, amqp_framing.c:256-1409: allocate the struct, fill it from offset 0.  (The final offset is local to
the C function and dropped there; the model keeps it in the state.) -/
def decMethod (E : DEnv) (id : UInt32) (allocs : Nat) : Res DState Rec :=
  match switch id decTableOps with
  | none => .err St.UNKNOWN_METHOD ⟨0, allocs⟩
  | some ops =>
    (do
      M.orFail St.NO_MEMORY (allocate E)
      decOps E ops : M DState Rec) ⟨0, allocs⟩

/-! ## Content properties -/

/-- The flag-word loop of amqp_encode_properties, amqp_framing.c:2331-2345: a 32-bit flag set needs at most two words, so the
loop is unrolled on the number of words still to write. -/
def encFlags (be : Bool) (len : Nat) : Nat → UInt32 → M EState Unit
  | 0, _ => M.outOfFuel
  | fuel + 1, remaining => do
    let remainder := remaining >>> 16
    let partialFlags : UInt16 := (remaining &&& 0xFFFE).toUInt16
    let partialFlags := if remainder ≠ 0 then partialFlags ||| 1 else partialFlags
    M.orFail St.BAD_AMQP_DATA (enc16 be len partialFlags)
    if remainder ≠ 0 then encFlags be len fuel remainder else pure ()

/-- `if (flags & X_FLAG) { … }`, e.g. amqp_framing.c:2365-2370. -/
def encProp (be : Bool) (len : Nat) (flags : UInt32) (bit : Nat) (t : FT) (v : Option Val) : M EState Unit :=
  if flags &&& UInt32.ofNat (1 <<< bit) ≠ 0 then encField be len t v else pure ()

/-- Each property in turn, amqp_framing.c:2365-2442. -/
def encProps (be : Bool) (len : Nat) (flags : UInt32) (r : Rec) : List (Nat × FT × Fld) → M EState Unit
  | [] => pure ()
  | (bit, t, f) :: ps => do
    encProp be len flags bit t (r.get? f)
    encProps be len flags r ps

/-- amqp_encode_properties, amqp_framing.c:2323-2450; the struct is its `_flags` and its fields. -/
def encProperties (be : Bool) (mem : Bytes) (len : Nat) (classId : UInt16) (flags : UInt32) (r : Rec) : Res EState Nat :=
  match encFlags be len 3 flags ⟨mem, 0⟩ with
  | .ok () s =>
    match switch classId encPropTable with
    | none => .err St.UNKNOWN_CLASS s
    | some ps =>
      match encProps be len flags r ps s with
      | .ok () s => .ok s.off s
      | .err e s => .err e s
      | .ub => .ub
      | .fuel => .fuel
  | .err e s => .err e s
  | .ub => .ub
  | .fuel => .fuel

/-- The flag-word loop of amqp_decode_properties, amqp_framing.c:1419-1424.  `partial_flags` is promoted to `int` before the
shift: shifting by 32 or more, or shifting a word with bit 15 set by 16 (the result exceeds INT_MAX), is undefined.  The third
iteration (index 2) always ends the model's run, so 3 iterations suffice. -/
def decFlags (E : DEnv) : Nat → Nat → UInt32 → M DState UInt32
  | 0, _, _ => M.outOfFuel
  | fuel + 1, idx, flags => do
    let w ← M.orFailVal St.BAD_AMQP_DATA (dec16 E)
    if idx * 16 ≥ 32 then M.ub
    else if w.toNat * 2 ^ (idx * 16) > INT_MAX then M.ub
    else do
      let flags := flags ||| (w.toUInt32 <<< UInt32.ofNat (idx * 16))
      if w &&& 1 ≠ 0 then decFlags E fuel (idx + 1) flags else pure flags

/-- `if (flags & X_FLAG) { … }` for each property in turn, amqp_framing.c:1489-1583. -/
def decProps (E : DEnv) (flags : UInt32) : List (Nat × FT × Fld) → M DState Rec
  | [] => pure []
  | (bit, t, f) :: ps =>
    if flags &&& UInt32.ofNat (1 <<< bit) ≠ 0 then do
      let v ← decField E t
      let rest ← decProps E flags ps
      pure ((f, v) :: rest)
    else decProps E flags ps

/-- amqp_decode_properties, amqp_framing.c:1411-1612: the `_flags` and the fields that were assigned (the others stay as the
allocator left them). -/
def decProperties (E : DEnv) (classId : UInt16) (allocs : Nat) : Res DState (UInt32 × Rec) :=
  (do
    let flags ← decFlags E 3 0 0
    match switch classId decPropTable with
    | none => M.fail St.UNKNOWN_CLASS
    | some ps => do
      M.orFail St.NO_MEMORY (allocate E)
      let r ← decProps E flags ps
      pure (flags, r) : M DState (UInt32 × Rec)) ⟨0, allocs⟩

end Rmq
