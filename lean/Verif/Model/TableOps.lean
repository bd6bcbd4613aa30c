import Verif.Model.Table
/-!
# Operations on tables other than encoding/decoding

amqp_table.c:440-652 (compare, clone, lookup), amqp_mem.c:139-210 (byte strings), amqp_socket.c:1142-1201 (merge).

Cloning is about *storage*, so tables are modelled here with their pointers: `PV`/`PE`/`PTable` are field values, entries and
tables in which every string, array and table carries the memory block it lives in.
-/
namespace Rmq

/-- Truncation of a `size_t` to `int` (two's complement, as gcc/clang define it): the cast `(int)p1->key.len`. (amqp_table.c:440-458.) -/
def castInt (n : Nat) : Int :=
  if n % 2 ^ 32 < 2 ^ 31 then Int.ofNat (n % 2 ^ 32) else Int.ofNat (n % 2 ^ 32) - 2 ^ 32

/-- amqp_table_entry_cmp, amqp_table.c:440-458.  `memcmp` is a parameter: C only promises the sign of its result.
`none` is signed overflow in the final subtraction. -/
def entryCmp (memcmp : Bytes → Bytes → Int) (p1 p2 : Entry) : Option Int :=
  let minlen := if p2.key.length < p1.key.length then p2.key.length else p1.key.length
  let d := memcmp (p1.key.take minlen) (p2.key.take minlen)
  if d ≠ 0 then some d
  else
    let r := castInt p1.key.length - castInt p2.key.length
    if -2 ^ 31 ≤ r ∧ r < 2 ^ 31 then some r else none

/-- amqp_bytes_equal, amqp_mem.c:204-210.  (The pointer-equality shortcut cannot change the answer: equal pointers see
equal bytes.) `memcmp` as above. -/
def bytesEqual (memcmp : Bytes → Bytes → Int) (r l : Bytes) : Bool :=
  r.length == l.length && memcmp r l == 0

/-- amqp_bytes_malloc_dup, amqp_mem.c:142-150: the result's length, and its bytes (`none` = NULL pointer).
`ok` is malloc's answer. -/
def bytesMallocDup (ok : Bool) (src : Bytes) : Nat × Option Bytes :=
  (src.length, if ok then some src else none)

/-- A block handed out by an allocator: which pool it belongs to, its serial number, its size in bytes. (amqp_mem.c:81-157.) -/
structure Blk where
  pool : Nat
  n : Nat
  size : Nat
deriving Repr, DecidableEq

mutual
/-- amqp_field_value_t with its pointers (include/rabbitmq-c/amqp.h:385-413): `none` is the NULL pointer.
A string's bytes/an array's elements/a table's entries are those reachable through the pointer. -/
inductive PV where
  | boolean (v : Int32) | i8 (v : Int8) | u8 (v : UInt8) | i16 (v : Int16) | u16 (v : UInt16)
  | i32 (v : Int32) | u32 (v : UInt32) | i64 (v : Int64) | u64 (v : UInt64)
  | f32 (v : UInt32) | f64 (v : UInt64) | decimal (d : UInt8) (v : UInt32)
  | utf8 (p : Option Blk) (b : Bytes) | bytes (p : Option Blk) (b : Bytes)
  | array (p : Option Blk) (vs : List PV)
  | timestamp (v : UInt64)
  | table (p : Option Blk) (es : List PE)
  | void
  | other (kind : UInt8)
/-- amqp_table_entry_t with its pointers (include/rabbitmq-c/amqp.h:415-419). -/
inductive PE where
  | mk (kp : Option Blk) (key : Bytes) (value : PV)
end

/-- amqp_table_t with its pointer: `entries` and the `num_entries` entries behind it (amqp.h:324-327). -/
structure PTable where
  ptr : Option Blk
  entries : List PE

/-- amqp_table_entry_t, include/rabbitmq-c/amqp.h:415-419. -/
def PE.key : PE → Bytes | .mk _ k _ => k
/-- amqp_table_entry_t, include/rabbitmq-c/amqp.h:415-419. -/
def PE.value : PE → PV | .mk _ _ v => v

/-! The field value / table a stored value denotes (what a reader following the pointers sees). -/
mutual
/-- The value itself, without the memory it occupies (bookkeeping of the model for amqp_table.c:460-652). -/
def PV.erase : PV → FV
  | .boolean v => .boolean v | .i8 v => .i8 v | .u8 v => .u8 v | .i16 v => .i16 v | .u16 v => .u16 v
  | .i32 v => .i32 v | .u32 v => .u32 v | .i64 v => .i64 v | .u64 v => .u64 v
  | .f32 v => .f32 v | .f64 v => .f64 v | .decimal d v => .decimal d v
  | .utf8 _ b => .utf8 b | .bytes _ b => .bytes b
  | .array _ vs => .array (PV.erases vs)
  | .timestamp v => .timestamp v
  | .table _ es => .table (PV.eraseEs es)
  | .void => .void
  | .other k => .other k
/-- The value itself, without the memory it occupies (bookkeeping of the model for amqp_table.c:460-652). -/
def PV.erases : List PV → List FV
  | [] => []
  | v :: vs => v.erase :: PV.erases vs
/-- The value itself, without the memory it occupies (bookkeeping of the model for amqp_table.c:460-652). -/
def PE.erase : PE → Entry
  | .mk _ k v => .mk k v.erase
/-- The value itself, without the memory it occupies (bookkeeping of the model for amqp_table.c:460-652). -/
def PV.eraseEs : List PE → List Entry
  | [] => []
  | e :: es => e.erase :: PV.eraseEs es
end
/-- The value itself, without the memory it occupies (bookkeeping of the model for amqp_table.c:460-652). -/
def PTable.erase (t : PTable) : Table := PV.eraseEs t.entries

/-- State of a computation that allocates: number of requests so far (also the serial number of the next block). (amqp_mem.c:81-157, malloc.) -/
structure AState where
  allocs : Nat := 0
deriving Repr, DecidableEq

/-- amqp_pool_alloc as seen by its callers (amqp_mem.c:86-133): a zero-size request yields NULL; otherwise the allocator
decides. -/
def poolAlloc (alloc : Nat → Bool) (pool amount : Nat) : M AState (Option Blk) := fun s =>
  if amount = 0 then .ok none s
  else if alloc s.allocs then .ok (some ⟨pool, s.allocs, amount⟩) ⟨s.allocs + 1⟩
  else .ok none ⟨s.allocs + 1⟩

/-- sizeof(amqp_field_value_t) and sizeof(amqp_table_entry_t) on an LP64 machine (amqp.h:385-419). -/
def SIZEOF_FV : Nat := 24
/-- sizeof(amqp_table_entry_t), include/rabbitmq-c/amqp.h:415-419, on 64 bits. -/
def SIZEOF_ENTRY : Nat := 40

/-- `memcpy(dst, src, len)` into a block: writing past the end of the block is `ub`. (amqp_mem.c:142-150; amqp_table.c:460-565.) -/
def fillBlock (b : Blk) (len : Nat) : M AState Unit := fun s => if len ≤ b.size then .ok () s else .ub

/-- `amqp_pool_alloc_bytes(pool, len, &out); if (NULL == out.bytes) return NO_MEMORY; memcpy(out.bytes, src, len);`
(amqp_mem.c:129-133 with amqp_table.c:521-528 and 574-579). -/
def dupBytes (alloc : Nat → Bool) (pool : Nat) (src : Bytes) : M AState Blk := do
  let b ← M.orFailVal St.NO_MEMORY (poolAlloc alloc pool src.length)
  fillBlock b src.length
  pure b

mutual
/-- amqp_field_value_clone, amqp_table.c:460-565. -/
def cloneFV (alloc : Nat → Bool) (pool : Nat) : PV → M AState PV
  | .utf8 _ b =>                                                   -- 517-530
      if b.length = 0 then pure (.utf8 none [])
      else do let p ← dupBytes alloc pool b; pure (.utf8 (some p) b)
  | .bytes _ b =>
      if b.length = 0 then pure (.bytes none [])
      else do let p ← dupBytes alloc pool b; pure (.bytes (some p) b)
  | .array none _ => pure (.array none [])                         -- 533-534
  | .array (some _) vs => do                                       -- 535-549
      let p ← M.orFailVal St.NO_MEMORY (poolAlloc alloc pool (vs.length * SIZEOF_FV))
      fillBlock p (vs.length * SIZEOF_FV)
      let vs' ← cloneFVs alloc pool vs
      pure (.array (some p) vs')
  | .table _ es =>                                                 -- 552-554, calls amqp_table_clone (584-613)
      if es.length = 0 then pure (.table none [])
      else do
        let p ← M.orFailVal St.NO_MEMORY (poolAlloc alloc pool (es.length * SIZEOF_ENTRY))
        fillBlock p (es.length * SIZEOF_ENTRY)
        let es' ← cloneEntries alloc pool es
        pure (.table (some p) es')
  | .other _ => M.fail St.INVALID_PARAMETER                        -- 559-560
  | v => pure v                                                    -- scalars, 469-515, 556-557
/-- The array loop, amqp_table.c:542-548. -/
def cloneFVs (alloc : Nat → Bool) (pool : Nat) : List PV → M AState (List PV)
  | [] => pure []
  | v :: vs => do
      let v' ← cloneFV alloc pool v
      let vs' ← cloneFVs alloc pool vs
      pure (v' :: vs')
/-- amqp_table_entry_clone, amqp_table.c:567-582. -/
def cloneEntry (alloc : Nat → Bool) (pool : Nat) : PE → M AState PE
  | .mk _ k v =>
      if k.length = 0 then M.fail St.INVALID_PARAMETER
      else do
        let kp ← dupBytes alloc pool k
        let v' ← cloneFV alloc pool v
        pure (.mk (some kp) k v')
/-- The entry loop of amqp_table_clone, amqp_table.c:601-608. -/
def cloneEntries (alloc : Nat → Bool) (pool : Nat) : List PE → M AState (List PE)
  | [] => pure []
  | e :: es => do
      let e' ← cloneEntry alloc pool e
      let es' ← cloneEntries alloc pool es
      pure (e' :: es')
end

/-- amqp_table_clone, amqp_table.c:584-613. -/
def cloneTable (alloc : Nat → Bool) (pool : Nat) (t : PTable) : M AState PTable :=
  if t.entries.length = 0 then pure ⟨none, []⟩
  else do
    let p ← M.orFailVal St.NO_MEMORY (poolAlloc alloc pool (t.entries.length * SIZEOF_ENTRY))
    fillBlock p (t.entries.length * SIZEOF_ENTRY)
    let es' ← cloneEntries alloc pool t.entries
    pure ⟨some p, es'⟩

/-- amqp_table_get_entry_by_key, amqp_table.c:642-652 over the keys of the entries: the index of the entry returned,
or `none` for NULL. -/
def getEntryByKey (memcmp : Bytes → Bytes → Int) (keys : List Bytes) (key : Bytes) : Option Nat :=
  match keys with
  | [] => none
  | k :: ks => if bytesEqual memcmp k key then some 0 else (getEntryByKey memcmp ks key).map (· + 1)

/-- `kind == AMQP_FIELD_KIND_TABLE`. (AMQP_FIELD_KIND_TABLE, include/rabbitmq-c/amqp.h; amqp_socket.c:1147-1201.) -/
def PV.isTable : PV → Bool
  | .table _ _ => true
  | _ => false

mutual
/-- The recursive call `amqp_merge_capabilities(&be->value.value.table, &add->entries[i].value.value.table,
&e->value.value.table, &temp_pool)`, amqp_socket.c:1181-1183, i.e. lines 1162-1200 with `base := bs`, `add := ` the table in
the given value and `pool :=` the caller's `temp_pool`.  The callee's own `temp_pool` is numbered `pool + 1`. -/
def mergeNested (memcmp : Bytes → Bytes → Int) (alloc : Nat → Bool) :
    PV → (pool : Nat) → (bs : List PE) → M AState PTable
  | .table _ ts, pool, bs => do
      let p ← M.orFailVal St.NO_MEMORY (poolAlloc alloc (pool + 1) (SIZEOF_ENTRY * (bs.length + ts.length)))
      let merged ← mergeLoop memcmp alloc ts (pool + 1) p.size bs bs
      cloneTable alloc pool ⟨some p, merged⟩
  | _, _, _ => M.ub
/-- One iteration of the merge loop, amqp_socket.c:1175-1195; `temp` is `temp_result`, living in a block of `cap` bytes.
A NULL `be`, or a `be` whose union does not hold a table, is `ub` when its `table` member is used. `tpool` is `temp_pool`. -/
def mergeEntry (memcmp : Bytes → Bytes → Int) (alloc : Nat → Bool) :
    PE → (tpool cap : Nat) → (base temp : List PE) → M AState (List PE)
  | .mk kp k v, tpool, cap, base, temp =>
    match getEntryByKey memcmp (temp.map PE.key) k with
    | none =>                                                          -- 1191-1194
      if SIZEOF_ENTRY * (temp.length + 1) ≤ cap then pure (temp ++ [.mk kp k v]) else M.ub
    | some i =>
      match temp[i]? with
      | none => M.ub
      | some (.mk ekp ek ev) =>
        if v.isTable && ev.isTable then                                -- 1177-1178
          match getEntryByKey memcmp (base.map PE.key) k with          -- 1179-1180
          | none => M.ub
          | some j =>
            match base[j]? with
            | some (.mk _ _ (.table _ bs)) => do                       -- 1182-1187
                let r ← mergeNested memcmp alloc v tpool bs
                pure (temp.set i (.mk ekp ek (.table r.ptr r.entries)))
            | _ => M.ub
        else pure (temp.set i (.mk ekp ek v))                          -- 1188-1190
/-- The merge loop, amqp_socket.c:1174-1196, over the remaining `add` entries. -/
def mergeLoop (memcmp : Bytes → Bytes → Int) (alloc : Nat → Bool) :
    (add : List PE) → (tpool cap : Nat) → (base temp : List PE) → M AState (List PE)
  | [], _, _, _, temp => pure temp
  | e :: rest, tpool, cap, base, temp => do
      let temp' ← mergeEntry memcmp alloc e tpool cap base temp
      mergeLoop memcmp alloc rest tpool cap base temp'
end

/-- amqp_merge_capabilities, amqp_socket.c:1147-1201.  `add = none` is a NULL `add`.  Simplification: entry counts are
unbounded (the `int` addition `base->num_entries + add->num_entries` does not wrap), and copying the base entries into the
block (1170-1173) is folded into starting the loop with `temp := base`. -/
def mergeCapabilities (memcmp : Bytes → Bytes → Int) (alloc : Nat → Bool) (pool : Nat) (base : PTable)
    (add : Option PTable) : M AState PTable :=
  match add with
  | none => cloneTable alloc pool base
  | some add => mergeNested memcmp alloc (.table add.ptr add.entries) pool base.entries

end Rmq
