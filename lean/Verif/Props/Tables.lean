import Verif.Proofs.TableDeep
import Verif.Proofs.Spelling
import Verif.Proofs.MergeAny
import Verif.Proofs.FVEq
/-!
# Properties C01–C09, C59, C67: field tables, wire integers, cloning, ordering, lookup, merging, byte strings
-/
namespace Rmq

/-! ## A non-trivial sample used to show hypotheses are satisfiable -/

/-- A table with a scalar, a string, a nested table and a nested array. -/
def sampleTable : Table :=
  [.mk [97] (.i32 (-5)), .mk [98, 99] (.utf8 [104, 105]),
   .mk [100] (.table [.mk [101] (.boolean 1), .mk [102] (.array [.u8 7, .void])]),
   .mk [] (.decimal 2 1234)]

/-! ## C01 -/

/-- C01: whatever `amqp_encode_table` wrote, `amqp_decode_table` reads back: an equal table, ending at the same offset.
The decoder may run on a host of the other endianness (`be'`) and see any length up to which the buffer is valid. -/
theorem C01_table_round_trip (be be' : Bool) (t : Table) (hr : representableTable t)
    (hn : nestingEs t ≤ 101) (len : Nat) (s s' : EState) (hlen : len ≤ s.mem.length)
    (henc : encTable be len t s = .ok () s')
    (alloc : Nat → Bool) (hA : ∀ n, alloc n = true) (len' : Nat) (h1 : s'.off ≤ len') (h2 : len' ≤ s'.mem.length)
    (h3 : len' ≤ 2 ^ 30) (k : Nat) :
    ∃ c, decodeTable ⟨s'.mem, len', be', alloc⟩ ⟨s.off, k⟩ = .ok t ⟨s'.off, c⟩ := by
  have hE := encTable_encodes be len t s hlen
  by_cases hv : kindsOKEs t ∧ s.off + (serTable t).length ≤ len
  · have := hE.1 hv.1 hv.2
    rw [henc] at this
    cases this
    refine decodeTable_ser ⟨_, len', be', alloc⟩ ⟨h2, h3, hA⟩ t hr hn ⟨s.off, k⟩ ?_ h1
    dsimp only
    rw [splice_drop (by omega)]
    exact List.prefix_append _ _
  · have : ¬ kindsOKEs t ∨ len < s.off + (serTable t).length := by
      by_cases h : kindsOKEs t
      · exact Or.inr (by have : ¬ (s.off + (serTable t).length ≤ len) := fun hc => hv ⟨h, hc⟩
                         omega)
      · exact Or.inl h
    rcases hE.2 this with ⟨e, s'', h, _⟩ | ⟨h, _⟩
    · rw [henc] at h; cases h
    · exact absurd h (serTable_ne t)

example : representableTable sampleTable ∧ nestingEs sampleTable ≤ 101 := by
  refine ⟨⟨by decide +kernel, ?_⟩, by decide +kernel⟩
  simp [sampleTable, representableEs, representableE, representable, representables, serEntries, serEntry, serFV, serFVs,
    serShort, serLong, beBytes]
example : ((encTable false 80 sampleTable ⟨List.replicate 80 0, 3⟩).state?).map EState.off = some 52 ∧
    (encTable false 80 sampleTable ⟨List.replicate 80 0, 3⟩).val? = some () := by decide +kernel

/-! ## C02 -/

/-- C02: decoding arbitrary bytes (any buffer up to 1 GiB, any starting offset in it, any allocator behaviour) neither reads
out of bounds nor runs forever (`ub`, `fuel`), fails only with BAD_AMQP_DATA or NO_MEMORY, and on success has advanced at least
past the length field and stayed within the buffer. -/
theorem C02_decode_table_safe (E : DEnv) (hmem : E.len ≤ E.mem.length) (hsize : E.len ≤ 2 ^ 30) (s : DState)
    (hs : s.off ≤ E.len) :
    (∃ t s', decodeTable E s = .ok t s' ∧ s.off + 4 ≤ s'.off ∧ s'.off ≤ E.len) ∨
    (∃ e s', decodeTable E s = .err e s' ∧ (e = St.BAD_AMQP_DATA ∨ e = St.NO_MEMORY)) := by
  have h := decodeTable_safe E hmem hsize s hs
  cases hr : decodeTable E s with
  | ok t s' => rw [hr] at h; exact Or.inl ⟨t, s', rfl, h⟩
  | err e s' => rw [hr] at h; exact Or.inr ⟨e, s', rfl, h⟩
  | ub => rw [hr] at h; exact absurd h id
  | fuel => rw [hr] at h; exact absurd h id

example : (decodeTable ⟨[0, 0, 0, 9, 1, 97, 65, 0, 0, 0, 200, 0, 0], 13, false, fun _ => true⟩ ⟨0, 0⟩).errCode? =
    some St.BAD_AMQP_DATA := by decide +kernel

/-! ## C03 -/

/-- C03: `amqp_encode_table` on a table of known kinds succeeds exactly when the table's serialisation fits between the
offset and the claimed end of the buffer, and then the buffer is the old one with exactly that serialisation written there. -/
theorem C03_encode_table_exact (be : Bool) (len : Nat) (t : Table) (s : EState) (hlen : len ≤ s.mem.length)
    (hk : kindsOKEs t) :
    (s.off + (serTable t).length ≤ len →
      encTable be len t s = .ok () ⟨s.mem.take s.off ++ serTable t ++ s.mem.drop (s.off + (serTable t).length),
        s.off + (serTable t).length⟩) ∧
    (len < s.off + (serTable t).length → ∃ e s', encTable be len t s = .err e s') := by
  refine ⟨fun h => (encTable_encodes be len t s hlen).1 hk h, fun h => ?_⟩
  rcases (encTable_encodes be len t s hlen).2 (Or.inr h) with ⟨e, s', h1, _⟩ | ⟨h', _⟩
  · exact ⟨e, s', h1⟩
  · exact absurd h' (serTable_ne t)

/-- C03: whatever the table (even with unknown kinds) and the buffer, nothing outside the window between the offset and the
claimed end is modified, the encoder never leaves the buffer, and errors are TABLE_TOO_BIG, BAD_AMQP_DATA or
INVALID_PARAMETER. -/
theorem C03_encode_table_in_bounds (be : Bool) (len : Nat) (t : Table) (s : EState) (hlen : len ≤ s.mem.length) :
    ∃ s', (encTable be len t s = .ok () s' ∨
        ∃ e, encTable be len t s = .err e s' ∧
          (e = St.TABLE_TOO_BIG ∨ e = St.BAD_AMQP_DATA ∨ e = St.INVALID_PARAMETER)) ∧
      s'.mem.length = s.mem.length ∧ ∀ i, (i < s.off ∨ len ≤ i) → s'.mem[i]? = s.mem[i]? := by
  have hE := encTable_encodes be len t s hlen
  by_cases hv : kindsOKEs t ∧ s.off + (serTable t).length ≤ len
  · exact ⟨_, Or.inl (hE.1 hv.1 hv.2), (Frame.splice hlen hv.2 (o := 0)).1, (Frame.splice hlen hv.2 (o := 0)).2⟩
  · have : ¬ kindsOKEs t ∨ len < s.off + (serTable t).length := by
      by_cases h : kindsOKEs t
      · exact Or.inr (by have : ¬ (s.off + (serTable t).length ≤ len) := fun hc => hv ⟨h, hc⟩
                         omega)
      · exact Or.inl h
    rcases hE.2 this with ⟨e, s', h, h', hf⟩ | ⟨h, _⟩
    · exact ⟨s', Or.inr ⟨e, h, h'⟩, hf⟩
    · exact absurd h (serTable_ne t)

example : kindsOKEs sampleTable := by simp [sampleTable, kindsOKEs, kindsOKE, kindsOK, kindsOKs]
example : (serTable sampleTable).length = 49 := by decide +kernel
/-- One byte short: refused, and the byte after the claimed end is untouched. -/
example : (encTable true 48 sampleTable ⟨List.replicate 60 7, 0⟩).errCode? = some St.TABLE_TOO_BIG ∧
    (encTable true 48 sampleTable ⟨List.replicate 60 7, 0⟩).state?.map (·.mem[48]?) = some (some 7) := by decide +kernel

/-! ## C04 -/

/-- C04 (acceptance): a well-formed table nested at most 101 levels of containers below the outermost one decodes. -/
theorem C04_within_limit_accepted (E : DEnv) (hG : E.Good) (t : Table) (hr : representableTable t)
    (hn : nestingEs t ≤ 101) (s : DState) (hp : serTable t <+: E.mem.drop s.off)
    (hl : s.off + (serTable t).length ≤ E.len) :
    ∃ c, decodeTable E s = .ok t ⟨s.off + (serTable t).length, c⟩ := decodeTable_ser E hG t hr hn s hp hl

/-- C04 (rejection): any deeper table is refused as malformed, however many entries it has. -/
theorem C04_beyond_limit_rejected (E : DEnv) (hG : E.Good) (t : Table) (hr : representableTable t)
    (hn : 101 < nestingEs t) (s : DState) (hp : serTable t <+: E.mem.drop s.off)
    (hl : s.off + (serTable t).length ≤ E.len) :
    ∃ s', decodeTable E s = .err St.BAD_AMQP_DATA s' := decodeTable_deep E hG t hr hn s hp hl

/-- C04 (any bytes): whatever the input, a table that decodes is not nested deeper than the limit. -/
theorem C04_decoded_depth_bounded (E : DEnv) (s s' : DState) (t : Table) (h : decodeTable E s = .ok t s') :
    nestingEs t ≤ 101 := decodeTable_nesting E s s' t h

/-- `n` tables nested in one another. -/
def nestedTable : Nat → Table
  | 0 => [.mk [97] .void]
  | n + 1 => [.mk [97] (.table (nestedTable n))]
example : nestingEs (nestedTable 100) = 101 ∧ nestingEs (nestedTable 101) = 102 := by decide +kernel
example : (decodeTable ⟨serTable (nestedTable 100), (serTable (nestedTable 100)).length, false, fun _ => true⟩ ⟨0, 0⟩).val? =
    some (nestedTable 100) := by decide +kernel
example : (decodeTable ⟨serTable (nestedTable 101), (serTable (nestedTable 101)).length, false, fun _ => true⟩
    ⟨0, 0⟩).errCode? = some St.BAD_AMQP_DATA := by decide +kernel

/-! ## C05 -/

/-- C05 (sending): on hosts of either endianness (`be`), the bytes produced for an integer are its big-endian digits. -/
theorem C05_encoders_big_endian (be : Bool) :
    (∀ v : UInt8, e8 v = beBytes 1 v.toNat) ∧ (∀ v : UInt16, e16 be v = beBytes 2 v.toNat) ∧
    (∀ v : UInt32, e32 be v = beBytes 4 v.toNat) ∧ (∀ v : UInt64, e64 be v = beBytes 8 v.toNat) :=
  ⟨e8_eq, e16_eq be, e32_eq be, e64_eq be⟩

/-- C05 (receiving): on hosts of either endianness, bytes are read as a big-endian number. -/
theorem C05_decoders_big_endian (be : Bool) (bs : Bytes) :
    (bs.length = 1 → d8 bs = some (UInt8.ofNat (beVal bs))) ∧ (bs.length = 2 → d16 be bs = some (UInt16.ofNat (beVal bs))) ∧
    (bs.length = 4 → d32 be bs = some (UInt32.ofNat (beVal bs))) ∧
    (bs.length = 8 → d64 be bs = some (UInt64.ofNat (beVal bs))) :=
  ⟨d8_spec bs, d16_spec be bs, d32_spec be bs, d64_spec be bs⟩

/-- C05 (buffers): the 32-bit encoder as used by every caller puts the big-endian digits into the buffer. -/
theorem C05_encode_32_in_buffer (be : Bool) (v : UInt32) (len : Nat) (s : EState) (h : len ≤ s.mem.length)
    (hf : s.off + 4 ≤ len) :
    enc32 be len v s = .ok true ⟨s.mem.take s.off ++ beBytes 4 v.toNat ++ s.mem.drop (s.off + 4), s.off + 4⟩ := by
  have hl : (beBytes 4 v.toNat).length = 4 := beBytes_length _ _
  unfold enc32 encRaw writeAt splice
  rw [e32_eq]
  simp only [hl]
  rw [if_pos hf, if_pos (by omega)]

example : e32 false 0x01020304 = [1, 2, 3, 4] ∧ e32 true 0x01020304 = [1, 2, 3, 4] ∧ e16 false 0xABCD = [0xAB, 0xCD] := by
  decide +kernel
example : d64 false [0, 0, 0, 0, 0, 0, 1, 2] = some 258 ∧ d64 true [0, 0, 0, 0, 0, 0, 1, 2] = some 258 := by decide +kernel

/-! ## C06 -/

/-- C06 (copy): a successful clone denotes the same table at every level, lies entirely in large enough blocks of the given
pool that were allocated during the call, no two of its parts share a block, and hence none of it is storage that existed
before (in particular the original's). -/
theorem C06_clone_deep_copy (alloc : Nat → Bool) (pool : Nat) (t t' : PTable) (s s' : AState) (hst : t.stored)
    (h : cloneTable alloc pool t s = .ok t' s') :
    t'.erase = t.erase ∧ t'.stored ∧ t'.blocks.Nodup ∧ (∀ b ∈ t'.blocks, b.pool = pool ∧ s.allocs ≤ b.n) ∧
    (∀ old : List Blk, (∀ b ∈ old, b.n < s.allocs) → ∀ b ∈ t'.blocks, b ∉ old) := by
  have hA := cloneTable_AOK alloc pool t hst.2 s
  rw [h] at hA
  obtain ⟨_, h1, h2, h3⟩ := hA
  refine ⟨h1, h2, ?_, fun b hb => ⟨(h3.2 b hb).1, (h3.2 b hb).2.1⟩, fun old ho b hb hc => ?_⟩
  · exact h3.1.imp fun hab heq => by rw [heq] at hab; exact absurd hab (Nat.lt_irrefl _)
  · have := ho b hc; have := h3.2 b hb; omega

/-- C06 (failure): cloning never does anything undefined and fails only with NO_MEMORY or INVALID_PARAMETER. -/
theorem C06_clone_errors (alloc : Nat → Bool) (pool : Nat) (t : PTable) (s : AState) (hst : t.stored) :
    (∃ t' s', cloneTable alloc pool t s = .ok t' s') ∨
    (∃ e s', cloneTable alloc pool t s = .err e s' ∧ (e = St.NO_MEMORY ∨ e = St.INVALID_PARAMETER)) := by
  have hA := cloneTable_AOK alloc pool t hst.2 s
  cases hr : cloneTable alloc pool t s with
  | ok t s' => exact Or.inl ⟨t, s', rfl⟩
  | err e s' => rw [hr] at hA; exact Or.inr ⟨e, s', rfl, hA⟩
  | ub => rw [hr] at hA; exact absurd hA id
  | fuel => rw [hr] at hA; exact absurd hA id

/-- C06 (which tables): with memory available a table is cloned exactly when all its kinds are known, its keys are non-empty
and it has no zero-length array with a non-NULL pointer. -/
theorem C06_clone_succeeds_iff (alloc : Nat → Bool) (hA : ∀ n, alloc n = true) (pool : Nat) (t : PTable) (s : AState)
    (hst : t.stored) : (∃ t' s', cloneTable alloc pool t s = .ok t' s') ↔ t.cloneable := by
  have h := cloneTable_Decides hA pool t hst.2 s
  refine ⟨fun ⟨t', s', ho⟩ => ?_, h.1⟩
  by_cases hc : t.cloneable
  · exact hc
  · obtain ⟨e, s'', he⟩ := h.2 hc
    rw [ho] at he; cases he

/-- A stored table: a string and a nested table, in four blocks numbered 0–4. -/
def sampleStored : PTable :=
  ⟨some ⟨9, 0, 80⟩, [.mk (some ⟨9, 1, 1⟩) [97] (.utf8 (some ⟨9, 2, 2⟩) [104, 105]),
    .mk (some ⟨9, 3, 1⟩) [98] (.table (some ⟨9, 4, 40⟩) [.mk (some ⟨9, 5, 1⟩) [99] (.u8 3)])]⟩
example : sampleStored.stored ∧ sampleStored.cloneable ∧ ∀ b ∈ sampleStored.blocks, b.n < (⟨6⟩ : AState).allocs := by
  simp [sampleStored, PTable.stored, PV.storedEs, PE.stored, PV.stored, holds, SIZEOF_ENTRY, PTable.cloneable,
    PV.cloneableEs, PE.cloneable, PV.cloneable, PTable.blocks, PV.blocksEs, PE.blocks, PV.blocks]
example : (cloneTable (fun _ => true) 1 sampleStored ⟨6⟩) =
    .ok ⟨some ⟨1, 6, 80⟩, [.mk (some ⟨1, 7, 1⟩) [97] (.utf8 (some ⟨1, 8, 2⟩) [104, 105]),
      .mk (some ⟨1, 9, 1⟩) [98] (.table (some ⟨1, 10, 40⟩) [.mk (some ⟨1, 11, 1⟩) [99] (.u8 3)])]⟩ ⟨12⟩ := rfl

/-! ## C07 -/

/-- C07: for keys below 2 GiB, the sign of `amqp_table_entry_cmp` is the lexicographic comparison of the keys as unsigned
bytes with a proper prefix first, and no overflow occurs. -/
theorem C07_entry_cmp_lexicographic (memcmp : Bytes → Bytes → Int) (hM : MemcmpSpec memcmp) (p q : Entry)
    (hp : p.key.length < 2 ^ 31) (hq : q.key.length < 2 ^ 31) :
    ∃ r, entryCmp memcmp p q = some r ∧ (r < 0 ↔ p.key < q.key) ∧ (r = 0 ↔ p.key = q.key) ∧
      (0 < r ↔ q.key < p.key) := entryCmp_spec hM p q hp hq

/-- C07: hence it is antisymmetric in sign … -/
theorem C07_entry_cmp_antisymmetric (memcmp : Bytes → Bytes → Int) (hM : MemcmpSpec memcmp) (p q : Entry)
    (hp : p.key.length < 2 ^ 31) (hq : q.key.length < 2 ^ 31) (a b : Int)
    (ha : entryCmp memcmp p q = some a) (hb : entryCmp memcmp q p = some b) : (a < 0 ↔ 0 < b) ∧ (a = 0 ↔ b = 0) := by
  obtain ⟨r, h1, h2, h3, h4⟩ := entryCmp_spec hM p q hp hq
  obtain ⟨r', h1', h2', h3', h4'⟩ := entryCmp_spec hM q p hq hp
  rw [ha] at h1; rw [hb] at h1'
  cases h1; cases h1'
  exact ⟨h2.trans h4'.symm, h3.trans (eq_comm.trans h3'.symm)⟩

/-- C07: … and transitive, so it is a valid qsort comparator. -/
theorem C07_entry_cmp_transitive (memcmp : Bytes → Bytes → Int) (hM : MemcmpSpec memcmp) (p q r : Entry)
    (hp : p.key.length < 2 ^ 31) (hq : q.key.length < 2 ^ 31) (hr : r.key.length < 2 ^ 31) (a b c : Int)
    (ha : entryCmp memcmp p q = some a) (hb : entryCmp memcmp q r = some b) (hc : entryCmp memcmp p r = some c)
    (h1 : a ≤ 0) (h2 : b ≤ 0) : c ≤ 0 ∧ (c = 0 → a = 0 ∧ b = 0) := by
  obtain ⟨_, e1, l1, z1, g1⟩ := entryCmp_spec hM p q hp hq
  obtain ⟨_, e2, l2, z2, g2⟩ := entryCmp_spec hM q r hq hr
  obtain ⟨_, e3, l3, z3, g3⟩ := entryCmp_spec hM p r hp hr
  rw [ha] at e1; rw [hb] at e2; rw [hc] at e3
  cases e1; cases e2; cases e3
  rcases Int.lt_or_eq_of_le h1 with h1 | h1
  · have k1 := l1.1 h1
    rcases Int.lt_or_eq_of_le h2 with h2 | h2
    · have := l3.2 (List.lt_trans k1 (l2.1 h2)); omega
    · have := l3.2 (z2.1 h2 ▸ k1); omega
  · have k1 := z1.1 h1
    rcases Int.lt_or_eq_of_le h2 with h2 | h2
    · have := l3.2 (k1 ▸ l2.1 h2); omega
    · have := z3.2 (k1.trans (z2.1 h2)); omega

/-- The bound on the key length is needed: with a 4 GiB key the `int` casts make unequal keys compare equal. -/
theorem C07_huge_key_compares_equal : ∃ p q : Entry, p.key ≠ q.key ∧ entryCmp refMemcmp p q = some 0 := by
  obtain ⟨n, hn⟩ : ∃ n : Nat, n = 2 ^ 32 := ⟨_, rfl⟩
  have hl : (Entry.mk (List.replicate n 0) .void).key.length = n := List.length_replicate
  have hz : (Entry.mk [] .void).key.length = 0 := rfl
  refine ⟨.mk (List.replicate n 0) .void, .mk [] .void, fun h => ?_, ?_⟩
  · have := congrArg List.length h
    rw [hl, hz] at this
    omega
  · unfold entryCmp
    simp only [hl, hz]
    have h0 : (if 0 < n then 0 else n) = 0 := if_pos (by omega)
    simp only [h0, List.take_zero, hn]
    decide +kernel

example : MemcmpSpec refMemcmp := refMemcmp_spec
example : entryCmp refMemcmp (.mk [1, 2] .void) (.mk [1, 2, 0] .void) = some (-1) := by decide +kernel

/-! ## C08 -/

/-- C08: the entry returned has the key, and no earlier entry has it; NULL is returned iff no entry has it. -/
theorem C08_lookup_first_match (memcmp : Bytes → Bytes → Int) (hM : MemcmpSpec memcmp) (t : Table) (key : Bytes) :
    (∀ i, getEntryByKey memcmp (t.map Entry.key) key = some i ↔
      (∃ e, t[i]? = some e ∧ e.key = key) ∧ ∀ j < i, ∀ e, t[j]? = some e → e.key ≠ key) ∧
    (getEntryByKey memcmp (t.map Entry.key) key = none ↔ ∀ e ∈ t, e.key ≠ key) := by
  refine ⟨fun i => ?_, ?_⟩
  · rw [getEntryByKey_some hM]
    simp only [List.getElem?_map, Option.map_eq_some_iff, ne_eq, not_exists, not_and]
  · rw [getEntryByKey_none hM]
    simp only [List.mem_map, not_exists, not_and, ne_eq]

example : getEntryByKey refMemcmp (sampleTable.map Entry.key) [100] = some 2 ∧
    getEntryByKey refMemcmp (sampleTable.map Entry.key) [101] = none := by decide +kernel

/-! ## C09 -/

/-- C09 (partial: inputs without duplicate keys).  A successful merge is the specified merge — base entries overridden by
`add`, nested tables merged recursively, then the new keys — stored entirely in fresh blocks of `pool`; it never touches an
invalid pointer; it fails only with NO_MEMORY or INVALID_PARAMETER, and not at all when memory is available, both inputs are
cloneable and no table of `add` (nor both inputs together) is empty.
Missing for the full claim: duplicate keys, where the code dereferences NULL (`C09_duplicate_key_null_deref`). -/
theorem C09_merge_partial (memcmp : Bytes → Bytes → Int) (hM : MemcmpSpec memcmp) (alloc : Nat → Bool) (pool : Nat)
    (base add : PTable) (s : AState) (hb : base.stored) (ha : add.stored) (hbd : distinctKeys base.erase)
    (had : distinctKeys add.erase) :
    (∃ r s', mergeCapabilities memcmp alloc pool base (some add) s = .ok r s' ∧ r.erase = mergeSpec base.erase add.erase ∧
      r.stored ∧ r.blocks.Nodup ∧ ∀ b ∈ r.blocks, b.pool = pool ∧ s.allocs ≤ b.n) ∨
    (∃ e s', mergeCapabilities memcmp alloc pool base (some add) s = .err e s' ∧
      (e = St.NO_MEMORY ∨ e = St.INVALID_PARAMETER) ∧
      ¬ ((∀ n, alloc n = true) ∧ base.cloneable ∧ add.cloneable ∧ nonEmptyEs add.erase ∧
        (base.entries ≠ [] ∨ add.entries ≠ []))) := by
  have h := mergeNested_AOK hM alloc (.table add.ptr add.entries) pool base.entries s ha hb.2
    (by simpa [PV.erase, distinctV, distinctKeys, PTable.erase] using had) hbd rfl
  unfold mergeCapabilities
  dsimp only
  cases hr : mergeNested memcmp alloc (.table add.ptr add.entries) pool base.entries s with
  | ok r s' =>
    rw [hr] at h
    obtain ⟨_, ⟨h1, h2, h3⟩, _⟩ := h
    refine Or.inl ⟨r, s', rfl, ?_, h2, ?_, fun b hb => ⟨(h3.2 b hb).1, (h3.2 b hb).2.1⟩⟩
    · simp only [PV.erase, mergedV, FV.table.injEq] at h1
      exact h1
    · exact h3.1.imp fun hab heq => by rw [heq] at hab; exact absurd hab (Nat.lt_irrefl _)
  | err e s' =>
    rw [hr] at h
    refine Or.inr ⟨e, s', rfl, h.1, fun hG => h.2 ⟨hG.1, hG.2.2.1, hG.2.1, _, rfl, hG.2.2.2.1, ?_⟩⟩
    rcases hG.2.2.2.2 with h | h
    · exact Or.inl h
    · refine Or.inr fun hc => h ?_
      have := congrArg List.length hc
      rw [PV.eraseEs_length] at this
      exact List.eq_nil_of_length_eq_zero this
  | ub => rw [hr] at h; exact absurd h id
  | fuel => rw [hr] at h; exact absurd h id

/-- C09 (no additions): with a NULL `add` a successful merge is a deep copy of the base, in fresh blocks of `pool`; it fails
only with NO_MEMORY or INVALID_PARAMETER, and not at all when memory is available and the base is cloneable. -/
theorem C09_null_add (memcmp : Bytes → Bytes → Int) (alloc : Nat → Bool) (pool : Nat) (base : PTable) (s : AState)
    (hb : base.stored) :
    (∃ r s', mergeCapabilities memcmp alloc pool base none s = .ok r s' ∧ r.erase = base.erase ∧ r.stored ∧
      r.blocks.Nodup ∧ ∀ b ∈ r.blocks, b.pool = pool ∧ s.allocs ≤ b.n) ∨
    (∃ e s', mergeCapabilities memcmp alloc pool base none s = .err e s' ∧
      (e = St.NO_MEMORY ∨ e = St.INVALID_PARAMETER) ∧ ¬ ((∀ n, alloc n = true) ∧ base.cloneable)) := by
  have hm : mergeCapabilities memcmp alloc pool base none = cloneTable alloc pool base := rfl
  rw [hm]
  rcases C06_clone_errors alloc pool base s hb with ⟨t', s', h⟩ | ⟨e, s', h, he⟩
  · have := C06_clone_deep_copy alloc pool base t' s s' hb h
    exact Or.inl ⟨t', s', h, this.1, this.2.1, this.2.2.1, this.2.2.2.1⟩
  · refine Or.inr ⟨e, s', h, he, fun hg => ?_⟩
    obtain ⟨t'', s'', h'⟩ := (C06_clone_succeeds_iff alloc hg.1 pool base s hb).2 hg.2
    rw [h] at h'; cases h'

/-- C09: what the specified merge means key by key. -/
theorem C09_merge_lookup (base add : Table) (k : Bytes) :
    (lookup add k = none → lookup (mergeSpec base add) k = lookup base k) ∧
    (∀ a, lookup add k = some a → lookup base k = none → lookup (mergeSpec base add) k = some a) ∧
    (∀ a b, lookup add k = some (.table a) → lookup base k = some (.table b) →
      lookup (mergeSpec base add) k = some (.table (mergeSpec b a))) ∧
    (∀ a b, lookup add k = some a → lookup base k = some b → ((∀ x, a ≠ .table x) ∨ ∀ x, b ≠ .table x) →
      lookup (mergeSpec base add) k = some a) := by
  refine ⟨fun h => ?_, fun a h1 h2 => ?_, fun a b h1 h2 => ?_, fun a b h1 h2 h3 => ?_⟩
  · rw [lookup_mergeSpec, h]
  · rw [lookup_mergeSpec, h1, h2]
  · rw [lookup_mergeSpec, h1, h2]; simp only [mergedV, mergeSpec]
  · rw [lookup_mergeSpec, h1, h2]
    rcases h3 with h3 | h3
    · cases a <;> simp_all [mergedV]
    · cases b <;> cases a <;> simp_all [mergedV]

/-- C09, for any keys: merging two stored tables gives `mergeOnto` — the entries of `add` taking effect one after the other — in fresh
blocks of `pool`; or it fails with NO_MEMORY or INVALID_PARAMETER, but not if memory is available and the inputs are cloneable and none
is empty; and where `mergeOnto` is not defined the program's behaviour is not either (or it has failed before). -/
theorem C09_merge_any (memcmp : Bytes → Bytes → Int) (hM : MemcmpSpec memcmp) (alloc : Nat → Bool) (pool : Nat)
    (base add : PTable) (s : AState) (hb : base.stored) (ha : add.stored) :
    (∃ r s', mergeCapabilities memcmp alloc pool base (some add) s = .ok r s' ∧ mergeOnto base.erase add.erase = some r.erase ∧
      r.stored ∧ r.blocks.Nodup ∧ ∀ b ∈ r.blocks, b.pool = pool ∧ s.allocs ≤ b.n) ∨
    (∃ e s', mergeCapabilities memcmp alloc pool base (some add) s = .err e s' ∧
      (e = St.NO_MEMORY ∨ e = St.INVALID_PARAMETER) ∧
      ¬ ((∀ n, alloc n = true) ∧ base.cloneable ∧ add.cloneable ∧ nonEmptyEs add.erase ∧
        (base.entries ≠ [] ∨ add.entries ≠ []))) ∨
    (mergeCapabilities memcmp alloc pool base (some add) s = .ub ∧ mergeOnto base.erase add.erase = none) := by
  have h := mergeNested_any hM alloc (.table add.ptr add.entries) pool base.entries s ha hb.2 rfl
  have he : mergeTable (PV.table add.ptr add.entries).erase (PV.eraseEs base.entries) = mergeOnto base.erase add.erase := by
    rw [PV.erase, mergeTable]; rfl
  rw [he] at h
  unfold mergeCapabilities
  dsimp only
  cases hr : mergeNested memcmp alloc (.table add.ptr add.entries) pool base.entries s with
  | ok r s' =>
    rw [hr] at h
    obtain ⟨_, ⟨h1, h2, h3⟩, _⟩ := h
    refine Or.inl ⟨r, s', rfl, h1, h2, ?_, fun b hb => ⟨(h3.2 b hb).1, (h3.2 b hb).2.1⟩⟩
    exact h3.1.imp fun hab heq => by rw [heq] at hab; exact absurd hab (Nat.lt_irrefl _)
  | err e s' =>
    rw [hr] at h
    refine Or.inr (Or.inl ⟨e, s', rfl, h.1, fun hG => h.2 ⟨hG.1, ?_, hG.2.1, ?_⟩⟩)
    · exact hG.2.2.1
    · refine ⟨_, rfl, hG.2.2.2.1, hG.2.2.2.2.imp id fun h hc => h ?_⟩
      have := congrArg List.length hc
      rw [PV.eraseEs_length] at this
      exact List.length_eq_zero_iff.1 this
  | ub => rw [hr] at h; exact Or.inr (Or.inr ⟨rfl, h⟩)
  | fuel => rw [hr] at h; exact h.elim

/-- C09: the merges that are not defined are exactly those in which `add` has two tables under one key, with nothing else under that
key between them, and `base` no table there (or in which this happens in two tables that are merged). -/
theorem C09_undefined_iff (base add : Table) : mergeOnto base add = none ↔ Twins base add := mergeOnto_none

/-- C09: without such twins nothing undefined happens, whatever memory does. -/
theorem C09_no_twins (memcmp : Bytes → Bytes → Int) (hM : MemcmpSpec memcmp) (alloc : Nat → Bool) (pool : Nat)
    (base add : PTable) (s : AState) (hb : base.stored) (ha : add.stored) (ht : ¬ Twins base.erase add.erase) :
    (mergeCapabilities memcmp alloc pool base (some add) s).isUB = false := by
  rcases C09_merge_any memcmp hM alloc pool base add s hb ha with ⟨r, s', h, _⟩ | ⟨e, s', h, _⟩ | ⟨_, h⟩
  · rw [h]; rfl
  · rw [h]; rfl
  · exact absurd (mergeOnto_none.1 h) ht

/-- C09: what the merge of any two tables means key by key.  A key that `add` does not have keeps `base`'s value; a key it has gets the
value of its **last** entry with that key, which is merged with `base`'s table if it and the value before it (that of the entry before
it with the key, else `base`'s) are tables — what earlier entries said is lost.  The keys are those of `base`, followed by the new ones
in the order in which they first occur. -/
theorem C09_any_lookup (base add r : Table) (hr : mergeOnto base add = some r) :
    (∀ k, k ∉ add.map Entry.key → lookup r k = lookup base k) ∧
    (∀ pre k v post, add = pre ++ .mk k v :: post → k ∉ post.map Entry.key →
      (∀ ts us, v = .table ts → latest base pre k = some (.table us) →
        ∃ bs m, lookup base k = some (.table bs) ∧ mergeOnto bs ts = some m ∧ lookup r k = some (.table m)) ∧
      ((∀ ts, v ≠ .table ts) ∨ (∀ us, latest base pre k ≠ some (.table us)) → lookup r k = some v)) ∧
    r.map Entry.key = (add.map Entry.key).foldl (fun ks k => if k ∈ ks then ks else ks ++ [k]) (base.map Entry.key) := by
  refine ⟨fun k hk => mergeAll_keep hk hr, ?_, mergeAll_keys hr⟩
  intro pre k v post he hk
  subst he
  unfold mergeOnto at hr
  rw [mergeAll_append] at hr
  cases hp : mergeAll pre base base with
  | none => rw [hp] at hr; cases hr
  | some temp =>
    rw [hp, Option.bind_some, mergeAll] at hr
    have hF := (Tracks.start base).all hp
    rw [List.nil_append] at hF
    cases h1 : mergeOne (.mk k v) base temp with
    | none => rw [h1] at hr; cases hr
    | some t =>
      rw [h1] at hr
      rw [mergeAll_keep hk hr]
      rcases mergeOne_cases (k := k) (v := v) (base := base) (temp := temp) with ⟨ts, w, bs, m, hv, hl, hb, hm, h4⟩ | ⟨_, _, _, _, h4, _⟩ | ⟨w, hl, hT, h4⟩ | ⟨hl, h4⟩ <;>
        rw [h1] at h4 <;> cases h4
      · refine ⟨fun ts' us hv' _ => ?_, fun hc => ?_⟩
        · rw [hv] at hv'; cases hv'
          exact ⟨bs, m, hb, hm, lookup_set hl⟩
        · obtain ⟨us, hu⟩ := hF.table.1 ⟨w, hl⟩
          rcases hc with hc | hc
          · exact absurd hv (hc ts)
          · exact absurd hu (hc us)
      · refine ⟨fun ts us hv hu => ?_, fun _ => lookup_set hl⟩
        obtain ⟨w', hw⟩ := hF.table.2 ⟨us, hu⟩
        rw [hl] at hw; cases hw; subst hv; cases hT
      · refine ⟨fun ts us hv hu => ?_, fun _ => by rw [lookup_snoc, hl, if_pos rfl]; rfl⟩
        obtain ⟨w', hw⟩ := hF.table.2 ⟨us, hu⟩
        rw [hl] at hw; cases hw

/-- C09: a table in which, at every level, no key occurs twice has no twins. -/
theorem C09_distinct_no_twins (base add : Table) (h : distinctKeys add) : ¬ Twins base add := by
  have key : ∀ (base pre post : Table) (k : Bytes) (v : FV), distinctKeys (pre ++ .mk k v :: post) → latest base pre k = lookup base k ∧ distinctV v := by
    intro base pre post k v hd
    have h1 := hd.1
    rw [List.map_append, List.map_cons] at h1
    have hk : k ∉ pre.map Entry.key := fun hc => (List.nodup_append.1 h1).2.2 k hc k (List.mem_cons_self ..) rfl
    refine ⟨?_, ?_⟩
    · unfold latest
      rw [lookup_none.2 (by rw [List.map_reverse, List.mem_reverse]; exact hk)]
      rfl
    · exact (distinctEs_iff _).1 hd.2 (.mk k v) (by simp)
  intro ht
  induction ht with
  | here base pre post k ts us h1 h2 =>
    rw [(key base pre post k _ h).1] at h1
    exact h2 us h1
  | inside base pre post k ts us bs h1 h2 _ ih =>
    have := (key base pre post k _ h).2
    rw [distinctV] at this
    exact ih this

/-- Two tables under one key, the second of which is merged with the base's: the first is forgotten. -/
example : mergeOnto [.mk [97] (.table [.mk [98] (.u8 1)])] [.mk [97] (.table [.mk [99] (.u8 2)]), .mk [100] .void, .mk [97] (.table [.mk [101] (.u8 3)])] =
    some [.mk [97] (.table [.mk [98] (.u8 1), .mk [101] (.u8 3)]), .mk [100] .void] := by
  simp [mergeOnto, mergeAll, mergeOne, mergeTable, lookup, setFirst, FV.isTable, Entry.key]
/-- … and where the base has no table there, they are twins. -/
example : Twins [.mk [97] .void] [.mk [97] (.table []), .mk [97] (.table [.mk [101] (.u8 3)])] :=
  .here _ [.mk [97] (.table [])] [] [97] _ [] (by simp [latest, lookup]) (by simp [lookup])

/-- The table value used twice in the next witness. -/
def dupInner : PV := .table (some ⟨0, 3, 40⟩) [.mk (some ⟨0, 4, 1⟩) [99] (.u8 3)]

/-- C09, negation: with a table-valued key twice in `add` and absent from `base`, the code dereferences a NULL entry. -/
theorem C09_duplicate_key_null_deref : ∃ base add : PTable, base.stored ∧ add.stored ∧ base.cloneable ∧ add.cloneable ∧
    mergeCapabilities refMemcmp (fun _ => true) 0 base (some add) ⟨6⟩ = .ub := by
  refine ⟨⟨none, []⟩, ⟨some ⟨0, 0, 80⟩, [.mk (some ⟨0, 1, 1⟩) [97] dupInner, .mk (some ⟨0, 2, 1⟩) [97] dupInner]⟩,
    ?_, ?_, ?_, ?_, ?_⟩
  · simp [PTable.stored, holds, PV.storedEs]
  · simp [dupInner, PTable.stored, PV.storedEs, PE.stored, PV.stored, holds, SIZEOF_ENTRY]
  · simp [PTable.cloneable, PV.cloneableEs]
  · simp [dupInner, PTable.cloneable, PV.cloneableEs, PE.cloneable, PV.cloneable]
  · exact Res.isUB_iff.1 (by decide +kernel)

/-- C09, negation: merging two empty tables reports NO_MEMORY although memory is available. -/
theorem C09_empty_merge_fails :
    (mergeCapabilities refMemcmp (fun _ => true) 0 ⟨none, []⟩ (some ⟨none, []⟩) ⟨0⟩).errCode? = some St.NO_MEMORY := by
  decide +kernel

example : distinctKeys sampleStored.erase ∧ nonEmptyEs sampleStored.erase := by
  simp [sampleStored, PTable.erase, PV.eraseEs, PE.erase, PV.erase, distinctKeys, distinctEs, distinctE, distinctV,
    nonEmptyEs, nonEmptyE, nonEmptyV, Entry.key]
example : (mergeCapabilities refMemcmp (fun _ => true) 0 sampleStored
    (some ⟨some ⟨0, 7, 40⟩, [.mk (some ⟨0, 8, 1⟩) [98] (.table (some ⟨0, 9, 40⟩) [.mk (some ⟨0, 10, 1⟩) [100] (.u8 4)])]⟩) ⟨20⟩
      ).val?.map PTable.erase = some [.mk [97] (.utf8 [104, 105]), .mk [98] (.table [.mk [99] (.u8 3), .mk [100] (.u8 4)])] :=
  by decide +kernel

/-! ## C59 -/

/-- C59: `amqp_bytes_equal` is equality of contents. -/
theorem C59_bytes_equal (memcmp : Bytes → Bytes → Int) (hM : MemcmpSpec memcmp) (a b : Bytes) :
    bytesEqual memcmp a b = true ↔ a = b := bytesEqual_spec hM a b

/-- C59: `amqp_bytes_malloc_dup` returns the same length always, the same contents when malloc succeeds and a NULL pointer
otherwise. -/
theorem C59_bytes_malloc_dup (ok : Bool) (src : Bytes) :
    (bytesMallocDup ok src).1 = src.length ∧ ((bytesMallocDup ok src).2 = some src ↔ ok = true) ∧
    ((bytesMallocDup ok src).2 = none ↔ ok = false) := by
  cases ok <;> simp [bytesMallocDup]

example : bytesEqual refMemcmp [1, 2] [1, 2] = true ∧ bytesEqual refMemcmp [1, 2] [1, 3] = false := by decide +kernel

/-! ## C67 -/

/-- C67 (nothing invented): whatever the buffer, the offset and the memory available, a table that `amqp_decode_table`
returns is what the octets it consumed spell — read with the two relaxations of `Verif.Spec.Spelling`: the last entry of a
container may end after the container's declared length, and every non-zero boolean octet is true. -/
theorem C67_decoded_is_spelled (E : DEnv) (s s' : DState) (t : Table) (h : decodeTable E s = .ok t s') :
    ∃ bs, bs <+: E.mem.drop s.off ∧ s'.off = s.off + bs.length ∧ SpellTable False False bs t := by
  have := (decode_spells E (decFuel E s.off)).2.2.2.1 0 s
  unfold decodeTable at h
  rw [h] at this
  exact this

/-- C67 (exactly): with memory available, `amqp_decode_table` returns `t` and stops after the octets `bs` if and only if
those octets lie inside the buffer, spell `t` in that reading, and `t` is nested no deeper than the limit. -/
theorem C67_accepts_exactly (E : DEnv) (hG : E.Good) (s : DState) (hs : s.off ≤ E.len) (t : Table) (n : Nat) :
    (∃ c, decodeTable E s = .ok t ⟨s.off + n, c⟩) ↔
      s.off + n ≤ E.len ∧ SpellTable False False ((E.mem.drop s.off).take n) t ∧ nestingEs t ≤ 101 := by
  constructor
  · rintro ⟨c, h⟩
    have hn := C04_decoded_depth_bounded E s _ t h
    obtain ⟨bs, hp, ho, hsp⟩ := C67_decoded_is_spelled E s _ t h
    have ho' : n = bs.length := by simp only at ho; omega
    have hl : s.off + n ≤ E.len := by
      rcases C02_decode_table_safe E hG.mem hG.size s hs with ⟨t', s', h1, _, h2⟩ | ⟨e, s', h1, _⟩
      · rw [h] at h1; cases h1; exact h2
      · rw [h] at h1; cases h1
    refine ⟨hl, ?_, hn⟩
    obtain ⟨r, hr⟩ := hp
    rw [← hr, ho', List.take_left]
    exact hsp
  · rintro ⟨h1, h2, h3⟩
    have hlen : ((E.mem.drop s.off).take n).length = n := by
      have := hG.mem
      simp only [List.length_take, List.length_drop]; omega
    have := decodeTable_spell E hG h2 h3 s (List.take_prefix _ _) (by rw [hlen]; exact h1)
    rwa [hlen] at this

/-- C67 (the strict reading is the wire grammar): octets that respect every declared length and use 0 and 1 for booleans
are the serialisation of the table they spell, and every representable table is spelled by its serialisation. -/
theorem C67_strict_is_wire_grammar (bs : Bytes) (t : Table) :
    SpellTable True True bs t ↔ bs = serTable t ∧ representableTable t := spellTable_ser

/-- C67 (forwarding): a table received in octets that respect the grammar is sent on in the same octets, whatever the hosts'
byte orders. -/
theorem C67_forwarded_unchanged (E : DEnv) (hG : E.Good) (s : DState) (bs : Bytes) (t0 : Table) (h : SpellTable True True bs t0)
    (hn : nestingEs t0 ≤ 101) (hp : bs <+: E.mem.drop s.off) (hl : s.off + bs.length ≤ E.len)
    (be : Bool) (len : Nat) (o : EState) (hlen : len ≤ o.mem.length) (hroom : o.off + bs.length ≤ len) :
    ∃ t c, decodeTable E s = .ok t ⟨s.off + bs.length, c⟩ ∧
      encTable be len t o = .ok () ⟨o.mem.take o.off ++ bs ++ o.mem.drop (o.off + bs.length), o.off + bs.length⟩ := by
  obtain ⟨c, hc⟩ := decodeTable_spell E hG h hn s hp hl
  obtain ⟨rfl, hr⟩ := spellTable_ser.1 h
  refine ⟨t0, c, hc, ?_⟩
  exact (C03_encode_table_exact be len t0 o hlen (representableEs_kinds t0 hr.2)).1 hroom

/-- C67: with declared lengths respected but unusual booleans, what is sent on has the same length and layout. -/
theorem C67_forwarded_same_length (bs : Bytes) (t : Table) (h : SpellTable True False bs t) :
    bs.length = (serTable t).length ∧ representableTable t := spellTable_len h

/-- What C67's relaxation lets through (a finding): a table of declared length 1 whose one entry takes three octets is accepted;
no table at all is spelled by those octets in the strict reading; and the offset ends two octets after the declared end. -/
theorem C67_overrun_accepted :
    (decodeTable ⟨[0, 0, 0, 1, 1, 97, 86], 7, false, fun _ => true⟩ ⟨0, 0⟩).val? = some [.mk [97] .void] ∧
    (decodeTable ⟨[0, 0, 0, 1, 1, 97, 86], 7, false, fun _ => true⟩ ⟨0, 0⟩).state?.map (·.off) = some 7 ∧
    ¬ ∃ t canon, SpellTable True canon [0, 0, 0, 1, 1, 97, 86] t := by
  refine ⟨by decide +kernel, by decide +kernel, ?_⟩
  rintro ⟨t, canon, n, body, hn, he, h⟩
  have h4 : beBytes 4 n = [0, 0, 0, 1] ∧ body = [1, 97, 86] :=
    List.append_inj (s₁ := beBytes 4 n) (s₂ := [0, 0, 0, 1]) he.symm (by rw [beBytes_length]; rfl)
  obtain ⟨l1, l2, _⟩ := h.len
  rw [h4.2] at l1
  have hn3 : n = 3 := by rw [← l2, ← l1]; rfl
  rw [hn3] at h4
  exact absurd h4.1 (by decide)

example : SpellTable True True (serTable sampleTable) sampleTable :=
  spellTable_ser.2 ⟨rfl, by decide +kernel, by simp [sampleTable, representableEs, representableE, representable, representables, serFVs, serEntries, serEntry, serFV, serShort, serLong, beBytes_length]⟩
example : SpellTable False False [0, 0, 0, 4, 1, 97, 116, 7] [.mk [97] (.boolean 1)] :=
  ⟨4, _, by decide, rfl, .cons 4 [97] [116, 7] [] _ [] (by decide) (by decide) (fun h => h.elim) (.boolean 7 (fun h => h.elim)) .nil⟩

end Rmq
