import Verif.Model.Basic
/-!
# Memory pools — librabbitmq/amqp_mem.c:20-133

The system allocator hands out blocks with fresh identities; a pointer into a block is (block, offset).
-/
namespace Rmq.PoolM

/-- The system heap: the live blocks with their sizes, the next fresh identity, and the number of requests made so far. (The C library, no lines of /repo; called at amqp_mem.c:34-157.) -/
structure Heap where
  live : List (Nat × Nat)
  next : Nat
  calls : Nat
deriving Repr, DecidableEq

/-- `malloc`/`calloc`: `A` says which requests succeed. (The C library, no lines of /repo; called at amqp_mem.c:34-157.) -/
def hAlloc (A : Nat → Bool) (h : Heap) (size : Nat) : Option Nat × Heap :=
  if A h.calls then (some h.next, ⟨(h.next, size) :: h.live, h.next + 1, h.calls + 1⟩)
  else (none, { h with calls := h.calls + 1 })

/-- `free`: `none` when the block is not live (double free). (The C library, no lines of /repo; called at amqp_mem.c:34-157.) -/
def hFree (h : Heap) (b : Nat) : Option Heap :=
  if b ∈ h.live.map (·.1) then some { h with live := h.live.filter (fun p => p.1 ≠ b) } else none

/-- `realloc`: on success the old block is gone and a new one is there; on failure nothing changes.  The outer `none` is a use of a
dead block. (The C library, no lines of /repo; called at amqp_mem.c:34-157.) -/
def hRealloc (A : Nat → Bool) (h : Heap) (b size : Nat) : Option (Option Nat × Heap) :=
  if b ∈ h.live.map (·.1) then
    match hAlloc A h size with
    | (none, h) => some (none, h)
    | (some b', h) => some (some b', { h with live := h.live.filter (fun p => p.1 ≠ b) })
  else none

/-- `amqp_pool_blocklist_t`, include/rabbitmq-c/amqp.h:460-463: `arr` is `blocklist` (NULL is `none`), `blocks` its first
`num_blocks` entries.  (`num_blocks` is an `int`; its overflow after 2^31 blocks is not modelled.) -/
structure BlockList where
  blocks : List Nat
  arr : Option Nat
deriving Repr, DecidableEq

/-- `amqp_pool_t`, include/rabbitmq-c/amqp.h:470-484. -/
structure Pool where
  pagesize : Nat
  pages : BlockList
  large : BlockList
  nextPage : Nat
  allocBlock : Option Nat
  allocUsed : Nat
deriving Repr, DecidableEq

/-- init_amqp_pool, amqp_mem.c:20-32. -/
def initPool (pagesize : Nat) : Pool :=
  { pagesize := if pagesize ≠ 0 then pagesize else 4096, pages := ⟨[], none⟩, large := ⟨[], none⟩, nextPage := 0,
    allocBlock := none, allocUsed := 0 }

/-- The loop of empty_blocklist, amqp_mem.c:38-40. -/
def freeAll (h : Heap) : List Nat → Option Heap
  | [] => some h
  | b :: bs => (hFree h b).bind fun h => freeAll h bs

/-- empty_blocklist, amqp_mem.c:34-45. -/
def emptyBlocklist (h : Heap) (x : BlockList) : Option (BlockList × Heap) :=
  match x.arr with
  | none => some (⟨[], none⟩, h)
  | some a => (freeAll h x.blocks).bind fun h => (hFree h a).map fun h => (⟨[], none⟩, h)

/-- recycle_amqp_pool, amqp_mem.c:47-52. -/
def recyclePool (p : Pool) (h : Heap) : Option (Pool × Heap) :=
  (emptyBlocklist h p.large).map fun (l, h) =>
    ({ p with large := l, nextPage := 0, allocBlock := none, allocUsed := 0 }, h)

/-- empty_amqp_pool, amqp_mem.c:54-57. -/
def emptyPool (p : Pool) (h : Heap) : Option (Pool × Heap) :=
  (recyclePool p h).bind fun (p, h) => (emptyBlocklist h p.pages).map fun (l, h) => ({ p with pages := l }, h)

/-- record_pool_block, amqp_mem.c:60-80. -/
def recordBlock (A : Nat → Bool) (h : Heap) (x : BlockList) (b : Nat) : Option (Bool × BlockList × Heap) :=
  match x.arr with
  | none =>
    match hAlloc A h (8 * (x.blocks.length + 1)) with
    | (none, h) => some (false, x, h)
    | (some a, h) => some (true, ⟨x.blocks ++ [b], some a⟩, h)
  | some a =>
    (hRealloc A h a (8 * (x.blocks.length + 1))).map fun
      | (none, h) => (false, x, h)
      | (some a', h) => (true, ⟨x.blocks ++ [b], some a'⟩, h)

/-- `(amount + 7) & (~7)` on `size_t`, amqp_mem.c:87. -/
def roundUp8 (amount : Nat) : Nat := ((amount + 7) % 2 ^ 64) / 8 * 8

/-- amqp_pool_alloc, amqp_mem.c:82-126: the pointer returned (NULL is `none`). -/
def poolAlloc (A : Nat → Bool) (p : Pool) (h : Heap) (amount : Nat) : Res (Pool × Heap) (Option (Nat × Nat)) :=
  if amount = 0 then .ok none (p, h) else
  let amount := roundUp8 amount
  if amount > p.pagesize then
    match hAlloc A h amount with
    | (none, h) => .ok none (p, h)
    | (some b, h) =>
      match recordBlock A h p.large b with
      | none => .ub
      | some (true, l, h) => .ok (some (b, 0)) ({ p with large := l }, h)
      | some (false, l, h) =>
        match hFree h b with
        | none => .ub
        | some h => .ok none ({ p with large := l }, h)
  else
    -- the part from line 112 on: a new current page
    let newPage : Res (Pool × Heap) (Option (Nat × Nat)) :=
      if p.nextPage ≥ p.pages.blocks.length then
        match hAlloc A h p.pagesize with
        | (none, h) => .ok none ({ p with allocBlock := none }, h)
        | (some b, h) =>
          match recordBlock A h p.pages b with
          | none => .ub
          | some (false, l, h) => .ok none ({ p with allocBlock := some b, pages := l }, h)
          | some (true, l, h) =>
            .ok (some (b, 0)) ({ p with allocBlock := some b, pages := l, nextPage := l.blocks.length, allocUsed := amount }, h)
      else
        match p.pages.blocks[p.nextPage]? with
        | none => .ub
        | some b => .ok (some (b, 0)) ({ p with allocBlock := some b, nextPage := p.nextPage + 1, allocUsed := amount }, h)
    match p.allocBlock with
    | some b =>
      if p.allocUsed > p.pagesize then .ub else
      if (p.allocUsed + amount) % 2 ^ 64 ≤ p.pagesize then
        .ok (some (b, p.allocUsed)) ({ p with allocUsed := p.allocUsed + amount }, h)
      else newPage
    | none => newPage

end Rmq.PoolM
