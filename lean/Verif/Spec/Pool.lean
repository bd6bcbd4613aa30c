import Verif.Model.Pool
/-!
# Specification: what a user of a pool does and gets
-/
namespace Rmq.PoolM

/-- One thing a user can do with a pool. -/
inductive PoolOp where
  | alloc (amount : Nat)
  | recycle
  | empty
deriving Repr, DecidableEq

/-- A block of memory handed out: system block, offset in it, and the size that was asked for. -/
structure Grant where
  block : Nat
  off : Nat
  amount : Nat
deriving Repr, DecidableEq

/-- What is observed of a run: the pool, the heap and the grants still valid (those made since the last recycle or empty), the
latest first. -/
structure PoolRun where
  pool : Pool
  heap : Heap
  grants : List Grant
deriving Repr, DecidableEq

/-- One operation; `none` is undefined behaviour (a double free, or a failed assertion). -/
def poolStep (A : Nat → Bool) (r : PoolRun) : PoolOp → Option PoolRun
  | .alloc n =>
    match poolAlloc A r.pool r.heap n with
    | .ok (some (b, o)) (p, h) => some ⟨p, h, ⟨b, o, n⟩ :: r.grants⟩
    | .ok none (p, h) => some ⟨p, h, r.grants⟩
    | _ => none
  | .recycle => (recyclePool r.pool r.heap).map fun (p, h) => ⟨p, h, []⟩
  | .empty => (emptyPool r.pool r.heap).map fun (p, h) => ⟨p, h, []⟩

/-- A history of operations. -/
def poolRun (A : Nat → Bool) (r : PoolRun) : List PoolOp → Option PoolRun
  | [] => some r
  | op :: ops => (poolStep A r op).bind fun r => poolRun A r ops

/-- A new pool on a heap. -/
def newRun (pagesize : Nat) (h : Heap) : PoolRun := ⟨initPool pagesize, h, []⟩

/-- The heap is as `malloc` keeps it: identities are used once. -/
structure Heap.OK (h : Heap) : Prop where
  nodup : (h.live.map (·.1)).Nodup
  lt : ∀ b ∈ h.live.map (·.1), b < h.next

/-- Two grants do not overlap. -/
def Grant.disjoint (g g' : Grant) : Prop :=
  g.block ≠ g'.block ∨ g.off + g.amount ≤ g'.off ∨ g'.off + g'.amount ≤ g.off

/-- The grant lies inside a live block of the heap. -/
def Grant.inside (g : Grant) (h : Heap) : Prop := ∃ size, (g.block, size) ∈ h.live ∧ g.off + g.amount ≤ size

end Rmq.PoolM
