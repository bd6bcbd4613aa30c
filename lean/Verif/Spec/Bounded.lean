import Verif.Spec.ConnMem
/-!
# Specification: how much memory is in use
-/
namespace Rmq.PoolM

/-- The octets of all blocks that are allocated. -/
def octets (h : Heap) : Nat := (h.live.map (·.2)).sum

/-- A request rounded up to a multiple of 8. -/
def rounded (n : Nat) : Nat := (n + 7) / 8 * 8

/-- What was asked for in the name of `o` since it was last released (the properties never are). -/
def pendingStep (o : Owner) (n : Nat) : ConnOp → Nat
  | .store ch k => if o = some ch then n + rounded k else n
  | .property k => if o = none then n + rounded k else n
  | .release ch => if o = some ch then 0 else n
  | .tune _ _ => n
def pending (o : Owner) (ops : List ConnOp) : Nat := ops.foldl (pendingStep o) 0

/-- At no time in the history is more than `K` pending for any one owner. -/
def AtMost (K : Nat) (ops : List ConnOp) : Prop := ∀ before, before <+: ops → ∀ o, pending o before ≤ K

/-- The same for a pool of the application. -/
def poolPendingStep (n : Nat) : PoolOp → Nat
  | .alloc k => n + rounded k
  | .recycle | .empty => 0
def poolPending (ops : List PoolOp) : Nat := ops.foldl poolPendingStep 0

end Rmq.PoolM
