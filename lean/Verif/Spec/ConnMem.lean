import Verif.Model.ConnMem
import Verif.Spec.Pool
/-!
# Specification: the memory a connection hands out
-/
namespace Rmq.PoolM

/-- One thing that happens to the memory of a connection: it is tuned; something is stored for a channel (a received frame, a queued frame,
an RPC reply); something is stored among the connection's properties; the buffers of a channel are released. -/
inductive ConnOp where
  | tune (clock : Bool) (frameMax : Nat)
  | store (ch : UInt16) (amount : Nat)
  | property (amount : Nat)
  | release (ch : UInt16)
deriving Repr, DecidableEq

/-- What memory was handed out for: a channel, or (`none`) the properties. -/
abbrev Owner := Option UInt16

/-- What is observed of a run: the connection, the heap, the memory handed out and not released, and the status of the latest tuning. -/
structure ConnRun where
  conn : CMem
  heap : Heap
  grants : List (Owner × Grant)
  tuned : Int
deriving Repr, DecidableEq

/-- The record of what was handed out. -/
def granted (o : Owner) (amount : Nat) (gs : List (Owner × Grant)) : Option (Nat × Nat) → List (Owner × Grant)
  | none => gs
  | some (b, off) => (o, ⟨b, off, amount⟩) :: gs

/-- One step; `none` is undefined behaviour.  A release ends what was handed out for that channel, and nothing else does. -/
def connStep (A : Nat → Bool) (r : ConnRun) : ConnOp → Option ConnRun
  | .tune clock fm => (tuneMem A clock fm r.conn r.heap).map fun (st, c, h) => ⟨c, h, r.grants, st⟩
  | .store ch n =>
    match chanAlloc A ch n r.conn r.heap with
    | .ok x (c, h) => some ⟨c, h, granted (some ch) n r.grants x, r.tuned⟩
    | _ => none
  | .property n =>
    match propsAlloc A n r.conn r.heap with
    | .ok x (c, h) => some ⟨c, h, granted none n r.grants x, r.tuned⟩
    | _ => none
  | .release ch => (releaseChan ch r.conn r.heap).map fun (c, h) => ⟨c, h, r.grants.filter (fun g => g.1 ≠ some ch), r.tuned⟩

/-- A history. -/
def connRun (A : Nat → Bool) (r : ConnRun) : List ConnOp → Option ConnRun
  | [] => some r
  | op :: ops => (connStep A r op).bind fun r => connRun A r ops

/-- Sizes that fit: frame sizes are positive `int`s, requests do not wrap around. -/
def ConnOp.sane : ConnOp → Prop
  | .tune _ fm => 0 < fm ∧ fm < 2 ^ 31
  | .store _ n | .property n => n ≤ 2 ^ 64 - 8
  | .release _ => True

end Rmq.PoolM
