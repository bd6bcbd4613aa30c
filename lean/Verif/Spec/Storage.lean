import Verif.Model.TableOps
/-!
# Specification vocabulary for stored tables: the abstract value, the memory used, and well-stored-ness
-/
namespace Rmq

/-! Every memory block a stored value points into, at every nesting level. -/
mutual
def PV.blocks : PV → List Blk
  | .utf8 p _ => p.toList
  | .bytes p _ => p.toList
  | .array p vs => p.toList ++ PV.blockss vs
  | .table p es => p.toList ++ PV.blocksEs es
  | _ => []
def PV.blockss : List PV → List Blk
  | [] => []
  | v :: vs => v.blocks ++ PV.blockss vs
def PE.blocks : PE → List Blk
  | .mk kp _ v => kp.toList ++ v.blocks
def PV.blocksEs : List PE → List Blk
  | [] => []
  | e :: es => e.blocks ++ PV.blocksEs es
end
def PTable.blocks (t : PTable) : List Blk := t.ptr.toList ++ PV.blocksEs t.entries

/-- `n` bytes are stored behind `p`: nothing to store, or a non-NULL block large enough. -/
def holds (p : Option Blk) (n : Nat) : Prop := n = 0 ∨ ∃ b, p = some b ∧ n ≤ b.size

/-! Every string, key, array and table lies in a block large enough for it. -/
mutual
def PV.stored : PV → Prop
  | .utf8 p b => holds p b.length
  | .bytes p b => holds p b.length
  | .array p vs => holds p (vs.length * SIZEOF_FV) ∧ PV.storeds vs
  | .table p es => holds p (es.length * SIZEOF_ENTRY) ∧ PV.storedEs es
  | _ => True
def PV.storeds : List PV → Prop
  | [] => True
  | v :: vs => v.stored ∧ PV.storeds vs
def PE.stored : PE → Prop
  | .mk kp k v => holds kp k.length ∧ v.stored
def PV.storedEs : List PE → Prop
  | [] => True
  | e :: es => e.stored ∧ PV.storedEs es
end
def PTable.stored (t : PTable) : Prop := holds t.ptr (t.entries.length * SIZEOF_ENTRY) ∧ PV.storedEs t.entries

/-! What amqp_table_clone can copy: known field kinds, non-empty keys, and no array with a non-NULL pointer but zero
elements. -/
mutual
def PV.cloneable : PV → Prop
  | .array p vs => (p = none ∨ vs ≠ []) ∧ PV.cloneables vs
  | .table _ es => PV.cloneableEs es
  | .other _ => False
  | _ => True
def PV.cloneables : List PV → Prop
  | [] => True
  | v :: vs => v.cloneable ∧ PV.cloneables vs
def PE.cloneable : PE → Prop
  | .mk _ k v => k ≠ [] ∧ v.cloneable
def PV.cloneableEs : List PE → Prop
  | [] => True
  | e :: es => e.cloneable ∧ PV.cloneableEs es
end
def PTable.cloneable (t : PTable) : Prop := PV.cloneableEs t.entries

end Rmq
