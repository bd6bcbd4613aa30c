import Verif.Spec.Tables
/-!
# Merging tables in which keys may occur more than once

What the comment of `amqp_merge_capabilities` says of tables with distinct keys is `mergeSpec` (Spec/Tables).  With a key that occurs
twice the entries of `add` take effect one after the other.
-/
namespace Rmq

/-- `t` with the value of the first entry with key `k` replaced. -/
def setFirst (k : Bytes) (v : FV) : Table → Table
  | [] => []
  | e :: es => if e.key = k then .mk e.key v :: es else e :: setFirst k v es

def FV.isTable : FV → Bool
  | .table _ => true
  | _ => false

/-! The entries of `add` are put into `temp`, which starts as `base`, one after the other.  An entry with a new key is appended.  An
entry with a known key replaces the value in place, except that where both the value found and the new one are tables, the new one is
merged into **`base`'s** value for the key; `none` if `base` has no table there. -/
mutual
def mergeTable : (add : FV) → (base : Table) → Option Table
  | .table ts, base => mergeAll ts base base
  | _, _ => none
def mergeOne : (a : Entry) → (base temp : Table) → Option Table
  | .mk k v, base, temp =>
    match lookup temp k with
    | none => some (temp ++ [.mk k v])
    | some w =>
      if v.isTable && w.isTable then
        match lookup base k with
        | some (.table bs) => (mergeTable v bs).map fun r => setFirst k (.table r) temp
        | _ => none
      else some (setFirst k v temp)
def mergeAll : (add : List Entry) → (base temp : Table) → Option Table
  | [], _, temp => some temp
  | a :: rest, base, temp => (mergeOne a base temp).bind (mergeAll rest base)
end

/-- The merge of any two tables; `none` if it is not defined. -/
def mergeOnto (base add : Table) : Option Table := mergeAll add base base

/-- The value of a key when the entries `pre` of `add` have been dealt with: that of the last of them with the key, else `base`'s.  (A
table may have been merged with another one by then.) -/
def latest (base pre : Table) (k : Bytes) : Option FV := (lookup pre.reverse k).or (lookup base k)

/-- `add` has two tables under one key, with nothing else under that key between them, and `base` has no table there; or this is so of
two tables that are merged with each other. -/
inductive Twins : (base add : Table) → Prop where
  | here (base pre post : Table) (k : Bytes) (ts us : Table) : latest base pre k = some (.table us) → (∀ bs, lookup base k ≠ some (.table bs)) →
      Twins base (pre ++ .mk k (.table ts) :: post)
  | inside (base pre post : Table) (k : Bytes) (ts us bs : Table) : latest base pre k = some (.table us) → lookup base k = some (.table bs) →
      Twins bs ts → Twins base (pre ++ .mk k (.table ts) :: post)

end Rmq
