import Verif.Model.TableOps
/-!
# Specification of key comparison, lookup and merging of tables (values, no storage)
-/
namespace Rmq

/-- What the C standard promises of `memcmp` on two blocks of equal length: zero exactly on equal contents, negative
exactly when the first is lexicographically smaller (bytes compared as unsigned char). -/
def MemcmpSpec (memcmp : Bytes → Bytes → Int) : Prop :=
  ∀ a b : Bytes, a.length = b.length → (memcmp a b = 0 ↔ a = b) ∧ (memcmp a b < 0 ↔ a < b)

/-- A memcmp meeting the promise, for use in examples. -/
def refMemcmp : Bytes → Bytes → Int
  | a :: as, b :: bs => if a < b then -1 else if b < a then 1 else refMemcmp as bs
  | _, _ => 0

/-- The value a table gives to a key: that of the first entry with the key. -/
def lookup : Table → Bytes → Option FV
  | [], _ => none
  | .mk k v :: es, key => if k = key then some v else lookup es key

/-! The merge of two tables: every entry of `base`, in order, overridden by the entry of `add` with the same key if there is
one (two tables are merged recursively instead), followed by the entries of `add` whose key `base` does not have. -/
mutual
def mergedV : (add : FV) → (base : FV) → FV
  | .table ts, .table bs => .table (bs.map (overrideE ts) ++ ts.filter (fun a => a.key ∉ bs.map Entry.key))
  | a, _ => a
def mergedE : (add : Entry) → (base : FV) → FV
  | .mk _ v, b => mergedV v b
def overrideE : (add : List Entry) → (e : Entry) → Entry
  | [], e => e
  | a :: rest, e => if a.key = e.key then .mk e.key (mergedE a e.value) else overrideE rest e
end
def mergeSpec (base add : Table) : Table :=
  base.map (overrideE add) ++ add.filter (fun a => a.key ∉ base.map Entry.key)

/-! No table, at any level reachable through tables, has two entries with the same key. -/
mutual
def distinctV : FV → Prop
  | .table es => (es.map Entry.key).Nodup ∧ distinctEs es
  | _ => True
def distinctE : Entry → Prop
  | .mk _ v => distinctV v
def distinctEs : List Entry → Prop
  | [] => True
  | e :: es => distinctE e ∧ distinctEs es
end
def distinctKeys (t : Table) : Prop := (t.map Entry.key).Nodup ∧ distinctEs t

/-! Every table nested (through tables) in the value is non-empty. -/
mutual
def nonEmptyV : FV → Prop
  | .table es => es ≠ [] ∧ nonEmptyEs es
  | _ => True
def nonEmptyE : Entry → Prop
  | .mk _ v => nonEmptyV v
def nonEmptyEs : List Entry → Prop
  | [] => True
  | e :: es => nonEmptyE e ∧ nonEmptyEs es
end

end Rmq
