import Verif.Model.Construct
/-!
# What an application builds with the constructors, and what the peer is to see of it (C99)
-/
namespace Rmq

/-- One call of a constructor: amqp_table_construct_utf8_entry, _bool_entry, or _table_entry on a table built in the same way. -/
inductive Field where
  | text (key value : Bytes)
  | flag (key : Bytes) (value : Int32)
  | sub (key : Bytes) (fields : List Field)

mutual
/-- The calls, one after the other. -/
def buildOne : Field → Option Entry
  | .text k v => constructUtf8 k v
  | .flag k v => constructBool k v
  | .sub k fs => do constructTable k (← buildAll fs)
def buildAll : List Field → Option Table
  | [] => some []
  | f :: fs => do
    let e ← buildOne f
    let es ← buildAll fs
    pure (e :: es)
end

/-- The text of a C string: what comes before the first NUL. -/
def text (cstr : Bytes) : Bytes := cstr.takeWhile (· ≠ 0)

mutual
/-- What the peer is to see: keys and strings up to the first NUL, a boolean that is 1 for any `int` but 0. -/
def seenOne : Field → Entry
  | .text k v => .mk (text k) (.utf8 (text v))
  | .flag k v => .mk (text k) (.boolean (if v = 0 then 0 else 1))
  | .sub k fs => .mk (text k) (.table (seenAll fs))
def seenAll : List Field → Table
  | [] => []
  | f :: fs => seenOne f :: seenAll fs
end

mutual
/-- Every string given has its NUL. -/
def terminatedOne : Field → Prop
  | .text k v => 0 ∈ k ∧ 0 ∈ v
  | .flag k _ => 0 ∈ k
  | .sub k fs => 0 ∈ k ∧ terminatedAll fs
def terminatedAll : List Field → Prop
  | [] => True
  | f :: fs => terminatedOne f ∧ terminatedAll fs
end

mutual
/-- Every key has at most 255 octets before its NUL. -/
def shortKeysOne : Field → Prop
  | .text k _ => (text k).length ≤ 255
  | .flag k _ => (text k).length ≤ 255
  | .sub k fs => (text k).length ≤ 255 ∧ shortKeysAll fs
def shortKeysAll : List Field → Prop
  | [] => True
  | f :: fs => shortKeysOne f ∧ shortKeysAll fs
end

mutual
/-- How deep tables are nested: 0 for no fields at all, 1 for plain fields, 2 if a field is a table with plain fields … -/
def levelsOne : Field → Nat
  | .sub _ fs => levelsAll fs
  | _ => 0
def levelsAll : List Field → Nat
  | [] => 0
  | f :: fs => max (levelsOne f + 1) (levelsAll fs)
end

end Rmq
