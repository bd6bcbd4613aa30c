import Verif.Spec.Wire
/-!
# Specification: which octets spell which table

The AMQP 0-9-1 grammar read from the octets: a relation between octet strings and tables, rather than the one canonical
serialisation of `Verif.Spec.Wire`.  Two rules of the grammar are switches, so that the strict grammar and its lax reading can
be compared:

* `strict`: every entry of a container ends inside the container's declared length.  Without it the *last* entry may end
  later (an entry still has to begin inside the declared length).
* `canon`: a boolean octet is 0 or 1.  Without it every non-zero octet means true.
-/
namespace Rmq

/-- Values that contain no other values and are not booleans. -/
def isPlain : FV → Prop
  | .boolean _ => False
  | .array _ => False
  | .table _ => False
  | .other _ => False
  | _ => True

mutual
/-- `SpellFV strict canon bs v`: the octets `bs` are a field value `v`. -/
inductive SpellFV (strict canon : Prop) : Bytes → FV → Prop
  | boolean (b : UInt8) : (canon → b = 0 ∨ b = 1) → SpellFV strict canon ['t'.toUInt8, b] (.boolean (if b = 0 then 0 else 1))
  | plain (v : FV) : isPlain v → representable v → SpellFV strict canon (serFV v) v
  | array (n : Nat) (bs : Bytes) (vs : List FV) : n < 2 ^ 32 → SpellFVs strict canon n bs vs →
      SpellFV strict canon ('A'.toUInt8 :: (beBytes 4 n ++ bs)) (.array vs)
  | table (n : Nat) (bs : Bytes) (es : List Entry) : n < 2 ^ 32 → SpellEntries strict canon n bs es →
      SpellFV strict canon ('F'.toUInt8 :: (beBytes 4 n ++ bs)) (.table es)
/-- `SpellFVs strict canon n bs vs`: `bs` are the values `vs`, `n` octets of the array's declared length being left. -/
inductive SpellFVs (strict canon : Prop) : Nat → Bytes → List FV → Prop
  | nil : SpellFVs strict canon 0 [] []
  | cons (n : Nat) (a bs : Bytes) (v : FV) (vs : List FV) : 0 < n → (strict → a.length ≤ n) → SpellFV strict canon a v →
      SpellFVs strict canon (n - a.length) bs vs → SpellFVs strict canon n (a ++ bs) (v :: vs)
/-- `SpellEntries strict canon n bs es`: the same for the name/value pairs of a table; a name is at most 255 octets. -/
inductive SpellEntries (strict canon : Prop) : Nat → Bytes → List Entry → Prop
  | nil : SpellEntries strict canon 0 [] []
  | cons (n : Nat) (k a bs : Bytes) (v : FV) (es : List Entry) : 0 < n → k.length ≤ 255 →
      (strict → (serShort k ++ a).length ≤ n) → SpellFV strict canon a v →
      SpellEntries strict canon (n - (serShort k ++ a).length) bs es →
      SpellEntries strict canon n (serShort k ++ (a ++ bs)) (.mk k v :: es)
end

/-- The octets `bs` are a table `t`: a 32-bit length and the name/value pairs. -/
def SpellTable (strict canon : Prop) (bs : Bytes) (t : Table) : Prop :=
  ∃ n body, n < 2 ^ 32 ∧ bs = beBytes 4 n ++ body ∧ SpellEntries strict canon n body t

end Rmq
