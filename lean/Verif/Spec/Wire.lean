import Verif.Model.Table
import Verif.Spec.BigEndian
/-!
# Specification: the AMQP 0-9-1 wire layout of field values and tables

Written from the protocol grammar (with the RabbitMQ field-type letters of include/rabbitmq-c/amqp.h:341-363), not from the
C encoder: a value is its type letter followed by its payload, integers are big-endian, strings and containers are preceded
by their length.
-/
namespace Rmq

/-- `short-string = octet *string-char`. -/
def serShort (b : Bytes) : Bytes := beBytes 1 b.length ++ b
/-- `long-string = long-uint *octet`; also the framing of arrays and tables. -/
def serLong (b : Bytes) : Bytes := beBytes 4 b.length ++ b

mutual
/-- A field value: type letter, then payload. -/
def serFV : FV → Bytes
  | .boolean v => 't'.toUInt8 :: [if v = 0 then 0 else 1]
  | .i8 v => 'b'.toUInt8 :: beBytes 1 v.toUInt8.toNat
  | .u8 v => 'B'.toUInt8 :: beBytes 1 v.toNat
  | .i16 v => 's'.toUInt8 :: beBytes 2 v.toUInt16.toNat
  | .u16 v => 'u'.toUInt8 :: beBytes 2 v.toNat
  | .i32 v => 'I'.toUInt8 :: beBytes 4 v.toUInt32.toNat
  | .u32 v => 'i'.toUInt8 :: beBytes 4 v.toNat
  | .i64 v => 'l'.toUInt8 :: beBytes 8 v.toUInt64.toNat
  | .u64 v => 'L'.toUInt8 :: beBytes 8 v.toNat
  | .f32 v => 'f'.toUInt8 :: beBytes 4 v.toNat
  | .f64 v => 'd'.toUInt8 :: beBytes 8 v.toNat
  | .decimal d v => 'D'.toUInt8 :: (beBytes 1 d.toNat ++ beBytes 4 v.toNat)
  | .utf8 b => 'S'.toUInt8 :: serLong b
  | .bytes b => 'x'.toUInt8 :: serLong b
  | .array vs => 'A'.toUInt8 :: serLong (serFVs vs)
  | .timestamp v => 'T'.toUInt8 :: beBytes 8 v.toNat
  | .table es => 'F'.toUInt8 :: serLong (serEntries es)
  | .void => ['V'.toUInt8]
  | .other k => [k]
def serFVs : List FV → Bytes
  | [] => []
  | v :: vs => serFV v ++ serFVs vs
def serEntry : Entry → Bytes
  | .mk k v => serShort k ++ serFV v
def serEntries : List Entry → Bytes
  | [] => []
  | e :: es => serEntry e ++ serEntries es
end

/-- A table on the wire: 32-bit byte count, then the name/value pairs. -/
def serTable (es : Table) : Bytes := serLong (serEntries es)

/-! Every kind is one of the field kinds AMQP defines (no `other`), at every level. -/
mutual
def kindsOK : FV → Prop
  | .other _ => False
  | .array vs => kindsOKs vs
  | .table es => kindsOKEs es
  | _ => True
def kindsOKs : List FV → Prop
  | [] => True
  | v :: vs => kindsOK v ∧ kindsOKs vs
def kindsOKE : Entry → Prop
  | .mk _ v => kindsOK v
def kindsOKEs : List Entry → Prop
  | [] => True
  | e :: es => kindsOKE e ∧ kindsOKEs es
end

/-! Representable: AMQP kinds only, keys at most 255 bytes, strings/arrays/tables shorter than 2^32 bytes, booleans 0 or 1. -/
mutual
def representable : FV → Prop
  | .boolean v => v = 0 ∨ v = 1
  | .utf8 b => b.length < 2 ^ 32
  | .bytes b => b.length < 2 ^ 32
  | .array vs => (serFVs vs).length < 2 ^ 32 ∧ representables vs
  | .table es => (serEntries es).length < 2 ^ 32 ∧ representableEs es
  | .other _ => False
  | _ => True
def representables : List FV → Prop
  | [] => True
  | v :: vs => representable v ∧ representables vs
def representableE : Entry → Prop
  | .mk k v => k.length ≤ 255 ∧ representable v
def representableEs : List Entry → Prop
  | [] => True
  | e :: es => representableE e ∧ representableEs es
end

/-- A table all of whose parts are representable. -/
def representableTable (es : Table) : Prop := (serEntries es).length < 2 ^ 32 ∧ representableEs es

/-! Number of containers (arrays/tables) on the longest path from the outermost container's values down to a value:
`nesting v = 0` for a scalar or an empty container. -/
mutual
def nesting : FV → Nat
  | .array vs => nestings vs
  | .table es => nestingEs es
  | _ => 0
/-- 0 for the empty list, otherwise 1 + the deepest element. -/
def nestings : List FV → Nat
  | [] => 0
  | v :: vs => max (nesting v + 1) (nestings vs)
def nestingE : Entry → Nat
  | .mk _ v => nesting v
def nestingEs : List Entry → Nat
  | [] => 0
  | e :: es => max (nestingE e + 1) (nestingEs es)
end

end Rmq
