import Verif.Model.Table
/-!
# Building tables from C strings — amqp_mem.c:135-140, amqp_table.c:615-640

A `const char *` argument is given by the bytes of memory from where it points to the end of the object it points into.  `none` is
undefined behaviour: `strlen` running off the object.
-/
namespace Rmq

/-- `strlen` (C standard). (Called at amqp_mem.c:137.) -/
def strlen : Bytes → Option Nat
  | [] => none
  | c :: rest => if c = 0 then some 0 else (strlen rest).map (· + 1)

/-- amqp_cstring_bytes, amqp_mem.c:135-140: `len` and the bytes it covers. -/
def cstringBytes (cstr : Bytes) : Option Bytes := (strlen cstr).map fun n => cstr.take n

/-- amqp_table_construct_utf8_entry, amqp_table.c:615-622. -/
def constructUtf8 (key value : Bytes) : Option Entry := do
  let k ← cstringBytes key
  let v ← cstringBytes value
  pure (.mk k (.utf8 v))

/-- amqp_table_construct_table_entry, amqp_table.c:624-631. -/
def constructTable (key : Bytes) (value : Table) : Option Entry := do
  let k ← cstringBytes key
  pure (.mk k (.table value))

/-- amqp_table_construct_bool_entry, amqp_table.c:633-640. -/
def constructBool (key : Bytes) (value : Int32) : Option Entry := do
  let k ← cstringBytes key
  pure (.mk k (.boolean value))

end Rmq
