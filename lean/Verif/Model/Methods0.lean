import Verif.Model.Table
/-!
# Vocabulary of the method and property (de)serialisers
-/
namespace Rmq

/-- The names of the fields of the method and property structs (include/rabbitmq-c/framing.h:150-871). -/
inductive Fld where
  | version_major | version_minor | server_properties | mechanisms | locales | client_properties | mechanism
  | response | locale | challenge | channel_max | frame_max | heartbeat | virtual_host
  | capabilities | insist | known_hosts | reply_code | reply_text | class_id | method_id
  | reason | new_secret | out_of_band | channel_id | active | realm | exclusive
  | passive | write | read | ticket | exchange | type | durable
  | auto_delete | internal | nowait | arguments | if_unused | destination | source
  | routing_key | queue | message_count | consumer_count | if_empty | prefetch_size | prefetch_count
  | global | consumer_tag | no_local | no_ack | mandatory | immediate | delivery_tag
  | redelivered | cluster_id | multiple | requeue | content_type | content_encoding | headers
  | delivery_mode | priority | correlation_id | reply_to | expiration | message_id | timestamp
  | user_id | app_id
deriving Repr, DecidableEq

/-- C types of struct fields (include/rabbitmq-c/framing.h:150-871). -/
inductive CType where
  | octet | short | long | longlong | bytes | table | bool
deriving Repr, DecidableEq

/-- Wire types handled by the generated code. (The statements and struct members codegen.py:25-172, 244-684 generates into amqp_framing.c and framing.h.) -/
inductive FT where
  | octet | short | long | longlong | shortstr | longstr | table
deriving Repr, DecidableEq

/-- One step of a generated (de)serialiser: a field, or an octet of packed bits with the shift of each. (The statements and struct members codegen.py:25-172, 244-684 generates into amqp_framing.c and framing.h.) -/
inductive Op where
  | field (t : FT) (f : Fld)
  | bits (bs : List (Fld × Nat))
deriving Repr, DecidableEq

/-- The value of a struct field; `bool` is `amqp_boolean_t`, a C `int`. (The statements and struct members codegen.py:25-172, 244-684 generates into amqp_framing.c and framing.h.) -/
inductive Val where
  | u8 (v : UInt8) | u16 (v : UInt16) | u32 (v : UInt32) | u64 (v : UInt64)
  | bytes (b : Bytes) | table (t : Table) | bool (v : Int32)

/-- The contents of a method or property struct: its fields with their values. (The statements and struct members codegen.py:25-172, 244-684 generates into amqp_framing.c and framing.h.) -/
abbrev Rec := List (Fld × Val)

/-- `m->f`. (The statements and struct members codegen.py:25-172, 244-684 generates into amqp_framing.c and framing.h.) -/
def Rec.get? (r : Rec) (f : Fld) : Option Val := (r.find? (fun p => p.1 = f)).map (·.2)

end Rmq
