import Verif.Model.Methods0
import Verif.Spec.Wire
/-!
# Specification: the methods of AMQP 0-9-1 (with RabbitMQ's extensions) and their wire layout

Typed in from the published protocol definition (amqp0-9-1.xml and RabbitMQ's extensions), *not* derived from the C code:
class and method numbers, names, arguments with their domains, and whether the method carries content.
-/
namespace Rmq

/-- Elementary domains of the protocol. -/
inductive Dom where
  | octet | short | long | longlong | shortstr | longstr | table | bit
deriving Repr, DecidableEq

/-- A protocol method. -/
structure Proto where
  cls : Nat
  num : Nat
  clsName : String
  name : String
  args : List (Fld × Dom)
  content : Bool := false
deriving Repr, DecidableEq

/-- The 32-bit method number used by the API: class number in the high half, method number in the low half. -/
def Proto.id (p : Proto) : UInt32 := UInt32.ofNat (p.cls * 65536 + p.num)

open Dom in
/-- The protocol's methods. -/
def protocol : List Proto := [
  ⟨10, 10, "connection", "start", [(.version_major, octet), (.version_minor, octet), (.server_properties, table),
    (.mechanisms, longstr), (.locales, longstr)], false⟩,
  ⟨10, 11, "connection", "start-ok", [(.client_properties, table), (.mechanism, shortstr), (.response, longstr),
    (.locale, shortstr)], false⟩,
  ⟨10, 20, "connection", "secure", [(.challenge, longstr)], false⟩,
  ⟨10, 21, "connection", "secure-ok", [(.response, longstr)], false⟩,
  ⟨10, 30, "connection", "tune", [(.channel_max, short), (.frame_max, long), (.heartbeat, short)], false⟩,
  ⟨10, 31, "connection", "tune-ok", [(.channel_max, short), (.frame_max, long), (.heartbeat, short)], false⟩,
  ⟨10, 40, "connection", "open", [(.virtual_host, shortstr), (.capabilities, shortstr), (.insist, bit)], false⟩,
  ⟨10, 41, "connection", "open-ok", [(.known_hosts, shortstr)], false⟩,
  ⟨10, 50, "connection", "close", [(.reply_code, short), (.reply_text, shortstr), (.class_id, short),
    (.method_id, short)], false⟩,
  ⟨10, 51, "connection", "close-ok", [], false⟩,
  ⟨10, 60, "connection", "blocked", [(.reason, shortstr)], false⟩,
  ⟨10, 61, "connection", "unblocked", [], false⟩,
  ⟨10, 70, "connection", "update-secret", [(.new_secret, longstr), (.reason, shortstr)], false⟩,
  ⟨10, 71, "connection", "update-secret-ok", [], false⟩,
  ⟨20, 10, "channel", "open", [(.out_of_band, shortstr)], false⟩,
  ⟨20, 11, "channel", "open-ok", [(.channel_id, longstr)], false⟩,
  ⟨20, 20, "channel", "flow", [(.active, bit)], false⟩,
  ⟨20, 21, "channel", "flow-ok", [(.active, bit)], false⟩,
  ⟨20, 40, "channel", "close", [(.reply_code, short), (.reply_text, shortstr), (.class_id, short),
    (.method_id, short)], false⟩,
  ⟨20, 41, "channel", "close-ok", [], false⟩,
  ⟨30, 10, "access", "request", [(.realm, shortstr), (.exclusive, bit), (.passive, bit), (.active, bit), (.write, bit),
    (.read, bit)], false⟩,
  ⟨30, 11, "access", "request-ok", [(.ticket, short)], false⟩,
  ⟨40, 10, "exchange", "declare", [(.ticket, short), (.exchange, shortstr), (.type, shortstr), (.passive, bit),
    (.durable, bit), (.auto_delete, bit), (.internal, bit), (.nowait, bit), (.arguments, table)], false⟩,
  ⟨40, 11, "exchange", "declare-ok", [], false⟩,
  ⟨40, 20, "exchange", "delete", [(.ticket, short), (.exchange, shortstr), (.if_unused, bit), (.nowait, bit)], false⟩,
  ⟨40, 21, "exchange", "delete-ok", [], false⟩,
  ⟨40, 30, "exchange", "bind", [(.ticket, short), (.destination, shortstr), (.source, shortstr), (.routing_key, shortstr),
    (.nowait, bit), (.arguments, table)], false⟩,
  ⟨40, 31, "exchange", "bind-ok", [], false⟩,
  ⟨40, 40, "exchange", "unbind", [(.ticket, short), (.destination, shortstr), (.source, shortstr),
    (.routing_key, shortstr), (.nowait, bit), (.arguments, table)], false⟩,
  ⟨40, 51, "exchange", "unbind-ok", [], false⟩,
  ⟨50, 10, "queue", "declare", [(.ticket, short), (.queue, shortstr), (.passive, bit), (.durable, bit), (.exclusive, bit),
    (.auto_delete, bit), (.nowait, bit), (.arguments, table)], false⟩,
  ⟨50, 11, "queue", "declare-ok", [(.queue, shortstr), (.message_count, long), (.consumer_count, long)], false⟩,
  ⟨50, 20, "queue", "bind", [(.ticket, short), (.queue, shortstr), (.exchange, shortstr), (.routing_key, shortstr),
    (.nowait, bit), (.arguments, table)], false⟩,
  ⟨50, 21, "queue", "bind-ok", [], false⟩,
  ⟨50, 30, "queue", "purge", [(.ticket, short), (.queue, shortstr), (.nowait, bit)], false⟩,
  ⟨50, 31, "queue", "purge-ok", [(.message_count, long)], false⟩,
  ⟨50, 40, "queue", "delete", [(.ticket, short), (.queue, shortstr), (.if_unused, bit), (.if_empty, bit),
    (.nowait, bit)], false⟩,
  ⟨50, 41, "queue", "delete-ok", [(.message_count, long)], false⟩,
  ⟨50, 50, "queue", "unbind", [(.ticket, short), (.queue, shortstr), (.exchange, shortstr), (.routing_key, shortstr),
    (.arguments, table)], false⟩,
  ⟨50, 51, "queue", "unbind-ok", [], false⟩,
  ⟨60, 10, "basic", "qos", [(.prefetch_size, long), (.prefetch_count, short), (.global, bit)], false⟩,
  ⟨60, 11, "basic", "qos-ok", [], false⟩,
  ⟨60, 20, "basic", "consume", [(.ticket, short), (.queue, shortstr), (.consumer_tag, shortstr), (.no_local, bit),
    (.no_ack, bit), (.exclusive, bit), (.nowait, bit), (.arguments, table)], false⟩,
  ⟨60, 21, "basic", "consume-ok", [(.consumer_tag, shortstr)], false⟩,
  ⟨60, 30, "basic", "cancel", [(.consumer_tag, shortstr), (.nowait, bit)], false⟩,
  ⟨60, 31, "basic", "cancel-ok", [(.consumer_tag, shortstr)], false⟩,
  ⟨60, 40, "basic", "publish", [(.ticket, short), (.exchange, shortstr), (.routing_key, shortstr), (.mandatory, bit),
    (.immediate, bit)], true⟩,
  ⟨60, 50, "basic", "return", [(.reply_code, short), (.reply_text, shortstr), (.exchange, shortstr),
    (.routing_key, shortstr)], true⟩,
  ⟨60, 60, "basic", "deliver", [(.consumer_tag, shortstr), (.delivery_tag, longlong), (.redelivered, bit),
    (.exchange, shortstr), (.routing_key, shortstr)], true⟩,
  ⟨60, 70, "basic", "get", [(.ticket, short), (.queue, shortstr), (.no_ack, bit)], false⟩,
  ⟨60, 71, "basic", "get-ok", [(.delivery_tag, longlong), (.redelivered, bit), (.exchange, shortstr),
    (.routing_key, shortstr), (.message_count, long)], true⟩,
  ⟨60, 72, "basic", "get-empty", [(.cluster_id, shortstr)], false⟩,
  ⟨60, 80, "basic", "ack", [(.delivery_tag, longlong), (.multiple, bit)], false⟩,
  ⟨60, 90, "basic", "reject", [(.delivery_tag, longlong), (.requeue, bit)], false⟩,
  ⟨60, 100, "basic", "recover-async", [(.requeue, bit)], false⟩,
  ⟨60, 110, "basic", "recover", [(.requeue, bit)], false⟩,
  ⟨60, 111, "basic", "recover-ok", [], false⟩,
  ⟨60, 120, "basic", "nack", [(.delivery_tag, longlong), (.multiple, bit), (.requeue, bit)], false⟩,
  ⟨90, 10, "tx", "select", [], false⟩,
  ⟨90, 11, "tx", "select-ok", [], false⟩,
  ⟨90, 20, "tx", "commit", [], false⟩,
  ⟨90, 21, "tx", "commit-ok", [], false⟩,
  ⟨90, 30, "tx", "rollback", [], false⟩,
  ⟨90, 31, "tx", "rollback-ok", [], false⟩,
  ⟨85, 10, "confirm", "select", [(.nowait, bit)], false⟩,
  ⟨85, 11, "confirm", "select-ok", [], false⟩]

/-- The value has the type of the domain. -/
def Dom.admits : Dom → Val → Prop
  | .octet, .u8 _ => True
  | .short, .u16 _ => True
  | .long, .u32 _ => True
  | .longlong, .u64 _ => True
  | .shortstr, .bytes _ => True
  | .longstr, .bytes _ => True
  | .table, .table _ => True
  | .bit, .bool _ => True
  | _, _ => False

/-- The value can be represented on the wire: short strings up to 255 bytes, long strings below 2^32 bytes, tables of known
kinds. -/
def Dom.encodable : Dom → Val → Prop
  | .shortstr, .bytes b => b.length ≤ 255
  | .longstr, .bytes b => b.length < 2 ^ 32
  | .table, .table t => kindsOKEs t
  | _, _ => True

/-- The value survives a round trip: in addition tables are representable and not nested beyond the decoder's limit, and
booleans are 0 or 1. -/
def Dom.faithful : Dom → Val → Prop
  | .table, .table t => representableTable t ∧ nestingEs t ≤ 101
  | .bit, .bool v => v = 0 ∨ v = 1
  | _, _ => True

/-- The struct holds exactly the method's arguments, in order, each of its type. -/
inductive HasArgs : List (Fld × Dom) → Rec → Prop where
  | nil : HasArgs [] []
  | cons {f d v as r} : d.admits v → HasArgs as r → HasArgs ((f, d) :: as) ((f, v) :: r)

/-- Every argument satisfies `P`. -/
def AllArgs (P : Dom → Val → Prop) : List (Fld × Dom) → Rec → Prop
  | (_, d) :: as, (_, v) :: r => P d v ∧ AllArgs P as r
  | _, _ => True

/-- The wire form of a single (non-bit) argument. -/
def serDom : Dom → Val → Bytes
  | .octet, .u8 x => beBytes 1 x.toNat
  | .short, .u16 x => beBytes 2 x.toNat
  | .long, .u32 x => beBytes 4 x.toNat
  | .longlong, .u64 x => beBytes 8 x.toNat
  | .shortstr, .bytes b => serShort b
  | .longstr, .bytes b => serLong b
  | .table, .table t => serTable t
  | _, _ => []

/-- Bits are packed into an octet, first bit lowest. -/
def bitsVal : List Bool → Nat
  | [] => 0
  | b :: bs => (if b then 1 else 0) + 2 * bitsVal bs
/-- The octet for a run of bits (no octet for no bits). -/
def serBits : List Bool → Bytes
  | [] => []
  | bs => beBytes 1 (bitsVal bs)

/-- The wire form of an argument list; consecutive bits share octets, eight to an octet.  The last argument holds the bits
not yet written. -/
def serArgs : List (Fld × Dom) → Rec → List Bool → Bytes
  | (_, .bit) :: as, (_, .bool v) :: r, p =>
    if p.length = 8 then serBits p ++ serArgs as r [decide (v ≠ 0)] else serArgs as r (p ++ [decide (v ≠ 0)])
  | (_, d) :: as, (_, v) :: r, p => serBits p ++ serDom d v ++ serArgs as r []
  | _, _, p => serBits p

/-! ## Content properties -/

/-- The properties of class basic: their bit in the flag word, name and domain, in the order they are written. -/
def basicProps : List (Nat × Fld × Dom) := [
  (15, .content_type, .shortstr), (14, .content_encoding, .shortstr), (13, .headers, .table), (12, .delivery_mode, .octet),
  (11, .priority, .octet), (10, .correlation_id, .shortstr), (9, .reply_to, .shortstr), (8, .expiration, .shortstr),
  (7, .message_id, .shortstr), (6, .timestamp, .longlong), (5, .type, .shortstr), (4, .user_id, .shortstr),
  (3, .app_id, .shortstr), (2, .cluster_id, .shortstr)]

/-- The classes that have a property list; only basic has properties. -/
def propClasses : List (UInt16 × List (Nat × Fld × Dom)) :=
  [(10, []), (20, []), (30, []), (40, []), (50, []), (60, basicProps), (90, []), (85, [])]

/-- Is bit `i` of the flag word set? -/
def flagSet (flags : UInt32) (i : Nat) : Prop := flags.toNat.testBit i = true
instance (flags : UInt32) (i : Nat) : Decidable (flagSet flags i) := inferInstanceAs (Decidable (_ = true))

/-- The flagged properties of `r`, in wire order. -/
def flaggedProps (flags : UInt32) (r : Rec) : List (Nat × Fld × Dom) → Rec
  | [] => []
  | (i, f, _) :: ps =>
    match r.get? f with
    | some v => if flagSet flags i then (f, v) :: flaggedProps flags r ps else flaggedProps flags r ps
    | none => flaggedProps flags r ps

/-- The wire form of the flagged properties. -/
def serProps (flags : UInt32) (r : Rec) : List (Nat × Fld × Dom) → Bytes
  | [] => []
  | (i, f, d) :: ps =>
    match r.get? f with
    | some v => if flagSet flags i then serDom d v ++ serProps flags r ps else serProps flags r ps
    | none => serProps flags r ps

/-- Every flagged property is present, of its type, and satisfies `P`. -/
def PropsOK (P : Dom → Val → Prop) (flags : UInt32) (r : Rec) (ps : List (Nat × Fld × Dom)) : Prop :=
  ∀ p ∈ ps, flagSet flags p.1 → ∃ v, r.get? p.2.1 = some v ∧ p.2.2.admits v ∧ P p.2.2 v

end Rmq
