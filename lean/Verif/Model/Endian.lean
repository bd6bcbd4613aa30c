import Verif.Model.Basic
/-!
# Byte-order primitives — librabbitmq/amqp_private.h:204-299

`is_bigendian()` (amqp_private.h:204-210) is the Boolean parameter `be` (host byte order).  `memcpy(data, &val, sizeof val)`
copies the host representation of the integer: `native…` below.
-/
namespace Rmq

/-- Host representation of an 8-bit object (memcpy in amqp_e8, amqp_private.h:212-214). -/
def native8 (v : UInt8) : Bytes := [v]
/-- Host representation of a `uint16_t` for either byte order. (The memory of the variable that amqp_private.h:205-269 copies out.) -/
def native16 (be : Bool) (v : UInt16) : Bytes :=
  let lo := v.toUInt8; let hi := (v >>> 8).toUInt8
  if be then [hi, lo] else [lo, hi]
/-- Host representation of a `uint32_t`. (The memory of the variable that amqp_private.h:205-269 copies out.) -/
def native32 (be : Bool) (v : UInt32) : Bytes :=
  let bs := [v.toUInt8, (v >>> 8).toUInt8, (v >>> 16).toUInt8, (v >>> 24).toUInt8]
  if be then bs.reverse else bs
/-- Host representation of a `uint64_t`. (The memory of the variable that amqp_private.h:205-269 copies out.) -/
def native64 (be : Bool) (v : UInt64) : Bytes :=
  let bs := [v.toUInt8, (v >>> 8).toUInt8, (v >>> 16).toUInt8, (v >>> 24).toUInt8,
             (v >>> 32).toUInt8, (v >>> 40).toUInt8, (v >>> 48).toUInt8, (v >>> 56).toUInt8]
  if be then bs.reverse else bs

/-- Reading the host representation back (`memcpy(&val, data, sizeof val)`); `none` if not exactly 2 bytes. (amqp_private.h:205-290.) -/
def load16 (be : Bool) : Bytes → Option UInt16
  | [a, b] => let (lo, hi) := if be then (b, a) else (a, b)
              some (lo.toUInt16 ||| (hi.toUInt16 <<< 8))
  | _ => none
/-- amqp_private.h:205-290. -/
def load32 (be : Bool) : Bytes → Option UInt32
  | [a, b, c, d] =>
      let le (a b c d : UInt8) : UInt32 :=
        a.toUInt32 ||| (b.toUInt32 <<< 8) ||| (c.toUInt32 <<< 16) ||| (d.toUInt32 <<< 24)
      some (if be then le d c b a else le a b c d)
  | _ => none
/-- amqp_private.h:205-290. -/
def load64 (be : Bool) : Bytes → Option UInt64
  | [a, b, c, d, e, f, g, h] =>
      let le (a b c d e f g h : UInt8) : UInt64 :=
        a.toUInt64 ||| (b.toUInt64 <<< 8) ||| (c.toUInt64 <<< 16) ||| (d.toUInt64 <<< 24) |||
        (e.toUInt64 <<< 32) ||| (f.toUInt64 <<< 40) ||| (g.toUInt64 <<< 48) ||| (h.toUInt64 <<< 56)
      some (if be then le h g f e d c b a else le a b c d e f g h)
  | _ => none

/-- The swap expression of amqp_e16/amqp_d16, amqp_private.h:224, 233. -/
def swap16 (v : UInt16) : UInt16 := ((v &&& 0xFF00) >>> 8) ||| ((v &&& 0x00FF) <<< 8)
/-- The swap expression of amqp_e32/amqp_d32, amqp_private.h:240-241, 250-251. -/
def swap32 (v : UInt32) : UInt32 :=
  ((v &&& 0xFF000000) >>> 24) ||| ((v &&& 0x00FF0000) >>> 8) |||
  ((v &&& 0x0000FF00) <<< 8) ||| ((v &&& 0x000000FF) <<< 24)
/-- The swap expression of amqp_e64/amqp_d64, amqp_private.h:258-265, 274-281. -/
def swap64 (v : UInt64) : UInt64 :=
  ((v &&& 0xFF00000000000000) >>> 56) ||| ((v &&& 0x00FF000000000000) >>> 40) |||
  ((v &&& 0x0000FF0000000000) >>> 24) ||| ((v &&& 0x000000FF00000000) >>> 8) |||
  ((v &&& 0x00000000FF000000) <<< 8) ||| ((v &&& 0x0000000000FF0000) <<< 24) |||
  ((v &&& 0x000000000000FF00) <<< 40) ||| ((v &&& 0x00000000000000FF) <<< 56)

/-- amqp_e8, amqp_private.h:212-214. -/
def e8 (v : UInt8) : Bytes := native8 v
/-- amqp_e16, amqp_private.h:222-227. -/
def e16 (be : Bool) (v : UInt16) : Bytes := native16 be (if be then v else swap16 v)
/-- amqp_e32, amqp_private.h:238-244. -/
def e32 (be : Bool) (v : UInt32) : Bytes := native32 be (if be then v else swap32 v)
/-- amqp_e64, amqp_private.h:256-268. -/
def e64 (be : Bool) (v : UInt64) : Bytes := native64 be (if be then v else swap64 v)

/-- amqp_d8, amqp_private.h:216-220. -/
def d8 : Bytes → Option UInt8
  | [a] => some a
  | _ => none
/-- amqp_d16, amqp_private.h:229-236. -/
def d16 (be : Bool) (bs : Bytes) : Option UInt16 := (load16 be bs).map fun v => if be then v else swap16 v
/-- amqp_d32, amqp_private.h:246-254. -/
def d32 (be : Bool) (bs : Bytes) : Option UInt32 := (load32 be bs).map fun v => if be then v else swap32 v
/-- amqp_d64, amqp_private.h:270-284. -/
def d64 (be : Bool) (bs : Bytes) : Option UInt64 := (load64 be bs).map fun v => if be then v else swap64 v

end Rmq
