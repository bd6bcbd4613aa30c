import Verif.Model.Basic
/-!
# Time — librabbitmq/amqp_time.c; timeout setters of amqp_api.c; status strings of amqp_api.c

Time points are `uint64_t` nanoseconds, represented as naturals with the wrap-around written out.  `now` is what
amqp_get_monotonic_timestamp (amqp_time.c:65-80) returns, 0 if the clock failed.
-/
namespace Rmq

/-- `struct timeval` with 64-bit fields. (The argument of amqp_time.c:85-138.) -/
structure TimeVal where
  sec : Int
  usec : Int
deriving Repr, DecidableEq

/-- amqp_time_infinite, amqp_time.c:139-143: UINT64_MAX. -/
def TIME_INF : Nat := 2 ^ 64 - 1

/-- amqp_time_from_now, amqp_time.c:83-112. -/
def timeFromNow (now : Nat) (timeout : Option TimeVal) : Except Int Nat :=
  match timeout with
  | none => .ok TIME_INF
  | some tv =>
    if tv.sec < 0 ∨ tv.usec < 0 then .error St.INVALID_PARAMETER else
    let delta := (tv.sec.toNat * 1000000000 + tv.usec.toNat * 1000) % 2 ^ 64
    if now = 0 then .error St.TIMER_FAILURE else
    let t := (now + delta) % 2 ^ 64
    if now > t ∨ delta > t then .error St.INVALID_PARAMETER else .ok t

/-- amqp_time_s_from_now, amqp_time.c:114-137. -/
def timeSFromNow (now : Nat) (seconds : Int) : Except Int Nat :=
  if 0 ≥ seconds then .ok TIME_INF else
  if now = 0 then .error St.TIMER_FAILURE else
  let delta := (seconds.toNat * 1000000000) % 2 ^ 64
  let t := (now + delta) % 2 ^ 64
  if now > t ∨ delta > t then .error St.INVALID_PARAMETER else .ok t

/-- Conversion of a `uint64_t` to a 32-bit `int` (modulo 2^32, as the supported compilers do). (amqp_time.c:146-171.) -/
def toInt32 (n : Nat) : Int :=
  if n % 2 ^ 32 < 2 ^ 31 then (n % 2 ^ 32 : Nat) else (n % 2 ^ 32 : Nat) - 2 ^ 32

/-- amqp_time_ms_until, amqp_time.c:145-170. -/
def msUntil (now t : Nat) : Int :=
  if TIME_INF = t then -1 else
  if 0 = t then 0 else
  if now = 0 then St.TIMER_FAILURE else
  if now ≥ t then 0 else toInt32 ((t - now) / 1000000)

/-- amqp_time_tv_until, amqp_time.c:172-207 (`none` is `*out = NULL`). -/
def tvUntil (now t : Nat) : Except Int (Option TimeVal) :=
  if TIME_INF = t then .ok none else
  if 0 = t then .ok (some ⟨0, 0⟩) else
  if now = 0 then .error St.TIMER_FAILURE else
  if now ≥ t then .ok (some ⟨0, 0⟩) else
  .ok (some ⟨toInt32 ((t - now) / 1000000000), toInt32 (((t - now) % 1000000000) / 1000)⟩)

/-- amqp_time_has_past, amqp_time.c:209-225. -/
def hasPast (now t : Nat) : Int :=
  if TIME_INF = t then St.OK else
  if now = 0 then St.TIMER_FAILURE else
  if now > t then St.TIMEOUT else St.OK

/-- amqp_time_first, amqp_time.c:227-232. -/
def timeFirst (l r : Nat) : Nat := if l < r then l else r
/-- amqp_time_equal, amqp_time.c:234-236. -/
def timeEqual (l r : Nat) : Bool := l == r

/-! ## Timeout settings -/

/-- The four fields of amqp_private.h:155-158; the pointers are NULL or point to the `internal_` field beside them. -/
structure Timeouts where
  handshakeSet : Bool
  internalHandshake : TimeVal
  rpcSet : Bool
  internalRpc : TimeVal
deriving Repr, DecidableEq

/-- A new connection: `calloc` and amqp_connection.c:75-78 (AMQP_DEFAULT_LOGIN_TIMEOUT_SEC is 12, amqp_connection.c:29-31). -/
def newTimeouts : Timeouts := ⟨true, ⟨12, 0⟩, false, ⟨0, 0⟩⟩

/-- amqp_get_handshake_timeout, amqp_api.c:331-333. -/
def getHandshakeTimeout (s : Timeouts) : Option TimeVal := if s.handshakeSet then some s.internalHandshake else none
/-- amqp_get_rpc_timeout, amqp_api.c:350-352. -/
def getRpcTimeout (s : Timeouts) : Option TimeVal := if s.rpcSet then some s.internalRpc else none

/-- amqp_set_handshake_timeout, amqp_api.c:335-348. -/
def setHandshakeTimeout (s : Timeouts) : Option TimeVal → Int × Timeouts
  | some tv =>
    if tv.sec < 0 ∨ tv.usec < 0 then (St.INVALID_PARAMETER, s)
    else (St.OK, { s with internalHandshake := tv, handshakeSet := true })
  | none => (St.OK, { s with handshakeSet := false })

/-- amqp_set_rpc_timeout, amqp_api.c:354-366. -/
def setRpcTimeout (s : Timeouts) : Option TimeVal → Int × Timeouts
  | some tv =>
    if tv.sec < 0 ∨ tv.usec < 0 then (St.INVALID_PARAMETER, s)
    else (St.OK, { s with internalRpc := tv, rpcSet := true })
  | none => (St.OK, { s with rpcSet := false })

/-! ## Status strings -/

/-- base_error_strings, amqp_api.c:28-70. -/
def baseErrorStrings : List String := ["operation completed successfully", "could not allocate memory", "invalid AMQP data",
  "unknown AMQP class id", "unknown AMQP method id", "hostname lookup failed", "incompatible AMQP version",
  "connection closed unexpectedly", "could not parse AMQP URL", "a socket error occurred", "invalid parameter",
  "table too large for buffer", "unexpected method received", "request timed out", "system timer has failed",
  "heartbeat timeout, connection closed", "unexpected protocol state", "socket is closed", "socket already open",
  "unsupported sasl method requested", "parameter value is unsupported"]
/-- tcp_error_strings, amqp_api.c:72-76. -/
def tcpErrorStrings : List String := ["a socket error occurred", "socket library initialization failed"]
/-- ssl_error_strings, amqp_api.c:78-90. -/
def sslErrorStrings : List String := ["a SSL error occurred", "SSL hostname verification failed",
  "SSL peer cert verification failed", "SSL handshake failed", "SSL setting engine failed", "SSL API is not implemented"]
/-- unknown_error_string, amqp_api.c:92. -/
def unknownErrorString : String := "(unknown error)"

/-- amqp_error_string2, amqp_api.c:94-132, for a 32-bit `int`; `none` is the undefined negation of INT_MIN.  Masking with 0xFF00 and
0x00FF takes bits 8-15 and 0-7 of the two's complement representation. -/
def errorString2 (code : Int) : Option String :=
  if code = -(2 ^ 31) then none else
  let category := (((-code) % 65536) / 256).toNat
  let error := ((-code) % 256).toNat
  some <| match category with
  | 0 => baseErrorStrings.getD error unknownErrorString
  | 1 => tcpErrorStrings.getD error unknownErrorString
  | 2 => sslErrorStrings.getD error unknownErrorString
  | _ => unknownErrorString

end Rmq
