import Verif.Model.Api
import Verif.Model.RpcTable
/-!
# Calls to the server — librabbitmq/amqp_socket.c:1110-1140, amqp_framing.c:2457-2919, amqp_api.c:251-329
-/
namespace Rmq

/-- A connection with the field `most_recent_api_result` of amqp_connection_state_t (amqp_private.h:149); `none` is the
AMQP_RESPONSE_NONE of a new connection (calloc). -/
structure App where
  conn : Conn
  last : Option Reply

/-- Runs a call on the connection; `most_recent_api_result` stays. (No lines of /repo: the callees of the functions in amqp_api.c do not touch `most_recent_api_result`.) -/
def App.lift {α : Type} (x : M Conn α) : M App α := fun a =>
  match x a.conn with
  | .ok v s => .ok v { a with conn := s }
  | .err e s => .err e { a with conn := s }
  | .ub => .ub
  | .fuel => .fuel

/-- amqp_simple_rpc_decoded, amqp_socket.c:1110-1136: the decoded reply (`none` is NULL). -/
def rpcDecoded (E : NetEnv) (ch : UInt16) (id reply : UInt32) (args : Rec) : M App (Option Rec) := fun a =>
  match fromNowIO E (getRpcTimeout a.conn.timeouts) a.conn with
  | .ub => .ub
  | .fuel => .fuel
  | .err e s => .ok none ⟨s, some (.libraryException e)⟩
  | .ok deadline s =>
    match rpcInner E ch id [reply] args deadline s with
    | .ub => .ub
    | .fuel => .fuel
    | .err e s => .err e { a with conn := s }
    | .ok r s => .ok (match r with | .normal _ args => some args | _ => none) ⟨s, some r⟩

/-- amqp_get_rpc_reply, amqp_socket.c:1138-1140. -/
def getRpcReply (a : App) : Option Reply := a.last

/-- The literal 0 converted to the type of the field. (codegen.py:244-484, amqp_framing.c.) -/
def CType.zero : CType → Option Val
  | .octet => some (.u8 0)
  | .short => some (.u16 0)
  | .long => some (.u32 0)
  | .longlong => some (.u64 0)
  | .bool => some (.bool 0)
  | .bytes | .table => none

/-- The value of an assignment `req.f = …` in the generated functions, e.g. amqp_framing.c:2537-2545. -/
def Src.val (args : List Val) : Src → Option Val
  | .param i => args[i]?
  | .zero t => t.zero
  | .empty => some (.bytes [])

/-- The struct `req` after the assignments. (The assignments codegen.py:244-484 generates into amqp_framing.c.) -/
def buildReq (args : List Val) : List (Fld × Src) → Option Rec
  | [] => some []
  | (f, src) :: rest =>
    match src.val args, buildReq args rest with
    | some v, some r => some ((f, v) :: r)
    | _, _ => none

/-- The generated functions, amqp_framing.c:2466-2919, by name.  A call with arguments of other types or number does not compile (here:
undefined). -/
def callRpc (E : NetEnv) (name : String) (ch : UInt16) (args : List Val) : M App (Option Rec) :=
  match rpcTable.find? (fun f => f.name = name) with
  | none => M.ub
  | some f =>
    match buildReq args f.req with
    | none => M.ub
    | some req => rpcDecoded E ch f.request f.reply req

/-- `sprintf(codestr, "%d", code)` for a non-negative number: decimal digits, most significant first. (sprintf of the reply text, amqp_api.c:251-288.) -/
def decimal (n : Nat) : Bytes :=
  if n < 10 then [UInt8.ofNat (48 + n)] else decimal (n / 10) ++ [UInt8.ofNat (48 + n % 10)]

/-- The struct filled in by amqp_channel_close and amqp_connection_close (both use amqp_channel_close_t, which has the layout of
amqp_connection_close_t), amqp_api.c:261-265 and 281-285. -/
def closeArgs (code : Int) : Rec :=
  [(.reply_code, .u16 (UInt16.ofNat code.toNat)), (.reply_text, .bytes (decimal code.toNat)), (.class_id, .u16 0), (.method_id, .u16 0)]

/-- amqp_channel_close, amqp_api.c:251-269. -/
def channelClose (E : NetEnv) (ch : UInt16) (code : Int) : M App Reply := fun a =>
  if code < 0 ∨ code > 65535 then .ok (.libraryException St.INVALID_PARAMETER) a
  else App.lift (simpleRpc E ch 0x00140028 [0x00140029] (closeArgs code)) a

/-- amqp_connection_close, amqp_api.c:271-288. -/
def connectionClose (E : NetEnv) (code : Int) : M App Reply := fun a =>
  if code < 0 ∨ code > 65535 then .ok (.libraryException St.INVALID_PARAMETER) a
  else App.lift (simpleRpc E 0 0x000A0032 [0x000A0033] (closeArgs code)) a

/-- amqp_basic_get, amqp_api.c:298-311. -/
def basicGet (E : NetEnv) (ch : UInt16) (queue : Bytes) (noAck : Int32) : M App Reply := fun a =>
  match simpleRpc E ch 0x003C0046 [0x003C0047, 0x003C0048] [(.ticket, .u16 0), (.queue, .bytes queue), (.no_ack, .bool noAck)] a.conn with
  | .ok r s => .ok r ⟨s, some r⟩
  | .err e s => .err e { a with conn := s }
  | .ub => .ub
  | .fuel => .fuel

/-- amqp_basic_ack, amqp_api.c:290-296, through amqp_send_method, amqp_socket.c:982-986. -/
def basicAck (E : NetEnv) (ch : UInt16) (tag : UInt64) (multiple : Int32) : M App Unit :=
  App.lift (sendMethod E ch 0x003C0050 [(.delivery_tag, .u64 tag), (.multiple, .bool multiple)] SF_NONE TIME_INF)
/-- amqp_basic_reject, amqp_api.c:313-319. -/
def basicReject (E : NetEnv) (ch : UInt16) (tag : UInt64) (requeue : Int32) : M App Unit :=
  App.lift (sendMethod E ch 0x003C005A [(.delivery_tag, .u64 tag), (.requeue, .bool requeue)] SF_NONE TIME_INF)
/-- amqp_basic_nack, amqp_api.c:321-329. -/
def basicNack (E : NetEnv) (ch : UInt16) (tag : UInt64) (multiple requeue : Int32) : M App Unit :=
  App.lift (sendMethod E ch 0x003C0078 [(.delivery_tag, .u64 tag), (.multiple, .bool multiple), (.requeue, .bool requeue)] SF_NONE TIME_INF)

end Rmq
