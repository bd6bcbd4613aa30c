import Verif.Spec.Time
import Verif.Spec.Heartbeat
/-!
# Specification: the statuses calls report (C100)
-/
namespace Rmq

/-- A documented error: a negative code of amqp_status_enum. -/
def IsStatus (st : Int) : Prop := st < 0 ∧ ∃ m, (st, m) ∈ statusMessages

/-- The two internal codes with which a socket class says that it would block: AMQP_PRIVATE_STATUS_SOCKET_NEEDREAD and _NEEDWRITE. -/
def WouldBlock (st : Int) : Prop := st = -0x1301 ∨ st = -0x1302

/-- When the transport fails it says why, with a documented error, or that it would block. -/
def Transport (E : NetEnv) : Prop :=
  (∀ k b n, E.send k b = .fail n → IsStatus (-(n + 1 : Nat)) ∨ WouldBlock (-(n + 1 : Nat))) ∧
  ∀ k c n, E.recv k c = .fail n → IsStatus (-(n + 1 : Nat)) ∨ WouldBlock (-(n + 1 : Nat))

/-- No timeout, or one of less than 2^31 milliseconds (24 days). -/
def Short : Option TimeVal → Prop
  | none => True
  | some v => v.nanos < 2 ^ 31 * 1000000

/-- What an application does with a connection: it calls the library, and sets the RPC and handshake timeouts. -/
inductive Use (E : NetEnv) : Conn → Conn → Prop where
  | call {s s' : Conn} : CallH E s s' → Use E s s'
  | timeouts {s : Conn} (τ : Timeouts) : Use E s { s with timeouts := τ }

/-- A call made in the state `s` fails, and the application is told the status `st` — as the value returned, or as the library_error of the
amqp_rpc_reply_t returned. -/
inductive Fails (E : NetEnv) (s : Conn) (st : Int) : Prop where
  | waitFrame (timeout : Option TimeVal) : Short timeout → (waitFrame E timeout s).errCode? = some st → Fails E s st
  | waitFrameOn (ch : UInt16) : (waitFrameOn E ch s).errCode? = some st → Fails E s st
  | waitMethod (ch : UInt16) (id : UInt32) : (waitMethod E ch id s).errCode? = some st → Fails E s st
  | sendFrame (f : AFrame) (flags : Nat) : (sendFrame E f flags TIME_INF s).errCode? = some st → Fails E s st
  | publish (ch : UInt16) (exchange routingKey : Bytes) (mandatory immediate : Int32) (props : Option (UInt32 × Rec)) (body : Bytes) :
      (basicPublish E ch exchange routingKey mandatory immediate props body s).errCode? = some st → Fails E s st
  | tune (channelMax frameMax heartbeat : Int) (mem : Nat → UInt8) :
      (tune E channelMax frameMax heartbeat mem s).errCode? = some st → Fails E s st
  | simpleRpc (ch : UInt16) (id : UInt32) (expected : List UInt32) (args : Rec) : Short (getRpcTimeout s.timeouts) →
      (simpleRpc E ch id expected args s).val? = some (.libraryException st) → Fails E s st
  | readMessage (ch : UInt16) : (readMessage E ch s).val? = some (.libraryException st) → Fails E s st
  | consumeMessage (timeout : Option TimeVal) : Short timeout → (consumeMessage E timeout s).val? = some (.libraryException st) → Fails E s st
  | confirmWait (timeout : Option TimeVal) : Short timeout → (confirmWait E timeout s).val? = some (.libraryException st) → Fails E s st

/-- The status of a login that fails: documented, or the number of octets that were sent of a protocol header cut short. -/
def LoginStatus (st : Int) : Prop := IsStatus st ∨ (0 < st ∧ st < 8)

end Rmq
