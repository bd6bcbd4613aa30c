import Verif.Model.Api
import Verif.Spec.Conn
/-!
# Histories: what an application may do with a connection, call after call
-/
namespace Rmq

/-- Any number of steps. -/
inductive Steps {σ : Type} (R : σ → σ → Prop) : σ → σ → Prop where
  | refl (s : σ) : Steps R s s
  | step {s t u : σ} : Steps R s t → R t u → Steps R s u

/-- The state a call leaves behind, whether it succeeded or failed. -/
def Res.leaves {σ α : Type} (r : Res σ α) (s' : σ) : Prop := r.state? = some s'

/-- One call that receives, sends, releases memory or closes the socket. -/
inductive Call (E : NetEnv) : Conn → Conn → Prop where
  | waitFrame {s s' : Conn} (timeout : Option TimeVal) : (waitFrame E timeout s).leaves s' → Call E s s'
  | waitFrameOn {s s' : Conn} (ch : UInt16) : (waitFrameOn E ch s).leaves s' → Call E s s'
  | waitMethod {s s' : Conn} (ch : UInt16) (id : UInt32) : (waitMethod E ch id s).leaves s' → Call E s s'
  | sendFrame {s s' : Conn} (f : AFrame) (flags : Nat) : (sendFrame E f flags TIME_INF s).leaves s' → Call E s s'
  | simpleRpc {s s' : Conn} (ch : UInt16) (id : UInt32) (expected : List UInt32) (args : Rec) :
      (simpleRpc E ch id expected args s).leaves s' → Call E s s'
  | sendHeader {s s' : Conn} : (sendHeaderInner E TIME_INF s).leaves s' → Call E s s'
  | readMessage {s s' : Conn} (ch : UInt16) : (readMessage E ch s).leaves s' → Call E s s'
  | consumeMessage {s s' : Conn} (timeout : Option TimeVal) : (consumeMessage E timeout s).leaves s' → Call E s s'
  | confirmWait {s s' : Conn} (timeout : Option TimeVal) : (confirmWait E timeout s).leaves s' → Call E s s'
  | release {s s' : Conn} : (releaseBuffers s).leaves s' → Call E s s'
  | maybeRelease (s : Conn) : Call E s (maybeRelease s)
  | maybeReleaseOn (s : Conn) (ch : UInt16) : Call E s (maybeReleaseOn ch s)
  | close (s : Conn) : Call E s (sockClose E s).2

/-- One call, or publishing. -/
inductive CallP (E : NetEnv) : Conn → Conn → Prop where
  | call {s s' : Conn} : Call E s s' → CallP E s s'
  | publish {s s' : Conn} (ch : UInt16) (exchange routingKey : Bytes) (mandatory immediate : Int32) (props : Option (UInt32 × Rec))
      (body : Bytes) : (basicPublish E ch exchange routingKey mandatory immediate props body s).leaves s' → CallP E s s'

/-- Any of these, tuning or logging in. -/
inductive CallL (E : NetEnv) : Conn → Conn → Prop where
  | callP {s s' : Conn} : CallP E s s' → CallL E s s'
  | tune {s s' : Conn} (channelMax frameMax heartbeat : Int) (mem : Nat → UInt8) :
      (tune E channelMax frameMax heartbeat mem s).leaves s' → CallL E s s'
  | login {s s' : Conn} (b : Build) (memcmp : Bytes → Bytes → Int) (mem : Nat → UInt8) (a : LoginArgs) :
      (login E b memcmp mem a s).leaves s' → CallL E s s'

end Rmq
