import Verif.Model.Api
import Verif.Model.Ready
/-!
# Specification: programs using a connection, on one machine and on another

A program makes a call, looks at everything the call returns, and decides what to do next — until it is done and has a result.
The result, and everything that happened outside (every octet offered to `send`, every poll, every clock reading, in order), is what can
be observed of it.
-/
namespace Rmq

/-- What the accessors tell: the limits, the properties of both sides, the time limits, is there a descriptor, is there something to read. -/
structure Look where
  channelMax : Int
  frameMax : Int
  heartbeat : Int
  serverProps : Table
  clientProps : Table
  timeouts : Timeouts
  isOpen : Bool
  framesEnqueued : Bool
  dataInBuffer : Bool

/-- The calls of an application, with the type of what each returns. -/
inductive Req : Type → Type 1 where
  | login (b : Build) (memcmp : Bytes → Bytes → Int) (a : LoginArgs) : Req (Outcome Unit)
  | tune (channelMax frameMax heartbeat : Int) : Req Unit
  | waitFrame (timeout : Option TimeVal) : Req DFrame
  | waitFrameOn (ch : UInt16) : Req DFrame
  | waitMethod (ch : UInt16) (id : UInt32) : Req (UInt32 × Rec)
  | sendFrame (f : AFrame) (flags : Nat) : Req Unit
  | simpleRpc (ch : UInt16) (id : UInt32) (expected : List UInt32) (args : Rec) : Req Reply
  | sendHeader : Req Int
  | readMessage (ch : UInt16) : Req (Outcome Message)
  | consumeMessage (timeout : Option TimeVal) : Req (Outcome Envelope)
  | confirmWait (timeout : Option TimeVal) : Req (Outcome Confirm)
  | publish (ch : UInt16) (exchange routingKey : Bytes) (mandatory immediate : Int32) (props : Option (UInt32 × Rec)) (body : Bytes) : Req Unit
  | release : Req Unit
  | maybeRelease : Req Unit
  | maybeReleaseOn (ch : UInt16) : Req Unit
  | setRpcTimeout (t : Option TimeVal) : Req Int
  | setHandshakeTimeout (t : Option TimeVal) : Req Int
  | look : Req Look
  | close : Req Int

/-- Making a call.  `mem` is what the memory contains that `realloc` adds to the send buffer. -/
def Req.run (E : NetEnv) (mem : Nat → UInt8) : {α : Type} → Req α → M Conn α
  | _, .login b memcmp a => Rmq.login E b memcmp mem a
  | _, .tune c f h => Rmq.tune E c f h mem
  | _, .waitFrame tv => Rmq.waitFrame E tv
  | _, .waitFrameOn ch => Rmq.waitFrameOn E ch
  | _, .waitMethod ch id => Rmq.waitMethod E ch id
  | _, .sendFrame f fl => Rmq.sendFrame E f fl TIME_INF
  | _, .simpleRpc ch id ex args => Rmq.simpleRpc E ch id ex args
  | _, .sendHeader => sendHeaderInner E TIME_INF
  | _, .readMessage ch => Rmq.readMessage E ch
  | _, .consumeMessage tv => Rmq.consumeMessage E tv
  | _, .confirmWait tv => Rmq.confirmWait E tv
  | _, .publish ch ex rk m i p b => basicPublish E ch ex rk m i p b
  | _, .release => releaseBuffers
  | _, .maybeRelease => fun s => .ok () (Rmq.maybeRelease s)
  | _, .maybeReleaseOn ch => fun s => .ok () (Rmq.maybeReleaseOn ch s)
  | _, .setRpcTimeout t => fun s => .ok (Rmq.setRpcTimeout s.timeouts t).1 { s with timeouts := (Rmq.setRpcTimeout s.timeouts t).2 }
  | _, .setHandshakeTimeout t => fun s =>
    .ok (Rmq.setHandshakeTimeout s.timeouts t).1 { s with timeouts := (Rmq.setHandshakeTimeout s.timeouts t).2 }
  | _, .look => fun s =>
    .ok ⟨s.channelMax, s.frameMax, s.heartbeat, s.serverProps, s.clientProps, s.timeouts, s.isOpen, framesEnqueued s, dataInBuffer s⟩ s
  | _, .close => fun s => .ok (sockClose E s).1 (sockClose E s).2

/-- A program with a result in `ρ`.  Each next step may depend on all that was returned before: a value, or the error status. -/
inductive Prog (ρ : Type) : Type 1 where
  | done (r : ρ)
  | call {α : Type} (q : Req α) (next : Except Int α → Prog ρ)

/-- The run of a program: its result and everything that happened outside meanwhile; or undefined behaviour; or a loop that has not
ended within the bound.  `mem k` is what the memory contains that the `k`-th allocation adds to the send buffer. -/
def Prog.run (E : NetEnv) (mem : Nat → Nat → UInt8) {ρ : Type} : Prog ρ → Conn → Res (List Ev) ρ
  | .done r, s => .ok r s.log
  | .call q next, s =>
    match q.run E (mem s.ps.allocs) s with
    | .ok a t => (next (.ok a)).run E mem t
    | .err e t => (next (.error e)).run E mem t
    | .ub => .ub
    | .fuel => .fuel

/-- The connections a program can have come to, on some machine, with some network. -/
inductive Reached : Conn → Prop where
  | new (m : Nat → UInt8) : Reached (newConn m)
  | call {s t : Conn} {α : Type} (E : NetEnv) (mem : Nat → UInt8) (q : Req α) : Reached s → (q.run E mem s).state? = some t → Reached t

end Rmq
