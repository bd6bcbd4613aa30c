import Verif.Spec.History
/-!
# What the peer sees: a sequence of frames
-/
namespace Rmq

/-- One complete frame on the wire: type, channel, size of the payload, payload, end octet. -/
def WholeFrame (b : Bytes) : Prop :=
  ∃ (ty : UInt8) (ch : UInt16) (payload : Bytes), payload.length < 2 ^ 32 ∧ b = rawFrame ty ch payload FRAME_END

/-- Frames of a kind, one after the other. -/
def FramesOf (P : Bytes → Prop) (b : Bytes) : Prop := ∃ fs : List Bytes, (∀ f ∈ fs, P f) ∧ b = fs.flatten

/-- Frames of a kind, and then perhaps the beginning of one more. -/
def FramesCut (P : Bytes → Prop) (b : Bytes) : Prop := ∃ b1 b2 : Bytes, FramesOf P b1 ∧ (b2 = [] ∨ ∃ f, P f ∧ b2 <+: f) ∧ b = b1 ++ b2

/-- Complete frames, one after the other. -/
abbrev WholeFrames (b : Bytes) : Prop := FramesOf WholeFrame b

/-- Complete frames, and then perhaps the beginning of one more. -/
abbrev CutFrames (b : Bytes) : Prop := FramesCut WholeFrame b

/-- A heartbeat frame. -/
def Beat (b : Bytes) : Prop := b = rawFrame 8 0 [] FRAME_END

/-- The transport could not take anything at the moment. -/
def wouldBlock (r : Int) : Bool := r = St.PRIVATE_NEED_READ || r = St.PRIVATE_NEED_WRITE

/-- The discipline OpenSSL demands of its users (SSL_write(3)): a write that could not be carried out is repeated, with the same bytes, before
anything else is written.  `Retries p l q`: so it is in `l`, when `p` is to be repeated at its beginning and `q` at its end. -/
inductive Retries : Option Bytes → List Ev → Option Bytes → Prop where
  | nil (p) : Retries p [] p
  | other {p q e l} : (∀ b f r, e ≠ .send b f r) → Retries p l q → Retries p (e :: l) q
  | send {p q b f r l} : (p = none ∨ p = some b) → Retries (if wouldBlock r then some b else none) l q → Retries p (.send b f r :: l) q

/-- The output buffer is as large as claimed, and large enough for the fixed part of any frame. -/
def OutBuf (s : Conn) : Prop := s.outMem.length = s.outLen ∧ 20 ≤ s.outLen ∧ s.outLen < 2 ^ 32

/-- The outcomes after which a connection is used on: the operation completed, or the server refused it, or nothing arrived in time. -/
def Reply.usable : Reply → Prop
  | .libraryException e => e = St.TIMEOUT
  | _ => True
def Outcome.usable {α : Type} : Outcome α → Prop
  | .libraryException e => e = St.TIMEOUT
  | _ => True

/-- The properties are the struct of the basic class. -/
def TypedProps : Option (UInt32 × Rec) → Prop
  | none => True
  | some p => PropsOK (fun _ _ => True) p.1 p.2 basicProps

/-- One call on an open connection with a result after which the connection is used on.  Structs handed in are those the method or
class requires. -/
inductive GoodCall (E : NetEnv) : Conn → Conn → Prop where
  | waitFrame {s s' : Conn} {f : DFrame} (timeout : Option TimeVal) : waitFrame E timeout s = .ok f s' → GoodCall E s s'
  | waitFrameTimeout {s s' : Conn} (timeout : Option TimeVal) : waitFrame E timeout s = .err St.TIMEOUT s' → GoodCall E s s'
  | waitFrameOn {s s' : Conn} {f : DFrame} (ch : UInt16) : waitFrameOn E ch s = .ok f s' → GoodCall E s s'
  /-- a frame arrived; it may have been the wrong one -/
  | waitMethod {s s' t : Conn} {f : DFrame} (ch : UInt16) (id : UInt32) : Rmq.waitFrame E none s = .ok f t →
      (waitMethod E ch id s).leaves s' → GoodCall E s s'
  | sendFrame {s s' : Conn} (f : AFrame) (flags : Nat) : WellTyped f.payload → sendFrame E f flags TIME_INF s = .ok () s' → GoodCall E s s'
  | simpleRpc {s s' : Conn} {r : Reply} (ch : UInt16) (id : UInt32) (expected : List UInt32) (args : Rec) :
      WellTyped (.method id args) → simpleRpc E ch id expected args s = .ok r s' → r.usable → GoodCall E s s'
  | readMessage {s s' : Conn} {r : Outcome Message} (ch : UInt16) : readMessage E ch s = .ok r s' → r.usable → GoodCall E s s'
  | consumeMessage {s s' : Conn} {r : Outcome Envelope} (timeout : Option TimeVal) :
      consumeMessage E timeout s = .ok r s' → r.usable → GoodCall E s s'
  /-- a frame arrived that is not a delivery -/
  | consumeOther {s s' t : Conn} {f : DFrame} (timeout : Option TimeVal) : Rmq.waitFrame E timeout s = .ok f t →
      (∀ r, f.frame.payload ≠ .method BASIC_DELIVER r) → (consumeMessage E timeout s).leaves s' → GoodCall E s s'
  /-- a frame arrived; it may have been the wrong one -/
  | confirmWait {s s' t : Conn} {f : DFrame} (timeout : Option TimeVal) : Rmq.waitFrame E timeout s = .ok f t →
      (confirmWait E timeout s).leaves s' → GoodCall E s s'
  | confirmTimeout {s s' : Conn} (timeout : Option TimeVal) :
      confirmWait E timeout s = .ok (.libraryException St.TIMEOUT) s' → GoodCall E s s'
  | publish {s s' : Conn} (ch : UInt16) (exchange routingKey : Bytes) (mandatory immediate : Int32) (props : Option (UInt32 × Rec))
      (body : Bytes) : TypedProps props → basicPublish E ch exchange routingKey mandatory immediate props body s = .ok () s' → GoodCall E s s'
  | release {s s' : Conn} : releaseBuffers s = .ok () s' → GoodCall E s s'
  | maybeRelease (s : Conn) : GoodCall E s (maybeRelease s)
  | maybeReleaseOn (s : Conn) (ch : UInt16) : GoodCall E s (maybeReleaseOn ch s)
  | close (s : Conn) : GoodCall E s (sockClose E s).2

/-- One call on an open connection, whatever its result. -/
inductive AnyCall (E : NetEnv) : Conn → Conn → Prop where
  | waitFrame {s s' : Conn} (timeout : Option TimeVal) : (waitFrame E timeout s).leaves s' → AnyCall E s s'
  | waitFrameOn {s s' : Conn} (ch : UInt16) : (waitFrameOn E ch s).leaves s' → AnyCall E s s'
  | waitMethod {s s' : Conn} (ch : UInt16) (id : UInt32) : (waitMethod E ch id s).leaves s' → AnyCall E s s'
  | sendFrame {s s' : Conn} (f : AFrame) (flags : Nat) : WellTyped f.payload → (sendFrame E f flags TIME_INF s).leaves s' → AnyCall E s s'
  | simpleRpc {s s' : Conn} (ch : UInt16) (id : UInt32) (expected : List UInt32) (args : Rec) :
      WellTyped (.method id args) → (simpleRpc E ch id expected args s).leaves s' → AnyCall E s s'
  | readMessage {s s' : Conn} (ch : UInt16) : (readMessage E ch s).leaves s' → AnyCall E s s'
  | consumeMessage {s s' : Conn} (timeout : Option TimeVal) : (consumeMessage E timeout s).leaves s' → AnyCall E s s'
  | confirmWait {s s' : Conn} (timeout : Option TimeVal) : (confirmWait E timeout s).leaves s' → AnyCall E s s'
  | publish {s s' : Conn} (ch : UInt16) (exchange routingKey : Bytes) (mandatory immediate : Int32) (props : Option (UInt32 × Rec))
      (body : Bytes) : TypedProps props → (basicPublish E ch exchange routingKey mandatory immediate props body s).leaves s' → AnyCall E s s'
  | release {s s' : Conn} : (releaseBuffers s).leaves s' → AnyCall E s s'
  | maybeRelease (s : Conn) : AnyCall E s (maybeRelease s)
  | maybeReleaseOn (s : Conn) (ch : UInt16) : AnyCall E s (maybeReleaseOn ch s)
  | close (s : Conn) : AnyCall E s (sockClose E s).2

end Rmq
