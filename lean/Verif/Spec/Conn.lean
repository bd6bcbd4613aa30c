import Verif.Model.Conn
import Verif.Spec.Frames
/-!
# Specification vocabulary for the connection layer: what can be read off the log of outside events
-/
namespace Rmq

/-- The bytes the transport accepted in one event. -/
def Ev.accepted : Ev → Bytes
  | .send offered _ res => offered.take res.toNat
  | _ => []
/-- The same, each byte with the flags it was sent with. -/
def Ev.tagged : Ev → List (UInt8 × Nat)
  | .send offered flags res => (offered.take res.toNat).map (·, flags)
  | _ => []
/-- The bytes the transport delivered in one event. -/
def Ev.delivered : Ev → Bytes
  | .recvData b => b
  | _ => []
/-- The bytes the parser took in one event. -/
def Ev.taken : Ev → Bytes
  | .parsed b => b
  | _ => []

/-- All bytes accepted by the transport, in order. -/
def sentBytes (l : List Ev) : Bytes := l.flatMap Ev.accepted
/-- All bytes accepted by the transport, in order, each with the flags (hints) it was given. -/
def sentTagged (l : List Ev) : List (UInt8 × Nat) := l.flatMap Ev.tagged
/-- Bytes sent with the given flags. -/
def Bytes.flagged (b : Bytes) (flags : Nat) : List (UInt8 × Nat) := b.map (·, flags)
/-- All bytes received from the transport, in order. -/
def recvBytes (l : List Ev) : Bytes := l.flatMap Ev.delivered
/-- All bytes given to the parser, in order. -/
def parsedBytes (l : List Ev) : Bytes := l.flatMap Ev.taken

/-- `Since s s' l`: `l` is what happened between `s` and `s'`. -/
def Since (s s' : Conn) (l : List Ev) : Prop := s'.log = s.log ++ l

/-- The transport never refuses to take bytes for the time being (would-block): it takes some, or fails for good.  (No socket class
answers `send` with the status TIMEOUT.) -/
def NeverBlocks (E : NetEnv) : Prop :=
  ∀ t b n, E.send t b = .fail n → (-(n + 1 : Nat) : Int) ≠ St.PRIVATE_NEED_READ ∧ (-(n + 1 : Nat) : Int) ≠ St.PRIVATE_NEED_WRITE ∧
    (-(n + 1 : Nat) : Int) ≠ St.TIMEOUT

/-- The output buffer is as large as claimed, and that is frame_max: so it is after amqp_new_connection and after each successful
amqp_tune_connection. -/
def OutReady (s : Conn) : Prop := s.outMem.length = s.outLen ∧ s.frameMax = s.outLen

/-- The payload of a basic.publish method frame. -/
def publishPayload (exchange routingKey : Bytes) (mandatory immediate : Bool) : Bytes :=
  [0, 60, 0, 40] ++ [0, 0] ++ (UInt8.ofNat exchange.length :: exchange) ++ (UInt8.ofNat routingKey.length :: routingKey) ++
    [(if mandatory then 1 else 0) + (if immediate then 2 else 0)]
/-- The payload of the content header frame of a basic message: class, weight, body size, property flags, properties. -/
def contentHeaderPayload (bodySize : Nat) (flags : UInt32) (props : Rec) : Bytes :=
  [0, 60, 0, 0] ++ beBytes 8 bodySize ++ (beBytes 2 flags.toNat ++ serProps flags props basicProps)

/-- No socket class answers `send` with the status TIMEOUT (they answer with the number of bytes sent, would-block or a socket or TLS
error). -/
def NoTimeoutSend (E : NetEnv) : Prop := ∀ t b n, E.send t b = .fail n → (-(n + 1 : Nat) : Int) ≠ St.TIMEOUT

/-- The kernel's poll does not time out when called without a timeout. -/
def PollHonest (s s' : Conn) : Prop := ∀ l, Since s s' l → ∀ d, Ev.poll d (-1) .timeout ∉ l

/-- Is it a heartbeat frame? -/
def AFrame.isHeartbeat (f : AFrame) : Bool := match f.payload with | .heartbeat => true | _ => false

/-- The parser environment with memory to spare. -/
def PEnv.ideal (E : PEnv) : PEnv := { E with alloc := fun _ => true }

/-- The frames that a receiver in state `s`, with memory to spare, is given when the bytes `bs` arrive. -/
def framesOf (E : PEnv) (s : PState) (bs : Bytes) : List AFrame := (drain E.ideal bs.length s bs).1

/-- The frames the application has yet to see if the bytes `future` are still to arrive: those queued, then those in the bytes
already received and in the ones to come.  Heartbeats do not count. -/
def pending (E : NetEnv) (s : Conn) (future : Bytes) : List AFrame :=
  (s.queue.map (·.frame) ++ framesOf E.pe s.ps (s.inb ++ future)).filter (!·.isHeartbeat)

/-- A history of calls delivering frames to the application: waiting for a frame with or without a timeout, trying again after a
timeout, sending (times are 64-bit numbers, TIME_INF is the largest), releasing buffers. -/
inductive Run (E : NetEnv) : Conn → List AFrame → Conn → Prop where
  | done (s : Conn) : Run E s [] s
  | frame {s t u : Conn} {tv : Option TimeVal} {f : DFrame} {fs : List AFrame} :
      waitFrame E tv s = .ok f t → Run E t fs u → Run E s (f.frame :: fs) u
  | timedOut {s t u : Conn} {tv : Option TimeVal} {fs : List AFrame} :
      waitFrame E tv s = .err St.TIMEOUT t → Run E t fs u → Run E s fs u
  | sent {s t u : Conn} {f : AFrame} {flags deadline : Nat} {fs : List AFrame} : deadline ≤ TIME_INF →
      sendFrame E f flags deadline s = .ok () t → Run E t fs u → Run E s fs u
  | sendTimedOut {s t u : Conn} {f : AFrame} {flags deadline : Nat} {fs : List AFrame} : deadline ≤ TIME_INF →
      sendFrame E f flags deadline s = .err St.TIMEOUT t → Run E t fs u → Run E s fs u
  | released {s u : Conn} {fs : List AFrame} : Run E (maybeRelease s) fs u → Run E s fs u
  | releasedOn {s u : Conn} {ch : UInt16} {fs : List AFrame} : Run E (maybeReleaseOn ch s) fs u → Run E s fs u

/-- Sending cannot be held up with receiving going on meanwhile: either the transport never says would-block, or heartbeats are off. -/
def Unhurried (E : NetEnv) (s : Conn) : Prop :=
  NeverBlocks E ∨ (s.heartbeat ≤ 0 ∧ s.nextSend = TIME_INF ∧ s.nextRecv = TIME_INF)

/-- Heartbeats get through: whenever the eight octets of a heartbeat frame are offered to the transport, it takes all of them or fails for
good.  Anything else may be held up for any time. -/
def HeartbeatsPass (E : NetEnv) : Prop :=
  ∀ t, match E.send t [8, 0, 0, 0, 0, 0, 0, 206] with
  | .sent n => 8 ≤ n
  | .fail n => (-(n + 1 : Nat) : Int) ≠ St.PRIVATE_NEED_READ ∧ (-(n + 1 : Nat) : Int) ≠ St.PRIVATE_NEED_WRITE ∧
    (-(n + 1 : Nat) : Int) ≠ St.TIMEOUT

/-- No wait for a frame is held up by the sending of a heartbeat: heartbeats get through (because everything does, or at least they do),
or are off. -/
def Unblocked (E : NetEnv) (s : Conn) : Prop :=
  (NeverBlocks E ∨ HeartbeatsPass E) ∨ (s.heartbeat ≤ 0 ∧ s.nextSend = TIME_INF ∧ s.nextRecv = TIME_INF)

/-- The connection's parser is in use and no call on it failed. -/
def InUse (E : NetEnv) (s : Conn) : Prop := Live E.pe s.ps ∧ s.ps.mode ≠ .initial

/-- The memory of a frame decoded after `born` events is still there: its channel's pool was not recycled since. -/
def Valid (s : Conn) (f : DFrame) : Prop := f.born ≤ s.log.length ∧ Ev.recycle f.frame.channel ∉ s.log.drop f.born

end Rmq
