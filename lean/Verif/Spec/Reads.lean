import Verif.Spec.Conn
import Verif.Spec.Session
/-!
# Specification: what amqp_read_message makes of the frames it finds
-/
namespace Rmq

/-- channel.close or connection.close. -/
def ClosingId (id : UInt32) : Prop := id = 0x00140028 ∨ id = 0x000A0032

/-- The content of a message of `size` octets, as found on channel `ch`: body frames, and possibly a frame that puts an end to it. -/
inductive BodyFound (ch : UInt16) (size : Nat) : List Bytes → Option AFrame → Outcome Bytes → Prop
  /-- all of it, and no frame more -/
  | all {bodies : List Bytes} : (∀ k < bodies.length, (bodies.take k).flatten.length < size) → bodies.flatten.length = size →
      BodyFound ch size bodies none (.normal bodies.flatten)
  /-- the server closes before it is complete -/
  | closed {bodies : List Bytes} {id : UInt32} {args : Rec} : bodies.flatten.length < size → ClosingId id →
      BodyFound ch size bodies (some ⟨ch, .method id args⟩) (.serverException id args)
  /-- another frame comes before it is complete -/
  | foreign {bodies : List Bytes} {f : AFrame} : bodies.flatten.length < size → f.channel = ch → (∀ b, f.payload ≠ .body b) →
      (∀ id args, f.payload = .method id args → ¬ ClosingId id) → BodyFound ch size bodies (some f) (.libraryException (-0x02))
  /-- a body frame overshoots -/
  | tooMuch {bodies : List Bytes} {b : Bytes} : bodies.flatten.length < size → size < bodies.flatten.length + b.length →
      BodyFound ch size bodies (some ⟨ch, .body b⟩) (.libraryException (-0x02))

/-- `Reads ch found kept o`: with the frames `found` on the channel, reading a message yields `o`, and the frames `kept` of them are
still to be read. -/
inductive Reads (ch : UInt16) : (found kept : List AFrame) → Outcome Message → Prop
  | message {cls : UInt16} {size : UInt64} {flags : UInt32} {props : Rec} {bodies : List Bytes} {body : Bytes} :
      BodyFound ch size.toNat bodies none (.normal body) →
      Reads ch (⟨ch, .header cls size flags props⟩ :: bodies.map fun b => ⟨ch, .body b⟩) [] (.normal ⟨flags, flaggedProps flags props basicProps, body⟩)
  | broken {cls : UInt16} {size : UInt64} {flags : UInt32} {props : Rec} {bodies : List Bytes} {f : AFrame} {e : Int} :
      BodyFound ch size.toNat bodies (some f) (.libraryException e) →
      Reads ch (⟨ch, .header cls size flags props⟩ :: (bodies.map fun b => ⟨ch, .body b⟩) ++ [f]) [] (.libraryException e)
  | closedWithin {cls : UInt16} {size : UInt64} {flags : UInt32} {props : Rec} {bodies : List Bytes} {f : AFrame} {id : UInt32} {args : Rec} :
      BodyFound ch size.toNat bodies (some f) (.serverException id args) →
      Reads ch (⟨ch, .header cls size flags props⟩ :: (bodies.map fun b => ⟨ch, .body b⟩) ++ [f]) [] (.serverException id args)
  | closed {id : UInt32} {args : Rec} : ClosingId id → Reads ch [⟨ch, .method id args⟩] [] (.serverException id args)
  | noHeader {f : AFrame} : f.channel = ch → (∀ a b c d, f.payload ≠ .header a b c d) →
      (∀ id args, f.payload = .method id args → ¬ ClosingId id) → Reads ch [f] [f] (.libraryException (-0x10))

/-- amqp_simple_wait_frame_on_channel on the channel failed with this status, and the connection was left in this state. -/
def WaitFailed (E : NetEnv) (ch : UInt16) (e : Int) (s' : Conn) : Prop := ∃ u, waitFrameOn E ch u = .err e s'

/-- What is pending on the channel — queued, received, or received between `s` and `s'` (or yet to be received: `X`) — begins with
`found` in `s`; in `s'` it begins with `kept`, and what follows is the same. -/
def Found (E : NetEnv) (ch : UInt16) (s s' : Conn) (found kept : List AFrame) : Prop :=
  ∃ l, Since s s' l ∧ ∀ X, ∃ rest, (pending E s (recvBytes l ++ X)).filter (·.channel == ch) = found ++ rest ∧
    (pending E s' X).filter (·.channel == ch) = kept ++ rest

end Rmq
