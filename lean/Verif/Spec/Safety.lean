import Verif.Spec.Frames
import Verif.Spec.Conn
import Verif.Model.Api
/-!
# Specification: what a program may do with a connection, and what a server may send, for nothing undefined to happen
-/
namespace Rmq

/-- The server sends the octets `S`, from the connection's first octet on: whatever `recv` hands over is the next part of `S`.  (When
and in what portions is up to the network; so are the failures in between.) -/
def Serves (E : NetEnv) (S : Bytes) : Prop := ∀ t n d, E.recv t n = .data d → d.take SOCK_BUF <+: S.drop n

/-- Octets a receiver with the frame limit `fm` can digest: frames of any type and with any contents, as long as a method frame has the
three octets the library reads without looking, a content header frame has twelve, is about the class `basic` and does not use the
continuation of its flag word beyond what the library can take; then, possibly, any of: part of a frame; a frame that is too large
or does not end as a frame must, and anything after it. -/
inductive Harmless (fm : Nat) : Bytes → Prop where
  | short {d : Bytes} : d.length < 7 → Harmless fm d
  | tooLarge (ty : UInt8) (ch : UInt16) (n : Nat) (rest : Bytes) : n < 2 ^ 32 → fm < n + 8 →
      Harmless fm (ty :: (beBytes 2 ch.toNat ++ beBytes 4 n ++ rest))
  | incomplete (ty : UInt8) (ch : UInt16) (n : Nat) (rest : Bytes) : n + 8 ≤ fm → rest.length < n + 1 →
      Harmless fm (ty :: (beBytes 2 ch.toNat ++ beBytes 4 n ++ rest))
  | badEnd (ty : UInt8) (ch : UInt16) (p : Bytes) (fe : UInt8) (rest : Bytes) : p.length + 8 ≤ fm → fe ≠ FRAME_END →
      Harmless fm (rawFrame ty ch p fe ++ rest)
  | frame (ty : UInt8) (ch : UInt16) (p : Bytes) {rest : Bytes} : p.length + 8 ≤ fm → PayloadOK ty p →
      (ty = 2 → p.take 2 = [0, 60]) → Harmless fm rest → Harmless fm (rawFrame ty ch p FRAME_END ++ rest)

/-- The calls of the application. -/
inductive ApiCall where
  | waitFrame (timeout : Option TimeVal)
  | waitFrameOn (ch : UInt16)
  | waitMethod (ch : UInt16) (id : UInt32)
  | sendFrame (f : AFrame) (flags : Nat)
  | simpleRpc (ch : UInt16) (id : UInt32) (expected : List UInt32) (args : Rec)
  | sendHeader
  | readMessage (ch : UInt16)
  | consumeMessage (timeout : Option TimeVal)
  | confirmWait (timeout : Option TimeVal)
  | publish (ch : UInt16) (exchange routingKey : Bytes) (mandatory immediate : Int32) (props : Option (UInt32 × Rec)) (body : Bytes)
  | maybeRelease
  | maybeReleaseOn (ch : UInt16)
  | close

/-- Forget what a call returns: has it ended, and in what state is the connection? -/
def ended {α : Type} : Res Conn α → Res Conn Unit
  | .ok _ s => .ok () s
  | .err _ s => .ok () s
  | .ub => .ub
  | .fuel => .fuel

/-- Make the call, whatever comes of it. -/
def ApiCall.run (E : NetEnv) (s : Conn) : ApiCall → Res Conn Unit
  | .waitFrame tv => ended (Rmq.waitFrame E tv s)
  | .waitFrameOn ch => ended (Rmq.waitFrameOn E ch s)
  | .waitMethod ch id => ended (Rmq.waitMethod E ch id s)
  | .sendFrame f flags => ended (Rmq.sendFrame E f flags TIME_INF s)
  | .simpleRpc ch id expected args => ended (Rmq.simpleRpc E ch id expected args s)
  | .sendHeader => ended (sendHeaderInner E TIME_INF s)
  | .readMessage ch => ended (Rmq.readMessage E ch s)
  | .consumeMessage tv => ended (Rmq.consumeMessage E tv s)
  | .confirmWait tv => ended (Rmq.confirmWait E tv s)
  | .publish ch ex rk m i p b => ended (basicPublish E ch ex rk m i p b s)
  | .maybeRelease => .ok () (Rmq.maybeRelease s)
  | .maybeReleaseOn ch => .ok () (Rmq.maybeReleaseOn ch s)
  | .close => .ok () (sockClose E s).2

/-- The application keeps the rules: what it sends is the struct its type says, and a body frame sent by hand fits the negotiated
frame size. -/
def ApiCall.legal (room : Nat) : ApiCall → Prop
  | .sendFrame f _ => WellTyped f.payload ∧ ∀ b, f.payload = .body b → b.length + 8 ≤ room
  | .simpleRpc _ id _ args => WellTyped (.method id args)
  | .publish _ _ _ _ _ (some p) _ => PropsOK (fun _ _ => True) p.1 p.2 basicProps
  | _ => True

/-- One call after the other, whatever each returns. -/
def perform (E : NetEnv) : List ApiCall → Conn → Res Conn Unit
  | [], s => .ok () s
  | c :: cs, s =>
    match c.run E s with
    | .ok () t => perform E cs t
    | .err _ t => perform E cs t
    | .ub => .ub
    | .fuel => .fuel

/-! ### From the first octet on -/

/-- Complete frames, none too large for the limit `fm`. -/
inductive FullFrames (fm : Nat) : Bytes → Prop where
  | nil : FullFrames fm []
  | cons (ty : UInt8) (ch : UInt16) (p : Bytes) {rest : Bytes} : p.length + 8 ≤ fm → FullFrames fm rest →
      FullFrames fm (rawFrame ty ch p FRAME_END ++ rest)

/-- The frame size a client that asked for `asked` and a server that offered `offered` agree upon. -/
def agreedSize (asked : Int) (offered : Nat) : Nat := if offered ≠ 0 ∧ offered < asked.toNat then offered else asked.toNat

/-- A server that greets a client which asks for frames of `asked` octets: what it sends, from the first octet on, can be digested
with the limit of a new connection, and what follows a connection.tune with the limit then agreed upon, which is not absurdly
small.  The first frame is not empty; alternatively the server answers with a protocol header first. -/
structure HarmlessServer (asked : Int) (S : Bytes) : Prop where
  first : (S.drop 3).take 4 ≠ [0, 0, 0, 0]
  digestible : Harmless INITIAL_FRAME_MAX (if S.take 4 = [65, 77, 81, 80] then S.drop 8 else S)
  tuned : ∀ before p after, FullFrames INITIAL_FRAME_MAX before →
    (if S.take 4 = [65, 77, 81, 80] then S.drop 8 else S) = before ++ (rawFrame 1 0 p FRAME_END ++ after) →
    p.take 4 = [0, 10, 0, 30] → 12 ≤ p.length →
    20 ≤ agreedSize asked (beVal ((p.drop 6).take 4)) ∧ agreedSize asked (beVal ((p.drop 6).take 4)) ≤ 2 ^ 30 ∧
      Harmless (agreedSize asked (beVal ((p.drop 6).take 4))) after

/-- The clock can be read, and is not at the end of its range. -/
def ClockWorks (E : NetEnv) : Prop := ∀ k, 0 < E.clock k ∧ E.clock k < 2 ^ 63

end Rmq
