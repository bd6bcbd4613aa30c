import Verif.Spec.Methods
import Verif.Model.Frame
/-!
# Specification: AMQP 0-9-1 frames on the wire (section 4.2.3 of the AMQP 0-9-1 specification)
-/
namespace Rmq

/-- A frame on the wire: type octet, channel, payload size, payload, end octet. -/
def rawFrame (ty : UInt8) (ch : UInt16) (payload : Bytes) (fend : UInt8) : Bytes :=
  ty :: (beBytes 2 ch.toNat ++ beBytes 4 payload.length ++ payload ++ [fend])

/-- `Wire p ty bs q`: `p` is a frame payload an application may send; it has frame type `ty` and wire form `bs`, and `q` is
what a receiver gets to see of it (of a content header, the properties that are flagged). -/
inductive Wire : Payload → UInt8 → Bytes → Payload → Prop where
  | method {p : Proto} {r : Rec} (hp : p ∈ protocol) (hr : HasArgs p.args r) (he : AllArgs Dom.encodable p.args r)
      (hf : AllArgs Dom.faithful p.args r) :
      Wire (.method p.id r) 1 (beBytes 4 p.id.toNat ++ serArgs p.args r []) (.method p.id r)
  | header {c : UInt16 × List (Nat × Fld × Dom)} {size : UInt64} {flags : UInt32} {r : Rec} (hc : c ∈ propClasses)
      (hw : flags.toNat < 65536 ∧ ¬ flagSet flags 0) (he : PropsOK Dom.encodable flags r c.2)
      (hf : PropsOK Dom.faithful flags r c.2) :
      Wire (.header c.1 size flags r) 2
        (beBytes 2 c.1.toNat ++ [0, 0] ++ beBytes 8 size.toNat ++ (beBytes 2 flags.toNat ++ serProps flags r c.2))
        (.header c.1 size flags (flaggedProps flags r c.2))
  | body (b : Bytes) : Wire (.body b) 3 b (.body b)
  | heartbeat : Wire .heartbeat 8 [] .heartbeat

/-- A receiver reading one chunk of bytes: amqp_handle_input is called until the chunk is used up or a call fails (the loop an
application runs, and the one of amqp_socket.c:662-688, 740-760).  The frames delivered, and how it ended.  (The first
argument bounds the number of calls.) -/
def drain (E : PEnv) : Nat → PState → Bytes → List AFrame × Res PState Unit
  | 0, s, d => ([], if d = [] then .ok () s else .fuel)
  | n + 1, s, d =>
    if d = [] then ([], .ok () s)
    else
      match handleInput E s d with
      | .ok (k, f) s' => (f.toList ++ (drain E n s' (d.drop k)).1, (drain E n s' (d.drop k)).2)
      | .err e s' => ([], .err e s')
      | .ub => ([], .ub)
      | .fuel => ([], .fuel)

/-- Reading a sequence of chunks, stopping at the first failure. -/
def readChunks (E : PEnv) : PState → List Bytes → List AFrame × Res PState Unit
  | s, [] => ([], .ok () s)
  | s, c :: cs =>
    match drain E c.length s c with
    | (fs, .ok () s') => (fs ++ (readChunks E s' cs).1, (readChunks E s' cs).2)
    | (fs, r) => (fs, r)

/-- The receivers an application can meet: a new connection, one that has accepted input so far, one whose frame limit was
changed between frames (amqp_tune_connection, amqp_connection.c:108-143), and one whose channel pools were used or added to in
between. -/
inductive Live (E : PEnv) : PState → Prop where
  | new (fm : Nat) : Live E (newParser fm)
  | call {s s' : PState} {d : Bytes} {r : Nat × Option AFrame} : Live E s → handleInput E s d = .ok r s' → Live E s'
  | tune {s : PState} (fm : Nat) : Live E s → s.mode = .idle → Live E { s with frameMax := fm }
  | used {s : PState} (a : Nat) (p : List UInt16) : Live E s → Live E { s with allocs := a, pools := p }

/-- `Stream fm bs fs`: the bytes `bs` are the frames `fs` (as a receiver sees them), each within the limit `fm`. -/
inductive Stream (fm : Nat) : Bytes → List AFrame → Prop where
  | nil : Stream fm [] []
  | frame {p q : Payload} {ty : UInt8} {bs rest : Bytes} {fs : List AFrame} (ch : UInt16) : Wire p ty bs q → bs.length + 8 ≤ fm →
      bs.length ≤ 2 ^ 30 → Stream fm rest fs → Stream fm (rawFrame ty ch bs FRAME_END ++ rest) (⟨ch, q⟩ :: fs)

/-- Calls made one after the other whatever they return (stopping only when there is no state to go on with). -/
def persist (E : PEnv) : PState → List Bytes → List (Res PState (Nat × Option AFrame))
  | _, [] => []
  | s, d :: ds => handleInput E s d ::
    match handleInput E s d with
    | .ok _ s' => persist E s' ds
    | .err _ s' => persist E s' ds
    | _ => []

/-- The payload is the C value its type says: a method frame carries the struct of its method id, a header frame the properties
of its class. -/
def WellTyped : Payload → Prop
  | .method id r => ∀ p ∈ protocol, p.id = id → HasArgs p.args r
  | .header cls _ flags r => ∀ c ∈ propClasses, c.1 = cls → PropsOK (fun _ _ => True) flags r c.2
  | _ => True

/-- The frame is of a kind the protocol has, and carries the fields its method number or class prescribes — all of a method's, and of a
content header's exactly those of its class that are flagged. -/
def Proper : Payload → Prop
  | .method id r => ∃ p ∈ protocol, p.id = id ∧ HasArgs p.args r
  | .header cls _ flags r => ∃ c ∈ propClasses, c.1 = cls ∧ PropsOK (fun _ _ => True) flags r c.2 ∧ flaggedProps flags r c.2 = r
  | .other _ => False
  | _ => True

/-- Payload lengths and flag words for which the receiver stays inside the frame. -/
def PayloadOK (ty : UInt8) (payload : Bytes) : Prop :=
  (ty = 1 → 3 ≤ payload.length) ∧
  (ty = 2 → 12 ≤ payload.length ∧
    ¬ (4 ≤ payload.length - 12 ∧ beVal ((payload.drop 12).take 2) % 2 = 1 ∧
      (2 ^ 15 ≤ beVal ((payload.drop 14).take 2) ∨
        (beVal ((payload.drop 14).take 2) % 2 = 1 ∧ 6 ≤ payload.length - 12))))

/-- Streams of frames for a receiver with limit `fm` in which every accepted frame is `PayloadOK`: a run of such frames, then
any of: nothing more than part of a header; part of a frame; a frame that is too large; a frame with a bad end octet (both
followed by anything). -/
inductive SafeStream (fm : Nat) : Bytes → Prop where
  | short {d : Bytes} : d.length < 7 → SafeStream fm d
  | tooLarge (ty : UInt8) (ch : UInt16) (n : Nat) (rest : Bytes) : n < 2 ^ 32 → fm < n + 8 →
      SafeStream fm (ty :: (beBytes 2 ch.toNat ++ beBytes 4 n ++ rest))
  | incomplete (ty : UInt8) (ch : UInt16) (n : Nat) (rest : Bytes) : n + 8 ≤ fm → rest.length < n + 1 →
      SafeStream fm (ty :: (beBytes 2 ch.toNat ++ beBytes 4 n ++ rest))
  | badEnd (ty : UInt8) (ch : UInt16) (p : Bytes) (fe : UInt8) (rest : Bytes) : p.length + 8 ≤ fm → fe ≠ FRAME_END →
      SafeStream fm (rawFrame ty ch p fe ++ rest)
  | frame (ty : UInt8) (ch : UInt16) (p : Bytes) {rest : Bytes} : p.length + 8 ≤ fm → PayloadOK ty p → SafeStream fm rest →
      SafeStream fm (rawFrame ty ch p FRAME_END ++ rest)

/-- The wire form of a method frame. -/
def methodFrame (ch : UInt16) (p : Proto) (r : Rec) : Bytes := rawFrame 1 ch (beBytes 4 p.id.toNat ++ serArgs p.args r []) FRAME_END

end Rmq
