import Verif.Spec.Conn
import Verif.Spec.Outgoing
import Verif.Spec.Heartbeat
/-!
# Specification: the journey of a message from one client to another
-/
namespace Rmq

/-! No key, at any level of a table, is the empty string. -/
mutual
def keyedV : FV → Prop
  | .array vs => keyedVs vs
  | .table es => keyedEs es
  | _ => True
def keyedVs : List FV → Prop
  | [] => True
  | v :: vs => keyedV v ∧ keyedVs vs
def keyedE : Entry → Prop
  | .mk k v => k ≠ [] ∧ keyedV v
def keyedEs : List Entry → Prop
  | [] => True
  | e :: es => keyedE e ∧ keyedEs es
end

/-- The tables among the values hold AMQP's kinds only. -/
def KindProps (r : Rec) : Prop := ∀ f t, (f, Val.table t) ∈ r → kindsOKEs t

/-- The tables among the values have no empty keys. -/
def KeyedProps (r : Rec) : Prop := ∀ f t, (f, Val.table t) ∈ r → keyedEs t

/-- The outside did not fail: receiving gave octets or would have blocked, waiting was ended by the descriptor becoming ready, by a signal,
or by the limit it was given (a negative one is none), what was sent was taken, and the connection was not given up (the library closes it when
nothing has come from the server for two heartbeat intervals). -/
def Ev.fine : Ev → Prop
  | .recvFail st => wouldBlock st = true
  | .send _ _ res => 0 < res
  | .close _ => False
  | .poll _ ms r => r = .ready ∨ r = .intr ∨ (r = .timeout ∧ 0 ≤ ms)
  | _ => True

/-- The frames of a content on channel `ch`: a header for the basic class announcing the number of octets, then these octets in body frames, cut
anywhere. -/
def Content (ch : UInt16) (flags : UInt32) (props : Rec) (body : Bytes) (fs : List AFrame) : Prop :=
  ∃ (size : UInt64) (bodies : List Bytes), fs = ⟨ch, .header 60 size flags props⟩ :: bodies.map (fun b => ⟨ch, .body b⟩) ∧
    bodies.flatten = body ∧ size.toNat = body.length

/-- The arguments of basic.deliver. -/
def deliverArgs (tag : Bytes) (dt : UInt64) (red : Int32) (ex rk : Bytes) : Rec :=
  [(.consumer_tag, .bytes tag), (.delivery_tag, .u64 dt), (.redelivered, .bool red), (.exchange, .bytes ex), (.routing_key, .bytes rk)]

/-- Heartbeats do no harm: they are off; or their settings are such as a connection keeps, they get through, and the clock
works. -/
def HeartbeatsFine (E : NetEnv) (s : Conn) : Prop :=
  (s.heartbeat ≤ 0 ∧ s.nextSend = TIME_INF ∧ s.nextRecv = TIME_INF) ∨
  (HbSettings E s ∧ HeartbeatsPass E ∧ ClockFine E ∧ ∀ k, E.clock k ≠ 0)

/-- Ready to receive: the connection is open and between two frames, nothing is queued, heartbeats do no harm, and there is memory. -/
structure Receiving (E : NetEnv) (s : Conn) : Prop where
  inUse : InUse E s
  idle : s.ps.mode = .idle
  queue : s.queue = []
  isOpen : s.isOpen = true
  heart : HeartbeatsFine E s
  memory : ∀ k, E.pe.alloc k = true

/-- basic.deliver in the protocol. -/
def deliverProto : Proto := ⟨60, 60, "basic", "deliver",
  [(.consumer_tag, .shortstr), (.delivery_tag, .longlong), (.redelivered, .bit), (.exchange, .shortstr), (.routing_key, .shortstr)], true⟩

/-- A delivery on the wire: basic.deliver, a header frame with this payload, body frames. -/
def deliveryBytes (ch : UInt16) (args : Rec) (header : Bytes) (bodies : List Bytes) : Bytes :=
  methodFrame ch deliverProto args ++ rawFrame 2 ch header FRAME_END ++ bodies.flatMap fun b => rawFrame 3 ch b FRAME_END

/-- A message on its way to a consumer: what basic.deliver says, and the content, its body in pieces. -/
structure Delivery where
  channel : UInt16
  tag : Bytes
  deliveryTag : UInt64
  redelivered : Int32
  exchange : Bytes
  routingKey : Bytes
  flags : UInt32
  props : Rec
  bodies : List Bytes

/-- Its frames. -/
def Delivery.frames (d : Delivery) : List AFrame :=
  ⟨d.channel, .method BASIC_DELIVER (deliverArgs d.tag d.deliveryTag d.redelivered d.exchange d.routingKey)⟩ ::
  ⟨d.channel, .header 60 (UInt64.ofNat d.bodies.flatten.length) d.flags d.props⟩ :: d.bodies.map fun b => ⟨d.channel, .body b⟩

/-- The message it is. -/
def Delivery.envelope (d : Delivery) : Envelope :=
  ⟨d.channel, d.tag, d.deliveryTag, d.redelivered, d.exchange, d.routingKey, ⟨d.flags, flaggedProps d.flags d.props basicProps, d.bodies.flatten⟩⟩

/-- Calls of amqp_consume_message, without a timeout, one after the other, and what they returned. -/
inductive Consumes (E : NetEnv) : Conn → List (Outcome Envelope) → Conn → Prop where
  | nil (s : Conn) : Consumes E s [] s
  | cons {s t u : Conn} {o : Outcome Envelope} {os : List (Outcome Envelope)} : consumeMessage E none s = .ok o t → Consumes E t os u →
      Consumes E s (o :: os) u

/-- `zs` is the two lists shuffled together, each in its order. -/
inductive Shuffle {α : Type} : List α → List α → List α → Prop where
  | nil : Shuffle [] [] []
  | left {x : α} {xs ys zs : List α} : Shuffle xs ys zs → Shuffle (x :: xs) ys (x :: zs)
  | right {y : α} {xs ys zs : List α} : Shuffle xs ys zs → Shuffle xs (y :: ys) (y :: zs)

end Rmq
