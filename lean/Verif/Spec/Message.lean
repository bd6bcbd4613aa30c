import Verif.Model.Message
/-!
# Specification: messages in the hands of the application
-/
namespace Rmq.PoolM

/-- Something the application got from the library and has not destroyed yet. -/
inductive Held where
  | envelope (e : Envl)
  | message (m : Msg)
deriving Repr, DecidableEq

/-- The memory a pointer of the message refers to: where it starts and how long the library says it is. -/
def Buf.piece (b : Buf) : List Grant := b.ptr.toList.map fun p => ⟨p, 0, b.len⟩
def Held.pieces : Held → List Grant
  | .envelope e => e.msg.body.piece ++ e.routingKey.piece ++ e.exchange.piece ++ e.tag.piece ++ e.msg.ptrs
  | .message m => m.body.piece ++ m.ptrs

/-- The application destroys it. -/
def Held.destroy : Held → Heap → Option Heap
  | .envelope e, h => destroyEnvelope e h
  | .message m, h => destroyMessage m h

/-- What an application does: anything else with the connection; amqp_consume_message; amqp_read_message; destroying one of the things it
holds. -/
inductive AppOp where
  | other (ops : List ConnOp)
  | consume (waits : Script)
  | read (waits : Script)
  | destroy (i : Nat)

/-- The connection with the heap, and what the application holds. -/
structure AppRun where
  run : ConnRun
  held : List Held

/-- One step; `none` is undefined behaviour.  The application keeps what a call gave it if the call said AMQP_RESPONSE_NORMAL, and nothing
otherwise. -/
def appStep (A : Nat → Bool) (s : AppRun) : AppOp → Option AppRun
  | .other ops => (connRun A s.run ops).map fun r => ⟨r, s.held⟩
  | .consume waits => (consumeMem A waits s.run).map fun
    | (.normal, e, r) => ⟨r, .envelope e :: s.held⟩
    | (_, _, r) => ⟨r, s.held⟩
  | .read waits => (readMem A waits s.run).map fun
    | (.normal, m, r) => ⟨r, .message m :: s.held⟩
    | (_, _, r) => ⟨r, s.held⟩
  | .destroy i =>
    match s.held[i]? with
    | none => some s
    | some x => (x.destroy s.run.heap).map fun h => ⟨{ s.run with heap := h }, s.held.eraseIdx i⟩

def appRun (A : Nat → Bool) (s : AppRun) : List AppOp → Option AppRun
  | [] => some s
  | op :: ops => (appStep A s op).bind fun s => appRun A s ops

/-- Destroying things one after the other. -/
def destroyAll : List Held → Heap → Option Heap
  | [], h => some h
  | x :: xs, h => (x.destroy h).bind fun h => destroyAll xs h

mutual
/-- The pieces of memory a copy of a value needs, in the order of the value. -/
def needFV : FV → List Nat
  | .utf8 b | .bytes b => [b.length].filter (0 < ·)
  | .array vs => [vs.length * SIZEOF_FV].filter (0 < ·) ++ needFVs vs
  | .table es => [es.length * SIZEOF_ENTRY].filter (0 < ·) ++ needEntries es
  | _ => []
def needFVs : List FV → List Nat
  | [] => []
  | v :: vs => needFV v ++ needFVs vs
def needEntry : Rmq.Entry → List Nat
  | .mk k v => k.length :: needFV v
def needEntries : List Rmq.Entry → List Nat
  | [] => []
  | e :: es => needEntry e ++ needEntries es
end

/-- The pieces of memory the copy of a message's properties needs: for those properties that are flagged. -/
def needProps (flags : UInt32) (props : Rec) : List Nat :=
  clonedProps.flatMap fun x => if flags &&& UInt32.ofNat (1 <<< x.1) ≠ 0 then
    match props.get? x.2 with
    | some (.bytes b) => needFV (.bytes b)
    | some (.table t) => needFV (.table t)
    | _ => []
  else []

/-- A frame that amqp_handle_input delivers (in some state, from some octets); if it is a content header, one of class basic. -/
def Received (f : AFrame) : Prop :=
  (∃ E s d n s', handleInput E s d = .ok (n, some f) s') ∧ ∀ cls size flags props, f.payload = .header cls size flags props → cls = 60

/-- The next frames are body frames with `n` octets in all. -/
def Script.carries : Script → Nat → Prop
  | .fails _ _, n => n = 0
  | .frame _ f rest, n => n = 0 ∨ ∃ b, f.payload = .body b ∧ b.length ≤ n ∧ rest.carries (n - b.length)

/-- The message is what the first frame of the waits announces: a body of that size, which the frames after it fill, and copies of the flagged
properties. -/
def Msg.announced (m : Msg) : Script → Prop
  | .fails _ _ => False
  | .frame _ f rest => ∃ cls size flags props, f.payload = .header cls size flags props ∧ rest.carries size.toNat ∧
    m.body.len = size.toNat ∧ (m.body.ptr = none ↔ size.toNat = 0) ∧ m.ptrs.reverse.map (·.amount) = needProps flags props

/-- The string is the one in the method: of that length, and there unless that is 0. -/
def Buf.holds (b : Buf) (args : Rec) (f : Fld) : Prop :=
  ∃ s, args.get? f = some (.bytes s) ∧ b.len = s.length ∧ (b.ptr = none → s.length = 0)

/-- The envelope is what the first two frames of the waits announce. -/
def Envl.announced (e : Envl) : Script → Prop
  | .fails _ _ => False
  | .frame _ f rest => ∃ args, f.payload = .method BASIC_DELIVER args ∧
    e.tag.holds args .consumer_tag ∧ e.exchange.holds args .exchange ∧ e.routingKey.holds args .routing_key ∧ e.msg.announced rest

def Script.sane : Script → Prop
  | .fails ops _ => ∀ op ∈ ops, op.sane
  | .frame ops f rest => (∀ op ∈ ops, op.sane) ∧ Received f ∧ rest.sane

def AppOp.sane : AppOp → Prop
  | .other ops => ∀ op ∈ ops, op.sane
  | .consume waits | .read waits => waits.sane
  | .destroy _ => True

end Rmq.PoolM
