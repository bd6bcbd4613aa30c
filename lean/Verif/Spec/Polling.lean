import Verif.Spec.Arrive
/-!
# Specification: a consumer that polls
-/
namespace Rmq

/-- Calls of amqp_consume_message one after the other, each with a time limit (`none`: without), whatever the earlier ones returned: the limits
given and what was returned.  Between them methods may be sent with amqp_send_method (acknowledgements, say) and, if heartbeats are off, messages may be
published with amqp_basic_publish, with success or not. -/
inductive Polls (E : NetEnv) : Conn → List (Option TimeVal × Outcome Envelope) → Conn → Prop where
  | nil (s : Conn) : Polls E s [] s
  | cons {s t u : Conn} {tv : Option TimeVal} {o : Outcome Envelope} {calls : List (Option TimeVal × Outcome Envelope)} :
      consumeMessage E tv s = .ok o t → Polls E t calls u → Polls E s ((tv, o) :: calls) u
  | send {s t u : Conn} {ch : UInt16} {id : UInt32} {args : Rec} {calls : List (Option TimeVal × Outcome Envelope)} :
      (sendMethod E ch id args SF_NONE TIME_INF s).leaves t → Polls E t calls u → Polls E s calls u
  | publish {s t u : Conn} {ch : UInt16} {exchange routingKey : Bytes} {mandatory immediate : Int32} {props : Option (UInt32 × Rec)} {body : Bytes}
      {calls : List (Option TimeVal × Outcome Envelope)} :
      s.heartbeat ≤ 0 → (basicPublish E ch exchange routingKey mandatory immediate props body s).leaves t → Polls E t calls u → Polls E s calls u

/-- Synchronous methods called one after the other (with amqp_simple_rpc, as all functions of the API for them do), each answered by the reply it asks
for. -/
inductive Answered (E : NetEnv) : Conn → Conn → Prop where
  | nil (s : Conn) : Answered E s s
  | cons {s t u : Conn} {ch : UInt16} {id i : UInt32} {expected : List UInt32} {args r : Rec} :
      simpleRpc E ch id expected args s = .ok (.normal i r) t → Answered E t u → Answered E s u

/-- The messages among the outcomes, in order. -/
def messagesOf : List (Option TimeVal × Outcome Envelope) → List Envelope
  | [] => []
  | (_, .normal e) :: calls => e :: messagesOf calls
  | _ :: calls => messagesOf calls

/-- The error is that the limit ran out, if the clock works and the limit is one that is not negative and less than 24 days. -/
def SaysTimeout (E : NetEnv) (tv : Option TimeVal) (st : Int) : Prop := (∀ k, E.clock k ≠ 0) → ClockFine E → Sensible tv → st = St.TIMEOUT

/-- Every call returned a message or, if it had a limit, an error of the library's own: that the limit ran out. -/
def MessageOrLimit (E : NetEnv) (calls : List (Option TimeVal × Outcome Envelope)) : Prop :=
  ∀ c ∈ calls, (∃ e, c.2 = .normal e) ∨ (c.1 ≠ none ∧ ∃ st, c.2 = .libraryException st ∧ SaysTimeout E c.1 st)

end Rmq
