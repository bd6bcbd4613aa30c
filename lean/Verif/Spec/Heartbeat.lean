import Verif.Spec.History
/-!
# Specification vocabulary for waiting: deadlines and heartbeats, read off the log of outside events
-/
namespace Rmq

/-- A heartbeat frame on the wire. -/
def heartbeatBytes : Bytes := [8, 0, 0, 0, 0, 0, 0, 206]

/-- What an observer of the events keeps track of, for an interval of `h` seconds: the moment before which something must have been
received (2h after the last time something was), the moment before which something must be sent (h after the last time a frame was
sent), and the event just before. -/
structure Watch where
  recvBy : Nat
  sendBy : Nat
  last : Option Ev

/-- The observer sees the next event.  The times counting are those the clock shows just after something was received, or just after the
last byte of a frame (which is 206) was accepted. -/
def Watch.see (h : Int) (m : Watch) (e : Ev) : Watch :=
  match m.last, e with
  | some (.recvData _), .clock now => ⟨if 0 < h ∧ now ≠ 0 then now + 2 * h.toNat * 1000000000 else m.recvBy, m.sendBy, some e⟩
  | some (.send b _ res), .clock now =>
    ⟨m.recvBy, if 0 < h ∧ now ≠ 0 ∧ res = b.length ∧ b.getLast? = some 206 then now + h.toNat * 1000000000 else m.sendBy, some e⟩
  | _, _ => ⟨m.recvBy, m.sendBy, some e⟩

/-- Receiving is in order: there are no heartbeats to be sent at all, or the clock has just shown that none is overdue, or a poll (itself
bounded by the time for the next heartbeat) has just announced something. -/
def MayRecv (sendBy : Nat) (last : Option Ev) : Prop :=
  sendBy = TIME_INF ∨ (∃ now, last = some (.clock now) ∧ now ≤ sendBy) ∨ ∃ d ms, last = some (.poll d ms .ready)

/-- Is the next event as it should be during a wait that must end by `deadline`?
* It must not sleep for longer than to the earliest of the three moments, as of a clock reading made just before (a negative time is for
  ever).
* It must send nothing but heartbeats, beginning when the clock has just shown that one is overdue.
* It must not receive if a heartbeat is overdue. -/
def Watch.allows (deadline : Nat) (m : Watch) : Ev → Prop
  | .poll _ ms _ => ms = 0 ∨
      (∃ now, m.last = some (.clock now) ∧ 0 ≤ ms ∧ (now : Int) + ms * 1000000 ≤ min deadline (min m.recvBy m.sendBy)) ∨
      (ms = -1 ∧ deadline = TIME_INF ∧ m.recvBy = TIME_INF ∧ m.sendBy = TIME_INF)
  | .send b _ _ => b <:+ heartbeatBytes ∧ b ≠ [] ∧ ((∃ b' f res, m.last = some (.send b' f res)) ∨
      (b = heartbeatBytes ∧ ∃ now, m.last = some (.clock now) ∧ m.sendBy < now))
  | .recvData _ => MayRecv m.sendBy m.last
  | .recvFail _ => MayRecv m.sendBy m.last
  | _ => True

/-- When a poll has timed out, a wait goes on only if the earliest of the three moments was the one for sending a heartbeat; otherwise it
ends, at most closing the socket. -/
def Watch.goesOn (deadline : Nat) (m : Watch) (e : Ev) : Prop :=
  ∀ d ms, m.last = some (.poll d ms .timeout) → (∃ ok, e = .close ok) ∨ (m.sendBy < m.recvBy ∧ m.sendBy < deadline)

/-- All events of a wait are as they should be. -/
def Obeys (deadline : Nat) (h : Int) : Watch → List Ev → Prop
  | _, [] => True
  | m, e :: l => m.goesOn deadline e ∧ m.allows deadline e ∧ Obeys deadline h (m.see h e) l

/-- What the observer knows after the events. -/
def Watch.after (h : Int) (m : Watch) (l : List Ev) : Watch := l.foldl (Watch.see h) m

/-- Events after which the claims on waiting are off: a send that would block or reported a time-out, a receive that reported a time-out.
(The socket classes of the library never report time-outs by themselves.) -/
def Ev.odd : Ev → Bool
  | .send _ _ res => res == St.PRIVATE_NEED_READ || res == St.PRIVATE_NEED_WRITE || res == St.TIMEOUT || res == St.HEARTBEAT_TIMEOUT
  | .recvFail st => st == St.TIMEOUT || st == St.HEARTBEAT_TIMEOUT
  | _ => false

/-- The events end with a poll that timed out, less than a millisecond before the time `t` (or after it); if that is TIME_INF, it
was a poll without a timeout. -/
def TimedOut (t : Nat) (l : List Ev) : Prop :=
  (∃ a d ms, ∃ now : Nat, l = a ++ [.clock now, .poll d ms .timeout] ∧ 0 ≤ ms ∧ (t : Int) < now + (ms + 1) * 1000000 ∧ t ≠ TIME_INF) ∨
  (t = TIME_INF ∧ ∃ a d, l = a ++ [.poll d (-1) .timeout])

/-- From the `n`th event on the clock never shows a time more than 2^31 milliseconds (24 days) before `t`: then the time left until `t` in
milliseconds is an `int`.  TIME_INF is exempt. -/
def Near (E : NetEnv) (n t : Nat) : Prop := t = TIME_INF ∨ (t ≠ 0 ∧ t < TIME_INF ∧ ∀ k, n ≤ k → E.clock k = 0 ∨ t < E.clock k + 2 ^ 31 * 1000000)

/-- The clock does not go back (a reading of 0 is a failure) and is less than 2^63 ns (292 years). -/
def ClockFine (E : NetEnv) : Prop := (∀ j k, j ≤ k → E.clock k = 0 ∨ E.clock j ≤ E.clock k) ∧ ∀ k, E.clock k < 2 ^ 63

/-- The heartbeat settings of a connection: the interval fits into 16 bits, as in the protocol, the next heartbeats are near; they are off if
there is no interval. -/
def HbSettings (E : NetEnv) (s : Conn) : Prop :=
  s.heartbeat ≤ 65535 ∧ (s.heartbeat ≤ 0 → s.nextSend = TIME_INF ∧ s.nextRecv = TIME_INF) ∧ Near E s.time s.nextSend ∧ Near E s.time s.nextRecv

/-- Any call, where the interval given to amqp_tune_connection is one that the protocol can express. -/
inductive CallH (E : NetEnv) : Conn → Conn → Prop where
  | callP {s s' : Conn} : CallP E s s' → CallH E s s'
  | tune {s s' : Conn} (channelMax frameMax heartbeat : Int) (mem : Nat → UInt8) : heartbeat ≤ 65535 →
      (tune E channelMax frameMax heartbeat mem s).leaves s' → CallH E s s'
  | login {s s' : Conn} (b : Build) (memcmp : Bytes → Bytes → Int) (mem : Nat → UInt8) (a : LoginArgs) :
      (login E b memcmp mem a s).leaves s' → CallH E s s'

/-- The length of a timeout in nanoseconds. -/
def TimeVal.nanos (v : TimeVal) : Nat := v.sec.toNat * 1000000000 + v.usec.toNat * 1000

/-- No timeout, or one of at least zero and less than 2^31 milliseconds. -/
def Sensible : Option TimeVal → Prop
  | none => True
  | some v => 0 ≤ v.sec ∧ 0 ≤ v.usec ∧ v.nanos < 2 ^ 31 * 1000000

/-- The time by which a wait with this timeout must end: never, or that long after the clock reading it begins with. -/
def EndsBy : Option TimeVal → List Ev → Nat → Prop
  | none, _, d => d = TIME_INF
  | some v, l, d => ∃ t0 l', l = .clock t0 :: l' ∧ d = t0 + v.nanos

end Rmq
