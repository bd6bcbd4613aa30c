import Verif.Spec.Heartbeat
/-!
# Specification: how long a call may sleep
-/
namespace Rmq

/-- What was last offered to the transport is (the rest of) the protocol header. -/
def OffersHeader (l : List Ev) : Prop :=
  ∃ a b flags res c, l = a ++ .send b flags res :: c ∧ b ≠ [] ∧ b <:+ protocolHeaderBytes ∧ ∀ e ∈ c, ∀ b' f' r', e ≠ Ev.send b' f' r'

/-- No sleep among the events is longer than `H` milliseconds (a negative time would be for ever); exempt are those while the protocol
header is being sent. -/
def Naps (H : Nat) (l : List Ev) : Prop :=
  ∀ a d ms r b, l = a ++ Ev.poll d ms r :: b → (0 ≤ ms ∧ ms ≤ H) ∨ OffersHeader a

/-- The server is being watched: the interval is `h` seconds, and something must be heard from it within twice that time of any reading of
the clock. -/
def OnWatch (E : NetEnv) (h : Nat) (s : Conn) : Prop :=
  s.heartbeat = h ∧ s.nextRecv < TIME_INF ∧ ∀ k, s.time ≤ k → E.clock k = 0 ∨ s.nextRecv ≤ E.clock k + 2 * h * 1000000000

end Rmq
