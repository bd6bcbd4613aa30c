import Verif.Spec.Safety
/-!
# Specification: a network that gives out
-/
namespace Rmq

/-- The socket's failure `-(k+1)` says neither "try again" nor "timed out". -/
def Permanent (k : Nat) : Prop :=
  (-(k + 1 : Nat) : Int) ≠ St.PRIVATE_NEED_READ ∧ (-(k + 1 : Nat) : Int) ≠ St.PRIVATE_NEED_WRITE ∧ (-(k + 1 : Nat) : Int) ≠ St.TIMEOUT

/-- From the `K`-th event on the connection is lost: receiving and sending fail for good. -/
structure LostFrom (E : NetEnv) (K : Nat) : Prop where
  recv : ∀ t n, K ≤ t → ∃ k, E.recv t n = .fail k ∧ Permanent k
  send : ∀ t b, K ≤ t → ∃ k, E.send t b = .fail k ∧ Permanent k
  poll : ∀ t, K ≤ t → E.poll t ≠ .intr

/-- From the `K`-th event on the server is silent: nothing arrives any more, what is sent to it is refused or swallowed whole, and what is
waited for with a time limit times out. -/
structure SilentFrom (E : NetEnv) (K : Nat) : Prop where
  recv : ∀ t n, K ≤ t → ∃ k, E.recv t n = .fail k
  send : ∀ t b, K ≤ t → (∃ k, E.send t b = .fail k) ∨ ∃ m, b.length ≤ m ∧ E.send t b = .sent m
  poll : ∀ t, K ≤ t → E.poll t = .timeout ∨ E.poll t = .error

/-- From the `K`-th event on the clock, when it can be read, shows that more than twice `h` seconds have gone by since the `K0`-th. -/
def TimePasses (E : NetEnv) (K0 K h : Nat) : Prop :=
  ∀ u t, u ≤ K0 → K ≤ t → E.clock t ≠ 0 → E.clock u + 2 * h * 1000000000 < E.clock t

/-- Something was asked of the network (or of the descriptor). -/
def Ev.network : Ev → Bool
  | .send _ _ _ => true
  | .recvData _ => true
  | .recvFail _ => true
  | .poll _ _ _ => true
  | .close _ => true
  | _ => false

end Rmq
