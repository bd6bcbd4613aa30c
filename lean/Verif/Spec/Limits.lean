import Verif.Spec.Heartbeat
import Verif.Spec.Login
/-!
# Specification: the time limits of calls, read off the log of outside events
-/
namespace Rmq

/-- What was last offered to the transport is one of the byte strings described by `W`. -/
def Offers (W : Bytes → Prop) (l : List Ev) : Prop :=
  ∃ a b flags res c, l = a ++ .send b flags res :: c ∧ W b ∧ ∀ e ∈ c, ∀ b' f' r', e ≠ Ev.send b' f' r'

/-- Every sleep among the events is one of no length, or it ends, as of a clock reading made just before, by a limit that is in force at that
point (`L`), or it is exempt: what was last offered to the transport is described by `W`. -/
def Keeps (L : List Ev → Nat → Prop) (W : Bytes → Prop) (l : List Ev) : Prop :=
  ∀ a d ms r b, l = a ++ Ev.poll d ms r :: b → ms = 0 ∨
    (∃ (a' : List Ev) (now t : Nat), a = a' ++ [.clock now] ∧ L a t ∧ 0 ≤ ms ∧ (now : Int) + ms * 1000000 ≤ t) ∨ Offers W a

/-- The limit is the time `D`. -/
def By (D : Nat) : List Ev → Nat → Prop := fun _ t => t = D

/-- The limit is the time `D`, or later by the time that passed between two readings of the clock made one right after the other. -/
def ByAbout (D : Nat) : List Ev → Nat → Prop :=
  fun a t => t = D ∨ ∃ (a1 : List Ev) (n1 n2 : Nat) (a2 : List Ev), a = a1 ++ .clock n1 :: .clock n2 :: a2 ∧ n1 ≠ 0 ∧ n1 ≤ n2 ∧ t ≤ D + (n2 - n1)

/-- (What is left of) a heartbeat. -/
def HeartbeatRest (b : Bytes) : Prop := b <:+ heartbeatBytes

/-- (What is left of) a frame with a method with this number on this channel. -/
def MethodRest (ch : UInt16) (id : UInt32) (b : Bytes) : Prop :=
  ∃ size args : Bytes, size.length = 4 ∧ b <:+ [1] ++ beBytes 2 ch.toNat ++ size ++ beBytes 4 id.toNat ++ args

end Rmq
