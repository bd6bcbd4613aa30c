import Verif.Spec.Conn
/-!
# What a call that fails leaves behind (C98)
-/
namespace Rmq

/-- The queued frames, in order, heartbeats not counted. -/
def queuedFrames (s : Conn) : List AFrame := (s.queue.map (·.frame)).filter (!·.isHeartbeat)

/-- Nothing the application has yet to see was lost, reordered or made twice between `s` and `s'`: whatever bytes `X` arrive later, the
frames to come are the same as without the call. -/
def NothingLost (E : NetEnv) (s s' : Conn) : Prop :=
  ∃ l, Since s s' l ∧ ∀ X, pending E s' X = pending E s (recvBytes l ++ X)

/-- The peer sent bytes that no frame can begin with: all frames before these are queued, and no later bytes would make another. -/
def StoppedAtBadData (E : NetEnv) (s s' : Conn) : Prop :=
  ∃ l, Since s s' l ∧ ∀ X, queuedFrames s' = pending E s (recvBytes l ++ X)

/-- The queue holds the first of the frames to come, without gap, in order. -/
def QueueIsStart (E : NetEnv) (s s' : Conn) : Prop :=
  ∃ l, Since s s' l ∧ ∀ X, ∃ rest, pending E s (recvBytes l ++ X) = queuedFrames s' ++ rest

/-- The statuses by which the library rejects what the peer sent: AMQP_STATUS_BAD_AMQP_DATA, _UNKNOWN_CLASS, _UNKNOWN_METHOD. -/
def RejectsInput (e : Int) : Prop := e = -2 ∨ e = -3 ∨ e = -4

end Rmq
