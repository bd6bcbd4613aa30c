import Verif.Proofs.Failures
import Verif.Props.Receive
import Verif.Props.Consume
/-!
# C98: what a call that fails does to the frames of other callers
-/
namespace Rmq

theorem Fate.says {E : NetEnv} {s s' : Conn} {e : Int} (h : Fate E s e s') :
    QueueIsStart E s s' ∧ (e ≠ St.NO_MEMORY → NothingLost E s s' ∨ (RejectsInput e ∧ StoppedAtBadData E s s')) := by
  refine ⟨h.1, fun he => ?_⟩
  rcases h.2 he with h | ⟨hp, h⟩
  · exact Or.inl h.lossless
  · refine Or.inr ⟨?_, h⟩
    have he : e ≠ -1 := he
    unfold ParseErr at hp
    unfold RejectsInput
    omega

/-- C98 for waiting for a frame of any channel, as long as no wait is held up by the sending of a heartbeat: a failure — timeout,
broken connection, bad timeout, clock, missed heartbeats — loses nothing; one because of what the peer sent leaves all frames before it
queued; and always the queue holds the first frames to come.  Missing: for lack of memory only the last of these is claimed,
`C98_frame_lost`. -/
theorem C98_wait_partial {E : NetEnv} {tv : Option TimeVal} {s s' : Conn} {e : Int} (hI : InUse E s) (hU : Unblocked E s)
    (h : waitFrame E tv s = .err e s') :
    QueueIsStart E s s' ∧ (e ≠ St.NO_MEMORY → NothingLost E s s' ∨ (RejectsInput e ∧ StoppedAtBadData E s s')) :=
  (waitFrame_fate hI.good hU h).says

/-- C98 for waiting on one channel. -/
theorem C98_wait_on_partial {E : NetEnv} {ch : UInt16} {s s' : Conn} {e : Int} (hI : InUse E s) (hU : Unblocked E s)
    (h : waitFrameOn E ch s = .err e s') :
    QueueIsStart E s s' ∧ (e ≠ St.NO_MEMORY → NothingLost E s s' ∨ (RejectsInput e ∧ StoppedAtBadData E s s')) := by
  unfold waitFrameOn at h
  cases hf : findQueued ch s.queue with
  | some p => rw [hf] at h; cases h
  | none => rw [hf] at h; exact (waitOnLoop_fate ch _ s s' e hI.good hU h).says

/-- C98 for remote procedure calls. -/
theorem C98_rpc_partial {E : NetEnv} {ch : UInt16} {id : UInt32} {expected : List UInt32} {args : Rec} {s s' : Conn} {e : Int}
    (hI : InUse E s) (hU : Unblocked E s) (h : simpleRpc E ch id expected args s = .ok (.libraryException e) s') :
    QueueIsStart E s s' ∧ (e ≠ St.NO_MEMORY → NothingLost E s s' ∨ (RejectsInput e ∧ StoppedAtBadData E s s')) :=
  (simpleRpc_fate hI.good hU h).says

/-- C98 for sending a frame, by whatever deadline, with or without heartbeats, held up or not. -/
theorem C98_send_partial {E : NetEnv} {f : AFrame} {flags deadline : Nat} {s s' : Conn} {e : Int} (hI : InUse E s)
    (h : sendFrame E f flags deadline s = .err e s') :
    QueueIsStart E s s' ∧ (e ≠ St.NO_MEMORY → NothingLost E s s' ∨ (RejectsInput e ∧ StoppedAtBadData E s s')) :=
  (sendFrame_fate hI.good h).says

/-- C98 for amqp_basic_publish: a message that could not be published costs none of the frames that came in meanwhile … -/
theorem C98_publish_partial {E : NetEnv} {ch : UInt16} {exchange routingKey : Bytes} {mandatory immediate : Int32}
    {props : Option (UInt32 × Rec)} {body : Bytes} {s s' : Conn} {e : Int} (hI : InUse E s)
    (h : basicPublish E ch exchange routingKey mandatory immediate props body s = .err e s') :
    QueueIsStart E s s' ∧ (e ≠ St.NO_MEMORY → NothingLost E s s' ∨ (RejectsInput e ∧ StoppedAtBadData E s s')) := by
  have := basicPublish_fated E ch exchange routingKey mandatory immediate props body s hI.good
  rw [h] at this
  exact this.says

/-- … and neither does one that was. -/
theorem C98_published {E : NetEnv} {ch : UInt16} {exchange routingKey : Bytes} {mandatory immediate : Int32}
    {props : Option (UInt32 × Rec)} {body : Bytes} {s s' : Conn} (hI : InUse E s)
    (h : basicPublish E ch exchange routingKey mandatory immediate props body s = .ok () s') : NothingLost E s s' := by
  have := basicPublish_fated E ch exchange routingKey mandatory immediate props body s hI.good
  rw [h] at this
  exact this.2.lossless

/-- A frame of channel 2 arrives while waiting on channel 1, and the allocator refuses the room to keep it. -/
def poorWaitEnv : NetEnv := { netEnv [] [(0, .sent 99)] [(0, .data (([3, 0, 2, 0, 0, 0, 1, 65, 206] : Bytes) ++ frameA)), (1, .data (([3, 0, 2, 0, 0, 0, 1, 65, 206] : Bytes) ++ frameA))] [] with
  pe := { (netEnv [] [] [] []).pe with alloc := fun n => decide (n < 2) } }

/-- C98 fails for lack of memory: the call fails, and the frame of the other channel is neither queued nor in the buffer any more. -/
theorem C98_frame_lost : ∃ (E : NetEnv) (s s1 s2 : Conn), InUse E s ∧ Unblocked E s ∧ s.queue = [] ∧ s.inb = [] ∧
    waitFrameOn E 1 s = .err St.NO_MEMORY s1 ∧
    (pending E s (recvBytes (s1.log.drop s.log.length))).map (·.bodyOf) = [(2, [65]), (1, [65])] ∧ (pending E s1 []).map (·.bodyOf) = [(1, [65])] ∧
    simpleRpc E 1 0x00140014 [0x00140015] [(.active, .bool 1)] s = .ok (.libraryException St.NO_MEMORY) s2 ∧
    (pending E s (recvBytes (s2.log.drop s.log.length))).map (·.bodyOf) = [(2, [65]), (1, [65])] ∧ (pending E s2 []).map (·.bodyOf) = [(1, [65])] := by
  have e1 : ∀ r : Res Conn DFrame, r.errCode? = some St.NO_MEMORY → ∃ s', r = .err St.NO_MEMORY s' := by
    intro r; cases r <;> simp [Res.errCode?]
  have e2 : ∀ r : Res Conn Reply, r.val?.map Reply.status = some St.NO_MEMORY → ∃ s', r = .ok (.libraryException St.NO_MEMORY) s' := by
    intro r hr
    cases r with
    | ok a s' =>
      cases a with
      | libraryException e =>
        have : e = St.NO_MEMORY := by simpa [Res.val?, Reply.status] using hr
        exact ⟨s', by rw [this]⟩
      | normal a b => exact absurd hr (by simp [Res.val?, Reply.status, St.NO_MEMORY])
      | serverException a b => exact absurd hr (by simp [Res.val?, Reply.status, St.NO_MEMORY])
    | err e s' => simp [Res.val?] at hr
    | ub => simp [Res.val?] at hr
    | fuel => simp [Res.val?] at hr
  obtain ⟨s1, h1⟩ := e1 (waitFrameOn poorWaitEnv 1 (demoConn 64)) (by decide +kernel)
  obtain ⟨s2, h2⟩ := e2 (simpleRpc poorWaitEnv 1 0x00140014 [0x00140015] [(.active, .bool 1)] (demoConn 64)) (by decide +kernel)
  have k1 : (waitFrameOn poorWaitEnv 1 (demoConn 64)).state? = some s1 := by rw [h1]; rfl
  have k2 : (simpleRpc poorWaitEnv 1 0x00140014 [0x00140015] [(.active, .bool 1)] (demoConn 64)).state? = some s2 := by rw [h2]; rfl
  refine ⟨poorWaitEnv, demoConn 64, s1, s2, demoConn_inUse _ _, Or.inr ⟨by decide, rfl, rfl⟩, rfl, rfl, h1, ?_, ?_, h2, ?_, ?_⟩
  · have : ((waitFrameOn poorWaitEnv 1 (demoConn 64)).state?.map fun s => (pending poorWaitEnv (demoConn 64)
      (recvBytes (s.log.drop (demoConn 64).log.length))).map (·.bodyOf)) = some [(2, [65]), (1, [65])] := by decide +kernel
    rw [k1] at this; simpa using this
  · have : ((waitFrameOn poorWaitEnv 1 (demoConn 64)).state?.map fun s => (pending poorWaitEnv s []).map (·.bodyOf)) =
      some [(1, [65])] := by decide +kernel
    rw [k1] at this; simpa using this
  · have : ((simpleRpc poorWaitEnv 1 0x00140014 [0x00140015] [(.active, .bool 1)] (demoConn 64)).state?.map fun s => (pending poorWaitEnv (demoConn 64)
      (recvBytes (s.log.drop (demoConn 64).log.length))).map (·.bodyOf)) = some [(2, [65]), (1, [65])] := by decide +kernel
    rw [k2] at this; simpa using this
  · have : ((simpleRpc poorWaitEnv 1 0x00140014 [0x00140015] [(.active, .bool 1)] (demoConn 64)).state?.map fun s =>
      (pending poorWaitEnv s []).map (·.bodyOf)) = some [(1, [65])] := by decide +kernel
    rw [k2] at this; simpa using this

/-- A frame of channel 2 arrives, then the connection breaks: the wait on channel 1 fails, the frame stays queued. -/
example : let E := netEnv [] [] [(0, .data [3, 0, 2, 0, 0, 0, 1, 65, 206]), (3, .fail 8), (2, .fail 8), (4, .fail 8)] []
    let r := waitFrameOn E 1 (demoConn 64)
    r.errCode? = some St.SOCKET_ERROR ∧ r.state?.map (fun s => s.queue.map (·.frame.bodyOf)) = some [(2, [65])] ∧
      InUse E (demoConn 64) ∧ Unblocked E (demoConn 64) :=
  ⟨by decide +kernel, by decide +kernel, demoConn_inUse _ _, Or.inr ⟨by decide, rfl, rfl⟩⟩

/-- A frame of channel 2, then a frame without its end octet: the wait fails for bad data, the frame stays queued. -/
example : let E := netEnv [] [] [(0, .data [3, 0, 2, 0, 0, 0, 1, 65, 206, 3, 0, 1, 0, 0, 0, 1, 65, 0])] []
    let r := waitFrameOn E 1 (demoConn 64)
    r.errCode? = some St.BAD_AMQP_DATA ∧ RejectsInput St.BAD_AMQP_DATA ∧ r.state?.map (fun s => s.queue.map (·.frame.bodyOf)) = some [(2, [65])] :=
  ⟨by decide +kernel, Or.inl rfl, by decide +kernel⟩

end Rmq
