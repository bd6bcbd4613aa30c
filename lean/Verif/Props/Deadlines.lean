import Verif.Props.Receive
import Verif.Proofs.Timeouts
/-!
# C31, C41, C58: deadlines and heartbeats
-/
namespace Rmq

/-! ## C31 -/

theorem rpcLoop_timeout {E : NetEnv} (ch : UInt16) (expected : List UInt32) (d : Nat) : ∀ (n : Nat) (s s' : Conn),
    rpcLoop E ch expected d n s = .ok (.libraryException St.TIMEOUT) s' →
    s'.isOpen = false ∨ ∃ t, s' = t.push (.close false) ∧ ∃ l, Since s t l := by
  intro n
  induction n with
  | zero => intro s s' h; cases h
  | succ n ih =>
    intro s s' h
    unfold rpcLoop at h
    have hw := (since_closed E s).waitFrameInner d (s := s) ⟨[], by simp [Since]⟩
    cases h1 : waitFrameInner E d s with
    | ub => rw [h1] at h; cases h
    | fuel => rw [h1] at h; cases h
    | err e t =>
      rw [h1] at h hw
      dsimp only at h
      injection h with h2 h3
      injection h2 with h2
      subst h2
      rw [if_pos rfl] at h3
      unfold sockClose at h3
      by_cases ho : t.isOpen = false
      · rw [if_pos ho] at h3; subst h3; exact Or.inl ho
      rw [if_neg ho] at h3
      by_cases hc : E.close t.time = true
      · rw [if_pos hc] at h3; subst h3; exact Or.inl rfl
      · rw [if_neg hc] at h3; exact Or.inr ⟨t, h3.symm, hw⟩
    | ok f t =>
      rw [h1] at h hw
      dsimp only at h
      by_cases hc : endsRpc ch expected f.frame = true
      · rw [if_pos hc] at h
        cases hp : f.frame.payload with
        | method id args => rw [hp] at h; dsimp only at h; split at h <;> cases h
        | header c sz fl ps => rw [hp] at h; cases h
        | body b => rw [hp] at h; cases h
        | heartbeat => rw [hp] at h; cases h
        | protocolHeader a b c d => rw [hp] at h; cases h
        | other t => rw [hp] at h; cases h
      rw [if_neg hc] at h
      have hq := (since_closed E s).queue (f := f) trivial hw.1
      cases h3 : queueFrame E f t with
      | ub => rw [h3] at h; cases h
      | fuel => rw [h3] at h; cases h
      | err e u =>
        rw [h3] at h
        dsimp only at h
        injection h with h4 _
        injection h4 with h5
        exact absurd h5 (by decide)
      | ok x u =>
        rw [h3] at h hq
        rcases ih u s' h with h4 | ⟨v, h4, l, h5⟩
        · exact Or.inl h4
        · obtain ⟨l0, hl0⟩ := hq
          exact Or.inr ⟨v, h4, l0 ++ l, by unfold Since at *; rw [h5, hl0, List.append_assoc]⟩

/-- C31: if an RPC reports TIMEOUT, the socket is closed.  Assumed of the outside: `send` does not answer with the library's TIMEOUT, the
kernel's poll without a timeout does not time out, and closing the descriptor does not fail. -/
theorem C31_timeout_closes {E : NetEnv} (hT : NoTimeoutSend E) {ch : UInt16} {id : UInt32} {expected : List UInt32} {args : Rec} {s s' : Conn}
    (hP : PollHonest s s') (hC : ∀ l, Since s s' l → Ev.close false ∉ l)
    (h : simpleRpc E ch id expected args s = .ok (.libraryException St.TIMEOUT) s') : s'.isOpen = false := by
  unfold simpleRpc at h
  have hq := fromNowIO_quiet E (getRpcTimeout s.timeouts) s
  cases hd : fromNowIO E (getRpcTimeout s.timeouts) s with
  | ub => rw [hd] at h; cases h
  | fuel => rw [hd] at h; cases h
  | err e t =>
    rw [hd] at h
    injection h with h1 _
    injection h1 with h1
    rcases fromNowIO_status hd with h2 | h2 <;> rw [h2] at h1 <;> exact absurd h1 (by decide)
  | ok d t =>
    rw [hd] at h hq
    dsimp only at h
    obtain ⟨l0, rfl, _⟩ := hq
    unfold rpcInner sendMethod at h
    have hs := (since_closed E s).sendFrame ⟨ch, .method id args⟩ SF_NONE TIME_INF (s := s.ext l0) ⟨l0, rfl⟩
    cases h1 : sendFrame E ⟨ch, .method id args⟩ SF_NONE TIME_INF (s.ext l0) with
    | ub => rw [h1] at h; cases h
    | fuel => rw [h1] at h; cases h
    | err e u =>
      rw [h1] at h
      injection h with h2 h3
      injection h2 with h2
      subst h2 h3
      obtain ⟨l, dir, h4, h5⟩ := sendFrame_inf hT _ _ h1
      exact absurd (by simp [h5]) (hP (l0 ++ l) (by unfold Since at *; rw [h4]; simp) dir)
    | ok x u =>
      rw [h1] at h hs
      dsimp only at h
      rcases rpcLoop_timeout ch expected d _ u s' h with h2 | ⟨v, rfl, l, h2⟩
      · exact h2
      · obtain ⟨l1, hl1⟩ := hs
        refine absurd ?_ (hC (l1 ++ l ++ [.close false]) ?_)
        · simp
        · unfold Since at *
          show v.log ++ [_] = _
          rw [h2, hl1]
          simp

/-- C31, what follows: whatever calls the application makes afterwards, no RPC gets an answer any more, so a late reply is never taken
for the answer to another call. -/
theorem C31_no_late_reply {E : NetEnv} {s s' : Conn} (hs : s.isOpen = false) (hS : Steps (CallL E) s s') {ch : UInt16} {id : UInt32}
    {expected : List UInt32} {args : Rec} {r : Reply} {s'' : Conn} (h : simpleRpc E ch id expected args s' = .ok r s'') :
    ∃ st, r = .libraryException st := by
  have h1 : s'.isOpen = false := hS.inv (fun hc => (shut_login E).callL hc) hs
  unfold simpleRpc at h
  have hq := fromNowIO_quiet E (getRpcTimeout s'.timeouts) s'
  cases hd : fromNowIO E (getRpcTimeout s'.timeouts) s' with
  | ub => rw [hd] at h; cases h
  | fuel => rw [hd] at h; cases h
  | err e t => rw [hd] at h; cases h; exact ⟨_, rfl⟩
  | ok d t =>
    rw [hd] at h hq
    dsimp only at h
    obtain ⟨l0, rfl, _⟩ := hq
    unfold rpcInner sendMethod at h
    cases h2 : sendFrame E ⟨ch, .method id args⟩ SF_NONE TIME_INF (s'.ext l0) with
    | ub => rw [h2] at h; cases h
    | fuel => rw [h2] at h; cases h
    | err e u => rw [h2] at h; cases h; exact ⟨_, rfl⟩
    | ok x u => exact absurd h2 (sendFrame_shut _ _ _ h1)

/-- An RPC with a timeout of one second; no reply comes. -/
def slowEnv : NetEnv := netEnv [(0, 1000000000), (3, 1000000000)] [(1, .sent 99)] [(2, .fail 0x1300)] [(4, .timeout)]
def slowConn : Conn := { demoConn 64 with timeouts := { newTimeouts with rpcSet := true, internalRpc := ⟨1, 0⟩ } }
example : let r := simpleRpc slowEnv 1 0x00140014 [0x00140015] [(.active, .bool 1)] slowConn
    r.val?.map (fun r => match r with | .libraryException e => e | _ => 0) = some St.TIMEOUT ∧
    r.state?.map (fun s => (s.isOpen, s.log.filter (fun e => e == .poll .read 1000 .timeout || e == .close false))) =
      some (false, [.poll .read 1000 .timeout]) := by decide +kernel
example : NoTimeoutSend slowEnv := by
  intro t b n h
  simp only [slowEnv, netEnv, List.lookup] at h
  split at h <;> simp at h
  subst h
  decide

/-- Without the assumption on closing: the descriptor cannot be closed, and the socket stays in use after TIMEOUT; the late reply to the
first call is then returned by the second. -/
theorem C31_close_failure : let E := { netEnv [(0, 1000000000), (3, 1000000000), (6, 3000000000)] [(1, .sent 99), (7, .sent 99)]
      [(2, .fail 0x1300), (8, .data [1, 0, 1, 0, 0, 0, 5, 0, 20, 0, 21, 1, 206])] [(4, .timeout)] with close := fun _ => false }
    let r := simpleRpc E 1 0x00140014 [0x00140015] [(.active, .bool 1)] slowConn
    r.val?.map (fun r => match r with | .libraryException e => e | _ => 0) = some St.TIMEOUT ∧
    (r.state?.bind fun s => (simpleRpc E 1 0x00140014 [0x00140015] [(.active, .bool 0)] s).val?.map
      fun r => match r with | .normal id _ => id | _ => 0) = some 0x00140015 := by
  decide +kernel

/-! ## The clock as the operations read it (C39, C40) -/

/-- What a call that reads the clock at most once leaves: the connection as it was, or with that one reading recorded. -/
def ReadAtMostOnce (E : NetEnv) (s s' : Conn) : Prop := s' = s ∨ s' = s.push (.clock (E.clock s.time))

/-- C40 (and C39): the functions of amqp_time.c, as they are called during the operations of a connection, answer what the equations of C39
and C40 say for the time the clock shows at that moment, and read it at most once. -/
theorem C40_as_called (E : NetEnv) (s : Conn) (t : Nat) :
    ((msUntilIO E t s).1 = msUntil (E.clock s.time) t ∧ ReadAtMostOnce E s (msUntilIO E t s).2) ∧
    ((hasPastIO E t s).1 = hasPast (E.clock s.time) t ∧ ReadAtMostOnce E s (hasPastIO E t s).2) ∧
    (∃ s', ReadAtMostOnce E s s' ∧ tvUntilIO E t s = match tvUntil (E.clock s.time) t with | .ok v => .ok v s' | .error e => .err e s') := by
  refine ⟨⟨?_, ?_⟩, ⟨?_, ?_⟩, ?_⟩
  · unfold msUntilIO; split
    · rename_i h; unfold msUntil; rcases h with h | h <;> simp [h]
    · rfl
  · unfold msUntilIO; split
    · exact .inl rfl
    · exact .inr rfl
  · unfold hasPastIO; split
    · rename_i h; unfold hasPast; simp [h]
    · rfl
  · unfold hasPastIO; split
    · exact .inl rfl
    · exact .inr rfl
  · unfold tvUntilIO
    by_cases h : TIME_INF = t
    · exact ⟨s, .inl rfl, by unfold tvUntil; simp [h]⟩
    · by_cases h0 : 0 = t
      · exact ⟨s, .inl rfl, by unfold tvUntil; rw [if_neg h, if_pos h0, if_neg h, if_pos h0]⟩
      · refine ⟨_, .inr rfl, ?_⟩
        rw [if_neg h, if_neg h0]
        cases tvUntil (E.clock s.time) t <;> rfl

/-- C39 (and C40): so do amqp_time_from_now and amqp_time_s_from_now. -/
theorem C39_as_called (E : NetEnv) (s : Conn) (tv : Option TimeVal) (seconds : Int) (old : Nat) :
    (∃ s', ReadAtMostOnce E s s' ∧ fromNowIO E tv s = match timeFromNow (E.clock s.time) tv with | .ok t => .ok t s' | .error e => .err e s') ∧
    ReadAtMostOnce E s (sFromNowIO E seconds old s).2.2 ∧
    (match timeSFromNow (E.clock s.time) seconds with
     | .ok t => (sFromNowIO E seconds old s).1 = St.OK ∧ (sFromNowIO E seconds old s).2.1 = t
     | .error e => (sFromNowIO E seconds old s).1 = e) := by
  refine ⟨?_, ?_, ?_⟩
  · unfold fromNowIO
    cases tv with
    | none => exact ⟨s, .inl rfl, rfl⟩
    | some v =>
      by_cases h : v.sec < 0 ∨ v.usec < 0
      · exact ⟨s, .inl rfl, by unfold timeFromNow; dsimp only; rw [if_pos h, if_pos h]⟩
      · refine ⟨_, .inr rfl, ?_⟩
        dsimp only
        rw [if_neg h]
        cases timeFromNow (E.clock s.time) (some v) <;> rfl
  · unfold sFromNowIO; split
    · exact .inl rfl
    · dsimp only; split
      · exact .inr rfl
      · split <;> exact .inr rfl
  · unfold sFromNowIO timeSFromNow
    by_cases h : (0 : Int) ≥ seconds
    · rw [if_pos h, if_pos h]; exact ⟨rfl, rfl⟩
    · rw [if_neg h, if_neg h]
      by_cases hz : E.clock s.time = 0
      · simp [hz]
      · simp only [hz, if_false]
        generalize (E.clock s.time + seconds.toNat * 1000000000 % 2 ^ 64) % 2 ^ 64 = t
        generalize seconds.toNat * 1000000000 % 2 ^ 64 = d
        by_cases hc : E.clock s.time > t ∨ d > t
        · rw [if_pos hc, if_pos hc]
        · rw [if_neg hc, if_neg hc]; exact ⟨rfl, rfl⟩

end Rmq
