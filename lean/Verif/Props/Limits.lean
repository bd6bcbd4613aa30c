import Verif.Proofs.Limits
import Verif.Props.Ends
import Verif.Props.Consume
/-!
# C97: the time limits of calls

The full claim: during a call with a time limit — a wait, an RPC with amqp_set_rpc_timeout, a login with its handshake timeout — no sleep lasts
beyond the limit, counted from the reading of the clock the call begins with.  It is false in three ways, shown at the end; what is proved is the
claim with exactly these exemptions (`Keeps`, Spec/Limits.lean): a sleep while (the rest of) a heartbeat, or the request of the RPC itself, is waiting to
be sent; in login moreover the limit can be late by the time that passes between two readings of the clock.
-/
namespace Rmq

/-- C97, for waits: no sleep lasts beyond `v` after the start, except while a heartbeat is waiting to be sent. -/
theorem C97_wait_partial {E : NetEnv} (hC : ClockFine E) {v : TimeVal} (hv : Sensible (some v)) {s s' : Conn} (hw : (waitFrame E (some v) s).leaves s') :
    ∃ t0 l, Since s s' (.clock t0 :: l) ∧ Keeps (By (t0 + v.nanos)) HeartbeatRest (.clock t0 :: l) := by
  have hn : s.time ≤ (s.push (.clock (E.clock s.time))).time := by simp [Conn.time, Conn.push]
  have hd := deadline_bound (s0 := s) (L := By (E.clock s.time + v.nanos)) hC hn hv.2.2 (fun _ => rfl) (.push s _)
  have hg0 : Going (By (E.clock s.time + v.nanos)) HeartbeatRest s (s.push (.clock (E.clock s.time))) (s.push (.clock (E.clock s.time))) :=
    ⟨Timed.push ⟨[], by simp [Since], Keeps.nil _ _⟩ (fun _ _ _ h => nomatch h), .refl _⟩
  have hA : (waitFrame E (some v) s).All (Going (By (E.clock s.time + v.nanos)) HeartbeatRest s (s.push (.clock (E.clock s.time)))) := by
    rw [waitFrame_def, fromNowIO_limit hC hv]
    by_cases hz : E.clock s.time = 0
    · rw [if_pos hz]; exact hg0
    rw [if_neg hz]
    dsimp only
    split
    · exact hg0.same rfl
    · exact wait_going hC (by_lasting _) heartbeatRest_drop (List.suffix_refl _) _ _ hg0 hd
  obtain ⟨⟨l, h1, h2⟩, l', h3⟩ := hA.leaves hw
  refine ⟨E.clock s.time, l', ?_, ?_⟩
  · unfold Since at *; simp only [Conn.push] at h3; rw [h3]; simp
  · have : l = .clock (E.clock s.time) :: l' := by
      unfold Since at *; simp only [Conn.push] at h3; rw [h3, List.append_assoc] at h1
      exact (List.append_cancel_left h1).symm
    rw [← this]; exact h2

/-- C97, for waiting for a publisher confirm: likewise. -/
theorem C97_confirm_partial {E : NetEnv} (hC : ClockFine E) {v : TimeVal} (hv : Sensible (some v)) {s s' : Conn} (hw : (confirmWait E (some v) s).leaves s') :
    ∃ t0 l, Since s s' (.clock t0 :: l) ∧ Keeps (By (t0 + v.nanos)) HeartbeatRest (.clock t0 :: l) := by
  unfold confirmWait at hw
  have key : ∀ t, (waitFrame E (some v) s).leaves t → ∀ {u : Conn}, u.log = t.log →
      ∃ t0 l, Since s u (.clock t0 :: l) ∧ Keeps (By (t0 + v.nanos)) HeartbeatRest (.clock t0 :: l) := by
    intro t ht u hu
    obtain ⟨t0, l, h1, h2⟩ := C97_wait_partial hC hv ht
    exact ⟨t0, l, by unfold Since at *; rw [hu]; exact h1, h2⟩
  revert hw key
  cases waitFrame E (some v) s with
  | ub => intro hw; cases hw
  | fuel => intro hw; cases hw
  | err e t =>
    intro hw key
    dsimp only at hw
    cases hw
    exact key _ rfl rfl
  | ok f t =>
    intro hw key
    dsimp only at hw
    have put : ∀ {u : Conn}, (match putBackIgnored E f t with
        | .ok () s => .ok (.libraryException St.UNEXPECTED_STATE) s
        | .err e s => .err e s
        | .ub => .ub
        | .fuel => .fuel : Res Conn (Outcome Confirm)).leaves u → u.log = t.log := by
      intro u hu
      unfold putBackIgnored putBackFrame at hu
      obtain ⟨a, p, hp⟩ := createLink_eff E f.frame.channel t
      revert hu hp
      obtain ⟨b, t1⟩ := createLink E f.frame.channel t
      intro hu hp
      dsimp only at hp
      subst hp
      cases b <;> cases hu <;> rfl
    cases hp : f.frame.payload <;> rw [hp] at hw <;> dsimp only at hw <;> try exact key _ rfl (put hw)
    split at hw
    · exact key _ rfl (put hw)
    · cases hw; exact key _ rfl rfl

/-- C97, for an RPC with the time limit `v`: no sleep lasts beyond `v` after the start, except while the request itself or a heartbeat is
waiting to be sent. -/
theorem C97_rpc_partial {E : NetEnv} (hC : ClockFine E) {v : TimeVal} (hv : Sensible (some v)) {s s' : Conn} (hset : getRpcTimeout s.timeouts = some v)
    {ch : UInt16} {id : UInt32} {expected : List UInt32} {args : Rec} (hw : (simpleRpc E ch id expected args s).leaves s') :
    ∃ t0 l, Since s s' (.clock t0 :: l) ∧ Keeps (By (t0 + v.nanos)) (fun b => HeartbeatRest b ∨ MethodRest ch id b) (.clock t0 :: l) := by
  have hn : s.time ≤ (s.push (.clock (E.clock s.time))).time := by simp [Conn.time, Conn.push]
  have hd := deadline_bound (s0 := s) (L := By (E.clock s.time + v.nanos)) hC hn hv.2.2 (fun _ => rfl) (.push s _)
  have hg0 : Going (By (E.clock s.time + v.nanos)) (fun b => HeartbeatRest b ∨ MethodRest ch id b) s (s.push (.clock (E.clock s.time))) (s.push (.clock (E.clock s.time))) :=
    ⟨Timed.push ⟨[], by simp [Since], Keeps.nil _ _⟩ (fun _ _ _ h => nomatch h), .refl _⟩
  have hA : (simpleRpc E ch id expected args s).All (Going (By (E.clock s.time + v.nanos)) (fun b => HeartbeatRest b ∨ MethodRest ch id b) s (s.push (.clock (E.clock s.time)))) := by
    unfold simpleRpc
    rw [hset, fromNowIO_limit hC hv]
    by_cases hz : E.clock s.time = 0
    · rw [if_pos hz]; exact hg0
    rw [if_neg hz]
    exact rpcInner_going hC (by_lasting _) (methodRest_drop ch id) (Or.inl (List.suffix_refl _)) hd ch id expected args hg0
      (fun be m n enc m' h => Or.inr (frameToBytes_methodRest h))
  obtain ⟨⟨l, h1, h2⟩, l', h3⟩ := hA.leaves hw
  refine ⟨E.clock s.time, l', ?_, ?_⟩
  · unfold Since at *; simp only [Conn.push] at h3; rw [h3]; simp
  · have : l = .clock (E.clock s.time) :: l' := by
      unfold Since at *; simp only [Conn.push] at h3; rw [h3, List.append_assoc] at h1
      exact (List.append_cancel_left h1).symm
    rw [← this]; exact h2

/-- C97, for a login with the handshake timeout `v` whose parameters were accepted: no sleep lasts beyond `v` after the start (or, at most, later by
the time between two successive readings of the clock), except while connection.open or a heartbeat is waiting to be sent. -/
theorem C97_login_partial {E : NetEnv} (hC : ClockFine E) {v : TimeVal} (hv : Sensible (some v)) {s s' : Conn} (hset : getHandshakeTimeout s.timeouts = some v)
    {b : Build} {memcmp : Bytes → Bytes → Int} {mem : Nat → UInt8} {a : LoginArgs} (hw : (login E b memcmp mem a s).leaves s') :
    s' = s ∨ ∃ t0 l, Since s s' (.clock t0 :: l) ∧ Keeps (ByAbout (t0 + v.nanos)) (fun b => HeartbeatRest b ∨ MethodRest 0 0x000A0028 b) (.clock t0 :: l) := by
  have h := login_going hC (methodRest_drop 0 0x000A0028) (Or.inl (List.suffix_refl _)) (fun be m n args enc m' h => Or.inr (frameToBytes_methodRest h)) hv b memcmp mem a s
  unfold login at hw
  rw [hset] at hw
  rcases h.leaves hw with h | ⟨l, h1, h2⟩
  · exact Or.inl h
  · exact Or.inr ⟨_, l, h1, h2⟩

/-- And without any setting a login has a limit, of 12 seconds. -/
theorem C97_login_default (mem : Nat → UInt8) : getHandshakeTimeout (newConn mem).timeouts = some ⟨12, 0⟩ ∧ Sensible (some ⟨12, 0⟩) :=
  ⟨rfl, by decide, by decide, by decide⟩

/-! ### The hypotheses can be met: a server that hears everything and says nothing -/
def limitedConn : Conn := { demoConn 64 with timeouts := ⟨true, ⟨12, 0⟩, true, ⟨5, 0⟩⟩ }
def steadyClock : NetEnv := { netEnv [] [] [] [] with clock := fun _ => 1000000000, send := fun _ b => .sent b.length, recv := fun _ _ => .fail 0x1300, poll := fun _ => .timeout }
theorem steadyClock_fine : ClockFine steadyClock := ⟨fun _ _ _ => Or.inr (Nat.le_refl _), fun _ => by show 1000000000 < 2 ^ 63; decide⟩
/-- channel.open, on channel 1: the reply is waited for up to the limit. -/
theorem limited_rpc : (simpleRpc steadyClock 1 0x0014000A [0x0014000B] [(.out_of_band, .bytes [])] limitedConn).state?.map (·.log) =
    some [.clock 1000000000, .send [1, 0, 1, 0, 0, 0, 5, 0, 20, 0, 10, 0, 206] 0 13, .recvFail (-0x1301), .clock 1000000000, .poll .read 5000 .timeout, .close true] := by
  decide +kernel
example : getRpcTimeout limitedConn.timeouts = some ⟨5, 0⟩ := rfl

/-! ### Why the claim cannot be had in full -/

/-- An RPC with a limit of five seconds sleeps without any limit when the server does not take the request: it is sent with amqp_send_method,
which has no limit. -/
theorem C97_request_unlimited : (simpleRpc { steadyClock with send := fun _ _ => .fail 0x1301, poll := fun _ => .error } 1 0x0014000A [0x0014000B] [(.out_of_band, .bytes [])]
      limitedConn).state?.map (·.log) =
    some [.clock 1000000000, .send [1, 0, 1, 0, 0, 0, 5, 0, 20, 0, 10, 0, 206] 0 (-0x1302), .poll .write (-1) .error] := by decide +kernel

/-- A login (limit: 12 seconds) sleeps without any limit when the server does not take connection.open. -/
theorem C97_open_unlimited : let E := { loginEnv [(4, .data (startBytes "PLAIN")), (10, .data tuneBytes)] with send := fun t b => if t < 14 then .sent b.length else .fail 0x1301 }
    (login E ⟨[49], [50]⟩ eqMemcmp (fun _ => 0) loginArgs loginConn).state?.map (fun s => s.log.filter fun e => e matches .poll _ _ _) =
      some [.poll .write (-1) .error] := by decide +kernel

/-- A login goes beyond its limit when time passes between the two readings of the clock with which it sets the deadline of a wait anew: it began at 1 s, its
limit is at 13 s, but at 6 s it goes to sleep for 12 s. -/
theorem C97_login_late : let E := { netEnv [(0, 1000000000), (2, 1000000000), (3, 6000000000), (5, 6000000000)] [] [(4, .fail 0x1300)] [(6, .timeout)] with send := fun _ b => .sent b.length }
    (login E ⟨[49], [50]⟩ eqMemcmp (fun _ => 0) loginArgs loginConn).state?.map (·.log) =
      some [.clock 1000000000, .send protocolHeaderBytes 0 8, .clock 1000000000, .clock 6000000000, .recvFail (-0x1301), .clock 6000000000, .poll .read 12000 .timeout,
        .close true] := by decide +kernel

def halfEnv : NetEnv := { netEnv [(0, 1000000000)] [] [] [] with recv := fun t _ => if t = 1 then .data deliverBytes else .fail 0x1300 }
/-- Receiving a message with a limit of five seconds sleeps without any limit when the delivery arrives but the rest of the message does not: the limit is
only that for its first frame. -/
theorem C97_message_unlimited : (consumeMessage halfEnv (some ⟨5, 0⟩) (demoConn 64)).state?.map (fun s => s.log.filter fun e => e matches .poll _ _ _) =
      some [.poll .read (-1) .error] := by decide +kernel

end Rmq
