import Verif.Proofs.Running
import Verif.Props.Heartbeat
import Verif.Props.Naps
import Verif.Props.Consume
import Verif.Props.Send
import Verif.Props.Polling
/-!
# C78, C105: logging in makes a connection ready to receive
-/
namespace Rmq

theorem Conn.timeouts_same {s : Conn} {ts : Timeouts} (h : s.timeouts = ts) : { s with timeouts := ts } = s := by subst h; rfl
theorem SendReady.timeouts {s : Conn} (h : SendReady s) (ts : Timeouts) : SendReady { s with timeouts := ts } := h
theorem HbSettings.timeouts {E : NetEnv} {s : Conn} (h : HbSettings E s) (ts : Timeouts) : HbSettings E { s with timeouts := ts } := h

/-- Ready to receive, except that frames may be queued. -/
structure Running (E : NetEnv) (s : Conn) : Prop where
  inUse : InUse E s
  idle : s.ps.mode = .idle
  isOpen : s.isOpen = true
  heart : HeartbeatsFine E s
  memory : ∀ k, E.pe.alloc k = true

theorem Running.receiving {E : NetEnv} {s : Conn} (h : Running E s) (hq : s.queue = []) : Receiving E s :=
  ⟨h.inUse, h.idle, hq, h.isOpen, h.heart, h.memory⟩
theorem Receiving.running {E : NetEnv} {s : Conn} (h : Receiving E s) : Running E s := ⟨h.inUse, h.idle, h.isOpen, h.heart, h.memory⟩

theorem login_running {E : NetEnv} {b : Build} {memcmp : Bytes → Bytes → Int} (hM : MemcmpExact memcmp) {mem mem' : Nat → UInt8} {a : LoginArgs}
    {ts : Timeouts} {s : Conn} (hA : ∀ k, E.pe.alloc k = true) (hP : HeartbeatsPass E) (hC : ClockFine E) (hz : ∀ k, E.clock k ≠ 0)
    (h : login E b memcmp mem' a { newConn mem with timeouts := ts } = .ok (.normal ()) s) : Running E s := by
  have hN : SendReady (newConn mem) := ⟨outReady_new mem, by show (65536 : Nat) < 2 ^ 32; decide, by show 12 ≤ (65536 : Nat); decide⟩
  have hO := hN.timeouts ts
  obtain ⟨r1, r2, r3⟩ := login_runs hM ⟨Int.le_refl 0, rfl, rfl⟩ hO h
  have hh := (hbSettings_new E mem).timeouts ts
  have h1 := (hb_login hC).login b memcmp mem' a hh
  rw [h] at h1
  exact ⟨⟨r1 (.new _), by rw [r2]; exact nofun⟩, r2, r3, .inr ⟨h1, hP, hC, hz⟩, hA⟩

/-- The premise of the theorems on arriving messages is what logging in establishes: after amqp_new_connection and an amqp_login that succeeded,
whatever the server asked for in the handshake, heartbeats on or off, the connection is ready to receive, if there is memory, heartbeats get through
and the clock works — and nothing was sent by the server ahead of its turn, which would wait in the queue. -/
theorem C78_after_login {E : NetEnv} {b : Build} {memcmp : Bytes → Bytes → Int} (hM : MemcmpExact memcmp) {mem mem' : Nat → UInt8} {a : LoginArgs}
    {ts : Timeouts} {s : Conn} (hA : ∀ k, E.pe.alloc k = true) (hP : HeartbeatsPass E) (hC : ClockFine E) (hz : ∀ k, E.clock k ≠ 0)
    (h : login E b memcmp mem' a { newConn mem with timeouts := ts } = .ok (.normal ()) s) (hq : s.queue = []) : Receiving E s :=
  (login_running hM hA hP hC hz h).receiving hq

theorem simpleRpc_running {E : NetEnv} {ch : UInt16} {id i : UInt32} {expected : List UInt32} {args r : Rec} {s t : Conn} (hR : Running E s)
    (h : simpleRpc E ch id expected args s = .ok (.normal i r) t) : Running E t := by
  obtain ⟨r1, r2, r3⟩ := simpleRpc_runs h
  refine ⟨⟨r1.1 hR.inUse.1, by rw [r2]; exact nofun⟩, r2, r3, ?_, hR.memory⟩
  rcases hR.heart with ho | ⟨hh, hP, hC, hz⟩
  · have h1 := (off_closed E).upper.simpleRpc ch id expected args (s := s) ho
    rw [h] at h1
    exact .inl h1
  · have h1 := (hb_closed hC).upper.simpleRpc ch id expected args hh
    rw [h] at h1
    exact .inr ⟨h1, hP, hC, hz⟩

theorem Answered.running {E : NetEnv} {s t : Conn} (h : Answered E s t) : Running E s → Running E t := by
  induction h with
  | nil s => exact id
  | cons h1 _ ih => exact fun hR => ih (simpleRpc_running hR h1)

/-- … and it stays so through synchronous methods that are answered (opening a channel, declaring, binding, consuming, …), if what the server sent
of its own accord meanwhile is nothing. -/
theorem C78_after_calls {E : NetEnv} {s t : Conn} (hR : Receiving E s) (h : Answered E s t) (hq : t.queue = []) : Receiving E t :=
  (h.running hR.running).receiving hq

/-- C105 for a whole session (missing: as for `C105_in_order_partial`): a connection is created, logged in on with success, methods are called and
answered — in particular those that start a consumer —, and then the application polls for messages.  If what the server sends from then on is
deliveries one after the other (heartbeats anywhere), cut into pieces and spread over time anyhow, and the outside does not fail, the application
gets these messages, in this order, each once and none left out. -/
theorem C105_session_partial {E : NetEnv} {b : Build} {memcmp : Bytes → Bytes → Int} (hM : MemcmpExact memcmp) {mem mem' : Nat → UInt8} {a : LoginArgs}
    {ts : Timeouts} {s0 s s' : Conn} (hA : ∀ k, E.pe.alloc k = true) (hP : HeartbeatsPass E) (hC : ClockFine E) (hz : ∀ k, E.clock k ≠ 0)
    (hl : login E b memcmp mem' a { newConn mem with timeouts := ts } = .ok (.normal ()) s0) (hm : Answered E s0 s) (hq : s.queue = [])
    {calls : List (Option TimeVal × Outcome Envelope)} (hp : Polls E s calls s') {ds : List Delivery} {frames : List AFrame} {rest : Bytes} {l : List Ev}
    (hs : Since s s' l) (hf : ∀ e ∈ l, e.fine) (hS : Stream s.ps.frameMax (s.inb ++ (recvBytes l ++ rest)) frames)
    (hd : frames.filter (!·.isHeartbeat) = ds.flatMap Delivery.frames)
    (hk : ∀ d ∈ ds, KeyedProps d.props ∧ d.bodies.flatten.length < 2 ^ 64 ∧ d.bodies.getLast? ≠ some []) :
    MessageOrLimit E calls ∧ ∃ n, n ≤ ds.length ∧ messagesOf calls = (ds.take n).map Delivery.envelope :=
  C105_in_order_partial ((hm.running (login_running hM hA hP hC hz hl)).receiving hq) hp hs hf hS hd hk

/-- The premises are met: a login that agrees on heartbeats every nine seconds. -/
example : ∃ s, login (loginEnv [(4, .data (startBytes "PLAIN")), (10, .data tuneBytes), (20, .data openOkBytes)])
    ⟨[49], [50]⟩ eqMemcmp (fun _ => 0) { loginArgs with heartbeat := 60 } { newConn (fun _ => 0) with timeouts := newTimeouts } = .ok (.normal ()) s ∧
    s.heartbeat = 9 ∧ Receiving (loginEnv [(4, .data (startBytes "PLAIN")), (10, .data tuneBytes), (20, .data openOkBytes)]) s := by
  have h1 : beatLogin.val?.bind (·.normal?) = some () := by decide +kernel
  have h2 : beatLogin.state?.map (fun s => (s.heartbeat, s.queue.isEmpty)) = some (9, true) := by decide +kernel
  have h3 : ∃ s, beatLogin = .ok (.normal ()) s := by
    revert h1
    cases beatLogin with
    | ok r s => cases r with
      | normal x => exact fun _ => ⟨s, rfl⟩
      | serverException i r => intro h; cases h
      | libraryException e => intro h; cases h
    | err e s => intro h; cases h
    | ub => intro h; cases h
    | fuel => intro h; cases h
  obtain ⟨s, hs⟩ := h3
  rw [hs] at h2
  have e : ({ newConn (fun _ => 0) with timeouts := newTimeouts } : Conn) = newConn fun _ => 0 := Conn.timeouts_same rfl
  unfold beatLogin at hs
  rw [← e] at hs
  simp only [Res.state?, Option.map_some, Option.some.injEq, Prod.mk.injEq, List.isEmpty_iff] at h2
  refine ⟨s, hs, h2.1, C78_after_login eqMemcmp_exact (fun _ => rfl) (fun k => ?_) ⟨fun j k _ => .inr (Nat.le_refl _), fun k => ?_⟩ (fun k => ?_) hs h2.2⟩
  · have h8 : (8 : Nat) ≤ 100000 := by omega
    exact h8
  · show 1000000000 < 2 ^ 63; decide
  · show 1000000000 ≠ 0; decide

/-- A session: a login that agrees on heartbeats every nine seconds, channel.open, and a call of amqp_consume_message with a limit of a second. -/
def sessionChannelOk : Bytes := [1, 0, 1, 0, 0, 0, 8, 0, 20, 0, 11, 0, 0, 0, 0, 206]
def sessionEnv : NetEnv := loginEnv [(4, .data (startBytes "PLAIN")), (10, .data tuneBytes), (20, .data openOkBytes), (27, .data sessionChannelOk),
  (32, .data (deliverBytes ++ headerBytes ++ [3, 0, 1, 0, 0, 0, 3, 65, 66, 67, 206]))]
def sessionLogin : Res Conn (Outcome Unit) := login sessionEnv ⟨[49], [50]⟩ eqMemcmp (fun _ => 0) { loginArgs with heartbeat := 60 } { newConn (fun _ => 0) with timeouts := newTimeouts }
def sessionOpen : Option (Res Conn Reply) := sessionLogin.state?.map (simpleRpc sessionEnv 1 0x0014000A [0x0014000B] [(.out_of_band, .bytes [])])
def sessionPoll : Option (Res Conn (Outcome Envelope)) := (sessionOpen.bind (·.state?)).map (consumeMessage sessionEnv (some ⟨1, 0⟩))

theorem C105_session_sample :
    sessionLogin.val?.bind (·.normal?) = some () ∧ (sessionOpen.bind (·.val?)).map (fun r => r matches .normal _ _) = some true ∧
    (sessionOpen.bind (·.state?)).map (fun s => (s.queue.isEmpty, s.heartbeat)) = some (true, 9) ∧
    ((sessionPoll.bind (·.val?)).bind (·.normal?)).map (fun e => (e.channel, e.deliveryTag, e.message.body)) = some (1, 7, [65, 66, 67]) ∧
    (sessionPoll.bind (·.state?)).map (fun s => (s.log.drop ((sessionOpen.bind (·.state?)).map (·.log.length)).get!).all evFine) = some true := by
  decide +kernel

/-- … and its message acknowledged, which is a step of `Polls` as well. -/
theorem C105_session_ack :
    let r := (sessionPoll.bind (·.state?)).map fun s => (s.log.length, sendMethod sessionEnv 1 0x003C0050 [(.delivery_tag, .u64 7), (.multiple, .bool 0)] SF_NONE TIME_INF s)
    r.map (fun r => r.2.val?.isSome) = some true ∧
    (r.bind fun r => r.2.state?.map fun s => (sentBytes (s.log.drop r.1), (s.log.drop r.1).all evFine)) =
      some ([1, 0, 1, 0, 0, 0, 13, 0, 60, 0, 80, 0, 0, 0, 0, 0, 0, 0, 7, 0, 206], true) := by
  decide +kernel

end Rmq
