import Verif.Spec.Ends
import Verif.Proofs.EndsCalls
import Verif.Proofs.Fuel
import Verif.Proofs.Deaf
import Verif.Proofs.LoginEnds
import Verif.Proofs.FrameRaw
import Verif.Props.Send
import Verif.Props.Login
import Verif.Props.Deadlines
/-!
# C89–C92: every call returns

Each loop of the model stops with `.fuel` when it has gone round `E.fuel` times: a call that never returns gives `.fuel` whatever the bound.
-/
namespace Rmq

/-- C89: whatever the network did before its `K`-th event, if the connection is lost from then on, every sequence of calls on it comes to
an end. -/
theorem C89_lost {E : NetEnv} {K : Nat} (h : LostFrom E K) (calls : List ApiCall) (s : Conn) :
    ∃ N, ∀ n ≥ N, perform { E with fuel := n } calls s ≠ .fuel := by
  refine ⟨s.load K + toil calls + 1, fun n hn => ?_⟩
  have h' : LostFrom { E with fuel := n } K := ⟨h.recv, h.send, h.poll⟩
  exact perform_ends h'.stops calls s (.lost h' _) hn

/-- C89: login as well, and what follows it. -/
theorem C89_login {E : NetEnv} {K : Nat} (h : LostFrom E K) (b : Build) (memcmp : Bytes → Bytes → Int) (mem : Nat → UInt8) (a : LoginArgs)
    (calls : List ApiCall) (s : Conn) : ∃ N, ∀ n ≥ N,
      login { E with fuel := n } b memcmp mem a s ≠ .fuel ∧
      ∀ o t, login { E with fuel := n } b memcmp mem a s = .ok o t → perform { E with fuel := n } calls t ≠ .fuel := by
  refine ⟨s.load K + 2 + toil calls + 1, fun n hn => ?_⟩
  have h' : LostFrom { E with fuel := n } K := ⟨h.recv, h.send, h.poll⟩
  have h1 := login_affords h' b memcmp mem a s (show s.load K < n by omega)
  refine ⟨h1.ends, fun o t ho => ?_⟩
  rw [ho, Dec.ok_iff] at h1
  exact perform_ends h'.stops calls t (.lost h' _) (show t.load K + toil calls < n by omega)

/-- C89: the bound is no part of the outcome: calls that end with one bound end the same way, in the same state, with every larger one. -/
theorem C89_bound (E : NetEnv) (calls : List ApiCall) (s : Conn) (h : perform E calls s ≠ .fuel) {n : Nat} (hn : E.fuel ≤ n) :
    perform { E with fuel := n } calls s = perform E calls s :=
  (perform_ref hn calls s).resolve_left h

/-- C89: and so does login. -/
theorem C89_bound_login (E : NetEnv) (b : Build) (memcmp : Bytes → Bytes → Int) (mem : Nat → UInt8) (a : LoginArgs) (s : Conn)
    (h : login E b memcmp mem a s ≠ .fuel) {n : Nat} (hn : E.fuel ≤ n) :
    login { E with fuel := n } b memcmp mem a s = login E b memcmp mem a s :=
  (login_ref hn b memcmp mem a s).resolve_left h

/-- C89: so on a lost connection every sequence of calls has one definite outcome. -/
theorem C89_outcome {E : NetEnv} {K : Nat} (h : LostFrom E K) (calls : List ApiCall) (s : Conn) :
    ∃ r, r ≠ .fuel ∧ ∃ N, ∀ n ≥ N, perform { E with fuel := n } calls s = r := by
  obtain ⟨N, hN⟩ := C89_lost h calls s
  exact ⟨_, hN N (Nat.le_refl _), N, fun n hn => C89_bound { E with fuel := N } calls s (hN N (Nat.le_refl _)) hn⟩

theorem usable_pos {fm : Int} (h : 8 < fm ∧ fm < 2 ^ 31) : usablePayload fm ≠ 0 := by
  unfold usablePayload HEADER_SIZE FOOTER_SIZE
  omega

/-- C90: on a connection without heartbeats it is enough that the server falls silent. -/
theorem C90_silent {E : NetEnv} {K : Nat} (h : SilentFrom E K) (calls : List ApiCall) (s : Conn) (hs : HbOff s)
    (hfm : 8 < s.frameMax ∧ s.frameMax < 2 ^ 31) : ∃ N, ∀ n ≥ N, perform { E with fuel := n } calls s ≠ .fuel := by
  refine ⟨s.load K + toil calls + 1, fun n hn => ?_⟩
  have h' : SilentFrom { E with fuel := n } K := ⟨h.recv, h.send, h.poll⟩
  exact perform_ends h'.stops calls s (.off hs (usable_pos hfm)) hn

/-- C90: the same with heartbeats, provided the clock goes on: it shows, from some event on, that more than twice the heartbeat interval has
passed since the server fell silent. -/
theorem C90_silent_heartbeats {E : NetEnv} {K0 K h : Nat} (hS : SilentFrom E K0) (hM : TimePasses E K0 K h) (calls : List ApiCall) (s : Conn)
    (hb : 0 < s.heartbeat ∧ s.heartbeat ≤ h) (hfm : 8 < s.frameMax ∧ s.frameMax < 2 ^ 31) (hi : s.nextRecv ≤ TIME_INF)
    (hr : ∀ t, K ≤ t → E.clock t ≠ 0 → s.nextRecv < E.clock t) :
    ∃ N, ∀ n ≥ N, perform { E with fuel := n } calls s ≠ .fuel := by
  refine ⟨s.load (max K0 K) + toil calls + 1, fun n hn => ?_⟩
  have hK0 := Nat.le_max_left K0 K
  have hK1 := Nat.le_max_right K0 K
  have hS' : SilentFrom { E with fuel := n } (max K0 K) :=
    ⟨fun t m ht => hS.recv t m (by omega), fun t b ht => hS.send t b (by omega), fun t ht => hS.poll t (by omega)⟩
  have hM' : Mute { E with fuel := n } K0 (max K0 K) h := ⟨hS.recv, fun u t hu ht hc => hM u t hu (by omega) hc⟩
  exact perform_ends hS'.stops calls s (.watched hM' ⟨hb.1, hb.2, hi, fun t ht hc => hr t (by omega) hc⟩ (usable_pos hfm)) hn

/-- C90: a login as well, at whatever point of the handshake the server falls silent.  If it asks for heartbeats the clock must go on: whatever
event one looks at, in the end more than twice the interval asked for will have passed since. -/
theorem C90_login {E : NetEnv} {K0 : Nat} (hS : SilentFrom E K0) (b : Build) (memcmp : Bytes → Bytes → Int) (mem : Nat → UInt8) (a : LoginArgs)
    (hfm : a.frameMax < 2 ^ 31) (hT : a.heartbeat = 0 ∨ ∀ k, ∃ K, TimePasses E k K a.heartbeat.toNat) (s : Conn) (hs : HbOff s)
    (hr : 8 < s.frameMax ∧ s.frameMax < 2 ^ 31) : ∃ N, ∀ n ≥ N, login { E with fuel := n } b memcmp mem a s ≠ .fuel :=
  login_silent hS b memcmp mem a hfm (by omega) hT s hs (usable_pos hr)

/-! The hypotheses can be met: a broker that sends one heartbeat and then closes the connection … -/
def lostEnv : NetEnv := netEnv [] [] [(0, .data [8, 0, 0, 0, 0, 0, 0, 0xCE])] []
theorem lostEnv_lost : LostFrom lostEnv 1 := by
  have hr : ∀ t n, 1 ≤ t → lostEnv.recv t n = .fail 0 := by
    intro t n ht
    cases t with
    | zero => omega
    | succ t => rfl
  refine ⟨fun t n ht => ⟨0, hr t n ht, ?_⟩, fun t b _ => ⟨0, rfl, ?_⟩, fun t _ => ?_⟩
  · unfold Permanent; decide
  · unfold Permanent; decide
  · exact fun h => nomatch h
/-- … and the wait, a time-limited one included, ends with the error. -/
example : (waitFrame lostEnv (some ⟨1, 0⟩) (demoConn 4096)).errCode? = some St.TIMER_FAILURE ∧
    (waitFrame lostEnv none (demoConn 4096)).errCode? = some (-1) := by decide +kernel
/-- … and one that just falls silent. -/
def silentEnv : NetEnv := { netEnv [(0, 5), (2, 5)] [] [] [] with recv := fun _ _ => .fail 0x1300, poll := fun _ => .timeout }
theorem silentEnv_silent : SilentFrom silentEnv 0 := ⟨fun t n _ => ⟨_, rfl⟩, fun t b _ => Or.inl ⟨_, rfl⟩, fun t _ => Or.inl rfl⟩
example : HbOff (demoConn 4096) := by unfold HbOff; decide +kernel
example : (waitFrame silentEnv (some ⟨1, 0⟩) (demoConn 4096)).errCode? = some St.TIMEOUT := by decide +kernel
/-- … or takes what it is sent, and says nothing, while a second passes with every event: with heartbeats once a second … -/
def muteEnv : NetEnv :=
  { netEnv [] [] [] [] with clock := fun t => 1000000000 * (t + 1), send := fun _ b => .sent b.length, recv := fun _ _ => .fail 0x1300, poll := fun _ => .timeout }
def muteConn : Conn := { demoConn 4096 with heartbeat := 1, nextRecv := 3000000000, nextSend := 2000000000 }
theorem muteEnv_silent : SilentFrom muteEnv 0 := ⟨fun t n _ => ⟨_, rfl⟩, fun t b _ => Or.inr ⟨b.length, Nat.le_refl _, rfl⟩, fun t _ => Or.inl rfl⟩
theorem muteEnv_passes : TimePasses muteEnv 0 3 1 := by
  intro u t hu ht _
  show 1000000000 * (u + 1) + 2 * 1 * 1000000000 < 1000000000 * (t + 1)
  omega
example : (0 < muteConn.heartbeat ∧ muteConn.heartbeat ≤ (1 : Nat)) ∧ (8 < muteConn.frameMax ∧ muteConn.frameMax < 2 ^ 31) ∧ muteConn.nextRecv ≤ TIME_INF ∧
    ∀ t, 3 ≤ t → muteEnv.clock t ≠ 0 → muteConn.nextRecv < muteEnv.clock t := by
  refine ⟨by decide +kernel, by decide +kernel, by decide +kernel, fun t ht _ => ?_⟩
  show 3000000000 < 1000000000 * (t + 1)
  omega
/-- … a wait without any limit of its own ends with the heartbeat's. -/
example : (waitFrame { muteEnv with fuel := 9 } none muteConn).errCode? = some St.HEARTBEAT_TIMEOUT := by decide +kernel

/-- … and so does a login that asks for heartbeats once a second and hears nothing at all: its clock … -/
theorem muteEnv_goes_on (k h : Nat) : ∃ K, TimePasses muteEnv k K h := by
  refine ⟨k + 2 * h + 1, fun u t hu ht _ => ?_⟩
  show 1000000000 * (u + 1) + 2 * h * 1000000000 < 1000000000 * (t + 1)
  omega
example : ∀ k, ∃ K, TimePasses muteEnv k K ({ loginArgs with heartbeat := 1 } : LoginArgs).heartbeat.toNat := fun k => muteEnv_goes_on k _
example : HbOff (newConn (fun _ => 0)) ∧ 8 < (newConn (fun _ => 0)).frameMax ∧ (newConn (fun _ => 0)).frameMax < 2 ^ 31 := by
  unfold HbOff; decide +kernel
/-- … and its outcome: the handshake timeout, and the socket is closed. -/
example : let r := login { muteEnv with fuel := 9 } ⟨[49], [50]⟩ eqMemcmp (fun _ => 0) { loginArgs with heartbeat := 1 } loginConn
    r.val?.map Outcome.tag = some St.TIMEOUT ∧ r.state?.map (·.isOpen) = some false := by decide +kernel

/-! ### C92: a call with a time limit -/

/-- C92 (what holds): a wait with a time limit comes back if the server falls silent.  Missing: the same whatever the server does. -/
theorem C92_silent_partial {E : NetEnv} {K : Nat} (h : SilentFrom E K) (v : TimeVal) (s : Conn) (hs : HbOff s)
    (hfm : 8 < s.frameMax ∧ s.frameMax < 2 ^ 31) : ∃ N, ∀ n ≥ N, waitFrame { E with fuel := n } (some v) s ≠ .fuel := by
  obtain ⟨N, hN⟩ := C90_silent h [.waitFrame (some v)] s hs hfm
  refine ⟨N, fun n hn hf => hN n hn ?_⟩
  unfold perform ApiCall.run
  dsimp only
  rw [hf]
  rfl

/-! Without that, a call may never return, not even one with a time limit. -/

/-- A broker that sends heartbeats as fast as they are read. -/
def floodEnv (n : Nat) : NetEnv :=
  { netEnv [] [] [] [] with clock := fun t => 1000000000 * (t + 1), recv := fun _ _ => .data (rawFrame 8 0 [] FRAME_END), fuel := n }

theorem flood_bytes : rawFrame 8 0 [] FRAME_END = [8, 0, 0, 0, 0, 0, 0, 0xCE] := by decide +kernel

/-- Nothing but such octets has been received. -/
structure Flooded (s : Conn) : Prop where
  isOpen : s.isOpen = true
  off : HbOff s
  ready : Ready s.ps
  mode : s.ps.mode = .idle
  fm : s.ps.frameMax = 4096
  inb : s.inb = [] ∨ s.inb = rawFrame 8 0 [] FRAME_END

theorem flood_frame (n : Nat) {p : PState} (hR : Ready p) (hm : p.mode = .idle) (hf : p.frameMax = 4096) :
    ∃ p', handleInput (floodEnv n).pe p (rawFrame 8 0 [] FRAME_END) = .ok (8, some ⟨0, .heartbeat⟩) p' ∧ Ready p' ∧ p'.mode = .idle ∧
      p'.frameMax = 4096 := by
  rcases handleInput_raw (floodEnv n).pe hR hm 8 0 [] FRAME_END [] (by decide) (by rw [hf]; decide) with ⟨_, _, h⟩ | ⟨sB, hB, h⟩
  · exact absurd (fun _ => rfl) h
  · rw [List.append_nil] at h
    rw [h]
    unfold bodyPhase
    have hr : sB.raw = some [8, 0, 0, 0, 0, 0, 0, 0xCE] := by unfold PState.raw; rw [hB.inb, flood_bytes]
    have ht : sB.target = 8 := by rw [hB.target, flood_bytes]; rfl
    rw [hr, ht]
    have hg : getPool (floodEnv n).pe sB 0 = (true, sB) := by unfold getPool; rw [if_pos hB.pools]
    refine ⟨sB.idle, ?_, ready_idle hB.hdrLen, rfl, hB.frameMax.trans hf⟩
    show (match getPool (floodEnv n).pe sB 0 with
      | (false, s) => .err St.NO_MEMORY s
      | (true, s) => .ok (8, some ⟨0, .heartbeat⟩) s.idle : Res PState (Nat × Option AFrame)) = _
    rw [hg]

theorem flood_recv (m d : Nat) {s : Conn} (h : Flooded s) : (floodEnv m).fuel = 0 ∨
    ∃ t, beginRecv (floodEnv m) d s = .ok false t ∧ Flooded t := by
  cases m with
  | zero => exact Or.inl rfl
  | succ m =>
    right
    unfold beginRecv
    rw [h.off.2.1]
    have h1 : hasPastIO (floodEnv (m + 1)) TIME_INF s = (St.OK, s) := rfl
    rw [h1]
    dsimp only
    rw [if_neg (by decide), if_neg (by decide)]
    dsimp only
    have h2 : recvWithTimeout (floodEnv (m + 1)) (timeFirst d (timeFirst s.nextRecv s.nextSend)) (floodEnv (m + 1)).fuel s =
        restartRecv (floodEnv (m + 1)) ({ s with inb := (rawFrame 8 0 [] FRAME_END).take SOCK_BUF }.push
          (.recvData ((rawFrame 8 0 [] FRAME_END).take SOCK_BUF))) := by
      show recvWithTimeout _ _ (m + 1) s = _
      unfold recvWithTimeout
      rw [if_neg (by rw [h.isOpen]; exact fun h => nomatch h)]
      rfl
    have h3 := (off_closed (floodEnv (m + 1))).recv (rawFrame 8 0 [] FRAME_END) rfl h.off
    have h4 : (rawFrame 8 0 [] FRAME_END).take SOCK_BUF = rawFrame 8 0 [] FRAME_END := by rw [flood_bytes]; rfl
    have h5 : ∃ t1, restartRecv (floodEnv (m + 1)) ({ s with inb := (rawFrame 8 0 [] FRAME_END).take SOCK_BUF }.push
          (.recvData ((rawFrame 8 0 [] FRAME_END).take SOCK_BUF))) = .ok () { ({ s with inb := (rawFrame 8 0 [] FRAME_END).take SOCK_BUF }.push
          (.recvData ((rawFrame 8 0 [] FRAME_END).take SOCK_BUF))) with nextRecv := t1 } := by
      unfold restartRecv
      rw [sFromNowIO_off (floodEnv (m + 1)) (by show 2 * s.heartbeat ≤ 0; have := h.off.1; omega)]
      exact ⟨_, rfl⟩
    obtain ⟨t1, h5⟩ := h5
    rw [h5] at h3
    rw [h2, h5]
    exact ⟨_, rfl, h.isOpen, h3, h.ready, h.mode, h.fm, Or.inr h4⟩

/-- Waiting goes on for ever, whatever the deadline. -/
theorem flood_wait (m d : Nat) : ∀ (n : Nat) (s : Conn), Flooded s → waitInner (floodEnv m) d n false s = .fuel := by
  intro n
  induction n with
  | zero => intro s _; rfl
  | succ n ih =>
    intro s h
    unfold waitInner
    rcases h.inb with hi | hi
    · rw [if_neg (by rw [hi]; exact fun h => h.2 rfl)]
      rcases flood_recv m d h with hm | ⟨t, ht, hF⟩
      · unfold beginRecv
        rw [h.off.2.1]
        have h1 : hasPastIO (floodEnv m) TIME_INF s = (St.OK, s) := rfl
        rw [h1]
        dsimp only
        rw [if_neg (by decide), if_neg (by decide)]
        dsimp only
        rw [hm]
        rfl
      · rw [ht]; exact ih t hF
    · rw [if_pos ⟨rfl, by rw [hi, flood_bytes]; exact fun h => nomatch h⟩]
      obtain ⟨p', hp, hR, hm, hf⟩ := flood_frame m h.ready h.mode h.fm
      unfold consumeOne
      rw [hi, hp]
      dsimp only
      refine ih _ ?_
      obtain ⟨l, hl, _⟩ := maybeReleaseOn_ext 0 (Conn.push { s with ps := p', inb := (rawFrame 8 0 [] FRAME_END).drop 8 } (.parsed ((rawFrame 8 0 [] FRAME_END).take 8)))
      rw [hl]
      exact ⟨h.isOpen, h.off, hR, hm, hf, Or.inl (by rw [flood_bytes]; rfl)⟩

/-- The full C92 (a call with a time limit returns, whatever the network does) is false: the limit is only looked at when there is nothing
to read.  Here a second passes with every event, the call was to wait for one second, and it never returns. -/
theorem C92_flood (n : Nat) : waitFrame (floodEnv n) (some ⟨1, 0⟩) (demoConn 4096) = .fuel := by
  rw [waitFrame_def]
  have h1 : fromNowIO (floodEnv n) (some ⟨1, 0⟩) (demoConn 4096) = .ok 2000000000 ((demoConn 4096).push (.clock 1000000000)) := by
    have h2 : timeFromNow ((floodEnv n).clock (demoConn 4096).time) (some ⟨1, 0⟩) = .ok 2000000000 := by
      show timeFromNow 1000000000 (some ⟨1, 0⟩) = .ok 2000000000
      unfold timeFromNow
      dsimp only
      rw [if_neg (by decide), if_neg (by decide), if_neg (by decide)]
      rfl
    unfold fromNowIO
    dsimp only
    rw [if_neg (by decide), h2]
    rfl
  rw [h1]
  exact flood_wait n _ n _ ⟨rfl, ⟨by decide, rfl, rfl⟩, ready_idle rfl, rfl, rfl, Or.inl rfl⟩

/-! ### C91 -/

/-- C91: a negative time limit is refused, and nothing has happened to the connection or on the network, the clock has not even been read. -/
theorem C91_refused (E : NetEnv) {v : TimeVal} (hv : v.sec < 0 ∨ v.usec < 0) (s : Conn) :
    waitFrame E (some v) s = .err St.INVALID_PARAMETER s ∧
    consumeMessage E (some v) s = .ok (.libraryException St.INVALID_PARAMETER) s ∧
    confirmWait E (some v) s = .ok (.libraryException St.INVALID_PARAMETER) s := by
  have h1 : waitFrame E (some v) s = .err St.INVALID_PARAMETER s := by
    rw [waitFrame_def]
    have h2 : fromNowIO E (some v) s = .err St.INVALID_PARAMETER s := by
      unfold fromNowIO
      dsimp only
      rw [if_pos hv]
    rw [h2]
  refine ⟨h1, ?_, ?_⟩
  · unfold consumeMessage; rw [h1]
  · unfold confirmWait; rw [h1]

/-- One of the two setters is called. -/
inductive SetsTimeout : Timeouts → Timeouts → Prop where
  | handshake (t : Timeouts) (v : Option TimeVal) : SetsTimeout t (setHandshakeTimeout t v).2
  | rpc (t : Timeouts) (v : Option TimeVal) : SetsTimeout t (setRpcTimeout t v).2

/-- C91: the setters refuse it too, and leave the limits as they were … -/
theorem C91_set (t : Timeouts) {v : TimeVal} (hv : v.sec < 0 ∨ v.usec < 0) :
    setHandshakeTimeout t (some v) = (St.INVALID_PARAMETER, t) ∧ setRpcTimeout t (some v) = (St.INVALID_PARAMETER, t) := by
  unfold setHandshakeTimeout setRpcTimeout
  dsimp only
  rw [if_pos hv, if_pos hv]
  exact ⟨rfl, rfl⟩

/-- … so that no login and no request is ever refused for a negative limit: whatever was set, the limits in force are not negative. -/
theorem C91_limits {t : Timeouts} (h : Steps SetsTimeout newTimeouts t) :
    (∀ v, getHandshakeTimeout t = some v → 0 ≤ v.sec ∧ 0 ≤ v.usec) ∧ ∀ v, getRpcTimeout t = some v → 0 ≤ v.sec ∧ 0 ≤ v.usec := by
  have key : (0 ≤ t.internalHandshake.sec ∧ 0 ≤ t.internalHandshake.usec) ∧ (0 ≤ t.internalRpc.sec ∧ 0 ≤ t.internalRpc.usec) := by
    induction h with
    | refl => decide
    | step _ hs ih =>
      cases hs with
      | handshake v =>
        cases v with
        | none => exact ih
        | some v =>
          unfold setHandshakeTimeout
          dsimp only
          split
          · exact ih
          · show (0 ≤ v.sec ∧ 0 ≤ v.usec) ∧ _
            exact ⟨⟨by omega, by omega⟩, ih.2⟩
      | rpc v =>
        cases v with
        | none => exact ih
        | some v =>
          unfold setRpcTimeout
          dsimp only
          split
          · exact ih
          · show _ ∧ (0 ≤ v.sec ∧ 0 ≤ v.usec)
            exact ⟨ih.1, ⟨by omega, by omega⟩⟩
  refine ⟨fun v hv => ?_, fun v hv => ?_⟩
  · unfold getHandshakeTimeout at hv
    split at hv
    · cases hv; exact key.1
    · cases hv
  · unfold getRpcTimeout at hv
    split at hv
    · cases hv; exact key.2
    · cases hv

example : (waitFrame silentEnv (some ⟨0, -1⟩) (demoConn 4096)).errCode? = some St.INVALID_PARAMETER := by decide +kernel
example : getRpcTimeout (setRpcTimeout newTimeouts (some ⟨3, 5⟩)).2 = some ⟨3, 5⟩ := rfl

/-! ### C96: a connection that is closed -/

/-- C96: every sequence of calls on a closed connection comes to an end, whatever the network does. -/
theorem C96_returns (E : NetEnv) (calls : List ApiCall) (s : Conn) (hs : s.isOpen = false) :
    ∃ N, ∀ n ≥ N, perform { E with fuel := n } calls s ≠ .fuel := by
  obtain ⟨N, hN⟩ := C89_lost (deaf_lost E) calls s
  refine ⟨N, fun n hn => ?_⟩
  rw [← perform_deaf (E := { E with fuel := n }) calls hs]
  exact hN n hn

/-- C96: none of them, nor a login or a tuning, asks anything of the network or opens the connection again. -/
theorem C96_inert {E : NetEnv} {s s' : Conn} (hs : s.isOpen = false) (hS : Steps (CallL E) s s') :
    s'.isOpen = false ∧ ∃ l, Since s s' l ∧ ∀ e ∈ l, e.network = false :=
  hS.inv (P := Inert s) (fun hc => (inert_login E s).callL hc) (.refl hs)

/-- C96: so the network makes no difference to what they return: with the same clock and allocator, two networks give the same. -/
theorem C96_any_network {E E' : NetEnv} (hE : { E with recv := E'.recv, send := E'.send, poll := E'.poll } = E') (calls : List ApiCall) {s : Conn}
    (hs : s.isOpen = false) : perform E' calls s = perform E calls s := by
  rw [← perform_deaf (E := E') calls hs, ← perform_deaf (E := E) calls hs, ← hE]

/-- C96: nothing can be sent any more: no frame, no protocol header, no message; no RPC gets an answer. -/
theorem C96_no_send {E : NetEnv} {s : Conn} (hs : s.isOpen = false) :
    (∀ f flags deadline t, sendFrame E f flags deadline s ≠ .ok () t) ∧
    (∀ deadline r t, sendHeaderInner E deadline s = .ok r t → r ≠ St.OK) ∧
    (∀ ch ex rk m i p b t, basicPublish E ch ex rk m i p b s ≠ .ok () t) ∧
    (∀ ch id expected args r t, simpleRpc E ch id expected args s = .ok r t → ∃ st, r = .libraryException st) := by
  refine ⟨fun f fl d t => sendFrame_shut f fl d hs, fun d r t h => ?_, fun ch ex rk m i p b t => ?_, fun ch id expected args r t h =>
    C31_no_late_reply hs (.refl s) h⟩
  · unfold sendHeaderInner at h
    cases hf : E.fuel with
    | zero => rw [hf] at h; cases h
    | succ n =>
      rw [hf, trySend_shut d SF_NONE 8 n protocolHeaderBytes hs] at h
      cases h
      decide
  · unfold basicPublish sendMethod
    rw [M.bind_def]
    have h1 := (shut_login E).publishCheck hs
    revert h1
    cases publishCheck E s with
    | err e u => exact fun _ h => nomatch h
    | ub => exact fun _ h => nomatch h
    | fuel => exact fun _ h => nomatch h
    | ok a u =>
      intro h1
      dsimp only
      rw [M.bind_def]
      cases hf : sendFrame E ⟨ch, .method BASIC_PUBLISH (publishArgs ex rk m i)⟩ SF_MORE TIME_INF u with
      | ok a w => exact absurd hf (sendFrame_shut _ _ _ h1)
      | err e w => exact fun h => nomatch h
      | ub => exact fun h => nomatch h
      | fuel => exact fun h => nomatch h

/-- C96: nor can one log in again: that fails at once and leaves the connection closed. -/
theorem C96_no_login {E : NetEnv} (hf : 0 < E.fuel) (b : Build) (memcmp : Bytes → Bytes → Int) (mem : Nat → UInt8) (a : LoginArgs) {s : Conn}
    (hs : s.isOpen = false) : ∃ e t, login E b memcmp mem a s = .ok (.libraryException e) t ∧ t.isOpen = false := by
  unfold login loginInner
  split
  · exact ⟨_, _, rfl, hs⟩
  split
  · exact ⟨_, _, rfl, hs⟩
  split
  · exact ⟨_, _, rfl, hs⟩
  have fin : ∀ {e : Int} {t : Conn}, t.isOpen = false → ∃ e' t', (Res.ok (Outcome.libraryException e) (sockClose E t).2 : Res Conn (Outcome Unit)) =
      .ok (.libraryException e') t' ∧ t'.isOpen = false := by
    intro e t ht
    unfold sockClose
    rw [if_pos ht]
    exact ⟨_, _, rfl, ht⟩
  unfold loginSteps
  rw [M.bind_def]
  have h1 := fromNowIO_quiet E (getHandshakeTimeout s.timeouts) s
  have h2 := fromNowIO_ends E (getHandshakeTimeout s.timeouts) s
  have h3 : fromNowIO E (getHandshakeTimeout s.timeouts) s ≠ .ub := by
    unfold fromNowIO
    cases getHandshakeTimeout s.timeouts with
    | none => exact fun h => nomatch h
    | some v =>
      dsimp only
      split
      · exact fun h => nomatch h
      · split <;> exact fun h => nomatch h
  have shut : ∀ {t : Conn}, QuietStep s t → t.isOpen = false := by
    rintro t ⟨l, rfl, _⟩; exact hs
  cases hd : fromNowIO E (getHandshakeTimeout s.timeouts) s with
  | ub => exact absurd hd h3
  | fuel => exact absurd hd h2
  | err e t => rw [hd] at h1; exact fin (shut h1)
  | ok d t =>
    rw [hd] at h1
    have ht := shut h1
    dsimp only
    rw [M.bind_def]
    unfold sendHeaderInner
    cases hn : E.fuel with
    | zero => omega
    | succ n =>
      rw [trySend_shut d SF_NONE 8 n protocolHeaderBytes ht]
      dsimp only
      rw [if_pos (by decide)]
      exact fin ht

/-- C96: and nothing received, once what had arrived before is used up. -/
theorem C96_no_receive {E : NetEnv} {s : Conn} (hs : s.isOpen = false) (hq : s.queue = []) (hi : s.inb = []) :
    (∀ tv f t, waitFrame E tv s ≠ .ok f t) ∧ (∀ ch f t, waitFrameOn E ch s ≠ .ok f t) ∧ (∀ ch id x t, waitMethod E ch id s ≠ .ok x t) := by
  have h1 : ∀ tv f t, waitFrame E tv s ≠ .ok f t := by
    intro tv f t
    rw [waitFrame_def]
    have h := fromNowIO_tick E tv s
    revert h
    cases fromNowIO E tv s with
    | err e u => exact fun _ h => nomatch h
    | ub => exact fun _ h => nomatch h
    | fuel => exact fun _ h => nomatch h
    | ok d u =>
      intro h
      dsimp only
      rcases h with rfl | ⟨now, rfl⟩
      · rw [hq]; exact waitFrameInner_shut d hs hi f t
      · have hq' : (s.push (.clock now)).queue = [] := hq
        rw [hq']; exact waitFrameInner_shut d (s := s.push (.clock now)) hs hi f t
  refine ⟨h1, fun ch f t => ?_, fun ch id x t h => ?_⟩
  · unfold waitFrameOn
    rw [hq]
    show waitOnLoop E ch E.fuel s ≠ _
    cases hf : E.fuel with
    | zero => exact fun h => nomatch h
    | succ n =>
      unfold waitOnLoop
      cases hw : waitFrameInner E TIME_INF s with
      | ok g u => exact absurd hw (waitFrameInner_shut _ hs hi _ _)
      | err e u => exact fun h => nomatch h
      | ub => exact fun h => nomatch h
      | fuel => exact fun h => nomatch h
  · obtain ⟨rid, args⟩ := x
    obtain ⟨_, f, hw, _⟩ := C32_ok_only_if h
    exact h1 _ _ _ hw

/-- The hypotheses can be met: what arrived before the connection was closed is still delivered, and then every call fails, while the
network would have more to offer. -/
example : let s : Conn := { demoConn 4096 with isOpen := false, inb := [3, 0, 1, 0, 0, 0, 1, 65, 0xCE] }
    (waitFrame lostEnv none s).val?.map (fun f => match f.frame.payload with | .body b => b | _ => []) = some [65] ∧
    (match waitFrame lostEnv none s with | .ok _ t => (waitFrame lostEnv none t).errCode? | _ => none) = some St.CONNECTION_CLOSED ∧
    (waitFrame lostEnv none (demoConn 4096)).val?.isSome = false := by decide +kernel

end Rmq
