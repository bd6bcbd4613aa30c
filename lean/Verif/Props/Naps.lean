import Verif.Spec.Naps
import Verif.Proofs.Naps
import Verif.Props.Ends
/-!
# C93: with heartbeats on, no call sleeps for ever
-/
namespace Rmq

/-- C93: once the server is being watched with an interval of `h` seconds, no call, nor any sequence of calls, sleeps for more than twice
that time at a go — whatever the server and the network do, whether it waits to receive or to send. -/
theorem C93_sleeps {E : NetEnv} (hC : ClockFine E) {h : Nat} (hp : 0 < h) (hh : h ≤ 65535) {s0 s : Conn} (h0 : OnWatch E h s0)
    (hS : Steps (CallP E) s0 s) : ∃ l, Since s0 s l ∧ Naps (2000 * h) l ∧ OnWatch E h s := by
  have := hS.inv (P := Napped (E := E) h s0) (fun hc hs => (naps_api hC hp hh).callP hc hs) ⟨h0.1, h0.2, [], by simp [Since], Naps.nil _⟩
  obtain ⟨l, h1, h2⟩ := this.naps
  exact ⟨l, h1, h2, this.hb, this.soon⟩

/-- C93: and it is being watched whenever an interval is set — by login or by amqp_tune_connection — unless the clock has failed. -/
theorem C93_watched {E : NetEnv} (hC : ClockFine E) {mem : Nat → UInt8} {s : Conn} (hS : Steps (CallH E) (newConn mem) s) (hp : 0 < s.heartbeat)
    (hc : Ev.clock 0 ∉ s.log) : s.heartbeat ≤ 65535 ∧ OnWatch E s.heartbeat.toNat s := by
  have hv : Vigil E s := hS.inv (P := Vigil E) (fun {s s'} hc hs => by
    cases hc with
    | callP h => exact (vigil_login hC).toApiClosed.callP h hs
    | tune cm fm hb mem hh hl => exact (vigil_tune hC cm fm hb mem hh).leaves hl
    | login b mc mem a hl => exact ((vigil_login hC).login b mc mem a hs).leaves hl) ⟨(by decide : (0 : Int) ≤ 65535), Or.inl (Int.le_refl 0)⟩
  rcases hv.2 with h | h | h
  · omega
  · exact ⟨hv.1, h⟩
  · exact absurd h hc

/-- C93, from the first call to the last: let any calls be made on a new connection, after which an interval is set and the clock has not
failed; let any calls follow, login and amqp_tune_connection excepted. -/
theorem C93_from_the_start {E : NetEnv} (hC : ClockFine E) {mem : Nat → UInt8} {s s' : Conn} (hS : Steps (CallH E) (newConn mem) s) (hp : 0 < s.heartbeat)
    (hc : Ev.clock 0 ∉ s.log) (hS' : Steps (CallP E) s s') : ∃ l, Since s s' l ∧ Naps (2000 * s.heartbeat.toNat) l := by
  obtain ⟨h1, h2⟩ := C93_watched hC hS hp hc
  obtain ⟨l, a, b, _⟩ := C93_sleeps hC (h := s.heartbeat.toNat) (by omega) (by omega) h2 hS'
  exact ⟨l, a, b⟩

/-! The hypotheses can be met, and the bound is reached: the interval is one second, the server takes nothing and says nothing. -/
def jamEnv : NetEnv := { muteEnv with clock := fun t => 1000000000 + t, send := fun _ _ => .fail 0x1301, poll := fun _ => .timeout }
def jamConn : Conn := { demoConn 4096 with heartbeat := 1, nextRecv := 3000000000, nextSend := 2000000000 }
theorem jamConn_watched : OnWatch jamEnv 1 jamConn := by
  refine ⟨by decide +kernel, by decide +kernel, fun k _ => Or.inr ?_⟩
  show 3000000000 ≤ 1000000000 + k + 2 * 1 * 1000000000
  omega
example : (sendFrame jamEnv ⟨1, .body [1]⟩ 0 TIME_INF jamConn).state?.map (·.log.filter fun e => match e with | .poll .. => true | _ => false) =
    some [.poll .write 1999 .timeout, .poll .read 0 .timeout] := by decide +kernel
/-- The hypotheses of `C93_from_the_start` too: a login that agrees on an interval of nine seconds. -/
def beatLogin : Res Conn (Outcome Unit) := login (loginEnv [(4, .data (startBytes "PLAIN")), (10, .data tuneBytes), (20, .data openOkBytes)])
  ⟨[49], [50]⟩ eqMemcmp (fun _ => 0) { loginArgs with heartbeat := 60 } (newConn fun _ => 0)
example : beatLogin.val?.map Outcome.tag = some 1 ∧ beatLogin.state?.map (·.heartbeat) = some 9 ∧ beatLogin.state?.map (·.log.contains (.clock 0)) = some false := by
  decide +kernel

/-- The exemption is needed: the protocol header is sent without regard to the heartbeats (amqp_send_header, amqp_socket.c:485-505) … -/
theorem C93_header : (sendHeaderInner jamEnv TIME_INF jamConn).state?.map (·.log) =
    some [.send protocolHeaderBytes 0 (-0x1302), .poll .write (-1) .timeout] := by decide +kernel
/-- … and without heartbeats calls do sleep for ever. -/
theorem C93_without : (waitFrame { jamEnv with poll := fun _ => .error } none (demoConn 4096)).state?.map (·.log) =
    some [.recvFail (-0x1301), .poll .read (-1) .error] := by decide +kernel

end Rmq
