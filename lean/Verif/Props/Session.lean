import Verif.Proofs.LoginStream
import Verif.Props.Login
import Verif.Props.Outgoing
/-!
# C38, C61: the outgoing stream from the first octet on
-/
namespace Rmq

/-- C38, all that a successful login puts on the wire: the protocol header, start-ok, tune-ok and open with the mechanism, the response and
the virtual host asked for, and the limits in force afterwards; then nothing but heartbeats.  (The header may be missing: C57.) -/
theorem C38_sends {E : NetEnv} (hT : NoTimeoutSend E) {b : Build} {memcmp : Bytes → Bytes → Int} (hM : MemcmpExact memcmp) {mem : Nat → UInt8} {a : LoginArgs}
    (hf31 : a.frameMax < 2 ^ 31) {s s' : Conn} (h0 : HbOff s) (hO : OutReady s ∧ s.outLen < 2 ^ 32 ∧ 12 ≤ s.outLen)
    (h : login E b memcmp mem a s = .ok (.normal ()) s') :
    ∃ hdr props c f hb beats, (hdr = [65, 77, 81, 80, 0, 0, 9, 1] ∨ hdr = []) ∧ FramesOf Beat beats ∧
      s'.channelMax = c.toNat ∧ s'.frameMax = f.toNat ∧ s'.heartbeat = hb.toNat ∧
      Sent s s' (hdr ++ startOkFrame props (cstr a.sasl.ianaName) a.sasl.response ++ tuneOkFrame c f hb ++ openFrame a.vhost ++ beats) := by
  obtain ⟨_, _, hdr, props, v1, v2, v3, beats, h1, h2, _, _, h5, h6, h7, _, _, h8⟩ := login_stream hT hM hf31 h0 hO h
  exact ⟨hdr, props, v1, v2, v3, beats, h1, h2, h5, h6, h7, h8⟩

/-- C61, from the first octet on: a successful login on a new connection (`s0`), then any calls that complete, are refused by the server or run
out of time.  What the peer has been sent since the connection was opened is the protocol header and complete frames.  (The header may be
missing: C57.) -/
theorem C61_session {E : NetEnv} (hT : NoTimeoutSend E) {b : Build} {memcmp : Bytes → Bytes → Int} (hM : MemcmpExact memcmp) {mem : Nat → UInt8} {a : LoginArgs}
    (hf31 : a.frameMax < 2 ^ 31) {s0 s s' : Conn} (h0 : HbOff s0) (hO : OutReady s0 ∧ s0.outLen < 2 ^ 32 ∧ 12 ≤ s0.outLen)
    (h : login E b memcmp mem a s0 = .ok (.normal ()) s) (hh : Steps (GoodCall E) s s') (hp : PollHonest s s') :
    ∃ hdr frames, Sent s0 s' (hdr ++ frames) ∧ (hdr = [65, 77, 81, 80, 0, 0, 9, 1] ∨ hdr = []) ∧ WholeFrames frames := by
  obtain ⟨ho, _, hdr, props, v1, v2, v3, beats, h1, h2, h3, h4, _, _, _, _, _, h8⟩ := login_stream hT hM hf31 h0 hO h
  obtain ⟨l', h10, h11⟩ := C61_stream_framed hT ho hh hp
  refine ⟨hdr, startOkFrame props (cstr a.sasl.ianaName) a.sasl.response ++ tuneOkFrame v1 v2 v3 ++ openFrame a.vhost ++ beats ++ sentBytes l', ?_, h1, ?_⟩
  · simpa [List.append_assoc] using h8.append ⟨l', h10, rfl⟩
  · have w1 : WholeFrame (startOkFrame props (cstr a.sasl.ianaName) a.sasl.response) := rawFrame_whole h3
    have w2 : WholeFrame (tuneOkFrame v1 v2 v3) := rawFrame_whole (by unfold rawFrame; simp [beBytes_length])
    have w3 : WholeFrame (openFrame a.vhost) := rawFrame_whole h4
    have w4 : FramesOf WholeFrame beats := by
      obtain ⟨fs, k1, k2⟩ := h2
      exact ⟨fs, fun f hf => by rw [k1 f hf]; exact ⟨8, 0, [], by simp, rfl⟩, k2⟩
    exact ((((FramesOf.one w1).append (.one w2)).append (.one w3)).append w4).append h11

/-- A new connection is one. -/
theorem C61_session_new (mem : Nat → UInt8) :
    HbOff (newConn mem) ∧ OutReady (newConn mem) ∧ (newConn mem).outLen < 2 ^ 32 ∧ 12 ≤ (newConn mem).outLen :=
  ⟨⟨Int.le_refl _, rfl, rfl⟩, outReady_new mem, by show (65536 : Nat) < 2 ^ 32; decide, by show 12 ≤ (65536 : Nat); decide⟩

/-- A login, and a publication after it: the stream from its beginning (without start-ok). -/
example : let E := loginEnv [(4, .data (startBytes "PLAIN")), (10, .data tuneBytes), (15, .data openOkBytes)]
    (goodLogin.state?.bind fun s => (basicPublish E 1 [101] [107] 0 0 none [9, 9] s).state?.map fun s =>
      ((sentBytes s.log).take 8, (sentBytes s.log).drop ((sentBytes s.log).length - 87))) =
    some ([65, 77, 81, 80, 0, 0, 9, 1],
      [1, 0, 0, 0, 0, 0, 12, 0, 10, 0, 31, 0, 7, 0, 0, 1, 144, 0, 0, 206] ++ [1, 0, 0, 0, 0, 0, 8, 0, 10, 0, 40, 1, 47, 0, 1, 206] ++
      [1, 0, 1, 0, 0, 0, 11, 0, 60, 0, 40, 0, 0, 1, 101, 1, 107, 0, 206] ++ [2, 0, 1, 0, 0, 0, 14, 0, 60, 0, 0, 0, 0, 0, 0, 0, 0, 0, 2, 0, 0, 206] ++
      [3, 0, 1, 0, 0, 0, 2, 9, 9, 206]) := by
  decide +kernel

end Rmq
