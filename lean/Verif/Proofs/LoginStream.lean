import Verif.Proofs.LoginFull
import Verif.Proofs.Rpc
/-!
# All that login sends
-/
namespace Rmq

theorem finishFrame_fits {be : Bool} {mem : Bytes} {n : Nat} {out mem' : Bytes} (h : finishFrame be mem n = .ok out mem') :
    out.length ≤ mem'.length := by
  unfold finishFrame at h
  split at h
  · cases h
  · split at h
    · cases h
    · cases h; rw [List.length_take]; omega

theorem frameToBytes_fits {be : Bool} {mem : Bytes} {n : Nat} {f : AFrame} {out mem' : Bytes} (h : frameToBytes be mem n f = .ok out mem') :
    out.length ≤ mem'.length := by
  unfold frameToBytes at h
  repeat' split at h
  all_goals first | exact finishFrame_fits h | (cases h; done)

/-- A method that was sent fitted the buffer. -/
theorem sendMethod_fits {E : NetEnv} {p : Proto} {r : Rec} (hp : p ∈ protocol) (hr : HasArgs p.args r) (ch : UInt16) (flags deadline : Nat)
    {s s' : Conn} (hO : OutReady s) (hsz : s.outLen < 2 ^ 32) (h12 : 12 ≤ s.outLen) (h : sendMethod E ch p.id r flags deadline s = .ok () s') :
    (methodFrame ch p r).length ≤ s'.outLen := by
  have hw := sendFrame_wrote (E := E) ⟨ch, .method p.id r⟩ flags deadline s
  unfold sendMethod at h
  rw [h] at hw
  obtain ⟨enc, mem, l, hf, a, b, c, hl, hs⟩ := hw
  have hf' := hf
  rw [← hO.1] at hf
  obtain ⟨_, h2, h3⟩ := frameToBytes_method hp hr E.pe.be ch s.outMem (by rw [hO.1]; exact h12) (by rw [hO.1]; exact hsz) hf
  rw [← h2, b, ← hO.1, ← h3]
  exact frameToBytes_fits hf'

/-- A frame that fits a buffer of less than 4 GiB. -/
theorem rawFrame_whole {ty : UInt8} {ch : UInt16} {payload : Bytes} (h : (rawFrame ty ch payload 206).length < 2 ^ 32) :
    WholeFrame (rawFrame ty ch payload 206) := by
  refine ⟨ty, ch, payload, ?_, rfl⟩
  unfold rawFrame at h
  simp only [List.length_append, List.length_cons] at h
  omega

theorem tuneOk_full {E : NetEnv} {mem : Nat → UInt8} {c : UInt16} {f : UInt32} {hb : UInt16} {d : Nat} (hd : d ≤ TIME_INF)
    (hf : f.toNat < 2 ^ 31) {s s' : Conn} (h : tuneOk E mem (c, f, hb) d s = .ok () s') : OutBuf s' := by
  obtain ⟨_, _, _, f3, _⟩ := tuneOk_ok hd hf h
  unfold tuneOk at h
  obtain ⟨_, t, h1, h⟩ := M.bind_ok h
  dsimp only at h1 h
  obtain ⟨hO, hfm⟩ := outReady_tune (by omega) (by omega) h1
  have hlen : t.outLen = f.toNat := by have := hO.2; rw [hfm] at this; omega
  have hw := sendFrame_wrote (E := E) ⟨0, .method CONNECTION_TUNE_OK [(.channel_max, .u16 c), (.frame_max, .u32 f), (.heartbeat, .u16 hb)]⟩ SF_NONE d t
  have h' := h
  unfold sendMethod at h'
  rw [h'] at hw
  obtain ⟨enc, mem', l', hfb, _, ho, _⟩ := hw
  rw [← hO.1] at hfb
  have hroom := tuneOk_room _ _ _ _ _ hfb
  rw [hO.1] at hroom
  have := sendMethod_fits (E := E) (p := tuneOkProto) (r := [(.channel_max, .u16 c), (.frame_max, .u32 f), (.heartbeat, .u16 hb)]) (by decide)
    (.cons trivial (.cons trivial (.cons trivial .nil))) 0 SF_NONE d hO (by omega) hroom (s' := s') h
  rw [tuneOk_frame] at this
  refine ⟨f3.1.1, ?_, f3.2.1⟩
  have e : (tuneOkFrame c f hb).length = 20 := by unfold tuneOkFrame rawFrame; simp [beBytes_length]
  omega

theorem maybeRelease_sent (s : Conn) : Sent s (maybeRelease s) [] := (maybeRelease_idle s).sent

/-- connection.open and the wait for its answer. -/
theorem openVhost_out {E : NetEnv} (hT : NoTimeoutSend E) {v : Bytes} {d : Nat} {s s' : Conn} (hO : OutBuf s)
    (h : openVhost E v d s = .ok (.normal ()) s') :
    OutBuf s' ∧ ∃ beats, Sent s s' (openFrame v ++ beats) ∧ FramesOf Beat beats ∧ (openFrame v).length ≤ s.outLen := by
  unfold openVhost rpcInner at h
  have hs := sendMethod_out (E := E) (p := openProto) (r := [(.virtual_host, .bytes v), (.capabilities, .bytes []), (.insist, .bool 1)])
    (by decide) (.cons trivial (.cons trivial (.cons trivial .nil))) 0 SF_NONE TIME_INF hO
  have hw := sendFrame_wrote (E := E) ⟨0, .method CONNECTION_OPEN [(.virtual_host, .bytes v), (.capabilities, .bytes []), (.insist, .bool 1)]⟩ SF_NONE TIME_INF s
  cases h1 : sendMethod E 0 CONNECTION_OPEN [(.virtual_host, .bytes v), (.capabilities, .bytes []), (.insist, .bool 1)] SF_NONE TIME_INF s with
  | ub => rw [h1] at h; cases h
  | fuel => rw [h1] at h; cases h
  | err e t => rw [h1] at h; cases h
  | ok x t =>
    rw [h1] at h
    have e1 : sendMethod E 0 openProto.id [(.virtual_host, .bytes v), (.capabilities, .bytes []), (.insist, .bool 1)] SF_NONE TIME_INF s = .ok x t := h1
    rw [e1] at hs
    obtain ⟨_, ho, l, hl, hb⟩ := hs
    rw [open_frame] at hb
    have hfit : (openFrame v).length ≤ s.outLen := by
      have h1' := h1
      unfold sendMethod at h1'
      rw [h1'] at hw
      obtain ⟨enc, mem, l2, hf, k1, k2, _, hl2, hs2⟩ := hw
      have : l2 = l := List.append_cancel_left (hl2.symm.trans hl)
      subst this
      have e2 : enc = openFrame v := by
        rw [← hb, ← sentTagged_bytes, hs2]; simp [Bytes.flagged, Function.comp_def]
      rw [← e2]
      have := frameToBytes_fits hf
      rw [← k1] at this
      have := ho.1
      omega
    dsimp only at h
    have h3 := rpcLoop_tidy (sends_beat hT) 0 [CONNECTION_OPEN_OK] d E.fuel ho
    cases h2 : rpcLoop E 0 [CONNECTION_OPEN_OK] d E.fuel t with
    | ub => rw [h2] at h; cases h
    | fuel => rw [h2] at h; cases h
    | err e u => rw [h2] at h; cases h
    | ok r u =>
      rw [h2] at h h3
      cases r with
      | serverException id a => cases h
      | libraryException st => cases h
      | normal id args =>
        cases h
        obtain ⟨o, l', k1, k2, _⟩ := h3
        refine ⟨(maybeRelease_hush u).outBuf o, sentBytes l', Sent.append ⟨l, hl, hb⟩ (Sent.after ⟨l', k1, rfl⟩ (maybeRelease_sent u)), k2, hfit⟩

theorem sendMethod_len {E : NetEnv} {ch : UInt16} {id : UInt32} {r : Rec} {flags deadline : Nat} {s s' : Conn}
    (h : sendMethod E ch id r flags deadline s = .ok () s') : ∃ l, Since s s' l ∧ (sentBytes l).length ≤ s'.outMem.length := by
  have hw := sendFrame_wrote (E := E) ⟨ch, .method id r⟩ flags deadline s
  unfold sendMethod at h
  rw [h] at hw
  obtain ⟨enc, mem, l, hf, a, b, c, hl, hs⟩ := hw
  refine ⟨l, hl, ?_⟩
  have : sentBytes l = enc := by rw [← sentTagged_bytes, hs]; simp [Bytes.flagged, Function.comp_def]
  rw [this, a]
  exact frameToBytes_fits hf

theorem sendStartOk_len {E : NetEnv} {b : Build} {memcmp : Bytes → Bytes → Int} {props : Option PTable} {sasl : Sasl} {d : Nat}
    {s s' : Conn} (h : sendStartOk E b memcmp props sasl d s = .ok () s') : ∃ l, Since s s' l ∧ (sentBytes l).length ≤ s'.outMem.length := by
  unfold sendStartOk at h
  obtain ⟨_, t1, h1, h⟩ := M.bind_ok h
  obtain ⟨resp, t2, h2, h⟩ := M.bind_ok h
  obtain ⟨tb, t3, h3, h⟩ := M.bind_ok h
  obtain ⟨_, t4, h4, h⟩ := M.bind_ok h
  cases h4
  have e1 : ∃ n p, t1 = { s with ps := { s.ps with allocs := n, pools := p } } := by
    have hg := getPool_eff E.pe s.ps 0
    revert h1 hg
    dsimp only
    rcases getPool E.pe s.ps 0 with ⟨_ | _, ps⟩
    · intro h1; cases h1
    · intro h1 hg
      cases h1
      obtain ⟨n, p, hg⟩ := hg
      dsimp only at hg
      subst hg
      exact ⟨n, p, rfl⟩
  obtain ⟨n1, p, rfl⟩ := e1
  have e2 := saslResponse_eff E sasl { s with ps := { s.ps with allocs := n1, pools := p } }
  rw [h2] at e2
  obtain ⟨n2, rfl⟩ := e2
  have e3 := withAlloc_eff E (fun alloc => mergeCapabilities memcmp alloc 0 (defaultProperties b) props) { s with ps := { s.ps with allocs := n2, pools := p } }
  rw [h3] at e3
  obtain ⟨n3, rfl⟩ := e3
  obtain ⟨l, hl, hn⟩ := sendMethod_len h
  exact ⟨l, hl, hn⟩

/-- All that a login sends, from the first octet of the connection to the last before it returns. -/
theorem login_stream {E : NetEnv} (hT : NoTimeoutSend E) {b : Build} {memcmp : Bytes → Bytes → Int} (hM : MemcmpExact memcmp) {mem : Nat → UInt8} {a : LoginArgs}
    (hf31 : a.frameMax < 2 ^ 31) {s s' : Conn} (h0 : HbOff s) (hO : SendReady s) (h : login E b memcmp mem a s = .ok (.normal ()) s') :
    OutBuf s' ∧ (s'.frameMax = s'.outLen ∧ s'.frameMax < 2 ^ 31) ∧ ∃ hdr props v1 v2 v3 beats, (hdr = protocolHeaderBytes ∨ hdr = []) ∧ FramesOf Beat beats ∧
      (startOkFrame props (cstr a.sasl.ianaName) a.sasl.response).length < 2 ^ 32 ∧ (openFrame a.vhost).length < 2 ^ 32 ∧
      s'.channelMax = v1.toNat ∧ s'.frameMax = v2.toNat ∧ s'.heartbeat = v3.toNat ∧ (0 ≤ a.heartbeat ∧ a.heartbeat ≤ 65535) ∧
      (∃ c f hb, negotiate (UInt16.ofNat a.channelMax.toNat) (UInt32.ofNat a.frameMax.toNat) (UInt16.ofNat a.heartbeat.toNat) c f hb = (v1, v2, v3)) ∧
      Sent s s' (hdr ++ startOkFrame props (cstr a.sasl.ianaName) a.sasl.response ++ tuneOkFrame v1 v2 v3 ++ openFrame a.vhost ++ beats) := by
  obtain ⟨p1, p2, p3, p4, p5, hL⟩ := login_params h (fun hh => nomatch hh)
  have hL := hL.resolve_right (by rintro ⟨e, t, _, hh, _⟩; exact nomatch hh)
  obtain ⟨d, t0, t1, t2, t3, t4, t5, id, r0, e0, e1, e2, e3, e4, e5, hE⟩ := loginSteps_ok hL
  have hE := hE.resolve_left (by rintro ⟨_, hh, _⟩; exact nomatch hh)
  obtain ⟨rfl, c, f, hb, t6, t7, g1, g2, g3, e6, e7, e8⟩ := hE
  have hd : d ≤ TIME_INF := Login16.fromNowIO_le e0
  have q0 : QuietStep s t0 := by have := fromNowIO_quiet E (getHandshakeTimeout s.timeouts) s; rw [e0] at this; exact this
  obtain ⟨l1, k, rfl, hl1, hb1, hk⟩ := sendHeaderInner_eff E d e1
  have hk := hk rfl
  have o0 : Idle s t0 := .quiet q0
  have S1 : Sent t0 (t0.ext l1) (protocolHeaderBytes.take k) := ⟨l1, rfl, hb1⟩
  have hOff1 : HbOff (t0.ext l1) := o0.off h0
  have hO1 : SendReady (t0.ext l1) := o0.ready hO
  obtain ⟨s1, s2, fs, n, sp, a1, a2, a3, rfl⟩ := awaitStart_ok hM e2
  have i2 : Idle (t0.ext l1) s2 := (Idle.quiet a1).trans (a2.idle ((Idle.quiet a1).off hOff1))
  have hOff2 : HbOff s2 := i2.off hOff1
  have hO2 : SendReady s2 := i2.ready hO1
  obtain ⟨b1, b2, l3, n3, p3', props, m3, tt3, rfl, b4, b5, _⟩ := sendStartOk_ok hd (by exact hOff2) (by exact hO2) e3
  obtain ⟨_, l4, rfl, r2, r3⟩ := releaseBuffers_ok e4
  obtain ⟨s3, c1, c2, _⟩ := waitMethodList_ok e5
  have hOff3 : HbOff s3 := by obtain ⟨l5, rfl, _⟩ := c1; exact b1
  have i5 := c2.idle hOff3
  have hv := negotiate_frame_lt p3 hf31 (UInt16.ofNat a.channelMax.toNat) (UInt16.ofNat a.heartbeat.toNat) c f hb
  rcases hvv : negotiate (UInt16.ofNat a.channelMax.toNat) (UInt32.ofNat a.frameMax.toNat) (UInt16.ofNat a.heartbeat.toNat) c f hb with ⟨v1, v2, v3⟩
  rw [hvv] at hv e6
  obtain ⟨l6, f1, f2, f3, f4, f5, f6, f7⟩ := tuneOk_ok hd hv e6
  have f8 := tuneOk_full hd hv e6
  obtain ⟨_, l7, rfl, r4, _⟩ := releaseBuffers_ok e7
  have hk6 := openVhost_field (E := E) (fun s => (s.channelMax, s.frameMax, s.heartbeat, s.outLen))
    (fun _ _ _ _ _ _ _ _ _ => rfl) a.vhost d (t6.ext l7)
  rw [e8] at hk6
  injection hk6 with j1 j2
  injection j2 with j2 j3
  injection j3 with j3 j4
  have hsz : s'.frameMax = s'.outLen ∧ s'.frameMax < 2 ^ 31 := ⟨by rw [j2, j4]; exact f3.1.2, by have := j2.trans f5; omega⟩
  obtain ⟨z1, beats, z2, z3, z4⟩ := openVhost_out hT (by exact f8) e8
  have hso : (startOkFrame props (cstr a.sasl.ianaName) a.sasl.response).length < 2 ^ 32 := by
    obtain ⟨l, hl, hn⟩ := sendStartOk_len e3
    have : l3 = l := List.append_cancel_left (show s2.log ++ l3 = s2.log ++ l from hl)
    subst this
    rw [b5] at hn
    have h1 := b2.1.1
    have h2 := b2.2.1
    omega
  refine ⟨z1, hsz, protocolHeaderBytes.take k, props, v1, v2, v3, beats, ?_, z3, hso, Nat.lt_of_le_of_lt z4 f8.2.2, j1.trans f4, j2.trans f5, j3.trans f6, ⟨p4, p5⟩, ⟨c, f, hb, hvv⟩, ?_⟩
  · rcases hk with rfl | rfl
    · exact Or.inl rfl
    · exact Or.inr rfl
  have w1 : Sent s s2 (protocolHeaderBytes.take k) := (o0.sent.before S1).after i2.sent
  have w2 : Sent s2 t5 (startOkFrame props (cstr a.sasl.ianaName) a.sasl.response) := by
    refine Sent.after ?_ (c1.sent.before i5.sent)
    exact ⟨l3 ++ l4, by simp [Since, Conn.ext], by rw [sentBytes_append, b5, not_send_bytes r2]; simp⟩
  have w3 : Sent t5 (t6.ext l7) (tuneOkFrame v1 v2 v3) := Sent.after ⟨l6, f1, f2⟩ (show Sent t6 (t6.ext l7) [] from ⟨l7, rfl, not_send_bytes r4⟩)
  have := ((w1.append w2).append w3).append z2
  simpa [List.append_assoc] using this

end Rmq
