import Verif.Proofs.Login
import Verif.Proofs.Timeouts
/-!
# The whole of login
-/
namespace Rmq

theorem since_refl (s : Conn) : Since s s [] := by simp [Since]
theorem Sent.append {s t u : Conn} {b b' : Bytes} (h : Sent s t b) (h' : Sent t u b') : Sent s u (b ++ b') := by
  obtain ⟨l, h, rfl⟩ := h
  obtain ⟨l', h', rfl⟩ := h'
  exact ⟨l ++ l', h.trans h', by rw [sentBytes_append]⟩
theorem Sent.after {s t u : Conn} {b : Bytes} (h : Sent s t b) (h' : Sent t u []) : Sent s u b := by simpa using h.append h'
theorem Sent.before {s t u : Conn} {b : Bytes} (h : Sent s t []) (h' : Sent t u b) : Sent s u b := by simpa using h.append h'
theorem Idle.sent {s s' : Conn} (h : Idle s s') : Sent s s' [] := by
  obtain ⟨l, h1, _, h2⟩ := h.since
  exact ⟨l, h1, h2⟩
theorem QuietStep.sent {s s' : Conn} (h : QuietStep s s') : Sent s s' [] := (Idle.quiet h).sent
theorem Sent.since {s s' : Conn} {b : Bytes} (h : Sent s s' b) : ∃ l, Since s s' l := h.elim fun l h => ⟨l, h.1⟩

/-- The RPC loop ended with an expected method. -/
theorem rpcLoop_normal {E : NetEnv} {ch : UInt16} {expected : List UInt32} {d : Nat} {id : UInt32} {args : Rec} : ∀ (n : Nat) {s s' : Conn},
    rpcLoop E ch expected d n s = .ok (.normal id args) s' →
    id ∈ expected ∧ ∃ t f, (∃ l, Since s t l) ∧ waitFrameInner E d t = .ok f s' ∧ f.frame.payload = .method id args ∧
      (f.frame.channel = ch ∨ id = CONNECTION_CLOSE) := by
  intro n
  induction n with
  | zero => intro s s' h; cases h
  | succ n ih =>
    intro s s' h
    unfold rpcLoop at h
    have hw := (since_closed E s).waitFrameInner d (s := s) ⟨[], since_refl s⟩
    cases h1 : waitFrameInner E d s with
    | ub => rw [h1] at h; cases h
    | fuel => rw [h1] at h; cases h
    | err e t => rw [h1] at h; cases h
    | ok f t =>
      rw [h1] at h hw
      dsimp only at h
      by_cases hc : endsRpc ch expected f.frame = true
      · rw [if_pos hc] at h
        cases hp : f.frame.payload with
        | method id' args' =>
          rw [hp] at h
          dsimp only at h
          by_cases he : expected.contains id' = true
          · rw [if_pos he] at h
            cases h
            refine ⟨by simpa using he, s, f, ⟨[], since_refl s⟩, h1, hp, ?_⟩
            unfold endsRpc at hc
            rw [hp] at hc
            simp only [Bool.or_eq_true, Bool.and_eq_true, beq_iff_eq] at hc
            rcases hc with hc | hc
            · exact Or.inl hc.1
            · exact Or.inr hc.2
          · rw [if_neg he] at h; cases h
        | header c sz fl ps => rw [hp] at h; cases h
        | body b => rw [hp] at h; cases h
        | heartbeat => rw [hp] at h; cases h
        | protocolHeader a b c d => rw [hp] at h; cases h
        | other t => rw [hp] at h; cases h
      rw [if_neg hc] at h
      have hq := (since_closed E s).queue (f := f) trivial hw.1
      cases h3 : queueFrame E f t with
      | ub => rw [h3] at h; cases h
      | fuel => rw [h3] at h; cases h
      | err e u => rw [h3] at h; cases h
      | ok x u =>
        rw [h3] at h hq
        obtain ⟨a1, v, g, ⟨l, hl⟩, a2⟩ := ih h
        obtain ⟨l0, hl0⟩ := hq
        exact ⟨a1, v, g, ⟨_, hl0.trans hl⟩, a2⟩

theorem openVhost_ok {E : NetEnv} {v : Bytes} {d : Nat} {s s' : Conn} (hO : SendReady s) (h : openVhost E v d s = .ok (.normal ()) s') :
    ∃ t u w args, Sent s t (openFrame v) ∧ (∃ l, Since t u l) ∧ Arrived E u ⟨0, .method CONNECTION_OPEN_OK args⟩ w ∧ s' = maybeRelease w := by
  unfold openVhost rpcInner at h
  have hs := fun t => sendMethod_wire (E := E) (p := openProto) (r := [(.virtual_host, .bytes v), (.capabilities, .bytes []), (.insist, .bool 1)])
    (by decide) (.cons trivial (.cons trivial (.cons trivial .nil))) 0 SF_NONE TIME_INF hO.1 hO.2.1 hO.2.2 (s' := t)
  cases h1 : sendMethod E 0 CONNECTION_OPEN [(.virtual_host, .bytes v), (.capabilities, .bytes []), (.insist, .bool 1)] SF_NONE TIME_INF s with
  | ub => rw [h1] at h; cases h
  | fuel => rw [h1] at h; cases h
  | err e t => rw [h1] at h; cases h
  | ok x t =>
    rw [h1] at h
    dsimp only at h
    obtain ⟨_, _, _, l, hl, ht⟩ := hs t h1
    rw [open_frame] at ht
    cases h2 : rpcLoop E 0 [CONNECTION_OPEN_OK] d E.fuel t with
    | ub => rw [h2] at h; cases h
    | fuel => rw [h2] at h; cases h
    | err e u => rw [h2] at h; cases h
    | ok r u =>
      rw [h2] at h
      cases r with
      | serverException id a => cases h
      | libraryException st => cases h
      | normal id args =>
        cases h
        obtain ⟨a1, w, f, a2, a3, a4, a5⟩ := rpcLoop_normal _ h2
        have : id = CONNECTION_OPEN_OK := by simpa using a1
        subst this
        refine ⟨t, w, u, args, ⟨l, hl, sentBytes_of_tagged ht⟩, a2, ⟨d, f, a3, ?_⟩, rfl⟩
        have a5 : f.frame.channel = 0 := a5.resolve_right (by decide)
        obtain ⟨⟨c, p⟩, _⟩ := f
        dsimp only at a4 a5 ⊢
        rw [a4, a5]

theorem login_params {E : NetEnv} {b : Build} {memcmp : Bytes → Bytes → Int} {mem : Nat → UInt8} {a : LoginArgs} {s s' : Conn} {r : Outcome Unit}
    (h : login E b memcmp mem a s = .ok r s') (hr : r ≠ .libraryException St.INVALID_PARAMETER) :
    0 ≤ a.channelMax ∧ a.channelMax ≤ 65535 ∧ 0 ≤ a.frameMax ∧ 0 ≤ a.heartbeat ∧ a.heartbeat ≤ 65535 ∧
      (loginSteps E b memcmp mem a (getHandshakeTimeout s.timeouts) s = .ok r s' ∨
       ∃ e t, loginSteps E b memcmp mem a (getHandshakeTimeout s.timeouts) s = .err e t ∧ r = .libraryException e ∧ s' = (sockClose E t).2) := by
  unfold login loginInner at h
  by_cases h1 : a.channelMax < 0 ∨ a.channelMax > 65535
  · rw [if_pos h1] at h; cases h; exact absurd rfl hr
  rw [if_neg h1] at h
  by_cases h2 : a.frameMax < 0
  · rw [if_pos h2] at h; cases h; exact absurd rfl hr
  rw [if_neg h2] at h
  by_cases h3 : a.heartbeat < 0 ∨ a.heartbeat > 65535
  · rw [if_pos h3] at h; cases h; exact absurd rfl hr
  rw [if_neg h3] at h
  refine ⟨by omega, by omega, by omega, by omega, by omega, ?_⟩
  cases h4 : loginSteps E b memcmp mem a (getHandshakeTimeout s.timeouts) s with
  | ub => rw [h4] at h; cases h
  | fuel => rw [h4] at h; cases h
  | err e t => rw [h4] at h; cases h; exact Or.inr ⟨e, t, rfl, rfl, rfl⟩
  | ok r' t => rw [h4] at h; cases h; exact Or.inl rfl

theorem login_valid {E : NetEnv} {b : Build} {memcmp : Bytes → Bytes → Int} {mem : Nat → UInt8} {a : LoginArgs} {s s' : Conn} {r : Outcome Unit}
    (h1 : 0 ≤ a.channelMax ∧ a.channelMax ≤ 65535) (h2 : 0 ≤ a.frameMax) (h3 : 0 ≤ a.heartbeat ∧ a.heartbeat ≤ 65535)
    (h : login E b memcmp mem a s = .ok r s') :
      (loginSteps E b memcmp mem a (getHandshakeTimeout s.timeouts) s = .ok r s' ∨
       ∃ e t, loginSteps E b memcmp mem a (getHandshakeTimeout s.timeouts) s = .err e t ∧ r = .libraryException e ∧ s' = (sockClose E t).2) := by
  unfold login loginInner at h
  rw [if_neg (by omega), if_neg (by omega), if_neg (by omega)] at h
  cases h4 : loginSteps E b memcmp mem a (getHandshakeTimeout s.timeouts) s with
  | ub => rw [h4] at h; cases h
  | fuel => rw [h4] at h; cases h
  | err e t => rw [h4] at h; cases h; exact Or.inr ⟨e, t, rfl, rfl, rfl⟩
  | ok r' t => rw [h4] at h; cases h; exact Or.inl rfl

theorem negotiate_frame_lt {a : LoginArgs} (h0 : 0 ≤ a.frameMax) (h1 : a.frameMax < 2 ^ 31) (x : UInt16) (y : UInt16) (c : UInt16) (f : UInt32) (hb : UInt16) :
    (negotiate x (UInt32.ofNat a.frameMax.toNat) y c f hb).2.1.toNat < 2 ^ 31 := by
  have hc : (UInt32.ofNat a.frameMax.toNat).toNat = a.frameMax.toNat := by
    rw [UInt32.toNat_ofNat']; omega
  unfold negotiate
  dsimp only
  split
  · rename_i h
    have := UInt32.lt_iff_toNat_lt.1 h.2
    omega
  · omega

theorem Upper.openVhostAll {E : NetEnv} {I : Conn → Prop} {J : Conn → DFrame → Prop} (h : Upper E I J) (vhost : Bytes) (d : Nat) {s : Conn}
    (hs : I s) : (openVhost E vhost d s).All I := by
  unfold Rmq.openVhost
  have h1 := h.rpcInner 0 CONNECTION_OPEN [CONNECTION_OPEN_OK]
      [(.virtual_host, .bytes vhost), (.capabilities, .bytes []), (.insist, .bool 1)] d hs
  revert h1
  cases Rmq.rpcInner E 0 CONNECTION_OPEN [CONNECTION_OPEN_OK]
      [(.virtual_host, .bytes vhost), (.capabilities, .bytes []), (.insist, .bool 1)] d s with
  | err e t => exact id
  | ub => exact id
  | fuel => exact id
  | ok r t =>
    cases r with
    | normal id args => exact fun h1 => h.maybeRelease h1
    | serverException i args => exact id
    | libraryException e => exact id

theorem openVhost_field {E : NetEnv} {γ : Type} (π : Conn → γ)
    (h : ∀ (s : Conn) (ps : PState) (inb : Bytes) (q : List DFrame) (r n : Nat) (m : Bytes) (o : Bool) (l : List Ev),
      π { s with ps := ps, inb := inb, queue := q, nextRecv := r, nextSend := n, outMem := m, isOpen := o, log := l } = π s)
    (vhost : Bytes) (d : Nat) (s : Conn) : (openVhost E vhost d s).All fun s' => π s' = π s :=
  (field_closed E π (π s) h).upper.openVhostAll vhost d rfl

/-- The whole handshake. -/
theorem login_normal {E : NetEnv} {b : Build} {memcmp : Bytes → Bytes → Int} (hM : MemcmpExact memcmp) {mem : Nat → UInt8} {a : LoginArgs}
    (hf31 : a.frameMax < 2 ^ 31) {s s' : Conn} (h0 : HbOff s) (hO : SendReady s) (h : login E b memcmp mem a s = .ok (.normal ()) s') :
    ∃ s1 s2 s3 s4 s5 s6 s7 s8 fs ft props c f hb v args,
      (Sent s s1 protocolHeaderBytes ∨ Sent s s1 []) ∧ Received E s1 fs s2 ∧ SuitableStart a.sasl fs ∧
      Sent s2 s3 (startOkFrame props (cstr a.sasl.ianaName) a.sasl.response) ∧ Received E s3 ft s4 ∧ TuneFrame c f hb ft ∧
      v = negotiate (UInt16.ofNat a.channelMax.toNat) (UInt32.ofNat a.frameMax.toNat) (UInt16.ofNat a.heartbeat.toNat) c f hb ∧
      Sent s4 s5 (tuneOkFrame v.1 v.2.1 v.2.2) ∧ Sent s5 s6 (openFrame a.vhost) ∧ (∃ l, Since s6 s7 l) ∧
      Arrived E s7 ⟨0, .method CONNECTION_OPEN_OK args⟩ s8 ∧ s' = maybeRelease s8 ∧
      s'.channelMax = v.1.toNat ∧ s'.frameMax = v.2.1.toNat ∧ s'.heartbeat = v.2.2.toNat ∧
      ((∀ g ∈ s.queue, g.frame.channel ≠ 0) → Ev.recycle 0 ∈ s'.log.drop s'.clientBorn) ∧
      ∃ r x y, mergeCapabilities memcmp E.pe.alloc 0 (defaultProperties b) a.clientProperties x = .ok r y ∧ r.erase = props := by
  obtain ⟨p1, p2, p3, p4, p5, hL⟩ := login_params h (fun hh => nomatch hh)
  have hL := hL.resolve_right (by rintro ⟨e, t, _, hh, _⟩; exact nomatch hh)
  obtain ⟨d, t0, t1, t2, t3, t4, t5, id, r0, e0, e1, e2, e3, e4, e5, hE⟩ := loginSteps_ok hL
  have hE := hE.resolve_left (by rintro ⟨_, hh, _⟩; exact nomatch hh)
  obtain ⟨rfl, c, f, hb, t6, t7, g1, g2, g3, e6, e7, e8⟩ := hE
  have hd : d ≤ TIME_INF := Login16.fromNowIO_le e0
  -- the header
  have q0 : QuietStep s t0 := by have := fromNowIO_quiet E (getHandshakeTimeout s.timeouts) s; rw [e0] at this; exact this
  obtain ⟨l1, k, rfl, hl1, hb1, hk⟩ := sendHeaderInner_eff E d e1
  have hk := hk rfl
  have o0 : Idle s t0 := .quiet q0
  have S1 : Sent t0 (t0.ext l1) (protocolHeaderBytes.take k) := ⟨l1, rfl, hb1⟩
  have hOff1 : HbOff (t0.ext l1) := o0.off h0
  have hO1 : SendReady (t0.ext l1) := o0.ready hO
  -- start
  obtain ⟨s1, s2, fs, n, sp, a1, a2, a3, rfl⟩ := awaitStart_ok hM e2
  have i2 : Idle (t0.ext l1) s2 := (Idle.quiet a1).trans (a2.idle ((Idle.quiet a1).off hOff1))
  have hOff2 : HbOff s2 := i2.off hOff1
  have hO2 : SendReady s2 := i2.ready hO1
  -- start-ok
  obtain ⟨b1, b2, l3, n3, p3', props, m3, tt3, rfl, b4, b5, b6⟩ := sendStartOk_ok hd (by exact hOff2) (by exact hO2) e3
  -- release
  obtain ⟨_, l4, rfl, r2, r3⟩ := releaseBuffers_ok e4
  -- tune
  obtain ⟨s3, c1, c2, _⟩ := waitMethodList_ok e5
  have hv := negotiate_frame_lt p3 hf31 (UInt16.ofNat a.channelMax.toNat) (UInt16.ofNat a.heartbeat.toNat) c f hb
  rcases hvv : negotiate (UInt16.ofNat a.channelMax.toNat) (UInt32.ofNat a.frameMax.toNat) (UInt16.ofNat a.heartbeat.toNat) c f hb with ⟨v1, v2, v3⟩
  rw [hvv] at hv e6
  obtain ⟨l6, f1, f2, f3, f4, f5, f6, f7⟩ := tuneOk_ok hd hv e6
  obtain ⟨_, l7, rfl, r4, _⟩ := releaseBuffers_ok e7
  obtain ⟨s6, s7, s8, args, k1, k2, k3, k4⟩ := openVhost_ok (by exact f3) e8
  have hk6 := openVhost_field (E := E) (fun s => (s.channelMax, s.frameMax, s.heartbeat, s.clientBorn))
    (fun _ _ _ _ _ _ _ _ _ => rfl) a.vhost d (t6.ext l7)
  rw [e8] at hk6
  injection hk6 with j1 j2
  injection j2 with j2 j3
  injection j3 with j3 j4
  refine ⟨s1, s2, s3, t5, t6, s6, s7, s8, fs, _, props, c, f, hb, (v1, v2, v3), args, ?_, a2, a3, ?_, c2, ⟨r0, rfl, g1, g2, g3⟩, hvv.symm,
    ⟨l6, f1, f2⟩, Sent.before (show Sent t6 (t6.ext l7) [] from ⟨l7, rfl, not_send_bytes r4⟩) k1, k2, k3, k4, j1.trans f4, j2.trans f5, j3.trans f6, ?_, b6⟩
  · rcases hk with rfl | rfl
    · exact Or.inl (o0.sent.before (S1.after a1.sent))
    · exact Or.inr (o0.sent.before (S1.after a1.sent))
  · refine Sent.after ?_ c1.sent
    exact ⟨l3 ++ l4, by simp [Since, Conn.ext], by rw [sentBytes_append, b5, not_send_bytes r2]; simp⟩
  · intro hq
    have hq2 : ∀ g ∈ s2.queue, g.frame.channel ≠ 0 := by
      have hi := o0.trans (.refl t0)
      obtain ⟨_, _, _, _, _, e, hsuf, _⟩ := o0
      have e1 : t0.queue <:+ s.queue := by rw [e]; exact hsuf
      obtain ⟨_, _, _, _, _, e', hsuf', _⟩ := i2
      have e2 : s2.queue <:+ t0.queue := by rw [e']; exact hsuf'
      exact fun g hg => hq g (e1.mem (e2.mem hg))
    have hrec : Ev.recycle 0 ∈ l4 := r3 b4 hq2
    have hOff4 : HbOff s3 := by obtain ⟨l5, rfl, _⟩ := c1; exact b1
    obtain ⟨lx, hlx⟩ : ∃ l, Since t5 s' l := by
      obtain ⟨m1, m1'⟩ := k1.since
      obtain ⟨m2, m2'⟩ := k2
      have k5 : ∃ l, Since s7 s8 l := by
        obtain ⟨dd, g, k3, _⟩ := k3
        have := (since_closed E s7).waitFrameInner dd (s := s7) ⟨[], since_refl s7⟩
        rw [k3] at this
        exact this.1
      obtain ⟨m3, m3'⟩ := k5
      obtain ⟨m4, m4', _⟩ := (maybeRelease_idle s8).since
      rw [← k4] at m4'
      exact ⟨_, (f1.trans (show Since t6 (t6.ext l7) l7 from rfl)).trans (((m1'.trans m2').trans m3').trans m4')⟩
    have hi := c2.idle hOff4
    obtain ⟨l5, rfl, _⟩ := c1
    obtain ⟨ps, inb, q, o, l, rfl, _, _⟩ := hi
    have hborn : s'.clientBorn = s2.log.length := by
      rw [j4]
      show t6.clientBorn = _
      rw [f7]
      rfl
    rw [hborn]
    unfold Since at hlx
    rw [hlx]
    simp only [Conn.ext]
    rw [List.append_assoc, List.append_assoc, List.append_assoc, List.append_assoc, List.drop_left]
    simp [hrec]

end Rmq
