import Verif.Proofs.LoginFull
import Verif.Props.Deadlines
/-!
# C34–C38: login
-/
namespace Rmq

/-! ## C35 -/

/-- C35, the rule: no negotiated value is above a non-zero one asked for by either side; the two exceptions to "0 is no limit" are that
frame_max and heartbeat stay 0 if the client asked for 0. -/
theorem C35_negotiation (cc : UInt16) (cf : UInt32) (ch : UInt16) (sc : UInt16) (sf : UInt32) (sh : UInt16) :
    let v := negotiate cc cf ch sc sf sh
    (AtMost v.1.toNat cc.toNat ∧ AtMost v.1.toNat sc.toNat) ∧
    (AtMost v.2.1.toNat cf.toNat ∧ AtMost v.2.1.toNat sf.toNat ∧ (v.2.1 = 0 ↔ cf = 0)) ∧
    (AtMost v.2.2.toNat ch.toNat ∧ AtMost v.2.2.toNat sh.toNat ∧ (v.2.2 = 0 ↔ ch = 0)) := by
  intro v
  have n16 : ∀ x : UInt16, x.toNat ≠ 0 → x ≠ 0 := fun x hx h => hx (by rw [h]; rfl)
  have n32 : ∀ x : UInt32, x.toNat ≠ 0 → x ≠ 0 := fun x hx h => hx (by rw [h]; rfl)
  have l16 : ∀ {x y : UInt16}, x < y ↔ x.toNat < y.toNat := UInt16.lt_iff_toNat_lt
  have l32 : ∀ {x y : UInt32}, x < y ↔ x.toNat < y.toNat := UInt32.lt_iff_toNat_lt
  have z16 : ∀ {x : UInt16}, x = 0 ↔ x.toNat = 0 := fun {x} => ⟨fun h => by rw [h]; rfl, fun h => UInt16.toNat_inj.1 h⟩
  have z32 : ∀ {x : UInt32}, x = 0 ↔ x.toNat = 0 := fun {x} => ⟨fun h => by rw [h]; rfl, fun h => UInt32.toNat_inj.1 h⟩
  have c65 : (65535 : UInt16).toNat = 65535 := rfl
  unfold AtMost
  have e1 : v.1 = if sc ≠ 0 ∧ (sc < cc ∨ cc = 0) then sc else if sc = 0 ∧ cc = 0 then 65535 else cc := rfl
  have e2 : v.2.1 = if sf ≠ 0 ∧ sf < cf then sf else cf := rfl
  have e3 : v.2.2 = if sh ≠ 0 ∧ sh < ch then sh else ch := rfl
  rw [e1, e2, e3]
  simp only [l16, l32, z16, z32, ne_eq]
  refine ⟨?_, ?_, ?_⟩
  · split
    · constructor <;> intro <;> omega
    · split
      · constructor <;> intro <;> omega
      · constructor <;> intro <;> omega
  · split
    · refine ⟨fun _ => ?_, fun _ => ?_, ?_⟩ <;> omega
    · refine ⟨fun _ => ?_, fun _ => ?_, ?_⟩ <;> omega
  · split
    · refine ⟨fun _ => ?_, fun _ => ?_, ?_⟩ <;> omega
    · refine ⟨fun _ => ?_, fun _ => ?_, ?_⟩ <;> omega

/-- What login leaves of a parameter when it makes an unsigned number of it. -/
theorem C35_param16 {n : Int} (h0 : 0 ≤ n) (h1 : n ≤ 65535) : (UInt16.ofNat n.toNat).toNat = n.toNat := by
  rw [UInt16.toNat_ofNat']; omega
theorem C35_param32 {n : Int} (h0 : 0 ≤ n) (h1 : n < 2 ^ 31) : (UInt32.ofNat n.toNat).toNat = n.toNat := by
  rw [UInt32.toNat_ofNat']; omega

/-- C35: after a successful login, with whatever the broker asked for in its connection.tune, the values in force are within what the
application (`a`) and the broker (`c`, `f`, `h`) asked for, and exactly these values are on the wire in tune-ok. -/
theorem C35_tune {E : NetEnv} {b : Build} {memcmp : Bytes → Bytes → Int} (hM : MemcmpExact memcmp) {mem : Nat → UInt8} {a : LoginArgs}
    (hf31 : a.frameMax < 2 ^ 31) {s s' : Conn} (h0 : HbOff s) (hO : OutReady s ∧ s.outLen < 2 ^ 32 ∧ 12 ≤ s.outLen)
    (h : login E b memcmp mem a s = .ok (.normal ()) s') :
    ∃ s1 s2 s3 ft c f hb, (∃ l, Since s s1 l) ∧ Received E s1 ft s2 ∧ TuneFrame c f hb ft ∧ (∃ l, Since s3 s' l) ∧
      ∃ (v1 : UInt16) (v2 : UInt32) (v3 : UInt16), Sent s2 s3 (tuneOkFrame v1 v2 v3) ∧
        s'.channelMax = v1.toNat ∧ s'.frameMax = v2.toNat ∧ s'.heartbeat = v3.toNat ∧
        (AtMost v1.toNat a.channelMax.toNat ∧ AtMost v1.toNat c.toNat) ∧
        (AtMost v2.toNat a.frameMax.toNat ∧ AtMost v2.toNat f.toNat) ∧
        (AtMost v3.toNat a.heartbeat.toNat ∧ AtMost v3.toNat hb.toNat) := by
  obtain ⟨p1, p2, p3, p4, p5, _⟩ := login_params h (fun hh => nomatch hh)
  obtain ⟨s1, s2, s3, s4, s5, s6, s7, s8, fs, ft, props, c, f, hb, v, args, a1, a2, a3, a4, a5, a6, a7, a8, a9, a10, a11, a12, b1, b2, b3, _⟩ :=
    login_normal hM hf31 h0 hO h
  have hn := C35_negotiation (UInt16.ofNat a.channelMax.toNat) (UInt32.ofNat a.frameMax.toNat) (UInt16.ofNat a.heartbeat.toNat) c f hb
  rw [← a7] at hn
  dsimp only at hn
  rw [C35_param16 p1 p2, C35_param16 p4 p5, C35_param32 p3 hf31] at hn
  refine ⟨s3, s4, s5, ft, c, f, hb, ?_, a5, a6, ?_, v.1, v.2.1, v.2.2, a8, b1, b2, b3, hn.1, ⟨hn.2.1.1, hn.2.1.2.1⟩, ⟨hn.2.2.1, hn.2.2.2.1⟩⟩
  · have w : ∃ l, Since s1 s2 l := by
      obtain ⟨tv, g, hw, _⟩ := a2
      have := (since_closed E s1).upper.waitFrame tv (s := s1) ⟨[], since_refl s1⟩
      rw [hw] at this
      exact this.1
    obtain ⟨l1, h1⟩ := a1.elim (·.since) (·.since)
    obtain ⟨l2, h2⟩ := w
    obtain ⟨l3, h3⟩ := a4.since
    exact ⟨_, (h1.trans h2).trans h3⟩
  · obtain ⟨m1, m1'⟩ := a9.since
    obtain ⟨m2, m2'⟩ := a10
    have k5 : ∃ l, Since s7 s8 l := by
      obtain ⟨dd, g, k3, _⟩ := a11
      have := (since_closed E s7).waitFrameInner dd (s := s7) ⟨[], since_refl s7⟩
      rw [k3] at this
      exact this.1
    obtain ⟨m3, m3'⟩ := k5
    obtain ⟨m4, m4', _⟩ := (maybeRelease_idle s8).since
    rw [← a12] at m4'
    exact ⟨_, ((m1'.trans m2').trans m3').trans m4'⟩

/-! ## C36 -/

/-- C36: whatever the broker does and however login ends, either nothing but (a part of) the protocol header was sent, or the broker
announced protocol 0-9 and listed the mechanism, in a connection.start on channel 0 that had arrived when nothing but the header
was sent. -/
theorem C36_credentials {E : NetEnv} {b : Build} {memcmp : Bytes → Bytes → Int} (hM : MemcmpExact memcmp) {mem : Nat → UInt8} {a : LoginArgs}
    {s s' : Conn} (h0 : HbOff s) (h : (login E b memcmp mem a s).leaves s') :
    ∃ l, Since s s' l ∧ (sentBytes l <+: protocolHeaderBytes ∨
      ∃ s1 s2 f l1, Received E s1 f s2 ∧ SuitableStart a.sasl f ∧ Since s s2 l1 ∧ l1 <+: l ∧ sentBytes l1 <+: protocolHeaderBytes) := by
  have nil : ∃ l, Since s s l ∧ (sentBytes l <+: protocolHeaderBytes ∨
      ∃ s1 s2 f l1, Received E s1 f s2 ∧ SuitableStart a.sasl f ∧ Since s s2 l1 ∧ l1 <+: l ∧ sentBytes l1 <+: protocolHeaderBytes) :=
    ⟨[], since_refl s, Or.inl (List.nil_prefix)⟩
  -- more silence keeps it
  have more : ∀ {t u : Conn}, (∃ l, Since s t l ∧ (sentBytes l <+: protocolHeaderBytes ∨
      ∃ s1 s2 f l1, Received E s1 f s2 ∧ SuitableStart a.sasl f ∧ Since s s2 l1 ∧ l1 <+: l ∧ sentBytes l1 <+: protocolHeaderBytes)) →
      Sent t u [] → ∃ l, Since s u l ∧ (sentBytes l <+: protocolHeaderBytes ∨
      ∃ s1 s2 f l1, Received E s1 f s2 ∧ SuitableStart a.sasl f ∧ Since s s2 l1 ∧ l1 <+: l ∧ sentBytes l1 <+: protocolHeaderBytes) := by
    rintro t u ⟨l, hl, hc⟩ ⟨l', hl', he⟩
    refine ⟨l ++ l', hl.trans hl', ?_⟩
    rcases hc with hc | ⟨s1, s2, f, l1, c1, c2, c3, c4, c5⟩
    · left; rw [sentBytes_append, he]; simpa using hc
    · right; exact ⟨s1, s2, f, l1, c1, c2, c3, c4.trans (List.prefix_append _ _), c5⟩
  suffices hA : (loginSteps E b memcmp mem a (getHandshakeTimeout s.timeouts) s).All fun s' => ∃ l, Since s s' l ∧ (sentBytes l <+: protocolHeaderBytes ∨
      ∃ s1 s2 f l1, Received E s1 f s2 ∧ SuitableStart a.sasl f ∧ Since s s2 l1 ∧ l1 <+: l ∧ sentBytes l1 <+: protocolHeaderBytes) by
    refine Res.All.leaves (I := fun s' => ∃ l, Since s s' l ∧ (sentBytes l <+: protocolHeaderBytes ∨
      ∃ s1 s2 f l1, Received E s1 f s2 ∧ SuitableStart a.sasl f ∧ Since s s2 l1 ∧ l1 <+: l ∧ sentBytes l1 <+: protocolHeaderBytes)) ?_ h
    unfold login loginInner
    split
    · exact nil
    split
    · exact nil
    split
    · exact nil
    revert hA
    cases loginSteps E b memcmp mem a (getHandshakeTimeout s.timeouts) s with
    | ok r t => exact fun x => x
    | err e t => exact fun x => more x (sockClose_idle E t).sent
    | ub => exact fun x => x
    | fuel => exact fun x => x
  have hq := fromNowIO_quiet E (getHandshakeTimeout s.timeouts) s
  unfold loginSteps
  rw [M.bind_def]
  cases hd : fromNowIO E (getHandshakeTimeout s.timeouts) s with
  | ub => trivial
  | fuel => trivial
  | err e t => rw [hd] at hq; exact more nil (QuietStep.sent hq)
  | ok d t =>
    rw [hd] at hq
    have hd' : d ≤ TIME_INF := Login16.fromNowIO_le hd
    dsimp only
    have hOff1 : HbOff t := (Idle.quiet hq).off h0
    rw [M.bind_def]
    cases hh : sendHeaderInner E d t with
    | ub => trivial
    | fuel => trivial
    | err e u => exact absurd hh (sendHeaderInner_not_err E d)
    | ok r u =>
      obtain ⟨l1, k, rfl, hl1, hb1, hk⟩ := sendHeaderInner_eff E d hh
      have hu : ∃ l, Since s (t.ext l1) l ∧ sentBytes l <+: protocolHeaderBytes := by
        obtain ⟨l, h1, h2⟩ := QuietStep.sent hq
        refine ⟨l ++ l1, h1.trans rfl, ?_⟩
        rw [sentBytes_append, h2, hb1]
        exact List.take_prefix _ _
      have hu' : ∃ l, Since s (t.ext l1) l ∧ (sentBytes l <+: protocolHeaderBytes ∨
          ∃ s1 s2 f l1, Received E s1 f s2 ∧ SuitableStart a.sasl f ∧ Since s s2 l1 ∧ l1 <+: l ∧ sentBytes l1 <+: protocolHeaderBytes) := by
        obtain ⟨l, h1, h2⟩ := hu
        exact ⟨l, h1, Or.inl h2⟩
      dsimp only
      by_cases hr : r ≠ St.OK
      · rw [if_pos hr]; exact hu'
      rw [if_neg hr, M.bind_def]
      have hai := awaitStart_idle (E := E) memcmp a.sasl d (s := t.ext l1) hOff1
      cases ha : awaitStart E memcmp a.sasl d (t.ext l1) with
      | ub => trivial
      | fuel => trivial
      | err e v =>
        rw [ha] at hai
        obtain ⟨v', sp, hi, rfl⟩ := hai
        obtain ⟨l, h1, h2⟩ := more hu' hi.sent
        exact ⟨l, h1, h2⟩
      | ok x v =>
        obtain ⟨s1, s2, f, n, sp, a1, a2, a3, rfl⟩ := awaitStart_ok hM ha
        have i2 : Idle (t.ext l1) s2 := (Idle.quiet a1).trans (a2.idle ((Idle.quiet a1).off hOff1))
        obtain ⟨l2, h1, h2⟩ := hu
        obtain ⟨l3, h3, h4⟩ := i2.sent
        have hs2 : Since s s2 (l2 ++ l3) := h1.trans h3
        have hb2 : sentBytes (l2 ++ l3) <+: protocolHeaderBytes := by rw [sentBytes_append, h4]; simpa using h2
        dsimp only
        have C := since_login E s2
        have hI0 : ∃ l, Since s2 { s2 with ps := { s2.ps with allocs := n }, serverProps := sp } l := ⟨[], by simp [Since]⟩
        have hA : Res.All (fun s' => ∃ l, Since s2 s' l) ((do
            sendStartOk E b memcmp a.clientProperties a.sasl d
            releaseBuffers
            let (id, r) ← waitMethodList E 0 [CONNECTION_TUNE, CONNECTION_CLOSE] d
            if id = CONNECTION_CLOSE then pure (.serverException id r)
            else
              match r.get? .channel_max, r.get? .frame_max, r.get? .heartbeat with
              | some (.u16 c), some (.u32 f), some (.u16 h) => do
                tuneOk E mem (negotiate (UInt16.ofNat a.channelMax.toNat) (UInt32.ofNat a.frameMax.toNat)
                  (UInt16.ofNat a.heartbeat.toNat) c f h) d
                releaseBuffers
                openVhost E a.vhost d
              | _, _, _ => M.ub : M Conn (Outcome Unit)) { s2 with ps := { s2.ps with allocs := n }, serverProps := sp }) := by
          refine Res.All.bind (C.sendStartOk b memcmp a.clientProperties a.sasl d hd' hI0) fun _ w hw => ?_
          refine Res.All.bind (C.releaseBuffers hw) fun _ x hx => ?_
          refine Res.All.bind (C.waitMethodList 0 _ d hx) fun p y hy => ?_
          obtain ⟨id, r⟩ := p
          dsimp only
          split
          · exact hy
          · rcases r.get? .channel_max with _ | _ | ⟨c⟩ | _ | _ | _ | _ | _ <;> try trivial
            rcases r.get? .frame_max with _ | _ | _ | ⟨f⟩ | _ | _ | _ | _ <;> try trivial
            rcases r.get? .heartbeat with _ | _ | ⟨hb⟩ | _ | _ | _ | _ | _ <;> try trivial
            refine Res.All.bind (C.tuneOk mem _ d hd' hy) fun _ z hz => ?_
            refine Res.All.bind (C.releaseBuffers hz) fun _ z' hz' => ?_
            exact C.openVhost a.vhost d hz'
        have step : ∀ {w : Conn}, (∃ l, Since s2 w l) → ∃ l, Since s w l ∧ (sentBytes l <+: protocolHeaderBytes ∨
            ∃ s1 s2 f l1, Received E s1 f s2 ∧ SuitableStart a.sasl f ∧ Since s s2 l1 ∧ l1 <+: l ∧ sentBytes l1 <+: protocolHeaderBytes) := by
          rintro w ⟨l, hl⟩
          exact ⟨_, hs2.trans hl, Or.inr ⟨s1, s2, f, _, a2, a3, hs2, List.prefix_append _ _, hb2⟩⟩
        revert hA
        generalize (do
            sendStartOk E b memcmp a.clientProperties a.sasl d
            releaseBuffers
            let (id, r) ← waitMethodList E 0 [CONNECTION_TUNE, CONNECTION_CLOSE] d
            if id = CONNECTION_CLOSE then pure (.serverException id r)
            else
              match r.get? .channel_max, r.get? .frame_max, r.get? .heartbeat with
              | some (.u16 c), some (.u32 f), some (.u16 h) => do
                tuneOk E mem (negotiate (UInt16.ofNat a.channelMax.toNat) (UInt32.ofNat a.frameMax.toNat)
                  (UInt16.ofNat a.heartbeat.toNat) c f h) d
                releaseBuffers
                openVhost E a.vhost d
              | _, _, _ => M.ub : M Conn (Outcome Unit)) { s2 with ps := { s2.ps with allocs := n }, serverProps := sp } = R
        cases R with
        | ok r w => exact step
        | err e w => exact step
        | ub => exact fun x => x
        | fuel => exact fun x => x

/-! ## C37 -/

/-- C37: a mechanism is accepted iff it is a whole space-separated word of the broker's list. -/
theorem C37_mechanism {memcmp : Bytes → Bytes → Int} (hM : MemcmpExact memcmp) (list : Bytes) (m : Sasl) :
    mechanismInList memcmp list m = true ↔ IsWord (cstr m.ianaName) list := mechanismInList_iff hM list m

/-- C37: the response is `NUL user NUL password`, or the identity; there is none (NO_MEMORY) for an empty identity or if memory
is exhausted. -/
theorem C37_response {E : NetEnv} {m : Sasl} {s s' : Conn} {r : Bytes} (h : saslResponse E m s = .ok r s') :
    (∀ user password, m = .plain user password → r = 0 :: user ++ 0 :: password) ∧ (∀ identity, m = .external identity → r = identity) := by
  have := saslResponse_ok h
  subst this
  refine ⟨?_, ?_⟩
  · rintro u p rfl; simp [Sasl.response]
  · rintro i rfl; rfl
theorem C37_response_if {E : NetEnv} {m : Sasl} {s : Conn} (hA : E.pe.alloc s.ps.allocs = true) (hm : ∀ i, m = .external i → i ≠ []) :
    ∃ s', saslResponse E m s = .ok m.response s' := by
  unfold saslResponse
  have hA' : allocOr E s = .ok () { s with ps := { s.ps with allocs := s.ps.allocs + 1 } } := by
    unfold allocOr smallAlloc; dsimp only; rw [hA]
  cases m with
  | plain u p => exact ⟨{ s with ps := { s.ps with allocs := s.ps.allocs + 1 } }, by dsimp only; rw [M.bind_def, hA']; rfl⟩
  | external i =>
    have : ¬ i.length = 0 := fun h => hm i rfl (List.length_eq_zero_iff.1 h)
    exact ⟨{ s with ps := { s.ps with allocs := s.ps.allocs + 1 } }, by dsimp only; rw [if_neg this, M.bind_def, hA']; rfl⟩

/-- C37: and these bytes are what the broker is sent, as the response argument of start-ok, in the login that succeeds. -/
theorem C37_on_the_wire {E : NetEnv} {b : Build} {memcmp : Bytes → Bytes → Int} (hM : MemcmpExact memcmp) {mem : Nat → UInt8} {a : LoginArgs}
    (hf31 : a.frameMax < 2 ^ 31) {s s' : Conn} (h0 : HbOff s) (hO : OutReady s ∧ s.outLen < 2 ^ 32 ∧ 12 ≤ s.outLen)
    (h : login E b memcmp mem a s = .ok (.normal ()) s') :
    ∃ s1 s2 f props, Received E s1 f s2 ∧ SuitableStart a.sasl f ∧ ∃ s3, Sent s2 s3 (startOkFrame props (cstr a.sasl.ianaName) a.sasl.response) := by
  obtain ⟨s1, s2, s3, s4, s5, s6, s7, s8, fs, ft, props, c, f, hb, v, args, a1, a2, a3, a4, _⟩ := login_normal hM hf31 h0 hO h
  exact ⟨s1, s2, fs, props, a2, a3, s3, a4⟩

example : IsWord (cstr "PLAIN") (cstr "AMQPLAIN PLAIN EXTERNAL") ∧ ¬ IsWord (cstr "PLAIN") (cstr "AMQPLAIN EXTERNAL") := by
  refine ⟨⟨by decide +kernel, cstr "AMQPLAIN ", cstr " EXTERNAL", by decide +kernel, Or.inr ⟨cstr "AMQPLAIN", by decide +kernel⟩,
    Or.inr ⟨cstr "EXTERNAL", by decide +kernel⟩⟩, fun h => ?_⟩
  have hM : MemcmpExact (fun l r => if l = r then 0 else 1) := by
    intro l r _
    by_cases h : l = r
    · simp [h]
    · simp [h]
  have := (C37_mechanism hM _ (.plain [] [])).2 h
  exact absurd this (by decide +kernel)

/-! ## C38 -/

/-- C38: a NORMAL reply means that the whole handshake was carried out in order: the protocol header, connection.start, start-ok, tune, tune-ok,
open, open-ok.  Missing: the header may not have been sent at all (see `C57`: an exhausted timeout while nothing of it was sent counts as
success), in which case the broker answered without being asked to. -/
theorem C38_normal_partial {E : NetEnv} {b : Build} {memcmp : Bytes → Bytes → Int} (hM : MemcmpExact memcmp) {mem : Nat → UInt8} {a : LoginArgs}
    (hf31 : a.frameMax < 2 ^ 31) {s s' : Conn} (h0 : HbOff s) (hO : OutReady s ∧ s.outLen < 2 ^ 32 ∧ 12 ≤ s.outLen)
    (h : login E b memcmp mem a s = .ok (.normal ()) s') :
    ∃ s1 s2 s3 s4 s5 s6 s7 s8 start tune props c f hb v1 v2 v3 args,
      (Sent s s1 protocolHeaderBytes ∨ Sent s s1 []) ∧
      Received E s1 start s2 ∧ SuitableStart a.sasl start ∧
      Sent s2 s3 (startOkFrame props (cstr a.sasl.ianaName) a.sasl.response) ∧
      Received E s3 tune s4 ∧ TuneFrame c f hb tune ∧
      Sent s4 s5 (tuneOkFrame v1 v2 v3) ∧ Sent s5 s6 (openFrame a.vhost) ∧ (∃ l, Since s6 s7 l) ∧
      Arrived E s7 ⟨0, .method CONNECTION_OPEN_OK args⟩ s8 ∧ s' = maybeRelease s8 := by
  obtain ⟨s1, s2, s3, s4, s5, s6, s7, s8, fs, ft, props, c, f, hb, v, args, a1, a2, a3, a4, a5, a6, a7, a8, a9, a10, a11, a12, _⟩ :=
    login_normal hM hf31 h0 hO h
  exact ⟨s1, s2, s3, s4, s5, s6, s7, s8, fs, ft, props, c, f, hb, v.1, v.2.1, v.2.2, args, a1, a2, a3, a4, a5, a6, a8, a9, a10, a11, a12⟩

theorem rpcInner_timeout_closes {E : NetEnv} (hT : NoTimeoutSend E) {ch : UInt16} {id : UInt32} {expected : List UInt32} {args : Rec} {d : Nat}
    {s0 s s' : Conn} {l0 : List Ev} (h0 : Since s0 s l0) (hP : PollHonest s0 s') (hC : ∀ l, Since s0 s' l → Ev.close false ∉ l)
    (h : rpcInner E ch id expected args d s = .ok (.libraryException St.TIMEOUT) s') : s'.isOpen = false := by
  unfold rpcInner sendMethod at h
  have hs := (since_closed E s).sendFrame ⟨ch, .method id args⟩ SF_NONE TIME_INF (s := s) ⟨[], since_refl s⟩
  cases h1 : sendFrame E ⟨ch, .method id args⟩ SF_NONE TIME_INF s with
  | ub => rw [h1] at h; cases h
  | fuel => rw [h1] at h; cases h
  | err e u =>
    rw [h1] at h
    injection h with h2 h3
    injection h2 with h2
    subst h2 h3
    obtain ⟨l, dir, h4, h5⟩ := sendFrame_inf hT _ _ h1
    exact absurd (by simp [h5]) (hP (l0 ++ l) (h0.trans h4) dir)
  | ok x u =>
    rw [h1] at h hs
    dsimp only at h
    rcases rpcLoop_timeout ch expected d _ u s' h with h2 | ⟨v, rfl, l, h2⟩
    · exact h2
    · obtain ⟨l1, hl1⟩ := hs
      refine absurd ?_ (hC (l0 ++ (l1 ++ (l ++ [.close false]))) (h0.trans (hl1.trans (h2.trans (show Since v (v.push (.close false)) [.close false] from rfl)))))
      simp

/-- C38, the failures: if login fails with a library error after the parameters were accepted, the socket has been closed.  Missing: the
last step.  If connection.open itself fails (and not by running into the timeout), the socket stays open: `C38_half_open`.  Assumed of
the outside: as in `C31_timeout_closes`. -/
theorem C38_failed_partial {E : NetEnv} (hT : NoTimeoutSend E) {b : Build} {memcmp : Bytes → Bytes → Int} {mem : Nat → UInt8} {a : LoginArgs}
    (h1 : 0 ≤ a.channelMax ∧ a.channelMax ≤ 65535) (h2 : 0 ≤ a.frameMax) (h3 : 0 ≤ a.heartbeat ∧ a.heartbeat ≤ 65535)
    {s s' : Conn} (hP : PollHonest s s') (hC : ∀ l, Since s s' l → Ev.close false ∉ l) {e : Int}
    (h : login E b memcmp mem a s = .ok (.libraryException e) s') :
    s'.isOpen = false ∨
    (e ≠ St.TIMEOUT ∧ ∃ t d, (∃ l, Since s t l) ∧ rpcInner E 0 CONNECTION_OPEN [CONNECTION_OPEN_OK]
      [(.virtual_host, .bytes a.vhost), (.capabilities, .bytes []), (.insist, .bool 1)] d t = .ok (.libraryException e) s') := by
  rcases login_valid h1 h2 h3 h with h4 | ⟨e', t, h4, h5, rfl⟩
  · obtain ⟨d, t0, t1, t2, t3, t4, t5, id, r0, e0, e1, e2, e3, e4, e5, hE⟩ := loginSteps_ok h4
    rcases hE with ⟨_, hh, _⟩ | ⟨_, c, f, hb, t6, t7, g1, g2, g3, e6, e7, e8⟩
    · exact nomatch hh
    have hd : d ≤ TIME_INF := Login16.fromNowIO_le e0
    have C := since_login E s
    have ok : ∀ {α : Type} {r : Res Conn α} {x : α} {u : Conn}, r = .ok x u → r.All (fun s' => ∃ l, Since s s' l) → ∃ l, Since s u l := by
      intro α r x u hr hA; rw [hr] at hA; exact hA
    have k0 : ∃ l, Since s t0 l := by
      have := fromNowIO_quiet E (getHandshakeTimeout s.timeouts) s
      rw [e0] at this
      exact (QuietStep.sent this).since
    have k1 := ok e1 (C.sendHeaderInner d k0)
    have k2 := ok e2 (C.awaitStart memcmp a.sasl d k1)
    have k3 := ok e3 (C.sendStartOk b memcmp a.clientProperties a.sasl d hd k2)
    have k4 := ok e4 (C.releaseBuffers k3)
    have k5 := ok e5 (C.waitMethodList 0 _ d k4)
    have k6 := ok e6 (C.tuneOk mem _ d hd k5)
    have k7 := ok e7 (C.releaseBuffers k6)
    unfold openVhost at e8
    cases hr : rpcInner E 0 CONNECTION_OPEN [CONNECTION_OPEN_OK] [(.virtual_host, .bytes a.vhost), (.capabilities, .bytes []), (.insist, .bool 1)] d t7 with
    | ub => rw [hr] at e8; cases e8
    | fuel => rw [hr] at e8; cases e8
    | err x u => rw [hr] at e8; cases e8
    | ok r u =>
      rw [hr] at e8
      cases r with
      | normal i a => cases e8
      | serverException i a => cases e8
      | libraryException st =>
        cases e8
        by_cases he : e = St.TIMEOUT
        · subst he
          obtain ⟨l, k7⟩ := k7
          exact Or.inl (rpcInner_timeout_closes hT k7 hP hC hr)
        · exact Or.inr ⟨he, t7, d, k7, hr⟩
  · left
    have hS := (since_login E s).loginSteps b memcmp mem a (getHandshakeTimeout s.timeouts) (s := s) ⟨[], since_refl s⟩
    rw [h4] at hS
    obtain ⟨l, hS⟩ := hS
    unfold sockClose at hC ⊢
    by_cases ho : t.isOpen = false
    · rw [if_pos ho]; exact ho
    rw [if_neg ho] at hC ⊢
    by_cases hc : E.close t.time = true
    · rw [if_pos hc]; rfl
    · rw [if_neg hc] at hC
      exact absurd (by simp) (hC (l ++ [.close false]) (hS.trans (show Since t (t.push (.close false)) [.close false] from rfl)))

/-! ## C34 -/

/-- C34: whatever is called after login, the server's properties do not change.  (They are in a pool of their own, which nothing but
destroying the connection, or a new login, touches: the model has no event emptying it.) -/
theorem C34_server_properties_partial {E : NetEnv} {s s' : Conn} (h : Steps (CallP E) s s') : s'.serverProps = s.serverProps :=
  h.inv (P := fun t => t.serverProps = s.serverProps) (fun hc => (field_api E (fun s => s.serverProps) s.serverProps (fun _ _ _ _ _ _ _ _ _ => rfl)).callP hc) rfl

/-- C34 is false of the client's properties: after every successful login (with nothing for channel 0 left in the queue) their memory, in the pool
of channel 0, has been released already when login returns. -/
theorem C34_client_properties_dangle {E : NetEnv} {b : Build} {memcmp : Bytes → Bytes → Int} (hM : MemcmpExact memcmp) {mem : Nat → UInt8} {a : LoginArgs}
    (hf31 : a.frameMax < 2 ^ 31) {s s' : Conn} (h0 : HbOff s) (hO : OutReady s ∧ s.outLen < 2 ^ 32 ∧ 12 ≤ s.outLen)
    (hq : ∀ g ∈ s.queue, g.frame.channel ≠ 0) (h : login E b memcmp mem a s = .ok (.normal ()) s') :
    Ev.recycle 0 ∈ s'.log.drop s'.clientBorn := by
  obtain ⟨s1, s2, s3, s4, s5, s6, s7, s8, fs, ft, props, c, f, hb, v, args, _, _, _, _, _, _, _, _, _, _, _, _, _, _, _, hh, _⟩ :=
    login_normal hM hf31 h0 hO h
  exact hh hq

/-! ## A login that succeeds, and some that do not -/

def loginConn : Conn := { newConn (fun _ => 0) with outMem := List.replicate 600 0, outLen := 600, frameMax := 600, ps := newParser 600 }
def startBytes (mech : String) : Bytes := [1, 0, 0, 0, 0, 0, 28, 0, 10, 0, 10, 0, 9, 0, 0, 0, 0, 0, 0, 0, 5] ++ cstr mech ++
  [0, 0, 0, 5, 101, 110, 95, 85, 83, 206]
def tuneBytes : Bytes := [1, 0, 0, 0, 0, 0, 12, 0, 10, 0, 30, 0, 7, 0, 0, 2, 0, 0, 9, 206]
def openOkBytes : Bytes := [1, 0, 0, 0, 0, 0, 5, 0, 10, 0, 41, 0, 206]
def loginEnv (recv : List (Nat × RecvR)) : NetEnv := { netEnv [] [] recv [] with send := fun _ _ => .sent 100000, clock := fun _ => 1000000000 }
def loginArgs : LoginArgs := ⟨[47], 0, 400, 0, none, .plain [103] [104]⟩
def eqMemcmp (l r : Bytes) : Int := if l = r then 0 else 1
theorem eqMemcmp_exact : MemcmpExact eqMemcmp := by
  intro l r _
  unfold eqMemcmp
  by_cases h : l = r <;> simp [h]
def goodLogin : Res Conn (Outcome Unit) := login (loginEnv [(4, .data (startBytes "PLAIN")), (10, .data tuneBytes), (15, .data openOkBytes)])
  ⟨[49], [50]⟩ eqMemcmp (fun _ => 0) loginArgs loginConn
def Outcome.tag : Outcome Unit → Int
  | .normal _ => 1
  | .serverException _ _ => 2
  | .libraryException e => e

/-- The hypotheses of the theorems above, met by a login answered NORMAL: the values in force are those of the negotiation (the broker asked
for 7, 512, 9; the application for 0, 400, 0); the client's properties dangle. -/
example : HbOff loginConn ∧ (OutReady loginConn ∧ loginConn.outLen < 2 ^ 32 ∧ 12 ≤ loginConn.outLen) ∧ loginConn.queue = [] ∧ loginArgs.frameMax < 2 ^ 31 :=
  ⟨⟨by decide +kernel, by decide +kernel, by decide +kernel⟩, ⟨⟨by decide +kernel, by decide +kernel⟩, by decide +kernel, by decide +kernel⟩, rfl, by decide⟩
example : goodLogin.val?.map Outcome.tag = some 1 ∧ goodLogin.state?.map (fun s => (s.channelMax, s.frameMax, s.heartbeat)) = some (7, 400, 0) ∧
    goodLogin.state?.map (fun s => (s.log.drop s.clientBorn).contains (.recycle 0)) = some true := by
  decide +kernel

/-- A broker not listing PLAIN: the login fails, the socket is closed, only the header was sent. -/
example : let r := login (loginEnv [(4, .data (startBytes "GSAPI"))]) ⟨[49], [50]⟩ eqMemcmp (fun _ => 0) loginArgs loginConn
    r.val?.map Outcome.tag = some St.BROKER_UNSUPPORTED_SASL_METHOD ∧ r.state?.map (fun s => (s.isOpen, sentBytes s.log)) = some (false, protocolHeaderBytes) := by
  decide +kernel

/-- C38 is false of connection.open: here receiving its answer fails, login fails with that error, yet the socket is open and the
application may go on to use it. -/
theorem C38_half_open : let E := loginEnv [(4, .data (startBytes "PLAIN")), (10, .data tuneBytes), (15, .fail 8)]
    let r := login E ⟨[49], [50]⟩ eqMemcmp (fun _ => 0) loginArgs loginConn
    r.val?.map Outcome.tag = some St.SOCKET_ERROR ∧ r.state?.map (·.isOpen) = some true ∧
    (r.state?.bind fun s => (sendFrame E ⟨1, .method 0x0014000A [(.out_of_band, .bytes [])]⟩ 0 TIME_INF s).val?) = some () := by
  decide +kernel

/-! ## C57, with a deadline -/

/-- C57, for the call amqp_login makes, with any deadline and any transport: if OK is reported, either all eight octets of the protocol
header were handed to the transport or none was (the finding `C57_timeout_reported_as_ok`); a header cut short is never reported as OK. -/
theorem C57_never_cut_short {E : NetEnv} {deadline : Nat} {s s' : Conn} (h : sendHeaderInner E deadline s = .ok St.OK s') :
    ∃ l, Since s s' l ∧ (sentBytes l = [65, 77, 81, 80, 0, 0, 9, 1] ∨ sentBytes l = []) := by
  obtain ⟨l, k, rfl, _, hs, hk⟩ := sendHeaderInner_eff E deadline h
  refine ⟨l, rfl, ?_⟩
  rcases hk rfl with rfl | rfl
  · exact Or.inl hs
  · exact Or.inr (by simpa using hs)

/-- Three octets go out, then the deadline passes: the status is not OK (it is 3). -/
example : (sendHeaderInner (netEnv [(2, 5)] [(0, .sent 3), (1, .fail 0x1301)] [] [(3, .timeout)]) 10 (demoConn 64)).val? = some 3 := by
  decide +kernel

end Rmq
