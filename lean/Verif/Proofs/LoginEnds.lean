import Verif.Proofs.EndsCalls
import Verif.Proofs.Fuel
import Verif.Proofs.Login
/-!
# A login ends when the server falls silent
-/
namespace Rmq

variable {E : NetEnv} {K : Nat}

theorem M.bind_assoc' {α β γ : Type} (x : M Conn α) (f : α → M Conn β) (g : β → M Conn γ) : (x >>= f) >>= g = x >>= fun a => f a >>= g := by
  funext s
  rw [M.bind_def, M.bind_def, M.bind_def]
  cases x s <;> rfl

/-- Login up to the server's connection.tune (or connection.close). -/
def loginHead (E : NetEnv) (b : Build) (memcmp : Bytes → Bytes → Int) (a : LoginArgs) (tv : Option TimeVal) : M Conn (Nat × UInt32 × Rec) := do
  let deadline ← fromNowIO E tv
  let r ← sendHeaderInner E deadline
  if r ≠ St.OK then M.fail r
  else do
    awaitStart E memcmp a.sasl deadline
    sendStartOk E b memcmp a.clientProperties a.sasl deadline
    releaseBuffers
    let x ← waitMethodList E 0 [CONNECTION_TUNE, CONNECTION_CLOSE] deadline
    pure (deadline, x)

/-- And from then on. -/
def loginTail (E : NetEnv) (mem : Nat → UInt8) (a : LoginArgs) (x : Nat × UInt32 × Rec) : M Conn (Outcome Unit) :=
  if x.2.1 = CONNECTION_CLOSE then pure (.serverException x.2.1 x.2.2)
  else
    match x.2.2.get? .channel_max, x.2.2.get? .frame_max, x.2.2.get? .heartbeat with
    | some (.u16 c), some (.u32 f), some (.u16 h) => do
      tuneOk E mem (negotiate (UInt16.ofNat a.channelMax.toNat) (UInt32.ofNat a.frameMax.toNat)
        (UInt16.ofNat a.heartbeat.toNat) c f h) x.1
      releaseBuffers
      openVhost E a.vhost x.1
    | _, _, _ => M.ub

theorem loginSteps_split (E : NetEnv) (b : Build) (memcmp : Bytes → Bytes → Int) (mem : Nat → UInt8) (a : LoginArgs) (tv : Option TimeVal) :
    loginSteps E b memcmp mem a tv = loginHead E b memcmp a tv >>= loginTail E mem a := by
  unfold loginSteps loginHead
  rw [M.bind_assoc']
  congr 1; funext d
  rw [M.bind_assoc']
  congr 1; funext r
  by_cases hr : r ≠ St.OK
  · rw [if_pos hr, if_pos hr]; rfl
  rw [if_neg hr, if_neg hr]
  rw [M.bind_assoc']
  congr 1; funext _
  rw [M.bind_assoc']
  congr 1; funext _
  rw [M.bind_assoc']
  congr 1; funext _
  rw [M.bind_assoc']
  rfl

theorem loginHead_ref {m : Nat} (hm : E.fuel ≤ m) (b : Build) (memcmp : Bytes → Bytes → Int) (a : LoginArgs) (tv : Option TimeVal)
    (s : Conn) : Ref (loginHead E b memcmp a tv s) (loginHead (E.upto m) b memcmp a tv s) := by
  unfold loginHead
  refine Ref.bind (x' := fromNowIO (E.upto m) tv) .rfl fun d t => Ref.bind (sendHeaderInner_ref hm d t) fun r u => ?_
  by_cases hr : r ≠ St.OK
  · rw [if_pos hr, if_pos hr]; exact .rfl
  rw [if_neg hr, if_neg hr]
  refine Ref.bind ?_ fun _ t => Ref.bind ?_ fun _ t => Ref.bind .rfl fun _ t => Ref.bind (waitMethodList_ref hm 0 _ d t) fun x t => .rfl
  · unfold awaitStart
    exact Ref.bind (waitMethodList_ref hm 0 _ d u) fun _ t => .rfl
  · unfold sendStartOk sendMethod
    exact Ref.bind .rfl fun _ t => Ref.bind (x' := saslResponse (E.upto m) a.sasl) (by cases a.sasl <;> exact .rfl) fun _ t =>
      Ref.bind .rfl fun _ t => Ref.bind .rfl fun _ t => sendFrame_ref hm _ _ _ t

theorem Alive.props {s : Conn} (h : Alive E K s) (t u : Table) (n : Nat) : Alive E K { s with serverProps := t, clientProps := u, clientBorn := n } := by
  obtain ⟨I, ⟨A, B, hA, hB, rfl⟩, ha, hb⟩ := h
  refine ⟨_, ⟨A, B, hA, hB, rfl⟩, ?_, ?_⟩
  · rcases hA with ⟨_, rfl⟩ | rfl | ⟨K0, h, hW, rfl⟩
    · rfl
    · exact ha
    · exact ⟨ha.on, ha.hb, ha.fin, ha.next⟩
  · rcases hB with ⟨_, rfl⟩ | ⟨c, _, rfl⟩
    · rfl
    · exact hb

theorem awaitStart_alive (memcmp : Bytes → Bytes → Int) (sasl : Sasl) (d : Nat) {s : Conn} (hs : Alive E K s) :
    (awaitStart E memcmp sasl d s).All (Alive E K) := by
  have h := (alive_api E K).toCallClosed
  unfold Rmq.awaitStart
  refine Res.All.bind (h.waitMethodList 0 _ d hs) fun a t ht => ?_
  obtain ⟨_, r⟩ := a
  dsimp only
  rcases r.get? .version_major with _ | ⟨major⟩ | _ | _ | _ | _ | _ | _ <;> try trivial
  rcases r.get? .version_minor with _ | ⟨minor⟩ | _ | _ | _ | _ | _ | _ <;> try trivial
  rcases r.get? .server_properties with _ | _ | _ | _ | _ | _ | ⟨sp⟩ | _ <;> try trivial
  rcases r.get? .mechanisms with _ | _ | _ | _ | _ | ⟨mech⟩ | _ | _ <;> try trivial
  · dsimp only
    by_cases hc : major ≠ 0 ∨ minor ≠ 9
    · rw [if_pos hc]; exact ht
    · rw [if_neg hc]
      refine Res.All.bind (h.withAlloc _ ht) fun tb u hu => ?_
      refine Res.All.bind (show Res.All (Alive E K) (.ok () { u with serverProps := tb.erase }) from hu.props _ _ _) fun _ v hv => ?_
      split
      · exact hv
      · exact hv

theorem sendStartOk_alive (b : Build) (memcmp : Bytes → Bytes → Int) (props : Option PTable) (sasl : Sasl) (d : Nat)
    (hd : d ≤ TIME_INF) {s : Conn} (hs : Alive E K s) : (sendStartOk E b memcmp props sasl d s).All (Alive E K) := by
  have h := (alive_api E K).toCallClosed
  unfold Rmq.sendStartOk
  refine Res.All.bind ?_ fun _ t ht => ?_
  · have := Login16.getPool h 0 hs
    revert this
    obtain ⟨a, ps⟩ := Rmq.getPool E.pe s.ps 0
    cases a <;> exact id
  refine Res.All.bind ?_ fun resp u hu => ?_
  · unfold saslResponse
    cases sasl with
    | plain u p => exact Res.All.bind (h.allocOr ht) fun _ v hv => hv
    | external i =>
      dsimp only
      by_cases h0 : i.length = 0
      · rw [if_pos h0]; exact ht
      · rw [if_neg h0]; exact Res.All.bind (h.allocOr ht) fun _ v hv => hv
  refine Res.All.bind (h.withAlloc _ hu) fun tb v hv => ?_
  refine Res.All.bind (show Res.All (Alive E K) (.ok () { v with clientProps := tb.erase, clientBorn := v.time }) from hv.props _ _ _) fun _ w hw => ?_
  exact h.sendFrame _ _ _ hd hw

theorem awaitStart_dec (H : Stops E K) (memcmp : Bytes → Bytes → Int) (sasl : Sasl) (d : Nat) {s : Conn} (hs : Alive E K s) (hf : s.load K < E.fuel) :
    Dec K (Alive E K) 0 2 (s.load K) (awaitStart E memcmp sasl d s) := by
  refine Dec.and ?_ (awaitStart_alive memcmp sasl d hs)
  unfold awaitStart
  refine Dec.bind (d := 0) ((waitMethodList_dec H 0 _ d hs hf).any.weaken (by omega) (by omega)) (Nat.le_refl 2) fun x t ht _ => ?_
  obtain ⟨i, r⟩ := x
  refine Dec.weaken ((?_ : Calmly _).dec t) (by omega) (by omega)
  dsimp only
  split
  · refine Calmly.ite (.fail _) (Calmly.bind (fun s => ⟨withAlloc_later E _ s, withAlloc_ends E (NF.cloneTable _ _ _) s⟩) fun t =>
      Calmly.bind (Calmly.set fun s => ⟨Nat.le_refl _, rfl, rfl, rfl⟩) fun _ => Calmly.ite (.pure _) (.fail _))
  · exact .ub

theorem sendStartOk_dec (H : Stops E K) (b : Build) (memcmp : Bytes → Bytes → Int) (props : Option PTable) (sasl : Sasl) (d : Nat)
    (hd : d ≤ TIME_INF) {s : Conn} (hs : Alive E K s) (hf : s.load K < E.fuel) :
    Dec K (Alive E K) 0 2 (s.load K) (sendStartOk E b memcmp props sasl d s) := by
  refine Dec.and ?_ (sendStartOk_alive b memcmp props sasl d hd hs)
  refine (?_ : Works E K 0 (sendStartOk E b memcmp props sasl d)) s hf
  unfold sendStartOk
  refine Works.bind (Calmly.works (E := E) (K := K) fun s => ?_) fun _ => Works.bind (saslResponse_calmly E sasl).works fun _ =>
    Works.bind (Calmly.works fun s => ⟨withAlloc_later E _ s, withAlloc_ends E (NF.mergeCapabilities _ _ _ _ _) s⟩) fun _ =>
    Works.bind (Calmly.works (Calmly.set fun s => ⟨Nat.le_refl _, rfl, rfl, rfl⟩)) fun _ s hs => sendFrame_dec H _ _ _ s hs
  unfold getPool
  split
  · rename_i h
    split at h
    · cases h; exact ⟨Later.refl s, fun h => nomatch h⟩
    · split at h
      · cases h; exact ⟨Later.allocs s _ _, fun h => nomatch h⟩
      · cases h
  · rename_i h
    split at h
    · cases h
    · split at h
      · cases h
      · cases h; exact ⟨Later.allocs s _ _, fun h => nomatch h⟩

theorem loginHead_dec (H : Stops E K) (b : Build) (memcmp : Bytes → Bytes → Int) (a : LoginArgs) (tv : Option TimeVal) {s : Conn}
    (hs : Alive E K s) (hf : s.load K < E.fuel) : Dec K (Alive E K) 0 2 (s.load K) (loginHead E b memcmp a tv s) := by
  have hC := alive_closed E K
  unfold loginHead
  rw [M.bind_def]
  have h1 := (Dec.quiet (K := K) (fromNowIO_quiet E tv s) (fromNowIO_ends E tv s)).and (hC.quietAll hs (fromNowIO_quiet E tv s))
  cases hd : fromNowIO E tv s with
  | err e t => rw [hd, Dec.err_iff] at h1; dsimp only; rw [Dec.err_iff]; exact ⟨by omega, h1.2⟩
  | ub => trivial
  | fuel => rw [hd] at h1; exact h1
  | ok d t =>
    rw [hd, Dec.ok_iff] at h1
    have hd' : d ≤ TIME_INF := Login16.fromNowIO_le hd
    dsimp only
    refine Dec.bind (d := 0) (e := 2) ((sendHeaderInner_dec H d h1.2 (by omega)).weaken (by omega) (by omega)) (Nat.le_refl _) fun r u hu hI => ?_
    by_cases hr : r ≠ St.OK
    · rw [if_pos hr]; exact Dec.err_iff.2 ⟨by omega, hI⟩
    rw [if_neg hr]
    refine Dec.bind (d := 0) (e := 2) ((awaitStart_dec H memcmp a.sasl d hI (by omega)).weaken (by omega) (by omega)) (Nat.le_refl _) fun _ v hv hI => ?_
    refine Dec.bind (d := 0) (e := 2) ((sendStartOk_dec H b memcmp a.clientProperties a.sasl d hd' hI (by omega)).weaken (by omega) (by omega)) (Nat.le_refl _)
      fun _ w hw hI => ?_
    refine Dec.bind (d := 0) (e := 2) (((releaseBuffers_calmly.dec w).and ((alive_api E K).releaseBuffers hI)).weaken (by omega) (by omega)) (Nat.le_refl _)
      fun _ x hx hI => ?_
    refine Dec.bind (d := 1) (e := 2) ((waitMethodList_dec H 0 _ d hI (by omega)).weaken (by omega) (by omega)) (Nat.le_refl _) fun p y hy hI => ?_
    exact Dec.ok_iff.2 ⟨by omega, hI⟩

/-! ### From the server's tune on -/

theorem restartSend_set {s t : Conn} (h : restartSend E s = .ok () t) : t.heartbeat = s.heartbeat ∧ (s.heartbeat ≤ 0 → t.nextSend = TIME_INF) := by
  unfold restartSend at h
  by_cases h0 : s.heartbeat ≤ 0
  · rw [sFromNowIO_off E h0] at h
    cases h
    exact ⟨rfl, fun _ => rfl⟩
  · obtain ⟨x, l, e, _⟩ := (show ∃ x l, t = { s.ext l with nextSend := x } ∧ Quiet l by
      have := restartSend_eff E s
      unfold restartSend at this
      rw [h] at this
      exact this)
    subst e
    exact ⟨rfl, fun h => absurd h h0⟩

theorem restartRecv_set {s t : Conn} (h : restartRecv E s = .ok () t) : t.heartbeat = s.heartbeat ∧ t.nextSend = s.nextSend ∧ s.time ≤ t.time ∧
    (s.heartbeat ≤ 0 → t.nextRecv = TIME_INF) ∧
    (0 < s.heartbeat → t.nextRecv ≤ TIME_INF ∧ t.nextRecv ≤ E.clock s.time + 2 * s.heartbeat.toNat * 1000000000) := by
  obtain ⟨x, l, e, _⟩ := (show ∃ x l, t = { s.ext l with nextRecv := x } ∧ Quiet l by
    have := restartRecv_eff E s
    rw [h] at this
    exact this)
  have ht : s.time ≤ t.time := by subst e; show s.time ≤ (s.ext l).time; rw [Conn.time_ext]; omega
  refine ⟨by rw [e]; rfl, by rw [e]; rfl, ht, fun h0 => ?_, fun h0 => ?_⟩
  · unfold restartRecv at h
    rw [sFromNowIO_off E (by omega)] at h
    cases h; rfl
  · unfold restartRecv sFromNowIO at h
    rw [if_neg (by omega)] at h
    dsimp only at h
    by_cases hc : E.clock s.time = 0
    · rw [if_pos hc] at h
      dsimp only at h
      rw [if_neg (by decide)] at h
      cases h
    rw [if_neg hc] at h
    have e1 : (2 * s.heartbeat).toNat = 2 * s.heartbeat.toNat := by omega
    rw [e1] at h
    have h4 := Nat.mod_le (2 * s.heartbeat.toNat * 1000000000) (2 ^ 64)
    have h5 := Nat.mod_le (E.clock s.time + 2 * s.heartbeat.toNat * 1000000000 % 2 ^ 64) (2 ^ 64)
    have h6 : (E.clock s.time + 2 * s.heartbeat.toNat * 1000000000 % 2 ^ 64) % 2 ^ 64 ≤ TIME_INF :=
      Nat.le_sub_one_of_lt (Nat.mod_lt _ (by decide))
    generalize (E.clock s.time + 2 * s.heartbeat.toNat * 1000000000 % 2 ^ 64) % 2 ^ 64 = v at *
    split at h
    · dsimp only at h; rw [if_neg (by decide)] at h; cases h
    · dsimp only at h; rw [if_pos rfl] at h; cases h
      exact ⟨h6, by show v ≤ _; omega⟩

theorem tune_beats {cm fm hb : Int} {mem : Nat → UInt8} {s u : Conn} (h : tune E cm fm hb mem s = .ok () u) : (hb ≤ 0 → HbOff u) ∧
    (0 < hb → u.heartbeat = hb ∧ u.nextRecv ≤ TIME_INF ∧ ∃ k ≤ u.time, u.nextRecv ≤ E.clock k + 2 * hb.toNat * 1000000000) := by
  unfold tune at h
  by_cases hm : s.ps.mode ≠ .idle
  · rw [if_pos hm] at h; cases h
  rw [if_neg hm] at h
  dsimp only at h
  have key : ∀ s0 : Conn, s0.heartbeat = (if 0 > hb then 0 else hb) → (match restartSend E s0 with
      | .err e s => .err e s
      | .ub => .ub
      | .fuel => .fuel
      | .ok () s =>
        match restartRecv E s with
        | .err e s => .err e s
        | .ub => .ub
        | .fuel => .fuel
        | .ok () s =>
          match smallAlloc E { s with outLen := (fm % 2 ^ 64).toNat } with
          | (true, s) => .ok () { s with outMem := (List.range (fm % 2 ^ 64).toNat).map fun i => s.outMem.getD i (mem i) }
          | (false, s) => .err St.NO_MEMORY s : Res Conn Unit) = .ok () u → (hb ≤ 0 → HbOff u) ∧
      (0 < hb → u.heartbeat = hb ∧ u.nextRecv ≤ TIME_INF ∧ ∃ k ≤ u.time, u.nextRecv ≤ E.clock k + 2 * hb.toNat * 1000000000) := by
    intro s0 h0 h
    cases h1 : restartSend E s0 with
    | ub => rw [h1] at h; cases h
    | fuel => rw [h1] at h; cases h
    | err e t => rw [h1] at h; cases h
    | ok x t =>
      rw [h1] at h
      dsimp only at h
      obtain ⟨a1, a2⟩ := restartSend_set h1
      cases h2 : restartRecv E t with
      | ub => rw [h2] at h; cases h
      | fuel => rw [h2] at h; cases h
      | err e t => rw [h2] at h; cases h
      | ok y v =>
        rw [h2] at h
        obtain ⟨b1, b2, b3, b4, b5⟩ := restartRecv_set h2
        dsimp only [smallAlloc] at h
        have hu : u.heartbeat = v.heartbeat ∧ u.nextSend = v.nextSend ∧ u.nextRecv = v.nextRecv ∧ u.time = v.time := by
          revert h
          cases E.pe.alloc _ with
          | false => intro h; cases h
          | true => intro h; cases h; exact ⟨rfl, rfl, rfl, rfl⟩
        obtain ⟨c1, c2, c3, c4⟩ := hu
        refine ⟨fun hh => ?_, fun hh => ?_⟩
        · have e0 : s0.heartbeat ≤ 0 := by rw [h0]; split <;> omega
          exact ⟨by rw [c1, b1, a1]; exact e0, by rw [c2, b2]; exact a2 e0, by rw [c3]; exact b4 (by rw [a1]; exact e0)⟩
        · have e0 : s0.heartbeat = hb := by rw [h0, if_neg (by omega)]
          have b6 := b5 (by rw [a1, e0]; exact hh)
          rw [a1, e0] at b6
          exact ⟨by rw [c1, b1, a1, e0], by rw [c3]; exact b6.1, t.time, by rw [c4]; exact b3, by rw [c3]; exact b6.2⟩
  exact key _ rfl h

/-- After tune-ok frames can carry something. -/
theorem tuneOk_usable {mem : Nat → UInt8} {v : UInt16 × UInt32 × UInt16} {d : Nat} {t u w : Conn} (hf : v.2.1.toNat < 2 ^ 31)
    (h1 : tune E v.1.toNat v.2.1.toNat v.2.2.toNat mem t = .ok () u)
    (h2 : sendMethod E 0 CONNECTION_TUNE_OK [(.channel_max, .u16 v.1), (.frame_max, .u32 v.2.1), (.heartbeat, .u16 v.2.2)] SF_NONE d u = .ok () w) :
    usablePayload w.frameMax ≠ 0 := by
  obtain ⟨c, f, hb⟩ := v
  dsimp only at *
  obtain ⟨hO, hfm⟩ := outReady_tune (by omega) (by omega) h1
  have hw := sendFrame_wrote (E := E) ⟨0, .method CONNECTION_TUNE_OK [(.channel_max, .u16 c), (.frame_max, .u32 f), (.heartbeat, .u16 hb)]⟩ SF_NONE d u
  unfold sendMethod at h2
  rw [h2] at hw
  obtain ⟨enc, mem', l', hfb, _, _, hfm', _⟩ := hw
  rw [← hO.1] at hfb
  have h12 := tuneOk_room _ _ _ _ _ hfb
  have h3 := hO.1
  have h4 := hO.2
  rw [hfm'] 
  unfold usablePayload HEADER_SIZE FOOTER_SIZE
  omega

theorem openVhost_done (H : Stops E K) (v : Bytes) (d : Nat) {s : Conn} (hs : Alive E K s) (hf : s.load K < E.fuel) : openVhost E v d s ≠ .fuel := by
  unfold openVhost
  have h1 := (rpcInner_done H 0 CONNECTION_OPEN [CONNECTION_OPEN_OK]
    [(.virtual_host, .bytes v), (.capabilities, .bytes []), (.insist, .bool 1)] d hs hf).ends
  revert h1
  cases rpcInner E 0 CONNECTION_OPEN [CONNECTION_OPEN_OK]
    [(.virtual_host, .bytes v), (.capabilities, .bytes []), (.insist, .bool 1)] d s with
  | ok r t => cases r <;> exact fun _ h => nomatch h
  | err e t => exact fun _ h => nomatch h
  | ub => exact fun _ h => nomatch h
  | fuel => exact fun h => absurd rfl h

theorem tail_dec (H : Stops E K) (v : Bytes) (d : Nat) {s : Conn} (f : AFrame) (hf : s.load K < E.fuel)
    (hA : ∀ t, sendFrame E f SF_NONE d s = .ok () t → Alive E K t) :
    ((do sendFrame E f SF_NONE d; releaseBuffers; openVhost E v d : M Conn (Outcome Unit)) s) ≠ .fuel := by
  have h1 := sendFrame_dec H f SF_NONE d s hf
  rw [M.bind_def]
  cases hs : sendFrame E f SF_NONE d s with
  | err e t => exact fun h => nomatch h
  | ub => exact fun h => nomatch h
  | fuel => rw [hs] at h1; exact absurd h1 id
  | ok x t =>
    rw [hs, Dec.ok_iff] at h1
    have hI := hA t hs
    dsimp only
    rw [M.bind_def]
    have h2 := (releaseBuffers_calmly.dec (K := K) t).and ((alive_api E K).releaseBuffers hI)
    cases hr : releaseBuffers t with
    | err e t => exact fun h => nomatch h
    | ub => exact fun h => nomatch h
    | fuel => rw [hr] at h2; exact absurd h2 id
    | ok y u =>
      rw [hr, Dec.ok_iff] at h2
      exact openVhost_done H v d h2.2 (by omega)

theorem SilentFrom.upto {K0 : Nat} (h : SilentFrom E K0) (hK : K0 ≤ K) (n : Nat) : SilentFrom (E.upto n) K :=
  ⟨fun t m ht => h.recv t m (by omega), fun t b ht => h.send t b (by omega), fun t ht => h.poll t (by omega)⟩

theorem loginTail_ends {K0 h : Nat} (hS : SilentFrom E K0) (mem : Nat → UInt8) (a : LoginArgs) (hfm : a.frameMax < 2 ^ 31) (h0 : 0 ≤ a.heartbeat)
    (hh : a.heartbeat ≤ h) (hT : a.heartbeat = 0 ∨ ∀ k, ∃ K, TimePasses E k K h) (x : Nat × UInt32 × Rec) (t : Conn) :
    ∃ N, ∀ n ≥ N, loginTail (E.upto n) mem a x t ≠ .fuel := by
  obtain ⟨d, i, r⟩ := x
  unfold loginTail
  dsimp only
  by_cases hi : i = CONNECTION_CLOSE
  · exact ⟨0, fun n _ => by rw [if_pos hi]; exact fun h => nomatch h⟩
  have ub : ∃ N : Nat, ∀ n ≥ N, (M.ub : M Conn (Outcome Unit)) t ≠ .fuel := ⟨0, fun n _ => fun h => nomatch h⟩
  simp only [if_neg hi]
  have key : ∀ (c : UInt16) (f : UInt32) (hb : UInt16), ∃ N, ∀ n ≥ N, ((do
      tuneOk (E.upto n) mem (negotiate (UInt16.ofNat a.channelMax.toNat) (UInt32.ofNat a.frameMax.toNat)
        (UInt16.ofNat a.heartbeat.toNat) c f hb) d
      releaseBuffers
      openVhost (E.upto n) a.vhost d : M Conn (Outcome Unit)) t) ≠ .fuel := by
    intro c f hb
    have hv1 : (negotiate (UInt16.ofNat a.channelMax.toNat) (UInt32.ofNat a.frameMax.toNat)
        (UInt16.ofNat a.heartbeat.toNat) c f hb).2.1.toNat < 2 ^ 31 := by
      have h1 : (UInt32.ofNat a.frameMax.toNat).toNat ≤ a.frameMax.toNat := by
        rw [UInt32.toNat_ofNat']; exact Nat.mod_le _ _
      unfold negotiate
      dsimp only
      split
      · next h => have := UInt32.lt_iff_toNat_lt.1 h.2; omega
      · omega
    have hv2 : (negotiate (UInt16.ofNat a.channelMax.toNat) (UInt32.ofNat a.frameMax.toNat)
        (UInt16.ofNat a.heartbeat.toNat) c f hb).2.2.toNat ≤ a.heartbeat.toNat := by
      have h1 : (UInt16.ofNat a.heartbeat.toNat).toNat ≤ a.heartbeat.toNat := by
        rw [UInt16.toNat_ofNat']; exact Nat.mod_le _ _
      unfold negotiate
      dsimp only
      split
      · next h => have := UInt16.lt_iff_toNat_lt.1 h.2; omega
      · omega
    generalize negotiate (UInt16.ofNat a.channelMax.toNat) (UInt32.ofNat a.frameMax.toNat)
        (UInt16.ofNat a.heartbeat.toNat) c f hb = v at hv1 hv2
    cases ht : tune E v.1.toNat v.2.1.toNat v.2.2.toNat mem t with
    | err e u =>
      refine ⟨0, fun n _ => ?_⟩
      have ht' : tune (E.upto n) v.1.toNat v.2.1.toNat v.2.2.toNat mem t = .err e u := ht
      unfold tuneOk
      rw [M.bind_def, M.bind_def, ht']
      exact fun h => nomatch h
    | ub =>
      refine ⟨0, fun n _ => ?_⟩
      have ht' : tune (E.upto n) v.1.toNat v.2.1.toNat v.2.2.toNat mem t = .ub := ht
      unfold tuneOk
      rw [M.bind_def, M.bind_def, ht']
      exact fun h => nomatch h
    | fuel => exact absurd ht (tune_calmly E _ _ _ _ t).2
    | ok x u =>
      obtain ⟨b1, b2⟩ := tune_beats ht
      have fin : ∀ K, K0 ≤ K → (∀ n w, sendFrame (E.upto n) ⟨0, .method CONNECTION_TUNE_OK
            [(.channel_max, .u16 v.1), (.frame_max, .u32 v.2.1), (.heartbeat, .u16 v.2.2)]⟩ SF_NONE d u = .ok () w → Alive (E.upto n) K w) →
          ∃ N, ∀ n ≥ N, ((do tuneOk (E.upto n) mem v d; releaseBuffers; openVhost (E.upto n) a.vhost d : M Conn (Outcome Unit)) t) ≠ .fuel := by
        intro K hK hA
        refine ⟨u.load K + 1, fun n hn => ?_⟩
        have ht' : tune (E.upto n) v.1.toNat v.2.1.toNat v.2.2.toNat mem t = .ok () u := ht
        have h1 := tail_dec (hS.upto hK n).stops a.vhost d ⟨0, .method CONNECTION_TUNE_OK
            [(.channel_max, .u16 v.1), (.frame_max, .u32 v.2.1), (.heartbeat, .u16 v.2.2)]⟩ (s := u) (show u.load K < n by omega) (hA n)
        unfold tuneOk
        rw [M.bind_assoc', M.bind_def, ht']
        exact h1
      by_cases hb0 : v.2.2.toNat = 0
      · refine fin K0 (Nat.le_refl _) fun n w hw => ?_
        have := (off_closed (E.upto n)).sendFrame ⟨0, .method CONNECTION_TUNE_OK
            [(.channel_max, .u16 v.1), (.frame_max, .u32 v.2.1), (.heartbeat, .u16 v.2.2)]⟩ SF_NONE d (b1 (by omega))
        rw [hw] at this
        exact .off this (tuneOk_usable (E := E.upto n) hv1 ht hw)
      · have q0 : 0 < (v.2.2.toNat : Int) := by omega
        have q1 : (v.2.2.toNat : Int) ≤ h := by omega
        have q2 : 2 * (v.2.2.toNat : Int).toNat ≤ 2 * h := by omega
        obtain ⟨e1, e2, k, hk, e3⟩ := b2 q0
        rcases hT with hT | hT
        · omega
        obtain ⟨K, hK⟩ := hT (max K0 u.time)
        have m1 := Nat.le_max_left K0 u.time
        have m2 := Nat.le_max_right K0 u.time
        have m3 := Nat.le_max_left K0 K
        have m4 := Nat.le_max_right K0 K
        refine fin (max K0 K) m3 fun n w hw => ?_
        have hM : Mute (E.upto n) (max K0 u.time) (max K0 K) h :=
          ⟨fun t m ht => hS.recv t m (by omega), fun x y hx hy hc => hK x y hx (by omega) hc⟩
        have hW : Watched (E.upto n) (max K0 K) h u := by
          refine ⟨by rw [e1]; exact q0, by rw [e1]; exact q1, e2, fun y hy hc => ?_⟩
          have h1 : E.clock k + 2 * h * 1000000000 < E.clock y := hK k y (by omega) (by omega) hc
          have h2 : 2 * (v.2.2.toNat : Int).toNat * 1000000000 ≤ 2 * h * 1000000000 := Nat.mul_le_mul_right _ q2
          exact Nat.lt_of_le_of_lt (Nat.le_trans e3 (Nat.add_le_add_left h2 _)) h1
        have := (watched_closed hM).sendFrame ⟨0, .method CONNECTION_TUNE_OK
            [(.channel_max, .u16 v.1), (.frame_max, .u32 v.2.1), (.heartbeat, .u16 v.2.2)]⟩ SF_NONE d hW
        rw [hw] at this
        exact .watched hM this (tuneOk_usable (E := E.upto n) hv1 ht hw)
  rcases r.get? .channel_max with _ | _ | ⟨c⟩ | _ | _ | _ | _ | _ <;> try exact ub
  rcases r.get? .frame_max with _ | _ | _ | ⟨f⟩ | _ | _ | _ | _ <;> try exact ub
  rcases r.get? .heartbeat with _ | _ | ⟨hb⟩ | _ | _ | _ | _ | _ <;> try exact ub
  exact key c f hb

theorem login_silent {K0 h : Nat} (hS : SilentFrom E K0) (b : Build) (memcmp : Bytes → Bytes → Int) (mem : Nat → UInt8) (a : LoginArgs)
    (hfm : a.frameMax < 2 ^ 31) (hh : a.heartbeat ≤ h) (hT : a.heartbeat = 0 ∨ ∀ k, ∃ K, TimePasses E k K h) (s : Conn) (hs : HbOff s)
    (hr : usablePayload s.frameMax ≠ 0) : ∃ N, ∀ n ≥ N, login (E.upto n) b memcmp mem a s ≠ .fuel := by
  unfold login loginInner
  by_cases c1 : a.channelMax < 0 ∨ a.channelMax > 65535
  · exact ⟨0, fun n _ => by rw [if_pos c1]; exact fun h => nomatch h⟩
  by_cases c2 : a.frameMax < 0
  · exact ⟨0, fun n _ => by rw [if_neg c1, if_pos c2]; exact fun h => nomatch h⟩
  by_cases c3 : a.heartbeat < 0 ∨ a.heartbeat > 65535
  · exact ⟨0, fun n _ => by rw [if_neg c1, if_neg c2, if_pos c3]; exact fun h => nomatch h⟩
  simp only [if_neg c1, if_neg c2, if_neg c3]
  have fin : ∀ r : Res Conn (Outcome Unit), r ≠ .fuel → (match r with
      | .ok r s => .ok r s
      | .err e s => .ok (.libraryException e) (sockClose E s).2
      | .ub => .ub
      | .fuel => .fuel : Res Conn (Outcome Unit)) ≠ .fuel := by
    intro r hr
    cases r with
    | fuel => exact absurd rfl hr
    | _ => exact fun h => nomatch h
  suffices H : ∃ N, ∀ n ≥ N, loginSteps (E.upto n) b memcmp mem a (getHandshakeTimeout s.timeouts) s ≠ .fuel by
    obtain ⟨N, hN⟩ := H
    exact ⟨N, fun n hn => fin _ (hN n hn)⟩
  have h1 : ∀ n, s.load K0 < n → loginHead (E.upto n) b memcmp a (getHandshakeTimeout s.timeouts) s ≠ .fuel := fun n hn =>
    (loginHead_dec (hS.upto (Nat.le_refl _) n).stops b memcmp a _ (.off hs hr) hn).ends
  have h2 : ∀ n ≥ s.load K0 + 1, loginHead (E.upto n) b memcmp a (getHandshakeTimeout s.timeouts) s =
      loginHead (E.upto (s.load K0 + 1)) b memcmp a (getHandshakeTimeout s.timeouts) s := fun n hn =>
    (loginHead_ref (E := E.upto (s.load K0 + 1)) (m := n) hn b memcmp a _ s).resolve_left (h1 _ (by omega))
  cases hh1 : loginHead (E.upto (s.load K0 + 1)) b memcmp a (getHandshakeTimeout s.timeouts) s with
  | fuel => exact absurd hh1 (h1 _ (by omega))
  | err e t => exact ⟨s.load K0 + 1, fun n hn => by rw [loginSteps_split, M.bind_def, h2 n hn, hh1]; exact fun h => nomatch h⟩
  | ub => exact ⟨s.load K0 + 1, fun n hn => by rw [loginSteps_split, M.bind_def, h2 n hn, hh1]; exact fun h => nomatch h⟩
  | ok x t =>
    obtain ⟨N, hN⟩ := loginTail_ends hS mem a hfm (by omega) hh hT x t
    refine ⟨max N (s.load K0 + 1), fun n hn => ?_⟩
    have m1 := Nat.le_max_left N (s.load K0 + 1)
    have m2 := Nat.le_max_right N (s.load K0 + 1)
    rw [loginSteps_split, M.bind_def, h2 n (by omega), hh1]
    exact hN n (by omega)

end Rmq
