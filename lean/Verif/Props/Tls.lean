import Verif.Proofs.Tls
/-!
# The TLS socket: C50, C51, C52
-/
namespace Rmq
open OsSpec TlsSpec

/-! ## C50 -/

/-- C50: opening a TLS socket does exactly the calls of `TlsOpens` (Spec/Tls.lean) and leaves the descriptor and the session it says. -/
theorem C50_open (O : Os) (s : TlsSock) (host : Bytes) (port : Int) (tv : Option TimeVal) (l0 l1 : OsLog) (r : Int) (s' : TlsSock)
    (hs : s.fd = -1) (h : tlsOpen O s host port tv l0 = .ok (r, s') l1) :
    ∃ l fd ssl, l1 = l0 ++ l ∧ s' = { s with fd := fd, ssl := ssl } ∧ TlsOpens s.verifyPeer s.verifyHost host port tv l r fd ssl := by
  obtain ⟨l, e, fd, ssl, h1, h2⟩ := tlsOpen_post O s host port tv hs _ _ _ h
  exact ⟨l, fd, ssl, e, h1, h2⟩

/-- C50: if opening succeeds, a session was created, attached to the connected descriptor and told the host name, its handshake completed, and
after that — with peer verification on — the peer had a certificate whose chain OpenSSL verified (result X509_V_OK = 0), and — with host name
verification on — the peer's certificate matches the host name given (X509_check_host = 1). -/
theorem C50_verified (O : Os) (s s' : TlsSock) (host : Bytes) (port : Int) (tv : Option TimeVal) (l0 l1 : OsLog)
    (h : tlsOpen O s host port tv l0 = .ok (St.OK, s') l1) :
    ∃ (pre post : List Sys) (ssl fd : Nat), l1 = l0 ++ (pre ++ .sslConnect ssl .done :: post) ∧
      s'.fd = fd ∧ s'.ssl = some ssl ∧ .sslNew (some ssl) ∈ pre ∧ .bioNew ssl fd true ∈ pre ∧ .sni ssl host true ∈ pre ∧
      (s.verifyPeer = true → ∃ c, .peerCert ssl (some c) ∈ post ∧ .verifyResult ssl 0 ∈ post) ∧
      (s.verifyHost = true → ∃ c, .peerCert ssl (some c) ∈ post ∧ .checkHost c host 1 ∈ post) := by
  by_cases hs : s.fd = -1
  · obtain ⟨l, fd, ssl, rfl, rfl, ho⟩ := C50_open O s host port tv l0 l1 _ s' hs h
    clear h
    generalize hr : St.OK = r at ho
    cases ho with
    | noSession => cases hr
    | noDeadline hd => have := Deadline.neg hd; rw [← hr] at this; exact absurd this (by decide)
    | noConnection _ hm hneg => exact absurd hr.symm (Opens.neg hm hneg)
    | failed _ _ _ hne => exact absurd hr.symm hne
    | @opened h l dl m k fd hd hm hk =>
      generalize hr2 : St.OK = r2 at hk
      cases hk with
      | noBio => cases hr2
      | noSni => cases hr2
      | noHandshake _ hne => exact absurd hr2.symm hne
      | @checked l2 m2 _ hh hv =>
        obtain ⟨l', rfl⟩ := Handshake.ends hh rfl
        refine ⟨.sslNew (some h) :: (l ++ (m ++ (.bioNew h fd true :: .sni h host true :: l'))), m2, h, fd, by simp, rfl, rfl, by simp, by simp,
          by simp, ?_, ?_⟩
        · intro hp
          rw [hp] at hv
          cases hv with
          | noCertPeer => cases hr2
          | badChain => cases hr2
          | noCertName h' => cases h'
          | badName => cases hr2
          | @good c => exact ⟨c, by simp, by simp⟩
          | unchecked h' => cases h'
        · intro hp
          rw [hp] at hv
          cases hv with
          | noCertPeer => cases hr2
          | badChain => cases hr2
          | noCertName => cases hr2
          | badName => cases hr2
          | @good c => exact ⟨c, by simp, by simp⟩
          | unchecked _ h' => cases h'
  · unfold tlsOpen at h
    rw [if_pos (Ne.symm hs)] at h
    cases h

/-- C50: failing a verification returns the matching error — a missing certificate or a bad chain AMQP_STATUS_SSL_PEER_VERIFY_FAILED (when the
peer is to be verified), a missing certificate or a wrong name AMQP_STATUS_SSL_HOSTNAME_VERIFY_FAILED — and leaves the socket closed without
a session. -/
theorem C50_matching_error (O : Os) (s s' : TlsSock) (host : Bytes) (port : Int) (tv : Option TimeVal) (l0 l : OsLog) (r : Int)
    (hs : s.fd = -1) (h : tlsOpen O s host port tv l0 = .ok (r, s') (l0 ++ l)) :
    (∀ k, s.verifyPeer = true → .peerCert k none ∈ l → r = St.SSL_PEER_VERIFY_FAILED ∧ s'.fd = -1 ∧ s'.ssl = none) ∧
    (∀ k v, v ≠ 0 → .verifyResult k v ∈ l → r = St.SSL_PEER_VERIFY_FAILED ∧ s'.fd = -1 ∧ s'.ssl = none) ∧
    (∀ k, s.verifyPeer = false → s.verifyHost = true → .peerCert k none ∈ l →
      r = St.SSL_HOSTNAME_VERIFY_FAILED ∧ s'.fd = -1 ∧ s'.ssl = none) ∧
    (∀ c n v, v ≠ 1 → .checkHost c n v ∈ l → n = host ∧ r = St.SSL_HOSTNAME_VERIFY_FAILED ∧ s'.fd = -1 ∧ s'.ssl = none) := by
  obtain ⟨l', fd, ssl, e, rfl, ho⟩ := C50_open O s host port tv l0 _ _ s' hs h
  have e := List.append_cancel_left e
  subst e
  clear h
  -- if no question about the certificate was asked, there is nothing to show
  have triv : (∀ e ∈ l, e.isCheck = false) →
    (∀ k, s.verifyPeer = true → .peerCert k none ∈ l → r = St.SSL_PEER_VERIFY_FAILED ∧ fd = -1 ∧ ssl = none) ∧
    (∀ k v, v ≠ 0 → .verifyResult k v ∈ l → r = St.SSL_PEER_VERIFY_FAILED ∧ fd = -1 ∧ ssl = none) ∧
    (∀ k, s.verifyPeer = false → s.verifyHost = true → .peerCert k none ∈ l → r = St.SSL_HOSTNAME_VERIFY_FAILED ∧ fd = -1 ∧ ssl = none) ∧
    (∀ c n v, v ≠ 1 → .checkHost c n v ∈ l → n = host ∧ r = St.SSL_HOSTNAME_VERIFY_FAILED ∧ fd = -1 ∧ ssl = none) := fun h =>
    ⟨fun k _ hm => absurd (h _ hm) (by simp [Sys.isCheck]), fun k v _ hm => absurd (h _ hm) (by simp [Sys.isCheck]),
     fun k _ _ hm => absurd (h _ hm) (by simp [Sys.isCheck]), fun c n v _ hm => absurd (h _ hm) (by simp [Sys.isCheck])⟩
  -- events of the connection part
  have sess : ∀ {ssl' fd' : Nat} {dl : Nat} {k : List Sys} {r' : Int}, Session s.verifyPeer s.verifyHost ssl' fd' host dl k r' →
    (∀ e ∈ k, e.isCheck = false) ∨ ∃ p m, k = p ++ m ∧ (∀ e ∈ p, e.isCheck = false) ∧ Verified s.verifyPeer s.verifyHost ssl' host m r' := by
    intro ssl' fd' dl k r' hk
    cases hk with
    | noBio => left; simp [Sys.isCheck]
    | noSni => left; simp [Sys.isCheck]
    | noHandshake hh _ =>
      left; intro e he
      simp only [List.mem_cons] at he
      rcases he with rfl | rfl | he
      · rfl
      · rfl
      · exact Handshake.noCheck hh e he
    | @checked l2 m2 _ hh hv =>
      refine Or.inr ⟨.bioNew ssl' fd' true :: .sni ssl' host true :: l2, m2, by simp, fun e he => ?_, hv⟩
      simp only [List.mem_cons] at he
      rcases he with rfl | rfl | he
      · rfl
      · rfl
      · exact Handshake.noCheck hh e he
  cases ho with
  | noSession => exact triv (by simp [Sys.isCheck])
  | noDeadline hd =>
    refine triv fun e he => ?_
    rcases List.mem_cons.1 he with rfl | he
    · rfl
    · exact Sys.isCheck_net (Deadline.net hd e he)
  | noConnection hd hm _ =>
    refine triv fun e he => ?_
    simp only [List.mem_cons, List.mem_append, List.not_mem_nil, or_false] at he
    rcases he with rfl | he | he | rfl
    · rfl
    · exact Sys.isCheck_net (Deadline.net hd e he)
    · exact Sys.isCheck_net (Opens.net hm e he)
    · rfl
  | @failed h l dl m k _ ok fd hd hm hk hne =>
    have pre : ∀ {e}, e.isCheck = true → e ∈ Sys.sslNew (some h) :: (l ++ (m ++ (k ++ [.close fd ok, .sslFree h]))) → e ∈ k := by
      intro e hc he
      simp only [List.mem_cons, List.mem_append, List.not_mem_nil, or_false] at he
      rcases he with rfl | he | he | he | rfl | rfl
      · cases hc
      · rw [Sys.isCheck_net (Deadline.net hd e he)] at hc; cases hc
      · rw [Sys.isCheck_net (Opens.net hm e he)] at hc; cases hc
      · exact he
      · cases hc
      · cases hc
    rcases sess hk with hk | ⟨p, m2, rfl, hp, hv⟩
    · refine triv fun e he => ?_
      cases hc : e.isCheck
      · rfl
      · have := hk e (pre hc he); rw [hc] at this; cases this
    · have pre2 : ∀ {e}, e.isCheck = true → e ∈ Sys.sslNew (some h) :: (l ++ (m ++ (p ++ m2 ++ [.close fd ok, .sslFree h]))) → e ∈ m2 := by
        intro e hc he
        rcases List.mem_append.1 (pre hc he) with he | he
        · have := hp e he; rw [hc] at this; cases this
        · exact he
      refine ⟨fun j hvp hj => ?_, fun j v hv' hj => ?_, fun j hvp hvh hj => ?_, fun c n v hv' hj => ?_⟩
      · have hj := pre2 rfl hj
        cases hv with
        | noCertPeer => exact ⟨rfl, rfl, rfl⟩
        | badChain => simp at hj
        | noCertName h => rw [h] at hvp; cases hvp
        | badName => rw [hvp] at hj; simp at hj
        | good => exact absurd rfl hne
        | unchecked => exact absurd rfl hne
      · have hj := pre2 rfl hj
        cases hv with
        | noCertPeer => simp at hj
        | badChain => exact ⟨rfl, rfl, rfl⟩
        | noCertName => simp at hj
        | badName =>
          cases hb : s.verifyPeer <;> rw [hb] at hj <;> simp at hj
          exact absurd hj.2 hv'
        | good => exact absurd rfl hne
        | unchecked => exact absurd rfl hne
      · have hj := pre2 rfl hj
        cases hv with
        | noCertPeer h => rw [hvp] at h; cases h
        | badChain => simp at hj
        | noCertName => exact ⟨rfl, rfl, rfl⟩
        | badName => exact ⟨rfl, rfl, rfl⟩
        | good => exact absurd rfl hne
        | unchecked => exact absurd rfl hne
      · have hj := pre2 rfl hj
        cases hv with
        | noCertPeer => simp at hj
        | badChain => simp at hj
        | noCertName => simp at hj
        | badName =>
          refine ⟨?_, rfl, rfl, rfl⟩
          cases hb : s.verifyPeer <;> rw [hb] at hj <;> simp at hj <;> exact hj.2.1
        | good => exact absurd rfl hne
        | unchecked => exact absurd rfl hne
  | @opened h l dl m k fd hd hm hk =>
    have pre : ∀ {e}, e.isCheck = true → e ∈ Sys.sslNew (some h) :: (l ++ (m ++ k)) → e ∈ k := by
      intro e hc he
      simp only [List.mem_cons, List.mem_append] at he
      rcases he with rfl | he | he | he
      · cases hc
      · rw [Sys.isCheck_net (Deadline.net hd e he)] at hc; cases hc
      · rw [Sys.isCheck_net (Opens.net hm e he)] at hc; cases hc
      · exact he
    rcases sess hk with hk | ⟨p, m2, rfl, hp, hv⟩
    · refine triv fun e he => ?_
      cases hc : e.isCheck
      · rfl
      · have := hk e (pre hc he); rw [hc] at this; cases this
    · have pre2 : ∀ {e}, e.isCheck = true → e ∈ Sys.sslNew (some h) :: (l ++ (m ++ (p ++ m2))) → e ∈ m2 := by
        intro e hc he
        rcases List.mem_append.1 (pre hc he) with he | he
        · have := hp e he; rw [hc] at this; cases this
        · exact he
      obtain ⟨g1, g2, g3⟩ := Verified.ok hv rfl
      exact ⟨fun j hvp hj => absurd (pre2 rfl hj) (g1 j (Or.inl hvp)), fun j v hv' hj => absurd (g2 j v (pre2 rfl hj)) hv',
        fun j _ hvh hj => absurd (pre2 rfl hj) (g1 j (Or.inr hvh)), fun c n v hv' hj => absurd (g3 c n v (pre2 rfl hj)) hv'⟩

/-- C50: a failed open leaves the socket closed: every descriptor it opened is closed again, and the session it created is freed — except
when the deadline could not be computed (a negative timeout, or no clock): then the session stays allocated.  (The resolver never answers
with an empty list.) -/
theorem C50_failure_closes_partial (O : Os) (s s' : TlsSock) (host : Bytes) (port : Int) (tv : Option TimeVal) (l0 l : OsLog) (r : Int)
    (hs : s.fd = -1) (hO : Sys.resolve host port (some []) ∉ l) (h : tlsOpen O s host port tv l0 = .ok (r, s') (l0 ++ l)) (hr : r ≠ St.OK) :
    s'.fd = -1 ∧ (∀ f, held f l = 0) ∧
    ((s'.ssl = none ∧ ∀ k, sessions k l = 0) ∨
     (∃ k m, l = .sslNew (some k) :: m ∧ Deadline tv m (.error r) ∧ s'.ssl = some k)) := by
  obtain ⟨l', fd, ssl, e, rfl, ho⟩ := C50_open O s host port tv l0 _ _ s' hs h
  have e := List.append_cancel_left e
  subst e
  obtain ⟨b1, b2⟩ := TlsOpens.balance ho hO
  have hfd : fd = -1 := by cases ho <;> first | rfl | exact absurd rfl hr
  refine ⟨hfd, fun f => by rw [b1, if_neg (by omega)], ?_⟩
  cases ho with
  | noSession => exact Or.inl ⟨rfl, fun k => by rw [b2]; rfl⟩
  | noDeadline hd => exact Or.inr ⟨_, _, rfl, hd, rfl⟩
  | noConnection => exact Or.inl ⟨rfl, fun k => by rw [b2]; rfl⟩
  | failed => exact Or.inl ⟨rfl, fun k => by rw [b2]; rfl⟩
  | opened => exact absurd rfl hr

/-- C50: a successful open holds exactly one new descriptor and one new session. -/
theorem C50_success_holds (O : Os) (s s' : TlsSock) (host : Bytes) (port : Int) (tv : Option TimeVal) (l0 l : OsLog)
    (hs : s.fd = -1) (hO : Sys.resolve host port (some []) ∉ l) (h : tlsOpen O s host port tv l0 = .ok (St.OK, s') (l0 ++ l)) :
    (∀ f : Nat, held f l = if s'.fd = f then 1 else 0) ∧ (∀ k, sessions k l = if s'.ssl = some k then 1 else 0) := by
  obtain ⟨l', fd, ssl, e, rfl, ho⟩ := C50_open O s host port tv l0 _ _ s' hs h
  have e := List.append_cancel_left e
  subst e
  exact TlsOpens.balance ho hO

/-- C50: a new TLS socket verifies both the peer and the host name, until told otherwise. -/
theorem C50_defaults : newTlsSock.verifyPeer = true ∧ newTlsSock.verifyHost = true ∧ newTlsSock.fd = -1 ∧ newTlsSock.ssl = none :=
  ⟨rfl, rfl, rfl, rfl⟩

/-- An operating system and an OpenSSL where everything works: descriptor 7, session 1, certificate 2. -/
def goodOs : Os where
  clock := fun _ => 1000
  addrs := fun _ => some [[127, 0, 0, 1]]
  newFd := fun _ => some 7
  optOk := fun _ => true
  connect := fun _ => .inProgress
  poll := fun _ => .ready
  soError := fun _ => some 0
  closeOk := fun _ => true
  send := fun _ => .sent 1
  recv := fun _ => .data [1]
  sslNew := fun _ => some 1
  bioNew := fun _ => true
  sni := fun _ => true
  hs := fun i => if i < 14 then .wantRead else .done
  peerCert := fun _ => some 2
  verifyResult := fun _ => 0
  checkHost := fun _ => 1
  tlsSend := fun _ => .sent 1
  tlsRecv := fun _ => .data [1]
  fuel := 5

example : (tlsOpen goodOs newTlsSock [104] 5671 (some ⟨5, 0⟩) []).val? = some (St.OK, ⟨7, some 1, true, true⟩) := by decide +kernel
/-- a wrong name: closed, matching error -/
example : (tlsOpen { goodOs with checkHost := fun _ => 0 } newTlsSock [104] 5671 none []).val? =
    some (St.SSL_HOSTNAME_VERIFY_FAILED, ⟨-1, none, true, true⟩) := by decide +kernel
/-- a bad chain: closed, matching error -/
example : (tlsOpen { goodOs with verifyResult := fun _ => 20 } newTlsSock [104] 5671 none []).val? =
    some (St.SSL_PEER_VERIFY_FAILED, ⟨-1, none, true, true⟩) := by decide +kernel

/-- C50 (limit): opening with a negative timeout, twice, loses the first session: it is never freed. -/
theorem C50_session_leak :
    let O := { goodOs with sslNew := fun i => some i, hs := fun _ => .done }
    let r := tlsRun O [.open [104] 5671 (some ⟨-1, 0⟩), .open [104] 5671 none, .close false] newTlsSock []
    r.val? = some ([(St.INVALID_PARAMETER, []), (St.OK, []), (St.OK, [])], newTlsSock) ∧ r.state?.map (sessions 0) = some 1 := by
  decide +kernel

/-! ## C51 -/

/-- the values of amqp_tls_version_t the library supports: AMQP_TLSv1_2, AMQP_TLSv1_3, AMQP_TLSvLATEST -/
def Supported (v : Nat) : Prop := v = 3 ∨ v = 4 ∨ v = 0xFFFF
/-- the protocol version they stand for: TLS 1.2 is 0x0303, TLS 1.3 (the latest) 0x0304 -/
def wireVersion (v : Nat) : Nat := if v = 3 then 0x0303 else 0x0304
/-- the context negotiates only protocol versions in its range -/
def TlsCtx.admits (c : TlsCtx) (v : Nat) : Prop := c.minVer ≤ v ∧ v ≤ c.maxVer

theorem getTlsVersion_ok (v : Nat) : (Supported v ∧ getTlsVersion v = .ok (wireVersion v)) ∨
    (¬ Supported v ∧ getTlsVersion v = .error St.UNSUPPORTED) := by
  unfold getTlsVersion Supported wireVersion
  by_cases h1 : v = 3
  · left; simp [h1]
  by_cases h2 : v = 4
  · left; simp [h2]
  by_cases h3 : v = 0xFFFF
  · left; simp [h3]
  · right; simp [h1, h2, h3]

/-- C51: setting the version range succeeds iff min ≤ max, both are supported and OpenSSL accepts them; then exactly the versions from min to
max are admitted. -/
theorem C51_versions (minOk maxOk : Nat → Bool) (c : TlsCtx) (min max : Nat) :
    ((setSslVersions minOk maxOk c min max).1 = St.OK ↔
      min ≤ max ∧ Supported min ∧ Supported max ∧ minOk (wireVersion min) = true ∧ maxOk (wireVersion max) = true) ∧
    ((setSslVersions minOk maxOk c min max).1 = St.OK →
      ∀ v, (setSslVersions minOk maxOk c min max).2.admits v ↔ wireVersion min ≤ v ∧ v ≤ wireVersion max) := by
  have e1 : ¬ St.INVALID_PARAMETER = St.OK := by decide
  have e2 : ¬ St.UNSUPPORTED = St.OK := by decide
  unfold setSslVersions
  by_cases hlt : max < min
  · rw [if_pos hlt]
    exact ⟨⟨fun h => absurd h e1, fun h => absurd h.1 (by omega)⟩, fun h => absurd h e1⟩
  rw [if_neg hlt]
  rcases getTlsVersion_ok min with ⟨s1, g1⟩ | ⟨s1, g1⟩ <;> rw [g1] <;> dsimp only
  case inr => exact ⟨⟨fun h => absurd h e2, fun h => absurd h.2.1 s1⟩, fun h => absurd h e2⟩
  rcases getTlsVersion_ok max with ⟨s2, g2⟩ | ⟨s2, g2⟩ <;> rw [g2] <;> dsimp only
  case inr => exact ⟨⟨fun h => absurd h e2, fun h => absurd h.2.2.1 s2⟩, fun h => absurd h e2⟩
  by_cases o1 : minOk (wireVersion min) = false
  · rw [if_pos o1]
    exact ⟨⟨fun h => absurd h e1, fun h => by rw [o1] at h; exact absurd h.2.2.2.1 (by decide)⟩, fun h => absurd h e1⟩
  rw [if_neg o1]
  by_cases o2 : maxOk (wireVersion max) = false
  · rw [if_pos o2]
    exact ⟨⟨fun h => absurd h e1, fun h => by rw [o2] at h; exact absurd h.2.2.2.2 (by decide)⟩, fun h => absurd h e1⟩
  rw [if_neg o2]
  exact ⟨⟨fun _ => ⟨by omega, s1, s2, by simpa using o1, by simpa using o2⟩, fun _ => rfl⟩, fun _ v => Iff.rfl⟩

/-- C51: a range in the wrong order is an invalid parameter, an unsupported version is reported as unsupported, and both change nothing. -/
theorem C51_refused (minOk maxOk : Nat → Bool) (c : TlsCtx) (min max : Nat) :
    (max < min → setSslVersions minOk maxOk c min max = (St.INVALID_PARAMETER, c)) ∧
    (min ≤ max → ¬ (Supported min ∧ Supported max) → setSslVersions minOk maxOk c min max = (St.UNSUPPORTED, c)) := by
  unfold setSslVersions
  refine ⟨fun h => by rw [if_pos h], fun h hs => ?_⟩
  rw [if_neg (by omega)]
  rcases getTlsVersion_ok min with ⟨s1, g1⟩ | ⟨s1, g1⟩ <;> rw [g1] <;> dsimp only
  rcases getTlsVersion_ok max with ⟨s2, g2⟩ | ⟨s2, g2⟩ <;> rw [g2]
  exact absurd ⟨s1, s2⟩ hs

/-- C51 (limit): if OpenSSL refuses only the maximum, the call fails but the minimum has changed. -/
theorem C51_half_done : setSslVersions (fun _ => true) (fun _ => false) ⟨0x0303, 0x0304⟩ 4 4 = (St.INVALID_PARAMETER, ⟨0x0304, 0x0304⟩) := by
  decide

/-- C51: the range a new socket is given. -/
theorem C51_default (c : TlsCtx) : setSslVersions (fun _ => true) (fun _ => true) c 3 0xFFFF = (St.OK, ⟨0x0303, 0x0304⟩) := rfl

example : Supported 3 ∧ Supported 0xFFFF ∧ ¬ Supported 2 := by unfold Supported; decide

/-! ## C52 -/

theorem inPlace_append (b : Bool) (l m : List LifeEv) : inPlace b (l ++ m) = (inPlace b l).bind (fun b => inPlace b m) := by
  induction l generalizing b with
  | nil => rfl
  | cons e l ih => cases b <;> cases e <;> simp only [List.cons_append, inPlace, ih] <;> rfl

/-- the global state is in place iff a socket exists, and the counter counts the sockets -/
structure LifeInv (g : TlsGlobal) : Prop where
  count : g.connections = g.live.length
  init : g.initialized = !g.live.isEmpty
  bio : g.bioInitialized = !g.live.isEmpty
  method : g.method = !g.live.isEmpty
  fresh : ∀ i ∈ g.live, i < g.next
  nodup : g.live.Nodup

/-- the same, with the history of set-ups and tear-downs in order -/
structure LifeInvT (g : TlsGlobal) : Prop extends LifeInv g where
  trace : inPlace false g.trace = some (!g.live.isEmpty)

theorem lifeInv0 : LifeInvT tlsGlobal0 := ⟨⟨rfl, rfl, rfl, rfl, by simp [tlsGlobal0], by simp [tlsGlobal0]⟩, rfl⟩

/-- the events that `amqp_openssl_bio_destroy` on nothing adds are dropped -/
def noStray (l : List LifeEv) : List LifeEv := l.filter (· ≠ .strayTearDown)

theorem tlsNew_inv (asserts : Bool) (a : NewAns) (g : TlsGlobal) (hi : LifeInv g) (ha : asserts = true → a.bio = true) :
    ∃ r g' ev, tlsNew asserts a g = some (r, g') ∧ LifeInv g' ∧ g'.trace = g.trace ++ ev ∧
      inPlace (!g.live.isEmpty) (noStray ev) = some (!g'.live.isEmpty) ∧ (a.bio = true → .strayTearDown ∉ ev) ∧
      (∀ i, r = some i → i ∉ g.live ∧ g'.live = i :: g.live) ∧ (r = none → g'.live = g.live) ∧
      (r ≠ none ↔ a.calloc = true ∧ (g.live = [] → a.bio = true) ∧ a.ctx = true ∧ a.versions = true) := by
  obtain ⟨hc, h1, h2, h3, hf, hn⟩ := hi
  unfold tlsNew
  by_cases hcal : a.calloc = false
  · rw [if_pos hcal]
    exact ⟨none, g, [], rfl, ⟨hc, h1, h2, h3, hf, hn⟩, by simp, by simp [noStray, inPlace], by simp, by simp, by simp, by simp [hcal]⟩
  rw [if_neg hcal]
  have hcal : a.calloc = true := by simpa using hcal
  obtain ⟨ini, con, bio, met, live, next, tr⟩ := g
  dsimp only at hc h1 h2 h3 hf hn
  have hfresh : next ∉ live := fun h => Nat.lt_irrefl _ (hf _ h)
  cases live with
  | nil =>
    simp only [List.isEmpty_nil, Bool.not_true, List.length_nil] at hc h1 h2 h3
    subst hc h1 h2 h3
    cases hb : a.bio with
    | false =>
      have has : asserts = false := by
        cases asserts with
        | false => rfl
        | true => have := ha rfl; rw [hb] at this; cases this
      subst has
      refine ⟨none, ⟨false, 0, false, false, [], next, tr ++ [.setUpFailed] ++ [.strayTearDown]⟩, [.setUpFailed, .strayTearDown], rfl, ⟨rfl, rfl, rfl, rfl, by simp, by simp⟩, by simp, rfl, by simp, by simp,
        by simp, by simp⟩
    | true =>
      by_cases hct : a.ctx = false ∨ a.versions = false
      · refine ⟨none, ⟨false, 0, false, false, [], next, tr ++ [.setUp] ++ [.tearDown]⟩, [.setUp, .tearDown], ?_, ⟨rfl, rfl, rfl, rfl, by simp, by simp⟩, by simp, rfl, by simp, by simp, by simp, ?_⟩
        · cases asserts <;> simp [incConnections, bioInit, decConnections, bioDestroy, hct]
        · rcases hct with h | h <;> simp [h]
      · refine ⟨some next, ⟨true, 1, true, true, [next], next + 1, tr ++ [.setUp]⟩, [.setUp], ?_, ⟨rfl, rfl, rfl, rfl, by simp, by simp⟩, by simp, rfl, by simp, by simp, by simp, ?_⟩
        · cases asserts <;> simp [incConnections, bioInit, hct]
        · simp only [not_or, Bool.not_eq_false] at hct
          simp [hcal, hct.1, hct.2]
  | cons x live =>
    simp only [List.isEmpty_cons, Bool.not_false, List.length_cons] at hc h1 h2 h3
    subst hc h1 h2 h3
    by_cases hct : a.ctx = false ∨ a.versions = false
    · refine ⟨none, ⟨true, live.length + 1, true, true, x :: live, next, tr⟩, [], ?_, ⟨rfl, rfl, rfl, rfl, hf, hn⟩, by simp, rfl, by simp, by simp, by simp, ?_⟩
      · simp [incConnections, decConnections, hct]
      · rcases hct with h | h <;> simp [h]
    · refine ⟨some next, ⟨true, live.length + 1 + 1, true, true, next :: x :: live, next + 1, tr⟩, [], ?_, ⟨rfl, rfl, rfl, rfl, ?_, ?_⟩, by simp, rfl, by simp, ?_, by simp, ?_⟩
      · simp [incConnections, hct]
      · intro i hi
        dsimp only at hi ⊢
        rcases List.mem_cons.1 hi with rfl | hi
        · omega
        · have := hf i hi; omega
      · exact List.nodup_cons.2 ⟨hfresh, hn⟩
      · intro i hi; cases hi; exact ⟨hfresh, rfl⟩
      · simp only [not_or, Bool.not_eq_false] at hct
        simp [hcal, hct.1, hct.2]

theorem tlsDelete_inv (asserts : Bool) (i : Nat) (g : TlsGlobal) (hi : LifeInv g) (hl : i ∈ g.live) :
    ∃ g' ev, tlsDelete asserts i g = some g' ∧ LifeInv g' ∧ g'.trace = g.trace ++ ev ∧
      inPlace (!g.live.isEmpty) ev = some (!g'.live.isEmpty) ∧ .strayTearDown ∉ ev ∧ g'.live = g.live.erase i ∧
      ev = if g.live = [i] then [.tearDown] else [] := by
  obtain ⟨hc, h1, h2, h3, hf, hn⟩ := hi
  obtain ⟨ini, con, bio, met, live, next, tr⟩ := g
  dsimp only at hc h1 h2 h3 hf hn hl
  have hne : live.isEmpty = false := by cases live <;> simp_all
  have hlen : (live.erase i).length = live.length - 1 := List.length_erase_of_mem hl
  have hpos : 0 < live.length := by cases live <;> simp_all
  rw [hne] at h1 h2 h3
  simp only [Bool.not_false] at h1 h2 h3
  subst hc h1 h2 h3
  have hf' : ∀ j ∈ live.erase i, j < next := fun j hj => hf j (List.mem_of_mem_erase hj)
  have hn' := hn.erase i
  unfold tlsDelete decConnections
  dsimp only
  rw [if_pos hpos]
  by_cases h0 : live.length - 1 = 0
  · have he : live = [i] := by
      match live, hl, hpos, h0 with
      | [x], hl, _, _ => simp at hl; rw [hl]
      | _ :: _ :: _, _, _, h0 => simp at h0
    subst he
    refine ⟨⟨false, 0, false, false, [], next, tr ++ [.tearDown]⟩, [.tearDown], ?_, ⟨rfl, rfl, rfl, rfl, by simp, by simp⟩, rfl, rfl, by simp, by simp, by simp⟩
    cases asserts <;> simp [bioDestroy]
  · rw [if_neg h0]
    have he : (live.erase i).isEmpty = false := by
      cases h : live.erase i with
      | nil => rw [h] at hlen; simp at hlen; omega
      | cons => rfl
    refine ⟨_, [], rfl, ⟨?_, ?_, ?_, ?_, hf', hn'⟩, by simp, ?_, by simp, rfl, ?_⟩
    · exact hlen.symm
    · simp only [he]; rfl
    · simp only [he]; rfl
    · simp only [he]; rfl
    · simp only [he, hne]; rfl
    · rw [if_neg]
      intro h
      rw [h] at h0
      simp at h0

theorem inPlace_noStray {l : List LifeEv} (h : .strayTearDown ∉ l) : noStray l = l := by
  unfold noStray
  rw [List.filter_eq_self]
  intro e he
  simp only [ne_eq, decide_not, Bool.not_eq_eq_eq_not, Bool.not_true, decide_eq_false_iff_not]
  rintro rfl
  exact h he

/-- every set-up in the history succeeds -/
def SetUpsSucceed (ops : List LifeOp) : Prop := ∀ a, LifeOp.new a ∈ ops → a.bio = true

theorem life_run_inv (asserts : Bool) : ∀ (ops : List LifeOp) (g : TlsGlobal), LifeInv g → Legal asserts ops g →
    (asserts = true → SetUpsSucceed ops) →
    ∃ g' ev, lifeRun asserts ops g = some g' ∧ LifeInv g' ∧ g'.trace = g.trace ++ ev ∧
      inPlace (!g.live.isEmpty) (noStray ev) = some (!g'.live.isEmpty) ∧ (SetUpsSucceed ops → .strayTearDown ∉ ev)
  | [], g, hi, _, _ => ⟨g, [], rfl, hi, by simp, by simp [noStray, inPlace], by simp⟩
  | .new a :: rest, g, hi, hl, hs => by
    obtain ⟨r, g1, ev, e1, hi1, ht, hp, hst, _, _, _⟩ := tlsNew_inv asserts a g hi fun h => hs h a (by simp)
    obtain ⟨g2, ev2, e2, hi2, ht2, hp2, hst2⟩ := life_run_inv asserts rest g1 hi1 (hl _ _ e1) fun h a ha => hs h a (by simp [ha])
    refine ⟨g2, ev ++ ev2, ?_, hi2, by rw [ht2, ht, List.append_assoc], ?_, fun h => ?_⟩
    · unfold lifeRun; rw [e1]; exact e2
    · unfold noStray at *; rw [List.filter_append, inPlace_append, hp]; exact hp2
    · simp only [List.mem_append, not_or]
      exact ⟨hst (h a (by simp)), hst2 fun a ha => h a (by simp [ha])⟩
  | .delete i :: rest, g, hi, hl, hs => by
    obtain ⟨g1, ev, e1, hi1, ht, hp, hst, _, _⟩ := tlsDelete_inv asserts i g hi hl.1
    obtain ⟨g2, ev2, e2, hi2, ht2, hp2, hst2⟩ := life_run_inv asserts rest g1 hi1 (hl.2 _ e1) fun h a ha => hs h a (by simp [ha])
    refine ⟨g2, ev ++ ev2, ?_, hi2, by rw [ht2, ht, List.append_assoc], ?_, fun h => ?_⟩
    · unfold lifeRun; rw [e1]; exact e2
    · rw [← inPlace_noStray hst] at hp
      unfold noStray at *; rw [List.filter_append, inPlace_append, hp]; exact hp2
    · simp only [List.mem_append, not_or]
      exact ⟨hst, hst2 fun a ha => h a (by simp [ha])⟩

/-- C52: in every history of creating and deleting TLS sockets in which setting up does not fail — with or without assertions compiled in — the
run does not abort; the set-ups and tear-downs alternate, and the state is in place after the history iff some socket is alive; the counter is
the number of sockets alive.  (This holds for every prefix of a history, as a prefix is a history.)
Missing: histories with failed set-ups, see `C52_release_build` and `C52_failed_setup`. -/
theorem C52_life_cycle_partial (asserts : Bool) (ops : List LifeOp) (hl : Legal asserts ops tlsGlobal0) (hs : SetUpsSucceed ops) :
    ∃ g, lifeRun asserts ops tlsGlobal0 = some g ∧ inPlace false g.trace = some (!g.live.isEmpty) ∧
      g.method = !g.live.isEmpty ∧ g.connections = g.live.length := by
  obtain ⟨g, ev, e, hi, ht, hp, hst⟩ := life_run_inv asserts ops tlsGlobal0 lifeInv0.toLifeInv hl fun _ => hs
  refine ⟨g, e, ?_, hi.method, hi.count⟩
  rw [inPlace_noStray (hst hs)] at hp
  rw [ht]; exact hp

/-- C52: without assertions (NDEBUG), in every history, failed set-ups included: the state is in place iff some socket is alive — so it is
never torn down while in use —, a failed set-up counts no socket, and apart from tear-downs of nothing (BIO_meth_free(NULL)) the set-ups and
tear-downs alternate. -/
theorem C52_release_build (ops : List LifeOp) (hl : Legal false ops tlsGlobal0) :
    ∃ g, lifeRun false ops tlsGlobal0 = some g ∧ inPlace false (noStray g.trace) = some (!g.live.isEmpty) ∧
      g.method = !g.live.isEmpty ∧ g.connections = g.live.length := by
  obtain ⟨g, ev, e, hi, ht, hp, _⟩ := life_run_inv false ops tlsGlobal0 lifeInv0.toLifeInv hl (by intro h; cases h)
  refine ⟨g, e, ?_, hi.method, hi.count⟩
  rw [ht]; exact hp

/-- C52: what one creation does in any state a history reaches: it yields a socket iff memory, BIO method (needed only for the first socket),
context and version range are granted; a failed creation changes neither the sockets nor the counter. -/
theorem C52_new (asserts : Bool) (ops : List LifeOp) (hl : Legal asserts ops tlsGlobal0) (hs : asserts = true → SetUpsSucceed ops)
    (g : TlsGlobal) (hg : lifeRun asserts ops tlsGlobal0 = some g) (a : NewAns) (ha : asserts = true → a.bio = true) :
    ∃ r g', tlsNew asserts a g = some (r, g') ∧ (r = none → g'.live = g.live ∧ g'.connections = g.connections ∧ g'.method = g.method) ∧
      (r ≠ none ↔ a.calloc = true ∧ (g.live = [] → a.bio = true) ∧ a.ctx = true ∧ a.versions = true) := by
  obtain ⟨g1, ev, e, hi, _, _, _⟩ := life_run_inv asserts ops tlsGlobal0 lifeInv0.toLifeInv hl hs
  rw [hg] at e; cases e
  obtain ⟨r, g', ev', e1, hi1, _, _, _, _, hnone, hiff⟩ := tlsNew_inv asserts a g hi ha
  refine ⟨r, g', e1, fun h => ?_, hiff⟩
  have := hnone h
  exact ⟨this, by rw [hi1.count, hi.count, this], by rw [hi1.method, hi.method, this]⟩

/-- C52: deleting a socket tears the state down iff it was the last one. -/
theorem C52_delete (asserts : Bool) (ops : List LifeOp) (hl : Legal asserts ops tlsGlobal0) (hs : asserts = true → SetUpsSucceed ops)
    (g : TlsGlobal) (hg : lifeRun asserts ops tlsGlobal0 = some g) (i : Nat) (hi' : i ∈ g.live) :
    ∃ g', tlsDelete asserts i g = some g' ∧ g'.live = g.live.erase i ∧ g'.trace = g.trace ++ if g.live = [i] then [.tearDown] else [] := by
  obtain ⟨g1, ev, e, hi, _, _, _⟩ := life_run_inv asserts ops tlsGlobal0 lifeInv0.toLifeInv hl hs
  rw [hg] at e; cases e
  obtain ⟨g', ev', e1, hi1, ht, _, _, hlive, hev⟩ := tlsDelete_inv asserts i g hi hi'
  exact ⟨g', e1, hlive, by rw [ht, hev]⟩

/-- C52 (limit): when setting up fails for the first socket, the clean-up tears down what was never set up: with assertions compiled in, the
process aborts. -/
theorem C52_failed_setup :
    lifeRun true [.new ⟨true, false, true, true⟩] tlsGlobal0 = none ∧
    (lifeRun false [.new ⟨true, false, true, true⟩] tlsGlobal0).map (·.trace) = some [.setUpFailed, .strayTearDown] := ⟨rfl, rfl⟩

example : (lifeRun true [.new ⟨true, true, true, true⟩, .new ⟨true, true, false, true⟩, .new ⟨true, true, true, true⟩, .delete 0, .delete 1,
    .new ⟨true, true, true, true⟩] tlsGlobal0).map (fun g => (g.trace, g.live)) = some ([.setUp, .tearDown, .setUp], [2]) := rfl
example : Legal true [.new ⟨true, true, true, true⟩, .delete 0] tlsGlobal0 :=
  fun _ _ h => by cases h; exact ⟨by decide, fun _ _ => trivial⟩

end Rmq
