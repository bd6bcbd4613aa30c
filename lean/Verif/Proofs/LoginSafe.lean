import Verif.Proofs.Safety
import Verif.Proofs.TuneFrame
import Verif.Proofs.LoginFull
import Verif.Proofs.Merge
/-!
# Nothing undefined happens from the first octet of a connection on
-/
namespace Rmq

/-! ## What is known of the frames at each stage -/

/-- After the login. -/
def OnlyBasic (g : AFrame) (_ : PState) (_ : Bytes) : Prop := Basic g

theorem onlyBasic_law : QLaw OnlyBasic := ⟨fun h => h, fun _ _ h => h⟩

/-- Before connection.tune: what follows it can be digested with the limit agreed upon. -/
def Tuned (E : PEnv) (asked : Int) (g : AFrame) (p : PState) (d : Bytes) : Prop :=
  p.mode = .idle ∧ Basic g ∧ ∀ r f, g.channel = 0 → g.payload = .method CONNECTION_TUNE r → r.get? .frame_max = some (.u32 f) →
    20 ≤ agreedSize asked f.toNat ∧ agreedSize asked f.toNat ≤ 2 ^ 30 ∧ Clean E OnlyBasic { p with frameMax := agreedSize asked f.toNat } d

theorem Ready.resize {s : PState} (h : Ready s) (hm : s.mode = .idle) (n : Nat) : Ready { s with frameMax := n } := by
  refine ⟨⟨h.inv.hdr, ?_⟩, h.more⟩
  have hs := h.inv.shape
  rw [hm] at hs
  show match s.mode with
    | .idle => _
    | .initial => _
    | .header => _
    | .body => _
  rw [hm]
  exact hs

theorem PSim.resize {s t : PState} (h : PSim s t) (n : Nat) : PSim { s with frameMax := n } { t with frameMax := n } :=
  ⟨h.mode, h.hdr, h.off, h.target, rfl, h.inb, h.started⟩

theorem tuned_law {E : PEnv} (hA : ∀ k, E.alloc k = true) (asked : Int) : QLaw (Tuned E asked) := by
  refine ⟨fun h => h.2.1, fun {g p p' d} hS hG h => ?_⟩
  obtain ⟨h1, h2, h3⟩ := h
  refine ⟨by rw [← hS.mode]; exact h1, h2, fun r f hc hp hf => ?_⟩
  obtain ⟨a, b, c⟩ := h3 r f hc hp hf
  exact ⟨a, b, c.sim hA onlyBasic_law _ (hS.resize _) ⟨hG.1.resize h1 _, hG.2⟩⟩

theorem after_law {E : PEnv} (hA : ∀ k, E.alloc k = true) {Q : AFrame → PState → Bytes → Prop} (hQ : QLaw Q) : QLaw (After E Q) :=
  ⟨fun h => h.1, fun hS hG h => ⟨h.1, by rw [← hS.mode]; exact h.2.1, h.2.2.sim hA hQ _ hS hG⟩⟩

/-- What follows can be digested, and the tune in it is not absurd. -/
theorem tuned_clean (E : PEnv) {asked : Int} {R d before0 : Bytes} (hb : FullFrames INITIAL_FRAME_MAX before0) (hR : R = before0 ++ d)
    (hd : Harmless INITIAL_FRAME_MAX d)
    (ht : ∀ before p after, FullFrames INITIAL_FRAME_MAX before → R = before ++ (rawFrame 1 0 p FRAME_END ++ after) →
      p.take 4 = [0, 10, 0, 30] → 12 ≤ p.length →
      20 ≤ agreedSize asked (beVal ((p.drop 6).take 4)) ∧ agreedSize asked (beVal ((p.drop 6).take 4)) ≤ 2 ^ 30 ∧
        Harmless (agreedSize asked (beVal ((p.drop 6).take 4))) after)
    (s : PState) (hs : Ready s) (hm : s.mode = .idle) (hf : s.frameMax = INITIAL_FRAME_MAX) : Clean E (Tuned E asked) s d := by
  refine hd.clean E (by decide) (fun before after ty ch p sB s' k g hw he hcls _ hp hR' hm' hf' => ?_) s hs hm hf
  refine ⟨hm', payloadPhase_basic E sB ch ty p _ _ g s' (fun h2 => ⟨0, hcls h2⟩) hp, fun r f hc hg hfm => ?_⟩
  obtain ⟨e1, e2, e3, e4, c, f', hb', e5, e6⟩ := payloadPhase_tune hp hg
  subst e2
  have hch : ch = 0 := by rw [← e1]; exact hc
  subst hch
  rw [e5] at hfm
  have : f = f' := by simpa [Rec.get?] using hfm.symm
  subst this
  obtain ⟨a1, a2, a3⟩ := ht (before0 ++ before) p after (hb.append hw) (by rw [hR, he, List.append_assoc]) e3 e4
  rw [e6]
  refine ⟨a1, a2, a3.clean E a2 (fun _ _ ty ch p sB s' k g _ _ hcls _ hp _ _ _ => ?_) _ (hR'.resize hm' _) hm' rfl⟩
  exact payloadPhase_basic E sB ch ty p _ _ g s' (fun h2 => ⟨0, hcls h2⟩) hp

/-- All of what such a server sends. -/
theorem HarmlessServer.clean {asked : Int} {S : Bytes} (h : HarmlessServer asked S) (E : PEnv) (a : Nat) (P : List UInt16) :
    Clean E (After E (Tuned E asked)) (firstParser INITIAL_FRAME_MAX a P) S := by
  have hQ : ∀ g p d, Tuned E asked g p d → Basic g ∧ p.mode = .idle := fun g p d h => ⟨h.2.1, h.1⟩
  obtain ⟨h0, hd, ht⟩ := h
  by_cases h4 : S.take 4 = [65, 77, 81, 80]
  · rw [if_pos h4] at hd ht
    exact first_header E hQ a P h4 fun s hs hm hf => tuned_clean E .nil rfl hd ht s hs hm hf
  · rw [if_neg h4] at hd ht
    refine first_clean E hQ (by decide) a P h4 h0 hd fun ty ch p after he hp hafter s hs hm hf => ?_
    exact tuned_clean E (.cons ty ch p hp .nil) (by rw [List.append_nil]; exact he) hafter ht s hs hm hf

/-! ## The steps of the login -/

/-- Defined; `P` of what a successful call leaves, `Z` of what a failing one leaves. -/
def Res.Then {α : Type} (Z : Conn → Prop) (r : Res Conn α) (P : α → Conn → Prop) : Prop :=
  match r with
  | .ok a s => P a s
  | .err _ s => Z s
  | .ub => False
  | .fuel => True

theorem Res.Then.bind {α β : Type} {Z : Conn → Prop} {x : M Conn α} {f : α → M Conn β} {s : Conn} {P : α → Conn → Prop} {R : β → Conn → Prop} (h : (x s).Then Z P)
    (hf : ∀ a t, P a t → (f a t).Then Z R) : ((x >>= f) s).Then Z R := by
  rw [M.bind_def]
  revert h
  cases x s with
  | ok a t => exact fun h => hf a t h
  | err e t => exact id
  | ub => exact id
  | fuel => exact id

theorem Res.Then.mono {α : Type} {Z : Conn → Prop} {r : Res Conn α} {P R : α → Conn → Prop} (h : r.Then Z P) (hp : ∀ a s, P a s → R a s) : r.Then Z R := by
  cases r with
  | ok a s => exact hp a s h
  | err e s => exact h
  | ub => exact h
  | fuel => exact h

theorem Res.Then.of {α : Type} {Z : Conn → Prop} {r : Res Conn α} {I K : Conn → Prop} (h : r.Safe I) (hk : r.All K) (hz : ∀ s, I s → Z s) :
    r.Then Z fun _ s => I s ∧ K s := by
  cases r with
  | ok a s => exact ⟨h, hk⟩
  | err e s => exact hz s h
  | ub => exact h
  | fuel => trivial

variable {E : NetEnv} {Q : AFrame → PState → Bytes → Prop} {S : Bytes} {room : Nat} {W : Prop}

/-- The connection is fit for further calls. -/
def Fits (E : NetEnv) (S : Bytes) (t : Conn) : Prop := ∃ Q room, 20 ≤ room ∧ room < 2 ^ 31 ∧ Fit E Q S room t

/-- … if `W`. -/
def Lands (W : Prop) (E : NetEnv) (S : Bytes) (t : Conn) : Prop := W → Fits E S t

theorem Fit.lands {t : Conn} (h : Fit E Q S room t) (h20 : 20 ≤ room) (h31 : room < 2 ^ 31) : Lands W E S t := fun _ => ⟨Q, room, h20, h31, h⟩

/-- Between the steps of the login: nothing is queued, and heartbeats are off. -/
structure Calmed (s : Conn) : Prop where
  queue : s.queue = []
  off : HbOff s

theorem Calmed.idle {s t : Conn} (h : Calmed s) (hi : Idle s t) : Calmed t := by
  have h0 := hi.off h.off
  obtain ⟨ps, inb, q, o, l, rfl, hq, hl⟩ := hi
  exact ⟨by rw [h.queue] at hq; exact List.suffix_nil.1 hq, h0⟩

/-- Waiting for a method, when nothing is queued. -/
theorem World.waitMethodJ (w : World E Q S room) (ch : UInt16) (expected : List UInt32) (d : Nat) {s : Conn} (hs : Fit E Q S room s) (h31 : room < 2 ^ 31) (hc : Calmed s) :
    (Rmq.waitMethodList E ch expected d s).Then (Lands W E S) fun m t => Fit E Q S room t ∧ Calmed t ∧ m.1 ∈ expected ∧
      ∃ f : DFrame, Dig f ∧ Given Q S f t ∧ f.frame.channel = ch ∧ f.frame.payload = .method m.1 m.2 := by
  have hI := waitMethodList_idle (E := E) ch expected d hc.off
  suffices h : (Rmq.waitMethodList E ch expected d s).Then (Lands W E S) fun m t => Fit E Q S room t ∧ m.1 ∈ expected ∧
      ∃ f : DFrame, Dig f ∧ Given Q S f t ∧ f.frame.channel = ch ∧ f.frame.payload = .method m.1 m.2 by
    revert h hI
    cases Rmq.waitMethodList E ch expected d s with
    | ok a t => exact fun hI h => ⟨h.1, hc.idle hI, h.2⟩
    | err e t => exact fun _ => id
    | ub => exact fun _ => id
    | fuel => exact fun _ => id
  unfold Rmq.waitMethodList
  refine Res.Then.bind (P := fun _ t => Fit E Q S room t ∧ t.queue = []) ?_ fun tv t ht => ?_
  · have hq := tvUntilIO_quiet E d s
    refine (Res.Then.of (hs.quietAll hq (tvUntilIO_noub E d s)) (hq.mono (Q := fun t => t.queue = []) fun t ht => ?_) fun t h => h.lands w.room h31)
    obtain ⟨l, rfl, _⟩ := ht
    exact hc.queue
  refine Res.Then.bind (P := fun f t => Fit E Q S room t ∧ Dig f ∧ Given Q S f t) ?_ fun f u hu => ?_
  · rw [waitFrame_def]
    have hq := fromNowIO_quiet E tv t
    have h1 := ht.1.quietAll hq (fromNowIO_noub E tv t)
    revert h1 hq
    cases fromNowIO E tv t with
    | err e t => exact fun _ h => h.lands w.room h31
    | ub => exact fun _ h => h
    | fuel => exact fun _ _ => trivial
    | ok d t' =>
      rintro ⟨l, rfl, _⟩ h1
      dsimp only
      have : (t.ext l).queue = [] := ht.2
      rw [this]
      have h2 := w.waitJ d h1
      revert h2
      cases Rmq.waitFrameInner E d (t.ext l) with
      | ok f u => exact fun h => h
      | err e u => exact fun h => Fit.lands h w.room h31
      | ub => exact fun h => h
      | fuel => exact fun _ => trivial
  · cases hp : f.frame.payload <;> dsimp only
    case method id args =>
      by_cases hc : f.frame.channel = ch ∧ id ∈ expected
      · rw [if_pos hc]; exact ⟨hu.1, hc.2, f, hu.2.1, hu.2.2, hc.1, hp⟩
      · rw [if_neg hc]; exact hu.1.lands w.room h31
    all_goals exact hu.1.lands w.room h31

/-- The fields of connection.start. -/
theorem start_fields {r : Rec} (h : Proper (.method CONNECTION_START r)) : ∃ a b sp m,
    r.get? .version_major = some (.u8 a) ∧ r.get? .version_minor = some (.u8 b) ∧ r.get? .server_properties = some (.table sp) ∧
    r.get? .mechanisms = some (.bytes m) := by
  obtain ⟨p, hp, he, ha⟩ := h
  have key : ∀ p ∈ protocol, p.id = CONNECTION_START → p.args =
      [(.version_major, .octet), (.version_minor, .octet), (.server_properties, .table), (.mechanisms, .longstr), (.locales, .longstr)] := by
    decide
  rw [key p hp he] at ha
  cases ha with
  | cons a1 ha =>
  rename_i v1 _
  cases ha with
  | cons a2 ha =>
  rename_i v2 _
  cases ha with
  | cons a3 ha =>
  rename_i v3 _
  cases ha with
  | cons a4 ha =>
  rename_i v4 _
  cases ha with
  | cons a5 ha =>
  cases ha
  cases v1 <;> try exact a1.elim
  cases v2 <;> try exact a2.elim
  cases v3 <;> try exact a3.elim
  cases v4 <;> try exact a4.elim
  exact ⟨_, _, _, _, rfl, rfl, rfl, rfl⟩

/-- The fields of connection.tune. -/
theorem tune_fields {r : Rec} (h : Proper (.method CONNECTION_TUNE r)) : ∃ c f hb,
    r.get? .channel_max = some (.u16 c) ∧ r.get? .frame_max = some (.u32 f) ∧ r.get? .heartbeat = some (.u16 hb) := by
  obtain ⟨p, hp, he, ha⟩ := h
  have key : ∀ p ∈ protocol, p.id = CONNECTION_TUNE → p.args = [(.channel_max, .short), (.frame_max, .long), (.heartbeat, .short)] := by decide
  rw [key p hp he] at ha
  cases ha with
  | cons a1 ha =>
  rename_i v1 _
  cases ha with
  | cons a2 ha =>
  rename_i v2 _
  cases ha with
  | cons a3 ha =>
  rename_i v3 _
  cases ha
  cases v1 <;> try exact a1.elim
  cases v2 <;> try exact a2.elim
  cases v3 <;> try exact a3.elim
  exact ⟨_, _, _, rfl, rfl, rfl⟩

theorem Fit.fields {s : Conn} (h : Fit E Q S room s) (sp cp : Table) (n : Nat) : Fit E Q S room { s with serverProps := sp, clientProps := cp, clientBorn := n } :=
  ⟨h.law, h.mem, h.len, h.fm, h.pass, h.queue, h.recv⟩

/-- connection.start is waited for and looked at. -/
theorem awaitStart_then (hA : ∀ k, E.pe.alloc k = true) (hS : Serves E S) (h20 : 20 ≤ room) (h31 : room < 2 ^ 31) {Q : AFrame → PState → Bytes → Prop} (hQ : QLaw Q)
    (memcmp : Bytes → Bytes → Int) (sasl : Sasl) (d : Nat)
    {s : Conn} (hs : Fit E (After E.pe Q) S room s) (hc : Calmed s) :
    (awaitStart E memcmp sasl d s).Then (Lands W E S) fun _ t => Fit E Q S room t ∧ Calmed t ∧ t.ps.mode = .idle := by
  have w : World E (After E.pe Q) S room := ⟨hA, hS, h20⟩
  unfold awaitStart
  refine Res.Then.bind (w.waitMethodJ 0 [CONNECTION_START] d hs h31 hc) fun m t => ?_
  obtain ⟨id, r⟩ := m
  rintro ⟨hf, hc, hid, f, hdig, hg, _, hp⟩
  dsimp only at hid hp ⊢
  cases List.mem_singleton.1 hid
  have hprop := hdig.2
  rw [hp] at hprop
  obtain ⟨a, b, sp, m, e1, e2, e3, e4⟩ := start_fields hprop
  rw [e1, e2, e3, e4]
  dsimp only
  obtain ⟨hG, _, hidle, hclean⟩ := hg
  have hf' : Fit E Q S room t := ⟨hQ, hf.mem, hf.len, hf.fm, hf.pass, hf.queue, Or.inl ⟨hG, hclean⟩⟩
  by_cases hv : a ≠ 0 ∨ b ≠ 9
  · rw [if_pos hv]; exact hf'.lands h20 h31
  rw [if_neg hv]
  refine Res.Then.bind (P := fun _ u => Fit E Q S room u ∧ Calmed u ∧ u.ps.mode = .idle) ?_ fun tb u hu => ?_
  · unfold withAlloc
    dsimp only
    have h1 := cloneTable_AOK E.pe.alloc 1 (storeTable sp) (FV.storeEs_stored sp) ⟨t.ps.allocs⟩
    revert h1
    cases cloneTable E.pe.alloc 1 (storeTable sp) ⟨t.ps.allocs⟩ with
    | ok a u => exact fun _ => ⟨hf'.allocs (p := t.ps.pools) hA u.allocs (List.Subset.refl _), ⟨hc.queue, hc.off⟩, hidle⟩
    | err a u => exact fun _ => (hf'.allocs (p := t.ps.pools) hA u.allocs (List.Subset.refl _)).lands h20 h31
    | ub => exact fun h => h.elim
    | fuel => exact fun h => h.elim
  refine Res.Then.bind (P := fun _ u => Fit E Q S room u ∧ Calmed u ∧ u.ps.mode = .idle)
    ⟨hu.1.fields tb.erase u.clientProps u.clientBorn, ⟨hu.2.1.queue, hu.2.1.off⟩, hu.2.2⟩ fun _ v hv => ?_
  by_cases hm : mechanismInList memcmp m sasl = true
  · rw [if_pos hm]; exact hv
  · rw [if_neg hm]; exact hv.1.lands h20 h31

/-- Between the steps, and no frame is half received. -/
def Restful (s : Conn) : Prop := Calmed s ∧ s.ps.mode = .idle

theorem Restful.allocs {s : Conn} (h : Restful s) (n : Nat) (p : List UInt16) : Restful { s with ps := { s.ps with allocs := n, pools := p } } :=
  ⟨⟨h.1.queue, h.1.off⟩, h.2⟩

/-- Sending with heartbeats off. -/
theorem sendMethod_then (w : World E Q S room) (h31 : room < 2 ^ 31) (ch : UInt16) (id : UInt32) (r : Rec) (hW : WellTyped (.method id r)) (flags d : Nat) (hd : d ≤ TIME_INF)
    {s : Conn} (hs : Fit E Q S room s) (hc : Restful s) : (sendMethod E ch id r flags d s).Then (Lands W E S) fun _ t => Fit E Q S room t ∧ Restful t := by
  unfold sendMethod
  have h1 := hs.sendFrame w.alloc w.serves w.room ⟨ch, .method id r⟩ flags d hW (fun b hb => by cases hb)
  have h2 := sendFrame_ext (E := E) ⟨ch, .method id r⟩ flags d hd (s := s) (Or.inr hc.1.off)
  have h3 := (off_closed E).sendFrame ⟨ch, .method id r⟩ flags d hc.1.off
  revert h1 h2 h3
  cases Rmq.sendFrame E ⟨ch, .method id r⟩ flags d s with
  | ok a t =>
    rintro h1 ⟨l, m, t', rfl, _⟩ h3
    exact ⟨h1, ⟨hc.1.queue, h3⟩, hc.2⟩
  | err e t => exact fun h _ _ => Fit.lands h w.room h31
  | ub => exact fun h _ _ => h
  | fuel => exact fun _ _ _ => trivial

theorem allocOr_noub (E : NetEnv) (t : Conn) : (allocOr E t).isUB = false := by
  unfold allocOr smallAlloc
  dsimp only
  cases E.pe.alloc t.ps.allocs <;> rfl

theorem saslResponse_noub (E : NetEnv) (sasl : Sasl) (t : Conn) : (saslResponse E sasl t).isUB = false := by
  have key : ∀ b : Bytes, ((allocOr E >>= fun _ => pure b : M Conn Bytes) t).isUB = false := by
    intro b
    rw [M.bind_def]
    have := allocOr_noub E t
    revert this
    cases allocOr E t <;> first | exact fun _ => rfl | exact fun h => h
  cases sasl with
  | plain u p => exact key _
  | external i =>
    unfold saslResponse
    dsimp only
    by_cases h0 : i.length = 0
    · rw [if_pos h0]; rfl
    · rw [if_neg h0]; exact key _

/-- connection.start-ok. -/
theorem sendStartOk_then (w : World E Q S room) (h31 : room < 2 ^ 31) (b : Build) (memcmp : Bytes → Bytes → Int) (props : Option PTable)
    (hm : ∀ x, (mergeCapabilities memcmp E.pe.alloc 0 (defaultProperties b) props x).isUB = false) (sasl : Sasl) (d : Nat) (hd : d ≤ TIME_INF)
    {s : Conn} (hs : Fit E Q S room s) (hc : Restful s) : (sendStartOk E b memcmp props sasl d s).Then (Lands W E S) fun _ t => Fit E Q S room t ∧ Restful t := by
  unfold sendStartOk
  refine Res.Then.bind (P := fun _ t => Fit E Q S room t ∧ Restful t) ?_ fun _ t ht => ?_
  · have h1 := hs.getPool w.alloc 0
    obtain ⟨n, p, h2⟩ := getPool_eff E.pe s.ps 0
    revert h1 h2
    obtain ⟨b, ps⟩ := Rmq.getPool E.pe s.ps 0
    rintro h1 rfl
    cases b with
    | false => exact Fit.lands h1 w.room h31
    | true => exact ⟨h1, hc.allocs n p⟩
  refine Res.Then.bind (P := fun _ t => Fit E Q S room t ∧ Restful t) ?_ fun response u hu => ?_
  · have h1 := saslResponse_eff E sasl t
    have h2 := saslResponse_noub E sasl t
    revert h1 h2
    cases saslResponse E sasl t with
    | ok a u => rintro ⟨n, rfl⟩ _; exact ⟨ht.1.allocs (p := t.ps.pools) w.alloc n (List.Subset.refl _), ht.2.allocs n t.ps.pools⟩
    | err a u => rintro ⟨n, rfl⟩ _; exact (ht.1.allocs (p := t.ps.pools) w.alloc n (List.Subset.refl _)).lands w.room h31
    | ub => exact fun _ h => by cases h
    | fuel => exact fun _ _ => trivial
  refine Res.Then.bind (P := fun _ t => Fit E Q S room t ∧ Restful t) ?_ fun tb v hv => ?_
  · unfold withAlloc
    dsimp only
    have h1 := hm ⟨u.ps.allocs⟩
    revert h1
    cases mergeCapabilities memcmp E.pe.alloc 0 (defaultProperties b) props ⟨u.ps.allocs⟩ with
    | ok a x => exact fun _ => ⟨hu.1.allocs (p := u.ps.pools) w.alloc x.allocs (List.Subset.refl _), hu.2.allocs x.allocs u.ps.pools⟩
    | err a x => exact fun _ => (hu.1.allocs (p := u.ps.pools) w.alloc x.allocs (List.Subset.refl _)).lands w.room h31
    | ub => exact fun h => by cases h
    | fuel => exact fun _ => trivial
  refine Res.Then.bind (P := fun _ t => Fit E Q S room t ∧ Restful t)
    ⟨hv.1.fields v.serverProps tb.erase v.time, ⟨hv.2.1.queue, hv.2.1.off⟩, hv.2.2⟩ fun _ x hx => ?_
  refine sendMethod_then w h31 0 CONNECTION_START_OK _ (fun p hp he => ?_) SF_NONE d hd hx.1 hx.2
  have key : ∀ p ∈ protocol, p.id = CONNECTION_START_OK → p.args = startOkProto.args := by decide
  rw [key p hp he]
  exact .cons trivial (.cons trivial (.cons trivial (.cons trivial .nil)))

theorem releaseBuffers_then {s : Conn} (hs : Fit E Q S room s) (hm : s.ps.mode = .idle) :
    (releaseBuffers s).Then (Lands W E S) fun _ t => Fit E Q S room t ∧ ∃ l, t = s.ext l := by
  unfold releaseBuffers
  rw [if_neg (fun h => h hm)]
  obtain ⟨l, h1, _⟩ := foldl_idle s.ps.pools s
  exact ⟨hs.releaseAll _, l, h1⟩

theorem restartRecv_off {s : Conn} (h : HbOff s) : (Rmq.restartRecv E s).All HbOff := by
  unfold Rmq.restartRecv
  rw [sFromNowIO_off E (by show 2 * s.heartbeat ≤ 0; have := h.1; omega)]
  exact ⟨h.1, h.2.1, rfl⟩

theorem sFromNowIO_works {k : Int} {old : Nat} {s : Conn} (hk : k ≤ 2 * 65535) (h : k ≤ 0 ∨ ClockWorks E) : (sFromNowIO E k old s).1 = St.OK := by
  by_cases h0 : k ≤ 0
  · rw [sFromNowIO_off E h0]
  · have hc := h.resolve_left h0 s.time
    unfold sFromNowIO
    rw [if_neg (by omega)]
    dsimp only
    have h1 : k.toNat * 1000000000 % 2 ^ 64 = k.toNat * 1000000000 := Nat.mod_eq_of_lt (by omega)
    have h2 : (E.clock s.time + k.toNat * 1000000000) % 2 ^ 64 = E.clock s.time + k.toNat * 1000000000 := Nat.mod_eq_of_lt (by omega)
    rw [h1, h2, if_neg (by omega), if_neg (by omega)]

theorem restartSend_works {s : Conn} (hk : s.heartbeat ≤ 65535) (h : s.heartbeat ≤ 0 ∨ ClockWorks E) {e : Int} {t : Conn} : Rmq.restartSend E s ≠ .err e t := by
  have := sFromNowIO_works (E := E) (old := s.nextSend) (s := s) (k := s.heartbeat) (by omega) h
  unfold Rmq.restartSend
  revert this
  obtain ⟨st, x, u⟩ := sFromNowIO E s.heartbeat s.nextSend s
  rintro rfl
  dsimp only
  rw [if_pos rfl]
  exact fun h => nomatch h

theorem restartRecv_works {s : Conn} (hk : s.heartbeat ≤ 65535) (h : s.heartbeat ≤ 0 ∨ ClockWorks E) {e : Int} {t : Conn} : Rmq.restartRecv E s ≠ .err e t := by
  have := sFromNowIO_works (E := E) (old := s.nextRecv) (s := s) (k := 2 * s.heartbeat) (by omega) (h.imp (by omega) id)
  unfold Rmq.restartRecv
  revert this
  obtain ⟨st, x, u⟩ := sFromNowIO E (2 * s.heartbeat) s.nextRecv s
  rintro rfl
  dsimp only
  rw [if_pos rfl]
  exact fun h => nomatch h

/-- The frame size is changed: the receiving side knows what to expect, and the output buffer has the new size. -/
theorem tune_then (hA : ∀ k, E.pe.alloc k = true) {cm hb : Int} {size : Nat} (hsize : size < 2 ^ 31) (mem : Nat → UInt8)
    (hbeat : hb ≤ 0 ∨ NeverBlocks E) (hhb : hb ≤ 65535) (hW : W → hb ≤ 0 ∨ ClockWorks E) {s : Conn} (hc : Restful s) (hR : Ready s.ps)
    (hclean : Clean E.pe OnlyBasic { s.ps with frameMax := size } (s.inb ++ S.drop s.received)) :
    (tune E cm size hb mem s).Then (Lands W E S) fun _ t => Fit E OnlyBasic S size t ∧ t.ps.mode = .idle ∧ Unhurried E t := by
  have hsz : ((size : Int) % 2 ^ 64).toNat = size := by omega
  unfold tune
  rw [if_neg (fun h => h hc.2)]
  dsimp only
  rw [hsz]
  have hoff : hb ≤ 0 → HbOff { s with channelMax := cm, frameMax := size, ps := { s.ps with frameMax := size }, heartbeat := if 0 > hb then 0 else hb } := by
    intro h
    refine ⟨?_, hc.1.off.2⟩
    dsimp only
    split <;> omega
  generalize hs0 : ({ s with channelMax := cm, frameMax := size, ps := { s.ps with frameMax := size }, heartbeat := if 0 > hb then 0 else hb } : Conn) = s0 at hoff ⊢
  have r1 := restartSend_eff E s0
  have o1 : hb ≤ 0 → (Rmq.restartSend E s0).All HbOff := fun h => (off_closed E).restartSend (hoff h)
  have n1 := restartSend_noub E s0
  have hb0 : s0.heartbeat ≤ 65535 ∧ (W → s0.heartbeat ≤ 0 ∨ ClockWorks E) := by
    subst hs0
    dsimp only
    split
    · exact ⟨by omega, fun _ => .inl (Int.le_refl 0)⟩
    · exact ⟨hhb, hW⟩
  have f1 := fun (hw : W) e t => restartSend_works (e := e) (t := t) hb0.1 (hb0.2 hw)
  revert r1 o1 n1 f1
  cases Rmq.restartSend E s0 with
  | ub => intro _ _ h; cases h
  | fuel => exact fun _ _ _ _ => trivial
  | err e t => exact fun _ _ _ f hw => (f hw e t rfl).elim
  | ok x t =>
    intro r1 o1 _ _
    dsimp only
    have r2 := restartRecv_eff E t
    have o2 : hb ≤ 0 → (Rmq.restartRecv E t).All HbOff := fun h => restartRecv_off (o1 h)
    have n2 := restartRecv_noub E t
    have hb1 : t.heartbeat = s0.heartbeat := by obtain ⟨_, _, rfl, _⟩ := r1; rfl
    have f2 := fun (hw : W) e t' => restartRecv_works (E := E) (s := t) (e := e) (t := t') (by rw [hb1]; exact hb0.1) (by rw [hb1]; exact hb0.2 hw)
    revert r2 o2 n2 f2
    cases Rmq.restartRecv E t with
    | ub => intro _ _ h; cases h
    | fuel => exact fun _ _ _ _ => trivial
    | err e t => exact fun _ _ _ f hw => (f hw e t rfl).elim
    | ok x u =>
      intro r2 o2 _ _
      obtain ⟨t1, l1, rfl, q1⟩ := r1
      obtain ⟨t2, l2, rfl, q2⟩ := r2
      subst hs0
      dsimp only [smallAlloc]
      rw [hA]
      dsimp only
      have hrec : ∀ z : Conn, z.log = s.log ++ (l1 ++ l2) → z.received = s.received := fun z hz =>
        received_same (l := l1 ++ l2) hz (by simp [recvBytes_append, q1.recv, q2.recv])
      have hG : Good { s.ps with frameMax := size } := ⟨hR.resize hc.2 _, by show s.ps.mode ≠ _; rw [hc.2]; exact fun h => by cases h⟩
      have hU : hb ≤ 0 → HbOff _ := fun h => o2 h
      refine ⟨⟨onlyBasic_law, by simp, rfl, rfl, ?_, ?_, ?_⟩, hc.2, ?_⟩
      · rcases hbeat with h | h
        · exact Or.inr (o2 h)
        · exact Or.inl (Or.inl h)
      · intro f hf
        have : f ∈ s.queue := hf
        rw [hc.1.queue] at this; cases this
      · unfold RecvOK
        rw [hrec _ (by simp [Conn.ext])]
        have hS := PSim.allocs_right hG (s.ps.allocs + 1) s.ps.pools
        exact Or.inl ⟨hS.good hG, hclean.sim hA onlyBasic_law _ hS hG⟩
      · rcases hbeat with h | h
        · exact Or.inr (o2 h)
        · exact Or.inl h

/-- The frame size in the program's own types. -/
theorem negotiate_frame {asked : Int} (h0 : 0 ≤ asked) (h1 : asked < 2 ^ 31) (x y c h : UInt16) (f : UInt32) :
    (negotiate x (UInt32.ofNat asked.toNat) y c f h).2.1.toNat = agreedSize asked f.toNat := by
  have hc : (UInt32.ofNat asked.toNat).toNat = asked.toNat := by
    rw [UInt32.toNat_ofNat']; omega
  unfold negotiate agreedSize
  dsimp only
  have h00 : (f ≠ 0) = (f.toNat ≠ 0) := by
    rw [ne_eq, ne_eq, ← UInt32.toNat_inj]; rfl
  by_cases hf : f ≠ 0 ∧ f < UInt32.ofNat asked.toNat
  · rw [if_pos hf, if_pos ⟨h00 ▸ hf.1, by have := UInt32.lt_iff_toNat_lt.1 hf.2; omega⟩]
  · rw [if_neg hf, if_neg (fun h => hf ⟨h00 ▸ h.1, UInt32.lt_iff_toNat_lt.2 (by have := h.2; omega)⟩), hc]

theorem negotiate_off (x : UInt16) (m : UInt32) (c h : UInt16) (f : UInt32) : (negotiate x m 0 c f h).2.2 = 0 := by
  unfold negotiate
  dsimp only
  rw [if_neg]
  rintro ⟨_, h⟩
  exact absurd (UInt16.lt_iff_toNat_lt.1 h) (Nat.not_lt_zero _)

/-- Adopting the negotiated values. -/
theorem tuneOk_then (hA : ∀ k, E.pe.alloc k = true) (hS : Serves E S) {size : Nat} (h20 : 20 ≤ size) (hsize : size < 2 ^ 31) (mem : Nat → UInt8)
    {v : UInt16 × UInt32 × UInt16} (hv : v.2.1.toNat = size) (hbeat : v.2.2 = 0 ∨ NeverBlocks E) (hW' : W → v.2.2 = 0 ∨ ClockWorks E) (d : Nat) (hd : d ≤ TIME_INF) {s : Conn} (hc : Restful s) (hR : Ready s.ps)
    (hclean : Clean E.pe OnlyBasic { s.ps with frameMax := size } (s.inb ++ S.drop s.received)) :
    (tuneOk E mem v d s).Then (Lands W E S) fun _ t => Fit E OnlyBasic S size t ∧ t.ps.mode = .idle := by
  unfold tuneOk
  rw [hv]
  refine Res.Then.bind (tune_then hA hsize mem (hbeat.imp (fun h => by rw [h]; exact Int.le_refl _) id)
    (by have := v.2.2.toNat_lt; omega) (fun hw => (hW' hw).imp (fun h => by rw [h]; exact Int.le_refl _) id) hc hR hclean) fun _ t ht => ?_
  obtain ⟨hf, hm, hU⟩ := ht
  unfold sendMethod
  have hW : WellTyped (.method CONNECTION_TUNE_OK [(.channel_max, .u16 v.1), (.frame_max, .u32 v.2.1), (.heartbeat, .u16 v.2.2)]) := by
    intro p hp he
    have key : ∀ p ∈ protocol, p.id = CONNECTION_TUNE_OK → p.args = [(.channel_max, .short), (.frame_max, .long), (.heartbeat, .short)] := by decide
    rw [key p hp he]
    exact .cons trivial (.cons trivial (.cons trivial .nil))
  have h1 := hf.sendFrame hA hS h20 ⟨0, .method CONNECTION_TUNE_OK [(.channel_max, .u16 v.1), (.frame_max, .u32 v.2.1), (.heartbeat, .u16 v.2.2)]⟩
    SF_NONE d hW (fun b hb => by cases hb)
  have h2 := sendFrame_ext (E := E) ⟨0, .method CONNECTION_TUNE_OK [(.channel_max, .u16 v.1), (.frame_max, .u32 v.2.1), (.heartbeat, .u16 v.2.2)]⟩
    SF_NONE d hd hU
  revert h1 h2
  cases Rmq.sendFrame E ⟨0, .method CONNECTION_TUNE_OK [(.channel_max, .u16 v.1), (.frame_max, .u32 v.2.1), (.heartbeat, .u16 v.2.2)]⟩ SF_NONE d t with
  | ok a u =>
    rintro h1 ⟨l, m, t', rfl, _⟩
    exact ⟨h1, hm⟩
  | err e t => exact fun h _ => Fit.lands h h20 hsize
  | ub => exact fun h _ => h
  | fuel => exact fun _ _ => trivial

theorem openVhost_then (w : World E Q S room) (h31 : room < 2 ^ 31) (vhost : Bytes) (d : Nat) {s : Conn} (hs : Fit E Q S room s) :
    (openVhost E vhost d s).Then (Lands W E S) fun _ t => Fit E Q S room t := by
  unfold openVhost
  have hW : WellTyped (.method CONNECTION_OPEN [(.virtual_host, .bytes vhost), (.capabilities, .bytes []), (.insist, .bool 1)]) := by
    intro p hp he
    have key : ∀ p ∈ protocol, p.id = CONNECTION_OPEN → p.args = [(.virtual_host, .shortstr), (.capabilities, .shortstr), (.insist, .bit)] := by decide
    rw [key p hp he]
    exact .cons trivial (.cons trivial (.cons trivial .nil))
  have h := w.rpcInner 0 CONNECTION_OPEN [CONNECTION_OPEN_OK] _ d hs hW
  revert h
  cases Rmq.rpcInner E 0 CONNECTION_OPEN [CONNECTION_OPEN_OK] [(.virtual_host, .bytes vhost), (.capabilities, .bytes []), (.insist, .bool 1)] d s with
  | ok r t =>
    intro h
    cases r with
    | normal id args => exact h.maybeRelease
    | serverException id args => exact h
    | libraryException e => exact h
  | err e t => exact fun h => Fit.lands h w.room h31
  | ub => exact fun h => h
  | fuel => exact fun _ => trivial

/-- What a login leaves: one that ended well, or was refused by the server, or (if `W`) failed. -/
def LoggedOn (W : Prop) (E : NetEnv) (S : Bytes) (r : Outcome Unit) (t : Conn) : Prop :=
  match r with
  | .libraryException _ => W → Fits E S t
  | _ => Fits E S t

theorem newConn_fit (hA : ∀ k, E.pe.alloc k = true) {asked : Int} (hsrv : HarmlessServer asked S) (m0 : Nat → UInt8) :
    Fit E (After E.pe (Tuned E.pe asked)) S INITIAL_FRAME_MAX (newConn m0) := by
  refine ⟨after_law hA (tuned_law hA asked), by simp [newConn], rfl, rfl, Or.inr ⟨Int.le_refl _, rfl, rfl⟩, (fun f hf => by cases hf), ?_⟩
  have hr : (newConn m0).received = 0 := rfl
  have hcl := hsrv.clean E.pe
  refine Or.inr (Or.inl ⟨firstParser_ready _ 0 [], rfl, fun a P => ?_⟩)
  rw [hr]
  exact hcl a P

theorem loginSteps_then (hA : ∀ k, E.pe.alloc k = true) (hS : Serves E S) (b : Build) {memcmp : Bytes → Bytes → Int} (mem : Nat → UInt8) {a : LoginArgs}
    (h0 : 0 ≤ a.frameMax) (h31 : a.frameMax < 2 ^ 31) (hbeat : a.heartbeat = 0 ∨ NeverBlocks E) (hW : W → a.heartbeat = 0 ∨ ClockWorks E)
    (hm : ∀ x, (mergeCapabilities memcmp E.pe.alloc 0 (defaultProperties b) a.clientProperties x).isUB = false) (tv : Option TimeVal)
    (hsrv : HarmlessServer a.frameMax S) (m0 : Nat → UInt8) :
    (loginSteps E b memcmp mem a tv (newConn m0)).Then (Lands W E S) (LoggedOn W E S) := by
  have hQ := tuned_law hA a.frameMax
  have hQ2 := after_law hA hQ
  have w : World E (Tuned E.pe a.frameMax) S INITIAL_FRAME_MAX := ⟨hA, hS, by decide⟩
  have hfit := newConn_fit hA hsrv m0
  have hcalm : Calmed (newConn m0) := ⟨rfl, Int.le_refl _, rfl, rfl⟩
  unfold loginSteps
  refine Res.Then.bind (P := fun d t => Fit E (After E.pe (Tuned E.pe a.frameMax)) S INITIAL_FRAME_MAX t ∧ Calmed t ∧ d ≤ TIME_INF) ?_ fun d t ht => ?_
  · have hq := fromNowIO_quiet E tv (newConn m0)
    have h1 := hfit.quietAll hq (fromNowIO_noub E tv (newConn m0))
    have hle := fun t d => Login16.fromNowIO_le (E := E) (tv := tv) (s := newConn m0) (t := t) (d := d)
    revert h1 hq hle
    cases fromNowIO E tv (newConn m0) with
    | ok d t => exact fun hq h1 hle => ⟨h1, hcalm.idle (.quiet hq), hle _ _ rfl⟩
    | err e t => exact fun _ h _ => Fit.lands h (by decide) (by decide)
    | ub => exact fun _ h _ => h
    | fuel => exact fun _ _ _ => trivial
  obtain ⟨hf, hc, hd⟩ := ht
  refine Res.Then.bind (P := fun _ t => Fit E (After E.pe (Tuned E.pe a.frameMax)) S INITIAL_FRAME_MAX t ∧ Calmed t) ?_ fun r u hu => ?_
  · have h1 := World.sendHeaderInner (E := E) d hf
    have h2 := fun u r => sendHeaderInner_eff E d (s := t) (s' := u) (r := r)
    revert h1 h2
    cases Rmq.sendHeaderInner E d t with
    | ok r u =>
      intro h1 h2
      obtain ⟨l, k, rfl, _⟩ := h2 _ _ rfl
      exact ⟨h1, hc.queue, hc.off⟩
    | err e t => exact fun h _ => Fit.lands h (by decide) (by decide)
    | ub => exact fun h _ => h
    | fuel => exact fun _ _ => trivial
  by_cases hr : r ≠ St.OK
  · rw [if_pos hr]; exact hu.1.lands (by decide) (by decide)
  rw [if_neg hr]
  refine Res.Then.bind (awaitStart_then hA hS (by decide) (by decide) hQ memcmp a.sasl d hu.1 hu.2) fun _ t ht => ?_
  refine Res.Then.bind (sendStartOk_then w (by decide) b memcmp a.clientProperties hm a.sasl d hd ht.1 ⟨ht.2.1, ht.2.2⟩) fun _ t ht => ?_
  refine Res.Then.bind (P := fun _ t => Fit E (Tuned E.pe a.frameMax) S INITIAL_FRAME_MAX t ∧ Calmed t) ((releaseBuffers_then ht.1 ht.2.2).mono fun _ u hu => ?_) fun _ t ht => ?_
  · obtain ⟨h1, l, rfl⟩ := hu
    exact ⟨h1, ht.2.1.queue, ht.2.1.off⟩
  refine Res.Then.bind (w.waitMethodJ 0 [CONNECTION_TUNE, CONNECTION_CLOSE] d ht.1 (by decide) ht.2) fun m t => ?_
  obtain ⟨id, r⟩ := m
  rintro ⟨hf, hc, hid, f, hdig, hg, hch, hp⟩
  dsimp only at hid hp ⊢
  by_cases hcl : id = CONNECTION_CLOSE
  · rw [if_pos hcl]; exact ⟨_, _, by decide, by decide, hf⟩
  rw [if_neg hcl]
  have hid : id = CONNECTION_TUNE := by
    rcases List.mem_cons.1 hid with h | h
    · exact h
    · exact absurd (List.mem_singleton.1 h) hcl
  subst hid
  have hprop := hdig.2
  rw [hp] at hprop
  obtain ⟨c, fm, hb, e1, e2, e3⟩ := tune_fields hprop
  rw [e1, e2, e3]
  dsimp only
  obtain ⟨hG, hidle, _, htune⟩ := hg
  obtain ⟨a1, a2, a3⟩ := htune r fm hch hp e2
  have hv := negotiate_frame h0 h31 (UInt16.ofNat a.channelMax.toNat) (UInt16.ofNat a.heartbeat.toNat) c hb fm
  have hb0 : (negotiate (UInt16.ofNat a.channelMax.toNat) (UInt32.ofNat a.frameMax.toNat) (UInt16.ofNat a.heartbeat.toNat) c fm hb).2.2 = 0 ∨ NeverBlocks E := by
    refine hbeat.imp (fun h => ?_) id
    rw [h]
    exact negotiate_off _ _ _ _ _
  have hb1 : W → (negotiate (UInt16.ofNat a.channelMax.toNat) (UInt32.ofNat a.frameMax.toNat) (UInt16.ofNat a.heartbeat.toNat) c fm hb).2.2 = 0 ∨ ClockWorks E := by
    refine fun hw => (hW hw).imp (fun h => ?_) id
    rw [h]
    exact negotiate_off _ _ _ _ _
  generalize hsz : agreedSize a.frameMax fm.toNat = size at a1 a2 a3 hv
  refine Res.Then.bind (tuneOk_then hA hS a1 (by omega) mem hv hb0 hb1 d hd ⟨hc, hidle⟩ hG.1 a3) fun _ t ht => ?_
  refine Res.Then.bind (releaseBuffers_then ht.1 ht.2) fun _ t ht => ?_
  refine (openVhost_then ⟨hA, hS, a1⟩ (by omega) a.vhost d ht.1).mono fun o t ht => ?_
  cases o with
  | normal u => exact ⟨_, size, a1, by omega, ht⟩
  | serverException id args => exact ⟨_, size, a1, by omega, ht⟩
  | libraryException e => exact ht.lands a1 (by omega)

theorem login_then (hA : ∀ k, E.pe.alloc k = true) (hS : Serves E S) (b : Build) {memcmp : Bytes → Bytes → Int} (mem : Nat → UInt8) {a : LoginArgs}
    (h31 : a.frameMax < 2 ^ 31) (hbeat : a.heartbeat = 0 ∨ NeverBlocks E) (hW : W → a.heartbeat = 0 ∨ ClockWorks E)
    (hm : ∀ x, (mergeCapabilities memcmp E.pe.alloc 0 (defaultProperties b) a.clientProperties x).isUB = false)
    (hsrv : HarmlessServer a.frameMax S) (m0 : Nat → UInt8) :
    (login E b memcmp mem a (newConn m0)).Then (Lands W E S) (LoggedOn W E S) := by
  unfold login loginInner
  by_cases c1 : a.channelMax < 0 ∨ a.channelMax > 65535
  · rw [if_pos c1]; exact (newConn_fit hA hsrv m0).lands (by decide) (by decide)
  rw [if_neg c1]
  by_cases c2 : a.frameMax < 0
  · rw [if_pos c2]; exact (newConn_fit hA hsrv m0).lands (by decide) (by decide)
  rw [if_neg c2]
  by_cases c3 : a.heartbeat < 0 ∨ a.heartbeat > 65535
  · rw [if_pos c3]; exact (newConn_fit hA hsrv m0).lands (by decide) (by decide)
  rw [if_neg c3]
  have h := loginSteps_then hA hS b mem (by omega) h31 hbeat hW hm (getHandshakeTimeout (newConn m0).timeouts) hsrv m0
  revert h
  cases loginSteps E b memcmp mem a (getHandshakeTimeout (newConn m0).timeouts) (newConn m0) with
  | ok r t => exact fun h => h
  | err e t =>
    intro h hw
    obtain ⟨Q, room, h20, hr, hf⟩ := h hw
    exact ⟨Q, room, h20, hr, hf.close⟩
  | ub => exact fun h => h
  | fuel => exact fun _ => trivial

end Rmq
