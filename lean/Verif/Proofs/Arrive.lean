import Verif.Proofs.Consume
import Verif.Proofs.Silent
import Verif.Proofs.Outgoing
import Verif.Spec.Arrive
import Verif.Proofs.HeartbeatKept
/-!
# Nothing but the outside can keep a message from arriving
-/
namespace Rmq

/-- What is in the receive buffer and `X` after it is a sequence of frames the parser accepts, the last perhaps incomplete. -/
def Sane (E : NetEnv) (s : Conn) (X : Bytes) : Prop := (drain E.pe.ideal (s.inb ++ X).length s.ps (s.inb ++ X)).2.val? = some ()

theorem drain_sim_ok (E : PEnv) : ∀ (n : Nat) (s t : PState) (d : Bytes), PSim s t → Good s → Good t →
    (drain E.ideal n s d).2.val? = (drain E.ideal n t d).2.val? := by
  intro n
  induction n with
  | zero =>
    intro s t d _ _ _
    unfold drain
    dsimp only
    by_cases hd : d = []
    · rw [if_pos hd, if_pos hd]; rfl
    · rw [if_neg hd, if_neg hd]
  | succ n ih =>
    intro s t d hS hs ht
    by_cases hd : d = []
    · subst hd; rw [drain_nil, drain_nil]; rfl
    rw [drain_succ hd, drain_succ hd]
    have h := handleInput_follow E.ideal hS hs.1 ht.1 d
    have h' := handleInput_follow E.ideal hS.symm ht.1 hs.1 d
    rw [PEnv.ideal_ideal] at h h'
    revert h h'
    cases h1 : handleInput E.ideal s d with
    | ok r s' =>
      cases h2 : handleInput E.ideal t d with
      | ok r' t' =>
        intro h _
        obtain ⟨rfl, hS'⟩ := h
        obtain ⟨k, f⟩ := r
        have g := handleInput_ready hs.1 hd h1
        have g' := handleInput_ready ht.1 hd h2
        dsimp only
        rw [ih s' t' (d.drop k) hS' ⟨g.1, hS'.started⟩ ⟨g'.1, by rw [← hS'.mode]; exact hS'.started⟩]
      | err e t' => exact fun h => h.elim
      | ub => exact fun h => h.elim
      | fuel => exact fun h => h.elim
    | err e s' =>
      cases h2 : handleInput E.ideal t d with
      | ok r' t' => exact fun _ h => h.elim
      | err e' t' => exact fun _ _ => rfl
      | ub => exact fun _ h => h.elim
      | fuel => exact fun _ h => h.elim
    | ub =>
      cases h2 : handleInput E.ideal t d with
      | ok r' t' => exact fun h => h.elim
      | err e' t' => exact fun h => h.elim
      | ub => exact fun _ _ => rfl
      | fuel => exact fun h => h.elim
    | fuel =>
      cases h2 : handleInput E.ideal t d with
      | ok r' t' => exact fun h => h.elim
      | err e' t' => exact fun h => h.elim
      | ub => exact fun h => h.elim
      | fuel => exact fun _ _ => rfl

theorem PEnv.ideal_of {E : PEnv} (h : ∀ k, E.alloc k = true) : E.ideal = E := by
  obtain ⟨be, alloc⟩ := E
  unfold PEnv.ideal
  have : alloc = fun _ => true := funext h
  subst this
  rfl

/-- With memory to spare, the parser takes the next step of a sane stream. -/
theorem Sane.step {E : NetEnv} (hA : ∀ k, E.pe.alloc k = true) {s : Conn} (hG : Good s.ps) {X : Bytes} (h : Sane E s X) :
    ∃ k f p, handleInput E.pe s.ps s.inb = .ok (k, f) p ∧ Sane E { s with ps := p, inb := s.inb.drop k } X := by
  unfold Sane at h
  rw [PEnv.ideal_of hA] at h
  by_cases hd : s.inb = []
  · refine ⟨0, none, s.ps, by rw [hd]; rfl, ?_⟩
    unfold Sane
    rw [PEnv.ideal_of hA]
    exact h
  rw [drain_append E.pe s.inb.length s.ps s.inb X hG.1 (Nat.le_refl _)] at h
  have hl : s.inb.length = (s.inb.length - 1) + 1 := by
    have := List.length_pos_iff.2 hd; omega
  rw [hl, drain_succ hd] at h
  cases h1 : handleInput E.pe s.ps s.inb with
  | err e p => rw [h1] at h; cases h
  | ub => rw [h1] at h; cases h
  | fuel => rw [h1] at h; cases h
  | ok r p =>
    obtain ⟨k, f⟩ := r
    rw [h1] at h
    dsimp only at h
    obtain ⟨g, hk1, hk2⟩ := handleInput_ready hG.1 hd h1
    refine ⟨k, f, p, rfl, ?_⟩
    rw [andThen_pre, ← drain_append E.pe _ p _ _ g (by rw [List.length_drop]; omega)] at h
    unfold Sane
    rw [PEnv.ideal_of hA]
    exact h

theorem Sane.sim {E : NetEnv} {s t : Conn} (hS : PSim s.ps t.ps) (hG : Good s.ps) (hi : t.inb = s.inb) {X : Bytes} (h : Sane E s X) : Sane E t X := by
  unfold Sane at *
  rw [hi, ← drain_sim_ok E.pe _ _ _ _ hS hG (hS.good hG)]
  exact h

/-- A stream of frames is sane. -/
theorem Stream.sane {E : NetEnv} {fm : Nat} {bs : Bytes} {fs : List AFrame} (h : Stream fm bs fs) :
    ∀ {s : PState}, Good s → s.mode = .idle → s.frameMax = fm → (drain E.pe.ideal bs.length s bs).2.val? = some () := by
  induction h with
  | nil => intro s _ _ _; rfl
  | @frame p q ty b rest fs ch hW hfm hsz _ ih =>
    intro s hs hm hf
    rcases handleInput_raw E.pe.ideal hs.1 hm ty ch b FRAME_END rest (by omega) (by omega) with ⟨_, _, hA⟩ | ⟨sB, hB, h⟩
    · exact absurd (fun _ => rfl) hA
    · obtain ⟨a, ha⟩ := payloadPhase_wire hW E.pe.ideal (fun _ => rfl) sB ch (b.length + 8) hsz
      have hk : handleInput E.pe.ideal s (rawFrame ty ch b FRAME_END ++ rest) =
          .ok ((rawFrame ty ch b FRAME_END).length, some ⟨ch, q⟩) { sB with allocs := a }.idle := by
        rw [h, bodyPhase_good E.pe.ideal _ hB, ha, rawFrame_length]
      have hne : rawFrame ty ch b FRAME_END ++ rest ≠ [] := by simp [rawFrame]
      have hl : (rawFrame ty ch b FRAME_END ++ rest).length = ((rawFrame ty ch b FRAME_END ++ rest).length - 1) + 1 := by
        have := List.length_pos_iff.2 hne; omega
      obtain ⟨g, hk1, hk2⟩ := handleInput_ready hs.1 hne hk
      rw [hl, drain_succ hne, hk]
      dsimp only
      rw [List.drop_left, drain_bound E.pe.ideal g (m := rest.length) (by simp [rawFrame_length]) (Nat.le_refl _)]
      exact ih ⟨g, by simp [PState.idle]⟩ rfl (by rw [← hf, ← hB.frameMax]; rfl)

theorem HbOff.settings {E : NetEnv} {s : Conn} (h : HbOff s) : HbSettings E s :=
  ⟨by have := h.1; omega, fun _ => h.2, .inl h.2.1, .inl h.2.2⟩

theorem HeartbeatsFine.settings {E : NetEnv} {s : Conn} (h : HeartbeatsFine E s) : HbSettings E s :=
  h.elim (fun h => HbOff.settings h) (·.1)

theorem HeartbeatsFine.unblocked {E : NetEnv} {s : Conn} (h : HeartbeatsFine E s) : Unblocked E s :=
  h.elim Or.inr fun h => Or.inl (Or.inr h.2.1)

/-- Nothing but the record of what happened changed, as far as heartbeats are concerned. -/
theorem HeartbeatsFine.same {E : NetEnv} {s t : Conn} (h : HeartbeatsFine E s) {l : List Ev} (hl : Since s t l) (h1 : t.heartbeat = s.heartbeat)
    (h2 : t.nextSend = s.nextSend) (h3 : t.nextRecv = s.nextRecv) : HeartbeatsFine E t := by
  rcases h with h | ⟨a, b⟩
  · exact .inl (by rw [h1, h2, h3]; exact h)
  · exact .inr ⟨a.mono h1 h2 h3 (since_time_le hl), b⟩

theorem HeartbeatsFine.same0 {E : NetEnv} {s t : Conn} (h : HeartbeatsFine E s) (hl : t.log = s.log) (h1 : t.heartbeat = s.heartbeat)
    (h2 : t.nextSend = s.nextSend) (h3 : t.nextRecv = s.nextRecv) : HeartbeatsFine E t :=
  h.same (l := []) (by unfold Since; rw [hl]; simp) h1 h2 h3

theorem HeartbeatsFine.push {E : NetEnv} {s : Conn} (h : HeartbeatsFine E s) (e : Ev) : HeartbeatsFine E (s.push e) :=
  h.same (l := [e]) rfl rfl rfl rfl

theorem HeartbeatsFine.ext {E : NetEnv} {s : Conn} (h : HeartbeatsFine E s) (l : List Ev) : HeartbeatsFine E (s.ext l) :=
  h.same (l := l) rfl rfl rfl rfl

/-- The next heartbeat expected is fixed anew. -/
theorem HeartbeatsFine.restartRecv {E : NetEnv} {s : Conn} (h : HeartbeatsFine E s) :
    ∃ l nr, restartRecv E s = .ok () { s.ext l with nextRecv := nr } ∧ Quiet l ∧ HeartbeatsFine E { s.ext l with nextRecv := nr } := by
  have hok : ∃ t, Rmq.restartRecv E s = .ok () t := by
    unfold Rmq.restartRecv
    by_cases h0 : s.heartbeat ≤ 0
    · rw [sFromNowIO_off E (by omega)]; exact ⟨_, if_pos rfl⟩
    · rcases h with h | ⟨hS, _, hC, hz⟩
      · exact absurd h.1 h0
      · rw [sFromNowIO_on E (by omega) (by have := hS.1; omega) _ _ (hC.2 _), if_neg (hz _)]; exact ⟨_, if_pos rfl⟩
  obtain ⟨t, ht⟩ := hok
  have h1 := restartRecv_eff E s
  rw [ht] at h1
  obtain ⟨nr, l, rfl, hl⟩ := h1
  refine ⟨l, nr, ht, hl, ?_⟩
  rcases h with h | ⟨hS, b⟩
  · have h3 := ht
    unfold Rmq.restartRecv at h3
    rw [sFromNowIO_off E (by have := h.1; omega)] at h3
    dsimp only at h3
    rw [if_pos rfl] at h3
    injection h3 with _ h3
    rw [← h3]
    exact .inl ⟨h.1, h.2.1, rfl⟩
  · have := hb_restartRecv b.2.1 hS rfl rfl (.inl rfl) (Nat.le_refl _)
    rw [ht] at this
    exact .inr ⟨this, b⟩

/-- The next heartbeat to send is fixed anew. -/
theorem HeartbeatsFine.restartSend {E : NetEnv} {s : Conn} (h : HeartbeatsFine E s) :
    ∃ l ns, restartSend E s = .ok () { s.ext l with nextSend := ns } ∧ Quiet l ∧ HeartbeatsFine E { s.ext l with nextSend := ns } := by
  have hok : ∃ t, Rmq.restartSend E s = .ok () t := by
    unfold Rmq.restartSend
    by_cases h0 : s.heartbeat ≤ 0
    · rw [sFromNowIO_off E h0]; exact ⟨_, if_pos rfl⟩
    · rcases h with h | ⟨hS, _, hC, hz⟩
      · exact absurd h.1 h0
      · rw [sFromNowIO_on E (by omega) (by have := hS.1; omega) _ _ (hC.2 _), if_neg (hz _)]; exact ⟨_, if_pos rfl⟩
  obtain ⟨t, ht⟩ := hok
  have h1 := restartSend_eff E s
  rw [ht] at h1
  obtain ⟨ns, l, rfl, hl⟩ := h1
  refine ⟨l, ns, ht, hl, ?_⟩
  rcases h with h | ⟨hS, b⟩
  · have := (off_closed E).restartSend h
    rw [ht] at this
    exact .inl this
  · have := (hb_closed b.2.1).restartSend hS
    rw [ht] at this
    exact .inr ⟨this, b⟩

/-- The connection is open and its heartbeats do no harm, its parser has been started; memory is to spare. -/
structure Calm0 (E : NetEnv) (s : Conn) : Prop where
  good : Good s.ps
  heart : HeartbeatsFine E s
  isOpen : s.isOpen = true

/-- All went well between `s` and `t`: what was sane stays so. -/
def Track (E : NetEnv) (s t : Conn) : Prop :=
  Calm0 E t ∧ ∃ l, Since s t l ∧ ∀ X, Sane E s (recvBytes l ++ X) → Sane E t X

/-- If the outside did not fail between `s` and `t`, what was received is not the beginning of a sane stream. -/
def Lost (E : NetEnv) (s t : Conn) : Prop :=
  ∃ l, Since s t l ∧ ((∀ e ∈ l, e.fine) → ∀ X, ¬ Sane E s (recvBytes l ++ X))

theorem Track.trans {E : NetEnv} {s t u : Conn} (h : Track E s t) (h' : Track E t u) : Track E s u := by
  obtain ⟨_, l, h1, h2⟩ := h
  obtain ⟨c, l', h3, h4⟩ := h'
  refine ⟨c, l ++ l', h1.trans h3, fun X hX => h4 X (h2 _ ?_)⟩
  rw [recvBytes_append, List.append_assoc] at hX
  exact hX

theorem Track.lost {E : NetEnv} {s t u : Conn} (h : Track E s t) (h' : Lost E t u) : Lost E s u := by
  obtain ⟨_, l, h1, h2⟩ := h
  obtain ⟨l', h3, h4⟩ := h'
  refine ⟨l ++ l', h1.trans h3, fun hf X hX => h4 (fun e he => hf e (by simp [he])) X (h2 _ ?_)⟩
  rw [recvBytes_append, List.append_assoc] at hX
  exact hX

/-- A failure of the outside. -/
theorem Lost.event {E : NetEnv} {s t : Conn} {l : List Ev} (h : Since s t l) {e : Ev} (he : e ∈ l) (hf : ¬ e.fine) : Lost E s t :=
  ⟨l, h, fun h => absurd (h e he) hf⟩

theorem Lost.more {E : NetEnv} {s t u : Conn} {l l' : List Ev} (h : Since s t l) {e : Ev} (he : e ∈ l) (hf : ¬ e.fine) (h' : Since t u l') : Lost E s u :=
  .event (h.trans h') (List.mem_append_left _ he) hf

theorem Track.same {E : NetEnv} {s t : Conn} (hC : Calm0 E s) {l : List Ev} (h : Since s t l) (hr : recvBytes l = []) (hS : PSim s.ps t.ps)
    (hi : t.inb = s.inb) (ho : HeartbeatsFine E t) (hq : t.isOpen = true) : Track E s t :=
  ⟨⟨hS.good hC.good, ho, hq⟩, l, h, fun X hX => by rw [hr] at hX; exact Sane.sim hS hC.good hi hX⟩

theorem Track.refl {E : NetEnv} {s : Conn} (hC : Calm0 E s) : Track E s s :=
  .same hC (l := []) (by simp [Since]) rfl (PSim.refl hC.good.1 hC.good.2) rfl hC.heart hC.isOpen

/-- Between `s` and `t` nothing was lost: the queue is as it was, the frames to come are the same, and what was sane stays so. -/
def Unharmed (E : NetEnv) (s t : Conn) : Prop :=
  Calm0 E t ∧ t.queue = s.queue ∧
  ∃ l, Since s t l ∧ ∀ X, (Sane E s (recvBytes l ++ X) → Sane E t X) ∧ pending E t X = pending E s (recvBytes l ++ X)

theorem Unharmed.track {E : NetEnv} {s t : Conn} (h : Unharmed E s t) : Track E s t := by
  obtain ⟨c, _, l, h1, h2⟩ := h
  exact ⟨c, l, h1, fun X => (h2 X).1⟩

theorem Unharmed.trans {E : NetEnv} {s t u : Conn} (h : Unharmed E s t) (h' : Unharmed E t u) : Unharmed E s u := by
  obtain ⟨_, q, l, h1, h2⟩ := h
  obtain ⟨c, q', l', h3, h4⟩ := h'
  refine ⟨c, q'.trans q, l ++ l', h1.trans h3, fun X => ?_⟩
  rw [recvBytes_append, List.append_assoc]
  exact ⟨fun hX => (h4 X).1 ((h2 _).1 hX), (h4 X).2.trans (h2 _).2⟩

theorem Unharmed.same {E : NetEnv} {s t : Conn} (hC : Calm0 E s) {l : List Ev} (h : Since s t l) (hr : recvBytes l = []) (hS : PSim s.ps t.ps)
    (hi : t.inb = s.inb) (hq : t.queue = s.queue) (ho : HeartbeatsFine E t) (hp : t.isOpen = true) : Unharmed E s t :=
  ⟨⟨hS.good hC.good, ho, hp⟩, hq, l, h, fun X => by
    rw [hr]
    refine ⟨fun hX => Sane.sim hS hC.good hi hX, ?_⟩
    unfold pending
    rw [hq, hi, framesOf_sim E.pe hS hC.good]
    rfl⟩

theorem Unharmed.refl {E : NetEnv} {s : Conn} (hC : Calm0 E s) : Unharmed E s s :=
  .same hC (l := []) (by simp [Since]) rfl (PSim.refl hC.good.1 hC.good.2) rfl rfl hC.heart hC.isOpen

/-- Only the record of what happened has grown, and nothing was received. -/
theorem Unharmed.quiet {E : NetEnv} {s : Conn} (hC : Calm0 E s) {l : List Ev} (hl : Quiet l) : Unharmed E s (s.ext l) := by
  refine .same hC (l := l) rfl ?_ (PSim.refl hC.good.1 hC.good.2) rfl rfl (hC.heart.ext l) hC.isOpen
  unfold recvBytes
  rw [List.flatMap_eq_nil_iff]
  intro e he
  have := hl e he
  cases e <;> first | rfl | cases this

/-- A failure of the outside. -/
def Failed (s t : Conn) : Prop := ∃ l, Since s t l ∧ ∃ e ∈ l, ¬ e.fine

theorem Failed.of {s t : Conn} (e : Ev) (l : List Ev) (h : Since s t (l ++ [e])) (hf : ¬ e.fine) : Failed s t :=
  ⟨_, h, e, List.mem_append_right _ (List.mem_singleton.2 rfl), hf⟩

theorem Failed.then {s t u : Conn} {l : List Ev} (h : Since s t l) (h' : Failed t u) : Failed s u := by
  obtain ⟨l', h1, e, he, hf⟩ := h'
  exact ⟨l ++ l', h.trans h1, e, List.mem_append_right _ he, hf⟩

theorem Unharmed.failed {E : NetEnv} {s t u : Conn} (h : Unharmed E s t) (h' : Failed t u) : Failed s u := by
  obtain ⟨_, _, l, h2, _⟩ := h
  exact .then h2 h'

/-- A failure of the outside, or nothing lost in spite of a limit; that can only have run out, if the clock works and it is near. -/
def Unhurt (E : NetEnv) (D : Nat) (s : Conn) (e : Int) (t : Conn) : Prop :=
  Failed s t ∨ (Unharmed E s t ∧ D ≠ TIME_INF ∧ ((∀ k, E.clock k ≠ 0) → Near E s.time D → e = St.TIMEOUT))

theorem Unharmed.then {E : NetEnv} {D : Nat} {s t u : Conn} {e : Int} (h : Unharmed E s t) (h' : Unhurt E D t e u) : Unhurt E D s e u := by
  rcases h' with h' | ⟨h', hD, hN⟩
  · exact .inl (h.failed h')
  · refine .inr ⟨h.trans h', hD, fun hz hn => hN hz (hn.mono ?_)⟩
    obtain ⟨_, _, l, h2, _⟩ := h
    exact since_time_le h2

theorem msUntilIO_near {E : NetEnv} (hz : ∀ k, E.clock k ≠ 0) {D : Nat} {s : Conn} (hD : Near E s.time D) : -1 ≤ (msUntilIO E D s).1 := by
  unfold msUntilIO
  rcases hD with rfl | ⟨h0, h1, h2⟩
  · rw [if_pos (Or.inl rfl)]; exact (by decide : (-1 : Int) ≤ msUntil 0 TIME_INF)
  · rw [if_neg (by omega)]
    show -1 ≤ msUntil (E.clock s.time) D
    have h3 := (h2 s.time (Nat.le_refl _)).resolve_left (hz _)
    unfold msUntil
    rw [if_neg (by omega), if_neg (by omega), if_neg (hz _)]
    split
    · omega
    · unfold toInt32
      rw [if_pos (by omega)]
      omega

theorem pollFd_harmless {E : NetEnv} (D : Nat) (d : Dir) : ∀ (n : Nat) {s : Conn}, Calm0 E s →
    match pollFd E d D n s with
    | .ok () t => Unharmed E s t ∧ t.inb = s.inb
    | .err e t => Unhurt E D s e t ∧ t.inb = s.inb
    | _ => True := by
  intro n
  induction n with
  | zero => intro s _; trivial
  | succ n ih =>
    intro s hC
    have hinf : D = TIME_INF → (msUntilIO E D s).1 = -1 := by
      rintro rfl; unfold msUntilIO; rw [if_pos (Or.inl rfl)]; rfl
    have hnear := fun hz hD => msUntilIO_near (E := E) hz (D := D) (s := s) hD
    obtain ⟨l, h1, hl⟩ := msUntilIO_ext E D s
    unfold pollFd
    revert h1 hinf hnear
    obtain ⟨ms, u⟩ := msUntilIO E D s
    intro hinf hnear h1
    dsimp only at h1 hinf hnear ⊢
    subst h1
    have q0 := Unharmed.quiet hC hl
    by_cases hms : -1 > ms
    · rw [if_pos hms]
      refine ⟨.inr ⟨q0, fun e => ?_, fun hz hD => ?_⟩, rfl⟩
      · rw [hinf e] at hms; exact absurd hms (by decide)
      · have := hnear hz hD; omega
    rw [if_neg hms]
    have tr : ∀ r, Unharmed E s ((s.ext l).push (.poll d ms r)) := fun r =>
      q0.trans (.same q0.1 (l := [_]) rfl rfl (PSim.refl hC.good.1 hC.good.2) rfl rfl (q0.1.heart.push _) hC.isOpen)
    have bad : ∀ r e, ¬ (Ev.poll d ms r).fine → Unhurt E D s e ((s.ext l).push (.poll d ms r)) := fun r e hr =>
      .inl (.of _ l (by unfold Since Conn.push Conn.ext; simp) hr)
    cases E.poll (s.ext l).time with
    | ready => exact ⟨tr _, rfl⟩
    | timeout =>
      refine ⟨?_, rfl⟩
      by_cases h0 : 0 ≤ ms
      · refine .inr ⟨tr _, fun e => ?_, fun _ _ => rfl⟩
        rw [hinf e] at h0; exact absurd h0 (by decide)
      · exact bad _ _ (by simpa [Ev.fine] using h0)
    | error => exact ⟨bad _ _ (by simp [Ev.fine]), rfl⟩
    | intr =>
      dsimp only
      have h := ih (tr .intr).1
      revert h
      cases pollFd E d D n ((s.ext l).push (.poll d ms .intr)) with
      | ok a t => exact fun h => ⟨(tr .intr).trans h.1, h.2⟩
      | err e t => exact fun h => ⟨(tr .intr).then h.1, h.2⟩
      | ub => exact id
      | fuel => exact id

theorem recvWithTimeout_harmless {E : NetEnv} (D : Nat) : ∀ (n : Nat) {s : Conn}, Calm0 E s → s.inb = [] →
    match recvWithTimeout E D n s with
    | .ok () t => Unharmed E s t
    | .err e t => Unhurt E D s e t
    | _ => True := by
  intro n
  induction n with
  | zero => intro s _ _; trivial
  | succ n ih =>
    intro s hC hi
    unfold recvWithTimeout
    rw [if_neg (by rw [hC.isOpen]; decide)]
    cases hr : E.recv s.time s.received with
    | data b =>
      dsimp only
      obtain ⟨l, nr, h1, hl, hH⟩ := HeartbeatsFine.restartRecv
        (HeartbeatsFine.push (s := { s with inb := b.take SOCK_BUF }) (hC.heart.same0 rfl rfl rfl rfl) (.recvData (b.take SOCK_BUF)))
      rw [h1]
      have hrl : recvBytes l = [] := by
        unfold recvBytes
        rw [List.flatMap_eq_nil_iff]
        intro e he
        have := hl e he
        cases e <;> first | rfl | cases this
      have hrb : recvBytes (.recvData (b.take SOCK_BUF) :: l) = b.take SOCK_BUF := by
        have : recvBytes (.recvData (b.take SOCK_BUF) :: l) = b.take SOCK_BUF ++ recvBytes l := by simp [recvBytes, Ev.delivered]
        rw [this, hrl, List.append_nil]
      refine ⟨⟨hC.good, hH, hC.isOpen⟩, rfl, .recvData (b.take SOCK_BUF) :: l, by simp [Since, Conn.ext, Conn.push], fun X => ⟨fun hX => ?_, ?_⟩⟩
      · unfold Sane at *
        rw [hi, hrb] at hX
        simpa [Conn.push, Conn.ext] using hX
      · unfold pending
        rw [hi, hrb]
        simp [Conn.push, Conn.ext]
    | fail k =>
      dsimp only
      have tr : Unharmed E s (s.push (.recvFail (-(k + 1 : Nat)))) :=
        .same hC (l := [_]) rfl rfl (PSim.refl hC.good.1 hC.good.2) rfl rfl (hC.heart.push _) hC.isOpen
      have goOn : ∀ d, match (match pollFd E d D E.fuel (s.push (.recvFail (-(k + 1 : Nat)))) with
          | .ok () s => recvWithTimeout E D n s
          | .err e s => .err e s
          | .ub => .ub
          | .fuel => .fuel : Res Conn Unit) with
          | .ok () t => Unharmed E s t
          | .err e t => Unhurt E D s e t
          | _ => True := by
        intro d
        have h := pollFd_harmless D d E.fuel tr.1
        revert h
        cases pollFd E d D E.fuel (s.push (.recvFail (-(k + 1 : Nat)))) with
        | ub => exact id
        | fuel => exact id
        | err e t => exact fun h => tr.then h.1
        | ok a t =>
          rintro ⟨h, hti⟩
          dsimp only
          have h2 := ih h.1 (hti.trans hi)
          have tt := tr.trans h
          revert h2
          cases recvWithTimeout E D n t with
          | ok a u => exact fun h => tt.trans h
          | err e u => exact fun h => tt.then h
          | ub => exact id
          | fuel => exact id
      by_cases h1 : (-(k + 1 : Nat) : Int) = St.PRIVATE_NEED_READ
      · rw [if_pos h1]; exact goOn .read
      rw [if_neg h1]
      by_cases h2 : (-(k + 1 : Nat) : Int) = St.PRIVATE_NEED_WRITE
      · rw [if_pos h2]; exact goOn .write
      rw [if_neg h2]
      exact .inl (.of _ [] rfl (by simp [Ev.fine, wouldBlock]; exact ⟨by simpa using h1, by simpa using h2⟩))

/-- A heartbeat is sent, unless sending fails. -/
theorem sendBeat_harmless {E : NetEnv} (hP : HeartbeatsPass E) {s : Conn} (hC : Calm0 E s) :
    match sendFrame E ⟨0, .heartbeat⟩ SF_NONE TIME_INF s with
    | .ok () t => Unharmed E s t ∧ t.inb = s.inb
    | .err _ t => Failed s t
    | _ => True := by
  unfold sendFrame
  cases hfb : frameToBytes E.pe.be s.outMem s.outLen ⟨0, .heartbeat⟩ with
  | ub => trivial
  | fuel => trivial
  | err e mem =>
    exfalso
    unfold frameToBytes at hfb
    dsimp only at hfb
    split at hfb; · cases hfb
    split at hfb; · cases hfb
    unfold finishFrame at hfb
    split at hfb; · cases hfb
    split at hfb <;> cases hfb
  | ok enc mem =>
    have := frameToBytes_heartbeat hfb
    subst this
    dsimp only
    cases hfu : E.fuel with
    | zero => trivial
    | succ n =>
      unfold sendLoop
      dsimp only
      rw [hfu]
      unfold trySend sockSend
      rw [if_pos (show ({ s with outMem := mem } : Conn).isOpen = true from hC.isOpen)]
      have hp := hP ({ s with outMem := mem } : Conn).time
      cases hE : E.send ({ s with outMem := mem } : Conn).time [8, 0, 0, 0, 0, 0, 0, 206] with
      | sent k =>
        rw [hE] at hp
        dsimp only at hp ⊢
        have hk : (min k ([8, 0, 0, 0, 0, 0, 0, 206] : Bytes).length : Nat) = 8 := by simp; omega
        rw [hk]
        rw [if_pos (by decide), if_pos (by decide)]
        dsimp only
        rw [if_neg (by decide)]
        have hH := hC.heart.same (t := ({ s with outMem := mem } : Conn).push (.send [8, 0, 0, 0, 0, 0, 0, 206] SF_NONE ((8 : Nat) : Int))) (l := [_]) rfl rfl rfl rfl
        obtain ⟨l, ns, h1, hl, hH'⟩ := hH.restartSend
        rw [h1]
        refine ⟨.same hC (l := .send [8, 0, 0, 0, 0, 0, 0, 206] SF_NONE ((8 : Nat) : Int) :: l) (by simp [Since, Conn.ext, Conn.push]) ?_
          (PSim.refl hC.good.1 hC.good.2) rfl rfl hH' hC.isOpen, rfl⟩
        unfold recvBytes
        rw [List.flatMap_eq_nil_iff]
        intro e he
        rcases List.mem_cons.1 he with rfl | he
        · rfl
        · have := hl e he
          cases e <;> first | rfl | cases this
      | fail k =>
        rw [hE] at hp
        obtain ⟨h1, h2, h3⟩ := hp
        dsimp only
        rw [if_neg (by omega)]
        have hd : doPoll E (-((k + 1 : Nat) : Int)) (timeFirst TIME_INF ({ s with outMem := mem } : Conn).nextRecv)
              (({ s with outMem := mem } : Conn).push (.send [8, 0, 0, 0, 0, 0, 0, 206] SF_NONE (-((k + 1 : Nat) : Int)))) =
              .err (-((k + 1 : Nat) : Int)) (({ s with outMem := mem } : Conn).push (.send [8, 0, 0, 0, 0, 0, 0, 206] SF_NONE (-((k + 1 : Nat) : Int)))) := by
          unfold doPoll
          rw [if_neg (by simp [Conn.push, hC.isOpen]), if_neg h1, if_neg h2, if_neg (by simp only [St.OK]; omega)]
        rw [hd]
        dsimp only
        rw [if_neg h3]
        exact .of _ [] rfl (by simp only [Ev.fine]; omega)

theorem Near.first {E : NetEnv} {n a b : Nat} (ha : Near E n a) (hb : Near E n b) : Near E n (timeFirst a b) := by
  rw [timeFirst_min]; exact ha.min hb

theorem timeFirst_or (a b : Nat) : timeFirst a b = a ∨ timeFirst a b = b := by unfold timeFirst; split <;> simp

theorem Unharmed.time {E : NetEnv} {s t : Conn} (h : Unharmed E s t) : s.time ≤ t.time := by
  obtain ⟨_, _, l, h1, _⟩ := h
  exact since_time_le h1

/-- What receiving with an empty buffer can come to. -/
theorem beginRecv_harmless {E : NetEnv} {D : Nat} (hD0 : D ≤ TIME_INF) {s : Conn} (hC : Calm0 E s) (hi : s.inb = []) :
    match beginRecv E D s with
    | .ok b t => Unharmed E s t ∧ (b = true → t.inb = [])
    | .err e t => Failed s t ∨ (Unharmed E s t ∧ D ≠ TIME_INF ∧ ((∀ k, E.clock k ≠ 0) → Near E s.time D → e = St.TIMEOUT))
    | _ => True := by
  have hpast : (hasPastIO E s.nextSend s).1 ≠ St.TIMER_FAILURE := by
    unfold hasPastIO
    by_cases h0 : TIME_INF = s.nextSend
    · rw [if_pos h0, ← h0, hasPast_inf]; exact (by decide : St.OK ≠ St.TIMER_FAILURE)
    · rcases hC.heart with h | ⟨_, _, _, hz⟩
      · exact absurd h.2.1.symm h0
      · rw [if_neg h0]
        show hasPast (E.clock s.time) s.nextSend ≠ _
        unfold hasPast
        rw [if_neg h0, if_neg (hz _)]
        split <;> decide
  have hon : (hasPastIO E s.nextSend s).1 = St.TIMEOUT → HeartbeatsPass E := by
    intro ht
    rcases hC.heart with h | h
    · rw [h.2.1, hasPastIO_inf] at ht; exact absurd ht (by decide : St.OK ≠ St.TIMEOUT)
    · exact h.2.1
  obtain ⟨l, h1, hl⟩ := hasPastIO_ext E s.nextSend s
  unfold beginRecv
  revert h1 hpast hon
  obtain ⟨res, s1⟩ := hasPastIO E s.nextSend s
  intro hpast hon h1
  dsimp only at hpast hon h1 ⊢
  subst h1
  rw [if_neg hpast]
  have q0 := Unharmed.quiet hC hl
  have h2 : match (if res = St.TIMEOUT then sendFrame E ⟨0, .heartbeat⟩ SF_NONE TIME_INF (s.ext l) else .ok () (s.ext l) : Res Conn Unit) with
      | .ok () t => Unharmed E s t ∧ t.inb = []
      | .err _ t => Failed s t
      | _ => True := by
    by_cases hr : res = St.TIMEOUT
    · rw [if_pos hr]
      have h := sendBeat_harmless (hon hr) q0.1
      revert h
      cases sendFrame E ⟨0, .heartbeat⟩ SF_NONE TIME_INF (s.ext l) with
      | ok a t => exact fun h => ⟨q0.trans h.1, h.2.trans hi⟩
      | err e t => exact fun h => q0.failed h
      | ub => exact id
      | fuel => exact id
    · rw [if_neg hr]; exact ⟨q0, hi⟩
  revert h2
  cases (if res = St.TIMEOUT then sendFrame E ⟨0, .heartbeat⟩ SF_NONE TIME_INF (s.ext l) else .ok () (s.ext l) : Res Conn Unit) with
  | ub => exact fun _ => trivial
  | fuel => exact fun _ => trivial
  | err e t => exact Or.inl
  | ok a t =>
    rintro ⟨qt, hti⟩
    dsimp only
    have hset := qt.1.heart.settings
    have hLor := timeFirst_or D (timeFirst t.nextRecv t.nextSend)
    have hnear : Near E t.time (timeFirst t.nextRecv t.nextSend) := hset.2.2.2.first hset.2.2.1
    generalize hL : timeFirst D (timeFirst t.nextRecv t.nextSend) = L at hLor ⊢
    have h3 := recvWithTimeout_harmless (E := E) L E.fuel qt.1 hti
    have h4 := fun u => recvWithTimeout_timeout (E := E) L E.fuel t u
    revert h3 h4
    cases recvWithTimeout E L E.fuel t with
    | ok b u => exact fun h _ => ⟨qt.trans h, nofun⟩
    | ub => exact fun h _ => h
    | fuel => exact fun h _ => h
    | err e u =>
      intro h h4
      dsimp only
      by_cases ht : e = St.TIMEOUT
      · rw [if_pos ht]
        subst ht
        obtain ⟨l', rfl, hpl⟩ := h4 u rfl
        by_cases c1 : timeEqual L (t.ext l').nextRecv = true
        · rw [if_pos c1]
          refine .inl (qt.failed ?_)
          unfold sockClose
          rw [if_neg (by rw [show (t.ext l').isOpen = t.isOpen from rfl, qt.1.isOpen]; decide)]
          split
          · exact .of (.close true) l' (by simp [Since, Conn.ext, Conn.push]) (by simp [Ev.fine])
          · exact .of (.close false) l' (by simp [Since, Conn.ext, Conn.push]) (by simp [Ev.fine])
        rw [if_neg c1]
        by_cases c2 : timeEqual L D = true
        · rw [if_pos c2]
          rcases h with h | ⟨h, hne, _⟩
          · exact .inl (qt.failed h)
          · refine .inr ⟨qt.trans h, ?_, fun _ _ => rfl⟩
            rw [← show L = D by simpa [timeEqual] using c2]; exact hne
        rw [if_neg c2]
        by_cases c3 : timeEqual L (t.ext l').nextSend = true
        · rw [if_pos c3]
          refine ⟨qt.trans (.same qt.1 (l := l') rfl ?_ (PSim.refl qt.1.good.1 qt.1.good.2) rfl rfl (qt.1.heart.ext l') qt.1.isOpen), fun _ => hti⟩
          unfold recvBytes
          rw [List.flatMap_eq_nil_iff]
          intro e he
          have := hpl e he
          cases e <;> first | rfl | cases this
        rw [if_neg c3]; trivial
      · rw [if_neg ht]
        rcases h with h | ⟨h, hne, hN⟩
        · exact .inl (qt.failed h)
        · refine .inr ⟨qt.trans h, ?_, fun hz hD => absurd (hN hz (hL ▸ (hD.mono qt.time).first hnear)) ht⟩
          rintro rfl
          rcases hLor with h' | h'
          · exact hne h'
          · rcases qt.1.heart with ho | ⟨_, _, _, hz⟩
            · rw [ho.2.1, ho.2.2] at h'
              exact hne (h'.trans (by decide))
            · exact ht (hN hz (h' ▸ hnear))

/-- What waiting for a frame can come to, when it fails. -/
def Spared (E : NetEnv) (D : Nat) (e : Int) (s t : Conn) : Prop :=
  Lost E s t ∨ (Unharmed E s t ∧ D ≠ TIME_INF ∧ ((∀ k, E.clock k ≠ 0) → Near E s.time D → e = St.TIMEOUT))

theorem Failed.spared {E : NetEnv} {D : Nat} {e : Int} {s t : Conn} (h : Failed s t) : Spared E D e s t := by
  obtain ⟨l, h1, e, he, hf⟩ := h
  exact .inl (.event h1 he hf)

theorem Unharmed.spared {E : NetEnv} {D : Nat} {e : Int} {s t u : Conn} (h : Unharmed E s t) (h' : Spared E D e t u) : Spared E D e s u :=
  h'.imp (fun h' => h.track.lost h') fun h' => ⟨h.trans h'.1, h'.2.1, fun hz hD => h'.2.2 hz (hD.mono h.time)⟩

theorem waitInner_spared {E : NetEnv} (hA : ∀ k, E.pe.alloc k = true) {D : Nat} (hD : D ≤ TIME_INF) : ∀ (n : Nat) (b : Bool) {s : Conn}, Calm0 E s → (b = true → s.inb = []) →
    match waitInner E D n b s with
    | .ok _ t => Track E s t
    | .err e t => Spared E D e s t
    | _ => True := by
  intro n
  induction n with
  | zero => intro b s _ _; trivial
  | succ n ih =>
    intro b s hC hbi
    have step : ∀ (b' : Bool) {t : Conn}, Unharmed E s t → (b' = true → t.inb = []) → match waitInner E D n b' t with
      | .ok _ t => Track E s t
      | .err e t => Spared E D e s t
      | _ => True := by
      intro b' t ht hbi
      have := ih b' ht.1 hbi
      revert this
      cases waitInner E D n b' t with
      | ok f u => exact fun h => ht.track.trans h
      | err e u => exact fun h => ht.spared h
      | ub => exact id
      | fuel => exact id
    unfold waitInner
    by_cases hb : b = false ∧ s.inb ≠ []
    · rw [if_pos hb]
      have hstep := fun X => Sane.step hA hC.good (X := X)
      unfold consumeOne
      cases h1 : handleInput E.pe s.ps s.inb with
      | err e p =>
        refine .inl ⟨[], by simp [Since], fun _ X hX => ?_⟩
        obtain ⟨k, f, p', h2, _⟩ := hstep _ hX
        rw [h1] at h2; cases h2
      | ub => trivial
      | fuel => trivial
      | ok r p =>
        obtain ⟨k, f⟩ := r
        dsimp only
        obtain ⟨hg, _, hfs⟩ := framesOf_step E.pe hC.good h1
        have hsane : ∀ X, Sane E s X → Sane E (({ s with ps := p, inb := s.inb.drop k }).push (.parsed (s.inb.take k))) X := by
          intro X hX
          obtain ⟨k', f', p', h2, h3⟩ := hstep _ hX
          rw [h1] at h2
          cases h2
          exact h3
        have ht : Track E s (({ s with ps := p, inb := s.inb.drop k }).push (.parsed (s.inb.take k))) :=
          ⟨⟨hg, hC.heart.same (l := [_]) rfl rfl rfl rfl, hC.isOpen⟩, [_], rfl, fun X hX => hsane X hX⟩
        have hu : (f.toList.filter (!·.isHeartbeat) = []) → Unharmed E s (({ s with ps := p, inb := s.inb.drop k }).push (.parsed (s.inb.take k))) := by
          intro hf
          refine ⟨⟨hg, hC.heart.same (l := [_]) rfl rfl rfl rfl, hC.isOpen⟩, rfl, [_], rfl, fun X => ⟨fun hX => hsane X hX, ?_⟩⟩
          show pending E _ X = pending E s X
          unfold pending
          rw [hfs X, List.filter_append, List.filter_append, List.filter_append, hf]
          rfl
        cases f with
        | none => exact step false (hu rfl) nofun
        | some f =>
          dsimp only [Option.map_some]
          cases hp : f.payload <;> dsimp only
          case heartbeat =>
            have hu := hu (by simp [AFrame.isHeartbeat, hp])
            refine step false (hu.trans ?_) nofun
            obtain ⟨l, h4, h5⟩ := maybeReleaseOn_ext 0 (({ s with ps := p, inb := s.inb.drop k }).push (.parsed (s.inb.take k)))
            rw [h4]
            refine .same hu.1 rfl ?_ (PSim.refl hg.1 hg.2) rfl rfl (hu.1.heart.ext l) hu.1.isOpen
            rcases h5 with rfl | rfl <;> rfl
          all_goals exact ht
    · rw [if_neg hb]
      have hi : s.inb = [] := by
        cases b with
        | true => exact hbi rfl
        | false => exact Classical.byContradiction fun h => hb ⟨rfl, h⟩
      have h1 := beginRecv_harmless (E := E) hD hC hi
      revert h1
      cases beginRecv E D s with
      | ok a t => exact fun h => step a h.1 h.2
      | err e t => exact fun h => h.elim Failed.spared Or.inr
      | ub => exact id
      | fuel => exact id


theorem waitInner_track {E : NetEnv} (hA : ∀ k, E.pe.alloc k = true) (n : Nat) {s : Conn} (hC : Calm0 E s) :
    match waitInner E TIME_INF n false s with
    | .ok _ t => Track E s t
    | .err _ t => Lost E s t
    | _ => True := by
  have h := waitInner_spared hA (Nat.le_refl TIME_INF) n false hC nofun
  revert h
  cases waitInner E TIME_INF n false s with
  | ok f t => exact id
  | err e t => exact fun h => h.elim id fun h => absurd rfl h.2.1
  | ub => exact id
  | fuel => exact id

theorem waitFrame_track {E : NetEnv} (hA : ∀ k, E.pe.alloc k = true) {s : Conn} (hC : Calm0 E s) :
    match waitFrame E none s with
    | .ok _ t => Track E s t
    | .err _ t => Lost E s t
    | _ => True := by
  rw [waitFrame_def]
  unfold fromNowIO
  dsimp only
  cases hq : s.queue with
  | nil => exact waitInner_track hA E.fuel hC
  | cons f q => exact .same hC (l := []) (by simp [Since]) rfl (PSim.refl hC.good.1 hC.good.2) rfl (hC.heart.same0 rfl rfl rfl rfl) hC.isOpen

theorem queueFrame_track {E : NetEnv} (hA : ∀ k, E.pe.alloc k = true) {s : Conn} (hC : Calm0 E s) (f : DFrame) :
    ∃ t, queueFrame E f s = .ok () t ∧ Track E s t := by
  have h : ∃ t, queueFrame E f s = .ok () t := by
    unfold queueFrame createLink
    obtain ⟨p, hp⟩ := getPool_true hA s.ps f.frame.channel
    rw [hp]
    dsimp only [smallAlloc]
    rw [hA, hA]
    exact ⟨_, rfl⟩
  obtain ⟨t, ht⟩ := h
  refine ⟨t, ht, ?_⟩
  obtain ⟨a, p, hp⟩ := createLink_eff E f.frame.channel s
  unfold queueFrame at ht
  revert ht hp
  obtain ⟨b, u⟩ := createLink E f.frame.channel s
  cases b with
  | false => intro ht; cases ht
  | true =>
    rintro ht rfl
    cases ht
    exact .same hC (l := []) (by simp [Since]) rfl (PSim.allocs_right hC.good a p) rfl (hC.heart.same0 rfl rfl rfl rfl) hC.isOpen

theorem waitOnLoop_track {E : NetEnv} (hA : ∀ k, E.pe.alloc k = true) (ch : UInt16) : ∀ (n : Nat) {s : Conn}, Calm0 E s →
    match waitOnLoop E ch n s with
    | .ok _ t => Track E s t
    | .err _ t => Lost E s t
    | _ => True := by
  intro n
  induction n with
  | zero => intro s _; trivial
  | succ n ih =>
    intro s hC
    unfold waitOnLoop
    have h := waitInner_track hA E.fuel hC
    unfold waitFrameInner
    revert h
    cases waitInner E TIME_INF E.fuel false s with
    | err e t => exact id
    | ub => exact id
    | fuel => exact id
    | ok f t =>
      intro h
      dsimp only at h ⊢
      by_cases hc : f.frame.channel = ch
      · rw [if_pos hc]; exact h
      rw [if_neg hc]
      obtain ⟨u, h1, h2⟩ := queueFrame_track hA h.1 f
      rw [h1]
      dsimp only
      have h3 := ih h2.1
      have h4 := h.trans h2
      revert h3
      cases waitOnLoop E ch n u with
      | ok f t => exact fun h => h4.trans h
      | err e t => exact fun h => h4.lost h
      | ub => exact id
      | fuel => exact id

theorem waitFrameOn_track {E : NetEnv} (hA : ∀ k, E.pe.alloc k = true) (ch : UInt16) {s : Conn} (hC : Calm0 E s) :
    match waitFrameOn E ch s with
    | .ok _ t => Track E s t
    | .err _ t => Lost E s t
    | _ => True := by
  unfold waitFrameOn
  cases findQueued ch s.queue with
  | some p => exact .same hC (l := []) (by simp [Since]) rfl (PSim.refl hC.good.1 hC.good.2) rfl (hC.heart.same0 rfl rfl rfl rfl) hC.isOpen
  | none => exact waitOnLoop_track hA ch E.fuel hC

/-! ## Copying the properties succeeds -/

mutual
theorem FV.store_cloneable (v : FV) (h : kindsOK v) (k : keyedV v) : v.store.cloneable := by
  match v with
  | .array vs =>
    refine ⟨?_, FV.stores_cloneable vs h k⟩
    cases vs with
    | nil => exact Or.inl rfl
    | cons v vs => exact Or.inr (by simp [FV.stores])
  | .table es => exact FV.storeEs_cloneable es h k
  | .other _ => exact h
  | .boolean _ | .i8 _ | .u8 _ | .i16 _ | .u16 _ | .i32 _ | .u32 _ | .i64 _ | .u64 _ | .f32 _ | .f64 _ | .decimal _ _ | .utf8 _
  | .bytes _ | .timestamp _ | .void => trivial
theorem FV.stores_cloneable (vs : List FV) (h : kindsOKs vs) (k : keyedVs vs) : PV.cloneables (FV.stores vs) := by
  match vs with
  | [] => trivial
  | v :: vs => exact ⟨FV.store_cloneable v h.1 k.1, FV.stores_cloneable vs h.2 k.2⟩
theorem Entry.store_cloneable (e : Entry) (h : kindsOKE e) (k : keyedE e) : e.store.cloneable := by
  match e with
  | .mk _ v => exact ⟨k.1, FV.store_cloneable v h k.2⟩
theorem FV.storeEs_cloneable (es : List Entry) (h : kindsOKEs es) (k : keyedEs es) : PV.cloneableEs (FV.storeEs es) := by
  match es with
  | [] => trivial
  | e :: es => exact ⟨Entry.store_cloneable e h.1 k.1, FV.storeEs_cloneable es h.2 k.2⟩
end

theorem Rec.get?_mem {r : Rec} {f : Fld} {v : Val} (h : r.get? f = some v) : (f, v) ∈ r := by
  unfold Rec.get? at h
  cases hf : r.find? (fun p => p.1 = f) with
  | none => rw [hf] at h; cases h
  | some p =>
    rw [hf] at h
    cases h
    have := List.find?_some hf
    have hm := List.mem_of_find?_eq_some hf
    have e : p.1 = f := by simpa using this
    rw [← e]
    exact hm

theorem allocOr_ok {E : NetEnv} (hA : ∀ k, E.pe.alloc k = true) (s : Conn) : ∃ t, allocOr E s = .ok () t := by
  unfold allocOr smallAlloc
  dsimp only
  rw [hA]
  exact ⟨_, rfl⟩

theorem cloneProps_ok {E : NetEnv} (hA : ∀ k, E.pe.alloc k = true) {flags : UInt32} {r : Rec} (hK : KindProps r) (hE : KeyedProps r) :
    ∀ {ps : List (Nat × Fld)} {s t : Conn} {e : Int}, cloneProps E flags r ps s ≠ .err e t
  | [], s, t, e, h => by cases h
  | (bit, f) :: ps, s, t, e, h => by
    unfold cloneProps at h
    by_cases hf : flags &&& UInt32.ofNat (1 <<< bit) ≠ 0
    · rw [if_pos hf] at h
      cases hg : r.get? f with
      | none => rw [hg] at h; cases h
      | some v =>
        rw [hg] at h
        simp only [bind, M.bind, pure, M.pure] at h
        have hv : ∀ {e u}, cloneProp E v s ≠ .err e u := by
          intro e u hv
          have hm := Rec.get?_mem hg
          unfold cloneProp at hv
          split at hv
          · rename_i b
            by_cases hb : b.length = 0
            · rw [if_pos hb] at hv; cases hv
            · rw [if_neg hb] at hv
              obtain ⟨w, hw⟩ := allocOr_ok hA s
              simp only [bind, M.bind, pure, M.pure, hw] at hv
              cases hv
          · rename_i tb
            simp only [bind, M.bind, pure, M.pure, withAlloc] at hv
            have hd := (cloneTable_Decides hA 0 (storeTable tb) (FV.storeEs_stored tb) ⟨s.ps.allocs⟩).1
              (FV.storeEs_cloneable tb (hK _ _ hm) (hE _ _ hm))
            obtain ⟨a, st, hd⟩ := hd
            rw [hd] at hv
            cases hv
          · cases hv
        cases h1 : cloneProp E v s with
        | err e t => exact hv h1
        | ub => rw [h1] at h; cases h
        | fuel => rw [h1] at h; cases h
        | ok v' u =>
          rw [h1] at h
          dsimp only at h
          cases h2 : cloneProps E flags r ps u with
          | err e w => exact cloneProps_ok hA hK hE h2
          | ub => rw [h2] at h; cases h
          | fuel => rw [h2] at h; cases h
          | ok q' w => rw [h2] at h; cases h
    · rw [if_neg hf] at h
      exact cloneProps_ok hA hK hE h

/-- What the decoder makes of a header has AMQP's kinds only. -/
theorem flagged_kinds {flags : UInt32} {r : Rec} : ∀ {ps : List (Nat × Fld × Dom)}, PropsOK Dom.encodable flags r ps →
    KindProps (flaggedProps flags r ps)
  | [], _, _, _, h => by cases h
  | (i, f, d) :: ps, hP, g, t, h => by
    have ih := flagged_kinds (ps := ps) fun p hp => hP p (List.mem_cons_of_mem _ hp)
    unfold flaggedProps at h
    cases hg : r.get? f with
    | none => rw [hg] at h; exact ih g t h
    | some v =>
      rw [hg] at h
      dsimp only at h
      by_cases hs : flagSet flags i
      · rw [if_pos hs] at h
        rcases List.mem_cons.1 h with h | h
        · cases h
          obtain ⟨v, hv, ha, he⟩ := hP _ List.mem_cons_self hs
          rw [hg] at hv
          cases hv
          cases d <;> first | exact he | exact ha.elim
        · exact ih g t h
      · rw [if_neg hs] at h; exact ih g t h

theorem Stream.kinds {fm : Nat} {bs : Bytes} {fs : List AFrame} (h : Stream fm bs fs) {ch : UInt16} {cls : UInt16} {size : UInt64}
    {flags : UInt32} {r : Rec} (hm : ⟨ch, .header cls size flags r⟩ ∈ fs) : KindProps r := by
  induction h with
  | nil => cases hm
  | frame ch' hW _ _ _ ih =>
    rcases List.mem_cons.1 hm with h | h
    · cases hW with
      | header hc hw he hf =>
        cases h
        exact flagged_kinds he
      | method hp hr he hf => cases h
      | body b => cases h
      | heartbeat => cases h
    · exact ih h


/-! ## The walk through the frames of a message -/

theorem since_nil (s : Conn) : ∃ l, Since s s l := ⟨[], by simp [Since]⟩

theorem putBack_since {E : NetEnv} {α : Type} {f : DFrame} {s s' : Conn} {o : Outcome α} {st : Int}
    (h : (match putBackIgnored E f s with
      | .ok () s => .ok (.libraryException st) s
      | .err e s => .err e s
      | .ub => .ub
      | .fuel => .fuel : Res Conn (Outcome α)) = .ok o s') : ∃ l, Since s s' l := by
  have hB := (since_api E s).putBackIgnored (f := f) trivial (since_nil s)
  revert h hB
  cases putBackIgnored E f s <;> intro h hB <;> cases h
  exact hB

theorem Calm0.calm {E : NetEnv} {s : Conn} (hC : Calm0 E s) (hN : NoHb s) : Calm E s := ⟨hC.good, hC.heart.unblocked, hN⟩

theorem Calm0.alloced {E : NetEnv} {s t : Conn} (hC : Calm0 E s) (h : Alloced s t) : Calm0 E t := by
  obtain ⟨a, rfl⟩ := h
  exact ⟨(PSim.allocs_right hC.good a s.ps.pools).good hC.good, hC.heart.same0 rfl rfl rfl rfl, hC.isOpen⟩

theorem Alloced.same {E : NetEnv} {s t : Conn} (hG : Good s.ps) (h : Alloced s t) : t.log = s.log ∧ t.queue = s.queue ∧
    (∀ X, Sane E s X → Sane E t X) ∧ ∀ X, pending E t X = pending E s X := by
  obtain ⟨a, rfl⟩ := h
  have hp : PSim s.ps { s.ps with allocs := a } := PSim.allocs_right hG a s.ps.pools
  refine ⟨rfl, rfl, fun X hX => Sane.sim (t := { s with ps := { s.ps with allocs := a } }) hp hG rfl hX, fun X => ?_⟩
  unfold pending
  show List.filter _ (s.queue.map (·.frame) ++ framesOf E.pe { s.ps with allocs := a } (s.inb ++ X)) = _
  rw [← framesOf_sim E.pe hp hG]

/-- A way to look at the frames to come which waiting on the channel respects. -/
structure View (E : NetEnv) (ch : UInt16) (V : Conn → Bytes → List AFrame → Prop) : Prop where
  step : ∀ {s t : Conn} {f : DFrame} {l : List Ev} {X : Bytes} {g : AFrame} {more : List AFrame}, Calm0 E s → waitFrameOn E ch s = .ok f t →
    Since s t l → g.channel = ch → V s (recvBytes l ++ X) (g :: more) → f.frame = g ∧ V t X more
  same : ∀ {s t : Conn} {X : Bytes} {fs : List AFrame}, Good s.ps → Alloced s t → V s X fs → V t X fs

/-- Looking at the channel only. -/
def OnChannel (E : NetEnv) (ch : UInt16) (s : Conn) (X : Bytes) (fs : List AFrame) : Prop :=
  NoHb s ∧ (pending E s X).filter (·.channel == ch) = fs

theorem onChannel_view (E : NetEnv) (ch : UInt16) : View E ch (OnChannel E ch) where
  step := by
    rintro s t f l X g more hC h hl _ ⟨hN, hp⟩
    obtain ⟨_, _, n, _, l', h3, h4⟩ := waitFrameOn_acc (hC.calm hN) h
    cases hl.unique h3
    rw [h4 X] at hp
    injection hp with hp1 hp2
    exact ⟨hp1, n, hp2⟩
  same := by
    rintro s t X fs hG hA ⟨hN, hp⟩
    obtain ⟨_, h1, _, h2⟩ := hA.same (E := E) hG
    exact ⟨by intro g hg; rw [h1] at hg; exact hN g hg, by rw [h2]; exact hp⟩

/-- Looking at everything, nothing being queued. -/
def Everything (E : NetEnv) (s : Conn) (X : Bytes) (fs : List AFrame) : Prop := s.queue = [] ∧ pending E s X = fs

theorem everything_view (E : NetEnv) (ch : UInt16) : View E ch (Everything E) where
  step := by
    rintro s t f l X g more hC h hl hg ⟨hq, hp⟩
    unfold waitFrameOn at h
    rw [hq] at h
    obtain ⟨a1, b1, u1, fs, aside, ⟨_, l', hl', he⟩, q1, m1, n1⟩ := waitOnLoop_eff ch _ s t f hC.good (hC.heart.unblocked) h
    cases hl.unique hl'
    unfold pending at hp
    rw [hq, he X] at hp
    have e1 : List.filter (!·.isHeartbeat) (List.map DFrame.frame [] ++ (fs ++ [f.frame] ++ framesOf E.pe t.ps (t.inb ++ X))) =
        aside.map (·.frame) ++ (f.frame :: (framesOf E.pe t.ps (t.inb ++ X)).filter (!·.isHeartbeat)) := by
      rw [m1]
      simp [List.filter_append, List.filter_cons, a1]
    rw [e1] at hp
    cases aside with
    | nil =>
      simp only [List.map_nil, List.nil_append] at hp
      injection hp with hp1 hp2
      refine ⟨hp1, by rw [q1, hq]; rfl, ?_⟩
      unfold pending
      rw [q1, hq]
      exact hp2
    | cons x xs =>
      injection hp with hp1 hp2
      exact absurd ((congrArg AFrame.channel hp1).trans hg) (n1 x List.mem_cons_self)
  same := by
    rintro s t X fs hG hA ⟨hN, hp⟩
    obtain ⟨_, h1, _, h2⟩ := hA.same (E := E) hG
    exact ⟨by rw [h1]; exact hN, by rw [h2]; exact hp⟩

/-- If the outside does not fail, and `F` and then `more` is what is to come, then `P`, and `more` is to come from `t` on. -/
def Meets (E : NetEnv) (V : Conn → Bytes → List AFrame → Prop) (s t : Conn) (F : List AFrame) (P : Prop) : Prop :=
  ∃ l, Since s t l ∧ ((∀ e ∈ l, e.fine) → ∀ X more, Sane E s (recvBytes l ++ X) → V s (recvBytes l ++ X) (F ++ more) →
    P ∧ Calm0 E t ∧ Sane E t X ∧ V t X more)

theorem waitFrameOn_meets {E : NetEnv} (hA : ∀ k, E.pe.alloc k = true) {ch : UInt16} {V} (hV : View E ch V) {s : Conn} (hC : Calm0 E s) {g : AFrame}
    (hg : g.channel = ch) :
    match waitFrameOn E ch s with
    | .ok f t => Meets E V s t [g] (f.frame = g)
    | .err _ t => ∀ Q, Meets E V s t [g] Q
    | _ => True := by
  have h := waitFrameOn_track hA ch hC
  revert h
  cases hw : waitFrameOn E ch s with
  | ub => exact fun _ => trivial
  | fuel => exact fun _ => trivial
  | err e t =>
    rintro ⟨l, h1, h2⟩ Q
    exact ⟨l, h1, fun hf X more hX _ => absurd hX (h2 hf X)⟩
  | ok f t =>
    rintro ⟨c, l, h1, h2⟩
    refine ⟨l, h1, fun hf X more hX hp => ?_⟩
    obtain ⟨a, b⟩ := hV.step hC hw h1 hg hp
    exact ⟨a, c, h2 X hX, b⟩

/-- What is claimed of the functions below: if the outside does not fail and `F` and then `more` is to come, then the outcome is `a`; and
if `N`, `more` is to come after that. -/
def Ends (E : NetEnv) (V : Conn → Bytes → List AFrame → Prop) (s t : Conn) (F : List AFrame) (P N : Prop) : Prop :=
  ∃ l, Since s t l ∧ ((∀ e ∈ l, e.fine) → ∀ X more, Sane E s (recvBytes l ++ X) → V s (recvBytes l ++ X) (F ++ more) →
    P ∧ (N → Calm0 E t ∧ Sane E t X ∧ V t X more))

theorem Meets.then {E : NetEnv} {V} {s t u : Conn} {F G : List AFrame} {P Q N : Prop} (h : Meets E V s t F P)
    (hs : ∃ l, Since t u l) (h' : P → Calm0 E t → Ends E V t u G Q N) : Ends E V s u (F ++ G) Q N := by
  obtain ⟨l, h1, h2⟩ := h
  obtain ⟨l', h3⟩ := hs
  refine ⟨l ++ l', h1.trans h3, fun hf X more hX hp => ?_⟩
  rw [recvBytes_append, List.append_assoc] at hX hp
  rw [List.append_assoc] at hp
  obtain ⟨a, b, d, e⟩ := h2 (fun e he => hf e (List.mem_append_left _ he)) _ _ hX hp
  obtain ⟨l2, h4, h5⟩ := h' a b
  cases h3.unique h4
  exact h5 (fun e he => hf e (List.mem_append_right _ he)) _ _ d e

theorem readBody_since {E : NetEnv} {ch : UInt16} {len n : Nat} {got : Bytes} {o : Outcome Bytes} {s s' : Conn}
    (h : readBody E ch len n got s = .ok o s') : ∃ l, Since s s' l := by
  have := (since_api E s).readBody ch len n got (since_nil s)
  rw [h] at this
  exact this

theorem readBody_meets {E : NetEnv} (hA : ∀ k, E.pe.alloc k = true) {ch : UInt16} {V} (hV : View E ch V) {len : Nat} : ∀ {n : Nat} {got : Bytes}
    {bodies : List Bytes} {o : Outcome Bytes} {s s' : Conn}, Calm0 E s → got.length + bodies.flatten.length = len →
    readBody E ch len n got s = .ok o s' →
    Ends E V s s' (bodies.map (fun b => ⟨ch, .body b⟩)) (o = .normal (got ++ bodies.flatten)) (bodies.getLast? ≠ some [])
  | 0, _, _, _, _, _, _, _, h => nomatch h
  | n + 1, got, bodies, o, s, s', hC, hl, h => by
    unfold readBody at h
    by_cases hg : got.length < len
    · rw [if_pos hg] at h
      cases bodies with
      | nil => simp at hl; omega
      | cons b bs =>
        have hm := waitFrameOn_meets hA hV hC (g := ⟨ch, .body b⟩) rfl
        revert hm
        cases h1 : waitFrameOn E ch s with
        | ub => rw [h1] at h; cases h
        | fuel => rw [h1] at h; cases h
        | err e t =>
          rw [h1] at h
          cases h
          intro hm
          exact (hm False).then (G := bs.map (fun b => ⟨ch, .body b⟩)) (since_nil _) fun h => h.elim
        | ok f t =>
          intro hm
          rw [h1] at h
          dsimp only at h hm
          have hs2 : ∃ l2, Since t s' l2 := by
            revert h
            cases hp : f.frame.payload with
            | body b' =>
              dsimp only
              intro h
              by_cases hb : got.length + b'.length > len
              · rw [if_pos hb] at h; cases h; exact since_nil _
              · rw [if_neg hb] at h; exact readBody_since h
            | method id args =>
              dsimp only
              intro h
              by_cases hc : isClose id = true
              · rw [if_pos hc] at h; cases h; exact since_nil _
              · rw [if_neg hc] at h; cases h; exact since_nil _
            | header a b c d => intro h; cases h; exact since_nil _
            | heartbeat => intro h; cases h; exact since_nil _
            | protocolHeader a b c d => intro h; cases h; exact since_nil _
            | other t => intro h; cases h; exact since_nil _
          refine hm.then (G := bs.map (fun b => ⟨ch, .body b⟩)) hs2 fun hfe c => ?_
          rw [hfe] at h
          dsimp only at h
          rw [List.flatten_cons, List.length_append] at hl
          rw [if_neg (by omega)] at h
          obtain ⟨l, h2, h3⟩ := readBody_meets hA hV (bodies := bs) c (by rw [List.length_append]; omega) h
          refine ⟨l, h2, fun hf X more hX hp => ?_⟩
          obtain ⟨a, b⟩ := h3 hf X more hX hp
          exact ⟨by rw [a, List.flatten_cons, List.append_assoc], fun hn => b fun he => hn (by
            cases bs with
            | nil => cases he
            | cons x xs => rw [List.getLast?_cons_cons]; exact he)⟩
    · rw [if_neg hg] at h
      cases h
      refine ⟨[], by simp [Since], fun _ X more hX hp => ?_⟩
      have he : bodies.flatten = [] := List.eq_nil_of_length_eq_zero (by omega)
      rw [he, List.append_nil]
      refine ⟨rfl, fun hn => ?_⟩
      cases bodies with
      | nil => exact ⟨hC, hX, hp⟩
      | cons b bs =>
        refine absurd ?_ hn
        rw [List.getLast?_eq_some_getLast (List.cons_ne_nil _ _)]
        exact congrArg some (List.flatten_eq_nil_iff.1 he _ (List.getLast_mem _))

theorem readContent_meets {E : NetEnv} (hA : ∀ k, E.pe.alloc k = true) {ch : UInt16} {V} (hV : View E ch V) {size : UInt64} {flags : UInt32} {r : Rec}
    {bodies : List Bytes} {o : Outcome Message} {s s' : Conn} (hC : Calm0 E s) (hK : KindProps r) (hE : KeyedProps r)
    (hz : size.toNat = bodies.flatten.length) (h : readContent E ch size flags r s = .ok o s') :
    Ends E V s s' (bodies.map (fun b => ⟨ch, .body b⟩)) (o = .normal ⟨flags, copiedProps flags r clonedProps, bodies.flatten⟩)
      (bodies.getLast? ≠ some []) := by
  unfold readContent at h
  cases h1 : cloneProps E flags r clonedProps s with
  | ub => rw [h1] at h; cases h
  | fuel => rw [h1] at h; cases h
  | err e t => exact absurd h1 (cloneProps_ok hA hK hE)
  | ok q t =>
    rw [h1] at h
    dsimp only at h
    obtain ⟨rfl, al⟩ := cloneProps_same h1
    have h2 : ∃ u, (if size.toNat = 0 then .ok () t else allocOr E t : Res Conn Unit) = .ok () u ∧ Alloced t u := by
      by_cases h0 : size.toNat = 0
      · rw [if_pos h0]; exact ⟨t, rfl, .refl _⟩
      · rw [if_neg h0]
        obtain ⟨u, hu⟩ := allocOr_ok hA t
        have := allocOr_alloced E t
        rw [hu] at this
        exact ⟨u, hu, this⟩
    obtain ⟨u, h2, al2⟩ := h2
    rw [h2] at h
    dsimp only at h
    have al3 := al.trans al2
    obtain ⟨e1, e2, e3, e4⟩ := al3.same (E := E) hC.good
    cases h4 : readBody E ch size.toNat E.fuel [] u with
    | err e t => rw [h4] at h; cases h
    | ub => rw [h4] at h; cases h
    | fuel => rw [h4] at h; cases h
    | ok o' w =>
      rw [h4] at h
      obtain ⟨l, h5, h6⟩ := readBody_meets hA hV (bodies := bodies) (hC.alloced al3) (by simp [hz]) h4
      have hw : w = s' := by cases o' <;> (cases h; rfl)
      subst hw
      refine ⟨l, by unfold Since at *; rw [h5, e1], fun hf X more hX hp => ?_⟩
      obtain ⟨a, b⟩ := h6 hf X more (e3 _ hX) (hV.same hC.good al3 hp)
      rw [a] at h
      cases h
      exact ⟨rfl, b⟩

theorem readMessage_meets {E : NetEnv} (hA : ∀ k, E.pe.alloc k = true) {ch : UInt16} {V} (hV : View E ch V) {cls : UInt16} {size : UInt64} {flags : UInt32}
    {r : Rec} {bodies : List Bytes} {o : Outcome Message} {s s' : Conn} (hC : Calm0 E s) (hK : KindProps r) (hE : KeyedProps r)
    (hz : size.toNat = bodies.flatten.length) (h : readMessage E ch s = .ok o s') :
    Ends E V s s' (⟨ch, .header cls size flags r⟩ :: bodies.map (fun b => ⟨ch, .body b⟩))
      (o = .normal ⟨flags, copiedProps flags r clonedProps, bodies.flatten⟩) (bodies.getLast? ≠ some []) := by
  unfold readMessage at h
  have hm := waitFrameOn_meets hA hV hC (g := ⟨ch, .header cls size flags r⟩) rfl
  revert hm
  cases h1 : waitFrameOn E ch s with
  | ub => rw [h1] at h; cases h
  | fuel => rw [h1] at h; cases h
  | err e t =>
    rw [h1] at h
    cases h
    intro hm
    exact (hm False).then (G := bodies.map (fun b => ⟨ch, .body b⟩)) (since_nil _) fun h => h.elim
  | ok f t =>
    intro hm
    rw [h1] at h
    dsimp only at h hm
    have hs2 : ∃ l2, Since t s' l2 := by
      revert h
      cases hp : f.frame.payload with
      | header a b c d =>
        dsimp only
        intro h
        have := (since_api E t).readContent ch b c d (since_nil t)
        rw [h] at this
        exact this
      | method id args =>
        dsimp only
        intro h
        by_cases hc : isClose id = true
        · rw [if_pos hc] at h; cases h; exact since_nil _
        · rw [if_neg hc] at h; exact putBack_since h
      | body b => intro h; exact putBack_since h
      | heartbeat => intro h; exact putBack_since h
      | protocolHeader a b c d => intro h; exact putBack_since h
      | other t => intro h; exact putBack_since h
    refine hm.then (G := bodies.map (fun b => ⟨ch, .body b⟩)) hs2 fun hfe c => ?_
    rw [hfe] at h
    exact readContent_meets hA hV c hK hE hz h

/-- amqp_consume_message without a deadline, with memory to spare. -/
theorem consumeMessage_meets {E : NetEnv} (hA : ∀ k, E.pe.alloc k = true) {ch : UInt16} {V} (hV : View E ch V) {tag : Bytes} {dt : UInt64} {red : Int32}
    {ex rk : Bytes} {cls : UInt16} {size : UInt64} {flags : UInt32} {r : Rec} {bodies : List Bytes} {o : Outcome Envelope} {s s' : Conn} (hC : Calm0 E s)
    (hN : NoHb s) (hK : KindProps r) (hE : KeyedProps r) (hz : size.toNat = bodies.flatten.length) (h : consumeMessage E none s = .ok o s') :
    ∃ l, Since s s' l ∧ ((∀ e ∈ l, e.fine) → ∀ X fs more, Sane E s (recvBytes l ++ X) →
      pending E s (recvBytes l ++ X) = ⟨ch, .method BASIC_DELIVER (deliverArgs tag dt red ex rk)⟩ :: fs →
      (∀ (t : Conn) (Y : Bytes), NoHb t → (∀ g ∈ t.queue, g ∈ s.queue) → pending E t Y = fs →
        V t Y (⟨ch, .header cls size flags r⟩ :: bodies.map (fun b => ⟨ch, .body b⟩) ++ more)) →
      o = .normal ⟨ch, tag, dt, red, ex, rk, ⟨flags, copiedProps flags r clonedProps, bodies.flatten⟩⟩ ∧
      ((bodies.getLast? ≠ some []) → Calm0 E s' ∧ Sane E s' X ∧ V s' X more)) := by
  unfold consumeMessage at h
  have hm := waitFrame_track hA hC
  have ha := waitFrame_acc none hC.good (hC.heart.unblocked : Unblocked E s)
  have hqq : ∀ {f t}, waitFrame E none s = .ok f t → ∀ g ∈ t.queue, g ∈ s.queue := by
    intro f t hw
    rw [waitFrame_def] at hw
    unfold fromNowIO at hw
    dsimp only at hw
    cases hq : s.queue with
    | cons g q =>
      rw [hq] at hw
      cases hw
      exact fun g hg => List.mem_cons_of_mem _ hg
    | nil =>
      rw [hq] at hw
      have := waitInner_eff (E := E) TIME_INF E.fuel false s hC.good (hC.heart.unblocked) (by simp)
      unfold waitFrameInner at hw
      dsimp only at hw
      rw [hw] at this
      rw [this.2.2.1, hq]
      exact fun _ h => h
  revert hm ha
  cases h1 : waitFrame E none s with
  | ub => rw [h1] at h; cases h
  | fuel => rw [h1] at h; cases h
  | err e t =>
    rw [h1] at h
    cases h
    rintro ⟨l, h2, h3⟩ _
    exact ⟨l, h2, fun hf X _ more hX _ _ => absurd hX (h3 hf X)⟩
  | ok f t =>
    rintro ⟨c, l, h2, h3⟩ ⟨_, _, ⟨l', h2', h3'⟩, hnb⟩
    cases h2.unique h2'
    obtain ⟨hfb, nt⟩ := hnb hN
    rw [h1] at h
    dsimp only at h
    have hs2 : ∃ l2, Since t s' l2 := by
      revert h
      cases hp : f.frame.payload with
      | method id args =>
        dsimp only
        intro h
        by_cases hc : id = BASIC_DELIVER
        · rw [if_pos hc] at h
          have := (since_api E t).takeDelivery f.frame.channel args (since_nil t)
          rw [h] at this
          exact this
        · rw [if_neg hc] at h; exact putBack_since h
      | header a b c d => intro h; exact putBack_since h
      | body b => intro h; exact putBack_since h
      | heartbeat => intro h; exact putBack_since h
      | protocolHeader a b c d => intro h; exact putBack_since h
      | other t => intro h; exact putBack_since h
    obtain ⟨l2, h4⟩ := hs2
    refine ⟨l ++ l2, h2.trans h4, fun hf X fs more hX hp hfs => ?_⟩
    rw [recvBytes_append, List.append_assoc] at hX hp
    rw [h3'] at hp
    simp only [List.filter_cons, hfb, Bool.not_false, if_true, List.filter_nil, List.cons_append, List.nil_append] at hp
    injection hp with hp1 hp2
    rw [hp1] at h
    dsimp only at h
    rw [if_pos rfl] at h
    have e0 : takeDelivery E ch (deliverArgs tag dt red ex rk) t =
        match readMessage E ch (smallAlloc E (smallAlloc E (smallAlloc E t).2).2).2 with
        | .ok (.normal m) s => .ok (.normal ⟨ch, tag, dt, red, ex, rk, m⟩) s
        | .ok (.serverException id args) s => .ok (.serverException id args) s
        | .ok (.libraryException e) s => .ok (.libraryException e) s
        | .err e s => .err e s
        | .ub => .ub
        | .fuel => .fuel := by
      unfold takeDelivery
      have : ∀ s, (smallAlloc E s).1 = true := fun s => hA _
      simp only [deliverArgs, Rec.get?, List.find?, Option.map, mallocDup, this]
      simp (decide := true)
      rfl
    rw [e0] at h
    have al : Alloced t (smallAlloc E (smallAlloc E (smallAlloc E t).2).2).2 :=
      ((smallAlloc_alloced E _).trans (smallAlloc_alloced E _)).trans (smallAlloc_alloced E _)
    revert h al
    generalize (smallAlloc E (smallAlloc E (smallAlloc E t).2).2).2 = u
    intro h al
    obtain ⟨e1, e2, e3, e4⟩ := al.same (E := E) c.good
    cases h5 : readMessage E ch u with
    | err e w => rw [h5] at h; cases h
    | ub => rw [h5] at h; cases h
    | fuel => rw [h5] at h; cases h
    | ok o' w =>
      rw [h5] at h
      obtain ⟨l3, h6, h7⟩ := readMessage_meets hA hV (cls := cls) (flags := flags) (bodies := bodies) (c.alloced al) hK hE hz h5
      have hw : w = s' := by cases o' <;> (cases h; rfl)
      subst hw
      have h8 : Since t w l3 := by unfold Since at *; rw [h6, e1]
      cases h4.unique h8
      obtain ⟨a, b⟩ := h7 (fun e he => hf e (List.mem_append_right _ he)) X more (e3 _ (h3 _ hX))
        (hV.same c.good al (hfs t _ nt (hqq h1) hp2))
      rw [a] at h
      cases h
      exact ⟨rfl, b⟩

end Rmq
