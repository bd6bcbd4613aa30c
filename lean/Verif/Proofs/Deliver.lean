import Verif.Proofs.Waits
/-!
# Histories of calls and what they deliver
-/
namespace Rmq

theorem InUse.good {E : NetEnv} {s : Conn} (h : InUse E s) : Good s.ps := ⟨h.1.ready, h.2⟩

/-- A frame on the wire is the next frame delivered. -/
theorem framesOf_wire {p q : Payload} {ty : UInt8} {bs : Bytes} (hW : Wire p ty bs q) (ch : UInt16) (hsz : bs.length ≤ 2 ^ 30)
    (E : PEnv) {s : PState} (hs : Good s) (hidle : s.mode = .idle) (hmax : bs.length + 8 ≤ s.frameMax) :
    ∃ s', Good s' ∧ s'.mode = .idle ∧ s'.frameMax = s.frameMax ∧
      ∀ X, framesOf E s (rawFrame ty ch bs FRAME_END ++ X) = ⟨ch, q⟩ :: framesOf E s' X := by
  have hmem : ∀ k, E.ideal.alloc k = true := fun _ => rfl
  rcases handleInput_raw E.ideal hs.1 hidle ty ch bs FRAME_END [] (by omega) hmax with ⟨_, _, hA⟩ | ⟨sB, hB, h⟩
  · exact absurd hmem hA
  · obtain ⟨a, ha⟩ := payloadPhase_wire hW E.ideal hmem sB ch (bs.length + 8) hsz
    have hk : handleInput E.ideal s (rawFrame ty ch bs FRAME_END) =
        .ok ((rawFrame ty ch bs FRAME_END).length, some ⟨ch, q⟩) { sB with allocs := a }.idle := by
      have := h
      rw [List.append_nil] at this
      rw [this, bodyPhase_good E.ideal _ hB, ha, rawFrame_length]
    obtain ⟨g, _, h2⟩ := framesOf_step E.ideal hs hk
    refine ⟨_, g, rfl, hB.frameMax, fun X => ?_⟩
    have := h2 X
    rw [List.drop_length] at this
    exact this

theorem framesOf_stream (E : PEnv) {fm : Nat} {bs : Bytes} {fs : List AFrame} (h : Stream fm bs fs) :
    ∀ {s : PState}, Good s → s.mode = .idle → s.frameMax = fm → framesOf E s bs = fs := by
  induction h with
  | nil => intro s _ _ _; rfl
  | frame ch hW hfm hsz _ ih =>
    intro s hs hm hf
    obtain ⟨s', g, m, f, h⟩ := framesOf_wire hW ch hsz E hs hm (by omega)
    rw [h, ih g m (by rw [f, hf])]

/-- Accounting for one call. -/
def Acc (E : NetEnv) (s s' : Conn) (fs : List AFrame) : Prop :=
  ∃ l, Since s s' l ∧ ∀ X, pending E s (recvBytes l ++ X) = fs.filter (!·.isHeartbeat) ++ pending E s' X

theorem Acc.refl (E : NetEnv) (s : Conn) : Acc E s s [] := ⟨[], by simp [Since], fun X => rfl⟩
theorem Acc.trans {E : NetEnv} {s t u : Conn} {fs gs : List AFrame} (h : Acc E s t fs) (h' : Acc E t u gs) :
    Acc E s u (fs ++ gs) := by
  obtain ⟨l, h1, h2⟩ := h
  obtain ⟨l', h3, h4⟩ := h'
  refine ⟨l ++ l', by unfold Since at *; rw [h3, h1, List.append_assoc], fun X => ?_⟩
  rw [recvBytes_append, List.append_assoc, h2, h4, List.filter_append, List.append_assoc]

theorem Acc.sendEff {E : NetEnv} {s s' : Conn} (h : SendEff E s s') : Acc E s s' [] := by
  obtain ⟨fs, ⟨_, l, h1, h2⟩, h3⟩ := h
  refine ⟨l, h1, fun X => ?_⟩
  unfold pending
  rw [h2, h3]
  simp

theorem filter_heartbeats {hs : List AFrame} (h : ∀ x ∈ hs, x.isHeartbeat = true) : hs.filter (!·.isHeartbeat) = [] := by
  rw [List.filter_eq_nil_iff]
  intro x hx
  simp [h x hx]

theorem releaseAll_ext : ∀ (chs : List UInt16) (s : Conn), ∃ l, chs.foldl (fun s ch => maybeReleaseOn ch s) s = s.ext l ∧
    ∀ e ∈ l, ∃ ch, e = .recycle ch
  | [], s => ⟨[], by simp, by simp⟩
  | ch :: chs, s => by
    obtain ⟨l, h1, h2⟩ := maybeReleaseOn_ext ch s
    obtain ⟨l', h3, h4⟩ := releaseAll_ext chs (maybeReleaseOn ch s)
    refine ⟨l ++ l', by rw [List.foldl_cons, h3, h1, Conn.ext_ext], ?_⟩
    intro e he
    rcases List.mem_append.1 he with he | he
    · rcases h2 with rfl | rfl
      · cases he
      · exact ⟨ch, by simpa using he⟩
    · exact h4 e he

theorem maybeRelease_ext (s : Conn) : ∃ l, maybeRelease s = s.ext l ∧ ∀ e ∈ l, ∃ ch, e = .recycle ch := by
  unfold maybeRelease
  split
  · exact releaseAll_ext _ _
  · exact ⟨[], by simp, by simp⟩

theorem recycles_recv {l : List Ev} (h : ∀ e ∈ l, ∃ ch, e = .recycle ch) : recvBytes l = [] := by
  unfold recvBytes
  rw [List.flatMap_eq_nil_iff]
  intro e he
  obtain ⟨ch, rfl⟩ := h e he
  rfl

theorem maybeRelease_acc (E : NetEnv) (s : Conn) : Acc E s (maybeRelease s) [] := by
  obtain ⟨l, h1, h2⟩ := maybeRelease_ext s
  refine ⟨l, by rw [h1]; rfl, fun X => ?_⟩
  rw [recycles_recv h2, h1]
  rfl

theorem maybeReleaseOn_acc (E : NetEnv) (ch : UInt16) (s : Conn) : Acc E s (maybeReleaseOn ch s) [] := by
  obtain ⟨l, h1, h2⟩ := maybeReleaseOn_ext ch s
  refine ⟨l, by rw [h1]; rfl, fun X => ?_⟩
  have : recvBytes l = [] := by rcases h2 with rfl | rfl <;> rfl
  rw [this, h1]
  rfl

theorem fromNowIO_status {E : NetEnv} {tv : Option TimeVal} {s s' : Conn} {e : Int} (h : fromNowIO E tv s = .err e s') :
    e = St.INVALID_PARAMETER ∨ e = St.TIMER_FAILURE := by
  unfold fromNowIO at h
  cases tv with
  | none => cases h
  | some v =>
    dsimp only at h
    split at h
    · cases h; exact Or.inl rfl
    · unfold timeFromNow at h
      dsimp only at h
      repeat' split at h
      all_goals first | (cases h; done) | skip
      all_goals rename_i h'
      all_goals
        first
        | (cases h; simp only [Except.error.injEq] at h'; first | exact Or.inl h'.symm | exact Or.inr h'.symm)
        | skip
      all_goals
        cases h
        revert h'
        repeat' split
        all_goals first | (intro h'; cases h'; first | exact Or.inl rfl | exact Or.inr rfl) | (intro h'; cases h')

/-- One amqp_simple_wait_frame. -/
theorem waitFrame_acc {E : NetEnv} (tv : Option TimeVal) {s : Conn} (hG : Good s.ps) (hU : Unblocked E s) :
    match waitFrame E tv s with
    | .ok f s' => Good s'.ps ∧ Unblocked E s' ∧ Acc E s s' [f.frame] ∧
        ((∀ g ∈ s.queue, g.frame.isHeartbeat = false) → f.frame.isHeartbeat = false ∧ ∀ g ∈ s'.queue, g.frame.isHeartbeat = false)
    | .err e s' => e = St.TIMEOUT → Good s'.ps ∧ Unblocked E s' ∧ Acc E s s' [] ∧ s'.queue = s.queue
    | _ => True := by
  rw [waitFrame_def]
  have h1 := fromNowIO_quiet E tv s
  cases h2 : fromNowIO E tv s with
  | ub => trivial
  | fuel => trivial
  | err e t =>
    dsimp only
    intro he
    rcases fromNowIO_status h2 with h | h <;> rw [h] at he <;> exact absurd he (by decide)
  | ok d t =>
    rw [h2] at h1
    dsimp only
    have hU1 : Unblocked E t := (unblocked_closed E).quiet hU h1
    have e1 : Eff E s t [] := Eff.quiet hG h1
    obtain ⟨l, rfl, hl⟩ := h1
    cases hq : (s.ext l).queue with
    | cons f rest =>
      dsimp only
      have hq' : s.queue = f :: rest := hq
      refine ⟨hG, hU1, ⟨l, rfl, fun X => ?_⟩, fun h => ⟨h f (by rw [hq']; simp), fun g hg => h g (by rw [hq']; simp [hg])⟩⟩
      unfold pending
      rw [hl.recv, hq']
      simp [List.filter_cons]
      split <;> rfl
    | nil =>
      dsimp only
      have hq' : s.queue = [] := hq
      have h3 := waitFrameInner_eff d e1.1 hU1
      revert h3
      cases waitFrameInner E d (s.ext l) with
      | ub => exact fun _ => trivial
      | fuel => exact fun _ => trivial
      | ok f u =>
        rintro ⟨a, ⟨hs, b, c⟩, d1, e2⟩
        have q : u.queue = [] := by rw [d1]; exact hq'
        refine ⟨c.1, e2, ?_, fun _ => ⟨a, by rw [q]; simp⟩⟩
        obtain ⟨_, l2, h4, h5⟩ := e1.trans c
        refine ⟨l2, h4, fun X => ?_⟩
        unfold pending
        rw [hq', q, List.map_nil, List.nil_append, List.nil_append, h5, List.filter_append]
        simp [List.filter_append, filter_heartbeats b]
      | err e u =>
        intro h he
        subst he
        obtain ⟨⟨hs, b, c⟩, d1, e2⟩ := h (fun hp => parseErr_not_timeout hp rfl)
        have q : u.queue = [] := by rw [d1]; exact hq'
        refine ⟨c.1, e2 rfl, ?_, by rw [q, hq']⟩
        obtain ⟨_, l2, h4, h5⟩ := e1.trans c
        refine ⟨l2, h4, fun X => ?_⟩
        unfold pending
        rw [hq', q, List.map_nil, List.nil_append, List.nil_append, h5, List.filter_append]
        simp [filter_heartbeats b]

theorem Run.acc {E : NetEnv} {s s' : Conn} {fs : List AFrame} (h : Run E s fs s') : Good s.ps → Unblocked E s → Acc E s s' fs := by
  induction h with
  | done s => exact fun _ _ => Acc.refl E s
  | @frame s t u tv f fs hw _ ih =>
    intro hG hU
    have h := waitFrame_acc (E := E) tv hG hU
    rw [hw] at h
    exact h.2.2.1.trans (ih h.1 h.2.1)
  | @timedOut s t u tv fs hw _ ih =>
    intro hG hU
    have h := waitFrame_acc (E := E) tv hG hU
    rw [hw] at h
    obtain ⟨a, b, c, _⟩ := h rfl
    exact c.trans (ih a b)
  | @sent s t u f fl d fs _ hw _ ih =>
    intro hG hU
    have h := sendFrame_sendEff (E := E) f fl d hG
    have hu := (unblocked_closed E).sendFrame f fl d hU
    rw [hw] at h hu
    exact (Acc.sendEff h).trans (ih h.good hu)
  | @sendTimedOut s t u f fl d fs _ hw _ ih =>
    intro hG hU
    have h := sendFrame_sendEff (E := E) f fl d hG
    have hu := (unblocked_closed E).sendFrame f fl d hU
    rw [hw] at h hu
    exact (Acc.sendEff (h rfl)).trans (ih (h rfl).good hu)
  | @released s u fs _ ih =>
    intro hG hU
    obtain ⟨l, h1, _⟩ := maybeRelease_ext s
    refine (maybeRelease_acc E s).trans (ih ?_ ((unblocked_closed E).upper.maybeRelease hU))
    rw [h1]; exact hG
  | @releasedOn s u ch fs _ ih =>
    intro hG hU
    obtain ⟨l, h1, _⟩ := maybeReleaseOn_ext ch s
    refine (maybeReleaseOn_acc E ch s).trans (ih ?_ ((unblocked_closed E).release ch hU))
    rw [h1]; exact hG

end Rmq
