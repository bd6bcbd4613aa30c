import Verif.Proofs.Ready
import Verif.Props.Receive
/-!
# Readiness: C81
-/
namespace Rmq

/-- C81: with frames enqueued, waiting for a frame returns the oldest of them without touching the transport: at most the clock is read (to turn the
timeout into a deadline).  It fails only if the timeout is not a time or the clock fails. -/
theorem C81_enqueued (E : NetEnv) (tv : Option TimeVal) (s : Conn) (h : framesEnqueued s = true) :
    ∃ f rest, s.queue = f :: rest ∧
      match waitFrame E tv s with
      | .ok g t => g = f ∧ t.queue = rest ∧ t.inb = s.inb ∧ ∃ l, Since s t l ∧ ∀ e ∈ l, ∃ now, e = .clock now
      | .err e t => tv ≠ none ∧ (e = St.INVALID_PARAMETER ∨ e = St.TIMER_FAILURE) ∧ t.queue = s.queue ∧ ∃ l, Since s t l ∧ ∀ e ∈ l, ∃ now, e = .clock now
      | _ => False := by
  unfold framesEnqueued at h
  cases hq : s.queue with
  | nil => rw [hq] at h; cases h
  | cons f rest =>
    refine ⟨f, rest, rfl, ?_⟩
    rw [waitFrame_def]
    have hc : ∀ r : Res Conn Nat, fromNowIO E tv s = r → match r with
        | .ok _ t => (∃ l, t = s.ext l ∧ ∀ e ∈ l, ∃ now, e = Ev.clock now)
        | .err e t => tv ≠ none ∧ (∃ l, t = s.ext l ∧ ∀ e ∈ l, ∃ now, e = Ev.clock now)
        | _ => False := by
      intro r hr
      unfold fromNowIO at hr
      cases tv with
      | none => subst hr; exact ⟨[], by simp, by simp⟩
      | some v =>
        dsimp only at hr
        split at hr
        · subst hr; exact ⟨nofun, [], by simp, by simp⟩
        · have one : ∃ l, (readClock E s).2 = s.ext l ∧ ∀ e ∈ l, ∃ now, e = Ev.clock now :=
            ⟨[.clock (E.clock s.time)], rfl, by simp⟩
          split at hr <;> subst hr
          · exact one
          · exact ⟨nofun, one⟩
    have hc := hc _ rfl
    cases h2 : fromNowIO E tv s with
    | ub => rw [h2] at hc; exact hc
    | fuel => rw [h2] at hc; exact hc
    | err e t =>
      rw [h2] at hc
      obtain ⟨h3, l, rfl, h4⟩ := hc
      exact ⟨h3, fromNowIO_status h2, hq, l, rfl, h4⟩
    | ok d t =>
      rw [h2] at hc
      obtain ⟨l, rfl, h4⟩ := hc
      have hq' : (s.ext l).queue = f :: rest := hq
      dsimp only
      rw [hq']
      exact ⟨rfl, rfl, rfl, l, rfl, h4⟩

/-- C81: with no frame enqueued and no data in the buffer, a frame is returned only after something was received. -/
theorem C81_nothing_ready {E : NetEnv} {tv : Option TimeVal} {s s' : Conn} {f : DFrame} (h1 : framesEnqueued s = false) (h2 : dataInBuffer s = false)
    (h : waitFrame E tv s = .ok f s') : ∃ l, Since s s' l ∧ recvBytes l ≠ [] := by
  have hq : s.queue = [] := by
    unfold framesEnqueued at h1
    cases hq : s.queue with
    | nil => rfl
    | cons a b => rw [hq] at h1; cases h1
  have hi : s.inb = [] := by
    unfold dataInBuffer at h2
    cases hq : s.inb with
    | nil => rfl
    | cons a b => rw [hq] at h2; cases h2
  rw [waitFrame_def] at h
  have h3 := fromNowIO_quiet E tv s
  cases h4 : fromNowIO E tv s with
  | ub => rw [h4] at h; cases h
  | fuel => rw [h4] at h; cases h
  | err e t => rw [h4] at h; cases h
  | ok d t =>
    rw [h4] at h h3
    dsimp only at h
    have hD : Dry s t := (dry_closed E s).quiet (Dry.refl hi) h3
    obtain ⟨l, rfl, hl⟩ := h3
    have hq' : (s.ext l).queue = [] := hq
    rw [hq'] at h
    exact waitInner_dry s d _ _ _ _ _ hD h

/-- C81: with data in the buffer that completes a frame (other than a heartbeat), waiting does not touch the transport: it returns the first such frame, or
fails for a reason of the parser's (such as lack of memory). -/
theorem C81_data {E : NetEnv} {s : Conn} (hI : InUse E s) (h1 : framesEnqueued s = false) {g : AFrame} {rest : List AFrame}
    (hg : pending E s [] = g :: rest) :
    match waitFrame E none s with
    | .ok f t => f.frame = g ∧ t.queue = [] ∧ ∃ l, Since s t l ∧ ∀ e ∈ l, (∃ b, e = .parsed b) ∨ ∃ ch, e = .recycle ch
    | .err e t => ParseErr e ∧ ∃ l, Since s t l ∧ ∀ e ∈ l, (∃ b, e = .parsed b) ∨ ∃ ch, e = .recycle ch
    | _ => True := by
  have hq : s.queue = [] := by
    unfold framesEnqueued at h1
    cases hq : s.queue with
    | nil => rfl
    | cons a b => rw [hq] at h1; cases h1
  have hin : ∀ {l : List Ev}, (∀ e ∈ l, e.inside = true) → ∀ e ∈ l, (∃ b, e = .parsed b) ∨ ∃ ch, e = .recycle ch := by
    intro l h e he
    have := h e he
    cases e <;> first | exact .inl ⟨_, rfl⟩ | exact .inr ⟨_, rfl⟩ | cases this
  unfold pending at hg
  rw [hq] at hg
  simp only [List.map_nil, List.nil_append, List.append_nil] at hg
  have h := waitInner_inside (E := E) TIME_INF E.fuel s hI.good g rest hg
  rw [waitFrame_def]
  rw [show fromNowIO E none s = .ok TIME_INF s from rfl]
  dsimp only
  rw [hq]
  show match waitFrameInner E TIME_INF s with
    | .ok f t => _
    | .err e t => _
    | _ => True
  unfold waitFrameInner
  revert h
  cases waitInner E TIME_INF E.fuel false s with
  | ub => exact fun _ => trivial
  | fuel => exact fun _ => trivial
  | ok f t => rintro ⟨a, b, l, c, d⟩; exact ⟨a, by rw [b, hq], l, c, hin d⟩
  | err e t => rintro ⟨a, l, c, d⟩; exact ⟨a, l, c, hin d⟩

/-- C81: when a wait times out there is nothing left to deliver: no frame enqueued, no data in the buffer, and every frame (other than heartbeats) in what
was received so far had been delivered before — the application may wait for the descriptor to become readable.  Missing: waits held up by the sending of a
heartbeat (`Unblocked`); see C81_timed_out_ready. -/
theorem C81_timed_out_partial {E : NetEnv} {s s1 s2 : Conn} {fs : List AFrame} {tv : Option TimeVal} (hI : InUse E s) (hU : Unblocked E s) (hR : Run E s fs s1)
    (h : waitFrame E tv s1 = .err St.TIMEOUT s2) :
    framesEnqueued s2 = false ∧ dataInBuffer s2 = false ∧ ∃ l, Since s s2 l ∧ pending E s (recvBytes l) = fs.filter (!·.isHeartbeat) := by
  have hR2 : Run E s (fs ++ []) s2 := by
    have : ∀ {s s1 fs}, Run E s fs s1 → waitFrame E tv s1 = .err St.TIMEOUT s2 → Run E s (fs ++ []) s2 := by
      intro s s1 fs hR
      induction hR with
      | done s => intro h; exact .timedOut h (.done _)
      | frame hw _ ih => intro h; exact .frame hw (ih h)
      | timedOut hw _ ih => intro h; exact .timedOut hw (ih h)
      | sent hd hw _ ih => intro h; exact .sent hd hw (ih h)
      | sendTimedOut hd hw _ ih => intro h; exact .sendTimedOut hd hw (ih h)
      | released _ ih => intro h; exact .released (ih h)
      | releasedOn _ ih => intro h; exact .releasedOn (ih h)
    exact this hR h
  rw [List.append_nil] at hR2
  -- the state before the wait
  have hst : Good s1.ps ∧ Unblocked E s1 := by
    clear hR2 h
    suffices ∀ {s fs s1}, Run E s fs s1 → Good s.ps → Unblocked E s → Good s1.ps ∧ Unblocked E s1 from this hR hI.good hU
    intro s fs s1 hR
    induction hR with
    | done s => exact fun a b => ⟨a, b⟩
    | @frame s t u tv f fs hw _ ih =>
      intro hG hU
      have h := waitFrame_acc tv hG hU
      rw [hw] at h
      exact ih h.1 h.2.1
    | @timedOut s t u tv fs hw _ ih =>
      intro hG hU
      have h := waitFrame_acc tv hG hU
      rw [hw] at h
      exact ih (h rfl).1 (h rfl).2.1
    | @sent s t u f fl d fs _ hw _ ih =>
      intro hG hU
      have h := sendFrame_sendEff (E := E) f fl d hG
      have hu := (unblocked_closed E).sendFrame f fl d hU
      rw [hw] at h hu
      exact ih h.good hu
    | @sendTimedOut s t u f fl d fs _ hw _ ih =>
      intro hG hU
      have h := sendFrame_sendEff (E := E) f fl d hG
      have hu := (unblocked_closed E).sendFrame f fl d hU
      rw [hw] at h hu
      exact ih (h rfl).good hu
    | @released s u fs _ ih =>
      intro hG hU
      obtain ⟨l, hl, _⟩ := maybeRelease_ext s
      exact ih (by rw [hl]; exact hG) ((unblocked_closed E).upper.maybeRelease hU)
    | @releasedOn s u ch fs _ ih =>
      intro hG hU
      exact ih (maybeReleaseOn_eff (E := E) ch hG).1 ((unblocked_closed E).release ch hU)
  have hacc := waitFrame_acc tv hst.1 hst.2
  rw [h] at hacc
  have hq : s2.queue = s1.queue := (hacc rfl).2.2.2
  rw [waitFrame_def] at h
  have h3 := fromNowIO_quiet E tv s1
  have hfin : s2.queue = [] ∧ s2.inb = [] := by
    cases h4 : fromNowIO E tv s1 with
    | ub => rw [h4] at h; cases h
    | fuel => rw [h4] at h; cases h
    | err e t =>
      rw [h4] at h
      injection h with h5 _
      rcases fromNowIO_status h4 with h6 | h6 <;> rw [h6] at h5 <;> exact absurd h5 (by decide)
    | ok d t =>
      rw [h4] at h h3
      dsimp only at h
      have hU1 : Unblocked E t := (unblocked_closed E).quiet hst.2 h3
      have hG1 : Good t.ps := (Eff.quiet (E := E) hst.1 h3).1
      obtain ⟨l, rfl, hl⟩ := h3
      cases hq1 : s1.queue with
      | cons a b =>
        have hq' : (s1.ext l).queue = a :: b := hq1
        rw [hq'] at h
        cases h
      | nil =>
        have hq' : (s1.ext l).queue = [] := hq1
        rw [hq'] at h
        exact ⟨by rw [hq, hq1], waitInner_timeout d E.fuel false _ _ hG1 hU1 (fun h => nomatch h) h⟩
  refine ⟨by unfold framesEnqueued; rw [hfin.1], by unfold dataInBuffer; rw [hfin.2], ?_⟩
  obtain ⟨l, hl, h5⟩ := hR2.acc hI.good hU
  refine ⟨l, hl, ?_⟩
  have := h5 []
  rw [List.append_nil] at this
  rw [this]
  unfold pending
  rw [hfin.1, hfin.2]
  show fs.filter _ ++ ([] : List AFrame) = _
  exact List.append_nil _

/-- A heartbeat is due but blocked; frame A is read meanwhile; the heartbeat is sent; nothing more arrives until the deadline. -/
def staleEnv : NetEnv := netEnv [(0, 20), (1, 20), (3, 20), (5, 2000000000), (7, 2000000000), (9, 2000000000), (11, 2000000000)]
  [(2, .fail 0x1301), (8, .sent 99)] [(6, .data frameA), (10, .fail 0x1300)] [(4, .timeout), (12, .timeout)]

/-- C81 does not hold in full: a wait times out although a frame was received and is in the buffer. -/
theorem C81_timed_out_ready : let r := waitFrame staleEnv (some ⟨2, 500000⟩) lossConn
    InUse staleEnv lossConn ∧ lossConn.queue = [] ∧ lossConn.inb = [] ∧ r.errCode? = some St.TIMEOUT ∧
      r.state?.map dataInBuffer = some true ∧ r.state?.map (·.inb) = some frameA ∧
      r.state?.map (fun s => (pending staleEnv s []).map (·.bodyOf)) = some [(1, [65])] :=
  ⟨⟨demoParser_live _ _, fun h => nomatch h⟩, rfl, rfl, by decide +kernel, by decide +kernel, by decide +kernel, by decide +kernel⟩

/-- Two frames arrive; the second wait returns the second frame without touching the transport, the third times out with nothing left. -/
example : let E := netEnv [(3, 1), (5, 1)] [] [(0, .data (frameA ++ frameB)), (4, .fail 0x1300)] [(6, .timeout)]
    let r1 := waitFrame E none (demoConn 64)
    let r2 := r1.state?.map fun s => waitFrame E none s
    let r3 := (r2.bind (·.state?)).map fun s => waitFrame E (some ⟨0, 1⟩) s
    r1.state?.map (fun s => (framesEnqueued s, dataInBuffer s, s.log.length)) = some (false, true, 2) ∧
      (r2.bind (·.state?)).map (fun s => (framesEnqueued s, dataInBuffer s, s.log.length)) = some (false, false, 3) ∧
      (r3.bind (·.errCode?)) = some St.TIMEOUT ∧
      (r3.bind (·.state?)).map (fun s => (framesEnqueued s, dataInBuffer s)) = some (false, false) := by decide +kernel
example : (waitFrame (netEnv [] [] [] []) none { demoConn 64 with queue := [⟨⟨1, .body [65]⟩, 0⟩] }).val?.map (·.frame.bodyOf) = some (1, [65]) := by
  decide +kernel

end Rmq
