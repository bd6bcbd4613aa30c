import Verif.Spec.Failures
import Verif.Proofs.Channels
import Verif.Proofs.Kept
import Verif.Model.Api
/-!
# Calls that fail (C98)
-/
namespace Rmq

/-- Bytes the parser rejects for another reason than memory hold no further frame, whatever follows. -/
theorem framesOf_err (E : PEnv) {s s' : PState} (hs : Good s) {d : Bytes} {e : Int} (h : handleInput E s d = .err e s')
    (he : e ≠ St.NO_MEMORY) (X : Bytes) : framesOf E s (d ++ X) = [] := by
  have hd : d ≠ [] := by rintro rfl; simp [handleInput] at h
  have hfol := handleInput_follow E (PSim.refl hs.1 hs.2) hs.1 hs.1 d
  rw [h] at hfol
  cases h2 : handleInput E.ideal s d with
  | ok r t => rw [h2] at hfol; exact absurd hfol he
  | ub => rw [h2] at hfol; exact absurd hfol he
  | fuel => rw [h2] at hfol; exact absurd hfol he
  | err e' t =>
    have hdrain : drain E.ideal d.length s d = ([], .err e' t) := by
      obtain ⟨n, hn⟩ : ∃ n, d.length = n + 1 := ⟨d.length - 1, by
        have : d.length ≠ 0 := fun h0 => hd (List.length_eq_zero_iff.1 h0)
        omega⟩
      rw [hn, drain_succ hd, h2]
    have hap := drain_append E.ideal d.length s d X hs.1 (Nat.le_refl _)
    rw [hdrain] at hap
    show (drain E.ideal (d ++ X).length s (d ++ X)).1 = _
    rw [hap]
    rfl

/-- How things stand after a failure. -/
def Fate (E : NetEnv) (s : Conn) (e : Int) (s' : Conn) : Prop :=
  QueueIsStart E s s' ∧ (e ≠ St.NO_MEMORY → Acc E s s' [] ∨ (ParseErr e ∧ StoppedAtBadData E s s'))

theorem Acc.start {E : NetEnv} {s s' : Conn} (h : Acc E s s' []) : QueueIsStart E s s' := by
  obtain ⟨l, h1, h2⟩ := h
  refine ⟨l, h1, fun X => ⟨(framesOf E.pe s'.ps (s'.inb ++ X)).filter (!·.isHeartbeat), ?_⟩⟩
  rw [h2 X]
  simp [pending, queuedFrames]

theorem Acc.lossless {E : NetEnv} {s s' : Conn} (h : Acc E s s' []) : NothingLost E s s' := by
  obtain ⟨l, h1, h2⟩ := h
  exact ⟨l, h1, fun X => by rw [h2 X]; rfl⟩

theorem Fate.of {E : NetEnv} {s s' : Conn} {e : Int} (h : Acc E s s' []) : Fate E s e s' := ⟨h.start, fun _ => Or.inl h⟩

theorem Fate.after {E : NetEnv} {s t s' : Conn} {e : Int} (h : Acc E s t []) (h' : Fate E t e s') : Fate E s e s' := by
  obtain ⟨h1, h2⟩ := h'
  refine ⟨?_, fun he => ?_⟩
  · obtain ⟨l, a, b⟩ := h
    obtain ⟨l', a', b'⟩ := h1
    refine ⟨l ++ l', by unfold Since at *; rw [a', a, List.append_assoc], fun X => ?_⟩
    rw [recvBytes_append, List.append_assoc, b]
    exact b' X
  · rcases h2 he with h2 | ⟨hp, h2⟩
    · exact Or.inl (h.trans h2)
    · obtain ⟨l, a, b⟩ := h
      obtain ⟨l', a', b'⟩ := h2
      refine Or.inr ⟨hp, l ++ l', by unfold Since at *; rw [a', a, List.append_assoc], fun X => ?_⟩
      rw [recvBytes_append, List.append_assoc, b]
      exact b' X

/-- Keeping the queue is enough for `QueueIsStart`. -/
theorem start_same {E : NetEnv} {s s' : Conn} {l : List Ev} (hl : Since s s' l) (hq : s'.queue = s.queue) : QueueIsStart E s s' := by
  refine ⟨l, hl, fun X => ⟨(framesOf E.pe s.ps (s.inb ++ (recvBytes l ++ X))).filter (!·.isHeartbeat), ?_⟩⟩
  simp [pending, queuedFrames, hq]

theorem Acc.eff {E : NetEnv} {s s' : Conn} {hs : List AFrame} (hh : ∀ h ∈ hs, h.isHeartbeat = true) (h : Eff E s s' hs)
    (hq : s'.queue = s.queue) : Acc E s s' [] := by
  obtain ⟨_, l, h1, h2⟩ := h
  refine ⟨l, h1, fun X => ?_⟩
  unfold pending
  rw [h2, hq]
  simp [List.filter_append, filter_heartbeats hh]

theorem consumeOne_fate {E : NetEnv} {s s' : Conn} {e : Int} (hG : Good s.ps) (h : consumeOne E s = .err e s') :
    Fate E s e s' ∧ s'.queue = s.queue := by
  have hp := consumeOne_err h
  unfold consumeOne at h
  cases h1 : handleInput E.pe s.ps s.inb with
  | ok r p => rw [h1] at h; cases h
  | ub => rw [h1] at h; cases h
  | fuel => rw [h1] at h; cases h
  | err e' p =>
    rw [h1] at h
    cases h
    have hl : Since s { s with ps := p } [] := by simp [Since]
    refine ⟨⟨start_same hl rfl, fun he => Or.inr ⟨hp, [], hl, fun X => ?_⟩⟩, rfl⟩
    have := framesOf_err E.pe hG h1 he X
    show _ = (s.queue.map (·.frame) ++ framesOf E.pe s.ps (s.inb ++ ([] ++ X))).filter _
    rw [List.nil_append, this, List.append_nil]
    rfl

theorem queueFrame_fails {E : NetEnv} {s s' : Conn} {f : DFrame} {e : Int} (h : queueFrame E f s = .err e s') :
    e = St.NO_MEMORY ∧ s'.queue = s.queue ∧ Since s s' [] := by
  unfold queueFrame at h
  obtain ⟨a, p, hp⟩ := createLink_eff E f.frame.channel s
  revert hp h
  obtain ⟨b, s1⟩ := createLink E f.frame.channel s
  intro h hp
  dsimp only at hp
  subst hp
  cases b with
  | true => cases h
  | false => cases h; exact ⟨rfl, rfl, by simp [Since]⟩

/-- A frame read that finds no room in memory. -/
theorem unroomed_fate {E : NetEnv} {s t u : Conn} {fs : List AFrame} {f : DFrame} {e : Int} (h1 : Eff E s t fs) (hq : t.queue = s.queue)
    (h : queueFrame E f t = .err e u) : Fate E s e u := by
  obtain ⟨rfl, q, hl⟩ := queueFrame_fails h
  obtain ⟨_, l, a, _⟩ := h1
  exact ⟨start_same (l := l) (by unfold Since at *; rw [hl, a, List.append_nil]) (by rw [q, hq]), fun he => absurd rfl he⟩

/-- A frame read and set aside. -/
theorem aside_acc {E : NetEnv} {s t u : Conn} {hs : List AFrame} {f : DFrame} (hh : ∀ h ∈ hs, h.isHeartbeat = true)
    (h1 : Eff E s t (hs ++ [f.frame])) (hq : t.queue = s.queue) (h : queueFrame E f t = .ok () u) : Acc E s u [] := by
  obtain ⟨e2, q2, _⟩ := queueFrame_eff h1.1 h
  obtain ⟨_, l, a, b⟩ := h1.trans e2
  refine ⟨l, a, fun X => ?_⟩
  unfold pending
  rw [b, q2, hq]
  simp [List.filter_append, filter_heartbeats hh]

theorem drainToQueue_fate {E : NetEnv} : ∀ (n : Nat) (s s' : Conn) (e : Int), Good s.ps → drainToQueue E n s = .err e s' → Fate E s e s' := by
  intro n
  induction n with
  | zero => intro s s' e _ h; cases h
  | succ n ih =>
    intro s s' e hG h
    unfold drainToQueue at h
    by_cases hi : s.inb = []
    · rw [if_pos hi] at h; cases h
    rw [if_neg hi] at h
    cases h1 : consumeOne E s with
    | err e' t => rw [h1] at h; cases h; exact (consumeOne_fate hG h1).1
    | ub => rw [h1] at h; cases h
    | fuel => rw [h1] at h; cases h
    | ok f t =>
      rw [h1] at h
      obtain ⟨e1, q1, _⟩ := consumeOne_eff hG h1
      cases f with
      | none =>
        dsimp only at h
        exact Fate.after (Acc.eff (by simp) e1 q1) (ih t s' e e1.1 h)
      | some f =>
        dsimp only at h
        cases h2 : queueFrame E f t with
        | err e' u => rw [h2] at h; cases h; exact unroomed_fate e1 q1 h2
        | ub => rw [h2] at h; cases h
        | fuel => rw [h2] at h; cases h
        | ok x u =>
          rw [h2] at h
          dsimp only at h
          exact Fate.after (aside_acc (hs := []) (by simp) e1 q1 h2) (ih u s' e (queueFrame_eff e1.1 h2).1.1 h)

theorem tryRecv_fate {E : NetEnv} {s s' : Conn} {e : Int} (hG : Good s.ps) (hr : tryRecv E s = .err e s') : Fate E s e s' := by
  unfold tryRecv at hr
  rw [M.bind_def] at hr
  cases h1 : drainToQueue E E.fuel s with
  | err e' t => rw [h1] at hr; cases hr; exact drainToQueue_fate _ s _ _ hG h1
  | ub => rw [h1] at hr; cases hr
  | fuel => rw [h1] at hr; cases hr
  | ok x t =>
    rw [h1] at hr
    dsimp only at hr
    obtain ⟨fs, e1, q1, i1, _⟩ := drainToQueue_eff _ s t hG h1
    have s1 : Acc E s t [] := Acc.sendEff ⟨fs, e1, q1⟩
    rw [M.bind_def] at hr
    have h2 := fromNowIO_quiet E (some ⟨0, 0⟩) t
    cases h3 : fromNowIO E (some ⟨0, 0⟩) t with
    | err e' u =>
      rw [h3] at hr h2
      cases hr
      have h2 : QuietStep t s' := h2
      have e2 : Eff E t s' [] := Eff.quiet e1.1 h2
      obtain ⟨l, rfl, _⟩ := h2
      exact Fate.of (s1.trans (Acc.eff (by simp) e2 rfl))
    | ub => rw [h3] at hr; cases hr
    | fuel => rw [h3] at hr; cases hr
    | ok d u =>
      rw [h3] at hr h2
      dsimp only at hr
      have e2 : Eff E t u [] := Eff.quiet e1.1 h2
      obtain ⟨l, rfl, _⟩ := h2
      have h4 := recvWithTimeout_eff (E := E) d E.fuel (t.ext l) e2.1 i1
      rw [hr] at h4
      exact Fate.of ((s1.trans (Acc.eff (by simp) e2 rfl)).trans (Acc.eff (by simp) h4.1 h4.2.1))

theorem sendLoop_fate {E : NetEnv} (flags deadline : Nat) : ∀ (n : Nat) (enc : Bytes) (s s' : Conn) (e : Int), Good s.ps →
    sendLoop E flags deadline n enc s = .err e s' → Fate E s e s' := by
  intro n
  induction n with
  | zero => intro enc s s' e _ h; cases h
  | succ n ih =>
    intro enc s s' e hG h
    unfold sendLoop at h
    dsimp only at h
    have h1 := trySend_same (E := E) (timeFirst deadline s.nextRecv) flags enc.length E.fuel (left := enc) (s := s) (Nat.le_refl _)
    cases ht : trySend E (timeFirst deadline s.nextRecv) flags enc.length E.fuel enc s with
    | ub => rw [ht] at h; cases h
    | fuel => rw [ht] at h; cases h
    | err e' t =>
      rw [ht] at h h1
      cases h
      obtain ⟨l, rfl, hl⟩ := h1
      exact Fate.of (Acc.eff (by simp) (Eff.sendish hG hl) rfl)
    | ok m t =>
      rw [ht] at h h1
      obtain ⟨l, rfl, hl⟩ := h1
      have s1 : Acc E s (s.ext l) [] := Acc.eff (by simp) (Eff.sendish hG hl) rfl
      dsimp only at h
      by_cases hm : enc.length ≠ m
      · rw [if_pos hm] at h
        by_cases hq : timeEqual (timeFirst deadline s.nextRecv) deadline = true
        · rw [if_pos hq] at h; cases h; exact Fate.of s1
        rw [if_neg hq] at h
        cases h2 : tryRecv E (s.ext l) with
        | ub => rw [h2] at h; cases h
        | fuel => rw [h2] at h; cases h
        | err e' u =>
          rw [h2] at h
          dsimp only at h
          have hf := Fate.after s1 (tryRecv_fate (s := s.ext l) hG h2)
          by_cases he : e' = St.TIMEOUT
          · rw [if_pos he] at h
            cases h
            rcases hf.2 (by rw [he]; decide) with hf | ⟨hp, _⟩
            · exact Fate.of hf
            · rw [he] at hp; exact absurd hp (by unfold ParseErr; decide)
          · rw [if_neg he] at h; cases h; exact hf
        | ok a u =>
          rw [h2] at h
          dsimp only at h
          obtain ⟨fs, e2, q2, _⟩ := tryRecv_eff (s := s.ext l) hG h2
          exact Fate.after (s1.trans (Acc.sendEff ⟨fs, e2, q2⟩)) (ih _ u s' e e2.1 h)
      · rw [if_neg hm] at h
        have h4 := restartSend_same E (s := s.ext l) hG
        rw [h] at h4
        exact Fate.of (s1.trans (Acc.eff (by simp) h4.1 h4.2.1))

theorem sendFrame_fate {E : NetEnv} {f : AFrame} {flags deadline : Nat} {s s' : Conn} {e : Int} (hG : Good s.ps)
    (h : sendFrame E f flags deadline s = .err e s') : Fate E s e s' := by
  unfold sendFrame at h
  cases hf : frameToBytes E.pe.be s.outMem s.outLen f with
  | ok enc mem =>
    rw [hf] at h
    exact sendLoop_fate flags deadline E.fuel enc { s with outMem := mem } s' e hG h
  | err e' mem =>
    rw [hf] at h
    cases h
    exact Fate.of (Acc.eff (by simp) (Eff.same (l := []) hG (by simp [Since]) rfl (PSim.refl hG.1 hG.2) rfl) rfl)
  | ub => rw [hf] at h; cases h
  | fuel => rw [hf] at h; cases h

theorem waitInner_fate {E : NetEnv} (d : Nat) : ∀ (n : Nat) (b : Bool) (s s' : Conn) (e : Int), Good s.ps → Unblocked E s →
    (b = true → s.inb = []) → waitInner E d n b s = .err e s' → Fate E s e s' := by
  intro n
  induction n with
  | zero => intro b s s' e _ _ _ h; cases h
  | succ n ih =>
    intro b s s' e hG hU hb h
    unfold waitInner at h
    by_cases hc : b = false ∧ s.inb ≠ []
    · rw [if_pos hc] at h
      cases h1 : consumeOne E s with
      | err e' t => rw [h1] at h; cases h; exact (consumeOne_fate hG h1).1
      | ub => rw [h1] at h; cases h
      | fuel => rw [h1] at h; cases h
      | ok f t =>
        rw [h1] at h
        obtain ⟨e1, q1, _⟩ := consumeOne_eff hG h1
        have u1 : Unblocked E t := ((unblocked_closed E).consume hU h1).1
        cases f with
        | none => exact Fate.after (Acc.eff (by simp) e1 q1) (ih false t s' e e1.1 u1 (by simp) h)
        | some f =>
          dsimp only at h
          cases hp : f.frame.payload with
          | heartbeat =>
            rw [hp] at h
            dsimp only at h
            have e2 := e1.trans (maybeReleaseOn_eff (E := E) 0 e1.1)
            obtain ⟨l, hl, _⟩ := maybeReleaseOn_ext 0 t
            refine Fate.after (Acc.eff (hs := [f.frame]) ?_ e2 (by rw [hl]; exact q1)) (ih false _ s' e e2.1
              ((unblocked_closed E).release 0 u1) (by simp) h)
            intro x hx
            rw [List.mem_singleton] at hx
            rw [hx]
            unfold AFrame.isHeartbeat
            rw [hp]
          | method a b => rw [hp] at h; cases h
          | header c sz fl ps => rw [hp] at h; cases h
          | body b => rw [hp] at h; cases h
          | protocolHeader a b c d => rw [hp] at h; cases h
          | other t => rw [hp] at h; cases h
    · rw [if_neg hc] at h
      have hi : s.inb = [] := by
        cases b with
        | true => exact hb rfl
        | false =>
          cases hs : s.inb with
          | nil => rfl
          | cons x y => exact absurd ⟨rfl, by rw [hs]; simp⟩ hc
      have h1 := beginRecv_eff d hG hi hU
      cases h2 : beginRecv E d s with
      | ub => rw [h2] at h; cases h
      | fuel => rw [h2] at h; cases h
      | err e' t =>
        rw [h2] at h h1
        cases h
        exact Fate.of (Acc.eff (by simp) h1.1 h1.2.1)
      | ok again t =>
        rw [h2] at h h1
        exact Fate.after (Acc.eff (by simp) h1.1 h1.2.1) (ih again t s' e h1.1.1 h1.2.2.1 h1.2.2.2 h)

theorem waitFrameInner_fate {E : NetEnv} {d : Nat} {s s' : Conn} {e : Int} (hG : Good s.ps) (hU : Unblocked E s)
    (h : waitFrameInner E d s = .err e s') : Fate E s e s' := waitInner_fate d _ _ s s' e hG hU (by simp) h

theorem waitFrame_fate {E : NetEnv} {tv : Option TimeVal} {s s' : Conn} {e : Int} (hG : Good s.ps) (hU : Unblocked E s)
    (h : waitFrame E tv s = .err e s') : Fate E s e s' := by
  rw [waitFrame_def] at h
  have h2 := fromNowIO_quiet E tv s
  cases h3 : fromNowIO E tv s with
  | err e' u =>
    rw [h3] at h h2
    cases h
    have h2 : QuietStep s s' := h2
    have e2 : Eff E s s' [] := Eff.quiet hG h2
    obtain ⟨l, rfl, _⟩ := h2
    exact Fate.of (Acc.eff (by simp) e2 rfl)
  | ub => rw [h3] at h; cases h
  | fuel => rw [h3] at h; cases h
  | ok d u =>
    rw [h3] at h h2
    dsimp only at h
    have e2 : Eff E s u [] := Eff.quiet hG h2
    have hU2 : Unblocked E u := (unblocked_closed E).quiet hU h2
    have q : u.queue = s.queue := by obtain ⟨l, rfl, _⟩ := h2; rfl
    cases hq : u.queue with
    | cons f rest => rw [hq] at h; cases h
    | nil =>
      rw [hq] at h
      exact Fate.after (Acc.eff (by simp) e2 q) (waitFrameInner_fate e2.1 hU2 h)

theorem waitOnLoop_fate {E : NetEnv} (ch : UInt16) : ∀ (n : Nat) (s s' : Conn) (e : Int), Good s.ps → Unblocked E s →
    waitOnLoop E ch n s = .err e s' → Fate E s e s' := by
  intro n
  induction n with
  | zero => intro s s' e _ _ h; cases h
  | succ n ih =>
    intro s s' e hG hU h
    unfold waitOnLoop at h
    have h1 := waitFrameInner_eff (E := E) TIME_INF hG hU
    cases h2 : waitFrameInner E TIME_INF s with
    | err e' t => rw [h2] at h; cases h; exact waitFrameInner_fate hG hU h2
    | ub => rw [h2] at h; cases h
    | fuel => rw [h2] at h; cases h
    | ok g t =>
      rw [h2] at h h1
      dsimp only at h
      obtain ⟨a1, ⟨hs, b1, c1⟩, d1, u1⟩ := h1
      by_cases hc : g.frame.channel = ch
      · rw [if_pos hc] at h; cases h
      rw [if_neg hc] at h
      cases h3 : queueFrame E g t with
      | err e' u => rw [h3] at h; cases h; exact unroomed_fate c1 d1 h3
      | ub => rw [h3] at h; cases h
      | fuel => rw [h3] at h; cases h
      | ok x u =>
        rw [h3] at h
        dsimp only at h
        have hu2 := (unblocked_closed E).queue (s := t) (f := g) trivial u1
        rw [h3] at hu2
        exact Fate.after (aside_acc b1 c1 d1 h3) (ih u s' e (queueFrame_eff c1.1 h3).1.1 hu2 h)

theorem Fate.closed {E : NetEnv} {s s' : Conn} {e : Int} (h : Fate E s e s') : Fate E s e (sockClose E s').2 := by
  obtain ⟨l, h1, h2⟩ := sockClose_ext E s'
  have hr : recvBytes l = [] := (none_read (l := l) fun e he => by obtain ⟨ok, rfl⟩ := h2 e he; exact ⟨rfl, rfl⟩).1
  rw [h1]
  generalize (sockClose E s').2.isOpen = b
  have hl : ∀ {l0}, Since s s' l0 → Since s { s'.ext l with isOpen := b } (l0 ++ l) := by
    intro l0 h0
    unfold Since at *
    show s'.log ++ l = _
    rw [h0, List.append_assoc]
  have hb : ∀ l0, recvBytes (l0 ++ l) = recvBytes l0 := fun l0 => by rw [recvBytes_append, hr, List.append_nil]
  refine ⟨?_, fun he => ?_⟩
  · obtain ⟨l0, a, c⟩ := h.1
    exact ⟨l0 ++ l, hl a, fun X => by rw [hb]; exact c X⟩
  · rcases h.2 he with ⟨l0, a, c⟩ | ⟨hp, l0, a, c⟩
    · exact Or.inl ⟨l0 ++ l, hl a, fun X => by rw [hb]; exact c X⟩
    · exact Or.inr ⟨hp, l0 ++ l, hl a, fun X => by rw [hb]; exact c X⟩

theorem rpcLoop_fate {E : NetEnv} (ch : UInt16) (expected : List UInt32) (d : Nat) : ∀ (n : Nat) (s s' : Conn) (e : Int), Good s.ps →
    Unblocked E s → rpcLoop E ch expected d n s = .ok (.libraryException e) s' → Fate E s e s' := by
  intro n
  induction n with
  | zero => intro s s' e _ _ h; cases h
  | succ n ih =>
    intro s s' e hG hU h
    unfold rpcLoop at h
    have h1 := waitFrameInner_eff (E := E) d hG hU
    cases h2 : waitFrameInner E d s with
    | err e' t =>
      rw [h2] at h
      dsimp only at h
      have hf := waitFrameInner_fate hG hU h2
      by_cases he : e' = St.TIMEOUT
      · rw [if_pos he] at h; cases h; exact hf.closed
      · rw [if_neg he] at h; cases h; exact hf
    | ub => rw [h2] at h; cases h
    | fuel => rw [h2] at h; cases h
    | ok g t =>
      rw [h2] at h h1
      dsimp only at h
      obtain ⟨a1, ⟨hs, b1, c1⟩, d1, u1⟩ := h1
      by_cases hc : endsRpc ch expected g.frame = true
      · rw [if_pos hc] at h
        cases hp : g.frame.payload with
        | method id args =>
          rw [hp] at h
          dsimp only at h
          injection h with h h'
          by_cases hx : expected.contains id = true
          · rw [if_pos hx] at h; cases h
          · rw [if_neg hx] at h; cases h
        | header c sz fl ps => rw [hp] at h; cases h
        | body b => rw [hp] at h; cases h
        | heartbeat => rw [hp] at h; cases h
        | protocolHeader a b c d => rw [hp] at h; cases h
        | other t => rw [hp] at h; cases h
      rw [if_neg hc] at h
      cases h3 : queueFrame E g t with
      | err e' u =>
        rw [h3] at h
        have hf := unroomed_fate c1 d1 h3
        rw [(queueFrame_fails h3).1] at hf
        cases h
        exact hf
      | ub => rw [h3] at h; cases h
      | fuel => rw [h3] at h; cases h
      | ok x u =>
        rw [h3] at h
        dsimp only at h
        have hu2 := (unblocked_closed E).queue (s := t) (f := g) trivial u1
        rw [h3] at hu2
        exact Fate.after (aside_acc b1 c1 d1 h3) (ih u s' e (queueFrame_eff c1.1 h3).1.1 hu2 h)

theorem simpleRpc_fate {E : NetEnv} {ch : UInt16} {id : UInt32} {expected : List UInt32} {args : Rec} {s s' : Conn} {e : Int}
    (hG : Good s.ps) (hU : Unblocked E s) (h : simpleRpc E ch id expected args s = .ok (.libraryException e) s') : Fate E s e s' := by
  unfold simpleRpc at h
  have hq := fromNowIO_quiet E (getRpcTimeout s.timeouts) s
  cases hd : fromNowIO E (getRpcTimeout s.timeouts) s with
  | ub => rw [hd] at h; cases h
  | fuel => rw [hd] at h; cases h
  | err e' t =>
    rw [hd] at h hq
    cases h
    have hq : QuietStep s s' := hq
    have e2 : Eff E s s' [] := Eff.quiet hG hq
    obtain ⟨l, rfl, _⟩ := hq
    exact Fate.of (Acc.eff (by simp) e2 rfl)
  | ok d t =>
    rw [hd] at h hq
    dsimp only at h
    have hq : QuietStep s t := hq
    have hU1 : Unblocked E t := (unblocked_closed E).quiet hU hq
    have e1 : Eff E s t [] := Eff.quiet hG hq
    have q1 : t.queue = s.queue := by obtain ⟨l, rfl, _⟩ := hq; rfl
    have s1 : Acc E s t [] := Acc.eff (by simp) e1 q1
    unfold rpcInner sendMethod at h
    have h2 := sendFrame_sendEff (E := E) ⟨ch, .method id args⟩ SF_NONE TIME_INF e1.1
    have hu2 := (unblocked_closed E).sendFrame ⟨ch, .method id args⟩ SF_NONE TIME_INF hU1
    cases hs : sendFrame E ⟨ch, .method id args⟩ SF_NONE TIME_INF t with
    | ub => rw [hs] at h; cases h
    | fuel => rw [hs] at h; cases h
    | err e' u => rw [hs] at h; cases h; exact Fate.after s1 (sendFrame_fate e1.1 hs)
    | ok x u =>
      rw [hs] at h h2 hu2
      dsimp only at h
      exact Fate.after (s1.trans (Acc.sendEff h2)) (rpcLoop_fate ch expected d _ u s' e h2.good hu2 h)

/-! ## Publishing -/

/-- `x` loses nothing if it succeeds, and has a fate if it fails. -/
def Fated (E : NetEnv) {α : Type} (x : M Conn α) : Prop := ∀ s, Good s.ps →
  match x s with
  | .ok _ t => Good t.ps ∧ Acc E s t []
  | .err e t => Fate E s e t
  | _ => True

theorem Fated.bind {E : NetEnv} {α β : Type} {x : M Conn α} {f : α → M Conn β} (hx : Fated E x) (hf : ∀ a, Fated E (f a)) :
    Fated E (x >>= f) := by
  intro s hG
  have h := hx s hG
  rw [M.bind_def]
  revert h
  cases x s with
  | ub => exact fun _ => trivial
  | fuel => exact fun _ => trivial
  | err e t => exact id
  | ok a t =>
    rintro ⟨g, h⟩
    have h' := hf a t g
    dsimp only
    revert h'
    cases f a t with
    | ub => exact fun _ => trivial
    | fuel => exact fun _ => trivial
    | err e u => exact fun h' => Fate.after h h'
    | ok b u => exact fun h' => ⟨h'.1, h.trans h'.2⟩

theorem sendFrame_fated (E : NetEnv) (f : AFrame) (flags deadline : Nat) : Fated E (sendFrame E f flags deadline) := by
  intro s hG
  have h := sendFrame_sendEff (E := E) f flags deadline hG
  cases hs : sendFrame E f flags deadline s with
  | ub => trivial
  | fuel => trivial
  | err e t => exact sendFrame_fate hG hs
  | ok a t =>
    rw [hs] at h
    exact ⟨h.good, Acc.sendEff h⟩

theorem publishCheck_fated (E : NetEnv) : Fated E (publishCheck E) := by
  intro s hG
  unfold publishCheck
  obtain ⟨l, h1, h2⟩ := hasPastIO_ext E s.nextRecv s
  have hq : QuietStep s (hasPastIO E s.nextRecv s).2 := ⟨l, h1, h2⟩
  revert hq
  obtain ⟨res, t⟩ := hasPastIO E s.nextRecv s
  intro hq
  dsimp only at hq ⊢
  have e1 : Eff E s t [] := Eff.quiet hG hq
  have s1 : Acc E s t [] := Acc.eff (by simp) e1 (by obtain ⟨l, rfl, _⟩ := hq; rfl)
  by_cases ha : res = St.TIMER_FAILURE
  · rw [if_pos ha]; exact Fate.of s1
  rw [if_neg ha]
  by_cases hb : res = St.TIMEOUT
  · rw [if_pos hb]
    cases h3 : tryRecv E t with
    | ub => trivial
    | fuel => trivial
    | ok a u =>
      obtain ⟨fs, e2, q2, _⟩ := tryRecv_eff e1.1 h3
      exact ⟨e2.1, s1.trans (Acc.sendEff ⟨fs, e2, q2⟩)⟩
    | err e u =>
      dsimp only
      have hf := Fate.after s1 (tryRecv_fate e1.1 h3)
      by_cases he : e = St.TIMEOUT
      · rw [if_pos he]
        rcases hf.2 (by rw [he]; decide) with hf | ⟨hp, _⟩
        · exact Fate.of hf
        · rw [he] at hp; exact absurd hp (by unfold ParseErr; decide)
      · rw [if_neg he]; exact hf
  · rw [if_neg hb]; exact ⟨e1.1, s1⟩

theorem publishBody_fated (E : NetEnv) (ch : UInt16) (usable : Nat) : ∀ (n : Nat) (rest : Bytes), Fated E (publishBody E ch usable n rest) := by
  intro n
  induction n with
  | zero => intro rest s _; trivial
  | succ n ih =>
    intro rest s hG
    unfold publishBody
    by_cases h0 : rest.length = 0
    · rw [if_pos h0]; exact ⟨hG, Acc.refl E s⟩
    rw [if_neg h0]
    have step : ∀ (f : AFrame) (fl : Nat) (r : Bytes), Fated E (sendFrame E f fl TIME_INF >>= fun _ => publishBody E ch usable n r) :=
      fun f fl r => (sendFrame_fated E f fl TIME_INF).bind fun _ => ih r
    by_cases h1 : rest.length ≥ usable
    · rw [if_pos h1]
      have h := step ⟨ch, .body (rest.take usable)⟩ SF_MORE (rest.drop usable) s hG
      rw [M.bind_def] at h
      revert h
      cases sendFrame E ⟨ch, .body (rest.take usable)⟩ SF_MORE TIME_INF s <;> exact id
    · rw [if_neg h1]
      have h := step ⟨ch, .body rest⟩ SF_NONE (rest.drop rest.length) s hG
      rw [M.bind_def] at h
      revert h
      cases sendFrame E ⟨ch, .body rest⟩ SF_NONE TIME_INF s <;> exact id

theorem basicPublish_fated (E : NetEnv) (ch : UInt16) (exchange routingKey : Bytes) (mandatory immediate : Int32)
    (props : Option (UInt32 × Rec)) (body : Bytes) : Fated E (basicPublish E ch exchange routingKey mandatory immediate props body) := by
  intro s hG
  unfold basicPublish
  exact ((publishCheck_fated E).bind fun _ => (sendFrame_fated E _ _ _).bind fun _ => (sendFrame_fated E _ _ _).bind fun _ =>
    publishBody_fated E ch _ _ body) s hG

end Rmq
