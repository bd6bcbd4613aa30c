import Verif.Model.Ready
import Verif.Proofs.Deliver
import Verif.Proofs.Timeouts
import Verif.Proofs.Outgoing
/-!
# Nothing comes from nothing
-/
namespace Rmq

/-- Since `s0`, the receive buffer is empty if nothing was received. -/
def Dry (s0 s : Conn) : Prop := ∃ l, Since s0 s l ∧ (recvBytes l = [] → s.inb = [])

theorem Dry.refl {s : Conn} (h : s.inb = []) : Dry s s := ⟨[], by simp [Since], fun _ => h⟩

theorem Dry.ext {s0 s t : Conn} (h : Dry s0 s) (l' : List Ev) (hl : t.log = s.log ++ l') (hi : s.inb = [] → t.inb = []) : Dry s0 t := by
  obtain ⟨l, h1, h2⟩ := h
  refine ⟨l ++ l', by unfold Since at *; rw [hl, h1, List.append_assoc], fun hr => hi (h2 ?_)⟩
  rw [recvBytes_append] at hr
  exact (List.append_eq_nil_iff.1 hr).1

theorem dry_closed (E : NetEnv) (s0 : Conn) : Closed E (Dry s0) (fun _ _ => True) := by
  refine ⟨⟨⟨fun {s e} _ h => h.ext [e] rfl id, fun {s} b _ h => ?_⟩, fun {s s' f} h hc => ⟨?_, fun _ _ => trivial⟩, fun {s s' e} h hc => ?_, fun {s f} _ h => ?_⟩,
    fun {s} b fl h => ?_, fun {s} h => ?_, fun _ h => h, fun {s f} _ h => ?_, fun h _ => ⟨h, trivial⟩, fun {s} h => ?_, fun {s} ch h => ?_⟩
  · refine (restartRecv_eff E _).mono ?_
    rintro v ⟨t, l1, rfl, _⟩
    obtain ⟨l, h1, h2⟩ := h
    refine ⟨l ++ (.recvData (b.take SOCK_BUF) :: l1), by unfold Since at *; simp [Conn.ext, Conn.push, h1], fun hr => ?_⟩
    rw [recvBytes_append] at hr
    have hr := (List.append_eq_nil_iff.1 hr).2
    exact (List.append_eq_nil_iff.1 hr).1
  · unfold consumeOne at hc
    cases h1 : handleInput E.pe s.ps s.inb with
    | ok r p => rw [h1] at hc; cases hc; exact h.ext _ rfl (fun hi => by show s.inb.drop _ = []; rw [hi]; exact List.drop_nil)
    | err e p => rw [h1] at hc; cases hc
    | ub => rw [h1] at hc; cases hc
    | fuel => rw [h1] at hc; cases hc
  · unfold consumeOne at hc
    cases h1 : handleInput E.pe s.ps s.inb with
    | ok r p => rw [h1] at hc; cases hc
    | err e p => rw [h1] at hc; cases hc; exact h.ext [] (by simp) id
    | ub => rw [h1] at hc; cases hc
    | fuel => rw [h1] at hc; cases hc
  · unfold queueFrame
    have hp := createLink_eff E f.frame.channel s
    revert hp
    obtain ⟨b, t⟩ := createLink E f.frame.channel s
    rintro ⟨a, p, hp⟩
    dsimp only at hp
    subst hp
    cases b <;> exact h.ext [] (by simp) id
  · unfold sockSend
    split
    · split <;> exact h.ext [_] rfl id
    · exact h
  · refine (restartSend_eff E s).mono ?_
    rintro v ⟨t, l1, rfl, _⟩
    exact h.ext l1 rfl id
  · unfold putBackFrame
    have hp := createLink_eff E f.frame.channel s
    revert hp
    obtain ⟨b, t⟩ := createLink E f.frame.channel s
    rintro ⟨a, p, hp⟩
    dsimp only at hp
    subst hp
    cases b <;> exact h.ext [] (by simp) id
  · unfold sockClose
    split
    · exact h
    · split <;> exact h.ext [_] rfl id
  · obtain ⟨l, h1, _⟩ := maybeReleaseOn_ext ch s
    rw [h1]
    exact h.ext l rfl id

/-- A frame read by a wait was in bytes received. -/
theorem waitInner_dry {E : NetEnv} (s0 : Conn) (d : Nat) : ∀ (n : Nat) (b : Bool) (s s' : Conn) (f : DFrame), Dry s0 s →
    waitInner E d n b s = .ok f s' → ∃ l, Since s0 s' l ∧ recvBytes l ≠ [] := by
  intro n
  induction n with
  | zero => intro b s s' f _ h; cases h
  | succ n ih =>
    intro b s s' f hD h
    unfold waitInner at h
    by_cases hc : b = false ∧ s.inb ≠ []
    · rw [if_pos hc] at h
      have now : ∃ l, Since s0 s l ∧ recvBytes l ≠ [] := by
        obtain ⟨l, h1, h2⟩ := hD
        exact ⟨l, h1, fun hr => hc.2 (h2 hr)⟩
      cases h1 : consumeOne E s with
      | err e t => rw [h1] at h; cases h
      | ub => rw [h1] at h; cases h
      | fuel => rw [h1] at h; cases h
      | ok g t =>
        rw [h1] at h
        have hD1 := ((dry_closed E s0).consume hD h1).1
        cases g with
        | none => exact ih _ _ _ _ hD1 h
        | some g =>
          dsimp only at h
          have fin : Res.ok g t = Res.ok f s' → ∃ l, Since s0 s' l ∧ recvBytes l ≠ [] := by
            intro h
            injection h with _ h3
            subst h3
            obtain ⟨l, e1, e2⟩ := now
            obtain ⟨l2, e3⟩ := ((since_closed E s).consume ⟨[], by simp [Since]⟩ h1).1
            refine ⟨l ++ l2, by unfold Since at *; rw [e3, e1, List.append_assoc], ?_⟩
            rw [recvBytes_append]
            intro hr
            exact e2 (List.append_eq_nil_iff.1 hr).1
          cases hp : g.frame.payload <;> rw [hp] at h
          case heartbeat => exact ih _ _ _ _ ((dry_closed E s0).release 0 hD1) h
          all_goals exact fin h
    · rw [if_neg hc] at h
      have h2 := (dry_closed E s0).beginRecv d hD
      cases h1 : beginRecv E d s with
      | err e t => rw [h1] at h; cases h
      | ub => rw [h1] at h; cases h
      | fuel => rw [h1] at h; cases h
      | ok b' t => rw [h1] at h h2; exact ih _ _ _ _ h2 h

/-- Parser steps and the recycling of channel 0's pool: nothing that touches the outside. -/
def Ev.inside : Ev → Bool
  | .parsed _ => true
  | .recycle _ => true
  | _ => false

theorem framesOf_nil (E : PEnv) (s : PState) : framesOf E s [] = [] := rfl

/-- A wait that finds a frame in the buffer. -/
theorem waitInner_inside {E : NetEnv} (d : Nat) : ∀ (n : Nat) (s : Conn), Good s.ps → ∀ g rest,
    (framesOf E.pe s.ps s.inb).filter (!·.isHeartbeat) = g :: rest →
    match waitInner E d n false s with
    | .ok f s' => f.frame = g ∧ s'.queue = s.queue ∧ ∃ l, Since s s' l ∧ ∀ e ∈ l, e.inside = true
    | .err e s' => ParseErr e ∧ ∃ l, Since s s' l ∧ ∀ e ∈ l, e.inside = true
    | _ => True := by
  intro n
  induction n with
  | zero => intro s _ g rest _; trivial
  | succ n ih =>
    intro s hG g rest hg
    have hne : s.inb ≠ [] := by
      intro hi
      rw [hi, framesOf_nil] at hg
      cases hg
    unfold waitInner
    rw [if_pos ⟨rfl, hne⟩]
    have hlog : ∀ {f t}, consumeOne E s = .ok f t → ∃ k, Since s t [.parsed (s.inb.take k)] := by
      intro f t h
      unfold consumeOne at h
      cases h1 : handleInput E.pe s.ps s.inb with
      | ok r p => rw [h1] at h; cases h; exact ⟨_, rfl⟩
      | err e p => rw [h1] at h; cases h
      | ub => rw [h1] at h; cases h
      | fuel => rw [h1] at h; cases h
    cases h1 : consumeOne E s with
    | ub => trivial
    | fuel => trivial
    | err e t =>
      refine ⟨consumeOne_err h1, [], ?_, by simp⟩
      unfold consumeOne at h1
      cases h2 : handleInput E.pe s.ps s.inb with
      | ok r p => rw [h2] at h1; cases h1
      | err e p => rw [h2] at h1; cases h1; simp [Since]
      | ub => rw [h2] at h1; cases h1
      | fuel => rw [h2] at h1; cases h1
    | ok f t =>
      obtain ⟨⟨hGt, l, hl, hX⟩, q1, _⟩ := consumeOne_eff hG h1
      obtain ⟨k, hk⟩ := hlog h1
      have := hl.unique hk
      subst this
      have hX := hX []
      rw [show recvBytes [Ev.parsed (s.inb.take k)] = [] from rfl] at hX
      simp only [List.nil_append, List.append_nil] at hX
      rw [hX, List.filter_append] at hg
      -- going on
      have cont : ∀ t', Good t'.ps → t'.queue = s.queue → (∃ l, Since s t' l ∧ ∀ e ∈ l, e.inside = true) →
          (framesOf E.pe t'.ps t'.inb).filter (!·.isHeartbeat) = g :: rest →
          match waitInner E d n false t' with
          | .ok f s' => f.frame = g ∧ s'.queue = s.queue ∧ ∃ l, Since s s' l ∧ ∀ e ∈ l, e.inside = true
          | .err e s' => ParseErr e ∧ ∃ l, Since s s' l ∧ ∀ e ∈ l, e.inside = true
          | _ => True := by
        rintro t' g1 g2 ⟨l1, g3, g4⟩ g5
        have h := ih t' g1 g rest g5
        have key : ∀ {u}, (∃ l, Since t' u l ∧ ∀ e ∈ l, e.inside = true) → ∃ l, Since s u l ∧ ∀ e ∈ l, e.inside = true := by
          rintro u ⟨l2, a, b⟩
          refine ⟨l1 ++ l2, by unfold Since at *; rw [a, g3, List.append_assoc], fun e he => ?_⟩
          rcases List.mem_append.1 he with he | he
          · exact g4 e he
          · exact b e he
        revert h
        cases waitInner E d n false t' with
        | ok f u => rintro ⟨a, b, c⟩; exact ⟨a, by rw [b, g2], key c⟩
        | err e u => rintro ⟨a, c⟩; exact ⟨a, key c⟩
        | ub => exact id
        | fuel => exact id
      have hin : ∃ l, Since s t l ∧ ∀ e ∈ l, e.inside = true := ⟨_, hl, by simp [Ev.inside]⟩
      cases f with
      | none => exact cont t hGt q1 hin hg
      | some f =>
        dsimp only
        by_cases hp : f.frame.isHeartbeat = true
        · have hp' : f.frame.payload = .heartbeat := by
            unfold AFrame.isHeartbeat at hp
            cases h : f.frame.payload <;> rw [h] at hp <;> first | rfl | cases hp
          rw [hp']
          dsimp only
          obtain ⟨l2, hr, hr2⟩ := maybeReleaseOn_ext 0 t
          refine cont _ (by rw [hr]; exact hGt) (by rw [hr]; exact q1) ?_ ?_
          · obtain ⟨l, a, b⟩ := hin
            refine ⟨l ++ l2, by rw [hr]; unfold Since at *; simp [Conn.ext, a], fun e he => ?_⟩
            rcases List.mem_append.1 he with he | he
            · exact b e he
            · rcases hr2 with rfl | rfl
              · cases he
              · rw [List.mem_singleton.1 he]; rfl
          · rw [hr]
            simpa [hp] using hg
        · have hf : f.frame = g := by
            have : ([f.frame].filter (!·.isHeartbeat)) = [f.frame] := by simp [hp]
            simp only [Option.toList_some, List.map_cons, List.map_nil] at hg
            rw [this] at hg
            injection hg
          have hp' : f.frame.payload ≠ .heartbeat := by
            intro h; apply hp; unfold AFrame.isHeartbeat; rw [h]
          cases h : f.frame.payload <;> first | exact absurd h hp' | exact ⟨hf, q1, hin⟩

/-- A wait that times out has emptied the receive buffer. -/
theorem beginRecv_timeout {E : NetEnv} (d : Nat) {s s' : Conn} (hi : s.inb = []) (hU : Unblocked E s) (hG : Good s.ps)
    (h : beginRecv E d s = .err St.TIMEOUT s') : s'.inb = [] := by
  have hsend : ∃ res s1, hasPastIO E s.nextSend s = (res, s1) ∧ QuietStep s s1 := by
    obtain ⟨l, h1, h2⟩ := hasPastIO_ext E s.nextSend s
    exact ⟨(hasPastIO E s.nextSend s).1, (hasPastIO E s.nextSend s).2, rfl, ⟨l, h1, h2⟩⟩
  obtain ⟨res, s1, h1, hq1⟩ := hsend
  unfold beginRecv at h
  rw [h1] at h
  dsimp only at h
  have e1 : Eff E s s1 [] := Eff.quiet hG hq1
  obtain ⟨l1, rfl, hl1⟩ := hq1
  by_cases hr : res = St.TIMER_FAILURE
  · rw [if_pos hr] at h; injection h with h _; rw [hr] at h; exact absurd h (by decide)
  rw [if_neg hr] at h
  have h2 : (if res = St.TIMEOUT then sendFrame E ⟨0, .heartbeat⟩ SF_NONE TIME_INF (s.ext l1) else .ok () (s.ext l1) : Res Conn Unit).All
      fun t => t.inb = [] := by
    by_cases hr : res = St.TIMEOUT
    · rw [if_pos hr]
      have h := sendBeat_same (E := E) SF_NONE (s := s.ext l1) hU e1.1
      refine h.mono ?_
      rintro t ⟨_, _, h⟩
      rw [h]; exact hi
    · rw [if_neg hr]; exact hi
  revert h2 h
  cases (if res = St.TIMEOUT then sendFrame E ⟨0, .heartbeat⟩ SF_NONE TIME_INF (s.ext l1) else .ok () (s.ext l1) : Res Conn Unit) with
  | ub => intro h; cases h
  | fuel => intro h; cases h
  | err e t => intro h; injection h with _ h; subst h; exact id
  | ok a t =>
    intro h i2
    dsimp only at h
    cases h4 : recvWithTimeout E (timeFirst d (timeFirst t.nextRecv t.nextSend)) E.fuel t with
    | ub => rw [h4] at h; cases h
    | fuel => rw [h4] at h; cases h
    | ok b u => rw [h4] at h; cases h
    | err e u =>
      rw [h4] at h
      dsimp only at h
      by_cases he : e = St.TIMEOUT
      · rw [if_pos he] at h
        obtain ⟨l, hl, _⟩ := recvWithTimeout_timeout _ _ _ _ (by rw [h4, he])
        have iu : u.inb = [] := by rw [hl]; exact i2
        by_cases c1 : timeEqual (timeFirst d (timeFirst t.nextRecv t.nextSend)) u.nextRecv = true
        · rw [if_pos c1] at h; injection h with h _; exact absurd h (by decide)
        rw [if_neg c1] at h
        by_cases c2 : timeEqual (timeFirst d (timeFirst t.nextRecv t.nextSend)) d = true
        · rw [if_pos c2] at h; injection h with _ h; subst h; exact iu
        rw [if_neg c2] at h
        by_cases c3 : timeEqual (timeFirst d (timeFirst t.nextRecv t.nextSend)) u.nextSend = true
        · rw [if_pos c3] at h; cases h
        · rw [if_neg c3] at h; cases h
      · rw [if_neg he] at h; injection h with h _; exact absurd h he

theorem waitInner_timeout {E : NetEnv} (d : Nat) : ∀ (n : Nat) (b : Bool) (s s' : Conn), Good s.ps → Unblocked E s → (b = true → s.inb = []) →
    waitInner E d n b s = .err St.TIMEOUT s' → s'.inb = [] := by
  intro n
  induction n with
  | zero => intro b s s' _ _ _ h; cases h
  | succ n ih =>
    intro b s s' hG hU hb h
    unfold waitInner at h
    by_cases hc : b = false ∧ s.inb ≠ []
    · rw [if_pos hc] at h
      cases h1 : consumeOne E s with
      | err e t =>
        rw [h1] at h
        injection h with h _
        exact absurd h (parseErr_not_timeout (consumeOne_err h1))
      | ub => rw [h1] at h; cases h
      | fuel => rw [h1] at h; cases h
      | ok g t =>
        rw [h1] at h
        have e1 := (consumeOne_eff hG h1).1.1
        have u1 := ((unblocked_closed E).consume hU h1).1
        cases g with
        | none => exact ih _ _ _ e1 u1 (by simp) h
        | some g =>
          dsimp only at h
          cases hp : g.frame.payload <;> rw [hp] at h
          case heartbeat => exact ih _ _ _ (maybeReleaseOn_eff (E := E) 0 e1).1 ((unblocked_closed E).release 0 u1) (by simp) h
          all_goals cases h
    · rw [if_neg hc] at h
      have hi : s.inb = [] := by
        cases b with
        | true => exact hb rfl
        | false => exact Classical.byContradiction fun h => hc ⟨rfl, h⟩
      have h2 := beginRecv_eff (E := E) d hG hi hU
      cases h1 : beginRecv E d s with
      | err e t =>
        rw [h1] at h
        injection h with h3 h4
        subst h3 h4
        exact beginRecv_timeout d hi hU hG h1
      | ub => rw [h1] at h; cases h
      | fuel => rw [h1] at h; cases h
      | ok b' t =>
        rw [h1] at h h2
        exact ih _ _ _ h2.1.1 h2.2.2.1 h2.2.2.2 h

end Rmq
