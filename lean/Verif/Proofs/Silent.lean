import Verif.Proofs.Timeouts
/-!
# With heartbeats off, waiting sends nothing and leaves the settings alone
-/
namespace Rmq

/-- Only the receiving side changed, and nothing was sent. -/
def Idle (s s' : Conn) : Prop :=
  ∃ ps inb q o l, s' = { s.ext l with ps := ps, inb := inb, queue := q, isOpen := o } ∧ q <:+ s.queue ∧ ∀ e ∈ l, e.isSend = false

theorem Idle.refl (s : Conn) : Idle s s := ⟨s.ps, s.inb, s.queue, s.isOpen, [], by simp, List.suffix_refl _, by simp⟩

theorem Idle.trans {s t u : Conn} (h : Idle s t) (h' : Idle t u) : Idle s u := by
  obtain ⟨ps, inb, q, o, l, rfl, hq, hl⟩ := h
  obtain ⟨ps', inb', q', o', l', rfl, hq', hl'⟩ := h'
  refine ⟨ps', inb', q', o', l ++ l', by simp [Conn.ext], hq'.trans hq, ?_⟩
  intro e he
  rcases List.mem_append.1 he with he | he
  · exact hl e he
  · exact hl' e he

theorem Ev.plain_isSend {e : Ev} (h : e.plain = true) : e.isSend = false := by cases e <;> simp_all [Ev.plain, Ev.isSend]

theorem Idle.ext {s : Conn} {l : List Ev} (h : ∀ e ∈ l, e.isSend = false) : Idle s (s.ext l) :=
  ⟨s.ps, s.inb, s.queue, s.isOpen, l, rfl, List.suffix_refl _, h⟩

theorem Idle.quiet {s s' : Conn} (h : QuietStep s s') : Idle s s' := by
  obtain ⟨l, rfl, hl⟩ := h
  exact .ext fun e he => Ev.plain_isSend (Ev.quiet_plain (hl e he))

theorem Idle.off {s s' : Conn} (h : Idle s s') (h0 : HbOff s) : HbOff s' := by
  obtain ⟨ps, inb, q, o, l, rfl, _, _⟩ := h
  exact h0

theorem not_send_tagged {l : List Ev} (h : ∀ e ∈ l, e.isSend = false) : sentTagged l = [] := by
  induction l with
  | nil => rfl
  | cons e l ih =>
    have h1 := ih fun x hx => h x (by simp [hx])
    have h2 := h e (by simp)
    cases e <;> simp_all [sentTagged, Ev.tagged, Ev.isSend]

theorem not_send_bytes {l : List Ev} (h : ∀ e ∈ l, e.isSend = false) : sentBytes l = [] := by
  rw [← sentTagged_bytes, not_send_tagged h]; rfl

theorem Idle.since {s s' : Conn} (h : Idle s s') : ∃ l, Since s s' l ∧ sentTagged l = [] ∧ sentBytes l = [] := by
  obtain ⟨ps, inb, q, o, l, rfl, _, hl⟩ := h
  exact ⟨l, rfl, not_send_tagged hl, not_send_bytes hl⟩

theorem Idle.hush {s s' : Conn} (h : Idle s s') : Hush s s' := by
  obtain ⟨ps, inb, q, o, l, rfl, _, hl⟩ := h
  exact ⟨rfl, rfl, rfl, l, rfl, not_send_tagged hl, by rw [List.any_eq_false]; intro e he; simp [hl e he]⟩

theorem Idle.outReady {s s' : Conn} (h : Idle s s') (h0 : OutReady s) : OutReady s' := (h.hush.outReady h0).1

theorem idle_io {E : NetEnv} {s0 : Conn} (h0 : HbOff s0) : ClosedIO E (Idle s0) where
  ev := fun {s e} he h => h.trans (.ext (l := [e]) (by simpa using Ev.plain_isSend he))
  recv := fun {s} b _ h => by
    have ho := h.off h0
    unfold restartRecv
    have hb : 2 * ({ s with inb := b.take SOCK_BUF }.push (.recvData (b.take SOCK_BUF)) : Conn).heartbeat ≤ 0 := by
      have := ho.1
      show 2 * s.heartbeat ≤ 0
      omega
    rw [sFromNowIO_off E hb]
    dsimp only
    rw [if_pos rfl]
    refine h.trans ⟨s.ps, b.take SOCK_BUF, s.queue, s.isOpen, [.recvData (b.take SOCK_BUF)], ?_, List.suffix_refl _, by simp [Ev.isSend]⟩
    have := ho.2.2
    cases s
    simp only [Conn.push, Conn.ext] at this ⊢
    subst this
    rfl

theorem consumeOne_idle {E : NetEnv} {s s' : Conn} {f : Option DFrame} (h : consumeOne E s = .ok f s') : Idle s s' := by
  unfold consumeOne at h
  cases h1 : handleInput E.pe s.ps s.inb with
  | ok r p =>
    rw [h1] at h
    cases h
    exact ⟨p, s.inb.drop r.1, s.queue, s.isOpen, [.parsed (s.inb.take r.1)], rfl, List.suffix_refl _, by simp [Ev.isSend]⟩
  | err e p => rw [h1] at h; cases h
  | ub => rw [h1] at h; cases h
  | fuel => rw [h1] at h; cases h

theorem consumeOne_idle_err {E : NetEnv} {s s' : Conn} {e : Int} (h : consumeOne E s = .err e s') : Idle s s' := by
  unfold consumeOne at h
  cases h1 : handleInput E.pe s.ps s.inb with
  | ok r p => rw [h1] at h; cases h
  | err e p =>
    rw [h1] at h
    cases h
    exact ⟨p, s.inb, s.queue, s.isOpen, [], by simp [Conn.ext], List.suffix_refl _, by simp⟩
  | ub => rw [h1] at h; cases h
  | fuel => rw [h1] at h; cases h

theorem sockClose_idle (E : NetEnv) (s : Conn) : Idle s (sockClose E s).2 := by
  unfold sockClose
  split
  · exact .refl s
  · split
    · exact ⟨s.ps, s.inb, s.queue, false, [.close true], rfl, List.suffix_refl _, by simp [Ev.isSend]⟩
    · exact .ext (l := [.close false]) (by simp [Ev.isSend])

theorem maybeReleaseOn_idle (ch : UInt16) (s : Conn) : Idle s (maybeReleaseOn ch s) := by
  obtain ⟨l, h1, h2⟩ := maybeReleaseOn_ext ch s
  rw [h1]
  refine .ext fun e he => ?_
  rcases h2 with rfl | rfl
  · cases he
  · simp at he; subst he; rfl

theorem beginRecv_idle {E : NetEnv} (d : Nat) {s : Conn} (h0 : HbOff s) : (beginRecv E d s).All (Idle s) := by
  unfold beginRecv
  rw [h0.2.1, hasPastIO_inf]
  dsimp only
  rw [if_neg (by decide), if_neg (by decide)]
  dsimp only
  have h3 := (idle_io (E := E) h0).recvWithTimeout (timeFirst d (timeFirst s.nextRecv s.nextSend)) E.fuel (.refl s)
  revert h3
  cases recvWithTimeout E (timeFirst d (timeFirst s.nextRecv s.nextSend)) E.fuel s with
  | ok b u => exact id
  | ub => exact id
  | fuel => exact id
  | err e u =>
    intro h3
    dsimp only
    by_cases he : e = St.TIMEOUT
    · rw [if_pos he]
      by_cases c1 : timeEqual (timeFirst d (timeFirst s.nextRecv s.nextSend)) u.nextRecv = true
      · rw [if_pos c1]; exact h3.trans (sockClose_idle E u)
      rw [if_neg c1]
      by_cases c2 : timeEqual (timeFirst d (timeFirst s.nextRecv s.nextSend)) d = true
      · rw [if_pos c2]; exact h3
      rw [if_neg c2]
      by_cases c3 : timeEqual (timeFirst d (timeFirst s.nextRecv s.nextSend)) u.nextSend = true
      · rw [if_pos c3]; exact h3
      rw [if_neg c3]; trivial
    · rw [if_neg he]; exact h3

theorem waitInner_idle {E : NetEnv} (d : Nat) : ∀ (n : Nat) (b : Bool) {s : Conn}, HbOff s → (waitInner E d n b s).All (Idle s) := by
  intro n
  induction n with
  | zero => intro b s _; trivial
  | succ n ih =>
    intro b s h0
    have step : ∀ (b : Bool) {t : Conn}, Idle s t → (waitInner E d n b t).All (Idle s) := by
      intro b t ht
      have := ih b (ht.off h0)
      revert this
      cases waitInner E d n b t with
      | ok f u => exact fun h => ht.trans h
      | err e u => exact fun h => ht.trans h
      | ub => exact id
      | fuel => exact id
    unfold waitInner
    by_cases hb : b = false ∧ s.inb ≠ []
    · rw [if_pos hb]
      cases h1 : consumeOne E s with
      | err e t => exact consumeOne_idle_err h1
      | ub => trivial
      | fuel => trivial
      | ok f t =>
        have ht := consumeOne_idle h1
        cases f with
        | none => exact step false ht
        | some f =>
          dsimp only
          cases hp : f.frame.payload <;> dsimp only
          case heartbeat => exact step false (ht.trans (maybeReleaseOn_idle 0 t))
          all_goals exact ht
    · rw [if_neg hb]
      have h1 := beginRecv_idle (E := E) d h0
      revert h1
      cases beginRecv E d s with
      | ok a t => exact fun h1 => step a h1
      | err e t => exact id
      | ub => exact id
      | fuel => exact id

theorem waitFrame_idle {E : NetEnv} (tv : Option TimeVal) {s : Conn} (h0 : HbOff s) : (waitFrame E tv s).All (Idle s) := by
  rw [waitFrame_def]
  have h1 := fromNowIO_quiet E tv s
  revert h1
  cases fromNowIO E tv s with
  | err e t => exact fun h => Idle.quiet h
  | ub => exact id
  | fuel => exact id
  | ok d t =>
    intro h1
    have ht := Idle.quiet h1
    dsimp only
    cases hq : t.queue with
    | nil =>
      have h2 := waitInner_idle (E := E) d E.fuel false (ht.off h0)
      unfold waitFrameInner
      dsimp only
      revert h2
      cases waitInner E d E.fuel false t with
      | ok f u => exact fun h => ht.trans h
      | err e u => exact fun h => ht.trans h
      | ub => exact id
      | fuel => exact id
    | cons f rest =>
      exact ht.trans ⟨t.ps, t.inb, rest, t.isOpen, [], by simp [Conn.ext], by rw [hq]; exact List.suffix_cons f rest, by simp⟩

end Rmq

namespace Rmq

/-! ## What only login and tuning change -/

/-- What depends only on the settings of the connection is kept by everything else. -/
theorem field_closed (E : NetEnv) {γ : Type} (π : Conn → γ) (c : γ)
    (h : ∀ (s : Conn) (ps : PState) (inb : Bytes) (q : List DFrame) (r n : Nat) (m : Bytes) (o : Bool) (l : List Ev),
      π { s with ps := ps, inb := inb, queue := q, nextRecv := r, nextSend := n, outMem := m, isOpen := o, log := l } = π s) :
    Closed E (fun s => π s = c) (fun _ _ => True) := by
  refine ⟨⟨⟨fun {s e} _ hs => (h s s.ps s.inb s.queue s.nextRecv s.nextSend s.outMem s.isOpen _).trans hs, fun {s} b _ hs => ?_⟩,
    fun {s s' f} hs hc => ⟨?_, fun _ _ => trivial⟩, fun {s s' e} hs hc => ?_, fun {s f} _ hs => ?_⟩,
    fun {s} b fl hs => ?_, fun {s} hs => ?_, fun {s} m hs => (h s s.ps s.inb s.queue s.nextRecv s.nextSend m s.isOpen s.log).trans hs,
    fun {s f} _ hs => ?_, fun {s a rest f} hs _ => ⟨(h s s.ps s.inb rest s.nextRecv s.nextSend s.outMem s.isOpen s.log).trans hs, trivial⟩,
    fun {s} hs => ?_, fun {s} ch hs => ?_⟩
  · have h1 := restartRecv_eff E ({ s with inb := b.take SOCK_BUF }.push (.recvData (b.take SOCK_BUF)))
    revert h1
    cases restartRecv E ({ s with inb := b.take SOCK_BUF }.push (.recvData (b.take SOCK_BUF))) with
    | ok x t => rintro ⟨t1, l1, rfl, _⟩; exact (h s s.ps (b.take SOCK_BUF) s.queue t1 s.nextSend s.outMem s.isOpen _).trans hs
    | err e t => rintro ⟨t1, l1, rfl, _⟩; exact (h s s.ps (b.take SOCK_BUF) s.queue t1 s.nextSend s.outMem s.isOpen _).trans hs
    | ub => exact fun _ => trivial
    | fuel => exact fun _ => trivial
  · obtain ⟨ps, inb, q, o, l, rfl, _, _⟩ := consumeOne_idle hc
    exact (h s ps inb q s.nextRecv s.nextSend s.outMem o _).trans hs
  · obtain ⟨ps, inb, q, o, l, rfl, _, _⟩ := consumeOne_idle_err hc
    exact (h s ps inb q s.nextRecv s.nextSend s.outMem o _).trans hs
  · unfold queueFrame
    have hp := createLink_eff E f.frame.channel s
    revert hp
    obtain ⟨b, t⟩ := createLink E f.frame.channel s
    rintro ⟨a, p, hp⟩
    dsimp only at hp
    subst hp
    cases b
    · exact (h s _ s.inb s.queue s.nextRecv s.nextSend s.outMem s.isOpen s.log).trans hs
    · exact (h s _ s.inb _ s.nextRecv s.nextSend s.outMem s.isOpen s.log).trans hs
  · obtain ⟨l, h1, _⟩ := sockSend_eff E b fl s
    rw [h1]
    exact (h s s.ps s.inb s.queue s.nextRecv s.nextSend s.outMem s.isOpen _).trans hs
  · have h1 := restartSend_eff E s
    revert h1
    cases restartSend E s with
    | ok x t => rintro ⟨t1, l1, rfl, _⟩; exact (h s s.ps s.inb s.queue s.nextRecv t1 s.outMem s.isOpen _).trans hs
    | err e t => rintro ⟨t1, l1, rfl, _⟩; exact (h s s.ps s.inb s.queue s.nextRecv t1 s.outMem s.isOpen _).trans hs
    | ub => exact fun _ => trivial
    | fuel => exact fun _ => trivial
  · unfold putBackFrame
    have hp := createLink_eff E f.frame.channel s
    revert hp
    obtain ⟨b, t⟩ := createLink E f.frame.channel s
    rintro ⟨a, p, hp⟩
    dsimp only at hp
    subst hp
    cases b
    · exact (h s _ s.inb s.queue s.nextRecv s.nextSend s.outMem s.isOpen s.log).trans hs
    · exact (h s _ s.inb _ s.nextRecv s.nextSend s.outMem s.isOpen s.log).trans hs
  · obtain ⟨ps, inb, q, o, l, h1, _, _⟩ := sockClose_idle E s
    rw [h1]
    exact (h s ps inb q s.nextRecv s.nextSend s.outMem o _).trans hs
  · obtain ⟨l, h1, _⟩ := maybeReleaseOn_ext ch s
    rw [h1]
    exact (h s s.ps s.inb s.queue s.nextRecv s.nextSend s.outMem s.isOpen _).trans hs

theorem field_api (E : NetEnv) {γ : Type} (π : Conn → γ) (c : γ)
    (h : ∀ (s : Conn) (ps : PState) (inb : Bytes) (q : List DFrame) (r n : Nat) (m : Bytes) (o : Bool) (l : List Ev),
      π { s with ps := ps, inb := inb, queue := q, nextRecv := r, nextSend := n, outMem := m, isOpen := o, log := l } = π s) :
    ApiClosed E (fun s => π s = c) (fun _ _ => True) where
  toUpper := (field_closed E π c h).upper
  allocs := fun {s} n p hs => (h s { s.ps with allocs := n, pools := p } s.inb s.queue s.nextRecv s.nextSend s.outMem s.isOpen s.log).trans hs
  publishCheck := publishCheck_closed (field_closed E π c h).upper fun hs => (field_closed E π c h).tryRecv hs

theorem since_login (E : NetEnv) (s0 : Conn) : LoginClosed E (fun s => ∃ l, Since s0 s l) (fun _ _ => True) where
  toUpper := (since_closed E s0).upper
  allocs := fun _ _ h => h
  publishCheck := publishCheck_closed (since_closed E s0).upper fun h => (since_closed E s0).tryRecv h
  tune := fun {s} cm fm hb mem h => tune_all fun ps hh a b m len l hl _ => by
    obtain ⟨l0, h0⟩ := h
    exact ⟨l0 ++ l, by unfold Since at *; simp only [Conn.ext]; rw [h0, List.append_assoc]⟩
  setServer := fun _ h => h
  setClient := fun _ _ h => h

end Rmq
