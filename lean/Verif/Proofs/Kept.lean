import Verif.Proofs.Deliver
/-!
# Received bytes are parsed or kept; heartbeats do not get into the queue; queued frames keep their memory
-/
namespace Rmq

/-- Everything received between `s` and `s'` was parsed or is still in the buffer. -/
def Kept (s s' : Conn) : Prop := ∃ l, Since s s' l ∧ s.inb ++ recvBytes l = parsedBytes l ++ s'.inb

theorem Kept.refl (s : Conn) : Kept s s := ⟨[], by simp [Since], by simp [recvBytes, parsedBytes]⟩
theorem Kept.trans {s t u : Conn} (h : Kept s t) (h' : Kept t u) : Kept s u := by
  obtain ⟨l, h1, h2⟩ := h
  obtain ⟨l', h3, h4⟩ := h'
  refine ⟨l ++ l', by unfold Since at *; rw [h3, h1, List.append_assoc], ?_⟩
  rw [recvBytes_append, parsedBytes_append, ← List.append_assoc, h2, List.append_assoc, h4, List.append_assoc]

/-- Nothing read or parsed. -/
theorem Kept.same {s s' : Conn} {l : List Ev} (hl : Since s s' l) (hr : recvBytes l = []) (hp : parsedBytes l = [])
    (hi : s'.inb = s.inb) : Kept s s' := ⟨l, hl, by rw [hr, hp, hi]; simp⟩

theorem Ev.plain_delivered {e : Ev} (h : e.plain = true) : e.delivered = [] ∧ e.taken = [] := by
  cases e <;> simp_all [Ev.plain, Ev.delivered, Ev.taken]
theorem Ev.sendish_delivered {e : Ev} {fl : Nat} (h : e.sendish fl = true) : e.delivered = [] ∧ e.taken = [] := by
  cases e <;> simp_all [Ev.sendish, Ev.delivered, Ev.taken]
theorem none_read {l : List Ev} (h : ∀ e ∈ l, e.delivered = [] ∧ e.taken = []) : recvBytes l = [] ∧ parsedBytes l = [] := by
  constructor
  · unfold recvBytes; rw [List.flatMap_eq_nil_iff]; exact fun e he => (h e he).1
  · unfold parsedBytes; rw [List.flatMap_eq_nil_iff]; exact fun e he => (h e he).2

theorem Kept.quiet {s s' : Conn} (h : QuietStep s s') : Kept s s' := by
  obtain ⟨l, rfl, hl⟩ := h
  have := none_read fun e he => Ev.plain_delivered (Ev.quiet_plain (hl e he))
  exact .same (l := l) rfl this.1 this.2 rfl

theorem consumeOne_kept {E : NetEnv} {s s' : Conn} {f : Option DFrame} (h : consumeOne E s = .ok f s') : Kept s s' := by
  unfold consumeOne at h
  cases h1 : handleInput E.pe s.ps s.inb with
  | ok r p =>
    obtain ⟨k, g⟩ := r
    rw [h1] at h
    cases h
    exact ⟨[.parsed (s.inb.take k)], rfl, by simp [recvBytes, parsedBytes, Ev.delivered, Ev.taken, Conn.push]⟩
  | err e p => rw [h1] at h; cases h
  | ub => rw [h1] at h; cases h
  | fuel => rw [h1] at h; cases h
theorem consumeOne_kept_err {E : NetEnv} {s s' : Conn} {e : Int} (h : consumeOne E s = .err e s') : Kept s s' := by
  unfold consumeOne at h
  cases h1 : handleInput E.pe s.ps s.inb with
  | err e p => rw [h1] at h; cases h; exact .same (l := []) (by simp [Since]) rfl rfl rfl
  | ok r p => rw [h1] at h; cases h
  | ub => rw [h1] at h; cases h
  | fuel => rw [h1] at h; cases h

theorem createLink_kept (E : NetEnv) (ch : UInt16) (s : Conn) (q : List DFrame) :
    Kept s { (createLink E ch s).2 with queue := q } := by
  obtain ⟨a, p, hp⟩ := createLink_eff E ch s
  rw [hp]
  exact .same (l := []) (by simp [Since]) rfl rfl rfl

theorem queueFrame_kept (E : NetEnv) (f : DFrame) (s : Conn) : (queueFrame E f s).All (Kept s) := by
  unfold queueFrame
  have h := createLink_kept E f.frame.channel s
  revert h
  obtain ⟨b, s1⟩ := createLink E f.frame.channel s
  intro h
  cases b
  · exact h s1.queue
  · exact h (s1.queue ++ [f])
theorem putBackFrame_kept (E : NetEnv) (f : DFrame) (s : Conn) : (putBackFrame E f s).All (Kept s) := by
  unfold putBackFrame
  have h := createLink_kept E f.frame.channel s
  revert h
  obtain ⟨b, s1⟩ := createLink E f.frame.channel s
  intro h
  cases b
  · exact h s1.queue
  · exact h (f :: s1.queue)

theorem Res.All.mono {α : Type} {P Q : Conn → Prop} {r : Res Conn α} (h : r.All P) (hPQ : ∀ s, P s → Q s) : r.All Q := by
  cases r with
  | ok a s => exact hPQ s h
  | err e s => exact hPQ s h
  | ub => trivial
  | fuel => trivial

theorem recvWithTimeout_kept {E : NetEnv} (timeout : Nat) : ∀ (n : Nat) (s : Conn), s.inb = [] →
    (recvWithTimeout E timeout n s).All (Kept s) := by
  intro n
  induction n with
  | zero => intro s _; trivial
  | succ n ih =>
    intro s hi
    unfold recvWithTimeout
    by_cases ho : s.isOpen = false
    · rw [if_pos ho]; exact Kept.refl s
    rw [if_neg ho]
    cases E.recv s.time s.received with
    | data b =>
      dsimp only
      refine (restartRecv_eff E ({ s with inb := b.take SOCK_BUF }.push (.recvData (b.take SOCK_BUF)))).mono ?_
      rintro s' ⟨t, l, rfl, hl⟩
      have := none_read fun e he => Ev.plain_delivered (Ev.quiet_plain (hl e he))
      refine ⟨.recvData (b.take SOCK_BUF) :: l, by simp [Since, Conn.ext, Conn.push], ?_⟩
      have e1 : recvBytes (.recvData (b.take SOCK_BUF) :: l) = b.take SOCK_BUF ++ recvBytes l := rfl
      have e2 : parsedBytes (.recvData (b.take SOCK_BUF) :: l) = parsedBytes l := rfl
      rw [e1, e2, this.1, this.2, hi]
      simp [Conn.ext, Conn.push]
    | fail k =>
      dsimp only
      have h0 : Kept s (s.push (.recvFail (-(k + 1 : Nat)))) := .same (l := [.recvFail (-(k + 1 : Nat))]) rfl rfl rfl rfl
      have key : ∀ d : Dir, (match pollFd E d timeout E.fuel (s.push (.recvFail (-(k + 1 : Nat)))) with
            | .ok () s => recvWithTimeout E timeout n s
            | .err e s => .err e s
            | .ub => .ub
            | .fuel => .fuel : Res Conn Unit).All (Kept s) := by
        intro d
        have h1 := pollFd_quiet E d timeout E.fuel (s.push (.recvFail (-(k + 1 : Nat))))
        revert h1
        cases pollFd E d timeout E.fuel (s.push (.recvFail (-(k + 1 : Nat)))) with
        | ok a t =>
          intro h1
          have h2 := h0.trans (Kept.quiet h1)
          obtain ⟨l, rfl, _⟩ := h1
          exact (ih ((s.push (.recvFail (-(k + 1 : Nat)))).ext l) hi).mono fun u hu => h2.trans hu
        | err e t => exact fun h1 => h0.trans (Kept.quiet h1)
        | ub => exact id
        | fuel => exact id
      by_cases h1 : (-(k + 1 : Nat) : Int) = St.PRIVATE_NEED_READ
      · rw [if_pos h1]; exact key .read
      rw [if_neg h1]
      by_cases h2 : (-(k + 1 : Nat) : Int) = St.PRIVATE_NEED_WRITE
      · rw [if_pos h2]; exact key .write
      rw [if_neg h2]
      exact h0

theorem drainToQueue_kept {E : NetEnv} : ∀ (n : Nat) (s : Conn),
    match drainToQueue E n s with
    | .ok _ s' => Kept s s' ∧ s'.inb = []
    | .err _ s' => Kept s s'
    | _ => True := by
  intro n
  induction n with
  | zero => intro s; trivial
  | succ n ih =>
    intro s
    unfold drainToQueue
    by_cases hi : s.inb = []
    · rw [if_pos hi]; exact ⟨Kept.refl s, hi⟩
    rw [if_neg hi]
    have cont : ∀ t, Kept s t → match drainToQueue E n t with
        | .ok _ s' => Kept s s' ∧ s'.inb = []
        | .err _ s' => Kept s s'
        | _ => True := by
      intro t ht
      have h := ih t
      revert h
      cases drainToQueue E n t with
      | ok a u => exact fun h => ⟨ht.trans h.1, h.2⟩
      | err e u => exact fun h => ht.trans h
      | ub => exact id
      | fuel => exact id
    cases h1 : consumeOne E s with
    | err e t => exact consumeOne_kept_err h1
    | ub => trivial
    | fuel => trivial
    | ok f t =>
      have k1 := consumeOne_kept h1
      cases f with
      | none => exact cont t k1
      | some f =>
        dsimp only
        have k2 := queueFrame_kept E f t
        revert k2
        cases queueFrame E f t with
        | ok a u => exact fun k2 => cont u (k1.trans k2)
        | err e u => exact fun k2 => k1.trans k2
        | ub => exact id
        | fuel => exact id

theorem tryRecv_kept (E : NetEnv) (s : Conn) : (tryRecv E s).All (Kept s) := by
  unfold tryRecv
  rw [M.bind_def]
  have h := drainToQueue_kept (E := E) E.fuel s
  revert h
  cases drainToQueue E E.fuel s with
  | err e t => exact id
  | ub => exact id
  | fuel => exact id
  | ok a t =>
    rintro ⟨h1, h2⟩
    dsimp only
    rw [M.bind_def]
    have hq := fromNowIO_quiet E (some ⟨0, 0⟩) t
    revert hq
    cases fromNowIO E (some ⟨0, 0⟩) t with
    | err e t => exact fun hq => h1.trans (Kept.quiet hq)
    | ub => exact id
    | fuel => exact id
    | ok d u =>
      intro hq
      have h3 := h1.trans (Kept.quiet hq)
      obtain ⟨l, rfl, _⟩ := hq
      exact (recvWithTimeout_kept d _ (t.ext l) h2).mono fun v hv => h3.trans hv

theorem sendish_kept {s : Conn} {fl : Nat} {l : List Ev} (hl : ∀ e ∈ l, e.sendish fl = true) : Kept s (s.ext l) := by
  have := none_read fun e he => Ev.sendish_delivered (hl e he)
  exact .same (l := l) rfl this.1 this.2 rfl

theorem sendLoop_kept {E : NetEnv} (flags deadline : Nat) : ∀ (n : Nat) (enc : Bytes) (s : Conn),
    (sendLoop E flags deadline n enc s).All (Kept s) := by
  intro n
  induction n with
  | zero => intro enc s; trivial
  | succ n ih =>
    intro enc s
    unfold sendLoop
    dsimp only
    have h1 := trySend_same (E := E) (timeFirst deadline s.nextRecv) flags enc.length E.fuel (left := enc) (s := s) (Nat.le_refl _)
    revert h1
    cases trySend E (timeFirst deadline s.nextRecv) flags enc.length E.fuel enc s with
    | ub => exact fun _ => trivial
    | fuel => exact fun _ => trivial
    | err e t => rintro ⟨l, rfl, hl⟩; exact sendish_kept hl
    | ok m t =>
      rintro ⟨l, rfl, hl⟩
      have k1 : Kept s (s.ext l) := sendish_kept hl
      dsimp only
      by_cases hm : enc.length ≠ m
      · rw [if_pos hm]
        by_cases ht : timeEqual (timeFirst deadline s.nextRecv) deadline = true
        · rw [if_pos ht]; exact k1
        rw [if_neg ht]
        have k2 := tryRecv_kept E (s.ext l)
        revert k2
        cases tryRecv E (s.ext l) with
        | ub => exact id
        | fuel => exact id
        | err e u =>
          intro k2
          dsimp only
          by_cases he : e = St.TIMEOUT
          · rw [if_pos he]; exact k1.trans k2
          · rw [if_neg he]; exact k1.trans k2
        | ok a u => exact fun k2 => (ih _ u).mono fun v hv => (k1.trans k2).trans hv
      · rw [if_neg hm]
        refine (restartSend_eff E (s.ext l)).mono ?_
        rintro v ⟨t, l', rfl, hl'⟩
        have := none_read fun e he => Ev.plain_delivered (Ev.quiet_plain (hl' e he))
        exact k1.trans (.same (l := l') rfl this.1 this.2 rfl)

/-- Sending loses no received bytes, whatever the transport does. -/
theorem sendFrame_kept (E : NetEnv) (f : AFrame) (flags deadline : Nat) (s : Conn) :
    (sendFrame E f flags deadline s).All (Kept s) := by
  unfold sendFrame
  cases frameToBytes E.pe.be s.outMem s.outLen f with
  | ok enc mem => exact sendLoop_kept flags deadline _ enc { s with outMem := mem }
  | err e mem => exact Kept.same (l := []) (by simp [Since]) rfl rfl rfl
  | ub => trivial
  | fuel => trivial

theorem sockClose_ext (E : NetEnv) (s : Conn) : ∃ l, (sockClose E s).2 = { s.ext l with isOpen := (sockClose E s).2.isOpen } ∧
    ∀ e ∈ l, ∃ ok, e = .close ok := by
  unfold sockClose
  split
  · exact ⟨[], by simp, by simp⟩
  · split
    · exact ⟨[.close true], rfl, by simp⟩
    · exact ⟨[.close false], rfl, by simp⟩

theorem sockClose_kept (E : NetEnv) (s : Conn) : Kept s (sockClose E s).2 := by
  obtain ⟨l, h, hl⟩ := sockClose_ext E s
  have := none_read (l := l) fun e he => by obtain ⟨ok, rfl⟩ := hl e he; exact ⟨rfl, rfl⟩
  rw [h]
  exact .same (l := l) rfl this.1 this.2 rfl

theorem maybeReleaseOn_kept (ch : UInt16) (s : Conn) : Kept s (maybeReleaseOn ch s) := by
  obtain ⟨l, h, hl⟩ := maybeReleaseOn_ext ch s
  rw [h]
  rcases hl with rfl | rfl
  · exact .same (l := []) rfl rfl rfl rfl
  · exact .same (l := [.recycle ch]) rfl rfl rfl rfl

/-- From `beginrecv` on, with an empty buffer and nothing to hold up a heartbeat: nothing is lost. -/
theorem beginRecv_kept {E : NetEnv} (d : Nat) {s : Conn} (hi : s.inb = []) (hU : Unblocked E s) :
    match beginRecv E d s with
    | .ok again s' => Kept s s' ∧ (again = true → s'.inb = []) ∧ s'.queue = s.queue
    | .err _ s' => Kept s s' ∧ s'.queue = s.queue
    | _ => True := by
  unfold beginRecv
  obtain ⟨l1, h1, hl1⟩ := hasPastIO_ext E s.nextSend s
  revert h1
  obtain ⟨res, s1⟩ := hasPastIO E s.nextSend s
  intro h1
  dsimp only at h1 ⊢
  subst h1
  have k1 : Kept s (s.ext l1) := Kept.quiet ⟨l1, rfl, hl1⟩
  by_cases hr : res = St.TIMER_FAILURE
  · rw [if_pos hr]; exact ⟨k1, rfl⟩
  rw [if_neg hr]
  have h2 : (if res = St.TIMEOUT then sendFrame E ⟨0, .heartbeat⟩ SF_NONE TIME_INF (s.ext l1) else .ok () (s.ext l1) : Res Conn Unit).All
      fun t => Kept s t ∧ t.inb = [] ∧ t.queue = s.queue := by
    by_cases hr : res = St.TIMEOUT
    · rw [if_pos hr]
      refine (sendBeat_ext (E := E) SF_NONE (s := s.ext l1) hU).mono ?_
      rintro t ⟨l, m, tt, rfl, hl⟩
      have := none_read fun e he => Ev.sendish_delivered (hl e he)
      exact ⟨k1.trans (.same (l := l) rfl this.1 this.2 rfl), hi, rfl⟩
    · rw [if_neg hr]; exact ⟨k1, hi, rfl⟩
  revert h2
  cases (if res = St.TIMEOUT then sendFrame E ⟨0, .heartbeat⟩ SF_NONE TIME_INF (s.ext l1) else .ok () (s.ext l1) : Res Conn Unit) with
  | ub => exact fun _ => trivial
  | fuel => exact fun _ => trivial
  | err e t => exact fun h => ⟨h.1, h.2.2⟩
  | ok a t =>
    rintro ⟨k2, i2, q2⟩
    dsimp only
    have h3 := recvWithTimeout_kept (E := E) (timeFirst d (timeFirst t.nextRecv t.nextSend)) E.fuel t i2
    have hq : ClosedIO E (fun u => u.queue = t.queue) := by
      refine ⟨fun _ h => h, fun {s} b _ h => (restartRecv_eff E _).mono ?_⟩
      rintro v ⟨_, l, rfl, _⟩
      exact h
    have h5 := hq.recvWithTimeout (timeFirst d (timeFirst t.nextRecv t.nextSend)) E.fuel (s := t) rfl
    cases h4 : recvWithTimeout E (timeFirst d (timeFirst t.nextRecv t.nextSend)) E.fuel t with
    | ub => trivial
    | fuel => trivial
    | ok b u =>
      rw [h4] at h3 h5
      exact ⟨k2.trans h3, fun h => (by cases h), h5.trans q2⟩
    | err e u =>
      rw [h4] at h3 h5
      dsimp only
      have k3 : Kept s u := k2.trans h3
      have q3 : u.queue = s.queue := h5.trans q2
      by_cases he : e = St.TIMEOUT
      · rw [if_pos he]
        by_cases c1 : timeEqual (timeFirst d (timeFirst t.nextRecv t.nextSend)) u.nextRecv = true
        · rw [if_pos c1]
          obtain ⟨l, h6, _⟩ := sockClose_ext E u
          exact ⟨k3.trans (sockClose_kept E u), by rw [h6]; exact q3⟩
        rw [if_neg c1]
        by_cases c2 : timeEqual (timeFirst d (timeFirst t.nextRecv t.nextSend)) d = true
        · rw [if_pos c2]; exact ⟨k3, q3⟩
        rw [if_neg c2]
        by_cases c3 : timeEqual (timeFirst d (timeFirst t.nextRecv t.nextSend)) u.nextSend = true
        · rw [if_pos c3]
          refine ⟨k3, fun _ => ?_, q3⟩
          obtain ⟨l, rfl, _⟩ := recvWithTimeout_timeout _ _ _ _ (by rw [h4, he])
          exact i2
        rw [if_neg c3]; trivial
      · rw [if_neg he]; exact ⟨k3, q3⟩

/-- A wait on the transport loses no bytes, leaves the queue alone and gives no heartbeat. -/
theorem waitInner_kept {E : NetEnv} (d : Nat) : ∀ (n : Nat) (b : Bool) (s : Conn), Unblocked E s → (b = true → s.inb = []) →
    (waitInner E d n b s).AllF (fun s' => Kept s s' ∧ s'.queue = s.queue) (fun _ f => f.frame.isHeartbeat = false) := by
  intro n
  induction n with
  | zero => intro b s _ _; trivial
  | succ n ih =>
    intro b s hU hb
    have cont : ∀ (b' : Bool) (t : Conn), Kept s t → t.queue = s.queue → Unblocked E t → (b' = true → t.inb = []) →
        (waitInner E d n b' t).AllF (fun s' => Kept s s' ∧ s'.queue = s.queue) (fun _ f => f.frame.isHeartbeat = false) := by
      intro b' t hk hq hu hb'
      have h := ih b' t hu hb'
      revert h
      cases waitInner E d n b' t with
      | ok f u => exact fun h => ⟨⟨hk.trans h.1.1, h.1.2.trans hq⟩, h.2⟩
      | err e u => exact fun h => ⟨hk.trans h.1, h.2.trans hq⟩
      | ub => exact id
      | fuel => exact id
    unfold waitInner
    by_cases hc : b = false ∧ s.inb ≠ []
    · rw [if_pos hc]
      cases h1 : consumeOne E s with
      | err e t =>
        refine ⟨consumeOne_kept_err h1, ?_⟩
        unfold consumeOne at h1
        cases h2 : handleInput E.pe s.ps s.inb with
        | err e p => rw [h2] at h1; cases h1; rfl
        | ok r p => rw [h2] at h1; cases h1
        | ub => rw [h2] at h1; cases h1
        | fuel => rw [h2] at h1; cases h1
      | ub => trivial
      | fuel => trivial
      | ok f t =>
        have k1 := consumeOne_kept h1
        have u1 := ((unblocked_closed E).consume hU h1).1
        have q1 : t.queue = s.queue := by
          unfold consumeOne at h1
          cases h2 : handleInput E.pe s.ps s.inb with
          | ok r p => rw [h2] at h1; cases h1; rfl
          | err e p => rw [h2] at h1; cases h1
          | ub => rw [h2] at h1; cases h1
          | fuel => rw [h2] at h1; cases h1
        cases f with
        | none => exact cont false t k1 q1 u1 (by simp)
        | some f =>
          dsimp only
          by_cases hp : f.frame.payload = .heartbeat
          · rw [hp]
            dsimp only
            obtain ⟨l, hl, _⟩ := maybeReleaseOn_ext 0 t
            exact cont false _ (k1.trans (maybeReleaseOn_kept 0 t)) (by rw [hl]; exact q1) ((unblocked_closed E).release 0 u1)
              (by simp)
          · have fin : (Kept s t ∧ t.queue = s.queue) ∧ f.frame.isHeartbeat = false := by
              refine ⟨⟨k1, q1⟩, ?_⟩
              unfold AFrame.isHeartbeat
              cases h : f.frame.payload <;> first | exact absurd h hp | rfl
            cases h : f.frame.payload <;> first | exact absurd h hp | exact fin
    · rw [if_neg hc]
      have hi : s.inb = [] := by
        cases b with
        | true => exact hb rfl
        | false =>
          cases hs : s.inb with
          | nil => rfl
          | cons x y => exact absurd ⟨rfl, by rw [hs]; simp⟩ hc
      have h1 := beginRecv_kept d hi hU
      have hu := (unblocked_closed E).beginRecv d hU
      revert h1 hu
      cases beginRecv E d s with
      | ub => exact fun _ _ => trivial
      | fuel => exact fun _ _ => trivial
      | err e t => exact fun h _ => ⟨h.1, h.2⟩
      | ok again t => exact fun h hu => cont again t h.1 h.2.2 hu h.2.1

/-- Invariant: since `s0`, nothing received was lost. -/
theorem kept_upper (E : NetEnv) (s0 : Conn) : Upper E (fun s => Unblocked E s ∧ Kept s0 s) (fun _ _ => True) where
  tick := fun h hq => ⟨(unblocked_closed E).quiet h.1 hq.quiet, h.2.trans (Kept.quiet hq.quiet)⟩
  wait := fun d s h => by
    have h1 := waitInner_kept (E := E) d E.fuel false s h.1 (by simp)
    have h2 := (unblocked_closed E).waitFrameInner d h.1
    unfold waitFrameInner at h2 ⊢
    revert h1 h2
    cases waitInner E d E.fuel false s with
    | ok f t => exact fun h1 h2 => ⟨⟨h2.1, h.2.trans h1.1.1⟩, trivial⟩
    | err e t => exact fun h1 h2 => ⟨h2, h.2.trans h1.1⟩
    | ub => exact fun _ _ => trivial
    | fuel => exact fun _ _ => trivial
  sendFrame := fun f fl d s _ h => by
    have h1 := sendFrame_kept E f fl d s
    have h2 := (unblocked_closed E).sendFrame f fl d h.1
    revert h1 h2
    cases sendFrame E f fl d s with
    | ok a t => exact fun h1 h2 => ⟨h2, h.2.trans h1⟩
    | err e t => exact fun h1 h2 => ⟨h2, h.2.trans h1⟩
    | ub => exact fun _ _ => trivial
    | fuel => exact fun _ _ => trivial
  header := fun d n s h => by
    have h1 := trySend_same (E := E) d SF_NONE 8 n (left := protocolHeaderBytes) (s := s) (by decide)
    have h2 := (unblocked_closed E).trySend d SF_NONE 8 n protocolHeaderBytes h.1
    revert h1 h2
    cases trySend E d SF_NONE 8 n protocolHeaderBytes s with
    | ok a t => rintro ⟨l, rfl, hl⟩ h2; exact ⟨h2, h.2.trans (sendish_kept hl)⟩
    | err e t => rintro ⟨l, rfl, hl⟩ h2; exact ⟨h2, h.2.trans (sendish_kept hl)⟩
    | ub => exact fun _ _ => trivial
    | fuel => exact fun _ _ => trivial
  queue := fun {s f} _ h => by
    have h1 := queueFrame_kept E f s
    have h2 := (unblocked_closed E).queue (f := f) trivial h.1
    revert h1 h2
    cases queueFrame E f s with
    | ok a t => exact fun h1 h2 => ⟨h2, h.2.trans h1⟩
    | err e t => exact fun h1 h2 => ⟨h2, h.2.trans h1⟩
    | ub => exact fun _ _ => trivial
    | fuel => exact fun _ _ => trivial
  putBack := fun {s f} _ h => by
    have h1 := putBackFrame_kept E f s
    have h2 := (unblocked_closed E).putBack (f := f) trivial h.1
    revert h1 h2
    cases putBackFrame E f s with
    | ok a t => exact fun h1 h2 => ⟨h2, h.2.trans h1⟩
    | err e t => exact fun h1 h2 => ⟨h2, h.2.trans h1⟩
    | ub => exact fun _ _ => trivial
    | fuel => exact fun _ _ => trivial
  pop := fun h hq => ⟨⟨((unblocked_closed E).pop h.1 hq).1, h.2.trans (.same (l := []) (by simp [Since]) rfl rfl rfl)⟩, trivial⟩
  close := fun {s} h => ⟨(unblocked_closed E).close h.1, h.2.trans (sockClose_kept E s)⟩
  release := fun {s} ch h => ⟨(unblocked_closed E).release ch h.1, h.2.trans (maybeReleaseOn_kept ch s)⟩

/-! ## Heartbeats -/

/-- No heartbeat frame is queued. -/
def NoHb (s : Conn) : Prop := ∀ f ∈ s.queue, f.frame.isHeartbeat = false

theorem createLink_queue (E : NetEnv) (ch : UInt16) (s : Conn) : (createLink E ch s).2.queue = s.queue := by
  obtain ⟨a, p, hp⟩ := createLink_eff E ch s
  rw [hp]

theorem nohb_upper (E : NetEnv) : Upper E (fun s => Unhurried E s ∧ NoHb s) (fun _ f => f.frame.isHeartbeat = false) where
  tick := fun h hq => ⟨(unhurried_closed E).quiet h.1 hq.quiet, by obtain ⟨l, rfl, _⟩ := hq.quiet; exact h.2⟩
  wait := fun d s h => by
    have h1 := waitInner_kept (E := E) d E.fuel false s h.1.unblocked (by simp)
    have h2 := (unhurried_closed E).waitFrameInner d h.1
    unfold waitFrameInner at h2 ⊢
    revert h1 h2
    cases waitInner E d E.fuel false s with
    | ok f t => exact fun h1 h2 => ⟨⟨h2.1, by unfold NoHb; rw [h1.1.2]; exact h.2⟩, h1.2⟩
    | err e t => exact fun h1 h2 => ⟨h2, by unfold NoHb; rw [h1.2]; exact h.2⟩
    | ub => exact fun _ _ => trivial
    | fuel => exact fun _ _ => trivial
  sendFrame := fun f fl d s hd h => by
    have h1 := sendFrame_ext (E := E) f fl d hd h.1
    have h2 := (unhurried_closed E).sendFrame f fl d h.1
    revert h1 h2
    cases sendFrame E f fl d s with
    | ok a t => rintro ⟨l, m, tt, rfl, _⟩ h2; exact ⟨h2, h.2⟩
    | err e t => rintro ⟨l, m, tt, rfl, _⟩ h2; exact ⟨h2, h.2⟩
    | ub => exact fun _ _ => trivial
    | fuel => exact fun _ _ => trivial
  header := fun d n s h => by
    have h1 := trySend_same (E := E) d SF_NONE 8 n (left := protocolHeaderBytes) (s := s) (by decide)
    have h2 := (unhurried_closed E).trySend d SF_NONE 8 n protocolHeaderBytes h.1
    revert h1 h2
    cases trySend E d SF_NONE 8 n protocolHeaderBytes s with
    | ok a t => rintro ⟨l, rfl, hl⟩ h2; exact ⟨h2, h.2⟩
    | err e t => rintro ⟨l, rfl, hl⟩ h2; exact ⟨h2, h.2⟩
    | ub => exact fun _ _ => trivial
    | fuel => exact fun _ _ => trivial
  queue := fun {s f} hf h => by
    have h2 := (unhurried_closed E).queue (f := f) trivial h.1
    revert h2
    unfold queueFrame
    have hq := createLink_queue E f.frame.channel s
    revert hq
    obtain ⟨b, s1⟩ := createLink E f.frame.channel s
    intro hq
    dsimp only at hq
    cases b with
    | false => exact fun h2 => ⟨h2, by unfold NoHb; rw [hq]; exact h.2⟩
    | true =>
      refine fun h2 => ⟨h2, ?_⟩
      unfold NoHb
      dsimp only
      rw [hq]
      intro g hg
      rcases List.mem_append.1 hg with hg | hg
      · exact h.2 g hg
      · rw [List.mem_singleton] at hg; rw [hg]; exact hf
  putBack := fun {s f} hf h => by
    have h2 := (unhurried_closed E).putBack (f := f) trivial h.1
    revert h2
    unfold putBackFrame
    have hq := createLink_queue E f.frame.channel s
    revert hq
    obtain ⟨b, s1⟩ := createLink E f.frame.channel s
    intro hq
    dsimp only at hq
    cases b with
    | false => exact fun h2 => ⟨h2, by unfold NoHb; rw [hq]; exact h.2⟩
    | true =>
      refine fun h2 => ⟨h2, ?_⟩
      unfold NoHb
      dsimp only
      rw [hq]
      intro g hg
      rcases List.mem_cons.1 hg with hg | hg
      · rw [hg]; exact hf
      · exact h.2 g hg
  pop := fun {s a rest f} h hq => ⟨⟨((unhurried_closed E).pop h.1 hq).1, fun g hg => h.2 g (by rw [hq]; simp [hg])⟩,
    h.2 f (by rw [hq]; simp)⟩
  close := fun {s} h => ⟨(unhurried_closed E).close h.1, by
    obtain ⟨l, h6, _⟩ := sockClose_ext E s
    unfold NoHb; rw [h6]; exact h.2⟩
  release := fun {s} ch h => ⟨(unhurried_closed E).release ch h.1, by
    obtain ⟨l, h6, _⟩ := maybeReleaseOn_ext ch s
    unfold NoHb; rw [h6]; exact h.2⟩

/-! ## Memory of queued frames -/

theorem Valid.ext {s : Conn} {f : DFrame} {l : List Ev} (h : Valid s f) (hl : Ev.recycle f.frame.channel ∉ l) : Valid (s.ext l) f := by
  refine ⟨?_, ?_⟩
  · rw [Conn.ext_log, List.length_append]; have := h.1; omega
  · rw [Conn.ext_log, List.drop_append, List.mem_append, not_or]
    refine ⟨h.2, fun hm => hl (List.mem_of_mem_drop hm)⟩

theorem Valid.log {s s' : Conn} {f : DFrame} (h : Valid s f) (hl : s'.log = s.log) : Valid s' f := by
  unfold Valid; rw [hl]; exact h

/-- The memory of every queued frame is in place. -/
def Intact (s : Conn) : Prop := ∀ f ∈ s.queue, Valid s f

theorem Intact.step {s s' : Conn} (h : Intact s) {l : List Ev} (hl : s'.log = s.log ++ l) (hq : s'.queue = s.queue)
    (hn : ∀ ch, Ev.recycle ch ∉ l) : Intact s' := by
  intro f hf
  rw [hq] at hf
  exact ((h f hf).ext (hn _)).log hl

theorem plain_no_recycle {l : List Ev} (h : ∀ e ∈ l, e.plain = true) (ch : UInt16) : Ev.recycle ch ∉ l := by
  intro hm; exact absurd (h _ hm) (by simp [Ev.plain])
theorem quiet_no_recycle {l : List Ev} (h : Quiet l) (ch : UInt16) : Ev.recycle ch ∉ l :=
  plain_no_recycle (fun e he => Ev.quiet_plain (h e he)) ch

theorem intact_closed (E : NetEnv) : Closed E Intact Valid := by
  refine ⟨⟨⟨fun {s e} he h => ?_, fun {s} b _ h => ?_⟩, fun {s s' f} h hc => ?_, fun {s s' e} h hc => ?_, fun {s f} hf h => ?_⟩,
      fun {s} b fl h => ?_, fun {s} h => ?_, fun {s} m h => ?_, fun {s f} hf h => ?_, fun {s a rest f} h hq => ?_,
      fun {s} h => ?_, fun {s} ch h => ?_⟩
  · exact h.step (l := [e]) rfl rfl (plain_no_recycle (by simpa using he))
  · refine (restartRecv_eff E _).mono ?_
    rintro v ⟨t, l, rfl, hl⟩
    refine h.step (l := .recvData (b.take SOCK_BUF) :: l) (by simp [Conn.ext, Conn.push]) rfl (fun ch hm => ?_)
    rcases List.mem_cons.1 hm with hm | hm
    · cases hm
    · exact quiet_no_recycle hl ch hm
  · unfold consumeOne at hc
    cases h1 : handleInput E.pe s.ps s.inb with
    | ok r p =>
      obtain ⟨k, g⟩ := r
      rw [h1] at hc
      cases hc
      refine ⟨h.step (l := [.parsed (s.inb.take k)]) rfl rfl (by simp), ?_⟩
      intro x hx
      cases g with
      | none => cases hx
      | some g =>
        cases hx
        refine ⟨Nat.le_refl _, ?_⟩
        show _ ∉ List.drop (Conn.time _) _
        rw [Conn.time, List.drop_length]
        simp
    | err e p => rw [h1] at hc; cases hc
    | ub => rw [h1] at hc; cases hc
    | fuel => rw [h1] at hc; cases hc
  · unfold consumeOne at hc
    cases h1 : handleInput E.pe s.ps s.inb with
    | err e p => rw [h1] at hc; cases hc; exact h.step (l := []) (by simp) rfl (by simp)
    | ok r p => rw [h1] at hc; cases hc
    | ub => rw [h1] at hc; cases hc
    | fuel => rw [h1] at hc; cases hc
  · unfold queueFrame
    obtain ⟨a, p, hp⟩ := createLink_eff E f.frame.channel s
    revert hp
    obtain ⟨b, s1⟩ := createLink E f.frame.channel s
    intro hp
    dsimp only at hp
    subst hp
    cases b with
    | false => exact fun g hg => (h g hg).log rfl
    | true =>
      intro g hg
      rcases List.mem_append.1 hg with hg | hg
      · exact (h g hg).log rfl
      · rw [List.mem_singleton] at hg; rw [hg]; exact hf.log rfl
  · unfold sockSend
    split
    · cases E.send s.time b with
      | sent n => exact h.step (l := [_]) rfl rfl (by simp)
      | fail n => exact h.step (l := [_]) rfl rfl (by simp)
    · exact h
  · refine (restartSend_eff E _).mono ?_
    rintro v ⟨t, l, rfl, hl⟩
    exact h.step (l := l) rfl rfl (quiet_no_recycle hl)
  · exact fun g hg => (h g hg).log rfl
  · unfold putBackFrame
    obtain ⟨a, p, hp⟩ := createLink_eff E f.frame.channel s
    revert hp
    obtain ⟨b, s1⟩ := createLink E f.frame.channel s
    intro hp
    dsimp only at hp
    subst hp
    cases b with
    | false => exact fun g hg => (h g hg).log rfl
    | true =>
      intro g hg
      rcases List.mem_cons.1 hg with hg | hg
      · rw [hg]; exact hf.log rfl
      · exact (h g hg).log rfl
  · exact ⟨fun g hg => (h g (by rw [hq]; simp [hg])).log rfl, (h f (by rw [hq]; simp)).log rfl⟩
  · obtain ⟨l, h6, h7⟩ := sockClose_ext E s
    rw [h6]
    refine h.step (l := l) rfl rfl (fun ch hm => ?_)
    obtain ⟨ok, h8⟩ := h7 _ hm
    cases h8
  · unfold maybeReleaseOn
    split
    · exact h
    · split
      · exact h
      · next hany =>
        split
        · intro g hg
          refine (h g hg).ext (l := [.recycle ch]) ?_
          intro hm
          rw [List.mem_singleton] at hm
          injection hm with hm
          apply hany
          rw [List.any_eq_true]
          exact ⟨g, hg, by simp [hm]⟩
        · exact h

end Rmq
