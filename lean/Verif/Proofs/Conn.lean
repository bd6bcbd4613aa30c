import Verif.Spec.Conn
import Verif.Proofs.FrameFirst
/-!
# Effects of the input/output functions on the connection
-/
namespace Rmq

/-- More events, nothing else changed. -/
def Conn.ext (s : Conn) (l : List Ev) : Conn := { s with log := s.log ++ l }

@[simp] theorem Conn.ext_nil (s : Conn) : s.ext [] = s := by simp [Conn.ext]
@[simp] theorem Conn.ext_ext (s : Conn) (l l' : List Ev) : (s.ext l).ext l' = s.ext (l ++ l') := by simp [Conn.ext]
theorem Conn.push_eq (s : Conn) (e : Ev) : s.push e = s.ext [e] := rfl
@[simp] theorem Conn.ext_log (s : Conn) (l : List Ev) : (s.ext l).log = s.log ++ l := rfl
@[simp] theorem Conn.ext_ps (s : Conn) (l : List Ev) : (s.ext l).ps = s.ps := rfl
@[simp] theorem Conn.ext_inb (s : Conn) (l : List Ev) : (s.ext l).inb = s.inb := rfl
@[simp] theorem Conn.ext_queue (s : Conn) (l : List Ev) : (s.ext l).queue = s.queue := rfl
@[simp] theorem Conn.ext_isOpen (s : Conn) (l : List Ev) : (s.ext l).isOpen = s.isOpen := rfl
@[simp] theorem Conn.ext_nextRecv (s : Conn) (l : List Ev) : (s.ext l).nextRecv = s.nextRecv := rfl
@[simp] theorem Conn.ext_nextSend (s : Conn) (l : List Ev) : (s.ext l).nextSend = s.nextSend := rfl
@[simp] theorem Conn.ext_heartbeat (s : Conn) (l : List Ev) : (s.ext l).heartbeat = s.heartbeat := rfl

theorem sentBytes_append (l l' : List Ev) : sentBytes (l ++ l') = sentBytes l ++ sentBytes l' := by simp [sentBytes]
theorem recvBytes_append (l l' : List Ev) : recvBytes (l ++ l') = recvBytes l ++ recvBytes l' := by simp [recvBytes]
theorem parsedBytes_append (l l' : List Ev) : parsedBytes (l ++ l') = parsedBytes l ++ parsedBytes l' := by simp [parsedBytes]

/-- Clock readings and polls. -/
def Ev.quiet : Ev → Bool
  | .clock _ => true
  | .poll _ _ _ => true
  | _ => false
def Quiet (l : List Ev) : Prop := ∀ e ∈ l, e.quiet = true

theorem Quiet.nil : Quiet [] := fun _ h => nomatch h
theorem Quiet.cons {e : Ev} {l : List Ev} (he : e.quiet = true) (h : Quiet l) : Quiet (e :: l) := by
  intro x hx
  rcases List.mem_cons.1 hx with rfl | hx
  · exact he
  · exact h x hx
theorem Quiet.append {l l' : List Ev} (h : Quiet l) (h' : Quiet l') : Quiet (l ++ l') := by
  intro x hx
  rcases List.mem_append.1 hx with hx | hx
  · exact h x hx
  · exact h' x hx
theorem Quiet.sent {l : List Ev} (h : Quiet l) : sentBytes l = [] := by
  induction l with
  | nil => rfl
  | cons e l ih =>
    have he := h e (by simp)
    have := ih fun x hx => h x (by simp [hx])
    cases e <;> simp_all [sentBytes, Ev.accepted, Ev.quiet]
theorem Quiet.recv {l : List Ev} (h : Quiet l) : recvBytes l = [] := by
  induction l with
  | nil => rfl
  | cons e l ih =>
    have he := h e (by simp)
    have := ih fun x hx => h x (by simp [hx])
    cases e <;> simp_all [recvBytes, Ev.delivered, Ev.quiet]

/-- What a result leaves behind, if it leaves anything. -/
def Res.All {α : Type} (P : Conn → Prop) : Res Conn α → Prop
  | .ok _ s => P s
  | .err _ s => P s
  | _ => True

theorem readClock_ext (E : NetEnv) (s : Conn) : (readClock E s).2 = s.ext [.clock (E.clock s.time)] := rfl

theorem msUntilIO_ext (E : NetEnv) (t : Nat) (s : Conn) : ∃ l, (msUntilIO E t s).2 = s.ext l ∧ Quiet l := by
  unfold msUntilIO
  split
  · exact ⟨[], by simp, Quiet.nil⟩
  · exact ⟨_, readClock_ext E s, Quiet.cons rfl Quiet.nil⟩

theorem hasPastIO_ext (E : NetEnv) (t : Nat) (s : Conn) : ∃ l, (hasPastIO E t s).2 = s.ext l ∧ Quiet l := by
  unfold hasPastIO
  split
  · exact ⟨[], by simp, Quiet.nil⟩
  · exact ⟨_, readClock_ext E s, Quiet.cons rfl Quiet.nil⟩

/-- Only clock readings and polls happened. -/
def QuietStep (s s' : Conn) : Prop := ∃ l, s' = s.ext l ∧ Quiet l

theorem QuietStep.refl (s : Conn) : QuietStep s s := ⟨[], by simp, Quiet.nil⟩
theorem QuietStep.trans {s t u : Conn} (h : QuietStep s t) (h' : QuietStep t u) : QuietStep s u := by
  obtain ⟨l, rfl, hl⟩ := h
  obtain ⟨l', rfl, hl'⟩ := h'
  exact ⟨l ++ l', by simp, hl.append hl'⟩
theorem QuietStep.push {s : Conn} {e : Ev} (h : e.quiet = true) : QuietStep s (s.push e) := ⟨[e], rfl, Quiet.cons h Quiet.nil⟩

/-- At most one clock reading happened. -/
def Tick (s s' : Conn) : Prop := s' = s ∨ ∃ now, s' = s.push (.clock now)

theorem Tick.quiet {s s' : Conn} (h : Tick s s') : QuietStep s s' := by
  rcases h with rfl | ⟨now, rfl⟩
  · exact .refl _
  · exact .push rfl

theorem fromNowIO_tick (E : NetEnv) (tv : Option TimeVal) (s : Conn) : (fromNowIO E tv s).All (Tick s) := by
  unfold fromNowIO
  cases tv with
  | none => exact Or.inl rfl
  | some v =>
    dsimp only
    split
    · exact Or.inl rfl
    · cases timeFromNow (E.clock s.time) (some v) <;> exact Or.inr ⟨_, rfl⟩

theorem tvUntilIO_tick (E : NetEnv) (t : Nat) (s : Conn) : (tvUntilIO E t s).All (Tick s) := by
  unfold tvUntilIO
  split
  · exact Or.inl rfl
  · split
    · exact Or.inl rfl
    · cases tvUntil (E.clock s.time) t <;> exact Or.inr ⟨_, rfl⟩

theorem hasPastIO_tick (E : NetEnv) (t : Nat) (s : Conn) : Tick s (hasPastIO E t s).2 := by
  unfold hasPastIO
  split
  · exact Or.inl rfl
  · exact Or.inr ⟨_, rfl⟩

theorem fromNowIO_quiet (E : NetEnv) (tv : Option TimeVal) (s : Conn) : (fromNowIO E tv s).All (QuietStep s) := by
  unfold fromNowIO
  cases tv with
  | none => exact .refl s
  | some v =>
    dsimp only
    split
    · exact .refl s
    · cases timeFromNow (E.clock s.time) (some v) <;> exact ⟨_, readClock_ext E s, Quiet.cons rfl Quiet.nil⟩

theorem tvUntilIO_quiet (E : NetEnv) (t : Nat) (s : Conn) : (tvUntilIO E t s).All (QuietStep s) := by
  unfold tvUntilIO
  split
  · exact .refl s
  · split
    · exact .refl s
    · cases tvUntil (E.clock s.time) t <;> exact ⟨_, readClock_ext E s, Quiet.cons rfl Quiet.nil⟩

theorem sFromNowIO_quiet (E : NetEnv) (secs : Int) (old : Nat) (s : Conn) : QuietStep s (sFromNowIO E secs old s).2.2 := by
  unfold sFromNowIO
  split
  · exact .refl s
  · dsimp only
    split
    · exact ⟨_, readClock_ext E s, Quiet.cons rfl Quiet.nil⟩
    · split <;> exact ⟨_, readClock_ext E s, Quiet.cons rfl Quiet.nil⟩

theorem restartSend_eff (E : NetEnv) (s : Conn) :
    (restartSend E s).All fun s' => ∃ t l, s' = { s.ext l with nextSend := t } ∧ Quiet l := by
  unfold restartSend
  obtain ⟨l, h, hl⟩ := sFromNowIO_quiet E s.heartbeat s.nextSend s
  revert h
  obtain ⟨st, t, s1⟩ := sFromNowIO E s.heartbeat s.nextSend s
  intro h
  dsimp only at h ⊢
  subst h
  split <;> exact ⟨t, l, rfl, hl⟩

theorem restartRecv_eff (E : NetEnv) (s : Conn) :
    (restartRecv E s).All fun s' => ∃ t l, s' = { s.ext l with nextRecv := t } ∧ Quiet l := by
  unfold restartRecv
  obtain ⟨l, h, hl⟩ := sFromNowIO_quiet E (2 * s.heartbeat) s.nextRecv s
  revert h
  obtain ⟨st, t, s1⟩ := sFromNowIO E (2 * s.heartbeat) s.nextRecv s
  intro h
  dsimp only at h ⊢
  subst h
  split <;> exact ⟨t, l, rfl, hl⟩

theorem pollFd_quiet (E : NetEnv) (d : Dir) (deadline : Nat) : ∀ (n : Nat) (s : Conn),
    (pollFd E d deadline n s).All (QuietStep s) := by
  intro n
  induction n with
  | zero => intro s; trivial
  | succ n ih =>
    intro s
    unfold pollFd
    obtain ⟨l, h, hl⟩ := msUntilIO_ext E deadline s
    revert h
    obtain ⟨ms, s1⟩ := msUntilIO E deadline s
    intro h
    dsimp only at h ⊢
    subst h
    have h0 : QuietStep s (s.ext l) := ⟨l, rfl, hl⟩
    split
    · exact h0
    · cases E.poll (s.ext l).time with
      | ready => exact h0.trans (.push rfl)
      | timeout => exact h0.trans (.push rfl)
      | error => exact h0.trans (.push rfl)
      | intr =>
        dsimp only
        have h1 := ih ((s.ext l).push (.poll d ms .intr))
        revert h1
        cases pollFd E d deadline n ((s.ext l).push (.poll d ms .intr)) with
        | ok a s' => exact fun h => (h0.trans (.push rfl)).trans h
        | err e s' => exact fun h => (h0.trans (.push rfl)).trans h
        | ub => exact fun _ => trivial
        | fuel => exact fun _ => trivial

theorem doPoll_quiet (E : NetEnv) (res : Int) (deadline : Nat) (s : Conn) : (doPoll E res deadline s).All (QuietStep s) := by
  unfold doPoll
  split
  · exact .refl s
  · split
    · exact pollFd_quiet E .read deadline _ s
    · split
      · exact pollFd_quiet E .write deadline _ s
      · split <;> exact .refl s

/-! ## Sending -/

/-- Clock readings, polls and sends with the given flags. -/
def Ev.sendish (flags : Nat) : Ev → Bool
  | .clock _ => true
  | .poll _ _ _ => true
  | .send _ f _ => f == flags
  | _ => false

theorem Quiet.sendish {l : List Ev} (h : Quiet l) (flags : Nat) : ∀ e ∈ l, e.sendish flags = true := by
  intro e he
  have := h e he
  cases e <;> simp_all [Ev.quiet, Ev.sendish]

/-- What amqp_try_send did: only clock readings, polls and sends happened, and the bytes accepted are the first `k` of `left`. -/
def SentPart (flags : Nat) (left : Bytes) (s s' : Conn) (k : Nat) : Prop :=
  ∃ l, s' = s.ext l ∧ (∀ e ∈ l, e.sendish flags = true) ∧ k ≤ left.length ∧ sentBytes l = left.take k

theorem SentPart.quiet {flags : Nat} {left : Bytes} {s t u : Conn} {k : Nat} (h : QuietStep s t) (h' : SentPart flags left t u k) :
    SentPart flags left s u k := by
  obtain ⟨l, rfl, hl⟩ := h
  obtain ⟨l', rfl, hl', hk, hs⟩ := h'
  refine ⟨l ++ l', by simp, ?_, hk, ?_⟩
  · intro e he
    rcases List.mem_append.1 he with he | he
    · exact hl.sendish flags e he
    · exact hl' e he
  · rw [sentBytes_append, hl.sent, hs]; rfl

theorem SentPart.zero {flags : Nat} {left : Bytes} {s t : Conn} (h : QuietStep s t) : SentPart flags left s t 0 := by
  obtain ⟨l, rfl, hl⟩ := h
  exact ⟨l, rfl, hl.sendish flags, by omega, by simp [hl.sent]⟩

/-- `sockSend` on what is left. -/
theorem sockSend_eff (E : NetEnv) (buf : Bytes) (flags : Nat) (s : Conn) :
    ∃ l, (sockSend E buf flags s).2 = s.ext l ∧ (∀ e ∈ l, e.sendish flags = true) ∧
      sentBytes l = buf.take (sockSend E buf flags s).1.toNat ∧ (sockSend E buf flags s).1 ≤ buf.length := by
  unfold sockSend
  split
  · cases E.send s.time buf with
    | sent n =>
      refine ⟨_, rfl, by simp [Ev.sendish], ?_, ?_⟩
      · simp [sentBytes, Ev.accepted]
      · simp; omega
    | fail n =>
      refine ⟨_, rfl, by simp [Ev.sendish], ?_, ?_⟩
      · simp [sentBytes, Ev.accepted]
      · simp; omega
  · refine ⟨[], by simp, by simp, ?_, ?_⟩
    · simp [sentBytes, St.SOCKET_CLOSED]
    · simp [St.SOCKET_CLOSED]

theorem trySend_eff (E : NetEnv) (deadline flags len : Nat) : ∀ (n : Nat) (left : Bytes) (s : Conn), left.length ≤ len →
    match trySend E deadline flags len n left s with
    | .ok m s' => ∃ k, SentPart flags left s s' k ∧ m + left.length = len + k
    | .err _ s' => ∃ k, SentPart flags left s s' k
    | _ => True := by
  intro n
  induction n with
  | zero => intro left s _; trivial
  | succ n ih =>
    intro left s hlen
    unfold trySend
    obtain ⟨l, h, hl, hs, hle⟩ := sockSend_eff E left flags s
    revert h hs hle
    obtain ⟨res, s1⟩ := sockSend E left flags s
    intro h hs hle
    dsimp only at h hs hle ⊢
    subst h
    by_cases hres : res > 0
    · rw [if_pos hres]
      have hrn : res.toNat ≤ left.length := by omega
      by_cases hdone : (left.drop res.toNat).length = 0
      · rw [if_pos hdone]
        refine ⟨res.toNat, ⟨l, rfl, hl, hrn, hs⟩, ?_⟩
        rw [List.length_drop] at hdone
        omega
      · rw [if_neg hdone]
        have h1 := ih (left.drop res.toNat) (s.ext l) (by rw [List.length_drop]; omega)
        have key : ∀ s' k, SentPart flags (left.drop res.toNat) (s.ext l) s' k → SentPart flags left s s' (res.toNat + k) := by
          intro s' k ⟨l', hl1, hl2, hl3, hl4⟩
          rw [List.length_drop] at hl3
          refine ⟨l ++ l', by rw [hl1, Conn.ext_ext], ?_, by omega, ?_⟩
          · intro e he
            rcases List.mem_append.1 he with he | he
            · exact hl e he
            · exact hl2 e he
          · rw [sentBytes_append, hs, hl4, List.take_add]
        revert h1
        cases trySend E deadline flags len n (left.drop res.toNat) (s.ext l) with
        | ok m s' =>
          intro ⟨k, hk, hm⟩
          refine ⟨_, key s' k hk, ?_⟩
          rw [List.length_drop] at hm
          omega
        | err e s' => intro ⟨k, hk⟩; exact ⟨_, key s' k hk⟩
        | ub => exact fun _ => trivial
        | fuel => exact fun _ => trivial
    · rw [if_neg hres]
      have hz : res.toNat = 0 := by omega
      rw [hz] at hs
      have h0 : ∀ t u k, QuietStep (s.ext l) t → SentPart flags left t u k → SentPart flags left s u k := by
        intro t u k hq hp
        obtain ⟨l', hu, h2, h3, h4⟩ := SentPart.quiet hq hp
        refine ⟨l ++ l', by rw [hu, Conn.ext_ext], ?_, h3, ?_⟩
        · intro e he
          rcases List.mem_append.1 he with he | he
          · exact hl e he
          · exact h2 e he
        · rw [sentBytes_append, hs, h4]; simp
      have h1 := doPoll_quiet E res deadline (s.ext l)
      revert h1
      cases doPoll E res deadline (s.ext l) with
      | ub => exact fun _ => trivial
      | fuel => exact fun _ => trivial
      | err e t =>
        intro hq
        dsimp only
        have hp : SentPart flags left s t 0 := h0 t t 0 hq (SentPart.zero (.refl t))
        by_cases he : e = St.TIMEOUT
        · rw [if_pos he]; exact ⟨0, hp, by omega⟩
        · rw [if_neg he]; exact ⟨0, hp⟩
      | ok a t =>
        intro hq
        dsimp only
        have h2 := ih left t hlen
        revert h2
        cases trySend E deadline flags len n left t with
        | ok m s' => intro ⟨k, hk, hm⟩; exact ⟨k, h0 t s' k hq hk, hm⟩
        | err e s' => intro ⟨k, hk⟩; exact ⟨k, h0 t s' k hq hk⟩
        | ub => exact fun _ => trivial
        | fuel => exact fun _ => trivial

/-- With a transport that never says would-block, amqp_try_send sends all or fails. -/
theorem trySend_all {E : NetEnv} (hN : NeverBlocks E) (deadline flags len : Nat) : ∀ (n : Nat) (left : Bytes) (s s' : Conn) (m : Nat),
    trySend E deadline flags len n left s = .ok m s' → m = len := by
  intro n
  induction n with
  | zero => intro left s s' m h; cases h
  | succ n ih =>
    intro left s s' m h
    unfold trySend sockSend at h
    by_cases ho : s.isOpen = true
    · rw [if_pos ho] at h
      cases hE : E.send s.time left with
      | sent k =>
        rw [hE] at h
        dsimp only at h
        split at h
        · split at h
          · cases h; rfl
          · exact ih _ _ _ _ h
        · have : (min k left.length : Nat) = 0 := by omega
          rw [this] at h
          have hd : doPoll E ((0 : Nat) : Int) deadline (s.push (.send left flags ((0 : Nat) : Int))) =
              .ok () (s.push (.send left flags ((0 : Nat) : Int))) := by
            unfold doPoll
            rw [if_neg (by simp [Conn.push, ho]), if_neg (by decide), if_neg (by decide), if_pos (by decide)]
          rw [hd] at h
          exact ih _ _ _ _ h
      | fail k =>
        rw [hE] at h
        obtain ⟨h1, h2, h3⟩ := hN _ _ _ hE
        dsimp only at h
        rw [if_neg (by omega)] at h
        have hd : doPoll E (-((k + 1 : Nat) : Int)) deadline (s.push (.send left flags (-((k + 1 : Nat) : Int)))) =
              .err (-((k + 1 : Nat) : Int)) (s.push (.send left flags (-((k + 1 : Nat) : Int)))) := by
          unfold doPoll
          rw [if_neg (by simp [Conn.push, ho]), if_neg h1, if_neg h2, if_neg (by simp only [St.OK]; omega)]
        rw [hd] at h
        dsimp only at h
        rw [if_neg h3] at h
        cases h
    · rw [if_neg ho] at h
      dsimp only at h
      rw [if_neg (by decide)] at h
      have hd : doPoll E St.SOCKET_CLOSED deadline s = .err St.SOCKET_CLOSED s := by
        unfold doPoll
        rw [if_pos (by simpa using ho)]
      rw [hd] at h
      dsimp only at h
      rw [if_neg (by decide)] at h
      cases h

/-- A heartbeat is sent in one go if heartbeats get through. -/
theorem trySend_beat {E : NetEnv} (hP : HeartbeatsPass E) (deadline flags : Nat) {n : Nat} {s s' : Conn} {m : Nat}
    (h : trySend E deadline flags 8 n [8, 0, 0, 0, 0, 0, 0, 206] s = .ok m s') : m = 8 := by
  cases n with
  | zero => cases h
  | succ n =>
    unfold trySend sockSend at h
    by_cases ho : s.isOpen = true
    · rw [if_pos ho] at h
      have hp := hP s.time
      cases hE : E.send s.time [8, 0, 0, 0, 0, 0, 0, 206] with
      | sent k =>
        rw [hE] at h hp
        dsimp only at h hp
        have hk : (min k ([8, 0, 0, 0, 0, 0, 0, 206] : Bytes).length : Nat) = 8 := by simp; omega
        rw [hk] at h
        rw [if_pos (by decide), if_pos (by decide)] at h
        cases h; rfl
      | fail k =>
        rw [hE] at h hp
        obtain ⟨h1, h2, h3⟩ := hp
        dsimp only at h
        rw [if_neg (by omega)] at h
        have hd : ∀ l : Bytes, doPoll E (-((k + 1 : Nat) : Int)) deadline (s.push (.send l flags (-((k + 1 : Nat) : Int)))) =
              .err (-((k + 1 : Nat) : Int)) (s.push (.send l flags (-((k + 1 : Nat) : Int)))) := by
          intro l
          unfold doPoll
          rw [if_neg (by simp [Conn.push, ho]), if_neg h1, if_neg h2, if_neg (by simp only [St.OK]; omega)]
        rw [hd] at h
        dsimp only at h
        rw [if_neg h3] at h
        cases h
    · rw [if_neg ho] at h
      dsimp only at h
      rw [if_neg (by decide)] at h
      have hd : doPoll E St.SOCKET_CLOSED deadline s = .err St.SOCKET_CLOSED s := by
        unfold doPoll
        rw [if_pos (by simpa using ho)]
      rw [hd] at h
      dsimp only at h
      rw [if_neg (by decide)] at h
      cases h

end Rmq
