import Verif.Spec.Statuses
import Verif.Proofs.ErrCodes
import Verif.Proofs.EncErr
import Verif.Proofs.HeartbeatKept
import Verif.Proofs.Timeouts
/-!
# Every failure has a documented status
-/
namespace Rmq

theorem isStatus_small {e : Int} (h1 : -20 ≤ e) (h2 : e ≤ -1) : IsStatus e := by
  refine ⟨by omega, ?_⟩
  have key : ∀ n : Fin 20, (statusMessages.find? (fun p => p.1 == -(n.val + 1 : Int))).isSome = true := by decide +kernel
  have := key ⟨(-e - 1).toNat, by omega⟩
  have he : (-((⟨(-e - 1).toNat, by omega⟩ : Fin 20).val + 1 : Int)) = e := by dsimp only; omega
  rw [he] at this
  obtain ⟨⟨c, m⟩, hp⟩ := Option.isSome_iff_exists.1 this
  have h3 := List.mem_of_find?_eq_some hp
  have h4 := List.find?_some hp
  simp only [beq_iff_eq] at h4
  subst h4
  exact ⟨m, h3⟩

/-- A normal value satisfies `V`, an error is documented. -/
def Res.Tells {σ α : Type} (V : α → Prop) : Res σ α → Prop
  | .ok a _ => V a
  | .err e _ => IsStatus e
  | _ => True

abbrev Res.Says {σ α : Type} (r : Res σ α) : Prop := r.Tells fun _ => True

theorem Res.Tells.err {σ α : Type} {V : α → Prop} {r : Res σ α} (h : r.Tells V) {st : Int} (hr : r.errCode? = some st) : IsStatus st := by
  cases r <;> first | cases hr; exact h | cases hr
theorem Res.Tells.val {σ α : Type} {V : α → Prop} {r : Res σ α} (h : r.Tells V) {a : α} (hr : r.val? = some a) : V a := by
  cases r <;> first | cases hr; exact h | cases hr

def Reply.Says : Reply → Prop
  | .libraryException st => IsStatus st
  | _ => True
def Outcome.Says {α : Type} : Outcome α → Prop
  | .libraryException st => IsStatus st
  | _ => True

theorem Closed.and {E : NetEnv} {I I' : Conn → Prop} (h : Closed E I (fun _ _ => True)) (h' : Closed E I' (fun _ _ => True)) :
    Closed E (fun s => I s ∧ I' s) (fun _ _ => True) := by
  have both : ∀ {α : Type} {r : Res Conn α}, r.All I → r.All I' → r.All fun s => I s ∧ I' s := by
    intro α r; cases r <;> first | exact fun a b => ⟨a, b⟩ | exact fun _ _ => trivial
  exact ⟨⟨⟨fun q a => ⟨h.ev q a.1, h'.ev q a.2⟩, fun b q a => both (h.recv b q a.1) (h'.recv b q a.2)⟩,
    fun a q => ⟨⟨(h.consume a.1 q).1, (h'.consume a.2 q).1⟩, fun _ _ => trivial⟩, fun a q => ⟨h.consumeErr a.1 q, h'.consumeErr a.2 q⟩,
    fun _ a => both (h.queue trivial a.1) (h'.queue trivial a.2)⟩,
    fun b fl a => ⟨h.send b fl a.1, h'.send b fl a.2⟩, fun a => both (h.restartSend a.1) (h'.restartSend a.2), fun m a => ⟨h.outMem m a.1, h'.outMem m a.2⟩,
    fun _ a => both (h.putBack trivial a.1) (h'.putBack trivial a.2), fun a q => ⟨⟨(h.pop a.1 q).1, (h'.pop a.2 q).1⟩, trivial⟩,
    fun a => ⟨h.close a.1, h'.close a.2⟩, fun ch a => ⟨h.release ch a.1, h'.release ch a.2⟩⟩

/-- The heartbeat settings are sound, and `s0` was earlier. -/
def Fair (E : NetEnv) (s0 s : Conn) : Prop := HbSettings E s ∧ ∃ l, Since s0 s l

theorem fair_closed {E : NetEnv} (hC : ClockFine E) (s0 : Conn) : Closed E (Fair E s0) (fun _ _ => True) := (hb_closed hC).and (since_closed E s0)

theorem Fair.near {E : NetEnv} {s0 s : Conn} (h : Fair E s0 s) {D : Nat} (hD : Near E s0.time D) : Near E s.time D := by
  obtain ⟨_, l, hl⟩ := h
  exact hD.mono (since_time_le hl)

theorem near_inf (E : NetEnv) (n : Nat) : Near E n TIME_INF := Or.inl rfl

section
variable {E : NetEnv} (hC : ClockFine E) (hT : Transport E)

theorem pollFd_says (d : Dir) (X : Nat) : ∀ (n : Nat) {s : Conn}, Near E s.time X ∨ X = 0 → (pollFd E d X n s).Says := by
  intro n
  induction n with
  | zero => intro s _; trivial
  | succ n ih =>
    intro s hX
    unfold pollFd
    have hb : -1 > (msUntilIO E X s).1 → IsStatus (msUntilIO E X s).1 := by
      intro hlt
      unfold msUntilIO at hlt ⊢
      split at hlt
      · rename_i h
        exfalso
        unfold msUntil at hlt
        rcases h with h | h
        · rw [if_pos h] at hlt; omega
        · rw [if_neg (by rw [← h]; decide), if_pos h] at hlt; omega
      · rename_i h
        rw [if_neg h]
        dsimp only at hlt ⊢
        have hi : X ≠ TIME_INF := fun c => h (Or.inl c.symm)
        have h0 : X ≠ 0 := fun c => h (Or.inr c.symm)
        by_cases hz : E.clock s.time = 0
        · have : msUntil (E.clock s.time) X = St.TIMER_FAILURE := by
            unfold msUntil; rw [if_neg (Ne.symm hi), if_neg (Ne.symm h0), if_pos hz]
          rw [this]; exact isStatus_small (by decide) (by decide)
        · have hx : X < E.clock s.time + 2 ^ 31 * 1000000 := by
            rcases hX with hX | hX
            · rcases hX with hX | ⟨_, _, hX⟩
              · exact absurd hX hi
              · rcases hX s.time (Nat.le_refl _) with c | c
                · exact absurd c hz
                · exact c
            · exact absurd hX h0
          have := msUntil_near hi h0 hz hx
          omega
    have ht : s.time ≤ (msUntilIO E X s).2.time := by
      unfold msUntilIO
      split
      · exact Nat.le_refl _
      · simp [readClock, Conn.time, Conn.push]
    revert hb ht
    generalize msUntilIO E X s = p
    obtain ⟨ms, t⟩ := p
    intro hb ht
    dsimp only at hb ht ⊢
    by_cases h1 : -1 > ms
    · rw [if_pos h1]; exact hb h1
    · rw [if_neg h1]
      have hX' : Near E t.time X ∨ X = 0 := hX.imp (fun h => h.mono ht) id
      cases E.poll t.time with
      | ready => trivial
      | timeout => exact isStatus_small (by decide) (by decide)
      | error => exact isStatus_small (by decide) (by decide)
      | intr =>
        exact ih (hX'.imp (fun h => h.mono (by simp [Conn.time, Conn.push])) id)

/-- What a send that was not successful may return. -/
def SendCode (res : Int) : Prop := IsStatus res ∨ WouldBlock res ∨ res = 0

theorem doPoll_says {res : Int} (hr : SendCode res) (X : Nat) {s : Conn} (hX : Near E s.time X ∨ X = 0) : (doPoll E res X s).Says := by
  unfold doPoll
  by_cases h1 : s.isOpen = false
  · rw [if_pos h1]; exact isStatus_small (by decide) (by decide)
  rw [if_neg h1]
  by_cases h2 : res = St.PRIVATE_NEED_READ
  · rw [if_pos h2]; exact pollFd_says _ _ _ hX
  rw [if_neg h2]
  by_cases h3 : res = St.PRIVATE_NEED_WRITE
  · rw [if_pos h3]; exact pollFd_says _ _ _ hX
  rw [if_neg h3]
  by_cases h4 : res = St.OK
  · rw [if_pos h4]; trivial
  rw [if_neg h4]
  rcases hr with hr | (hr | hr) | hr
  · exact hr
  · exact absurd hr h2
  · exact absurd hr h3
  · exact absurd hr h4

theorem sockSend_code (hT : Transport E) (b : Bytes) (fl : Nat) (s : Conn) (h : ¬ (sockSend E b fl s).1 > 0) : SendCode (sockSend E b fl s).1 := by
  unfold sockSend at h ⊢
  split
  · rename_i ho
    rw [if_pos ho] at h
    cases hs : E.send s.time b with
    | sent n =>
      rw [hs] at h
      dsimp only at h ⊢
      exact Or.inr (Or.inr (by omega))
    | fail n =>
      rw [hs] at h
      dsimp only at h ⊢
      rcases hT.1 _ _ _ hs with h | h
      · exact Or.inl h
      · exact Or.inr (Or.inl h)
  · exact Or.inl (isStatus_small (e := St.SOCKET_CLOSED) (by decide) (by decide))

include hC hT

theorem trySend_says {s0 : Conn} {X : Nat} (hX : Near E s0.time X ∨ X = 0) (flags len : Nat) : ∀ (n : Nat) (left : Bytes) {s : Conn}, Fair E s0 s →
    (trySend E X flags len n left s).Says := by
  intro n
  induction n with
  | zero => intro left s _; trivial
  | succ n ih =>
    intro left s hs
    unfold trySend
    have h1 := sockSend_code hT left flags s
    have h2 : Fair E s0 (sockSend E left flags s).2 := (fair_closed hC s0).send left flags hs
    revert h1 h2
    generalize sockSend E left flags s = p
    obtain ⟨res, t⟩ := p
    intro h1 h2
    dsimp only at h1 h2 ⊢
    by_cases hr : res > 0
    · rw [if_pos hr]
      by_cases hl : (left.drop res.toNat).length = 0
      · rw [if_pos hl]; trivial
      · rw [if_neg hl]; exact ih _ h2
    · rw [if_neg hr]
      have h3 := doPoll_says (E := E) (h1 hr) X (s := t) (hX.imp (fun h => h2.near h) id)
      have h4 : (doPoll E res X t).All (Fair E s0) := (fair_closed hC s0).quietAll h2 (doPoll_quiet E res X t)
      revert h3 h4
      cases doPoll E res X t with
      | ok x u => intro _ h4; exact ih _ h4
      | err e u =>
        intro h3 _
        dsimp only
        by_cases he : e = St.TIMEOUT
        · rw [if_pos he]; trivial
        · rw [if_neg he]; exact h3
      | ub => intros; trivial
      | fuel => intros; trivial

omit hC hT in
theorem consumeOne_says (s : Conn) : (consumeOne E s).Says := by
  unfold consumeOne
  cases h : handleInput E.pe s.ps s.inb with
  | ok r p => trivial
  | err e p => have := (handleInput_perr h).1; exact isStatus_small (by have := this.1; omega) (by have := this.2; omega)
  | ub => trivial
  | fuel => trivial

omit hC hT in
theorem restartRecv_says (s : Conn) : (restartRecv E s).Says := by
  unfold restartRecv sFromNowIO
  by_cases h1 : (0 : Int) ≥ 2 * s.heartbeat
  · rw [if_pos h1]; dsimp only; rw [if_pos rfl]; trivial
  rw [if_neg h1]
  dsimp only
  by_cases h2 : E.clock s.time = 0
  · rw [if_pos h2]; dsimp only; rw [if_neg (by decide)]; exact isStatus_small (by decide) (by decide)
  rw [if_neg h2]
  split
  · dsimp only; rw [if_neg (by decide)]; exact isStatus_small (by decide) (by decide)
  · dsimp only; rw [if_pos rfl]; trivial

omit hC hT in
theorem restartSend_says (s : Conn) : (restartSend E s).Says := by
  unfold restartSend sFromNowIO
  by_cases h1 : (0 : Int) ≥ s.heartbeat
  · rw [if_pos h1]; dsimp only; rw [if_pos rfl]; trivial
  rw [if_neg h1]
  dsimp only
  by_cases h2 : E.clock s.time = 0
  · rw [if_pos h2]; dsimp only; rw [if_neg (by decide)]; exact isStatus_small (by decide) (by decide)
  rw [if_neg h2]
  split
  · dsimp only; rw [if_neg (by decide)]; exact isStatus_small (by decide) (by decide)
  · dsimp only; rw [if_pos rfl]; trivial

theorem recv_says {s0 : Conn} {X : Nat} (hX : Near E s0.time X ∨ X = 0) : ∀ (n : Nat) {s : Conn}, Fair E s0 s → (recvWithTimeout E X n s).Says := by
  intro n
  induction n with
  | zero => intro s _; trivial
  | succ n ih =>
    intro s hs
    unfold recvWithTimeout
    by_cases h1 : s.isOpen = false
    · rw [if_pos h1]; exact isStatus_small (by decide) (by decide)
    rw [if_neg h1]
    cases hr : E.recv s.time s.received with
    | data b => exact restartRecv_says _
    | fail k =>
      dsimp only
      have hk := hT.2 _ _ _ hr
      generalize (-(k + 1 : Nat) : Int) = st at hk
      have hp : Fair E s0 (s.push (.recvFail st)) := (fair_closed hC s0).ev rfl hs
      have poll : ∀ d, (match pollFd E d X E.fuel (s.push (.recvFail st)) with
          | .ok () s => recvWithTimeout E X n s
          | .err e s => .err e s
          | .ub => .ub
          | .fuel => .fuel : Res Conn Unit).Says := by
        intro d
        have h3 := pollFd_says (E := E) d X E.fuel (s := s.push (.recvFail st)) (hX.imp (fun h => hp.near h) id)
        have h4 : (pollFd E d X E.fuel (s.push (.recvFail st))).All (Fair E s0) := (fair_closed hC s0).quietAll hp (pollFd_quiet E d X _ _)
        revert h3 h4
        cases pollFd E d X E.fuel (s.push (.recvFail st)) with
        | ok x u => intro _ h4; exact ih h4
        | err e u => intro h3 _; exact h3
        | ub => intros; trivial
        | fuel => intros; trivial
      by_cases h2 : st = St.PRIVATE_NEED_READ
      · rw [if_pos h2]; exact poll .read
      rw [if_neg h2]
      by_cases h3 : st = St.PRIVATE_NEED_WRITE
      · rw [if_pos h3]; exact poll .write
      rw [if_neg h3]
      rcases hk with hk | hk | hk
      · exact hk
      · exact absurd hk h2
      · exact absurd hk h3

omit hC hT in
theorem queueFrame_says (f : DFrame) (s : Conn) : (queueFrame E f s).Says := by
  unfold queueFrame
  obtain ⟨b, t⟩ := createLink E f.frame.channel s
  cases b
  · exact isStatus_small (by decide) (by decide)
  · trivial

omit hT in
theorem drain_says {s0 : Conn} : ∀ (n : Nat) {s : Conn}, Fair E s0 s → (drainToQueue E n s).Says := by
  intro n
  induction n with
  | zero => intro s _; trivial
  | succ n ih =>
    intro s hs
    unfold drainToQueue
    by_cases h1 : s.inb = []
    · rw [if_pos h1]; trivial
    rw [if_neg h1]
    have hc := consumeOne_says (E := E) s
    cases h : consumeOne E s with
    | ok f t =>
      have ht := ((fair_closed hC s0).consume hs h).1
      cases f with
      | none => exact ih ht
      | some f =>
        dsimp only
        have h3 := queueFrame_says (E := E) f t
        have h4 := (fair_closed hC s0).queue (f := f) trivial ht
        revert h3 h4
        cases queueFrame E f t with
        | ok x u => intro _ h4; exact ih h4
        | err e u => intro h3 _; exact h3
        | ub => intros; trivial
        | fuel => intros; trivial
    | err e t => rw [h] at hc; exact hc
    | ub => trivial
    | fuel => trivial

omit hT in
/-- A deadline that a short timeout gives is near. -/
theorem fromNow_near {tv : Option TimeVal} (hs : Short tv) (s : Conn) :
    match fromNowIO E tv s with
    | .ok d t => (Near E t.time d ∨ d = 0) ∧ Tick s t
    | .err e t => IsStatus e ∧ Tick s t
    | _ => True := by
  have ht := fromNowIO_tick E tv s
  revert ht
  cases tv with
  | none => intro ht; exact ⟨Or.inl (near_inf _ _), ht⟩
  | some v =>
    unfold fromNowIO
    dsimp only
    by_cases hn : v.sec < 0 ∨ v.usec < 0
    · rw [if_pos hn]; intro ht; exact ⟨isStatus_small (by decide) (by decide), ht⟩
    rw [if_neg hn]
    unfold timeFromNow
    dsimp only
    rw [if_neg hn]
    have hs : v.sec.toNat * 1000000000 + v.usec.toNat * 1000 < 2 ^ 31 * 1000000 := hs
    rw [Nat.mod_eq_of_lt (by omega : v.sec.toNat * 1000000000 + v.usec.toNat * 1000 < 2 ^ 64)]
    generalize v.sec.toNat * 1000000000 + v.usec.toNat * 1000 = δ at hs
    have hc := hC.2 s.time
    by_cases hz : E.clock s.time = 0
    · rw [if_pos hz]; intro ht; exact ⟨isStatus_small (by decide) (by decide), ht⟩
    rw [if_neg hz, Nat.mod_eq_of_lt (by omega : E.clock s.time + δ < 2 ^ 64)]
    rw [if_neg (by omega)]
    intro ht
    refine ⟨Or.inl (Or.inr ⟨by omega, by unfold TIME_INF; omega, fun k hk => ?_⟩), ht⟩
    have : s.time ≤ k := by
      have : (readClock E s).2.time = s.time + 1 := by simp [readClock, Conn.time, Conn.push]
      rw [this] at hk; omega
    rcases hC.1 s.time k this with h | h
    · exact Or.inl h
    · exact Or.inr (by omega)

omit hT in
theorem Fair.tick {s0 s t : Conn} (h : Fair E s0 s) (ht : Tick s t) : Fair E s0 t := (fair_closed hC s0).upper.tick h ht

omit hC hT in
theorem Fair.base {s0 s : Conn} (h : Fair E s0 s) : Fair E s s := ⟨h.1, [], by simp [Since]⟩

omit hC hT in
theorem Fair.from {s0 s t : Conn} (h : Fair E s0 s) (h' : Fair E s t) : Fair E s0 t := by
  obtain ⟨_, l, hl⟩ := h
  obtain ⟨a, l', hl'⟩ := h'
  exact ⟨a, l ++ l', by unfold Since at *; rw [hl', hl, List.append_assoc]⟩

theorem tryRecv_says {s0 s : Conn} (hs : Fair E s0 s) : (tryRecv E s).Says := by
  unfold tryRecv
  rw [M.bind_def]
  have h1 := drain_says hC (s0 := s0) E.fuel hs
  have h2 := (fair_closed hC s0).drainToQueue E.fuel hs
  revert h1 h2
  cases drainToQueue E E.fuel s with
  | err e t => intro h1 _; exact h1
  | ub => intros; trivial
  | fuel => intros; trivial
  | ok x t =>
    intro _ h2
    dsimp only
    rw [M.bind_def]
    have h3 := fromNow_near hC (tv := some ⟨0, 0⟩) (by simp [Short, TimeVal.nanos]) t
    revert h3
    cases fromNowIO E (some ⟨0, 0⟩) t with
    | err e u => intro h3; exact h3.1
    | ub => intros; trivial
    | fuel => intros; trivial
    | ok d u =>
      intro h3
      have hu : Fair E s0 u := Fair.tick hC h2 h3.2
      exact recv_says hC hT (s0 := u) h3.1 E.fuel hu.base

theorem sendLoop_says {s0 : Conn} (flags : Nat) {D : Nat} (hD : Near E s0.time D ∨ D = 0) : ∀ (n : Nat) (enc : Bytes) {s : Conn}, Fair E s0 s →
    (sendLoop E flags D n enc s).Says := by
  intro n
  induction n with
  | zero => intro enc s _; trivial
  | succ n ih =>
    intro enc s hs
    unfold sendLoop
    dsimp only
    have hX : Near E s.time (timeFirst D s.nextRecv) ∨ timeFirst D s.nextRecv = 0 := by
      rw [timeFirst_min]
      rcases hD with h | h
      · exact Or.inl ((hs.near h).min hs.1.2.2.2)
      · exact Or.inr (by omega)
    have h1 := trySend_says hC hT hX flags enc.length E.fuel enc hs.base
    have h2 : (trySend E (timeFirst D s.nextRecv) flags enc.length E.fuel enc s).All (Fair E s0) := (fair_closed hC s0).trySend _ flags enc.length E.fuel enc hs
    revert h1 h2
    cases trySend E (timeFirst D s.nextRecv) flags enc.length E.fuel enc s with
    | err e t => intro h1 _; exact h1
    | ub => intros; trivial
    | fuel => intros; trivial
    | ok sent t =>
      intro _ h2
      dsimp only
      by_cases hl : enc.length ≠ sent
      · rw [if_pos hl]
        split
        · exact isStatus_small (by decide) (by decide)
        · have h3 := tryRecv_says hC hT h2
          have h4 := (fair_closed hC s0).tryRecv h2
          revert h3 h4
          cases tryRecv E t with
          | ok x u => intro _ h4; exact ih _ h4
          | err e u =>
            intro h3 _
            dsimp only
            by_cases he : e = St.TIMEOUT
            · rw [if_pos he]; exact isStatus_small (by decide) (by decide)
            · rw [if_neg he]; exact h3
          | ub => intros; trivial
          | fuel => intros; trivial
      · rw [if_neg hl]; exact restartSend_says _

theorem sendFrame_says {s0 : Conn} (f : AFrame) (flags : Nat) {D : Nat} (hD : Near E s0.time D ∨ D = 0) {s : Conn} (hs : Fair E s0 s) :
    (sendFrame E f flags D s).Says := by
  unfold sendFrame
  cases h : frameToBytes E.pe.be s.outMem s.outLen f with
  | ok enc m => exact sendLoop_says hC hT flags hD _ _ ((fair_closed hC s0).outMem m hs)
  | err e m => have := frameToBytes_err h; exact isStatus_small (by have := this.1; omega) (by have := this.2; omega)
  | ub => trivial
  | fuel => trivial

theorem beginRecv_says {s0 : Conn} {D : Nat} (hD : Near E s0.time D ∨ D = 0) {s : Conn} (hs : Fair E s0 s) : (beginRecv E D s).Says := by
  unfold beginRecv
  have h2 := (fair_closed hC s0).hasPastIO s.nextSend hs
  revert h2
  generalize hasPastIO E s.nextSend s = p
  obtain ⟨res, t⟩ := p
  intro h2
  dsimp only at h2 ⊢
  by_cases h1 : res = St.TIMER_FAILURE
  · rw [if_pos h1, h1]; exact isStatus_small (by decide) (by decide)
  rw [if_neg h1]
  have h3 : (if res = St.TIMEOUT then sendFrame E ⟨0, .heartbeat⟩ SF_NONE TIME_INF t else .ok () t : Res Conn Unit).Says := by
    split
    · exact sendFrame_says hC hT _ _ (Or.inl (near_inf _ _)) h2.base
    · trivial
  have h4 : (if res = St.TIMEOUT then sendFrame E ⟨0, .heartbeat⟩ SF_NONE TIME_INF t else .ok () t : Res Conn Unit).All (Fair E s0) := by
    split
    · exact (fair_closed hC s0).sendFrame _ _ _ h2
    · exact h2
  revert h3 h4
  cases (if res = St.TIMEOUT then sendFrame E ⟨0, .heartbeat⟩ SF_NONE TIME_INF t else .ok () t : Res Conn Unit) with
  | err e u => intro h3 _; exact h3
  | ub => intros; trivial
  | fuel => intros; trivial
  | ok x u =>
    intro _ h4
    have h4 : Fair E s0 u := h4
    dsimp only
    have hX : Near E u.time (timeFirst D (timeFirst u.nextRecv u.nextSend)) ∨ timeFirst D (timeFirst u.nextRecv u.nextSend) = 0 := by
      rw [timeFirst_min, timeFirst_min]
      rcases hD with h | h
      · exact Or.inl ((h4.near h).min (h4.1.2.2.2.min h4.1.2.2.1))
      · exact Or.inr (by omega)
    have h5 := recv_says hC hT hX E.fuel h4.base
    revert h5
    cases recvWithTimeout E (timeFirst D (timeFirst u.nextRecv u.nextSend)) E.fuel u with
    | ok x v => intros; trivial
    | ub => intros; trivial
    | fuel => intros; trivial
    | err e v =>
      intro h5
      dsimp only
      by_cases he : e = St.TIMEOUT
      · rw [if_pos he]
        split
        · exact isStatus_small (by decide) (by decide)
        · split
          · exact isStatus_small (by decide) (by decide)
          · split <;> trivial
      · rw [if_neg he]; exact h5

theorem waitInner_says {s0 : Conn} {D : Nat} (hD : Near E s0.time D ∨ D = 0) : ∀ (n : Nat) (b : Bool) {s : Conn}, Fair E s0 s →
    (waitInner E D n b s).Says := by
  intro n
  induction n with
  | zero => intro b s _; trivial
  | succ n ih =>
    intro b s hs
    unfold waitInner
    by_cases h1 : b = false ∧ s.inb ≠ []
    · rw [if_pos h1]
      have hc := consumeOne_says (E := E) s
      cases h : consumeOne E s with
      | ok f t =>
        have ht := ((fair_closed hC s0).consume hs h).1
        cases f with
        | none => exact ih _ ht
        | some f =>
          dsimp only
          cases f.frame.payload with
          | heartbeat => exact ih _ ((fair_closed hC s0).release 0 ht)
          | _ => trivial
      | err e t => rw [h] at hc; exact hc
      | ub => trivial
      | fuel => trivial
    · rw [if_neg h1]
      have h3 := beginRecv_says hC hT hD hs
      have h4 := (fair_closed hC s0).beginRecv D hs
      revert h3 h4
      cases beginRecv E D s with
      | ok x t => intro _ h4; exact ih _ h4
      | err e t => intro h3 _; exact h3
      | ub => intros; trivial
      | fuel => intros; trivial

theorem waitFrame_says {s0 s : Conn} {tv : Option TimeVal} (htv : Short tv) (hs : Fair E s0 s) : (waitFrame E tv s).Says := by
  rw [waitFrame_def]
  have h1 := fromNow_near hC htv s
  revert h1
  cases fromNowIO E tv s with
  | err e t => intro h1; exact h1.1
  | ub => intros; trivial
  | fuel => intros; trivial
  | ok d t =>
    intro h1
    dsimp only
    have ht : Fair E s0 t := Fair.tick hC hs h1.2
    cases t.queue with
    | cons f q => trivial
    | nil => exact waitInner_says hC hT h1.1 _ _ ht.base

theorem waitOnLoop_says {s0 : Conn} (ch : UInt16) : ∀ (n : Nat) {s : Conn}, Fair E s0 s → (waitOnLoop E ch n s).Says := by
  intro n
  induction n with
  | zero => intro s _; trivial
  | succ n ih =>
    intro s hs
    unfold waitOnLoop
    have h1 : (waitFrameInner E TIME_INF s).Says := waitInner_says hC hT (Or.inl (near_inf E s0.time)) _ _ hs
    have h2 := (fair_closed hC s0).waitFrameInner TIME_INF hs
    revert h1 h2
    cases waitFrameInner E TIME_INF s with
    | err e t => intro h1 _; exact h1
    | ub => intros; trivial
    | fuel => intros; trivial
    | ok f t =>
      intro _ h2
      dsimp only
      by_cases hf : f.frame.channel = ch
      · rw [if_pos hf]; trivial
      rw [if_neg hf]
      have h3 := queueFrame_says (E := E) f t
      have h4 := (fair_closed hC s0).queue (f := f) trivial h2.1
      revert h3 h4
      cases queueFrame E f t with
      | ok x u => intro _ h4; exact ih h4
      | err e u => intro h3 _; exact h3
      | ub => intros; trivial
      | fuel => intros; trivial

theorem waitFrameOn_says {s0 s : Conn} (ch : UInt16) (hs : Fair E s0 s) : (waitFrameOn E ch s).Says := by
  unfold waitFrameOn
  cases findQueued ch s.queue with
  | none => exact waitOnLoop_says hC hT ch _ hs
  | some p => trivial

/-- What is left of the time until a near deadline is short. -/
theorem tvUntil_short {s : Conn} {D : Nat} (hD : Near E s.time D ∨ D = 0) :
    match tvUntilIO E D s with
    | .ok tv _ => Short tv
    | .err e _ => IsStatus e
    | _ => True := by
  unfold tvUntilIO
  by_cases hi : TIME_INF = D
  · rw [if_pos hi]; trivial
  rw [if_neg hi]
  by_cases h0 : 0 = D
  · rw [if_pos h0]; show (0 : Nat) < _; decide
  rw [if_neg h0]
  unfold tvUntil
  rw [if_neg hi, if_neg h0]
  by_cases hz : E.clock s.time = 0
  · rw [if_pos hz]; exact isStatus_small (by decide) (by decide)
  rw [if_neg hz]
  by_cases hg : E.clock s.time ≥ D
  · rw [if_pos hg]; show (0 : Nat) < _; decide
  rw [if_neg hg]
  have hx : D < E.clock s.time + 2 ^ 31 * 1000000 := by
    rcases hD with hD | hD
    · rcases hD with hD | ⟨_, _, hD⟩
      · exact absurd hD.symm hi
      · rcases hD s.time (Nat.le_refl _) with c | c
        · exact absurd c hz
        · exact c
    · exact absurd hD.symm h0
  generalize E.clock s.time = now at *
  have hδ : D - now < 2 ^ 31 * 1000000 := by omega
  generalize D - now = δ at hδ
  have i1 : ∀ n : Nat, n < 2 ^ 31 → toInt32 n = (n : Int) := by
    intro n hn; unfold toInt32
    have : n % 2 ^ 32 = n := Nat.mod_eq_of_lt (by omega)
    rw [this, if_pos hn]
  dsimp only
  rw [i1 _ (by omega), i1 _ (by omega)]
  show ((δ / 1000000000 : Nat) : Int).toNat * 1000000000 + ((δ % 1000000000 / 1000 : Nat) : Int).toNat * 1000 < 2 ^ 31 * 1000000
  rw [Int.toNat_natCast, Int.toNat_natCast]
  omega

theorem waitMethodList_says {s0 s : Conn} (ch : UInt16) (expected : List UInt32) {D : Nat} (hD : Near E s0.time D ∨ D = 0) (hs : Fair E s0 s) :
    (waitMethodList E ch expected D s).Says := by
  unfold waitMethodList
  rw [M.bind_def]
  have h1 := tvUntil_short (E := E) hC hT (s := s) (hD.imp (fun h => hs.near h) id)
  have h2 : (tvUntilIO E D s).All (Fair E s0) := (fair_closed hC s0).upper.tickAll hs (tvUntilIO_tick E D s)
  revert h1 h2
  cases tvUntilIO E D s with
  | err e t => intro h1 _; exact h1
  | ub => intros; trivial
  | fuel => intros; trivial
  | ok tv t =>
    intro h1 h2
    dsimp only
    rw [M.bind_def]
    have h3 := waitFrame_says hC hT h1 h2
    revert h3
    cases waitFrame E tv t with
    | err e u => intro h3; exact h3
    | ub => intros; trivial
    | fuel => intros; trivial
    | ok f u =>
      intro _
      dsimp only
      cases f.frame.payload with
      | method id args =>
        dsimp only
        split
        · trivial
        · exact isStatus_small (by decide) (by decide)
      | _ => exact isStatus_small (by decide) (by decide)

theorem rpcLoop_says {s0 : Conn} (ch : UInt16) (expected : List UInt32) {D : Nat} (hD : Near E s0.time D ∨ D = 0) : ∀ (n : Nat) {s : Conn}, Fair E s0 s →
    (rpcLoop E ch expected D n s).Tells Reply.Says := by
  intro n
  induction n with
  | zero => intro s _; trivial
  | succ n ih =>
    intro s hs
    unfold rpcLoop
    have h1 : (waitFrameInner E D s).Says := waitInner_says hC hT hD _ _ hs
    have h2 := (fair_closed hC s0).waitFrameInner D hs
    revert h1 h2
    cases waitFrameInner E D s with
    | err e t => intro h1 _; exact h1
    | ub => intros; trivial
    | fuel => intros; trivial
    | ok f t =>
      intro _ h2
      dsimp only
      split
      · cases f.frame.payload with
        | method id args => dsimp only; split <;> trivial
        | _ => trivial
      · have h4 := (fair_closed hC s0).queue (f := f) trivial h2.1
        revert h4
        cases queueFrame E f t with
        | ok x u => intro h4; exact ih h4
        | err e u => intro _; exact isStatus_small (by decide) (by decide)
        | ub => intros; trivial
        | fuel => intros; trivial

theorem rpcInner_says {s0 s : Conn} (ch : UInt16) (id : UInt32) (expected : List UInt32) (args : Rec) {D : Nat} (hD : Near E s0.time D ∨ D = 0) (hs : Fair E s0 s) :
    (rpcInner E ch id expected args D s).Tells Reply.Says := by
  unfold rpcInner sendMethod
  have h1 := sendFrame_says hC hT ⟨ch, .method id args⟩ SF_NONE (Or.inl (near_inf E s0.time)) hs
  have h2 := (fair_closed hC s0).sendFrame ⟨ch, .method id args⟩ SF_NONE TIME_INF hs
  revert h1 h2
  cases sendFrame E ⟨ch, .method id args⟩ SF_NONE TIME_INF s with
  | err e t => intro h1 _; exact h1
  | ub => intros; trivial
  | fuel => intros; trivial
  | ok x t => intro _ h2; exact rpcLoop_says hC hT ch expected hD _ h2

theorem simpleRpc_says {s0 s : Conn} (ch : UInt16) (id : UInt32) (expected : List UInt32) (args : Rec) (htv : Short (getRpcTimeout s.timeouts)) (hs : Fair E s0 s) :
    (simpleRpc E ch id expected args s).Tells Reply.Says := by
  unfold simpleRpc
  have h1 := fromNow_near hC htv s
  revert h1
  cases fromNowIO E (getRpcTimeout s.timeouts) s with
  | err e t => intro h1; exact h1.1
  | ub => intros; trivial
  | fuel => intros; trivial
  | ok d t =>
    intro h1
    exact rpcInner_says hC hT ch id expected args h1.1 (Fair.tick hC hs h1.2).base

theorem publishCheck_says {s0 s : Conn} (hs : Fair E s0 s) : (publishCheck E s).Says := by
  unfold publishCheck
  have h2 := (fair_closed hC s0).hasPastIO s.nextRecv hs
  revert h2
  generalize hasPastIO E s.nextRecv s = p
  obtain ⟨res, t⟩ := p
  intro h2
  dsimp only at h2 ⊢
  by_cases h1 : res = St.TIMER_FAILURE
  · rw [if_pos h1, h1]; exact isStatus_small (by decide) (by decide)
  rw [if_neg h1]
  split
  · have h3 := tryRecv_says hC hT h2
    revert h3
    cases tryRecv E t with
    | ok x u => intro _; trivial
    | err e u =>
      intro h3
      dsimp only
      by_cases he : e = St.TIMEOUT
      · rw [if_pos he]; exact isStatus_small (by decide) (by decide)
      · rw [if_neg he]; exact h3
    | ub => intros; trivial
    | fuel => intros; trivial
  · trivial

theorem publishBody_says {s0 : Conn} (ch : UInt16) (usable : Nat) : ∀ (n : Nat) (rest : Bytes) {s : Conn}, Fair E s0 s → (publishBody E ch usable n rest s).Says := by
  intro n
  induction n with
  | zero => intro rest s _; trivial
  | succ n ih =>
    intro rest s hs
    have step : ∀ (f : AFrame) (fl : Nat) (r : Bytes), (match sendFrame E f fl TIME_INF s with
        | .ok () s => publishBody E ch usable n r s
        | .err e s => .err e s
        | .ub => .ub
        | .fuel => .fuel : Res Conn Unit).Says := by
      intro f fl r
      have h1 := sendFrame_says hC hT f fl (Or.inl (near_inf E s0.time)) hs
      have h2 := (fair_closed hC s0).sendFrame f fl TIME_INF hs
      revert h1 h2
      cases sendFrame E f fl TIME_INF s with
      | err e t => intro h1 _; exact h1
      | ub => intros; trivial
      | fuel => intros; trivial
      | ok x t => intro _ h2; exact ih _ h2
    unfold publishBody
    split
    · trivial
    · split
      · exact step _ _ _
      · exact step _ _ _

theorem basicPublish_says {s0 s : Conn} (ch : UInt16) (ex rk : Bytes) (m i : Int32) (props : Option (UInt32 × Rec)) (body : Bytes) (hs : Fair E s0 s) :
    (basicPublish E ch ex rk m i props body s).Says := by
  unfold basicPublish sendMethod
  rw [M.bind_def]
  have h1 := publishCheck_says hC hT hs
  have h2 := publishCheck_closed (fair_closed hC s0).upper (fun h => (fair_closed hC s0).tryRecv h) hs
  revert h1 h2
  cases publishCheck E s with
  | err e t => intro h1 _; exact h1
  | ub => intros; trivial
  | fuel => intros; trivial
  | ok x t =>
    intro _ h2
    dsimp only
    rw [M.bind_def]
    have h3 := sendFrame_says hC hT ⟨ch, .method BASIC_PUBLISH (publishArgs ex rk m i)⟩ SF_MORE (Or.inl (near_inf E s0.time)) h2
    have h4 := (fair_closed hC s0).sendFrame ⟨ch, .method BASIC_PUBLISH (publishArgs ex rk m i)⟩ SF_MORE TIME_INF h2
    revert h3 h4
    cases sendFrame E ⟨ch, .method BASIC_PUBLISH (publishArgs ex rk m i)⟩ SF_MORE TIME_INF t with
    | err e u => intro h1 _; exact h1
    | ub => intros; trivial
    | fuel => intros; trivial
    | ok x u =>
      intro _ h4
      dsimp only
      rw [M.bind_def]
      generalize AFrame.mk ch (.header BASIC_CLASS (UInt64.ofNat body.length) (props.getD (0, [])).1 (props.getD (0, [])).2) = f
      generalize (if body.length > 0 then SF_MORE else SF_NONE) = fl
      have h5 := sendFrame_says hC hT f fl (Or.inl (near_inf E s0.time)) h4
      have h6 := (fair_closed hC s0).sendFrame f fl TIME_INF h4
      revert h5 h6
      cases sendFrame E f fl TIME_INF u with
      | err e u => intro h1 _; exact h1
      | ub => intros; trivial
      | fuel => intros; trivial
      | ok x v => intro _ h6; exact publishBody_says hC hT ch _ _ _ h6

omit hC hT in
theorem tune_says (cm fm hb : Int) (mem : Nat → UInt8) (s : Conn) : (tune E cm fm hb mem s).Says := by
  unfold tune
  split
  · trivial
  dsimp only
  generalize ({ s with channelMax := cm, frameMax := fm, ps := { s.ps with frameMax := (fm % 2 ^ 64).toNat }, heartbeat := if 0 > hb then 0 else hb } : Conn) = u
  have h1 := restartSend_says (E := E) u
  revert h1
  cases restartSend E u with
  | err e t => exact id
  | ub => intros; trivial
  | fuel => intros; trivial
  | ok x t =>
    intro _
    dsimp only
    have h1 := restartRecv_says (E := E) t
    revert h1
    cases restartRecv E t with
    | err e t => exact id
    | ub => intros; trivial
    | fuel => intros; trivial
    | ok x v =>
      intro _
      dsimp only [smallAlloc]
      cases E.pe.alloc _ with
      | true => trivial
      | false => exact isStatus_small (by decide) (by decide)

end
end Rmq
