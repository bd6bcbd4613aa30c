import Verif.Spec.Limits
import Verif.Proofs.LoginEnds
import Verif.Proofs.Naps
import Verif.Proofs.Outgoing
/-!
# Time limits
-/
namespace Rmq

theorem Keeps.nil (L : List Ev → Nat → Prop) (W : Bytes → Prop) : Keeps L W [] := fun a d ms r b h => by
  have := congrArg List.length h
  simp at this

theorem Keeps.snoc {L : List Ev → Nat → Prop} {W : Bytes → Prop} {l : List Ev} (h : Keeps L W l) {e : Ev}
    (he : ∀ d ms r, e = .poll d ms r → ms = 0 ∨
      (∃ (a' : List Ev) (now t : Nat), l = a' ++ [.clock now] ∧ L l t ∧ 0 ≤ ms ∧ (now : Int) + ms * 1000000 ≤ t) ∨ Offers W l) : Keeps L W (l ++ [e]) := by
  intro a d ms r b hab
  rcases List.eq_nil_or_concat b with rfl | ⟨b', x, rfl⟩
  · have h1 := List.append_inj' hab rfl
    have h2 := h1.2
    injection h2 with h2
    rw [← h1.1]
    exact he d ms r h2
  · have hab' : l ++ [e] = (a ++ .poll d ms r :: b') ++ [x] := by rw [hab]; simp
    exact h a d ms r b' (List.append_inj' hab' rfl).1

theorem Offers.snoc {W : Bytes → Prop} {l : List Ev} (hl : Offers W l) {e : Ev} (he : e.quiet = true) : Offers W (l ++ [e]) := by
  obtain ⟨a, b, fl, res, c, rfl, h2, h3⟩ := hl
  refine ⟨a, b, fl, res, c ++ [e], by simp, h2, fun x hx b' f' r' hxe => ?_⟩
  rcases List.mem_append.1 hx with hx | hx
  · exact h3 x hx b' f' r' hxe
  · rw [List.mem_singleton.1 hx] at hxe; rw [hxe] at he; cases he

section
variable {E : NetEnv} {L : List Ev → Nat → Prop} {W : Bytes → Prop} {s0 : Conn}

/-- Since `s0` the limits have been kept. -/
def Timed (L : List Ev → Nat → Prop) (W : Bytes → Prop) (s0 s : Conn) : Prop := ∃ l, Since s0 s l ∧ Keeps L W l

/-- Time goes on. -/
def Onward (s t : Conn) : Prop := ∃ l, Since s t l

theorem Onward.refl (s : Conn) : Onward s s := ⟨[], by simp [Since]⟩
theorem Onward.trans {s t u : Conn} (h1 : Onward s t) (h2 : Onward t u) : Onward s u := by
  obtain ⟨l, h1⟩ := h1; obtain ⟨l', h2⟩ := h2; exact ⟨l ++ l', h1.trans h2⟩
theorem Onward.push (s : Conn) (e : Ev) : Onward s (s.push e) := ⟨[e], rfl⟩
theorem Onward.time {s t : Conn} (h : Onward s t) : s.time ≤ t.time := by obtain ⟨l, h⟩ := h; exact since_time_le h
theorem Onward.same {s t u : Conn} (h : Onward s t) (h1 : u.log = t.log) : Onward s u := by
  obtain ⟨l, h⟩ := h; exact ⟨l, by unfold Since at *; rw [h1]; exact h⟩

/-- The deadline `dl` keeps the limits from `s` on. -/
def Due (E : NetEnv) (L : List Ev → Nat → Prop) (s0 s : Conn) (dl : Nat) : Prop :=
  dl ≠ TIME_INF ∧ ∀ k, s.time ≤ k → E.clock k ≠ 0 → msUntil (E.clock k) dl = 0 ∨
    ∃ l t, Since s0 s l ∧ L l t ∧ 0 ≤ msUntil (E.clock k) dl ∧ (E.clock k : Int) + msUntil (E.clock k) dl * 1000000 ≤ t

/-- A limit stays in force. -/
def Lasting (L : List Ev → Nat → Prop) : Prop := ∀ a b t, L a t → L (a ++ b) t

theorem Due.mono (hL : Lasting L) {s t : Conn} {dl : Nat} (h : Due E L s0 s dl) (ht : Onward s t) : Due E L s0 t dl := by
  refine ⟨h.1, fun k hk hc => (h.2 k (Nat.le_trans ht.time hk) hc).imp id ?_⟩
  rintro ⟨l, t', h1, h2, h3, h4⟩
  obtain ⟨l', ht⟩ := ht
  exact ⟨l ++ l', t', h1.trans ht, hL _ _ _ h2, h3, h4⟩

theorem Timed.same {s t : Conn} (hs : Timed L W s0 s) (h3 : t.log = s.log) : Timed L W s0 t := by
  obtain ⟨l, hl, hn⟩ := hs
  exact ⟨l, by unfold Since at *; rw [h3]; exact hl, hn⟩

theorem Timed.push {s : Conn} (hs : Timed L W s0 s) {e : Ev} (he : ∀ d ms r, e = .poll d ms r → ms = 0) : Timed L W s0 (s.push e) := by
  obtain ⟨l, hl, hn⟩ := hs
  exact ⟨l ++ [e], by unfold Since at *; simp only [Conn.push]; rw [hl, List.append_assoc], hn.snoc fun d ms r hp => Or.inl (he d ms r hp)⟩

theorem Timed.tick {s t : Conn} (hs : Timed L W s0 s) (ht : Tick s t) : Timed L W s0 t := by
  rcases ht with rfl | ⟨now, rfl⟩
  · exact hs
  · exact hs.push (fun _ _ _ h => nomatch h)

theorem Timed.release {s : Conn} (hs : Timed L W s0 s) (ch : UInt16) : Timed L W s0 (maybeReleaseOn ch s) := by
  unfold maybeReleaseOn
  split
  · exact hs
  · split
    · exact hs
    · split
      · exact hs.push (fun _ _ _ h => nomatch h)
      · exact hs

theorem Timed.close {s : Conn} (hs : Timed L W s0 s) : Timed L W s0 (sockClose E s).2 := by
  unfold sockClose
  split
  · exact hs
  · split
    · exact (hs.same (t := { s with isOpen := false }) rfl).push (fun _ _ _ h => nomatch h)
    · exact hs.push (fun _ _ _ h => nomatch h)

theorem pollFd_timed (hL : Lasting L) (d : Dir) (dl : Nat) : ∀ (n : Nat) {s : Conn}, Timed L W s0 s → Due E L s0 s dl →
    (pollFd E d dl n s).All fun t => Timed L W s0 t ∧ Onward s t := by
  intro n
  induction n with
  | zero => intro s _ _; trivial
  | succ n ih =>
    intro s hs hd
    unfold pollFd
    have key : Timed L W s0 (msUntilIO E dl s).2 ∧ Onward s (msUntilIO E dl s).2 ∧
        (¬ -1 > (msUntilIO E dl s).1 → ∀ r, Timed L W s0 ((msUntilIO E dl s).2.push (.poll d (msUntilIO E dl s).1 r))) := by
      unfold msUntilIO
      by_cases h0 : TIME_INF = dl ∨ 0 = dl
      · rw [if_pos h0]
        refine ⟨hs, .refl s, fun _ r => ?_⟩
        rcases h0 with h0 | h0
        · exact absurd h0.symm hd.1
        · subst h0
          have : msUntil 0 0 = 0 := by decide
          rw [this]
          exact hs.push fun d' ms' r' he => by cases he; rfl
      · rw [if_neg h0]
        have h1 : Timed L W s0 (s.push (.clock (E.clock s.time))) := hs.push (fun _ _ _ h => nomatch h)
        refine ⟨h1, .push s _, fun hm r => ?_⟩
        by_cases hc : E.clock s.time = 0
        · exfalso
          apply hm
          show -1 > msUntil (E.clock s.time) dl
          unfold msUntil
          rw [if_neg (fun h => h0 (Or.inl h)), if_neg (fun h => h0 (Or.inr h)), if_pos hc]
          decide
        · show Timed L W s0 ((s.push (.clock (E.clock s.time))).push (.poll d (msUntil (E.clock s.time) dl) r))
          rcases hd.2 s.time (Nat.le_refl _) hc with hz | ⟨l, t, g1, g2, g3, g4⟩
          · rw [hz]
            exact h1.push fun d' ms' r' he => by cases he; rfl
          · obtain ⟨l1, a1, a2⟩ := h1
            have hl1 : l1 = l ++ [.clock (E.clock s.time)] := by
              unfold Since at g1 a1
              simp only [Conn.push] at a1
              rw [g1, List.append_assoc] at a1
              exact (List.append_cancel_left a1).symm
            subst hl1
            refine ⟨(l ++ [.clock (E.clock s.time)]) ++ [_], by unfold Since at *; simp only [Conn.push] at *; rw [a1, List.append_assoc], a2.snoc fun d' ms' r' he => ?_⟩
            cases he
            exact Or.inr (Or.inl ⟨l, _, t, rfl, hL _ _ _ g2, g3, g4⟩)
    revert key
    obtain ⟨ms, t⟩ := msUntilIO E dl s
    rintro ⟨k1, k2, k3⟩
    dsimp only at k1 k2 k3 ⊢
    by_cases hm : -1 > ms
    · rw [if_pos hm]; exact ⟨k1, k2⟩
    rw [if_neg hm]
    have hp : ∀ r, Timed L W s0 (t.push (.poll d ms r)) ∧ Onward s (t.push (.poll d ms r)) :=
      fun r => ⟨k3 hm r, k2.trans (.push t _)⟩
    cases E.poll t.time with
    | ready => exact hp .ready
    | timeout => exact hp .timeout
    | error => exact hp .error
    | intr =>
      dsimp only
      have h1 := ih (hp .intr).1 (hd.mono hL (hp .intr).2)
      have h2 := (hp .intr).2
      revert h1
      cases pollFd E d dl n (t.push (.poll d ms .intr)) with
      | ok a u => exact fun h1 => ⟨h1.1, h2.trans h1.2⟩
      | err e u => exact fun h1 => ⟨h1.1, h2.trans h1.2⟩
      | ub => exact id
      | fuel => exact id

theorem restart_tick {s : Conn} (x : Int) (o : Nat) : Tick s (sFromNowIO E x o s).2.2 := by
  unfold sFromNowIO
  split
  · exact Or.inl rfl
  · dsimp only
    split
    · exact Or.inr ⟨_, rfl⟩
    · split <;> exact Or.inr ⟨_, rfl⟩

theorem restartRecv_timed {s : Conn} (hs : Timed L W s0 s) : (restartRecv E s).All (Timed L W s0) := by
  have h1 := restart_tick (E := E) (s := s) (2 * s.heartbeat) s.nextRecv
  unfold restartRecv
  revert h1
  obtain ⟨st, t, s1⟩ := sFromNowIO E (2 * s.heartbeat) s.nextRecv s
  intro h1
  dsimp only at h1 ⊢
  have h2 := hs.tick h1
  split <;> exact h2.same rfl

theorem restartSend_timed {s : Conn} (hs : Timed L W s0 s) : (restartSend E s).All (Timed L W s0) := by
  have h1 := restart_tick (E := E) (s := s) s.heartbeat s.nextSend
  unfold restartSend
  revert h1
  obtain ⟨st, t, s1⟩ := sFromNowIO E s.heartbeat s.nextSend s
  intro h1
  dsimp only at h1 ⊢
  have h2 := hs.tick h1
  split <;> exact h2.same rfl

theorem recvWithTimeout_timed (hL : Lasting L) (dl : Nat) : ∀ (n : Nat) {s : Conn}, Timed L W s0 s → Due E L s0 s dl →
    (recvWithTimeout E dl n s).All (Timed L W s0) := by
  intro n
  induction n with
  | zero => intro s _ _; trivial
  | succ n ih =>
    intro s hs hd
    unfold recvWithTimeout
    by_cases ho : s.isOpen = false
    · rw [if_pos ho]; exact hs
    rw [if_neg ho]
    cases hr : E.recv s.time s.received with
    | data b =>
      exact restartRecv_timed ((hs.same (t := { s with inb := b.take SOCK_BUF }) rfl).push (fun _ _ _ h => nomatch h))
    | fail k =>
      dsimp only
      have h0 : Timed L W s0 (s.push (.recvFail (-(k + 1 : Nat)))) := hs.push (fun _ _ _ h => nomatch h)
      have h0t : Onward s (s.push (.recvFail (-(k + 1 : Nat)))) := .push s _
      have key : ∀ d : Dir, (match pollFd E d dl E.fuel (s.push (.recvFail (-(k + 1 : Nat)))) with
            | .ok () s => recvWithTimeout E dl n s
            | .err e s => .err e s
            | .ub => .ub
            | .fuel => .fuel : Res Conn Unit).All (Timed L W s0) := by
        intro d
        have h1 := pollFd_timed (W := W) hL d dl E.fuel h0 (hd.mono hL h0t)
        revert h1
        cases pollFd E d dl E.fuel (s.push (.recvFail (-(k + 1 : Nat)))) with
        | ok a t => exact fun h1 => ih h1.1 (hd.mono hL (h0t.trans h1.2))
        | err e t => exact fun h1 => h1.1
        | ub => exact id
        | fuel => exact id
      by_cases h1 : (-(k + 1 : Nat) : Int) = St.PRIVATE_NEED_READ
      · rw [if_pos h1]; exact key .read
      rw [if_neg h1]
      by_cases h2 : (-(k + 1 : Nat) : Int) = St.PRIVATE_NEED_WRITE
      · rw [if_pos h2]; exact key .write
      rw [if_neg h2]
      exact h0

theorem consumeOne_timed {s : Conn} (hs : Timed L W s0 s) : (consumeOne E s).All (Timed L W s0) := by
  unfold consumeOne
  cases handleInput E.pe s.ps s.inb with
  | ok r p => exact (hs.same (t := { s with ps := p, inb := s.inb.drop r.1 }) rfl).push (fun _ _ _ h => nomatch h)
  | err e p => exact hs.same rfl
  | ub => trivial
  | fuel => trivial

theorem queueFrame_timed {s : Conn} (f : DFrame) (hs : Timed L W s0 s) : (queueFrame E f s).All (Timed L W s0) := by
  unfold queueFrame
  obtain ⟨a, p, hp⟩ := createLink_eff E f.frame.channel s
  revert hp
  obtain ⟨b, s1⟩ := createLink E f.frame.channel s
  intro hp
  dsimp only at hp
  subst hp
  cases b <;> exact hs.same rfl

theorem drainToQueue_timed : ∀ (n : Nat) {s : Conn}, Timed L W s0 s → (drainToQueue E n s).All (Timed L W s0) := by
  intro n
  induction n with
  | zero => intro s _; trivial
  | succ n ih =>
    intro s hs
    unfold drainToQueue
    by_cases hi : s.inb = []
    · rw [if_pos hi]; exact hs
    rw [if_neg hi]
    have h1 := consumeOne_timed (E := E) hs
    revert h1
    cases consumeOne E s with
    | err e t => exact id
    | ub => exact id
    | fuel => exact id
    | ok f t =>
      intro ht
      cases f with
      | none => exact ih ht
      | some f =>
        dsimp only
        have h2 := queueFrame_timed (E := E) f ht
        revert h2
        cases queueFrame E f t with
        | ok a u => exact fun h2 => ih h2
        | err e u => exact id
        | ub => exact id
        | fuel => exact id

/-- The deadline a timeout leads to. -/
theorem fromNowIO_limit (hC : ClockFine E) {v : TimeVal} (hv : Sensible (some v)) (s : Conn) :
    fromNowIO E (some v) s = if E.clock s.time = 0 then .err St.TIMER_FAILURE (s.push (.clock (E.clock s.time)))
        else .ok (E.clock s.time + v.nanos) (s.push (.clock (E.clock s.time))) := by
  obtain ⟨h1, h2, h3⟩ := hv
  have hlt := hC.2 s.time
  unfold fromNowIO timeFromNow readClock
  dsimp only
  rw [if_neg (by omega), if_neg (by omega)]
  change v.nanos < _ at h3
  have e1 : v.sec.toNat * 1000000000 + v.usec.toNat * 1000 = v.nanos := rfl
  rw [e1, Nat.mod_eq_of_lt (show v.nanos < 2 ^ 64 by omega)]
  by_cases hz : E.clock s.time = 0
  · rw [if_pos hz, if_pos hz]
  · rw [if_neg hz, if_neg hz, Nat.mod_eq_of_lt (show E.clock s.time + v.nanos < 2 ^ 64 by omega), if_neg (by omega)]

theorem zero_due (hC : ClockFine E) {s : Conn} {n d : Nat} (hn : n ≤ s.time) (hd : d ≤ E.clock n) : Due E L s0 s d := by
  have h63 := hC.2 n
  refine ⟨by unfold TIME_INF; omega, fun k hk hc => Or.inl ?_⟩
  have hm := (hC.1 n k (by omega)).resolve_left hc
  generalize E.clock k = now at *
  unfold msUntil
  rw [if_neg (by unfold TIME_INF; omega)]
  by_cases h0 : 0 = d
  · rw [if_pos h0]
  rw [if_neg h0, if_neg hc, if_pos (by omega)]

theorem limit_due (hC : ClockFine E) {s : Conn} {n d x t : Nat} (hn : n ≤ s.time) (hd : d ≤ E.clock n + x) (hx : x < 2 ^ 31 * 1000000) {l : List Ev}
    (hl : Since s0 s l) (ht : L l t) (hdt : d ≤ t) : Due E L s0 s d := by
  have h63 := hC.2 n
  refine ⟨by unfold TIME_INF; omega, fun k hk hc => ?_⟩
  have hm := (hC.1 n k (by omega)).resolve_left hc
  generalize E.clock k = now at *
  generalize E.clock n = c at *
  have hi : TIME_INF ≠ d := by unfold TIME_INF; omega
  unfold msUntil
  rw [if_neg hi]
  by_cases h0 : 0 = d
  · rw [if_pos h0]; exact Or.inl rfl
  rw [if_neg h0, if_neg hc]
  by_cases hge : now ≥ d
  · rw [if_pos hge]; exact Or.inl rfl
  · rw [if_neg hge]
    right
    refine ⟨l, t, hl, ht, ?_⟩
    unfold toInt32
    rw [Nat.mod_eq_of_lt (by omega), if_pos (by omega)]
    omega

theorem tryRecv_timed (hC : ClockFine E) (hL : Lasting L) {s : Conn} (hs : Timed L W s0 s) : (tryRecv E s).All (Timed L W s0) := by
  unfold tryRecv
  rw [M.bind_def]
  have h1 := drainToQueue_timed (E := E) E.fuel hs
  revert h1
  cases drainToQueue E E.fuel s with
  | err e t => exact id
  | ub => exact id
  | fuel => exact id
  | ok a t =>
    intro h1
    dsimp only
    rw [M.bind_def, fromNowIO_limit hC (v := ⟨0, 0⟩) ⟨Int.le_refl 0, Int.le_refl 0, by decide⟩]
    have h2 : Timed L W s0 (t.push (.clock (E.clock t.time))) := h1.push (fun _ _ _ h => nomatch h)
    by_cases hz : E.clock t.time = 0
    · rw [if_pos hz]; exact h2
    rw [if_neg hz]
    exact recvWithTimeout_timed hL _ _ h2 (zero_due (n := t.time) hC (by simp [Conn.time, Conn.push]) (by show E.clock t.time + 0 ≤ _; omega))

theorem doPoll_timed (hL : Lasting L) (res : Int) (dl : Nat) {s : Conn} (hs : Timed L W s0 s) (hd : Due E L s0 s dl) :
    (doPoll E res dl s).All fun t => Timed L W s0 t ∧ Onward s t := by
  unfold doPoll
  split
  · exact ⟨hs, .refl s⟩
  · split
    · exact pollFd_timed hL _ _ _ hs hd
    · split
      · exact pollFd_timed hL _ _ _ hs hd
      · split
        · exact ⟨hs, .refl s⟩
        · exact ⟨hs, .refl s⟩

theorem sockSend_timed {s : Conn} (b : Bytes) (flags : Nat) (hs : Timed L W s0 s) :
    Timed L W s0 (sockSend E b flags s).2 ∧ Onward s (sockSend E b flags s).2 := by
  unfold sockSend
  split
  · cases E.send s.time b <;> exact ⟨hs.push (fun _ _ _ h => nomatch h), .push s _⟩
  · exact ⟨hs, .refl s⟩

/-- Sending with a deadline. -/
theorem trySend_timed (hL : Lasting L) (dl flags len : Nat) : ∀ (n : Nat) (left : Bytes) {s : Conn}, Timed L W s0 s → Due E L s0 s dl →
    (trySend E dl flags len n left s).All (Timed L W s0) := by
  intro n
  induction n with
  | zero => intro left s _ _; trivial
  | succ n ih =>
    intro left s hs hd
    unfold trySend
    have h1 := sockSend_timed (E := E) left flags hs
    revert h1
    obtain ⟨res, s1⟩ := sockSend E left flags s
    rintro ⟨h1, ht1⟩
    dsimp only at h1 ht1 ⊢
    by_cases hres : res > 0
    · rw [if_pos hres]
      by_cases hd2 : (left.drop res.toNat).length = 0
      · rw [if_pos hd2]; exact h1
      · rw [if_neg hd2]; exact ih _ h1 (hd.mono hL ht1)
    · rw [if_neg hres]
      have h2 := doPoll_timed (W := W) hL res dl h1 (hd.mono hL ht1)
      revert h2
      cases doPoll E res dl s1 with
      | ok a t => exact fun h2 => ih _ h2.1 (hd.mono hL (ht1.trans h2.2))
      | err e t =>
        intro h2
        dsimp only
        by_cases he : e = St.TIMEOUT
        · rw [if_pos he]; exact h2.1
        · rw [if_neg he]; exact h2.1
      | ub => exact id
      | fuel => exact id

/-! ### Sending what is exempt -/

/-- Something exempt is being sent. -/
def Sending (W : Bytes → Prop) (s0 s : Conn) : Prop := ∃ l, Since s0 s l ∧ Offers W l

theorem Timed.sending {s : Conn} (hs : Timed L W s0 s) (hg : Sending W s0 s) {e : Ev} (he : e.quiet = true) :
    Timed L W s0 (s.push e) ∧ Sending W s0 (s.push e) := by
  obtain ⟨l, hl, hn⟩ := hs
  obtain ⟨l', hl', ho⟩ := hg
  have : l' = l := by unfold Since at hl hl'; rw [hl] at hl'; exact (List.append_cancel_left hl').symm
  subst this
  have hS : Since s0 (s.push e) (l' ++ [e]) := by unfold Since at *; simp only [Conn.push]; rw [hl, List.append_assoc]
  exact ⟨⟨l' ++ [e], hS, hn.snoc fun _ _ _ _ => Or.inr (Or.inr ho)⟩, l' ++ [e], hS, ho.snoc he⟩

theorem sending_ext : ∀ (l : List Ev) {s : Conn}, Quiet l → Timed L W s0 s → Sending W s0 s → Timed L W s0 (s.ext l) ∧ Sending W s0 (s.ext l)
  | [], s, _, h1, h2 => by simpa using ⟨h1, h2⟩
  | e :: l, s, hl, h1, h2 => by
    have : s.ext (e :: l) = (s.push e).ext l := by simp [Conn.ext, Conn.push]
    rw [this]
    obtain ⟨a, b⟩ := h1.sending h2 (hl e (by simp))
    exact sending_ext l (fun x hx => hl x (by simp [hx])) a b

/-- What is left of something exempt is exempt. -/
def Droppable (W : Bytes → Prop) : Prop := ∀ b n, W b → W (b.drop n)

theorem trySend_exempt (hW : Droppable W) (dl flags len : Nat) : ∀ (n : Nat) (left : Bytes) {s : Conn}, W left → Timed L W s0 s →
    (trySend E dl flags len n left s).All (Timed L W s0) := by
  intro n
  induction n with
  | zero => intro left s _ _; trivial
  | succ n ih =>
    intro left s hsu hs
    unfold trySend
    have h1 := (sockSend_timed (E := E) left flags hs).1
    have h2 : s.isOpen = false ∧ sockSend E left flags s = (St.SOCKET_CLOSED, s) ∨ Sending W s0 (sockSend E left flags s).2 := by
      unfold sockSend
      cases ho : s.isOpen with
      | false => left; rw [if_neg (by simp)]; exact ⟨rfl, rfl⟩
      | true =>
        right
        rw [if_pos rfl]
        obtain ⟨l, hl, hn⟩ := hs
        cases E.send s.time left with
        | sent m =>
          refine ⟨l ++ [.send left flags (min m left.length : Nat)], ?_, l, left, flags, _, [], rfl, hsu, fun _ h => nomatch h⟩
          unfold Since at *; simp only [Conn.push]; rw [hl, List.append_assoc]
        | fail m =>
          refine ⟨l ++ [.send left flags (-(m + 1 : Nat))], ?_, l, left, flags, _, [], rfl, hsu, fun _ h => nomatch h⟩
          unfold Since at *; simp only [Conn.push]; rw [hl, List.append_assoc]
    revert h1 h2
    obtain ⟨res, s1⟩ := sockSend E left flags s
    intro h1 h2
    dsimp only at h1 h2 ⊢
    rcases h2 with ⟨h3, h2⟩ | hg
    · cases h2
      rw [if_neg (by decide)]
      unfold doPoll
      rw [if_pos h3]
      dsimp only
      rw [if_neg (by decide)]
      exact hs
    by_cases hres : res > 0
    · rw [if_pos hres]
      by_cases hd2 : (left.drop res.toNat).length = 0
      · rw [if_pos hd2]; exact h1
      · rw [if_neg hd2]
        exact ih _ (hW _ _ hsu) h1
    · rw [if_neg hres]
      have h2 := doPoll_quiet E res dl s1
      revert h2
      cases doPoll E res dl s1 with
      | ok a t =>
        rintro ⟨l, rfl, hq⟩
        exact ih _ hsu (sending_ext l hq h1 hg).1
      | err e t =>
        rintro ⟨l, rfl, hq⟩
        dsimp only
        by_cases he : e = St.TIMEOUT
        · rw [if_pos he]; exact (sending_ext l hq h1 hg).1
        · rw [if_neg he]; exact (sending_ext l hq h1 hg).1
      | ub => exact id
      | fuel => exact id

/-- Sending a frame, if that keeps the limits until `amqp_try_send` returns. -/
theorem sendLoop_timed (hC : ClockFine E) (hL : Lasting L) (P : Bytes → Conn → Prop)
    (flags deadline : Nat)
    (hS : ∀ b s, P b s → (trySend E (timeFirst deadline s.nextRecv) flags b.length E.fuel b s).All (Timed L W s0))
    (hN : ∀ b s t n, P b s → Onward s t → Timed L W s0 t → P (b.drop n) t) :
    ∀ (n : Nat) (enc : Bytes) {s : Conn}, P enc s → (sendLoop E flags deadline n enc s).All (Timed L W s0) := by
  intro n
  induction n with
  | zero => intro enc s _; trivial
  | succ n ih =>
    intro enc s hs
    unfold sendLoop
    dsimp only
    have h1 := hS enc s hs
    have h1a := (since_closed E s).trySend (timeFirst deadline s.nextRecv) flags enc.length E.fuel enc (s := s) ⟨[], by simp [Since]⟩
    revert h1 h1a
    cases trySend E (timeFirst deadline s.nextRecv) flags enc.length E.fuel enc s with
    | err e t => exact fun h _ => h
    | ub => exact fun h _ => h
    | fuel => exact fun h _ => h
    | ok m t =>
      intro h1 h1a
      dsimp only
      by_cases hm : enc.length ≠ m
      · rw [if_pos hm]
        by_cases ht : timeEqual (timeFirst deadline s.nextRecv) deadline = true
        · rw [if_pos ht]; exact h1
        rw [if_neg ht]
        have h2 := tryRecv_timed hC hL h1
        have h2a := (since_closed E s).tryRecv (s := t) h1a
        revert h2 h2a
        cases tryRecv E t with
        | ok a u => exact fun h2 h2a => ih _ (hN _ _ _ _ hs h2a h2)
        | err e u =>
          intro h2 _
          dsimp only
          by_cases he : e = St.TIMEOUT
          · rw [if_pos he]; exact h2
          · rw [if_neg he]; exact h2
        | ub => exact fun h _ => h
        | fuel => exact fun h _ => h
      · rw [if_neg hm]; exact restartSend_timed h1

theorem Due.first {s : Conn} {D : Nat} (h : ∀ d, d ≤ D → Due E L s0 s d) (x : Nat) : Due E L s0 s (timeFirst D x) :=
  h _ (by rw [timeFirst_min]; omega)

/-- Sending a frame by a deadline. -/
theorem sendFrame_timed (hC : ClockFine E) (hL : Lasting L) (f : AFrame) (flags D : Nat) {s : Conn} (hs : Timed L W s0 s)
    (hd : ∀ d, d ≤ D → Due E L s0 s d) : (sendFrame E f flags D s).All (Timed L W s0) := by
  unfold sendFrame
  cases frameToBytes E.pe.be s.outMem s.outLen f with
  | ok enc mem =>
    refine sendLoop_timed hC hL (fun _ t => Timed L W s0 t ∧ ∀ d, d ≤ D → Due E L s0 t d) flags D
      (fun b t h => trySend_timed hL _ _ _ _ _ h.1 (Due.first h.2 _)) (fun _ t u _ h ha hu => ⟨hu, fun d hd => (h.2 d hd).mono hL ha⟩) _ enc
      ⟨hs.same rfl, fun d hdd => ?_⟩
    exact (hd d hdd).mono hL ((Onward.refl s).same rfl)
  | err e mem => exact hs.same rfl
  | ub => trivial
  | fuel => trivial

/-- Sending an exempt frame. -/
theorem sendFrame_exempt (hC : ClockFine E) (hL : Lasting L) (hW : Droppable W) (f : AFrame) (flags D : Nat) {s : Conn} (hs : Timed L W s0 s)
    (hf : ∀ be m n enc m', frameToBytes be m n f = .ok enc m' → W enc) : (sendFrame E f flags D s).All (Timed L W s0) := by
  unfold sendFrame
  cases he : frameToBytes E.pe.be s.outMem s.outLen f with
  | ok enc mem =>
    exact sendLoop_timed hC hL (fun b t => Timed L W s0 t ∧ W b) flags D
      (fun b t h => trySend_exempt hW _ _ _ _ _ h.2 h.1) (fun _ t u _ h ha hu => ⟨hu, hW _ _ h.2⟩) _ enc ⟨hs.same rfl, hf _ _ _ _ _ he⟩
  | err e mem => exact hs.same rfl
  | ub => trivial
  | fuel => trivial

/-! ### Waiting -/

/-- Every deadline up to `D` keeps the limits. -/
def Bound (E : NetEnv) (L : List Ev → Nat → Prop) (s0 s : Conn) (D : Nat) : Prop := ∀ d, d ≤ D → Due E L s0 s d

theorem Bound.mono (hL : Lasting L) {s t : Conn} {D : Nat} (h : Bound E L s0 s D) (ha : Onward s t) : Bound E L s0 t D := fun d hd => (h d hd).mono hL ha

theorem beginRecv_timed (hC : ClockFine E) (hL : Lasting L) (hW : Droppable W) (hH : W heartbeatBytes) (D : Nat) {s : Conn}
    (hs : Timed L W s0 s) (hd : Bound E L s0 s D) : (beginRecv E D s).All (Timed L W s0) := by
  unfold beginRecv
  have h1 := hs.tick (hasPastIO_tick E s.nextSend s)
  have a1 : Onward s (hasPastIO E s.nextSend s).2 := by
    rcases hasPastIO_tick E s.nextSend s with h | ⟨now, h⟩
    · rw [h]; exact .refl s
    · rw [h]; exact .push s _
  revert h1 a1
  obtain ⟨res, s1⟩ := hasPastIO E s.nextSend s
  intro h1 a1
  dsimp only at h1 a1 ⊢
  by_cases hr : res = St.TIMER_FAILURE
  · rw [if_pos hr]; exact h1
  rw [if_neg hr]
  have h2 : (if res = St.TIMEOUT then sendFrame E ⟨0, .heartbeat⟩ SF_NONE TIME_INF s1 else .ok () s1 : Res Conn Unit).All
      fun t => Timed L W s0 t ∧ Onward s1 t := by
    by_cases hr : res = St.TIMEOUT
    · rw [if_pos hr]
      have g1 := sendFrame_exempt hC hL hW ⟨0, .heartbeat⟩ SF_NONE TIME_INF h1 (fun be m n enc m' he => by rw [frameToBytes_heartbeat he]; exact hH)
      have g2 := (since_closed E s1).sendFrame ⟨0, .heartbeat⟩ SF_NONE TIME_INF (s := s1) ⟨[], by simp [Since]⟩
      revert g1 g2
      cases sendFrame E ⟨0, .heartbeat⟩ SF_NONE TIME_INF s1 with
      | ok a t => exact fun g1 g2 => ⟨g1, g2⟩
      | err e t => exact fun g1 g2 => ⟨g1, g2⟩
      | ub => exact fun _ h => h
      | fuel => exact fun _ h => h
    · rw [if_neg hr]; exact ⟨h1, .refl _⟩
  revert h2
  cases (if res = St.TIMEOUT then sendFrame E ⟨0, .heartbeat⟩ SF_NONE TIME_INF s1 else .ok () s1 : Res Conn Unit) with
  | err e t => exact fun h => h.1
  | ub => exact id
  | fuel => exact id
  | ok a t =>
    rintro ⟨h2, a2⟩
    dsimp only
    have h3 := recvWithTimeout_timed (W := W) hL (timeFirst D (timeFirst t.nextRecv t.nextSend)) E.fuel h2
      ((hd _ (by rw [timeFirst_min]; omega)).mono hL (a1.trans a2))
    revert h3
    cases recvWithTimeout E (timeFirst D (timeFirst t.nextRecv t.nextSend)) E.fuel t with
    | ok b u => exact id
    | ub => exact id
    | fuel => exact id
    | err e u =>
      intro h3
      dsimp only
      by_cases he : e = St.TIMEOUT
      · rw [if_pos he]
        by_cases c1 : timeEqual (timeFirst D (timeFirst t.nextRecv t.nextSend)) u.nextRecv = true
        · rw [if_pos c1]; exact h3.close
        rw [if_neg c1]
        by_cases c2 : timeEqual (timeFirst D (timeFirst t.nextRecv t.nextSend)) D = true
        · rw [if_pos c2]; exact h3
        rw [if_neg c2]
        by_cases c3 : timeEqual (timeFirst D (timeFirst t.nextRecv t.nextSend)) u.nextSend = true
        · rw [if_pos c3]; exact h3
        rw [if_neg c3]; trivial
      · rw [if_neg he]; exact h3

theorem waitInner_timed (hC : ClockFine E) (hL : Lasting L) (hW : Droppable W) (hH : W heartbeatBytes) (D : Nat) :
    ∀ (n : Nat) (b : Bool) {s : Conn}, Timed L W s0 s → Bound E L s0 s D → (waitInner E D n b s).All (Timed L W s0) := by
  intro n
  induction n with
  | zero => intro b s _ _; trivial
  | succ n ih =>
    intro b s hs hd
    unfold waitInner
    by_cases hb : b = false ∧ s.inb ≠ []
    · rw [if_pos hb]
      have h1 := consumeOne_timed (E := E) hs
      have a1 : (consumeOne E s).All (Onward s) := by
        unfold consumeOne
        cases handleInput E.pe s.ps s.inb with
        | ok r p => exact ⟨[.parsed (s.inb.take r.1)], rfl⟩
        | err e p => exact ⟨[], by simp [Since]⟩
        | ub => trivial
        | fuel => trivial
      revert h1 a1
      cases consumeOne E s with
      | err e t => exact fun h _ => h
      | ub => exact fun h _ => h
      | fuel => exact fun h _ => h
      | ok f t =>
        intro ht a1
        cases f with
        | none => exact ih false ht (hd.mono hL a1)
        | some f =>
          dsimp only
          cases hp : f.frame.payload <;> dsimp only
          case heartbeat =>
            refine ih false (Timed.release ht 0) (hd.mono hL (Onward.trans a1 ?_))
            obtain ⟨l, h1, h2⟩ := maybeReleaseOn_ext 0 t
            exact ⟨l, by rw [h1]; exact since_ext t l⟩
          all_goals exact ht
    · rw [if_neg hb]
      have h1 := beginRecv_timed hC hL hW hH D hs hd
      have a1 := (since_closed E s).beginRecv D (s := s) ⟨[], by simp [Since]⟩
      revert h1 a1
      cases beginRecv E D s with
      | ok a t => exact fun h1 a1 => ih a h1 (hd.mono hL a1)
      | err e t => exact fun h _ => h
      | ub => exact fun h _ => h
      | fuel => exact fun h _ => h

/-! ### From a point on which the limit is known -/

/-- The limits have been kept since `s0`, and time has gone on from `sD`, where the deadline `D` was set. -/
def Going (L : List Ev → Nat → Prop) (W : Bytes → Prop) (s0 sD s : Conn) : Prop := Timed L W s0 s ∧ Onward sD s

theorem Res.All.and' {α : Type} {P Q : Conn → Prop} {r : Res Conn α} (h1 : r.All P) (h2 : r.All Q) : r.All fun s => P s ∧ Q s := by
  cases r with
  | ok a s => exact ⟨h1, h2⟩
  | err e s => exact ⟨h1, h2⟩
  | ub => trivial
  | fuel => trivial

variable {sD : Conn}

theorem Going.same {s t : Conn} (h : Going L W s0 sD s) (hl : t.log = s.log) : Going L W s0 sD t := ⟨h.1.same hl, h.2.same hl⟩
theorem Going.tick {s t : Conn} (h : Going L W s0 sD s) (ht : Tick s t) : Going L W s0 sD t := by
  refine ⟨h.1.tick ht, ?_⟩
  rcases ht with rfl | ⟨now, rfl⟩
  · exact h.2
  · exact h.2.trans (.push s _)
theorem Going.release {s : Conn} (h : Going L W s0 sD s) (ch : UInt16) : Going L W s0 sD (maybeReleaseOn ch s) := by
  refine ⟨h.1.release ch, h.2.trans ?_⟩
  obtain ⟨l, h1, h2⟩ := maybeReleaseOn_ext ch s
  exact ⟨l, by rw [h1]; exact since_ext s l⟩
theorem Going.releases : ∀ (chs : List UInt16) {s : Conn}, Going L W s0 sD s → Going L W s0 sD (chs.foldl (fun s ch => maybeReleaseOn ch s) s)
  | [], _, h => h
  | ch :: chs, _, h => Going.releases chs (h.release ch)
theorem Going.close {s : Conn} (h : Going L W s0 sD s) : Going L W s0 sD (sockClose E s).2 := by
  refine ⟨h.1.close, h.2.trans ?_⟩
  unfold sockClose
  split
  · exact .refl s
  · split
    · exact ⟨[.close true], rfl⟩
    · exact ⟨[.close false], rfl⟩

theorem wait_going (hC : ClockFine E) (hL : Lasting L) (hW : Droppable W) (hH : W heartbeatBytes) {D : Nat} (n : Nat) (b : Bool) {s : Conn}
    (hs : Going L W s0 sD s) (hd : Bound E L s0 s D) : (waitInner E D n b s).All (Going L W s0 sD) := by
  refine Res.All.and' (waitInner_timed hC hL hW hH D n b hs.1 hd) ?_
  exact ((since_closed E sD).waitInner D n b hs.2).all

theorem send_going (hC : ClockFine E) (hL : Lasting L) (f : AFrame) (flags D : Nat) {s : Conn} (hs : Going L W s0 sD s) (hd : Bound E L s0 s D) :
    (sendFrame E f flags D s).All (Going L W s0 sD) :=
  Res.All.and' (sendFrame_timed hC hL f flags D hs.1 hd) ((since_closed E sD).sendFrame f flags D hs.2)

theorem exempt_going (hC : ClockFine E) (hL : Lasting L) (hW : Droppable W) (f : AFrame) (flags D : Nat) {s : Conn} (hs : Going L W s0 sD s)
    (hf : ∀ be m n enc m', frameToBytes be m n f = .ok enc m' → W enc) : (sendFrame E f flags D s).All (Going L W s0 sD) :=
  Res.All.and' (sendFrame_exempt hC hL hW f flags D hs.1 hf) ((since_closed E sD).sendFrame f flags D hs.2)

theorem queue_going (f : DFrame) {s : Conn} (hs : Going L W s0 sD s) : (queueFrame E f s).All (Going L W s0 sD) := by
  unfold queueFrame
  obtain ⟨a, p, hp⟩ := createLink_eff E f.frame.channel s
  revert hp
  obtain ⟨b, s1⟩ := createLink E f.frame.channel s
  intro hp
  dsimp only at hp
  subst hp
  cases b <;> exact hs.same rfl

theorem rpcLoop_going (hC : ClockFine E) (hL : Lasting L) (hW : Droppable W) (hH : W heartbeatBytes) {D : Nat} (hd : Bound E L s0 sD D)
    (ch : UInt16) (expected : List UInt32) : ∀ (n : Nat) {s : Conn}, Going L W s0 sD s → (rpcLoop E ch expected D n s).All (Going L W s0 sD) := by
  intro n
  induction n with
  | zero => intro s _; trivial
  | succ n ih =>
    intro s hs
    unfold rpcLoop waitFrameInner
    have h1 := wait_going hC hL hW hH E.fuel false hs (hd.mono hL hs.2)
    revert h1
    cases waitInner E D E.fuel false s with
    | ub => exact id
    | fuel => exact id
    | err e t =>
      intro h1
      dsimp only
      by_cases he : e = St.TIMEOUT
      · rw [if_pos he]; exact h1.close
      · rw [if_neg he]; exact h1
    | ok f t =>
      intro h1
      dsimp only
      by_cases hx : endsRpc ch expected f.frame = true
      · rw [if_pos hx]
        cases hp : f.frame.payload <;> dsimp only <;> first | exact h1 | trivial
      · rw [if_neg hx]
        have h2 := queue_going (E := E) f h1
        revert h2
        cases queueFrame E f t with
        | ub => exact id
        | fuel => exact id
        | err e u => exact id
        | ok a u => exact fun h2 => ih h2

theorem rpcInner_going (hC : ClockFine E) (hL : Lasting L) (hW : Droppable W) (hH : W heartbeatBytes) {D : Nat} (hd : Bound E L s0 sD D)
    (ch : UInt16) (id : UInt32) (expected : List UInt32) (args : Rec) {s : Conn} (hs : Going L W s0 sD s)
    (hf : ∀ be m n enc m', frameToBytes be m n ⟨ch, .method id args⟩ = .ok enc m' → W enc) :
    (rpcInner E ch id expected args D s).All (Going L W s0 sD) := by
  unfold rpcInner sendMethod
  have h1 := exempt_going hC hL hW ⟨ch, .method id args⟩ SF_NONE TIME_INF hs hf
  revert h1
  cases sendFrame E ⟨ch, .method id args⟩ SF_NONE TIME_INF s with
  | ub => exact fun h => h
  | fuel => exact fun h => h
  | err e t => exact fun h => h
  | ok a t => exact fun h => rpcLoop_going hC hL hW hH hd ch expected _ h

end

/-! ### What a method frame looks like -/

theorem poke_at {m m' bs : Bytes} {o : Nat} (h : poke m o bs = some m') : (m'.drop o).take bs.length = bs := by
  unfold poke at h
  split at h
  · cases h
    rename_i hc
    unfold splice
    rw [List.append_assoc, List.drop_append_of_le_length (by simp; omega)]
    simp [List.drop_take]
  · cases h

theorem poke_keeps {m m' bs : Bytes} {o i n : Nat} (h : poke m o bs = some m') (hd : i + n ≤ o ∨ o + bs.length ≤ i) :
    (m'.drop i).take n = (m.drop i).take n := by
  unfold poke at h
  split at h
  · cases h
    rename_i hc
    unfold splice
    apply List.ext_getElem?
    intro k
    simp only [List.getElem?_take, List.getElem?_drop]
    by_cases hk : k < n
    · rw [if_pos hk, if_pos hk]
      rcases hd with hd | hd
      · rw [List.append_assoc, List.getElem?_append_left (by simp; omega), List.getElem?_take_of_lt (by omega)]
      · rw [List.getElem?_append_right (by simp; omega)]
        simp only [List.length_append, List.length_take, List.getElem?_drop]
        congr 1; omega
    · rw [if_neg hk, if_neg hk]
  · cases h

theorem window_of_eq {m m' : Bytes} {N i n : Nat} (h : m'.take N = m.take N) (hi : i + n ≤ N) : (m'.drop i).take n = (m.drop i).take n := by
  have e : ∀ x : Bytes, (x.drop i).take n = ((x.take N).drop i).take n := by
    intro x
    rw [List.drop_take, List.take_take, Nat.min_eq_left (by omega)]
  rw [e m', e m, h]

theorem frameToBytes_methodRest {be : Bool} {m out m' : Bytes} {len : Nat} {ch : UInt16} {id : UInt32} {args : Rec}
    (h : frameToBytes be m len ⟨ch, .method id args⟩ = .ok out m') : MethodRest ch id out := by
  unfold frameToBytes at h
  split at h; · cases h
  rename_i m1 p1
  split at h; · cases h
  rename_i m2 p2
  dsimp only at h p1 p2
  split at h; · cases h
  rename_i m3 p3
  split at h <;> try cases h
  rename_i n s hs
  unfold finishFrame at h
  split at h; · cases h
  rename_i m4 p4
  split at h; · cases h
  rename_i m5 p5
  cases h
  have l1 := e8_length (Payload.method id args).frameType
  have l2 := e16_length be ch
  have l3 : (e32 be id).length = 4 := by rw [e32_eq, beBytes_length]
  have l4 : (e32 be (UInt32.ofNat (n + 4))).length = 4 := by rw [e32_eq, beBytes_length]
  have l3' : 11 ≤ m3.length := by
    rw [poke_len p3]; unfold poke at p3
    split at p3
    · rename_i hc; unfold HEADER_SIZE at hc; omega
    · cases p3
  have l5 : 8 + (n + 4) ≤ m'.length := by
    rw [poke_len p5]; unfold poke at p5
    split at p5
    · rename_i hc; have := e8_length FRAME_END; unfold HEADER_SIZE at hc; omega
    · cases p5
  unfold HEADER_SIZE at p3 p5
  have hmid : (m3.take (HEADER_SIZE + 4) ++ s.mem).take 11 = m3.take 11 := by
    rw [List.take_append_of_le_length (by simp [HEADER_SIZE]; omega), List.take_take]; rfl
  have w : ∀ {i k : Nat}, i + k ≤ 11 → (i + k ≤ 3 ∨ 7 ≤ i) → (m'.drop i).take k = (m3.drop i).take k := by
    intro i k hik hik3
    rw [poke_keeps p5 (Or.inl (by omega)), poke_keeps p4 (by omega)]
    exact window_of_eq hmid hik
  have a : (m'.drop 0).take 1 = [1] := by
    rw [w (by omega) (by omega), poke_keeps p3 (by omega), poke_keeps p2 (by omega)]
    have := poke_at p1
    rw [l1] at this; rw [this]; rfl
  have b : (m'.drop 1).take 2 = beBytes 2 ch.toNat := by
    rw [w (by omega) (by omega), poke_keeps p3 (by omega)]
    have := poke_at p2
    rw [l2] at this; rw [this, e16_eq]
  have c : (m'.drop 7).take 4 = beBytes 4 id.toNat := by
    rw [w (by omega) (by omega)]
    have := poke_at p3
    rw [l3] at this; rw [this, e32_eq]
  refine ⟨(m'.drop 3).take 4, (m'.drop 11).take (n + 1), by simp; omega, ?_⟩
  have hsplit : m'.take (n + 4 + HEADER_SIZE + FOOTER_SIZE) = (m'.drop 0).take 1 ++ (m'.drop 1).take 2 ++ (m'.drop 3).take 4 ++ (m'.drop 7).take 4 ++ (m'.drop 11).take (n + 1) := by
    have e : n + 4 + HEADER_SIZE + FOOTER_SIZE = 1 + (2 + (4 + (4 + (n + 1)))) := by unfold HEADER_SIZE FOOTER_SIZE; omega
    rw [e]
    simp only [List.take_add, List.drop_drop, List.append_assoc, List.drop_zero]
  rw [hsplit, a, b, c]
  exact List.suffix_refl _

theorem methodRest_drop (ch : UInt16) (id : UInt32) : Droppable fun b => HeartbeatRest b ∨ MethodRest ch id b := by
  rintro b n (h | ⟨sz, args, h1, h2⟩)
  · exact Or.inl ((List.drop_suffix _ _).trans h)
  · exact Or.inr ⟨sz, args, h1, (List.drop_suffix _ _).trans h2⟩
theorem heartbeatRest_drop : Droppable HeartbeatRest := fun _ _ h => (List.drop_suffix _ _).trans h

theorem by_lasting (D : Nat) : Lasting (By D) := fun _ _ _ h => h
theorem byAbout_lasting (D : Nat) : Lasting (ByAbout D) := by
  rintro a b t (h | ⟨a1, n1, n2, a2, rfl, h1, h2, h3⟩)
  · exact Or.inl h
  · exact Or.inr ⟨a1, n1, n2, a2 ++ b, by simp, h1, h2, h3⟩

/-! ### Login -/

section
variable {E : NetEnv} {W : Bytes → Prop} {s0 sD : Conn} {n0 x : Nat}

/-- Waiting for a method by a deadline that is set anew. -/
theorem waitMethodList_going (hC : ClockFine E) (hW : Droppable W) (hH : W heartbeatBytes) (hn : n0 ≤ sD.time) (hc : E.clock n0 ≠ 0) (hx : x < 2 ^ 31 * 1000000)
    (hDs : Onward s0 sD) (ch : UInt16) (expected : List UInt32) {s : Conn} (hs : Going (ByAbout (E.clock n0 + x)) W s0 sD s) :
    (waitMethodList E ch expected (E.clock n0 + x) s).All (Going (ByAbout (E.clock n0 + x)) W s0 sD) := by
  have h63 := hC.2 n0
  have htime : n0 ≤ s.time := Nat.le_trans hn hs.2.time
  have h63' := hC.2 s.time
  have hmono := hC.1 n0 s.time htime
  unfold waitMethodList
  -- the frame, once the deadline is known
  have rest : ∀ {d : Nat} {t : Conn}, Going (ByAbout (E.clock n0 + x)) W s0 sD t → Bound E (ByAbout (E.clock n0 + x)) s0 t d →
      ((match t.queue with
        | f :: rest => .ok f { t with queue := rest }
        | [] => waitFrameInner E d t : Res Conn DFrame)).All (Going (ByAbout (E.clock n0 + x)) W s0 sD) := by
    intro d t ht hd
    cases t.queue with
    | cons f q => exact ht.same rfl
    | nil => exact wait_going hC (byAbout_lasting _) hW hH _ _ ht hd
  have fin : ∀ {tv : Option TimeVal} {t : Conn}, (waitFrame E tv t).All (Going (ByAbout (E.clock n0 + x)) W s0 sD) →
      ((do
        let f ← waitFrame E tv
        match f.frame.payload with
        | .method id args =>
          if f.frame.channel = ch ∧ id ∈ expected then pure (id, args) else M.fail St.WRONG_METHOD
        | _ => M.fail St.WRONG_METHOD : M Conn (UInt32 × Rec)) t).All (Going (ByAbout (E.clock n0 + x)) W s0 sD) := by
    intro tv t h
    refine Res.All.bind h fun f u hu => ?_
    cases f.frame.payload <;> dsimp only <;> try exact hu
    split <;> exact hu
  rw [M.bind_def]
  unfold tvUntilIO tvUntil
  rw [if_neg (by unfold TIME_INF; omega), if_neg (by omega), if_neg (by unfold TIME_INF; omega), if_neg (by omega)]
  have h1 : Going (ByAbout (E.clock n0 + x)) W s0 sD (s.push (.clock (E.clock s.time))) := hs.tick (Or.inr ⟨_, rfl⟩)
  have hq1 : (s.push (.clock (E.clock s.time))).time = s.time + 1 := by simp [Conn.time, Conn.push]
  by_cases hz : E.clock s.time = 0
  · rw [if_pos hz]; exact h1
  rw [if_neg hz]
  have hge := hmono.resolve_left hz
  by_cases hlate : E.clock s.time ≥ E.clock n0 + x
  · -- it has passed
    rw [if_pos hlate]
    refine fin ?_
    show (waitFrame E (some ⟨0, 0⟩) (s.push (.clock (E.clock s.time)))).All _
    rw [waitFrame_def, fromNowIO_limit hC (v := ⟨0, 0⟩) ⟨Int.le_refl 0, Int.le_refl 0, by decide⟩]
    have h2 := h1.tick (Or.inr ⟨E.clock (s.push (.clock (E.clock s.time))).time, rfl⟩)
    by_cases hz2 : E.clock (s.push (.clock (E.clock s.time))).time = 0
    · rw [if_pos hz2]; exact h2
    rw [if_neg hz2]
    refine rest h2 fun d hd => zero_due (n := (s.push (.clock (E.clock s.time))).time) hC (by simp [Conn.time, Conn.push]) (by
      have : d ≤ E.clock (s.push (.clock (E.clock s.time))).time + 0 := hd
      omega)
  · rw [if_neg hlate]
    refine fin ?_
    show (waitFrame E (some ⟨toInt32 ((E.clock n0 + x - E.clock s.time) / 1000000000), toInt32 (((E.clock n0 + x - E.clock s.time) % 1000000000) / 1000)⟩)
      (s.push (.clock (E.clock s.time)))).All _
    have hr : E.clock n0 + x - E.clock s.time ≤ x := by omega
    have hlim : E.clock n0 + x = E.clock s.time + (E.clock n0 + x - E.clock s.time) := by omega
    have e1 : toInt32 ((E.clock n0 + x - E.clock s.time) / 1000000000) = (((E.clock n0 + x - E.clock s.time) / 1000000000 : Nat) : Int) := by
      generalize E.clock n0 + x - E.clock s.time = r at *
      unfold toInt32; rw [Nat.mod_eq_of_lt (by omega), if_pos (by omega)]
    have e2 : toInt32 (((E.clock n0 + x - E.clock s.time) % 1000000000) / 1000) = ((((E.clock n0 + x - E.clock s.time) % 1000000000) / 1000 : Nat) : Int) := by
      generalize E.clock n0 + x - E.clock s.time = r at *
      unfold toInt32; rw [Nat.mod_eq_of_lt (by omega), if_pos (by omega)]
    rw [e1, e2]
    have hnan : (⟨(((E.clock n0 + x - E.clock s.time) / 1000000000 : Nat) : Int), ((((E.clock n0 + x - E.clock s.time) % 1000000000) / 1000 : Nat) : Int)⟩ : TimeVal).nanos
        ≤ E.clock n0 + x - E.clock s.time := by
      generalize E.clock n0 + x - E.clock s.time = r at *
      unfold TimeVal.nanos
      simp only [Int.toNat_natCast]
      omega
    have hsens : Sensible (some ⟨(((E.clock n0 + x - E.clock s.time) / 1000000000 : Nat) : Int), ((((E.clock n0 + x - E.clock s.time) % 1000000000) / 1000 : Nat) : Int)⟩) :=
      ⟨by dsimp only; omega, by dsimp only; omega, by omega⟩
    generalize (⟨(((E.clock n0 + x - E.clock s.time) / 1000000000 : Nat) : Int), ((((E.clock n0 + x - E.clock s.time) % 1000000000) / 1000 : Nat) : Int)⟩ : TimeVal) = v at *
    rw [waitFrame_def, fromNowIO_limit hC hsens]
    have h2 := h1.tick (Or.inr ⟨E.clock (s.push (.clock (E.clock s.time))).time, rfl⟩)
    have hc1 := hC.1 s.time (s.push (.clock (E.clock s.time))).time (by omega)
    by_cases hz2 : E.clock (s.push (.clock (E.clock s.time))).time = 0
    · rw [if_pos hz2]; exact h2
    rw [if_neg hz2]
    have hge2 := hc1.resolve_left hz2
    obtain ⟨l, hl⟩ := hDs.trans hs.2
    refine rest h2 fun d hd => ?_
    refine limit_due (l := l ++ [.clock (E.clock s.time), .clock (E.clock (s.push (.clock (E.clock s.time))).time)]) (x := v.nanos)
      (n := (s.push (.clock (E.clock s.time))).time) (t := d) hC (by simp [Conn.time, Conn.push]) hd (by omega) ?_ ?_ (Nat.le_refl _)
    · unfold Since at *; simp only [Conn.push] at *; rw [hl]; simp
    · refine Or.inr ⟨l, _, _, [], rfl, hz, hge2, ?_⟩
      generalize E.clock (s.push (.clock (E.clock s.time))).time = c2 at *
      omega

theorem deadline_bound (hC : ClockFine E) (hn : n0 ≤ sD.time) (hx : x < 2 ^ 31 * 1000000) {L : List Ev → Nat → Prop} (hLD : ∀ l, L l (E.clock n0 + x))
    (hDs : Onward s0 sD) : Bound E L s0 sD (E.clock n0 + x) := by
  obtain ⟨l, hl⟩ := hDs
  exact fun d hd => limit_due hC hn hd hx hl (hLD l) hd

theorem withAlloc_going {L : List Ev → Nat → Prop} {α : Type} (f : (Nat → Bool) → M AState α) {s : Conn} (hs : Going L W s0 sD s) :
    (withAlloc E f s).All (Going L W s0 sD) := by
  unfold withAlloc
  split <;> first | exact hs.same rfl | trivial

theorem allocOr_going {L : List Ev → Nat → Prop} {s : Conn} (hs : Going L W s0 sD s) : (allocOr E s).All (Going L W s0 sD) := by
  unfold allocOr smallAlloc
  cases E.pe.alloc s.ps.allocs <;> exact hs.same rfl

variable {L : List Ev → Nat → Prop}

theorem header_going (hL : Lasting L) {D : Nat} (hd : Bound E L s0 sD D) {s : Conn} (hs : Going L W s0 sD s) :
    (sendHeaderInner E D s).All (Going L W s0 sD) := by
  have h1 : (trySend E D SF_NONE 8 E.fuel protocolHeaderBytes s).All (Going L W s0 sD) :=
    Res.All.and' (trySend_timed hL D SF_NONE 8 E.fuel protocolHeaderBytes hs.1 ((hd D (Nat.le_refl _)).mono hL hs.2))
      ((since_closed E sD).trySend D SF_NONE 8 E.fuel protocolHeaderBytes hs.2)
  unfold sendHeaderInner
  revert h1
  cases trySend E D SF_NONE 8 E.fuel protocolHeaderBytes s <;> exact id

theorem awaitStart_going (memcmp : Bytes → Bytes → Int) (sasl : Sasl) {D : Nat}
    (hw : ∀ {t : Conn}, Going L W s0 sD t → (waitMethodList E 0 [CONNECTION_START] D t).All (Going L W s0 sD)) {s : Conn} (hs : Going L W s0 sD s) :
    (awaitStart E memcmp sasl D s).All (Going L W s0 sD) := by
  unfold Rmq.awaitStart
  refine Res.All.bind (hw hs) fun a t ht => ?_
  obtain ⟨_, r⟩ := a
  dsimp only
  rcases r.get? .version_major with _ | ⟨major⟩ | _ | _ | _ | _ | _ | _ <;> try trivial
  rcases r.get? .version_minor with _ | ⟨minor⟩ | _ | _ | _ | _ | _ | _ <;> try trivial
  rcases r.get? .server_properties with _ | _ | _ | _ | _ | _ | ⟨sp⟩ | _ <;> try trivial
  rcases r.get? .mechanisms with _ | _ | _ | _ | _ | ⟨mech⟩ | _ | _ <;> try trivial
  · dsimp only
    by_cases hc : major ≠ 0 ∨ minor ≠ 9
    · rw [if_pos hc]; exact ht
    · rw [if_neg hc]
      refine Res.All.bind (withAlloc_going _ ht) fun tb u hu => ?_
      refine Res.All.bind (show Res.All (Going L W s0 sD) (.ok () { u with serverProps := tb.erase }) from hu.same rfl) fun _ v hv => ?_
      split
      · exact hv
      · exact hv

theorem sendStartOk_going (hC : ClockFine E) (hL : Lasting L) (b : Build) (memcmp : Bytes → Bytes → Int) (props : Option PTable) (sasl : Sasl) {D : Nat}
    (hd : Bound E L s0 sD D) {s : Conn} (hs : Going L W s0 sD s) : (sendStartOk E b memcmp props sasl D s).All (Going L W s0 sD) := by
  unfold Rmq.sendStartOk
  refine Res.All.bind ?_ fun _ t ht => ?_
  · obtain ⟨a, ps⟩ := Rmq.getPool E.pe s.ps 0
    cases a <;> exact hs.same rfl
  refine Res.All.bind ?_ fun resp u hu => ?_
  · unfold saslResponse
    cases sasl with
    | plain u p => exact Res.All.bind (allocOr_going ht) fun _ v hv => hv
    | external i =>
      dsimp only
      by_cases h0 : i.length = 0
      · rw [if_pos h0]; exact ht
      · rw [if_neg h0]; exact Res.All.bind (allocOr_going ht) fun _ v hv => hv
  refine Res.All.bind (withAlloc_going _ hu) fun tb v hv => ?_
  refine Res.All.bind (show Res.All (Going L W s0 sD) (.ok () { v with clientProps := tb.erase, clientBorn := v.time }) from hv.same rfl) fun _ w hw => ?_
  exact send_going hC hL _ _ _ hw (hd.mono hL hw.2)

theorem releaseBuffers_going {s : Conn} (hs : Going L W s0 sD s) : (releaseBuffers s).All (Going L W s0 sD) := by
  unfold releaseBuffers
  split
  · trivial
  · exact hs.releases _

theorem restart_going {s : Conn} (hs : Going L W s0 sD s) : (restartSend E s).All (Going L W s0 sD) ∧ (restartRecv E s).All (Going L W s0 sD) := by
  constructor
  · have h1 := restart_tick (E := E) (s := s) s.heartbeat s.nextSend
    unfold restartSend
    revert h1
    obtain ⟨st, t, s1⟩ := sFromNowIO E s.heartbeat s.nextSend s
    intro h1
    dsimp only at h1 ⊢
    split <;> exact (hs.tick h1).same rfl
  · have h1 := restart_tick (E := E) (s := s) (2 * s.heartbeat) s.nextRecv
    unfold restartRecv
    revert h1
    obtain ⟨st, t, s1⟩ := sFromNowIO E (2 * s.heartbeat) s.nextRecv s
    intro h1
    dsimp only at h1 ⊢
    split <;> exact (hs.tick h1).same rfl

theorem tune_going (cm fm hb : Int) (mem : Nat → UInt8) {s : Conn} (hs : Going L W s0 sD s) : (tune E cm fm hb mem s).All (Going L W s0 sD) := by
  unfold tune
  by_cases hm : s.ps.mode ≠ .idle
  · rw [if_pos hm]; trivial
  rw [if_neg hm]
  dsimp only
  have h1 := (restart_going (E := E) (hs.same (t := { s with channelMax := cm, frameMax := fm, ps := { s.ps with frameMax := (fm % 2 ^ 64).toNat }, heartbeat := if 0 > hb then 0 else hb }) rfl)).1
  revert h1
  generalize ({ s with channelMax := cm, frameMax := fm, ps := { s.ps with frameMax := (fm % 2 ^ 64).toNat }, heartbeat := if 0 > hb then 0 else hb } : Conn) = s1
  cases restartSend E s1 with
  | err e t => exact id
  | ub => exact id
  | fuel => exact id
  | ok a t =>
    intro h1
    dsimp only
    have h2 := (restart_going (E := E) h1).2
    revert h2
    cases restartRecv E t with
    | err e t => exact id
    | ub => exact id
    | fuel => exact id
    | ok a t =>
      intro h2
      dsimp only
      unfold smallAlloc
      dsimp only
      cases E.pe.alloc t.ps.allocs <;> exact h2.same rfl

/-- Login, from the point where the deadline is known. -/
theorem login_going (hC : ClockFine E) (hW : Droppable W) (hH : W heartbeatBytes)
    (hO : ∀ be m n args enc m', frameToBytes be m n ⟨0, .method CONNECTION_OPEN args⟩ = .ok enc m' → W enc)
    {v : TimeVal} (hv : Sensible (some v)) (b : Build) (memcmp : Bytes → Bytes → Int) (mem : Nat → UInt8) (a : LoginArgs) (s : Conn) :
    (loginInner E b memcmp mem a (some v) s).All fun s' => s' = s ∨ ∃ l, Since s s' (.clock (E.clock s.time) :: l) ∧
      Keeps (ByAbout (E.clock s.time + v.nanos)) W (.clock (E.clock s.time) :: l) := by
  unfold loginInner
  by_cases g1 : a.channelMax < 0 ∨ a.channelMax > 65535
  · rw [if_pos g1]; exact Or.inl rfl
  rw [if_neg g1]
  by_cases g2 : a.frameMax < 0
  · rw [if_pos g2]; exact Or.inl rfl
  rw [if_neg g2]
  by_cases g3 : a.heartbeat < 0 ∨ a.heartbeat > 65535
  · rw [if_pos g3]; exact Or.inl rfl
  rw [if_neg g3]
  have hx := hv.2.2
  have hP : (loginSteps E b memcmp mem a (some v) s).All
      (Going (ByAbout (E.clock s.time + v.nanos)) W s (s.push (.clock (E.clock s.time)))) := by
    have hL := byAbout_lasting (E.clock s.time + v.nanos)
    have hn : s.time ≤ (s.push (.clock (E.clock s.time))).time := by simp [Conn.time, Conn.push]
    have hDs : Onward s (s.push (.clock (E.clock s.time))) := .push s _
    have hd := deadline_bound (s0 := s) (L := ByAbout (E.clock s.time + v.nanos)) hC hn hx (fun _ => Or.inl rfl) hDs
    have hg0 : Going (ByAbout (E.clock s.time + v.nanos)) W s (s.push (.clock (E.clock s.time))) (s.push (.clock (E.clock s.time))) :=
      ⟨Timed.push ⟨[], by simp [Since], Keeps.nil _ _⟩ (fun _ _ _ h => nomatch h), .refl _⟩
    unfold loginSteps
    rw [M.bind_def, fromNowIO_limit hC hv]
    by_cases hz : E.clock s.time = 0
    · rw [if_pos hz]; exact hg0
    rw [if_neg hz]
    dsimp only
    refine Res.All.bind (header_going hL hd hg0) fun r t ht => ?_
    by_cases hr : r ≠ St.OK
    · rw [if_pos hr]; exact ht
    rw [if_neg hr]
    have hwm : ∀ (ex : List UInt32) {t : Conn}, Going (ByAbout (E.clock s.time + v.nanos)) W s (s.push (.clock (E.clock s.time))) t →
        (waitMethodList E 0 ex (E.clock s.time + v.nanos) t).All (Going (ByAbout (E.clock s.time + v.nanos)) W s (s.push (.clock (E.clock s.time)))) :=
      fun ex t ht => waitMethodList_going hC hW hH hn hz hx hDs 0 ex ht
    refine Res.All.bind (awaitStart_going memcmp a.sasl (fun h => hwm _ h) ht) fun _ t ht => ?_
    refine Res.All.bind (sendStartOk_going hC hL b memcmp a.clientProperties a.sasl hd ht) fun _ t ht => ?_
    refine Res.All.bind (releaseBuffers_going ht) fun _ t ht => ?_
    refine Res.All.bind (hwm _ ht) fun y t ht => ?_
    obtain ⟨i, r⟩ := y
    dsimp only
    by_cases hi : i = CONNECTION_CLOSE
    · rw [if_pos hi]; exact ht
    rw [if_neg hi]
    rcases r.get? .channel_max with _ | _ | ⟨c⟩ | _ | _ | _ | _ | _ <;> try trivial
    rcases r.get? .frame_max with _ | _ | _ | ⟨f⟩ | _ | _ | _ | _ <;> try trivial
    rcases r.get? .heartbeat with _ | _ | ⟨h⟩ | _ | _ | _ | _ | _ <;> try trivial
    · dsimp only
      refine Res.All.bind ?_ fun _ t ht => Res.All.bind (releaseBuffers_going ht) fun _ t ht => ?_
      · unfold tuneOk
        exact Res.All.bind (tune_going _ _ _ mem ht) fun _ t ht => send_going hC hL _ _ _ ht (hd.mono hL ht.2)
      · have h1 := rpcInner_going hC hL hW hH hd 0 CONNECTION_OPEN [CONNECTION_OPEN_OK]
          [(.virtual_host, .bytes a.vhost), (.capabilities, .bytes []), (.insist, .bool 1)] ht (fun be m n enc m' h => hO be m n _ enc m' h)
        unfold openVhost
        revert h1
        cases rpcInner E 0 CONNECTION_OPEN [CONNECTION_OPEN_OK] [(.virtual_host, .bytes a.vhost), (.capabilities, .bytes []), (.insist, .bool 1)]
            (E.clock s.time + v.nanos) t with
        | ub => exact id
        | fuel => exact id
        | err e u => exact id
        | ok r u =>
          intro h1
          cases r with
          | normal i r =>
            dsimp only
            unfold maybeRelease
            split
            · exact Going.releases _ h1
            · exact h1
          | serverException i r => exact h1
          | libraryException e => exact h1
  have fin : ∀ {s' : Conn}, Going (ByAbout (E.clock s.time + v.nanos)) W s (s.push (.clock (E.clock s.time))) s' →
      s' = s ∨ ∃ l, Since s s' (.clock (E.clock s.time) :: l) ∧ Keeps (ByAbout (E.clock s.time + v.nanos)) W (.clock (E.clock s.time) :: l) := by
    rintro s' ⟨⟨l, h1, h2⟩, l', h3⟩
    refine Or.inr ⟨l', ?_, ?_⟩
    · unfold Since at *; simp only [Conn.push] at h3; rw [h3]; simp
    · have : l = .clock (E.clock s.time) :: l' := by
        unfold Since at *; simp only [Conn.push] at h3; rw [h3, List.append_assoc] at h1
        exact (List.append_cancel_left h1).symm
      rw [← this]; exact h2
  revert hP
  cases loginSteps E b memcmp mem a (some v) s with
  | ub => exact id
  | fuel => exact id
  | ok r t => exact fin
  | err e t => exact fun h => fin h.close

end

end Rmq
