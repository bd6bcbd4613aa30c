import Verif.Spec.Naps
import Verif.Proofs.HeartbeatKept
/-!
# With heartbeats on no call sleeps for more than twice the interval
-/
namespace Rmq

theorem Naps.nil (H : Nat) : Naps H [] := fun a d ms r b h => by
  have := congrArg List.length h
  simp at this

theorem Naps.snoc {H : Nat} {l : List Ev} (h : Naps H l) {e : Ev}
    (he : ∀ d ms r, e = .poll d ms r → (0 ≤ ms ∧ ms ≤ H) ∨ OffersHeader l) : Naps H (l ++ [e]) := by
  intro a d ms r b hab
  rcases List.eq_nil_or_concat b with rfl | ⟨b', x, rfl⟩
  · have h1 := List.append_inj' hab rfl
    have h2 := h1.2
    injection h2 with h2
    rw [← h1.1]
    exact he d ms r h2
  · have hab' : l ++ [e] = (a ++ .poll d ms r :: b') ++ [x] := by rw [hab]; simp
    exact h a d ms r b' (List.append_inj' hab' rfl).1

section
variable {E : NetEnv} (hC : ClockFine E) (h : Nat) (s0 : Conn)

/-- A deadline no further away than twice the interval. -/
def Soon (E : NetEnv) (h : Nat) (n t : Nat) : Prop := t < TIME_INF ∧ ∀ k, n ≤ k → E.clock k = 0 ∨ t ≤ E.clock k + 2 * h * 1000000000

theorem Soon.mono {n m t : Nat} {h : Nat} (hs : Soon E h n t) (hm : n ≤ m) : Soon E h m t := ⟨hs.1, fun k hk => hs.2 k (by omega)⟩
theorem Soon.down {n t u : Nat} {h : Nat} (hs : Soon E h n t) (hm : u ≤ t) : Soon E h n u :=
  ⟨Nat.lt_of_le_of_lt hm hs.1, fun k hk => (hs.2 k hk).imp id fun h => Nat.le_trans hm h⟩

/-- Since `s0`, no call has slept for long. -/
structure Napped (s : Conn) : Prop where
  hb : s.heartbeat = h
  soon : Soon E h s.time s.nextRecv
  naps : ∃ l, Since s0 s l ∧ Naps (2000 * h) l

variable {h s0}

theorem Napped.same {s t : Conn} (hs : Napped (E := E) h s0 s) (h1 : t.heartbeat = s.heartbeat) (h2 : t.nextRecv = s.nextRecv) (h3 : t.log = s.log) :
    Napped (E := E) h s0 t := by
  refine ⟨h1.trans hs.hb, ?_, ?_⟩
  · have : t.time = s.time := by unfold Conn.time; rw [h3]
    rw [this, h2]; exact hs.soon
  · obtain ⟨l, hl, hn⟩ := hs.naps
    exact ⟨l, by unfold Since at *; rw [h3]; exact hl, hn⟩

theorem Napped.push {s : Conn} (hs : Napped (E := E) h s0 s) {e : Ev} (he : ∀ d ms r, e = .poll d ms r → 0 ≤ ms ∧ ms ≤ (2000 * h : Nat)) :
    Napped (E := E) h s0 (s.push e) := by
  refine ⟨hs.hb, hs.soon.mono (by simp [Conn.time, Conn.push]), ?_⟩
  obtain ⟨l, hl, hn⟩ := hs.naps
  exact ⟨l ++ [e], by unfold Since at *; simp only [Conn.push]; rw [hl, List.append_assoc], hn.snoc fun d ms r hp => Or.inl (he d ms r hp)⟩

theorem Napped.setRecv {s : Conn} (hs : Napped (E := E) h s0 s) {t : Nat} (ht : Soon E h s.time t) : Napped (E := E) h s0 { s with nextRecv := t } :=
  ⟨hs.hb, ht, hs.naps⟩

theorem Napped.tick {s t : Conn} (hs : Napped (E := E) h s0 s) (ht : Tick s t) : Napped (E := E) h s0 t := by
  rcases ht with rfl | ⟨now, rfl⟩
  · exact hs
  · exact hs.push (fun _ _ _ h => nomatch h)

theorem Napped.release {s : Conn} (hs : Napped (E := E) h s0 s) (ch : UInt16) : Napped (E := E) h s0 (maybeReleaseOn ch s) := by
  unfold maybeReleaseOn
  split
  · exact hs
  · split
    · exact hs
    · split
      · exact hs.push (fun _ _ _ h => nomatch h)
      · exact hs

theorem Napped.close {s : Conn} (hs : Napped (E := E) h s0 s) : Napped (E := E) h s0 (sockClose E s).2 := by
  unfold sockClose
  split
  · exact hs
  · split
    · exact (hs.same (t := { s with isOpen := false }) rfl rfl rfl).push (fun _ _ _ h => nomatch h)
    · exact hs.push (fun _ _ _ h => nomatch h)

theorem msUntil_soon {n t k : Nat} (hs : Soon E h n t) (hk : n ≤ k) (hh : h ≤ 65535) (hc : E.clock k ≠ 0) :
    0 ≤ msUntil (E.clock k) t ∧ msUntil (E.clock k) t ≤ (2000 * h : Nat) := by
  have hi : TIME_INF ≠ t := Nat.ne_of_gt hs.1
  have hl := (hs.2 k hk).resolve_left hc
  generalize E.clock k = now at *
  unfold msUntil
  rw [if_neg hi]
  by_cases h0 : 0 = t
  · rw [if_pos h0]; omega
  rw [if_neg h0, if_neg hc]
  by_cases hge : now ≥ t
  · rw [if_pos hge]; omega
  · rw [if_neg hge]
    unfold toInt32
    rw [Nat.mod_eq_of_lt (by omega), if_pos (by omega)]
    omega

theorem pollFd_naps (hh : h ≤ 65535) (d : Dir) (dl : Nat) : ∀ (n : Nat) {s : Conn}, Napped (E := E) h s0 s → Soon E h s.time dl →
    (pollFd E d dl n s).All fun t => Napped (E := E) h s0 t ∧ s.time ≤ t.time := by
  intro n
  induction n with
  | zero => intro s _ _; trivial
  | succ n ih =>
    intro s hs hd
    unfold pollFd
    have key : Napped (E := E) h s0 (msUntilIO E dl s).2 ∧ s.time ≤ (msUntilIO E dl s).2.time ∧
        (¬ -1 > (msUntilIO E dl s).1 → 0 ≤ (msUntilIO E dl s).1 ∧ (msUntilIO E dl s).1 ≤ (2000 * h : Nat)) := by
      unfold msUntilIO
      by_cases h0 : TIME_INF = dl ∨ 0 = dl
      · rw [if_pos h0]
        refine ⟨hs, Nat.le_refl _, fun _ => ?_⟩
        rcases h0 with h0 | h0
        · exact absurd h0 (Nat.ne_of_gt hd.1)
        · subst h0
          show 0 ≤ msUntil 0 0 ∧ msUntil 0 0 ≤ _
          have : msUntil 0 0 = 0 := by decide
          rw [this]; omega
      · rw [if_neg h0]
        refine ⟨hs.push (fun _ _ _ h => nomatch h), by simp [readClock, Conn.time, Conn.push], fun hm => ?_⟩
        by_cases hc : E.clock s.time = 0
        · exfalso
          apply hm
          show -1 > msUntil (E.clock s.time) dl
          unfold msUntil
          rw [if_neg (fun h => h0 (Or.inl h)), if_neg (fun h => h0 (Or.inr h)), if_pos hc]
          decide
        · exact msUntil_soon hd (Nat.le_refl _) hh hc
    revert key
    obtain ⟨ms, t⟩ := msUntilIO E dl s
    rintro ⟨k1, k2, k3⟩
    dsimp only at k1 k2 k3 ⊢
    by_cases hm : -1 > ms
    · rw [if_pos hm]; exact ⟨k1, k2⟩
    rw [if_neg hm]
    have hp : ∀ r, Napped (E := E) h s0 (t.push (.poll d ms r)) ∧ s.time ≤ (t.push (.poll d ms r)).time := by
      intro r
      refine ⟨k1.push fun d' ms' r' he => ?_, by simp only [Conn.time, Conn.push, List.length_append] at *; omega⟩
      cases he
      exact k3 hm
    cases E.poll t.time with
    | ready => exact hp .ready
    | timeout => exact hp .timeout
    | error => exact hp .error
    | intr =>
      dsimp only
      have h1 := ih (hp .intr).1 (hd.mono (hp .intr).2)
      have h2 := (hp .intr).2
      revert h1
      cases pollFd E d dl n (t.push (.poll d ms .intr)) with
      | ok a u => exact fun h1 => ⟨h1.1, Nat.le_trans h2 h1.2⟩
      | err e u => exact fun h1 => ⟨h1.1, Nat.le_trans h2 h1.2⟩
      | ub => exact id
      | fuel => exact id

include hC in
theorem soon_now (hh : h ≤ 65535) (n : Nat) : Soon E h (n + 1) (E.clock n + 2 * h * 1000000000) := by
  have hc63 := hC.2 n
  refine ⟨by unfold TIME_INF; omega, fun k hk => ?_⟩
  rcases hC.1 n k (by omega) with h1 | h1
  · exact Or.inl h1
  · exact Or.inr (Nat.add_le_add_right h1 _)

include hC in
theorem restartRecv_naps (hp : 0 < h) (hh : h ≤ 65535) {s : Conn} (hs : Napped (E := E) h s0 s) : (restartRecv E s).All (Napped (E := E) h s0) := by
  unfold restartRecv
  rw [sFromNowIO_on E (by rw [hs.hb]; omega) (by rw [hs.hb]; omega) _ _ (hC.2 _)]
  have hn : (2 * s.heartbeat).toNat = 2 * h := by rw [hs.hb]; omega
  rw [hn]
  have hsoon := soon_now hC hh s.time
  generalize E.clock s.time = now at *
  have hpu := hs.push (e := .clock now) (fun _ _ _ h => nomatch h)
  by_cases hz : now = 0
  · rw [if_pos hz]
    dsimp only
    rw [if_neg (by decide)]
    exact hpu.same rfl rfl rfl
  · rw [if_neg hz]
    dsimp only
    rw [if_pos rfl]
    have ht : (s.push (.clock now)).time = s.time + 1 := by simp [Conn.time, Conn.push]
    rw [← ht] at hsoon
    exact hpu.setRecv hsoon

include hC in
theorem recvWithTimeout_naps (hp : 0 < h) (hh : h ≤ 65535) (dl : Nat) : ∀ (n : Nat) {s : Conn}, Napped (E := E) h s0 s → Soon E h s.time dl →
    (recvWithTimeout E dl n s).All (Napped (E := E) h s0) := by
  intro n
  induction n with
  | zero => intro s _ _; trivial
  | succ n ih =>
    intro s hs hd
    unfold recvWithTimeout
    by_cases ho : s.isOpen = false
    · rw [if_pos ho]; exact hs
    rw [if_neg ho]
    cases hr : E.recv s.time s.received with
    | data b =>
      exact restartRecv_naps hC hp hh ((hs.same (t := { s with inb := b.take SOCK_BUF }) rfl rfl rfl).push (fun _ _ _ h => nomatch h))
    | fail k =>
      dsimp only
      have h0 : Napped (E := E) h s0 (s.push (.recvFail (-(k + 1 : Nat)))) := hs.push (fun _ _ _ h => nomatch h)
      have h0t : s.time ≤ (s.push (.recvFail (-(k + 1 : Nat)))).time := by simp [Conn.time, Conn.push]
      have key : ∀ d : Dir, (match pollFd E d dl E.fuel (s.push (.recvFail (-(k + 1 : Nat)))) with
            | .ok () s => recvWithTimeout E dl n s
            | .err e s => .err e s
            | .ub => .ub
            | .fuel => .fuel : Res Conn Unit).All (Napped (E := E) h s0) := by
        intro d
        have h1 := pollFd_naps hh d dl E.fuel h0 (hd.mono h0t)
        revert h1
        cases pollFd E d dl E.fuel (s.push (.recvFail (-(k + 1 : Nat)))) with
        | ok a t => exact fun h1 => ih h1.1 (hd.mono (Nat.le_trans h0t h1.2))
        | err e t => exact fun h1 => h1.1
        | ub => exact id
        | fuel => exact id
      by_cases h1 : (-(k + 1 : Nat) : Int) = St.PRIVATE_NEED_READ
      · rw [if_pos h1]; exact key .read
      rw [if_neg h1]
      by_cases h2 : (-(k + 1 : Nat) : Int) = St.PRIVATE_NEED_WRITE
      · rw [if_pos h2]; exact key .write
      rw [if_neg h2]
      exact h0

theorem consumeOne_naps {s : Conn} (hs : Napped (E := E) h s0 s) : (consumeOne E s).All (Napped (E := E) h s0) := by
  unfold consumeOne
  cases handleInput E.pe s.ps s.inb with
  | ok r p => exact (hs.same (t := { s with ps := p, inb := s.inb.drop r.1 }) rfl rfl rfl).push (fun _ _ _ h => nomatch h)
  | err e p => exact hs.same rfl rfl rfl
  | ub => trivial
  | fuel => trivial

theorem queueFrame_naps {s : Conn} (f : DFrame) (hs : Napped (E := E) h s0 s) : (queueFrame E f s).All (Napped (E := E) h s0) := by
  unfold queueFrame
  obtain ⟨a, p, hp⟩ := createLink_eff E f.frame.channel s
  revert hp
  obtain ⟨b, s1⟩ := createLink E f.frame.channel s
  intro hp
  dsimp only at hp
  subst hp
  cases b <;> exact hs.same rfl rfl rfl

theorem drainToQueue_naps : ∀ (n : Nat) {s : Conn}, Napped (E := E) h s0 s → (drainToQueue E n s).All (Napped (E := E) h s0) := by
  intro n
  induction n with
  | zero => intro s _; trivial
  | succ n ih =>
    intro s hs
    unfold drainToQueue
    by_cases hi : s.inb = []
    · rw [if_pos hi]; exact hs
    rw [if_neg hi]
    have h1 := consumeOne_naps hs
    revert h1
    cases consumeOne E s with
    | err e t => exact id
    | ub => exact id
    | fuel => exact id
    | ok f t =>
      intro ht
      cases f with
      | none => exact ih ht
      | some f =>
        dsimp only
        have h2 := queueFrame_naps f ht
        revert h2
        cases queueFrame E f t with
        | ok a u => exact fun h2 => ih h2
        | err e u => exact id
        | ub => exact id
        | fuel => exact id

include hC in
theorem tryRecv_naps (hp : 0 < h) (hh : h ≤ 65535) {s : Conn} (hs : Napped (E := E) h s0 s) : (tryRecv E s).All (Napped (E := E) h s0) := by
  unfold tryRecv
  rw [M.bind_def]
  have h1 := drainToQueue_naps E.fuel hs
  revert h1
  cases drainToQueue E E.fuel s with
  | err e t => exact id
  | ub => exact id
  | fuel => exact id
  | ok a t =>
    intro h1
    dsimp only
    rw [M.bind_def]
    have h2 : (fromNowIO E (some ⟨0, 0⟩) t).All (Napped (E := E) h s0) := by
      have := fromNowIO_tick E (some ⟨0, 0⟩) t
      revert this
      cases fromNowIO E (some ⟨0, 0⟩) t with
      | ok d u => exact h1.tick
      | err d u => exact h1.tick
      | ub => exact id
      | fuel => exact id
    have h3 : ∀ d u, fromNowIO E (some ⟨0, 0⟩) t = .ok d u → Soon E h u.time d := by
      intro d u hd
      unfold fromNowIO at hd
      dsimp only at hd
      rw [if_neg (by decide)] at hd
      unfold timeFromNow at hd
      dsimp only at hd
      rw [if_neg (by decide)] at hd
      have hc63 := hC.2 t.time
      by_cases hz : E.clock t.time = 0
      · rw [if_pos hz] at hd; cases hd
      rw [if_neg hz] at hd
      have hmono := fun k hk => hC.1 t.time k hk
      generalize E.clock t.time = now at *
      have hdv : d = now ∧ t.time ≤ u.time := by
        split at hd
        · cases hd
          rename_i v hv
          split at hv
          · cases hv
          · cases hv
            refine ⟨?_, by simp [readClock, Conn.time, Conn.push]⟩
            show (now + _) % 2 ^ 64 = now
            simp only [Int.toNat_zero, Nat.zero_mul, Nat.zero_mod, Nat.add_zero]
            exact Nat.mod_eq_of_lt (by omega)
        · cases hd
      refine ⟨by rw [hdv.1]; unfold TIME_INF; omega, fun k hk => ?_⟩
      rw [hdv.1]
      rcases hmono k (by omega) with h4 | h4
      · exact Or.inl h4
      · right; omega
    revert h2 h3
    cases fromNowIO E (some ⟨0, 0⟩) t with
    | err e t => exact fun h2 _ => h2
    | ub => exact fun h2 _ => h2
    | fuel => exact fun h2 _ => h2
    | ok d u => exact fun h2 h3 => recvWithTimeout_naps hC hp hh d _ h2 (h3 d u rfl)

theorem doPoll_naps (hh : h ≤ 65535) (res : Int) (dl : Nat) {s : Conn} (hs : Napped (E := E) h s0 s) (hd : Soon E h s.time dl) :
    (doPoll E res dl s).All fun t => Napped (E := E) h s0 t ∧ s.time ≤ t.time := by
  unfold doPoll
  split
  · exact ⟨hs, Nat.le_refl _⟩
  · split
    · exact pollFd_naps hh _ _ _ hs hd
    · split
      · exact pollFd_naps hh _ _ _ hs hd
      · split
        · exact ⟨hs, Nat.le_refl _⟩
        · exact ⟨hs, Nat.le_refl _⟩

theorem sockSend_naps {s : Conn} (b : Bytes) (flags : Nat) (hs : Napped (E := E) h s0 s) :
    Napped (E := E) h s0 (sockSend E b flags s).2 ∧ s.time ≤ (sockSend E b flags s).2.time := by
  unfold sockSend
  split
  · cases E.send s.time b <;> exact ⟨hs.push (fun _ _ _ h => nomatch h), by simp [Conn.time, Conn.push]⟩
  · exact ⟨hs, Nat.le_refl _⟩

theorem trySend_naps (hh : h ≤ 65535) (dl flags len : Nat) : ∀ (n : Nat) (left : Bytes) {s : Conn}, Napped (E := E) h s0 s → Soon E h s.time dl →
    (trySend E dl flags len n left s).All (Napped (E := E) h s0) := by
  intro n
  induction n with
  | zero => intro left s _ _; trivial
  | succ n ih =>
    intro left s hs hd
    unfold trySend
    have h1 := sockSend_naps (E := E) left flags hs
    revert h1
    obtain ⟨res, s1⟩ := sockSend E left flags s
    rintro ⟨h1, ht1⟩
    dsimp only at h1 ht1 ⊢
    by_cases hres : res > 0
    · rw [if_pos hres]
      by_cases hd2 : (left.drop res.toNat).length = 0
      · rw [if_pos hd2]; exact h1
      · rw [if_neg hd2]; exact ih _ h1 (hd.mono ht1)
    · rw [if_neg hres]
      have h2 := doPoll_naps hh res dl h1 (hd.mono ht1)
      revert h2
      cases doPoll E res dl s1 with
      | ok a t => exact fun h2 => ih _ h2.1 (hd.mono (Nat.le_trans ht1 h2.2))
      | err e t =>
        intro h2
        dsimp only
        by_cases he : e = St.TIMEOUT
        · rw [if_pos he]; exact h2.1
        · rw [if_neg he]; exact h2.1
      | ub => exact id
      | fuel => exact id

theorem restartSend_naps {s : Conn} (hs : Napped (E := E) h s0 s) : (restartSend E s).All (Napped (E := E) h s0) := by
  have h1 : Tick s (sFromNowIO E s.heartbeat s.nextSend s).2.2 := by
    unfold sFromNowIO
    split
    · exact Or.inl rfl
    · dsimp only
      split
      · exact Or.inr ⟨_, rfl⟩
      · split <;> exact Or.inr ⟨_, rfl⟩
  unfold restartSend
  revert h1
  obtain ⟨st, t, s1⟩ := sFromNowIO E s.heartbeat s.nextSend s
  intro h1
  dsimp only at h1 ⊢
  have h2 := hs.tick h1
  split <;> exact h2.same rfl rfl rfl

include hC in
theorem sendFrame_naps (hp : 0 < h) (hh : h ≤ 65535) (f : AFrame) (flags deadline : Nat) {s : Conn} (hs : Napped (E := E) h s0 s) :
    (sendFrame E f flags deadline s).All (Napped (E := E) h s0) := by
  have loop : ∀ (n : Nat) (enc : Bytes) {s : Conn}, Napped (E := E) h s0 s → (sendLoop E flags deadline n enc s).All (Napped (E := E) h s0) := by
    intro n
    induction n with
    | zero => intro enc s _; trivial
    | succ n ih =>
      intro enc s hs
      unfold sendLoop
      dsimp only
      have h1 := trySend_naps hh (timeFirst deadline s.nextRecv) flags enc.length E.fuel enc hs (hs.soon.down (by rw [timeFirst_min]; omega))
      revert h1
      cases trySend E (timeFirst deadline s.nextRecv) flags enc.length E.fuel enc s with
      | err e t => exact id
      | ub => exact id
      | fuel => exact id
      | ok m t =>
        intro h1
        dsimp only
        by_cases hm : enc.length ≠ m
        · rw [if_pos hm]
          by_cases ht : timeEqual (timeFirst deadline s.nextRecv) deadline = true
          · rw [if_pos ht]; exact h1
          rw [if_neg ht]
          have h2 := tryRecv_naps hC hp hh h1
          revert h2
          cases tryRecv E t with
          | ok a u => exact fun h2 => ih _ h2
          | err e u =>
            intro h2
            dsimp only
            by_cases he : e = St.TIMEOUT
            · rw [if_pos he]; exact h2
            · rw [if_neg he]; exact h2
          | ub => exact id
          | fuel => exact id
        · rw [if_neg hm]; exact restartSend_naps h1
  unfold sendFrame
  cases frameToBytes E.pe.be s.outMem s.outLen f with
  | ok enc mem => exact loop _ enc (hs.same rfl rfl rfl)
  | err e mem => exact hs.same rfl rfl rfl
  | ub => trivial
  | fuel => trivial

include hC in
theorem beginRecv_naps (hp : 0 < h) (hh : h ≤ 65535) (d : Nat) {s : Conn} (hs : Napped (E := E) h s0 s) :
    (beginRecv E d s).All (Napped (E := E) h s0) := by
  unfold beginRecv
  have h1 := hs.tick (hasPastIO_tick E s.nextSend s)
  revert h1
  obtain ⟨res, s1⟩ := hasPastIO E s.nextSend s
  intro h1
  dsimp only at h1 ⊢
  by_cases hr : res = St.TIMER_FAILURE
  · rw [if_pos hr]; exact h1
  rw [if_neg hr]
  have h2 : (if res = St.TIMEOUT then sendFrame E ⟨0, .heartbeat⟩ SF_NONE TIME_INF s1 else .ok () s1 : Res Conn Unit).All (Napped (E := E) h s0) := by
    by_cases hr : res = St.TIMEOUT
    · rw [if_pos hr]; exact sendFrame_naps hC hp hh _ _ _ h1
    · rw [if_neg hr]; exact h1
  revert h2
  cases (if res = St.TIMEOUT then sendFrame E ⟨0, .heartbeat⟩ SF_NONE TIME_INF s1 else .ok () s1 : Res Conn Unit) with
  | err e t => exact id
  | ub => exact id
  | fuel => exact id
  | ok a t =>
    intro h2
    dsimp only
    have h3 := recvWithTimeout_naps hC hp hh (timeFirst d (timeFirst t.nextRecv t.nextSend)) E.fuel h2
      (h2.soon.down (by rw [timeFirst_min, timeFirst_min]; omega))
    revert h3
    cases recvWithTimeout E (timeFirst d (timeFirst t.nextRecv t.nextSend)) E.fuel t with
    | ok b u => exact id
    | ub => exact id
    | fuel => exact id
    | err e u =>
      intro h3
      dsimp only
      by_cases he : e = St.TIMEOUT
      · rw [if_pos he]
        by_cases c1 : timeEqual (timeFirst d (timeFirst t.nextRecv t.nextSend)) u.nextRecv = true
        · rw [if_pos c1]; exact h3.close
        rw [if_neg c1]
        by_cases c2 : timeEqual (timeFirst d (timeFirst t.nextRecv t.nextSend)) d = true
        · rw [if_pos c2]; exact h3
        rw [if_neg c2]
        by_cases c3 : timeEqual (timeFirst d (timeFirst t.nextRecv t.nextSend)) u.nextSend = true
        · rw [if_pos c3]; exact h3
        rw [if_neg c3]; trivial
      · rw [if_neg he]; exact h3

include hC in
theorem waitInner_naps (hp : 0 < h) (hh : h ≤ 65535) (d : Nat) : ∀ (n : Nat) (b : Bool) {s : Conn}, Napped (E := E) h s0 s →
    (waitInner E d n b s).AllF (Napped (E := E) h s0) (fun _ _ => True) := by
  intro n
  induction n with
  | zero => intro b s _; trivial
  | succ n ih =>
    intro b s hs
    unfold waitInner
    by_cases hb : b = false ∧ s.inb ≠ []
    · rw [if_pos hb]
      have h1 := consumeOne_naps hs
      revert h1
      cases consumeOne E s with
      | err e t => exact id
      | ub => exact id
      | fuel => exact id
      | ok f t =>
        intro ht
        cases f with
        | none => exact ih false ht
        | some f =>
          dsimp only
          cases hp : f.frame.payload <;> dsimp only
          case heartbeat => exact ih false (Napped.release ht 0)
          all_goals exact ⟨ht, trivial⟩
    · rw [if_neg hb]
      have h1 := beginRecv_naps hC hp hh d hs
      revert h1
      cases beginRecv E d s with
      | ok a t => exact fun h1 => ih a h1
      | err e t => exact id
      | ub => exact id
      | fuel => exact id

/-! ### The protocol header -/

/-- The header is being sent. -/
def Greeting (s0 s : Conn) : Prop := ∃ l, Since s0 s l ∧ OffersHeader l

theorem OffersHeader.snoc {l : List Ev} (hl : OffersHeader l) {e : Ev} (he : e.quiet = true) : OffersHeader (l ++ [e]) := by
  obtain ⟨a, b, fl, res, c, rfl, h1, h2, h3⟩ := hl
  refine ⟨a, b, fl, res, c ++ [e], by simp, h1, h2, fun x hx b' f' r' hxe => ?_⟩
  rcases List.mem_append.1 hx with hx | hx
  · exact h3 x hx b' f' r' hxe
  · rw [List.mem_singleton.1 hx] at hxe; rw [hxe] at he; cases he

theorem Napped.greet {s : Conn} (hs : Napped (E := E) h s0 s) (hg : Greeting s0 s) {e : Ev} (he : e.quiet = true) :
    Napped (E := E) h s0 (s.push e) ∧ Greeting s0 (s.push e) := by
  obtain ⟨l, hl, hn⟩ := hs.naps
  obtain ⟨l', hl', ho⟩ := hg
  have : l' = l := by unfold Since at hl hl'; rw [hl] at hl'; exact (List.append_cancel_left hl').symm
  subst this
  have hS : Since s0 (s.push e) (l' ++ [e]) := by unfold Since at *; simp only [Conn.push]; rw [hl, List.append_assoc]
  exact ⟨⟨hs.hb, hs.soon.mono (by simp [Conn.time, Conn.push]), l' ++ [e], hS, hn.snoc fun _ _ _ _ => Or.inr ho⟩, l' ++ [e], hS, ho.snoc he⟩

theorem greet_ext : ∀ (l : List Ev) {s : Conn}, Quiet l → Napped (E := E) h s0 s → Greeting s0 s → Napped (E := E) h s0 (s.ext l) ∧ Greeting s0 (s.ext l)
  | [], s, _, h1, h2 => by simpa using ⟨h1, h2⟩
  | e :: l, s, hl, h1, h2 => by
    have : s.ext (e :: l) = (s.push e).ext l := by simp [Conn.ext, Conn.push]
    rw [this]
    obtain ⟨a, b⟩ := h1.greet h2 (hl e (by simp))
    exact greet_ext l (fun x hx => hl x (by simp [hx])) a b

theorem header_naps (dl len : Nat) : ∀ (n : Nat) (left : Bytes) {s : Conn}, left ≠ [] → left <:+ protocolHeaderBytes → Napped (E := E) h s0 s →
    (trySend E dl SF_NONE len n left s).All (Napped (E := E) h s0) := by
  intro n
  induction n with
  | zero => intro left s _ _ _; trivial
  | succ n ih =>
    intro left s hne hsu hs
    unfold trySend
    have h1 := (sockSend_naps (E := E) left SF_NONE hs).1
    have h2 : s.isOpen = false ∧ sockSend E left SF_NONE s = (St.SOCKET_CLOSED, s) ∨ Greeting s0 (sockSend E left SF_NONE s).2 := by
      unfold sockSend
      cases ho : s.isOpen with
      | false => left; rw [if_neg (by simp)]; exact ⟨rfl, rfl⟩
      | true =>
        right
        rw [if_pos rfl]
        obtain ⟨l, hl, hn⟩ := hs.naps
        cases E.send s.time left with
        | sent m =>
          refine ⟨l ++ [.send left SF_NONE (min m left.length : Nat)], ?_, l, left, SF_NONE, _, [], rfl, hne, hsu, fun _ h => nomatch h⟩
          unfold Since at *; simp only [Conn.push]; rw [hl, List.append_assoc]
        | fail m =>
          refine ⟨l ++ [.send left SF_NONE (-(m + 1 : Nat))], ?_, l, left, SF_NONE, _, [], rfl, hne, hsu, fun _ h => nomatch h⟩
          unfold Since at *; simp only [Conn.push]; rw [hl, List.append_assoc]
    revert h1 h2
    obtain ⟨res, s1⟩ := sockSend E left SF_NONE s
    intro h1 h2
    dsimp only at h1 h2 ⊢
    rcases h2 with ⟨h3, h2⟩ | hg
    · cases h2
      rw [if_neg (by decide)]
      unfold doPoll
      rw [if_pos h3]
      dsimp only
      rw [if_neg (by decide)]
      exact hs
    by_cases hres : res > 0
    · rw [if_pos hres]
      by_cases hd2 : (left.drop res.toNat).length = 0
      · rw [if_pos hd2]; exact h1
      · rw [if_neg hd2]
        exact ih _ (fun h => hd2 (by rw [h]; rfl)) ((List.drop_suffix _ _).trans hsu) h1
    · rw [if_neg hres]
      have h2 := doPoll_quiet E res dl s1
      revert h2
      cases doPoll E res dl s1 with
      | ok a t =>
        rintro ⟨l, rfl, hq⟩
        exact ih _ hne hsu (greet_ext l hq h1 hg).1
      | err e t =>
        rintro ⟨l, rfl, hq⟩
        dsimp only
        by_cases he : e = St.TIMEOUT
        · rw [if_pos he]; exact (greet_ext l hq h1 hg).1
        · rw [if_neg he]; exact (greet_ext l hq h1 hg).1
      | ub => exact id
      | fuel => exact id

/-! ### Every call -/

include hC in
theorem naps_upper (hp : 0 < h) (hh : h ≤ 65535) : Upper E (Napped (E := E) h s0) (fun _ _ => True) where
  tick := Napped.tick
  wait := fun d _ hs => waitInner_naps hC hp hh d _ _ hs
  sendFrame := fun f fl d _ _ hs => sendFrame_naps hC hp hh f fl d hs
  header := fun d n _ hs => header_naps d 8 n _ (by decide) (List.suffix_refl _) hs
  queue := fun {s f} _ hs => queueFrame_naps f hs
  putBack := fun {s f} _ hs => by
    unfold putBackFrame
    obtain ⟨a, p, hp⟩ := createLink_eff E f.frame.channel s
    revert hp
    obtain ⟨b, s1⟩ := createLink E f.frame.channel s
    intro hp
    dsimp only at hp
    subst hp
    cases b <;> exact hs.same rfl rfl rfl
  pop := fun hs _ => ⟨hs.same rfl rfl rfl, trivial⟩
  close := Napped.close
  release := fun ch hs => hs.release ch

include hC in
theorem naps_api (hp : 0 < h) (hh : h ≤ 65535) : ApiClosed E (Napped (E := E) h s0) (fun _ _ => True) where
  toUpper := naps_upper hC hp hh
  allocs := fun _ _ hs => hs.same rfl rfl rfl
  publishCheck := publishCheck_closed (naps_upper hC hp hh) fun hs => tryRecv_naps hC hp hh hs

end

/-! ### From the first call on -/

theorem OnWatch.soon {E : NetEnv} {h : Nat} {s : Conn} (hs : OnWatch E h s) : Soon E h s.time s.nextRecv := hs.2

/-- Either heartbeats are off, or the server is being watched, or the clock has failed. -/
def Vigil (E : NetEnv) (s : Conn) : Prop :=
  s.heartbeat ≤ 65535 ∧ (s.heartbeat ≤ 0 ∨ OnWatch E s.heartbeat.toNat s ∨ Ev.clock 0 ∈ s.log)

theorem Vigil.mono {E : NetEnv} {s t : Conn} (hs : Vigil E s) (h1 : t.heartbeat = s.heartbeat) (h2 : t.nextRecv = s.nextRecv) {l : List Ev} (h3 : Since s t l) : Vigil E t := by
  have ht := since_time_le h3
  refine ⟨by rw [h1]; exact hs.1, ?_⟩
  rcases hs.2 with h | h | h
  · exact Or.inl (by rw [h1]; exact h)
  · refine Or.inr (Or.inl ⟨by rw [h1]; exact h.1, ?_⟩)
    rw [h1, h2]
    exact h.soon.mono ht
  · refine Or.inr (Or.inr ?_)
    unfold Since at h3
    rw [h3]
    exact List.mem_append_left _ h

theorem Vigil.push {E : NetEnv} {s : Conn} (hs : Vigil E s) (e : Ev) : Vigil E (s.push e) := hs.mono (l := [e]) rfl rfl rfl

theorem vigil_restartRecv {E : NetEnv} (hC : ClockFine E) {s : Conn} (hb : s.heartbeat ≤ 65535) : (restartRecv E s).All (Vigil E) := by
  unfold restartRecv
  by_cases h : s.heartbeat ≤ 0
  · rw [sFromNowIO_off E (by omega)]
    dsimp only
    rw [if_pos rfl]
    exact ⟨hb, Or.inl h⟩
  · rw [sFromNowIO_on E (by omega) (by omega) _ _ (hC.2 _)]
    have hn : (2 * s.heartbeat).toNat = 2 * s.heartbeat.toNat := by omega
    rw [hn]
    have hsoon := soon_now hC (h := s.heartbeat.toNat) (by omega) s.time
    generalize E.clock s.time = now at *
    have ht : (s.push (.clock now)).time = s.time + 1 := by simp [Conn.time, Conn.push]
    rw [← ht] at hsoon
    by_cases hz : now = 0
    · rw [if_pos hz]
      dsimp only
      rw [if_neg (by decide)]
      refine ⟨hb, Or.inr (Or.inr ?_)⟩
      show Ev.clock 0 ∈ s.log ++ [Ev.clock now]
      rw [hz]; simp
    · rw [if_neg hz]
      dsimp only
      rw [if_pos rfl]
      have fin : ∀ {w : Conn} {t : Nat}, w.heartbeat = s.heartbeat → Soon E s.heartbeat.toNat w.time t → Vigil E { w with nextRecv := t } := by
        intro w t h1 h2
        refine ⟨by show w.heartbeat ≤ _; rw [h1]; exact hb, Or.inr (Or.inl ⟨?_, ?_⟩)⟩
        · show w.heartbeat = (w.heartbeat.toNat : Int); omega
        · show Soon E w.heartbeat.toNat w.time t; rw [h1]; exact h2
      exact fin rfl hsoon

theorem vigil_restartSend {E : NetEnv} {s : Conn} (hs : Vigil E s) : (restartSend E s).All (Vigil E) := by
  have := restartSend_eff E s
  revert this
  cases restartSend E s with
  | ub => exact id
  | fuel => exact id
  | ok x t => rintro ⟨a, l, rfl, _⟩; exact hs.mono (l := l) rfl rfl rfl
  | err x t => rintro ⟨a, l, rfl, _⟩; exact hs.mono (l := l) rfl rfl rfl

theorem vigil_closed {E : NetEnv} (hC : ClockFine E) : Closed E (Vigil E) (fun _ _ => True) := by
  refine ⟨⟨⟨fun _ h => h.push _, fun {s} b _ h => vigil_restartRecv hC h.1⟩, fun {s s' f} h hc => ?_, fun {s s' e} h hc => ?_, fun {s f} _ h => ?_⟩,
    fun {s} b fl h => ?_, fun {s} h => vigil_restartSend h, fun _ h => h.mono (l := []) rfl rfl (by simp [Since]), fun {s f} _ h => ?_,
    fun h _ => ⟨h.mono (l := []) rfl rfl (by simp [Since]), trivial⟩, fun {s} h => ?_, fun {s} ch h => ?_⟩
  · refine ⟨?_, fun _ _ => trivial⟩
    unfold consumeOne at hc
    cases h1 : handleInput E.pe s.ps s.inb with
    | ok r p => rw [h1] at hc; cases hc; exact h.mono (l := [_]) rfl rfl rfl
    | err e p => rw [h1] at hc; cases hc
    | ub => rw [h1] at hc; cases hc
    | fuel => rw [h1] at hc; cases hc
  · unfold consumeOne at hc
    cases h1 : handleInput E.pe s.ps s.inb with
    | ok r p => rw [h1] at hc; cases hc
    | err e p => rw [h1] at hc; cases hc; exact h.mono (l := []) rfl rfl (by simp [Since])
    | ub => rw [h1] at hc; cases hc
    | fuel => rw [h1] at hc; cases hc
  · unfold queueFrame
    obtain ⟨a, p, hp⟩ := createLink_eff E f.frame.channel s
    revert hp
    obtain ⟨b, s1⟩ := createLink E f.frame.channel s
    intro hp
    dsimp only at hp
    subst hp
    cases b <;> exact h.mono (l := []) rfl rfl (by simp [Since])
  · unfold sockSend
    split
    · cases E.send s.time b <;> exact h.push _
    · exact h
  · unfold putBackFrame
    obtain ⟨a, p, hp⟩ := createLink_eff E f.frame.channel s
    revert hp
    obtain ⟨b, s1⟩ := createLink E f.frame.channel s
    intro hp
    dsimp only at hp
    subst hp
    cases b <;> exact h.mono (l := []) rfl rfl (by simp [Since])
  · unfold sockClose
    split
    · exact h
    · split
      · exact h.mono (l := [_]) rfl rfl rfl
      · exact h.push _
  · obtain ⟨l, h1, _⟩ := maybeReleaseOn_ext ch s
    rw [h1]
    exact h.mono (l := l) rfl rfl (since_ext s l)

theorem vigil_tune {E : NetEnv} (hC : ClockFine E) {s : Conn} (cm fm hb : Int) (mem : Nat → UInt8) (hh : hb ≤ 65535) :
    (tune E cm fm hb mem s).All (Vigil E) := by
  unfold tune
  by_cases hm : s.ps.mode ≠ .idle
  · rw [if_pos hm]; trivial
  rw [if_neg hm]
  dsimp only
  generalize hu : ({ s with channelMax := cm, frameMax := fm, ps := { s.ps with frameMax := (fm % 2 ^ 64).toNat }, heartbeat := if 0 > hb then 0 else hb } : Conn) = u
  have hhu : u.heartbeat ≤ 65535 := by rw [← hu]; dsimp only; split <;> omega
  have r1 : match restartSend E u with
      | .ok _ t => t.heartbeat = u.heartbeat
      | .err _ t => Vigil E t
      | _ => True := by
    unfold restartSend
    by_cases h : u.heartbeat ≤ 0
    · rw [sFromNowIO_off E (by omega)]
      dsimp only
      rw [if_pos rfl]
    · rw [sFromNowIO_on E (by omega) (by omega) _ _ (hC.2 _)]
      generalize E.clock u.time = now at *
      by_cases hz : now = 0
      · rw [if_pos hz]
        dsimp only
        rw [if_neg (by decide)]
        refine ⟨hhu, Or.inr (Or.inr ?_)⟩
        show Ev.clock 0 ∈ u.log ++ [Ev.clock now]
        rw [hz]; simp
      · rw [if_neg hz]
        generalize now + u.heartbeat.toNat * 1000000000 = nxt
        dsimp only
        rw [if_pos rfl]
        rfl
  revert r1
  cases restartSend E u with
  | ub => exact id
  | fuel => exact id
  | err e t => exact id
  | ok x t =>
    intro ht
    have ht : t.heartbeat = u.heartbeat := ht
    dsimp only
    have r2 := vigil_restartRecv hC (s := t) (by rw [ht]; exact hhu)
    revert r2
    cases restartRecv E t with
    | ub => exact id
    | fuel => exact id
    | err e v => exact id
    | ok x v =>
      intro hv
      have hv : Vigil E v := hv
      dsimp only [smallAlloc]
      cases E.pe.alloc _ with
      | true => exact hv.mono (l := []) rfl rfl (by simp [Since])
      | false => exact hv.mono (l := []) rfl rfl (by simp [Since])

theorem vigil_login {E : NetEnv} (hC : ClockFine E) : Login16 E (Vigil E) (fun _ _ => True) where
  toUpper := (vigil_closed hC).upper
  allocs := fun _ _ h => h.mono (l := []) rfl rfl (by simp [Since])
  publishCheck := publishCheck_closed (vigil_closed hC).upper fun h => (vigil_closed hC).tryRecv h
  tune16 := fun cm fm hb mem hh _ => vigil_tune hC cm fm hb mem hh
  setServer := fun _ h => h.mono (l := []) rfl rfl (by simp [Since])
  setClient := fun _ _ h => h.mono (l := []) rfl rfl (by simp [Since])

end Rmq
