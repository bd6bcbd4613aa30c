import Verif.Spec.Ends
import Verif.Proofs.Finite
import Verif.Proofs.Instances
import Verif.Proofs.Books
/-!
# Every call ends once the network gives out
-/
namespace Rmq

/-- What is still to be worked off before the connection can only fail: requests that may succeed, octets received, frames queued. -/
@[irreducible] def Conn.load (K : Nat) (s : Conn) : Nat :=
  (K - s.time) * 262145 + 2 * s.inb.length + (if s.ps.full = true then 2 else 0) + s.queue.length

theorem Conn.time_ext (s : Conn) (l : List Ev) : (s.ext l).time = s.time + l.length := by simp [Conn.time, Conn.ext]
theorem Conn.time_push (s : Conn) (e : Ev) : (s.push e).time = s.time + 1 := by simp [Conn.time, Conn.push]

/-- `t` comes after `s`, with no more octets or frames waiting. -/
structure Later (s t : Conn) : Prop where
  time : s.time ≤ t.time
  inb : t.inb = s.inb
  full : t.ps.full = s.ps.full
  queue : t.queue = s.queue

theorem Later.refl (s : Conn) : Later s s := ⟨Nat.le_refl _, rfl, rfl, rfl⟩
theorem Later.trans {s t u : Conn} (h : Later s t) (h' : Later t u) : Later s u :=
  ⟨Nat.le_trans h.time h'.time, h'.inb.trans h.inb, h'.full.trans h.full, h'.queue.trans h.queue⟩
theorem Later.ext (s : Conn) (l : List Ev) : Later s (s.ext l) := ⟨by rw [Conn.time_ext]; omega, rfl, rfl, rfl⟩
theorem Later.push (s : Conn) (e : Ev) : Later s (s.push e) := .ext s [e]
theorem Later.quiet {s t : Conn} (h : QuietStep s t) : Later s t := by obtain ⟨l, rfl, _⟩ := h; exact .ext s l
theorem Later.load {K : Nat} {s t : Conn} (h : Later s t) : t.load K ≤ s.load K := by
  unfold Conn.load
  rw [h.inb, h.full, h.queue]
  have := h.time
  omega
theorem Later.loadLt {K : Nat} {s t : Conn} (h : Later s t) (hs : s.time < K) (ht : s.time < t.time) : t.load K + 1 ≤ s.load K := by
  unfold Conn.load
  rw [h.inb, h.full, h.queue]
  omega

/-- The network gives out, in one way or the other. -/
structure Stops (E : NetEnv) (K : Nat) : Prop where
  recv : ∀ t n, K ≤ t → ∃ k, E.recv t n = .fail k
  send : ∀ t b, K ≤ t → (∃ k, E.send t b = .fail k) ∨ ∃ m, b.length ≤ m ∧ E.send t b = .sent m
  poll : ∀ t, K ≤ t → E.poll t ≠ .intr
  last : LostFrom E K ∨ ∀ t, K ≤ t → E.poll t ≠ .ready

theorem LostFrom.stops {E : NetEnv} {K : Nat} (h : LostFrom E K) : Stops E K :=
  ⟨fun t n ht => (h.recv t n ht).imp fun _ h => h.1, fun t b ht => Or.inl ((h.send t b ht).imp fun _ h => h.1), h.poll, Or.inl h⟩
theorem SilentFrom.stops {E : NetEnv} {K : Nat} (h : SilentFrom E K) : Stops E K :=
  ⟨h.recv, h.send, fun t ht => by rcases h.poll t ht with h | h <;> rw [h] <;> exact (fun h => nomatch h),
    Or.inr fun t ht => by rcases h.poll t ht with h | h <;> rw [h] <;> exact (fun h => nomatch h)⟩

variable {E : NetEnv} {K : Nat}

/-! ### Polling, sending, receiving -/

theorem pollFd_ends (H : Stops E K) (d : Dir) (dl : Nat) : ∀ (n : Nat) (s : Conn), K - s.time < n → pollFd E d dl n s ≠ .fuel := by
  intro n
  induction n with
  | zero => intro s h; omega
  | succ n ih =>
    intro s hn
    unfold pollFd
    obtain ⟨l, h, hl⟩ := msUntilIO_ext E dl s
    revert h
    obtain ⟨ms, s1⟩ := msUntilIO E dl s
    intro h
    dsimp only at h ⊢
    subst h
    have ht := Conn.time_ext s l
    split
    · exact fun h => nomatch h
    · cases hp : E.poll (s.ext l).time with
      | ready => exact fun h => nomatch h
      | timeout => exact fun h => nomatch h
      | error => exact fun h => nomatch h
      | intr =>
        have hlt : (s.ext l).time < K := Nat.lt_of_not_le fun hK => H.poll _ hK hp
        have := Conn.time_push (s.ext l) (.poll d ms .intr)
        exact ih _ (by omega)

theorem pollFd_unready (hR : ∀ t, K ≤ t → E.poll t ≠ .ready) (d : Dir) (dl : Nat) : ∀ (n : Nat) (s t : Conn), K ≤ s.time →
    pollFd E d dl n s ≠ .ok () t := by
  intro n
  induction n with
  | zero => intro s t _ h; cases h
  | succ n ih =>
    intro s t hK
    unfold pollFd
    obtain ⟨l, h, hl⟩ := msUntilIO_ext E dl s
    revert h
    obtain ⟨ms, s1⟩ := msUntilIO E dl s
    intro h
    dsimp only at h ⊢
    subst h
    have ht := Conn.time_ext s l
    split
    · exact fun h => nomatch h
    · cases hp : E.poll (s.ext l).time with
      | ready => exact absurd hp (hR _ (by omega))
      | timeout => exact fun h => nomatch h
      | error => exact fun h => nomatch h
      | intr =>
        have := Conn.time_push (s.ext l) (.poll d ms .intr)
        exact ih _ _ (by omega)

theorem doPoll_ends (H : Stops E K) (res : Int) (dl : Nat) (s : Conn) (hn : K - s.time < E.fuel) : doPoll E res dl s ≠ .fuel := by
  unfold doPoll
  split
  · exact fun h => nomatch h
  · split
    · exact pollFd_ends H _ _ _ _ hn
    · split
      · exact pollFd_ends H _ _ _ _ hn
      · split <;> exact fun h => nomatch h

/-- Once the network has given out, sending is not tried a second time. -/
theorem doPoll_stops (H : Stops E K) {b : Bytes} {fl dl : Nat} {s t : Conn} (hK : K ≤ s.time) (h0 : (sockSend E b fl s).1 ≤ 0) (hb : b ≠ []) :
    doPoll E (sockSend E b fl s).1 dl (sockSend E b fl s).2 ≠ .ok () t := by
  unfold sockSend at h0 ⊢
  by_cases ho : s.isOpen = true
  · rw [if_pos ho] at h0 ⊢
    obtain ⟨k, hk⟩ : ∃ k, E.send s.time b = .fail k := by
      rcases H.send s.time b hK with h | ⟨m, hm, h⟩
      · exact h
      · rw [h] at h0
        have := List.length_pos_iff.2 hb
        dsimp only at h0
        omega
    rw [hk]
    dsimp only
    have hl := Conn.time_push s (.send b fl (-(k + 1 : Nat)))
    unfold doPoll
    rw [if_neg (by show ¬ s.isOpen = false; rw [ho]; exact fun h => nomatch h)]
    rcases H.last with h | h
    · obtain ⟨k', hk', hp⟩ := h.send s.time b hK
      rw [hk] at hk'
      cases hk'
      rw [if_neg hp.1, if_neg hp.2.1]
      split
      · next h0 => have : (-(k + 1 : Nat) : Int) = 0 := h0; omega
      · exact fun h => nomatch h
    · by_cases h1 : (-(k + 1 : Nat) : Int) = St.PRIVATE_NEED_READ
      · rw [if_pos h1]; exact pollFd_unready h _ _ _ _ _ (by omega)
      rw [if_neg h1]
      by_cases h2 : (-(k + 1 : Nat) : Int) = St.PRIVATE_NEED_WRITE
      · rw [if_pos h2]; exact pollFd_unready h _ _ _ _ _ (by omega)
      rw [if_neg h2]
      split
      · next h0 => have : (-(k + 1 : Nat) : Int) = 0 := h0; omega
      · exact fun h => nomatch h
  · rw [if_neg ho]
    unfold doPoll
    rw [if_pos (by simpa using ho)]
    exact fun h => nomatch h

theorem sockSend_later (E : NetEnv) (b : Bytes) (fl : Nat) (s : Conn) : Later s (sockSend E b fl s).2 := by
  obtain ⟨l, h, _⟩ := sockSend_eff E b fl s
  rw [h]; exact .ext s l

theorem sockSend_steps {b : Bytes} {fl : Nat} {s t : Conn} {dl : Nat} (h : (sockSend E b fl s).1 > 0 ∨
    doPoll E (sockSend E b fl s).1 dl (sockSend E b fl s).2 = .ok () t) : s.time < (sockSend E b fl s).2.time := by
  unfold sockSend at h ⊢
  by_cases ho : s.isOpen = true
  · rw [if_pos ho] at h ⊢
    cases E.send s.time b <;> dsimp only <;> rw [Conn.time_push] <;> omega
  · rw [if_neg ho] at h
    rcases h with h | h
    · exact absurd (show St.SOCKET_CLOSED > 0 from h) (by decide)
    · unfold doPoll at h
      rw [if_pos (by simpa using ho)] at h
      cases h

theorem sockSend_lost (H : Stops E K) {b : Bytes} {fl : Nat} {s : Conn} (h : (sockSend E b fl s).1 > 0) :
    s.time < K ∨ (sockSend E b fl s).1 = b.length := by
  by_cases hK : s.time < K
  · exact Or.inl hK
  refine Or.inr ?_
  unfold sockSend at h ⊢
  split at h
  · next ho =>
    rw [if_pos ho]
    rcases H.send s.time b (by omega) with ⟨k, hk⟩ | ⟨m, hm, hk⟩
    · rw [hk] at h
      dsimp only at h
      omega
    · rw [hk]
      dsimp only
      omega
  · exact absurd (show St.SOCKET_CLOSED > 0 from h) (by decide)

theorem trySend_ends (H : Stops E K) (dl fl len : Nat) : ∀ (n : Nat) (left : Bytes) (s : Conn), left ≠ [] → K - s.time < n →
    K - s.time < E.fuel → trySend E dl fl len n left s ≠ .fuel := by
  intro n
  induction n with
  | zero => intro left s _ h; omega
  | succ n ih =>
    intro left s hne hn hf
    unfold trySend
    have hl := (sockSend_later E left fl s).time
    have h1 := @sockSend_steps E left fl s
    have h2 := @sockSend_lost E K H left fl s
    have h3 := @doPoll_stops E K H left fl dl s
    revert h1 h2 h3 hl
    obtain ⟨res, s1⟩ := sockSend E left fl s
    intro hl h1 h2 h3
    dsimp only at hl h1 h2 h3 ⊢
    by_cases hres : res > 0
    · rw [if_pos hres]
      split
      · exact fun h => nomatch h
      · next hd =>
        have := @h1 s 0 (Or.inl hres)
        have hK : s.time < K := by
          rcases h2 hres with h | h
          · exact h
          · rw [List.length_drop] at hd; omega
        exact ih _ _ (fun h => hd (by rw [h]; rfl)) (by omega) (by omega)
    · rw [if_neg hres]
      have h4 := doPoll_quiet E res dl s1
      cases hp : doPoll E res dl s1 with
      | ok a t =>
        rw [hp] at h4
        have := (Later.quiet h4).time
        have := h1 (Or.inr hp)
        have hK : s.time < K := Nat.lt_of_not_le fun hK => h3 hK (by omega) hne hp
        exact ih _ _ hne (by omega) (by omega)
      | err e t => dsimp only; split <;> exact fun h => nomatch h
      | ub => exact fun h => nomatch h
      | fuel => exact absurd hp (doPoll_ends H _ _ _ (by omega))

/-- Sending leaves what was received alone. -/
theorem trySend_later (E : NetEnv) (dl fl len : Nat) (n : Nat) (left : Bytes) (s : Conn) (hl : left.length ≤ len) :
    (trySend E dl fl len n left s).All (Later s) := by
  have h := trySend_eff E dl fl len n left s hl
  cases hr : trySend E dl fl len n left s with
  | ok m t => rw [hr] at h; obtain ⟨k, ⟨l, rfl, _⟩, _⟩ := h; exact .ext s l
  | err e t => rw [hr] at h; obtain ⟨k, ⟨l, rfl, _⟩⟩ := h; exact .ext s l
  | ub => trivial
  | fuel => trivial

/-- What is sent in full takes an event. -/
theorem trySend_full (E : NetEnv) (dl fl len : Nat) : ∀ (n : Nat) (left : Bytes) (s t : Conn), left ≠ [] → left.length ≤ len →
    trySend E dl fl len n left s = .ok len t → s.time < t.time := by
  intro n
  induction n with
  | zero => intro left s t _ _ h; cases h
  | succ n ih =>
    intro left s t hne hle h
    unfold trySend at h
    have hl := (sockSend_later E left fl s).time
    have h1 := @sockSend_steps E left fl s
    revert h h1 hl
    obtain ⟨res, s1⟩ := sockSend E left fl s
    intro h hl h1
    dsimp only at h hl h1
    by_cases hres : res > 0
    · rw [if_pos hres] at h
      have hs := @h1 s 0 (Or.inl hres)
      split at h
      · cases h; exact hs
      · have := trySend_later E dl fl len n (left.drop res.toNat) s1 (by simp only [List.length_drop]; omega)
        rw [h] at this
        have : Later s1 t := this
        have := this.time
        omega
    · rw [if_neg hres] at h
      cases hp : doPoll E res dl s1 with
      | ok a u =>
        rw [hp] at h
        have hq := doPoll_quiet E res dl s1
        rw [hp] at hq
        have := (Later.quiet hq).time
        have h4 := ih left u t hne hle h
        omega
      | err e u =>
        rw [hp] at h
        dsimp only at h
        split at h
        · exfalso
          have : len - left.length = len := by injection h
          have : 0 < left.length := List.length_pos_iff.2 hne
          omega
        · cases h
      | ub => rw [hp] at h; cases h
      | fuel => rw [hp] at h; cases h

/-- Nothing is sent in full once the network refuses everything. -/
theorem trySend_refused (hS : ∀ t b, K ≤ t → ∃ k, E.send t b = .fail k) (dl fl len : Nat) : ∀ (n : Nat) (left : Bytes) (s t : Conn), left ≠ [] →
    left.length ≤ len → trySend E dl fl len n left s = .ok len t → s.time < K := by
  intro n
  induction n with
  | zero => intro left s t _ _ h; cases h
  | succ n ih =>
    intro left s t hne hle h
    refine Nat.lt_of_not_le fun hK => ?_
    unfold trySend at h
    have hl := (sockSend_later E left fl s).time
    have h1 : ¬ (sockSend E left fl s).1 > 0 := by
      unfold sockSend
      split
      · obtain ⟨k, hk⟩ := hS s.time left hK
        rw [hk]
        dsimp only
        omega
      · show ¬ St.SOCKET_CLOSED > 0; decide
    revert h h1 hl
    obtain ⟨res, s1⟩ := sockSend E left fl s
    intro h hl hres
    dsimp only at h hl hres
    rw [if_neg hres] at h
    cases hp : doPoll E res dl s1 with
    | ok a u =>
      rw [hp] at h
      have hq := doPoll_quiet E res dl s1
      rw [hp] at hq
      have := (Later.quiet hq).time
      have h4 := ih left u t hne hle h
      omega
    | err e u =>
      rw [hp] at h
      dsimp only at h
      split at h
      · have : len - left.length = len := by injection h
        have : 0 < left.length := List.length_pos_iff.2 hne
        omega
      · cases h
    | ub => rw [hp] at h; cases h
    | fuel => rw [hp] at h; cases h

/-- The result is there, and the load has gone down by at least `d` if it is a success, up by at most `e` otherwise. -/
def Dec {α : Type} (K : Nat) (I : Conn → Prop) (d e b : Nat) : Res Conn α → Prop
  | .ok _ t => t.load K + d ≤ b ∧ I t
  | .err _ t => t.load K ≤ b + e ∧ I t
  | .ub => True
  | .fuel => False

abbrev Any : Conn → Prop := fun _ => True

theorem Dec.ok_iff {α : Type} {I : Conn → Prop} {d e b : Nat} {a : α} {t : Conn} :
    Dec K I d e b (.ok a t) ↔ t.load K + d ≤ b ∧ I t := Iff.rfl
theorem Dec.err_iff {α : Type} {I : Conn → Prop} {d e b : Nat} {a : Int} {t : Conn} :
    Dec K I d e b (.err a t : Res Conn α) ↔ t.load K ≤ b + e ∧ I t := Iff.rfl

theorem Dec.ends {α : Type} {I : Conn → Prop} {d e b : Nat} {r : Res Conn α} (h : Dec K I d e b r) : r ≠ .fuel := by rintro rfl; exact h
theorem Dec.weaken {α : Type} {I : Conn → Prop} {d e b d' e' b' : Nat} {r : Res Conn α} (h : Dec K I d e b r) (h1 : d' + b ≤ d + b')
    (h2 : b + e ≤ b' + e') : Dec K I d' e' b' r := by
  cases r with
  | ok a t => rw [Dec.ok_iff] at h ⊢; exact ⟨by omega, h.2⟩
  | err x t => rw [Dec.err_iff] at h ⊢; exact ⟨by omega, h.2⟩
  | ub => trivial
  | fuel => exact h
theorem Dec.and {α : Type} {I : Conn → Prop} {d e b : Nat} {r : Res Conn α} (h : Dec K Any d e b r) (hI : r.All I) : Dec K I d e b r := by
  cases r with
  | ok a t => exact ⟨h.1, hI⟩
  | err x t => exact ⟨h.1, hI⟩
  | ub => trivial
  | fuel => exact h
theorem Dec.any {α : Type} {I : Conn → Prop} {d e b : Nat} {r : Res Conn α} (h : Dec K I d e b r) : Dec K Any d e b r := by
  cases r with
  | ok a t => exact ⟨h.1, trivial⟩
  | err x t => exact ⟨h.1, trivial⟩
  | ub => trivial
  | fuel => exact h
theorem Dec.later {α : Type} {s : Conn} {r : Res Conn α} (h : r.All (Later s)) (hf : r ≠ .fuel) : Dec K Any 0 0 (s.load K) r := by
  cases r with
  | ok a t => exact ⟨Later.load h, trivial⟩
  | err x t => exact ⟨Later.load h, trivial⟩
  | ub => trivial
  | fuel => exact hf rfl
theorem Dec.quiet {α : Type} {s : Conn} {r : Res Conn α} (h : r.All (QuietStep s)) (hf : r ≠ .fuel) : Dec K Any 0 0 (s.load K) r := by
  refine Dec.later ?_ hf
  cases r with
  | ok a t => exact Later.quiet h
  | err x t => exact Later.quiet h
  | ub => trivial
  | fuel => trivial
theorem Dec.bind {α β : Type} {I : Conn → Prop} {d e b d' e' : Nat} {x : M Conn α} {f : α → M Conn β} {s : Conn} (hx : Dec K I d e b (x s))
    (he : e ≤ e') (hf : ∀ v t, t.load K + d ≤ b → I t → Dec K I d' e' b (f v t)) : Dec K I d' e' b ((x >>= f) s) := by
  rw [M.bind_def]
  cases h1 : x s with
  | ok v t => rw [h1] at hx; exact hf v t hx.1 hx.2
  | err y t => rw [h1, Dec.err_iff] at hx; rw [Dec.err_iff]; exact ⟨by omega, hx.2⟩
  | ub => trivial
  | fuel => rw [h1] at hx; exact hx

theorem load_le_time (s : Conn) : K - s.time ≤ s.load K := by unfold Conn.load; omega

unseal Conn.load in
theorem recvData_load {s : Conn} (b : Bytes) (hs : s.time < K) :
    ({ s with inb := b.take SOCK_BUF }.push (.recvData (b.take SOCK_BUF))).load K + 1 ≤ s.load K := by
  have h1 : ({ s with inb := b.take SOCK_BUF }.push (.recvData (b.take SOCK_BUF))).time = s.time + 1 := by
    simp [Conn.time, Conn.push]
  have h2 : (b.take SOCK_BUF).length ≤ 131072 := by simp only [List.length_take, SOCK_BUF]; omega
  unfold Conn.load
  rw [h1]
  show (K - (s.time + 1)) * 262145 + 2 * (b.take SOCK_BUF).length + (if s.ps.full = true then 2 else 0) + s.queue.length + 1 ≤ _
  omega

theorem restartRecv_later (E : NetEnv) (s : Conn) : (restartRecv E s).All (Later s) := by
  have h := restartRecv_eff E s
  revert h
  cases restartRecv E s with
  | ok x t => rintro ⟨t1, l, rfl, _⟩; exact ⟨(Later.ext s l).time, rfl, rfl, rfl⟩
  | err e t => rintro ⟨t1, l, rfl, _⟩; exact ⟨(Later.ext s l).time, rfl, rfl, rfl⟩
  | ub => exact fun _ => trivial
  | fuel => exact fun _ => trivial
theorem restartSend_later (E : NetEnv) (s : Conn) : (restartSend E s).All (Later s) := by
  have h := restartSend_eff E s
  revert h
  cases restartSend E s with
  | ok x t => rintro ⟨t1, l, rfl, _⟩; exact ⟨(Later.ext s l).time, rfl, rfl, rfl⟩
  | err e t => rintro ⟨t1, l, rfl, _⟩; exact ⟨(Later.ext s l).time, rfl, rfl, rfl⟩
  | ub => exact fun _ => trivial
  | fuel => exact fun _ => trivial
theorem restartRecv_ends (E : NetEnv) (s : Conn) : restartRecv E s ≠ .fuel := by
  unfold restartRecv
  split
  split <;> exact fun h => nomatch h
theorem restartSend_ends (E : NetEnv) (s : Conn) : restartSend E s ≠ .fuel := by
  unfold restartSend
  split
  split <;> exact fun h => nomatch h

theorem recvWithTimeout_dec (H : Stops E K) (to : Nat) : ∀ (n : Nat) (s : Conn), K - s.time < n → K - s.time < E.fuel →
    Dec K Any 1 0 (s.load K) (recvWithTimeout E to n s) := by
  intro n
  induction n with
  | zero => intro s h; omega
  | succ n ih =>
    intro s hn hf
    unfold recvWithTimeout
    by_cases ho : s.isOpen = false
    · rw [if_pos ho]; exact ⟨Nat.le_refl _, trivial⟩
    rw [if_neg ho]
    cases hr : E.recv s.time s.received with
    | data b =>
      have hK : s.time < K := Nat.lt_of_not_le fun hK => by
        obtain ⟨k, hk⟩ := H.recv s.time s.received hK
        rw [hr] at hk; cases hk
      have h1 := recvData_load b hK
      have h2 := Dec.later (K := K) (restartRecv_later E ({ s with inb := b.take SOCK_BUF }.push (.recvData (b.take SOCK_BUF))))
        (restartRecv_ends E _)
      exact h2.weaken (by omega) (by omega)
    | fail k =>
      dsimp only
      have hl := Later.push s (.recvFail (-(k + 1 : Nat)))
      have h0 := Later.load (K := K) hl
      have ht := Conn.time_push s (.recvFail (-(k + 1 : Nat)))
      have key : ∀ d : Dir, (LostFrom E K → s.time < K) →
          Dec K Any 1 0 (s.load K) (match pollFd E d to E.fuel (s.push (.recvFail (-(k + 1 : Nat)))) with
            | .ok () s => Rmq.recvWithTimeout E to n s
            | .err e s => .err e s
            | .ub => .ub
            | .fuel => .fuel : Res Conn Unit) := by
        intro d hd
        have h1 := pollFd_quiet E d to E.fuel (s.push (.recvFail (-(k + 1 : Nat))))
        have h2 := pollFd_ends H d to E.fuel (s.push (.recvFail (-(k + 1 : Nat)))) (by omega)
        cases hp : pollFd E d to E.fuel (s.push (.recvFail (-(k + 1 : Nat)))) with
        | ok a t =>
          rw [hp] at h1
          have hK : s.time < K := by
            rcases H.last with h | h
            · exact hd h
            · exact Nat.lt_of_not_le fun hK => pollFd_unready h d to E.fuel _ t (by omega) hp
          have h3 := Later.quiet h1
          have h4 := h3.load (K := K)
          have h5 := h3.time
          exact (ih t (by omega) (by omega)).weaken (by omega) (by omega)
        | err e t =>
          rw [hp] at h1
          have h4 := (Later.quiet h1).load (K := K)
          exact ⟨by omega, trivial⟩
        | ub => trivial
        | fuel => exact h2 hp
      by_cases h1 : (-(k + 1 : Nat) : Int) = St.PRIVATE_NEED_READ
      · rw [if_pos h1]
        refine key .read fun h => Nat.lt_of_not_le fun hK => ?_
        obtain ⟨k', hk', hp⟩ := h.recv s.time s.received hK
        rw [hr] at hk'
        cases hk'
        exact hp.1 h1
      rw [if_neg h1]
      by_cases h2 : (-(k + 1 : Nat) : Int) = St.PRIVATE_NEED_WRITE
      · rw [if_pos h2]
        refine key .write fun h => Nat.lt_of_not_le fun hK => ?_
        obtain ⟨k', hk', hp⟩ := h.recv s.time s.received hK
        rw [hr] at hk'
        cases hk'
        exact hp.2.1 h2
      rw [if_neg h2]
      exact ⟨by omega, trivial⟩

/-- Every time-out before that costs an event. -/
theorem recvWithTimeout_before (hS : Stops E K) {s : Conn} (hK : s.time < K) (to n : Nat) (t : Conn) (hn : K - s.time < n)
    (hf : K - s.time < E.fuel) (h : recvWithTimeout E to n s = .err St.TIMEOUT t) : t.load K + 1 ≤ s.load K := by
  cases n with
  | zero => omega
  | succ n =>
    unfold recvWithTimeout at h
    by_cases ho : s.isOpen = false
    · rw [if_pos ho] at h
      exact absurd (show St.CONNECTION_CLOSED = St.TIMEOUT by injection h) (by decide)
    rw [if_neg ho] at h
    cases hr : E.recv s.time s.received with
    | data b =>
      rw [hr] at h
      dsimp only at h
      have h1 := recvData_load b hK
      have h2 := restartRecv_later E ({ s with inb := b.take SOCK_BUF }.push (.recvData (b.take SOCK_BUF)))
      rw [h] at h2
      have := Later.load (K := K) h2
      omega
    | fail k =>
      rw [hr] at h
      dsimp only at h
      have ht := Conn.time_push s (.recvFail (-(k + 1 : Nat)))
      have h0 := (Later.push s (.recvFail (-(k + 1 : Nat)))).loadLt (K := K) hK (by omega)
      have key : ∀ d : Dir, (match pollFd E d to E.fuel (s.push (.recvFail (-(k + 1 : Nat)))) with
            | .ok () s => Rmq.recvWithTimeout E to n s
            | .err e s => .err e s
            | .ub => .ub
            | .fuel => .fuel : Res Conn Unit) = .err St.TIMEOUT t → t.load K + 1 ≤ s.load K := by
        intro d h
        have h1 := pollFd_quiet E d to E.fuel (s.push (.recvFail (-(k + 1 : Nat))))
        cases hp : pollFd E d to E.fuel (s.push (.recvFail (-(k + 1 : Nat)))) with
        | ok a u =>
          rw [hp] at h1 h
          have h3 := Later.quiet h1
          have h4 := h3.load (K := K)
          have h5 := h3.time
          have h6 := recvWithTimeout_dec hS to n u (by omega) (by omega)
          dsimp only at h
          rw [h] at h6
          have := h6.1
          omega
        | err e u =>
          rw [hp] at h1 h
          cases h
          have := (Later.quiet h1).load (K := K)
          omega
        | ub => rw [hp] at h; cases h
        | fuel => rw [hp] at h; cases h
      by_cases h1 : (-(k + 1 : Nat) : Int) = St.PRIVATE_NEED_READ
      · rw [if_pos h1] at h; exact key .read h
      rw [if_neg h1] at h
      by_cases h2 : (-(k + 1 : Nat) : Int) = St.PRIVATE_NEED_WRITE
      · rw [if_pos h2] at h; exact key .write h
      rw [if_neg h2] at h
      cases h
      omega

/-- A time-out is reported only before the connection is lost. -/
theorem recvWithTimeout_late (H : LostFrom E K) (to n : Nat) (s t : Conn) (hn : K - s.time < n) (hf : K - s.time < E.fuel)
    (h : recvWithTimeout E to n s = .err St.TIMEOUT t) : t.load K + 1 ≤ s.load K := by
  refine recvWithTimeout_before H.stops (Nat.lt_of_not_le fun hK => ?_) to n t hn hf h
  cases n with
  | zero => omega
  | succ n =>
    unfold recvWithTimeout at h
    by_cases ho : s.isOpen = false
    · rw [if_pos ho] at h
      exact absurd (show St.CONNECTION_CLOSED = St.TIMEOUT by injection h) (by decide)
    rw [if_neg ho] at h
    obtain ⟨k, hr, hp⟩ := H.recv s.time s.received hK
    rw [hr] at h
    dsimp only at h
    rw [if_neg hp.1, if_neg hp.2.1] at h
    exact hp.2.2 (by injection h)

/-! ### Parsing and queueing -/

unseal Conn.load in
theorem consumeOne_dec (K : Nat) {s : Conn} (hi : s.inb ≠ []) : Dec K Any 2 2 (s.load K) (consumeOne E s) := by
  unfold consumeOne
  cases h1 : handleInput E.pe s.ps s.inb with
  | ok r p =>
    obtain ⟨k, f⟩ := r
    obtain ⟨hk, hf⟩ := handleInput_took hi h1
    refine ⟨?_, trivial⟩
    have h2 : (({ s with ps := p, inb := s.inb.drop k } : Conn).push (.parsed (s.inb.take k))).time = s.time + 1 := by
      simp [Conn.time, Conn.push]
    have hlen : 0 < s.inb.length := List.length_pos_iff.2 hi
    unfold Conn.load
    rw [h2]
    show (K - (s.time + 1)) * 262145 + 2 * (s.inb.drop k).length + (if p.full = true then 2 else 0) + s.queue.length + 2 ≤ _
    rw [hf, List.length_drop]
    rcases hk with hk | hk
    · rw [hk]; simp only [if_true, Bool.false_eq_true, if_false]; omega
    · simp only [Bool.false_eq_true, if_false]; omega
  | err e p =>
    refine ⟨?_, trivial⟩
    unfold Conn.load
    show (K - s.time) * 262145 + 2 * s.inb.length + (if p.full = true then 2 else 0) + s.queue.length ≤ _
    split <;> omega
  | ub => trivial
  | fuel => exact handleInput_ends _ _ _ h1

unseal Conn.load in
theorem queueFrame_dec (E : NetEnv) (K : Nat) (f : DFrame) (s : Conn) : Dec K Any 0 0 (s.load K + 1) (queueFrame E f s) := by
  unfold queueFrame
  obtain ⟨a, p, hp⟩ := createLink_eff E f.frame.channel s
  revert hp
  obtain ⟨b, s1⟩ := createLink E f.frame.channel s
  intro hp
  dsimp only at hp
  subst hp
  cases b
  · refine ⟨?_, trivial⟩
    show s.load K ≤ _
    omega
  · refine ⟨?_, trivial⟩
    show (K - s.time) * 262145 + 2 * s.inb.length + (if s.ps.full = true then 2 else 0) + (s.queue ++ [f]).length + 0 ≤ _
    rw [List.length_append]
    unfold Conn.load
    simp only [List.length_singleton]
    omega

unseal Conn.load in
theorem putBackFrame_dec (E : NetEnv) (K : Nat) (f : DFrame) (s : Conn) : Dec K Any 0 0 (s.load K + 1) (putBackFrame E f s) := by
  unfold putBackFrame
  obtain ⟨a, p, hp⟩ := createLink_eff E f.frame.channel s
  revert hp
  obtain ⟨b, s1⟩ := createLink E f.frame.channel s
  intro hp
  dsimp only at hp
  subst hp
  cases b
  · refine ⟨?_, trivial⟩
    show s.load K ≤ _
    omega
  · refine ⟨?_, trivial⟩
    show (K - s.time) * 262145 + 2 * s.inb.length + (if s.ps.full = true then 2 else 0) + (f :: s.queue).length + 0 ≤ _
    unfold Conn.load
    simp only [List.length_cons]
    omega

theorem drainToQueue_dec (E : NetEnv) (K : Nat) : ∀ (n : Nat) (s : Conn), s.load K < n → Dec K Any 0 2 (s.load K) (drainToQueue E n s) := by
  intro n
  induction n with
  | zero => intro s h; omega
  | succ n ih =>
    intro s hn
    unfold drainToQueue
    by_cases hi : s.inb = []
    · rw [if_pos hi]; exact ⟨Nat.le_refl _, trivial⟩
    rw [if_neg hi]
    have h1 := consumeOne_dec (E := E) K hi
    revert h1
    cases consumeOne E s with
    | err e t => exact fun h1 => ⟨h1.1, trivial⟩
    | ub => exact id
    | fuel => exact id
    | ok f t =>
      rintro ⟨h1, _⟩
      cases f with
      | none => exact (ih t (by omega)).weaken (by omega) (by omega)
      | some f =>
        dsimp only
        have h2 := queueFrame_dec E K f t
        revert h2
        cases queueFrame E f t with
        | ok a u => rintro ⟨h2, _⟩; exact (ih u (by omega)).weaken (by omega) (by omega)
        | err e u => intro h2; rw [Dec.err_iff] at h2 ⊢; exact ⟨by omega, trivial⟩
        | ub => exact id
        | fuel => exact id

theorem fromNowIO_ends (E : NetEnv) (tv : Option TimeVal) (s : Conn) : fromNowIO E tv s ≠ .fuel := by
  unfold fromNowIO
  cases tv with
  | none => exact fun h => nomatch h
  | some v =>
    dsimp only
    split
    · exact fun h => nomatch h
    · cases timeFromNow (E.clock s.time) (some v) <;> exact fun h => nomatch h
theorem tvUntilIO_ends (E : NetEnv) (t : Nat) (s : Conn) : tvUntilIO E t s ≠ .fuel := by
  unfold tvUntilIO
  split
  · exact fun h => nomatch h
  · split
    · exact fun h => nomatch h
    · cases tvUntil (E.clock s.time) t <;> exact fun h => nomatch h

theorem tryRecv_dec (H : Stops E K) (s : Conn) (hf : s.load K < E.fuel) : Dec K Any 1 2 (s.load K) (tryRecv E s) := by
  unfold tryRecv
  refine Dec.bind (drainToQueue_dec E K E.fuel s hf) (Nat.le_refl _) fun _ t ht _ => ?_
  have h1 := Dec.quiet (K := K) (fromNowIO_quiet E (some ⟨0, 0⟩) t) (fromNowIO_ends E _ t)
  refine Dec.bind (h1.weaken (by omega) (by omega) : Dec K Any 0 0 (s.load K) _) (Nat.zero_le _) fun to u hu _ => ?_
  have := load_le_time (K := K) u
  exact (recvWithTimeout_dec H to E.fuel u (by omega) (by omega)).weaken (by omega) (by omega)

/-! ### Sending frames -/

/-- Sending is over: something was worked off, or the network is past its last event and took all. -/
def Worked (E : NetEnv) (K : Nat) (s t : Conn) : Prop :=
  t.load K + 1 ≤ s.load K ∨ ((¬ ∀ t b, K ≤ t → ∃ k, E.send t b = .fail k) ∧ t.load K ≤ s.load K ∧
    ∃ u, K ≤ u.time ∧ u.nextRecv = s.nextRecv ∧ u.heartbeat = s.heartbeat ∧ restartSend E u = .ok () t)

theorem Worked.load {s t : Conn} (h : Worked E K s t) : t.load K ≤ s.load K := by
  rcases h with h | h
  · omega
  · exact h.2.1

def WorksR (E : NetEnv) (K : Nat) (s : Conn) : Res Conn Unit → Prop
  | .ok _ t => Worked E K s t
  | .err _ t => t.load K ≤ s.load K + 2
  | .ub => True
  | .fuel => False

theorem sendLoop_sent (H : Stops E K) (fl dl : Nat) : ∀ (n : Nat) (enc : Bytes) (s : Conn), enc ≠ [] → s.load K < n → s.load K < E.fuel →
    WorksR E K s (sendLoop E fl dl n enc s) := by
  intro n
  induction n with
  | zero => intro enc s _ h; omega
  | succ n ih =>
    intro enc s hne hn hf
    unfold sendLoop
    dsimp only
    have ht := load_le_time (K := K) s
    have h1 := trySend_later E (timeFirst dl s.nextRecv) fl enc.length E.fuel enc s (Nat.le_refl _)
    have h2 := trySend_ends H (timeFirst dl s.nextRecv) fl enc.length E.fuel enc s hne (by omega) (by omega)
    have h3 := fun t => trySend_full E (timeFirst dl s.nextRecv) fl enc.length E.fuel enc s t hne (Nat.le_refl _)
    have h3' := fun hS t => trySend_refused (E := E) (K := K) hS (timeFirst dl s.nextRecv) fl enc.length E.fuel enc s t hne (Nat.le_refl _)
    have h5 := trySend_eff E (timeFirst dl s.nextRecv) fl enc.length E.fuel enc s (Nat.le_refl _)
    revert h1 h2 h3 h3' h5
    cases trySend E (timeFirst dl s.nextRecv) fl enc.length E.fuel enc s with
    | err e t => exact fun h1 _ _ _ _ => by show t.load K ≤ s.load K + 2; have := Later.load (K := K) h1; omega
    | ub => exact fun _ _ _ _ _ => trivial
    | fuel => exact fun _ h _ _ _ => h rfl
    | ok m t =>
      intro h1 _ h3 h3' h5
      have hl := Later.load (K := K) h1
      dsimp only
      by_cases hm : enc.length ≠ m
      · rw [if_pos hm]
        by_cases hte : timeEqual (timeFirst dl s.nextRecv) dl = true
        · rw [if_pos hte]; show t.load K ≤ s.load K + 2; omega
        rw [if_neg hte]
        have h4 := tryRecv_dec H t (by omega)
        revert h4
        cases tryRecv E t with
        | ok a u =>
          rintro ⟨h4, _⟩
          have h6 := ih (enc.drop m) u (by
            obtain ⟨k, hk, hk2⟩ := h5
            intro hd
            have := congrArg List.length hd
            have hk3 := hk
            obtain ⟨_, _, _, hk4, _⟩ := hk3
            simp only [List.length_drop, List.length_nil] at this
            omega) (by omega) (by omega)
          dsimp only
          revert h6
          cases sendLoop E fl dl n (enc.drop m) u with
          | ok x v => intro h6; have h6 : Worked E K u v := h6; have := h6.load; exact Or.inl (by omega)
          | err e v => intro h6; have h6 : v.load K ≤ u.load K + 2 := h6; show v.load K ≤ s.load K + 2; omega
          | ub => exact id
          | fuel => exact id
        | err e u =>
          intro h4
          dsimp only
          rw [Dec.err_iff] at h4
          by_cases he : e = St.TIMEOUT
          · rw [if_pos he]; show u.load K ≤ s.load K + 2; omega
          · rw [if_neg he]; show u.load K ≤ s.load K + 2; omega
        | ub => exact id
        | fuel => exact id
      · rw [if_neg hm]
        have hm : m = enc.length := by omega
        subst hm
        have h6 := h3 t rfl
        have h8 := Dec.later (K := K) (restartSend_later E t) (restartSend_ends E t)
        obtain ⟨k, ⟨l, ht, _⟩, _⟩ := h5
        cases hrs : restartSend E t with
        | ok x v =>
          rw [hrs, Dec.ok_iff] at h8
          by_cases hK : s.time < K
          · have h7 := Later.loadLt (K := K) h1 hK h6
            exact Or.inl (by omega)
          · refine Or.inr ⟨fun hS => hK (h3' hS t rfl), by omega, t, by omega, ?_, ?_, hrs⟩ <;> rw [ht] <;> rfl
        | err e v => rw [hrs, Dec.err_iff] at h8; show v.load K ≤ s.load K + 2; omega
        | ub => trivial
        | fuel => exact restartSend_ends E t hrs

unseal Conn.load in
theorem sendFrame_sent (H : Stops E K) (f : AFrame) (fl dl : Nat) (s : Conn) (hf : s.load K < E.fuel) :
    WorksR E K s (sendFrame E f fl dl s) := by
  unfold sendFrame
  cases h1 : frameToBytes E.pe.be s.outMem s.outLen f with
  | ok enc mem =>
    have hl : ({ s with outMem := mem } : Conn).load K = s.load K := rfl
    have hne : enc ≠ [] := by
      have := frameToBytes_last h1
      rintro rfl
      cases this
    have h2 := sendLoop_sent H fl dl E.fuel enc { s with outMem := mem } hne (by omega) (by omega)
    dsimp only
    revert h2
    cases sendLoop E fl dl E.fuel enc { s with outMem := mem } with
    | ok x v =>
      intro h2
      have h2 : Worked E K { s with outMem := mem } v := h2
      unfold Worked at h2
      rw [hl] at h2
      exact h2
    | err e v => intro h2; have h2 : v.load K ≤ ({ s with outMem := mem } : Conn).load K + 2 := h2; rw [hl] at h2; exact h2
    | ub => exact id
    | fuel => exact id
  | err e mem => show s.load K ≤ s.load K + 2; omega
  | ub => trivial
  | fuel => exact frameToBytes_ends _ _ _ _ h1

theorem sendFrame_dec (H : Stops E K) (f : AFrame) (fl dl : Nat) (s : Conn) (hf : s.load K < E.fuel) :
    Dec K Any 0 2 (s.load K) (sendFrame E f fl dl s) := by
  have h := sendFrame_sent H f fl dl s hf
  revert h
  cases sendFrame E f fl dl s with
  | ok x t => intro h; have h : Worked E K s t := h; exact ⟨h.load, trivial⟩
  | err e t => exact fun h => ⟨h, trivial⟩
  | ub => exact id
  | fuel => exact id

theorem sendFrame_refused (H : Stops E K) (hS : ∀ t b, K ≤ t → ∃ k, E.send t b = .fail k) (f : AFrame) (fl dl : Nat) (s : Conn)
    (hf : s.load K < E.fuel) : Dec K Any 1 2 (s.load K) (sendFrame E f fl dl s) := by
  have h := sendFrame_sent H f fl dl s hf
  revert h
  cases sendFrame E f fl dl s with
  | ok x t => intro h; have h : Worked E K s t := h; exact ⟨h.resolve_right fun h => h.1 hS, trivial⟩
  | err e t => exact fun h => ⟨h, trivial⟩
  | ub => exact id
  | fuel => exact id

end Rmq
