import Verif.Proofs.Sends
import Verif.Proofs.EncErr
import Verif.Proofs.Instances
/-!
# When sending can report TIMEOUT; a closed socket
-/
namespace Rmq

theorem encodeErr_not_timeout {e : Int} (h : EncodeErr e) : e ≠ St.TIMEOUT := by
  intro he; rw [he] at h; exact absurd h.1 (by decide)

theorem restartSend_err {E : NetEnv} {s s' : Conn} {e : Int} (h : restartSend E s = .err e s') : e ≠ St.TIMEOUT := by
  unfold restartSend at h
  have h1 := sFromNowIO_status E s.heartbeat s.nextSend s
  revert h h1
  obtain ⟨st, t, s1⟩ := sFromNowIO E s.heartbeat s.nextSend s
  intro h h1
  dsimp only at h h1
  by_cases hs : st = St.OK
  · rw [if_pos hs] at h; cases h
  · rw [if_neg hs] at h; cases h; exact h1

/-- `trySend` itself turns TIMEOUT into a short count. -/
theorem trySend_not_timeout {E : NetEnv} (deadline flags len : Nat) : ∀ (n : Nat) (left : Bytes) (s s' : Conn) (e : Int),
    trySend E deadline flags len n left s = .err e s' → e ≠ St.TIMEOUT := by
  intro n
  induction n with
  | zero => intro left s s' e h; cases h
  | succ n ih =>
    intro left s s' e h
    unfold trySend at h
    revert h
    obtain ⟨res, t⟩ := sockSend E left flags s
    intro h
    dsimp only at h
    by_cases hp : res > 0
    · rw [if_pos hp] at h
      by_cases hz : (left.drop res.toNat).length = 0
      · rw [if_pos hz] at h; cases h
      · rw [if_neg hz] at h; exact ih _ _ _ _ h
    rw [if_neg hp] at h
    cases hd : doPoll E res deadline t with
    | ub => rw [hd] at h; cases h
    | fuel => rw [hd] at h; cases h
    | ok x u => rw [hd] at h; exact ih _ _ _ _ h
    | err e' u =>
      rw [hd] at h
      dsimp only at h
      by_cases he : e' = St.TIMEOUT
      · rw [if_pos he] at h; cases h
      · rw [if_neg he] at h; cases h; exact he

/-- Log extension, as a closed property. -/
theorem since_closed (E : NetEnv) (s0 : Conn) : Closed E (fun s => ∃ l, Since s0 s l) (fun _ _ => True) := by
  have ext : ∀ {s t : Conn}, (∃ l, Since s0 s l) → (∃ l', t.log = s.log ++ l') → ∃ l, Since s0 t l := by
    rintro s t ⟨l, hl⟩ ⟨l', hl'⟩
    exact ⟨l ++ l', by unfold Since at *; rw [hl', hl, List.append_assoc]⟩
  refine ⟨⟨⟨fun {s e} _ h => ext h ⟨[e], rfl⟩, fun {s} b _ h => ?_⟩, fun {s s' f} h hc => ⟨?_, fun _ _ => trivial⟩, fun {s s' e} h hc => ?_, fun {s f} _ h => ?_⟩,
    fun {s} b fl h => ?_, fun {s} h => ?_, fun _ h => h, fun {s f} _ h => ?_, fun h _ => ⟨h, trivial⟩, fun {s} h => ?_, fun {s} ch h => ?_⟩
  · have h1 := restartRecv_eff E ({ s with inb := b.take SOCK_BUF }.push (.recvData (b.take SOCK_BUF)))
    revert h1
    cases restartRecv E ({ s with inb := b.take SOCK_BUF }.push (.recvData (b.take SOCK_BUF))) with
    | ok x t => rintro ⟨t1, l1, rfl, _⟩; exact ext h ⟨_, by simp [Conn.ext, Conn.push]; rfl⟩
    | err e t => rintro ⟨t1, l1, rfl, _⟩; exact ext h ⟨_, by simp [Conn.ext, Conn.push]; rfl⟩
    | ub => exact fun _ => trivial
    | fuel => exact fun _ => trivial
  · unfold consumeOne at hc
    cases h1 : handleInput E.pe s.ps s.inb with
    | ok r p => rw [h1] at hc; cases hc; exact ext h ⟨_, rfl⟩
    | err e p => rw [h1] at hc; cases hc
    | ub => rw [h1] at hc; cases hc
    | fuel => rw [h1] at hc; cases hc
  · unfold consumeOne at hc
    cases h1 : handleInput E.pe s.ps s.inb with
    | ok r p => rw [h1] at hc; cases hc
    | err e p => rw [h1] at hc; cases hc; exact h
    | ub => rw [h1] at hc; cases hc
    | fuel => rw [h1] at hc; cases hc
  · unfold queueFrame
    have hp := createLink_eff E f.frame.channel s
    revert hp
    obtain ⟨b, t⟩ := createLink E f.frame.channel s
    rintro ⟨a, p, hp⟩
    dsimp only at hp
    subst hp
    cases b <;> exact h
  · unfold sockSend
    split
    · split <;> exact ext h ⟨_, rfl⟩
    · exact h
  · have h1 := restartSend_eff E s
    revert h1
    cases restartSend E s with
    | ok x t => rintro ⟨t1, l1, rfl, _⟩; exact ext h ⟨l1, rfl⟩
    | err e t => rintro ⟨t1, l1, rfl, _⟩; exact ext h ⟨l1, rfl⟩
    | ub => exact fun _ => trivial
    | fuel => exact fun _ => trivial
  · unfold putBackFrame
    have hp := createLink_eff E f.frame.channel s
    revert hp
    obtain ⟨b, t⟩ := createLink E f.frame.channel s
    rintro ⟨a, p, hp⟩
    dsimp only at hp
    subst hp
    cases b <;> exact h
  · unfold sockClose
    split
    · exact h
    · split <;> exact ext h ⟨_, rfl⟩
  · obtain ⟨l, h1, _⟩ := maybeReleaseOn_ext ch s
    rw [h1]; exact ext h ⟨l, rfl⟩

/-- Without a deadline sending does not report TIMEOUT, unless the kernel's poll without a timeout times out. -/
theorem sendLoop_inf {E : NetEnv} (hT : NoTimeoutSend E) (flags : Nat) : ∀ (n : Nat) (enc : Bytes) (s s' : Conn),
    sendLoop E flags TIME_INF n enc s = .err St.TIMEOUT s' → ∃ l d, Since s s' l ∧ Ev.poll d (-1) .timeout ∈ l := by
  intro n
  induction n with
  | zero => intro enc s s' h; cases h
  | succ n ih =>
    intro enc s s' h
    unfold sendLoop at h
    dsimp only at h
    cases h1 : trySend E (timeFirst TIME_INF s.nextRecv) flags enc.length E.fuel enc s with
    | ub => rw [h1] at h; cases h
    | fuel => rw [h1] at h; cases h
    | err e t =>
      rw [h1] at h
      injection h with h2 _
      exact absurd h2 (trySend_not_timeout _ _ _ _ _ _ _ _ h1)
    | ok m t =>
      rw [h1] at h
      dsimp only at h
      by_cases hm : enc.length ≠ m
      · rw [if_pos hm] at h
        by_cases heq : timeEqual (timeFirst TIME_INF s.nextRecv) TIME_INF = true
        · rw [if_pos heq] at h
          have e : timeFirst TIME_INF s.nextRecv = TIME_INF := by simpa [timeEqual] using heq
          rw [e] at h1
          rcases trySend_inf hT flags enc.length _ _ _ _ _ (Nat.le_refl _) h1 with h2 | h2
          · exact absurd h2.symm hm
          · cases h; exact h2
        · rw [if_neg heq] at h
          have hl := (since_closed E s).trySend (timeFirst TIME_INF s.nextRecv) flags enc.length E.fuel enc (s := s) ⟨[], by simp [Since]⟩
          rw [h1] at hl
          have hl2 := (since_closed E s).tryRecv hl
          cases h2 : tryRecv E t with
          | ub => rw [h2] at h; cases h
          | fuel => rw [h2] at h; cases h
          | err e u =>
            rw [h2] at h
            dsimp only at h
            by_cases he : e = St.TIMEOUT
            · rw [if_pos he] at h
              exact absurd (by injection h : St.HEARTBEAT_TIMEOUT = St.TIMEOUT) (by decide)
            · rw [if_neg he] at h; injection h with h3 _; exact absurd h3 he
          | ok x u =>
            rw [h2] at h hl2
            obtain ⟨l0, hl0⟩ := hl2
            obtain ⟨l, d, h3, h4⟩ := ih _ _ _ h
            exact ⟨l0 ++ l, d, by unfold Since at *; rw [h3, hl0, List.append_assoc], by simp [h4]⟩
      · rw [if_neg hm] at h
        exact absurd rfl (restartSend_err h)

theorem sendFrame_inf {E : NetEnv} (hT : NoTimeoutSend E) (f : AFrame) (flags : Nat) {s s' : Conn}
    (h : sendFrame E f flags TIME_INF s = .err St.TIMEOUT s') : ∃ l d, Since s s' l ∧ Ev.poll d (-1) .timeout ∈ l := by
  unfold sendFrame at h
  cases h1 : frameToBytes E.pe.be s.outMem s.outLen f with
  | ok enc mem => rw [h1] at h; dsimp only at h; exact sendLoop_inf hT flags _ _ { s with outMem := mem } _ h
  | err e mem => rw [h1] at h; injection h with h2 _; exact absurd h2 (encodeErr_not_timeout (frameToBytes_err h1))
  | ub => rw [h1] at h; cases h
  | fuel => rw [h1] at h; cases h

/-! ## A closed socket -/

theorem shut_closed (E : NetEnv) : Closed E (fun s => s.isOpen = false) (fun _ _ => True) := by
  refine ⟨⟨⟨fun {s e} _ h => h, fun {s} b _ h => ?_⟩, fun {s s' f} h hc => ⟨?_, fun _ _ => trivial⟩, fun {s s' e} h hc => ?_, fun {s f} _ h => ?_⟩,
    fun {s} b fl h => ?_, fun {s} h => ?_, fun _ h => h, fun {s f} _ h => ?_, fun h _ => ⟨h, trivial⟩, fun {s} h => ?_, fun {s} ch h => ?_⟩
  · have h1 := restartRecv_eff E ({ s with inb := b.take SOCK_BUF }.push (.recvData (b.take SOCK_BUF)))
    revert h1
    cases restartRecv E ({ s with inb := b.take SOCK_BUF }.push (.recvData (b.take SOCK_BUF))) with
    | ok x t => rintro ⟨t1, l1, rfl, _⟩; exact h
    | err e t => rintro ⟨t1, l1, rfl, _⟩; exact h
    | ub => exact fun _ => trivial
    | fuel => exact fun _ => trivial
  · unfold consumeOne at hc
    cases h1 : handleInput E.pe s.ps s.inb with
    | ok r p => rw [h1] at hc; cases hc; exact h
    | err e p => rw [h1] at hc; cases hc
    | ub => rw [h1] at hc; cases hc
    | fuel => rw [h1] at hc; cases hc
  · unfold consumeOne at hc
    cases h1 : handleInput E.pe s.ps s.inb with
    | ok r p => rw [h1] at hc; cases hc
    | err e p => rw [h1] at hc; cases hc; exact h
    | ub => rw [h1] at hc; cases hc
    | fuel => rw [h1] at hc; cases hc
  · unfold queueFrame
    have hp := createLink_eff E f.frame.channel s
    revert hp
    obtain ⟨b, t⟩ := createLink E f.frame.channel s
    rintro ⟨a, p, hp⟩
    dsimp only at hp
    subst hp
    cases b <;> exact h
  · unfold sockSend
    split
    · rename_i ho; rw [h] at ho; cases ho
    · exact h
  · have h1 := restartSend_eff E s
    revert h1
    cases restartSend E s with
    | ok x t => rintro ⟨t1, l1, rfl, _⟩; exact h
    | err e t => rintro ⟨t1, l1, rfl, _⟩; exact h
    | ub => exact fun _ => trivial
    | fuel => exact fun _ => trivial
  · unfold putBackFrame
    have hp := createLink_eff E f.frame.channel s
    revert hp
    obtain ⟨b, t⟩ := createLink E f.frame.channel s
    rintro ⟨a, p, hp⟩
    dsimp only at hp
    subst hp
    cases b <;> exact h
  · unfold sockClose
    rw [if_pos h]; exact h
  · obtain ⟨l, h1, _⟩ := maybeReleaseOn_ext ch s
    rw [h1]; exact h

theorem shut_login (E : NetEnv) : LoginClosed E (fun s => s.isOpen = false) (fun _ _ => True) where
  toUpper := (shut_closed E).upper
  allocs := fun _ _ h => h
  publishCheck := publishCheck_closed (shut_closed E).upper fun h => (shut_closed E).tryRecv h
  tune := fun cm fm hb mem h => tune_all fun ps hh a b m len l hl _ => h
  setServer := fun _ h => h
  setClient := fun _ _ h => h

theorem trySend_shut {E : NetEnv} (deadline flags len n : Nat) (left : Bytes) {s : Conn} (h : s.isOpen = false) :
    trySend E deadline flags len (n + 1) left s = .err St.SOCKET_CLOSED s := by
  unfold trySend sockSend
  rw [if_neg (by rw [h]; decide)]
  dsimp only
  rw [if_neg (by decide)]
  unfold doPoll
  rw [if_pos h]
  dsimp only
  rw [if_neg (by decide)]

theorem sendFrame_shut {E : NetEnv} (f : AFrame) (flags deadline : Nat) {s s' : Conn} (h : s.isOpen = false) :
    sendFrame E f flags deadline s ≠ .ok () s' := by
  intro hs
  unfold sendFrame at hs
  cases h1 : frameToBytes E.pe.be s.outMem s.outLen f with
  | err e mem => rw [h1] at hs; cases hs
  | ub => rw [h1] at hs; cases hs
  | fuel => rw [h1] at hs; cases hs
  | ok enc mem =>
    rw [h1] at hs
    dsimp only at hs
    cases hn : E.fuel with
    | zero => rw [hn] at hs; cases hs
    | succ n =>
      rw [hn] at hs
      unfold sendLoop at hs
      dsimp only at hs
      rw [hn, trySend_shut] at hs
      · cases hs
      · exact h

end Rmq
