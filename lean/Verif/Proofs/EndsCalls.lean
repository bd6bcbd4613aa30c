import Verif.Proofs.Ends
import Verif.Proofs.Silent
import Verif.Proofs.Waits
import Verif.Proofs.ApiClosed
import Verif.Proofs.Deliver
import Verif.Proofs.Kept
/-!
# Every call ends once the network gives out: waiting, publishing, consuming, login
-/
namespace Rmq

variable {E : NetEnv} {K : Nat}

/-- Heartbeats are on and those of the server will be overdue from event `K` on. -/
structure Watched (E : NetEnv) (K h : Nat) (s : Conn) : Prop where
  on : 0 < s.heartbeat
  hb : s.heartbeat ≤ h
  fin : s.nextRecv ≤ TIME_INF
  next : ∀ t, K ≤ t → E.clock t ≠ 0 → s.nextRecv < E.clock t

/-- Nothing is received after event `K0`, and the clock goes on. -/
def Mute (E : NetEnv) (K0 K h : Nat) : Prop := (∀ t n, K0 ≤ t → ∃ k, E.recv t n = .fail k) ∧ TimePasses E K0 K h

theorem watched_recv {K0 h : Nat} (hW : Mute E K0 K h) {s t : Conn} (hs : Watched E K h s) (hb : t.heartbeat = s.heartbeat)
    (hn : t.nextRecv = s.nextRecv) (ht : t.time ≤ K0) : (restartRecv E t).All (Watched E K h) := by
  unfold restartRecv sFromNowIO
  rw [if_neg (by rw [hb]; have := hs.on; omega)]
  dsimp only
  by_cases h0 : E.clock t.time = 0
  · rw [if_pos h0]
    exact ⟨by show 0 < t.heartbeat; rw [hb]; exact hs.on, by show t.heartbeat ≤ h; rw [hb]; exact hs.hb,
      by show t.nextRecv ≤ TIME_INF; rw [hn]; exact hs.fin, by show ∀ u, K ≤ u → E.clock u ≠ 0 → t.nextRecv < E.clock u; rw [hn]; exact hs.next⟩
  rw [if_neg h0]
  have key : ∀ u, K ≤ u → E.clock u ≠ 0 →
      (E.clock t.time + (2 * t.heartbeat).toNat * 1000000000 % 2 ^ 64) % 2 ^ 64 < E.clock u := by
    intro u hu hc
    have h1 := hW.2 t.time u ht hu hc
    have h2 : (2 * t.heartbeat).toNat ≤ 2 * h := by rw [hb]; have := hs.hb; omega
    have h3 : (2 * t.heartbeat).toNat * 1000000000 ≤ 2 * h * 1000000000 := Nat.mul_le_mul_right _ h2
    have h4 := Nat.mod_le ((2 * t.heartbeat).toNat * 1000000000) (2 ^ 64)
    have h5 := Nat.mod_le (E.clock t.time + (2 * t.heartbeat).toNat * 1000000000 % 2 ^ 64) (2 ^ 64)
    omega
  have fin : (E.clock t.time + (2 * t.heartbeat).toNat * 1000000000 % 2 ^ 64) % 2 ^ 64 ≤ TIME_INF :=
    Nat.le_sub_one_of_lt (Nat.mod_lt _ (by decide))
  split
  · next h1 => exact ⟨by show 0 < t.heartbeat; rw [hb]; exact hs.on, by show t.heartbeat ≤ h; rw [hb]; exact hs.hb, fin, key⟩
  · exact ⟨by show 0 < t.heartbeat; rw [hb]; exact hs.on, by show t.heartbeat ≤ h; rw [hb]; exact hs.hb, fin, key⟩

theorem watched_closed {K0 h : Nat} (hW : Mute E K0 K h) : Closed E (Watched E K h) (fun _ _ => True) := by
  have same : ∀ {s t : Conn}, Watched E K h s → t.heartbeat = s.heartbeat → t.nextRecv = s.nextRecv → Watched E K h t := by
    intro s t hs h1 h2
    exact ⟨by rw [h1]; exact hs.on, by rw [h1]; exact hs.hb, by rw [h2]; exact hs.fin, by rw [h2]; exact hs.next⟩
  refine ⟨⟨⟨fun _ h => same h rfl rfl, fun {s} b hr h => ?_⟩, fun {s s' f} h hc => ?_, fun {s s' e} h hc => ?_, fun {s f} _ h => ?_⟩,
    fun {s} b fl h => ?_, fun {s} h => ?_, fun _ h => same h rfl rfl, fun {s f} _ h => ?_, fun h _ => ⟨same h rfl rfl, trivial⟩,
    fun {s} h => ?_, fun {s} ch h => ?_⟩
  · refine watched_recv hW h rfl rfl ?_
    have ht : s.log.length < K0 := Nat.lt_of_not_le fun hK => by
      obtain ⟨k, hk⟩ := hW.1 s.time s.received hK
      rw [hr] at hk; cases hk
    simp only [Conn.time, Conn.push, List.length_append, List.length_singleton]
    omega
  · refine ⟨?_, fun _ _ => trivial⟩
    unfold consumeOne at hc
    cases h1 : handleInput E.pe s.ps s.inb with
    | ok r p => rw [h1] at hc; cases hc; exact same h rfl rfl
    | err e p => rw [h1] at hc; cases hc
    | ub => rw [h1] at hc; cases hc
    | fuel => rw [h1] at hc; cases hc
  · unfold consumeOne at hc
    cases h1 : handleInput E.pe s.ps s.inb with
    | ok r p => rw [h1] at hc; cases hc
    | err e p => rw [h1] at hc; cases hc; exact same h rfl rfl
    | ub => rw [h1] at hc; cases hc
    | fuel => rw [h1] at hc; cases hc
  · unfold queueFrame
    obtain ⟨a, p, hp⟩ := createLink_eff E f.frame.channel s
    revert hp
    obtain ⟨b, s1⟩ := createLink E f.frame.channel s
    intro hp
    dsimp only at hp
    subst hp
    cases b <;> exact same h rfl rfl
  · unfold sockSend
    split
    · cases E.send s.time b <;> exact same h rfl rfl
    · exact h
  · refine (restartSend_eff E s).mono ?_
    rintro v ⟨t, l, rfl, _⟩
    exact same h rfl rfl
  · unfold putBackFrame
    obtain ⟨a, p, hp⟩ := createLink_eff E f.frame.channel s
    revert hp
    obtain ⟨b, s1⟩ := createLink E f.frame.channel s
    intro hp
    dsimp only at hp
    subst hp
    cases b <;> exact same h rfl rfl
  · unfold sockClose
    split
    · exact h
    · split <;> exact same h rfl rfl
  · obtain ⟨l, h1, _⟩ := maybeReleaseOn_ext ch s
    rw [h1]
    exact same h rfl rfl

theorem Closed.ex {P : (Conn → Prop) → Prop} (h : ∀ I, P I → Closed E I (fun _ _ => True)) :
    Closed E (fun s => ∃ I, P I ∧ I s) (fun _ _ => True) := by
  have up : ∀ {α : Type} {I : Conn → Prop} {r : Res Conn α}, P I → r.All I → r.All (fun s => ∃ I, P I ∧ I s) :=
    fun hP hr => hr.mono fun s hs => ⟨_, hP, hs⟩
  refine ⟨⟨⟨?_, ?_⟩, ?_, ?_, ?_⟩, ?_, ?_, ?_, ?_, ?_, ?_, ?_⟩
  · rintro s e he ⟨I, hP, hs⟩; exact ⟨I, hP, (h I hP).ev he hs⟩
  · rintro s b hr ⟨I, hP, hs⟩; exact up hP ((h I hP).recv b hr hs)
  · rintro s s' f ⟨I, hP, hs⟩ hc; exact ⟨⟨I, hP, ((h I hP).consume hs hc).1⟩, fun _ _ => trivial⟩
  · rintro s s' e ⟨I, hP, hs⟩ hc; exact ⟨I, hP, (h I hP).consumeErr hs hc⟩
  · rintro s f _ ⟨I, hP, hs⟩; exact up hP ((h I hP).queue trivial hs)
  · rintro s b fl ⟨I, hP, hs⟩; exact ⟨I, hP, (h I hP).send b fl hs⟩
  · rintro s ⟨I, hP, hs⟩; exact up hP ((h I hP).restartSend hs)
  · rintro s m ⟨I, hP, hs⟩; exact ⟨I, hP, (h I hP).outMem m hs⟩
  · rintro s f _ ⟨I, hP, hs⟩; exact up hP ((h I hP).putBack trivial hs)
  · rintro s a rest f ⟨I, hP, hs⟩ hq; exact ⟨⟨I, hP, ((h I hP).pop hs hq).1⟩, trivial⟩
  · rintro s ⟨I, hP, hs⟩; exact ⟨I, hP, (h I hP).close hs⟩
  · rintro s ch ⟨I, hP, hs⟩; exact ⟨I, hP, (h I hP).release ch hs⟩

theorem Closed.and {I I' : Conn → Prop} (h : Closed E I (fun _ _ => True)) (h' : Closed E I' (fun _ _ => True)) :
    Closed E (fun s => I s ∧ I' s) (fun _ _ => True) := by
  have both : ∀ {α : Type} {r : Res Conn α}, r.All I → r.All I' → r.All (fun s => I s ∧ I' s) := by
    intro α r h1 h2
    cases r with
    | ok a t => exact ⟨h1, h2⟩
    | err a t => exact ⟨h1, h2⟩
    | ub => trivial
    | fuel => trivial
  refine ⟨⟨⟨?_, ?_⟩, ?_, ?_, ?_⟩, ?_, ?_, ?_, ?_, ?_, ?_, ?_⟩
  · rintro s e he ⟨a, b⟩; exact ⟨h.ev he a, h'.ev he b⟩
  · rintro s b hr ⟨x, y⟩; exact both (h.recv b hr x) (h'.recv b hr y)
  · rintro s s' f ⟨a, b⟩ hc; exact ⟨⟨(h.consume a hc).1, (h'.consume b hc).1⟩, fun _ _ => trivial⟩
  · rintro s s' e ⟨a, b⟩ hc; exact ⟨h.consumeErr a hc, h'.consumeErr b hc⟩
  · rintro s f _ ⟨a, b⟩; exact both (h.queue trivial a) (h'.queue trivial b)
  · rintro s x fl ⟨a, b⟩; exact ⟨h.send x fl a, h'.send x fl b⟩
  · rintro s ⟨a, b⟩; exact both (h.restartSend a) (h'.restartSend b)
  · rintro s m ⟨a, b⟩; exact ⟨h.outMem m a, h'.outMem m b⟩
  · rintro s f _ ⟨a, b⟩; exact both (h.putBack trivial a) (h'.putBack trivial b)
  · rintro s x rest f ⟨a, b⟩ hq; exact ⟨⟨(h.pop a hq).1, (h'.pop b hq).1⟩, trivial⟩
  · rintro s ⟨a, b⟩; exact ⟨h.close a, h'.close b⟩
  · rintro s ch ⟨a, b⟩; exact ⟨h.release ch a, h'.release ch b⟩

/-- Why waiting will not go on for ever: the connection will be lost, or it has no heartbeats, or those of the server will be overdue. -/
def Cause (E : NetEnv) (K : Nat) (A : Conn → Prop) : Prop :=
  (LostFrom E K ∧ A = fun s => (fun _ : Conn => ()) s = ()) ∨ A = HbOff ∨ ∃ K0 h, Mute E K0 K h ∧ A = Watched E K h

/-- From event `K` on nothing can be sent. -/
def Refuses (E : NetEnv) (K : Nat) : Prop := ∀ t b, K ≤ t → ∃ k, E.send t b = .fail k

/-- Why sending will not go on for ever: it will be refused, or frames can carry something. -/
def Room (E : NetEnv) (K : Nat) (B : Conn → Prop) : Prop :=
  (Refuses E K ∧ B = fun s => (fun _ : Conn => ()) s = ()) ∨ ∃ c, usablePayload c ≠ 0 ∧ B = fun s => s.frameMax = c

def Alive (E : NetEnv) (K : Nat) (s : Conn) : Prop := ∃ I : Conn → Prop, (∃ A B, Cause E K A ∧ Room E K B ∧ I = fun s => A s ∧ B s) ∧ I s

theorem Alive.lost (h : LostFrom E K) (s : Conn) : Alive E K s :=
  ⟨_, ⟨_, _, Or.inl ⟨h, rfl⟩, Or.inl ⟨fun t b ht => (h.send t b ht).imp fun _ h => h.1, rfl⟩, rfl⟩, rfl, rfl⟩
theorem Alive.off {s : Conn} (h : HbOff s) (hr : usablePayload s.frameMax ≠ 0) : Alive E K s :=
  ⟨_, ⟨_, _, Or.inr (Or.inl rfl), Or.inr ⟨_, hr, rfl⟩, rfl⟩, h, rfl⟩
theorem Alive.watched {K0 h : Nat} {s : Conn} (hW : Mute E K0 K h) (hs : Watched E K h s) (hr : usablePayload s.frameMax ≠ 0) : Alive E K s :=
  ⟨_, ⟨_, _, Or.inr (Or.inr ⟨K0, h, hW, rfl⟩), Or.inr ⟨_, hr, rfl⟩, rfl⟩, hs, rfl⟩
theorem Alive.room {s : Conn} (h : Alive E K s) : Refuses E K ∨ usablePayload s.frameMax ≠ 0 := by
  obtain ⟨I, ⟨A, B, _, hB, rfl⟩, _, hb⟩ := h
  rcases hB with ⟨h, _⟩ | ⟨c, h, rfl⟩
  · exact Or.inl h
  · have hb : s.frameMax = c := hb
    subst hb
    exact Or.inr h

theorem alive_closed (E : NetEnv) (K : Nat) : Closed E (Alive E K) (fun _ _ => True) := by
  refine Closed.ex fun I hI => ?_
  obtain ⟨A, B, hA, hB, rfl⟩ := hI
  refine Closed.and ?_ ?_
  · rcases hA with ⟨_, rfl⟩ | rfl | ⟨K0, h, hW, rfl⟩
    · exact field_closed E (fun _ => ()) () fun _ _ _ _ _ _ _ _ _ => rfl
    · exact off_closed E
    · exact watched_closed hW
  · rcases hB with ⟨_, rfl⟩ | ⟨c, _, rfl⟩
    · exact field_closed E (fun _ => ()) () fun _ _ _ _ _ _ _ _ _ => rfl
    · exact field_closed E (fun s => s.frameMax) c fun _ _ _ _ _ _ _ _ _ => rfl

theorem Alive.allocs {s : Conn} (n : Nat) (p : List UInt16) (h : Alive E K s) :
    Alive E K { s with ps := { s.ps with allocs := n, pools := p } } := by
  obtain ⟨I, ⟨A, B, hA, hB, rfl⟩, ha, hb⟩ := h
  refine ⟨_, ⟨A, B, hA, hB, rfl⟩, ?_, ?_⟩
  · rcases hA with ⟨_, rfl⟩ | rfl | ⟨K0, h, hW, rfl⟩
    · rfl
    · exact ha
    · exact ⟨ha.on, ha.hb, ha.fin, ha.next⟩
  · rcases hB with ⟨_, rfl⟩ | ⟨c, _, rfl⟩
    · rfl
    · exact hb

theorem alive_api (E : NetEnv) (K : Nat) : ApiClosed E (Alive E K) (fun _ _ => True) where
  toUpper := (alive_closed E K).upper
  allocs := fun n p h => h.allocs n p
  publishCheck := publishCheck_closed (alive_closed E K).upper fun h => (alive_closed E K).tryRecv h

/-! ### Steps that receive nothing -/

theorem Later.release (ch : UInt16) (s : Conn) : Later s (maybeReleaseOn ch s) := by
  obtain ⟨l, h, _⟩ := maybeReleaseOn_ext ch s
  rw [h]; exact .ext s l
theorem Later.releaseAll (s : Conn) : Later s (maybeRelease s) := by
  obtain ⟨l, h, _⟩ := maybeRelease_ext s
  rw [h]; exact .ext s l
theorem Later.close (E : NetEnv) (s : Conn) : Later s (sockClose E s).2 := by
  unfold sockClose
  split
  · exact .refl s
  · split
    · exact ⟨by show s.time ≤ (Conn.push _ _).time; simp [Conn.time, Conn.push], rfl, rfl, rfl⟩
    · exact .push s _
theorem Later.allocs (s : Conn) (n : Nat) (p : List UInt16) : Later s { s with ps := { s.ps with allocs := n, pools := p } } :=
  ⟨Nat.le_refl _, rfl, rfl, rfl⟩
theorem hasPastIO_later (E : NetEnv) (t : Nat) (s : Conn) : Later s (hasPastIO E t s).2 := by
  obtain ⟨l, h, hl⟩ := hasPastIO_ext E t s
  rw [h]; exact .ext s l

/-! ### Waiting -/

/-- When nothing arrives the heartbeat timers stand still. -/
theorem recvWithTimeout_still (H : Stops E K) (to n : Nat) {s : Conn} (hK : K ≤ s.time) :
    (recvWithTimeout E to n s).All fun u => K ≤ u.time ∧ u.nextRecv = s.nextRecv ∧ u.nextSend = s.nextSend := by
  have hc : ClosedIO E (fun u => K ≤ u.time ∧ u.nextRecv = s.nextRecv ∧ u.nextSend = s.nextSend) := by
    refine ⟨fun {v e} _ h => ⟨?_, h.2⟩, fun {v} b hr h => ?_⟩
    · have := Conn.time_push v e; have := h.1; omega
    · obtain ⟨k, hk⟩ := H.recv v.time v.received h.1
      rw [hr] at hk; cases hk
  exact hc.recvWithTimeout to n ⟨hK, rfl, rfl⟩

/-- What is known before octets are received. -/
def Prompt (K : Nat) (s t : Conn) : Prop :=
  t.load K + 1 ≤ s.load K ∨ t.time < K ∨ (K ≤ t.time ∧ t.nextRecv ≤ TIME_INF ∧ (t.nextRecv < t.nextSend ∨ t.nextSend = TIME_INF))

theorem hasPastIO_prompt {h : Nat} {s : Conn} (hs : Watched E K h s) (h1 : (hasPastIO E s.nextSend s).1 ≠ St.TIMER_FAILURE)
    (h2 : (hasPastIO E s.nextSend s).1 ≠ St.TIMEOUT) : Prompt K s (hasPastIO E s.nextSend s).2 := by
  unfold hasPastIO at h1 h2 ⊢
  by_cases hi : TIME_INF = s.nextSend
  · rw [if_pos hi]
    by_cases hK : K ≤ s.time
    · exact Or.inr (Or.inr ⟨hK, hs.fin, Or.inr hi.symm⟩)
    · exact Or.inr (Or.inl (Nat.lt_of_not_le hK))
  · rw [if_neg hi] at h1 h2 ⊢
    unfold hasPast at h1 h2
    rw [if_neg hi] at h1 h2
    have ht : (readClock E s).2 = s.ext [_] := readClock_ext E s
    have htm : (readClock E s).2.time = s.time + 1 := by rw [ht, Conn.time_ext]; rfl
    by_cases hK : K ≤ s.time
    · have h0 : E.clock s.time ≠ 0 := fun h0 => by dsimp only at h1; rw [if_pos h0] at h1; exact h1 rfl
      have hle : ¬ E.clock s.time > s.nextSend := fun h3 => by dsimp only at h2; rw [if_neg h0, if_pos h3] at h2; exact h2 rfl
      have hlt := hs.next s.time hK h0
      refine Or.inr (Or.inr ⟨by show K ≤ (readClock E s).2.time; omega, hs.fin, Or.inl ?_⟩)
      show s.nextRecv < s.nextSend
      omega
    · refine Or.inl ?_
      have hl : Later s (readClock E s).2 := by rw [ht]; exact .ext s _
      exact hl.loadLt (by omega) (by omega)

theorem Worked.prompt {h : Nat} {s s1 t : Conn} (hW : Watched E K h s1) (hl : s1.load K ≤ s.load K) (hs : Worked E K s1 t) : Prompt K s t := by
  rcases hs with hs | ⟨_, _, u, hK, hn, hb, hr⟩
  · exact Or.inl (by omega)
  refine Or.inr (Or.inr ?_)
  have hlater := restartSend_later E u
  rw [hr] at hlater
  have hlater : Later u t := hlater
  refine ⟨Nat.le_trans hK hlater.time, ?_⟩
  unfold restartSend sFromNowIO at hr
  rw [if_neg (by rw [hb]; have := hW.on; omega)] at hr
  dsimp only at hr
  by_cases h0 : E.clock u.time = 0
  · rw [if_pos h0] at hr
    dsimp only at hr
    rw [if_neg (by decide)] at hr
    cases hr
  rw [if_neg h0] at hr
  split at hr
  · dsimp only at hr
    rw [if_neg (by decide)] at hr
    cases hr
  · next hc =>
    dsimp only at hr
    rw [if_pos rfl] at hr
    cases hr
    have h2 := hW.next u.time hK h0
    have h3 := hW.fin
    refine ⟨by show u.nextRecv ≤ TIME_INF; rw [hn]; exact h3, Or.inl ?_⟩
    show u.nextRecv < (E.clock u.time + u.heartbeat.toNat * 1000000000 % 2 ^ 64) % 2 ^ 64
    rw [hn]
    omega

theorem Prompt.round (H : Stops E K) {s t u : Conn} {d : Nat} (hp : Prompt K s t) (hl : u.load K ≤ t.load K) (hst : t.load K ≤ s.load K)
    (hf : K - t.time < E.fuel)
    (h : recvWithTimeout E (timeFirst d (timeFirst t.nextRecv t.nextSend)) E.fuel t = .err St.TIMEOUT u)
    (hr : ¬ timeEqual (timeFirst d (timeFirst t.nextRecv t.nextSend)) u.nextRecv = true)
    (hn : timeEqual (timeFirst d (timeFirst t.nextRecv t.nextSend)) u.nextSend = true) : u.load K + 1 ≤ s.load K := by
  rcases hp with h1 | h1 | ⟨hK, hfin, h1⟩
  · omega
  · have := recvWithTimeout_before H h1 _ _ _ hf hf h
    omega
  · exfalso
    have h2 := recvWithTimeout_still H (timeFirst d (timeFirst t.nextRecv t.nextSend)) E.fuel hK
    rw [h] at h2
    obtain ⟨_, h3, h4⟩ := h2
    rw [h3] at hr
    rw [h4] at hn
    unfold timeEqual at hr hn
    simp only [beq_iff_eq] at hr hn
    unfold timeFirst at hr hn
    rcases h1 with h1 | h1
    · rw [if_pos h1] at hn hr
      split at hn <;> omega
    · rw [h1] at hn hr
      split at hn <;> split at hn <;> split at hr <;> omega

theorem beginRecv_dec (H : Stops E K) (d : Nat) {s : Conn} (hs : Alive E K s) (hf : s.load K < E.fuel) :
    Dec K Any 1 2 (s.load K) (beginRecv E d s) := by
  unfold beginRecv
  have h1 := (hasPastIO_later E s.nextSend s).load (K := K)
  have hoff : HbOff s → (hasPastIO E s.nextSend s).1 ≠ St.TIMEOUT ∧ HbOff (hasPastIO E s.nextSend s).2 := by
    intro h
    rw [h.2.1]
    exact ⟨fun h => absurd (show St.OK = St.TIMEOUT from h) (by decide), h⟩
  have hprompt := fun h (hW : Watched E K h s) => hasPastIO_prompt hW
  have hkept : ∀ h, Watched E K h s → Watched E K h (hasPastIO E s.nextSend s).2 := by
    intro h hW
    obtain ⟨l, hl, _⟩ := hasPastIO_ext E s.nextSend s
    rw [hl]
    exact ⟨hW.on, hW.hb, hW.fin, hW.next⟩
  revert h1 hoff hprompt hkept
  obtain ⟨res, s1⟩ := hasPastIO E s.nextSend s
  intro h1 hoff hprompt hkept
  dsimp only at h1 hoff hprompt hkept ⊢
  by_cases ht : res = St.TIMER_FAILURE
  · rw [if_pos ht, Dec.err_iff]; exact ⟨by omega, trivial⟩
  rw [if_neg ht]
  have h2 : Dec K Any 0 2 (s.load K) (if res = St.TIMEOUT then sendFrame E ⟨0, .heartbeat⟩ SF_NONE TIME_INF s1 else .ok () s1) := by
    by_cases hr : res = St.TIMEOUT
    · rw [if_pos hr]; exact (sendFrame_dec H _ _ _ s1 (by omega)).weaken (by omega) (by omega)
    · rw [if_neg hr, Dec.ok_iff]; exact ⟨by omega, trivial⟩
  have h3 : HbOff s → ∀ t, (if res = St.TIMEOUT then sendFrame E ⟨0, .heartbeat⟩ SF_NONE TIME_INF s1 else .ok () s1) = .ok () t → HbOff t := by
    intro h t
    rw [if_neg (hoff h).1]
    intro h'
    cases h'
    exact (hoff h).2
  have hw : ∀ h, Watched E K h s → ∀ t, (if res = St.TIMEOUT then sendFrame E ⟨0, .heartbeat⟩ SF_NONE TIME_INF s1 else .ok () s1) = .ok () t →
      Prompt K s t := by
    intro h hW t
    by_cases hr : res = St.TIMEOUT
    · rw [if_pos hr]
      intro ho
      have h5 := sendFrame_sent H ⟨0, .heartbeat⟩ SF_NONE TIME_INF s1 (by omega)
      rw [ho] at h5
      exact Worked.prompt (hkept h hW) h1 h5
    · rw [if_neg hr]
      intro ho
      cases ho
      exact hprompt h hW ht hr
  revert h2 h3 hw
  cases (if res = St.TIMEOUT then sendFrame E ⟨0, .heartbeat⟩ SF_NONE TIME_INF s1 else .ok () s1) with
  | err e t => exact fun h2 _ _ => h2
  | ub => exact fun h2 _ _ => h2
  | fuel => exact fun h2 _ _ => h2
  | ok a t =>
    intro h2 h3 hw
    rw [Dec.ok_iff] at h2
    dsimp only
    have htm := load_le_time (K := K) t
    have h4 := recvWithTimeout_dec H (timeFirst d (timeFirst t.nextRecv t.nextSend)) E.fuel t (by omega) (by omega)
    have h5 := fun hL u => recvWithTimeout_late (E := E) (K := K) hL (timeFirst d (timeFirst t.nextRecv t.nextSend)) E.fuel t u (by omega) (by omega)
    have h6 := fun ho : HbOff t => (off_closed E).recvWithTimeout (timeFirst d (timeFirst t.nextRecv t.nextSend)) E.fuel ho
    revert h4 h5 h6
    cases hrw : recvWithTimeout E (timeFirst d (timeFirst t.nextRecv t.nextSend)) E.fuel t with
    | ok x u =>
      intro h4 _ _
      rw [Dec.ok_iff] at h4
      dsimp only
      rw [Dec.ok_iff]
      exact ⟨by omega, trivial⟩
    | ub => exact fun h4 _ _ => h4
    | fuel => exact fun h4 _ _ => h4
    | err e u =>
      intro h4 h5 h6
      rw [Dec.err_iff] at h4
      dsimp only
      by_cases he : e = St.TIMEOUT
      · rw [if_pos he]
        subst he
        by_cases hr : timeEqual (timeFirst d (timeFirst t.nextRecv t.nextSend)) u.nextRecv = true
        · rw [if_pos hr, Dec.err_iff]
          have := (Later.close E u).load (K := K)
          exact ⟨by omega, trivial⟩
        rw [if_neg hr]
        by_cases hd : timeEqual (timeFirst d (timeFirst t.nextRecv t.nextSend)) d = true
        · rw [if_pos hd, Dec.err_iff]; exact ⟨by omega, trivial⟩
        rw [if_neg hd]
        by_cases hn : timeEqual (timeFirst d (timeFirst t.nextRecv t.nextSend)) u.nextSend = true
        · rw [if_pos hn, Dec.ok_iff]
          obtain ⟨I, ⟨A, B, hA, _, rfl⟩, ho, _⟩ := hs
          rcases hA with ⟨hL, _⟩ | rfl | ⟨K0, h, hW, rfl⟩
          · have := h5 hL u rfl
            exact ⟨by omega, trivial⟩
          · have ho1 := h3 ho t rfl
            have ho2 : HbOff u := h6 ho1
            rw [ho2.2.1] at hn
            rw [ho2.2.2] at hr
            exact absurd hn hr
          · exact ⟨(hw h ho t rfl).round H h4.1 (by omega) (by omega) hrw hr hn, trivial⟩
        · rw [if_neg hn]; trivial
      · rw [if_neg he, Dec.err_iff]; exact ⟨by omega, trivial⟩

theorem Dec.alive {α : Type} {d e b : Nat} {r : Res Conn α} (h : Dec K Any d e b r) (hI : r.All (Alive E K)) : Dec K (Alive E K) d e b r :=
  h.and hI

theorem waitInner_dec (H : Stops E K) (d : Nat) : ∀ (n : Nat) (b : Bool) (s : Conn), Alive E K s → s.load K < n → s.load K < E.fuel →
    Dec K Any 2 2 (s.load K) (waitInner E d n b s) := by
  intro n
  induction n with
  | zero => intro b s _ h; omega
  | succ n ih =>
    intro b s hs hn hf
    unfold waitInner
    by_cases hb : b = false ∧ s.inb ≠ []
    · rw [if_pos hb]
      have h1 := consumeOne_dec (E := E) K hb.2
      have h2 := fun f t => (alive_closed E K).consume (s := s) (s' := t) (f := f) hs
      revert h1 h2
      cases consumeOne E s with
      | err e t => exact fun h1 _ => h1
      | ub => exact fun h1 _ => h1
      | fuel => exact fun h1 _ => h1
      | ok f t =>
        intro h1 h2
        have h3 : Alive E K t := (h2 f t rfl).1
        rw [Dec.ok_iff] at h1
        cases f with
        | none => exact (ih false t h3 (by omega) (by omega)).weaken (by omega) (by omega)
        | some f =>
          have h4 := (Later.release 0 t).load (K := K)
          have h5 := (ih false (maybeReleaseOn 0 t) ((alive_closed E K).release 0 h3) (by omega) (by omega)).weaken
            (d' := 2) (e' := 2) (b' := s.load K) (by omega) (by omega)
          dsimp only
          cases f.frame.payload with
          | heartbeat => exact h5
          | method id args => exact h1
          | header a b c d => exact h1
          | body b => exact h1
          | _ => exact h1
    · rw [if_neg hb]
      have h1 := beginRecv_dec H d hs hf
      have h2 := (alive_closed E K).beginRecv d hs
      revert h1 h2
      cases beginRecv E d s with
      | err e t => exact fun h1 _ => h1
      | ub => exact fun h1 _ => h1
      | fuel => exact fun h1 _ => h1
      | ok a t =>
        intro h1 h2
        rw [Dec.ok_iff] at h1
        exact (ih a t h2 (by omega) (by omega)).weaken (by omega) (by omega)

theorem waitFrameInner_dec (H : Stops E K) (d : Nat) {s : Conn} (hs : Alive E K s) (hf : s.load K < E.fuel) :
    Dec K (Alive E K) 2 2 (s.load K) (waitFrameInner E d s) :=
  (waitInner_dec H d E.fuel false s hs hf hf).and ((alive_closed E K).waitFrameInner d hs).all

unseal Conn.load in
theorem pop_load (K : Nat) {s : Conn} {a rest : List DFrame} {f : DFrame} (h : s.queue = a ++ f :: rest) :
    ({ s with queue := rest } : Conn).load K + 1 ≤ s.load K := by
  show (K - s.time) * 262145 + 2 * s.inb.length + (if s.ps.full = true then 2 else 0) + rest.length + 1 ≤ _
  unfold Conn.load
  rw [h, List.length_append, List.length_cons]
  omega

theorem waitFrame_dec (H : Stops E K) (tv : Option TimeVal) {s : Conn} (hs : Alive E K s) (hf : s.load K < E.fuel) :
    Dec K (Alive E K) 1 2 (s.load K) (waitFrame E tv s) := by
  rw [waitFrame_def]
  have h1 := (Dec.quiet (K := K) (fromNowIO_quiet E tv s) (fromNowIO_ends E tv s)).and
    ((alive_closed E K).quietAll hs (fromNowIO_quiet E tv s))
  revert h1
  cases fromNowIO E tv s with
  | err e t => intro h1; rw [Dec.err_iff] at h1 ⊢; exact ⟨by omega, h1.2⟩
  | ub => exact id
  | fuel => exact id
  | ok d t =>
    intro h1
    rw [Dec.ok_iff] at h1
    dsimp only
    cases hq : t.queue with
    | nil => exact (waitFrameInner_dec H d h1.2 (by omega)).weaken (by omega) (by omega)
    | cons f rest =>
      dsimp only
      rw [Dec.ok_iff]
      have := pop_load K (s := t) (a := []) hq
      exact ⟨by omega, ((alive_closed E K).pop (a := []) h1.2 hq).1⟩

theorem waitOnLoop_dec (H : Stops E K) (ch : UInt16) : ∀ (n : Nat) (s : Conn), Alive E K s → s.load K < n → s.load K < E.fuel →
    Dec K (Alive E K) 1 2 (s.load K) (waitOnLoop E ch n s) := by
  intro n
  induction n with
  | zero => intro s _ h; omega
  | succ n ih =>
    intro s hs hn hf
    unfold waitOnLoop
    have h1 := waitFrameInner_dec H TIME_INF hs hf
    revert h1
    cases waitFrameInner E TIME_INF s with
    | err e t => exact id
    | ub => exact id
    | fuel => exact id
    | ok f t =>
      intro h1
      rw [Dec.ok_iff] at h1
      dsimp only
      by_cases hc : f.frame.channel = ch
      · rw [if_pos hc, Dec.ok_iff]; exact ⟨by omega, h1.2⟩
      rw [if_neg hc]
      have h2 := (queueFrame_dec E K f t).and ((alive_closed E K).queue (f := f) trivial h1.2)
      revert h2
      cases queueFrame E f t with
      | err e u => intro h2; rw [Dec.err_iff] at h2 ⊢; exact ⟨by omega, h2.2⟩
      | ub => exact id
      | fuel => exact id
      | ok x u =>
        intro h2
        rw [Dec.ok_iff] at h2
        exact (ih u h2.2 (by omega) (by omega)).weaken (by omega) (by omega)

theorem waitFrameOn_dec (H : Stops E K) (ch : UInt16) {s : Conn} (hs : Alive E K s) (hf : s.load K < E.fuel) :
    Dec K (Alive E K) 1 2 (s.load K) (waitFrameOn E ch s) := by
  unfold waitFrameOn
  cases hq : findQueued ch s.queue with
  | none => exact waitOnLoop_dec H ch E.fuel s hs hf hf
  | some p =>
    obtain ⟨f, rest⟩ := p
    obtain ⟨_, a, ha, _⟩ := findQueued_split hq
    dsimp only
    rw [Dec.ok_iff]
    exact ⟨pop_load K ha, ((alive_closed E K).pop hs ha).1⟩

theorem waitMethodList_dec (H : Stops E K) (ch : UInt16) (ex : List UInt32) (d : Nat) {s : Conn} (hs : Alive E K s) (hf : s.load K < E.fuel) :
    Dec K (Alive E K) 1 2 (s.load K) (waitMethodList E ch ex d s) := by
  unfold waitMethodList
  refine Dec.bind ((Dec.quiet (K := K) (tvUntilIO_quiet E d s) (tvUntilIO_ends E d s)).and
    ((alive_closed E K).quietAll hs (tvUntilIO_quiet E d s))) (Nat.zero_le 2) fun tv t ht hI => ?_
  refine Dec.bind ((waitFrame_dec H tv hI (by omega)).weaken (d' := 1) (e' := 2) (b' := s.load K) (by omega) (by omega)) (Nat.le_refl _)
    fun f u hu hI => ?_
  have fin : ∀ {α : Type} {r : Res Conn α}, (∃ a, r = .ok a u) ∨ (∃ e, r = .err e u) → Dec K (Alive E K) 1 2 (s.load K) r := by
    rintro α r (⟨a, rfl⟩ | ⟨e, rfl⟩)
    · exact ⟨hu, hI⟩
    · rw [Dec.err_iff]; exact ⟨by omega, hI⟩
  cases f.frame.payload with
  | method id args =>
    dsimp only
    by_cases hc : f.frame.channel = ch ∧ id ∈ ex
    · rw [if_pos hc]; exact fin (Or.inl ⟨_, rfl⟩)
    · rw [if_neg hc]; exact fin (Or.inr ⟨_, rfl⟩)
  | _ => exact fin (Or.inr ⟨_, rfl⟩)

theorem sendFrame_dec' (H : Stops E K) (f : AFrame) (fl dl : Nat) {s : Conn} (hs : Alive E K s) (hf : s.load K < E.fuel) :
    Dec K (Alive E K) 0 2 (s.load K) (sendFrame E f fl dl s) :=
  (sendFrame_dec H f fl dl s hf).and ((alive_closed E K).sendFrame f fl dl hs)

/-! ### Calls -/

/-- A call has ended, with at most two more units of load than `b`. -/
abbrev Done {α : Type} (E : NetEnv) (K b : Nat) (r : Res Conn α) : Prop := Dec K (Alive E K) 0 0 (b + 2) r

theorem Dec.done {α : Type} {d b : Nat} {r : Res Conn α} (h : Dec K (Alive E K) d 2 b r) : Done E K b r := h.weaken (by omega) (by omega)
theorem Done.okOf {α : Type} {b : Nat} {a : α} {t : Conn} (h : t.load K ≤ b + 2) (hI : Alive E K t) : Done E K b (.ok a t) := ⟨h, hI⟩
theorem Done.ofErr {α β : Type} {d b : Nat} {e : Int} {t u : Conn} {a : α} (h : Dec K (Alive E K) d 2 b (.err e t : Res Conn β)) (hl : Later t u)
    (hI : Alive E K u) : Done E K b (.ok a u) := by
  rw [Dec.err_iff] at h
  have := hl.load (K := K)
  exact ⟨by omega, hI⟩

theorem rpcLoop_done (H : Stops E K) (ch : UInt16) (ex : List UInt32) (d : Nat) : ∀ (n : Nat) (s : Conn), Alive E K s → s.load K < n →
    s.load K < E.fuel → Done E K (s.load K) (rpcLoop E ch ex d n s) := by
  intro n
  induction n with
  | zero => intro s _ h; omega
  | succ n ih =>
    intro s hs hn hf
    unfold rpcLoop
    have h1 := waitFrameInner_dec H d hs hf
    revert h1
    cases waitFrameInner E d s with
    | err e t =>
      intro h1
      dsimp only
      by_cases he : e = St.TIMEOUT
      · rw [if_pos he]; exact Done.ofErr h1 (Later.close E t) ((alive_closed E K).close h1.2)
      · rw [if_neg he]; exact Done.ofErr h1 (.refl t) h1.2
    | ub => exact id
    | fuel => exact id
    | ok f t =>
      intro h1
      rw [Dec.ok_iff] at h1
      dsimp only
      by_cases hc : endsRpc ch ex f.frame = true
      · rw [if_pos hc]
        cases f.frame.payload with
        | method id args => exact Done.okOf (by omega) h1.2
        | _ => trivial
      rw [if_neg hc]
      have h2 := (queueFrame_dec E K f t).and ((alive_closed E K).queue (f := f) trivial h1.2)
      revert h2
      cases queueFrame E f t with
      | err e u => intro h2; rw [Dec.err_iff] at h2; exact Done.okOf (by omega) h2.2
      | ub => exact id
      | fuel => exact id
      | ok x u =>
        intro h2
        rw [Dec.ok_iff] at h2
        exact (ih u h2.2 (by omega) (by omega)).weaken (by omega) (by omega)

theorem rpcInner_done (H : Stops E K) (ch : UInt16) (id : UInt32) (ex : List UInt32) (args : Rec) (d : Nat) {s : Conn} (hs : Alive E K s)
    (hf : s.load K < E.fuel) : Done E K (s.load K) (rpcInner E ch id ex args d s) := by
  unfold rpcInner sendMethod
  have h1 := sendFrame_dec' H ⟨ch, .method id args⟩ SF_NONE TIME_INF hs hf
  revert h1
  cases sendFrame E ⟨ch, .method id args⟩ SF_NONE TIME_INF s with
  | err e t => exact fun h1 => Done.ofErr h1 (.refl t) h1.2
  | ub => exact fun h => h
  | fuel => exact fun h => h
  | ok x t =>
    intro h1
    rw [Dec.ok_iff] at h1
    exact (rpcLoop_done H ch ex d E.fuel t h1.2 (by omega) (by omega)).weaken (by omega) (by omega)

theorem simpleRpc_done (H : Stops E K) (ch : UInt16) (id : UInt32) (ex : List UInt32) (args : Rec) {s : Conn} (hs : Alive E K s)
    (hf : s.load K < E.fuel) : Done E K (s.load K) (simpleRpc E ch id ex args s) := by
  unfold simpleRpc
  have h1 := (Dec.quiet (K := K) (fromNowIO_quiet E (getRpcTimeout s.timeouts) s) (fromNowIO_ends E _ s)).and
    ((alive_closed E K).quietAll hs (fromNowIO_quiet E (getRpcTimeout s.timeouts) s))
  revert h1
  cases fromNowIO E (getRpcTimeout s.timeouts) s with
  | err e t => intro h1; rw [Dec.err_iff] at h1; exact Done.okOf (by omega) h1.2
  | ub => exact fun h => h
  | fuel => exact fun h => h
  | ok d t =>
    intro h1
    rw [Dec.ok_iff] at h1
    exact (rpcInner_done H ch id ex args d h1.2 (by omega)).weaken (by omega) (by omega)

theorem sendHeaderInner_dec (H : Stops E K) (d : Nat) {s : Conn} (hs : Alive E K s) (hf : s.load K < E.fuel) :
    Dec K (Alive E K) 0 0 (s.load K) (sendHeaderInner E d s) := by
  unfold sendHeaderInner
  have ht := load_le_time (K := K) s
  have h1 := (Dec.later (K := K) (trySend_later E d SF_NONE 8 E.fuel protocolHeaderBytes s (Nat.le_refl _))
    (trySend_ends H d SF_NONE 8 E.fuel protocolHeaderBytes s (by decide) (by omega) (by omega))).and ((alive_closed E K).upper.header d E.fuel hs)
  revert h1
  cases trySend E d SF_NONE 8 E.fuel protocolHeaderBytes s with
  | err e t => exact fun h1 => ⟨h1.1, h1.2⟩
  | ub => exact id
  | fuel => exact id
  | ok n t => exact id

theorem publishBody_dec (H : Stops E K) (ch : UInt16) (usable : Nat) : ∀ (n : Nat) (rest : Bytes) (s : Conn), Alive E K s →
    (Refuses E K ∧ s.load K < n ∨ usable ≠ 0 ∧ rest.length < n) →
    s.load K < E.fuel → Dec K (Alive E K) 0 2 (s.load K) (publishBody E ch usable n rest s) := by
  intro n
  induction n with
  | zero => intro rest s _ h; omega
  | succ n ih =>
    intro rest s hs hn hf
    unfold publishBody
    by_cases h0 : rest.length = 0
    · rw [if_pos h0]; exact ⟨Nat.le_refl _, hs⟩
    rw [if_neg h0]
    have key : ∀ (p fl : Nat) (b : Bytes), (usable ≠ 0 → p ≠ 0) → Dec K (Alive E K) 0 2 (s.load K) (match sendFrame E ⟨ch, .body b⟩ fl TIME_INF s with
      | .ok () s => publishBody E ch usable n (rest.drop p) s
      | .err e s => .err e s
      | .ub => .ub
      | .fuel => .fuel : Res Conn Unit) := by
      intro p fl b hp
      have h1 := sendFrame_dec' H ⟨ch, .body b⟩ fl TIME_INF hs hf
      have h2 := fun hS => sendFrame_refused H hS ⟨ch, .body b⟩ fl TIME_INF s hf
      revert h1 h2
      cases sendFrame E ⟨ch, .body b⟩ fl TIME_INF s with
      | err e t => exact fun h1 _ => h1
      | ub => exact fun h1 _ => h1
      | fuel => exact fun h1 _ => h1
      | ok x t =>
        intro h1 h2
        rw [Dec.ok_iff] at h1
        have h3 : Refuses E K ∧ t.load K < n ∨ usable ≠ 0 ∧ (rest.drop p).length < n := by
          rcases hn with ⟨hS, hn⟩ | ⟨hu, hn⟩
          · have h2 := h2 hS
            rw [Dec.ok_iff] at h2
            exact Or.inl ⟨hS, by omega⟩
          · have := hp hu
            rw [List.length_drop]
            exact Or.inr ⟨hu, by omega⟩
        exact (ih _ t h1.2 h3 (by omega)).weaken (by omega) (by omega)
    split
    · exact key _ _ _ fun h => h
    · exact key _ _ _ fun _ => h0

theorem publishCheck_dec (H : Stops E K) {s : Conn} (hs : Alive E K s) (hf : s.load K < E.fuel) :
    Dec K (Alive E K) 0 2 (s.load K) (publishCheck E s) := by
  refine Dec.and ?_ ((alive_api E K).publishCheck hs)
  unfold publishCheck
  have h1 := (hasPastIO_later E s.nextRecv s).load (K := K)
  revert h1
  obtain ⟨res, t⟩ := hasPastIO E s.nextRecv s
  intro h1
  dsimp only at h1 ⊢
  split
  · rw [Dec.err_iff]; exact ⟨by omega, trivial⟩
  · split
    · have h2 := tryRecv_dec H t (by omega)
      revert h2
      cases tryRecv E t with
      | ok x u => intro h2; rw [Dec.ok_iff] at h2 ⊢; exact ⟨by omega, trivial⟩
      | err e u =>
        intro h2
        rw [Dec.err_iff] at h2
        dsimp only
        by_cases he : e = St.TIMEOUT
        · rw [if_pos he, Dec.err_iff]; exact ⟨by omega, trivial⟩
        · rw [if_neg he, Dec.err_iff]; exact ⟨by omega, trivial⟩
      | ub => exact id
      | fuel => exact id
    · rw [Dec.ok_iff]; exact ⟨by omega, trivial⟩

theorem basicPublish_done (H : Stops E K) (ch : UInt16) (ex rk : Bytes) (m i : Int32) (p : Option (UInt32 × Rec)) (body : Bytes) {s : Conn}
    (hs : Alive E K s) (hf : s.load K < E.fuel) (hz : body.length < E.fuel) :
    Done E K (s.load K) (basicPublish E ch ex rk m i p body s) := by
  unfold basicPublish sendMethod
  dsimp only
  refine Dec.done (d := 0) ?_
  refine Dec.bind (publishCheck_dec H hs hf) (Nat.le_refl _) fun _ t ht hI => ?_
  refine Dec.bind ((sendFrame_dec' H _ _ _ hI (by omega)).weaken (d' := 0) (e' := 2) (b' := s.load K) (by omega) (by omega)) (Nat.le_refl _)
    fun _ u hu hI => ?_
  refine Dec.bind ((sendFrame_dec' H _ _ _ hI (by omega)).weaken (d' := 0) (e' := 2) (b' := s.load K) (by omega) (by omega)) (Nat.le_refl _)
    fun _ w hw hI => ?_
  refine (publishBody_dec H _ _ _ _ w hI ?_ (by omega)).weaken (by omega) (by omega)
  rcases hs.room with h | h
  · exact Or.inl ⟨h, by omega⟩
  · exact Or.inr ⟨h, hz⟩

/-! ### Copying -/

theorem allocOr_later (E : NetEnv) (s : Conn) : (allocOr E s).All (Later s) := by
  unfold allocOr smallAlloc
  cases E.pe.alloc s.ps.allocs <;> exact Later.allocs s _ _
theorem allocOr_ends (E : NetEnv) : NF (allocOr E) := by
  intro s
  unfold allocOr smallAlloc
  cases E.pe.alloc s.ps.allocs <;> exact fun h => nomatch h
theorem withAlloc_later (E : NetEnv) {α : Type} (x : (Nat → Bool) → M AState α) (s : Conn) : (withAlloc E x s).All (Later s) := by
  unfold withAlloc
  cases x E.pe.alloc ⟨s.ps.allocs⟩ with
  | ok a t => exact Later.allocs s _ _
  | err a t => exact Later.allocs s _ _
  | ub => trivial
  | fuel => trivial
theorem withAlloc_ends (E : NetEnv) {α : Type} {x : (Nat → Bool) → M AState α} (h : NF (x E.pe.alloc)) : NF (withAlloc E x) := by
  intro s
  unfold withAlloc
  have := h ⟨s.ps.allocs⟩
  revert this
  cases x E.pe.alloc ⟨s.ps.allocs⟩ with
  | ok a t => exact fun _ h => nomatch h
  | err a t => exact fun _ h => nomatch h
  | ub => exact fun _ h => nomatch h
  | fuel => exact fun h _ => h rfl

/-- Every state it leaves comes later, and there is one. -/
def Calmly {α : Type} (x : M Conn α) : Prop := ∀ s, (x s).All (Later s) ∧ x s ≠ .fuel
theorem Calmly.pure {α : Type} (a : α) : Calmly (Pure.pure a : M Conn α) := fun s => ⟨Later.refl s, fun h => nomatch h⟩
theorem Calmly.bind {α β : Type} {x : M Conn α} {f : α → M Conn β} (hx : Calmly x) (hf : ∀ a, Calmly (f a)) : Calmly (x >>= f) := by
  intro s
  rw [M.bind_def]
  have h1 := hx s
  revert h1
  cases x s with
  | ok a t =>
    rintro ⟨h1, _⟩
    obtain ⟨h2, h3⟩ := hf a t
    refine ⟨?_, h3⟩
    dsimp only
    revert h2
    cases f a t with
    | ok b u => exact fun h2 => Later.trans h1 h2
    | err b u => exact fun h2 => Later.trans h1 h2
    | ub => exact id
    | fuel => exact id
  | err e t => exact fun h1 => ⟨h1.1, fun h => nomatch h⟩
  | ub => exact fun h1 => ⟨trivial, fun h => nomatch h⟩
  | fuel => exact fun h1 => (h1.2 rfl).elim
theorem Calmly.dec {α : Type} {x : M Conn α} (h : Calmly x) (s : Conn) : Dec K Any 0 0 (s.load K) (x s) := Dec.later (h s).1 (h s).2

theorem cloneProp_calmly (E : NetEnv) (v : Val) : Calmly (cloneProp E v) := by
  cases v with
  | bytes b =>
    unfold cloneProp
    dsimp only
    by_cases h : b.length = 0
    · rw [if_pos h]; exact .pure _
    · rw [if_neg h]; exact Calmly.bind (fun s => ⟨allocOr_later E s, allocOr_ends E s⟩) fun _ => .pure _
  | table t =>
    exact Calmly.bind (fun s => ⟨withAlloc_later E _ s, withAlloc_ends E (NF.cloneTable _ _ _) s⟩) fun _ => .pure _
  | _ => exact .pure _

theorem cloneProps_calmly (E : NetEnv) (flags : UInt32) (r : Rec) : ∀ ps, Calmly (cloneProps E flags r ps)
  | [] => .pure _
  | (bit, f) :: ps => by
    unfold cloneProps
    split
    · cases r.get? f with
      | none => exact fun s => ⟨trivial, fun h => nomatch h⟩
      | some v => exact Calmly.bind (cloneProp_calmly E v) fun _ => Calmly.bind (cloneProps_calmly E flags r ps) fun _ => .pure _
    · exact cloneProps_calmly E flags r ps

/-! ### Consuming -/

theorem readBody_done (H : Stops E K) (ch : UInt16) (len : Nat) : ∀ (n : Nat) (got : Bytes) (s : Conn), Alive E K s → s.load K < n →
    s.load K < E.fuel → Done E K (s.load K) (readBody E ch len n got s) := by
  intro n
  induction n with
  | zero => intro got s _ h; omega
  | succ n ih =>
    intro got s hs hn hf
    unfold readBody
    by_cases hl : got.length < len
    · rw [if_pos hl]
      have h1 := waitFrameOn_dec H ch hs hf
      revert h1
      cases waitFrameOn E ch s with
      | err e t => exact fun h1 => Done.ofErr h1 (.refl t) h1.2
      | ub => exact fun h => h
      | fuel => exact fun h => h
      | ok f t =>
        intro h1
        rw [Dec.ok_iff] at h1
        have fin : ∀ {α : Type} {a : α}, Done E K (s.load K) (.ok a t) := fun {α a} => Done.okOf (by omega) h1.2
        dsimp only
        cases f.frame.payload with
        | body b =>
          dsimp only
          split
          · exact fin
          · exact (ih _ t h1.2 (by omega) (by omega)).weaken (by omega) (by omega)
        | method id args => dsimp only; split <;> exact fin
        | _ => exact fin
    · rw [if_neg hl]; exact Done.okOf (by omega) hs

theorem putBackIgnored_dec (E : NetEnv) (K : Nat) (f : DFrame) {s : Conn} (hs : Alive E K s) :
    Dec K (Alive E K) 0 0 (s.load K + 1) (putBackIgnored E f s) := by
  unfold putBackIgnored
  have h1 := (putBackFrame_dec E K f s).and ((alive_closed E K).putBack (f := f) trivial hs)
  revert h1
  cases putBackFrame E f s with
  | ok a t => exact fun h => h
  | err e t => exact fun h => ⟨h.1, h.2⟩
  | ub => exact fun h => h
  | fuel => exact fun h => h

/-- A call that takes a frame, puts it back and says so. -/
theorem putBack_done {α : Type} (E : NetEnv) (K : Nat) {b : Nat} (f : DFrame) (o : α) {s : Conn} (hb : s.load K + 1 ≤ b) (hs : Alive E K s) :
    Done E K b (match putBackIgnored E f s with
      | .ok () s => .ok o s
      | .err e s => .err e s
      | .ub => .ub
      | .fuel => .fuel : Res Conn α) := by
  have h1 := putBackIgnored_dec E K f hs
  revert h1
  cases putBackIgnored E f s with
  | ok a t => intro h; rw [Dec.ok_iff] at h; exact Done.okOf (by omega) h.2
  | err e t => intro h; rw [Dec.err_iff] at h; refine Dec.err_iff.2 ⟨by omega, h.2⟩
  | ub => exact fun h => h
  | fuel => exact fun h => h

theorem readContent_done (H : Stops E K) (ch : UInt16) (size : UInt64) (flags : UInt32) (r : Rec) {s : Conn} (hs : Alive E K s)
    (hf : s.load K < E.fuel) : Done E K (s.load K) (readContent E ch size flags r s) := by
  unfold readContent
  have h1 := ((cloneProps_calmly E flags r clonedProps).dec (K := K) s).and ((alive_api E K).cloneProps flags r clonedProps hs)
  revert h1
  cases cloneProps E flags r clonedProps s with
  | err e t => intro h; rw [Dec.err_iff] at h; exact Done.okOf (by omega) h.2
  | ub => exact fun h => h
  | fuel => exact fun h => h
  | ok props t =>
    intro h1
    rw [Dec.ok_iff] at h1
    dsimp only
    have h2 : Dec K (Alive E K) 0 0 (t.load K) (if size.toNat = 0 then .ok () t else allocOr E t) := by
      split
      · exact ⟨Nat.le_refl _, h1.2⟩
      · exact (Dec.later (allocOr_later E t) (allocOr_ends E t)).and ((alive_api E K).allocOr h1.2)
    revert h2
    cases (if size.toNat = 0 then .ok () t else allocOr E t) with
    | err e u => intro h; rw [Dec.err_iff] at h; exact Done.okOf (by omega) h.2
    | ub => exact fun h => h
    | fuel => exact fun h => h
    | ok x u =>
      intro h2
      rw [Dec.ok_iff] at h2
      dsimp only
      have h3 := (readBody_done H ch size.toNat E.fuel [] u h2.2 (by omega) (by omega)).weaken (d' := 0) (e' := 0) (b' := s.load K + 2)
        (by omega) (by omega)
      revert h3
      cases readBody E ch size.toNat E.fuel [] u with
      | ok o w => cases o <;> exact fun h => h
      | err e w => exact fun h => h
      | ub => exact fun h => h
      | fuel => exact fun h => h

theorem readMessage_done (H : Stops E K) (ch : UInt16) {s : Conn} (hs : Alive E K s) (hf : s.load K < E.fuel) :
    Done E K (s.load K) (readMessage E ch s) := by
  unfold readMessage
  have h1 := waitFrameOn_dec H ch hs hf
  revert h1
  cases waitFrameOn E ch s with
  | err e t => exact fun h1 => Done.ofErr h1 (.refl t) h1.2
  | ub => exact fun h => h
  | fuel => exact fun h => h
  | ok f t =>
    intro h1
    rw [Dec.ok_iff] at h1
    dsimp only
    cases f.frame.payload with
    | header c size flags r => exact (readContent_done H ch size flags r h1.2 (by omega)).weaken (by omega) (by omega)
    | method id args =>
      dsimp only
      split
      · exact Done.okOf (by omega) h1.2
      · exact putBack_done E K f _ h1.1 h1.2
    | _ => exact putBack_done E K f _ h1.1 h1.2

theorem takeDelivery_done (H : Stops E K) (ch : UInt16) (r : Rec) {s : Conn} (hs : Alive E K s) (hf : s.load K < E.fuel) :
    Done E K (s.load K) (takeDelivery E ch r s) := by
  unfold takeDelivery
  split
  · rename_i tag dt red ex rk _ _ _ _ _
    unfold mallocDup smallAlloc
    dsimp only
    have h0 := (Later.allocs s (s.ps.allocs + 1 + 1 + 1) s.ps.pools).load (K := K)
    have h1 : Alive E K { s with ps := { s.ps with allocs := s.ps.allocs + 1 + 1 + 1 } } := hs.allocs _ s.ps.pools
    split
    · have h3 := (readMessage_done H ch h1 (by exact Nat.lt_of_le_of_lt h0 hf)).weaken (d' := 0) (e' := 0) (b' := s.load K + 2)
        (Nat.le_trans (Nat.add_le_add_left (Nat.add_le_add_right h0 2) 0) (Nat.le_refl _))
        (Nat.le_trans (Nat.add_le_add_right (Nat.add_le_add_right h0 2) 0) (Nat.le_refl _))
      revert h3
      cases readMessage E ch { s with ps := { s.ps with allocs := s.ps.allocs + 1 + 1 + 1 } } with
      | ok o w => cases o <;> exact fun h => h
      | err e w => exact fun h => h
      | ub => exact fun h => h
      | fuel => exact fun h => h
    · exact Done.okOf (Nat.le_trans h0 (by omega)) h1
  · trivial

theorem consumeMessage_done (H : Stops E K) (tv : Option TimeVal) {s : Conn} (hs : Alive E K s) (hf : s.load K < E.fuel) :
    Done E K (s.load K) (consumeMessage E tv s) := by
  unfold consumeMessage
  have h1 := waitFrame_dec H tv hs hf
  revert h1
  cases waitFrame E tv s with
  | err e t => exact fun h1 => Done.ofErr h1 (.refl t) h1.2
  | ub => exact fun h => h
  | fuel => exact fun h => h
  | ok f t =>
    intro h1
    rw [Dec.ok_iff] at h1
    dsimp only
    cases f.frame.payload with
    | method id r =>
      dsimp only
      split
      · exact (takeDelivery_done H _ r h1.2 (by omega)).weaken (by omega) (by omega)
      · exact putBack_done E K f _ h1.1 h1.2
    | _ => exact putBack_done E K f _ h1.1 h1.2

theorem confirmWait_done (H : Stops E K) (tv : Option TimeVal) {s : Conn} (hs : Alive E K s) (hf : s.load K < E.fuel) :
    Done E K (s.load K) (confirmWait E tv s) := by
  unfold confirmWait
  have h1 := waitFrame_dec H tv hs hf
  revert h1
  cases waitFrame E tv s with
  | err e t => exact fun h1 => Done.ofErr h1 (.refl t) h1.2
  | ub => exact fun h => h
  | fuel => exact fun h => h
  | ok f t =>
    intro h1
    rw [Dec.ok_iff] at h1
    dsimp only
    cases f.frame.payload with
    | method id r =>
      dsimp only
      split
      · exact putBack_done E K f _ h1.1 h1.2
      · exact Done.okOf (by omega) h1.2
    | _ => exact putBack_done E K f _ h1.1 h1.2

/-! ### Any call -/

theorem ended_done {α : Type} {b : Nat} {r : Res Conn α} (h : Done E K b r) : Done E K b (ended r) := by
  cases r with
  | ok a t => exact h
  | err e t => exact h
  | ub => trivial
  | fuel => exact h

/-- How much a call has to send piece by piece. -/
def ApiCall.size : ApiCall → Nat
  | .publish _ _ _ _ _ _ body => body.length
  | _ => 0

/-- How many rounds the calls may take beyond what is already there. -/
def toil : List ApiCall → Nat
  | [] => 0
  | c :: cs => c.size + 2 + toil cs

theorem ApiCall.done (H : Stops E K) (c : ApiCall) {s : Conn} (hs : Alive E K s) (hf : s.load K < E.fuel) (hz : c.size < E.fuel) :
    Done E K (s.load K) (c.run E s) := by
  cases c with
  | waitFrame tv => exact ended_done (waitFrame_dec H tv hs hf).done
  | waitFrameOn ch => exact ended_done (waitFrameOn_dec H ch hs hf).done
  | waitMethod ch id => exact ended_done (waitMethodList_dec H ch [id] TIME_INF hs hf).done
  | sendFrame f fl => exact ended_done (sendFrame_dec' H f fl TIME_INF hs hf).done
  | simpleRpc ch id ex args => exact ended_done (simpleRpc_done H ch id ex args hs hf)
  | sendHeader => exact ended_done ((sendHeaderInner_dec H TIME_INF hs hf).weaken (by omega) (by omega))
  | readMessage ch => exact ended_done (readMessage_done H ch hs hf)
  | consumeMessage tv => exact ended_done (consumeMessage_done H tv hs hf)
  | confirmWait tv => exact ended_done (confirmWait_done H tv hs hf)
  | publish ch ex rk m i p b => exact ended_done (basicPublish_done H ch ex rk m i p b hs hf hz)
  | maybeRelease => exact Done.okOf (Nat.le_trans (Later.releaseAll s).load (by omega)) ((alive_closed E K).upper.maybeRelease hs)
  | maybeReleaseOn ch => exact Done.okOf (Nat.le_trans (Later.release ch s).load (by omega)) ((alive_closed E K).release ch hs)
  | close => exact Done.okOf (Nat.le_trans (Later.close E s).load (by omega)) ((alive_closed E K).close hs)

theorem perform_ends (H : Stops E K) : ∀ (calls : List ApiCall) (s : Conn), Alive E K s → s.load K + toil calls < E.fuel →
    perform E calls s ≠ .fuel
  | [], s, _, _ => fun h => nomatch h
  | c :: cs, s, hs, hf => by
    unfold toil at hf
    have h1 := c.done H hs (by omega) (by omega)
    unfold perform
    revert h1
    cases c.run E s with
    | ok a t => intro h1; have h1 := Dec.ok_iff.1 h1; exact perform_ends H cs t h1.2 (by omega)
    | err e t => intro h1; have h1 := Dec.err_iff.1 h1; exact perform_ends H cs t h1.2 (by omega)
    | ub => exact fun _ h => nomatch h
    | fuel => exact fun h => h.elim

/-! ### Login -/

unseal Conn.load in
theorem load_only {s t : Conn} (hl : t.log = s.log) (hi : t.inb = s.inb) (hp : t.ps.full = s.ps.full) (hq : t.queue = s.queue) :
    Later s t := ⟨by unfold Conn.time; rw [hl]; exact Nat.le_refl _, hi, hp, hq⟩

theorem Calmly.ite {α : Type} {p : Prop} [Decidable p] {x y : M Conn α} (hx : Calmly x) (hy : Calmly y) : Calmly (if p then x else y) := by
  by_cases h : p
  · rw [if_pos h]; exact hx
  · rw [if_neg h]; exact hy
theorem Calmly.fail {α : Type} (e : Int) : Calmly (M.fail e : M Conn α) := fun s => ⟨Later.refl s, fun h => nomatch h⟩
theorem Calmly.ub {α : Type} : Calmly (M.ub : M Conn α) := fun _ => ⟨trivial, fun h => nomatch h⟩
theorem Calmly.set {f : Conn → Conn} (h : ∀ s, Later s (f s)) : Calmly (fun s => .ok () (f s) : M Conn Unit) :=
  fun s => ⟨h s, fun h => nomatch h⟩
theorem Calmly.alloc (E : NetEnv) : Calmly (allocOr E) := fun s => ⟨allocOr_later E s, allocOr_ends E s⟩

theorem releaseBuffers_calmly : Calmly releaseBuffers := by
  intro s
  unfold releaseBuffers
  by_cases h : s.ps.mode ≠ .idle
  · rw [if_pos h]; exact ⟨trivial, fun h => nomatch h⟩
  · rw [if_neg h]
    obtain ⟨l, h1, _⟩ := releaseAll_ext s.ps.pools s
    refine ⟨?_, fun h => nomatch h⟩
    show Later s _
    rw [h1]
    exact .ext s l

theorem restartSend_calmly (E : NetEnv) : Calmly (restartSend E) := fun s => ⟨restartSend_later E s, restartSend_ends E s⟩
theorem restartRecv_calmly (E : NetEnv) : Calmly (restartRecv E) := fun s => ⟨restartRecv_later E s, restartRecv_ends E s⟩

theorem tune_calmly (E : NetEnv) (cm fm hb : Int) (mem : Nat → UInt8) : Calmly (tune E cm fm hb mem) := by
  have key : ∀ (size : Nat) (s0 s : Conn), Later s0 s → Res.All (Later s0) (match restartSend E s with
      | .err e s => .err e s
      | .ub => .ub
      | .fuel => .fuel
      | .ok () s =>
        match restartRecv E s with
        | .err e s => .err e s
        | .ub => .ub
        | .fuel => .fuel
        | .ok () s =>
          let s := { s with outLen := size }
          match smallAlloc E s with
          | (true, s) => .ok () { s with outMem := (List.range size).map fun i => s.outMem.getD i (mem i) }
          | (false, s) => .err St.NO_MEMORY s : Res Conn Unit) ∧
      (match restartSend E s with
      | .err e s => .err e s
      | .ub => .ub
      | .fuel => .fuel
      | .ok () s =>
        match restartRecv E s with
        | .err e s => .err e s
        | .ub => .ub
        | .fuel => .fuel
        | .ok () s =>
          let s := { s with outLen := size }
          match smallAlloc E s with
          | (true, s) => .ok () { s with outMem := (List.range size).map fun i => s.outMem.getD i (mem i) }
          | (false, s) => .err St.NO_MEMORY s : Res Conn Unit) ≠ .fuel := by
    intro size s0 s h0
    have h1 := restartSend_calmly E s
    revert h1
    cases restartSend E s with
    | err e t => exact fun h => ⟨Later.trans h0 h.1, fun h => nomatch h⟩
    | ub => exact fun _ => ⟨trivial, fun h => nomatch h⟩
    | fuel => exact fun h => (h.2 rfl).elim
    | ok a t =>
      rintro ⟨h1, _⟩
      have h1 : Later s0 t := Later.trans h0 h1
      dsimp only
      have h2 := restartRecv_calmly E t
      revert h2
      cases restartRecv E t with
      | err e u => exact fun h => ⟨Later.trans h1 h.1, fun h => nomatch h⟩
      | ub => exact fun _ => ⟨trivial, fun h => nomatch h⟩
      | fuel => exact fun h => (h.2 rfl).elim
      | ok a u =>
        rintro ⟨h2, _⟩
        have h2 : Later t u := h2
        have h3 := h1.trans h2
        unfold smallAlloc
        dsimp only
        cases E.pe.alloc u.ps.allocs
        · exact ⟨⟨h3.time, h3.inb, h3.full, h3.queue⟩, fun h => nomatch h⟩
        · exact ⟨⟨h3.time, h3.inb, h3.full, h3.queue⟩, fun h => nomatch h⟩
  intro s
  unfold tune
  by_cases h : s.ps.mode ≠ .idle
  · rw [if_pos h]; exact ⟨trivial, fun h => nomatch h⟩
  · rw [if_neg h]
    exact key (fm % 2 ^ 64).toNat s { s with channelMax := cm, frameMax := fm, ps := { s.ps with frameMax := (fm % 2 ^ 64).toNat }, heartbeat := if 0 > hb then 0 else hb }
      ⟨Nat.le_refl _, rfl, rfl, rfl⟩

/-- Every state left has at most `e` more than the start, and less by `d` if all went well. -/
def Works (E : NetEnv) (K d : Nat) {α : Type} (x : M Conn α) : Prop := ∀ s, s.load K < E.fuel → Dec K Any d 2 (s.load K) (x s)

theorem Calmly.works {α : Type} {x : M Conn α} (h : Calmly x) : Works E K 0 x := fun s _ => (h.dec s).weaken (by omega) (by omega)
theorem Works.bind {α β : Type} {d d' : Nat} {x : M Conn α} {f : α → M Conn β} (hx : Works E K d x) (hf : ∀ a, Works E K d' (f a)) :
    Works E K 0 (x >>= f) := by
  intro s hs
  refine Dec.bind ((hx s hs).weaken (d' := 0) (e' := 2) (b' := s.load K) (by omega) (by omega)) (Nat.le_refl _) fun a t ht _ => ?_
  exact (hf a t (by omega)).weaken (by omega) (by omega)
theorem Works.ite {α : Type} {d : Nat} {p : Prop} [Decidable p] {x y : M Conn α} (hx : Works E K d x) (hy : Works E K d y) :
    Works E K d (if p then x else y) := by
  by_cases h : p
  · rw [if_pos h]; exact hx
  · rw [if_neg h]; exact hy

theorem awaitStart_works (L : LostFrom E K) (memcmp : Bytes → Bytes → Int) (sasl : Sasl) (d : Nat) :
    Works E K 0 (awaitStart E memcmp sasl d) := by
  unfold awaitStart
  refine Works.bind (d' := 0) (fun s hs => (waitMethodList_dec L.stops 0 _ d (.lost L _) hs).any) fun x => ?_
  obtain ⟨i, r⟩ := x
  dsimp only
  refine (?_ : Calmly _).works
  split
  · refine Calmly.ite (.fail _) (Calmly.bind (fun s => ⟨withAlloc_later E _ s, withAlloc_ends E (NF.cloneTable _ _ _) s⟩) fun t =>
      Calmly.bind (Calmly.set fun s => ⟨Nat.le_refl _, rfl, rfl, rfl⟩) fun _ => Calmly.ite (.pure _) (.fail _))
  · exact .ub

theorem saslResponse_calmly (E : NetEnv) (m : Sasl) : Calmly (saslResponse E m) := by
  cases m with
  | plain u p => exact Calmly.bind (.alloc E) fun _ => .pure _
  | external i => exact Calmly.ite (.fail _) (Calmly.bind (.alloc E) fun _ => .pure _)

theorem sendStartOk_works (L : LostFrom E K) (b : Build) (memcmp : Bytes → Bytes → Int) (props : Option PTable) (sasl : Sasl) (d : Nat) :
    Works E K 0 (sendStartOk E b memcmp props sasl d) := by
  unfold sendStartOk
  refine Works.bind (Calmly.works (E := E) (K := K) fun s => ?_) fun _ => Works.bind (saslResponse_calmly E sasl).works fun _ =>
    Works.bind (Calmly.works fun s => ⟨withAlloc_later E _ s, withAlloc_ends E (NF.mergeCapabilities _ _ _ _ _) s⟩) fun _ =>
    Works.bind (Calmly.works (Calmly.set fun s => ⟨Nat.le_refl _, rfl, rfl, rfl⟩)) fun _ s hs => sendFrame_dec L.stops _ _ _ s hs
  unfold getPool
  split
  · rename_i h
    split at h
    · cases h; exact ⟨Later.refl s, fun h => nomatch h⟩
    · split at h
      · cases h; exact ⟨Later.allocs s _ _, fun h => nomatch h⟩
      · cases h
  · rename_i h
    split at h
    · cases h
    · split at h
      · cases h
      · cases h; exact ⟨Later.allocs s _ _, fun h => nomatch h⟩

/-- Ended, with at most two more units of load. -/
def Affords (E : NetEnv) (K : Nat) {α : Type} (x : M Conn α) : Prop := ∀ s, s.load K < E.fuel → Dec K Any 0 0 (s.load K + 2) (x s)

theorem Works.affords {α : Type} {d : Nat} {x : M Conn α} (h : Works E K d x) : Affords E K x :=
  fun s hs => (h s hs).weaken (by omega) (by omega)

theorem openVhost_affords (L : LostFrom E K) (v : Bytes) (d : Nat) : Affords E K (openVhost E v d) := by
  intro s hf
  unfold openVhost
  have h1 := (rpcInner_done L.stops 0 CONNECTION_OPEN [CONNECTION_OPEN_OK]
    [(.virtual_host, .bytes v), (.capabilities, .bytes []), (.insist, .bool 1)] d (.lost L _) hf).any
  revert h1
  cases rpcInner E 0 CONNECTION_OPEN [CONNECTION_OPEN_OK]
    [(.virtual_host, .bytes v), (.capabilities, .bytes []), (.insist, .bool 1)] d s with
  | ok r t =>
    intro h1
    have h2 := (Later.releaseAll t).load (K := K)
    rw [Dec.ok_iff] at h1
    cases r with
    | normal id args => exact ⟨by show (maybeRelease t).load K + 0 ≤ s.load K + 2; omega, trivial⟩
    | _ => exact ⟨h1.1, trivial⟩
  | err e t => exact id
  | ub => exact id
  | fuel => exact id

/-- `x` first, and `f` can always be afforded. -/
theorem Works.then {α β : Type} {d : Nat} {x : M Conn α} {f : α → M Conn β} (hx : Works E K d x) (hf : ∀ a, Affords E K (f a)) :
    Affords E K (x >>= f) := by
  intro s hs
  rw [M.bind_def]
  have h1 := hx s hs
  revert h1
  cases x s with
  | ok a t => intro h1; rw [Dec.ok_iff] at h1; exact (hf a t (by omega)).weaken (by omega) (by omega)
  | err e t => intro h1; rw [Dec.err_iff] at h1; dsimp only; rw [Dec.err_iff]; exact ⟨by omega, trivial⟩
  | ub => exact id
  | fuel => exact id

theorem loginSteps_affords (L : LostFrom E K) (b : Build) (memcmp : Bytes → Bytes → Int) (mem : Nat → UInt8) (a : LoginArgs)
    (tv : Option TimeVal) : Affords E K (loginSteps E b memcmp mem a tv) := by
  unfold loginSteps
  refine Works.then (d := 0) (fun s _ => (Dec.quiet (fromNowIO_quiet E _ s) (fromNowIO_ends E _ s)).weaken (by omega) (by omega)) fun d => ?_
  refine Works.then (d := 0) (fun s hf => ((sendHeaderInner_dec L.stops d (.lost L _) hf).any).weaken (by omega) (by omega)) fun r => ?_
  by_cases hr : r ≠ St.OK
  · rw [if_pos hr]; exact (Calmly.fail r).works.affords
  rw [if_neg hr]
  refine Works.then (awaitStart_works L _ _ _) fun _ => ?_
  refine Works.then (sendStartOk_works L _ _ _ _ _) fun _ => ?_
  refine Works.then releaseBuffers_calmly.works fun _ => ?_
  refine Works.then (d := 1) (fun s hs => (waitMethodList_dec L.stops 0 _ d (.lost L _) hs).any) fun x => ?_
  obtain ⟨i, r⟩ := x
  dsimp only
  by_cases hi : i = CONNECTION_CLOSE
  · rw [if_pos hi]; exact (Calmly.pure _).works.affords
  rw [if_neg hi]
  split
  · refine Works.then (d := 0) ?_ fun _ => Works.then releaseBuffers_calmly.works fun _ => openVhost_affords L _ _
    unfold tuneOk
    exact Works.bind (tune_calmly E _ _ _ _).works fun _ s hs => sendFrame_dec L.stops _ _ _ s hs
  · exact (Calmly.ub).works.affords

theorem login_affords (L : LostFrom E K) (b : Build) (memcmp : Bytes → Bytes → Int) (mem : Nat → UInt8) (a : LoginArgs) :
    Affords E K (login E b memcmp mem a) := by
  intro s hf
  unfold login loginInner
  have ok : ∀ o : Outcome Unit, Dec K Any 0 0 (s.load K + 2) (.ok o s) := fun o => Dec.ok_iff.2 ⟨by omega, trivial⟩
  split
  · exact ok _
  split
  · exact ok _
  split
  · exact ok _
  have h1 := loginSteps_affords L b memcmp mem a (getHandshakeTimeout s.timeouts) s hf
  revert h1
  cases loginSteps E b memcmp mem a (getHandshakeTimeout s.timeouts) s with
  | ok r t => exact id
  | err e t =>
    intro h1
    rw [Dec.err_iff] at h1
    have := (Later.close E t).load (K := K)
    exact Dec.ok_iff.2 ⟨by omega, trivial⟩
  | ub => exact id
  | fuel => exact id

end Rmq
