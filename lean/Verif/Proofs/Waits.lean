import Verif.Proofs.Reads
import Verif.Proofs.Closed
import Verif.Proofs.ErrCodes
import Verif.Proofs.FrameEnc
/-!
# Waiting for frames: nothing received gets lost
-/
namespace Rmq

/-! ## Sending while reading -/

/-- A step of sending: the frames read meanwhile are queued. -/
def SendEff (E : NetEnv) (s s' : Conn) : Prop :=
  ∃ fs, Eff E s s' fs ∧ s'.queue.map (·.frame) = s.queue.map (·.frame) ++ fs

theorem SendEff.refl {E : NetEnv} {s : Conn} (h : Good s.ps) : SendEff E s s := ⟨[], Eff.refl h, by simp⟩
theorem SendEff.trans {E : NetEnv} {s t u : Conn} (h : SendEff E s t) (h' : SendEff E t u) : SendEff E s u := by
  obtain ⟨fs, h1, h2⟩ := h
  obtain ⟨gs, h3, h4⟩ := h'
  exact ⟨fs ++ gs, h1.trans h3, by rw [h4, h2, List.append_assoc]⟩
theorem SendEff.good {E : NetEnv} {s s' : Conn} (h : SendEff E s s') : Good s'.ps := by
  obtain ⟨fs, h1, _⟩ := h; exact h1.1

theorem sendish_recv {flags : Nat} {l : List Ev} (h : ∀ e ∈ l, e.sendish flags = true) : recvBytes l = [] := by
  induction l with
  | nil => rfl
  | cons e l ih =>
    have he := h e (by simp)
    have := ih fun x hx => h x (by simp [hx])
    cases e <;> simp_all [recvBytes, Ev.delivered, Ev.sendish]

theorem Eff.sendish {E : NetEnv} {s : Conn} {flags : Nat} {l : List Ev} (h : Good s.ps) (hl : ∀ e ∈ l, e.sendish flags = true) :
    Eff E s (s.ext l) [] := Eff.same h rfl (sendish_recv hl) (PSim.refl h.1 h.2) rfl

theorem restartSend_same (E : NetEnv) {s : Conn} (hG : Good s.ps) : (restartSend E s).All fun s' =>
    Eff E s s' [] ∧ s'.queue = s.queue ∧ s'.inb = s.inb ∧ s'.nextRecv = s.nextRecv ∧ s'.heartbeat = s.heartbeat := by
  have h := restartSend_eff E s
  revert h
  have key : ∀ s', (∃ t l, s' = { s.ext l with nextSend := t } ∧ Quiet l) →
      Eff E s s' [] ∧ s'.queue = s.queue ∧ s'.inb = s.inb ∧ s'.nextRecv = s.nextRecv ∧ s'.heartbeat = s.heartbeat := by
    rintro s' ⟨t, l, rfl, hl⟩
    exact ⟨Eff.same (l := l) hG rfl hl.recv (PSim.refl hG.1 hG.2) rfl, rfl, rfl, rfl, rfl⟩
  cases restartSend E s with
  | ok a t => exact key t
  | err e t => exact key t
  | ub => exact fun _ => trivial
  | fuel => exact fun _ => trivial

theorem trySend_same {E : NetEnv} (deadline flags len n : Nat) {left : Bytes} {s : Conn} (hl : left.length ≤ len) :
    (trySend E deadline flags len n left s).All fun s' => ∃ l, s' = s.ext l ∧ (∀ e ∈ l, e.sendish flags = true) := by
  have h := trySend_eff E deadline flags len n left s hl
  revert h
  cases trySend E deadline flags len n left s with
  | ok m t => rintro ⟨k, ⟨l, h1, h2, _⟩, _⟩; exact ⟨l, h1, h2⟩
  | err e t => rintro ⟨k, ⟨l, h1, h2, _⟩⟩; exact ⟨l, h1, h2⟩
  | ub => exact fun _ => trivial
  | fuel => exact fun _ => trivial

/-- Sending, when it succeeds or times out: whatever was read meanwhile is queued or still in the buffer. -/
theorem sendLoop_eff {E : NetEnv} (flags deadline : Nat) : ∀ (n : Nat) (enc : Bytes) (s : Conn), Good s.ps →
    match sendLoop E flags deadline n enc s with
    | .ok _ s' => SendEff E s s'
    | .err e s' => e = St.TIMEOUT → SendEff E s s'
    | _ => True := by
  intro n
  induction n with
  | zero => intro enc s _; trivial
  | succ n ih =>
    intro enc s hG
    unfold sendLoop
    dsimp only
    have h1 := trySend_same (E := E) (timeFirst deadline s.nextRecv) flags enc.length E.fuel (left := enc) (s := s) (Nat.le_refl _)
    revert h1
    cases trySend E (timeFirst deadline s.nextRecv) flags enc.length E.fuel enc s with
    | ub => exact fun _ => trivial
    | fuel => exact fun _ => trivial
    | err e t =>
      rintro ⟨l, rfl, hl⟩ _
      exact ⟨[], Eff.sendish hG hl, by simp⟩
    | ok m t =>
      rintro ⟨l, rfl, hl⟩
      have s1 : SendEff E s (s.ext l) := ⟨[], Eff.sendish hG hl, by simp⟩
      dsimp only
      by_cases hm : enc.length ≠ m
      · rw [if_pos hm]
        by_cases ht : timeEqual (timeFirst deadline s.nextRecv) deadline = true
        · rw [if_pos ht]; exact fun _ => s1
        rw [if_neg ht]
        cases h2 : tryRecv E (s.ext l) with
        | ub => trivial
        | fuel => trivial
        | err e u =>
          dsimp only
          by_cases he : e = St.TIMEOUT
          · rw [if_pos he]; intro h; exact absurd h (by decide)
          · rw [if_neg he]; intro h; exact absurd h he
        | ok a u =>
          dsimp only
          obtain ⟨fs, e2, q2, _⟩ := tryRecv_eff (s := s.ext l) hG h2
          have s2 : SendEff E s u := s1.trans ⟨fs, e2, q2⟩
          have h3 := ih (enc.drop m) u e2.1
          revert h3
          cases sendLoop E flags deadline n (enc.drop m) u with
          | ok a v => exact fun h3 => s2.trans h3
          | err e v => exact fun h3 he => s2.trans (h3 he)
          | ub => exact fun _ => trivial
          | fuel => exact fun _ => trivial
      · rw [if_neg hm]
        have h4 := restartSend_same E (s := s.ext l) hG
        revert h4
        cases restartSend E (s.ext l) with
        | ok a v => exact fun h4 => s1.trans ⟨[], h4.1, by rw [h4.2.1]; simp⟩
        | err e v => exact fun h4 _ => s1.trans ⟨[], h4.1, by rw [h4.2.1]; simp⟩
        | ub => exact fun _ => trivial
        | fuel => exact fun _ => trivial

theorem sendFrame_sendEff {E : NetEnv} (f : AFrame) (flags deadline : Nat) {s : Conn} (hG : Good s.ps) :
    match sendFrame E f flags deadline s with
    | .ok _ s' => SendEff E s s'
    | .err e s' => e = St.TIMEOUT → SendEff E s s'
    | _ => True := by
  unfold sendFrame
  cases frameToBytes E.pe.be s.outMem s.outLen f with
  | ok enc mem =>
    have h := sendLoop_eff (E := E) flags deadline E.fuel enc { s with outMem := mem } hG
    dsimp only
    revert h
    cases sendLoop E flags deadline E.fuel enc { s with outMem := mem } with
    | ok a t => exact id
    | err e t => exact id
    | ub => exact fun _ => trivial
    | fuel => exact fun _ => trivial
  | err e mem =>
    exact fun _ => ⟨[], Eff.same (l := []) hG (by simp [Since]) rfl (PSim.refl hG.1 hG.2) rfl, by simp⟩
  | ub => trivial
  | fuel => trivial

theorem hasPast_inf (now : Nat) : hasPast now TIME_INF = St.OK := by unfold hasPast; simp

theorem hasPastIO_inf (E : NetEnv) (s : Conn) : hasPastIO E TIME_INF s = (St.OK, s) := by
  unfold hasPastIO; rw [if_pos rfl, hasPast_inf]

theorem sFromNowIO_off (E : NetEnv) {secs : Int} (h : secs ≤ 0) (old : Nat) (s : Conn) : sFromNowIO E secs old s = (St.OK, TIME_INF, s) := by
  unfold sFromNowIO; rw [if_pos h]

/-- Heartbeats are off. -/
def HbOff (s : Conn) : Prop := s.heartbeat ≤ 0 ∧ s.nextSend = TIME_INF ∧ s.nextRecv = TIME_INF

theorem off_closed (E : NetEnv) : Closed E HbOff (fun _ _ => True) := by
  refine ⟨⟨⟨fun _ h => h, fun {s} b _ h => ?_⟩, fun {s s' f} h hc => ?_, fun {s s' e} h hc => ?_, fun {s f} _ h => ?_⟩,
    fun {s} b fl h => ?_, fun {s} h => ?_, fun _ h => h, fun {s f} _ h => ?_, fun h _ => ⟨h, trivial⟩,
    fun {s} h => ?_, fun {s} ch h => ?_⟩
  · unfold restartRecv
    rw [sFromNowIO_off E (by show 2 * s.heartbeat ≤ 0; have := h.1; omega)]
    exact ⟨h.1, h.2.1, rfl⟩
  · refine ⟨?_, fun _ _ => trivial⟩
    unfold consumeOne at hc
    cases h1 : handleInput E.pe s.ps s.inb with
    | ok r p => rw [h1] at hc; cases hc; exact h
    | err e p => rw [h1] at hc; cases hc
    | ub => rw [h1] at hc; cases hc
    | fuel => rw [h1] at hc; cases hc
  · unfold consumeOne at hc
    cases h1 : handleInput E.pe s.ps s.inb with
    | ok r p => rw [h1] at hc; cases hc
    | err e p => rw [h1] at hc; cases hc; exact h
    | ub => rw [h1] at hc; cases hc
    | fuel => rw [h1] at hc; cases hc
  · unfold queueFrame
    obtain ⟨a, p, hp⟩ := createLink_eff E f.frame.channel s
    revert hp
    obtain ⟨b, s1⟩ := createLink E f.frame.channel s
    intro hp
    dsimp only at hp
    subst hp
    cases b <;> exact h
  · unfold sockSend
    split
    · cases E.send s.time b <;> exact h
    · exact h
  · unfold restartSend
    rw [sFromNowIO_off E h.1]
    exact ⟨h.1, rfl, h.2.2⟩
  · unfold putBackFrame
    obtain ⟨a, p, hp⟩ := createLink_eff E f.frame.channel s
    revert hp
    obtain ⟨b, s1⟩ := createLink E f.frame.channel s
    intro hp
    dsimp only at hp
    subst hp
    cases b <;> exact h
  · unfold sockClose
    split
    · exact h
    · split <;> exact h
  · unfold maybeReleaseOn
    split
    · exact h
    · split
      · exact h
      · split
        · exact h
        · exact h

theorem orOff_closed (E : NetEnv) (A : Prop) : Closed E (fun s => A ∨ HbOff s) (fun _ _ => True) := by
  by_cases hN : A
  · refine ⟨⟨⟨fun _ _ => Or.inl hN, fun b _ _ => ?_⟩, fun _ _ => ⟨Or.inl hN, fun _ _ => trivial⟩, fun _ _ => Or.inl hN, fun _ _ => ?_⟩,
      fun _ _ _ => Or.inl hN, fun _ => ?_, fun _ _ => Or.inl hN, fun _ _ => ?_, fun _ _ => ⟨Or.inl hN, trivial⟩, fun _ => Or.inl hN,
      fun _ _ => Or.inl hN⟩
    · cases restartRecv E _ <;> first | exact Or.inl hN | trivial
    · cases queueFrame E _ _ <;> first | exact Or.inl hN | trivial
    · cases restartSend E _ <;> first | exact Or.inl hN | trivial
    · cases putBackFrame E _ _ <;> first | exact Or.inl hN | trivial
  · have h : (fun s => A ∨ HbOff s) = HbOff := funext fun s => propext ⟨fun h => h.resolve_left hN, Or.inr⟩
    rw [h]
    exact off_closed E

theorem unhurried_closed (E : NetEnv) : Closed E (Unhurried E) (fun _ _ => True) := orOff_closed E _
theorem unblocked_closed (E : NetEnv) : Closed E (Unblocked E) (fun _ _ => True) := orOff_closed E _
theorem Unhurried.unblocked {E : NetEnv} {s : Conn} (h : Unhurried E s) : Unblocked E s := h.imp Or.inl id

theorem timeFirst_inf {d : Nat} (h : d ≤ TIME_INF) : timeFirst d TIME_INF = d := by
  unfold timeFirst; split <;> omega

/-- Then sending reads nothing. -/
theorem sendFrame_ext_of {E : NetEnv} (f : AFrame) (flags deadline : Nat) (hd : deadline ≤ TIME_INF) {s : Conn}
    (hU : ∀ n enc mem m t, frameToBytes E.pe.be s.outMem s.outLen f = .ok enc mem →
      trySend E (timeFirst deadline s.nextRecv) flags enc.length n enc { s with outMem := mem } = .ok m t →
      m = enc.length ∨ s.nextRecv = TIME_INF) :
    (sendFrame E f flags deadline s).All fun s' =>
      ∃ l m t, s' = { s.ext l with outMem := m, nextSend := t } ∧ (∀ e ∈ l, e.sendish flags = true) := by
  unfold sendFrame
  cases hfb : frameToBytes E.pe.be s.outMem s.outLen f with
  | ub => trivial
  | fuel => trivial
  | err e mem => exact ⟨[], mem, s.nextSend, by simp, by simp⟩
  | ok enc mem =>
    dsimp only
    cases hf : E.fuel with
    | zero => trivial
    | succ n =>
      unfold sendLoop
      dsimp only
      have h1 := trySend_same (E := E) (timeFirst deadline s.nextRecv) flags enc.length E.fuel (left := enc)
        (s := { s with outMem := mem }) (Nat.le_refl _)
      cases h2 : trySend E (timeFirst deadline s.nextRecv) flags enc.length E.fuel enc { s with outMem := mem } with
      | ub => trivial
      | fuel => trivial
      | err e t =>
        rw [h2] at h1
        obtain ⟨l, rfl, hl⟩ := h1
        exact ⟨l, mem, s.nextSend, rfl, hl⟩
      | ok m t =>
        rw [h2] at h1
        obtain ⟨l, rfl, hl⟩ := h1
        dsimp only
        by_cases hm : enc.length ≠ m
        · rw [if_pos hm]
          rcases hU _ _ _ _ _ hfb h2 with hN | h3
          · exact absurd hN.symm hm
          · rw [if_pos (by rw [h3, timeFirst_inf hd]; simp [timeEqual])]
            exact ⟨l, mem, s.nextSend, rfl, hl⟩
        · rw [if_neg hm]
          have h4 := restartSend_eff E (({ s with outMem := mem } : Conn).ext l)
          have key : ∀ v, (∃ t l', v = { (({ s with outMem := mem } : Conn).ext l).ext l' with nextSend := t } ∧ Quiet l') →
              ∃ l m t, v = { s.ext l with outMem := m, nextSend := t } ∧ (∀ e ∈ l, e.sendish flags = true) := by
            rintro v ⟨t, l', rfl, hl'⟩
            refine ⟨l ++ l', mem, t, by simp [Conn.ext], ?_⟩
            intro x hx
            rcases List.mem_append.1 hx with hx | hx
            · exact hl x hx
            · exact hl'.sendish flags x hx
          revert h4
          cases restartSend E (({ s with outMem := mem } : Conn).ext l) with
          | ok a v => exact key v
          | err e v => exact key v
          | ub => exact fun _ => trivial
          | fuel => exact fun _ => trivial

theorem sendFrame_ext {E : NetEnv} (f : AFrame) (flags deadline : Nat) (hd : deadline ≤ TIME_INF) {s : Conn} (hU : Unhurried E s) :
    (sendFrame E f flags deadline s).All fun s' =>
      ∃ l m t, s' = { s.ext l with outMem := m, nextSend := t } ∧ (∀ e ∈ l, e.sendish flags = true) :=
  sendFrame_ext_of f flags deadline hd fun _ _ _ _ _ _ h => by
    rcases hU with hN | ⟨_, _, h3⟩
    · exact Or.inl (trySend_all hN _ _ _ _ _ _ _ _ h)
    · exact Or.inr h3

theorem frameToBytes_heartbeat {be : Bool} {mem enc mem' : Bytes} {len : Nat} (h : frameToBytes be mem len ⟨0, .heartbeat⟩ = .ok enc mem') :
    enc = [8, 0, 0, 0, 0, 0, 0, 206] := by
  by_cases hm : 8 ≤ mem.length
  · obtain ⟨m', h1, _⟩ := frameToBytes_wire Wire.heartbeat be 0 mem (by simpa using hm) (by decide)
    have : frameToBytes be mem len ⟨0, .heartbeat⟩ = frameToBytes be mem mem.length ⟨0, .heartbeat⟩ := rfl
    rw [this, h1] at h
    cases h
    decide
  · exfalso
    unfold frameToBytes at h
    dsimp only at h
    split at h; · cases h
    rename_i m1 p1
    split at h; · cases h
    rename_i m2 p2
    unfold finishFrame at h
    split at h; · cases h
    rename_i m3 p3
    have l3 : m3.length = mem.length := by rw [poke_len p3, poke_len p2, poke_len p1]
    have : poke m3 (HEADER_SIZE + 0) (e8 FRAME_END) = none := by
      unfold poke
      rw [if_neg]
      rw [l3, HEADER_SIZE]; have : (e8 FRAME_END).length = 1 := rfl; omega
    rw [this] at h
    cases h


/-- Sending a heartbeat reads nothing if heartbeats get through. -/
theorem sendBeat_ext {E : NetEnv} (flags : Nat) {s : Conn} (hU : Unblocked E s) :
    (sendFrame E ⟨0, .heartbeat⟩ flags TIME_INF s).All fun s' =>
      ∃ l m t, s' = { s.ext l with outMem := m, nextSend := t } ∧ (∀ e ∈ l, e.sendish flags = true) :=
  sendFrame_ext_of _ flags TIME_INF (Nat.le_refl _) fun _ enc _ _ _ hf h => by
    rcases hU with (hN | hP) | ⟨_, _, h3⟩
    · exact Or.inl (trySend_all hN _ _ _ _ _ _ _ _ h)
    · have := frameToBytes_heartbeat hf
      subst this
      exact Or.inl (trySend_beat hP _ _ h)
    · exact Or.inr h3

theorem sendFrame_same {E : NetEnv} (f : AFrame) (flags deadline : Nat) (hd : deadline ≤ TIME_INF) {s : Conn} (hU : Unhurried E s)
    (hG : Good s.ps) :
    (sendFrame E f flags deadline s).All fun s' => Eff E s s' [] ∧ s'.queue = s.queue ∧ s'.inb = s.inb := by
  have h := sendFrame_ext (E := E) f flags deadline hd hU
  have key : ∀ v : Conn, (∃ l m t, v = { s.ext l with outMem := m, nextSend := t } ∧ (∀ e ∈ l, e.sendish flags = true)) →
      Eff E s v [] ∧ v.queue = s.queue ∧ v.inb = s.inb := by
    rintro v ⟨l, m, t, rfl, hl⟩
    exact ⟨Eff.same (l := l) hG rfl (sendish_recv hl) (PSim.refl hG.1 hG.2) rfl, rfl, rfl⟩
  revert h
  cases sendFrame E f flags deadline s with
  | ok a v => exact key v
  | err e v => exact key v
  | ub => exact fun _ => trivial
  | fuel => exact fun _ => trivial

theorem sendBeat_same {E : NetEnv} (flags : Nat) {s : Conn} (hU : Unblocked E s)
    (hG : Good s.ps) :
    (sendFrame E ⟨0, .heartbeat⟩ flags TIME_INF s).All fun s' => Eff E s s' [] ∧ s'.queue = s.queue ∧ s'.inb = s.inb := by
  have h := sendBeat_ext (E := E) flags hU
  have key : ∀ v : Conn, (∃ l m t, v = { s.ext l with outMem := m, nextSend := t } ∧ (∀ e ∈ l, e.sendish flags = true)) →
      Eff E s v [] ∧ v.queue = s.queue ∧ v.inb = s.inb := by
    rintro v ⟨l, m, t, rfl, hl⟩
    exact ⟨Eff.same (l := l) hG rfl (sendish_recv hl) (PSim.refl hG.1 hG.2) rfl, rfl, rfl⟩
  revert h
  cases sendFrame E ⟨0, .heartbeat⟩ flags TIME_INF s with
  | ok a v => exact key v
  | err e v => exact key v
  | ub => exact fun _ => trivial
  | fuel => exact fun _ => trivial

/-! ## Waiting -/

theorem sFromNowIO_status (E : NetEnv) (secs : Int) (old : Nat) (s : Conn) : (sFromNowIO E secs old s).1 ≠ St.TIMEOUT := by
  unfold sFromNowIO
  split
  · exact (by decide : St.OK ≠ St.TIMEOUT)
  · dsimp only
    split
    · exact (by decide : St.TIMER_FAILURE ≠ St.TIMEOUT)
    · split
      · exact (by decide : St.INVALID_PARAMETER ≠ St.TIMEOUT)
      · exact (by decide : St.OK ≠ St.TIMEOUT)

theorem restartRecv_timeout {E : NetEnv} {s s' : Conn} (h : restartRecv E s = .err St.TIMEOUT s') : False := by
  unfold restartRecv at h
  have h1 := sFromNowIO_status E (2 * s.heartbeat) s.nextRecv s
  revert h h1
  obtain ⟨st, t, s1⟩ := sFromNowIO E (2 * s.heartbeat) s.nextRecv s
  intro h h1
  dsimp only at h h1
  split at h
  · cases h
  · cases h; exact h1 rfl

/-- A receive that times out changes nothing. -/
theorem recvWithTimeout_timeout {E : NetEnv} (timeout : Nat) : ∀ (n : Nat) (s s' : Conn),
    recvWithTimeout E timeout n s = .err St.TIMEOUT s' → ∃ l, s' = s.ext l ∧ ∀ e ∈ l, e.plain = true := by
  intro n
  induction n with
  | zero => intro s s' h; cases h
  | succ n ih =>
    intro s s' h
    unfold recvWithTimeout at h
    by_cases ho : s.isOpen = false
    · rw [if_pos ho] at h; cases h
    rw [if_neg ho] at h
    cases hE : E.recv s.time s.received with
    | data b => rw [hE] at h; exact (restartRecv_timeout h).elim
    | fail k =>
      rw [hE] at h
      dsimp only at h
      have key : ∀ d : Dir, (match pollFd E d timeout E.fuel (s.push (.recvFail (-(k + 1 : Nat)))) with
            | .ok () s => recvWithTimeout E timeout n s
            | .err e s => .err e s
            | .ub => .ub
            | .fuel => .fuel : Res Conn Unit) = .err St.TIMEOUT s' → ∃ l, s' = s.ext l ∧ ∀ e ∈ l, e.plain = true := by
        intro d h
        have hq := pollFd_quiet E d timeout E.fuel (s.push (.recvFail (-(k + 1 : Nat))))
        cases hp : pollFd E d timeout E.fuel (s.push (.recvFail (-(k + 1 : Nat)))) with
        | ub => rw [hp] at h; cases h
        | fuel => rw [hp] at h; cases h
        | err e t =>
          rw [hp] at h hq
          cases h
          obtain ⟨l, rfl, hl⟩ := hq
          refine ⟨.recvFail (-(k + 1 : Nat)) :: l, by simp [Conn.ext, Conn.push], ?_⟩
          intro x hx
          rcases List.mem_cons.1 hx with rfl | hx
          · rfl
          · exact Ev.quiet_plain (hl x hx)
        | ok a t =>
          rw [hp] at h hq
          obtain ⟨l, rfl, hl⟩ := hq
          obtain ⟨l', rfl, hl'⟩ := ih _ _ h
          refine ⟨.recvFail (-(k + 1 : Nat)) :: (l ++ l'), by simp [Conn.ext, Conn.push], ?_⟩
          intro x hx
          rcases List.mem_cons.1 hx with rfl | hx
          · rfl
          · rcases List.mem_append.1 hx with hx | hx
            · exact Ev.quiet_plain (hl x hx)
            · exact hl' x hx
      by_cases h1 : (-(k + 1 : Nat) : Int) = St.PRIVATE_NEED_READ
      · rw [if_pos h1] at h; exact key .read h
      rw [if_neg h1] at h
      by_cases h2 : (-(k + 1 : Nat) : Int) = St.PRIVATE_NEED_WRITE
      · rw [if_pos h2] at h; exact key .write h
      rw [if_neg h2] at h
      injection h with _ h
      exact ⟨[.recvFail (-(k + 1 : Nat))], h.symm, by simp [Ev.plain]⟩

/-- What happens from `beginrecv` on, with an empty buffer. -/
theorem beginRecv_eff {E : NetEnv} (d : Nat) {s : Conn} (hG : Good s.ps) (hi : s.inb = []) (hU : Unblocked E s) :
    match beginRecv E d s with
    | .ok again s' => Eff E s s' [] ∧ s'.queue = s.queue ∧ Unblocked E s' ∧ (again = true → s'.inb = [])
    | .err e s' => Eff E s s' [] ∧ s'.queue = s.queue ∧ (e = St.TIMEOUT → Unblocked E s')
    | _ => True := by
  have hsend : ∃ res s1, hasPastIO E s.nextSend s = (res, s1) ∧ QuietStep s s1 ∧ True := by
    obtain ⟨l, h1, h2⟩ := hasPastIO_ext E s.nextSend s
    exact ⟨(hasPastIO E s.nextSend s).1, (hasPastIO E s.nextSend s).2, rfl, ⟨l, h1, h2⟩, trivial⟩
  obtain ⟨res, s1, h1, hq1, _⟩ := hsend
  unfold beginRecv
  rw [h1]
  dsimp only
  have e1 : Eff E s s1 [] := Eff.quiet hG hq1
  obtain ⟨l1, rfl, hl1⟩ := hq1
  by_cases hr : res = St.TIMER_FAILURE
  · rw [if_pos hr]; exact ⟨e1, rfl, fun h => absurd h (by rw [hr]; decide)⟩
  rw [if_neg hr]
  have h2 : (if res = St.TIMEOUT then sendFrame E ⟨0, .heartbeat⟩ SF_NONE TIME_INF (s.ext l1) else .ok () (s.ext l1) : Res Conn Unit).All
      fun t => Eff E s t [] ∧ t.queue = s.queue ∧ t.inb = [] ∧ Unblocked E t := by
    by_cases hr : res = St.TIMEOUT
    · rw [if_pos hr]
      have h := sendBeat_same (E := E) SF_NONE (s := s.ext l1) hU e1.1
      have hu := (unblocked_closed E).sendFrame ⟨0, .heartbeat⟩ SF_NONE TIME_INF (s := s.ext l1) hU
      revert h hu
      cases sendFrame E ⟨0, .heartbeat⟩ SF_NONE TIME_INF (s.ext l1) with
      | ok a t => exact fun h hu => ⟨e1.trans h.1, h.2.1, by rw [h.2.2]; exact hi, hu⟩
      | err e t => exact fun h hu => ⟨e1.trans h.1, h.2.1, by rw [h.2.2]; exact hi, hu⟩
      | ub => exact fun _ _ => trivial
      | fuel => exact fun _ _ => trivial
    · rw [if_neg hr]; exact ⟨e1, rfl, hi, hU⟩
  revert h2
  cases (if res = St.TIMEOUT then sendFrame E ⟨0, .heartbeat⟩ SF_NONE TIME_INF (s.ext l1) else .ok () (s.ext l1) : Res Conn Unit) with
  | ub => exact fun _ => trivial
  | fuel => exact fun _ => trivial
  | err e t => exact fun h => ⟨h.1, h.2.1, fun _ => h.2.2.2⟩
  | ok a t =>
    rintro ⟨e2, q2, i2, u2⟩
    dsimp only
    have h3 := recvWithTimeout_eff (E := E) (timeFirst d (timeFirst t.nextRecv t.nextSend)) E.fuel t e2.1 i2
    have hU' := (unblocked_closed E).recvWithTimeout (timeFirst d (timeFirst t.nextRecv t.nextSend)) E.fuel u2
    cases h4 : recvWithTimeout E (timeFirst d (timeFirst t.nextRecv t.nextSend)) E.fuel t with
    | ub => trivial
    | fuel => trivial
    | ok b u =>
      rw [h4] at h3 hU'
      exact ⟨e2.trans h3.1, by rw [h3.2.1, q2], hU', fun h => by cases h⟩
    | err e u =>
      rw [h4] at h3 hU'
      dsimp only
      have e3 : Eff E s u [] := e2.trans h3.1
      have q3 : u.queue = s.queue := by rw [h3.2.1, q2]
      by_cases he : e = St.TIMEOUT
      · rw [if_pos he]
        by_cases c1 : timeEqual (timeFirst d (timeFirst t.nextRecv t.nextSend)) u.nextRecv = true
        · rw [if_pos c1]
          dsimp only
          have : ∃ l, (sockClose E u).2 = { u.ext l with isOpen := (sockClose E u).2.isOpen } ∧ recvBytes l = [] := by
            unfold sockClose
            split
            · exact ⟨[], by simp, rfl⟩
            · split
              · exact ⟨[.close true], rfl, rfl⟩
              · exact ⟨[.close false], rfl, rfl⟩
          obtain ⟨l, h5, h6⟩ := this
          refine ⟨e3.trans ?_, ?_, fun h => absurd h (by decide)⟩
          · rw [h5]
            exact Eff.same (l := l) e3.1 rfl h6 (PSim.refl e3.1.1 e3.1.2) rfl
          · rw [h5]; exact q3
        rw [if_neg c1]
        by_cases c2 : timeEqual (timeFirst d (timeFirst t.nextRecv t.nextSend)) d = true
        · rw [if_pos c2]; exact ⟨e3, q3, fun _ => hU'⟩
        rw [if_neg c2]
        by_cases c3 : timeEqual (timeFirst d (timeFirst t.nextRecv t.nextSend)) u.nextSend = true
        · rw [if_pos c3]
          refine ⟨e3, q3, hU', fun _ => ?_⟩
          obtain ⟨l, rfl, _⟩ := recvWithTimeout_timeout _ _ _ _ (by rw [h4, he])
          exact i2
        rw [if_neg c3]; trivial
      · rw [if_neg he]; exact ⟨e3, q3, fun h => absurd h he⟩

theorem maybeReleaseOn_ext (ch : UInt16) (s : Conn) : ∃ l, maybeReleaseOn ch s = s.ext l ∧ (l = [] ∨ l = [.recycle ch]) := by
  unfold maybeReleaseOn
  split
  · exact ⟨[], by simp, Or.inl rfl⟩
  · split
    · exact ⟨[], by simp, Or.inl rfl⟩
    · split
      · exact ⟨[.recycle ch], rfl, Or.inr rfl⟩
      · exact ⟨[], by simp, Or.inl rfl⟩

theorem maybeReleaseOn_eff {E : NetEnv} (ch : UInt16) {s : Conn} (hG : Good s.ps) : Eff E s (maybeReleaseOn ch s) [] := by
  obtain ⟨l, h, hl⟩ := maybeReleaseOn_ext ch s
  rw [h]
  refine Eff.same (l := l) hG rfl ?_ (PSim.refl hG.1 hG.2) rfl
  rcases hl with rfl | rfl <;> rfl

theorem consumeOne_err {E : NetEnv} {s s' : Conn} {e : Int} (h : consumeOne E s = .err e s') : ParseErr e := by
  unfold consumeOne at h
  cases h1 : handleInput E.pe s.ps s.inb with
  | ok r p => rw [h1] at h; cases h
  | err e p => rw [h1] at h; cases h; exact handleInput_ec h1
  | ub => rw [h1] at h; cases h
  | fuel => rw [h1] at h; cases h

theorem parseErr_not_timeout {e : Int} (h : ParseErr e) : e ≠ St.TIMEOUT := by
  intro he; rw [he] at h; exact absurd h.1 (by decide)

/-- A wait on the transport: it reads heartbeats, then one other frame, or only heartbeats if it fails for a reason other than
the parser's. -/
theorem waitInner_eff {E : NetEnv} (d : Nat) : ∀ (n : Nat) (b : Bool) (s : Conn), Good s.ps → Unblocked E s →
    (b = true → s.inb = []) →
    match waitInner E d n b s with
    | .ok f s' => f.frame.isHeartbeat = false ∧ (∃ hs, (∀ h ∈ hs, h.isHeartbeat = true) ∧ Eff E s s' (hs ++ [f.frame])) ∧
        s'.queue = s.queue ∧ Unblocked E s'
    | .err e s' => ¬ ParseErr e → (∃ hs, (∀ h ∈ hs, h.isHeartbeat = true) ∧ Eff E s s' hs) ∧ s'.queue = s.queue ∧
        (e = St.TIMEOUT → Unblocked E s')
    | _ => True := by
  intro n
  induction n with
  | zero => intro b s _ _ _; trivial
  | succ n ih =>
    intro b s hG hU hb
    unfold waitInner
    -- going on from a later state
    have cont : ∀ (b' : Bool) (t : Conn) (hs : List AFrame), (∀ h ∈ hs, h.isHeartbeat = true) → Eff E s t hs → t.queue = s.queue →
        Unblocked E t → (b' = true → t.inb = []) →
        match waitInner E d n b' t with
        | .ok f s' => f.frame.isHeartbeat = false ∧ (∃ hs, (∀ h ∈ hs, h.isHeartbeat = true) ∧ Eff E s s' (hs ++ [f.frame])) ∧
            s'.queue = s.queue ∧ Unblocked E s'
        | .err e s' => ¬ ParseErr e → (∃ hs, (∀ h ∈ hs, h.isHeartbeat = true) ∧ Eff E s s' hs) ∧ s'.queue = s.queue ∧
            (e = St.TIMEOUT → Unblocked E s')
        | _ => True := by
      intro b' t hs hh he hq hu hb'
      have h := ih b' t he.1 hu hb'
      revert h
      cases waitInner E d n b' t with
      | ub => exact fun _ => trivial
      | fuel => exact fun _ => trivial
      | ok f u =>
        rintro ⟨h1, ⟨gs, h2, h3⟩, h4, h5⟩
        refine ⟨h1, ⟨hs ++ gs, ?_, by rw [List.append_assoc]; exact he.trans h3⟩, by rw [h4, hq], h5⟩
        intro x hx
        rcases List.mem_append.1 hx with hx | hx
        · exact hh x hx
        · exact h2 x hx
      | err e u =>
        intro h he'
        obtain ⟨⟨gs, h2, h3⟩, h4, h5⟩ := h he'
        refine ⟨⟨hs ++ gs, ?_, he.trans h3⟩, by rw [h4, hq], h5⟩
        intro x hx
        rcases List.mem_append.1 hx with hx | hx
        · exact hh x hx
        · exact h2 x hx
    by_cases hc : b = false ∧ s.inb ≠ []
    · rw [if_pos hc]
      cases h1 : consumeOne E s with
      | err e t => intro he; exact absurd (consumeOne_err h1) he
      | ub => trivial
      | fuel => trivial
      | ok f t =>
        obtain ⟨e1, q1, a1, b1, c1, d1⟩ := consumeOne_eff hG h1
        have u1 : Unblocked E t := ((unblocked_closed E).consume hU h1).1
        cases f with
        | none => exact cont false t [] (by simp) e1 q1 u1 (by simp)
        | some f =>
          dsimp only
          by_cases hp : f.frame.isHeartbeat = true
          · have hp' : f.frame.payload = .heartbeat := by
              unfold AFrame.isHeartbeat at hp
              cases h : f.frame.payload <;> rw [h] at hp <;> first | rfl | cases hp
            rw [hp']
            dsimp only
            have e2 := e1.trans (maybeReleaseOn_eff (E := E) 0 e1.1)
            obtain ⟨l, hl, _⟩ := maybeReleaseOn_ext 0 t
            refine cont false _ [f.frame] ?_ e2 (by rw [hl]; exact q1) ((unblocked_closed E).release 0 u1) (by simp)
            intro x hx; rw [List.mem_singleton] at hx; rw [hx]; exact hp
          · have fin : f.frame.isHeartbeat = false ∧ (∃ hs, (∀ h ∈ hs, h.isHeartbeat = true) ∧ Eff E s t (hs ++ [f.frame])) ∧
                t.queue = s.queue ∧ Unblocked E t := ⟨by simpa using hp, ⟨[], by simp, e1⟩, q1, u1⟩
            have hp' : f.frame.payload ≠ .heartbeat := by
              intro h; apply hp; unfold AFrame.isHeartbeat; rw [h]
            cases h : f.frame.payload <;> first | exact absurd h hp' | exact fin
    · rw [if_neg hc]
      have hi : s.inb = [] := by
        cases b with
        | true => exact hb rfl
        | false =>
          cases hs : s.inb with
          | nil => rfl
          | cons x y => exact absurd ⟨rfl, by rw [hs]; simp⟩ hc
      have h1 := beginRecv_eff d hG hi hU
      revert h1
      cases beginRecv E d s with
      | ub => exact fun _ => trivial
      | fuel => exact fun _ => trivial
      | err e t => exact fun h _ => ⟨⟨[], by simp, h.1⟩, h.2.1, h.2.2⟩
      | ok again t => exact fun h => cont again t [] (by simp) h.1 h.2.1 h.2.2.1 h.2.2.2

theorem waitFrameInner_eff {E : NetEnv} (d : Nat) {s : Conn} (hG : Good s.ps) (hU : Unblocked E s) :
    match waitFrameInner E d s with
    | .ok f s' => f.frame.isHeartbeat = false ∧ (∃ hs, (∀ h ∈ hs, h.isHeartbeat = true) ∧ Eff E s s' (hs ++ [f.frame])) ∧
        s'.queue = s.queue ∧ Unblocked E s'
    | .err e s' => ¬ ParseErr e → (∃ hs, (∀ h ∈ hs, h.isHeartbeat = true) ∧ Eff E s s' hs) ∧ s'.queue = s.queue ∧
        (e = St.TIMEOUT → Unblocked E s')
    | _ => True := waitInner_eff d _ _ s hG hU (by simp)

end Rmq
