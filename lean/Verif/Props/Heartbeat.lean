import Verif.Props.Deadlines
import Verif.Proofs.Books
import Verif.Proofs.Silent
/-!
# C41, C58: waiting with a deadline, and with heartbeats

`Watch` (Spec/Heartbeat.lean) is an observer of the events of a wait; `Obeys` says that all of them are as they should be.
-/
namespace Rmq

theorem CallH.hb {E : NetEnv} (hC : ClockFine E) {s s' : Conn} (h : CallH E s s') (hs : HbSettings E s) : HbSettings E s' := by
  cases h with
  | callP h => exact (hb_login hC).toApiClosed.callP h hs
  | tune cm fm hb mem hh hl => exact (hb_tune hC hs cm fm hb mem hh).leaves hl
  | login b mc mem a hl => exact ((hb_login hC).login b mc mem a hs).leaves hl

/-- A new connection has no heartbeats. -/
theorem hbSettings_new (E : NetEnv) (mem : Nat → UInt8) : HbSettings E (newConn mem) :=
  ⟨(by decide : (0 : Int) ≤ 65535), fun _ => ⟨rfl, rfl⟩, Or.inl rfl, Or.inl rfl⟩

/-- What a wait does, in full: `P` for a success, `FailsOk` for a failure. -/
theorem waitFrame_watch {E : NetEnv} (hC : ClockFine E) {s : Conn} (hH : HbSettings E s) {tv : Option TimeVal} (hT : Sensible tv) :
    match waitFrame E tv s with
    | .ok _ s' => ∃ l D, Since s s' l ∧ EndsBy tv l D ∧ (Odd l ∨ Seg D s.heartbeat s s' l)
    | .err e s' => ∃ l D, Since s s' l ∧ EndsBy tv l D ∧ (Odd l ∨ FailsOk D s.heartbeat s e s' l)
    | .ub => True
    | .fuel => True := by
  rw [waitFrame_def]
  -- the rest, once the deadline is known
  have rest : ∀ (d : Nat) (t : Conn) (l0 : List Ev), Since s t l0 → Seg d s.heartbeat s t l0 → HbSettings E t → t.heartbeat = s.heartbeat →
      (∀ l, EndsBy tv (l0 ++ l) d) → Near E t.time d →
      match (match t.queue with
        | f :: rest => .ok f { t with queue := rest }
        | [] => waitFrameInner E d t : Res Conn DFrame) with
      | .ok _ s' => ∃ l D, Since s s' l ∧ EndsBy tv l D ∧ (Odd l ∨ Seg D s.heartbeat s s' l)
      | .err e s' => ∃ l D, Since s s' l ∧ EndsBy tv l D ∧ (Odd l ∨ FailsOk D s.heartbeat s e s' l)
      | .ub => True
      | .fuel => True := by
    intro d t l0 hs hseg hHt hhb hd hN
    cases hq : t.queue with
    | cons f q => exact ⟨l0, d, hs, by simpa using hd [], Or.inr hseg⟩
    | nil =>
      dsimp only
      have hw := waitInner_watch hC d E.fuel false hHt hN
      rw [hhb] at hw
      unfold waitFrameInner
      revert hw
      cases waitInner E d E.fuel false t with
      | ub => exact id
      | fuel => exact id
      | ok x u =>
        rintro ⟨l, k1, k2⟩
        refine ⟨l0 ++ l, d, hs.trans k1, hd l, ?_⟩
        rcases k2 with k2 | ⟨k2, _⟩
        · exact Or.inl (k2.right _)
        · exact Or.inr (hseg.trans k2)
      | err e u =>
        rintro ⟨l, k1, k2⟩
        refine ⟨l0 ++ l, d, hs.trans k1, hd l, ?_⟩
        rcases k2 with k2 | k2
        · exact Or.inl (k2.right _)
        · exact Or.inr (FailsOk.prefix hseg k2)
  cases tv with
  | none => exact rest TIME_INF s [] (by simp [Since]) (Seg.refl _ _ _) hH rfl (fun _ => rfl) (Or.inl rfl)
  | some v =>
    obtain ⟨h1, h2, h3⟩ := hT
    have hlt := hC.2 s.time
    have hmono : ∀ k, s.time ≤ k → E.clock k = 0 ∨ E.clock s.time ≤ E.clock k := fun k hk => hC.1 _ _ hk
    have hdef : fromNowIO E (some v) s = if E.clock s.time = 0 then .err St.TIMER_FAILURE (s.push (.clock (E.clock s.time)))
        else .ok (E.clock s.time + v.nanos) (s.push (.clock (E.clock s.time))) := by
      unfold fromNowIO timeFromNow readClock
      dsimp only
      rw [if_neg (by omega), if_neg (by omega)]
      change v.nanos < _ at h3
      have e1 : v.sec.toNat * 1000000000 + v.usec.toNat * 1000 = v.nanos := rfl
      rw [e1, Nat.mod_eq_of_lt (show v.nanos < 2 ^ 64 by omega)]
      by_cases hz : E.clock s.time = 0
      · rw [if_pos hz, if_pos hz]
      · rw [if_neg hz, if_neg hz, Nat.mod_eq_of_lt (show E.clock s.time + v.nanos < 2 ^ 64 by omega), if_neg (by omega)]
    rw [hdef]
    generalize E.clock s.time = now at *
    have hs1 : Since s (s.push (.clock now)) [.clock now] := rfl
    have hseg : ∀ D, Seg D s.heartbeat s (s.push (.clock now)) [.clock now] := fun D => Seg.one (fun _ _ => ⟨fun _ => ⟨by simp, by simp⟩, by simp⟩) (fun _ => trivial) rfl rfl
    by_cases hz : now = 0
    · rw [if_pos hz]
      exact ⟨[.clock now], now + v.nanos, hs1, ⟨now, [], rfl, rfl⟩,
        Or.inr ⟨(hseg _).obeys, (fun hh => absurd hh (by decide)), (fun hh => absurd hh (by decide))⟩⟩
    · rw [if_neg hz]
      refine rest (now + v.nanos) _ [.clock now] hs1 (hseg _) (hH.mono rfl rfl rfl (since_time_le hs1)) rfl (fun l => ⟨now, l, rfl, rfl⟩) (Or.inr ⟨by omega, ?_, ?_⟩)
      · unfold TIME_INF; omega
      · intro k hk
        have h5 := since_time_le hs1
        rcases hmono k (by omega) with h | h
        · exact Or.inl h
        · right; omega

theorem obeys_of {D : Nat} {h : Int} {s : Conn} {l : List Ev} (hO : ObeysAll D h s l) : Obeys D h ⟨s.nextRecv, s.nextSend, none⟩ l :=
  hO none ⟨fun _ => ⟨by simp, by simp⟩, by simp⟩

/-! ## C58 -/

/-- C58: the events of a wait, whatever calls came before: it never polls beyond its deadline (nor beyond the times set by the heartbeats),
`Watch.allows`.  Exempt is a wait during which a send (of a heartbeat) blocked. -/
theorem C58_polls_partial {E : NetEnv} (hC : ClockFine E) {s0 s s' : Conn} (h0 : HbSettings E s0) (hS : Steps (CallH E) s0 s) {tv : Option TimeVal}
    (hT : Sensible tv) (hw : (waitFrame E tv s).leaves s') :
    ∃ l D, Since s s' l ∧ EndsBy tv l D ∧ ((∃ e ∈ l, e.odd = true) ∨ Obeys D s.heartbeat ⟨s.nextRecv, s.nextSend, none⟩ l) := by
  have hH : HbSettings E s := hS.inv (fun h => h.hb hC) h0
  have h := waitFrame_watch hC hH hT
  revert h hw
  cases waitFrame E tv s with
  | ub => intro hw; cases hw
  | fuel => intro hw; cases hw
  | ok f t =>
    intro hw
    cases hw
    rintro ⟨l, D, a, b, c⟩
    exact ⟨l, D, a, b, c.imp id fun c => obeys_of c.obeys⟩
  | err e t =>
    intro hw
    cases hw
    rintro ⟨l, D, a, b, c⟩
    exact ⟨l, D, a, b, c.imp id fun c => obeys_of c.1⟩

/-- C58: TIMEOUT is only returned when, after a last reading of the clock, a poll timed out whose length would have taken the clock to less
than one millisecond before the deadline, or past it. -/
theorem C58_timeout_partial {E : NetEnv} (hC : ClockFine E) {s0 s s' : Conn} (h0 : HbSettings E s0) (hS : Steps (CallH E) s0 s) {v : TimeVal}
    (hT : Sensible (some v)) (hw : waitFrame E (some v) s = .err St.TIMEOUT s') :
    ∃ l t0 l', Since s s' l ∧ l = .clock t0 :: l' ∧ ((∃ e ∈ l, e.odd = true) ∨
      ∃ a d ms, ∃ now : Nat, l = a ++ [.clock now, .poll d ms .timeout] ∧ 0 ≤ ms ∧ ((t0 + v.nanos : Nat) : Int) < now + (ms + 1) * 1000000) := by
  have hH : HbSettings E s := hS.inv (fun h => h.hb hC) h0
  have h := waitFrame_watch hC hH hT
  rw [hw] at h
  obtain ⟨l, D, a, ⟨t0, l', b, rfl⟩, c⟩ := h
  refine ⟨l, t0, l', a, b, c.imp id fun c => ?_⟩
  rcases (c.2.1 rfl).1 with ⟨x, y, z, w, c1, c2, c3, _⟩ | ⟨c, _⟩
  · exact ⟨x, y, z, w, c1, c2, c3⟩
  · exfalso
    -- the deadline is not TIME_INF
    have h1 : t0 < 2 ^ 63 := by
      unfold Since at a
      rw [b] at a
      have : (waitFrame E (some v) s).All (fun s' => ∃ l2, s'.log = s.log ++ .clock (E.clock s.time) :: l2) := by
        rw [waitFrame_def]
        have hf : (fromNowIO E (some v) s).All fun t => t = s.push (.clock (E.clock s.time)) := by
          unfold fromNowIO
          dsimp only
          rw [if_neg (by have := hT.1; have := hT.2.1; omega)]
          cases timeFromNow (E.clock s.time) (some v) <;> rfl
        revert hf
        cases fromNowIO E (some v) s with
        | ub => exact id
        | fuel => exact id
        | err e t => rintro rfl; exact ⟨[], rfl⟩
        | ok d t =>
          rintro rfl
          dsimp only
          cases hq : (s.push (.clock (E.clock s.time))).queue with
          | cons f q => exact ⟨[], rfl⟩
          | nil =>
            dsimp only
            have h := (since_closed E (s.push (.clock (E.clock s.time)))).waitFrameInner d (s := s.push (.clock (E.clock s.time))) ⟨[], by simp [Since]⟩
            revert h
            cases waitFrameInner E d (s.push (.clock (E.clock s.time))) with
            | ub => exact id
            | fuel => exact id
            | ok x u => rintro ⟨⟨l2, h⟩, _⟩; exact ⟨l2, by unfold Since at h; rw [h]; simp [Conn.push]⟩
            | err x u => rintro ⟨l2, h⟩; exact ⟨l2, by unfold Since at h; rw [h]; simp [Conn.push]⟩
      rw [hw] at this
      obtain ⟨l2, h2⟩ := this
      rw [h2] at a
      have h3 := List.append_cancel_left a
      injection h3 with h3 _
      injection h3 with h3
      rw [← h3]; exact hC.2 _
    have h2 := hT.2.2
    unfold TIME_INF at c
    omega

/-! ### Examples -/

theorem clockFine_netEnv {c : List (Nat × Nat)} {sd : List (Nat × SendR)} {rc : List (Nat × RecvR)} {po : List (Nat × PollR)}
    (hs : (c.map (·.1)).Pairwise (· < ·)) (hv : (c.map (·.2)).Pairwise (· ≤ ·)) (h63 : ∀ x ∈ c, x.2 < 2 ^ 63) : ClockFine (netEnv c sd rc po) := by
  have lk : ∀ (c : List (Nat × Nat)) (j v : Nat), c.lookup j = some v → (j, v) ∈ c := by
    intro c
    induction c with
    | nil => intro j v h; cases h
    | cons x c ih =>
      intro j v h
      rw [List.lookup] at h
      split at h
      · rename_i hx; rw [beq_iff_eq] at hx; cases h; rw [hx]; simp
      · exact List.mem_cons_of_mem _ (ih j v h)
  have key : ∀ (c : List (Nat × Nat)), (c.map (·.1)).Pairwise (· < ·) → (c.map (·.2)).Pairwise (· ≤ ·) → ∀ j k v w, j ≤ k → (j, v) ∈ c → (k, w) ∈ c → v ≤ w := by
    intro c
    induction c with
    | nil => intro _ _ j k v w _ h; cases h
    | cons x c ih =>
      intro h1 h2 j k v w hjk hj hk
      rw [List.map_cons, List.pairwise_cons] at h1 h2
      rcases List.mem_cons.1 hj with rfl | hj <;> rcases List.mem_cons.1 hk with hk | hk
      · cases hk; exact Nat.le_refl _
      · exact h2.1 w (List.mem_map_of_mem (f := (·.2)) hk)
      · have := h1.1 j (List.mem_map_of_mem (f := (·.1)) hj)
        subst hk
        dsimp only at this
        omega
      · exact ih h1.2 h2.2 j k v w hjk hj hk
  refine ⟨fun j k hjk => ?_, fun k => ?_⟩
  · show (c.lookup k).getD 0 = 0 ∨ (c.lookup j).getD 0 ≤ (c.lookup k).getD 0
    cases hk : c.lookup k with
    | none => exact Or.inl rfl
    | some w =>
      right
      cases hj : c.lookup j with
      | none => exact Nat.zero_le _
      | some v => exact key c hs hv j k v w hjk (lk c j v hj) (lk c k w hk)
  · show (c.lookup k).getD 0 < _
    cases hk : c.lookup k with
    | none => decide
    | some w => exact h63 (k, w) (lk c k w hk)

/-- An environment in which a wait of two milliseconds times out. -/
def idleEnv : NetEnv := netEnv [(0, 1000000000), (2, 1000500000), (5, 1001800000)] [] [(1, .fail 0x1300), (4, .fail 0x1300)] [(3, .ready), (6, .timeout)]
example : ClockFine idleEnv := clockFine_netEnv (by decide) (by decide) (by decide)
example : HbSettings idleEnv (demoConn 64) := ⟨(by decide : (0 : Int) ≤ 65535), fun _ => ⟨rfl, rfl⟩, Or.inl rfl, Or.inl rfl⟩
example : Sensible (some ⟨0, 2000⟩) := by unfold Sensible TimeVal.nanos; decide
example : (waitFrame idleEnv (some ⟨0, 2000⟩) (demoConn 64)).errCode? = some St.TIMEOUT ∧
    (waitFrame idleEnv (some ⟨0, 2000⟩) (demoConn 64)).state?.map (·.log) =
      some [.clock 1000000000, .recvFail (-0x1301), .clock 1000500000, .poll .read 1 .ready, .recvFail (-0x1301), .clock 1001800000, .poll .read 0 .timeout] := by
  decide +kernel

/-- The full C58 fails in two ways.  First: a wait of 1999 microseconds polls for 1 millisecond and then gives up, almost a millisecond before its
deadline. -/
theorem C58_early : let E := netEnv [(0, 1000000000), (2, 1000000000)] [] [(1, .fail 0x1300)] [(3, .timeout)]
    (waitFrame E (some ⟨0, 1999⟩) (demoConn 64)).errCode? = some St.TIMEOUT ∧
    (waitFrame E (some ⟨0, 1999⟩) (demoConn 64)).state?.map (·.log) =
      some [.clock 1000000000, .recvFail (-0x1301), .clock 1000000000, .poll .read 1 .timeout] := by decide +kernel

/-- Second: a wait with a timeout of zero finds a heartbeat to be overdue; sending it would block, and it polls for 14 seconds. -/
theorem C58_blocked : let E := netEnv [(0, 6000000000), (1, 6000000000), (3, 6000000000)] [(2, .fail 0x1301)] [] [(4, .error)]
    let s := { demoConn 64 with heartbeat := 10, nextSend := 5000000000, nextRecv := 20000000000 }
    (waitFrame E (some ⟨0, 0⟩) s).state?.map (·.log) = some [.clock 6000000000, .clock 6000000000, .send heartbeatBytes 0 (-0x1302), .clock 6000000000, .poll .write 14000 .error] := by
  decide +kernel

/-! ## C41 -/

/-- What amqp_tune_connection with an interval of `h` seconds does to the heartbeats. -/
theorem C41_tune {E : NetEnv} (hC : ClockFine E) {cm fm h : Int} (h1 : 0 < h) (h2 : h ≤ 65535) {mem : Nat → UInt8} {s s0 : Conn}
    (ht : tune E cm fm h mem s = .ok () s0) :
    ∃ c1 c2, Since s s0 [.clock c1, .clock c2] ∧ c1 ≠ 0 ∧ c2 ≠ 0 ∧ s0.heartbeat = h ∧ s0.nextSend = c1 + h.toNat * 1000000000 ∧ s0.nextRecv = c2 + 2 * h.toNat * 1000000000 := by
  unfold tune at ht
  by_cases hm : s.ps.mode ≠ .idle
  · rw [if_pos hm] at ht; cases ht
  rw [if_neg hm] at ht
  dsimp only at ht
  rw [if_neg (show ¬ (0 > h) by omega)] at ht
  generalize hu : ({ s with channelMax := cm, frameMax := fm, ps := { s.ps with frameMax := (fm % 2 ^ 64).toNat }, heartbeat := h } : Conn) = u at ht
  have hl : u.log = s.log := by rw [← hu]
  have hhb : u.heartbeat = h := by rw [← hu]
  unfold restartSend at ht
  rw [hhb, sFromNowIO_on E h1 (by omega) _ _ (hC.2 _)] at ht
  generalize E.clock u.time = c1 at ht
  by_cases z1 : c1 = 0
  · rw [if_pos z1] at ht; cases ht
  rw [if_neg z1] at ht
  generalize hn1 : c1 + h.toNat * 1000000000 = n1 at ht
  dsimp only at ht
  rw [if_pos rfl] at ht
  dsimp only at ht
  unfold restartRecv at ht
  generalize hv : ({ u.push (.clock c1) with nextSend := n1 } : Conn) = v at ht
  have hl' : v.log = s.log ++ [.clock c1] := by rw [← hv, ← hl]; rfl
  have hhb' : v.heartbeat = h := by rw [← hv]; exact hhb
  have hs' : v.nextSend = n1 := by rw [← hv]
  rw [hhb', sFromNowIO_on E (by omega) (by omega) _ _ (hC.2 _)] at ht
  generalize E.clock v.time = c2 at ht
  by_cases z2 : c2 = 0
  · rw [if_pos z2] at ht; cases ht
  rw [if_neg z2] at ht
  have e4 : (2 * h).toNat = 2 * h.toNat := by omega
  rw [e4] at ht
  generalize hn2 : c2 + 2 * h.toNat * 1000000000 = n2 at ht
  dsimp only [smallAlloc] at ht
  rw [if_pos rfl] at ht
  dsimp only at ht
  generalize E.pe.alloc _ = b at ht
  cases b with
  | false => cases ht
  | true =>
    cases ht
    refine ⟨c1, c2, ?_, z1, z2, hhb', ?_, by rw [hn2]⟩
    · show v.log ++ [.clock c2] = _
      rw [hl']; simp
    · rw [hn1]; exact hs'

/-- What the books are after some calls. -/
theorem books_of {E : NetEnv} (hC : ClockFine E) {s0 s : Conn} (h0 : HbSettings E s0) (hS : Steps (CallP E) s0 s) :
    HbSettings E s ∧ Books s0.heartbeat ⟨s0.nextRecv, s0.nextSend, none⟩ s0.log s :=
  ⟨hS.inv (fun h hs => (hb_login hC).toApiClosed.callP h hs) h0, hS.inv (fun h hs => (books_api hC h0.1).callP h hs)
    ⟨rfl, fun hh => ⟨(h0.2.1 hh).2, (h0.2.1 hh).1⟩, [], none, by simp, fun _ => ⟨by simp, by simp⟩, rfl⟩⟩

/-- C41: with an interval of `h` seconds, whatever calls were made since it was set: let an observer have followed all events, so as to know since
when nothing was sent and since when nothing was received.  Then during a wait, everything is as it should be (`Obeys`): heartbeats are sent when
nothing was sent for `h` seconds and only then, the wait never sleeps beyond the next time for a heartbeat, nor beyond the moment when nothing
was received for 2h seconds.  Exempt is a wait during which the sending of a heartbeat blocked. -/
theorem C41_heartbeats_partial {E : NetEnv} (hC : ClockFine E) {cm fm h : Int} (hp : 0 < h) (hm : h ≤ 65535) {mem : Nat → UInt8} {s s0 s1 s' : Conn}
    (hS0 : HbSettings E s) (ht : tune E cm fm h mem s = .ok () s0) (hS : Steps (CallP E) s0 s1) {tv : Option TimeVal} (hT : Sensible tv)
    (hw : (waitFrame E tv s1).leaves s') :
    ∃ c1 c2 l l' D m, Since s s0 [.clock c1, .clock c2] ∧ Since s0 s1 l ∧ Since s1 s' l' ∧ EndsBy tv l' D ∧
      m = Watch.after h ⟨c2 + 2 * h.toNat * 1000000000, c1 + h.toNat * 1000000000, none⟩ l ∧
      ((∃ e ∈ l', e.odd = true) ∨ Obeys D h ⟨m.recvBy, m.sendBy, none⟩ l') := by
  obtain ⟨c1, c2, a1, _, _, a2, a3, a4⟩ := C41_tune hC hp hm ht
  have hH0 : HbSettings E s0 := by
    have := hb_tune hC hS0 cm fm h mem hm
    rw [ht] at this; exact this
  obtain ⟨hH, b1, _, l, last, b2, _, b3⟩ := books_of hC hH0 hS
  obtain ⟨l', D, d1, d2, d3⟩ := C58_polls_partial hC hH (Steps.refl s1) hT hw
  rw [a2, a3, a4] at b3
  refine ⟨c1, c2, l, l', D, _, a1, b2, d1, d2, rfl, d3.imp id fun d3 => ?_⟩
  rw [b3, b1, a2] at *
  exact d3

/-- C41: a wait fails with HEARTBEAT_TIMEOUT only if it slept until less than a millisecond before the moment when nothing was received for 2h
seconds, and before its own deadline; then the socket has been closed (or the system refused to close it). -/
theorem C41_timeout_partial {E : NetEnv} (hC : ClockFine E) {cm fm h : Int} (hp : 0 < h) (hm : h ≤ 65535) {mem : Nat → UInt8} {s s0 s1 s' : Conn}
    (hS0 : HbSettings E s) (ht : tune E cm fm h mem s = .ok () s0) (hS : Steps (CallP E) s0 s1) {tv : Option TimeVal} (hT : Sensible tv)
    (hw : waitFrame E tv s1 = .err St.HEARTBEAT_TIMEOUT s') :
    ∃ c1 c2 l l' D m, Since s s0 [.clock c1, .clock c2] ∧ Since s0 s1 l ∧ Since s1 s' l' ∧ EndsBy tv l' D ∧
      m = Watch.after h ⟨c2 + 2 * h.toNat * 1000000000, c1 + h.toNat * 1000000000, none⟩ l ∧
      ((∃ e ∈ l', e.odd = true) ∨ ∃ a ok, l' = a ++ [.close ok] ∧ s'.isOpen = !ok ∧
        TimedOut (Watch.after h ⟨m.recvBy, m.sendBy, none⟩ a).recvBy a ∧ (Watch.after h ⟨m.recvBy, m.sendBy, none⟩ a).recvBy ≤ D) := by
  obtain ⟨c1, c2, a1, _, _, a2, a3, a4⟩ := C41_tune hC hp hm ht
  have hH0 : HbSettings E s0 := by
    have := hb_tune hC hS0 cm fm h mem hm
    rw [ht] at this; exact this
  obtain ⟨hH, b1, _, l, last, b2, _, b3⟩ := books_of hC hH0 hS
  have hx := waitFrame_watch hC hH hT
  rw [hw] at hx
  obtain ⟨l', D, d1, d2, d3⟩ := hx
  rw [a2, a3, a4] at b3
  refine ⟨c1, c2, l, l', D, _, a1, b2, d1, d2, rfl, d3.imp id fun d3 => ?_⟩
  obtain ⟨a, ok, e1, e2, e3⟩ := d3.2.2 rfl
  obtain ⟨e4, e5⟩ := e3 none ⟨fun _ => ⟨by simp, by simp⟩, by simp⟩
  rw [b3]
  rw [b1, a2] at e4 e5
  exact ⟨a, ok, e1, e2, e4, e5⟩

/-- C41: a wait does not end with TIMEOUT if nothing was received for 2h seconds before its deadline. -/
theorem C41_not_timeout_partial {E : NetEnv} (hC : ClockFine E) {cm fm h : Int} (hp : 0 < h) (hm : h ≤ 65535) {mem : Nat → UInt8} {s s0 s1 s' : Conn}
    (hS0 : HbSettings E s) (ht : tune E cm fm h mem s = .ok () s0) (hS : Steps (CallP E) s0 s1) {tv : Option TimeVal} (hT : Sensible tv)
    (hw : waitFrame E tv s1 = .err St.TIMEOUT s') :
    ∃ c1 c2 l l' D m, Since s s0 [.clock c1, .clock c2] ∧ Since s0 s1 l ∧ Since s1 s' l' ∧ EndsBy tv l' D ∧
      m = Watch.after h ⟨c2 + 2 * h.toNat * 1000000000, c1 + h.toNat * 1000000000, none⟩ l ∧
      ((∃ e ∈ l', e.odd = true) ∨ D < (Watch.after h ⟨m.recvBy, m.sendBy, none⟩ l').recvBy) := by
  obtain ⟨c1, c2, a1, _, _, a2, a3, a4⟩ := C41_tune hC hp hm ht
  have hH0 : HbSettings E s0 := by
    have := hb_tune hC hS0 cm fm h mem hm
    rw [ht] at this; exact this
  obtain ⟨hH, b1, _, l, last, b2, _, b3⟩ := books_of hC hH0 hS
  have hx := waitFrame_watch hC hH hT
  rw [hw] at hx
  obtain ⟨l', D, d1, d2, d3⟩ := hx
  rw [a2, a3, a4] at b3
  refine ⟨c1, c2, l, l', D, _, a1, b2, d1, d2, rfl, d3.imp id fun d3 => ?_⟩
  have e4 := (d3.2.1 rfl).2 none ⟨fun _ => ⟨by simp, by simp⟩, by simp⟩
  rw [b3]
  rw [b1, a2] at e4
  exact e4

theorem after_off {h : Int} (hh : h ≤ 0) : ∀ (l : List Ev) (m : Watch), (m.after h l).recvBy = m.recvBy ∧ (m.after h l).sendBy = m.sendBy := by
  intro l
  induction l with
  | nil => intro m; exact ⟨rfl, rfl⟩
  | cons e l ih =>
    intro m
    have := ih (m.see h e)
    rw [see_settled (h := h) (m := m) (fun hx => absurd hx (by omega))] at this
    show (Watch.after h (m.see h e) l).recvBy = _ ∧ (Watch.after h (m.see h e) l).sendBy = _
    rw [see_settled (h := h) (m := m) (fun hx => absurd hx (by omega))]
    exact this

/-- C41 without heartbeats: after amqp_tune_connection with an interval of 0 (or less), or on a new connection, a wait sends nothing, and fails with
HEARTBEAT_TIMEOUT only if the socket itself reported that, or a poll without a timeout timed out. -/
theorem C41_off {E : NetEnv} (hC : ClockFine E) {s0 s1 s' : Conn}
    (h0 : (∃ mem, s0 = newConn mem) ∨ ∃ s cm fm h mem, HbSettings E s ∧ h ≤ 0 ∧ tune E cm fm h mem s = .ok () s0)
    (hS : Steps (CallP E) s0 s1) {tv : Option TimeVal} (hT : Sensible tv) (hw : (waitFrame E tv s1).leaves s') :
    ∃ l', Since s1 s' l' ∧ (∀ b f r, Ev.send b f r ∉ l') ∧ ((waitFrame E tv s1).errCode? = some St.HEARTBEAT_TIMEOUT →
      Ev.recvFail St.TIMEOUT ∈ l' ∨ Ev.recvFail St.HEARTBEAT_TIMEOUT ∈ l' ∨ ∃ d, Ev.poll d (-1) .timeout ∈ l') := by
  have hH0 : HbSettings E s0 ∧ s0.heartbeat ≤ 0 := by
    rcases h0 with ⟨mem, rfl⟩ | ⟨s, cm, fm, h, mem, h1, h2, h3⟩
    · exact ⟨hbSettings_new E mem, Int.le_refl _⟩
    · have h4 := hb_tune hC h1 cm fm h mem (by omega)
      rw [h3] at h4
      refine ⟨h4, ?_⟩
      have h5 : (tune E cm fm h mem s).All fun s' => s'.heartbeat ≤ 0 := by
        unfold tune
        by_cases hm : s.ps.mode ≠ .idle
        · rw [if_pos hm]; trivial
        rw [if_neg hm]
        dsimp only
        generalize hu : ({ s with channelMax := cm, frameMax := fm, ps := { s.ps with frameMax := (fm % 2 ^ 64).toNat }, heartbeat := if 0 > h then 0 else h } : Conn) = u
        have hhu : u.heartbeat ≤ 0 := by rw [← hu]; dsimp only; split <;> omega
        unfold restartSend restartRecv
        rw [sFromNowIO_off E hhu]
        dsimp only
        rw [if_pos rfl]
        dsimp only
        rw [sFromNowIO_off E (by omega)]
        dsimp only [smallAlloc]
        rw [if_pos rfl]
        dsimp only
        cases E.pe.alloc _ <;> exact hhu
      rw [h3] at h5
      exact h5
  obtain ⟨hH, b1, b4, l, last, b2, _, b3⟩ := books_of hC hH0.1 hS
  have hoff : HbOff s1 := ⟨by rw [b1]; exact hH0.2, (b4 hH0.2).2, (b4 hH0.2).1⟩
  have hi := (waitFrame_idle (E := E) tv hoff).leaves hw
  obtain ⟨ps, inb, q, o, li, hli, _, hns⟩ := hi
  have hsi : Since s1 s' li := by rw [hli]; rfl
  refine ⟨li, hsi, fun b f r hm => absurd (hns _ hm) (by simp [Ev.isSend]), fun he => ?_⟩
  have hx := waitFrame_watch hC hH hT
  revert hx hw he
  cases waitFrame E tv s1 with
  | ub => intro hw; cases hw
  | fuel => intro hw; cases hw
  | ok f t => intro _ he; cases he
  | err e t =>
    intro hw he
    cases hw
    cases he
    rintro ⟨l', D, d1, _, d3⟩
    have : li = l' := List.append_cancel_left (hsi.symm.trans d1)
    subst this
    rcases d3 with ⟨x, hx, ho⟩ | d3
    · cases x with
      | send b f r => exact absurd (hns _ hx) (by simp [Ev.isSend])
      | recvFail st =>
        simp only [Ev.odd, Bool.or_eq_true, beq_iff_eq] at ho
        rcases ho with rfl | rfl
        · exact Or.inl hx
        · exact Or.inr (Or.inl hx)
      | _ => cases ho
    · obtain ⟨a, ok, e1, _, e3⟩ := d3.2.2 rfl
      obtain ⟨e4, _⟩ := e3 none ⟨fun _ => ⟨by simp, by simp⟩, by simp⟩
      rw [(after_off hoff.1 _ _).1] at e4
      rcases e4 with ⟨_, _, _, _, _, _, _, e5⟩ | ⟨_, x, d, e5⟩
      · exact absurd hoff.2.2 e5
      · exact Or.inr (Or.inr ⟨d, by rw [e1, e5]; simp⟩)

/-! ### Examples -/

/-- A connection tuned for heartbeats every 10 seconds … -/
def beatEnv : NetEnv := netEnv [(0, 1000000000), (1, 1000000000), (2, 1000000000), (4, 1000000000), (6, 11000000001), (8, 11000000002), (10, 11000000003)]
  [(7, .sent 99)] [(3, .fail 0x1300), (9, .fail 0x1300)] [(5, .timeout), (11, .timeout)]
def beatConn : Conn := ((tune beatEnv 0 64 10 (fun _ => 0) (demoConn 64)).state?).getD (demoConn 64)
example : (tune beatEnv 0 64 10 (fun _ => 0) (demoConn 64)).errCode? = none := by decide +kernel
example : ClockFine beatEnv := clockFine_netEnv (by decide) (by decide) (by decide)
example : HbSettings beatEnv (demoConn 64) := ⟨(by decide : (0 : Int) ≤ 65535), fun _ => ⟨rfl, rfl⟩, Or.inl rfl, Or.inl rfl⟩
/-- … sends one and then gives up, 20 seconds after it began. -/
example : (waitFrame beatEnv none beatConn).errCode? = some St.HEARTBEAT_TIMEOUT ∧
    ((waitFrame beatEnv none beatConn).state?.map fun s => s.log.drop 2) =
      some [.clock 1000000000, .recvFail (-0x1301), .clock 1000000000, .poll .read 10000 .timeout, .clock 11000000001, .send heartbeatBytes 0 8, .clock 11000000002,
        .recvFail (-0x1301), .clock 11000000003, .poll .read 9999 .timeout, .close true] := by
  decide +kernel

/-- If sending a heartbeat blocks until nothing was received for 2h seconds, the wait fails with HEARTBEAT_TIMEOUT, but the socket stays open. -/
theorem C41_blocked_stays_open : let E := netEnv [(0, 20000000000), (2, 20000000000), (4, 20000000000), (6, 20000000000)] [(1, .fail 0x1301)] [(5, .fail 0x1300)] [(3, .timeout), (7, .timeout)]
    let s := { demoConn 64 with heartbeat := 10, nextSend := 10000000000, nextRecv := 20000000000 }
    (waitFrame E none s).errCode? = some St.HEARTBEAT_TIMEOUT ∧ (waitFrame E none s).state?.map (·.isOpen) = some true := by
  decide +kernel

end Rmq
