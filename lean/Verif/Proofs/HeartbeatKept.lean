import Verif.Proofs.Heartbeat
/-!
# The heartbeat settings are kept by every call
-/
namespace Rmq

theorem hb_restartRecv {E : NetEnv} (hC : ClockFine E) {s t : Conn} (hH : HbSettings E t) (h1 : s.heartbeat = t.heartbeat)
    (h2 : s.nextSend = t.nextSend) (h3 : s.nextRecv = t.nextRecv ∨ s.nextRecv = TIME_INF) (ht : t.time ≤ s.time) : (restartRecv E s).All (HbSettings E) := by
  obtain ⟨a, b, c, d⟩ := hH
  unfold restartRecv
  by_cases h : s.heartbeat ≤ 0
  · rw [sFromNowIO_off E (by omega)]
    dsimp only
    rw [if_pos rfl]
    refine ⟨by show s.heartbeat ≤ _; omega, fun _ => ⟨?_, rfl⟩, ?_, Or.inl rfl⟩
    · show s.nextSend = _; rw [h2]; exact (b (by omega)).1
    · show Near E s.time s.nextSend
      rw [h2]; exact c.mono ht
  · rw [sFromNowIO_on E (by omega) (by omega) _ _ (hC.2 _)]
    have hsoon := fun n hz hk => near_soon hC n s.time (2 * s.heartbeat).toNat hz hk (by omega)
    generalize E.clock s.time = now at *
    have ht' : t.time ≤ (s.push (.clock now)).time := by simp only [Conn.time, Conn.push, List.length_append] at *; omega
    have hs : Near E (s.push (.clock now)).time (s.push (.clock now)).nextSend := by
      show Near E _ s.nextSend
      rw [h2]; exact c.mono ht'
    by_cases hz : now = 0
    · rw [if_pos hz]
      dsimp only
      rw [if_neg (by decide)]
      have w4 : Near E (s.push (.clock now)).time s.nextRecv := by
        rcases h3 with h3 | h3
        · rw [h3]; exact d.mono ht'
        · exact Or.inl h3
      generalize hw : s.push (.clock now) = w at *
      have w1 : w.heartbeat = s.heartbeat := by rw [← hw]; rfl
      have w2 : w.nextRecv = s.nextRecv := by rw [← hw]; rfl
      show HbSettings E { w with nextRecv := s.nextRecv }
      rw [← w2]
      exact ⟨by rw [w1]; omega, fun hh => absurd (w1 ▸ hh) h, hs, by rw [w2]; exact w4⟩
    · rw [if_neg hz]
      generalize now + (2 * s.heartbeat).toNat * 1000000000 = nxt at *
      dsimp only
      rw [if_pos rfl]
      have ht2 : s.time ≤ ({ s.push (.clock now) with nextRecv := nxt } : Conn).time := by
        simp only [Conn.time, Conn.push, List.length_append]; omega
      have ht3 : (s.push (.clock now)).time = ({ s.push (.clock now) with nextRecv := nxt } : Conn).time := by
        simp only [Conn.time, Conn.push]
      rw [ht3] at hs
      generalize hw : ({ s.push (.clock now) with nextRecv := nxt } : Conn) = w at *
      have w1 : w.heartbeat = s.heartbeat := by rw [← hw]; rfl
      have w2 : w.nextSend = s.nextSend := by rw [← hw]; rfl
      have w3 : w.nextRecv = nxt := by rw [← hw]
      have w4 : Near E w.time w.nextRecv := by rw [w3]; exact hsoon _ hz ht2
      have w5 : Near E w.time w.nextSend := by rw [w2]; exact hs
      exact ⟨by rw [w1]; omega, fun hh => absurd (w1 ▸ hh) h, w5, w4⟩

theorem hb_restartSend {E : NetEnv} (hC : ClockFine E) {s : Conn} (h1 : s.heartbeat ≤ 65535) (h2 : Near E s.time s.nextSend) (h3 : Near E s.time s.nextRecv) :
    (restartSend E s).All fun s' => s'.heartbeat = s.heartbeat ∧ s'.nextRecv = s.nextRecv ∧ s.time ≤ s'.time ∧ Near E s'.time s'.nextSend ∧
      Near E s'.time s'.nextRecv ∧ (s.heartbeat ≤ 0 → s'.nextSend = TIME_INF) := by
  unfold restartSend
  by_cases h : s.heartbeat ≤ 0
  · rw [sFromNowIO_off E (by omega)]
    dsimp only
    rw [if_pos rfl]
    exact ⟨rfl, rfl, Nat.le_refl _, Or.inl rfl, h3, fun _ => rfl⟩
  · rw [sFromNowIO_on E (by omega) (by omega) _ _ (hC.2 _)]
    have hsoon := fun n hz hk => near_soon hC n s.time s.heartbeat.toNat hz hk (by omega)
    generalize E.clock s.time = now at *
    have ht' : s.time ≤ (s.push (.clock now)).time := by simp [Conn.time, Conn.push]
    by_cases hz : now = 0
    · rw [if_pos hz]
      dsimp only
      rw [if_neg (by decide)]
      exact ⟨rfl, rfl, ht', h2.mono ht', h3.mono ht', fun hh => absurd hh h⟩
    · rw [if_neg hz]
      generalize now + s.heartbeat.toNat * 1000000000 = nxt at *
      dsimp only
      rw [if_pos rfl]
      have ht2 : s.time ≤ ({ s.push (.clock now) with nextSend := nxt } : Conn).time := by
        simp only [Conn.time, Conn.push, List.length_append]; omega
      generalize hw : ({ s.push (.clock now) with nextSend := nxt } : Conn) = w at *
      have w1 : w.heartbeat = s.heartbeat := by rw [← hw]; rfl
      have w2 : w.nextRecv = s.nextRecv := by rw [← hw]; rfl
      have w3 : w.nextSend = nxt := by rw [← hw]
      have w4 : Near E w.time w.nextSend := by rw [w3]; exact hsoon _ hz ht2
      have w5 : Near E w.time w.nextRecv := by rw [w2]; exact h3.mono ht2
      exact ⟨w1, w2, ht2, w4, w5, fun hh => absurd hh h⟩

theorem hb_closed {E : NetEnv} (hC : ClockFine E) : Closed E (HbSettings E) (fun _ _ => True) := by
  have p1 : ∀ {s : Conn} (e : Ev), HbSettings E s → HbSettings E (s.push e) := fun e h => h.mono rfl rfl rfl (by simp [Conn.time, Conn.push])
  refine ⟨⟨⟨fun _ h => p1 _ h, fun {s} b _ h => ?_⟩, fun {s s' f} h hc => ?_, fun {s s' e} h hc => ?_, fun {s f} _ h => ?_⟩,
    fun {s} b fl h => ?_, fun {s} h => ?_, fun _ h => h, fun {s f} _ h => ?_, fun h _ => ⟨h, trivial⟩,
    fun {s} h => ?_, fun {s} ch h => ?_⟩
  · exact hb_restartRecv hC h rfl rfl (Or.inl rfl) (by simp [Conn.time, Conn.push])
  · refine ⟨?_, fun _ _ => trivial⟩
    unfold consumeOne at hc
    cases h1 : handleInput E.pe s.ps s.inb with
    | ok r p => rw [h1] at hc; cases hc; exact h.mono rfl rfl rfl (by simp [Conn.time, Conn.push])
    | err e p => rw [h1] at hc; cases hc
    | ub => rw [h1] at hc; cases hc
    | fuel => rw [h1] at hc; cases hc
  · unfold consumeOne at hc
    cases h1 : handleInput E.pe s.ps s.inb with
    | ok r p => rw [h1] at hc; cases hc
    | err e p => rw [h1] at hc; cases hc; exact h
    | ub => rw [h1] at hc; cases hc
    | fuel => rw [h1] at hc; cases hc
  · unfold queueFrame
    obtain ⟨a, p, hp⟩ := createLink_eff E f.frame.channel s
    revert hp
    obtain ⟨b, s1⟩ := createLink E f.frame.channel s
    intro hp
    dsimp only at hp
    subst hp
    cases b <;> exact h
  · unfold sockSend
    split
    · cases E.send s.time b <;> exact p1 _ h
    · exact h
  · have := hb_restartSend hC h.1 h.2.2.1 h.2.2.2
    revert this
    cases restartSend E s with
    | ub => exact id
    | fuel => exact id
    | ok x t => rintro ⟨a, b, c, d, e, f⟩; exact ⟨by rw [a]; exact h.1, fun hh => by rw [b]; rw [a] at hh; exact ⟨f hh, (h.2.1 hh).2⟩, d, e⟩
    | err x t => rintro ⟨a, b, c, d, e, f⟩; exact ⟨by rw [a]; exact h.1, fun hh => by rw [b]; rw [a] at hh; exact ⟨f hh, (h.2.1 hh).2⟩, d, e⟩
  · unfold putBackFrame
    obtain ⟨a, p, hp⟩ := createLink_eff E f.frame.channel s
    revert hp
    obtain ⟨b, s1⟩ := createLink E f.frame.channel s
    intro hp
    dsimp only at hp
    subst hp
    cases b <;> exact h
  · unfold sockClose
    split
    · exact h
    · split
      · exact h.mono rfl rfl rfl (by simp [Conn.time, Conn.push])
      · exact p1 _ h
  · obtain ⟨l, h1, _⟩ := maybeReleaseOn_ext ch s
    rw [h1]
    exact h.mono rfl rfl rfl (since_time_le (since_ext s l))

theorem hb_tune {E : NetEnv} (hC : ClockFine E) {s : Conn} (h : HbSettings E s) (cm fm hb : Int) (mem : Nat → UInt8) (hh : hb ≤ 65535) :
    (tune E cm fm hb mem s).All (HbSettings E) := by
  unfold tune
  by_cases hm : s.ps.mode ≠ .idle
  · rw [if_pos hm]; trivial
  rw [if_neg hm]
  dsimp only
  generalize hu : ({ s with channelMax := cm, frameMax := fm, ps := { s.ps with frameMax := (fm % 2 ^ 64).toNat }, heartbeat := if 0 > hb then 0 else hb } : Conn) = u
  have hhu : u.heartbeat ≤ 65535 := by rw [← hu]; dsimp only; split <;> omega
  have hns : Near E u.time u.nextSend := by rw [← hu]; exact h.2.2.1
  have hnr : Near E u.time u.nextRecv := by rw [← hu]; exact h.2.2.2
  have r1 := hb_restartSend hC hhu hns hnr
  -- the interval may be off now with the receive deadline of before: it is reset next
  have r1off : u.heartbeat ≤ 0 → restartSend E u = .ok () { u with nextSend := TIME_INF } := by
    intro hz
    unfold restartSend
    rw [sFromNowIO_off E hz]
    rfl
  by_cases hz : u.heartbeat ≤ 0
  · rw [r1off hz]
    dsimp only
    unfold restartRecv
    rw [sFromNowIO_off E (by show 2 * u.heartbeat ≤ 0; omega)]
    have fin : ∀ (n : Nat) (o : Bytes) (l : Nat), HbSettings E { u with nextSend := TIME_INF, nextRecv := TIME_INF, outLen := l, ps := { u.ps with allocs := n }, outMem := o } :=
      fun n o l => ⟨hhu, fun _ => ⟨rfl, rfl⟩, Or.inl rfl, Or.inl rfl⟩
    dsimp only [smallAlloc]
    rw [if_pos rfl]
    dsimp only
    cases E.pe.alloc _ with
    | true => exact fin _ _ _
    | false => exact fin _ _ _
  · revert r1
    cases restartSend E u with
    | ub => exact id
    | fuel => exact id
    | err e t => rintro ⟨a, b, c, d, e, f⟩; exact ⟨by rw [a]; exact hhu, fun hx => absurd (a ▸ hx) hz, d, e⟩
    | ok x t =>
      rintro ⟨a, b, c, d, e, f⟩
      dsimp only
      have ht : HbSettings E t := ⟨by rw [a]; exact hhu, fun hx => absurd (a ▸ hx) hz, d, e⟩
      have r2 := hb_restartRecv hC ht rfl rfl (Or.inl rfl) (Nat.le_refl _)
      revert r2
      cases restartRecv E t with
      | ub => exact id
      | fuel => exact id
      | err e v => exact id
      | ok x v =>
        intro hv
        dsimp only [smallAlloc]
        cases E.pe.alloc _ with
        | true => exact hv
        | false => exact hv

theorem hb_login {E : NetEnv} (hC : ClockFine E) : Login16 E (HbSettings E) (fun _ _ => True) where
  toUpper := (hb_closed hC).upper
  allocs := fun _ _ h => h
  publishCheck := publishCheck_closed (hb_closed hC).upper fun h => (hb_closed hC).tryRecv h
  tune16 := fun cm fm hb mem hh h => hb_tune hC h cm fm hb mem hh
  setServer := fun _ h => h
  setClient := fun _ _ h => h

end Rmq
