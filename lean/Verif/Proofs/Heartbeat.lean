import Verif.Spec.Heartbeat
import Verif.Proofs.Timeouts
import Verif.Proofs.Silent
/-!
# Waiting: deadlines and heartbeats
-/
namespace Rmq

/-! ## The observer -/

def AtRest (D : Nat) (h : Int) (m : Watch) : Prop :=
  (0 < h → (∀ b, m.last ≠ some (.recvData b)) ∧ (∀ b f r, m.last ≠ some (.send b f r))) ∧
  ∀ d ms, m.last = some (.poll d ms .timeout) → m.sendBy < m.recvBy ∧ m.sendBy < D

theorem AtRest.goesOn {D : Nat} {h : Int} {m : Watch} (hc : AtRest D h m) (e : Ev) : m.goesOn D e := fun d ms hl => Or.inr (hc.2 d ms hl)


def Odd (l : List Ev) : Prop := ∃ e ∈ l, e.odd = true
theorem Odd.left {l : List Ev} (l' : List Ev) (h : Odd l) : Odd (l ++ l') := by
  obtain ⟨e, he, ho⟩ := h; exact ⟨e, by simp [he], ho⟩
theorem Odd.right {l : List Ev} (l' : List Ev) (h : Odd l) : Odd (l' ++ l) := by
  obtain ⟨e, he, ho⟩ := h; exact ⟨e, by simp [he], ho⟩

theorem Obeys.append {D : Nat} {h : Int} : ∀ {l l' : List Ev} {m : Watch}, Obeys D h m l → Obeys D h (m.after h l) l' → Obeys D h m (l ++ l')
  | [], _, _, _, h2 => h2
  | _ :: _, _, _, h1, h2 => ⟨h1.1, h1.2.1, Obeys.append h1.2.2 h2⟩

theorem Watch.after_append (h : Int) (m : Watch) (l l' : List Ev) : m.after h (l ++ l') = (m.after h l).after h l' := by
  unfold Watch.after; rw [List.foldl_append]

/-- A segment of the events, from `s` to `s'`, as it should be. -/
def Seg (D : Nat) (h : Int) (s s' : Conn) (l : List Ev) : Prop :=
  ∀ last, AtRest D h ⟨s.nextRecv, s.nextSend, last⟩ → Obeys D h ⟨s.nextRecv, s.nextSend, last⟩ l ∧
    ∃ last', AtRest D h ⟨s'.nextRecv, s'.nextSend, last'⟩ ∧ Watch.after h ⟨s.nextRecv, s.nextSend, last⟩ l = ⟨s'.nextRecv, s'.nextSend, last'⟩

/-- The same with conditions on the events before and at the end. -/
def SegP (P Q : Option Ev → Prop) (D : Nat) (h : Int) (s s' : Conn) (l : List Ev) : Prop :=
  ∀ last, AtRest D h ⟨s.nextRecv, s.nextSend, last⟩ → P last → Obeys D h ⟨s.nextRecv, s.nextSend, last⟩ l ∧
    ∃ last', AtRest D h ⟨s'.nextRecv, s'.nextSend, last'⟩ ∧ Q last' ∧ Watch.after h ⟨s.nextRecv, s.nextSend, last⟩ l = ⟨s'.nextRecv, s'.nextSend, last'⟩

theorem SegP.seg {Q : Option Ev → Prop} {D : Nat} {h : Int} {s s' : Conn} {l : List Ev} (hs : SegP (fun _ => True) Q D h s s' l) : Seg D h s s' l := by
  intro last hc
  obtain ⟨a, last', b, _, c⟩ := hs last hc trivial
  exact ⟨a, last', b, c⟩

theorem SegP.trans {P Q R : Option Ev → Prop} {D : Nat} {h : Int} {s t u : Conn} {l l' : List Ev} (h1 : SegP P Q D h s t l) (h2 : SegP Q R D h t u l') :
    SegP P R D h s u (l ++ l') := by
  intro last hc hp
  obtain ⟨a1, last1, c1, q1, e1⟩ := h1 last hc hp
  obtain ⟨a2, last2, c2, q2, e2⟩ := h2 last1 c1 q1
  refine ⟨a1.append (by rw [e1]; exact a2), last2, c2, q2, ?_⟩
  unfold Watch.after at *
  rw [List.foldl_append, e1, e2]

theorem SegP.weaken {P Q P' Q' : Option Ev → Prop} {D : Nat} {h : Int} {s t : Conn} {l : List Ev} (h1 : SegP P Q D h s t l) (hp : ∀ x, P' x → P x)
    (hq : ∀ x, Q x → Q' x) : SegP P' Q' D h s t l := by
  intro last hc hp'
  obtain ⟨a, b, c, d, e⟩ := h1 last hc (hp _ hp')
  exact ⟨a, b, c, hq _ d, e⟩

theorem Seg.refl (D : Nat) (h : Int) (s : Conn) : Seg D h s s [] := fun last hc => ⟨trivial, last, hc, rfl⟩

theorem Seg.trans {D : Nat} {h : Int} {s t u : Conn} {l l' : List Ev} (h1 : Seg D h s t l) (h2 : Seg D h t u l') : Seg D h s u (l ++ l') := by
  intro last hc
  obtain ⟨a1, last1, c1, e1⟩ := h1 last hc
  obtain ⟨a2, last2, c2, e2⟩ := h2 last1 c1
  refine ⟨a1.append (by rw [e1]; exact a2), last2, c2, by rw [Watch.after_append, e1, e2]⟩

theorem see_calm {D : Nat} {h : Int} {m : Watch} {e : Ev} (hc : AtRest D h m) : m.see h e = ⟨m.recvBy, m.sendBy, some e⟩ := by
  obtain ⟨r, s, last⟩ := m
  unfold Watch.see
  cases last with
  | none => rfl
  | some x => cases x with
    | recvData b =>
      cases e with
      | clock t =>
        by_cases hp : 0 < h
        · exact absurd rfl ((hc.1 hp).1 b)
        · dsimp only; rw [if_neg (fun x => hp x.1)]
      | _ => rfl
    | send b f r =>
      cases e with
      | clock t =>
        by_cases hp : 0 < h
        · exact absurd rfl ((hc.1 hp).2 b f r)
        · dsimp only; rw [if_neg (fun x => hp x.1)]
      | _ => rfl
    | _ => rfl

theorem see_notClock {h : Int} {m : Watch} {e : Ev} (he : ∀ t, e ≠ .clock t) : m.see h e = ⟨m.recvBy, m.sendBy, some e⟩ := by
  obtain ⟨r, s, last⟩ := m
  unfold Watch.see
  cases last with
  | none => rfl
  | some x => cases x <;> cases e <;> first | rfl | exact absurd rfl (he _)

/-- One event that is allowed always and concerns nothing. -/
theorem Seg.one {D : Nat} {h : Int} {s s' : Conn} {e : Ev} (he : ∀ r sd, AtRest D h ⟨r, sd, some e⟩) (ha : ∀ m : Watch, m.allows D e)
    (h1 : s'.nextRecv = s.nextRecv) (h2 : s'.nextSend = s.nextSend) : Seg D h s s' [e] := by
  intro last hc
  refine ⟨⟨hc.goesOn _, ha _, trivial⟩, some e, he _ _, ?_⟩
  show Watch.see h _ e = _
  rw [see_calm hc, h1, h2]

/-! ## Times -/

theorem Near.mono {E : NetEnv} {n n' t : Nat} (h : Near E n t) (hn : n ≤ n') : Near E n' t := by
  rcases h with h | ⟨h0, h1, h2⟩
  · exact Or.inl h
  · exact Or.inr ⟨h0, h1, fun k hk => h2 k (by omega)⟩

theorem timeFirst_min (a b : Nat) : timeFirst a b = min a b := by unfold timeFirst; split <;> omega

theorem since_time {s s' : Conn} {l : List Ev} (h : Since s s' l) : s'.time = s.time + l.length := by
  unfold Since at h; unfold Conn.time; rw [h, List.length_append]
theorem since_time_le {s s' : Conn} {l : List Ev} (h : Since s s' l) : s.time ≤ s'.time := by rw [since_time h]; omega

theorem HbSettings.mono {E : NetEnv} {s s' : Conn} (h : HbSettings E s) (h1 : s'.heartbeat = s.heartbeat) (h2 : s'.nextSend = s.nextSend)
    (h3 : s'.nextRecv = s.nextRecv) (ht : s.time ≤ s'.time) : HbSettings E s' := by
  obtain ⟨a, b, c, d⟩ := h
  unfold HbSettings
  rw [h1, h2, h3]
  exact ⟨a, b, c.mono ht, d.mono ht⟩

theorem Near.le {E : NetEnv} {n t : Nat} (h : Near E n t) : t ≤ TIME_INF := by
  rcases h with h | ⟨_, h, _⟩ <;> omega

theorem Near.min {E : NetEnv} {n a b : Nat} (ha : Near E n a) (hb : Near E n b) : Near E n (min a b) := by
  by_cases h : a ≤ b
  · rw [Nat.min_eq_left h]; exact ha
  · rw [Nat.min_eq_right (by omega)]; exact hb

/-- The deadline of a receive. -/
theorem HbSettings.near {E : NetEnv} {s : Conn} {D : Nat} (h : HbSettings E s) (hD : Near E s.time D) :
    Near E s.time (timeFirst D (timeFirst s.nextRecv s.nextSend)) ∧
    (timeFirst D (timeFirst s.nextRecv s.nextSend) = TIME_INF → D = TIME_INF ∧ s.nextRecv = TIME_INF ∧ s.nextSend = TIME_INF) := by
  rw [timeFirst_min, timeFirst_min]
  refine ⟨hD.min (h.2.2.2.min h.2.2.1), fun hh => ?_⟩
  have := hD.le
  have := h.2.2.1.le
  have := h.2.2.2.le
  omega

/-- A time some seconds after the present. -/
theorem near_soon {E : NetEnv} (hC : ClockFine E) (n k secs : Nat) (hz : E.clock k ≠ 0) (hk : k ≤ n) (hs : secs ≤ 131070) : Near E n (E.clock k + secs * 1000000000) := by
  have := hC.2 k
  right
  refine ⟨by omega, by unfold TIME_INF; omega, fun j hj => ?_⟩
  rcases hC.1 k j (by omega) with h | h
  · exact Or.inl h
  · right; omega

theorem msUntil_near {now t : Nat} (hi : t ≠ TIME_INF) (h0 : t ≠ 0) (hn : now ≠ 0) (h : t < now + 2 ^ 31 * 1000000) :
    0 ≤ msUntil now t ∧ (msUntil now t = 0 ∨ (now : Int) + msUntil now t * 1000000 ≤ t) ∧ (t : Int) < now + (msUntil now t + 1) * 1000000 := by
  unfold msUntil
  rw [if_neg (Ne.symm hi), if_neg (Ne.symm h0), if_neg hn]
  by_cases hge : now ≥ t
  · rw [if_pos hge]; exact ⟨by omega, Or.inl rfl, by omega⟩
  · rw [if_neg hge]
    unfold toInt32
    have h1 : (t - now) / 1000000 < 2 ^ 31 := by omega
    rw [Nat.mod_eq_of_lt (by omega), if_pos h1]
    omega

/-! ## Segments -/

def ObeysAll (D : Nat) (h : Int) (s : Conn) (l : List Ev) : Prop := ∀ last, AtRest D h ⟨s.nextRecv, s.nextSend, last⟩ → Obeys D h ⟨s.nextRecv, s.nextSend, last⟩ l

def ObeysP (P : Option Ev → Prop) (D : Nat) (h : Int) (s : Conn) (l : List Ev) : Prop :=
  ∀ last, AtRest D h ⟨s.nextRecv, s.nextSend, last⟩ → P last → Obeys D h ⟨s.nextRecv, s.nextSend, last⟩ l
theorem SegP.obeys {P Q : Option Ev → Prop} {D : Nat} {h : Int} {s s' : Conn} {l : List Ev} (hs : SegP P Q D h s s' l) : ObeysP P D h s l :=
  fun last hc hp => (hs last hc hp).1
theorem SegP.then {P Q : Option Ev → Prop} {D : Nat} {h : Int} {s t : Conn} {l l' : List Ev} (h1 : SegP P Q D h s t l) (h2 : ObeysP Q D h t l') :
    ObeysP P D h s (l ++ l') := by
  intro last hc hp
  obtain ⟨a1, last1, c1, q1, e1⟩ := h1 last hc hp
  exact a1.append (by rw [e1]; exact h2 last1 c1 q1)

theorem Seg.obeys {D : Nat} {h : Int} {s s' : Conn} {l : List Ev} (hs : Seg D h s s' l) : ObeysAll D h s l := fun last hc => (hs last hc).1
theorem Seg.then {D : Nat} {h : Int} {s t : Conn} {l l' : List Ev} (h1 : Seg D h s t l) (h2 : ObeysAll D h t l') : ObeysAll D h s (l ++ l') := by
  intro last hc
  obtain ⟨a1, last1, c1, e1⟩ := h1 last hc
  exact a1.append (by rw [e1]; exact h2 last1 c1)

/-- A segment that ends with a poll timing out. -/
def SegT (P : Option Ev → Prop) (D : Nat) (h : Int) (s s' : Conn) (l : List Ev) : Prop :=
  ∀ last, AtRest D h ⟨s.nextRecv, s.nextSend, last⟩ → P last → Obeys D h ⟨s.nextRecv, s.nextSend, last⟩ l ∧
    ∃ d ms, Watch.after h ⟨s.nextRecv, s.nextSend, last⟩ l = ⟨s'.nextRecv, s'.nextSend, some (.poll d ms .timeout)⟩

theorem SegT.obeys {P : Option Ev → Prop} {D : Nat} {h : Int} {s s' : Conn} {l : List Ev} (hs : SegT P D h s s' l) : ObeysP P D h s l :=
  fun last hc hp => (hs last hc hp).1

theorem SegP.thenT {P Q : Option Ev → Prop} {D : Nat} {h : Int} {s t u : Conn} {l l' : List Ev} (h1 : SegP P Q D h s t l) (h2 : SegT Q D h t u l') :
    SegT P D h s u (l ++ l') := by
  intro last hc hp
  obtain ⟨a1, last1, c1, q1, e1⟩ := h1 last hc hp
  obtain ⟨a2, d, ms, e2⟩ := h2 last1 c1 q1
  exact ⟨a1.append (by rw [e1]; exact a2), d, ms, by rw [Watch.after_append, e1, e2]⟩

theorem SegT.seg {D : Nat} {h : Int} {s s' : Conn} {l : List Ev} (hs : SegT (fun _ => True) D h s s' l) (h1 : s'.nextSend < s'.nextRecv)
    (h2 : s'.nextSend < D) : Seg D h s s' l := by
  intro last hc
  obtain ⟨a, d, ms, e⟩ := hs last hc trivial
  exact ⟨a, _, ⟨fun _ => ⟨by simp, by simp⟩, fun _ _ _ => ⟨h1, h2⟩⟩, e⟩

/-! ## Polling -/

def PollReady (last : Option Ev) : Prop := ∃ d ms, last = some (.poll d ms .ready)

theorem pollFd_watch {E : NetEnv} (d : Dir) (X : Nat) : ∀ (n : Nat) {s : Conn} (_ : Near E s.time X) (D : Nat) (h : Int) (_ : X = min D (min s.nextRecv s.nextSend))
    (_ : X = TIME_INF → D = TIME_INF ∧ s.nextRecv = TIME_INF ∧ s.nextSend = TIME_INF),
    match pollFd E d X n s with
    | .ok _ s' => ∃ l, s' = s.ext l ∧ SegP (fun _ => True) PollReady D h s s' l
    | .err e s' => ∃ l, s' = s.ext l ∧ ObeysAll D h s l ∧ (e = St.TIMEOUT → TimedOut X l ∧ SegT (fun _ => True) D h s s' l) ∧ e ≠ St.HEARTBEAT_TIMEOUT
    | .ub => True
    | .fuel => True := by
  intro n
  induction n with
  | zero => intro s _ D h _ _; trivial
  | succ n ih =>
    intro s hN D h hX hXi
    unfold pollFd
    -- the reading of the clock
    have key : ∀ (ms : Int) (t : Conn) (l0 : List Ev), msUntilIO E X s = (ms, t) → t = s.ext l0 → Seg D h s t l0 →
        (-1 ≤ ms → ∀ r, r ≠ .timeout → SegP (fun _ => True) (fun x => x = some (.poll d ms r)) D h s (t.push (.poll d ms r)) (l0 ++ [.poll d ms r])) →
        (-1 ≤ ms → SegT (fun _ => True) D h s (t.push (.poll d ms .timeout)) (l0 ++ [.poll d ms .timeout])) → (-1 ≤ ms → TimedOut X (l0 ++ [.poll d ms .timeout])) →
        (¬ -1 ≤ ms → ms ≠ St.TIMEOUT ∧ ms ≠ St.HEARTBEAT_TIMEOUT) →
        match (match msUntilIO E X s with
          | (ms, s) =>
            if -1 > ms then .err ms s
            else
              match E.poll s.time with
              | .ready => .ok () (s.push (.poll d ms .ready))
              | .timeout => .err St.TIMEOUT (s.push (.poll d ms .timeout))
              | .intr => pollFd E d X n (s.push (.poll d ms .intr))
              | .error => .err St.SOCKET_ERROR (s.push (.poll d ms .error)) : Res Conn Unit) with
        | .ok _ s' => ∃ l, s' = s.ext l ∧ SegP (fun _ => True) PollReady D h s s' l
        | .err e s' => ∃ l, s' = s.ext l ∧ ObeysAll D h s l ∧ (e = St.TIMEOUT → TimedOut X l ∧ SegT (fun _ => True) D h s s' l) ∧ e ≠ St.HEARTBEAT_TIMEOUT
        | .ub => True
        | .fuel => True := by
      intro ms t l0 he ht hs hp hpt hto hn
      rw [he]
      dsimp only
      have hpush : ∀ e, t.push e = s.ext (l0 ++ [e]) := by intro e; rw [ht]; simp [Conn.push, Conn.ext]
      by_cases hm : -1 > ms
      · rw [if_pos hm]
        exact ⟨l0, ht, hs.obeys, fun hh => absurd hh (hn (by omega)).1, (hn (by omega)).2⟩
      rw [if_neg hm]
      have hm' : -1 ≤ ms := by omega
      cases E.poll t.time with
      | ready => exact ⟨_, hpush _, (hp hm' _ (by decide)).weaken (fun _ h => h) (fun _ h => ⟨_, _, h⟩)⟩
      | timeout => exact ⟨_, hpush _, fun last hc => (hpt hm').obeys last hc trivial, fun _ => ⟨hto hm', hpt hm'⟩, by decide⟩
      | error => exact ⟨_, hpush _, (hp hm' _ (by decide)).seg.obeys, fun hh => absurd hh (by decide), by decide⟩
      | intr =>
        dsimp only
        have ht' : s.time ≤ (t.push (.poll d ms .intr)).time := by rw [hpush]; simp [Conn.time, Conn.ext]
        have h1 : (t.push (.poll d ms .intr)).nextRecv = s.nextRecv := by rw [hpush]; rfl
        have h2 : (t.push (.poll d ms .intr)).nextSend = s.nextSend := by rw [hpush]; rfl
        have := ih (s := t.push (.poll d ms .intr)) (hN.mono ht') D h (by rw [h1, h2]; exact hX) (by rw [h1, h2]; exact hXi)
        revert this
        have hseg := hp hm' .intr (by decide)
        cases pollFd E d X n (t.push (.poll d ms .intr)) with
        | ok x u =>
          rintro ⟨l, rfl, b⟩
          exact ⟨l0 ++ [.poll d ms .intr] ++ l, by rw [hpush]; simp [Conn.ext], (hseg.weaken (fun _ h => h) (fun _ _ => trivial)).trans b⟩
        | err e u =>
          rintro ⟨l, rfl, b, c, c'⟩
          refine ⟨l0 ++ [.poll d ms .intr] ++ l, by rw [hpush]; simp [Conn.ext], hseg.seg.then b, fun hh => ⟨?_, (hseg.weaken (fun _ h => h) (fun _ _ => trivial)).thenT (c hh).2⟩, c'⟩
          rcases (c hh).1 with ⟨a, dd, m, now, hl, c1⟩ | ⟨c1, a, dd, hl⟩
          · exact Or.inl ⟨l0 ++ [.poll d ms .intr] ++ a, dd, m, now, by rw [hl]; simp, c1⟩
          · exact Or.inr (⟨c1, l0 ++ [.poll d ms .intr] ++ a, dd, by rw [hl]; simp⟩)
        | ub => exact fun x => x
        | fuel => exact fun x => x
    have hpoll : ∀ {t : Conn} {l0 : List Ev} {ms : Int}, t = s.ext l0 → (∀ last, AtRest D h ⟨s.nextRecv, s.nextSend, last⟩ → ∃ last', AtRest D h ⟨s.nextRecv, s.nextSend, last'⟩ ∧
          Obeys D h ⟨s.nextRecv, s.nextSend, last⟩ l0 ∧ Watch.after h ⟨s.nextRecv, s.nextSend, last⟩ l0 = ⟨s.nextRecv, s.nextSend, last'⟩ ∧
          ∀ r, Watch.allows D ⟨s.nextRecv, s.nextSend, last'⟩ (.poll d ms r)) →
          (∀ r, r ≠ .timeout → SegP (fun _ => True) (fun x => x = some (.poll d ms r)) D h s (t.push (.poll d ms r)) (l0 ++ [.poll d ms r])) ∧
          SegT (fun _ => True) D h s (t.push (.poll d ms .timeout)) (l0 ++ [.poll d ms .timeout]) := by
      rintro t l0 ms rfl hh
      have both : ∀ r last, AtRest D h ⟨s.nextRecv, s.nextSend, last⟩ → Obeys D h ⟨s.nextRecv, s.nextSend, last⟩ (l0 ++ [.poll d ms r]) ∧
          Watch.after h ⟨s.nextRecv, s.nextSend, last⟩ (l0 ++ [.poll d ms r]) = ⟨s.nextRecv, s.nextSend, some (.poll d ms r)⟩ := by
        intro r last hc
        obtain ⟨last', c', o, a, al⟩ := hh last hc
        refine ⟨o.append ⟨by rw [a]; exact c'.goesOn _, by rw [a]; exact al r, trivial⟩, ?_⟩
        rw [Watch.after_append, a]
        show Watch.see h _ _ = _
        rw [see_calm c']
      exact ⟨fun r hr last hc _ => ⟨(both r last hc).1, _, ⟨fun _ => ⟨by simp, by simp⟩, by simpa using fun h => absurd h hr⟩, rfl, (both r last hc).2⟩,
        fun last hc _ => ⟨(both .timeout last hc).1, d, ms, (both .timeout last hc).2⟩⟩
    by_cases hinf : X = TIME_INF
    · have := hpoll (t := s) (l0 := []) (ms := -1) (by simp) fun last hc => ⟨last, hc, trivial, rfl, fun r => Or.inr (Or.inr ⟨rfl, hXi hinf⟩)⟩
      refine key (-1) s [] ?_ (by simp) (Seg.refl _ _ _) (fun _ => (this).1) (fun _ => this.2) (fun _ => Or.inr ⟨hinf, [], d, rfl⟩) (fun hh => absurd (by decide) hh)
      · unfold msUntilIO
        rw [if_pos (Or.inl hinf.symm)]
        unfold msUntil
        rw [if_pos hinf.symm]
    have h0 : X ≠ 0 := (hN.resolve_left hinf).1
    have hms : msUntilIO E X s = (msUntil (E.clock s.time) X, s.push (.clock (E.clock s.time))) := by
      unfold msUntilIO
      rw [if_neg (fun hh => hh.elim (fun hh => hinf hh.symm) (fun hh => h0 hh.symm))]
      rfl
    have hclock : ∀ last, AtRest D h ⟨s.nextRecv, s.nextSend, last⟩ → Obeys D h ⟨s.nextRecv, s.nextSend, last⟩ [.clock (E.clock s.time)] ∧
        Watch.after h ⟨s.nextRecv, s.nextSend, last⟩ [.clock (E.clock s.time)] = ⟨s.nextRecv, s.nextSend, some (.clock (E.clock s.time))⟩ := by
      intro last hc
      exact ⟨⟨hc.goesOn _, trivial, trivial⟩, see_calm hc⟩
    have hcc : AtRest D h ⟨s.nextRecv, s.nextSend, some (.clock (E.clock s.time))⟩ := ⟨fun _ => ⟨by simp, by simp⟩, by simp⟩
    by_cases hz : E.clock s.time = 0
    · have hm : msUntil (E.clock s.time) X = St.TIMER_FAILURE := by
        unfold msUntil
        rw [if_neg (Ne.symm hinf), if_neg (Ne.symm h0), if_pos hz]
      refine key _ _ [.clock (E.clock s.time)] hms rfl (fun last hc => ⟨(hclock last hc).1, _, hcc, (hclock last hc).2⟩) ?_ ?_ ?_ ?_
      · rw [hm]; intro hh; exact absurd hh (by decide)
      · rw [hm]; intro hh; exact absurd hh (by decide)
      · rw [hm]; intro hh; exact absurd hh (by decide)
      · rw [hm]; exact fun _ => ⟨by decide, by decide⟩
    · have hN' := hN.resolve_left hinf
      have hnear := (hN'.2.2 s.time (Nat.le_refl _)).resolve_left hz
      obtain ⟨m1, m2, m3⟩ := msUntil_near hinf h0 hz hnear
      have hpp := hpoll (t := s.push (.clock (E.clock s.time))) (l0 := [.clock (E.clock s.time)]) (ms := msUntil (E.clock s.time) X) rfl
        fun last hc => ⟨_, hcc, (hclock last hc).1, (hclock last hc).2, fun r => by
          rcases m2 with m2 | m2
          · exact Or.inl m2
          · refine Or.inr (Or.inl ⟨_, rfl, m1, ?_⟩)
            rw [← hX]; exact m2⟩
      refine key _ _ [.clock (E.clock s.time)] hms rfl (fun last hc => ⟨(hclock last hc).1, _, hcc, (hclock last hc).2⟩) (fun _ => hpp.1) (fun _ => hpp.2) (fun _ => ?_) ?_
      · exact Or.inl ⟨[], d, _, _, rfl, m1, m3, hinf⟩
      · intro hh; omega

theorem recv_since {E : NetEnv} (X n : Nat) (s : Conn) : (recvWithTimeout E X n s).All fun s' => ∃ l, Since s s' l :=
  (since_closed E s).recvWithTimeout X n ⟨[], by simp [Since]⟩

/-! ## Receiving -/

theorem since_ext (s : Conn) (l : List Ev) : Since s (s.ext l) l := rfl

theorem sFromNowIO_on (E : NetEnv) {secs : Int} (h1 : 0 < secs) (h2 : secs ≤ 131070) (old : Nat) (s : Conn) (hc : E.clock s.time < 2 ^ 63) :
    sFromNowIO E secs old s = if E.clock s.time = 0 then (St.TIMER_FAILURE, old, s.push (.clock (E.clock s.time)))
      else (St.OK, E.clock s.time + secs.toNat * 1000000000, s.push (.clock (E.clock s.time))) := by
  unfold sFromNowIO readClock
  rw [if_neg (by omega)]
  dsimp only
  generalize E.clock s.time = now at *
  by_cases hz : now = 0
  · rw [if_pos hz, if_pos hz]
  · rw [if_neg hz, if_neg hz]
    have e2 : (secs.toNat * 1000000000) % 2 ^ 64 = secs.toNat * 1000000000 := by omega
    rw [e2]
    have e3 : (now + secs.toNat * 1000000000) % 2 ^ 64 = now + secs.toNat * 1000000000 := by omega
    rw [e3, if_neg (by omega)]

theorem restartRecv_watch {E : NetEnv} (hC : ClockFine E) {s : Conn} (hH : HbSettings E s) (D : Nat) (b inb : Bytes) :
    match restartRecv E ({ s with inb := inb }.push (.recvData b)) with
    | .ok _ s' => ∃ l, Since s s' l ∧ SegP (MayRecv s.nextSend) (fun _ => True) D s.heartbeat s s' l ∧ HbSettings E s' ∧ s'.heartbeat = s.heartbeat
    | .err e s' => ∃ l, Since s s' l ∧ ObeysP (MayRecv s.nextSend) D s.heartbeat s l ∧ e ≠ St.TIMEOUT ∧ e ≠ St.HEARTBEAT_TIMEOUT
    | .ub => True
    | .fuel => True := by
  unfold restartRecv
  have hhb : ({ s with inb := inb }.push (.recvData b)).heartbeat = s.heartbeat := rfl
  rw [hhb]
  obtain ⟨hle, hoff, hns, hnr⟩ := hH
  by_cases h1 : s.heartbeat ≤ 0
  · obtain ⟨h2, h3⟩ := hoff h1
    rw [sFromNowIO_off E (by omega)]
    dsimp only
    rw [if_pos rfl]
    dsimp only
    refine ⟨[.recvData b], rfl, ?_, ⟨hle, fun _ => ⟨h2, rfl⟩, Or.inl h2, Or.inl rfl⟩, rfl⟩
    intro last hc hp
    refine ⟨⟨hc.goesOn _, hp, trivial⟩, some (.recvData b), ⟨fun hh => absurd (show 0 < s.heartbeat from hh) (by omega), by simp⟩, trivial, ?_⟩
    show Watch.see _ _ _ = _
    rw [see_calm hc]
    show Watch.mk _ _ _ = Watch.mk TIME_INF _ _
    rw [← h3]; rfl
  · rw [sFromNowIO_on E (by omega) (by omega) _ _ (hC.2 _)]
    replace h1 : 0 < s.heartbeat := by omega
    have hsoon := fun n hz hk => near_soon hC n ({ s with inb := inb }.push (.recvData b)).time (2 * s.heartbeat.toNat) hz hk (by omega)
    generalize hnow : E.clock ({ s with inb := inb }.push (.recvData b)).time = now at *
    have hev : ∀ last, AtRest D s.heartbeat ⟨s.nextRecv, s.nextSend, last⟩ → ObeysP (MayRecv s.nextSend) D s.heartbeat s [.recvData b, .clock now] ∧
        Watch.after s.heartbeat ⟨s.nextRecv, s.nextSend, last⟩ [.recvData b, .clock now] =
          ⟨if 0 < s.heartbeat ∧ now ≠ 0 then now + 2 * s.heartbeat.toNat * 1000000000 else s.nextRecv, s.nextSend, some (.clock now)⟩ := by
      intro last hc
      refine ⟨fun _ hc hp => ⟨hc.goesOn _, hp, by rw [see_calm hc]; exact ⟨(by intro d ms hh; cases hh), trivial, trivial⟩⟩, ?_⟩
      show Watch.see _ (Watch.see _ _ _) _ = _
      rw [show Watch.see s.heartbeat ⟨s.nextRecv, s.nextSend, last⟩ (.recvData b) = _ from see_calm hc]
      rfl
    by_cases hz : now = 0
    · rw [if_pos hz]
      dsimp only
      rw [if_neg (by decide)]
      exact ⟨[.recvData b, .clock now], by simp [Since, Conn.push], (hev none ⟨fun _ => ⟨by simp, by simp⟩, by simp⟩).1, by decide, by decide⟩
    · rw [if_neg hz]
      have e1 : (2 * s.heartbeat).toNat = 2 * s.heartbeat.toNat := by omega
      rw [e1]
      dsimp only
      rw [if_pos rfl]
      dsimp only
      refine ⟨[.recvData b, .clock now], by simp [Since, Conn.push], fun last hc hp => ⟨(hev last hc).1 last hc hp, some (.clock now), ⟨fun _ => ⟨by simp, by simp⟩, by simp⟩, trivial, ?_⟩,
        ⟨hle, (fun hh => absurd h1 (by have : s.heartbeat ≤ 0 := hh; omega)), hns.mono ?_, ?_⟩, rfl⟩
      · rw [(hev last hc).2, if_pos ⟨h1, hz⟩]; rfl
      · simp [Conn.time, Conn.push]
      · exact hsoon _ hz (by simp [Conn.time, Conn.push])

theorem recv_watch {E : NetEnv} (hC : ClockFine E) (X D : Nat) : ∀ (n : Nat) {s : Conn} (_ : HbSettings E s) (_ : Near E s.time X)
    (_ : X = min D (min s.nextRecv s.nextSend)) (_ : X = TIME_INF → D = TIME_INF ∧ s.nextRecv = TIME_INF ∧ s.nextSend = TIME_INF),
    match recvWithTimeout E X n s with
    | .ok _ s' => ∃ l, Since s s' l ∧ (Odd l ∨ (SegP (MayRecv s.nextSend) (fun _ => True) D s.heartbeat s s' l ∧ HbSettings E s' ∧ s'.heartbeat = s.heartbeat))
    | .err e s' => ∃ l, Since s s' l ∧ (Odd l ∨ (ObeysP (MayRecv s.nextSend) D s.heartbeat s l ∧
        (e = St.TIMEOUT → s' = s.ext l ∧ s.isOpen = true ∧ SegT (MayRecv s.nextSend) D s.heartbeat s s' l ∧ TimedOut X l) ∧ e ≠ St.HEARTBEAT_TIMEOUT))
    | .ub => True
    | .fuel => True := by
  intro n
  induction n with
  | zero => intro s _ _ _ _; trivial
  | succ n ih =>
    intro s hH hN hX hXi
    unfold recvWithTimeout
    by_cases ho : s.isOpen = false
    · rw [if_pos ho]
      exact ⟨[], by simp [Since], Or.inr ⟨fun _ _ _ => trivial, fun hh => absurd hh (by decide), by decide⟩⟩
    rw [if_neg ho]
    cases hE : E.recv s.time s.received with
    | data b =>
      dsimp only
      have := restartRecv_watch hC hH D (b.take SOCK_BUF) (b.take SOCK_BUF)
      revert this
      cases restartRecv E ({ s with inb := b.take SOCK_BUF }.push (.recvData (b.take SOCK_BUF))) with
      | ok x s' => rintro ⟨l, h1, h2⟩; exact ⟨l, h1, Or.inr h2⟩
      | err e s' => rintro ⟨l, h1, h2, h3, h4⟩; exact ⟨l, h1, Or.inr ⟨h2, fun hh => absurd hh h3, h4⟩⟩
      | ub => exact id
      | fuel => exact id
    | fail k =>
      dsimp only
      generalize hst : (-(k + 1 : Nat) : Int) = st
      have hp1 : s.push (.recvFail st) = s.ext [.recvFail st] := rfl
      have hseg : SegP (MayRecv s.nextSend) (fun _ => True) D s.heartbeat s (s.push (.recvFail st)) [.recvFail st] := by
        intro last hc hp
        refine ⟨⟨hc.goesOn _, hp, trivial⟩, some (.recvFail st), ⟨fun _ => ⟨by simp, by simp⟩, by simp⟩, trivial, ?_⟩
        show Watch.see _ _ _ = _
        rw [see_calm hc]
        rfl
      have key : ∀ dir : Dir,
          match (match pollFd E dir X E.fuel (s.push (.recvFail st)) with
            | .ok () s => recvWithTimeout E X n s
            | .err e s => .err e s
            | .ub => .ub
            | .fuel => .fuel : Res Conn Unit) with
          | .ok _ s' => ∃ l, Since s s' l ∧ (Odd l ∨ (SegP (MayRecv s.nextSend) (fun _ => True) D s.heartbeat s s' l ∧ HbSettings E s' ∧ s'.heartbeat = s.heartbeat))
          | .err e s' => ∃ l, Since s s' l ∧ (Odd l ∨ (ObeysP (MayRecv s.nextSend) D s.heartbeat s l ∧
              (e = St.TIMEOUT → s' = s.ext l ∧ s.isOpen = true ∧ SegT (MayRecv s.nextSend) D s.heartbeat s s' l ∧ TimedOut X l) ∧ e ≠ St.HEARTBEAT_TIMEOUT))
          | .ub => True
          | .fuel => True := by
        intro dir
        have ht : s.time ≤ (s.push (.recvFail st)).time := by simp [Conn.time, Conn.push]
        have hw := pollFd_watch dir X E.fuel (s := s.push (.recvFail st)) (hN.mono ht) D s.heartbeat hX hXi
        revert hw
        cases pollFd E dir X E.fuel (s.push (.recvFail st)) with
        | ub => exact id
        | fuel => exact id
        | err e t =>
          rintro ⟨l, rfl, h1, h2, h3⟩
          refine ⟨[.recvFail st] ++ l, by simp [Since, Conn.ext, Conn.push], Or.inr ⟨hseg.then (fun last hc _ => h1 last hc), fun hh => ⟨by simp [Conn.ext, Conn.push], by simpa using ho, hseg.thenT (h2 hh).2, ?_⟩, h3⟩⟩
          rcases (h2 hh).1 with ⟨a, dd, m, now, hl, c1⟩ | ⟨c1, a, dd, hl⟩
          · exact Or.inl ⟨[.recvFail st] ++ a, dd, m, now, by rw [hl]; simp, c1⟩
          · exact Or.inr ⟨c1, [.recvFail st] ++ a, dd, by rw [hl]; simp⟩
        | ok x t =>
          rintro ⟨l, rfl, h1⟩
          dsimp only
          have h4 := (hseg.trans h1).weaken (Q' := MayRecv s.nextSend) (fun _ h => h) (fun _ h => Or.inr (Or.inr h))
          have e0 : ((s.push (.recvFail st)).ext l) = s.ext ([.recvFail st] ++ l) := by simp [Conn.ext, Conn.push]
          have ht2 : s.time ≤ ((s.push (.recvFail st)).ext l).time := by rw [e0]; simp [Conn.time, Conn.ext]
          have := ih (s := (s.push (.recvFail st)).ext l) (hH.mono rfl rfl rfl ht2) (hN.mono ht2) hX hXi
          revert this
          cases recvWithTimeout E X n ((s.push (.recvFail st)).ext l) with
          | ub => exact id
          | fuel => exact id
          | ok y u =>
            rintro ⟨l2, k1, k2⟩
            refine ⟨[.recvFail st] ++ l ++ l2, (show Since s ((s.push (.recvFail st)).ext l) _ by rw [e0]; rfl).trans k1, ?_⟩
            rcases k2 with k2 | ⟨k2, k3, k4⟩
            · exact Or.inl (k2.right _)
            · exact Or.inr ⟨h4.trans k2, k3, k4⟩
          | err e u =>
            rintro ⟨l2, k1, k2⟩
            refine ⟨[.recvFail st] ++ l ++ l2, (show Since s ((s.push (.recvFail st)).ext l) _ by rw [e0]; rfl).trans k1, ?_⟩
            rcases k2 with k2 | ⟨k2, k3, k4⟩
            · exact Or.inl (k2.right _)
            · refine Or.inr ⟨h4.then k2, fun hh => ?_, k4⟩
              obtain ⟨r1, r2, r3, r4⟩ := k3 hh
              refine ⟨by rw [r1, e0]; simp [Conn.ext], by simpa using ho, h4.thenT r3, ?_⟩
              rcases r4 with ⟨a, dd, m, now, hl, c1⟩ | ⟨c1, a, dd, hl⟩
              · exact Or.inl ⟨[.recvFail st] ++ l ++ a, dd, m, now, by rw [hl]; simp, c1⟩
              · exact Or.inr ⟨c1, [.recvFail st] ++ l ++ a, dd, by rw [hl]; simp⟩
      by_cases h1 : st = St.PRIVATE_NEED_READ
      · rw [if_pos h1]; exact key .read
      rw [if_neg h1]
      by_cases h2 : st = St.PRIVATE_NEED_WRITE
      · rw [if_pos h2]; exact key .write
      rw [if_neg h2]
      refine ⟨[.recvFail st], rfl, ?_⟩
      by_cases h3 : st = St.TIMEOUT ∨ st = St.HEARTBEAT_TIMEOUT
      · exact Or.inl ⟨.recvFail st, by simp, by rcases h3 with h3 | h3 <;> simp [Ev.odd, h3]⟩
      · exact Or.inr ⟨hseg.obeys, fun hh => absurd (Or.inl hh) h3, fun hh => h3 (Or.inr hh)⟩

/-! ## Sending a heartbeat -/

/-- The observer may see (another part of) a heartbeat being sent. -/
def MaySend (m : Watch) (b : Bytes) : Prop := b <:+ heartbeatBytes ∧ b ≠ [] ∧ ((∃ b' f res, m.last = some (.send b' f res)) ∨
      (b = heartbeatBytes ∧ ∃ now, m.last = some (.clock now) ∧ m.sendBy < now))

theorem MaySend.last {m : Watch} {b : Bytes} (h : MaySend m b) : b.getLast? = some 206 := by
  obtain ⟨⟨t, ht⟩, hn, _⟩ := h
  have h1 : (t ++ b).getLast? = some 206 := by rw [ht]; rfl
  cases hb : b.getLast? with
  | none => exact absurd (List.getLast?_eq_none_iff.1 hb) hn
  | some x => rw [List.getLast?_append, hb] at h1; exact h1

theorem MaySend.goesOn {D : Nat} {m : Watch} {b : Bytes} (h : MaySend m b) (e : Ev) : m.goesOn D e := by
  intro d ms hl
  exfalso
  rcases h.2.2 with ⟨b', f, r, h⟩ | ⟨_, now, h, _⟩ <;> rw [hl] at h <;> cases h

theorem trySend_watch {E : NetEnv} (deadline flags len D : Nat) (h : Int) : ∀ (n : Nat) (left : Bytes) (s : Conn) (m : Watch), MaySend m left →
    match trySend E deadline flags len n left s with
    | .ok sent s' => ∃ l, Since s s' l ∧ (Odd l ∨ (s' = s.ext l ∧ sent = len ∧ Obeys D h m l ∧ ∃ b f, b.getLast? = some 206 ∧ m.after h l = ⟨m.recvBy, m.sendBy, some (.send b f b.length)⟩))
    | .err e s' => ∃ l, Since s s' l ∧ (Odd l ∨ (Obeys D h m l ∧ e ≠ St.TIMEOUT ∧ e ≠ St.HEARTBEAT_TIMEOUT))
    | .ub => True
    | .fuel => True := by
  intro n
  induction n with
  | zero => intro left s m _; trivial
  | succ n ih =>
    intro left s m hm
    unfold trySend sockSend
    by_cases ho : s.isOpen = true
    · rw [if_pos ho]
      have step : ∀ (res : Int), m.see h (.send left flags res) = ⟨m.recvBy, m.sendBy, some (.send left flags res)⟩ := fun res => see_notClock (by simp)
      have alw : ∀ res : Int, m.allows D (.send left flags res) := fun res => hm
      have go : ∀ res : Int, m.goesOn D (.send left flags res) := fun res => hm.goesOn _
      -- continuing with less
      have more : ∀ (res : Int) (left' : Bytes), left' <:+ heartbeatBytes → left' ≠ [] →
          match trySend E deadline flags len n left' (s.push (.send left flags res)) with
          | .ok sent s' => ∃ l, Since s s' l ∧ (Odd l ∨ (s' = s.ext l ∧ sent = len ∧ Obeys D h m l ∧
              ∃ b f, b.getLast? = some 206 ∧ m.after h l = ⟨m.recvBy, m.sendBy, some (.send b f b.length)⟩))
          | .err e s' => ∃ l, Since s s' l ∧ (Odd l ∨ (Obeys D h m l ∧ e ≠ St.TIMEOUT ∧ e ≠ St.HEARTBEAT_TIMEOUT))
          | .ub => True
          | .fuel => True := by
        intro res left' h1 h2
        have := ih left' (s.push (.send left flags res)) (m.see h (.send left flags res)) ⟨h1, h2, Or.inl ⟨left, flags, res, by rw [step]⟩⟩
        revert this
        cases trySend E deadline flags len n left' (s.push (.send left flags res)) with
        | ub => exact id
        | fuel => exact id
        | ok x t =>
          rintro ⟨l, k1, k2⟩
          refine ⟨.send left flags res :: l, (show Since s (s.push (.send left flags res)) [.send left flags res] from rfl).trans k1, ?_⟩
          rcases k2 with k2 | ⟨k2, k3, k4, b, f, kl, k5⟩
          · exact Or.inl (k2.right [_])
          · refine Or.inr ⟨by rw [k2]; simp [Conn.ext, Conn.push], k3, ⟨go res, alw res, k4⟩, b, f, kl, ?_⟩
            show Watch.after h (m.see h _) l = _
            rw [k5, step]
        | err e t =>
          rintro ⟨l, k1, k2⟩
          refine ⟨.send left flags res :: l, (show Since s (s.push (.send left flags res)) [.send left flags res] from rfl).trans k1, ?_⟩
          rcases k2 with k2 | ⟨k2, k3⟩
          · exact Or.inl (k2.right [_])
          · exact Or.inr ⟨⟨go res, alw res, k2⟩, k3⟩
      cases hE : E.send s.time left with
      | sent k =>
        dsimp only
        by_cases hp : ((min k left.length : Nat) : Int) > 0
        · rw [if_pos hp]
          simp only [Int.toNat_natCast]
          by_cases hl : (left.drop (min k left.length)).length = 0
          · rw [if_pos hl]
            have hk : min k left.length = left.length := by
              rw [List.length_drop] at hl; omega
            refine ⟨[.send left flags (min k left.length : Nat)], rfl, Or.inr ⟨rfl, rfl, ⟨go _, alw _, trivial⟩, left, flags, hm.last, ?_⟩⟩
            show Watch.see h _ _ = _
            rw [step, hk]
          · rw [if_neg hl]
            refine more _ _ ((List.drop_suffix _ _).trans hm.1) (fun hh => hl (by rw [hh]; rfl))
        · rw [if_neg hp]
          have h0 : ((min k left.length : Nat) : Int) = 0 := by omega
          unfold doPoll
          rw [if_neg (by simp [Conn.push, ho]), h0, if_neg (by decide), if_neg (by decide), if_pos (show (0 : Int) = St.OK from rfl)]
          exact more _ _ hm.1 hm.2.1
      | fail k =>
        dsimp only
        generalize hst : (-(k + 1 : Nat) : Int) = st
        rw [if_neg (by omega)]
        by_cases hodd : Ev.odd (.send left flags st) = true
        · -- anything goes
          have C := since_closed E (s.push (.send left flags st))
          have h1 := C.quietAll (s := s.push (.send left flags st)) ⟨[], by simp [Since]⟩ (doPoll_quiet E st deadline (s.push (.send left flags st)))
          have fin : ∀ {t : Conn}, (∃ l, Since (s.push (.send left flags st)) t l) → ∃ l, Since s t l ∧ Odd l := by
            rintro t ⟨l, h1⟩
            exact ⟨.send left flags st :: l, (show Since s (s.push (.send left flags st)) [_] from rfl).trans h1, ⟨_, by simp, hodd⟩⟩
          revert h1
          cases doPoll E st deadline (s.push (.send left flags st)) with
          | ub => exact id
          | fuel => exact id
          | ok x t =>
            intro h1
            dsimp only
            have h2 := C.trySend deadline flags len n left h1
            revert h2
            cases trySend E deadline flags len n left t with
            | ub => exact id
            | fuel => exact id
            | ok x t => intro h2; obtain ⟨l, a, b⟩ := fin h2; exact ⟨l, a, Or.inl b⟩
            | err x t => intro h2; obtain ⟨l, a, b⟩ := fin h2; exact ⟨l, a, Or.inl b⟩
          | err e t =>
            intro h1
            dsimp only
            obtain ⟨l, a, b⟩ := fin h1
            by_cases he : e = St.TIMEOUT
            · rw [if_pos he]; exact ⟨l, a, Or.inl b⟩
            · rw [if_neg he]; exact ⟨l, a, Or.inl b⟩
        · have hn : st ≠ St.PRIVATE_NEED_READ ∧ st ≠ St.PRIVATE_NEED_WRITE ∧ st ≠ St.TIMEOUT ∧ st ≠ St.HEARTBEAT_TIMEOUT := by
            simp only [Ev.odd, Bool.or_eq_true, beq_iff_eq, not_or] at hodd
            exact ⟨hodd.1.1.1, hodd.1.1.2, hodd.1.2, hodd.2⟩
          unfold doPoll
          rw [if_neg (by simp [Conn.push, ho]), if_neg hn.1, if_neg hn.2.1, if_neg (by rw [← hst]; show ¬ _ = (0 : Int); omega)]
          dsimp only
          rw [if_neg hn.2.2.1]
          exact ⟨[.send left flags st], rfl, Or.inr ⟨⟨go _, alw _, trivial⟩, hn.2.2⟩⟩
    · rw [if_neg ho]
      dsimp only
      rw [if_neg (by decide)]
      unfold doPoll
      rw [if_pos (by simpa using ho)]
      dsimp only
      rw [if_neg (by decide)]
      exact ⟨[], by simp [Since], Or.inr ⟨trivial, by decide, by decide⟩⟩

theorem restartSend_watch {E : NetEnv} (hC : ClockFine E) {s : Conn} (h1 : 0 < s.heartbeat) (h2 : s.heartbeat ≤ 65535) (h3 : Near E s.time s.nextRecv) (D : Nat) {b : Bytes} (hl : b.getLast? = some 206) {f r : Nat} :
    match restartSend E s with
    | .ok _ s' => ∃ l, Since s s' l ∧ Obeys D s.heartbeat ⟨r, s.nextSend, some (.send b f b.length)⟩ l ∧
        (∃ last', AtRest D s.heartbeat ⟨r, s'.nextSend, last'⟩ ∧ MayRecv s'.nextSend last' ∧ Watch.after s.heartbeat ⟨r, s.nextSend, some (.send b f b.length)⟩ l = ⟨r, s'.nextSend, last'⟩) ∧
        HbSettings E s' ∧ s'.heartbeat = s.heartbeat ∧ s'.nextRecv = s.nextRecv
    | .err e s' => ∃ l, Since s s' l ∧ Obeys D s.heartbeat ⟨r, s.nextSend, some (.send b f b.length)⟩ l ∧ e ≠ St.TIMEOUT ∧ e ≠ St.HEARTBEAT_TIMEOUT
    | .ub => True
    | .fuel => True := by
  unfold restartSend
  rw [sFromNowIO_on E h1 (by omega) _ _ (hC.2 _)]
  have hsoon := fun n hz hk => near_soon hC n s.time s.heartbeat.toNat hz hk (by omega)
  generalize E.clock s.time = now at *
  by_cases hz : now = 0
  · rw [if_pos hz]
    dsimp only
    rw [if_neg (by decide)]
    exact ⟨[.clock now], by simp [Since, Conn.push], ⟨(by intro d ms hh; cases hh), trivial, trivial⟩, by decide, by decide⟩
  · rw [if_neg hz]
    dsimp only
    rw [if_pos rfl]
    dsimp only
    refine ⟨[.clock now], by simp [Since, Conn.push], ⟨(by intro d ms hh; cases hh), trivial, trivial⟩, ⟨some (.clock now), ⟨fun _ => ⟨by simp, by simp⟩, by simp⟩, Or.inr (Or.inl ⟨now, rfl, by show now ≤ now + _; omega⟩), ?_⟩, ⟨h2, (fun hh => absurd h1 (by have : s.heartbeat ≤ 0 := hh; omega)), ?_, ?_⟩, rfl, rfl⟩
    · show Watch.mk _ (if _ then _ else _) _ = _
      rw [if_pos ⟨h1, hz, rfl, hl⟩]
    · exact hsoon _ hz (by simp [Conn.time, Conn.push])
    · exact h3.mono (by simp [Conn.time, Conn.push])

/-- The heartbeat sent by a wait. -/
theorem sendFrame_watch {E : NetEnv} (hC : ClockFine E) {s : Conn} (h1 : 0 < s.heartbeat) (h2 : s.heartbeat ≤ 65535) (h3 : Near E s.time s.nextRecv) (D : Nat) {now : Nat} (hnow : s.nextSend < now) :
    match sendFrame E ⟨0, .heartbeat⟩ SF_NONE TIME_INF s with
    | .ok _ s' => ∃ l, Since s s' l ∧ (Odd l ∨ (Obeys D s.heartbeat ⟨s.nextRecv, s.nextSend, some (.clock now)⟩ l ∧
        (∃ last', AtRest D s.heartbeat ⟨s'.nextRecv, s'.nextSend, last'⟩ ∧ MayRecv s'.nextSend last' ∧ Watch.after s.heartbeat ⟨s.nextRecv, s.nextSend, some (.clock now)⟩ l = ⟨s'.nextRecv, s'.nextSend, last'⟩) ∧
        HbSettings E s' ∧ s'.heartbeat = s.heartbeat))
    | .err e s' => ∃ l, Since s s' l ∧ (Odd l ∨ (Obeys D s.heartbeat ⟨s.nextRecv, s.nextSend, some (.clock now)⟩ l ∧ e ≠ St.TIMEOUT ∧ e ≠ St.HEARTBEAT_TIMEOUT))
    | .ub => True
    | .fuel => True := by
  unfold sendFrame
  cases hf : frameToBytes E.pe.be s.outMem s.outLen ⟨0, .heartbeat⟩ with
  | ub => trivial
  | fuel => trivial
  | err e mem =>
    have := frameToBytes_err hf
    unfold EncodeErr at this
    refine ⟨[], by simp [Since], Or.inr ⟨trivial, ?_, ?_⟩⟩
    · intro hh; rw [hh] at this; exact absurd this.1 (by decide)
    · intro hh; rw [hh] at this; exact absurd this.1 (by decide)
  | ok enc mem =>
    dsimp only
    have henc : enc = heartbeatBytes := frameToBytes_heartbeat hf
    subst henc
    cases hfu : E.fuel with
    | zero => trivial
    | succ n =>
      unfold sendLoop
      dsimp only
      generalize hnext : timeFirst TIME_INF s.nextRecv = next
      have hm : MaySend ⟨s.nextRecv, s.nextSend, some (.clock now)⟩ heartbeatBytes :=
        ⟨List.suffix_refl _, by decide, Or.inr ⟨rfl, now, rfl, hnow⟩⟩
      have ht := trySend_watch (E := E) next SF_NONE heartbeatBytes.length D s.heartbeat E.fuel heartbeatBytes { s with outMem := mem } _ hm
      revert ht
      -- once odd, anything goes
      cases trySend E next SF_NONE heartbeatBytes.length E.fuel heartbeatBytes { s with outMem := mem } with
      | ub => exact id
      | fuel => exact id
      | err e t => rintro ⟨l, k1, k2⟩; exact ⟨l, k1, k2⟩
      | ok sent t =>
        rintro ⟨l, k1, k2⟩
        dsimp only
        rcases k2 with k2 | ⟨rfl, rfl, k3, b, f, kl, k4⟩
        · have C := since_closed E s
          have fin : ∀ {u : Conn}, (∃ l', Since t u l') → ∃ l', Since s u l' ∧ Odd l' := by
            rintro u ⟨l', h⟩
            exact ⟨l ++ l', (show Since s t l from k1).trans h, k2.left _⟩
          have C := since_closed E t
          have hr : ∃ l, Since t t l := ⟨[], by simp [Since]⟩
          by_cases hlen : heartbeatBytes.length ≠ sent
          · rw [if_pos hlen]
            by_cases heq : timeEqual next TIME_INF = true
            · rw [if_pos heq]; obtain ⟨l, a, b⟩ := fin hr; exact ⟨l, a, Or.inl b⟩
            · rw [if_neg heq]
              have h3 := C.tryRecv hr
              revert h3
              cases tryRecv E t with
              | ub => exact id
              | fuel => exact id
              | err e u =>
                intro h3; dsimp only; obtain ⟨l, a, b⟩ := fin h3
                by_cases he : e = St.TIMEOUT
                · rw [if_pos he]; exact ⟨l, a, Or.inl b⟩
                · rw [if_neg he]; exact ⟨l, a, Or.inl b⟩
              | ok x u =>
                intro h3
                dsimp only
                have h4 := C.sendLoop SF_NONE TIME_INF n (heartbeatBytes.drop sent) h3
                revert h4
                cases sendLoop E SF_NONE TIME_INF n (heartbeatBytes.drop sent) u with
                | ub => exact id
                | fuel => exact id
                | ok x u => intro h3; obtain ⟨l, a, b⟩ := fin h3; exact ⟨l, a, Or.inl b⟩
                | err x u => intro h3; obtain ⟨l, a, b⟩ := fin h3; exact ⟨l, a, Or.inl b⟩
          · rw [if_neg hlen]
            have h4 := C.restartSend hr
            revert h4
            cases restartSend E t with
            | ub => exact id
            | fuel => exact id
            | ok x u => intro h3; obtain ⟨l, a, b⟩ := fin h3; exact ⟨l, a, Or.inl b⟩
            | err x u => intro h3; obtain ⟨l, a, b⟩ := fin h3; exact ⟨l, a, Or.inl b⟩
        · rw [if_neg (by simp)]
          have hs := restartSend_watch hC (s := ({ s with outMem := mem }.ext l)) h1 h2 (h3.mono (show s.time ≤ ({ s with outMem := mem }.ext l : Conn).time by simp [Conn.time, Conn.ext])) D kl (f := f) (r := s.nextRecv)
          revert hs
          cases restartSend E ({ s with outMem := mem }.ext l) with
          | ub => exact id
          | fuel => exact id
          | ok x u =>
            rintro ⟨l2, g1, g2, ⟨last', g3, g3', g4⟩, g5, g6, g7⟩
            refine ⟨l ++ l2, (show Since s _ l from k1).trans g1, Or.inr ⟨k3.append (by rw [k4]; exact g2), ⟨last', by rw [g7]; exact g3, g3', ?_⟩, g5, g6⟩⟩
            rw [Watch.after_append, k4, g7]
            exact g4
          | err e u =>
            rintro ⟨l2, g1, g2, g3⟩
            exact ⟨l ++ l2, (show Since s _ l from k1).trans g1, Or.inr ⟨k3.append (by rw [k4]; exact g2), g3⟩⟩

/-! ## The whole wait -/

theorem TimedOut.prefix {t : Nat} {l : List Ev} (l0 : List Ev) (h : TimedOut t l) : TimedOut t (l0 ++ l) := by
  rcases h with ⟨a, dd, m, now, hl, c1⟩ | ⟨c1, a, dd, hl⟩
  · exact Or.inl ⟨l0 ++ a, dd, m, now, by rw [hl]; simp, c1⟩
  · exact Or.inr ⟨c1, l0 ++ a, dd, by rw [hl]; simp⟩

/-- How a wait may fail. -/
def FailsOk (D : Nat) (h : Int) (s : Conn) (e : Int) (s' : Conn) (l : List Ev) : Prop :=
  ObeysAll D h s l ∧ (e = St.TIMEOUT → TimedOut D l ∧
    ∀ last, AtRest D h ⟨s.nextRecv, s.nextSend, last⟩ → D < (Watch.after h ⟨s.nextRecv, s.nextSend, last⟩ l).recvBy) ∧
  (e = St.HEARTBEAT_TIMEOUT → ∃ a ok, l = a ++ [.close ok] ∧ s'.isOpen = !ok ∧
    ∀ last, AtRest D h ⟨s.nextRecv, s.nextSend, last⟩ → TimedOut (Watch.after h ⟨s.nextRecv, s.nextSend, last⟩ a).recvBy a ∧
      (Watch.after h ⟨s.nextRecv, s.nextSend, last⟩ a).recvBy ≤ D)

theorem FailsOk.prefix {D : Nat} {h : Int} {s t s' : Conn} {e : Int} {l l' : List Ev} (h1 : Seg D h s t l) (h2 : FailsOk D h t e s' l') :
    FailsOk D h s e s' (l ++ l') := by
  obtain ⟨a, b, c⟩ := h2
  refine ⟨h1.then a, fun he => ⟨(b he).1.prefix l, fun last hc => ?_⟩, fun he => ?_⟩
  · obtain ⟨_, last', c', e'⟩ := h1 last hc
    rw [Watch.after_append, e']
    exact (b he).2 last' c'
  obtain ⟨x, ok, r1, r2, r3⟩ := c he
  refine ⟨l ++ x, ok, by rw [r1]; simp, r2, fun last hc => ?_⟩
  obtain ⟨_, last', c', e'⟩ := h1 last hc
  rw [Watch.after_append, e']
  exact ⟨(r3 last' c').1.prefix l, (r3 last' c').2⟩

theorem beginRecv_watch {E : NetEnv} (hC : ClockFine E) (D : Nat) {s : Conn} (hH : HbSettings E s) (hD : Near E s.time D) :
    match beginRecv E D s with
    | .ok _ s' => ∃ l, Since s s' l ∧ (Odd l ∨ (Seg D s.heartbeat s s' l ∧ HbSettings E s' ∧ s'.heartbeat = s.heartbeat))
    | .err e s' => ∃ l, Since s s' l ∧ (Odd l ∨ FailsOk D s.heartbeat s e s' l)
    | .ub => True
    | .fuel => True := by
  -- after the heartbeat
  have recvPart : ∀ {t : Conn} {l0 : List Ev}, Since s t l0 → SegP (fun _ => True) (MayRecv t.nextSend) D s.heartbeat s t l0 → HbSettings E t → t.heartbeat = s.heartbeat →
      match (match recvWithTimeout E (timeFirst D (timeFirst t.nextRecv t.nextSend)) E.fuel t with
        | .ok () s => .ok false s
        | .err e s =>
          if e = St.TIMEOUT then
            if timeEqual (timeFirst D (timeFirst t.nextRecv t.nextSend)) s.nextRecv then .err St.HEARTBEAT_TIMEOUT (sockClose E s).2
            else if timeEqual (timeFirst D (timeFirst t.nextRecv t.nextSend)) D then .err St.TIMEOUT s
            else if timeEqual (timeFirst D (timeFirst t.nextRecv t.nextSend)) s.nextSend then .ok true s
            else .ub
          else .err e s
        | .ub => .ub
        | .fuel => .fuel : Res Conn Bool) with
      | .ok _ s' => ∃ l, Since s s' l ∧ (Odd l ∨ (Seg D s.heartbeat s s' l ∧ HbSettings E s' ∧ s'.heartbeat = s.heartbeat))
      | .err e s' => ∃ l, Since s s' l ∧ (Odd l ∨ FailsOk D s.heartbeat s e s' l)
      | .ub => True
      | .fuel => True := by
    intro t l0 hs hseg hHt hhb
    have hN := hHt.near (hD.mono (since_time_le hs))
    have hw := recv_watch hC (timeFirst D (timeFirst t.nextRecv t.nextSend)) D E.fuel hHt hN.1 (by rw [timeFirst_min, timeFirst_min]) hN.2
    rw [hhb] at hw
    revert hw
    cases recvWithTimeout E (timeFirst D (timeFirst t.nextRecv t.nextSend)) E.fuel t with
    | ub => exact id
    | fuel => exact id
    | ok x u =>
      rintro ⟨l, k1, k2⟩
      refine ⟨l0 ++ l, hs.trans k1, ?_⟩
      rcases k2 with k2 | ⟨k2, k3, k4⟩
      · exact Or.inl (k2.right _)
      · exact Or.inr ⟨(hseg.trans k2).seg, k3, k4⟩
    | err e u =>
      rintro ⟨l, k1, k2⟩
      dsimp only
      by_cases he : e = St.TIMEOUT
      · rw [if_pos he]
        rcases k2 with k2 | ⟨k2, k3, k4⟩
        · by_cases q1 : timeEqual (timeFirst D (timeFirst t.nextRecv t.nextSend)) u.nextRecv = true
          · rw [if_pos q1]
            have := (since_closed E s).close (s := u) ⟨_, hs.trans k1⟩
            obtain ⟨l2, h2⟩ : ∃ l2, Since u (sockClose E u).2 l2 := (since_closed E u).close (s := u) ⟨[], by simp [Since]⟩
            exact ⟨l0 ++ l ++ l2, (hs.trans k1).trans h2, Or.inl ((k2.right _).left _)⟩
          rw [if_neg q1]
          by_cases q2 : timeEqual (timeFirst D (timeFirst t.nextRecv t.nextSend)) D = true
          · rw [if_pos q2]; exact ⟨l0 ++ l, hs.trans k1, Or.inl (k2.right _)⟩
          rw [if_neg q2]
          by_cases q3 : timeEqual (timeFirst D (timeFirst t.nextRecv t.nextSend)) u.nextSend = true
          · rw [if_pos q3]; exact ⟨l0 ++ l, hs.trans k1, Or.inl (k2.right _)⟩
          · rw [if_neg q3]; trivial
        · obtain ⟨rfl, ho, r1, r2⟩ := k3 he
          have hnr : (t.ext l).nextRecv = t.nextRecv := rfl
          have hns : (t.ext l).nextSend = t.nextSend := rfl
          rw [hnr, hns]
          by_cases q1 : timeEqual (timeFirst D (timeFirst t.nextRecv t.nextSend)) t.nextRecv = true
          · rw [if_pos q1]
            have q1' : timeFirst D (timeFirst t.nextRecv t.nextSend) = t.nextRecv := by simpa [timeEqual] using q1
            rw [q1'] at r2
            have hclose : ∃ ok, Since (t.ext l) (sockClose E (t.ext l)).2 [.close ok] ∧ (sockClose E (t.ext l)).2.isOpen = !ok := by
              unfold sockClose
              rw [if_neg (by show ¬ t.isOpen = false; rw [ho]; decide)]
              split
              · exact ⟨true, by simp [Since, Conn.push], rfl⟩
              · exact ⟨false, by simp [Since, Conn.push], ho⟩
            obtain ⟨ok, c1, c2⟩ := hclose
            refine ⟨l0 ++ l ++ [.close ok], (hs.trans k1).trans c1, Or.inr ⟨?_, fun hh => absurd hh (by decide), fun _ => ⟨l0 ++ l, ok, rfl, c2, fun last hc => ?_⟩⟩⟩
            · intro last hc
              obtain ⟨a1, dd, mm, e1⟩ := (hseg.thenT r1) last hc trivial
              exact a1.append (by rw [e1]; exact ⟨fun _ _ _ => Or.inl ⟨_, rfl⟩, trivial, trivial⟩)
            · obtain ⟨_, dd, mm, e'⟩ := (hseg.thenT r1) last hc trivial
              rw [e']
              rw [timeFirst_min, timeFirst_min] at q1'
              exact ⟨r2.prefix l0, by show t.nextRecv ≤ D; omega⟩
          rw [if_neg q1]
          by_cases q2 : timeEqual (timeFirst D (timeFirst t.nextRecv t.nextSend)) D = true
          · rw [if_pos q2]
            have q2' : timeFirst D (timeFirst t.nextRecv t.nextSend) = D := by simpa [timeEqual] using q2
            rw [q2'] at r2
            refine ⟨l0 ++ l, hs.trans k1, Or.inr ⟨fun last hc => (hseg.thenT r1).obeys last hc trivial, fun _ => ⟨r2.prefix l0, fun last hc => ?_⟩, fun hh => absurd hh (by decide)⟩⟩
            obtain ⟨_, dd, mm, e'⟩ := (hseg.thenT r1) last hc trivial
            rw [e']
            have q1' : timeFirst D (timeFirst t.nextRecv t.nextSend) ≠ t.nextRecv := by simpa [timeEqual] using q1
            rw [timeFirst_min, timeFirst_min] at q1' q2'
            show D < t.nextRecv
            omega
          rw [if_neg q2]
          by_cases q3 : timeEqual (timeFirst D (timeFirst t.nextRecv t.nextSend)) t.nextSend = true
          · rw [if_pos q3]
            have q3' : timeFirst D (timeFirst t.nextRecv t.nextSend) = t.nextSend := by simpa [timeEqual] using q3
            have q1' : timeFirst D (timeFirst t.nextRecv t.nextSend) ≠ t.nextRecv := by simpa [timeEqual] using q1
            have q2' : timeFirst D (timeFirst t.nextRecv t.nextSend) ≠ D := by simpa [timeEqual] using q2
            rw [timeFirst_min, timeFirst_min] at q1' q2' q3'
            exact ⟨l0 ++ l, hs.trans k1, Or.inr ⟨(hseg.thenT r1).seg (by show t.nextSend < t.nextRecv; omega) (by show t.nextSend < D; omega), hHt.mono rfl rfl rfl (since_time_le (since_ext t l)), hhb⟩⟩
          · rw [if_neg q3]; trivial
      · rw [if_neg he]
        refine ⟨l0 ++ l, hs.trans k1, ?_⟩
        rcases k2 with k2 | ⟨k2, k3, k4⟩
        · exact Or.inl (k2.right _)
        · exact Or.inr ⟨fun last hc => hseg.then k2 last hc trivial, fun hh => absurd hh he, fun hh => absurd hh k4⟩
  unfold beginRecv
  have hr : Since s s [] := by simp [Since]
  by_cases hi : s.nextSend = TIME_INF
  · have e : hasPastIO E s.nextSend s = (St.OK, s) := by rw [hi]; exact hasPastIO_inf E s
    rw [e]
    dsimp only
    rw [if_neg (by decide), if_neg (by decide)]
    exact recvPart hr (fun last hc _ => ⟨trivial, last, hc, Or.inl hi, rfl⟩) hH rfl
  · have e : hasPastIO E s.nextSend s = (hasPast (E.clock s.time) s.nextSend, s.push (.clock (E.clock s.time))) := by
      unfold hasPastIO; rw [if_neg (Ne.symm hi)]; rfl
    rw [e]
    dsimp only
    have hlt := hC.2 s.time
    generalize E.clock s.time = now at *
    have hs1 : Since s (s.push (.clock now)) [.clock now] := rfl
    have hseg1 : Seg D s.heartbeat s (s.push (.clock now)) [.clock now] := Seg.one (fun _ _ => ⟨fun _ => ⟨by simp, by simp⟩, by simp⟩) (fun _ => trivial) rfl rfl
    have hH1 : HbSettings E (s.push (.clock now)) := hH.mono rfl rfl rfl (since_time_le hs1)
    unfold hasPast
    rw [if_neg (Ne.symm hi)]
    by_cases hz : now = 0
    · rw [if_pos hz, if_pos rfl]
      exact ⟨_, hs1, Or.inr ⟨hseg1.obeys, fun hh => absurd hh (by decide), fun hh => absurd hh (by decide)⟩⟩
    rw [if_neg hz]
    by_cases hp : now > s.nextSend
    · rw [if_pos hp, if_neg (by decide), if_pos rfl]
      obtain ⟨h1, h2⟩ : 0 < s.heartbeat ∧ s.heartbeat ≤ 65535 :=
        ⟨Int.not_le.mp fun h => hi (hH.2.1 h).1, hH.1⟩
      have hw := sendFrame_watch hC (s := s.push (.clock now)) h1 h2 hH1.2.2.2 D (now := now) hp
      revert hw
      cases sendFrame E ⟨0, .heartbeat⟩ SF_NONE TIME_INF (s.push (.clock now)) with
      | ub => exact id
      | fuel => exact id
      | err e t =>
        rintro ⟨l, k1, k2⟩
        refine ⟨[.clock now] ++ l, hs1.trans k1, ?_⟩
        rcases k2 with k2 | ⟨k2, k3, k4⟩
        · exact Or.inl (k2.right _)
        · refine Or.inr ⟨fun last hc => ⟨hc.goesOn _, trivial, ?_⟩, fun hh => absurd hh k3, fun hh => absurd hh k4⟩
          rw [see_calm hc]
          exact k2
      | ok x t =>
        rintro ⟨l, k1, k2⟩
        dsimp only
        rcases k2 with k2 | ⟨k2, ⟨last', k3, k3', k4⟩, k5, k6⟩
        · -- odd
          have C := since_closed E t
          have hrt : ∃ l, Since t t l := ⟨[], by simp [Since]⟩
          have fin : ∀ {u : Conn}, (∃ l', Since t u l') → ∃ l', Since s u l' ∧ Odd l' := by
            rintro u ⟨l', h⟩
            exact ⟨[.clock now] ++ l ++ l', (hs1.trans k1).trans h, (k2.right _).left _⟩
          have h3 := C.recvWithTimeout (timeFirst D (timeFirst t.nextRecv t.nextSend)) E.fuel hrt
          revert h3
          cases recvWithTimeout E (timeFirst D (timeFirst t.nextRecv t.nextSend)) E.fuel t with
          | ub => exact id
          | fuel => exact id
          | ok x u => intro h3; obtain ⟨l, a, b⟩ := fin h3; exact ⟨l, a, Or.inl b⟩
          | err e u =>
            intro h3
            dsimp only
            have f1 : ∃ l, Since s u l ∧ Odd l := fin h3
            have f2 : ∃ l, Since s (sockClose E u).2 l ∧ Odd l := fin (C.close h3)
            obtain ⟨l1, a1, b1⟩ := f1
            obtain ⟨l2, a2, b2⟩ := f2
            by_cases he : e = St.TIMEOUT
            · rw [if_pos he]
              by_cases q1 : timeEqual (timeFirst D (timeFirst t.nextRecv t.nextSend)) u.nextRecv = true
              · rw [if_pos q1]; exact ⟨l2, a2, Or.inl b2⟩
              rw [if_neg q1]
              by_cases q2 : timeEqual (timeFirst D (timeFirst t.nextRecv t.nextSend)) D = true
              · rw [if_pos q2]; exact ⟨l1, a1, Or.inl b1⟩
              rw [if_neg q2]
              by_cases q3 : timeEqual (timeFirst D (timeFirst t.nextRecv t.nextSend)) u.nextSend = true
              · rw [if_pos q3]; exact ⟨l1, a1, Or.inl b1⟩
              · rw [if_neg q3]; trivial
            · rw [if_neg he]; exact ⟨l1, a1, Or.inl b1⟩
        · have hsg : SegP (fun _ => True) (MayRecv t.nextSend) D s.heartbeat s t ([.clock now] ++ l) := by
            intro last hc _
            refine ⟨⟨hc.goesOn _, trivial, by rw [see_calm hc]; exact k2⟩, last', k3, k3', ?_⟩
            rw [Watch.after_append]
            show Watch.after _ (Watch.see _ _ _) _ = _
            rw [see_calm hc]
            exact k4
          exact recvPart (hs1.trans k1) hsg k5 k6
    · rw [if_neg hp, if_neg (by decide), if_neg (by decide)]
      refine recvPart hs1 (fun last hc _ => ⟨⟨hc.goesOn _, trivial, trivial⟩, some (.clock now), ⟨fun _ => ⟨by simp, by simp⟩, by simp⟩, Or.inr (Or.inl ⟨now, rfl, by show now ≤ s.nextSend; omega⟩), ?_⟩) hH1 rfl
      show Watch.see _ _ _ = _
      rw [see_calm hc]
      rfl

theorem waitInner_watch {E : NetEnv} (hC : ClockFine E) (D : Nat) : ∀ (n : Nat) (b : Bool) {s : Conn}, HbSettings E s → Near E s.time D →
    match waitInner E D n b s with
    | .ok _ s' => ∃ l, Since s s' l ∧ (Odd l ∨ (Seg D s.heartbeat s s' l ∧ HbSettings E s' ∧ s'.heartbeat = s.heartbeat))
    | .err e s' => ∃ l, Since s s' l ∧ (Odd l ∨ FailsOk D s.heartbeat s e s' l)
    | .ub => True
    | .fuel => True := by
  intro n
  induction n with
  | zero => intro b s _ _; trivial
  | succ n ih =>
    intro b s hH hD
    -- going on
    have next : ∀ (b : Bool) {t : Conn} {l0 : List Ev}, Since s t l0 → (Odd l0 ∨ (Seg D s.heartbeat s t l0 ∧ HbSettings E t ∧ t.heartbeat = s.heartbeat)) →
        match waitInner E D n b t with
        | .ok _ s' => ∃ l, Since s s' l ∧ (Odd l ∨ (Seg D s.heartbeat s s' l ∧ HbSettings E s' ∧ s'.heartbeat = s.heartbeat))
        | .err e s' => ∃ l, Since s s' l ∧ (Odd l ∨ FailsOk D s.heartbeat s e s' l)
        | .ub => True
        | .fuel => True := by
      intro b t l0 hs hc
      rcases hc with hc | ⟨h1, h2, h3⟩
      · have h4 := (since_closed E t).waitInner D n b (s := t) ⟨[], by simp [Since]⟩
        revert h4
        cases waitInner E D n b t with
        | ub => exact id
        | fuel => exact id
        | ok x u => rintro ⟨⟨l, h⟩, _⟩; exact ⟨l0 ++ l, hs.trans h, Or.inl (hc.left _)⟩
        | err x u => rintro ⟨l, h⟩; exact ⟨l0 ++ l, hs.trans h, Or.inl (hc.left _)⟩
      · have h4 := ih b h2 (hD.mono (since_time_le hs))
        rw [h3] at h4
        revert h4
        cases waitInner E D n b t with
        | ub => exact id
        | fuel => exact id
        | ok x u =>
          rintro ⟨l, k1, k2⟩
          refine ⟨l0 ++ l, hs.trans k1, ?_⟩
          rcases k2 with k2 | ⟨k2, k3, k4⟩
          · exact Or.inl (k2.right _)
          · exact Or.inr ⟨h1.trans k2, k3, k4⟩
        | err x u =>
          rintro ⟨l, k1, k2⟩
          refine ⟨l0 ++ l, hs.trans k1, ?_⟩
          rcases k2 with k2 | k2
          · exact Or.inl (k2.right _)
          · exact Or.inr (FailsOk.prefix h1 k2)
    unfold waitInner
    by_cases hb : b = false ∧ s.inb ≠ []
    · rw [if_pos hb]
      unfold consumeOne
      cases hI : handleInput E.pe s.ps s.inb with
      | ub => trivial
      | fuel => trivial
      | err e ps =>
        have hp := handleInput_ec hI
        refine ⟨[], by simp [Since], Or.inr ⟨fun _ _ => trivial, fun hh => ?_, fun hh => ?_⟩⟩
        · rw [hh] at hp; exact absurd hp.1 (by decide)
        · rw [hh] at hp; exact absurd hp.1 (by decide)
      | ok r ps =>
        obtain ⟨k, f⟩ := r
        dsimp only
        have hseg : ∀ {u : Conn}, u.nextRecv = s.nextRecv → u.nextSend = s.nextSend → Seg D s.heartbeat s u [.parsed (s.inb.take k)] :=
          fun a b => Seg.one (fun _ _ => ⟨fun _ => ⟨by simp, by simp⟩, by simp⟩) (fun _ => trivial) a b
        cases f with
        | none =>
          dsimp only [Option.map]
          exact next false (l0 := [.parsed (s.inb.take k)]) rfl (Or.inr ⟨hseg rfl rfl, hH.mono rfl rfl rfl (by simp [Conn.time, Conn.push]), rfl⟩)
        | some f =>
          dsimp only [Option.map]
          cases hfp : f.payload with
          | heartbeat =>
            dsimp only
            generalize hu : Conn.push { s with ps := ps, inb := s.inb.drop k } (.parsed (s.inb.take k)) = u
            have hsu : Since s u [.parsed (s.inb.take k)] := by rw [← hu]; rfl
            have hru : u.nextRecv = s.nextRecv := by rw [← hu]; rfl
            have hnu : u.nextSend = s.nextSend := by rw [← hu]; rfl
            have hhu : u.heartbeat = s.heartbeat := by rw [← hu]; rfl
            obtain ⟨l, h1, h2⟩ := maybeReleaseOn_ext 0 u
            rw [h1]
            have hsg : Seg D s.heartbeat u (u.ext l) l := by
              rcases h2 with rfl | rfl
              · simpa using Seg.refl D s.heartbeat u
              · exact Seg.one (fun _ _ => ⟨fun _ => ⟨by simp, by simp⟩, by simp⟩) (fun _ => trivial) rfl rfl
            refine next false (hsu.trans (since_ext u l)) (Or.inr ⟨(hseg hru hnu).trans hsg, hH.mono ?_ ?_ ?_ (since_time_le (hsu.trans (since_ext u l))), ?_⟩)
            · exact hhu
            · exact hnu
            · exact hru
            · exact hhu
          | _ => exact ⟨[.parsed (s.inb.take k)], rfl, Or.inr ⟨hseg rfl rfl, hH.mono rfl rfl rfl (by simp [Conn.time, Conn.push]), rfl⟩⟩
    · rw [if_neg hb]
      have h4 := beginRecv_watch hC D hH hD
      revert h4
      cases beginRecv E D s with
      | ub => exact id
      | fuel => exact id
      | ok x u => rintro ⟨l, k1, k2⟩; exact next x k1 k2
      | err e u => exact id

end Rmq
