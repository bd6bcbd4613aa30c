import Verif.Proofs.Instances
/-!
# The buffer of a frame being received stays
-/
namespace Rmq

/-- From `s` to `s'`, frame buffers are only added, and a body is being received afterwards only in a new buffer or in the old one. -/
def BufStep (s s' : PState) : Prop :=
  s.bufLog.length ≤ s'.bufLog.length ∧ (s'.mode = .body → s'.bufLog.length = s.bufLog.length → s.mode = .body)

theorem BufStep.of_eq {s s' : PState} (h1 : s'.bufLog = s.bufLog) (h2 : s'.mode = s.mode) : BufStep s s' :=
  ⟨by rw [h1]; exact Nat.le_refl _, fun h _ => by rw [← h2]; exact h⟩

theorem BufStep.trans {a b c : PState} (h1 : BufStep a b) (h2 : BufStep b c) : BufStep a c := by
  have := h1.1; have := h2.1
  exact ⟨by omega, fun hm hl => h1.2 (h2.2 hm (by omega)) (by omega)⟩

/-- … whatever the outcome. -/
def Bufs {α : Type} (s : PState) : Res PState α → Prop
  | .ok _ t => BufStep s t
  | .err _ t => BufStep s t
  | .ub => True
  | .fuel => True

theorem getPool_buf (E : PEnv) (s : PState) (ch : UInt16) : BufStep s (getPool E s ch).2 := by
  unfold getPool
  split
  · exact .of_eq rfl rfl
  · split <;> exact .of_eq rfl rfl

theorem consumeData_buf {s s' : PState} {d : Bytes} {k : Nat} (h : consumeData s d = some (k, s')) : BufStep s s' := by
  unfold consumeData at h
  dsimp only at h
  split at h
  · cases h
  · split at h
    · cases h
    · cases h
      unfold PState.setRaw
      split <;> exact .of_eq rfl rfl

theorem bodyPhase_buf (E : PEnv) (s : PState) (c : Nat) : Bufs s (bodyPhase E s c) := by
  have := bodyPhase_frame E s c
  revert this
  cases bodyPhase E s c with
  | ok r t =>
    rintro ⟨_, a, p, rfl⟩
    exact ⟨Nat.le_refl _, fun h _ => by cases h⟩
  | err e t => rintro ⟨a, p, rfl⟩; exact .of_eq rfl rfl
  | ub => exact fun _ => trivial
  | fuel => exact fun _ => trivial

theorem headerPhase_buf (E : PEnv) (s : PState) (c : Nat) (rest : Bytes) : Bufs s (headerPhase E s c rest) := by
  unfold headerPhase
  split
  · trivial
  split
  case h_2 => trivial
  next ch fs _ _ =>
  split
  · exact .of_eq rfl rfl
  dsimp only
  split
  · exact .of_eq rfl rfl
  have hg := getPool_buf E s ch
  revert hg
  cases getPool E s ch with
  | mk b s1 =>
  cases b with
  | false => exact id
  | true =>
    intro hg
    dsimp only at hg ⊢
    have h0 := hg.1
    split
    · split
      · trivial
      · split
        · trivial
        · next m _ k s2 hc =>
          have := (consumeData_buf hc).1
          simp only [List.length_cons] at this
          split
          · exact ⟨by omega, fun _ _ => by omega⟩
          · have hb := bodyPhase_buf E s2 (c + k)
            revert hb
            cases bodyPhase E s2 (c + k) with
            | ok r t => intro hb; have := hb.1; exact ⟨by omega, fun _ _ => by omega⟩
            | err e t => intro hb; have := hb.1; exact ⟨by omega, fun _ _ => by omega⟩
            | ub => exact fun _ => trivial
            | fuel => exact fun _ => trivial
    · exact ⟨by simp only [List.length_cons]; omega, fun _ h => by simp only [List.length_cons] at h; omega⟩

theorem handleInput_buf (E : PEnv) (s : PState) (d : Bytes) : Bufs s (handleInput E s d) := by
  unfold handleInput
  split
  · exact .of_eq rfl rfl
  dsimp only
  have h0 : BufStep s (if s.mode = .idle then { s with mode := .header } else s) := by
    split
    · exact ⟨Nat.le_refl _, fun h => by cases h⟩
    · exact .of_eq rfl rfl
  revert h0
  generalize (if s.mode = .idle then { s with mode := .header } else s) = s0
  intro h0
  split
  · trivial
  next k s1 hc =>
  have h1 := h0.trans (consumeData_buf hc)
  have lift : ∀ {r : Res PState (Nat × Option AFrame)}, Bufs s1 r → Bufs s r := by
    intro r; cases r with
    | ok a t => exact fun h => h1.trans h
    | err a t => exact fun h => h1.trans h
    | ub => exact fun _ => trivial
    | fuel => exact fun _ => trivial
  split
  · exact h1
  split
  · split
    · trivial
    · split
      · split
        · exact ⟨h1.1, fun h => by cases h⟩
        · trivial
      · exact lift (headerPhase_buf E _ _ _)
  · exact lift (headerPhase_buf E _ _ _)
  · exact lift (bodyPhase_buf E _ _)
  · trivial

/-- While the frame being received in `s0` is still being received in `s`, no pool was recycled. -/
def Held (s0 s : Conn) : Prop :=
  s0.ps.bufLog.length ≤ s.ps.bufLog.length ∧ s0.log.length ≤ s.log.length ∧
    (s.ps.mode = .body → s.ps.bufLog.length = s0.ps.bufLog.length → ∀ ch, Ev.recycle ch ∉ s.log.drop s0.log.length)

theorem Held.step {s0 s s' : Conn} (h : Held s0 s) {l : List Ev} (hl : s'.log = s.log ++ l) (hp : BufStep s.ps s'.ps)
    (hn : ∀ ch, Ev.recycle ch ∉ l) : Held s0 s' := by
  obtain ⟨h1, h2, h3⟩ := h
  have := hp.1
  refine ⟨by omega, by rw [hl, List.length_append]; omega, fun hm hb ch => ?_⟩
  rw [hl, List.drop_append, List.mem_append, not_or]
  exact ⟨h3 (hp.2 hm (by omega)) (by omega) ch, fun hc => hn ch (List.mem_of_mem_drop hc)⟩

theorem Held.same {s0 s s' : Conn} (h : Held s0 s) (hl : s'.log = s.log) (hb : s'.ps.bufLog = s.ps.bufLog) (hm : s'.ps.mode = s.ps.mode) :
    Held s0 s' := h.step (l := []) (by simp [hl]) (.of_eq hb hm) (by simp)

theorem held_closed (E : NetEnv) (s0 : Conn) : Closed E (Held s0) (fun _ _ => True) := by
  refine ⟨⟨⟨fun {s e} he h => ?_, fun {s} b _ h => ?_⟩, fun {s s' f} h hc => ?_, fun {s s' e} h hc => ?_, fun {s f} hf h => ?_⟩,
      fun {s} b fl h => ?_, fun {s} h => ?_, fun {s} m h => ?_, fun {s f} hf h => ?_, fun {s a rest f} h hq => ?_,
      fun {s} h => ?_, fun {s} ch h => ?_⟩
  · exact h.step (l := [e]) rfl (.of_eq rfl rfl) (plain_no_recycle (by simpa using he))
  · refine (restartRecv_eff E _).mono ?_
    rintro v ⟨t, l, rfl, hl⟩
    refine h.step (l := .recvData (b.take SOCK_BUF) :: l) (by simp [Conn.ext, Conn.push]) (.of_eq rfl rfl) (fun ch hm => ?_)
    rcases List.mem_cons.1 hm with hm | hm
    · cases hm
    · exact quiet_no_recycle hl ch hm
  · unfold consumeOne at hc
    have hb := handleInput_buf E.pe s.ps s.inb
    cases h1 : handleInput E.pe s.ps s.inb with
    | ok r p =>
      obtain ⟨k, g⟩ := r
      rw [h1] at hc hb
      cases hc
      exact ⟨h.step (l := [.parsed (s.inb.take k)]) rfl hb (by simp), fun _ _ => trivial⟩
    | err e p => rw [h1] at hc; cases hc
    | ub => rw [h1] at hc; cases hc
    | fuel => rw [h1] at hc; cases hc
  · unfold consumeOne at hc
    have hb := handleInput_buf E.pe s.ps s.inb
    cases h1 : handleInput E.pe s.ps s.inb with
    | err e p => rw [h1] at hc hb; cases hc; exact h.step (l := []) (by simp) hb (by simp)
    | ok r p => rw [h1] at hc; cases hc
    | ub => rw [h1] at hc; cases hc
    | fuel => rw [h1] at hc; cases hc
  · unfold queueFrame
    obtain ⟨a, p, hp⟩ := createLink_eff E f.frame.channel s
    revert hp
    obtain ⟨b, s1⟩ := createLink E f.frame.channel s
    intro hp
    dsimp only at hp
    subst hp
    cases b <;> exact h.same rfl rfl rfl
  · unfold sockSend
    split
    · cases E.send s.time b with
      | sent n => exact h.step (l := [_]) rfl (.of_eq rfl rfl) (by simp)
      | fail n => exact h.step (l := [_]) rfl (.of_eq rfl rfl) (by simp)
    · exact h
  · refine (restartSend_eff E _).mono ?_
    rintro v ⟨t, l, rfl, hl⟩
    exact h.step (l := l) rfl (.of_eq rfl rfl) (quiet_no_recycle hl)
  · exact h.same rfl rfl rfl
  · unfold putBackFrame
    obtain ⟨a, p, hp⟩ := createLink_eff E f.frame.channel s
    revert hp
    obtain ⟨b, s1⟩ := createLink E f.frame.channel s
    intro hp
    dsimp only at hp
    subst hp
    cases b <;> exact h.same rfl rfl rfl
  · exact ⟨h.same rfl rfl rfl, trivial⟩
  · obtain ⟨l, h6, h7⟩ := sockClose_ext E s
    rw [h6]
    refine h.step (l := l) rfl (.of_eq rfl rfl) (fun ch hm => ?_)
    obtain ⟨ok, h8⟩ := h7 _ hm
    cases h8
  · unfold maybeReleaseOn
    split
    · exact h
    · next hi =>
      have hi : s.ps.mode = .idle := Classical.byContradiction hi
      split
      · exact h
      · split
        · obtain ⟨h1, h2, h3⟩ := h
          refine ⟨h1, ?_, fun hm => ?_⟩
          · show _ ≤ (s.log ++ [_]).length
            rw [List.length_append]; omega
          · have : s.ps.mode = .body := hm
            rw [hi] at this; cases this
        · exact h

theorem held_login (E : NetEnv) (s0 : Conn) : LoginClosed E (Held s0) (fun _ _ => True) where
  toUpper := (held_closed E s0).upper
  allocs := fun {s} n p h => h.same rfl rfl rfl
  publishCheck := publishCheck_closed (held_closed E s0).upper fun h => (held_closed E s0).tryRecv h
  tune := fun {s} cm fm hb mem h => tune_all fun ps hh a b m len l hl hp => h.step (l := l) rfl (.of_eq hp.2 hp.1) (quiet_no_recycle hl)
  setServer := fun {s} t h => h.same rfl rfl rfl
  setClient := fun {s} t n h => h.same rfl rfl rfl

end Rmq
