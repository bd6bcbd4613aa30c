import Verif.Proofs.FrameRaw
/-! After a framing error the parser is stuck; buffer sizes are bounded. -/
namespace Rmq

/-- Every later call with data fails with `e` (or runs out of memory), whatever the allocator does and whatever pools are added, and
nothing moves. -/
def Stuck (E : PEnv) (e : Int) (s : PState) : Prop :=
  ∀ a p d, s.pools ⊆ p → d ≠ [] → ∃ e' a', handleInput E { s with allocs := a, pools := p } d = .err e' { s with allocs := a', pools := p } ∧
    (e' = e ∨ e' = St.NO_MEMORY)

theorem consumeData_zero {s : PState} {m : Bytes} (hr : s.raw = some m) (ho : s.off = s.target) (ht : s.target ≤ m.length)
    (d : Bytes) : consumeData s d = some (0, s) := by
  rw [consumeData_full hr (by omega) ht (by omega)]
  have h0 : s.target - s.off = 0 := by omega
  simp only [h0, List.take_zero, splice_nil]
  congr 2
  unfold PState.at PState.setRaw
  unfold PState.raw at hr
  cases hi : s.inb <;> rw [hi] at hr <;> simp_all
  · obtain ⟨mode, hdr, inb, off, target, fm, pools, allocs, bl⟩ := s
    simp_all
  · obtain ⟨mode, hdr, inb, off, target, fm, pools, allocs, bl⟩ := s
    simp_all

theorem handleInput_full {E : PEnv} {s : PState} {m : Bytes} (hr : s.raw = some m) (ho : s.off = s.target)
    (ht : s.target ≤ m.length) (hm : s.mode ≠ .idle) {d : Bytes} (hd : d ≠ []) :
    handleInput E s d = dispatch E s 0 d := by
  rw [handleInput_eq hd, wake_of_ne hm, consumeData_zero hr ho ht]
  dsimp only
  rw [if_neg (by omega), List.drop_zero]

theorem headerOpen_bad {E : PEnv} {s s' : PState} {e : Int} (h : headerOpen E s = .err e s') (he : e ≠ St.NO_MEMORY) :
    s' = s ∧ ∀ a p, headerOpen E { s with allocs := a, pools := p } = .err e { s with allocs := a, pools := p } := by
  have hraw : ∀ a p, ({ s with allocs := a, pools := p } : PState).raw = s.raw := fun a p => rfl
  unfold headerOpen at h ⊢
  simp only [hraw]
  cases hr : s.raw with
  | none => rw [hr] at h; cases h
  | some raw =>
    rw [hr] at h; dsimp only at h ⊢
    cases h1 : rd16 E.be raw 1 with
    | none => rw [h1] at h; cases h
    | some ch =>
      cases h2 : rd32 E.be raw 3 with
      | none => rw [h1, h2] at h; cases h
      | some fs =>
        rw [h1, h2] at h; dsimp only at h ⊢
        by_cases h3 : fs.toNat ≥ 2147483647
        · rw [if_pos h3] at h; cases h; exact ⟨rfl, fun a p => by rw [if_pos h3]⟩
        rw [if_neg h3] at h
        by_cases h4 : s.frameMax < fs.toNat + HEADER_SIZE + FOOTER_SIZE
        · rw [if_pos h4] at h; cases h; exact ⟨rfl, fun a p => by rw [if_neg h3, if_pos h4]⟩
        rw [if_neg h4] at h
        rcases hg : getPool E s ch with ⟨_ | _, s1⟩
        · rw [hg] at h; cases h; exact absurd rfl he
        rw [hg] at h; dsimp only at h
        by_cases h5 : E.alloc s1.allocs = true
        · rw [if_pos h5] at h
          cases hp : poke ((List.range (fs.toNat + HEADER_SIZE + FOOTER_SIZE)).map (E.fresh s1.allocs)) 0
            (s1.hdr.take HEADER_SIZE) with
          | none => rw [hp] at h; cases h
          | some mem => rw [hp] at h; cases h
        · rw [if_neg h5] at h; cases h; exact absurd rfl he

/-- The `switch` on the frame type in terms of the raw buffer. -/
theorem bodyPhase_bad_again {E : PEnv} {s s' : PState} {c : Nat} {e : Int} (h : bodyPhase E s c = .err e s')
    (he : e ≠ St.NO_MEMORY) :
    (∃ a p, s' = { s with allocs := a, pools := p }) ∧
    ∀ a p c', s'.pools ⊆ p → ∃ e' a', bodyPhase E { s' with allocs := a, pools := p } c' = .err e' { s' with allocs := a', pools := p } ∧
      (e' = e ∨ e' = St.NO_MEMORY) := by
  refine ⟨bodyPhase_err h, ?_⟩
  unfold bodyPhase at h
  cases hr : s.raw with
  | none => rw [hr] at h; cases h
  | some raw =>
    rw [hr] at h; dsimp only at h
    cases h1 : rd8 raw (subWrap s.target 1) with
    | none => rw [h1] at h; cases h
    | some fend =>
      rw [h1] at h; dsimp only at h
      by_cases h2 : fend ≠ FRAME_END
      · rw [if_pos h2] at h
        cases h
        intro a p c' _
        have hr' : ({ s with allocs := a, pools := p } : PState).raw = some raw := hr
        refine ⟨St.BAD_AMQP_DATA, a, ?_, Or.inl rfl⟩
        unfold bodyPhase
        rw [hr']
        dsimp only
        rw [h1]
        dsimp only
        rw [if_pos h2]
      rw [if_neg h2] at h
      cases h3 : rd8 raw 0 with
      | none => rw [h3] at h; cases h
      | some ty =>
        cases h4 : rd16 E.be raw 1 with
        | none => rw [h3, h4] at h; cases h
        | some ch =>
          rw [h3, h4] at h; dsimp only at h
          rcases hg : getPool E s ch with ⟨_ | _, s1⟩
          · rw [hg] at h; cases h; exact absurd rfl he
          rw [hg] at h
          dsimp only at h
          have e1 := getPool_eq hg
          have hmem := getPool_mem hg
          have hr1 : ∀ a p, ({ s1 with allocs := a, pools := p } : PState).raw = some raw := by
            intro a p; rw [e1]; exact hr
          have ht1 : s1.target = s.target := by rw [e1]
          have again : ∀ a p c', s1.pools ⊆ p → bodyPhase E { s1 with allocs := a, pools := p } c' =
              (if ty = 1 then
                match rd32 E.be raw HEADER_SIZE with
                | none => .ub
                | some id =>
                  match decMethod ⟨raw.drop (HEADER_SIZE + 4), subWrap s1.target (HEADER_SIZE + 4 + FOOTER_SIZE), E.be, E.alloc⟩ id
                      a with
                  | .ok args d => .ok (c', some ⟨ch, .method id args⟩) { s1 with allocs := d.allocs, pools := p }.idle
                  | .err e d => .err e { s1 with allocs := d.allocs, pools := p }
                  | .ub => .ub
                  | .fuel => .fuel
              else if ty = 2 then
                match rd16 E.be raw HEADER_SIZE, rd64 E.be raw (HEADER_SIZE + 4) with
                | some cls, some size =>
                  match decProperties ⟨raw.drop (HEADER_SIZE + 12), subWrap s1.target (HEADER_SIZE + 12 + FOOTER_SIZE), E.be,
                      E.alloc⟩ cls a with
                  | .ok (flags, props) d =>
                    .ok (c', some ⟨ch, .header cls size flags props⟩) { s1 with allocs := d.allocs, pools := p }.idle
                  | .err e d => .err e { s1 with allocs := d.allocs, pools := p }
                  | .ub => .ub
                  | .fuel => .fuel
                | _, _ => .ub
              else if ty = 3 then
                match readAt raw HEADER_SIZE (subWrap s1.target (HEADER_SIZE + FOOTER_SIZE)) with
                | none => .ub
                | some b => .ok (c', some ⟨ch, .body b⟩) ({ s1 with allocs := a, pools := p } : PState).idle
              else if ty = 8 then .ok (c', some ⟨ch, .heartbeat⟩) ({ s1 with allocs := a, pools := p } : PState).idle
              else .ok (c', none) ({ s1 with allocs := a, pools := p } : PState).idle) := by
            intro a p c' hp
            unfold bodyPhase
            rw [hr1 a p]
            dsimp only
            rw [show rd8 raw (subWrap s1.target 1) = some fend by rw [ht1]; exact h1]
            dsimp only
            rw [if_neg h2, h3, h4]
            dsimp only
            rw [getPool_of_mem (s := { s1 with allocs := a, pools := p }) (hp hmem)]
            rfl
          by_cases t1 : ty = 1
          · rw [if_pos t1] at h
            cases h5 : rd32 E.be raw HEADER_SIZE with
            | none => rw [h5] at h; cases h
            | some id =>
              rw [h5] at h; dsimp only at h
              cases h6 : decMethod ⟨raw.drop (HEADER_SIZE + 4), subWrap s1.target (HEADER_SIZE + 4 + FOOTER_SIZE), E.be,
                  E.alloc⟩ id s1.allocs with
              | ok args d => rw [h6] at h; cases h
              | ub => rw [h6] at h; cases h
              | fuel => rw [h6] at h; cases h
              | err e0 d =>
                rw [h6] at h; cases h
                intro a p c' hp
                have hI := decMethod_indep ⟨raw.drop (HEADER_SIZE + 4), subWrap s1.target (HEADER_SIZE + 4 + FOOTER_SIZE),
                  E.be, E.alloc⟩ id s1.allocs a
                rw [again a p c' hp, if_pos t1, h5]
                dsimp only
                rw [h6] at hI
                cases h7 : decMethod ⟨raw.drop (HEADER_SIZE + 4), subWrap s1.target (HEADER_SIZE + 4 + FOOTER_SIZE), E.be,
                    E.alloc⟩ id a with
                | ok args' d' => rw [h7] at hI; exact absurd hI he
                | ub => rw [h7] at hI; exact absurd hI he
                | fuel => rw [h7] at hI; exact absurd hI he
                | err e2 d' =>
                  rw [h7] at hI
                  refine ⟨e2, d'.allocs, rfl, ?_⟩
                  rcases hI with h | h | h
                  · exact Or.inl h.symm
                  · exact absurd h he
                  · exact Or.inr h
          rw [if_neg t1] at h
          by_cases t2 : ty = 2
          · rw [if_pos t2] at h
            cases h5 : rd16 E.be raw HEADER_SIZE with
            | none => rw [h5] at h; cases h
            | some cls =>
              cases h5' : rd64 E.be raw (HEADER_SIZE + 4) with
              | none => rw [h5, h5'] at h; cases h
              | some size =>
                rw [h5, h5'] at h; dsimp only at h
                cases h6 : decProperties ⟨raw.drop (HEADER_SIZE + 12), subWrap s1.target (HEADER_SIZE + 12 + FOOTER_SIZE),
                    E.be, E.alloc⟩ cls s1.allocs with
                | ok v d => rw [h6] at h; cases h
                | ub => rw [h6] at h; cases h
                | fuel => rw [h6] at h; cases h
                | err e0 d =>
                  rw [h6] at h; cases h
                  intro a p c' hp
                  have hI := decProperties_indep ⟨raw.drop (HEADER_SIZE + 12),
                    subWrap s1.target (HEADER_SIZE + 12 + FOOTER_SIZE), E.be, E.alloc⟩ cls s1.allocs a
                  rw [again a p c' hp, if_neg t1, if_pos t2, h5, h5']
                  dsimp only
                  rw [h6] at hI
                  cases h7 : decProperties ⟨raw.drop (HEADER_SIZE + 12), subWrap s1.target (HEADER_SIZE + 12 + FOOTER_SIZE),
                      E.be, E.alloc⟩ cls a with
                  | ok v' d' => rw [h7] at hI; exact absurd hI he
                  | ub => rw [h7] at hI; exact absurd hI he
                  | fuel => rw [h7] at hI; exact absurd hI he
                  | err e2 d' =>
                    rw [h7] at hI
                    refine ⟨e2, d'.allocs, rfl, ?_⟩
                    rcases hI with h | h | h
                    · exact Or.inl h.symm
                    · exact absurd h he
                    · exact Or.inr h
          rw [if_neg t2] at h
          by_cases t3 : ty = 3
          · rw [if_pos t3] at h
            cases h5 : readAt raw HEADER_SIZE (subWrap s1.target (HEADER_SIZE + FOOTER_SIZE)) with
            | none => rw [h5] at h; cases h
            | some b => rw [h5] at h; cases h
          rw [if_neg t3] at h
          by_cases t4 : ty = 8
          · rw [if_pos t4] at h; cases h
          · rw [if_neg t4] at h; cases h

theorem dispatch_body {E : PEnv} {s : PState} {c : Nat} {d : Bytes} (h : s.mode = .body) :
    dispatch E s c d = bodyPhase E s c := by unfold dispatch; rw [h]

/-- A body state at its target that has failed is stuck. -/
theorem stuck_body {E : PEnv} {s s' : PState} {c : Nat} {e : Int} (hi : PInv s) (hm : s.mode = .body)
    (ho : s.off = s.target) (h : bodyPhase E s c = .err e s') (he : e ≠ St.NO_MEMORY) : Stuck E e s' := by
  obtain ⟨⟨a0, p0, rfl⟩, hag⟩ := bodyPhase_bad_again h he
  obtain ⟨m, hr, ht, _⟩ := hi.raw
  intro a p d hp hd
  obtain ⟨e', a', h1, h2⟩ := hag a p 0 hp
  refine ⟨e', a', ?_, h2⟩
  refine (handleInput_full (s := { s with allocs := a, pools := p }) (m := m) hr ho ht
    (by show s.mode ≠ _; rw [hm]; simp) hd).trans ?_
  exact (dispatch_body (s := { s with allocs := a, pools := p }) hm).trans h1

theorem stuck_dispatch {E : PEnv} {s s' : PState} {c : Nat} {d0 : Bytes} {e : Int} (hi : PInv s) (hm : s.mode ≠ .idle)
    (ho : s.off = s.target) (h : dispatch E s c d0 = .err e s') (he : e ≠ St.NO_MEMORY) : Stuck E e s' := by
  obtain ⟨m, hr, ht, _⟩ := hi.raw
  have hp : 7 ≤ s.off → s.off ≤ 8 → headerPhase E s c d0 = .err e s' →
      (∀ a p d, dispatch E { s with allocs := a, pools := p } 0 d = headerPhase E { s with allocs := a, pools := p } 0 d) → Stuck E e s' := by
    intro h7 h8 h hdp
    rw [headerPhase_eq] at h
    cases hO : headerOpen E s with
    | ok u s2 =>
      rw [hO] at h
      dsimp only at h
      obtain ⟨hi2, hm2⟩ := headerOpen_inv hi h7 h8 hO
      obtain ⟨m2, hr2, ht2, ho2⟩ := hi2.raw
      have hne2 : s2.mode ≠ .idle := by rw [hm2]; simp
      unfold contBody at h
      by_cases hd : s2.target - s2.off ≤ d0.length
      · rw [consumeData_full hr2 ho2 ht2 hd] at h
        dsimp only at h
        rw [if_neg (by simp)] at h
        exact stuck_body (hi2.at hne2 hr2 (splice_length (by simp; omega)) ho2 (Nat.le_refl _)) (by simpa using hm2)
          (by simp) h he
      · rw [consumeData_part hr2 ho2 ht2 (by omega)] at h
        dsimp only at h
        rw [if_pos (by simp; omega)] at h
        cases h
    | err e2 s2 =>
      rw [hO] at h
      cases h
      obtain ⟨rfl, hag⟩ := headerOpen_bad hO he
      intro a p d _ hd
      refine ⟨e, a, ?_, Or.inl rfl⟩
      refine (handleInput_full (s := { s' with allocs := a, pools := p }) (m := m) hr ho ht hm hd).trans ?_
      rw [hdp, headerPhase_eq, hag]
    | ub => rw [hO] at h; cases h
    | fuel => rw [hO] at h; cases h
  have hs := hi.shape
  unfold dispatch at h
  cases hmo : s.mode <;> rw [hmo] at h hs
  · cases h
  · dsimp only at h hs
    have hr' : s.raw = some s.hdr := by simp [PState.raw, hs.1]
    rw [hr'] at h
    dsimp only at h
    by_cases hA : s.hdr.take 4 = [65, 77, 81, 80]
    · rw [if_pos hA] at h
      cases h4 : rd8 s.hdr 4 <;> cases h5 : rd8 s.hdr 5 <;> cases h6 : rd8 s.hdr 6 <;> cases h7 : rd8 s.hdr 7 <;>
        rw [h4, h5, h6, h7] at h <;> cases h
    · rw [if_neg hA] at h
      refine hp (by omega) (by omega) h fun a p d => ?_
      unfold dispatch
      rw [show ({ s with allocs := a, pools := p } : PState).raw = some s.hdr from hr',
        show ({ s with allocs := a, pools := p } : PState).mode = .initial from hmo]
      dsimp only
      rw [if_neg hA]
  · dsimp only at hs
    refine hp (by omega) (by omega) h fun a p d => ?_
    unfold dispatch
    rw [show ({ s with allocs := a, pools := p } : PState).mode = .header from hmo]
  · exact stuck_body hi hmo ho h he

theorem handleInput_stuck {E : PEnv} {s s' : PState} (hR : Ready s) {d : Bytes} {e : Int}
    (h : handleInput E s d = .err e s') (he : e ≠ St.NO_MEMORY) : Stuck E e s' := by
  have hd : d ≠ [] := by rintro rfl; simp [handleInput] at h
  obtain ⟨hW, hne⟩ := hR.wake
  obtain ⟨m, hr, ht, ho⟩ := hW.inv.raw
  rw [handleInput_eq hd] at h
  by_cases hfull : s.wake.target - s.wake.off ≤ d.length
  · rw [consumeData_full hr ho ht hfull] at h
    dsimp only at h
    rw [if_neg (by simp)] at h
    exact stuck_dispatch (hW.inv.at hne hr (splice_length (by simp; omega)) ho (Nat.le_refl _)) (by simpa using hne) (by simp)
      h he
  · rw [consumeData_part hr ho ht (by omega)] at h
    dsimp only at h
    rw [if_pos (by simp; omega)] at h
    cases h

/-! ### Sizes of the frame buffers -/

/-- The state a call leaves, if any. -/
def Leaves (P : PState → Prop) : Res PState (Nat × Option AFrame) → Prop
  | .ok _ s => P s
  | .err _ s => P s
  | _ => True

/-- Frame buffers asked for never exceed `fm`, and the limit stays `fm`. -/
def Bounded (fm : Nat) (s : PState) : Prop := s.frameMax = fm ∧ ∀ n ∈ s.bufLog, n ≤ fm

theorem bodyPhase_bounded (E : PEnv) {s : PState} (c fm : Nat) (h : Bounded fm s) : Leaves (Bounded fm) (bodyPhase E s c) := by
  have := bodyPhase_frame E s c
  revert this
  cases bodyPhase E s c with
  | ok p s' => obtain ⟨n, f⟩ := p; rintro ⟨_, a, p, rfl⟩; exact h
  | err e s' => rintro ⟨a, p, rfl⟩; exact h
  | ub => intro _; trivial
  | fuel => intro _; trivial

theorem consumeData_bounded {s s' : PState} {d : Bytes} {k fm : Nat} (h : Bounded fm s) (hc : consumeData s d = some (k, s')) :
    Bounded fm s' := by
  unfold consumeData at hc
  dsimp only at hc
  cases hr : s.raw with
  | none => rw [hr] at hc; cases hc
  | some m =>
    rw [hr] at hc; dsimp only at hc
    cases hp : poke m s.off (d.take (min (subWrap s.target s.off) d.length)) with
    | none => rw [hp] at hc; cases hc
    | some m' =>
      rw [hp] at hc
      simp only [Option.some.injEq, Prod.mk.injEq] at hc
      rw [← hc.2]
      exact ⟨(PState.at_frameMax s m' _).trans h.1, fun n hn => h.2 n (by
        have : (s.at m' (s.off + min (subWrap s.target s.off) d.length)).bufLog = s.bufLog := PState.at_bufLog _ _ _
        rw [← this]; exact hn)⟩

theorem contBody_bounded (E : PEnv) {s : PState} (c fm : Nat) (d : Bytes) (h : Bounded fm s) :
    Leaves (Bounded fm) (contBody E s c d) := by
  unfold contBody
  cases hc : consumeData s d with
  | none => trivial
  | some p =>
    have h' := consumeData_bounded h hc
    dsimp only
    by_cases hlt : p.2.off < p.2.target
    · rw [if_pos hlt]; exact h'
    · rw [if_neg hlt]; exact bodyPhase_bounded E _ fm h'

theorem headerPhase_bounded (E : PEnv) {s : PState} (c fm : Nat) (d : Bytes) (h : Bounded fm s) :
    Leaves (Bounded fm) (headerPhase E s c d) := by
  rw [headerPhase_eq]
  have : match headerOpen E s with
      | .ok () s' => Bounded fm s'
      | .err _ s' => Bounded fm s'
      | _ => True := by
    unfold headerOpen
    cases s.raw with
    | none => trivial
    | some raw =>
      dsimp only
      cases rd16 E.be raw 1 with
      | none => trivial
      | some ch =>
        cases rd32 E.be raw 3 with
        | none => trivial
        | some fs =>
          dsimp only
          by_cases h3 : fs.toNat ≥ 2147483647
          · rw [if_pos h3]; exact h
          rw [if_neg h3]
          by_cases h4 : s.frameMax < fs.toNat + HEADER_SIZE + FOOTER_SIZE
          · rw [if_pos h4]; exact h
          rw [if_neg h4]
          rcases hg : getPool E s ch with ⟨_ | _, s1⟩
          · dsimp only; rw [getPool_eq hg]; exact h
          dsimp only
          have e1 := getPool_eq hg
          have hf : s1.frameMax = fm := by rw [e1]; exact h.1
          have hb : ∀ n ∈ (fs.toNat + HEADER_SIZE + FOOTER_SIZE) :: s1.bufLog, n ≤ fm := by
            intro n hn
            rcases List.mem_cons.1 hn with rfl | hn
            · have := h.1; omega
            · exact h.2 n (by rw [e1] at hn; exact hn)
          by_cases h5 : E.alloc s1.allocs = true
          · rw [if_pos h5]
            cases poke ((List.range (fs.toNat + HEADER_SIZE + FOOTER_SIZE)).map (E.fresh s1.allocs)) 0
              (s1.hdr.take HEADER_SIZE) with
            | none => trivial
            | some mem => exact ⟨hf, hb⟩
          · rw [if_neg h5]; exact ⟨hf, hb⟩
  revert this
  cases headerOpen E s with
  | ok u s' => intro h'; exact contBody_bounded E c fm d h'
  | err e s' => exact id
  | ub => exact fun _ => trivial
  | fuel => exact fun _ => trivial

theorem handleInput_bounded (E : PEnv) {s : PState} (fm : Nat) (d : Bytes) (h : Bounded fm s) :
    Leaves (Bounded fm) (handleInput E s d) := by
  by_cases hd : d = []
  · subst hd; exact h
  rw [handleInput_eq hd]
  have hw : Bounded fm s.wake := by unfold PState.wake; by_cases hm : s.mode = .idle <;> simp [hm] <;> exact h
  cases hc : consumeData s.wake d with
  | none => trivial
  | some p =>
    have h' := consumeData_bounded hw hc
    dsimp only
    by_cases hlt : p.2.off < p.2.target
    · rw [if_pos hlt]; exact h'
    rw [if_neg hlt]
    unfold dispatch
    cases p.2.mode with
    | idle => trivial
    | header => exact headerPhase_bounded E _ fm _ h'
    | body => exact bodyPhase_bounded E _ fm h'
    | initial =>
      dsimp only
      cases p.2.raw with
      | none => trivial
      | some raw =>
        dsimp only
        by_cases hA : raw.take 4 = [65, 77, 81, 80]
        · rw [if_pos hA]
          cases rd8 raw 4 <;> cases rd8 raw 5 <;> cases rd8 raw 6 <;> cases rd8 raw 7 <;> first | trivial | exact h'
        · rw [if_neg hA]; exact headerPhase_bounded E _ fm _ h'

end Rmq
