import Verif.Model.Frame
import Verif.Proofs.Encode
/-!
# The frame parser: invariant, and what one call does with a longer run of bytes
-/
namespace Rmq

/-- The states the parser can be in between calls (as long as no allocation failed). -/
structure PInv (s : PState) : Prop where
  hdr : s.hdr.length = 8
  shape : match s.mode with
    | .idle => s.inb = .hdr ∧ s.off = 0 ∧ s.target = 7
    | .initial => s.inb = .hdr ∧ s.off ≤ 8 ∧ s.target = 8
    | .header => s.inb = .hdr ∧ s.off ≤ 7 ∧ s.target = 7
    | .body => ∃ m, s.inb = .pool m ∧ m.length = s.target ∧ 7 ≤ s.off ∧ s.off ≤ s.target ∧ 8 ≤ s.target ∧
        s.target ≤ s.frameMax ∧ s.target < 2147483655

/-- Ready for more input: no call has failed. -/
structure Ready (s : PState) : Prop where
  inv : PInv s
  more : s.off < s.target

theorem PInv.raw {s : PState} (h : PInv s) : ∃ m, s.raw = some m ∧ s.target ≤ m.length ∧ s.off ≤ s.target := by
  have hs := h.shape
  have hh := h.hdr
  cases hm : s.mode <;> rw [hm] at hs
  · exact ⟨s.hdr, by simp [PState.raw, hs.1], by omega, by omega⟩
  · exact ⟨s.hdr, by simp [PState.raw, hs.1], by omega, by omega⟩
  · exact ⟨s.hdr, by simp [PState.raw, hs.1], by omega, by omega⟩
  · obtain ⟨m, h1, h2, h3⟩ := hs
    exact ⟨m, by simp [PState.raw, h1], by omega, by omega⟩

theorem subWrap_of_le {a b : Nat} (h : b ≤ a) : subWrap a b = a - b := if_pos h

theorem poke_of_le {m : Bytes} {o : Nat} {bs : Bytes} (h : o + bs.length ≤ m.length) : poke m o bs = some (splice m o bs) :=
  if_pos h

theorem consumeData_eq {s : PState} {m : Bytes} (hr : s.raw = some m) (ho : s.off ≤ s.target) (ht : s.target ≤ m.length)
    (d : Bytes) : consumeData s d = some (min (s.target - s.off) d.length,
      { s.setRaw (splice m s.off (d.take (min (s.target - s.off) d.length))) with
        off := s.off + min (s.target - s.off) d.length }) := by
  unfold consumeData
  rw [subWrap_of_le ho, hr]
  dsimp only
  rw [poke_of_le (by rw [List.length_take]; omega)]

/-- The state with the current buffer's memory and offset replaced. -/
def PState.at (s : PState) (m : Bytes) (o : Nat) : PState := { s.setRaw m with off := o }

theorem PState.at_raw {s : PState} {m0 : Bytes} (hr : s.raw = some m0) (m : Bytes) (o : Nat) : (s.at m o).raw = some m := by
  unfold PState.at PState.setRaw
  unfold PState.raw at *
  cases h : s.inb <;> simp_all
theorem PState.at_at (s : PState) (m m' : Bytes) (o o' : Nat) : (s.at m o).at m' o' = s.at m' o' := by
  unfold PState.at PState.setRaw
  cases h : s.inb <;> simp [h]
@[simp] theorem PState.at_off (s : PState) (m : Bytes) (o : Nat) : (s.at m o).off = o := rfl
@[simp] theorem PState.at_target (s : PState) (m : Bytes) (o : Nat) : (s.at m o).target = s.target := by
  unfold PState.at PState.setRaw; cases s.inb <;> rfl
@[simp] theorem PState.at_mode (s : PState) (m : Bytes) (o : Nat) : (s.at m o).mode = s.mode := by
  unfold PState.at PState.setRaw; cases s.inb <;> rfl
@[simp] theorem PState.at_frameMax (s : PState) (m : Bytes) (o : Nat) : (s.at m o).frameMax = s.frameMax := by
  unfold PState.at PState.setRaw; cases s.inb <;> rfl
@[simp] theorem PState.at_bufLog (s : PState) (m : Bytes) (o : Nat) : (s.at m o).bufLog = s.bufLog := by
  unfold PState.at PState.setRaw; cases s.inb <;> rfl
@[simp] theorem PState.at_allocs (s : PState) (m : Bytes) (o : Nat) : (s.at m o).allocs = s.allocs := by
  unfold PState.at PState.setRaw; cases s.inb <;> rfl
@[simp] theorem PState.at_pools (s : PState) (m : Bytes) (o : Nat) : (s.at m o).pools = s.pools := by
  unfold PState.at PState.setRaw; cases s.inb <;> rfl

/-- Enough data: `consume_data` fills up to the target. -/
theorem consumeData_full {s : PState} {m : Bytes} (hr : s.raw = some m) (ho : s.off ≤ s.target) (ht : s.target ≤ m.length)
    {d : Bytes} (hd : s.target - s.off ≤ d.length) :
    consumeData s d = some (s.target - s.off, s.at (splice m s.off (d.take (s.target - s.off))) s.target) := by
  rw [consumeData_eq hr ho ht, Nat.min_eq_left hd, PState.at, Nat.add_sub_cancel' ho]

/-- Not enough data: all of it is taken. -/
theorem consumeData_part {s : PState} {m : Bytes} (hr : s.raw = some m) (ho : s.off ≤ s.target) (ht : s.target ≤ m.length)
    {d : Bytes} (hd : d.length ≤ s.target - s.off) :
    consumeData s d = some (d.length, s.at (splice m s.off d) (s.off + d.length)) := by
  rw [consumeData_eq hr ho ht, Nat.min_eq_right hd, List.take_length, PState.at]

theorem consumeData_append_full {s : PState} {m : Bytes} (hr : s.raw = some m) (ho : s.off ≤ s.target)
    (ht : s.target ≤ m.length) {a : Bytes} (b : Bytes) (hd : s.target - s.off ≤ a.length) :
    consumeData s (a ++ b) = consumeData s a := by
  rw [consumeData_full hr ho ht hd, consumeData_full hr ho ht (by rw [List.length_append]; omega),
    List.take_append_of_le_length hd]

/-- When the first part does not reach the target, taking both at once is taking one after the other. -/
theorem consumeData_append_part {s : PState} {m : Bytes} (hr : s.raw = some m) (ho : s.off ≤ s.target)
    (ht : s.target ≤ m.length) {a : Bytes} (b : Bytes) (hd : a.length < s.target - s.off) :
    consumeData s (a ++ b) = (consumeData (s.at (splice m s.off a) (s.off + a.length)) b).map
      fun p => (a.length + p.1, p.2) := by
  have hr' := PState.at_raw hr (splice m s.off a) (s.off + a.length)
  have hl : (splice m s.off a).length = m.length := splice_length (by omega)
  by_cases hb : b.length ≤ s.target - (s.off + a.length)
  · rw [consumeData_part hr ho ht (by rw [List.length_append]; omega),
      consumeData_part hr' (by simp; omega) (by simpa [hl] using ht) (by simpa using hb)]
    simp only [Option.map_some, PState.at_at, PState.at_off, List.length_append]
    rw [splice_splice (by omega), Nat.add_assoc]
  · rw [consumeData_full hr ho ht (by rw [List.length_append]; omega),
      consumeData_full hr' (by simp; omega) (by simpa [hl] using ht) (by simp; omega)]
    simp only [Option.map_some, PState.at_at, PState.at_off, PState.at_target]
    rw [splice_splice (by omega)]
    have e : (a ++ b).take (s.target - s.off) = a ++ b.take (s.target - (s.off + a.length)) := by
      rw [List.take_append, List.take_of_length_le (by omega)]
      congr 2; omega
    rw [e]
    have e2 : s.target - s.off = a.length + (s.target - (s.off + a.length)) := by omega
    rw [← e2]

/-! ### The phases do not look at `consumed` -/

/-- Add to the number of bytes consumed. -/
def addC (c : Nat) : Res PState (Nat × Option AFrame) → Res PState (Nat × Option AFrame)
  | .ok (n, f) s => .ok (c + n, f) s
  | .err e s => .err e s
  | .ub => .ub
  | .fuel => .fuel

theorem bodyPhase_addC (E : PEnv) (s : PState) (c k : Nat) : bodyPhase E s (c + k) = addC c (bodyPhase E s k) := by
  unfold bodyPhase
  repeat' first
    | rfl
    | (split <;> try rfl)

/-- Continue receiving a frame body. -/
def contBody (E : PEnv) (s : PState) (c : Nat) (data : Bytes) : Res PState (Nat × Option AFrame) :=
  match consumeData s data with
  | none => .ub
  | some (k, s) => if s.off < s.target then .ok (c + k, none) s else bodyPhase E s (c + k)

theorem contBody_addC (E : PEnv) (s : PState) (c k : Nat) (d : Bytes) : contBody E s (c + k) d = addC c (contBody E s k d) := by
  unfold contBody
  cases consumeData s d with
  | none => rfl
  | some p =>
    dsimp only
    by_cases h : p.2.off < p.2.target
    · rw [if_pos h, if_pos h]; simp [addC, Nat.add_assoc]
    · rw [if_neg h, if_neg h, Nat.add_assoc, bodyPhase_addC]

theorem contBody_full {E : PEnv} {s : PState} {m : Bytes} (hr : s.raw = some m) (ho : s.off ≤ s.target)
    (ht : s.target ≤ m.length) (c : Nat) {a : Bytes} (b : Bytes) (hd : s.target - s.off ≤ a.length) :
    contBody E s c (a ++ b) = contBody E s c a := by
  unfold contBody; rw [consumeData_append_full hr ho ht b hd]

theorem contBody_part {E : PEnv} {s : PState} {m : Bytes} (hr : s.raw = some m) (ho : s.off ≤ s.target)
    (ht : s.target ≤ m.length) (c : Nat) {a : Bytes} (hd : a.length < s.target - s.off) :
    contBody E s c a = .ok (c + a.length, none) (s.at (splice m s.off a) (s.off + a.length)) ∧
    ∀ b, contBody E s c (a ++ b) = contBody E (s.at (splice m s.off a) (s.off + a.length)) (c + a.length) b := by
  constructor
  · unfold contBody
    rw [consumeData_part hr ho ht (by omega)]
    dsimp only
    rw [if_pos (by simp; omega)]
  · intro b
    unfold contBody
    rw [consumeData_append_part hr ho ht b hd]
    cases consumeData (s.at (splice m s.off a) (s.off + a.length)) b with
    | none => rfl
    | some p => simp [Nat.add_assoc]

/-- `CONNECTION_STATE_HEADER` up to the second `consume_data`. -/
def headerOpen (E : PEnv) (s : PState) : Res PState Unit :=
  match s.raw with
  | none => .ub
  | some raw =>
  match rd16 E.be raw 1, rd32 E.be raw 3 with
  | some ch, some fs =>
    if fs.toNat ≥ 2147483647 then .err St.BAD_AMQP_DATA s
    else
      if s.frameMax < fs.toNat + HEADER_SIZE + FOOTER_SIZE then .err St.BAD_AMQP_DATA s
      else
        match getPool E s ch with
        | (false, s) => .err St.NO_MEMORY s
        | (true, s) =>
          if E.alloc s.allocs then
            match poke ((List.range (fs.toNat + HEADER_SIZE + FOOTER_SIZE)).map (E.fresh s.allocs)) 0
                (s.hdr.take HEADER_SIZE) with
            | none => .ub
            | some mem =>
              .ok () { s with
                allocs := s.allocs + 1
                inb := .pool mem
                mode := .body
                target := fs.toNat + HEADER_SIZE + FOOTER_SIZE
                bufLog := (fs.toNat + HEADER_SIZE + FOOTER_SIZE) :: s.bufLog }
          else
            .err St.NO_MEMORY { s with
              allocs := s.allocs + 1
              inb := .null
              bufLog := (fs.toNat + HEADER_SIZE + FOOTER_SIZE) :: s.bufLog }
  | _, _ => .ub

theorem headerPhase_eq (E : PEnv) (s : PState) (c : Nat) (rest : Bytes) :
    headerPhase E s c rest = match headerOpen E s with
      | .ok () s' => contBody E s' c rest
      | .err e s' => .err e s'
      | .ub => .ub
      | .fuel => .fuel := by
  unfold headerPhase headerOpen contBody
  cases s.raw with
  | none => rfl
  | some raw =>
    dsimp only
    cases rd16 E.be raw 1 with
    | none => rfl
    | some ch =>
      cases rd32 E.be raw 3 with
      | none => rfl
      | some fs =>
        dsimp only
        by_cases h1 : fs.toNat ≥ 2147483647
        · rw [if_pos h1, if_pos h1]
        rw [if_neg h1, if_neg h1]
        by_cases h2 : s.frameMax < fs.toNat + HEADER_SIZE + FOOTER_SIZE
        · rw [if_pos h2, if_pos h2]
        rw [if_neg h2, if_neg h2]
        rcases getPool E s ch with ⟨_ | _, s'⟩
        · rfl
        dsimp only
        by_cases h3 : E.alloc s'.allocs = true
        · rw [if_pos h3, if_pos h3]
          cases poke _ 0 (s'.hdr.take HEADER_SIZE) <;> rfl
        · rw [if_neg h3, if_neg h3]

theorem getPool_fields (E : PEnv) (s : PState) (ch : UInt16) :
    (getPool E s ch).2 = { s with allocs := (getPool E s ch).2.allocs, pools := (getPool E s ch).2.pools } := by
  unfold getPool
  by_cases h : ch ∈ s.pools
  · rw [if_pos h]
  · rw [if_neg h]
    by_cases h2 : E.alloc s.allocs = true
    · rw [if_pos h2]
    · rw [if_neg h2]

theorem getPool_eq {E : PEnv} {s s' : PState} {ch : UInt16} {b : Bool} (h : getPool E s ch = (b, s')) :
    s' = { s with allocs := s'.allocs, pools := s'.pools } := by
  have := getPool_fields E s ch; rw [h] at this; exact this

/-- What `headerOpen` leaves when it succeeds, from a state whose header buffer is filled. -/
theorem headerOpen_ok {E : PEnv} {s s' : PState} (hh : s.hdr.length = 8) (h : headerOpen E s = .ok () s') :
    s'.hdr = s.hdr ∧ s'.off = s.off ∧ s'.frameMax = s.frameMax ∧ s'.mode = .body ∧ 8 ≤ s'.target ∧
    s'.target ≤ s'.frameMax ∧ s'.target < 2147483655 ∧ (∃ m, s'.inb = .pool m ∧ m.length = s'.target) := by
  unfold headerOpen at h
  cases hr : s.raw with
  | none => rw [hr] at h; cases h
  | some raw =>
    rw [hr] at h; dsimp only at h
    cases h1 : rd16 E.be raw 1 with
    | none => rw [h1] at h; cases h
    | some ch =>
      cases h2 : rd32 E.be raw 3 with
      | none => rw [h1, h2] at h; cases h
      | some fs =>
        rw [h1, h2] at h; dsimp only at h
        by_cases h3 : fs.toNat ≥ 2147483647
        · rw [if_pos h3] at h; cases h
        rw [if_neg h3] at h
        by_cases h4 : s.frameMax < fs.toNat + HEADER_SIZE + FOOTER_SIZE
        · rw [if_pos h4] at h; cases h
        rw [if_neg h4] at h
        rcases hg : getPool E s ch with ⟨_ | _, s1⟩
        · rw [hg] at h; cases h
        rw [hg] at h; dsimp only at h
        have e1 := getPool_eq hg
        by_cases h5 : E.alloc s1.allocs = true
        · rw [if_pos h5] at h
          have hh1 : s1.hdr = s.hdr := by rw [e1]
          rw [poke_of_le (by simp [hh1, hh, HEADER_SIZE, FOOTER_SIZE])] at h
          simp only [Res.ok.injEq, true_and] at h
          subst h
          have hf : s1.frameMax = s.frameMax := by rw [e1]
          simp only [HEADER_SIZE, FOOTER_SIZE] at *
          refine ⟨hh1, by rw [e1], hf, trivial, by omega, by omega, by omega, _, rfl, ?_⟩
          rw [splice_length (by simp [hh1, hh])]
          simp
        · rw [if_neg h5] at h; cases h

theorem headerPhase_addC (E : PEnv) (s : PState) (c k : Nat) (d : Bytes) :
    headerPhase E s (c + k) d = addC c (headerPhase E s k d) := by
  rw [headerPhase_eq, headerPhase_eq]
  cases headerOpen E s with
  | ok a s' => exact contBody_addC E s' c k d
  | err e s' => rfl
  | ub => rfl
  | fuel => rfl

/-- The `switch (state->state)` of amqp_handle_input. -/
def dispatch (E : PEnv) (s : PState) (k : Nat) (rest : Bytes) : Res PState (Nat × Option AFrame) :=
  match s.mode with
  | .initial =>
    match s.raw with
    | none => .ub
    | some raw =>
      if raw.take 4 = [65, 77, 81, 80] then
        match rd8 raw 4, rd8 raw 5, rd8 raw 6, rd8 raw 7 with
        | some a, some b, some c, some d => .ok (k, some ⟨0, .protocolHeader a b c d⟩) s.idle
        | _, _, _, _ => .ub
      else headerPhase E s k rest
  | .header => headerPhase E s k rest
  | .body => bodyPhase E s k
  | .idle => .ub

/-- IDLE becomes HEADER. -/
def PState.wake (s : PState) : PState := if s.mode = .idle then { s with mode := .header } else s

theorem handleInput_eq {E : PEnv} {s : PState} {data : Bytes} (hd : data ≠ []) :
    handleInput E s data = match consumeData s.wake data with
      | none => .ub
      | some (k, s') => if s'.off < s'.target then .ok (k, none) s' else dispatch E s' k (data.drop k) := by
  unfold handleInput
  rw [if_neg (by simpa using hd)]
  rfl

theorem dispatch_addC (E : PEnv) (s : PState) (c k : Nat) (d : Bytes) :
    dispatch E s (c + k) d = addC c (dispatch E s k d) := by
  unfold dispatch
  cases s.mode with
  | idle => rfl
  | header => exact headerPhase_addC E s c k d
  | body => exact bodyPhase_addC E s c k
  | initial =>
    dsimp only
    cases s.raw with
    | none => rfl
    | some raw =>
      dsimp only
      by_cases h : raw.take 4 = [65, 77, 81, 80]
      · rw [if_pos h, if_pos h]
        cases rd8 raw 4 <;> cases rd8 raw 5 <;> cases rd8 raw 6 <;> cases rd8 raw 7 <;> rfl
      · rw [if_neg h, if_neg h]; exact headerPhase_addC E s c k d

theorem Ready.wake {s : PState} (h : Ready s) : Ready s.wake ∧ s.wake.mode ≠ .idle := by
  unfold PState.wake
  by_cases hm : s.mode = .idle
  · rw [if_pos hm]
    have hs := h.inv.shape
    rw [hm] at hs
    exact ⟨⟨⟨h.inv.hdr, hs.1, by simp [hs.2.1], hs.2.2⟩, h.more⟩, by simp⟩
  · rw [if_neg hm]; exact ⟨h, hm⟩

theorem wake_of_ne {s : PState} (h : s.mode ≠ .idle) : s.wake = s := if_neg h

/-- Moving on inside the current buffer keeps the invariant. -/
theorem PInv.at {s : PState} (h : PInv s) (hm : s.mode ≠ .idle) {m m' : Bytes} (hr : s.raw = some m)
    (hl : m'.length = m.length) {o : Nat} (ho : s.off ≤ o) (ht : o ≤ s.target) : PInv (s.at m' o) := by
  have hs := h.shape
  have hh := h.hdr
  unfold PState.raw at hr
  unfold PState.at PState.setRaw
  cases hmo : s.mode <;> rw [hmo] at hs
  · exact absurd hmo hm
  · rw [hs.1] at hr ⊢
    cases hr
    exact ⟨by simp [hl, hh], by simp [hmo, hs.1]; omega⟩
  · rw [hs.1] at hr ⊢
    cases hr
    exact ⟨by simp [hl, hh], by simp [hmo, hs.1]; omega⟩
  · obtain ⟨m0, h1, h2⟩ := hs
    rw [h1] at hr ⊢
    cases hr
    exact ⟨hh, by simp [hmo]; omega⟩

theorem ready_idle {s : PState} (h : s.hdr.length = 8) : Ready s.idle :=
  ⟨⟨h, rfl, rfl, rfl⟩, by simp [PState.idle, HEADER_SIZE]⟩

/-- What a completed (or refused) frame does to the state: only allocation bookkeeping, and the return to idle. -/
theorem bodyPhase_frame (E : PEnv) (s : PState) (c : Nat) :
    match bodyPhase E s c with
    | .ok (n, _) s' => n = c ∧ ∃ a p, s' = { s with allocs := a, pools := p }.idle
    | .err _ s' => ∃ a p, s' = { s with allocs := a, pools := p }
    | .ub => True
    | .fuel => True := by
  unfold bodyPhase
  cases hr : s.raw with
  | none => trivial
  | some raw =>
    dsimp only
    cases rd8 raw (subWrap s.target 1) with
    | none => trivial
    | some fend =>
      dsimp only
      by_cases h1 : fend ≠ FRAME_END
      · rw [if_pos h1]; exact ⟨s.allocs, s.pools, rfl⟩
      rw [if_neg h1]
      cases rd8 raw 0 with
      | none => trivial
      | some ty =>
        cases rd16 E.be raw 1 with
        | none => trivial
        | some ch =>
          dsimp only
          rcases hg : getPool E s ch with ⟨_ | _, s1⟩
          · exact ⟨_, _, getPool_eq hg⟩
          have e1 := getPool_eq hg
          dsimp only
          have key : ∀ a, { s1 with allocs := a } = { s with allocs := a, pools := s1.pools } := by
            intro a; rw [e1]
          by_cases h2 : ty = 1
          · rw [if_pos h2]
            cases rd32 E.be raw HEADER_SIZE with
            | none => trivial
            | some id =>
              dsimp only
              cases decMethod _ id s1.allocs with
              | ok args d => exact ⟨rfl, d.allocs, s1.pools, by rw [key]⟩
              | err e d => exact ⟨_, _, key _⟩
              | ub => trivial
              | fuel => trivial
          rw [if_neg h2]
          by_cases h3 : ty = 2
          · rw [if_pos h3]
            cases rd16 E.be raw HEADER_SIZE with
            | none => trivial
            | some cls =>
              cases rd64 E.be raw (HEADER_SIZE + 4) with
              | none => trivial
              | some size =>
                dsimp only
                cases decProperties _ cls s1.allocs with
                | ok v d => exact ⟨rfl, d.allocs, s1.pools, by rw [key]⟩
                | err e d => exact ⟨_, _, key _⟩
                | ub => trivial
                | fuel => trivial
          rw [if_neg h3]
          by_cases h4 : ty = 3
          · rw [if_pos h4]
            cases readAt raw HEADER_SIZE _ with
            | none => trivial
            | some b => exact ⟨rfl, s1.allocs, s1.pools, congrArg PState.idle (key s1.allocs)⟩
          rw [if_neg h4]
          by_cases h5 : ty = 8
          · rw [if_pos h5]; exact ⟨rfl, s1.allocs, s1.pools, congrArg PState.idle (key s1.allocs)⟩
          · rw [if_neg h5]; exact ⟨rfl, s1.allocs, s1.pools, congrArg PState.idle (key s1.allocs)⟩

theorem bodyPhase_ok {E : PEnv} {s s' : PState} {c n : Nat} {f : Option AFrame} (h : bodyPhase E s c = .ok (n, f) s') :
    n = c ∧ ∃ a p, s' = { s with allocs := a, pools := p }.idle := by
  have := bodyPhase_frame E s c; rw [h] at this; exact this

theorem bodyPhase_err {E : PEnv} {s s' : PState} {c : Nat} {e : Int} (h : bodyPhase E s c = .err e s') :
    ∃ a p, s' = { s with allocs := a, pools := p } := by
  have := bodyPhase_frame E s c; rw [h] at this; exact this

theorem contBody_ready {E : PEnv} {s s' : PState} (hi : PInv s) (hm : s.mode = .body) {c n : Nat} {d : Bytes}
    {f : Option AFrame} (h : contBody E s c d = .ok (n, f) s') : Ready s' ∧ c ≤ n ∧ n ≤ c + d.length := by
  obtain ⟨m, hr, ht, ho⟩ := hi.raw
  have hne : s.mode ≠ .idle := by rw [hm]; simp
  unfold contBody at h
  by_cases hd : s.target - s.off ≤ d.length
  · rw [consumeData_full hr ho ht hd] at h
    dsimp only at h
    rw [if_neg (by simp)] at h
    obtain ⟨rfl, a, p, rfl⟩ := bodyPhase_ok h
    refine ⟨ready_idle ?_, by omega, by omega⟩
    have := (hi.at hne hr (m' := splice m s.off (d.take (s.target - s.off))) (splice_length (by simp; omega)) ho
      (Nat.le_refl _)).hdr
    exact this
  · rw [consumeData_part hr ho ht (by omega)] at h
    dsimp only at h
    rw [if_pos (by simp; omega)] at h
    simp only [Res.ok.injEq, Prod.mk.injEq] at h
    obtain ⟨⟨rfl, rfl⟩, rfl⟩ := h
    exact ⟨⟨hi.at hne hr (splice_length (by omega)) (by omega) (by omega), by simp; omega⟩, by omega, by omega⟩

/-- After a successful `headerOpen` the state is a body state. -/
theorem headerOpen_inv {E : PEnv} {s s' : PState} (hi : PInv s) (ho : 7 ≤ s.off) (ho' : s.off ≤ 8)
    (h : headerOpen E s = .ok () s') : PInv s' ∧ s'.mode = .body := by
  obtain ⟨h1, h2, h3, h4, h5, h6, h7, m, h8, h9⟩ := headerOpen_ok hi.hdr h
  refine ⟨⟨by rw [h1]; exact hi.hdr, ?_⟩, h4⟩
  rw [h4]
  exact ⟨m, h8, h9, by omega, by omega, h5, h6, h7⟩

theorem dispatch_ready {E : PEnv} {s s' : PState} (hi : PInv s) (hf : s.off = s.target) {c n : Nat} {d : Bytes}
    {f : Option AFrame} (h : dispatch E s c d = .ok (n, f) s') : Ready s' ∧ c ≤ n ∧ n ≤ c + d.length := by
  have hp : ∀ {n f s'}, 7 ≤ s.off → s.off ≤ 8 → headerPhase E s c d = .ok (n, f) s' →
      Ready s' ∧ c ≤ n ∧ n ≤ c + d.length := by
    intro n f s' h7 h8 h
    rw [headerPhase_eq] at h
    cases hO : headerOpen E s with
    | ok u s2 =>
      rw [hO] at h
      obtain ⟨hi2, hm2⟩ := headerOpen_inv hi h7 h8 hO
      exact contBody_ready hi2 hm2 h
    | err e s2 => rw [hO] at h; cases h
    | ub => rw [hO] at h; cases h
    | fuel => rw [hO] at h; cases h
  have hs := hi.shape
  unfold dispatch at h
  cases hm : s.mode <;> rw [hm] at h hs
  · cases h
  · dsimp only at h hs
    have hr : s.raw = some s.hdr := by simp [PState.raw, hs.1]
    rw [hr] at h
    dsimp only at h
    by_cases hA : s.hdr.take 4 = [65, 77, 81, 80]
    · rw [if_pos hA] at h
      cases h4 : rd8 s.hdr 4 <;> cases h5 : rd8 s.hdr 5 <;> cases h6 : rd8 s.hdr 6 <;> cases h7 : rd8 s.hdr 7 <;>
        rw [h4, h5, h6, h7] at h <;> try cases h
      exact ⟨ready_idle hi.hdr, by omega, by omega⟩
    · rw [if_neg hA] at h
      exact hp (by omega) (by omega) h
  · exact hp (by dsimp only at hs; omega) (by dsimp only at hs; omega) h
  · obtain ⟨rfl, a, p, rfl⟩ := bodyPhase_ok h
    exact ⟨ready_idle hi.hdr, by omega, by omega⟩

/-- One call on a ready parser: it stays ready, and takes at least one byte. -/
theorem handleInput_ready {E : PEnv} {s s' : PState} (hR : Ready s) {d : Bytes} (hd : d ≠ []) {n : Nat} {f : Option AFrame}
    (h : handleInput E s d = .ok (n, f) s') : Ready s' ∧ 1 ≤ n ∧ n ≤ d.length := by
  have hl : 1 ≤ d.length := by cases d with | nil => exact absurd rfl hd | cons _ _ => simp
  obtain ⟨hW, hne⟩ := hR.wake
  obtain ⟨m, hr, ht, ho⟩ := hW.inv.raw
  have hmore := hW.more
  rw [handleInput_eq hd] at h
  by_cases hfull : s.wake.target - s.wake.off ≤ d.length
  · rw [consumeData_full hr ho ht hfull] at h
    dsimp only at h
    rw [if_neg (by simp)] at h
    have hi := hW.inv.at hne hr (m' := splice m s.wake.off (d.take (s.wake.target - s.wake.off)))
      (splice_length (by simp; omega)) ho (Nat.le_refl _)
    obtain ⟨h1, h2, h3⟩ := dispatch_ready hi (by simp) h
    rw [List.length_drop] at h3
    exact ⟨h1, by omega, by omega⟩
  · rw [consumeData_part hr ho ht (by omega)] at h
    dsimp only at h
    rw [if_pos (by simp; omega)] at h
    simp only [Res.ok.injEq, Prod.mk.injEq] at h
    obtain ⟨⟨rfl, rfl⟩, rfl⟩ := h
    exact ⟨⟨hW.inv.at hne hr (splice_length (by omega)) (by omega) (by omega), by simp; omega⟩, by omega, by omega⟩

theorem addC_addC (a b : Nat) (r : Res PState (Nat × Option AFrame)) : addC a (addC b r) = addC (a + b) r := by
  cases r with
  | ok p s => simp [addC, Nat.add_assoc]
  | err e s => rfl
  | ub => rfl
  | fuel => rfl

/-- The split lemma: the bytes `a` either leave the parser in the middle of a frame, all taken, and then more bytes continue
exactly as if they had come in the same call; or they already decide the outcome of the call. -/
theorem handleInput_split (E : PEnv) {s : PState} (hR : Ready s) {a : Bytes} (ha : a ≠ []) :
    (∃ s', handleInput E s a = .ok (a.length, none) s' ∧ Ready s' ∧ s'.mode ≠ .idle ∧
      ∀ b, b ≠ [] → handleInput E s (a ++ b) = addC a.length (handleInput E s' b)) ∨
    (∀ b, handleInput E s (a ++ b) = handleInput E s a) := by
  obtain ⟨hW, hne⟩ := hR.wake
  obtain ⟨m, hr, ht, ho⟩ := hW.inv.raw
  have hmore := hW.more
  have hab : ∀ b, a ++ b ≠ [] := fun b h => ha (List.append_eq_nil_iff.1 h).1
  by_cases hfull : s.wake.target - s.wake.off ≤ a.length
  · -- the current target is reached within `a`
    have hi := hW.inv.at hne hr (m' := splice m s.wake.off (a.take (s.wake.target - s.wake.off)))
      (splice_length (by simp; omega)) ho (Nat.le_refl _)
    have hstep : ∀ b, handleInput E s (a ++ b) = dispatch E
        (s.wake.at (splice m s.wake.off (a.take (s.wake.target - s.wake.off))) s.wake.target)
        (s.wake.target - s.wake.off) (a.drop (s.wake.target - s.wake.off) ++ b) := by
      intro b
      rw [handleInput_eq (hab b), consumeData_append_full hr ho ht b hfull, consumeData_full hr ho ht hfull]
      dsimp only
      rw [if_neg (by simp), List.drop_append_of_le_length hfull]
    have hstep0 := hstep []
    rw [List.append_nil, List.append_nil] at hstep0
    generalize hsf : s.wake.at (splice m s.wake.off (a.take (s.wake.target - s.wake.off))) s.wake.target = sf at *
    generalize hk : s.wake.target - s.wake.off = k at *
    have hfo : sf.off = sf.target := by rw [← hsf]; simp
    -- the header phase
    have hp : 7 ≤ sf.off → sf.off ≤ 8 → (∀ d, dispatch E sf k d = headerPhase E sf k d) →
        ((∃ s', handleInput E s a = .ok (a.length, none) s' ∧ Ready s' ∧ s'.mode ≠ .idle ∧
          ∀ b, b ≠ [] → handleInput E s (a ++ b) = addC a.length (handleInput E s' b)) ∨
        (∀ b, handleInput E s (a ++ b) = handleInput E s a)) := by
      intro h7 h8 hdp
      cases hO : headerOpen E sf with
      | ok u s2 =>
        obtain ⟨hi2, hm2⟩ := headerOpen_inv hi h7 h8 hO
        obtain ⟨m2, hr2, ht2, ho2⟩ := hi2.raw
        have hH : ∀ d, headerPhase E sf k d = contBody E s2 k d := fun d => by rw [headerPhase_eq, hO]
        by_cases hd : s2.target - s2.off ≤ (a.drop k).length
        · right; intro b
          rw [hstep, hstep0, hdp, hdp, hH, hH, contBody_full hr2 ho2 ht2 k b hd]
        · left
          obtain ⟨hc1, hc2⟩ := contBody_part (E := E) hr2 ho2 ht2 k (a := a.drop k) (by omega)
          have hka : k + (a.drop k).length = a.length := by rw [List.length_drop]; omega
          have hne2 : s2.mode ≠ .idle := by rw [hm2]; simp
          have hl2 : (splice m2 s2.off (a.drop k)).length = m2.length := splice_length (by omega)
          have hR2 : Ready (s2.at (splice m2 s2.off (a.drop k)) (s2.off + (a.drop k).length)) :=
            ⟨hi2.at hne2 hr2 hl2 (by omega) (by omega), by simp; omega⟩
          refine ⟨_, by rw [hstep0, hdp, hH, hc1, hka], hR2, by simpa using hne2, ?_⟩
          intro b hb
          rw [hstep, hdp, hH, hc2, hka]
          conv => lhs; rw [← Nat.add_zero a.length]
          rw [contBody_addC]
          congr 1
          rw [handleInput_eq hb, wake_of_ne (by simpa using hne2)]
          unfold contBody dispatch
          cases hcd : consumeData (s2.at (splice m2 s2.off (a.drop k)) (s2.off + (a.drop k).length)) b with
          | none => rfl
          | some p =>
            have hmode : p.2.mode = .body := by
              rw [consumeData_eq (PState.at_raw hr2 _ _) (by simp; omega) (by rw [hl2]; simpa using ht2)] at hcd
              simp only [Option.some.injEq] at hcd
              rw [← hcd]
              exact (PState.at_mode _ _ 0).trans ((PState.at_mode _ _ _).trans hm2)
            simp only [hmode, Nat.zero_add]
      | err e s2 => right; intro b; rw [hstep, hstep0, hdp, hdp, headerPhase_eq, headerPhase_eq, hO]
      | ub => right; intro b; rw [hstep, hstep0, hdp, hdp, headerPhase_eq, headerPhase_eq, hO]
      | fuel => right; intro b; rw [hstep, hstep0, hdp, hdp, headerPhase_eq, headerPhase_eq, hO]
    have hs := hi.shape
    cases hm : sf.mode <;> rw [hm] at hs
    · have : sf.mode = s.wake.mode := by rw [← hsf]; simp
      exact absurd (this ▸ hm) hne
    · dsimp only at hs
      have hrf : sf.raw = some sf.hdr := by simp [PState.raw, hs.1]
      by_cases hA : sf.hdr.take 4 = [65, 77, 81, 80]
      · right; intro b
        rw [hstep, hstep0]
        unfold dispatch
        rw [hm, hrf]
        dsimp only
        rw [if_pos hA, if_pos hA]
      · refine hp (by omega) (by omega) fun d => ?_
        unfold dispatch
        rw [hm, hrf]
        dsimp only
        rw [if_neg hA]
    · dsimp only at hs
      exact hp (by omega) (by omega) fun d => by unfold dispatch; rw [hm]
    · right; intro b
      rw [hstep, hstep0]
      unfold dispatch
      rw [hm]
  · left
    have hl : (splice m s.wake.off a).length = m.length := splice_length (by omega)
    refine ⟨s.wake.at (splice m s.wake.off a) (s.wake.off + a.length), ?_,
      ⟨hW.inv.at hne hr hl (by omega) (by omega), by simp; omega⟩, by simpa using hne, ?_⟩
    · rw [handleInput_eq ha, consumeData_part hr ho ht (by omega)]
      dsimp only
      rw [if_pos (by simp; omega)]
    · intro b hb
      rw [handleInput_eq (hab b), handleInput_eq hb,
        wake_of_ne (s := s.wake.at (splice m s.wake.off a) (s.wake.off + a.length)) (by simpa using hne),
        consumeData_append_part hr ho ht b (by omega)]
      cases consumeData (s.wake.at (splice m s.wake.off a) (s.wake.off + a.length)) b with
      | none => rfl
      | some p =>
        simp only [Option.map_some]
        by_cases hlt : p.2.off < p.2.target
        · rw [if_pos hlt, if_pos hlt]; rfl
        · rw [if_neg hlt, if_neg hlt, dispatch_addC]
          congr 2
          rw [List.drop_append, List.drop_of_length_le (by omega), List.nil_append]
          congr 1; omega

end Rmq
