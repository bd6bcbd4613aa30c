import Verif.Proofs.FrameSticky
import Verif.Proofs.FrameEnc
/-! Live receivers; the first frame of a connection; frames in a stream. -/
namespace Rmq

theorem Live.ready {E : PEnv} {s : PState} (h : Live E s) : Ready s := by
  induction h with
  | new fm => exact ⟨⟨rfl, rfl, by simp [newParser], rfl⟩, by simp [newParser]⟩
  | @call s s' d r _ hc ih =>
    by_cases hd : d = []
    · subst hd; simp [handleInput] at hc; rw [← hc.2]; exact ih
    · exact (handleInput_ready ih hd hc).1
  | @tune s fm _ hm ih =>
    have hs := ih.inv.shape
    rw [hm] at hs
    refine ⟨⟨ih.inv.hdr, ?_⟩, ih.more⟩
    show match s.mode with | .idle => _ | .initial => _ | .header => _ | .body => _
    rw [hm]; exact hs
  | @used s a p _ ih => exact ⟨⟨ih.inv.hdr, ih.inv.shape⟩, ih.more⟩

/-- `handleInput` on an idle receiver once the header octets are there. -/
theorem handleInput_hdr (E : PEnv) {s : PState} (hR : Ready s) (hm : s.mode = .idle) (ty : UInt8) (ch : UInt16) (n : Nat)
    (rest : Bytes) : ∃ t : PState, t.inb = .hdr ∧ t.hdr = frameHdr ty ch n ++ s.hdr.drop 7 ∧ t.frameMax = s.frameMax ∧
      t.bufLog = s.bufLog ∧ t.allocs = s.allocs ∧ t.pools = s.pools ∧ t.off = 7 ∧ t.mode = .header ∧
      handleInput E s (frameHdr ty ch n ++ rest) = headerPhase E t 7 rest := by
  have hne : frameHdr ty ch n ++ rest ≠ [] := by
    intro h; have := congrArg List.length h; simp [frameHdr_length] at this
  have hs := hR.inv.shape
  rw [hm] at hs
  obtain ⟨hi, ho, ht⟩ := hs
  have hw : s.wake = { s with mode := .header } := by unfold PState.wake; rw [if_pos hm]
  have h8 := hR.inv.hdr
  refine ⟨{ s with mode := .header, hdr := frameHdr ty ch n ++ s.hdr.drop 7, off := 7 }, hi, rfl, rfl, rfl, rfl, rfl, rfl, rfl,
    ?_⟩
  rw [handleInput_eq hne, hw]
  rw [consumeData_full (s := { s with mode := .header }) (m := s.hdr) (by simp [PState.raw, hi]) (by simp [ho])
    (by simp [ht, h8]) (by simp [ht, ho, frameHdr_length])]
  have e1 : (frameHdr ty ch n ++ rest).take 7 = frameHdr ty ch n := by
    rw [List.take_append_of_le_length (by simp [frameHdr_length]), List.take_of_length_le (by simp [frameHdr_length])]
  have e2 : (frameHdr ty ch n ++ rest).drop 7 = rest := by
    rw [List.drop_append, List.drop_of_length_le (by simp [frameHdr_length])]; simp [frameHdr_length]
  simp only [ho, ht, Nat.sub_zero, e1, e2]
  rw [if_neg (by simp [ht])]
  unfold dispatch
  simp only [PState.at_mode]
  congr 1
  simp [PState.at, PState.setRaw, hi, splice, frameHdr_length]

theorem payloadPhase_hdr_indep (E : PEnv) (s : PState) (h : Bytes) (o : Nat) (ch : UInt16) (ty : UInt8) (p : Bytes) (c c' : Nat) :
    (payloadPhase E { s with hdr := h, off := o } ch ty p c).errCode? = (payloadPhase E s ch ty p c').errCode? ∧
    (payloadPhase E { s with hdr := h, off := o } ch ty p c).isUB = (payloadPhase E s ch ty p c').isUB ∧
    (payloadPhase E { s with hdr := h, off := o } ch ty p c).val?.map (·.2) = (payloadPhase E s ch ty p c').val?.map (·.2) := by
  unfold payloadPhase
  by_cases t1 : ty = 1
  · rw [if_pos t1, if_pos t1]
    cases rd32 E.be (p ++ [FRAME_END]) 0 with
    | none => exact ⟨rfl, rfl, rfl⟩
    | some id =>
      dsimp only
      cases decMethod _ id s.allocs <;> exact ⟨rfl, rfl, rfl⟩
  rw [if_neg t1, if_neg t1]
  by_cases t2 : ty = 2
  · rw [if_pos t2, if_pos t2]
    cases rd16 E.be (p ++ [FRAME_END]) 0 with
    | none => exact ⟨rfl, rfl, rfl⟩
    | some cls =>
      cases rd64 E.be (p ++ [FRAME_END]) 4 with
      | none => exact ⟨rfl, rfl, rfl⟩
      | some size =>
        dsimp only
        cases decProperties _ cls s.allocs <;> exact ⟨rfl, rfl, rfl⟩
  rw [if_neg t2, if_neg t2]
  by_cases t3 : ty = 3
  · rw [if_pos t3, if_pos t3]; exact ⟨rfl, rfl, rfl⟩
  rw [if_neg t3, if_neg t3]
  by_cases t4 : ty = 8
  · rw [if_pos t4, if_pos t4]; exact ⟨rfl, rfl, rfl⟩
  · rw [if_neg t4, if_neg t4]; exact ⟨rfl, rfl, rfl⟩

/-- `headerOpen` on a connection without pools. -/
theorem headerOpen_new (E : PEnv) {s : PState} {ty : UInt8} {ch : UInt16} {n : Nat} {x : Bytes} (hin : s.inb = .hdr)
    (hh : s.hdr = frameHdr ty ch n ++ x) (hn : n < 2147483647) (hf : n + 8 ≤ s.frameMax)
    (hp : s.pools = []) (ha : s.allocs = 0) :
    headerOpen E s =
      if E.alloc 0 then
        if E.alloc 1 then .ok () { s with
          allocs := 2
          pools := [ch]
          inb := .pool (frameHdr ty ch n ++ ((List.range (n + 8)).map (E.fresh 1)).drop 7)
          mode := .body
          target := n + 8
          bufLog := (n + 8) :: s.bufLog }
        else .err St.NO_MEMORY { s with
          allocs := 2
          pools := [ch]
          inb := .null
          bufLog := (n + 8) :: s.bufLog }
      else .err St.NO_MEMORY { s with allocs := 1 } := by
  have hr : s.raw = some (frameHdr ty ch n ++ x) := by simp [PState.raw, hin, hh]
  have hv : (UInt32.ofNat n).toNat = n := by rw [UInt32.toNat_ofNat', Nat.mod_eq_of_lt (by omega)]
  have ht : s.hdr.take HEADER_SIZE = frameHdr ty ch n := by
    rw [hh, HEADER_SIZE, List.take_append_of_le_length (by simp [frameHdr_length]),
      List.take_of_length_le (by simp [frameHdr_length])]
  unfold headerOpen
  rw [hr]
  dsimp only
  rw [rd16_hdr, rd32_hdr _ _ _ _ (by omega)]
  dsimp only
  rw [hv, if_neg (by omega), if_neg (by simp [HEADER_SIZE, FOOTER_SIZE]; omega)]
  unfold getPool
  rw [hp, if_neg (by simp), ha]
  by_cases h0 : E.alloc 0 = true
  · rw [if_pos h0, if_pos h0]
    dsimp only
    by_cases h1 : E.alloc 1 = true
    · rw [if_pos h1, if_pos h1, ht, poke_of_le (by simp [frameHdr_length, HEADER_SIZE, FOOTER_SIZE])]
      simp [splice, frameHdr_length, HEADER_SIZE, FOOTER_SIZE, hp]
    · rw [if_neg h1, if_neg h1]; simp [HEADER_SIZE, FOOTER_SIZE, hp]
  · rw [if_neg h0, if_neg h0]

/-- What a call shows to the application: the frame, the error, or undefined behaviour. -/
structure SameOutcome (r r' : Res PState (Nat × Option AFrame)) : Prop where
  val : r.val? = r'.val?
  err : r.errCode? = r'.errCode?
  ub : r.isUB = r'.isUB

theorem payloadPhase_same (E : PEnv) (s s' : PState) (h : s'.allocs = s.allocs) (ch : UInt16) (ty : UInt8) (p : Bytes) (c : Nat) :
    SameOutcome (payloadPhase E s' ch ty p c) (payloadPhase E s ch ty p c) := by
  unfold payloadPhase
  rw [h]
  by_cases t1 : ty = 1
  · rw [if_pos t1, if_pos t1]
    cases rd32 E.be (p ++ [FRAME_END]) 0 with
    | none => exact ⟨rfl, rfl, rfl⟩
    | some id =>
      dsimp only
      cases decMethod _ id s.allocs <;> exact ⟨rfl, rfl, rfl⟩
  rw [if_neg t1, if_neg t1]
  by_cases t2 : ty = 2
  · rw [if_pos t2, if_pos t2]
    cases rd16 E.be (p ++ [FRAME_END]) 0 with
    | none => exact ⟨rfl, rfl, rfl⟩
    | some cls =>
      cases rd64 E.be (p ++ [FRAME_END]) 4 with
      | none => exact ⟨rfl, rfl, rfl⟩
      | some size =>
        dsimp only
        cases decProperties _ cls s.allocs <;> exact ⟨rfl, rfl, rfl⟩
  rw [if_neg t2, if_neg t2]
  by_cases t3 : ty = 3
  · rw [if_pos t3, if_pos t3]; exact ⟨rfl, rfl, rfl⟩
  rw [if_neg t3, if_neg t3]
  by_cases t4 : ty = 8
  · rw [if_pos t4, if_pos t4]; exact ⟨rfl, rfl, rfl⟩
  · rw [if_neg t4, if_neg t4]; exact ⟨rfl, rfl, rfl⟩

/-- The first frame of a connection is read as if its first payload octet were what the memory of the new buffer happens to
contain there. -/
theorem first_frame (E : PEnv) (fm : Nat) (ty : UInt8) (ch : UInt16) (b : UInt8) (p : Bytes) (fe : UInt8) (rest : Bytes)
    (hty : ty ≠ 65) (h1 : p.length + 1 < 2147483647) (h2 : p.length + 9 ≤ fm) :
    SameOutcome (handleInput E (newParser fm) (rawFrame ty ch (b :: p) fe ++ rest))
      (handleInput E (newParser fm).idle (rawFrame ty ch (E.fresh 1 7 :: p) fe ++ rest)) := by
  -- steady side
  have hRi : Ready (newParser fm).idle := ready_idle rfl
  obtain ⟨t, t1, t2, t3, t4, t5, t6, t7, t8, t9⟩ := handleInput_hdr E hRi rfl ty ch (p.length + 1)
    (E.fresh 1 7 :: p ++ [fe] ++ rest)
  have eS : rawFrame ty ch (E.fresh 1 7 :: p) fe ++ rest =
      frameHdr ty ch (p.length + 1) ++ (E.fresh 1 7 :: p ++ [fe] ++ rest) := by
    rw [rawFrame_eq]; simp
  rw [eS, t9]
  -- first side
  have eF : rawFrame ty ch (b :: p) fe ++ rest = (frameHdr ty ch (p.length + 1) ++ [b]) ++ (p ++ [fe] ++ rest) := by
    rw [rawFrame_eq]; simp
  have hne : rawFrame ty ch (b :: p) fe ++ rest ≠ [] := by
    intro h; have := congrArg List.length h; simp [rawFrame_length] at this
  have hF : handleInput E (newParser fm) (rawFrame ty ch (b :: p) fe ++ rest) =
      headerPhase E { newParser fm with hdr := frameHdr ty ch (p.length + 1) ++ [b], off := 8 } 8 (p ++ [fe] ++ rest) := by
    rw [handleInput_eq hne, eF]
    have hw : (newParser fm).wake = newParser fm := rfl
    rw [hw, consumeData_full (s := newParser fm) (m := List.replicate 8 0) rfl (by simp [newParser]) (by simp [newParser])
      (by simp [newParser, frameHdr_length]; omega)]
    have e1 : ((frameHdr ty ch (p.length + 1) ++ [b]) ++ (p ++ [fe] ++ rest)).take 8 = frameHdr ty ch (p.length + 1) ++ [b] := by
      rw [List.take_append_of_le_length (by simp [frameHdr_length]), List.take_of_length_le (by simp [frameHdr_length])]
    have e2 : ((frameHdr ty ch (p.length + 1) ++ [b]) ++ (p ++ [fe] ++ rest)).drop 8 = p ++ [fe] ++ rest := by
      rw [List.drop_append, List.drop_of_length_le (by simp [frameHdr_length])]; simp [frameHdr_length]
    simp only [show (newParser fm).target = 8 from rfl, show (newParser fm).off = 0 from rfl, Nat.sub_zero, e1, e2]
    rw [if_neg (by simp [newParser])]
    have hst : (newParser fm).at (splice (List.replicate 8 0) 0 (frameHdr ty ch (p.length + 1) ++ [b])) 8 =
        { newParser fm with hdr := frameHdr ty ch (p.length + 1) ++ [b], off := 8 } := by
      rw [splice_zero_full (by simp [frameHdr_length])]; rfl
    rw [hst]
    unfold dispatch
    dsimp only [newParser, PState.raw]
    rw [if_neg]
    intro h
    have : (frameHdr ty ch (p.length + 1) ++ [b])[0]? = some ty := rfl
    have h' := congrArg (·[0]?) h
    simp [frameHdr] at h'
    exact hty h'
  rw [hF, headerPhase_eq, headerPhase_eq]
  rw [headerOpen_new E (s := { newParser fm with hdr := frameHdr ty ch (p.length + 1) ++ [b], off := 8 }) rfl rfl (by omega)
    (by simp [newParser]; omega) rfl rfl]
  rw [headerOpen_new E t1 t2 (by omega) (by rw [t3]; simp [newParser, PState.idle]; omega) t6 t5]
  by_cases a0 : E.alloc 0 = true
  rotate_left
  · rw [if_neg a0, if_neg a0]; exact ⟨rfl, rfl, rfl⟩
  rw [if_pos a0, if_pos a0]
  by_cases a1 : E.alloc 1 = true
  rotate_left
  · rw [if_neg a1, if_neg a1]; exact ⟨rfl, rfl, rfl⟩
  rw [if_pos a1, if_pos a1]
  dsimp only
  generalize hmem : frameHdr ty ch (p.length + 1) ++ ((List.range (p.length + 1 + 8)).map (E.fresh 1)).drop 7 = mem
  have hml : mem.length = p.length + 9 := by rw [← hmem]; simp [frameHdr_length]; omega
  unfold contBody
  have sp8 : splice mem 8 ((p ++ [fe] ++ rest).take (p.length + 1)) = rawFrame ty ch (E.fresh 1 7 :: p) fe := by
    have e : (p ++ [fe] ++ rest).take (p.length + 1) = p ++ [fe] := by
      rw [List.take_append_of_le_length (by simp), List.take_of_length_le (by simp)]
    rw [e, rawFrame_eq]
    unfold splice
    rw [List.drop_of_length_le (by simp [hml]; omega)]
    have t8 : mem.take 8 = frameHdr ty ch (p.length + 1) ++ [E.fresh 1 7] := by
      rw [← hmem, List.take_append, List.take_of_length_le (by simp [frameHdr_length])]
      congr 1
      rw [frameHdr_length, ← List.map_drop, ← List.map_take]
      have : ((List.range (p.length + 1 + 8)).drop 7).take (8 - 7) = [7] := by
        rw [List.range_eq_range', List.drop_range', show p.length + 1 + 8 - 7 = (p.length + 1) + 1 by omega,
          List.range'_succ]
        rfl
      rw [this]; rfl
    rw [t8]; simp
  have sp7 : splice mem 7 ((E.fresh 1 7 :: p ++ [fe] ++ rest).take (p.length + 2)) = rawFrame ty ch (E.fresh 1 7 :: p) fe := by
    have e : (E.fresh 1 7 :: p ++ [fe] ++ rest).take (p.length + 2) = E.fresh 1 7 :: p ++ [fe] := by
      rw [List.take_append_of_le_length (by simp), List.take_of_length_le (by simp)]
    rw [e, rawFrame_eq]
    unfold splice
    rw [List.drop_of_length_le (by simp [hml]; omega)]
    have t7 : mem.take 7 = frameHdr ty ch (p.length + 1) := by
      rw [← hmem, List.take_append_of_le_length (by simp [frameHdr_length]), List.take_of_length_le (by simp [frameHdr_length])]
    rw [t7]; simp
  rw [consumeData_full (m := mem) (by rfl) (by simp) (by simp [hml]) (by simp)]
  rw [consumeData_full (m := mem) (by rfl) (by simp [t7]; try omega) (by simp [hml]) (by simp [t7]; try omega)]
  dsimp only
  rw [if_neg (by simp), if_neg (by simp)]
  have n1 : p.length + 1 + 8 - 8 = p.length + 1 := by omega
  have n2 : p.length + 1 + 8 - 7 = p.length + 2 := by omega
  rw [t7, n1, n2, sp8, sp7, show 8 + (p.length + 1) = p.length + 9 by omega, show 7 + (p.length + 2) = p.length + 9 by omega]
  rw [bodyPhase_holding E (p := E.fresh 1 7 :: p) (ty := ty) (ch := ch) (fe := fe) (p.length + 9) (by rfl) (by simp)]
  rw [bodyPhase_holding E (p := E.fresh 1 7 :: p) (ty := ty) (ch := ch) (fe := fe) (p.length + 9) (by rfl) (by simp)]
  by_cases hE : fe ≠ FRAME_END
  · rw [if_pos hE, if_pos hE]; exact ⟨rfl, rfl, rfl⟩
  rw [if_neg hE, if_neg hE]
  rw [getPool_of_mem (by simp), getPool_of_mem (by simp)]
  dsimp only
  refine payloadPhase_same E _ _ ?_ ch ty _ _
  rfl

end Rmq
