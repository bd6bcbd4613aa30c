import Verif.Proofs.FrameSplit
import Verif.Proofs.AllocIndep
/-! What a complete frame on the wire does to the receiver. -/
namespace Rmq

/-- the seven header octets -/
def frameHdr (ty : UInt8) (ch : UInt16) (n : Nat) : Bytes := ty :: (beBytes 2 ch.toNat ++ beBytes 4 n)

theorem frameHdr_length (ty : UInt8) (ch : UInt16) (n : Nat) : (frameHdr ty ch n).length = 7 := by
  simp [frameHdr, beBytes_length]

theorem rawFrame_eq (ty : UInt8) (ch : UInt16) (p : Bytes) (fe : UInt8) :
    rawFrame ty ch p fe = frameHdr ty ch p.length ++ (p ++ [fe]) := by
  simp [rawFrame, frameHdr]

theorem rawFrame_length (ty : UInt8) (ch : UInt16) (p : Bytes) (fe : UInt8) : (rawFrame ty ch p fe).length = p.length + 8 := by
  rw [rawFrame_eq]; simp [frameHdr_length]; omega

theorem readAt_of_le {m : Bytes} {o n : Nat} (h : o + n ≤ m.length) : readAt m o n = some ((m.drop o).take n) := if_pos h

theorem rd16_hdr (be : Bool) (ty : UInt8) (ch : UInt16) (n : Nat) (rest : Bytes) :
    rd16 be (frameHdr ty ch n ++ rest) 1 = some ch := by
  unfold rd16
  rw [readAt_of_le (by simp [frameHdr_length]; omega)]
  have e : ((frameHdr ty ch n ++ rest).drop 1).take 2 = beBytes 2 ch.toNat := by
    simp only [frameHdr, List.cons_append, List.drop_succ_cons, List.drop_zero, List.append_assoc]
    rw [List.take_append_of_le_length (by simp [beBytes_length]), List.take_of_length_le (by simp [beBytes_length])]
  rw [e, Option.bind_some, ← e16_eq be, d16_e16]

theorem rd32_hdr (be : Bool) (ty : UInt8) (ch : UInt16) (n : Nat) (hn : n < 2 ^ 32) (rest : Bytes) :
    rd32 be (frameHdr ty ch n ++ rest) 3 = some (UInt32.ofNat n) := by
  unfold rd32
  rw [readAt_of_le (by simp [frameHdr_length])]
  have e : ((frameHdr ty ch n ++ rest).drop 3).take 4 = beBytes 4 n := by
    simp only [frameHdr, List.cons_append, List.drop_succ_cons, List.append_assoc]
    rw [List.drop_append, List.drop_of_length_le (by simp [beBytes_length])]
    simp only [beBytes_length, List.nil_append, Nat.sub_self, List.drop_zero]
    rw [List.take_append_of_le_length (by simp [beBytes_length]), List.take_of_length_le (by simp [beBytes_length])]
  rw [e, Option.bind_some]
  have : beBytes 4 n = e32 be (UInt32.ofNat n) := by
    rw [e32_eq]; congr 1
    rw [UInt32.toNat_ofNat', Nat.mod_eq_of_lt hn]
  rw [this, d32_e32]

theorem splice_zero_full {m bs : Bytes} (h : bs.length = m.length) : splice m 0 bs = bs := by
  simp [splice, h]

/-- The state of the receiver holding a complete frame. -/
structure Holding (s sB : PState) (raw : Bytes) (ch : UInt16) : Prop where
  inb : sB.inb = .pool raw
  off : sB.off = raw.length
  target : sB.target = raw.length
  mode : sB.mode = .body
  frameMax : sB.frameMax = s.frameMax
  pools : ch ∈ sB.pools
  bufLog : sB.bufLog = raw.length :: s.bufLog
  hdrLen : sB.hdr.length = 8

theorem getPool_mem {E : PEnv} {s s' : PState} {ch : UInt16} (h : getPool E s ch = (true, s')) : ch ∈ s'.pools := by
  unfold getPool at h
  by_cases h1 : ch ∈ s.pools
  · rw [if_pos h1] at h; cases h; exact h1
  · rw [if_neg h1] at h
    by_cases h2 : E.alloc s.allocs = true
    · rw [if_pos h2] at h; cases h; simp
    · rw [if_neg h2] at h; cases h

theorem getPool_true {E : PEnv} (hA : ∀ k, E.alloc k = true) (s : PState) (ch : UInt16) :
    ∃ s', getPool E s ch = (true, s') := by
  unfold getPool
  by_cases h1 : ch ∈ s.pools
  · rw [if_pos h1]; exact ⟨_, rfl⟩
  · rw [if_neg h1, if_pos (hA _)]; exact ⟨_, rfl⟩

/-- `headerOpen` on a filled header buffer. -/
theorem headerOpen_hdr (E : PEnv) {s : PState} {ty : UInt8} {ch : UInt16} {n : Nat} {x : Bytes} (hin : s.inb = .hdr)
    (hh : s.hdr = frameHdr ty ch n ++ x) (hx : x.length = 1) (hn : n < 2 ^ 32) :
    (n ≥ 2147483647 ∨ s.frameMax < n + 8 → headerOpen E s = .err St.BAD_AMQP_DATA s) ∧
    (n < 2147483647 → n + 8 ≤ s.frameMax →
      (∃ s', headerOpen E s = .err St.NO_MEMORY s' ∧ ¬ ∀ k, E.alloc k = true) ∨
      (∃ k s', headerOpen E s = .ok () s' ∧ s'.mode = .body ∧ s'.hdr = s.hdr ∧ s'.off = s.off ∧ s'.target = n + 8 ∧
        s'.frameMax = s.frameMax ∧ ch ∈ s'.pools ∧ s'.bufLog = (n + 8) :: s.bufLog ∧
        k = s'.allocs - 1 ∧ s'.allocs ≠ 0 ∧
        s'.inb = .pool (frameHdr ty ch n ++ ((List.range (n + 8)).map (E.fresh k)).drop 7))) := by
  have hr : s.raw = some (frameHdr ty ch n ++ x) := by simp [PState.raw, hin, hh]
  have hv : (UInt32.ofNat n).toNat = n := by rw [UInt32.toNat_ofNat', Nat.mod_eq_of_lt hn]
  have hH : headerOpen E s = (if n ≥ 2147483647 then .err St.BAD_AMQP_DATA s
    else
      if s.frameMax < n + 8 then .err St.BAD_AMQP_DATA s
      else
        match getPool E s ch with
        | (false, s) => .err St.NO_MEMORY s
        | (true, s) =>
          if E.alloc s.allocs then
            match poke ((List.range (n + 8)).map (E.fresh s.allocs)) 0 (s.hdr.take HEADER_SIZE) with
            | none => .ub
            | some mem =>
              .ok () { s with
                allocs := s.allocs + 1
                inb := .pool mem
                mode := .body
                target := n + 8
                bufLog := (n + 8) :: s.bufLog }
          else
            .err St.NO_MEMORY { s with
              allocs := s.allocs + 1
              inb := .null
              bufLog := (n + 8) :: s.bufLog }) := by
    unfold headerOpen
    rw [hr]
    dsimp only
    rw [rd16_hdr, rd32_hdr _ _ _ _ hn]
    dsimp only
    rw [hv]
    rfl
  rw [hH]
  constructor
  · intro h
    by_cases h1 : n ≥ 2147483647
    · rw [if_pos h1]
    · rw [if_neg h1, if_pos (h.resolve_left h1)]
  · intro h1 h2
    rw [if_neg (by omega), if_neg (by omega)]
    rcases hg : getPool E s ch with ⟨_ | _, s1⟩
    · left
      refine ⟨_, rfl, fun hA => ?_⟩
      obtain ⟨s', h⟩ := getPool_true hA s ch
      rw [hg] at h; cases h
    · dsimp only
      have e1 := getPool_eq hg
      by_cases h3 : E.alloc s1.allocs = true
      · rw [if_pos h3]
        have hh1 : s1.hdr = s.hdr := by rw [e1]
        have ht7 : s1.hdr.take HEADER_SIZE = frameHdr ty ch n := by
          rw [hh1, hh, HEADER_SIZE, List.take_append_of_le_length (by simp [frameHdr_length]),
            List.take_of_length_le (by simp [frameHdr_length])]
        rw [ht7, poke_of_le (by simp [frameHdr_length])]
        right
        refine ⟨s1.allocs, _, rfl, rfl, hh1, by rw [e1], rfl, by rw [e1], (getPool_mem hg : ch ∈ s1.pools), by rw [e1], by simp, by simp, ?_⟩
        simp [splice, frameHdr_length]
      · rw [if_neg h3]
        left
        exact ⟨_, rfl, fun hA => h3 (hA _)⟩

/-- A complete frame arriving at an idle receiver. -/
theorem handleInput_raw (E : PEnv) {s : PState} (hR : Ready s) (hm : s.mode = .idle) (ty : UInt8) (ch : UInt16) (p : Bytes)
    (fe : UInt8) (rest : Bytes) (h1 : p.length < 2147483647) (h2 : p.length + 8 ≤ s.frameMax) :
    (∃ s', handleInput E s (rawFrame ty ch p fe ++ rest) = .err St.NO_MEMORY s' ∧ ¬ ∀ k, E.alloc k = true) ∨
    (∃ sB, Holding s sB (rawFrame ty ch p fe) ch ∧
      handleInput E s (rawFrame ty ch p fe ++ rest) = bodyPhase E sB (p.length + 8)) := by
  have hne : rawFrame ty ch p fe ++ rest ≠ [] := by
    intro h; have := congrArg List.length h; simp [rawFrame_length] at this
  have hs := hR.inv.shape
  rw [hm] at hs
  obtain ⟨hi, ho, ht⟩ := hs
  have hw : s.wake = { s with mode := .header } := by unfold PState.wake; rw [if_pos hm]
  rw [handleInput_eq hne, hw]
  have h8 := hR.inv.hdr
  have f1 : ({ s with mode := PMode.header } : PState).off = 0 := ho
  have f2 : ({ s with mode := PMode.header } : PState).target = 7 := ht
  have f3 : ({ s with mode := PMode.header } : PState).inb = .hdr := hi
  have f4 : ({ s with mode := PMode.header } : PState).hdr.length = 8 := h8
  have f5 : ({ s with mode := PMode.header } : PState).mode = .header := rfl
  have f6 : ({ s with mode := PMode.header } : PState).frameMax = s.frameMax := rfl
  have f7 : ({ s with mode := PMode.header } : PState).bufLog = s.bufLog := rfl
  generalize ({ s with mode := PMode.header } : PState) = t at *
  have hraw : t.raw = some t.hdr := by simp [PState.raw, f3]
  have hlen : (rawFrame ty ch p fe ++ rest).length = p.length + 8 + rest.length := by
    rw [List.length_append, rawFrame_length]
  have htk : (rawFrame ty ch p fe ++ rest).take 7 = frameHdr ty ch p.length := by
    rw [rawFrame_eq, List.append_assoc, List.take_append_of_le_length (by simp [frameHdr_length]),
      List.take_of_length_le (by simp [frameHdr_length])]
  have hdp : (rawFrame ty ch p fe ++ rest).drop 7 = p ++ [fe] ++ rest := by
    rw [rawFrame_eq, List.append_assoc, List.drop_append, List.drop_of_length_le (by simp [frameHdr_length])]
    simp [frameHdr_length]
  rw [consumeData_full hraw (by omega) (by omega) (by omega)]
  simp only [f1, f2, Nat.sub_zero, htk]
  rw [if_neg (by simp [f2])]
  unfold dispatch
  simp only [PState.at_mode, hdp, f5]
  rw [headerPhase_eq]
  have hhdr : (t.at (splice t.hdr 0 (frameHdr ty ch p.length)) 7).hdr = frameHdr ty ch p.length ++ t.hdr.drop 7 := by
    simp [PState.at, PState.setRaw, f3, splice, frameHdr_length]
  have hinb : (t.at (splice t.hdr 0 (frameHdr ty ch p.length)) 7).inb = .hdr := by
    simp [PState.at, PState.setRaw, f3]
  rcases (headerOpen_hdr E hinb hhdr (by simp [f4]) (by omega)).2 h1 (by simpa [f6] using h2) with ⟨s', hO, hA⟩ |
      ⟨k, s', hO, e1, e2, e3, e4, e5, e6, e7, _, _, e8⟩
  · left; exact ⟨s', by rw [hO], hA⟩
  · right
    rw [hO]
    dsimp only
    unfold contBody
    have hraw' : s'.raw = some (frameHdr ty ch p.length ++ ((List.range (p.length + 8)).map (E.fresh k)).drop 7) := by
      simp [PState.raw, e8]
    have hl' : (frameHdr ty ch p.length ++ ((List.range (p.length + 8)).map (E.fresh k)).drop 7).length = p.length + 8 := by
      simp [frameHdr_length]; omega
    rw [PState.at_off] at e3
    rw [consumeData_full hraw' (by omega) (by omega) (by simp; omega)]
    simp only [e3, e4]
    rw [if_neg (by simp [e4])]
    have hsp : splice (frameHdr ty ch p.length ++ ((List.range (p.length + 8)).map (E.fresh k)).drop 7) 7
        ((p ++ [fe] ++ rest).take (p.length + 8 - 7)) = rawFrame ty ch p fe := by
      have e : (p ++ [fe] ++ rest).take (p.length + 8 - 7) = p ++ [fe] := by
        rw [List.take_append_of_le_length (by simp), List.take_of_length_le (by simp)]
      rw [e, rawFrame_eq]
      unfold splice
      rw [List.take_append_of_le_length (by simp [frameHdr_length]), List.take_of_length_le (by simp [frameHdr_length])]
      rw [List.drop_of_length_le (by simp [frameHdr_length])]
      simp
    rw [hsp]
    refine ⟨s'.at (rawFrame ty ch p fe) (p.length + 8), ⟨?_, ?_, ?_, ?_, ?_, ?_, ?_, ?_⟩, ?_⟩
    rotate_right
    · have : 7 + (p.length + 8 - 7) = p.length + 8 := by omega
      rw [this]
    · simp [PState.at, PState.setRaw, e8]
    · simp [rawFrame_length]
    · simp [rawFrame_length, e4]
    · simp [e1]
    · simpa [f6] using e5
    · simpa using e6
    · simp [rawFrame_length, e7, f7]
    · have : (s'.at (rawFrame ty ch p fe) (p.length + 8)).hdr = s'.hdr := by
        simp [PState.at, PState.setRaw, e8]
      rw [this, e2, hhdr]; simp [frameHdr_length, f4]

theorem readAt_append {a b : Bytes} (o n : Nat) : readAt (a ++ b) (a.length + o) n = readAt b o n := by
  unfold readAt
  by_cases h : o + n ≤ b.length
  · rw [if_pos h, if_pos (by rw [List.length_append]; omega)]
    rw [List.drop_append, List.drop_of_length_le (by omega), List.nil_append]
    congr 3; omega
  · rw [if_neg h, if_neg (by rw [List.length_append]; omega)]

/-- The `switch` on the frame type, for payload `p` followed by the end octet. -/
def payloadPhase (E : PEnv) (s : PState) (ch : UInt16) (ty : UInt8) (p : Bytes) (c : Nat) :
    Res PState (Nat × Option AFrame) :=
  if ty = 1 then
    match rd32 E.be (p ++ [FRAME_END]) 0 with
    | none => .ub
    | some id =>
      match decMethod ⟨(p ++ [FRAME_END]).drop 4, subWrap (p.length + 8) 12, E.be, E.alloc⟩ id s.allocs with
      | .ok args d => .ok (c, some ⟨ch, .method id args⟩) { s with allocs := d.allocs }.idle
      | .err e d => .err e { s with allocs := d.allocs }
      | .ub => .ub
      | .fuel => .fuel
  else if ty = 2 then
    match rd16 E.be (p ++ [FRAME_END]) 0, rd64 E.be (p ++ [FRAME_END]) 4 with
    | some cls, some size =>
      match decProperties ⟨(p ++ [FRAME_END]).drop 12, subWrap (p.length + 8) 20, E.be, E.alloc⟩ cls s.allocs with
      | .ok (flags, props) d => .ok (c, some ⟨ch, .header cls size flags props⟩) { s with allocs := d.allocs }.idle
      | .err e d => .err e { s with allocs := d.allocs }
      | .ub => .ub
      | .fuel => .fuel
    | _, _ => .ub
  else if ty = 3 then .ok (c, some ⟨ch, .body p⟩) s.idle
  else if ty = 8 then .ok (c, some ⟨ch, .heartbeat⟩) s.idle
  else .ok (c, none) s.idle

theorem bodyPhase_holding (E : PEnv) {sB : PState} {ty fe : UInt8} {ch : UInt16} {p : Bytes} (c : Nat)
    (h1 : sB.inb = .pool (rawFrame ty ch p fe)) (h2 : sB.target = p.length + 8) :
    bodyPhase E sB c = if fe ≠ FRAME_END then .err St.BAD_AMQP_DATA sB else
      match getPool E sB ch with
      | (false, s) => .err St.NO_MEMORY s
      | (true, s) => payloadPhase E s ch ty p c := by
  have hr : sB.raw = some (rawFrame ty ch p fe) := by simp [PState.raw, h1]
  have hfe : rd8 (rawFrame ty ch p fe) (subWrap sB.target 1) = some fe := by
    unfold rd8
    rw [h2, subWrap_of_le (by omega), rawFrame_eq]
    have e : p.length + 8 - 1 = (frameHdr ty ch p.length ++ p).length + 0 := by simp [frameHdr_length]; omega
    rw [← List.append_assoc, e, readAt_append]
    rfl
  have hty : rd8 (rawFrame ty ch p fe) 0 = some ty := by
    unfold rd8 rawFrame
    rw [readAt_of_le (by simp)]
    simp [d8]
  have hch : rd16 E.be (rawFrame ty ch p fe) 1 = some ch := by rw [rawFrame_eq, rd16_hdr]
  have h7 : ∀ o n, readAt (rawFrame ty ch p fe) (7 + o) n = readAt (p ++ [fe]) o n := by
    intro o n
    rw [rawFrame_eq]
    have := readAt_append (a := frameHdr ty ch p.length) (b := p ++ [fe]) o n
    rw [frameHdr_length] at this
    exact this
  have hd : ∀ k, (rawFrame ty ch p fe).drop (7 + k) = (p ++ [fe]).drop k := by
    intro k
    rw [rawFrame_eq, List.drop_append, List.drop_of_length_le (by simp [frameHdr_length]), List.nil_append]
    rw [frameHdr_length]; congr 1; omega
  unfold bodyPhase
  rw [hr]
  dsimp only
  rw [hfe]
  dsimp only
  by_cases hE : fe ≠ FRAME_END
  · rw [if_pos hE, if_pos hE]
  rw [if_neg hE, if_neg hE]
  have hE : fe = FRAME_END := Classical.byContradiction hE
  subst hE
  rw [hty, hch]
  dsimp only
  rcases hg : getPool E sB ch with ⟨_ | _, s1⟩
  · rfl
  dsimp only
  have e1 := getPool_eq hg
  have ht : s1.target = p.length + 8 := by rw [e1]; exact h2
  unfold payloadPhase
  by_cases t1 : ty = 1
  · rw [if_pos t1, if_pos t1]
    have e : rd32 E.be (rawFrame ty ch p FRAME_END) HEADER_SIZE = rd32 E.be (p ++ [FRAME_END]) 0 := by
      unfold rd32; rw [show HEADER_SIZE = 7 + 0 from rfl, h7]
    rw [e, show HEADER_SIZE + 4 = 7 + 4 from rfl, hd, ht]
    rfl
  rw [if_neg t1, if_neg t1]
  by_cases t2 : ty = 2
  · rw [if_pos t2, if_pos t2]
    have e : rd16 E.be (rawFrame ty ch p FRAME_END) HEADER_SIZE = rd16 E.be (p ++ [FRAME_END]) 0 := by
      unfold rd16; rw [show HEADER_SIZE = 7 + 0 from rfl, h7]
    have e' : rd64 E.be (rawFrame ty ch p FRAME_END) (HEADER_SIZE + 4) = rd64 E.be (p ++ [FRAME_END]) 4 := by
      unfold rd64; rw [show HEADER_SIZE + 4 = 7 + 4 from rfl, h7]
    rw [e, e', show HEADER_SIZE + 12 = 7 + 12 from rfl, hd, ht]
    rfl
  rw [if_neg t2, if_neg t2]
  by_cases t3 : ty = 3
  · rw [if_pos t3, if_pos t3]
    have e : readAt (rawFrame ty ch p FRAME_END) HEADER_SIZE (subWrap s1.target (HEADER_SIZE + FOOTER_SIZE)) = some p := by
      rw [show HEADER_SIZE = 7 + 0 from rfl, h7, ht, subWrap_of_le (by simp [FOOTER_SIZE])]
      rw [readAt_of_le (by simp [FOOTER_SIZE])]
      simp [FOOTER_SIZE]
    rw [e]
  rw [if_neg t3, if_neg t3]

theorem getPool_of_mem {E : PEnv} {s : PState} {ch : UInt16} (h : ch ∈ s.pools) : getPool E s ch = (true, s) := if_pos h

/-- A complete frame with a good end octet. -/
theorem bodyPhase_good (E : PEnv) {s sB : PState} {ty : UInt8} {ch : UInt16} {p : Bytes} (c : Nat)
    (h : Holding s sB (rawFrame ty ch p FRAME_END) ch) : bodyPhase E sB c = payloadPhase E sB ch ty p c := by
  rw [bodyPhase_holding E c h.inb (by rw [h.target, rawFrame_length]), if_neg (by simp), getPool_of_mem h.pools]

theorem bodyPhase_bad (E : PEnv) {s sB : PState} {ty fe : UInt8} {ch : UInt16} {p : Bytes} (c : Nat)
    (h : Holding s sB (rawFrame ty ch p fe) ch) (hfe : fe ≠ FRAME_END) : bodyPhase E sB c = .err St.BAD_AMQP_DATA sB := by
  rw [bodyPhase_holding E c h.inb (by rw [h.target, rawFrame_length]), if_pos hfe]

end Rmq
