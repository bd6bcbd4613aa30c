import Verif.Proofs.AllocIdeal
import Verif.Proofs.FrameFirst
import Verif.Spec.Conn
/-!
# The receiver and an ideal receiver that never runs out of memory
-/
namespace Rmq

/-- Where the two parsers collect the frame: same place, same bytes so far. -/
def InbSim (off : Nat) : Inb → Inb → Prop
  | .hdr, .hdr => True
  | .pool m, .pool m' => m.length = m'.length ∧ m.take off = m'.take off
  | _, _ => False

/-- Two receivers that have seen the same bytes (they may differ in what was allocated). -/
structure PSim (s t : PState) : Prop where
  mode : s.mode = t.mode
  hdr : s.hdr = t.hdr
  off : s.off = t.off
  target : s.target = t.target
  frameMax : s.frameMax = t.frameMax
  inb : InbSim s.off s.inb t.inb
  started : s.mode ≠ .initial

theorem PSim.refl {s : PState} (hR : Ready s) (hm : s.mode ≠ .initial) : PSim s s := by
  refine ⟨rfl, rfl, rfl, rfl, rfl, ?_, hm⟩
  have hs := hR.inv.shape
  cases h : s.mode <;> rw [h] at hs
  · rw [hs.1]; trivial
  · exact absurd h hm
  · rw [hs.1]; trivial
  · obtain ⟨m, h1, _⟩ := hs
    rw [h1]; exact ⟨rfl, rfl⟩

theorem PSim.trans {s t u : PState} (h : PSim s t) (h' : PSim t u) : PSim s u := by
  refine ⟨h.mode.trans h'.mode, h.hdr.trans h'.hdr, h.off.trans h'.off, h.target.trans h'.target, h.frameMax.trans h'.frameMax, ?_,
    h.started⟩
  have h1 := h.inb
  have h2 := h'.inb
  rw [← h.off] at h2
  revert h1 h2
  cases s.inb <;> cases t.inb <;> cases u.inb <;> simp only [InbSim] <;> try (intros; trivial)
  all_goals intro h1 h2
  all_goals first | exact h1.elim | exact h2.elim | exact ⟨h1.1.trans h2.1, h1.2.trans h2.2⟩

theorem PSim.symm {s t : PState} (h : PSim s t) : PSim t s := by
  refine ⟨h.mode.symm, h.hdr.symm, h.off.symm, h.target.symm, h.frameMax.symm, ?_, ?_⟩
  · have h1 := h.inb
    rw [← h.off]
    revert h1
    cases s.inb <;> cases t.inb <;> simp only [InbSim] <;> intro h1
    all_goals first | trivial | exact h1.elim | exact ⟨h1.1.symm, h1.2.symm⟩
  · rw [← h.mode]; exact h.started

/-- Only what is allocated differs. -/
theorem PSim.alloc {s t : PState} (h : PSim s t) (a : Nat) (p : List UInt16) : PSim { s with allocs := a, pools := p } t :=
  ⟨h.mode, h.hdr, h.off, h.target, h.frameMax, h.inb, h.started⟩

theorem PSim.idle {s t : PState} (h : PSim s t) : PSim s.idle t.idle :=
  ⟨rfl, h.hdr, rfl, rfl, h.frameMax, trivial, by simp [PState.idle]⟩

/-- The ideal run does what the run does, unless the latter ran out of memory. -/
def FolP : Res PState (Nat × Option AFrame) → Res PState (Nat × Option AFrame) → Prop
  | .ok r s, .ok r' t => r = r' ∧ PSim s t
  | .err e _, .err e' _ => e = e' ∨ e = St.NO_MEMORY
  | .err e _, _ => e = St.NO_MEMORY
  | .ub, .ub => True
  | .fuel, .fuel => True
  | _, _ => False

theorem FolP.noMem {e : Int} {s : PState} (r : Res PState (Nat × Option AFrame)) (h : e = St.NO_MEMORY) : FolP (.err e s) r := by
  cases r
  · exact h
  · exact Or.inr h
  · exact h
  · exact h

theorem getPool_ideal (E : PEnv) (t : PState) (ch : UInt16) : (getPool E.ideal t ch).1 = true := by
  unfold getPool
  split
  · rfl
  · rfl

theorem PSim.setAlloc {s t : PState} (h : PSim s t) (a b : Nat) : PSim { s with allocs := a } { t with allocs := b } :=
  ⟨h.mode, h.hdr, h.off, h.target, h.frameMax, h.inb, h.started⟩

theorem bodyPhase_follow (E : PEnv) {s t : PState} (hS : PSim s t) (hr : s.raw = t.raw) (c : Nat) :
    FolP (bodyPhase E s c) (bodyPhase E.ideal t c) := by
  unfold bodyPhase
  rw [← hr, ← hS.target]
  cases s.raw with
  | none => trivial
  | some raw =>
    dsimp only
    cases rd8 raw (subWrap s.target 1) with
    | none => trivial
    | some fend =>
      dsimp only
      by_cases hf : fend ≠ FRAME_END
      · rw [if_pos hf, if_pos hf]; exact Or.inl rfl
      rw [if_neg hf, if_neg hf]
      have hbe : E.ideal.be = E.be := rfl
      rw [hbe]
      cases rd8 raw 0 with
      | none => trivial
      | some ty =>
        cases rd16 E.be raw 1 with
        | none => trivial
        | some ch =>
          dsimp only
          have hg := getPool_ideal E t ch
          have ht := getPool_fields E.ideal t ch
          revert hg ht
          obtain ⟨b', t1⟩ := getPool E.ideal t ch
          intro hg ht
          dsimp only at hg ht
          subst hg
          have hs := getPool_fields E s ch
          revert hs
          obtain ⟨b, s1⟩ := getPool E s ch
          intro hs
          dsimp only at hs
          cases b with
          | false => exact FolP.noMem _ rfl
          | true =>
            dsimp only
            have h1 : PSim s1 t1 := by
              rw [hs, ht]
              exact ⟨hS.mode, hS.hdr, hS.off, hS.target, hS.frameMax, hS.inb, hS.started⟩
            have htg : t1.target = s1.target := h1.target.symm
            rw [htg]
            by_cases t1' : ty = 1
            · rw [if_pos t1', if_pos t1']
              cases rd32 E.be raw HEADER_SIZE with
              | none => trivial
              | some id =>
                dsimp only
                have hd := decMethod_fol ⟨raw.drop (HEADER_SIZE + 4), subWrap s1.target (HEADER_SIZE + 4 + FOOTER_SIZE), E.be, E.alloc⟩
                  id s1.allocs t1.allocs
                revert hd
                show Follows _ (decMethod ⟨raw.drop (HEADER_SIZE + 4), subWrap s1.target (HEADER_SIZE + 4 + FOOTER_SIZE), E.be,
                  E.ideal.alloc⟩ id t1.allocs) → _
                cases decMethod ⟨raw.drop (HEADER_SIZE + 4), subWrap s1.target (HEADER_SIZE + 4 + FOOTER_SIZE), E.be, E.alloc⟩ id
                    s1.allocs <;>
                  cases decMethod ⟨raw.drop (HEADER_SIZE + 4), subWrap s1.target (HEADER_SIZE + 4 + FOOTER_SIZE), E.be,
                    E.ideal.alloc⟩ id t1.allocs <;> intro hd
                all_goals first
                  | exact ⟨by rw [hd.1], (h1.setAlloc _ _).idle⟩
                  | exact hd
            rw [if_neg t1', if_neg t1']
            by_cases t2 : ty = 2
            · rw [if_pos t2, if_pos t2]
              cases rd16 E.be raw HEADER_SIZE with
              | none => trivial
              | some cls =>
                cases rd64 E.be raw (HEADER_SIZE + 4) with
                | none => trivial
                | some size =>
                  dsimp only
                  have hd := decProperties_fol ⟨raw.drop (HEADER_SIZE + 12), subWrap s1.target (HEADER_SIZE + 12 + FOOTER_SIZE), E.be,
                    E.alloc⟩ cls s1.allocs t1.allocs
                  revert hd
                  show Follows _ (decProperties ⟨raw.drop (HEADER_SIZE + 12), subWrap s1.target (HEADER_SIZE + 12 + FOOTER_SIZE), E.be,
                    E.ideal.alloc⟩ cls t1.allocs) → _
                  cases decProperties ⟨raw.drop (HEADER_SIZE + 12), subWrap s1.target (HEADER_SIZE + 12 + FOOTER_SIZE), E.be,
                      E.alloc⟩ cls s1.allocs <;>
                    cases decProperties ⟨raw.drop (HEADER_SIZE + 12), subWrap s1.target (HEADER_SIZE + 12 + FOOTER_SIZE), E.be,
                      E.ideal.alloc⟩ cls t1.allocs <;> intro hd
                  all_goals first
                    | exact ⟨by rw [hd.1], (h1.setAlloc _ _).idle⟩
                    | exact hd
            rw [if_neg t2, if_neg t2]
            by_cases t3 : ty = 3
            · rw [if_pos t3, if_pos t3]
              cases readAt raw HEADER_SIZE (subWrap s1.target (HEADER_SIZE + FOOTER_SIZE)) with
              | none => trivial
              | some b => exact ⟨rfl, h1.idle⟩
            rw [if_neg t3, if_neg t3]
            by_cases t4 : ty = 8
            · rw [if_pos t4, if_pos t4]; exact ⟨rfl, h1.idle⟩
            · rw [if_neg t4, if_neg t4]; exact ⟨rfl, h1.idle⟩

theorem splice_take_len {m bs : Bytes} {o : Nat} (h : o + bs.length ≤ m.length) : (splice m o bs).take (o + bs.length) = m.take o ++ bs := by
  unfold splice
  rw [List.take_append_of_le_length (by simp; omega)]
  rw [List.take_of_length_le]
  simp; omega

/-- The buffers after both have taken the same bytes. -/
theorem PSim.consume {s t : PState} (hS : PSim s t) {m m' : Bytes} (hm : s.raw = some m) (hm' : t.raw = some m')
    {bs : Bytes} (hb : s.off + bs.length ≤ s.target) (hl : s.target ≤ m.length) (hl' : s.target ≤ m'.length) :
    PSim (s.at (splice m s.off bs) (s.off + bs.length)) (t.at (splice m' t.off bs) (t.off + bs.length)) := by
  have h1 := hS.inb
  rw [← hS.off]
  unfold PState.raw at hm hm'
  unfold PState.at PState.setRaw
  cases hs : s.inb with
  | hdr =>
    cases ht : t.inb with
    | hdr =>
      rw [hs] at hm
      rw [ht] at hm'
      dsimp only at hm hm'
      cases hm
      cases hm'
      refine ⟨hS.mode, ?_, rfl, hS.target, hS.frameMax, ?_, hS.started⟩
      · dsimp only; rw [hS.hdr]
      · trivial
    | pool m2 => rw [hs, ht] at h1; exact h1.elim
    | null => rw [hs, ht] at h1; exact h1.elim
  | pool m1 =>
    cases ht : t.inb with
    | hdr => rw [hs, ht] at h1; exact h1.elim
    | pool m2 =>
      rw [hs] at hm h1
      rw [ht] at hm' h1
      dsimp only at hm hm'
      cases hm
      cases hm'
      obtain ⟨h2, h3⟩ := h1
      refine ⟨hS.mode, hS.hdr, rfl, hS.target, hS.frameMax, ?_, hS.started⟩
      refine ⟨?_, ?_⟩
      · rw [splice_length (by omega), splice_length (by omega), h2]
      · show (splice m s.off bs).take (s.off + bs.length) = (splice m' s.off bs).take (s.off + bs.length)
        rw [splice_take_len (by omega), splice_take_len (by omega), h3]
    | null => rw [hs, ht] at h1; exact h1.elim
  | null => rw [hs] at h1; cases ht : t.inb <;> rw [ht] at h1 <;> exact h1.elim

/-- When the buffers are full they are the same. -/
theorem PSim.raw_eq {s t : PState} (hS : PSim s t) {m m' : Bytes} (hm : s.raw = some m) (hm' : t.raw = some m')
    (hf : s.mode = .body → s.off = m.length) (hmode : s.mode = .body ∨ s.inb = .hdr) : m = m' := by
  have h1 := hS.inb
  unfold PState.raw at hm hm'
  cases hs : s.inb with
  | hdr =>
    cases ht : t.inb with
    | hdr =>
      rw [hs] at hm
      rw [ht] at hm'
      cases hm
      cases hm'
      exact hS.hdr
    | pool m2 => rw [hs, ht] at h1; exact h1.elim
    | null => rw [hs, ht] at h1; exact h1.elim
  | pool m1 =>
    cases ht : t.inb with
    | hdr => rw [hs, ht] at h1; exact h1.elim
    | pool m2 =>
      rw [hs] at hm h1 hmode
      rw [ht] at hm' h1
      cases hm
      cases hm'
      obtain ⟨h2, h3⟩ := h1
      have hb : s.mode = .body := hmode.resolve_right (by simp)
      rw [hf hb] at h3
      rw [List.take_length] at h3
      rw [h3, List.take_of_length_le (by omega)]
    | null => rw [hs, ht] at h1; exact h1.elim
  | null => rw [hs] at h1; cases ht : t.inb <;> rw [ht] at h1 <;> exact h1.elim

theorem PSim.wake {s t : PState} (h : PSim s t) : PSim s.wake t.wake := by
  unfold PState.wake
  rw [← h.mode]
  split
  · exact ⟨rfl, h.hdr, h.off, h.target, h.frameMax, h.inb, by simp⟩
  · exact h

theorem contBody_follow (E : PEnv) {s t : PState} (hS : PSim s t) (hi : PInv s) (hi' : PInv t) (hb : s.mode = .body) (c : Nat)
    (d : Bytes) : FolP (contBody E s c d) (contBody E.ideal t c d) := by
  have hb' : t.mode = .body := hS.mode ▸ hb
  obtain ⟨m, hr, hl, ho⟩ := hi.raw
  obtain ⟨m', hr', hl', ho'⟩ := hi'.raw
  have e1 : m.length = s.target := by
    have := hi.shape; rw [hb] at this
    obtain ⟨m0, h1, h2, _⟩ := this
    unfold PState.raw at hr
    rw [h1] at hr; cases hr; exact h2
  unfold contBody
  by_cases hfull : s.target - s.off ≤ d.length
  · have ht : (d.take (s.target - s.off)).length = s.target - s.off := by rw [List.length_take]; omega
    have hc := hS.consume hr hr' (bs := d.take (s.target - s.off)) (by rw [ht]; omega) hl (by rw [hS.target]; exact hl')
    rw [ht, Nat.add_sub_cancel' ho] at hc
    rw [consumeData_full hr ho hl hfull, consumeData_full hr' ho' hl' (by rw [← hS.target, ← hS.off]; exact hfull)]
    dsimp only
    rw [if_neg (by simp), if_neg (by simp)]
    rw [← hS.target, ← hS.off] at *
    have hoff : s.off + (s.target - s.off) = s.target := by omega
    rw [hoff] at hc
    refine bodyPhase_follow E hc ?_ _
    rw [PState.at_raw hr, PState.at_raw hr']
    have := hc.raw_eq (PState.at_raw hr _ _) (PState.at_raw hr' _ _)
      (fun _ => by simp; rw [splice_length (by rw [ht]; omega), e1]) (Or.inl (by simpa using hb))
    rw [this]
  · have hc := hS.consume hr hr' (bs := d) (by omega) hl (by rw [hS.target]; exact hl')
    rw [consumeData_part hr ho hl (by omega), consumeData_part hr' ho' hl' (by rw [← hS.target, ← hS.off]; omega)]
    dsimp only
    rw [if_pos (by simp; omega), if_pos (by simp; rw [← hS.target, ← hS.off]; omega)]
    exact ⟨rfl, hc⟩

theorem headerOpen_follow (E : PEnv) {s t : PState} (hS : PSim s t) (hi : PInv s) (hi' : PInv t) (hm : s.mode = .header)
    (hoff : s.off = 7) :
    match headerOpen E s, headerOpen E.ideal t with
    | .ok _ s', .ok _ t' => PSim s' t'
    | .err e _, .err e' _ => e = e' ∨ e = St.NO_MEMORY
    | .err e _, _ => e = St.NO_MEMORY
    | .ub, .ub => True
    | _, _ => False := by
  have hs := hi.shape
  rw [hm] at hs
  have hm' : t.mode = .header := hS.mode ▸ hm
  have ht := hi'.shape
  rw [hm'] at ht
  have hr : s.raw = some s.hdr := by simp [PState.raw, hs.1]
  have hr' : t.raw = some s.hdr := by simp [PState.raw, ht.1, hS.hdr]
  unfold headerOpen
  rw [hr, hr']
  dsimp only
  have hbe : E.ideal.be = E.be := rfl
  rw [hbe]
  cases rd16 E.be s.hdr 1 with
  | none => trivial
  | some ch =>
    cases rd32 E.be s.hdr 3 with
    | none => trivial
    | some fs =>
      dsimp only
      by_cases h1 : fs.toNat ≥ 2147483647
      · rw [if_pos h1, if_pos h1]; exact Or.inl rfl
      rw [if_neg h1, if_neg h1, ← hS.frameMax]
      by_cases h2 : s.frameMax < fs.toNat + HEADER_SIZE + FOOTER_SIZE
      · rw [if_pos h2, if_pos h2]; exact Or.inl rfl
      rw [if_neg h2, if_neg h2]
      have hg := getPool_ideal E t ch
      have htf := getPool_fields E.ideal t ch
      revert hg htf
      obtain ⟨b', t1⟩ := getPool E.ideal t ch
      intro hg htf
      dsimp only at hg htf
      subst hg
      have hsf := getPool_fields E s ch
      revert hsf
      obtain ⟨b, s1⟩ := getPool E s ch
      intro hsf
      dsimp only at hsf
      have hh1 : s1.hdr = s.hdr := by rw [hsf]
      have hh2 : t1.hdr = s.hdr := by rw [htf]; exact hS.hdr.symm
      have hl := hi.hdr
      cases b with
      | false =>
        dsimp only
        have hA : E.ideal.alloc t1.allocs = true := rfl
        rw [if_pos hA, poke_of_le (by simp [hh2, hl, HEADER_SIZE, FOOTER_SIZE])]
      | true =>
        dsimp only
        have hA : E.ideal.alloc t1.allocs = true := rfl
        rw [if_pos hA, poke_of_le (bs := t1.hdr.take HEADER_SIZE)
          (by simp [hh2, hl, HEADER_SIZE, FOOTER_SIZE])]
        by_cases h3 : E.alloc s1.allocs = true
        · rw [if_pos h3, poke_of_le (by simp [hh1, hl, HEADER_SIZE, FOOTER_SIZE])]
          dsimp only
          refine ⟨rfl, by rw [hh1, hh2], ?_, rfl, ?_, ?_, by simp⟩
          · rw [hsf, htf]; exact hS.off
          · rw [hsf, htf]; exact hS.frameMax
          · have ho1 : s1.off = 7 := by rw [hsf]; exact hoff
            dsimp only
            rw [ho1]
            have hlen : (s.hdr.take HEADER_SIZE).length = 7 := by simp [hl, HEADER_SIZE]
            refine ⟨?_, ?_⟩
            · rw [splice_length (by simp [hh1, hl, HEADER_SIZE, FOOTER_SIZE]),
                splice_length (by simp [hh2, hl, HEADER_SIZE, FOOTER_SIZE])]
              simp
            · rw [hh1, hh2]
              have e1 := splice_take_len (m := (List.range (fs.toNat + HEADER_SIZE + FOOTER_SIZE)).map (E.fresh s1.allocs)) (o := 0)
                (bs := s.hdr.take HEADER_SIZE) (by simp [hl, HEADER_SIZE, FOOTER_SIZE])
              have e2 := splice_take_len (m := (List.range (fs.toNat + HEADER_SIZE + FOOTER_SIZE)).map (E.ideal.fresh t1.allocs)) (o := 0)
                (bs := s.hdr.take HEADER_SIZE) (by simp [hl, HEADER_SIZE, FOOTER_SIZE])
              rw [hlen] at e1 e2
              rw [Nat.zero_add] at e1 e2
              rw [e1, e2]; simp
        · rw [if_neg h3]

theorem headerPhase_follow (E : PEnv) {s t : PState} (hS : PSim s t) (hi : PInv s) (hi' : PInv t) (hm : s.mode = .header)
    (hoff : s.off = 7) (c : Nat) (d : Bytes) : FolP (headerPhase E s c d) (headerPhase E.ideal t c d) := by
  have hoff' : t.off = 7 := hS.off ▸ hoff
  rw [headerPhase_eq, headerPhase_eq]
  have h := headerOpen_follow E hS hi hi' hm hoff
  revert h
  cases h1 : headerOpen E s with
  | ok a s' =>
    cases h2 : headerOpen E.ideal t with
    | ok b t' =>
      intro h
      dsimp only at h ⊢
      have k := headerOpen_ok hi.hdr h1
      exact contBody_follow E h (headerOpen_inv hi (by omega) (by omega) h1).1 (headerOpen_inv hi' (by omega) (by omega) h2).1 k.2.2.2.1 c d
    | err e t' => exact fun h => h.elim
    | ub => exact fun h => h.elim
    | fuel => exact fun h => h.elim
  | err e s' =>
    cases h2 : headerOpen E.ideal t with
    | ok b t' => exact fun h => FolP.noMem _ h
    | err e t' => exact fun h => h
    | ub => exact fun h => h
    | fuel => exact fun h => h
  | ub =>
    cases h2 : headerOpen E.ideal t with
    | ok b t' => exact fun h => h.elim
    | err e t' => exact fun h => h.elim
    | ub => exact fun _ => trivial
    | fuel => exact fun h => h.elim
  | fuel =>
    cases h2 : headerOpen E.ideal t <;> exact fun h => h.elim

theorem handleInput_follow (E : PEnv) {s t : PState} (hS : PSim s t) (hR : Ready s) (hR' : Ready t) (d : Bytes) :
    FolP (handleInput E s d) (handleInput E.ideal t d) := by
  by_cases hd : d = []
  · subst hd; exact ⟨rfl, hS⟩
  obtain ⟨hW, hne⟩ := hR.wake
  obtain ⟨hW', hne'⟩ := hR'.wake
  have hSW := hS.wake
  rw [handleInput_eq hd, handleInput_eq hd]
  generalize s.wake = s at *
  generalize t.wake = t at *
  obtain ⟨m, hr, hl, ho⟩ := hW.inv.raw
  obtain ⟨m', hr', hl', ho'⟩ := hW'.inv.raw
  have hmore := hW.more
  by_cases hfull : s.target - s.off ≤ d.length
  · have ht : (d.take (s.target - s.off)).length = s.target - s.off := by rw [List.length_take]; omega
    have hc := hSW.consume hr hr' (bs := d.take (s.target - s.off)) (by rw [ht]; omega) hl (by rw [hSW.target]; exact hl')
    rw [ht, Nat.add_sub_cancel' ho] at hc
    rw [consumeData_full hr ho hl hfull, consumeData_full hr' ho' hl' (by rw [← hSW.target, ← hSW.off]; exact hfull)]
    dsimp only
    rw [if_neg (by simp), if_neg (by simp)]
    have hp := hW.inv.at hne hr (m' := splice m s.off (d.take (s.target - s.off))) (splice_length (by simp; omega)) ho (Nat.le_refl _)
    have hp' := hW'.inv.at hne' hr' (m' := splice m' t.off (d.take (t.target - t.off))) (splice_length (by simp; omega)) ho'
      (Nat.le_refl _)
    rw [← hSW.target, ← hSW.off] at *
    have hoff : s.off + (s.target - s.off) = s.target := by omega
    rw [hoff] at hc
    unfold dispatch
    rw [PState.at_mode, PState.at_mode]
    have hsm := hSW.mode
    cases hmode : s.mode with
    | initial => exact absurd hmode hSW.started
    | idle => rw [← hsm, hmode]; trivial
    | header =>
      rw [← hsm, hmode]
      dsimp only
      have hsh := hW.inv.shape
      rw [hmode] at hsh
      exact headerPhase_follow E hc hp hp' (by simpa using hmode) (by simpa using hsh.2.2) _ _
    | body =>
      rw [← hsm, hmode]
      dsimp only
      have e1 : m.length = s.target := by
        have := hW.inv.shape; rw [hmode] at this
        obtain ⟨m0, h1, h2, _⟩ := this
        unfold PState.raw at hr
        rw [h1] at hr; cases hr; exact h2
      refine bodyPhase_follow E hc ?_ _
      rw [PState.at_raw hr, PState.at_raw hr']
      have := hc.raw_eq (PState.at_raw hr _ _) (PState.at_raw hr' _ _)
        (fun _ => by simp; rw [splice_length (by rw [ht]; omega), e1]) (Or.inl (by simpa using hmode))
      rw [this]
  · have hc := hSW.consume hr hr' (bs := d) (by omega) hl (by rw [hSW.target]; exact hl')
    rw [consumeData_part hr ho hl (by omega), consumeData_part hr' ho' hl' (by rw [← hSW.target, ← hSW.off]; omega)]
    dsimp only
    rw [if_pos (by simp; omega), if_pos (by simp; rw [← hSW.target, ← hSW.off]; omega)]
    exact ⟨rfl, hc⟩

end Rmq
