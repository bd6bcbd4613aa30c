import Verif.Proofs.FrameFirst
import Verif.Props.Methods
/-! Memory safety of the receiver. -/
namespace Rmq

theorem readAt_none {m : Bytes} {o n : Nat} (h : ¬ o + n ≤ m.length) : readAt m o n = none := if_neg h

theorem no_method_206 : ∀ p ∈ protocol, p.id.toNat % 256 ≠ 206 := by decide +kernel

theorem beVal_append_one (a : Bytes) (b : UInt8) : beVal (a ++ [b]) % 256 = b.toNat := by
  have : beVal (a ++ [b]) = beVal a * 256 + b.toNat := by
    simp [beVal]
  have := b.toNat_lt
  omega

theorem payload_bad_iff (E : PEnv) (p : Bytes) (h12 : 12 ≤ p.length) :
    BadFlagWords ⟨(p ++ [FRAME_END]).drop 12, p.length - 12, E.be, E.alloc⟩ ↔
    (4 ≤ p.length - 12 ∧ beVal ((p.drop 12).take 2) % 2 = 1 ∧
      (2 ^ 15 ≤ beVal ((p.drop 14).take 2) ∨ (beVal ((p.drop 14).take 2) % 2 = 1 ∧ 6 ≤ p.length - 12))) := by
  unfold BadFlagWords
  dsimp only
  by_cases h : 4 ≤ p.length - 12
  · have e1 : wordAt ((p ++ [FRAME_END]).drop 12) 0 = beVal ((p.drop 12).take 2) := by
      unfold wordAt
      rw [List.drop_zero, List.drop_append_of_le_length (by omega), List.take_append_of_le_length (by simp; omega)]
    have e2 : wordAt ((p ++ [FRAME_END]).drop 12) 2 = beVal ((p.drop 14).take 2) := by
      unfold wordAt
      rw [List.drop_drop, List.drop_append_of_le_length (by omega), List.take_append_of_le_length (by simp; omega)]
    rw [e1, e2]
  · constructor <;> intro hh <;> exact absurd hh.1 h

/-- The receiver's `switch` on a complete frame is free of undefined behaviour exactly for acceptable payloads. -/
theorem payloadPhase_safe (E : PEnv) (s : PState) (ch : UInt16) (ty : UInt8) (p : Bytes) (c : Nat) (hOK : PayloadOK ty p)
    (hsz : p.length ≤ 2 ^ 30) :
    (∃ f s', payloadPhase E s ch ty p c = .ok (c, f) s') ∨ (∃ e s', payloadPhase E s ch ty p c = .err e s') := by
  unfold payloadPhase
  by_cases t1 : ty = 1
  · rw [if_pos t1]
    have h3 := hOK.1 t1
    by_cases h4 : 4 ≤ p.length
    · have hl : (((p ++ [FRAME_END]).drop 0).take 4).length = 4 := by simp; omega
      unfold rd32
      rw [readAt_of_le (by simp; omega), Option.bind_some, d32_spec _ _ hl]
      dsimp only
      rw [subWrap_of_le (by omega)]
      rcases C11_decode_method_safe ⟨(p ++ [FRAME_END]).drop 4, p.length + 8 - 12, E.be, E.alloc⟩ (by simp; omega)
        (by simp; omega) (UInt32.ofNat (beVal (((p ++ [FRAME_END]).drop 0).take 4))) s.allocs with ⟨r, d, h, _⟩ | ⟨e, d, h, _⟩
      · rw [h]; exact Or.inl ⟨_, _, rfl⟩
      · rw [h]; exact Or.inr ⟨_, _, rfl⟩
    · have hl : (((p ++ [FRAME_END]).drop 0).take 4).length = 4 := by simp; omega
      unfold rd32
      rw [readAt_of_le (by simp; omega), Option.bind_some, d32_spec _ _ hl]
      dsimp only
      have hid : ((p ++ [FRAME_END]).drop 0).take 4 = p ++ [FRAME_END] := by
        rw [List.drop_zero, List.take_of_length_le (by simp; omega)]
      have hunk : ∀ q ∈ protocol, q.id ≠ UInt32.ofNat (beVal (((p ++ [FRAME_END]).drop 0).take 4)) := by
        intro q hq he
        have h1 := no_method_206 q hq
        apply h1
        rw [he, hid, UInt32.toNat_ofNat', Nat.mod_mod_of_dvd _ (by decide), beVal_append_one]
        rfl
      have hu := (C12_unknown_methods _ hunk).2.2.2 ⟨(p ++ [FRAME_END]).drop 4, subWrap (p.length + 8) 12, E.be, E.alloc⟩
        s.allocs
      revert hu
      cases decMethod _ _ s.allocs with
      | ok a d => intro h; cases h
      | err e d => intro _; exact Or.inr ⟨_, _, rfl⟩
      | ub => intro h; cases h
      | fuel => intro h; cases h
  rw [if_neg t1]
  by_cases t2 : ty = 2
  · rw [if_pos t2]
    obtain ⟨h12, hbad⟩ := hOK.2 t2
    have hl : (((p ++ [FRAME_END]).drop 0).take 2).length = 2 := by simp; omega
    have hl' : (((p ++ [FRAME_END]).drop 4).take 8).length = 8 := by simp; omega
    unfold rd16 rd64
    rw [readAt_of_le (by simp; omega), Option.bind_some, d16_spec _ _ hl, readAt_of_le (by simp; omega), Option.bind_some,
      d64_spec _ _ hl']
    dsimp only
    rw [subWrap_of_le (by omega), show p.length + 8 - 20 = p.length - 12 by omega]
    rcases C14_decode_properties_safe_partial ⟨(p ++ [FRAME_END]).drop 12, p.length - 12, E.be, E.alloc⟩ (by simp; omega)
      (by simp; omega) (UInt16.ofNat (beVal (((p ++ [FRAME_END]).drop 0).take 2))) s.allocs
      (fun h => hbad ((payload_bad_iff E p h12).1 h)) with ⟨r, d, h, _⟩ | ⟨e, d, h, _⟩
    · rw [h]; exact Or.inl ⟨_, _, rfl⟩
    · rw [h]; exact Or.inr ⟨_, _, rfl⟩
  rw [if_neg t2]
  by_cases t3 : ty = 3
  · rw [if_pos t3]; exact Or.inl ⟨_, _, rfl⟩
  rw [if_neg t3]
  by_cases t4 : ty = 8
  · rw [if_pos t4]; exact Or.inl ⟨_, _, rfl⟩
  · rw [if_neg t4]; exact Or.inl ⟨_, _, rfl⟩

theorem payloadPhase_unsafe (E : PEnv) (s : PState) (ch : UInt16) (ty : UInt8) (p : Bytes) (c : Nat) (hOK : ¬ PayloadOK ty p) :
    payloadPhase E s ch ty p c = .ub := by
  unfold payloadPhase
  by_cases t1 : ty = 1
  · rw [if_pos t1]
    have h3 : p.length < 3 := by
      refine Classical.byContradiction fun h => hOK ⟨fun _ => by omega, fun h2 => ?_⟩
      rw [t1] at h2; exact absurd h2 (by decide)
    unfold rd32
    rw [readAt_none (by simp; omega)]
    rfl
  rw [if_neg t1]
  by_cases t2 : ty = 2
  · rw [if_pos t2]
    by_cases h11 : p.length < 11
    · unfold rd64
      rw [readAt_none (o := 4) (by simp; omega)]
      cases rd16 E.be (p ++ [FRAME_END]) 0 <;> rfl
    have hl : (((p ++ [FRAME_END]).drop 0).take 2).length = 2 := by simp; omega
    have hl' : (((p ++ [FRAME_END]).drop 4).take 8).length = 8 := by simp; omega
    unfold rd16 rd64
    rw [readAt_of_le (by simp; omega), Option.bind_some, d16_spec _ _ hl, readAt_of_le (by simp; omega), Option.bind_some,
      d64_spec _ _ hl']
    dsimp only
    by_cases h12 : p.length = 11
    · have hd : (p ++ [FRAME_END]).drop 12 = [] := List.drop_of_length_le (by simp; omega)
      have hs : subWrap (p.length + 8) 20 = 2 ^ 64 - 1 := by rw [h12]; rfl
      have : ∀ cls, decProperties ⟨(p ++ [FRAME_END]).drop 12, subWrap (p.length + 8) 20, E.be, E.alloc⟩ cls s.allocs = .ub := by
        intro cls; rw [hd, hs]; rfl
      rw [this]
    · have h12' : 12 ≤ p.length := by omega
      rw [subWrap_of_le (by omega), show p.length + 8 - 20 = p.length - 12 by omega]
      have hb : BadFlagWords ⟨(p ++ [FRAME_END]).drop 12, p.length - 12, E.be, E.alloc⟩ := by
        rw [payload_bad_iff E p h12']
        refine Classical.byContradiction fun h => hOK ⟨fun h1 => absurd h1 t1, fun _ => ⟨h12', h⟩⟩
      rw [C14_continuation_words_undefined _ (by simp; omega) _ _ hb]
  · exact absurd ⟨fun h => absurd h t1, fun h => absurd h t2⟩ hOK

/-- Reading a safe stream from an idle receiver is free of undefined behaviour. -/
theorem drain_safe (E : PEnv) {fm : Nat} (hfm : fm ≤ 2 ^ 30) {d : Bytes} (hd : SafeStream fm d) :
    ∀ s : PState, Ready s → s.mode = .idle → s.frameMax = fm →
      (∃ s', (drain E d.length s d).2 = .ok () s') ∨ (∃ e s', (drain E d.length s d).2 = .err e s') := by
  have step : ∀ (s : PState) (d : Bytes), Ready s → (∃ e s', handleInput E s d = .err e s') → d ≠ [] →
      (∃ s', (drain E d.length s d).2 = .ok () s') ∨ (∃ e s', (drain E d.length s d).2 = .err e s') := by
    intro s d hR ⟨e, s', h⟩ hne
    obtain ⟨n, hn⟩ : ∃ n, d.length = n + 1 := ⟨d.length - 1, by have := List.length_pos_iff.mpr hne; omega⟩
    right
    refine ⟨e, s', ?_⟩
    rw [hn, drain_succ hne, h]
  have all : ∀ (s : PState) (d : Bytes), Ready s → (∃ s', handleInput E s d = .ok (d.length, none) s') → d ≠ [] →
      (∃ s', (drain E d.length s d).2 = .ok () s') ∨ (∃ e s', (drain E d.length s d).2 = .err e s') := by
    intro s d hR ⟨s', h⟩ hne
    obtain ⟨n, hn⟩ : ∃ n, d.length = n + 1 := ⟨d.length - 1, by have := List.length_pos_iff.mpr hne; omega⟩
    left
    refine ⟨s', ?_⟩
    rw [hn, drain_succ hne, h]
    dsimp only
    rw [List.drop_length]
    cases n <;> simp [drain]
  have fh : ∀ (ty : UInt8) (ch : UInt16) (n : Nat) (rest : Bytes),
      ty :: (beBytes 2 ch.toNat ++ beBytes 4 n ++ rest) = frameHdr ty ch n ++ rest := by intros; simp [frameHdr]
  induction hd with
  | @short d h =>
    intro s hR hm hf
    by_cases hne : d = []
    · subst hne; left; exact ⟨s, rfl⟩
    refine all s d hR ?_ hne
    obtain ⟨hW, _⟩ := hR.wake
    obtain ⟨m, hr, ht, ho⟩ := hW.inv.raw
    have hs := hR.inv.shape
    rw [hm] at hs
    have e1 : s.wake.target = 7 := by unfold PState.wake; rw [if_pos hm]; exact hs.2.2
    have e2 : s.wake.off = 0 := by unfold PState.wake; rw [if_pos hm]; exact hs.2.1
    rw [handleInput_eq hne, consumeData_part hr ho ht (by omega)]
    dsimp only
    rw [if_pos (by simp; omega)]
    exact ⟨_, rfl⟩
  | tooLarge ty ch n rest hn hbig =>
    intro s hR hm hf
    rw [fh]
    refine step s _ hR ?_ (by intro h; have := congrArg List.length h; simp [frameHdr_length] at this)
    obtain ⟨t, t1, t2, t3, _, _, _, _, _, t9⟩ := handleInput_hdr E hR hm ty ch n rest
    rw [t9, headerPhase_eq, (headerOpen_hdr E t1 t2 (by simp [hR.inv.hdr]) hn).1 (Or.inr (by omega))]
    exact ⟨_, _, rfl⟩
  | incomplete ty ch n rest hn hlt =>
    intro s hR hm hf
    rw [fh]
    have hne : frameHdr ty ch n ++ rest ≠ [] := by intro h; have := congrArg List.length h; simp [frameHdr_length] at this
    obtain ⟨t, t1, t2, t3, _, _, _, t7, _, t9⟩ := handleInput_hdr E hR hm ty ch n rest
    rcases (headerOpen_hdr E t1 t2 (by simp [hR.inv.hdr]) (by omega)).2 (by omega) (by omega) with ⟨s', hO, _⟩ |
      ⟨k, s', hO, e1, e2, e3, e4, e5, e6, e7, _, _, e8⟩
    · refine step s _ hR ?_ hne
      rw [t9, headerPhase_eq, hO]; exact ⟨_, _, rfl⟩
    · refine all s _ hR ?_ hne
      rw [t9, headerPhase_eq, hO]
      dsimp only
      unfold contBody
      have hraw' : s'.raw = some (frameHdr ty ch n ++ ((List.range (n + 8)).map (E.fresh k)).drop 7) := by
        simp [PState.raw, e8]
      rw [consumeData_part hraw' (by omega) (by simp [frameHdr_length]; omega) (by omega)]
      dsimp only
      rw [if_pos (by simp; omega)]
      rw [List.length_append, frameHdr_length]
      exact ⟨_, rfl⟩
  | badEnd ty ch p fe rest hp hfe =>
    intro s hR hm hf
    refine step s _ hR ?_ (by intro h; have := congrArg List.length h; simp [rawFrame_length] at this)
    rcases handleInput_raw E hR hm ty ch p fe rest (by omega) (by omega) with ⟨s', h, _⟩ | ⟨sB, hB, h⟩
    · exact ⟨_, _, h⟩
    · rw [h, bodyPhase_bad E _ hB hfe]; exact ⟨_, _, rfl⟩
  | @frame ty ch p rest hp hOK _ ih =>
    intro s hR hm hf
    have hne : rawFrame ty ch p FRAME_END ++ rest ≠ [] := by
      intro h; have := congrArg List.length h; simp [rawFrame_length] at this
    rcases handleInput_raw E hR hm ty ch p FRAME_END rest (by omega) (by omega) with ⟨s', h, _⟩ | ⟨sB, hB, h⟩
    · exact step s _ hR ⟨_, _, h⟩ hne
    · have hg := bodyPhase_good E (p.length + 8) hB
      rcases payloadPhase_safe E sB ch ty p (p.length + 8) hOK (by omega) with ⟨f, s', h'⟩ | ⟨e, s', h'⟩
      · rw [hg, h'] at h
        rw [h'] at hg
        obtain ⟨_, a, q, hs'⟩ := bodyPhase_ok hg
        have hR' := (handleInput_ready hR hne h).1
        have := ih s' hR' (by rw [hs']; rfl) (by rw [hs']; exact hB.frameMax.trans hf)
        have hl : (rawFrame ty ch p FRAME_END ++ rest).length = (p.length + 7 + rest.length) + 1 := by
          rw [List.length_append, rawFrame_length]; omega
        rw [hl, drain_succ hne, h]
        dsimp only
        have hdr : (rawFrame ty ch p FRAME_END ++ rest).drop (p.length + 8) = rest := by
          rw [List.drop_append, List.drop_of_length_le (by rw [rawFrame_length]; omega), rawFrame_length]; simp
        rw [hdr, drain_bound E (m := rest.length) hR' (by omega) (by omega)]
        exact this
      · exact step s _ hR ⟨_, _, by rw [h, hg, h']⟩ hne

end Rmq
