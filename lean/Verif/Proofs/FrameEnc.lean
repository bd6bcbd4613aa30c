import Verif.Proofs.FrameRaw
import Verif.Props.Methods
/-! Serialising a frame, and what the receiver makes of it. -/
namespace Rmq

theorem poke2 {mem a b : Bytes} (h : a.length + b.length ≤ mem.length) :
    poke mem 0 a = some (splice mem 0 a) ∧ poke (splice mem 0 a) a.length b = some (splice mem 0 (a ++ b)) := by
  refine ⟨poke_of_le (by omega), ?_⟩
  rw [poke_of_le (by rw [splice_length (by omega)]; omega)]
  have := splice_splice (mem := mem) (o := 0) (a := a) (b := b) (by omega)
  simp only [Nat.zero_add] at this
  rw [this]

theorem finishFrame_eq (be : Bool) {mem : Bytes} {ty : UInt8} {ch : UInt16} {p g rest : Bytes} (hg : g.length = 4)
    (hp : p.length < 2 ^ 32) (hrest : 1 ≤ rest.length) (hm : mem = ty :: (beBytes 2 ch.toNat ++ g ++ p ++ rest)) :
    ∃ mem', finishFrame be mem p.length = .ok (rawFrame ty ch p FRAME_END) mem' ∧ mem'.length = mem.length := by
  have hv : (UInt32.ofNat p.length).toNat = p.length := by rw [UInt32.toNat_ofNat', Nat.mod_eq_of_lt hp]
  have hl : mem.length = p.length + 7 + rest.length := by rw [hm]; simp [beBytes_length, hg]; omega
  have e1 : splice mem 3 (e32 be (UInt32.ofNat p.length)) =
      ty :: (beBytes 2 ch.toNat ++ beBytes 4 p.length ++ p ++ rest) := by
    rw [e32_eq, hv, hm]
    unfold splice
    have h3 : (ty :: (beBytes 2 ch.toNat ++ g ++ p ++ rest)).take 3 = ty :: beBytes 2 ch.toNat := by
      simp [List.append_assoc, beBytes]
    have h7 : (ty :: (beBytes 2 ch.toNat ++ g ++ p ++ rest)).drop 7 = p ++ rest := by
      have : ty :: (beBytes 2 ch.toNat ++ g ++ p ++ rest) = (ty :: (beBytes 2 ch.toNat ++ g)) ++ (p ++ rest) := by simp
      rw [this, List.drop_append, List.drop_of_length_le (by simp [beBytes_length, hg])]
      simp [beBytes_length, hg]
    rw [beBytes_length, h3, h7]
    simp
  have e2 : splice (ty :: (beBytes 2 ch.toNat ++ beBytes 4 p.length ++ p ++ rest)) (7 + p.length) (e8 FRAME_END) =
      rawFrame ty ch p FRAME_END ++ rest.drop 1 := by
    have : ty :: (beBytes 2 ch.toNat ++ beBytes 4 p.length ++ p ++ rest) =
        (ty :: (beBytes 2 ch.toNat ++ beBytes 4 p.length ++ p)) ++ rest := by simp
    rw [this]
    have hl2 : (ty :: (beBytes 2 ch.toNat ++ beBytes 4 p.length ++ p)).length = 7 + p.length := by
      simp [beBytes_length]; omega
    unfold splice
    rw [List.take_append_of_le_length (by omega), List.take_of_length_le (by omega), List.drop_append,
      List.drop_of_length_le (by omega), hl2]
    simp [rawFrame, e8, native8]
  unfold finishFrame
  rw [poke_of_le (by rw [e32_eq, beBytes_length]; omega)]
  dsimp only
  rw [e1, HEADER_SIZE, poke_of_le (by simp [e8, native8, beBytes_length]; omega)]
  dsimp only
  rw [e2]
  refine ⟨rawFrame ty ch p FRAME_END ++ rest.drop 1, ?_, ?_⟩
  · rw [List.take_append_of_le_length (by rw [rawFrame_length]; simp [FOOTER_SIZE])]
    rw [List.take_of_length_le (by rw [rawFrame_length]; simp [FOOTER_SIZE])]
  · rw [List.length_append, rawFrame_length, List.length_drop]; omega

/-- The common prefix: type and channel. -/
theorem frame_prefix {mem : Bytes} (hm : 8 ≤ mem.length) (be : Bool) (ty : UInt8) (ch : UInt16) :
    poke mem 0 (e8 ty) = some (splice mem 0 (e8 ty)) ∧
    poke (splice mem 0 (e8 ty)) 1 (e16 be ch) = some (ty :: (beBytes 2 ch.toNat ++ mem.drop 3)) := by
  have h := poke2 (mem := mem) (a := e8 ty) (b := e16 be ch) (by
    rw [e16_eq, beBytes_length]; simp [e8, native8]; omega)
  refine ⟨h.1, ?_⟩
  have h2 := h.2
  simp only [e8, native8, List.length_cons, List.length_nil, Nat.zero_add] at h2 ⊢
  rw [h2, e16_eq]
  simp [splice, beBytes_length]

theorem splice_prefix {a m b : Bytes} {o : Nat} (ho : o = a.length) (hb : b.length ≤ m.length) :
    splice (a ++ m) o b = a ++ (b ++ m.drop b.length) := by
  subst ho
  unfold splice
  rw [List.take_append_of_le_length (Nat.le_refl _), List.take_length, List.drop_append,
    List.drop_of_length_le (by omega), List.nil_append, List.append_assoc]
  congr 3; omega

theorem frameToBytes_wire {p q : Payload} {ty : UInt8} {bs : Bytes} (hW : Wire p ty bs q) (be : Bool) (ch : UInt16)
    (mem : Bytes) (hfit : bs.length + 8 ≤ mem.length) (hsz : bs.length < 2 ^ 32) :
    ∃ mem', frameToBytes be mem mem.length ⟨ch, p⟩ = .ok (rawFrame ty ch bs FRAME_END) mem' ∧
      mem'.length = mem.length := by
  have hF := frame_prefix (mem := mem) (by omega) be p.frameType ch
  obtain ⟨g, hd3, hg⟩ : ∃ g : Bytes, mem.drop 3 = g ++ mem.drop 7 ∧ g.length = 4 := by
    refine ⟨(mem.drop 3).take 4, ?_, by simp; omega⟩
    have := (List.take_append_drop 4 (mem.drop 3)).symm
    rwa [List.drop_drop] at this
  have h7l : (mem.drop 7).length = mem.length - 7 := by simp
  cases hW with
  | heartbeat =>
    unfold frameToBytes
    simp only [Payload.frameType] at hF ⊢
    rw [hF.1]; dsimp only; rw [hF.2]; dsimp only
    obtain ⟨mem', h1, h2⟩ := finishFrame_eq be (p := []) hg hsz (rest := mem.drop 7) (ty := 8) (ch := ch)
      (by rw [h7l]; simp at hfit; omega) rfl
    refine ⟨mem', ?_, ?_⟩
    · rw [hd3]; simpa using h1
    · rw [h2]; simp [beBytes_length, hg]; simp at hfit; omega
  | body b =>
    unfold frameToBytes
    simp only [Payload.frameType] at hF ⊢
    rw [hF.1]; dsimp only; rw [hF.2]; dsimp only
    have e : (3 :: (beBytes 2 ch.toNat ++ mem.drop 3) : Bytes) =
        (3 :: (beBytes 2 ch.toNat ++ g)) ++ mem.drop 7 := by
      conv => lhs; rw [hd3]
      simp
    rw [e, HEADER_SIZE, poke_of_le (by simp [beBytes_length, hg]; omega)]
    dsimp only
    rw [splice_prefix (by simp [beBytes_length, hg]) (by omega)]
    obtain ⟨mem', h1, h2⟩ := finishFrame_eq be (p := bs) hg hsz (rest := (mem.drop 7).drop bs.length) (ty := 3) (ch := ch)
      (by simp; omega) rfl
    refine ⟨mem', ?_, ?_⟩
    · rw [← h1]; simp
    · rw [h2]; simp [beBytes_length, hg]; omega
  | @method p r hp hr he hf =>
    rw [List.length_append, beBytes_length] at hfit hsz
    unfold frameToBytes
    simp only [Payload.frameType] at hF ⊢
    rw [hF.1]; dsimp only; rw [hF.2]; dsimp only
    have e : (1 :: (beBytes 2 ch.toNat ++ mem.drop 3) : Bytes) =
        (1 :: (beBytes 2 ch.toNat ++ g)) ++ mem.drop 7 := by
      conv => lhs; rw [hd3]
      simp
    rw [e, HEADER_SIZE, poke_of_le (by rw [e32_eq, beBytes_length]; simp [beBytes_length, hg]; omega)]
    dsimp only
    rw [splice_prefix (by simp [beBytes_length, hg]) (by rw [e32_eq, beBytes_length]; omega), e32_eq, beBytes_length,
      List.drop_drop]
    have e2 : (1 :: (beBytes 2 ch.toNat ++ g)) ++ (beBytes 4 p.id.toNat ++ mem.drop (7 + 4)) =
        ((1 :: (beBytes 2 ch.toNat ++ g)) ++ beBytes 4 p.id.toNat) ++ mem.drop 11 := by simp
    have hl11 : ((1 :: (beBytes 2 ch.toNat ++ g)) ++ beBytes 4 p.id.toNat : Bytes).length = 7 + 4 := by
      simp [beBytes_length, hg]
    rw [e2, List.take_append_of_le_length (by omega), List.take_of_length_le (by omega), List.drop_append,
      List.drop_of_length_le (by omega), hl11, Nat.sub_self, List.drop_zero, List.nil_append]
    rw [FOOTER_SIZE, subWrap_of_le (by omega)]
    rw [(C10_method_wire_layout p hp r hr he be (mem.drop 11) (mem.length - (7 + 4 + 1)) (by simp; omega)).1 (by omega)]
    dsimp only
    obtain ⟨mem', h1, h2⟩ := finishFrame_eq be (p := beBytes 4 p.id.toNat ++ serArgs p.args r []) hg
      (by rw [List.length_append, beBytes_length]; omega)
      (rest := (mem.drop 11).drop (serArgs p.args r []).length) (ty := 1) (ch := ch) (by simp; omega) rfl
    refine ⟨mem', ?_, ?_⟩
    · rw [← h1]
      congr 1
      · simp
    · rw [h2]; simp [beBytes_length, hg]; omega
  | @header c size flags r hc hw he hf =>
    simp only [List.length_append, beBytes_length, List.length_cons, List.length_nil] at hfit hsz
    unfold frameToBytes
    simp only [Payload.frameType] at hF ⊢
    rw [hF.1]; dsimp only; rw [hF.2]; dsimp only
    have e : (2 :: (beBytes 2 ch.toNat ++ mem.drop 3) : Bytes) =
        (2 :: (beBytes 2 ch.toNat ++ g)) ++ mem.drop 7 := by
      conv => lhs; rw [hd3]
      simp
    rw [e, HEADER_SIZE, poke_of_le (by rw [e16_eq, beBytes_length]; simp [beBytes_length, hg]; omega)]
    dsimp only
    rw [splice_prefix (by simp [beBytes_length, hg]) (by rw [e16_eq, beBytes_length]; omega), e16_eq, beBytes_length,
      List.drop_drop, ← List.append_assoc]
    rw [poke_of_le (by rw [e16_eq, beBytes_length]; simp [beBytes_length, hg]; omega)]
    dsimp only
    rw [splice_prefix (by simp [beBytes_length, hg]) (by rw [e16_eq, beBytes_length]; simp; omega), e16_eq, beBytes_length,
      List.drop_drop, ← List.append_assoc]
    rw [poke_of_le (by rw [e64_eq, beBytes_length]; simp [beBytes_length, hg]; omega)]
    dsimp only
    rw [splice_prefix (by simp [beBytes_length, hg]) (by rw [e64_eq, beBytes_length]; simp; omega), e64_eq, beBytes_length,
      List.drop_drop, ← List.append_assoc]
    have hl19 : ((2 :: (beBytes 2 ch.toNat ++ g)) ++ beBytes 2 c.1.toNat ++ beBytes 2 (0 : UInt16).toNat ++
        beBytes 8 size.toNat : Bytes).length = 7 + 12 := by
      simp [beBytes_length, hg]
    rw [List.take_append_of_le_length (by omega), List.take_of_length_le (by omega), List.drop_append,
      List.drop_of_length_le (by omega), hl19, Nat.sub_self, List.drop_zero, List.nil_append]
    rw [FOOTER_SIZE, subWrap_of_le (by omega)]
    rw [(C13_properties_wire_layout hc be flags hw r he (mem.drop (7 + 2 + 2 + 8)) (mem.length - (7 + 12 + 1))
      (by simp; omega)).1 (by omega)]
    dsimp only
    obtain ⟨mem', h1, h2⟩ := finishFrame_eq be (p := beBytes 2 c.1.toNat ++ [0, 0] ++ beBytes 8 size.toNat ++
        (beBytes 2 flags.toNat ++ serProps flags r c.2)) hg
      (by simp only [List.length_append, beBytes_length, List.length_cons, List.length_nil]; omega)
      (rest := (mem.drop (7 + 2 + 2 + 8)).drop (2 + (serProps flags r c.2).length)) (ty := 2) (ch := ch)
      (by simp only [List.length_drop]; omega) rfl
    refine ⟨mem', ?_, ?_⟩
    · rw [← h1]
      congr 1
      · have : beBytes 2 (0 : UInt16).toNat = [0, 0] := by decide
        rw [this]; simp
      · simp only [List.length_append, beBytes_length, List.length_cons, List.length_nil]; omega
    · rw [h2]
      simp only [List.length_append, beBytes_length, List.length_cons, List.length_nil, List.length_drop, hg]; omega

/-- Decoding a method from bytes that start with its wire form. -/
theorem decMethod_ser {p : Proto} (hp : p ∈ protocol) {r : Rec} (hr : HasArgs p.args r) (he : AllArgs Dom.encodable p.args r)
    (hf : AllArgs Dom.faithful p.args r) {E : DEnv} (hG : E.Good) (hpre : serArgs p.args r [] <+: E.mem)
    (hl : (serArgs p.args r []).length ≤ E.len) (k : Nat) : ∃ d, decMethod E p.id k = .ok r d := by
  have hg := get?_of_nodup (r := r) (by rw [hr.fst_eq]; exact protocol_args_nodup p hp)
  have hD := DecodesTo.bind (f := fun _ => decOps _ (groupOps p.args [])) (allocate_ok hG St.NO_MEMORY)
    (decArgs_ser hG r p.args r hr hg he hf [] [] trivial (by simp))
  obtain ⟨c, hc⟩ := hD ⟨0, k⟩ (by simpa using hpre) (by simpa using hl)
  refine ⟨⟨([] ++ serArgs p.args r []).length, c⟩, ?_⟩
  simp only [decMethod, dec_switch hp]
  rw [hc]; simp [pendRec]

theorem decProperties_ser {c : UInt16 × List (Nat × Fld × Dom)} (hc : c ∈ propClasses) {flags : UInt32}
    (hw : flags.toNat < 65536 ∧ ¬ flagSet flags 0) {r : Rec} (he : PropsOK Dom.encodable flags r c.2)
    (hf : PropsOK Dom.faithful flags r c.2) {E : DEnv} (hG : E.Good)
    (hpre : beBytes 2 flags.toNat ++ serProps flags r c.2 <+: E.mem)
    (hl : 2 + (serProps flags r c.2).length ≤ E.len) (k : Nat) :
    ∃ d, decProperties E c.1 k = .ok (flags, flaggedProps flags r c.2) d := by
  have hfe : FlaggedEncodable flags r c.2 := fun p hm hs v hv => by
    obtain ⟨v', h1, _, h2⟩ := he p hm hs
    rw [hv] at h1; cases h1; exact h2
  have hD := DecodesTo.bind (f := fun flags => match switch c.1 decPropTable with
        | none => M.fail St.UNKNOWN_CLASS
        | some ps => do
          M.orFail St.NO_MEMORY (allocate _)
          let r ← decProps _ flags ps
          pure (flags, r)) (decFlags_ser hG.mem hw) (b₂ := serProps flags r c.2)
        (v := (flags, flaggedProps flags r c.2)) (by
          simp only [decProp_switch hc]
          exact DecodesTo.bind (b₁ := []) (allocate_ok hG St.NO_MEMORY)
            (DecodesTo.map (fun r => (flags, r)) (decProps_ser hG flags r c.2 (propClasses_ok c hc) hf hfe)))
  obtain ⟨k', hk⟩ := hD ⟨0, k⟩ (by simpa using hpre) (by simpa [beBytes_length] using hl)
  exact ⟨_, hk⟩

/-- The receiver's view of a well-formed payload. -/
theorem payloadPhase_wire {p q : Payload} {ty : UInt8} {bs : Bytes} (hW : Wire p ty bs q) (E : PEnv)
    (hA : ∀ k, E.alloc k = true) (s : PState) (ch : UInt16) (c : Nat) (hsz : bs.length ≤ 2 ^ 30) :
    ∃ a, payloadPhase E s ch ty bs c = .ok (c, some ⟨ch, q⟩) { s with allocs := a }.idle := by
  cases hW with
  | heartbeat => exact ⟨s.allocs, rfl⟩
  | body b => exact ⟨s.allocs, rfl⟩
  | @method p r hp hr he hf =>
    rw [List.length_append, beBytes_length] at hsz
    unfold payloadPhase
    rw [if_pos rfl]
    have h1 : rd32 E.be (beBytes 4 p.id.toNat ++ serArgs p.args r [] ++ [FRAME_END]) 0 = some p.id := by
      unfold rd32
      rw [readAt_of_le (by simp [beBytes_length])]
      rw [List.drop_zero, List.append_assoc, List.take_append_of_le_length (by simp [beBytes_length]),
        List.take_of_length_le (by simp [beBytes_length]), Option.bind_some, ← e32_eq E.be, d32_e32]
    have h2 : (beBytes 4 p.id.toNat ++ serArgs p.args r [] ++ [FRAME_END]).drop 4 = serArgs p.args r [] ++ [FRAME_END] := by
      rw [List.append_assoc, List.drop_append, List.drop_of_length_le (by simp [beBytes_length])]
      simp [beBytes_length]
    rw [h1, h2]
    dsimp only
    have h3 : subWrap ((beBytes 4 p.id.toNat ++ serArgs p.args r []).length + 8) 12 = (serArgs p.args r []).length := by
      rw [subWrap_of_le (by simp [beBytes_length])]; simp [beBytes_length]
    rw [h3]
    obtain ⟨d, hd⟩ := decMethod_ser hp hr he hf
      (E := ⟨serArgs p.args r [] ++ [FRAME_END], (serArgs p.args r []).length, E.be, E.alloc⟩)
      ⟨by simp, by dsimp only; omega, hA⟩ (List.prefix_append _ _) (Nat.le_refl _) s.allocs
    rw [hd]
    exact ⟨_, rfl⟩
  | @header c0 size flags r hc hw he hf =>
    simp only [List.length_append, beBytes_length, List.length_cons, List.length_nil] at hsz
    unfold payloadPhase
    rw [if_neg (by decide), if_pos rfl]
    have h1 : rd16 E.be (beBytes 2 c0.1.toNat ++ [0, 0] ++ beBytes 8 size.toNat ++
        (beBytes 2 flags.toNat ++ serProps flags r c0.2) ++ [FRAME_END]) 0 = some c0.1 := by
      unfold rd16
      rw [readAt_of_le (by simp [beBytes_length])]
      simp only [List.drop_zero, List.append_assoc]
      rw [List.take_append_of_le_length (by simp [beBytes_length]),
        List.take_of_length_le (by simp [beBytes_length]), Option.bind_some, ← e16_eq E.be, d16_e16]
    have h2 : rd64 E.be (beBytes 2 c0.1.toNat ++ [0, 0] ++ beBytes 8 size.toNat ++
        (beBytes 2 flags.toNat ++ serProps flags r c0.2) ++ [FRAME_END]) 4 = some size := by
      unfold rd64
      rw [readAt_of_le (by simp [beBytes_length]; omega)]
      have : (beBytes 2 c0.1.toNat ++ [0, 0] ++ beBytes 8 size.toNat ++
        (beBytes 2 flags.toNat ++ serProps flags r c0.2) ++ [FRAME_END]) = (beBytes 2 c0.1.toNat ++ [0, 0]) ++
          (beBytes 8 size.toNat ++ (beBytes 2 flags.toNat ++ serProps flags r c0.2 ++ [FRAME_END])) := by simp
      rw [this, List.drop_append, List.drop_of_length_le (by simp [beBytes_length])]
      simp only [List.length_append, beBytes_length, List.length_cons, List.length_nil, List.nil_append, Nat.sub_self,
        Nat.zero_add, Nat.reduceAdd, List.drop_zero]
      rw [List.take_append_of_le_length (by simp [beBytes_length]),
        List.take_of_length_le (by simp [beBytes_length]), Option.bind_some, ← e64_eq E.be, d64_e64]
    have h3 : (beBytes 2 c0.1.toNat ++ [0, 0] ++ beBytes 8 size.toNat ++
        (beBytes 2 flags.toNat ++ serProps flags r c0.2) ++ [FRAME_END]).drop 12 =
          beBytes 2 flags.toNat ++ serProps flags r c0.2 ++ [FRAME_END] := by
      have : (beBytes 2 c0.1.toNat ++ [0, 0] ++ beBytes 8 size.toNat ++
        (beBytes 2 flags.toNat ++ serProps flags r c0.2) ++ [FRAME_END]) = (beBytes 2 c0.1.toNat ++ [0, 0] ++
          beBytes 8 size.toNat) ++ (beBytes 2 flags.toNat ++ serProps flags r c0.2 ++ [FRAME_END]) := by simp
      rw [this, List.drop_append, List.drop_of_length_le (by simp [beBytes_length])]
      simp [beBytes_length]
    rw [h1, h2, h3]
    dsimp only
    have h4 : subWrap ((beBytes 2 c0.1.toNat ++ [0, 0] ++ beBytes 8 size.toNat ++
        (beBytes 2 flags.toNat ++ serProps flags r c0.2)).length + 8) 20 = 2 + (serProps flags r c0.2).length := by
      rw [subWrap_of_le] <;> simp [beBytes_length] <;> omega
    rw [h4]
    obtain ⟨d, hd⟩ := decProperties_ser hc hw he hf
      (E := ⟨beBytes 2 flags.toNat ++ serProps flags r c0.2 ++ [FRAME_END], 2 + (serProps flags r c0.2).length, E.be,
        E.alloc⟩)
      ⟨by simp [beBytes_length], by dsimp only; omega, hA⟩ (List.prefix_append _ _) (Nat.le_refl _) s.allocs
    rw [hd]
    exact ⟨_, rfl⟩

theorem poke_len {m : Bytes} {o : Nat} {bs : Bytes} {m' : Bytes} (h : poke m o bs = some m') : m'.length = m.length := by
  unfold poke at h
  by_cases hc : o + bs.length ≤ m.length
  · rw [if_pos hc] at h; cases h; exact splice_length hc
  · rw [if_neg hc] at h; cases h

end Rmq
