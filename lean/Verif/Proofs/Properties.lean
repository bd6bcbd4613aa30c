import Verif.Proofs.Methods
/-! Encoding and decoding of content properties. -/
namespace Rmq

def propOps (ps : List (Nat × Fld × Dom)) : List (Nat × FT × Fld) := ps.map fun p => (p.1, p.2.2.ft, p.2.1)

theorem encPropTable_eq : encPropTable = propClasses.map (fun c => (c.1, propOps c.2)) := by decide +kernel
theorem decPropTable_eq : decPropTable = propClasses.map (fun c => (c.1, propOps c.2)) := by decide +kernel

theorem switch_mem {κ α β : Type} [DecidableEq κ] (g : α → β) (l : List (κ × α)) (hn : (l.map (·.1)).Nodup) :
    (∀ p ∈ l, switch p.1 (l.map fun p => (p.1, g p.2)) = some (g p.2)) ∧
    (∀ k, (∀ p ∈ l, p.1 ≠ k) → switch k (l.map fun p => (p.1, g p.2)) = none) := by
  induction l with
  | nil => exact ⟨(fun p hp => by cases hp), (fun id _ => rfl)⟩
  | cons a l ih =>
    rw [List.map_cons, List.nodup_cons] at hn
    obtain ⟨ih1, ih2⟩ := ih hn.2
    constructor
    · intro p hp
      rcases List.mem_cons.mp hp with rfl | hp
      · simp [switch]
      · have hne : a.1 ≠ p.1 := fun e => hn.1 (by rw [e]; exact List.mem_map_of_mem hp)
        have := ih1 p hp
        simp only [switch, List.map_cons, List.find?_cons, hne, decide_false] at this ⊢
        exact this
    · intro id h
      have := ih2 id (fun p hp => h p (by simp [hp]))
      have hne := h a (by simp)
      simp only [switch, List.map_cons, List.find?_cons, hne, decide_false] at this ⊢
      exact this

theorem propClasses_nodup : (propClasses.map (·.1)).Nodup := by decide +kernel

theorem and_bit {flags : UInt32} {i : Nat} (hi : i < 32) :
    (flags &&& UInt32.ofNat (1 <<< i) ≠ 0) ↔ flagSet flags i := by
  have h1 : (UInt32.ofNat (1 <<< i)).toNat = 2 ^ i := by
    rw [UInt32.toNat_ofNat', Nat.one_shiftLeft]
    exact Nat.mod_eq_of_lt (Nat.pow_lt_pow_right (by omega) hi)
  rw [ne_eq, ← UInt32.toNat_inj, UInt32.toNat_and, h1, flagSet]
  constructor
  · intro h
    refine Classical.byContradiction fun hf => ?_
    refine h (Nat.eq_of_testBit_eq fun j => ?_)
    rw [Nat.testBit_and, Nat.testBit_two_pow]
    by_cases hj : i = j
    · subst hj; simp at hf; simp [hf]
    · simp [hj]
  · intro h h0
    have := congrArg (·.testBit i) h0
    simp [Nat.testBit_and, Nat.testBit_two_pow, h] at this

/-- Side conditions on a property list: bits below 32 and no bit-typed property. -/
def PropList (ps : List (Nat × Fld × Dom)) : Prop := ∀ p ∈ ps, p.1 < 32 ∧ p.2.2 ≠ .bit
instance (ps : List (Nat × Fld × Dom)) : Decidable (PropList ps) := inferInstanceAs (Decidable (∀ p ∈ ps, _))

theorem propClasses_ok : ∀ c ∈ propClasses, PropList c.2 := by decide +kernel

/-- Every flagged property is encodable. -/
def FlaggedEncodable (flags : UInt32) (r : Rec) (ps : List (Nat × Fld × Dom)) : Prop :=
  ∀ p ∈ ps, flagSet flags p.1 → ∀ v, r.get? p.2.1 = some v → p.2.2.encodable v

theorem encProps_encodes (be : Bool) (len : Nat) (flags : UInt32) (r : Rec) (ps : List (Nat × Fld × Dom))
    (hl : PropList ps) (hp : PropsOK (fun _ _ => True) flags r ps) :
    Encodes len TableErr (FlaggedEncodable flags r ps) (serProps flags r ps) (encProps be len flags r (propOps ps)) := by
  induction ps with
  | nil => exact Encodes.pure.congr_valid (by simp [FlaggedEncodable])
  | cons a ps ih =>
    obtain ⟨i, f, d⟩ := a
    have hi := (hl (i, f, d) (by simp))
    have ih' := ih (fun p h => hl p (by simp [h])) (fun p h => hp p (by simp [h]))
    have e : encProps be len flags r (propOps ((i, f, d) :: ps)) =
      ((if flags &&& UInt32.ofNat (1 <<< i) ≠ 0 then encField be len d.ft (r.get? f) else Pure.pure ()) >>= fun _ =>
        encProps be len flags r (propOps ps)) := rfl
    rw [e]
    by_cases hs : flagSet flags i
    · rw [if_pos ((and_bit hi.1).mpr hs)]
      obtain ⟨v, hv, ha, _⟩ := hp (i, f, d) (by simp) hs
      dsimp only at hv ha
      have hser : serProps flags r ((i, f, d) :: ps) = serDom d v ++ serProps flags r ps := by
        simp only [serProps, hv, hs, if_true]
      rw [hser, hv]
      refine ((encField_encodes be len d v hi.2 ha).bind (y := fun _ => encProps be len flags r (propOps ps)) ih').congr_valid ?_
      constructor
      · rintro ⟨h1, h2⟩ p hpm hps w hw
        rcases List.mem_cons.mp hpm with rfl | hpm
        · dsimp only at hw ⊢
          rw [hv] at hw; cases hw; exact h1
        · exact h2 p hpm hps w hw
      · intro h
        exact ⟨h (i, f, d) (by simp) hs v hv, fun p hpm => h p (by simp [hpm])⟩
    · rw [if_neg (fun h => hs ((and_bit hi.1).mp h))]
      have hser : serProps flags r ((i, f, d) :: ps) = serProps flags r ps := by
        simp only [serProps, hs, if_false]; split <;> rfl
      rw [hser]
      refine (Encodes.pure.bind (y := fun _ => encProps be len flags r (propOps ps)) ih').congr_valid ?_
      constructor
      · rintro ⟨_, h2⟩ p hpm hps w hw
        rcases List.mem_cons.mp hpm with rfl | hpm
        · exact absurd hps hs
        · exact h2 p hpm hps w hw
      · intro h
        exact ⟨trivial, fun p hpm => h p (by simp [hpm])⟩

theorem decProps_ser {E : DEnv} (hG : E.Good) (flags : UInt32) (r : Rec) (ps : List (Nat × Fld × Dom))
    (hl : PropList ps) (hp : PropsOK Dom.faithful flags r ps) (he : FlaggedEncodable flags r ps) :
    DecodesTo E (decProps E flags (propOps ps)) (serProps flags r ps) (flaggedProps flags r ps) := by
  induction ps with
  | nil => exact DecodesTo.pure _
  | cons a ps ih =>
    obtain ⟨i, f, d⟩ := a
    have hi := (hl (i, f, d) (by simp))
    have ih' := ih (fun p h => hl p (by simp [h])) (fun p h => hp p (by simp [h])) (fun p h => he p (by simp [h]))
    have e : decProps E flags (propOps ((i, f, d) :: ps)) =
      (if flags &&& UInt32.ofNat (1 <<< i) ≠ 0 then (decField E d.ft >>= fun v =>
        decProps E flags (propOps ps) >>= fun rest => Pure.pure ((f, v) :: rest)) else decProps E flags (propOps ps)) := rfl
    rw [e]
    by_cases hs : flagSet flags i
    · rw [if_pos ((and_bit hi.1).mpr hs)]
      obtain ⟨v, hv, ha, hf⟩ := hp (i, f, d) (by simp) hs
      dsimp only at hv ha hf
      have hser : serProps flags r ((i, f, d) :: ps) = serDom d v ++ serProps flags r ps := by
        simp only [serProps, hv, hs, if_true]
      have hfl : flaggedProps flags r ((i, f, d) :: ps) = (f, v) :: flaggedProps flags r ps := by
        simp only [flaggedProps, hv, hs, if_true]
      rw [hser, hfl]
      exact DecodesTo.bind (decField_ser hG d v hi.2 ha (he (i, f, d) (by simp) hs v hv) hf) (DecodesTo.map _ ih')
    · rw [if_neg (fun h => hs ((and_bit hi.1).mp h))]
      have hser : serProps flags r ((i, f, d) :: ps) = serProps flags r ps := by
        simp only [serProps, hs, if_false]; split <;> rfl
      have hfl : flaggedProps flags r ((i, f, d) :: ps) = flaggedProps flags r ps := by
        simp only [flaggedProps, hs, if_false]; split <;> rfl
      rw [hser, hfl]; exact ih'

theorem decProps_safe {E : DEnv} (hE : E.len ≤ E.mem.length) (hB : E.len ≤ 2 ^ 30) (flags : UInt32)
    (ps : List (Nat × FT × Fld)) (s : DState) (hs : s.off ≤ E.len) : SafeRes E DecErr 0 s (decProps E flags ps s) := by
  induction ps generalizing s with
  | nil => exact SafeRes.pure _ hs
  | cons a ps ih =>
    obtain ⟨i, t, f⟩ := a
    unfold decProps
    by_cases h : flags &&& UInt32.ofNat (1 <<< i) ≠ 0
    · rw [if_pos h]
      exact SafeRes.weaken (Nat.zero_le 1) (SafeRes.bind (m₁ := 1) (m₂ := 0) (decField_safe hE hB t s hs)
        fun v s1 _ _ h1 => SafeRes.map _ (ih s1 h1))
    · rw [if_neg h]; exact ih s hs

/-! ### flag words -/

/-- A flag set that fits one word and leaves the continuation bit clear. -/
def OneWord (flags : UInt32) : Prop := flags.toNat < 65536 ∧ ¬ flagSet flags 0

theorem oneWord_remainder {flags : UInt32} (h : OneWord flags) : flags >>> 16 = 0 := by
  rw [← UInt32.toNat_inj, UInt32.toNat_shiftRight]
  show flags.toNat >>> 16 = 0
  rw [Nat.shiftRight_eq_div_pow]; exact Nat.div_eq_of_lt h.1

theorem oneWord_partial {flags : UInt32} (h : OneWord flags) : ((flags &&& 0xFFFE).toUInt16).toNat = flags.toNat := by
  rw [UInt32.toNat_toUInt16, UInt32.toNat_and]
  show (flags.toNat &&& 65534) % 65536 = flags.toNat
  have h0 : flags.toNat.testBit 0 = false := by
    have := h.2; simpa [flagSet] using this
  have : flags.toNat &&& 65534 = flags.toNat := by
    apply Nat.eq_of_testBit_eq
    intro j
    rw [Nat.testBit_and]
    by_cases hj : j < 16
    · by_cases h00 : j = 0
      · subst h00; simp only [h0, Bool.false_and]
      · have : (65534).testBit j = true := by
          have : ∀ j < 16, j ≠ 0 → (65534).testBit j = true := by decide
          exact this j hj h00
        simp [this]
    · have : flags.toNat.testBit j = false :=
        Nat.testBit_lt_two_pow (Nat.lt_of_lt_of_le h.1 (by
          calc 65536 = 2 ^ 16 := rfl
            _ ≤ 2 ^ j := Nat.pow_le_pow_right (by omega) (by omega)))
      simp [this]
  rw [this]; exact Nat.mod_eq_of_lt h.1

theorem encFlags_encodes (be : Bool) (len : Nat) {flags : UInt32} (h : OneWord flags) :
    Encodes len TableErr True (beBytes 2 flags.toNat) (encFlags be len 3 flags) := by
  unfold encFlags
  simp only [oneWord_remainder h, ne_eq, not_true_eq_false, if_false]
  have h1 := Encodes.enc16 (len := len) (errs := TableErr) (e := St.BAD_AMQP_DATA) TableErr.bad be
    (flags &&& 0xFFFE).toUInt16
  rw [oneWord_partial h] at h1
  have := h1.bind (y := fun _ => Pure.pure ()) Encodes.pure
  simpa using this

theorem decFlags_ser {E : DEnv} (hE : E.len ≤ E.mem.length) {flags : UInt32} (h : OneWord flags) :
    DecodesTo E (decFlags E 3 0 0) (beBytes 2 flags.toNat) flags := by
  have hv : flags.toUInt16.toNat = flags.toNat := by
    rw [UInt32.toNat_toUInt16]; exact Nat.mod_eq_of_lt h.1
  have h1 := DecodesTo.dec16 hE St.BAD_AMQP_DATA flags.toUInt16
  rw [hv] at h1
  unfold decFlags
  have := DecodesTo.bind (b₂ := []) (v := flags) (f := fun w =>
    if 0 * 16 ≥ 32 then M.ub
    else if w.toNat * 2 ^ (0 * 16) > INT_MAX then M.ub
    else do
      let flags := (0 : UInt32) ||| (w.toUInt32 <<< UInt32.ofNat (0 * 16))
      if w &&& 1 ≠ 0 then decFlags E 2 (0 + 1) flags else pure flags) h1 ?_
  · simpa using this
  · rw [if_neg (by omega), if_neg (by rw [hv]; unfold INT_MAX; have := h.1; omega)]
    have hbit : flags.toUInt16 &&& 1 = 0 := by
      rw [← UInt16.toNat_inj, UInt16.toNat_and, hv]
      show flags.toNat &&& 1 = 0
      rw [Nat.and_one_is_mod]
      have := h.2
      simp only [flagSet, Nat.testBit_zero, decide_eq_true_eq] at this
      omega
    have hfl : (0 : UInt32) ||| (flags.toUInt16.toUInt32 <<< UInt32.ofNat (0 * 16)) = flags := by
      rw [← UInt32.toNat_inj, UInt32.toNat_or, UInt32.toNat_shiftLeft, UInt16.toNat_toUInt32, hv]
      simp
    simp only [hbit, hfl, ne_eq, not_true_eq_false, if_false]
    exact DecodesTo.pure _

end Rmq
