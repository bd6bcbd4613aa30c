import Verif.Proofs.Frame
/-!
# Encoders and decoders: neither the host's byte order nor the old contents of the buffer matters
-/
namespace Rmq

/-! ### Byte order -/

theorem d16_any (b b' : Bool) : d16 b = d16 b' := by
  funext bs
  by_cases h : bs.length = 2
  · rw [d16_spec b bs h, d16_spec b' bs h]
  · have e : ∀ c, load16 c bs = none := by
      intro c
      unfold load16
      split
      · exact absurd rfl h
      · rfl
    unfold d16; rw [e, e]; rfl
theorem d32_any (b b' : Bool) : d32 b = d32 b' := by
  funext bs
  by_cases h : bs.length = 4
  · rw [d32_spec b bs h, d32_spec b' bs h]
  · have e : ∀ c, load32 c bs = none := by
      intro c
      unfold load32
      split
      · exact absurd rfl h
      · rfl
    unfold d32; rw [e, e]; rfl
theorem d64_any (b b' : Bool) : d64 b = d64 b' := by
  funext bs
  by_cases h : bs.length = 8
  · rw [d64_spec b bs h, d64_spec b' bs h]
  · have e : ∀ c, load64 c bs = none := by
      intro c
      unfold load64
      split
      · exact absurd rfl h
      · rfl
    unfold d64; rw [e, e]; rfl
theorem e16_any (b b' : Bool) : e16 b = e16 b' := by funext v; rw [e16_eq, e16_eq]
theorem e32_any (b b' : Bool) : e32 b = e32 b' := by funext v; rw [e32_eq, e32_eq]
theorem e64_any (b b' : Bool) : e64 b = e64 b' := by funext v; rw [e64_eq, e64_eq]
theorem rd16_any (b b' : Bool) : rd16 b = rd16 b' := by funext m o; unfold rd16; rw [d16_any b b']
theorem rd32_any (b b' : Bool) : rd32 b = rd32 b' := by funext m o; unfold rd32; rw [d32_any b b']
theorem rd64_any (b b' : Bool) : rd64 b = rd64 b' := by funext m o; unfold rd64; rw [d64_any b b']

/-! ### Decoders -/

/-- The same buffer and allocator on a machine of the other byte order. -/
abbrev DEnv.on (E : DEnv) (b : Bool) : DEnv := { E with be := b }

section
variable (E : DEnv) (b : Bool)
theorem dec8_on : dec8 (E.on b) = dec8 E := rfl
theorem dec16_on : dec16 (E.on b) = dec16 E := by unfold dec16; show decRaw E 2 (d16 b) = _; rw [d16_any b E.be]
theorem dec32_on : dec32 (E.on b) = dec32 E := by unfold dec32; show decRaw E 4 (d32 b) = _; rw [d32_any b E.be]
theorem dec64_on : dec64 (E.on b) = dec64 E := by unfold dec64; show decRaw E 8 (d64 b) = _; rw [d64_any b E.be]
theorem decBytes_on (n : Nat) : decBytes (E.on b) n = decBytes E n := rfl
theorem allocate_on : allocate (E.on b) = allocate E := rfl
theorem growEntries_on (n a : Nat) : growEntries (E.on b) n a = growEntries E n a := rfl
theorem finishEntries_on (n : Nat) : finishEntries (E.on b) n = finishEntries E n := rfl

theorem decAll_on : ∀ n : Nat, (∀ d, decFV (E.on b) n d = decFV E n d) ∧ (∀ d, decArray (E.on b) n d = decArray E n d) ∧
    (∀ d l k a, decArrayLoop (E.on b) n d l k a = decArrayLoop E n d l k a) ∧ (∀ d, decTable (E.on b) n d = decTable E n d) ∧
    (∀ d l k a, decTableLoop (E.on b) n d l k a = decTableLoop E n d l k a) := by
  intro n
  induction n with
  | zero => refine ⟨?_, ?_, ?_, ?_, ?_⟩ <;> intros <;> simp only [decFV, decArray, decArrayLoop, decTable, decTableLoop]
  | succ n ih =>
    obtain ⟨h1, h2, h3, h4, h5⟩ := ih
    refine ⟨?_, ?_, ?_, ?_, ?_⟩
    · intro d
      simp only [decFV, dec8_on, dec16_on, dec32_on, dec64_on, decBytes_on, h2, h4]
    · intro d
      simp only [decArray, dec32_on, h3, allocate_on, finishEntries_on]
    · intro d l k a
      simp only [decArrayLoop, growEntries_on, h1, h3]
    · intro d
      simp only [decTable, dec32_on, h5, allocate_on, finishEntries_on]
    · intro d l k a
      simp only [decTableLoop, dec8_on, decBytes_on, growEntries_on, h1, h5]

theorem decodeTable_on : decodeTable (E.on b) = decodeTable E := by
  funext s; exact congrFun ((decAll_on E b _).2.2.2.1 _) s

theorem decField_on (t : FT) : decField (E.on b) t = decField E t := by
  cases t <;> simp only [decField, dec8_on, dec16_on, dec32_on, dec64_on, decBytes_on, decodeTable_on]

theorem decOp_on (o : Op) : decOp (E.on b) o = decOp E o := by
  cases o <;> simp only [decOp, decField_on, dec8_on]

theorem decOps_on : ∀ os : List Op, decOps (E.on b) os = decOps E os
  | [] => rfl
  | o :: os => by simp only [decOps, decOp_on, decOps_on os]

theorem decMethod_on (i : UInt32) (n : Nat) : decMethod (E.on b) i n = decMethod E i n := by
  unfold decMethod
  simp only [allocate_on, decOps_on]

theorem decFlags_on : ∀ n k f, decFlags (E.on b) n k f = decFlags E n k f := by
  intro n
  induction n with
  | zero => intros; rfl
  | succ n ih => intro k f; simp only [decFlags, dec16_on, ih]

theorem decProps_on (fl : UInt32) : ∀ ps, decProps (E.on b) fl ps = decProps E fl ps
  | [] => rfl
  | (bit, t, f) :: ps => by simp only [decProps, decField_on, decProps_on fl ps]

theorem decProperties_on (c : UInt16) (n : Nat) : decProperties (E.on b) c n = decProperties E c n := by
  unfold decProperties
  simp only [allocate_on, decFlags_on, decProps_on]
end

/-! ### Encoders -/

/-- The two memories hold the same octets in these places. -/
def AgreeOn (A : Nat → Prop) (m m' : Bytes) : Prop := ∀ i, A i → m[i]? = m'[i]?

/-- Two encoders that write the same octets into two buffers of the same size. -/
def EncAlike (x y : M EState Unit) : Prop := ∀ s s' : EState, s.off = s'.off → s.mem.length = s'.mem.length →
  (∃ t t', x s = .ok () t ∧ y s' = .ok () t' ∧ t.off = t'.off ∧ s.off ≤ t.off ∧ t.mem.length = s.mem.length ∧ t'.mem.length = s.mem.length ∧
    ∀ A, AgreeOn A s.mem s'.mem → AgreeOn (fun i => A i ∨ (s.off ≤ i ∧ i < t.off)) t.mem t'.mem) ∨
  (∃ e t t', x s = .err e t ∧ y s' = .err e t' ∧ t.mem.length = s.mem.length ∧ t'.mem.length = s.mem.length) ∨
  (x s = .ub ∧ y s' = .ub) ∨ (x s = .fuel ∧ y s' = .fuel)

theorem splice_same {m m' : Bytes} {o : Nat} {bs : Bytes} (hl : m.length = m'.length) (h : o + bs.length ≤ m.length) (i : Nat)
    (hi : o ≤ i ∧ i < o + bs.length) : (splice m o bs)[i]? = (splice m' o bs)[i]? := by
  simp only [splice]
  have h1 : (m.take o).length = o := by simp; omega
  have h2 : (m'.take o).length = o := by simp; omega
  have key : ∀ {n : Bytes}, (n.take o).length = o → (n.take o ++ bs ++ n.drop (o + bs.length))[i]? = bs[i - o]? := by
    intro n hn
    rw [List.append_assoc, List.getElem?_append_right (by omega), hn, List.getElem?_append_left (by omega)]
  rw [key h1, key h2]

theorem splice_agree {m m' : Bytes} {o : Nat} {bs : Bytes} (hl : m.length = m'.length) (h : o + bs.length ≤ m.length) {A : Nat → Prop}
    (hA : AgreeOn A m m') : AgreeOn (fun i => A i ∨ (o ≤ i ∧ i < o + bs.length)) (splice m o bs) (splice m' o bs) := by
  intro i hi
  by_cases hw : o ≤ i ∧ i < o + bs.length
  · exact splice_same hl h i hw
  · have hA' : A i := by
      rcases hi with h | h
      · exact h
      · exact absurd h hw
    rw [splice_getElem? h i (by omega), splice_getElem? (by omega) i (by omega)]
    exact hA i hA'

theorem encRaw_alike (st : Int) (len : Nat) (bs : Bytes) : EncAlike (M.orFail st (encRaw len bs)) (M.orFail st (encRaw len bs)) := by
  intro s s' ho hl
  unfold M.orFail encRaw writeAt
  dsimp only
  rw [← ho]
  by_cases h1 : s.off + bs.length ≤ len
  · rw [if_pos h1, if_pos h1]
    by_cases h2 : s.off + bs.length ≤ s.mem.length
    · rw [if_pos h2, if_pos (by omega)]
      refine Or.inl ⟨_, _, rfl, rfl, rfl, Nat.le_add_right _ _, splice_length h2, (splice_length (by omega)).trans hl.symm, fun A hA => ?_⟩
      exact splice_agree hl h2 hA
    · rw [if_neg h2, if_neg (by omega)]
      exact Or.inr (Or.inr (Or.inl ⟨rfl, rfl⟩))
  · rw [if_neg h1, if_neg h1]
    exact Or.inr (Or.inl ⟨_, _, _, rfl, rfl, rfl, hl.symm⟩)

theorem encBytes_alike (st : Int) (len : Nat) (bs : Bytes) :
    EncAlike (M.orFail st (encBytes len bs)) (M.orFail st (encBytes len bs)) := by
  intro s s' ho hl
  by_cases h : bs.length = 0
  · refine Or.inl ⟨s, s', by simp [M.orFail, encBytes, h], by simp [M.orFail, encBytes, h], ho, Nat.le_refl _, rfl, hl.symm, fun A hA i hi => ?_⟩
    rcases hi with hi | hi
    · exact hA i hi
    · omega
  · have e : ∀ s, M.orFail st (encBytes len bs) s = M.orFail st (encRaw len bs) s := by
      intro s; simp [M.orFail, encBytes, h]
    rw [e, e]
    exact encRaw_alike st len bs s s' ho hl

theorem EncAlike.bind {x y z w : M EState Unit} (h1 : EncAlike x y) (h2 : EncAlike z w) :
    EncAlike (x >>= fun _ => z) (y >>= fun _ => w) := by
  intro s s' ho hl
  rw [M.bind_def, M.bind_def]
  rcases h1 s s' ho hl with ⟨t, t', e1, e2, o1, o2, l1, l2, a⟩ | ⟨e, t, t', e1, e2, l1, l2⟩ | ⟨e1, e2⟩ | ⟨e1, e2⟩
  · rw [e1, e2]
    dsimp only
    rcases h2 t t' o1 (by omega) with ⟨u, u', f1, f2, p1, p2, k1, k2, c⟩ | ⟨e, u, u', f1, f2, k1, k2⟩ | ⟨f1, f2⟩ | ⟨f1, f2⟩
    · refine Or.inl ⟨u, u', f1, f2, p1, by omega, by omega, by omega, fun A hA i hi => c _ (a A hA) i ?_⟩
      rcases hi with hi | hi
      · exact Or.inl (Or.inl hi)
      · by_cases hlt : i < t.off
        · exact Or.inl (Or.inr ⟨hi.1, hlt⟩)
        · exact Or.inr ⟨by omega, hi.2⟩
    · exact Or.inr (Or.inl ⟨e, u, u', f1, f2, by omega, by omega⟩)
    · exact Or.inr (Or.inr (Or.inl ⟨f1, f2⟩))
    · exact Or.inr (Or.inr (Or.inr ⟨f1, f2⟩))
  · rw [e1, e2]; exact Or.inr (Or.inl ⟨e, t, t', rfl, rfl, l1, l2⟩)
  · rw [e1, e2]; exact Or.inr (Or.inr (Or.inl ⟨rfl, rfl⟩))
  · rw [e1, e2]; exact Or.inr (Or.inr (Or.inr ⟨rfl, rfl⟩))

theorem EncAlike.nothing : EncAlike (pure ()) (pure ()) := by
  intro s s' ho hl
  refine Or.inl ⟨s, s', rfl, rfl, ho, Nat.le_refl _, rfl, hl.symm, fun A hA i hi => ?_⟩
  rcases hi with hi | hi
  · exact hA i hi
  · omega
theorem EncAlike.refuse (e : Int) : EncAlike (M.fail e) (M.fail e) := by
  intro s s' _ hl
  exact Or.inr (Or.inl ⟨e, s, s', rfl, rfl, rfl, hl.symm⟩)
theorem EncAlike.undefined : EncAlike M.ub M.ub := fun _ _ _ _ => Or.inr (Or.inr (Or.inl ⟨rfl, rfl⟩))
theorem EncAlike.cut : EncAlike M.outOfFuel M.outOfFuel := fun _ _ _ _ => Or.inr (Or.inr (Or.inr ⟨rfl, rfl⟩))

section
variable (b b' : Bool) (len : Nat)
theorem enc8_alike (st : Int) (v : UInt8) : EncAlike (M.orFail st (enc8 len v)) (M.orFail st (enc8 len v)) := encRaw_alike _ _ _
theorem enc16_alike (st : Int) (v : UInt16) : EncAlike (M.orFail st (enc16 b len v)) (M.orFail st (enc16 b' len v)) := by
  unfold enc16; rw [e16_any b' b]; exact encRaw_alike _ _ _
theorem enc32_alike (st : Int) (v : UInt32) : EncAlike (M.orFail st (enc32 b len v)) (M.orFail st (enc32 b' len v)) := by
  unfold enc32; rw [e32_any b' b]; exact encRaw_alike _ _ _
theorem enc64_alike (st : Int) (v : UInt64) : EncAlike (M.orFail st (enc64 b len v)) (M.orFail st (enc64 b' len v)) := by
  unfold enc64; rw [e64_any b' b]; exact encRaw_alike _ _ _

theorem enc32_off {be : Bool} {v : UInt32} {st : Int} {s t : EState} (h : M.orFail st (enc32 be len v) s = .ok () t) : t.off = s.off + 4 := by
  unfold M.orFail enc32 encRaw writeAt at h
  dsimp only at h
  have hl : (e32 be v).length = 4 := by rw [e32_eq, beBytes_length]
  by_cases h1 : s.off + (e32 be v).length ≤ len
  · rw [if_pos h1] at h
    by_cases h2 : s.off + (e32 be v).length ≤ s.mem.length
    · rw [if_pos h2] at h
      cases h
      exact congrArg (s.off + ·) hl
    · rw [if_neg h2] at h; cases h
  · rw [if_neg h1] at h; cases h

theorem encTableWith_alike {x y : M EState Unit} (h : EncAlike x y) : EncAlike (encTableWith b len x) (encTableWith b' len y) := by
  intro s s' ho hl
  unfold encTableWith
  dsimp only
  rcases h { s with off := s.off + 4 } { s' with off := s'.off + 4 } (congrArg (· + 4) ho) hl with
    ⟨t, t', e1, e2, o1, o2, l1, l2, a⟩ | ⟨e, t, t', e1, e2, l1, l2⟩ | ⟨e1, e2⟩ | ⟨e1, e2⟩
  · rw [e1, e2]
    dsimp only at o2 l1 l2 a ⊢
    rw [← o1, ← ho]
    rcases enc32_alike b b' len St.TABLE_TOO_BIG (UInt32.ofNat (t.off - s.off - 4)) { t with off := s.off } { t' with off := s.off } rfl
      (l1.trans l2.symm) with ⟨u, u', f1, f2, p1, p2, k1, k2, c⟩ | ⟨e, u, u', f1, f2, k1, k2⟩ | ⟨f1, f2⟩ | ⟨f1, f2⟩
    · have hu : u.off = s.off + 4 := enc32_off len (s := { t with off := s.off }) f1
      rw [f1, f2]
      dsimp only at k1 k2 c ⊢
      refine Or.inl ⟨_, _, rfl, rfl, rfl, Nat.le_trans (Nat.le_add_right _ _) o2, k1.trans l1, k2.trans l1, fun A hA i hi => c _ (a A hA) i ?_⟩
      dsimp only at hi ⊢
      rcases hi with hi | hi
      · exact Or.inl (Or.inl hi)
      · by_cases hlt : i < s.off + 4
        · exact Or.inr ⟨hi.1, by omega⟩
        · exact Or.inl (Or.inr ⟨by omega, hi.2⟩)
    · rw [f1, f2]
      exact Or.inr (Or.inl ⟨e, _, _, rfl, rfl, k1.trans l1, k2.trans l1⟩)
    · rw [f1, f2]; exact Or.inr (Or.inr (Or.inl ⟨rfl, rfl⟩))
    · rw [f1, f2]; exact Or.inr (Or.inr (Or.inr ⟨rfl, rfl⟩))
  · rw [e1, e2]; exact Or.inr (Or.inl ⟨e, t, t', rfl, rfl, l1, l2⟩)
  · rw [e1, e2]; exact Or.inr (Or.inr (Or.inl ⟨rfl, rfl⟩))
  · rw [e1, e2]; exact Or.inr (Or.inr (Or.inr ⟨rfl, rfl⟩))

theorem encArrayWith_alike {x y : M EState Unit} (h : EncAlike x y) : EncAlike (encArrayWith b len x) (encArrayWith b' len y) :=
  encTableWith_alike b b' len h

mutual
theorem encFV_alike : ∀ v : FV, EncAlike (encFV b len v) (encFV b' len v)
  | .boolean v => by simp only [encFV]; exact (enc8_alike len _ _).bind (enc8_alike len _ _)
  | .i8 v => by simp only [encFV]; exact (enc8_alike len _ _).bind (enc8_alike len _ _)
  | .u8 v => by simp only [encFV]; exact (enc8_alike len _ _).bind (enc8_alike len _ _)
  | .i16 v => by simp only [encFV]; exact (enc8_alike len _ _).bind (enc16_alike b b' len _ _)
  | .u16 v => by simp only [encFV]; exact (enc8_alike len _ _).bind (enc16_alike b b' len _ _)
  | .i32 v => by simp only [encFV]; exact (enc8_alike len _ _).bind (enc32_alike b b' len _ _)
  | .u32 v => by simp only [encFV]; exact (enc8_alike len _ _).bind (enc32_alike b b' len _ _)
  | .i64 v => by simp only [encFV]; exact (enc8_alike len _ _).bind (enc64_alike b b' len _ _)
  | .u64 v => by simp only [encFV]; exact (enc8_alike len _ _).bind (enc64_alike b b' len _ _)
  | .f32 v => by simp only [encFV]; exact (enc8_alike len _ _).bind (enc32_alike b b' len _ _)
  | .f64 v => by simp only [encFV]; exact (enc8_alike len _ _).bind (enc64_alike b b' len _ _)
  | .decimal d v => by
    simp only [encFV]; exact (enc8_alike len _ _).bind ((enc8_alike len _ _).bind (enc32_alike b b' len _ _))
  | .utf8 v => by
    simp only [encFV]; exact (enc8_alike len _ _).bind ((enc32_alike b b' len _ _).bind (encBytes_alike _ len _))
  | .bytes v => by
    simp only [encFV]; exact (enc8_alike len _ _).bind ((enc32_alike b b' len _ _).bind (encBytes_alike _ len _))
  | .array vs => by simp only [encFV]; exact (enc8_alike len _ _).bind (encArrayWith_alike b b' len (encFVs_alike vs))
  | .timestamp v => by simp only [encFV]; exact (enc8_alike len _ _).bind (enc64_alike b b' len _ _)
  | .table es => by simp only [encFV]; exact (enc8_alike len _ _).bind (encTableWith_alike b b' len (encEntries_alike es))
  | .void => by simp only [encFV]; exact enc8_alike len _ _
  | .other k => by simp only [encFV]; exact (enc8_alike len _ _).bind (.refuse _)
theorem encFVs_alike : ∀ vs : List FV, EncAlike (encFVs b len vs) (encFVs b' len vs)
  | [] => by simp only [encFVs]; exact .nothing
  | v :: vs => by simp only [encFVs]; exact (encFV_alike v).bind (encFVs_alike vs)
theorem encEntry_alike : ∀ e : Entry, EncAlike (encEntry b len e) (encEntry b' len e)
  | .mk k v => by
    simp only [encEntry]; exact (enc8_alike len _ _).bind ((encBytes_alike _ len _).bind (encFV_alike v))
theorem encEntries_alike : ∀ es : List Entry, EncAlike (encEntries b len es) (encEntries b' len es)
  | [] => by simp only [encEntries]; exact .nothing
  | e :: es => by simp only [encEntries]; exact (encEntry_alike e).bind (encEntries_alike es)
end

theorem encTable_alike (es : Table) : EncAlike (encTable b len es) (encTable b' len es) :=
  encTableWith_alike b b' len (encEntries_alike b b' len es)

theorem encField_alike (t : FT) (v : Option Val) : EncAlike (encField b len t v) (encField b' len t v) := by
  unfold encField
  split
  · exact enc8_alike len _ _
  · exact enc16_alike b b' len _ _
  · exact enc32_alike b b' len _ _
  · exact enc64_alike b b' len _ _
  · split
    · exact .refuse _
    · exact (enc8_alike len _ _).bind (encBytes_alike _ len _)
  · split
    · exact .refuse _
    · exact (enc32_alike b b' len _ _).bind (encBytes_alike _ len _)
  · exact encTable_alike b b' len _
  · exact .undefined

theorem encOp_alike (r : Rec) (o : Op) : EncAlike (encOp b len r o) (encOp b' len r o) := by
  cases o with
  | field t f => exact encField_alike b b' len t _
  | bits bs =>
    simp only [encOp]
    cases bitBuffer r bs 0 with
    | none => exact .undefined
    | some v => exact enc8_alike len _ _

theorem encOps_alike (r : Rec) : ∀ os : List Op, EncAlike (encOps b len r os) (encOps b' len r os)
  | [] => by simp only [encOps]; exact .nothing
  | o :: os => by simp only [encOps]; exact (encOp_alike b b' len r o).bind (encOps_alike r os)

theorem encFlags_alike : ∀ (n : Nat) (f : UInt32), EncAlike (encFlags b len n f) (encFlags b' len n f) := by
  intro n
  induction n with
  | zero => intro f; simp only [encFlags]; exact .cut
  | succ n ih =>
    intro f
    simp only [encFlags]
    refine (enc16_alike b b' len _ _).bind ?_
    split
    · exact ih _
    · exact .nothing

theorem encProps_alike (fl : UInt32) (r : Rec) : ∀ ps : List (Nat × FT × Fld), EncAlike (encProps b len fl r ps) (encProps b' len fl r ps)
  | [] => by simp only [encProps]; exact .nothing
  | (bit, t, f) :: ps => by
    simp only [encProps]
    refine EncAlike.bind ?_ (encProps_alike fl r ps)
    unfold encProp
    split
    · exact encField_alike b b' len t _
    · exact .nothing
end

/-- The same number, the same octets up to it. -/
def EncRes (m : Bytes) (r r' : Res EState Nat) : Prop :=
  (∃ n t t', r = .ok n t ∧ r' = .ok n t' ∧ t.mem.length = m.length ∧ t'.mem.length = m.length ∧
    AgreeOn (fun i => i < n) t.mem t'.mem) ∨
  (∃ e t t', r = .err e t ∧ r' = .err e t' ∧ t.mem.length = m.length ∧ t'.mem.length = m.length) ∨
  (r = .ub ∧ r' = .ub) ∨ (r = .fuel ∧ r' = .fuel)

theorem encMethod_alike (b b' : Bool) (len : Nat) {m m' : Bytes} (hl : m.length = m'.length) (i : UInt32) (r : Rec) :
    EncRes m (encMethod b m len i r) (encMethod b' m' len i r) := by
  unfold encMethod
  cases switch i encTableOps with
  | none => exact Or.inr (Or.inl ⟨_, _, _, rfl, rfl, rfl, hl.symm⟩)
  | some ops =>
    dsimp only
    rcases encOps_alike b b' len r ops ⟨m, 0⟩ ⟨m', 0⟩ rfl hl with
      ⟨t, t', e1, e2, o1, o2, l1, l2, a⟩ | ⟨e, t, t', e1, e2, l1, l2⟩ | ⟨e1, e2⟩ | ⟨e1, e2⟩
    · rw [e1, e2]
      dsimp only
      rw [← o1]
      exact Or.inl ⟨_, _, _, rfl, rfl, l1, l2, fun i hi => a (fun _ => False) (fun _ h => h.elim) i (Or.inr ⟨Nat.zero_le _, hi⟩)⟩
    · rw [e1, e2]; exact Or.inr (Or.inl ⟨_, _, _, rfl, rfl, l1, l2⟩)
    · rw [e1, e2]; exact Or.inr (Or.inr (Or.inl ⟨rfl, rfl⟩))
    · rw [e1, e2]; exact Or.inr (Or.inr (Or.inr ⟨rfl, rfl⟩))

theorem encProperties_alike (b b' : Bool) (len : Nat) {m m' : Bytes} (hl : m.length = m'.length) (c : UInt16) (fl : UInt32) (r : Rec) :
    EncRes m (encProperties b m len c fl r) (encProperties b' m' len c fl r) := by
  unfold encProperties
  rcases encFlags_alike b b' len 3 fl ⟨m, 0⟩ ⟨m', 0⟩ rfl hl with
      ⟨t, t', e1, e2, o1, o2, l1, l2, a⟩ | ⟨e, t, t', e1, e2, l1, l2⟩ | ⟨e1, e2⟩ | ⟨e1, e2⟩
  · rw [e1, e2]
    dsimp only
    cases switch c encPropTable with
    | none => exact Or.inr (Or.inl ⟨_, _, _, rfl, rfl, l1, l2⟩)
    | some ps =>
      dsimp only at l1 l2 ⊢
      rcases encProps_alike b b' len fl r ps t t' o1 (l1.trans l2.symm) with
        ⟨u, u', f1, f2, p1, p2, k1, k2, c⟩ | ⟨e, u, u', f1, f2, k1, k2⟩ | ⟨f1, f2⟩ | ⟨f1, f2⟩
      · rw [f1, f2]
        dsimp only
        rw [← p1]
        refine Or.inl ⟨_, _, _, rfl, rfl, k1.trans l1, k2.trans l1, fun i hi => ?_⟩
        refine c _ (a (fun _ => False) (fun _ h => h.elim)) i ?_
        dsimp only
        by_cases h : i < t.off
        · exact Or.inl (Or.inr ⟨Nat.zero_le _, h⟩)
        · exact Or.inr ⟨by omega, hi⟩
      · rw [f1, f2]; exact Or.inr (Or.inl ⟨_, _, _, rfl, rfl, k1.trans l1, k2.trans l1⟩)
      · rw [f1, f2]; exact Or.inr (Or.inr (Or.inl ⟨rfl, rfl⟩))
      · rw [f1, f2]; exact Or.inr (Or.inr (Or.inr ⟨rfl, rfl⟩))
  · rw [e1, e2]; exact Or.inr (Or.inl ⟨_, _, _, rfl, rfl, l1, l2⟩)
  · rw [e1, e2]; exact Or.inr (Or.inr (Or.inl ⟨rfl, rfl⟩))
  · rw [e1, e2]; exact Or.inr (Or.inr (Or.inr ⟨rfl, rfl⟩))

end Rmq
