import Verif.Model.Methods
/-!
# Decoding results do not depend on the allocator, except for NO_MEMORY
-/
namespace Rmq

/-- Two runs agree: same value and offset, or same error, unless one of them ran out of memory. -/
def Agree {α : Type} : Res DState α → Res DState α → Prop
  | .ok a s, .ok b t => a = b ∧ s.off = t.off
  | .err e _, .err e' _ => e = e' ∨ e = St.NO_MEMORY ∨ e' = St.NO_MEMORY
  | .err e _, _ => e = St.NO_MEMORY
  | _, .err e _ => e = St.NO_MEMORY
  | .ub, .ub => True
  | .fuel, .fuel => True
  | _, _ => False

def Indep2 {α : Type} (x y : M DState α) : Prop := ∀ s t : DState, s.off = t.off → Agree (x s) (y t)
abbrev Indep {α : Type} (x : M DState α) : Prop := Indep2 x x

theorem Indep2.bind {α β : Type} {x y : M DState α} {f g : α → M DState β} (hx : Indep2 x y)
    (hf : ∀ a, Indep2 (f a) (g a)) : Indep2 (x >>= f) (y >>= g) := by
  intro s t hst
  have h := hx s t hst
  rw [M.bind_def, M.bind_def]
  cases h1 : x s with
  | ok a s' =>
    cases h2 : y t with
    | ok b t' =>
      rw [h1, h2] at h
      obtain ⟨rfl, h⟩ := h
      exact hf a s' t' h
    | err e t' =>
      rw [h1, h2] at h
      dsimp only
      have h : e = St.NO_MEMORY := h
      cases f a s' with
      | err e' _ => exact Or.inr (Or.inr h)
      | ok _ _ => exact h
      | ub => exact h
      | fuel => exact h
    | ub => rw [h1, h2] at h; exact h.elim
    | fuel => rw [h1, h2] at h; exact h.elim
  | err e s' =>
    rw [h1] at h
    dsimp only
    cases h2 : y t with
    | ok b t' =>
      rw [h2] at h
      have h : e = St.NO_MEMORY := h
      dsimp only
      cases g b t' with
      | err e' _ => exact Or.inr (Or.inl h)
      | ok _ _ => exact h
      | ub => exact h
      | fuel => exact h
    | err e' t' => rw [h2] at h; exact h
    | ub => rw [h2] at h; exact h
    | fuel => rw [h2] at h; exact h
  | ub =>
    cases h2 : y t with
    | ok b t' => rw [h1, h2] at h; exact h.elim
    | err e' t' => rw [h1, h2] at h; exact h
    | ub => trivial
    | fuel => rw [h1, h2] at h; exact h.elim
  | fuel =>
    cases h2 : y t with
    | ok b t' => rw [h1, h2] at h; exact h.elim
    | err e' t' => rw [h1, h2] at h; exact h
    | ub => rw [h1, h2] at h; exact h.elim
    | fuel => trivial

theorem Indep.pure {α : Type} (a : α) : Indep (Pure.pure a : M DState α) := fun _ _ h => ⟨rfl, h⟩
theorem Indep.fail {α : Type} (e : Int) : Indep (M.fail e : M DState α) := fun _ _ _ => Or.inl rfl
theorem Indep.ub {α : Type} : Indep (M.ub : M DState α) := fun _ _ _ => trivial
theorem Indep.outOfFuel {α : Type} : Indep (M.outOfFuel : M DState α) := fun _ _ _ => trivial

theorem Indep2.ite {α : Type} {p q : Prop} [Decidable p] [Decidable q] (hpq : p ↔ q) {x y x' y' : M DState α}
    (hx : Indep2 x x') (hy : Indep2 y y') : Indep2 (if p then x else y) (if q then x' else y') := by
  by_cases h : p
  · rw [if_pos h, if_pos (hpq.1 h)]; exact hx
  · rw [if_neg h, if_neg (fun h' => h (hpq.2 h'))]; exact hy
theorem Indep.ite {α : Type} {p : Prop} [Decidable p] {x y : M DState α}
    (hx : Indep x) (hy : Indep y) : Indep (if p then x else y) := Indep2.ite Iff.rfl hx hy

theorem Indep.raw {α : Type} (E : DEnv) (e : Int) (n : Nat) (d : Bytes → Option α) :
    Indep (M.orFailVal e (decRaw E n d)) := by
  intro s t h
  simp only [M.orFailVal, decRaw, h]
  by_cases h1 : t.off + n ≤ E.len
  · rw [if_pos h1, if_pos h1]
    cases readAt E.mem t.off n with
    | none => trivial
    | some bs =>
      dsimp only
      cases d bs with
      | none => trivial
      | some v => exact ⟨rfl, rfl⟩
  · rw [if_neg h1, if_neg h1]; exact Or.inl rfl

theorem Indep.alloc (E : DEnv) : Indep (M.orFail St.NO_MEMORY (allocate E)) := by
  intro s t h
  simp only [M.orFail, allocate]
  cases E.alloc s.allocs <;> cases E.alloc t.allocs
  · exact Or.inl rfl
  · rfl
  · rfl
  · exact ⟨rfl, h⟩

/-- reading the state: only its offset may matter -/
theorem Indep.get {α : Type} {f : DState → M DState α} (hf : ∀ s t : DState, s.off = t.off → Indep2 (f s) (f t)) :
    Indep (M.get >>= f) := by
  intro s t h
  rw [M.bind_def, M.bind_def]
  exact hf s t h s t h

theorem Indep.dec8 (E : DEnv) (e : Int) : Indep (M.orFailVal e (Rmq.dec8 E)) := Indep.raw E e 1 d8
theorem Indep.dec16 (E : DEnv) (e : Int) : Indep (M.orFailVal e (Rmq.dec16 E)) := Indep.raw E e 2 _
theorem Indep.dec32 (E : DEnv) (e : Int) : Indep (M.orFailVal e (Rmq.dec32 E)) := Indep.raw E e 4 _
theorem Indep.dec64 (E : DEnv) (e : Int) : Indep (M.orFailVal e (Rmq.dec64 E)) := Indep.raw E e 8 _
theorem Indep.decBytes (E : DEnv) (e : Int) (n : Nat) : Indep (M.orFailVal e (Rmq.decBytes E n)) := Indep.raw E e n _

theorem growEntries_indep (E : DEnv) (num allocated : Nat) : Indep (growEntries E num allocated) := by
  unfold growEntries growCap
  exact Indep2.bind (Indep.ite (Indep.ite Indep.ub (Indep2.bind (Indep.alloc E) fun _ => Indep.pure _)) (Indep.pure _)) fun _ =>
    Indep.ite (Indep.pure _) Indep.ub

theorem finishEntries_indep (E : DEnv) (num : Nat) : Indep (finishEntries E num) := by
  unfold finishEntries
  exact Indep.ite (Indep.pure _) (Indep.alloc E)

theorem decode_indep (E : DEnv) (fuel : Nat) :
    (∀ depth, Indep (decFV E fuel depth)) ∧
    (∀ depth, Indep (decArray E fuel depth)) ∧
    (∀ depth limit num allocated, Indep (decArrayLoop E fuel depth limit num allocated)) ∧
    (∀ depth, Indep (decTable E fuel depth)) ∧
    (∀ depth limit num allocated, Indep (decTableLoop E fuel depth limit num allocated)) := by
  induction fuel with
  | zero =>
    refine ⟨?_, ?_, ?_, ?_, ?_⟩ <;> intros
    · unfold decFV; exact Indep.outOfFuel
    · unfold decArray; exact Indep.outOfFuel
    · unfold decArrayLoop; exact Indep.outOfFuel
    · unfold decTable; exact Indep.outOfFuel
    · unfold decTableLoop; exact Indep.outOfFuel
  | succ fuel ih =>
    obtain ⟨i1, i2, i3, i4, i5⟩ := ih
    refine ⟨?_, ?_, ?_, ?_, ?_⟩
    · intro depth
      unfold decFV
      refine Indep.ite (Indep.fail _) (Indep2.bind (Indep.dec8 E _) fun k => ?_)
      repeat' first
        | apply Indep.dec8 | apply Indep.dec16 | apply Indep.dec32 | apply Indep.dec64 | apply Indep.decBytes
        | apply i2 | apply i4
        | apply Indep.pure | apply Indep.fail
        | refine Indep.ite ?_ ?_
        | refine Indep2.bind ?_ (fun _ => ?_)
    · intro depth
      unfold decArray
      refine Indep2.bind (Indep.dec32 E _) fun size => Indep.get fun s t hst => ?_
      refine Indep2.ite (by rw [hst]) (Indep.fail _) (Indep2.bind (Indep.alloc E) fun _ => ?_)
      rw [hst]
      exact Indep2.bind (i3 _ _ _ _) fun vs => Indep2.bind (finishEntries_indep E _) fun _ => Indep.pure _
    · intro depth limit num allocated
      unfold decArrayLoop
      refine Indep.get fun s t hst => Indep2.ite (by rw [hst]) ?_ (Indep.pure _)
      exact Indep2.bind (growEntries_indep E _ _) fun _ => Indep2.bind (i1 _) fun _ =>
        Indep2.bind (i3 _ _ _ _) fun _ => Indep.pure _
    · intro depth
      unfold decTable
      refine Indep2.bind (Indep.dec32 E _) fun size => Indep.get fun s t hst => ?_
      refine Indep2.ite (by rw [hst]) (Indep.fail _) (Indep2.bind (Indep.alloc E) fun _ => ?_)
      rw [hst]
      exact Indep2.bind (i5 _ _ _ _) fun vs => Indep2.bind (finishEntries_indep E _) fun _ => Indep.pure _
    · intro depth limit num allocated
      unfold decTableLoop
      refine Indep.get fun s t hst => Indep2.ite (by rw [hst]) ?_ (Indep.pure _)
      exact Indep2.bind (Indep.dec8 E _) fun _ => Indep2.bind (growEntries_indep E _ _) fun _ =>
        Indep2.bind (Indep.decBytes E _ _) fun _ => Indep2.bind (i1 _) fun _ =>
        Indep2.bind (i5 _ _ _ _) fun _ => Indep.pure _

theorem decodeTable_indep (E : DEnv) : Indep (decodeTable E) := by
  intro s t h
  unfold decodeTable
  rw [h]
  exact (decode_indep E _).2.2.2.1 0 s t h

theorem decField_indep (E : DEnv) (t : FT) : Indep (decField E t) := by
  cases t <;> unfold decField
  all_goals
    repeat' first
      | apply Indep.dec8 | apply Indep.dec16 | apply Indep.dec32 | apply Indep.dec64 | apply Indep.decBytes
      | apply decodeTable_indep
      | apply Indep.pure
      | refine Indep2.bind ?_ (fun _ => ?_)

theorem decOp_indep (E : DEnv) (o : Op) : Indep (decOp E o) := by
  cases o <;> unfold decOp
  · exact Indep2.bind (decField_indep E _) fun _ => Indep.pure _
  · exact Indep2.bind (Indep.dec8 E _) fun _ => Indep.pure _

theorem decOps_indep (E : DEnv) : ∀ ops, Indep (decOps E ops)
  | [] => Indep.pure _
  | o :: os => by
    unfold decOps
    exact Indep2.bind (decOp_indep E o) fun _ => Indep2.bind (decOps_indep E os) fun _ => Indep.pure _

theorem decMethod_indep (E : DEnv) (id : UInt32) (k k' : Nat) : Agree (decMethod E id k) (decMethod E id k') := by
  unfold decMethod
  cases switch id decTableOps with
  | none => exact Or.inl rfl
  | some ops => exact Indep2.bind (Indep.alloc E) (fun _ => decOps_indep E ops) _ _ rfl

theorem decFlags_indep (E : DEnv) : ∀ fuel idx flags, Indep (decFlags E fuel idx flags)
  | 0, _, _ => Indep.outOfFuel
  | fuel + 1, idx, flags => by
    unfold decFlags
    refine Indep2.bind (Indep.dec16 E _) fun w => Indep.ite Indep.ub (Indep.ite Indep.ub (Indep.ite ?_ (Indep.pure _)))
    exact decFlags_indep E fuel _ _

theorem decProps_indep (E : DEnv) (flags : UInt32) : ∀ ps, Indep (decProps E flags ps)
  | [] => Indep.pure _
  | (bit, t, f) :: ps => by
    unfold decProps
    refine Indep.ite ?_ (decProps_indep E flags ps)
    exact Indep2.bind (decField_indep E t) fun _ => Indep2.bind (decProps_indep E flags ps) fun _ => Indep.pure _

theorem decProperties_indep (E : DEnv) (cls : UInt16) (k k' : Nat) :
    Agree (decProperties E cls k) (decProperties E cls k') := by
  unfold decProperties
  refine Indep2.bind (decFlags_indep E 3 0 0) (fun flags => ?_) _ _ rfl
  cases switch cls decPropTable with
  | none => exact Indep.fail _
  | some ps => exact Indep2.bind (Indep.alloc E) fun _ => Indep2.bind (decProps_indep E _ ps) fun _ => Indep.pure _

end Rmq
