import Verif.Model.Methods
/-!
# Decoding with any allocator is decoding with one that never fails, until NO_MEMORY is reported
-/
namespace Rmq

/-- The decoding environment with memory to spare. -/
def DEnv.ideal (E : DEnv) : DEnv := { E with alloc := fun _ => true }

/-- The second run does what the first does, unless the first ran out of memory. -/
def Follows {α : Type} : Res DState α → Res DState α → Prop
  | .ok a s, .ok b t => a = b ∧ s.off = t.off
  | .err e _, .err e' _ => e = e' ∨ e = St.NO_MEMORY
  | .err e _, _ => e = St.NO_MEMORY
  | .ub, .ub => True
  | .fuel, .fuel => True
  | _, _ => False

def Fol {α : Type} (x y : M DState α) : Prop := ∀ s t : DState, s.off = t.off → Follows (x s) (y t)

theorem Fol.bind {α β : Type} {x y : M DState α} {f g : α → M DState β} (hx : Fol x y)
    (hf : ∀ a, Fol (f a) (g a)) : Fol (x >>= f) (y >>= g) := by
  intro s t hst
  have h := hx s t hst
  rw [M.bind_def, M.bind_def]
  cases h1 : x s with
  | ok a s' =>
    cases h2 : y t with
    | ok b t' =>
      rw [h1, h2] at h
      obtain ⟨rfl, h⟩ := h
      exact hf a s' t' h
    | err e t' => rw [h1, h2] at h; exact h.elim
    | ub => rw [h1, h2] at h; exact h.elim
    | fuel => rw [h1, h2] at h; exact h.elim
  | err e s' =>
    rw [h1] at h
    dsimp only
    cases h2 : y t with
    | ok b t' =>
      rw [h2] at h
      have h : e = St.NO_MEMORY := h
      dsimp only
      cases g b t' with
      | err e' _ => exact Or.inr h
      | ok _ _ => exact h
      | ub => exact h
      | fuel => exact h
    | err e' t' => rw [h2] at h; exact h
    | ub => rw [h2] at h; exact h
    | fuel => rw [h2] at h; exact h
  | ub =>
    cases h2 : y t with
    | ok b t' => rw [h1, h2] at h; exact h.elim
    | err e' t' => rw [h1, h2] at h; exact h.elim
    | ub => trivial
    | fuel => rw [h1, h2] at h; exact h.elim
  | fuel =>
    cases h2 : y t with
    | ok b t' => rw [h1, h2] at h; exact h.elim
    | err e' t' => rw [h1, h2] at h; exact h.elim
    | ub => rw [h1, h2] at h; exact h.elim
    | fuel => trivial

theorem Fol.pure {α : Type} (a : α) : Fol (Pure.pure a : M DState α) (Pure.pure a) := fun _ _ h => ⟨rfl, h⟩
theorem Fol.fail {α : Type} (e : Int) : Fol (M.fail e : M DState α) (M.fail e) := fun _ _ _ => Or.inl rfl
theorem Fol.ub {α : Type} : Fol (M.ub : M DState α) M.ub := fun _ _ _ => trivial
theorem Fol.outOfFuel {α : Type} : Fol (M.outOfFuel : M DState α) M.outOfFuel := fun _ _ _ => trivial

theorem Fol.ite2 {α : Type} {p q : Prop} [Decidable p] [Decidable q] (hpq : p ↔ q) {x y x' y' : M DState α}
    (hx : Fol x x') (hy : Fol y y') : Fol (if p then x else y) (if q then x' else y') := by
  by_cases h : p
  · rw [if_pos h, if_pos (hpq.1 h)]; exact hx
  · rw [if_neg h, if_neg (fun h' => h (hpq.2 h'))]; exact hy
theorem Fol.ite {α : Type} {p : Prop} [Decidable p] {x y x' y' : M DState α}
    (hx : Fol x x') (hy : Fol y y') : Fol (if p then x else y) (if p then x' else y') := Fol.ite2 Iff.rfl hx hy

theorem Fol.raw {α : Type} (E : DEnv) (e : Int) (n : Nat) (d : Bytes → Option α) :
    Fol (M.orFailVal e (decRaw E n d)) (M.orFailVal e (decRaw E.ideal n d)) := by
  intro s t h
  have e1 : E.ideal.len = E.len := rfl
  have e2 : E.ideal.mem = E.mem := rfl
  simp only [M.orFailVal, decRaw, h, e2]
  by_cases h1 : t.off + n ≤ E.len
  · rw [if_pos h1, if_pos (by rw [e1]; exact h1)]
    cases readAt E.mem t.off n with
    | none => trivial
    | some bs =>
      dsimp only
      cases d bs with
      | none => trivial
      | some v => exact ⟨rfl, rfl⟩
  · rw [if_neg h1, if_neg (by rw [e1]; exact h1)]; exact Or.inl rfl

theorem Fol.alloc (E : DEnv) : Fol (M.orFail St.NO_MEMORY (allocate E)) (M.orFail St.NO_MEMORY (allocate E.ideal)) := by
  intro s t h
  simp only [M.orFail, allocate, DEnv.ideal]
  cases E.alloc s.allocs
  · rfl
  · exact ⟨rfl, h⟩

/-- reading the state: only its offset may matter -/
theorem Fol.get {α : Type} {f g : DState → M DState α} (hf : ∀ s t : DState, s.off = t.off → Fol (f s) (g t)) :
    Fol (M.get >>= f) (M.get >>= g) := by
  intro s t h
  rw [M.bind_def, M.bind_def]
  exact hf s t h s t h

theorem Fol.dec8 (E : DEnv) (e : Int) : Fol (M.orFailVal e (Rmq.dec8 E)) (M.orFailVal e (Rmq.dec8 E.ideal)) := Fol.raw E e 1 d8
theorem Fol.dec16 (E : DEnv) (e : Int) : Fol (M.orFailVal e (Rmq.dec16 E)) (M.orFailVal e (Rmq.dec16 E.ideal)) := Fol.raw E e 2 _
theorem Fol.dec32 (E : DEnv) (e : Int) : Fol (M.orFailVal e (Rmq.dec32 E)) (M.orFailVal e (Rmq.dec32 E.ideal)) := Fol.raw E e 4 _
theorem Fol.dec64 (E : DEnv) (e : Int) : Fol (M.orFailVal e (Rmq.dec64 E)) (M.orFailVal e (Rmq.dec64 E.ideal)) := Fol.raw E e 8 _
theorem Fol.decBytes (E : DEnv) (e : Int) (n : Nat) :
    Fol (M.orFailVal e (Rmq.decBytes E n)) (M.orFailVal e (Rmq.decBytes E.ideal n)) := Fol.raw E e n _

theorem growEntries_fol (E : DEnv) (num allocated : Nat) : Fol (growEntries E num allocated) (growEntries E.ideal num allocated) := by
  unfold growEntries growCap
  exact Fol.bind (Fol.ite (Fol.ite Fol.ub (Fol.bind (Fol.alloc E) fun _ => Fol.pure _)) (Fol.pure _)) fun _ =>
    Fol.ite (Fol.pure _) Fol.ub

theorem finishEntries_fol (E : DEnv) (num : Nat) : Fol (finishEntries E num) (finishEntries E.ideal num) := by
  unfold finishEntries
  exact Fol.ite (Fol.pure _) (Fol.alloc E)

theorem decode_fol (E : DEnv) (fuel : Nat) :
    (∀ depth, Fol (decFV E fuel depth) (decFV E.ideal fuel depth)) ∧
    (∀ depth, Fol (decArray E fuel depth) (decArray E.ideal fuel depth)) ∧
    (∀ depth limit num allocated, Fol (decArrayLoop E fuel depth limit num allocated) (decArrayLoop E.ideal fuel depth limit num allocated)) ∧
    (∀ depth, Fol (decTable E fuel depth) (decTable E.ideal fuel depth)) ∧
    (∀ depth limit num allocated, Fol (decTableLoop E fuel depth limit num allocated) (decTableLoop E.ideal fuel depth limit num allocated)) := by
  induction fuel with
  | zero =>
    refine ⟨?_, ?_, ?_, ?_, ?_⟩ <;> intros
    · unfold decFV; exact Fol.outOfFuel
    · unfold decArray; exact Fol.outOfFuel
    · unfold decArrayLoop; exact Fol.outOfFuel
    · unfold decTable; exact Fol.outOfFuel
    · unfold decTableLoop; exact Fol.outOfFuel
  | succ fuel ih =>
    obtain ⟨i1, i2, i3, i4, i5⟩ := ih
    refine ⟨?_, ?_, ?_, ?_, ?_⟩
    · intro depth
      unfold decFV
      refine Fol.ite (Fol.fail _) (Fol.bind (Fol.dec8 E _) fun k => ?_)
      repeat' first
        | apply Fol.dec8 | apply Fol.dec16 | apply Fol.dec32 | apply Fol.dec64 | apply Fol.decBytes
        | apply i2 | apply i4
        | apply Fol.pure | apply Fol.fail
        | refine Fol.ite ?_ ?_
        | refine Fol.bind ?_ (fun _ => ?_)
    · intro depth
      unfold decArray
      refine Fol.bind (Fol.dec32 E _) fun size => Fol.get fun s t hst => ?_
      refine Fol.ite2 (by rw [hst]; exact Iff.rfl) (Fol.fail _) (Fol.bind (Fol.alloc E) fun _ => ?_)
      rw [hst]
      exact Fol.bind (i3 _ _ _ _) fun vs => Fol.bind (finishEntries_fol E _) fun _ => Fol.pure _
    · intro depth limit num allocated
      unfold decArrayLoop
      refine Fol.get fun s t hst => Fol.ite2 (by rw [hst]) ?_ (Fol.pure _)
      exact Fol.bind (growEntries_fol E _ _) fun _ => Fol.bind (i1 _) fun _ =>
        Fol.bind (i3 _ _ _ _) fun _ => Fol.pure _
    · intro depth
      unfold decTable
      refine Fol.bind (Fol.dec32 E _) fun size => Fol.get fun s t hst => ?_
      refine Fol.ite2 (by rw [hst]; exact Iff.rfl) (Fol.fail _) (Fol.bind (Fol.alloc E) fun _ => ?_)
      rw [hst]
      exact Fol.bind (i5 _ _ _ _) fun vs => Fol.bind (finishEntries_fol E _) fun _ => Fol.pure _
    · intro depth limit num allocated
      unfold decTableLoop
      refine Fol.get fun s t hst => Fol.ite2 (by rw [hst]) ?_ (Fol.pure _)
      exact Fol.bind (Fol.dec8 E _) fun _ => Fol.bind (growEntries_fol E _ _) fun _ =>
        Fol.bind (Fol.decBytes E _ _) fun _ => Fol.bind (i1 _) fun _ =>
        Fol.bind (i5 _ _ _ _) fun _ => Fol.pure _

theorem decodeTable_fol (E : DEnv) : Fol (decodeTable E) (decodeTable E.ideal) := by
  intro s t h
  unfold decodeTable
  rw [h]
  exact (decode_fol E _).2.2.2.1 0 s t h

theorem decField_fol (E : DEnv) (t : FT) : Fol (decField E t) (decField E.ideal t) := by
  cases t <;> unfold decField
  all_goals
    repeat' first
      | apply Fol.dec8 | apply Fol.dec16 | apply Fol.dec32 | apply Fol.dec64 | apply Fol.decBytes
      | apply decodeTable_fol
      | apply Fol.pure
      | refine Fol.bind ?_ (fun _ => ?_)

theorem decOp_fol (E : DEnv) (o : Op) : Fol (decOp E o) (decOp E.ideal o) := by
  cases o <;> unfold decOp
  · exact Fol.bind (decField_fol E _) fun _ => Fol.pure _
  · exact Fol.bind (Fol.dec8 E _) fun _ => Fol.pure _

theorem decOps_fol (E : DEnv) : ∀ ops, Fol (decOps E ops) (decOps E.ideal ops)
  | [] => Fol.pure _
  | o :: os => by
    unfold decOps
    exact Fol.bind (decOp_fol E o) fun _ => Fol.bind (decOps_fol E os) fun _ => Fol.pure _

theorem decMethod_fol (E : DEnv) (id : UInt32) (k k' : Nat) : Follows (decMethod E id k) (decMethod E.ideal id k') := by
  unfold decMethod
  cases switch id decTableOps with
  | none => exact Or.inl rfl
  | some ops => exact Fol.bind (Fol.alloc E) (fun _ => decOps_fol E ops) _ _ rfl

theorem decFlags_fol (E : DEnv) : ∀ fuel idx flags, Fol (decFlags E fuel idx flags) (decFlags E.ideal fuel idx flags)
  | 0, _, _ => Fol.outOfFuel
  | fuel + 1, idx, flags => by
    unfold decFlags
    refine Fol.bind (Fol.dec16 E _) fun w => Fol.ite Fol.ub (Fol.ite Fol.ub (Fol.ite ?_ (Fol.pure _)))
    exact decFlags_fol E fuel _ _

theorem decProps_fol (E : DEnv) (flags : UInt32) : ∀ ps, Fol (decProps E flags ps) (decProps E.ideal flags ps)
  | [] => Fol.pure _
  | (bit, t, f) :: ps => by
    unfold decProps
    refine Fol.ite ?_ (decProps_fol E flags ps)
    exact Fol.bind (decField_fol E t) fun _ => Fol.bind (decProps_fol E flags ps) fun _ => Fol.pure _

theorem decProperties_fol (E : DEnv) (cls : UInt16) (k k' : Nat) :
    Follows (decProperties E cls k) (decProperties E.ideal cls k') := by
  unfold decProperties
  refine Fol.bind (decFlags_fol E 3 0 0) (fun flags => ?_) _ _ rfl
  cases switch cls decPropTable with
  | none => exact Fol.fail _
  | some ps => exact Fol.bind (Fol.alloc E) fun _ => Fol.bind (decProps_fol E _ ps) fun _ => Fol.pure _

end Rmq
