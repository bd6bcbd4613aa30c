import Verif.Model.Frame
/-!
# The statuses the frame parser can report: NO_MEMORY, BAD_AMQP_DATA, UNKNOWN_CLASS, UNKNOWN_METHOD
-/
namespace Rmq

/-- One of the four parse errors. -/
def ParseErr (e : Int) : Prop := -4 ≤ e ∧ e ≤ -1

/-- … NO_MEMORY only if the allocator fails. -/
def PErr (A : Nat → Bool) (e : Int) : Prop := ParseErr e ∧ (e = St.NO_MEMORY → ∃ k, A k = false)

/-- Failures of `x` satisfy `PErr`. -/
def Ec (A : Nat → Bool) {α : Type} (x : M DState α) : Prop := ∀ s e s', x s = .err e s' → PErr A e

variable {A : Nat → Bool}

theorem Ec.bind {α β : Type} {x : M DState α} {f : α → M DState β} (hx : Ec A x) (hf : ∀ a, Ec A (f a)) : Ec A (x >>= f) := by
  intro s e s' h
  rw [M.bind_def] at h
  cases h1 : x s with
  | ok a t => rw [h1] at h; exact hf a t e s' h
  | err e' t => rw [h1] at h; cases h; exact hx s _ _ h1
  | ub => rw [h1] at h; cases h
  | fuel => rw [h1] at h; cases h

theorem Ec.pure {α : Type} (a : α) : Ec A (Pure.pure a : M DState α) := fun _ _ _ h => nomatch h
theorem Ec.fail {α : Type} {e : Int} (he : PErr A e) : Ec A (M.fail e : M DState α) := by
  intro s e' s' h; cases h; exact he
theorem Ec.ub {α : Type} : Ec A (M.ub : M DState α) := fun _ _ _ h => nomatch h
theorem Ec.outOfFuel {α : Type} : Ec A (M.outOfFuel : M DState α) := fun _ _ _ h => nomatch h
theorem Ec.get : Ec A (M.get : M DState DState) := fun _ _ _ h => nomatch h
theorem Ec.ite {α : Type} {p : Prop} [Decidable p] {x y : M DState α} (hx : Ec A x) (hy : Ec A y) : Ec A (if p then x else y) := by
  by_cases h : p
  · rw [if_pos h]; exact hx
  · rw [if_neg h]; exact hy

theorem Ec.raw {α : Type} (E : DEnv) (n : Nat) (d : Bytes → Option α) : Ec E.alloc (M.orFailVal St.BAD_AMQP_DATA (decRaw E n d)) := by
  intro s e s' h
  simp only [M.orFailVal, decRaw] at h
  by_cases h1 : s.off + n ≤ E.len
  · rw [if_pos h1] at h
    cases h2 : readAt E.mem s.off n with
    | none => rw [h2] at h; cases h
    | some bs =>
      rw [h2] at h
      dsimp only at h
      cases h3 : d bs with
      | none => rw [h3] at h; cases h
      | some v => rw [h3] at h; cases h
  · rw [if_neg h1] at h
    cases h
    exact ⟨⟨by decide, by decide⟩, fun h => absurd h (by decide)⟩

theorem Ec.alloc (E : DEnv) : Ec E.alloc (M.orFail St.NO_MEMORY (allocate E)) := by
  intro s e s' h
  simp only [M.orFail, allocate] at h
  cases h1 : E.alloc s.allocs with
  | true => rw [h1] at h; cases h
  | false => rw [h1] at h; cases h; exact ⟨⟨by decide, by decide⟩, fun _ => ⟨_, h1⟩⟩

theorem parseErr_bad : PErr A St.BAD_AMQP_DATA := ⟨⟨by decide, by decide⟩, fun h => absurd h (by decide)⟩
theorem parseErr_nomem {k : Nat} (h : A k = false) : PErr A St.NO_MEMORY := ⟨⟨by decide, by decide⟩, fun _ => ⟨k, h⟩⟩

theorem Ec.dec8 (E : DEnv) : Ec E.alloc (M.orFailVal St.BAD_AMQP_DATA (Rmq.dec8 E)) := Ec.raw E 1 d8
theorem Ec.dec16 (E : DEnv) : Ec E.alloc (M.orFailVal St.BAD_AMQP_DATA (Rmq.dec16 E)) := Ec.raw E 2 _
theorem Ec.dec32 (E : DEnv) : Ec E.alloc (M.orFailVal St.BAD_AMQP_DATA (Rmq.dec32 E)) := Ec.raw E 4 _
theorem Ec.dec64 (E : DEnv) : Ec E.alloc (M.orFailVal St.BAD_AMQP_DATA (Rmq.dec64 E)) := Ec.raw E 8 _
theorem Ec.decBytes (E : DEnv) (n : Nat) : Ec E.alloc (M.orFailVal St.BAD_AMQP_DATA (Rmq.decBytes E n)) := Ec.raw E n _

theorem growEntries_ec (E : DEnv) (num allocated : Nat) : Ec E.alloc (growEntries E num allocated) := by
  unfold growEntries growCap
  exact Ec.bind (Ec.ite (Ec.ite Ec.ub (Ec.bind (Ec.alloc E) fun _ => Ec.pure _)) (Ec.pure _)) fun _ =>
    Ec.ite (Ec.pure _) Ec.ub

theorem finishEntries_ec (E : DEnv) (num : Nat) : Ec E.alloc (finishEntries E num) := by
  unfold finishEntries
  exact Ec.ite (Ec.pure _) (Ec.alloc E)

theorem decode_ec (E : DEnv) (fuel : Nat) :
    (∀ depth, Ec E.alloc (decFV E fuel depth)) ∧
    (∀ depth, Ec E.alloc (decArray E fuel depth)) ∧
    (∀ depth limit num allocated, Ec E.alloc (decArrayLoop E fuel depth limit num allocated)) ∧
    (∀ depth, Ec E.alloc (decTable E fuel depth)) ∧
    (∀ depth limit num allocated, Ec E.alloc (decTableLoop E fuel depth limit num allocated)) := by
  induction fuel with
  | zero =>
    refine ⟨?_, ?_, ?_, ?_, ?_⟩ <;> intros
    · unfold decFV; exact Ec.outOfFuel
    · unfold decArray; exact Ec.outOfFuel
    · unfold decArrayLoop; exact Ec.outOfFuel
    · unfold decTable; exact Ec.outOfFuel
    · unfold decTableLoop; exact Ec.outOfFuel
  | succ fuel ih =>
    obtain ⟨i1, i2, i3, i4, i5⟩ := ih
    refine ⟨?_, ?_, ?_, ?_, ?_⟩
    · intro depth
      unfold decFV
      refine Ec.ite (Ec.fail parseErr_bad) (Ec.bind (Ec.dec8 E) fun k => ?_)
      repeat' first
        | apply Ec.dec8 | apply Ec.dec16 | apply Ec.dec32 | apply Ec.dec64 | apply Ec.decBytes
        | apply i2 | apply i4
        | apply Ec.pure | exact Ec.fail parseErr_bad
        | refine Ec.ite ?_ ?_
        | refine Ec.bind ?_ (fun _ => ?_)
    · intro depth
      unfold decArray
      refine Ec.bind (Ec.dec32 E) fun size => Ec.bind Ec.get fun s => ?_
      refine Ec.ite (Ec.fail parseErr_bad) (Ec.bind (Ec.alloc E) fun _ => ?_)
      exact Ec.bind (i3 _ _ _ _) fun vs => Ec.bind (finishEntries_ec E _) fun _ => Ec.pure _
    · intro depth limit num allocated
      unfold decArrayLoop
      refine Ec.bind Ec.get fun s => Ec.ite ?_ (Ec.pure _)
      exact Ec.bind (growEntries_ec E _ _) fun _ => Ec.bind (i1 _) fun _ =>
        Ec.bind (i3 _ _ _ _) fun _ => Ec.pure _
    · intro depth
      unfold decTable
      refine Ec.bind (Ec.dec32 E) fun size => Ec.bind Ec.get fun s => ?_
      refine Ec.ite (Ec.fail parseErr_bad) (Ec.bind (Ec.alloc E) fun _ => ?_)
      exact Ec.bind (i5 _ _ _ _) fun vs => Ec.bind (finishEntries_ec E _) fun _ => Ec.pure _
    · intro depth limit num allocated
      unfold decTableLoop
      refine Ec.bind Ec.get fun s => Ec.ite ?_ (Ec.pure _)
      exact Ec.bind (Ec.dec8 E) fun _ => Ec.bind (growEntries_ec E _ _) fun _ =>
        Ec.bind (Ec.decBytes E _) fun _ => Ec.bind (i1 _) fun _ =>
        Ec.bind (i5 _ _ _ _) fun _ => Ec.pure _

theorem decodeTable_ec (E : DEnv) : Ec E.alloc (decodeTable E) := fun s e s' h => (decode_ec E _).2.2.2.1 0 s e s' h

theorem decField_ec (E : DEnv) (t : FT) : Ec E.alloc (decField E t) := by
  cases t <;> unfold decField
  all_goals
    repeat' first
      | apply Ec.dec8 | apply Ec.dec16 | apply Ec.dec32 | apply Ec.dec64 | apply Ec.decBytes
      | apply decodeTable_ec
      | apply Ec.pure
      | refine Ec.bind ?_ (fun _ => ?_)

theorem decOp_ec (E : DEnv) (o : Op) : Ec E.alloc (decOp E o) := by
  cases o <;> unfold decOp
  · exact Ec.bind (decField_ec E _) fun _ => Ec.pure _
  · exact Ec.bind (Ec.dec8 E) fun _ => Ec.pure _

theorem decOps_ec (E : DEnv) : ∀ ops, Ec E.alloc (decOps E ops)
  | [] => Ec.pure _
  | o :: os => by
    unfold decOps
    exact Ec.bind (decOp_ec E o) fun _ => Ec.bind (decOps_ec E os) fun _ => Ec.pure _

theorem decMethod_ec {E : DEnv} {id : UInt32} {k : Nat} {e : Int} {d : DState} (h : decMethod E id k = .err e d) : PErr E.alloc e := by
  unfold decMethod at h
  cases h1 : switch id decTableOps with
  | none => rw [h1] at h; cases h; exact ⟨⟨by decide, by decide⟩, fun h => absurd h (by decide)⟩
  | some ops => rw [h1] at h; exact Ec.bind (Ec.alloc E) (fun _ => decOps_ec E ops) _ _ _ h

theorem decFlags_ec (E : DEnv) : ∀ fuel idx flags, Ec E.alloc (decFlags E fuel idx flags)
  | 0, _, _ => Ec.outOfFuel
  | fuel + 1, idx, flags => by
    unfold decFlags
    refine Ec.bind (Ec.dec16 E) fun w => Ec.ite Ec.ub (Ec.ite Ec.ub (Ec.ite ?_ (Ec.pure _)))
    exact decFlags_ec E fuel _ _

theorem decProps_ec (E : DEnv) (flags : UInt32) : ∀ ps, Ec E.alloc (decProps E flags ps)
  | [] => Ec.pure _
  | (bit, t, f) :: ps => by
    unfold decProps
    refine Ec.ite ?_ (decProps_ec E flags ps)
    exact Ec.bind (decField_ec E t) fun _ => Ec.bind (decProps_ec E flags ps) fun _ => Ec.pure _

theorem decProperties_ec {E : DEnv} {cls : UInt16} {k : Nat} {e : Int} {d : DState} (h : decProperties E cls k = .err e d) :
    PErr E.alloc e := by
  unfold decProperties at h
  revert h
  refine Ec.bind (decFlags_ec E 3 0 0) (fun flags => ?_) _ _ _
  cases switch cls decPropTable with
  | none => exact Ec.fail ⟨⟨by decide, by decide⟩, fun h => absurd h (by decide)⟩
  | some ps => exact Ec.bind (Ec.alloc E) fun _ => Ec.bind (decProps_ec E _ ps) fun _ => Ec.pure _

theorem getPool_false {E : PEnv} {s s' : PState} {ch : UInt16} (h : getPool E s ch = (false, s')) : E.alloc s.allocs = false := by
  unfold getPool at h
  by_cases h1 : ch ∈ s.pools
  · rw [if_pos h1] at h; cases h
  rw [if_neg h1] at h
  cases h2 : E.alloc s.allocs with
  | true => rw [h2] at h; cases h
  | false => rfl

theorem bodyPhase_ec {E : PEnv} {s : PState} {k : Nat} {e : Int} {s' : PState} (h : bodyPhase E s k = .err e s') : PErr E.alloc e := by
  unfold bodyPhase at h
  split at h
  · cases h
  · split at h
    · cases h
    · split at h
      · cases h; exact parseErr_bad
      · split at h
        · split at h
          · next hg => cases h; exact parseErr_nomem (getPool_false hg)
          · split at h
            · split at h
              · cases h
              · split at h
                · cases h
                · next hd => cases h; exact decMethod_ec hd
                · cases h
                · cases h
            · split at h
              · split at h
                · split at h
                  · cases h
                  · next hd => cases h; exact decProperties_ec hd
                  · cases h
                  · cases h
                · cases h
              · split at h
                · split at h <;> cases h
                · split at h <;> cases h
        · cases h

theorem headerPhase_ec {E : PEnv} {s : PState} {k : Nat} {r : Bytes} {e : Int} {s' : PState} (h : headerPhase E s k r = .err e s') :
    PErr E.alloc e := by
  unfold headerPhase at h
  split at h
  · cases h
  · split at h
    · split at h
      · cases h; exact parseErr_bad
      · dsimp only at h
        split at h
        · cases h; exact parseErr_bad
        · split at h
          · next hg => cases h; exact parseErr_nomem (getPool_false hg)
          · split at h
            · split at h
              · cases h
              · split at h
                · cases h
                · split at h
                  · cases h
                  · exact bodyPhase_ec h
            · next ha => cases h; exact parseErr_nomem (Bool.eq_false_iff.2 ha)
    · cases h

/-- amqp_handle_input fails only with one of the four parse errors. -/
theorem handleInput_perr {E : PEnv} {s : PState} {d : Bytes} {e : Int} {s' : PState} (h : handleInput E s d = .err e s') :
    PErr E.alloc e := by
  unfold handleInput at h
  split at h
  · cases h
  · dsimp only at h
    split at h
    · cases h
    · split at h
      · cases h
      · split at h
        · split at h
          · cases h
          · split at h
            · split at h <;> cases h
            · exact headerPhase_ec h
        · exact headerPhase_ec h
        · exact bodyPhase_ec h
        · cases h

theorem handleInput_ec {E : PEnv} {s : PState} {d : Bytes} {e : Int} {s' : PState} (h : handleInput E s d = .err e s') :
    ParseErr e := (handleInput_perr h).1

/-- With memory to spare it does not fail for want of memory. -/
theorem handleInput_memory {E : PEnv} (hA : ∀ k, E.alloc k = true) {s : PState} {d : Bytes} {e : Int} {s' : PState}
    (h : handleInput E s d = .err e s') : e ≠ St.NO_MEMORY := by
  intro he
  obtain ⟨k, hk⟩ := (handleInput_perr h).2 he
  rw [hA k] at hk
  cases hk

end Rmq
