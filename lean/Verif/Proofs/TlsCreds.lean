import Verif.Spec.TlsCreds
namespace Rmq
open TlsSpec

theorem Ctx.steps_append (c : Ctx) (a b : List CtxEv) : c.steps (a ++ b) = (c.steps a).bind (·.steps b) := by
  induction a generalizing c with
  | nil => rfl
  | cons e a ih =>
    show (c.step e).bind (·.steps (a ++ b)) = ((c.step e).bind (·.steps a)).bind (·.steps b)
    cases c.step e with
    | none => rfl
    | some c => exact ih c

/-- One configuration call: the calls it makes. -/
theorem credOp_calls (O : CtxOracle) (op : CredOp) (l l' : CtxLog) (r : Int) (h : credOp O true op l = some (r, l')) (c : Ctx) :
    ∃ d, l' = l ++ d ∧ ∃ c', c.steps d = some c' ∧ ((r = St.OK ∧ c' = put op c) ∨ (r < 0 ∧ Leaves op c c')) := by
  cases op with
  | defaultPaths =>
    simp only [credOp, enableDefaultPaths, ctxCall] at h
    cases hf : O.defaultPaths l <;> simp only [hf, ↓reduceIte, reduceCtorEq] at h <;> injection h with h <;> injection h with h1 h2 <;> subst h1 h2
    · exact ⟨_, rfl, c, rfl, .inr ⟨by decide, .inl rfl⟩⟩
    · exact ⟨_, rfl, _, rfl, .inl ⟨rfl, rfl⟩⟩
  | caCert f =>
    simp only [credOp, setCacert, ctxCall] at h
    cases hf : O.caFile l <;> simp only [hf, ↓reduceIte, reduceCtorEq] at h <;> injection h with h <;> injection h with h1 h2 <;> subst h1 h2
    · exact ⟨_, rfl, c, rfl, .inr ⟨by decide, .inl rfl⟩⟩
    · exact ⟨_, rfl, _, rfl, .inl ⟨rfl, rfl⟩⟩
  | setCert f =>
    simp only [credOp, setCert, ctxCall] at h
    cases hf : O.chainFile l <;> simp only [hf, ↓reduceIte, reduceCtorEq] at h <;> injection h with h <;> injection h with h1 h2 <;> subst h1 h2
    · exact ⟨_, rfl, c, rfl, .inr ⟨by decide, .inl rfl⟩⟩
    · exact ⟨_, rfl, _, rfl, .inl ⟨rfl, rfl⟩⟩
  | setPasswd p =>
    simp only [credOp, ctxCall] at h
    injection h with h; injection h with h1 h2; subst h1 h2
    exact ⟨_, rfl, _, rfl, .inl ⟨rfl, rfl⟩⟩
  | setKey cert key =>
    simp only [credOp, setKey, ctxCall] at h
    cases hf : O.chainFile l <;> simp only [hf, ↓reduceIte, reduceCtorEq] at h
    · injection h with h; injection h with h1 h2; subst h1 h2
      exact ⟨_, rfl, c, rfl, .inr ⟨by decide, .inl rfl⟩⟩
    · cases hk : O.keyFile (l ++ [CtxEv.chainFile cert true]) <;> simp only [hk, ↓reduceIte, reduceCtorEq] at h <;> injection h with h <;> injection h with h1 h2 <;> subst h1 h2
      · exact ⟨_, List.append_assoc .., { c with chain := some cert }, rfl, .inr ⟨by decide, .inr ⟨cert, key, .inl rfl, rfl⟩⟩⟩
      · exact ⟨_, List.append_assoc .., _, rfl, .inl ⟨rfl, rfl⟩⟩
  | setKeyEngine cert key =>
    simp only [credOp, setKeyEngine, ctxCall] at h
    by_cases hap : O.engineApi = false
    · simp only [hap, ↓reduceIte] at h
      injection h with h; injection h with h1 h2; subst h1 h2
      exact ⟨[], by simp, c, rfl, .inr ⟨by decide, .inl rfl⟩⟩
    simp only [hap, ↓reduceIte] at h
    cases hf : O.chainFile l <;> simp only [hf, ↓reduceIte, reduceCtorEq] at h
    · injection h with h; injection h with h1 h2; subst h1 h2
      exact ⟨_, rfl, c, rfl, .inr ⟨by decide, .inl rfl⟩⟩
    · cases he : O.engineKey (l ++ [CtxEv.chainFile cert true]) with
      | none =>
        simp only [he] at h
        injection h with h; injection h with h1 h2; subst h1 h2
        exact ⟨_, List.append_assoc .., { c with chain := some cert }, rfl, .inr ⟨by decide, .inr ⟨cert, key, .inr (.inl rfl), rfl⟩⟩⟩
      | some p =>
        simp only [he] at h
        cases hk : O.usePkey (l ++ [CtxEv.chainFile cert true] ++ [CtxEv.engineKey key (some p)]) <;> simp only [hk, ↓reduceIte, reduceCtorEq] at h <;>
          injection h with h <;> injection h with h1 h2 <;> subst h1 h2
        · refine ⟨_, by simp only [List.append_assoc]; rfl, { c with chain := some cert }, ?_, .inr ⟨by decide, .inr ⟨cert, key, .inr (.inl rfl), rfl⟩⟩⟩
          simp [Ctx.steps, Ctx.step, remove]
        · refine ⟨_, by simp only [List.append_assoc]; rfl, _, ?_, .inl ⟨rfl, rfl⟩⟩
          simp [Ctx.steps, Ctx.step, remove, put]
  | setKeyBuffer cert key =>
    simp only [credOp, setKeyBuffer, ctxCall] at h
    by_cases hap : key.length > 2147483647
    · simp only [hap, ↓reduceIte] at h
      injection h with h; injection h with h1 h2; subst h1 h2
      exact ⟨[], by simp, c, rfl, .inr ⟨by decide, .inl rfl⟩⟩
    simp only [hap, ↓reduceIte] at h
    cases hf : O.chainFile l <;> simp only [hf, ↓reduceIte, reduceCtorEq] at h
    · injection h with h; injection h with h1 h2; subst h1 h2
      exact ⟨_, rfl, c, rfl, .inr ⟨by decide, .inl rfl⟩⟩
    · cases hb : O.bioMem (l ++ [CtxEv.chainFile cert true]) with
      | none =>
        simp only [hb] at h
        injection h with h; injection h with h1 h2; subst h1 h2
        exact ⟨_, List.append_assoc .., { c with chain := some cert }, rfl, .inr ⟨by decide, .inr ⟨cert, key, .inr (.inr rfl), rfl⟩⟩⟩
      | some b =>
        simp only [hb] at h
        cases hr : O.readKey (l ++ [CtxEv.chainFile cert true] ++ [CtxEv.bioMem key (some b)]) with
        | password => simp only [hr] at h; cases h
        | none =>
          simp only [hr] at h
          injection h with h; injection h with h1 h2; subst h1 h2
          refine ⟨_, by simp only [List.append_assoc]; rfl, { c with chain := some cert }, ?_, .inr ⟨by decide, .inr ⟨cert, key, .inr (.inr rfl), rfl⟩⟩⟩
          simp [Ctx.steps, Ctx.step, remove]
        | key k =>
          simp only [hr] at h
          cases hk : O.useRsa (l ++ [CtxEv.chainFile cert true] ++ [CtxEv.bioMem key (some b)] ++ [CtxEv.readKey b (.key k)]) <;> simp only [hk, ↓reduceIte, reduceCtorEq] at h <;>
            injection h with h <;> injection h with h1 h2 <;> subst h1 h2
          · refine ⟨_, by simp only [List.append_assoc]; rfl, { c with chain := some cert }, ?_, .inr ⟨by decide, .inr ⟨cert, key, .inr (.inr rfl), rfl⟩⟩⟩
            simp [Ctx.steps, Ctx.step, remove]
          · refine ⟨_, by simp only [List.append_assoc]; rfl, _, ?_, .inl ⟨rfl, rfl⟩⟩
            simp [Ctx.steps, Ctx.step, remove, put]

theorem credRun_calls (O : CtxOracle) (ops : List CredOp) (l l' : CtxLog) (rs : List Int) (h : credRun O ops l = some (rs, l')) (c : Ctx) :
    ∃ d c', l' = l ++ d ∧ c.steps d = some c' ∧ Configured c ops rs c' := by
  induction ops generalizing l rs c with
  | nil =>
    injection h with h; injection h with h1 h2; subst h1 h2
    exact ⟨[], c, by simp, rfl, .nil⟩
  | cons op ops ih =>
    simp only [credRun] at h
    cases ho : credOp O true op l with
    | none => rw [ho] at h; cases h
    | some p =>
      obtain ⟨r, l1⟩ := p
      rw [ho] at h
      dsimp only at h
      cases hr : credRun O ops l1 with
      | none => rw [hr] at h; cases h
      | some q =>
        obtain ⟨rs', l2⟩ := q
        rw [hr] at h
        injection h with h; injection h with h1 h2; subst h1 h2
        obtain ⟨d, rfl, c1, hd, hc⟩ := credOp_calls O op l l1 r ho c
        obtain ⟨d2, c2, rfl, hd2, hc2⟩ := ih _ _ hr c1
        refine ⟨d ++ d2, c2, by simp, by rw [Ctx.steps_append, hd]; exact hd2, ?_⟩
        rcases hc with ⟨rfl, rfl⟩ | ⟨hn, hl⟩
        · exact .ok hc2
        · exact .failed hn hl hc2

end Rmq
