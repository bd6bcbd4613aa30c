import Verif.Proofs.TableEncode
/-! Safety of the decoders on arbitrary input, and decoding of the specified wire layout. -/
namespace Rmq

/-- Outcome `r` of a decode started in `s`: no undefined behaviour, no exhausted model bound; errors lie in `errs`; on success
the offset moved forward by at least `min` and is within the buffer. -/
def SafeRes {α : Type} (E : DEnv) (errs : Int → Prop) (min : Nat) (s : DState) (r : Res DState α) : Prop :=
  match r with
  | .ok _ s' => s.off + min ≤ s'.off ∧ s'.off ≤ E.len
  | .err e _ => errs e
  | .ub => False
  | .fuel => False

theorem SafeRes.weaken {α : Type} {E errs} {m m' : Nat} {s : DState} {r : Res DState α} (h : m' ≤ m)
    (hr : SafeRes E errs m s r) : SafeRes E errs m' s r := by
  cases r <;> simp_all [SafeRes] <;> omega

theorem SafeRes.bind {α β : Type} {E errs} {m₁ m₂ : Nat} {s : DState} {x : M DState α} {f : α → M DState β}
    (hx : SafeRes E errs m₁ s (x s))
    (hf : ∀ a s', x s = .ok a s' → s.off + m₁ ≤ s'.off → s'.off ≤ E.len → SafeRes E errs m₂ s' (f a s')) :
    SafeRes E errs (m₁ + m₂) s ((x >>= f) s) := by
  rw [M.bind_def]
  cases h : x s with
  | ok a s' =>
    rw [h] at hx
    have h2 := hf a s' h hx.1 hx.2
    show SafeRes E errs (m₁ + m₂) s (f a s')
    cases h3 : f a s' with
    | ok b s'' => rw [h3] at h2; exact ⟨by have := h2.1; have := hx.1; omega, h2.2⟩
    | err e s'' => rw [h3] at h2; exact h2
    | ub => rw [h3] at h2; exact h2
    | fuel => rw [h3] at h2; exact h2
  | err e s' => rw [h] at hx; exact hx
  | ub => rw [h] at hx; exact hx
  | fuel => rw [h] at hx; exact hx

theorem SafeRes.pure {α : Type} {E errs} {s : DState} (a : α) (h : s.off ≤ E.len) :
    SafeRes E errs 0 s ((Pure.pure a : M DState α) s) := ⟨by simp, h⟩

theorem SafeRes.fail {α : Type} {E} {errs : Int → Prop} {s : DState} {m : Nat} {e : Int} (h : errs e) :
    SafeRes E errs m s ((M.fail e : M DState α) s) := h

/-- a checked fixed-size read -/
theorem SafeRes.raw {α : Type} {E : DEnv} (hE : E.len ≤ E.mem.length) {errs : Int → Prop} {e : Int} (he : errs e)
    (n : Nat) (d : Bytes → Option α) (hd : ∀ bs : Bytes, bs.length = n → (d bs).isSome) (s : DState) :
    SafeRes E errs n s (M.orFailVal e (decRaw E n d) s) := by
  simp only [M.orFailVal, decRaw]
  by_cases h : s.off + n ≤ E.len
  · rw [if_pos h]
    simp only [readAt]
    rw [if_pos (by omega)]
    have hl : ((E.mem.drop s.off).take n).length = n := by simp; omega
    have := hd _ hl
    cases h3 : d ((E.mem.drop s.off).take n) with
    | none => rw [h3] at this; simp at this
    | some v => simp only [h3]; exact ⟨by simp, h⟩
  · rw [if_neg h]
    exact he

theorem SafeRes.dec8 {E : DEnv} (hE : E.len ≤ E.mem.length) {errs : Int → Prop} {e : Int} (he : errs e) (s : DState) :
    SafeRes E errs 1 s (M.orFailVal e (Rmq.dec8 E) s) :=
  SafeRes.raw hE he 1 d8 (fun bs h => by rw [d8_spec bs h]; rfl) s
theorem SafeRes.dec16 {E : DEnv} (hE : E.len ≤ E.mem.length) {errs : Int → Prop} {e : Int} (he : errs e) (s : DState) :
    SafeRes E errs 2 s (M.orFailVal e (Rmq.dec16 E) s) :=
  SafeRes.raw hE he 2 (d16 E.be) (fun bs h => by rw [d16_spec _ bs h]; rfl) s
theorem SafeRes.dec32 {E : DEnv} (hE : E.len ≤ E.mem.length) {errs : Int → Prop} {e : Int} (he : errs e) (s : DState) :
    SafeRes E errs 4 s (M.orFailVal e (Rmq.dec32 E) s) :=
  SafeRes.raw hE he 4 (d32 E.be) (fun bs h => by rw [d32_spec _ bs h]; rfl) s
theorem SafeRes.dec64 {E : DEnv} (hE : E.len ≤ E.mem.length) {errs : Int → Prop} {e : Int} (he : errs e) (s : DState) :
    SafeRes E errs 8 s (M.orFailVal e (Rmq.dec64 E) s) :=
  SafeRes.raw hE he 8 (d64 E.be) (fun bs h => by rw [d64_spec _ bs h]; rfl) s
theorem SafeRes.decBytes {E : DEnv} (hE : E.len ≤ E.mem.length) {errs : Int → Prop} {e : Int} (he : errs e) (n : Nat)
    (s : DState) : SafeRes E errs n s (M.orFailVal e (Rmq.decBytes E n) s) :=
  SafeRes.raw hE he n some (fun _ _ => rfl) s

theorem SafeRes.allocate {E : DEnv} {errs : Int → Prop} {e : Int} (he : errs e) (s : DState) (hs : s.off ≤ E.len) :
    SafeRes E errs 0 s (M.orFail e (Rmq.allocate E) s) := by
  simp only [M.orFail, Rmq.allocate]
  cases E.alloc s.allocs
  · exact he
  · exact ⟨by simp, hs⟩

/-- The statuses amqp_decode_table can fail with. -/
def DecErr (e : Int) : Prop := e = St.BAD_AMQP_DATA ∨ e = St.NO_MEMORY
theorem DecErr.bad : DecErr St.BAD_AMQP_DATA := Or.inl rfl
theorem DecErr.mem : DecErr St.NO_MEMORY := Or.inr rfl

theorem growCap_safe {E : DEnv} {s : DState} (hs : s.off ≤ E.len) (num allocated : Nat) (hn : num < 2 ^ 30) :
    SafeRes E DecErr 0 s (growCap E num allocated s) := by
  unfold growCap
  by_cases h : num ≥ allocated
  · rw [if_pos h, if_neg (by unfold INT_MAX; omega)]
    have := SafeRes.bind (m₁ := 0) (m₂ := 0) (f := fun _ => (Pure.pure (allocated * 2) : M DState Nat))
      (SafeRes.allocate DecErr.mem s hs) (fun _ s' _ _ h2 => SafeRes.pure _ h2)
    exact this
  · rw [if_neg h]; exact SafeRes.pure _ hs

theorem growCap_lt {E : DEnv} {s s' : DState} {num allocated a : Nat} (h1 : num ≤ allocated) (h2 : 0 < allocated)
    (h : growCap E num allocated s = .ok a s') : num < a := by
  unfold growCap at h
  by_cases h3 : num ≥ allocated
  · rw [if_pos h3] at h
    by_cases h4 : allocated * 2 > INT_MAX
    · rw [if_pos h4] at h; simp at h
    · rw [if_neg h4] at h
      simp only [M.bind_def, M.orFail, allocate] at h
      generalize E.alloc s.allocs = b at h
      cases b
      · simp at h
      · simp only [M.pure_def, Res.ok.injEq] at h
        omega
  · rw [if_neg h3] at h
    simp at h
    omega

theorem growEntries_safe {E : DEnv} {s : DState} (hs : s.off ≤ E.len) (num allocated : Nat) (hn : num < 2 ^ 30)
    (h1 : num ≤ allocated) (h2 : 0 < allocated) : SafeRes E DecErr 0 s (growEntries E num allocated s) := by
  unfold growEntries
  refine SafeRes.bind (m₁ := 0) (m₂ := 0) (growCap_safe hs num allocated hn) fun a s' h _ h' => ?_
  rw [if_pos (growCap_lt h1 h2 h)]
  exact SafeRes.pure _ h'

theorem growCap_off {E : DEnv} {s s' : DState} {num allocated a : Nat}
    (h : growCap E num allocated s = .ok a s') : s'.off = s.off := by
  unfold growCap at h
  by_cases h1 : num ≥ allocated
  · rw [if_pos h1] at h
    by_cases h2 : allocated * 2 > INT_MAX
    · rw [if_pos h2] at h; simp at h
    · rw [if_neg h2] at h
      simp only [M.bind_def, M.orFail, allocate] at h
      generalize E.alloc s.allocs = b at h
      cases b
      · simp at h
      · simp only [M.pure_def, Res.ok.injEq] at h
        obtain ⟨_, rfl⟩ := h; rfl
  · rw [if_neg h1] at h
    simp at h
    obtain ⟨_, rfl⟩ := h; rfl

theorem growEntries_off {E : DEnv} {s s' : DState} {num allocated a : Nat}
    (h : growEntries E num allocated s = .ok a s') : s'.off = s.off ∧ num < a := by
  unfold growEntries at h
  rw [M.bind_def] at h
  cases hc : growCap E num allocated s with
  | ok c s1 =>
    rw [hc] at h
    dsimp only at h
    by_cases hl : num < c
    · rw [if_pos hl] at h
      simp only [M.pure_def, Res.ok.injEq] at h
      obtain ⟨rfl, rfl⟩ := h
      exact ⟨growCap_off hc, hl⟩
    · rw [if_neg hl] at h; cases h
  | err e s1 => rw [hc] at h; cases h
  | ub => rw [hc] at h; cases h
  | fuel => rw [hc] at h; cases h

theorem finishEntries_safe {E : DEnv} {s : DState} (hs : s.off ≤ E.len) (num : Nat) :
    SafeRes E DecErr 0 s (finishEntries E num s) := by
  unfold finishEntries
  by_cases h : num = 0
  · rw [if_pos h]; exact SafeRes.pure _ hs
  · rw [if_neg h]; exact SafeRes.allocate DecErr.mem s hs

theorem SafeRes.map {α β : Type} {E errs} {m : Nat} {s : DState} {x : M DState α} (f : α → β)
    (hx : SafeRes E errs m s (x s)) : SafeRes E errs m s ((x >>= fun a => Pure.pure (f a)) s) :=
  SafeRes.bind (m₂ := 0) hx (fun _ _ _ _ h => SafeRes.pure _ h)

theorem decode_safe_aux (E : DEnv) (hE : E.len ≤ E.mem.length) (hB : E.len ≤ 2 ^ 30) (fuel : Nat) :
    (∀ depth s, s.off ≤ E.len → 3 * (E.len - s.off) + 2 ≤ fuel + 1 → 0 < fuel →
        SafeRes E DecErr 1 s (decFV E fuel depth s)) ∧
    (∀ depth s, s.off ≤ E.len → 3 * (E.len - s.off) + 1 ≤ fuel →
        SafeRes E DecErr 4 s (decArray E fuel depth s)) ∧
    (∀ depth limit num allocated s, s.off ≤ E.len → limit ≤ E.len → num ≤ s.off ∧ num ≤ allocated ∧ 0 < allocated → 3 * (E.len - s.off) + 2 ≤ fuel →
        SafeRes E DecErr 0 s (decArrayLoop E fuel depth limit num allocated s)) ∧
    (∀ depth s, s.off ≤ E.len → 3 * (E.len - s.off) + 1 ≤ fuel →
        SafeRes E DecErr 4 s (decTable E fuel depth s)) ∧
    (∀ depth limit num allocated s, s.off ≤ E.len → limit ≤ E.len → num ≤ s.off ∧ num ≤ allocated ∧ 0 < allocated → 3 * (E.len - s.off) + 2 ≤ fuel →
        SafeRes E DecErr 0 s (decTableLoop E fuel depth limit num allocated s)) := by
  induction fuel with
  | zero =>
    refine ⟨?_, ?_, ?_, ?_, ?_⟩
    · intros; omega
    all_goals intros; omega
  | succ fuel ih =>
    obtain ⟨ihV, ihA, ihAL, ihT, ihTL⟩ := ih
    refine ⟨?_, ?_, ?_, ?_, ?_⟩
    · intro depth s hs hf _
      unfold decFV
      by_cases hd : depth > TABLE_DEPTH_LIMIT
      · rw [if_pos hd]; exact SafeRes.fail DecErr.bad
      rw [if_neg hd]
      refine SafeRes.bind (m₁ := 1) (m₂ := 0) (SafeRes.dec8 hE DecErr.bad s) ?_
      intro kind s1 _ h1 h2
      have W : ∀ {m : Nat} {r : Res DState FV}, SafeRes E DecErr m s1 r → SafeRes E DecErr 0 s1 r :=
        fun h => SafeRes.weaken (Nat.zero_le _) h
      by_cases hk : kind = Kind.BOOLEAN
      · rw [if_pos hk]; exact W (SafeRes.map _ (SafeRes.dec8 hE DecErr.bad s1))
      rw [if_neg hk]; clear hk
      by_cases hk : kind = Kind.I8
      · rw [if_pos hk]; exact W (SafeRes.map _ (SafeRes.dec8 hE DecErr.bad s1))
      rw [if_neg hk]; clear hk
      by_cases hk : kind = Kind.U8
      · rw [if_pos hk]; exact W (SafeRes.map _ (SafeRes.dec8 hE DecErr.bad s1))
      rw [if_neg hk]; clear hk
      by_cases hk : kind = Kind.I16
      · rw [if_pos hk]; exact W (SafeRes.map _ (SafeRes.dec16 hE DecErr.bad s1))
      rw [if_neg hk]; clear hk
      by_cases hk : kind = Kind.U16
      · rw [if_pos hk]; exact W (SafeRes.map _ (SafeRes.dec16 hE DecErr.bad s1))
      rw [if_neg hk]; clear hk
      by_cases hk : kind = Kind.I32
      · rw [if_pos hk]; exact W (SafeRes.map _ (SafeRes.dec32 hE DecErr.bad s1))
      rw [if_neg hk]; clear hk
      by_cases hk : kind = Kind.U32
      · rw [if_pos hk]; exact W (SafeRes.map _ (SafeRes.dec32 hE DecErr.bad s1))
      rw [if_neg hk]; clear hk
      by_cases hk : kind = Kind.I64
      · rw [if_pos hk]; exact W (SafeRes.map _ (SafeRes.dec64 hE DecErr.bad s1))
      rw [if_neg hk]; clear hk
      by_cases hk : kind = Kind.U64
      · rw [if_pos hk]; exact W (SafeRes.map _ (SafeRes.dec64 hE DecErr.bad s1))
      rw [if_neg hk]; clear hk
      by_cases hk : kind = Kind.F32
      · rw [if_pos hk]; exact W (SafeRes.map _ (SafeRes.dec32 hE DecErr.bad s1))
      rw [if_neg hk]; clear hk
      by_cases hk : kind = Kind.F64
      · rw [if_pos hk]; exact W (SafeRes.map _ (SafeRes.dec64 hE DecErr.bad s1))
      rw [if_neg hk]; clear hk
      by_cases hk : kind = Kind.DECIMAL
      · rw [if_pos hk]; exact W (SafeRes.bind (SafeRes.dec8 hE DecErr.bad s1)
          fun _ s2 _ _ _ => SafeRes.map _ (SafeRes.dec32 hE DecErr.bad s2))
      rw [if_neg hk]; clear hk
      by_cases hk : kind = Kind.UTF8
      · rw [if_pos hk]; refine W (SafeRes.bind (m₂ := 0) (SafeRes.dec32 hE DecErr.bad s1) ?_)
        intro n s2 _ _ _
        exact SafeRes.weaken (Nat.zero_le _) (SafeRes.map _ (SafeRes.decBytes hE DecErr.bad n.toNat s2))
      rw [if_neg hk]; clear hk
      by_cases hk : kind = Kind.BYTES
      · rw [if_pos hk]; refine W (SafeRes.bind (m₂ := 0) (SafeRes.dec32 hE DecErr.bad s1) ?_)
        intro n s2 _ _ _
        exact SafeRes.weaken (Nat.zero_le _) (SafeRes.map _ (SafeRes.decBytes hE DecErr.bad n.toNat s2))
      rw [if_neg hk]; clear hk
      by_cases hk : kind = Kind.ARRAY
      · rw [if_pos hk]; exact W (SafeRes.map _ (ihA (depth + 1) s1 h2 (by omega)))
      rw [if_neg hk]; clear hk
      by_cases hk : kind = Kind.TIMESTAMP
      · rw [if_pos hk]; exact W (SafeRes.map _ (SafeRes.dec64 hE DecErr.bad s1))
      rw [if_neg hk]; clear hk
      by_cases hk : kind = Kind.TABLE
      · rw [if_pos hk]; exact W (SafeRes.map _ (ihT (depth + 1) s1 h2 (by omega)))
      rw [if_neg hk]; clear hk
      by_cases hk : kind = Kind.VOID
      · rw [if_pos hk]; exact SafeRes.pure _ h2
      rw [if_neg hk]; clear hk
      exact SafeRes.fail DecErr.bad
    · intro depth s hs hf
      unfold decArray
      refine SafeRes.bind (m₁ := 4) (m₂ := 0) (SafeRes.dec32 hE DecErr.bad s) ?_
      intro size s1 _ h1 h2
      refine SafeRes.bind (m₁ := 0) (m₂ := 0) (x := M.get) ⟨by simp, h2⟩ ?_
      intro a s2 ha _ _
      simp only [M.get_def, Res.ok.injEq] at ha
      obtain ⟨rfl, rfl⟩ := ha
      by_cases hb : size.toNat + s1.off > E.len
      · rw [if_pos hb]; exact SafeRes.fail DecErr.bad
      rw [if_neg hb]
      refine SafeRes.bind (m₁ := 0) (m₂ := 0) (SafeRes.allocate DecErr.mem s1 h2) ?_
      intro _ s2 _ h3 h4
      refine SafeRes.bind (m₁ := 0) (m₂ := 0)
        (ihAL depth (s1.off + size.toNat) 0 INITIAL_SIZE s2 h4 (by omega) ⟨by omega, by decide, by decide⟩ (by omega)) ?_
      intro vs s3 _ _ h5
      exact SafeRes.map _ (finishEntries_safe h5 _)
    · intro depth limit num allocated s hs hl hn hf
      unfold decArrayLoop
      refine SafeRes.bind (m₁ := 0) (m₂ := 0) (x := M.get) ⟨by simp, hs⟩ ?_
      intro a s2 ha _ _
      simp only [M.get_def, Res.ok.injEq] at ha
      obtain ⟨rfl, rfl⟩ := ha
      by_cases hb : s.off < limit
      · rw [if_pos hb]
        refine SafeRes.bind (m₁ := 0) (m₂ := 0) (growEntries_safe hs num allocated (by omega) hn.2.1 hn.2.2) ?_
        intro alloc' s1 hg h1 h2
        have hoff := growEntries_off hg
        refine SafeRes.weaken (Nat.zero_le 1) (SafeRes.bind (m₁ := 1) (m₂ := 0)
          (ihV depth s1 h2 (by omega) (by omega)) ?_)
        intro v s3 _ h3 h4
        exact SafeRes.map _ (ihAL depth limit (num + 1) alloc' s3 h4 hl ⟨by omega, by omega, by omega⟩ (by omega))
      · rw [if_neg hb]; exact SafeRes.pure _ hs
    · intro depth s hs hf
      unfold decTable
      refine SafeRes.bind (m₁ := 4) (m₂ := 0) (SafeRes.dec32 hE DecErr.bad s) ?_
      intro size s1 _ h1 h2
      refine SafeRes.bind (m₁ := 0) (m₂ := 0) (x := M.get) ⟨by simp, h2⟩ ?_
      intro a s2 ha _ _
      simp only [M.get_def, Res.ok.injEq] at ha
      obtain ⟨rfl, rfl⟩ := ha
      by_cases hb : size.toNat + s1.off > E.len
      · rw [if_pos hb]; exact SafeRes.fail DecErr.bad
      rw [if_neg hb]
      refine SafeRes.bind (m₁ := 0) (m₂ := 0) (SafeRes.allocate DecErr.mem s1 h2) ?_
      intro _ s2 _ h3 h4
      refine SafeRes.bind (m₁ := 0) (m₂ := 0)
        (ihTL depth (s1.off + size.toNat) 0 INITIAL_SIZE s2 h4 (by omega) ⟨by omega, by decide, by decide⟩ (by omega)) ?_
      intro vs s3 _ _ h5
      exact SafeRes.map _ (finishEntries_safe h5 _)
    · intro depth limit num allocated s hs hl hn hf
      unfold decTableLoop
      refine SafeRes.bind (m₁ := 0) (m₂ := 0) (x := M.get) ⟨by simp, hs⟩ ?_
      intro a s2 ha _ _
      simp only [M.get_def, Res.ok.injEq] at ha
      obtain ⟨rfl, rfl⟩ := ha
      by_cases hb : s.off < limit
      · rw [if_pos hb]
        refine SafeRes.weaken (Nat.zero_le 1) (SafeRes.bind (m₁ := 1) (m₂ := 0) (SafeRes.dec8 hE DecErr.bad s) ?_)
        intro keylen s0 _ h01 h02
        refine SafeRes.bind (m₁ := 0) (m₂ := 0) (growEntries_safe h02 num allocated (by omega) hn.2.1 hn.2.2) ?_
        intro alloc' s1 hg h1 h2
        have hoff := growEntries_off hg
        refine SafeRes.weaken (Nat.zero_le _) (SafeRes.bind (m₂ := 0)
          (SafeRes.decBytes hE DecErr.bad keylen.toNat s1) ?_)
        intro key s5 _ h51 h52
        refine SafeRes.weaken (Nat.zero_le 1) (SafeRes.bind (m₁ := 1) (m₂ := 0)
          (ihV depth s5 h52 (by omega) (by omega)) ?_)
        intro v s3 _ h3 h4
        exact SafeRes.map _ (ihTL depth limit (num + 1) alloc' s3 h4 hl ⟨by omega, by omega, by omega⟩ (by omega))
      · rw [if_neg hb]; exact SafeRes.pure _ hs

theorem decodeTable_safe (E : DEnv) (hE : E.len ≤ E.mem.length) (hB : E.len ≤ 2 ^ 30) (s : DState)
    (hs : s.off ≤ E.len) : SafeRes E DecErr 4 s (decodeTable E s) :=
  (decode_safe_aux E hE hB _).2.2.2.1 0 s hs (by unfold decFuel; omega)

end Rmq
