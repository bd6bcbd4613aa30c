import Verif.Proofs.TableDeep
import Verif.Spec.Spelling
/-! The table decoder accepts exactly the lax grammar of `Verif.Spec.Spelling`. -/
namespace Rmq

/-- If `r`, reached from `s`, is a success, then the octets consumed and the value are in relation `P`. -/
def Yields {α : Type} (E : DEnv) (P : Bytes → α → Prop) (s : DState) (r : Res DState α) : Prop :=
  match r with
  | .ok a s' => ∃ bs, bs <+: E.mem.drop s.off ∧ s'.off = s.off + bs.length ∧ P bs a
  | _ => True

theorem Yields.bind {α β : Type} {E : DEnv} {P₁ : Bytes → α → Prop} {P : Bytes → β → Prop} {s : DState} {x : M DState α}
    {f : α → M DState β} (hx : Yields E P₁ s (x s))
    (hf : ∀ a b₁ s', P₁ b₁ a → s'.off = s.off + b₁.length → Yields E (fun b₂ c => P (b₁ ++ b₂) c) s' (f a s')) :
    Yields E P s ((x >>= f) s) := by
  rw [M.bind_def]
  cases h : x s with
  | ok a s' =>
    rw [h] at hx
    obtain ⟨b₁, hp, ho, h1⟩ := hx
    have h2 := hf a b₁ s' h1 ho
    show Yields E P s (f a s')
    cases h3 : f a s' with
    | ok b s'' =>
      rw [h3] at h2
      obtain ⟨b₂, hp2, ho2, h4⟩ := h2
      refine ⟨b₁ ++ b₂, ?_, by rw [List.length_append]; omega, h4⟩
      obtain ⟨t1, ht1⟩ := hp
      obtain ⟨t2, ht2⟩ := hp2
      refine ⟨t2, ?_⟩
      rw [ho, ← List.drop_drop, ← ht1, List.drop_left] at ht2
      rw [List.append_assoc, ht2, ht1]
    | err e s'' => trivial
    | ub => trivial
    | fuel => trivial
  | err e s' => trivial
  | ub => trivial
  | fuel => trivial

theorem Yields.mono {α : Type} {E : DEnv} {P Q : Bytes → α → Prop} {s : DState} {r : Res DState α} (h : Yields E P s r)
    (hi : ∀ bs a, P bs a → Q bs a) : Yields E Q s r := by
  cases r with
  | ok a s' => obtain ⟨bs, h1, h2, h3⟩ := h; exact ⟨bs, h1, h2, hi _ _ h3⟩
  | _ => trivial

theorem Yields.pure {α : Type} {E : DEnv} {P : Bytes → α → Prop} {s : DState} (a : α) (h : P [] a) :
    Yields E P s ((Pure.pure a : M DState α) s) := ⟨[], List.nil_prefix, by simp, h⟩

theorem Yields.map {α β : Type} {E : DEnv} {P : Bytes → β → Prop} {s : DState} {x : M DState α} (f : α → β)
    (hx : Yields E (fun bs a => P bs (f a)) s (x s)) : Yields E P s ((x >>= fun a => Pure.pure (f a)) s) :=
  Yields.bind hx fun a b₁ s' h1 _ => Yields.pure _ (by simpa using h1)

theorem Yields.fail {α : Type} {E : DEnv} {P : Bytes → α → Prop} {s : DState} (e : Int) :
    Yields E P s ((M.fail e : M DState α) s) := trivial

theorem Yields.raw {α : Type} {E : DEnv} (e : Int) (n : Nat) (d : Bytes → Option α) (s : DState) :
    Yields E (fun bs a => bs.length = n ∧ d bs = some a) s (M.orFailVal e (decRaw E n d) s) := by
  simp only [M.orFailVal, decRaw]
  by_cases h : s.off + n ≤ E.len
  · rw [if_pos h]
    simp only [readAt]
    by_cases h2 : s.off + n ≤ E.mem.length
    · rw [if_pos h2]
      have hl : ((E.mem.drop s.off).take n).length = n := by simp; omega
      cases h3 : d ((E.mem.drop s.off).take n) with
      | none => simp only [h3]; trivial
      | some v => simp only [h3]; exact ⟨_, List.take_prefix _ _, by simp only [hl], hl, h3⟩
    · rw [if_neg h2]; trivial
  · rw [if_neg h]; trivial

theorem Yields.dec8 {E : DEnv} (e : Int) (s : DState) :
    Yields E (fun bs a => bs = beBytes 1 a.toNat) s (M.orFailVal e (Rmq.dec8 E) s) :=
  (Yields.raw e 1 d8 s).mono fun bs a ⟨h1, h2⟩ => by
    rw [d8_spec bs h1] at h2; cases h2
    have hl : beVal bs < 2 ^ 8 := by have := beVal_lt bs; rw [h1] at this; exact this
    rw [UInt8.toNat_ofNat', Nat.mod_eq_of_lt hl, ← h1, beBytes_beVal]
theorem Yields.dec16 {E : DEnv} (e : Int) (s : DState) :
    Yields E (fun bs a => bs = beBytes 2 a.toNat) s (M.orFailVal e (Rmq.dec16 E) s) :=
  (Yields.raw e 2 _ s).mono fun bs a ⟨h1, h2⟩ => by
    rw [d16_spec _ bs h1] at h2; cases h2
    have hl : beVal bs < 2 ^ 16 := by have := beVal_lt bs; rw [h1] at this; exact this
    rw [UInt16.toNat_ofNat', Nat.mod_eq_of_lt hl, ← h1, beBytes_beVal]
theorem Yields.dec32 {E : DEnv} (e : Int) (s : DState) :
    Yields E (fun bs a => bs = beBytes 4 a.toNat) s (M.orFailVal e (Rmq.dec32 E) s) :=
  (Yields.raw e 4 _ s).mono fun bs a ⟨h1, h2⟩ => by
    rw [d32_spec _ bs h1] at h2; cases h2
    have hl : beVal bs < 2 ^ 32 := by have := beVal_lt bs; rw [h1] at this; exact this
    rw [UInt32.toNat_ofNat', Nat.mod_eq_of_lt hl, ← h1, beBytes_beVal]
theorem Yields.dec64 {E : DEnv} (e : Int) (s : DState) :
    Yields E (fun bs a => bs = beBytes 8 a.toNat) s (M.orFailVal e (Rmq.dec64 E) s) :=
  (Yields.raw e 8 _ s).mono fun bs a ⟨h1, h2⟩ => by
    rw [d64_spec _ bs h1] at h2; cases h2
    have hl : beVal bs < 2 ^ 64 := by have := beVal_lt bs; rw [h1] at this; exact this
    rw [UInt64.toNat_ofNat', Nat.mod_eq_of_lt hl, ← h1, beBytes_beVal]
theorem Yields.decBytes {E : DEnv} (e : Int) (n : Nat) (s : DState) :
    Yields E (fun bs a => bs = a ∧ a.length = n) s (M.orFailVal e (Rmq.decBytes E n) s) :=
  (Yields.raw e n _ s).mono fun bs a ⟨h1, h2⟩ => by cases h2; exact ⟨rfl, h1⟩

theorem Yields.longstr {E : DEnv} {P : Bytes → FV → Prop} (s : DState) (f : Bytes → FV)
    (h : ∀ b, b.length < 2 ^ 32 → P (serLong b) (f b)) :
    Yields E P s ((M.orFailVal St.BAD_AMQP_DATA (Rmq.dec32 E) >>= fun n =>
      M.orFailVal St.BAD_AMQP_DATA (Rmq.decBytes E n.toNat) >>= fun b => Pure.pure (f b)) s) := by
  refine Yields.bind (Yields.dec32 _ s) fun n b₁ s' h1 _ => Yields.map _ ((Yields.decBytes _ _ s').mono ?_)
  rintro bs a ⟨rfl, h2⟩
  have := h bs (by rw [h2]; exact n.toNat_lt)
  rw [h1, ← h2]; exact this

theorem Yields.alloc {E : DEnv} (e : Int) (s : DState) :
    Yields E (fun bs _ => bs = []) s (M.orFail e (Rmq.allocate E) s) := by
  simp only [M.orFail, Rmq.allocate]
  cases E.alloc s.allocs
  · trivial
  · exact ⟨[], List.nil_prefix, by simp, rfl⟩

theorem Yields.grow {E : DEnv} (num allocated : Nat) (s : DState) :
    Yields E (fun bs _ => bs = []) s (growEntries E num allocated s) := by
  cases h : growEntries E num allocated s with
  | ok a s' => exact ⟨[], List.nil_prefix, by simpa using (growEntries_off h).1, rfl⟩
  | _ => trivial

theorem Yields.finish {E : DEnv} (num : Nat) (s : DState) :
    Yields E (fun bs _ => bs = []) s (finishEntries E num s) := by
  unfold finishEntries
  by_cases h : num = 0
  · rw [if_pos h]; exact Yields.pure _ rfl
  · rw [if_neg h]; exact Yields.alloc _ s

theorem Yields.container {α β : Type} {E : DEnv} {P : Bytes → β → Prop} {Q : Nat → Bytes → List α → Prop}
    {loop : Nat → M DState (List α)} (g : List α → β) (s : DState)
    (hloop : ∀ n s, Yields E (Q n) s (loop (s.off + n) s))
    (h : ∀ n bs vs, n < 2 ^ 32 → Q n bs vs → P (beBytes 4 n ++ bs) (g vs)) :
    Yields E (fun bs vs => P bs (g vs)) s ((M.orFailVal St.BAD_AMQP_DATA (Rmq.dec32 E) >>= fun size =>
      M.get >>= fun s =>
      if size.toNat + s.off > E.len then M.fail St.BAD_AMQP_DATA
      else
        M.orFail St.NO_MEMORY (allocate E) >>= fun _ =>
        loop (s.off + size.toNat) >>= fun vs =>
        finishEntries E vs.length >>= fun _ => Pure.pure vs) s) := by
  refine Yields.bind (Yields.dec32 _ s) fun n b₁ s1 h1 _ => ?_
  subst h1
  rw [M.bind_def, M.get_def]
  dsimp only
  by_cases hb : n.toNat + s1.off > E.len
  · rw [if_pos hb]; trivial
  rw [if_neg hb]
  refine Yields.bind (Yields.alloc _ s1) fun _ b₂ s2 h2 ho => ?_
  subst h2
  have ho' : s1.off = s2.off := by simpa using ho.symm
  rw [ho']
  refine Yields.bind (hloop n.toNat s2) fun vs b₃ s3 h3 _ => ?_
  refine Yields.bind (Yields.finish _ s3) fun _ b₄ s4 h4 _ => Yields.pure _ ?_
  subst h4
  simpa using h _ _ _ n.toNat_lt h3

theorem spell_plain {strict canon : Prop} {bs : Bytes} {v : FV} (h : bs = serFV v) (hp : isPlain v) (hr : representable v) :
    SpellFV strict canon bs v := h ▸ SpellFV.plain v hp hr

/-- After the type letter `k`. -/
def AfterKind (k : UInt8) (bs : Bytes) (v : FV) : Prop := SpellFV False False (k :: bs) v

theorem AfterKind.of {k : UInt8} {bs : Bytes} {v : FV} (h : k :: bs = serFV v) (hp : isPlain v) (hr : representable v) :
    AfterKind k bs v := spell_plain h hp hr

theorem decode_spells (E : DEnv) (fuel : Nat) :
    (∀ depth s, Yields E (SpellFV False False) s (decFV E fuel depth s)) ∧
    (∀ depth s, Yields E (fun bs vs => AfterKind Kind.ARRAY bs (.array vs)) s (decArray E fuel depth s)) ∧
    (∀ depth limit num allocated s, Yields E (SpellFVs False False (limit - s.off)) s
      (decArrayLoop E fuel depth limit num allocated s)) ∧
    (∀ depth s, Yields E (SpellTable False False) s (decTable E fuel depth s)) ∧
    (∀ depth limit num allocated s, Yields E (SpellEntries False False (limit - s.off)) s
      (decTableLoop E fuel depth limit num allocated s)) := by
  induction fuel with
  | zero =>
    refine ⟨?_, ?_, ?_, ?_, ?_⟩
    · intros; unfold decFV; trivial
    · intros; unfold decArray; trivial
    · intros; unfold decArrayLoop; trivial
    · intros; unfold decTable; trivial
    · intros; unfold decTableLoop; trivial
  | succ fuel ih =>
    obtain ⟨ihV, ihA, ihAL, ihT, ihTL⟩ := ih
    refine ⟨?_, ?_, ?_, ?_, ?_⟩
    · intro depth s
      unfold decFV
      by_cases hd : depth > TABLE_DEPTH_LIMIT
      · rw [if_pos hd]; trivial
      rw [if_neg hd]
      refine Yields.bind (Yields.dec8 _ s) fun kind b₁ s1 h1 _ => ?_
      subst h1
      rw [beBytes1]
      refine Yields.mono (P := AfterKind kind) ?_ (fun bs a h => h)
      by_cases hk : kind = Kind.BOOLEAN
      · rw [if_pos hk]; subst hk
        refine Yields.map _ ((Yields.dec8 _ s1).mono ?_)
        rintro bs v rfl
        rw [beBytes1]
        have := SpellFV.boolean (strict := False) (canon := False) v (fun h => h.elim)
        by_cases hv : v = 0
        · subst hv; exact this
        · rw [if_neg hv] at this; rw [if_pos hv]; exact this
      rw [if_neg hk]; clear hk
      by_cases hk : kind = Kind.I8
      · rw [if_pos hk]; subst hk
        refine Yields.map _ ((Yields.dec8 _ s1).mono ?_)
        rintro bs v rfl; exact AfterKind.of (by simp [serFV]; rfl) trivial trivial
      rw [if_neg hk]; clear hk
      by_cases hk : kind = Kind.U8
      · rw [if_pos hk]; subst hk
        refine Yields.map _ ((Yields.dec8 _ s1).mono ?_)
        rintro bs v rfl; exact AfterKind.of rfl trivial trivial
      rw [if_neg hk]; clear hk
      by_cases hk : kind = Kind.I16
      · rw [if_pos hk]; subst hk
        refine Yields.map _ ((Yields.dec16 _ s1).mono ?_)
        rintro bs v rfl; exact AfterKind.of (by simp [serFV]; rfl) trivial trivial
      rw [if_neg hk]; clear hk
      by_cases hk : kind = Kind.U16
      · rw [if_pos hk]; subst hk
        refine Yields.map _ ((Yields.dec16 _ s1).mono ?_)
        rintro bs v rfl; exact AfterKind.of rfl trivial trivial
      rw [if_neg hk]; clear hk
      by_cases hk : kind = Kind.I32
      · rw [if_pos hk]; subst hk
        refine Yields.map _ ((Yields.dec32 _ s1).mono ?_)
        rintro bs v rfl; exact AfterKind.of (by simp [serFV]; rfl) trivial trivial
      rw [if_neg hk]; clear hk
      by_cases hk : kind = Kind.U32
      · rw [if_pos hk]; subst hk
        refine Yields.map _ ((Yields.dec32 _ s1).mono ?_)
        rintro bs v rfl; exact AfterKind.of rfl trivial trivial
      rw [if_neg hk]; clear hk
      by_cases hk : kind = Kind.I64
      · rw [if_pos hk]; subst hk
        refine Yields.map _ ((Yields.dec64 _ s1).mono ?_)
        rintro bs v rfl; exact AfterKind.of (by simp [serFV]; rfl) trivial trivial
      rw [if_neg hk]; clear hk
      by_cases hk : kind = Kind.U64
      · rw [if_pos hk]; subst hk
        refine Yields.map _ ((Yields.dec64 _ s1).mono ?_)
        rintro bs v rfl; exact AfterKind.of rfl trivial trivial
      rw [if_neg hk]; clear hk
      by_cases hk : kind = Kind.F32
      · rw [if_pos hk]; subst hk
        refine Yields.map _ ((Yields.dec32 _ s1).mono ?_)
        rintro bs v rfl; exact AfterKind.of rfl trivial trivial
      rw [if_neg hk]; clear hk
      by_cases hk : kind = Kind.F64
      · rw [if_pos hk]; subst hk
        refine Yields.map _ ((Yields.dec64 _ s1).mono ?_)
        rintro bs v rfl; exact AfterKind.of rfl trivial trivial
      rw [if_neg hk]; clear hk
      by_cases hk : kind = Kind.DECIMAL
      · rw [if_pos hk]; subst hk
        refine Yields.bind (Yields.dec8 _ s1) fun d b₂ s2 h2 _ => Yields.map _ ((Yields.dec32 _ s2).mono ?_)
        subst h2
        rintro bs v rfl; exact AfterKind.of rfl trivial trivial
      rw [if_neg hk]; clear hk
      by_cases hk : kind = Kind.UTF8
      · rw [if_pos hk]; subst hk
        exact Yields.longstr s1 FV.utf8 fun b hb => AfterKind.of rfl trivial (by simpa [representable] using hb)
      rw [if_neg hk]; clear hk
      by_cases hk : kind = Kind.BYTES
      · rw [if_pos hk]; subst hk
        exact Yields.longstr s1 FV.bytes fun b hb => AfterKind.of rfl trivial (by simpa [representable] using hb)
      rw [if_neg hk]; clear hk
      by_cases hk : kind = Kind.ARRAY
      · rw [if_pos hk]; subst hk; exact Yields.map FV.array (ihA (depth + 1) s1)
      rw [if_neg hk]; clear hk
      by_cases hk : kind = Kind.TIMESTAMP
      · rw [if_pos hk]; subst hk
        refine Yields.map _ ((Yields.dec64 _ s1).mono ?_)
        rintro bs v rfl; exact AfterKind.of rfl trivial trivial
      rw [if_neg hk]; clear hk
      by_cases hk : kind = Kind.TABLE
      · rw [if_pos hk]; subst hk
        refine Yields.map FV.table ((ihT (depth + 1) s1).mono ?_)
        rintro bs v ⟨n, body, hn, rfl, h⟩
        exact SpellFV.table n body v hn h
      rw [if_neg hk]; clear hk
      by_cases hk : kind = Kind.VOID
      · rw [if_pos hk]; subst hk; exact Yields.pure _ (AfterKind.of rfl trivial trivial)
      rw [if_neg hk]; trivial
    · intro depth s
      unfold decArray
      exact Yields.container (P := AfterKind Kind.ARRAY) (Q := SpellFVs False False) (loop := fun limit => decArrayLoop E fuel depth limit 0 INITIAL_SIZE) FV.array s
        (fun n s => by simpa using ihAL depth (s.off + n) 0 INITIAL_SIZE s) (fun n bs vs hn h => SpellFV.array n bs vs hn h)
    · intro depth limit num allocated s
      unfold decArrayLoop
      rw [M.bind_def, M.get_def]
      dsimp only
      by_cases h : s.off < limit
      · rw [if_pos h]
        refine Yields.bind (Yields.grow _ _ s) fun a b₁ s1 h1 ho1 => ?_
        subst h1
        refine Yields.bind (ihV depth s1) fun v b₂ s2 h2 ho2 => ?_
        refine Yields.bind (ihAL depth limit (num + 1) a s2) fun vs b₃ s3 h3 _ => Yields.pure _ ?_
        rw [show limit - s2.off = limit - s.off - b₂.length by simp at ho1; omega] at h3
        simpa using SpellFVs.cons _ b₂ b₃ v vs (by omega) (fun h => h.elim) h2 h3
      · rw [if_neg h]
        rw [show limit - s.off = 0 by omega]
        exact Yields.pure _ SpellFVs.nil
    · intro depth s
      unfold decTable
      exact Yields.container (P := SpellTable False False) (Q := SpellEntries False False) (loop := fun limit => decTableLoop E fuel depth limit 0 INITIAL_SIZE) id s
        (fun n s => by simpa using ihTL depth (s.off + n) 0 INITIAL_SIZE s) (fun n bs vs hn h => ⟨n, bs, hn, rfl, h⟩)
    · intro depth limit num allocated s
      unfold decTableLoop
      rw [M.bind_def, M.get_def]
      dsimp only
      by_cases h : s.off < limit
      · rw [if_pos h]
        refine Yields.bind (Yields.dec8 _ s) fun kl b₀ s0 h0 ho0 => ?_
        refine Yields.bind (Yields.grow _ _ s0) fun a b₁ s1 h1 ho1 => ?_
        subst h1
        refine Yields.bind (Yields.decBytes _ _ s1) fun k b₂ s2 h2 ho2 => ?_
        obtain ⟨rfl, hk⟩ := h2
        refine Yields.bind (ihV depth s2) fun v b₃ s3 h3 ho3 => ?_
        refine Yields.bind (ihTL depth limit (num + 1) a s3) fun es b₄ s4 h4 _ => Yields.pure _ ?_
        have hb : b₀ ++ b₂ = serShort b₂ := by rw [h0, ← hk]; rfl
        have hk255 : b₂.length ≤ 255 := by have := kl.toNat_lt; omega
        have hl0 : b₀.length = 1 := by rw [h0]; exact beBytes_length _ _
        rw [show limit - s3.off = limit - s.off - (serShort b₂ ++ b₃).length by
          rw [← hb]; simp only [List.length_append, List.length_nil] at *; omega] at h4
        have := SpellEntries.cons _ b₂ b₃ b₄ v es (by omega) hk255 (fun h => h.elim) h3 h4
        rw [← hb] at this
        simpa using this
      · rw [if_neg h]
        rw [show limit - s.off = 0 by omega]
        exact Yields.pure _ SpellEntries.nil

theorem SpellFV.pos {strict canon : Prop} {bs : Bytes} {v : FV} (h : SpellFV strict canon bs v) : 1 ≤ bs.length := by
  cases h with
  | boolean => simp
  | plain _ _ _ => exact serFV_pos v
  | array => simp
  | table => simp

theorem SpellFVs.le {strict canon : Prop} {n : Nat} {bs : Bytes} {vs : List FV} (h : SpellFVs strict canon n bs vs) :
    n ≤ bs.length := by
  match h with
  | .nil => simp
  | .cons n a bs v vs _ _ _ h => have := SpellFVs.le h; rw [List.length_append]; omega

theorem SpellEntries.le {strict canon : Prop} {n : Nat} {bs : Bytes} {vs : List Entry} (h : SpellEntries strict canon n bs vs) :
    n ≤ bs.length := by
  match h with
  | .nil => simp
  | .cons n k a bs v es _ _ _ _ h => have := SpellEntries.le h; simp only [List.length_append] at *; omega

/-- Decoding a container whose declared length `n` may be less than what its entries take. -/
theorem DecodesTo.container' {α : Type} {E : DEnv} (hG : E.Good) {n : Nat} {body : Bytes} (hn : n < 2 ^ 32) (hb : n ≤ body.length)
    {vs : List α} {loop : Nat → M DState (List α)}
    (hloop : ∀ s : DState, body <+: E.mem.drop s.off → s.off + body.length ≤ E.len →
      ∃ c, loop (s.off + n) s = .ok vs ⟨s.off + body.length, c⟩) :
    DecodesTo E (M.orFailVal St.BAD_AMQP_DATA (Rmq.dec32 E) >>= fun size =>
      M.get >>= fun s =>
      if size.toNat + s.off > E.len then M.fail St.BAD_AMQP_DATA
      else
        M.orFail St.NO_MEMORY (allocate E) >>= fun _ =>
        loop (s.off + size.toNat) >>= fun vs =>
        finishEntries E vs.length >>= fun _ => Pure.pure vs) (beBytes 4 n ++ body) vs := by
  have hb' : (UInt32.ofNat n).toNat = n := by rw [UInt32.toNat_ofNat']; exact Nat.mod_eq_of_lt hn
  have h1 := DecodesTo.dec32 hG.mem St.BAD_AMQP_DATA (UInt32.ofNat n)
  rw [hb'] at h1
  refine DecodesTo.bind h1 ?_
  rw [hb']
  intro s hp hl
  rw [M.bind_def, M.get_def]
  dsimp only
  rw [if_neg (by omega)]
  obtain ⟨c1, hc1⟩ := allocate_ok hG St.NO_MEMORY s (by simp) (by simp; omega)
  rw [M.bind_def, hc1]
  dsimp only [List.length_nil, Nat.add_zero]
  obtain ⟨c2, hc2⟩ := hloop ⟨s.off, c1⟩ hp hl
  rw [M.bind_def, hc2]
  dsimp only
  obtain ⟨c3, hc3⟩ := finishEntries_ok hG vs.length ⟨s.off + body.length, c2⟩ (by simp) (by simpa using hl)
  rw [M.bind_def, hc3]
  exact ⟨c3, by simp⟩

mutual
theorem decFV_spell {strict canon : Prop} (E : DEnv) (hG : E.Good) {bs : Bytes} {v : FV} (h : SpellFV strict canon bs v) (fuel depth : Nat)
    (hd : depth + nesting v ≤ TABLE_DEPTH_LIMIT) (hf : 3 * bs.length + 1 ≤ fuel) :
    DecodesTo E (decFV E fuel depth) bs v := by
  match h with
  | .plain v _ hr => exact decFV_ser E hG v fuel depth hr hd hf
  | .boolean b _ =>
    match fuel, hf with
    | 0, hf => simp at hf
    | fuel + 1, hf =>
    unfold decFV
    rw [if_neg (by omega)]
    pick_kind hG
    have := DecodesTo.map (fun v : UInt8 => FV.boolean (if v ≠ 0 then 1 else 0)) (DecodesTo.dec8 hG.mem St.BAD_AMQP_DATA b)
    rw [beBytes1] at this
    by_cases hb : b = 0
    · subst hb; exact this
    · rw [if_neg hb]; simpa [hb] using this
  | .array n bs vs hn h =>
    simp only [nesting] at hd
    simp only [List.length_cons, List.length_append, beBytes_length] at hf
    match fuel, hf with
    | 0, hf => omega
    | 1, hf => omega
    | fuel + 2, hf =>
    unfold decFV
    rw [if_neg (by omega)]
    pick_kind hG
    refine DecodesTo.map FV.array ?_
    unfold decArray
    exact DecodesTo.container' hG hn h.le (loop := fun limit => decArrayLoop E fuel (depth + 1) limit 0 INITIAL_SIZE)
      (fun s hp hl => decFVs_spell E hG h fuel (depth + 1) 0 INITIAL_SIZE (by omega) (by omega) s _ (by omega) hp hl ⟨by omega, by decide, by decide⟩)
  | .table n bs es hn h =>
    simp only [nesting] at hd
    simp only [List.length_cons, List.length_append, beBytes_length] at hf
    match fuel, hf with
    | 0, hf => omega
    | 1, hf => omega
    | fuel + 2, hf =>
    unfold decFV
    rw [if_neg (by omega)]
    pick_kind hG
    refine DecodesTo.map FV.table ?_
    unfold decTable
    exact DecodesTo.container' hG hn h.le (loop := fun limit => decTableLoop E fuel (depth + 1) limit 0 INITIAL_SIZE)
      (fun s hp hl => decEs_spell E hG h fuel (depth + 1) 0 INITIAL_SIZE (by omega) (by omega) s _ (by omega) hp hl ⟨by omega, by decide, by decide⟩)

theorem decFVs_spell {strict canon : Prop} (E : DEnv) (hG : E.Good) {n : Nat} {bs : Bytes} {vs : List FV} (h : SpellFVs strict canon n bs vs)
    (fuel depth num allocated : Nat)
    (hd : depth + nestings vs ≤ TABLE_DEPTH_LIMIT + 1) (hf : 3 * bs.length + 2 ≤ fuel) :
    ∀ (s : DState) (limit : Nat), limit - s.off = n → bs <+: E.mem.drop s.off → s.off + bs.length ≤ E.len → num ≤ s.off ∧ num ≤ allocated ∧ 0 < allocated →
      ∃ c, decArrayLoop E fuel depth limit num allocated s
        = .ok vs ⟨s.off + bs.length, c⟩ := by
  intro s limit hlim hp hl hn
  match fuel, hf with
  | 0, hf => omega
  | fuel + 1, hf =>
  unfold decArrayLoop
  rw [M.bind_def, M.get_def]
  dsimp only
  match h with
  | .nil => rw [if_neg (by omega)]; exact ⟨s.allocs, rfl⟩
  | .cons n a bs v vs h0 _ h1 h2 =>
    have hpos := h1.pos
    simp only [nestings] at hd
    simp only [List.length_append] at hf hl hp ⊢
    rw [if_pos (by omega)]
    have hs30 := hG.size
    obtain ⟨a', hna, ha⟩ := growEntries_ok hG num allocated (by omega) hn.2.1 hn.2.2
    obtain ⟨c1, hc1⟩ := ha s (by simp) (by simp; omega)
    rw [M.bind_def, hc1]
    dsimp only [List.length_nil, Nat.add_zero]
    obtain ⟨c2, hc2⟩ := decFV_spell E hG h1 fuel depth (by omega) (by omega) ⟨s.off, c1⟩
      ((List.prefix_append _ _).trans hp) (by show s.off + _ ≤ _; omega)
    rw [M.bind_def, hc2]
    dsimp only
    obtain ⟨c3, hc3⟩ := decFVs_spell E hG h2 fuel depth (num + 1) a' (by omega) (by omega)
      ⟨s.off + a.length, c2⟩ limit (by show limit - (s.off + _) = _; omega) (prefix_drop hp) (by show s.off + _ + _ ≤ _; omega) ⟨by show _ ≤ s.off + _; omega, by omega, by omega⟩
    dsimp only at hc3
    rw [Nat.add_assoc] at hc3
    rw [M.bind_def, hc3]
    exact ⟨c3, rfl⟩

theorem decEs_spell {strict canon : Prop} (E : DEnv) (hG : E.Good) {n : Nat} {bs : Bytes} {es : List Entry} (h : SpellEntries strict canon n bs es)
    (fuel depth num allocated : Nat)
    (hd : depth + nestingEs es ≤ TABLE_DEPTH_LIMIT + 1) (hf : 3 * bs.length + 2 ≤ fuel) :
    ∀ (s : DState) (limit : Nat), limit - s.off = n → bs <+: E.mem.drop s.off → s.off + bs.length ≤ E.len → num ≤ s.off ∧ num ≤ allocated ∧ 0 < allocated →
      ∃ c, decTableLoop E fuel depth limit num allocated s
        = .ok es ⟨s.off + bs.length, c⟩ := by
  intro s limit hlim hp hl hn
  match fuel, hf with
  | 0, hf => omega
  | fuel + 1, hf =>
  unfold decTableLoop
  rw [M.bind_def, M.get_def]
  dsimp only
  match h with
  | .nil => rw [if_neg (by omega)]; exact ⟨s.allocs, rfl⟩
  | .cons n k a bs v es h0 hk255 _ h1 h2 =>
    have hpos := h1.pos
    simp only [nestingEs, nestingE] at hd
    simp only [serShort, List.length_append, beBytes_length] at hf hl hp h2 ⊢
    rw [if_pos (by omega)]
    have hs30 := hG.size
    have hk : (UInt8.ofNat k.length).toNat = k.length := by
      rw [UInt8.toNat_ofNat']; exact Nat.mod_eq_of_lt (by omega)
    have h8 := DecodesTo.dec8 hG.mem St.BAD_AMQP_DATA (UInt8.ofNat k.length)
    rw [hk] at h8
    rw [List.append_assoc] at hp
    obtain ⟨c0, hc0⟩ := h8 s ((List.prefix_append _ _).trans hp) (by rw [beBytes_length]; omega)
    have hp1 := prefix_drop hp
    rw [beBytes_length] at hp1
    rw [M.bind_def, hc0, beBytes_length]
    dsimp only
    obtain ⟨a', hna, ha⟩ := growEntries_ok hG num allocated (by omega) hn.2.1 hn.2.2
    obtain ⟨c1, hc1⟩ := ha ⟨s.off + 1, c0⟩ (by simp) (by simp; omega)
    rw [M.bind_def, hc1]
    dsimp only [List.length_nil, Nat.add_zero]
    rw [hk]
    obtain ⟨c2, hc2⟩ := DecodesTo.decBytes hG.mem St.BAD_AMQP_DATA k ⟨s.off + 1, c1⟩ ((List.prefix_append _ _).trans hp1)
      (by show s.off + 1 + _ ≤ _; omega)
    rw [M.bind_def, hc2]
    dsimp only
    have hp2 := prefix_drop hp1
    obtain ⟨c3, hc3⟩ := decFV_spell E hG h1 fuel depth (by omega) (by omega) ⟨s.off + 1 + k.length, c2⟩
      ((List.prefix_append _ _).trans hp2) (by show s.off + 1 + _ + _ ≤ _; omega)
    rw [M.bind_def, hc3]
    dsimp only
    obtain ⟨c4, hc4⟩ := decEs_spell E hG h2 fuel depth (num + 1) a' (by omega) (by omega)
      ⟨s.off + 1 + k.length + a.length, c3⟩ limit (by show limit - (s.off + 1 + _ + _) = _; omega) (prefix_drop hp2)
      (by show s.off + 1 + _ + _ + _ ≤ _; omega) ⟨by show _ ≤ s.off + 1 + _ + _; omega, by omega, by omega⟩
    dsimp only at hc4
    rw [M.bind_def, hc4]
    exact ⟨c4, by simp only [M.pure_def, Nat.add_assoc]⟩
end

theorem decodeTable_spell {strict canon : Prop} (E : DEnv) (hG : E.Good) {bs : Bytes} {t : Table} (h : SpellTable strict canon bs t)
    (hn : nestingEs t ≤ TABLE_DEPTH_LIMIT + 1) (s : DState) (hp : bs <+: E.mem.drop s.off)
    (hl : s.off + bs.length ≤ E.len) : ∃ c, decodeTable E s = .ok t ⟨s.off + bs.length, c⟩ := by
  obtain ⟨n, body, h0, rfl, h⟩ := h
  unfold decodeTable
  have hf : 3 * (beBytes 4 n ++ body).length + 4 ≤ decFuel E s.off := by
    unfold decFuel; omega
  simp only [List.length_append, beBytes_length] at hf
  match hfu : decFuel E s.off, hf with
  | 0, hf => omega
  | fuel + 1, hf =>
  unfold decTable
  exact DecodesTo.container' hG h0 h.le (loop := fun limit => decTableLoop E fuel 0 limit 0 INITIAL_SIZE)
    (fun s hp hl => decEs_spell E hG h fuel 0 0 INITIAL_SIZE (by omega) (by omega) s _ (by omega) hp hl ⟨by omega, by decide, by decide⟩) s hp hl

/-! ### The strict, canonical grammar is the specified serialisation -/

mutual
theorem SpellFV.ser {bs : Bytes} {v : FV} (h : SpellFV True True bs v) : bs = serFV v ∧ representable v := by
  match h with
  | .plain v _ hr => exact ⟨rfl, hr⟩
  | .boolean b hb =>
    rcases hb trivial with rfl | rfl
    · exact ⟨rfl, Or.inl rfl⟩
    · exact ⟨rfl, Or.inr rfl⟩
  | .array n bs vs hn h =>
    obtain ⟨h1, h2, h3⟩ := SpellFVs.ser h
    subst h1
    refine ⟨?_, ?_⟩
    · simp only [serFV, serLong]; rw [h2]
    · simp only [representable]; exact ⟨by omega, h3⟩
  | .table n bs vs hn h =>
    obtain ⟨h1, h2, h3⟩ := SpellEntries.ser h
    subst h1
    refine ⟨?_, ?_⟩
    · simp only [serFV, serLong]; rw [h2]
    · simp only [representable]; exact ⟨by omega, h3⟩
theorem SpellFVs.ser {n : Nat} {bs : Bytes} {vs : List FV} (h : SpellFVs True True n bs vs) :
    bs = serFVs vs ∧ (serFVs vs).length = n ∧ representables vs := by
  match h with
  | .nil => exact ⟨rfl, rfl, trivial⟩
  | .cons n a bs v vs h0 hs h1 h2 =>
    obtain ⟨e1, r1⟩ := SpellFV.ser h1
    obtain ⟨e2, l2, r2⟩ := SpellFVs.ser h2
    have := hs trivial
    subst e1 e2
    exact ⟨rfl, by simp only [serFVs, List.length_append]; omega, r1, r2⟩
theorem SpellEntries.ser {n : Nat} {bs : Bytes} {es : List Entry} (h : SpellEntries True True n bs es) :
    bs = serEntries es ∧ (serEntries es).length = n ∧ representableEs es := by
  match h with
  | .nil => exact ⟨rfl, rfl, trivial⟩
  | .cons n k a bs v es h0 hk hs h1 h2 =>
    obtain ⟨e1, r1⟩ := SpellFV.ser h1
    obtain ⟨e2, l2, r2⟩ := SpellEntries.ser h2
    have := hs trivial
    subst e1 e2
    refine ⟨by simp only [serEntries, serEntry, List.append_assoc], ?_, ⟨hk, r1⟩, r2⟩
    simp only [serEntries, serEntry, List.length_append] at *; omega
end

mutual
theorem SpellFV.of_ser (strict canon : Prop) (v : FV) (h : representable v) : SpellFV strict canon (serFV v) v := by
  cases v with
  | boolean v =>
    rcases h with rfl | rfl
    · exact SpellFV.boolean 0 (fun _ => Or.inl rfl)
    · exact SpellFV.boolean 1 (fun _ => Or.inr rfl)
  | array vs =>
    simp only [representable] at h
    exact SpellFV.array _ _ _ h.1 (SpellFVs.of_ser strict canon vs h.2)
  | table es =>
    simp only [representable] at h
    exact SpellFV.table _ _ _ h.1 (SpellEntries.of_ser strict canon es h.2)
  | other k => exact h.elim
  | _ => exact SpellFV.plain _ trivial h
theorem SpellFVs.of_ser (strict canon : Prop) (vs : List FV) (h : representables vs) :
    SpellFVs strict canon (serFVs vs).length (serFVs vs) vs := by
  cases vs with
  | nil => exact SpellFVs.nil
  | cons v vs =>
    have hp := serFV_pos v
    refine SpellFVs.cons _ _ _ _ _ ?_ ?_ (SpellFV.of_ser strict canon v h.1) ?_
    · simp only [serFVs, List.length_append]; omega
    · intro _; simp only [serFVs, List.length_append]; omega
    · have := SpellFVs.of_ser strict canon vs h.2
      rwa [show (serFVs (v :: vs)).length - (serFV v).length = (serFVs vs).length by
        simp only [serFVs, List.length_append]; omega]
theorem SpellEntries.of_ser (strict canon : Prop) (es : List Entry) (h : representableEs es) :
    SpellEntries strict canon (serEntries es).length (serEntries es) es := by
  match es, h with
  | [], _ => exact SpellEntries.nil
  | .mk k v :: es, h =>
    have hp := serFV_pos v
    have hl : (serEntries (.mk k v :: es)).length = (serShort k ++ serFV v).length + (serEntries es).length := by
      simp only [serEntries, serEntry, List.length_append]
    have := SpellEntries.cons (strict := strict) (canon := canon) (serEntries (.mk k v :: es)).length k (serFV v) (serEntries es) v es
      (by rw [hl, List.length_append]; omega) h.1.1 (fun _ => by rw [hl]; omega) (SpellFV.of_ser strict canon v h.1.2)
      (by rw [hl, Nat.add_sub_cancel_left]; exact SpellEntries.of_ser strict canon es h.2)
    simpa only [serEntries, serEntry, List.append_assoc] using this
end

theorem spellTable_ser {bs : Bytes} {t : Table} : SpellTable True True bs t ↔ bs = serTable t ∧ representableTable t := by
  constructor
  · rintro ⟨n, body, hn, rfl, h⟩
    obtain ⟨rfl, h2, h3⟩ := h.ser
    exact ⟨by rw [serTable, serLong, h2], by omega, h3⟩
  · rintro ⟨rfl, h1, h2⟩
    exact ⟨_, _, h1, rfl, SpellEntries.of_ser True True t h2⟩

/-! ### Strict octets with unusual booleans: same layout -/

mutual
theorem SpellFV.len {canon : Prop} {bs : Bytes} {v : FV} (h : SpellFV True canon bs v) :
    bs.length = (serFV v).length ∧ representable v := by
  match h with
  | .plain v _ hr => exact ⟨rfl, hr⟩
  | .boolean b hb =>
    refine ⟨rfl, ?_⟩
    by_cases h : b = 0
    · rw [if_pos h]; exact Or.inl rfl
    · rw [if_neg h]; exact Or.inr rfl
  | .array n bs vs hn h =>
    obtain ⟨h1, h2, h3⟩ := SpellFVs.len h
    refine ⟨?_, ?_⟩
    · simp only [serFV, serLong, List.length_cons, List.length_append, beBytes_length]; omega
    · simp only [representable]; exact ⟨by omega, h3⟩
  | .table n bs vs hn h =>
    obtain ⟨h1, h2, h3⟩ := SpellEntries.len h
    refine ⟨?_, ?_⟩
    · simp only [serFV, serLong, List.length_cons, List.length_append, beBytes_length]; omega
    · simp only [representable]; exact ⟨by omega, h3⟩
theorem SpellFVs.len {canon : Prop} {n : Nat} {bs : Bytes} {vs : List FV} (h : SpellFVs True canon n bs vs) :
    bs.length = (serFVs vs).length ∧ (serFVs vs).length = n ∧ representables vs := by
  match h with
  | .nil => exact ⟨rfl, rfl, trivial⟩
  | .cons n a bs v vs h0 hs h1 h2 =>
    obtain ⟨e1, r1⟩ := SpellFV.len h1
    obtain ⟨e2, l2, r2⟩ := SpellFVs.len h2
    have := hs trivial
    exact ⟨by simp only [serFVs, List.length_append]; omega, by simp only [serFVs, List.length_append]; omega, r1, r2⟩
theorem SpellEntries.len {canon : Prop} {n : Nat} {bs : Bytes} {es : List Entry} (h : SpellEntries True canon n bs es) :
    bs.length = (serEntries es).length ∧ (serEntries es).length = n ∧ representableEs es := by
  match h with
  | .nil => exact ⟨rfl, rfl, trivial⟩
  | .cons n k a bs v es h0 hk hs h1 h2 =>
    obtain ⟨e1, r1⟩ := SpellFV.len h1
    obtain ⟨e2, l2, r2⟩ := SpellEntries.len h2
    have := hs trivial
    refine ⟨?_, ?_, ⟨hk, r1⟩, r2⟩
    · simp only [serEntries, serEntry, List.length_append] at *; omega
    · simp only [serEntries, serEntry, List.length_append] at *; omega
end

theorem spellTable_len {canon : Prop} {bs : Bytes} {t : Table} (h : SpellTable True canon bs t) :
    bs.length = (serTable t).length ∧ representableTable t := by
  obtain ⟨n, body, hn, rfl, h⟩ := h
  obtain ⟨h1, h2, h3⟩ := h.len
  exact ⟨by simp only [serTable, serLong, List.length_append, beBytes_length]; omega, by omega, h3⟩

/-! Loosening the rules never loses a reading. -/
mutual
theorem SpellFV.loosen {s c s' c' : Prop} (hs : s' → s) (hc : c' → c) {bs : Bytes} {v : FV} (h : SpellFV s c bs v) :
    SpellFV s' c' bs v := by
  match h with
  | .plain v hp hr => exact .plain v hp hr
  | .boolean b hb => exact .boolean b (fun h => hb (hc h))
  | .array n bs vs hn h => exact .array n bs vs hn (SpellFVs.loosen hs hc h)
  | .table n bs vs hn h => exact .table n bs vs hn (SpellEntries.loosen hs hc h)
theorem SpellFVs.loosen {s c s' c' : Prop} (hs : s' → s) (hc : c' → c) {n : Nat} {bs : Bytes} {vs : List FV}
    (h : SpellFVs s c n bs vs) : SpellFVs s' c' n bs vs := by
  match h with
  | .nil => exact .nil
  | .cons n a bs v vs h0 h1 h2 h3 => exact .cons n a bs v vs h0 (fun h => h1 (hs h)) (SpellFV.loosen hs hc h2) (SpellFVs.loosen hs hc h3)
theorem SpellEntries.loosen {s c s' c' : Prop} (hs : s' → s) (hc : c' → c) {n : Nat} {bs : Bytes} {es : List Entry}
    (h : SpellEntries s c n bs es) : SpellEntries s' c' n bs es := by
  match h with
  | .nil => exact .nil
  | .cons n k a bs v es h0 hk h1 h2 h3 =>
    exact .cons n k a bs v es h0 hk (fun h => h1 (hs h)) (SpellFV.loosen hs hc h2) (SpellEntries.loosen hs hc h3)
end

theorem SpellTable.loosen {s c s' c' : Prop} (hs : s' → s) (hc : c' → c) {bs : Bytes} {t : Table} (h : SpellTable s c bs t) :
    SpellTable s' c' bs t := by
  obtain ⟨n, body, hn, e, h⟩ := h
  exact ⟨n, body, hn, e, h.loosen hs hc⟩

mutual
theorem representable_kinds (v : FV) (h : representable v) : kindsOK v := by
  cases v with
  | array vs => simp only [representable] at h; exact representables_kinds vs h.2
  | table es => simp only [representable] at h; exact representableEs_kinds es h.2
  | other k => exact h.elim
  | _ => trivial
theorem representables_kinds (vs : List FV) (h : representables vs) : kindsOKs vs := by
  cases vs with
  | nil => trivial
  | cons v vs => exact ⟨representable_kinds v h.1, representables_kinds vs h.2⟩
theorem representableEs_kinds (es : List Entry) (h : representableEs es) : kindsOKEs es := by
  match es, h with
  | [], _ => trivial
  | .mk k v :: es, h => exact ⟨representable_kinds v h.1.2, representableEs_kinds es h.2⟩
end

end Rmq
