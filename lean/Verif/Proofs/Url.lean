import Verif.Spec.Url
/-!
# URL proofs
-/
namespace Rmq.UrlM

theorem decVal_decimal (s : Bytes) : decVal s = decimal s := by
  have h : ∀ (s : Bytes) (v : Nat), s.foldl (fun v c => v * 10 + (c.toNat - 48)) v = v * 10 ^ s.length + decimal s := by
    intro s
    induction s with
    | nil => intro v; simp [decimal]
    | cons c s ih => intro v; rw [List.foldl_cons, ih, decimal, List.length_cons, Nat.pow_succ, Nat.add_mul, Nat.mul_assoc, Nat.mul_comm 10, Nat.add_assoc]
  rw [decVal, h]; simp

theorem isSpace_iff (c : UInt8) : isSpace c = true ↔ IsBlank c := by
  unfold isSpace IsBlank
  simp only [Bool.or_eq_true, Bool.and_eq_true, decide_eq_true_eq, UInt8.le_iff_toNat_le, ← UInt8.toNat_inj]
  exact Iff.rfl

theorem PortText.def {text : Bytes} {n : Nat} : PortText text n ↔ text ≠ [] ∧ (∀ c ∈ text, 48 ≤ c.toNat ∧ c.toNat ≤ 57) ∧ decVal text = n ∧ n ≤ 65535 := by
  rw [decVal_decimal]; rfl

theorem PortLoose.def {text : Bytes} {n : Nat} : PortLoose text n ↔
  ∃ blanks sign digits : Bytes, text = blanks ++ sign ++ digits ∧ (∀ c ∈ blanks, isSpace c = true) ∧
    (sign = [] ∨ sign = [ch '+'] ∨ (sign = [ch '-'] ∧ n = 0)) ∧ digits ≠ [] ∧ (∀ c ∈ digits, 48 ≤ c.toNat ∧ c.toNat ≤ 57) ∧
    decVal digits = n ∧ n ≤ 65535 := by
  simp only [decVal_decimal, isSpace_iff]; rfl

/-- a good escape, in terms of `sscanf` -/
def EscVal (env : UEnv) (s : Bytes) (v : Nat) : Prop := sscanf2x env (s.takeWhile (· ≠ 0)) = some (v, 2) ∧ v ≤ env.charMax

/-- What a scan for a delimiter finds: the decoded text, the delimiter, the rest. -/
inductive Scan (env : UEnv) (f : Bool) : Bytes → Bytes → UInt8 → Bytes → Prop where
  | delim {c s} : isDelim f c = true → Scan env f (c :: s) [] c s
  | bad {s} : (∀ v, ¬ EscVal env s v) → Scan env f (ch '%' :: s) [] (ch '%') s
  | esc {a b s v out d r} : EscVal env (a :: b :: s) v → Scan env f s out d r → Scan env f (ch '%' :: a :: b :: s) (UInt8.ofNat v :: out) d r
  | lit {c s out d r} : isDelim f c = false → c ≠ ch '%' → Scan env f s out d r → Scan env f (c :: s) (c :: out) d r

theorem isDelim_pct (f : Bool) : isDelim f (ch '%') = false := by cases f <;> decide
theorem isDelim_zero (f : Bool) : isDelim f 0 = true := by cases f <;> decide

theorem scanDigits_len {env : UEnv} {w : Nat} {s : Bytes} {v n : Nat} (h : scanDigits env w s = some (v, n)) : n ≤ s.length := by
  unfold scanDigits at h
  repeat' split at h
  all_goals first
    | (injection h with h; injection h with _ h; subst h; simp only [List.length_cons]; omega)
    | cases h

theorem sscanf2x_len {env : UEnv} {s : Bytes} {v n : Nat} (h : sscanf2x env s = some (v, n)) : n ≤ s.length := by
  unfold sscanf2x at h
  dsimp only at h
  have hle : (s.takeWhile isSpace).length ≤ s.length := (List.takeWhile_sublist _).length_le
  generalize hw : (s.takeWhile isSpace).length = w at h hle
  cases hd : s.drop w with
  | nil => rw [hd] at h; cases h
  | cons c r =>
    rw [hd] at h
    have hl : s.length - w = r.length + 1 := by rw [← List.length_drop, hd]; rfl
    dsimp only at h
    by_cases h1 : c = ch '+'
    · rw [if_pos h1] at h
      cases hs : scanDigits env 1 r with
      | none => rw [hs] at h; cases h
      | some x =>
        rw [hs] at h
        injection h with h; injection h with _ h; subst h
        have := scanDigits_len (v := x.1) (n := x.2) hs; omega
    · rw [if_neg h1] at h
      by_cases h2 : c = ch '-'
      · rw [if_pos h2] at h
        cases hs : scanDigits env 1 r with
        | none => rw [hs] at h; cases h
        | some x =>
          rw [hs] at h
          injection h with h; injection h with _ h; subst h
          have := scanDigits_len (v := x.1) (n := x.2) hs; omega
      · rw [if_neg h2] at h
        cases hs : scanDigits env 2 (c :: r) with
        | none => rw [hs] at h; cases h
        | some x =>
          rw [hs] at h
          injection h with h; injection h with _ h; subst h
          have := scanDigits_len (v := x.1) (n := x.2) hs
          rw [List.length_cons] at this; omega

/-- An accepted escape has two characters before the end of the string. -/
theorem EscVal.two {env : UEnv} {s : Bytes} {v : Nat} (h : EscVal env s v) : ∃ a b r, s = a :: b :: r ∧ a ≠ 0 ∧ b ≠ 0 := by
  have := sscanf2x_len h.1
  match s, this with
  | [], h => simp at h
  | [a], h => by_cases ha : a = 0 <;> simp [ha] at h
  | a :: b :: r, h =>
    refine ⟨a, b, r, rfl, ?_, ?_⟩
    · intro h0; simp [h0] at h
    · intro h0
      by_cases ha : a = 0 <;> simp [h0, ha] at h

/-- every scan of a terminated string ends -/
theorem scan_total (env : UEnv) (f : Bool) : ∀ (n : Nat) (s : Bytes), s.length ≤ n → 0 ∈ s → ∃ out d r, Scan env f s out d r := by
  intro n
  induction n with
  | zero => intro s hl h0; cases s with | nil => cases h0 | cons => simp at hl
  | succ n ih =>
    intro s hl h0
    cases s with
    | nil => cases h0
    | cons c s =>
      rw [List.length_cons] at hl
      by_cases hd : isDelim f c = true
      · exact ⟨_, _, _, .delim hd⟩
      · have hd : isDelim f c = false := by simpa using hd
        have hc0 : c ≠ 0 := fun h => by rw [h, isDelim_zero] at hd; cases hd
        have h0s : 0 ∈ s := by
          rcases List.mem_cons.1 h0 with h | h
          · exact absurd h.symm hc0
          · exact h
        by_cases hp : c = ch '%'
        · subst hp
          by_cases he : ∃ v, EscVal env s v
          · obtain ⟨v, hv⟩ := he
            obtain ⟨a, b, r, rfl, ha, hb⟩ := hv.two
            have h0r : 0 ∈ r := by simpa [Ne.symm ha, Ne.symm hb] using h0s
            obtain ⟨out, d, r', hs⟩ := ih r (by simp only [List.length_cons] at hl; omega) h0r
            exact ⟨_, _, _, .esc hv hs⟩
          · exact ⟨_, _, _, .bad (fun v hv => he ⟨v, hv⟩)⟩
        · obtain ⟨out, d, r', hs⟩ := ih s (by omega) h0s
          exact ⟨_, _, _, .lit hd hp hs⟩

theorem Scan.len {env f s out d r} (h : Scan env f s out d r) : r.length < s.length := by
  induction h with
  | delim => simp
  | bad => simp
  | esc _ _ ih => simp only [List.length_cons]; omega
  | lit _ _ _ ih => simp only [List.length_cons]; omega

/-- where the scan stops -/
theorem Scan.rest {env f s out d r} (h : Scan env f s out d r) : ∀ (x tail : Bytes), s = x ++ 0 :: tail →
    (∃ y, r = y ++ 0 :: tail) ∨ (d = 0 ∧ r = tail) := by
  induction h with
  | @delim c s hc =>
    intro x tail e
    cases x with
    | nil => injection e with e1 e2; exact .inr ⟨e1, e2⟩
    | cons y x => injection e with e1 e2; exact .inl ⟨x, e2⟩
  | @bad s hc =>
    intro x tail e
    cases x with
    | nil => injection e with e1 e2; exact absurd e1 (by decide)
    | cons y x => injection e with e1 e2; exact .inl ⟨x, e2⟩
  | @esc a b s v out d r hv hs ih =>
    intro x tail e
    obtain ⟨a', b', r', e', ha, hb⟩ := hv.two
    injection e' with e1 e'; injection e' with e2 e3
    subst e1; subst e2; subst e3
    cases x with
    | nil => injection e with e1 e2; exact absurd e1 (by decide)
    | cons y x =>
      injection e with _ e
      cases x with
      | nil => injection e with e1 _; exact absurd e1 ha
      | cons y x =>
        injection e with _ e
        cases x with
        | nil => injection e with e1 _; exact absurd e1 hb
        | cons y x => injection e with _ e; exact ih x tail e
  | @lit c s out d r hd hp hs ih =>
    intro x tail e
    cases x with
    | nil => injection e with e1 e2; rw [e1, isDelim_zero] at hd; cases hd
    | cons y x => injection e with e1 e2; exact ih x tail e2

theorem set_mid (pre : Bytes) (g x : UInt8) (gs : Bytes) : (pre ++ g :: gs).set pre.length x = pre ++ x :: gs := by
  rw [List.set_append_right _ _ (Nat.le_refl _), Nat.sub_self, List.set_cons_zero]

theorem takeWhile_cstr {s : Bytes} (h : 0 ∈ s) : cstr? s = some (s.takeWhile (· ≠ 0)) := if_pos h

/-- The loop on a buffer `pre ++ gap ++ s` with `to` at the end of `pre` and `from` at the beginning of `s`. -/
theorem loop_spec {env f s out d r} (h : Scan env f s out d r) : ∀ (pre gap : Bytes) (info : ConnInfo) (n pp : Nat), 0 ∈ s → s.length < n →
    ∃ mid, findDelimLoop env f pp n (pre ++ gap).length pre.length ⟨pre ++ gap ++ s, info⟩ =
        .ok (d, if d = ch '%' then pp else (pre ++ gap ++ s).length - r.length) ⟨pre ++ mid ++ r, info⟩ ∧
      mid.length + r.length = gap.length + s.length ∧ (d ≠ ch '%' → ∃ junk, mid = out ++ 0 :: junk) ∧ (d = 0 → ∃ m, mid = m ++ [0]) := by
  induction h with
  | @delim c s hc =>
    intro pre gap info n pp h0 hn
    cases n with
    | zero => omega
    | succ n =>
      have hrd : (pre ++ gap ++ c :: s)[(pre ++ gap).length]? = some c := by
        rw [List.getElem?_append_right (Nat.le_refl _), Nat.sub_self]; rfl
      obtain ⟨g, gs, hg⟩ : ∃ g gs, gap ++ [c] = g :: gs := by
        cases gap with
        | nil => exact ⟨c, [], rfl⟩
        | cons g gs => exact ⟨g, gs ++ [c], rfl⟩
      have hbuf : pre ++ gap ++ c :: s = pre ++ g :: (gs ++ s) := by
        rw [List.append_assoc, show gap ++ c :: s = (gap ++ [c]) ++ s by simp, hg]; rfl
      have hlen : gap.length + 1 = gs.length + 1 := by
        have := congrArg List.length hg; simpa using this
      have hcne : c ≠ ch '%' := fun h => by rw [h, isDelim_pct] at hc; cases hc
      refine ⟨0 :: gs, ?_, by simp only [List.length_cons]; omega, fun _ => ⟨gs, rfl⟩, fun hz => ?_⟩
      · unfold findDelimLoop
        rw [M.bind_def]
        unfold rdAt
        dsimp only
        rw [hrd]
        dsimp only
        rw [if_pos hc, M.bind_def]
        unfold wrAt
        dsimp only
        rw [if_pos (by simp only [List.length_append, List.length_cons]; omega)]
        dsimp only
        rw [hbuf, set_mid, M.pure_def, if_neg hcne]
        simp only [List.length_append, List.length_cons, List.append_assoc, List.cons_append]
        congr 2
        omega
      · subst hz
        cases gap with
        | nil => injection hg with h1 h2; subst h2; exact ⟨[], rfl⟩
        | cons x xs => injection hg with h1 h2; subst h2; exact ⟨0 :: xs, rfl⟩
  | @bad s hbad =>
    intro pre gap info n pp h0 hn
    cases n with
    | zero => omega
    | succ n =>
      have hrd : (pre ++ gap ++ ch '%' :: s)[(pre ++ gap).length]? = some (ch '%') := by
        rw [List.getElem?_append_right (Nat.le_refl _), Nat.sub_self]; rfl
      have h0s : 0 ∈ s := by
        rcases List.mem_cons.1 h0 with h | h
        · exact absurd h (by decide)
        · exact h
      have hdr : (pre ++ gap ++ ch '%' :: s).drop ((pre ++ gap).length + 1) = s := by
        rw [← List.drop_drop, List.drop_left]; rfl
      refine ⟨gap ++ [ch '%'], ?_, by simp only [List.length_append, List.length_cons, List.length_nil]; omega, fun h => absurd rfl h,
        fun hz => absurd hz (by decide)⟩
      unfold findDelimLoop
      rw [M.bind_def]
      unfold rdAt
      dsimp only
      rw [hrd]
      dsimp only
      rw [if_neg (by rw [isDelim_pct]; simp), if_pos rfl, M.bind_def]
      unfold strAt
      dsimp only
      rw [hdr, takeWhile_cstr h0s]
      dsimp only
      have fin : (⟨pre ++ gap ++ ch '%' :: s, info⟩ : UrlSt) = ⟨pre ++ (gap ++ [ch '%']) ++ s, info⟩ := by simp
      cases hsc : sscanf2x env (s.takeWhile (· ≠ 0)) with
      | none => dsimp only; rw [M.pure_def, if_pos rfl, fin]
      | some x =>
        dsimp only
        rw [if_pos, M.pure_def, if_pos rfl, fin]
        by_cases h2 : x.2 = 2
        · right
          refine Nat.not_le.1 (fun hle => hbad x.1 ⟨?_, hle⟩)
          rw [hsc, ← h2]
        · exact .inl h2
  | @esc a b s v out d r hv hs ih =>
    intro pre gap info n pp h0 hn
    cases n with
    | zero => omega
    | succ n =>
      have hrd : (pre ++ gap ++ ch '%' :: a :: b :: s)[(pre ++ gap).length]? = some (ch '%') := by
        rw [List.getElem?_append_right (Nat.le_refl _), Nat.sub_self]; rfl
      obtain ⟨a', b', r', e', ha, hb⟩ := hv.two
      injection e' with e1 e'; injection e' with e2 e3
      subst e1; subst e2; subst e3
      have h0s : 0 ∈ s := by
        have : 0 ∈ ch '%' :: a :: b :: s := h0
        simp only [List.mem_cons] at this
        rcases this with h | h | h | h
        · exact absurd h (by decide)
        · exact absurd h.symm ha
        · exact absurd h.symm hb
        · exact h
      have hdr : (pre ++ gap ++ ch '%' :: a :: b :: s).drop ((pre ++ gap).length + 1) = a :: b :: s := by
        rw [← List.drop_drop, List.drop_left]; rfl
      obtain ⟨g, gs, hg⟩ : ∃ g gs, gap ++ [ch '%', a, b] = g :: gs := by
        cases gap with
        | nil => exact ⟨_, _, rfl⟩
        | cons g gs => exact ⟨g, gs ++ [ch '%', a, b], rfl⟩
      have hbuf : pre ++ gap ++ ch '%' :: a :: b :: s = pre ++ g :: (gs ++ s) := by
        rw [List.append_assoc, show gap ++ ch '%' :: a :: b :: s = (gap ++ [ch '%', a, b]) ++ s by simp, hg]; rfl
      have hlen : gap.length + 3 = gs.length + 1 := by
        have := congrArg List.length hg; simpa using this
      obtain ⟨mid, e, hm, hj, hz⟩ := ih (pre ++ [UInt8.ofNat v]) gs info n pp h0s (by simp only [List.length_cons] at hn; omega)
      refine ⟨UInt8.ofNat v :: mid, ?_, by simp only [List.length_cons]; omega, fun hd => ?_, fun hd => ?_⟩
      · unfold findDelimLoop
        rw [M.bind_def]
        unfold rdAt
        dsimp only
        rw [hrd]
        dsimp only
        rw [if_neg (by rw [isDelim_pct]; simp), if_pos rfl, M.bind_def]
        unfold strAt
        dsimp only
        rw [hdr, takeWhile_cstr (by simp [h0s])]
        dsimp only
        rw [hv.1]
        dsimp only
        rw [if_neg (by have := hv.2; omega), M.bind_def]
        unfold wrAt
        dsimp only
        rw [if_pos (by simp only [List.length_append, List.length_cons]; omega)]
        dsimp only
        rw [hbuf, set_mid]
        have h1 : (pre ++ gap).length + 3 = (pre ++ [UInt8.ofNat v] ++ gs).length := by simp only [List.length_append, List.length_cons, List.length_nil]; omega
        have h2 : pre.length + 1 = (pre ++ [UInt8.ofNat v]).length := by simp
        have h3 : pre ++ UInt8.ofNat v :: (gs ++ s) = pre ++ [UInt8.ofNat v] ++ gs ++ s := by simp
        have h4 : (pre ++ g :: (gs ++ s)).length = (pre ++ [UInt8.ofNat v] ++ gs ++ s).length := by simp only [List.length_append, List.length_cons, List.length_nil]; omega
        rw [h1, h2, h3, h4, e]
        simp
      · obtain ⟨junk, hj⟩ := hj hd; exact ⟨junk, by rw [hj]; rfl⟩
      · obtain ⟨m, hm⟩ := hz hd; exact ⟨UInt8.ofNat v :: m, by rw [hm]; rfl⟩
  | @lit c s out d r hd hp hs ih =>
    intro pre gap info n pp h0 hn
    cases n with
    | zero => omega
    | succ n =>
      have hrd : (pre ++ gap ++ c :: s)[(pre ++ gap).length]? = some c := by
        rw [List.getElem?_append_right (Nat.le_refl _), Nat.sub_self]; rfl
      have hc0 : c ≠ 0 := fun h => by rw [h, isDelim_zero] at hd; cases hd
      have h0s : 0 ∈ s := by
        rcases List.mem_cons.1 h0 with h | h
        · exact absurd h.symm hc0
        · exact h
      obtain ⟨g, gs, hg⟩ : ∃ g gs, gap ++ [c] = g :: gs := by
        cases gap with
        | nil => exact ⟨c, [], rfl⟩
        | cons g gs => exact ⟨g, gs ++ [c], rfl⟩
      have hbuf : pre ++ gap ++ c :: s = pre ++ g :: (gs ++ s) := by
        rw [List.append_assoc, show gap ++ c :: s = (gap ++ [c]) ++ s by simp, hg]; rfl
      have hlen : gap.length + 1 = gs.length + 1 := by
        have := congrArg List.length hg; simpa using this
      obtain ⟨mid, e, hm, hj, hz⟩ := ih (pre ++ [c]) gs info n pp h0s (by simp only [List.length_cons] at hn; omega)
      refine ⟨c :: mid, ?_, by simp only [List.length_cons]; omega, fun hd => ?_, fun hd => ?_⟩
      · unfold findDelimLoop
        rw [M.bind_def]
        unfold rdAt
        dsimp only
        rw [hrd]
        dsimp only
        rw [if_neg (by rw [hd]; simp), if_neg hp, M.bind_def]
        unfold wrAt
        dsimp only
        rw [if_pos (by simp only [List.length_append, List.length_cons]; omega)]
        dsimp only
        rw [hbuf, set_mid]
        have h1 : (pre ++ gap).length + 1 = (pre ++ [c] ++ gs).length := by simp only [List.length_append, List.length_cons, List.length_nil]; omega
        have h2 : pre.length + 1 = (pre ++ [c]).length := by simp
        have h3 : pre ++ c :: (gs ++ s) = pre ++ [c] ++ gs ++ s := by simp
        have h4 : (pre ++ g :: (gs ++ s)).length = (pre ++ [c] ++ gs ++ s).length := by simp only [List.length_append, List.length_cons, List.length_nil]; omega
        rw [h1, h2, h3, h4, e]
        simp
      · obtain ⟨junk, hj⟩ := hj hd; exact ⟨junk, by rw [hj]; rfl⟩
      · obtain ⟨m, hm⟩ := hz hd; exact ⟨c :: m, by rw [hm]; rfl⟩

/-- find_delim on a buffer `pre ++ s` at the beginning of `s`. -/
theorem findDelim_spec {env f s out d r} (h : Scan env f s out d r) (pre : Bytes) (info : ConnInfo) (h0 : 0 ∈ s) :
    ∃ mid, findDelim env pre.length f ⟨pre ++ s, info⟩ =
        .ok (d, if d = ch '%' then pre.length else (pre ++ mid).length) ⟨pre ++ mid ++ r, info⟩ ∧
      mid.length + r.length = s.length ∧ (d ≠ ch '%' → ∃ junk, mid = out ++ 0 :: junk) ∧ (d = 0 → ∃ m, mid = m ++ [0]) := by
  obtain ⟨mid, e, hm, hj, hz⟩ := loop_spec h pre [] info ((pre ++ s).length + 1) pre.length h0 (by simp only [List.length_append]; omega)
  rw [List.append_nil] at e
  refine ⟨mid, ?_, by simpa using hm, hj, hz⟩
  unfold findDelim
  dsimp only
  rw [e]
  have : (pre ++ s).length - r.length = (pre ++ mid).length := by simp only [List.length_append, List.length_nil] at hm ⊢; omega
  rw [this]

end Rmq.UrlM
