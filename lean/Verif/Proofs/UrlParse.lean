import Verif.Proofs.Url
/-!
# URL proofs: safety, escapes, components
-/
namespace Rmq.UrlM

theorem hexVal?_iff (c : UInt8) (v : Nat) : hexVal? c = some v ↔ IsHex c v := by
  have e : ∀ x : UInt8, (x ≤ c ↔ x.toNat ≤ c.toNat) ∧ (c ≤ x ↔ c.toNat ≤ x.toNat) := fun x => ⟨UInt8.le_iff_toNat_le, UInt8.le_iff_toNat_le⟩
  have k0 : (ch '0').toNat = 48 := by decide
  have k9 : (ch '9').toNat = 57 := by decide
  have ka : (ch 'a').toNat = 97 := by decide
  have kf : (ch 'f').toNat = 102 := by decide
  have kA : (ch 'A').toNat = 65 := by decide
  have kF : (ch 'F').toNat = 70 := by decide
  unfold hexVal? IsHex
  simp only [(e (ch '0')).1, (e (ch '9')).2, (e (ch 'a')).1, (e (ch 'f')).2, (e (ch 'A')).1, (e (ch 'F')).2, k0, k9, ka, kf, kA, kF]
  by_cases h1 : 48 ≤ c.toNat ∧ c.toNat ≤ 57
  · rw [if_pos h1]; simp only [Option.some.injEq]; omega
  · rw [if_neg h1]
    by_cases h2 : 97 ≤ c.toNat ∧ c.toNat ≤ 102
    · rw [if_pos h2]; simp only [Option.some.injEq]; omega
    · rw [if_neg h2]
      by_cases h3 : 65 ≤ c.toNat ∧ c.toNat ≤ 70
      · rw [if_pos h3]; simp only [Option.some.injEq]; omega
      · rw [if_neg h3]
        constructor
        · intro h; cases h
        · intro h; omega

theorem IsHex.notSpace {c : UInt8} {v : Nat} (h : IsHex c v) : isSpace c = false := by
  unfold IsHex at h
  unfold isSpace
  have e1 : ¬ c = 0x20 := fun hh => by subst hh; simp at h; omega
  have e2 : ¬ (0x09 ≤ c ∧ c ≤ 0x0D) := fun ⟨_, hh⟩ => by
    rw [UInt8.le_iff_toNat_le] at hh
    have : (0x0D : UInt8).toNat = 13 := rfl
    omega
  simp only [Bool.or_eq_false_iff, decide_eq_false_iff_not, Bool.and_eq_false_imp, decide_eq_true_eq]
  exact ⟨e1, fun h1 hh => e2 ⟨h1, hh⟩⟩

theorem IsHex.ne {c : UInt8} {v : Nat} (h : IsHex c v) (d : UInt8) (hd : d.toNat < 48) : c ≠ d := fun he => by
  subst he; unfold IsHex at h; omega

/-- The escapes `sscanf` accepts. -/
theorem EscVal.accepted {env : UEnv} {s : Bytes} {v : Nat} (h : EscVal env s v) (hcm : env.charMax ≤ 255) : AcceptedEscape env s := by
  obtain ⟨a, b, r, rfl, ha, hb⟩ := h.two
  obtain ⟨h1, h2⟩ := h
  have ht : (a :: b :: r).takeWhile (· ≠ 0) = a :: b :: r.takeWhile (· ≠ 0) := by simp [List.takeWhile_cons, ha, hb]
  rw [ht] at h1
  generalize hr' : r.takeWhile (· ≠ 0) = r' at h1
  unfold sscanf2x at h1
  dsimp only at h1
  cases hsa : isSpace a with
  | false =>
    rw [List.takeWhile_cons, if_neg (by simp [hsa])] at h1
    simp only [List.length_nil, List.drop_zero, Nat.zero_add] at h1
    by_cases hp : a = ch '+'
    · rw [if_pos hp] at h1
      refine .inr (.inr (.inl ?_))
      cases hv : hexVal? b with
      | none => simp [scanDigits, hv] at h1
      | some x => exact ⟨b, r, x, by rw [hp], (hexVal?_iff b x).1 hv⟩
    · rw [if_neg hp] at h1
      by_cases hm : a = ch '-'
      · rw [if_pos hm] at h1
        refine .inr (.inr (.inr (.inl ?_)))
        cases hv : hexVal? b with
        | none => simp [scanDigits, hv] at h1
        | some x =>
          have hx := (hexVal?_iff b x).1 hv
          simp only [scanDigits, hv, if_pos (show 1 < 2 by omega), Option.map_some, Option.some.injEq, Prod.mk.injEq] at h1
          have h0 : x = 0 := by
            have := hx.1
            have h1' := h1.1
            rcases Nat.eq_zero_or_pos x with h0 | h0
            · exact h0
            · rw [Nat.mod_eq_of_lt (by omega)] at h1'; omega
          subst h0
          refine ⟨r, ?_⟩
          have : b = ch '0' := by
            apply UInt8.toNat_inj.1
            have : (ch '0').toNat = 48 := by decide
            unfold IsHex at hx; omega
          rw [hm, this]
      · rw [if_neg hm] at h1
        cases hv : hexVal? a with
        | none => simp [scanDigits, hv] at h1
        | some x =>
          cases hw : hexVal? b with
          | some y =>
            simp only [scanDigits, hv, hw, if_neg (show ¬ 2 < 2 by omega), Option.map_some, Option.some.injEq, Prod.mk.injEq] at h1
            exact .inl ⟨a, b, r, x, y, rfl, (hexVal?_iff a x).1 hv, (hexVal?_iff b y).1 hw, by omega⟩
          | none =>
            simp only [scanDigits, hv, hw, if_neg (show ¬ 2 < 2 by omega)] at h1
            by_cases hz : a = ch '0' ∧ (b = ch 'x' ∨ b = ch 'X')
            · rw [if_pos hz] at h1
              cases hzx : env.zeroX with
              | false => rw [hzx] at h1; simp at h1
              | true => exact .inr (.inr (.inr (.inr ⟨hzx, b, r, by rw [hz.1], hz.2⟩)))
            · rw [if_neg hz] at h1; simp at h1
  | true =>
    cases hsb : isSpace b with
    | true =>
      -- two blanks: more than two characters are used
      exfalso
      have hws : 2 ≤ ((a :: b :: r').takeWhile isSpace).length := by
        rw [List.takeWhile_cons, if_pos hsa, List.takeWhile_cons, if_pos hsb]; simp
      generalize hw : ((a :: b :: r').takeWhile isSpace).length = w at h1 hws
      have pos : ∀ w' s' v' n', scanDigits env w' s' = some (v', n') → 1 ≤ n' := by
        intro w' s' v' n' h
        unfold scanDigits at h
        repeat' split at h
        all_goals first
          | (injection h with h; injection h with _ h; omega)
          | cases h
      cases hd : (a :: b :: r').drop w with
      | nil => rw [hd] at h1; cases h1
      | cons c t =>
        rw [hd] at h1
        dsimp only at h1
        split at h1
        · cases hsd : scanDigits env 1 t with
          | none => rw [hsd] at h1; cases h1
          | some x => rw [hsd] at h1; injection h1 with h1; injection h1 with _ h1; omega
        · split at h1
          · cases hsd : scanDigits env 1 t with
            | none => rw [hsd] at h1; cases h1
            | some x => rw [hsd] at h1; injection h1 with h1; injection h1 with _ h1; omega
          · cases hsd : scanDigits env 2 (c :: t) with
            | none => rw [hsd] at h1; cases h1
            | some x =>
              rw [hsd] at h1; injection h1 with h1; injection h1 with _ h1
              have := pos _ _ _ _ hsd; omega
    | false =>
      have hws : ((a :: b :: r').takeWhile isSpace) = [a] := by
        rw [List.takeWhile_cons, if_pos hsa, List.takeWhile_cons, if_neg (by simp [hsb])]
      rw [hws] at h1
      simp only [List.length_cons, List.length_nil, Nat.zero_add, List.drop_succ_cons, List.drop_zero] at h1
      have pos : ∀ w' s' v' n', scanDigits env w' s' = some (v', n') → 1 ≤ n' := by
        intro w' s' v' n' h
        unfold scanDigits at h
        repeat' split at h
        all_goals first
          | (injection h with h; injection h with _ h; omega)
          | cases h
      refine .inr (.inl ?_)
      split at h1
      · cases hsd : scanDigits env 1 r' with
        | none => rw [hsd] at h1; cases h1
        | some x => rw [hsd] at h1; injection h1 with h1; injection h1 with _ h1; have := pos _ _ _ _ hsd; omega
      · split at h1
        · cases hsd : scanDigits env 1 r' with
          | none => rw [hsd] at h1; cases h1
          | some x => rw [hsd] at h1; injection h1 with h1; injection h1 with _ h1; have := pos _ _ _ _ hsd; omega
        · cases hv : hexVal? b with
          | none => simp [scanDigits, hv] at h1
          | some x =>
            refine ⟨a, b, r, x, rfl, hsa, (hexVal?_iff b x).1 hv, fun c y hc hy => ?_⟩
            cases r with
            | nil => cases hc
            | cons c' r2 =>
              injection hc with hc; subst hc
              have hc0 : c' ≠ 0 := hy.ne 0 (by decide)
              rw [List.takeWhile_cons, if_pos (by simp [hc0])] at hr'
              subst hr'
              have := (hexVal?_iff c' y).2 hy
              simp [scanDigits, hv, this] at h1

theorem AcceptedEscape.ne_pct {env : UEnv} {a b : UInt8} {s : Bytes} (h : AcceptedEscape env (a :: b :: s)) : a ≠ ch '%' ∧ b ≠ ch '%' := by
  have hk : (ch '%').toNat < 48 := by decide
  rcases h with ⟨a', b', r, x, y, e, hx, hy, _⟩ | ⟨a', b', r, x, e, hs, hx, _⟩ | ⟨b', r, x, e, hx⟩ | ⟨r, e⟩ | ⟨_, b', r, e, hx⟩
  all_goals injection e with e1 e; injection e with e2 e; subst e1; subst e2
  · exact ⟨hx.ne _ hk, hy.ne _ hk⟩
  · exact ⟨fun h => by subst h; revert hs; decide, hx.ne _ hk⟩
  · exact ⟨by decide, hx.ne _ hk⟩
  · exact ⟨by decide, by decide⟩
  · exact ⟨by decide, fun h => by subst h; rcases hx with h | h <;> exact absurd h (by decide)⟩

/-- all percent signs of a string (up to the NUL) begin accepted escapes -/
def AllGood (env : UEnv) (s : Bytes) : Prop := ∀ t b, s = t ++ ch '%' :: b → 0 ∉ t → AcceptedEscape env b

theorem Scan.allGood {env f s out d r} (hcm : env.charMax ≤ 255) (h : Scan env f s out d r) (hd : d ≠ ch '%') (hr : d ≠ 0 → AllGood env r) :
    AllGood env s := by
  induction h with
  | @delim c s hc =>
    intro t b e h0
    cases t with
    | nil => injection e with e1 e2; exact absurd e1 hd
    | cons x t =>
      injection e with e1 e2; subst e1
      rw [List.mem_cons, not_or] at h0
      exact hr (Ne.symm h0.1) t b e2 h0.2
  | bad => exact absurd rfl hd
  | @esc a b s v out d r hv hs ih =>
    intro t b' e h0
    have ae := hv.accepted hcm
    have ne := ae.ne_pct
    match t, e, h0 with
    | [], e, _ => injection e with e1 e2; subst e2; exact ae
    | [_], e, _ => injection e with e1 e; injection e with e2 e; exact absurd e2 ne.1
    | [_, _], e, _ => injection e with e1 e; injection e with e2 e; injection e with e3 e; exact absurd e3 ne.2
    | _ :: _ :: _ :: t, e, h0 =>
      injection e with e1 e; injection e with e2 e; injection e with e3 e
      exact ih hd hr t b' e (fun h => h0 (by simp [h]))
  | @lit c s out d r hdl hp hs ih =>
    intro t b e h0
    cases t with
    | nil => injection e with e1 e2; exact absurd e1 hp
    | cons x t =>
      injection e with e1 e2
      rw [List.mem_cons, not_or] at h0
      exact ih hd hr t b e2 h0.2

/-! ## Safety -/

/-- a pointer of the result is a literal or points into the string -/
def CStr.within (K : Nat) : CStr → Prop
  | .lit _ => True
  | .ptr p => p ≤ K

/-- The buffer is still `K` bytes, the NUL and what followed it; all pointers point into the string. -/
structure UInv (K : Nat) (tail : Bytes) (s : UrlSt) : Prop where
  buf : ∃ X, s.buf = X ++ 0 :: tail ∧ X.length = K
  ptrs : s.info.user.within K ∧ s.info.password.within K ∧ s.info.host.within K ∧ s.info.vhost.within K

/-- acceptable outcomes: OK with `Q`, or BAD_URL -/
def UGood (K : Nat) (tail : Bytes) (Q : Prop) (r : Res UrlSt Unit) : Prop :=
  match r with
  | .ok _ s => UInv K tail s ∧ Q
  | .err e s => e = St.BAD_URL ∧ UInv K tail s
  | _ => False

theorem UGood.imp {K tail P Q r} (h : UGood K tail P r) (hpq : P → Q) : UGood K tail Q r := by
  cases r with
  | ok a s => exact ⟨h.1, hpq h.2⟩
  | err e s => exact h
  | ub => exact h
  | fuel => exact h

theorem findDelim_safe (env : UEnv) (hcm : env.charMax ≤ 255) (f : Bool) {K : Nat} {tail : Bytes} {s : UrlSt} (inv : UInv K tail s) {pp : Nat} (hpp : pp ≤ K) :
    ∃ d pp' s', findDelim env pp f s = .ok (d, pp') s' ∧ UInv K tail s' ∧ pp' ≤ K + 1 ∧ (d ≠ 0 → pp' ≤ K) ∧
      (d ≠ ch '%' → (d ≠ 0 → AllGood env (s'.buf.drop pp')) → AllGood env (s.buf.drop pp)) := by
  obtain ⟨X, hX, hXl⟩ := inv.buf
  obtain ⟨info, hinfo⟩ : ∃ i, s = ⟨X ++ 0 :: tail, i⟩ := ⟨s.info, by cases s; cases hX; rfl⟩
  subst hinfo
  have hs : X ++ 0 :: tail = X.take pp ++ (X.drop pp ++ 0 :: tail) := by rw [← List.append_assoc, List.take_append_drop]
  have hpl : (X.take pp).length = pp := by rw [List.length_take]; omega
  have h0 : 0 ∈ X.drop pp ++ 0 :: tail := by simp
  obtain ⟨out, d, r, hsc⟩ := scan_total env f _ _ (Nat.le_refl _) h0
  obtain ⟨mid, e, hm, _, hz⟩ := findDelim_spec hsc (X.take pp) info h0
  rw [hpl, ← hs] at e
  have hdrop : (X ++ 0 :: tail).drop pp = X.drop pp ++ 0 :: tail := by
    have h1 := congrArg (List.drop pp) hs
    have h2 : (X.take pp ++ (X.drop pp ++ 0 :: tail)).drop pp = X.drop pp ++ 0 :: tail := by
      have h3 := List.drop_left (l₁ := X.take pp) (l₂ := X.drop pp ++ 0 :: tail)
      rw [hpl] at h3; exact h3
    exact h1.trans h2
  refine ⟨d, _, _, e, ⟨?_, inv.ptrs⟩, ?_, ?_, ?_⟩
  · rcases hsc.rest _ _ rfl with ⟨y, hy⟩ | ⟨h1, h2⟩
    · refine ⟨X.take pp ++ mid ++ y, by rw [hy]; simp, ?_⟩
      rw [hy] at hm
      simp only [List.length_append, List.length_cons, List.length_drop, hpl] at hm ⊢; omega
    · obtain ⟨m, hm'⟩ := hz h1
      refine ⟨X.take pp ++ m, by rw [hm', h2]; simp, ?_⟩
      rw [hm', h2] at hm
      simp only [List.length_append, List.length_cons, List.length_nil, List.length_drop, hpl] at hm ⊢; omega
  · have hl := hsc.len
    rcases hsc.rest _ _ rfl with ⟨y, hy⟩ | ⟨h1, h2⟩
    · rw [hy] at hm
      split
      · omega
      · simp only [List.length_append, List.length_cons, List.length_drop, hpl] at hm ⊢; omega
    · rw [h2] at hm
      split
      · omega
      · simp only [List.length_append, List.length_cons, List.length_drop, hpl] at hm ⊢; omega
  · intro hd
    rcases hsc.rest _ _ rfl with ⟨y, hy⟩ | ⟨h1, h2⟩
    · rw [hy] at hm
      split
      · omega
      · simp only [List.length_append, List.length_cons, List.length_drop, hpl] at hm ⊢; omega
    · exact absurd h1 hd
  · intro hd hr
    rw [hdrop]
    refine hsc.allGood hcm hd (fun h0 => ?_)
    have := hr h0
    dsimp only at this
    rw [if_neg hd, List.drop_left] at this
    exact this

theorem rdAt_safe {K : Nat} {tail : Bytes} {s : UrlSt} (inv : UInv K tail s) {p : Nat} (hp : p ≤ K) : ∃ c, rdAt p s = .ok c s := by
  obtain ⟨X, hX, hXl⟩ := inv.buf
  have : p < s.buf.length := by rw [hX]; simp only [List.length_append, List.length_cons]; omega
  exact ⟨s.buf[p], by unfold rdAt; rw [List.getElem?_eq_getElem this]⟩

theorem strAt_safe {K : Nat} {tail : Bytes} {s : UrlSt} (inv : UInv K tail s) {p : Nat} (hp : p ≤ K) : ∃ c, strAt p s = .ok c s := by
  obtain ⟨X, hX, hXl⟩ := inv.buf
  have : 0 ∈ s.buf.drop p := by
    rw [hX, List.drop_append_of_le_length (by omega)]; simp
  exact ⟨_, by unfold strAt; rw [takeWhile_cstr this]⟩

theorem UInv.port {K tail s} (inv : UInv K tail s) (v : Int) : UInv K tail { s with info := { s.info with port := v } } := ⟨inv.buf, inv.ptrs⟩
theorem UInv.host {K tail s} (inv : UInv K tail s) {p : Nat} (hp : p ≤ K) : UInv K tail { s with info := { s.info with host := .ptr p } } :=
  ⟨inv.buf, inv.ptrs.1, inv.ptrs.2.1, hp, inv.ptrs.2.2.2⟩
theorem UInv.vhost {K tail s} (inv : UInv K tail s) {p : Nat} (hp : p ≤ K) : UInv K tail { s with info := { s.info with vhost := .ptr p } } :=
  ⟨inv.buf, inv.ptrs.1, inv.ptrs.2.1, inv.ptrs.2.2.1, hp⟩

/-- the port part: OK or BAD_URL, and the buffer is not touched -/
theorem parsePort_safe {K tail s} (inv : UInv K tail s) (port : Option Nat) (hp : ∀ p, port = some p → p ≤ K) :
    (∃ s', parsePort port s = .ok () s' ∧ UInv K tail s' ∧ s'.buf = s.buf) ∨ parsePort port s = .err St.BAD_URL s := by
  cases port with
  | none => exact .inl ⟨s, rfl, inv, rfl⟩
  | some p =>
    obtain ⟨c, hc⟩ := strAt_safe inv (hp p rfl)
    unfold parsePort
    dsimp only
    rw [M.bind_def, hc]
    dsimp only
    cases strtol10 c with
    | none => exact .inr rfl
    | some x =>
      dsimp only
      by_cases hbad : x.2 ≠ [] ∨ x.1 < 0 ∨ x.1 > 65535
      · rw [if_pos hbad]; exact .inr rfl
      · rw [if_neg hbad]; exact .inl ⟨_, rfl, inv.port x.1, rfl⟩

theorem parseEnd_safe (env : UEnv) (hcm : env.charMax ≤ 255) {K tail s} (inv : UInv K tail s) (port : Option Nat) (hp : ∀ p, port = some p → p ≤ K)
    (delim : UInt8) {url : Nat} (hu : delim ≠ 0 → url ≤ K) :
    UGood K tail (delim ≠ ch '%' ∧ (delim ≠ 0 → AllGood env (s.buf.drop url))) (parseEnd env port delim url s) := by
  unfold parseEnd
  rw [M.bind_def]
  rcases parsePort_safe inv port hp with ⟨s1, e1, inv1, hb⟩ | e1
  · rw [e1]
    dsimp only
    by_cases h1 : delim = ch '/'
    · rw [if_pos h1, M.bind_def]
      have hd0 : delim ≠ 0 := by rw [h1]; decide
      obtain ⟨d, pp', s2, e2, inv2, _, _, hg⟩ := findDelim_safe env hcm true inv1 (hu hd0)
      rw [e2]
      dsimp only
      by_cases h2 : d ≠ 0
      · rw [if_pos h2]; exact ⟨rfl, inv2⟩
      · rw [if_neg h2]
        have h2 : d = 0 := Classical.byContradiction h2
        refine ⟨inv2.vhost (hu hd0), by rw [h1]; decide, fun _ => ?_⟩
        rw [hb] at hg
        exact hg (by rw [h2]; decide) (fun h => absurd h2 h)
    · rw [if_neg h1]
      by_cases h2 : delim = 0
      · rw [if_pos h2]
        exact ⟨inv1, by rw [h2]; decide, fun h => absurd h2 h⟩
      · rw [if_neg h2]; exact ⟨rfl, inv1⟩
  · rw [e1]; exact ⟨rfl, inv⟩

theorem parseTail_safe (env : UEnv) (hcm : env.charMax ≤ 255) {K tail s} (inv : UInv K tail s) (port : Option Nat) (hp : ∀ p, port = some p → p ≤ K)
    (delim : UInt8) {url : Nat} (hu : delim ≠ 0 → url ≤ K) :
    UGood K tail (delim ≠ ch '%' ∧ (delim ≠ 0 → AllGood env (s.buf.drop url))) (parseTail env port delim url s) := by
  unfold parseTail
  by_cases h1 : delim = ch ':'
  · rw [if_pos h1, M.bind_def]
    have hd0 : delim ≠ 0 := by rw [h1]; decide
    obtain ⟨d, pp', s2, e2, inv2, _, hpp, hg⟩ := findDelim_safe env hcm true inv (hu hd0)
    rw [e2]
    dsimp only
    refine (parseEnd_safe env hcm inv2 (some url) (fun p h => by injection h with h; rw [← h]; exact hu hd0) d hpp).imp (fun h => ?_)
    exact ⟨by rw [h1]; decide, fun _ => hg h.1 h.2⟩
  · rw [if_neg h1]; exact parseEnd_safe env hcm inv port hp delim hu

theorem parseHost_safe (env : UEnv) (hcm : env.charMax ≤ 255) {K tail s} (inv : UInv K tail s) {host start : Nat} (hh : host ≤ K) (port : Option Nat)
    (hp : ∀ p, port = some p → p ≤ K) (delim : UInt8) {url : Nat} (hu : delim ≠ 0 → url ≤ K) :
    UGood K tail (delim ≠ ch '%' ∧ (delim ≠ 0 → AllGood env (s.buf.drop url))) (parseHost env host start port delim url s) := by
  unfold parseHost
  obtain ⟨c, hc⟩ := rdAt_safe inv hh
  by_cases h1 : delim = ch '['
  · rw [if_pos h1, M.bind_def, hc]
    dsimp only
    have hd0 : delim ≠ 0 := by rw [h1]; decide
    by_cases h2 : host ≠ start ∨ c ≠ 0
    · rw [if_pos h2]; exact ⟨rfl, inv⟩
    · rw [if_neg h2, M.bind_def]
      obtain ⟨d, u1, s2, e2, inv2, _, hpp, hg⟩ := findDelim_safe env hcm false inv (hu hd0)
      rw [e2]
      dsimp only
      by_cases h3 : d ≠ ch ']'
      · rw [if_pos h3]; exact ⟨rfl, inv2⟩
      · rw [if_neg h3, M.bind_def]
        have h3 : d = ch ']' := Classical.byContradiction h3
        unfold setInfo
        dsimp only
        have inv3 := inv2.host (hu hd0)
        rw [M.bind_def]
        have hu1 : u1 ≤ K := hpp (by rw [h3]; decide)
        obtain ⟨d', u2, s4, e4, inv4, _, hpp', hg'⟩ := findDelim_safe env hcm true inv3 hu1
        rw [e4]
        dsimp only
        obtain ⟨c', hc'⟩ := rdAt_safe inv4 hu1
        rw [M.bind_def, hc']
        dsimp only
        by_cases h4 : c' ≠ 0
        · rw [if_pos h4]; exact ⟨rfl, inv4⟩
        · rw [if_neg h4]
          refine (parseTail_safe env hcm inv4 port hp d' hpp').imp (fun h => ?_)
          exact ⟨by rw [h1]; decide, fun _ => hg (by rw [h3]; decide) (fun _ => hg' h.1 h.2)⟩
  · rw [if_neg h1, M.bind_def, hc]
    dsimp only
    by_cases h2 : c ≠ 0
    · rw [if_pos h2, M.bind_def]
      unfold setInfo
      dsimp only
      exact parseTail_safe env hcm (inv.host hh) port hp delim hu
    · rw [if_neg h2]
      exact parseTail_safe env hcm inv port hp delim hu

theorem parseUser_safe (env : UEnv) (hcm : env.charMax ≤ 255) {K tail s} (inv : UInv K tail s) {host start : Nat} (hh : host ≤ K) (port : Option Nat)
    (hp : ∀ p, port = some p → p ≤ K) (delim : UInt8) {url : Nat} (hu : delim ≠ 0 → url ≤ K) :
    UGood K tail (delim ≠ ch '%' ∧ (delim ≠ 0 → AllGood env (s.buf.drop url))) (parseUser env host start port delim url s) := by
  unfold parseUser
  by_cases h1 : delim = ch '@'
  · rw [if_pos h1, M.bind_def]
    have hd0 : delim ≠ 0 := by rw [h1]; decide
    unfold setInfo
    dsimp only
    rw [M.bind_def]
    have inv1 : UInv K tail { s with info := { s.info with user := .ptr host, password := (port.map CStr.ptr).getD s.info.password } } := by
      refine ⟨inv.buf, hh, ?_, inv.ptrs.2.2⟩
      cases port with
      | none => exact inv.ptrs.2.1
      | some p => exact hp p rfl
    obtain ⟨d, u1, s2, e2, inv2, _, hpp, hg⟩ := findDelim_safe env hcm true inv1 (hu hd0)
    rw [e2]
    dsimp only
    refine (parseHost_safe env hcm inv2 (hu hd0) none (fun p h => nomatch h) d hpp).imp (fun h => ?_)
    exact ⟨by rw [h1]; decide, fun _ => hg h.1 h.2⟩
  · rw [if_neg h1]; exact parseHost_safe env hcm inv hh port hp delim hu

theorem parseAuthority_safe (env : UEnv) (hcm : env.charMax ≤ 255) {K tail s} (inv : UInv K tail s) {url : Nat} (hu : url ≤ K) :
    UGood K tail (AllGood env (s.buf.drop url)) (parseAuthority env url s) := by
  unfold parseAuthority
  rw [M.bind_def]
  obtain ⟨d, u1, s2, e2, inv2, _, hpp, hg⟩ := findDelim_safe env hcm true inv hu
  rw [e2]
  dsimp only
  by_cases h1 : d = ch ':'
  · rw [if_pos h1, M.bind_def]
    have hu1 := hpp (by rw [h1]; decide)
    obtain ⟨d', u2, s3, e3, inv3, _, hpp', hg'⟩ := findDelim_safe env hcm true inv2 hu1
    rw [e3]
    dsimp only
    refine (parseUser_safe env hcm inv3 hu (some u1) (fun p h => by injection h with h; rw [← h]; exact hu1) d' hpp').imp (fun h => ?_)
    exact hg (by rw [h1]; decide) (fun _ => hg' h.1 h.2)
  · rw [if_neg h1]
    exact (parseUser_safe env hcm inv2 hu none (fun p h => nomatch h) d hpp).imp (fun h => hg h.1 h.2)

/-- amqp_parse_url on a NUL-terminated string `body` followed by anything. -/
theorem parseUrl_safe (env : UEnv) (hcm : env.charMax ≤ 255) (body tail : Bytes) (h0 : 0 ∉ body) :
    UGood body.length tail (AllGood env (body ++ 0 :: tail)) (parseUrl env (body ++ 0 :: tail)) := by
  have inv : UInv body.length tail ⟨body ++ 0 :: tail, defaultInfo⟩ := ⟨⟨body, rfl, rfl⟩, trivial, trivial, trivial, trivial⟩
  have hcs : cstr? (body ++ 0 :: tail) = some body := by
    rw [takeWhile_cstr (by simp)]
    congr 1
    rw [List.takeWhile_append_of_pos (by intro c hc; simp only [ne_eq, decide_eq_true_eq]; exact fun h => h0 (h ▸ hc))]
    simp
  -- percent signs cannot hide in the scheme
  have pre : ∀ (p : Bytes), ch '%' ∉ p → p.isPrefixOf body = true → AllGood env ((body ++ 0 :: tail).drop p.length) → AllGood env (body ++ 0 :: tail) := by
    intro p hp hpre hg t b e ht
    rw [List.isPrefixOf_iff_prefix] at hpre
    obtain ⟨q, rfl⟩ := hpre
    rw [List.append_assoc, List.drop_left] at hg
    rw [List.append_assoc] at e
    by_cases hl : p.length ≤ t.length
    · have ht' : t = p ++ t.drop p.length := by
        have h1 : (t ++ ch '%' :: b).take p.length = p := by rw [← e, List.take_left]
        rw [List.take_append_of_le_length hl] at h1
        conv => lhs; rw [← List.take_append_drop p.length t, h1]
      rw [ht', List.append_assoc] at e
      have e' := List.append_cancel_left e
      exact hg _ b e' (fun h => ht (by rw [ht']; exact List.mem_append_right _ h))
    · exfalso
      apply hp
      have : (p ++ (q ++ 0 :: tail))[t.length]? = some (ch '%') := by
        rw [e, List.getElem?_append_right (Nat.le_refl _), Nat.sub_self]; rfl
      rw [List.getElem?_append_left (by omega)] at this
      exact List.mem_of_getElem? this
  unfold parseUrl parseUrlM
  rw [M.bind_def]
  unfold strAt
  dsimp only
  rw [List.drop_zero, hcs]
  dsimp only
  by_cases h1 : (chs "amqp://").isPrefixOf body = true
  · rw [if_pos h1]
    have hl : 7 ≤ body.length := by
      rw [List.isPrefixOf_iff_prefix] at h1; exact h1.length_le
    exact (parseAuthority_safe env hcm inv hl).imp (fun h => pre _ (by decide) h1 h)
  · rw [if_neg h1]
    by_cases h2 : (chs "amqps://").isPrefixOf body = true
    · rw [if_pos h2, M.bind_def]
      unfold setInfo
      dsimp only
      have hl : 8 ≤ body.length := by
        rw [List.isPrefixOf_iff_prefix] at h2; exact h2.length_le
      have inv' : UInv body.length tail ⟨body ++ 0 :: tail, { defaultInfo with port := 5671, ssl := true }⟩ := ⟨inv.buf, inv.ptrs⟩
      exact (parseAuthority_safe env hcm inv' hl).imp (fun h => pre _ (by decide) h2 h)
    · rw [if_neg h2]; exact ⟨rfl, inv⟩

end Rmq.UrlM
