import Verif.Proofs.UrlParts
/-!
# URL proofs: what is accepted
-/
namespace Rmq.UrlM

theorem takeWhile_mem {p : UInt8 → Bool} {c : UInt8} : ∀ l : Bytes, c ∈ l.takeWhile p → p c = true := by
  intro l
  induction l with
  | nil => intro hc; cases hc
  | cons x l ih =>
    intro hc
    rw [List.takeWhile_cons] at hc
    by_cases hx : p x = true
    · rw [if_pos hx] at hc
      rcases List.mem_cons.1 hc with rfl | hc
      · exact hx
      · exact ih hc
    · rw [if_neg hx] at hc; cases hc

theorem cut_split (out : Bytes) : ∃ l, out ++ [0] = out.takeWhile (· ≠ 0) ++ 0 :: l := by
  induction out with
  | nil => exact ⟨[], rfl⟩
  | cons c out ih =>
    by_cases hc : c = 0
    · subst hc; exact ⟨out ++ [0], by simp⟩
    · obtain ⟨l, hl⟩ := ih
      refine ⟨l, ?_⟩
      rw [List.takeWhile_cons, if_pos (by simpa using hc), List.cons_append, hl]; rfl

/-- The sign strtol reads, and what follows it. -/
def portSign (r : Bytes) : Bool × Bytes :=
  match r with
  | c :: r' => if c = ch '+' then (false, r') else if c = ch '-' then (true, r') else (false, r)
  | [] => (false, [])
/-- The number after the sign. -/
def portDigits (neg : Bool) (r : Bytes) : Option (Int × Bytes) :=
  if r.takeWhile isDigit = [] then none
  else some ((if neg then max (-(2 ^ 63)) (-(decVal (r.takeWhile isDigit) : Int)) else min (2 ^ 63 - 1) (decVal (r.takeWhile isDigit) : Int)),
    r.drop (r.takeWhile isDigit).length)
theorem strtol10_split (s : Bytes) : strtol10 s = portDigits (portSign (s.dropWhile isSpace)).1 (portSign (s.dropWhile isSpace)).2 := rfl

theorem delim_of_reserved {f : Bool} {c : UInt8} (h1 : isDelim f c = false) (h2 : c ≠ ch '%') : c ∉ reserved f := by
  unfold isDelim at h1
  unfold reserved
  cases f <;> simp_all

/-- An escape accepted by `sscanf` is one of the listed ones, with that value. -/
theorem EscVal.escape {env : UEnv} (hcm : env.charMax ≤ 255) {a b : UInt8} {r : Bytes} {v : Nat} (h : EscVal env (a :: b :: r) v) : EscapeOf env a b r v := by
  obtain ⟨a', b', r', e', ha, hb⟩ := h.two
  injection e' with e1 e'; injection e' with e2 e3
  subst e1; subst e2; subst e3
  obtain ⟨h1, h2⟩ := h
  have ht : (a :: b :: r).takeWhile (· ≠ 0) = a :: b :: r.takeWhile (· ≠ 0) := by simp [List.takeWhile_cons, ha, hb]
  rw [ht] at h1
  generalize hr' : r.takeWhile (· ≠ 0) = r' at h1
  unfold sscanf2x at h1
  dsimp only at h1
  cases hsa : isSpace a with
  | false =>
    rw [List.takeWhile_cons, if_neg (by simp [hsa])] at h1
    simp only [List.length_nil, List.drop_zero, Nat.zero_add] at h1
    by_cases hp : a = ch '+'
    · rw [if_pos hp] at h1
      refine .inr (.inr (.inl ?_))
      cases hv : hexVal? b with
      | none => simp [scanDigits, hv] at h1
      | some x =>
        simp only [scanDigits, hv, if_pos (show 1 < 2 by omega), Option.map_some, Option.some.injEq, Prod.mk.injEq] at h1
        refine ⟨hp, ?_⟩
        rw [← h1.1]
        exact (hexVal?_iff b x).1 hv
    · rw [if_neg hp] at h1
      by_cases hm : a = ch '-'
      · rw [if_pos hm] at h1
        refine .inr (.inr (.inr (.inl ?_)))
        cases hv : hexVal? b with
        | none => simp [scanDigits, hv] at h1
        | some x =>
          have hx := (hexVal?_iff b x).1 hv
          simp only [scanDigits, hv, if_pos (show 1 < 2 by omega), Option.map_some, Option.some.injEq, Prod.mk.injEq] at h1
          have h0 : x = 0 := by
            have := hx.1
            have h1' := h1.1
            rcases Nat.eq_zero_or_pos x with h0 | h0
            · exact h0
            · rw [Nat.mod_eq_of_lt (by omega)] at h1'; omega
          subst h0
          have hb0 : b = ch '0' := by
            apply UInt8.toNat_inj.1
            have : (ch '0').toNat = 48 := by decide
            unfold IsHex at hx; omega
          exact ⟨hm, hb0, by rw [← h1.1]⟩
      · rw [if_neg hm] at h1
        cases hv : hexVal? a with
        | none => simp [scanDigits, hv] at h1
        | some x =>
          cases hw : hexVal? b with
          | some y =>
            simp only [scanDigits, hv, hw, if_neg (show ¬ 2 < 2 by omega), Option.map_some, Option.some.injEq, Prod.mk.injEq] at h1
            exact .inl ⟨x, y, (hexVal?_iff a x).1 hv, (hexVal?_iff b y).1 hw, by omega, h2⟩
          | none =>
            simp only [scanDigits, hv, hw, if_neg (show ¬ 2 < 2 by omega)] at h1
            by_cases hz : a = ch '0' ∧ (b = ch 'x' ∨ b = ch 'X')
            · rw [if_pos hz] at h1
              cases hzx : env.zeroX with
              | false => rw [hzx] at h1; simp at h1
              | true =>
                rw [hzx] at h1
                simp only [if_true, Option.map_some, Option.some.injEq, Prod.mk.injEq] at h1
                exact .inr (.inr (.inr (.inr ⟨hzx, hz.1, hz.2, by omega⟩)))
            · rw [if_neg hz] at h1; simp at h1
  | true =>
    cases hsb : isSpace b with
    | true =>
      -- two blanks: more than two characters are used
      exfalso
      have hws : 2 ≤ ((a :: b :: r').takeWhile isSpace).length := by
        rw [List.takeWhile_cons, if_pos hsa, List.takeWhile_cons, if_pos hsb]; simp
      generalize hw : ((a :: b :: r').takeWhile isSpace).length = w at h1 hws
      have pos : ∀ w' s' v' n', scanDigits env w' s' = some (v', n') → 1 ≤ n' := by
        intro w' s' v' n' h
        unfold scanDigits at h
        repeat' split at h
        all_goals first
          | (injection h with h; injection h with _ h; omega)
          | cases h
      cases hd : (a :: b :: r').drop w with
      | nil => rw [hd] at h1; cases h1
      | cons c t =>
        rw [hd] at h1
        dsimp only at h1
        split at h1
        · cases hsd : scanDigits env 1 t with
          | none => rw [hsd] at h1; cases h1
          | some x => rw [hsd] at h1; injection h1 with h1; injection h1 with _ h1; omega
        · split at h1
          · cases hsd : scanDigits env 1 t with
            | none => rw [hsd] at h1; cases h1
            | some x => rw [hsd] at h1; injection h1 with h1; injection h1 with _ h1; omega
          · cases hsd : scanDigits env 2 (c :: t) with
            | none => rw [hsd] at h1; cases h1
            | some x =>
              rw [hsd] at h1; injection h1 with h1; injection h1 with _ h1
              have := pos _ _ _ _ hsd; omega
    | false =>
      have hws : ((a :: b :: r').takeWhile isSpace) = [a] := by
        rw [List.takeWhile_cons, if_pos hsa, List.takeWhile_cons, if_neg (by simp [hsb])]
      rw [hws] at h1
      simp only [List.length_cons, List.length_nil, Nat.zero_add, List.drop_succ_cons, List.drop_zero] at h1
      have pos : ∀ w' s' v' n', scanDigits env w' s' = some (v', n') → 1 ≤ n' := by
        intro w' s' v' n' h
        unfold scanDigits at h
        repeat' split at h
        all_goals first
          | (injection h with h; injection h with _ h; omega)
          | cases h
      refine .inr (.inl ?_)
      split at h1
      · cases hsd : scanDigits env 1 r' with
        | none => rw [hsd] at h1; cases h1
        | some x => rw [hsd] at h1; injection h1 with h1; injection h1 with _ h1; have := pos _ _ _ _ hsd; omega
      · split at h1
        · cases hsd : scanDigits env 1 r' with
          | none => rw [hsd] at h1; cases h1
          | some x => rw [hsd] at h1; injection h1 with h1; injection h1 with _ h1; have := pos _ _ _ _ hsd; omega
        · cases hv : hexVal? b with
          | none => simp [scanDigits, hv] at h1
          | some x =>
            have hvx : v = x := by
              clear hr'
              simp only [scanDigits, hv, if_neg (show ¬ 2 < 2 by omega)] at h1
              repeat' split at h1
              all_goals first
                | (simp only [Option.map_some, Option.some.injEq, Prod.mk.injEq] at h1; omega)
                | (simp at h1; done)
            refine ⟨hsa, by rw [hvx]; exact (hexVal?_iff b x).1 hv, fun c y hc hy => ?_⟩
            cases r with
            | nil => cases hc
            | cons c' r2 =>
              injection hc with hc; subst hc
              have hc0 : c' ≠ 0 := hy.ne 0 (by decide)
              rw [List.takeWhile_cons, if_pos (by simp [hc0])] at hr'
              subst hr'
              have := (hexVal?_iff c' y).2 hy
              simp [scanDigits, hv, this] at h1


theorem Loose.noNul {env : UEnv} {f e s} (h : Loose env f e s) : (0 : UInt8) ∉ e := by
  induction h with
  | nil => simp
  | lit hc _ ih => simp only [List.mem_cons, not_or]; exact ⟨Ne.symm (reserved_of_delim hc).2.2, ih⟩
  | @esc a b v e s he _ ih =>
    simp only [List.mem_cons, not_or]
    have sp : ∀ c, isSpace c = true → c ≠ 0 := by rintro c h rfl; exact absurd h (by decide)
    refine ⟨by decide, ?_, ?_, ih⟩
    · rcases he with ⟨x, y, h1, _⟩ | ⟨h1, _⟩ | ⟨rfl, _⟩ | ⟨rfl, _⟩ | ⟨_, rfl, _⟩
      · exact Ne.symm (h1.ne 0 (by decide))
      · exact Ne.symm (sp a h1)
      all_goals decide
    · rcases he with ⟨x, y, _, h1, _⟩ | ⟨_, h1, _⟩ | ⟨_, h1⟩ | ⟨_, rfl, _⟩ | ⟨_, _, h1, _⟩
      · exact Ne.symm (h1.ne 0 (by decide))
      · exact Ne.symm (h1.ne 0 (by decide))
      · exact Ne.symm (h1.ne 0 (by decide))
      · decide
      · rcases h1 with rfl | rfl <;> decide

/-- A scan that does not stop at a bad escape has passed over a component. -/
theorem Scan.loose {env f s out d r} (hcm : env.charMax ≤ 255) (h : Scan env f s out d r) (hd : d ≠ ch '%') :
    ∃ e, s = e ++ d :: r ∧ Loose env f e out ∧ isDelim f d = true := by
  induction h with
  | delim hc => exact ⟨[], rfl, .nil, hc⟩
  | bad _ => exact absurd rfl hd
  | @esc a b s v out d r hv hs ih =>
    obtain ⟨e, rfl, hl, hdl⟩ := ih hd
    refine ⟨ch '%' :: a :: b :: e, rfl, .esc ?_ hl, hdl⟩
    have := hv.escape hcm
    cases e with
    | nil =>
      rcases this with h | ⟨h1, h2, _⟩ | h
      · exact .inl h
      · exact .inr (.inl ⟨h1, h2, fun c y hc => nomatch hc⟩)
      · exact .inr (.inr h)
    | cons c e => exact this
  | @lit c s out d r hc hp hs ih =>
    obtain ⟨e, rfl, hl, hdl⟩ := ih hd
    exact ⟨c :: e, rfl, .lit (delim_of_reserved hc hp) hl, hdl⟩

/-- The text still to be read from the delimiter on: `delim` was just read, `rest` is in the buffer, `tail` follows the string. -/
def At (delim : UInt8) (rest rem tail : Bytes) : Prop :=
  (delim = 0 ∧ rem = [] ∧ rest = tail) ∨ (delim ≠ 0 ∧ ∃ x, rem = delim :: x ∧ (0 : UInt8) ∉ x ∧ rest = x ++ 0 :: tail)

/-- One component read: either the result is a bad escape, or a component ended by a delimiter. -/
theorem findDelim_loose {env : UEnv} (hcm : env.charMax ≤ 255) (f : Bool) (x tail pre : Bytes) (info : ConnInfo) (h0 : (0 : UInt8) ∉ x) :
    ∃ d n s', findDelim env pre.length f ⟨pre ++ (x ++ 0 :: tail), info⟩ = .ok (d, n) s' ∧ (d = ch '%' ∨
      ∃ e y r rem mid, Component env f e y ∧ x = e ++ rem ∧ At d r rem tail ∧ isDelim f d = true ∧ n = (pre ++ mid).length ∧
        s' = ⟨pre ++ mid ++ r, info⟩ ∧ HasStr (pre ++ mid) pre.length y) := by
  have hz : (0 : UInt8) ∈ x ++ 0 :: tail := by simp
  obtain ⟨out, d, r, hsc⟩ := scan_total env f _ _ (Nat.le_refl _) hz
  obtain ⟨mid, e1, _, hj, _⟩ := findDelim_spec hsc pre info hz
  by_cases hd : d = ch '%'
  · exact ⟨_, _, _, e1, .inl hd⟩
  · rw [if_neg hd] at e1
    refine ⟨_, _, _, e1, .inr ?_⟩
    obtain ⟨e, he, hl, hdl⟩ := hsc.loose hcm hd
    obtain ⟨junk, hj⟩ := hj hd
    have hstr : HasStr (pre ++ mid) pre.length (out.takeWhile (· ≠ 0)) := by
      have hno : (0 : UInt8) ∉ out.takeWhile (· ≠ 0) := fun hm => by
        have := takeWhile_mem out hm
        simp at this
      obtain ⟨l, hl⟩ := cut_split out
      refine ⟨pre, l ++ junk, ?_, rfl, hno⟩
      have : out ++ 0 :: junk = out ++ [0] ++ junk := by simp
      rw [hj, this, hl]; simp
    have hen := hl.noNul
    rcases List.append_eq_append_iff.1 he with ⟨a, rfl, ha⟩ | ⟨b, rfl, hb⟩
    · -- x = beginning of e: impossible unless equal
      cases a with
      | nil =>
        rw [List.nil_append] at ha
        injection ha with h1 h2
        exact ⟨x, _, r, [], mid, ⟨out, by simpa using hl, rfl⟩, by simp, .inl ⟨h1.symm, rfl, h2.symm⟩, hdl, rfl, rfl, hstr⟩
      | cons c a =>
        rw [List.cons_append] at ha
        injection ha with h1 h2
        exact absurd (by rw [h1]; simp) hen
    · cases b with
      | nil =>
        rw [List.nil_append] at hb
        injection hb with h1 h2
        exact ⟨e, _, r, [], mid, ⟨out, hl, rfl⟩, by simp, .inl ⟨h1, rfl, h2⟩, hdl, rfl, rfl, hstr⟩
      | cons c b =>
        rw [List.cons_append] at hb
        injection hb with h1 h2
        subst h1
        have h0' : (0 : UInt8) ∉ b := fun h => h0 (by simp [h])
        have hd0 : d ≠ 0 := fun h => h0 (by simp [h])
        exact ⟨e, _, r, d :: b, mid, ⟨out, hl, rfl⟩, rfl, .inr ⟨hd0, b, rfl, h0', h2⟩, hdl, rfl, rfl, hstr⟩

theorem strtol_loose {t rest : Bytes} {v : Int} (h : strtol10 t = some (v, rest)) (hr : rest = []) (h0 : 0 ≤ v) (h1 : v ≤ 65535) :
    ∃ n : Nat, v = (n : Int) ∧ PortLoose t n := by
  subst hr
  have hb : t = t.takeWhile isSpace ++ t.dropWhile isSpace := (List.takeWhile_append_dropWhile).symm
  have fin : ∀ (sign r' : Bytes) (neg : Bool), t.dropWhile isSpace = sign ++ r' → (sign = [] ∧ neg = false ∨ sign = [ch '+'] ∧ neg = false ∨ sign = [ch '-'] ∧ neg = true) →
      portDigits neg r' = some (v, ([] : Bytes)) → ∃ n : Nat, v = (n : Int) ∧ PortLoose t n := by
    intro sign r' neg hr hs hh
    unfold portDigits at hh
    by_cases hne : r'.takeWhile isDigit = []
    · rw [if_pos hne] at hh; cases hh
    · rw [if_neg hne] at hh
      injection hh with hh; injection hh with hv hd
      have hds : r'.takeWhile isDigit = r' := by
        have h2 := List.takeWhile_prefix (l := r') isDigit
        exact h2.eq_of_length (by have := List.drop_eq_nil_iff.1 hd; have := h2.length_le; omega)
      rw [hds] at hne hv
      have hdig : ∀ c ∈ r', 48 ≤ c.toNat ∧ c.toNat ≤ 57 := fun c hc => by
        rw [← hds] at hc
        have := takeWhile_mem _ hc
        unfold isDigit at this
        simp only [Bool.and_eq_true, decide_eq_true_eq, UInt8.le_iff_toNat_le] at this
        exact this
      generalize hdv : decVal r' = dv at hv
      have key : v = (dv : Int) ∧ dv ≤ 65535 ∧ (neg = true → dv = 0) := by
        cases neg with
        | false => simp only [Bool.false_eq_true, if_false] at hv; refine ⟨?_, ?_, (nomatch ·)⟩ <;> omega
        | true => simp only [if_true] at hv; refine ⟨?_, ?_, fun _ => ?_⟩ <;> omega
      refine ⟨dv, key.1, PortLoose.def.2 ⟨t.takeWhile isSpace, sign, r', ?_, fun c hc => takeWhile_mem _ hc, ?_, hne, hdig, hdv, key.2.1⟩⟩
      · rw [List.append_assoc, ← hr]; exact hb
      · rcases hs with ⟨rfl, rfl⟩ | ⟨rfl, rfl⟩ | ⟨rfl, rfl⟩
        · exact .inl rfl
        · exact .inr (.inl rfl)
        · exact .inr (.inr ⟨rfl, key.2.2 rfl⟩)
  rw [strtol10_split] at h
  cases hr : t.dropWhile isSpace with
  | nil => rw [hr] at h; exact fin [] [] false (by rw [hr]; rfl) (.inl ⟨rfl, rfl⟩) h
  | cons c r =>
    rw [hr] at h
    by_cases hp : c = ch '+'
    · subst hp; exact fin [ch '+'] r false (by rw [hr]; rfl) (.inr (.inl ⟨rfl, rfl⟩)) h
    · by_cases hm : c = ch '-'
      · subst hm; exact fin [ch '-'] r true (by rw [hr]; rfl) (.inr (.inr ⟨rfl, rfl⟩)) h
      · have hs : portSign (c :: r) = (false, c :: r) := by unfold portSign; dsimp only; rw [if_neg hp, if_neg hm]
        rw [hs] at h
        exact fin [] (c :: r) false (by rw [hr]; rfl) (.inl ⟨rfl, rfl⟩) h

/-! ### The parser, backwards from success -/

/-- The text of the virtual host. -/
def VText (env : UEnv) (vh : Option Bytes) (v : Bytes) : Prop :=
  (vh = none ∧ v = []) ∨ (∃ x e, vh = some x ∧ Component env true e x ∧ v = [ch '/'] ++ e)

/-- What is left at the end: the buffer keeps its beginning, the port and virtual host are set. -/
structure EndOK (env : UEnv) (pre : Bytes) (info : ConnInfo) (s : UrlSt) (n : Option Nat) (vh : Option Bytes) : Prop where
  st : ∃ rest' vptr, s = ⟨pre ++ rest', { info with port := (n.map Int.ofNat).getD info.port, vhost := vptr }⟩ ∧
    vptr.read (pre ++ rest') = some (vh.getD (chs "/"))

theorem parsePort_sound {pre rest : Bytes} {info : ConnInfo} {port : Option Nat} {s : UrlSt} {t : Bytes}
    (ht : ∀ pos, port = some pos → HasStr pre pos t) (h : parsePort port ⟨pre ++ rest, info⟩ = .ok () s) :
    ∃ n : Option Nat, s = ⟨pre ++ rest, { info with port := (n.map Int.ofNat).getD info.port }⟩ ∧
      ((port = none ∧ n = none) ∨ (port ≠ none ∧ ∃ m, n = some m ∧ PortLoose t m)) := by
  cases port with
  | none => cases h; exact ⟨none, rfl, .inl ⟨rfl, rfl⟩⟩
  | some pos =>
    unfold parsePort at h
    dsimp only at h
    rw [M.bind_def] at h
    unfold strAt at h
    dsimp only at h
    rw [((ht pos rfl).append rest).cstr] at h
    dsimp only at h
    cases hs : strtol10 t with
    | none => rw [hs] at h; cases h
    | some r =>
      obtain ⟨v, rest'⟩ := r
      rw [hs] at h
      dsimp only at h
      by_cases hc : rest' ≠ [] ∨ v < 0 ∨ v > 65535
      · rw [if_pos hc] at h; cases h
      · rw [if_neg hc] at h
        have hc' : rest' = [] ∧ 0 ≤ v ∧ v ≤ 65535 := by
          refine ⟨Classical.byContradiction fun h => hc (.inl h), ?_, ?_⟩
          · exact Int.not_lt.1 fun h => hc (.inr (.inl h))
          · exact Int.not_lt.1 fun h => hc (.inr (.inr h))
        obtain ⟨n, hn, hp⟩ := strtol_loose hs hc'.1 hc'.2.1 hc'.2.2
        cases h
        exact ⟨some n, by rw [hn]; rfl, .inr ⟨by simp, n, rfl, hp⟩⟩

theorem parseEnd_sound {env : UEnv} (hcm : env.charMax ≤ 255) {pre rest rem tail : Bytes} {info : ConnInfo} {port : Option Nat} {delim : UInt8}
    {s : UrlSt} {t : Bytes} (ht : ∀ pos, port = some pos → HasStr pre pos t) (hat : At delim rest rem tail) (hi : info.vhost = .lit (chs "/"))
    (h : parseEnd env port delim pre.length ⟨pre ++ rest, info⟩ = .ok () s) :
    ∃ n vh, EndOK env pre info s n vh ∧ VText env vh rem ∧ ((port = none ∧ n = none) ∨ (port ≠ none ∧ ∃ m, n = some m ∧ PortLoose t m)) := by
  unfold parseEnd at h
  rw [M.bind_def] at h
  cases hp : parsePort port ⟨pre ++ rest, info⟩ with
  | err e s => rw [hp] at h; cases h
  | ub => rw [hp] at h; cases h
  | fuel => rw [hp] at h; cases h
  | ok a s1 =>
    rw [hp] at h
    obtain ⟨n, rfl, hn⟩ := parsePort_sound ht hp
    dsimp only at h
    by_cases hd : delim = ch '/'
    · rw [if_pos hd, M.bind_def] at h
      rcases hat with ⟨h0, _⟩ | ⟨_, x, rfl, h0, rfl⟩
      · rw [h0] at hd; exact absurd hd (by decide)
      obtain ⟨d, k, s', e1, hcase⟩ := findDelim_loose hcm true x tail pre { info with port := (n.map Int.ofNat).getD info.port } h0
      rw [e1] at h
      dsimp only at h
      by_cases hd0 : d ≠ 0
      · rw [if_pos hd0] at h; cases h
      · rw [if_neg hd0] at h
        have hd0 : d = 0 := Classical.byContradiction hd0
        rcases hcase with hpct | ⟨e, y, r, rem', mid, hc, hx, hat', _, rfl, rfl, hstr⟩
        · rw [hpct] at hd0; exact absurd hd0 (by decide)
        rcases hat' with ⟨_, rfl, rfl⟩ | ⟨hne, _⟩
        · cases h
          refine ⟨n, some y, ⟨mid ++ r, .ptr pre.length, by simp, ?_⟩, .inr ⟨y, e, rfl, hc, by rw [hd, hx]; simp⟩, hn⟩
          show cstr? ((pre ++ (mid ++ r)).drop pre.length) = _
          rw [← List.append_assoc]
          exact (hstr.append r).cstr
        · exact absurd hd0 hne
    · rw [if_neg hd] at h
      by_cases h0 : delim = 0
      · rw [if_pos h0] at h
        cases h
        rcases hat with ⟨_, rfl, _⟩ | ⟨hne, _⟩
        · exact ⟨n, none, ⟨rest, info.vhost, rfl, by rw [hi]; rfl⟩, .inl ⟨rfl, rfl⟩, hn⟩
        · exact absurd h0 hne
      · rw [if_neg h0] at h; cases h

/-- The text of the port after a colon. -/
def PText (env : UEnv) (n : Option Nat) (p : Bytes) : Prop := ∃ m t x, n = some m ∧ Component env true t x ∧ PortLoose x m ∧ p = [ch ':'] ++ t

theorem parseTail_sound {env : UEnv} (hcm : env.charMax ≤ 255) {pre rest rem tail : Bytes} {info : ConnInfo} {port : Option Nat} {delim : UInt8}
    {s : UrlSt} {t : Bytes} (ht : ∀ pos, port = some pos → HasStr pre pos t) (hat : At delim rest rem tail) (hi : info.vhost = .lit (chs "/"))
    (h : parseTail env port delim pre.length ⟨pre ++ rest, info⟩ = .ok () s) :
    ∃ n vh p v, EndOK env pre info s n vh ∧ rem = p ++ v ∧ VText env vh v ∧
      (PText env n p ∨ (p = [] ∧ ((port = none ∧ n = none) ∨ (port ≠ none ∧ ∃ m, n = some m ∧ PortLoose t m)))) := by
  unfold parseTail at h
  by_cases hd : delim = ch ':'
  · rw [if_pos hd, M.bind_def] at h
    rcases hat with ⟨h0, _⟩ | ⟨_, x, rfl, h0, rfl⟩
    · rw [h0] at hd; exact absurd hd (by decide)
    obtain ⟨d, k, s', e1, hcase⟩ := findDelim_loose hcm true x tail pre info h0
    rw [e1] at h
    dsimp only at h
    rcases hcase with hpct | ⟨e, y, r, rem', mid, hc, hx, hat', _, rfl, rfl, hstr⟩
    · -- a bad escape
      exfalso
      unfold parseEnd at h
      rw [M.bind_def] at h
      cases hp : parsePort (some pre.length) s' with
      | err e s => rw [hp] at h; cases h
      | ub => rw [hp] at h; cases h
      | fuel => rw [hp] at h; cases h
      | ok a s1 =>
        rw [hp, hpct] at h
        dsimp only at h
        rw [if_neg (by decide), if_neg (by decide)] at h
        cases h
    · obtain ⟨n, vh, ⟨rest', vptr, hs, hr⟩, hv, hn⟩ := parseEnd_sound hcm (t := y) (pre := pre ++ mid) (port := some pre.length)
        (fun pos hpos => by cases hpos; exact hstr) hat' hi h
      refine ⟨n, vh, [ch ':'] ++ e, rem', ⟨mid ++ rest', vptr, by rw [hs]; simp, by rw [← List.append_assoc]; exact hr⟩,
        by rw [hd, hx]; simp, hv, .inl ?_⟩
      rcases hn with ⟨hn, _⟩ | ⟨_, m, hm, hp⟩
      · cases hn
      · exact ⟨m, e, y, hm, hc, hp, rfl⟩
  · rw [if_neg hd] at h
    obtain ⟨n, vh, hs, hv, hn⟩ := parseEnd_sound hcm ht hat hi h
    exact ⟨n, vh, [], rem, hs, rfl, hv, .inr ⟨rfl, hn⟩⟩

/-- A parser that met a bad escape does not succeed. -/
theorem parseTail_pct {env : UEnv} {port : Option Nat} {k : Nat} {s0 s : UrlSt} (h : parseTail env port (ch '%') k s0 = .ok () s) : False := by
  unfold parseTail at h
  rw [if_neg (by decide)] at h
  unfold parseEnd at h
  rw [M.bind_def] at h
  cases hp : parsePort port s0 with
  | err e s => rw [hp] at h; cases h
  | ub => rw [hp] at h; cases h
  | fuel => rw [hp] at h; cases h
  | ok a s1 =>
    rw [hp] at h
    dsimp only at h
    rw [if_neg (by decide), if_neg (by decide)] at h
    cases h

/-- The host part: what is left in the buffer and in the information. -/
structure HostOK' (env : UEnv) (pre : Bytes) (info : ConnInfo) (s : UrlSt) (host : HostPart) (n : Option Nat) (vh : Option Bytes) : Prop where
  st : ∃ rest' hptr vptr, s = ⟨pre ++ rest', { info with host := hptr, port := (n.map Int.ofNat).getD info.port, vhost := vptr }⟩ ∧
    hptr.read (pre ++ rest') = some (match host with | .name s => if s = [] then chs "localhost" else s | .bracketed s => s) ∧
    vptr.read (pre ++ rest') = some (vh.getD (chs "/"))

/-- The text of a bracketed host after the part before the bracket. -/
def BText (env : UEnv) (x b : Bytes) : Prop :=
  ∃ e g', Component env false e x ∧ Component env true g' [] ∧ b = [ch '['] ++ e ++ [ch ']'] ++ g'

theorem headD_zero {s : Bytes} (h0 : (0 : UInt8) ∉ s) (h : s.headD 0 = 0) : s = [] := by
  cases s with
  | nil => rfl
  | cons c s => exact absurd (by simp at h; simp [h]) h0

theorem HasStr.noNul {b pos s} (h : HasStr b pos s) : (0 : UInt8) ∉ s := by obtain ⟨_, _, _, _, h⟩ := h; exact h

theorem parseHost_sound {env : UEnv} (hcm : env.charMax ≤ 255) {pre rest rem tail : Bytes} {info : ConnInfo} {port : Option Nat} {delim : UInt8}
    {host start : Nat} {s : UrlSt} {t hs : Bytes} (ht : ∀ pos, port = some pos → HasStr pre pos t) (hh : HasStr pre host hs)
    (hat : At delim rest rem tail) (hi : info.vhost = .lit (chs "/")) (hi2 : info.host = .lit (chs "localhost"))
    (h : parseHost env host start port delim pre.length ⟨pre ++ rest, info⟩ = .ok () s) :
    ∃ hp n vh b p v, HostOK' env pre info s hp n vh ∧ rem = b ++ p ++ v ∧ VText env vh v ∧
      (PText env n p ∨ (p = [] ∧ ((port = none ∧ n = none) ∨ (port ≠ none ∧ ∃ m, n = some m ∧ PortLoose t m)))) ∧
      ((hp = .name hs ∧ b = []) ∨ (host = start ∧ hs = [] ∧ ∃ x, hp = .bracketed x ∧ BText env x b)) := by
  have r1 : ∀ x i, rdAt host ⟨pre ++ x, i⟩ = .ok (hs.headD 0) ⟨pre ++ x, i⟩ := fun x i => by
    unfold rdAt; dsimp only; rw [(hh.append x).head]
  unfold parseHost at h
  by_cases hd : delim = ch '['
  · rw [if_pos hd, M.bind_def, r1] at h
    dsimp only at h
    by_cases hc : host ≠ start ∨ hs.headD 0 ≠ 0
    · rw [if_pos hc] at h; cases h
    rw [if_neg hc, M.bind_def] at h
    have hst : host = start := Classical.byContradiction fun h => hc (.inl h)
    have hhs : hs = [] := headD_zero hh.noNul (Classical.byContradiction fun h => hc (.inr h))
    rcases hat with ⟨h0, _⟩ | ⟨_, x, rfl, h0, rfl⟩
    · rw [h0] at hd; exact absurd hd (by decide)
    obtain ⟨d, k, s', e1, hcase⟩ := findDelim_loose hcm false x tail pre info h0
    rw [e1] at h
    dsimp only at h
    by_cases hdb : d ≠ ch ']'
    · rw [if_pos hdb] at h; cases h
    rw [if_neg hdb, M.bind_def] at h
    have hdb : d = ch ']' := Classical.byContradiction hdb
    rcases hcase with hpct | ⟨e, y, r, rem', mid, hcmp, hx, hat', _, rfl, rfl, hstr⟩
    · rw [hpct] at hdb; exact absurd hdb (by decide)
    rcases hat' with ⟨h0', _⟩ | ⟨_, x2, rfl, h02, rfl⟩
    · rw [h0'] at hdb; exact absurd hdb (by decide)
    unfold setInfo at h
    dsimp only at h
    rw [M.bind_def] at h
    obtain ⟨d2, k2, s2, e2, hcase2⟩ := findDelim_loose hcm true x2 tail (pre ++ mid) { info with host := .ptr pre.length } h02
    rw [e2] at h
    dsimp only at h
    rw [M.bind_def] at h
    rcases hcase2 with hpct | ⟨e', y', r', rem2, mid2, hcmp2, hx2, hat2, _, rfl, rfl, hstr2⟩
    · exfalso
      cases hr : rdAt (pre ++ mid).length s2 with
      | err e s => rw [hr] at h; cases h
      | ub => rw [hr] at h; cases h
      | fuel => rw [hr] at h; cases h
      | ok c s3 =>
        rw [hr] at h
        dsimp only at h
        by_cases hc0 : c ≠ 0
        · rw [if_pos hc0] at h; cases h
        · rw [if_neg hc0, hpct] at h
          exact parseTail_pct h
    · have r2 : rdAt (pre ++ mid).length ⟨pre ++ mid ++ mid2 ++ r', { info with host := .ptr pre.length }⟩ =
          .ok (y'.headD 0) ⟨pre ++ mid ++ mid2 ++ r', { info with host := .ptr pre.length }⟩ := by
        unfold rdAt; dsimp only; rw [(hstr2.append r').head]
      rw [r2] at h
      dsimp only at h
      by_cases hc0 : y'.headD 0 ≠ 0
      · rw [if_pos hc0] at h; cases h
      rw [if_neg hc0] at h
      have hy' : y' = [] := headD_zero hstr2.noNul (Classical.byContradiction hc0)
      subst hy'
      obtain ⟨n, vh, p, v, ⟨rest', vptr, hs', hr'⟩, hrem, hv, hn⟩ := parseTail_sound hcm (t := t) (pre := pre ++ mid ++ mid2) (info := { info with host := .ptr pre.length })
        (fun pos hpos => ((ht pos hpos).append _).append _) hat2 hi h
      refine ⟨.bracketed y, n, vh, [ch '['] ++ e ++ [ch ']'] ++ e', p, v,
        ⟨mid ++ (mid2 ++ rest'), .ptr pre.length, vptr, by rw [hs']; simp, ?_, ?_⟩, ?_, hv, hn,
        .inr ⟨hst, hhs, y, rfl, e, e', hcmp, hcmp2, rfl⟩⟩
      · show cstr? ((pre ++ (mid ++ (mid2 ++ rest'))).drop pre.length) = _
        rw [← List.append_assoc]
        exact (hstr.append _).cstr
      · have : pre ++ (mid ++ (mid2 ++ rest')) = pre ++ mid ++ mid2 ++ rest' := by simp
        rw [this]; exact hr'
      · rw [hd, hx, hdb, hx2, hrem]; simp
  · rw [if_neg hd, M.bind_def, r1] at h
    dsimp only at h
    have key : ∃ hp : CStr, parseTail env port delim pre.length ⟨pre ++ rest, { info with host := hp }⟩ = .ok () s ∧
        ∀ x, hp.read (pre ++ x) = some (if hs = [] then chs "localhost" else hs) := by
      cases hs with
      | nil =>
        rw [if_neg (by simp)] at h
        exact ⟨info.host, h, fun x => by rw [hi2]; rfl⟩
      | cons c l =>
        have hc : c ≠ 0 := by
          have := hh.noNul
          simp only [List.mem_cons, not_or] at this; exact Ne.symm this.1
        rw [if_pos (by simpa using hc), M.bind_def] at h
        exact ⟨.ptr host, h, fun x => by rw [if_neg (by simp)]; exact (hh.append x).cstr⟩
    obtain ⟨hp, h, hr⟩ := key
    obtain ⟨n, vh, p, v, ⟨rest', vptr, hs', hr'⟩, hrem, hv, hn⟩ := parseTail_sound hcm (t := t) (info := { info with host := hp }) ht hat hi h
    exact ⟨.name hs, n, vh, [], p, v, ⟨rest', hp, vptr, hs', hr rest', hr'⟩, by rw [hrem]; simp, hv, hn, .inl ⟨rfl, rfl⟩⟩

theorem parseHost_pct {env : UEnv} {port : Option Nat} {host start k : Nat} {s0 s : UrlSt} (h : parseHost env host start port (ch '%') k s0 = .ok () s) :
    False := by
  unfold parseHost at h
  rw [if_neg (by decide), M.bind_def] at h
  cases hr : rdAt host s0 with
  | err e s => rw [hr] at h; cases h
  | ub => rw [hr] at h; cases h
  | fuel => rw [hr] at h; cases h
  | ok c s3 =>
    rw [hr] at h
    dsimp only at h
    by_cases hc0 : c ≠ 0
    · rw [if_pos hc0, M.bind_def] at h
      exact parseTail_pct h
    · rw [if_neg hc0] at h
      exact parseTail_pct h

/-- The text of the host. -/
def HText' (env : UEnv) (hp : HostPart) (h : Bytes) : Prop :=
  (∃ x, hp = .name x ∧ Component env true h x) ∨
  (∃ x e g g', hp = .bracketed x ∧ Component env false e x ∧ Component env true g [] ∧ Component env true g' [] ∧
    h = g ++ [ch '['] ++ e ++ [ch ']'] ++ g')

theorem hostText {env : UEnv} {e hs b : Bytes} {hp : HostPart} {P : Prop} (hc : Component env true e hs)
    (h : (hp = .name hs ∧ b = []) ∨ (P ∧ hs = [] ∧ ∃ x, hp = .bracketed x ∧ BText env x b)) : HText' env hp (e ++ b) := by
  rcases h with ⟨rfl, rfl⟩ | ⟨_, rfl, x, rfl, e', g', h1, h2, rfl⟩
  · exact .inl ⟨hs, rfl, by rw [List.append_nil]; exact hc⟩
  · exact .inr ⟨x, e', e, g', rfl, h1, hc, h2, by simp⟩

/-- The host after a user. -/
theorem afterUser_sound {env : UEnv} (hcm : env.charMax ≤ 255) {pre x tail : Bytes} {info : ConnInfo} {s : UrlSt} (h0 : (0 : UInt8) ∉ x)
    (hi : info.vhost = .lit (chs "/")) (hi2 : info.host = .lit (chs "localhost"))
    (h : (do
      let (d, v) ← findDelim env pre.length true
      parseHost env pre.length pre.length none d v : M UrlSt Unit) ⟨pre ++ (x ++ 0 :: tail), info⟩ = .ok () s) :
    ∃ hp n vh t p v, HostOK' env pre info s hp n vh ∧ x = t ++ p ++ v ∧ HText' env hp t ∧ VText env vh v ∧ (PText env n p ∨ (p = [] ∧ n = none)) := by
  rw [M.bind_def] at h
  obtain ⟨d, k, s', e1, hcase⟩ := findDelim_loose hcm true x tail pre info h0
  rw [e1] at h
  dsimp only at h
  rcases hcase with hpct | ⟨e, y, r, rem, mid, hc, hx, hat, _, rfl, rfl, hstr⟩
  · rw [hpct] at h; exact (parseHost_pct h).elim
  · obtain ⟨hp, n, vh, b, p, v, ⟨rest', hptr, vptr, hs, h1, h2⟩, hrem, hv, hn, hb⟩ := parseHost_sound hcm (port := none) (t := []) (pre := pre ++ mid) (fun pos hpos => nomatch hpos) hstr hat hi hi2 h
    refine ⟨hp, n, vh, e ++ b, p, v, ⟨mid ++ rest', hptr, vptr, by rw [hs]; simp, ?_, ?_⟩, by rw [hx, hrem]; simp, hostText hc hb, hv, ?_⟩
    · rw [← List.append_assoc]; exact h1
    · rw [← List.append_assoc]; exact h2
    · rcases hn with hn | ⟨hp, hn | ⟨hn, _⟩⟩
      · exact .inl hn
      · exact .inr ⟨hp, hn.2⟩
      · exact absurd rfl hn

/-- The text after the scheme. -/
def Authority (env : UEnv) (u : UrlParts) (text : Bytes) : Prop :=
  ∃ ui h p v, text = ui ++ h ++ p ++ v ∧
    ((u.user = none ∧ u.password = none ∧ ui = []) ∨
      (∃ x e, u.user = some x ∧ Component env true e x ∧ u.password = none ∧ ui = e ++ [ch '@']) ∨
      (∃ x e y f, u.user = some x ∧ Component env true e x ∧ u.password = some y ∧ Component env true f y ∧
        ui = e ++ [ch ':'] ++ f ++ [ch '@'])) ∧
    HText' env u.host h ∧
    ((u.port = none ∧ p = []) ∨ PText env u.port p ∨
      (∃ n t x j y, u.user = none ∧ (∃ x, u.host = .name x) ∧ u.port = some n ∧ Component env true t x ∧ PortLoose x n ∧
        Component env true j y ∧ p = [ch ':'] ++ j ++ [ch ':'] ++ t)) ∧
    VText env u.vhost v

theorem parseAuthority_sound {env : UEnv} (hcm : env.charMax ≤ 255) {pre x tail : Bytes} {info : ConnInfo} {s : UrlSt} (h0 : (0 : UInt8) ∉ x)
    (hi0 : info.user = .lit (chs "guest")) (hi1 : info.password = .lit (chs "guest"))
    (hi2 : info.host = .lit (chs "localhost")) (hi : info.vhost = .lit (chs "/")) (hport : info.port = if info.ssl then 5671 else 5672)
    (h : parseAuthority env pre.length ⟨pre ++ (x ++ 0 :: tail), info⟩ = .ok () s) :
    ∃ u, u.ssl = info.ssl ∧ Authority env u x ∧ s.view = u.expected := by
  have portEq : ∀ n : Option Nat, (n.map Int.ofNat).getD info.port = n.getD (if info.ssl then 5671 else 5672) := by
    intro n; rw [hport]; cases n with
    | none => cases info.ssl <;> rfl
    | some n => rfl
  unfold parseAuthority at h
  rw [M.bind_def] at h
  obtain ⟨d, k, s', e1, hcase⟩ := findDelim_loose hcm true x tail pre info h0
  rw [e1] at h
  dsimp only at h
  rcases hcase with hpct | ⟨e, y, r, rem, mid, hc, hx, hat, _, rfl, rfl, hstr⟩
  · rw [hpct, if_neg (by decide)] at h
    unfold parseUser at h
    rw [if_neg (by decide)] at h
    exact (parseHost_pct h).elim
  by_cases hcol : d = ch ':'
  · rw [if_pos hcol, M.bind_def] at h
    rcases hat with ⟨h0', _⟩ | ⟨_, x2, rfl, h02, rfl⟩
    · rw [h0'] at hcol; exact absurd hcol (by decide)
    obtain ⟨d2, k2, s2, e2, hcase2⟩ := findDelim_loose hcm true x2 tail (pre ++ mid) info h02
    rw [e2] at h
    dsimp only at h
    unfold parseUser at h
    rcases hcase2 with hpct | ⟨e', y', r', rem2, mid2, hc2, hx2, hat2, _, rfl, rfl, hstr2⟩
    · rw [hpct, if_neg (by decide)] at h
      exact (parseHost_pct h).elim
    by_cases hatd : d2 = ch '@'
    · -- user and password
      rw [if_pos hatd, M.bind_def] at h
      unfold setInfo at h
      dsimp only [Option.map_some, Option.getD_some] at h
      rcases hat2 with ⟨h0', _⟩ | ⟨_, x3, rfl, h03, rfl⟩
      · rw [h0'] at hatd; exact absurd hatd (by decide)
      obtain ⟨hp, n, vh, t, p, v, ⟨rest', hptr, vptr, hs, h1, h2⟩, hx3, hht, hv, hn⟩ := afterUser_sound hcm h03 (pre := pre ++ mid ++ mid2)
        (info := { info with user := .ptr pre.length, password := .ptr (pre ++ mid).length }) hi hi2 h
      refine ⟨⟨info.ssl, some y, some y', hp, n, vh⟩, rfl, ⟨e ++ [ch ':'] ++ e' ++ [ch '@'], t, p, v, ?_,
        .inr (.inr ⟨y, e, y', e', rfl, hc, rfl, hc2, rfl⟩), hht, ?_, hv⟩, ?_⟩
      · rw [hx, hcol, hx2, hatd, hx3]; simp
      · rcases hn with hn | ⟨hp, hn⟩
        · exact .inr (.inl hn)
        · exact .inl ⟨hn, hp⟩
      · rw [hs]
        unfold UrlSt.view
        dsimp only
        rw [h1, h2, portEq]
        show UrlInfo.mk (cstr? _) (cstr? _) _ _ _ _ = _
        rw [((hstr.append mid2).append rest').cstr, (hstr2.append rest').cstr]
        rfl
    · -- host and port
      rw [if_neg hatd] at h
      have hne : pre.length ≠ (pre ++ mid).length := by
        obtain ⟨a, j, e3, e4, _⟩ := hstr
        rw [e3]; simp only [List.length_append, List.length_cons]; omega
      obtain ⟨hp, n, vh, b, p, v, ⟨rest', hptr, vptr, hs, h1, h2⟩, hrem, hv, hn, hb⟩ := parseHost_sound hcm (t := y') (pre := pre ++ mid ++ mid2)
        (port := some (pre ++ mid).length) (start := (pre ++ mid).length)
        (fun pos hpos => by cases hpos; exact hstr2) (hstr.append mid2) hat2 hi hi2 h
      rcases hb with ⟨rfl, rfl⟩ | ⟨hbad, _⟩
      · have hport' : PText env n ([ch ':'] ++ e' ++ p) ∨
            (∃ n' t x j y, (∃ x, HostPart.name y = .name x) ∧ n = some n' ∧ Component env true t x ∧ PortLoose x n' ∧
              Component env true j y ∧ [ch ':'] ++ e' ++ p = [ch ':'] ++ j ++ [ch ':'] ++ t) := by
          rcases hn with ⟨m, t, x', hm, hct, hpl, rfl⟩ | ⟨rfl, ⟨hp', _⟩ | ⟨_, m, hm, hpl⟩⟩
          · exact .inr ⟨m, t, x', e', y', ⟨_, rfl⟩, hm, hct, hpl, hc2, by simp⟩
          · cases hp'
          · exact .inl ⟨m, e', y', hm, hc2, hpl, by simp⟩
        refine ⟨⟨info.ssl, none, none, .name y, n, vh⟩, rfl, ⟨[], e, [ch ':'] ++ e' ++ p, v, ?_, .inl ⟨rfl, rfl, rfl⟩,
          .inl ⟨y, rfl, hc⟩, ?_, hv⟩, ?_⟩
        · rw [hx, hcol, hx2, hrem]; simp
        · rcases hport' with h | ⟨n', t, x, j, y2, ha, hb, hc, hd, he, hf⟩
          · exact .inr (.inl h)
          · exact .inr (.inr ⟨n', t, x, j, y2, rfl, ⟨_, rfl⟩, hb, hc, hd, he, hf⟩)
        · rw [hs]
          unfold UrlSt.view
          dsimp only
          rw [h1, h2, portEq, hi0, hi1]
          rfl
      · exact absurd hbad hne
  · rw [if_neg hcol] at h
    unfold parseUser at h
    by_cases hatd : d = ch '@'
    · -- user only
      rw [if_pos hatd, M.bind_def] at h
      unfold setInfo at h
      dsimp only [Option.map_none, Option.getD_none] at h
      rcases hat with ⟨h0', _⟩ | ⟨_, x3, rfl, h03, rfl⟩
      · rw [h0'] at hatd; exact absurd hatd (by decide)
      obtain ⟨hp, n, vh, t, p, v, ⟨rest', hptr, vptr, hs, h1, h2⟩, hx3, hht, hv, hn⟩ := afterUser_sound hcm h03 (pre := pre ++ mid)
        (info := { info with user := .ptr pre.length }) hi hi2 h
      refine ⟨⟨info.ssl, some y, none, hp, n, vh⟩, rfl, ⟨e ++ [ch '@'], t, p, v, ?_,
        .inr (.inl ⟨y, e, rfl, hc, rfl, rfl⟩), hht, ?_, hv⟩, ?_⟩
      · rw [hx, hatd, hx3]; simp
      · rcases hn with hn | ⟨hp, hn⟩
        · exact .inr (.inl hn)
        · exact .inl ⟨hn, hp⟩
      · rw [hs]
        unfold UrlSt.view
        dsimp only
        rw [h1, h2, portEq, hi1]
        show UrlInfo.mk (cstr? _) _ _ _ _ _ = _
        rw [(hstr.append rest').cstr]
        rfl
    · rw [if_neg hatd] at h
      obtain ⟨hp, n, vh, b, p, v, ⟨rest', hptr, vptr, hs, h1, h2⟩, hrem, hv, hn, hb⟩ := parseHost_sound hcm (port := none) (t := []) (pre := pre ++ mid)
        (fun pos hpos => nomatch hpos) hstr hat hi hi2 h
      refine ⟨⟨info.ssl, none, none, hp, n, vh⟩, rfl, ⟨[], e ++ b, p, v, by rw [hx, hrem]; simp, .inl ⟨rfl, rfl, rfl⟩,
          hostText hc hb, ?_, hv⟩, ?_⟩
      · rcases hn with hn | ⟨hp, hn | ⟨hn, _⟩⟩
        · exact .inr (.inl hn)
        · exact .inl ⟨hn.2, hp⟩
        · exact absurd rfl hn
      · rw [hs]
        unfold UrlSt.view
        dsimp only
        rw [h1, h2, portEq, hi0, hi1]
        rfl

theorem parseUrl_sound {env : UEnv} (hcm : env.charMax ≤ 255) {body tail : Bytes} {s : UrlSt} (h0 : (0 : UInt8) ∉ body)
    (h : parseUrl env (body ++ 0 :: tail) = .ok () s) : ∃ u, LooseText env u body ∧ s.view = u.expected := by
  unfold parseUrl parseUrlM at h
  rw [M.bind_def] at h
  unfold strAt at h
  dsimp only at h
  have hcs : cstr? (body ++ 0 :: tail) = some body := by
    rw [takeWhile_cstr (by simp), List.takeWhile_append_of_pos]
    · simp
    · intro c hc; simp only [ne_eq, decide_eq_true_eq]; exact fun h => h0 (h ▸ hc)
  rw [List.drop_zero, hcs] at h
  dsimp only at h
  have fin : ∀ (sch x : Bytes) (info : ConnInfo), body = sch ++ x → sch = (if info.ssl then chs "amqps://" else chs "amqp://") →
      info.user = .lit (chs "guest") → info.password = .lit (chs "guest") → info.host = .lit (chs "localhost") → info.vhost = .lit (chs "/") →
      info.port = (if info.ssl then 5671 else 5672) → parseAuthority env sch.length ⟨body ++ 0 :: tail, info⟩ = .ok () s →
      ∃ u, LooseText env u body ∧ s.view = u.expected := by
    intro sch x info hb hsch i1 i2 i3 i4 i5 hp
    have hx0 : (0 : UInt8) ∉ x := fun hx => h0 (by rw [hb]; exact List.mem_append_right _ hx)
    rw [hb, List.append_assoc] at hp
    obtain ⟨u, hu, ⟨ui, hh, p, v, rfl, c1, c2, c3, c4⟩, hview⟩ := parseAuthority_sound hcm hx0 i1 i2 i3 i4 i5 hp
    refine ⟨u, ?_, hview⟩
    have := LooseText.mk (env := env) (u := u) c1 c2 c3 c4
    rw [hu, ← hsch] at this
    rw [hb]
    simpa using this
  by_cases hp1 : (chs "amqp://").isPrefixOf body = true
  · rw [if_pos hp1] at h
    obtain ⟨x, hx⟩ := List.isPrefixOf_iff_prefix.1 hp1
    exact fin (chs "amqp://") x defaultInfo hx.symm rfl rfl rfl rfl rfl rfl h
  · rw [if_neg hp1] at h
    by_cases hp2 : (chs "amqps://").isPrefixOf body = true
    · rw [if_pos hp2, M.bind_def] at h
      unfold setInfo at h
      dsimp only at h
      obtain ⟨x, hx⟩ := List.isPrefixOf_iff_prefix.1 hp2
      exact fin (chs "amqps://") x { defaultInfo with port := 5671, ssl := true } hx.symm rfl rfl rfl rfl rfl rfl h
    · rw [if_neg hp2] at h; cases h

end Rmq.UrlM
