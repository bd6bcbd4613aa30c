import Verif.Proofs.Tools
/-! Lemmas about the tools: authentication files, names, routing keys, lines. -/
namespace Rmq.ToolsM
open Rmq.ToolsSpec UrlM

/-! ### fgets -/

theorem takeWhile_append_mem {α : Type} (p : α → Bool) (a : List α) (c : α) (b : List α) (ha : ∀ x ∈ a, p x = true) (hc : p c = false) :
    (a ++ c :: b).takeWhile p = a ∧ (a ++ c :: b).dropWhile p = c :: b := by
  induction a with
  | nil => simp [List.takeWhile, List.dropWhile, hc]
  | cons x l ih =>
    have hx := ha x (by simp)
    have := ih (fun y hy => ha y (by simp [hy]))
    simp [List.takeWhile, List.dropWhile, hx, this]

theorem takeWhile_all {α : Type} (p : α → Bool) (a : List α) (ha : ∀ x ∈ a, p x = true) : a.takeWhile p = a ∧ a.dropWhile p = [] := by
  induction a with
  | nil => simp
  | cons x l ih =>
    have hx := ha x (by simp)
    have := ih (fun y hy => ha y (by simp [hy]))
    simp [List.takeWhile, List.dropWhile, hx, this]

theorem split_at {c : UInt8} {s : Bytes} (h : c ∈ s) : ∃ a b, s = a ++ c :: b ∧ c ∉ a := by
  induction s with
  | nil => cases h
  | cons x l ih =>
    by_cases hx : x = c
    · exact ⟨[], l, by simp [hx], by simp⟩
    · have h' : c ∈ l := by
        rcases List.mem_cons.1 h with rfl | h
        · exact absurd rfl hx
        · exact h
      obtain ⟨a, b, e, hn⟩ := ih h'
      exact ⟨x :: a, b, by simp [e], by simp; exact ⟨fun e => hx e.symm, hn⟩⟩

theorem ne_of_notin {c : UInt8} {a : Bytes} (h : c ∉ a) : ∀ x ∈ a, decide (x ≠ c) = true := by
  intro x hx; simp; rintro rfl; exact h hx

theorem fgets_line (n : Nat) (a b : Bytes) (h : (10 : UInt8) ∉ a) :
    fgets n (a ++ 10 :: b) = some ((a ++ [10]).take (n - 1), (a ++ 10 :: b).drop ((a ++ [10]).take (n - 1)).length) := by
  unfold fgets
  rw [if_neg (by simp)]
  obtain ⟨e1, e2⟩ := takeWhile_append_mem (fun x => decide (x ≠ 10)) a 10 b (ne_of_notin h) (by simp)
  simp only [e1, e2]; rfl

theorem fgets_last (n : Nat) (s : Bytes) (h : (10 : UInt8) ∉ s) (hs : s ≠ []) :
    fgets n s = some (s.take (n - 1), s.drop (s.take (n - 1)).length) := by
  unfold fgets
  rw [if_neg hs]
  obtain ⟨e1, e2⟩ := takeWhile_all (fun x => decide (x ≠ 10)) s (ne_of_notin h)
  simp only [e1, e2, List.take_nil, List.append_nil]

/-! ### The authentication file -/

theorem cstring_prefix (b : Bytes) : cstring b <+: b := List.takeWhile_prefix _

theorem cstring_good {b : Bytes} (h : (0 : UInt8) ∉ b) : cstring b = b := (takeWhile_all _ b (ne_of_notin h)).1

theorem cstring_zero {a b : Bytes} (h : (0 : UInt8) ∉ a) : cstring (a ++ 0 :: b) = a :=
  (takeWhile_append_mem _ a 0 b (ne_of_notin h) (by simp)).1

/-- What a line read from the file looks like once the NUL has cut it. -/
theorem authLine_ok (pre rest v rest' : Bytes) (h10 : (10 : UInt8) ∉ pre) (h0 : (0 : UInt8) ∉ pre) (hne : pre ≠ []) :
    authLine pre rest = .ok (v, rest') () ↔
      rest = pre ++ v ++ 10 :: rest' ∧ (10 : UInt8) ∉ v ∧ (0 : UInt8) ∉ v ∧ pre.length + v.length ≤ 126 := by
  constructor
  · intro h
    unfold authLine at h
    by_cases hr : rest = []
    · subst hr; simp [fgets] at h
    by_cases hn : (10 : UInt8) ∈ rest
    · obtain ⟨a, b, rfl, ha⟩ := split_at hn
      rw [fgets_line _ _ _ ha] at h
      dsimp only at h
      generalize hcs : cstring ((a ++ [10]).take (128 - 1)) = cs at h
      by_cases hp : cs.take pre.length ≠ pre
      · rw [if_pos hp] at h; cases h
      rw [if_neg hp] at h
      have hp' : cs.take pre.length = pre := Classical.not_not.1 hp
      cases hl : (cs.drop pre.length).getLast? with
      | none => rw [hl] at h; cases h
      | some c =>
        rw [hl] at h
        dsimp only at h
        by_cases hc : c ≠ 10
        · rw [if_pos hc] at h; cases h
        rw [if_neg hc] at h
        have hc' : c = 10 := Classical.not_not.1 hc
        subst hc'
        injection h with h _
        injection h with hv hrest
        have hvv : cs.drop pre.length = v ++ [10] := by
          obtain ⟨l, hl'⟩ := List.getLast?_eq_some_iff.1 hl
          rw [hl'] at hv ⊢
          rw [List.dropLast_concat] at hv
          rw [hv]
        have hcs' : cs = pre ++ (v ++ [10]) := by rw [← List.take_append_drop pre.length cs, hp', hvv]
        have h10cs : (10 : UInt8) ∈ cs := by rw [hcs']; simp
        have hlen : a.length + 1 ≤ 127 := by
          apply Classical.byContradiction; intro hl2
          have e : (a ++ [10]).take (128 - 1) = a.take 127 := by rw [List.take_append_of_le_length (by omega)]
          rw [e] at hcs
          have : (10 : UInt8) ∈ a.take 127 := (cstring_prefix _).subset (hcs ▸ h10cs)
          exact ha (List.mem_of_mem_take this)
        have e : (a ++ [10]).take (128 - 1) = a ++ [10] := List.take_of_length_le (by simp; omega)
        rw [e] at hcs hrest
        have h0a : (0 : UInt8) ∉ a := by
          intro h0a
          obtain ⟨x, y, rfl, hx⟩ := split_at h0a
          rw [List.append_assoc, List.cons_append, cstring_zero hx] at hcs
          rw [← hcs] at h10cs
          exact ha (by simp [h10cs])
        have h0a' : (0 : UInt8) ∉ a ++ [10] := by simp [h0a]
        rw [cstring_good h0a', hcs', ← List.append_assoc] at hcs
        have hav : a = pre ++ v := (List.append_inj' hcs rfl).1
        have hrest' : rest' = b := by
          rw [← hrest]
          have : a ++ 10 :: b = (a ++ [10]) ++ b := by simp
          rw [this, List.drop_left]
        subst hav; subst hrest'
        refine ⟨rfl, fun h => ha (by simp [h]), fun h => h0a (by simp [h]), by simp at hlen; omega⟩
    · rw [fgets_last _ _ hn hr] at h
      dsimp only at h
      split at h
      · cases h
      · split at h
        · cases h
        · rename_i c hl
          split at h
          · cases h
          · rename_i hc
            have hc' : c = 10 := Classical.not_not.1 hc
            subst hc'
            exfalso
            have h1 := List.mem_of_getLast? hl
            have h2 := (cstring_prefix _).subset (List.mem_of_mem_drop h1)
            exact hn (List.mem_of_mem_take h2)
  · rintro ⟨rfl, hv10, hv0, hlen⟩
    have ha : (10 : UInt8) ∉ pre ++ v := by simp [h10, hv10]
    unfold authLine
    rw [fgets_line _ _ _ ha]
    have e : (pre ++ v ++ [10]).take (128 - 1) = pre ++ v ++ [10] := List.take_of_length_le (by simp; omega)
    have h0' : (0 : UInt8) ∉ pre ++ v ++ [10] := by simp [h0, hv0]
    dsimp only
    rw [e, cstring_good h0']
    have e1 : (pre ++ v ++ [10]).take pre.length = pre := by rw [List.append_assoc, List.take_left]
    have e2 : (pre ++ v ++ [10]).drop pre.length = v ++ [10] := by rw [List.append_assoc, List.drop_left]
    rw [e1, e2, if_neg (by simp)]
    simp only [List.getLast?_concat]
    rw [if_neg (by simp), List.dropLast_concat]
    have e3 : pre ++ v ++ 10 :: rest' = (pre ++ v ++ [10]) ++ rest' := by simp
    rw [e3, List.drop_left]

theorem authLine_ub (pre rest : Bytes) (h10 : (10 : UInt8) ∉ pre) (h0 : (0 : UInt8) ∉ pre) (hne : pre ≠ []) (hlen : pre.length ≤ 100) :
    authLine pre rest = .ub ↔ rest = pre ∨ ∃ t, rest = pre ++ 0 :: t := by
  constructor
  · intro h
    unfold authLine at h
    by_cases hr : rest = []
    · subst hr; simp [fgets] at h
    cases hf : fgets 128 rest with
    | none => rw [hf] at h; cases h
    | some tr =>
      obtain ⟨token, r'⟩ := tr
      rw [hf] at h
      dsimp only at h
      by_cases hp : (cstring token).take pre.length ≠ pre
      · rw [if_pos hp] at h; cases h
      rw [if_neg hp] at h
      have hp' : (cstring token).take pre.length = pre := Classical.not_not.1 hp
      cases hl : ((cstring token).drop pre.length).getLast? with
      | some c => rw [hl] at h; dsimp only at h; split at h <;> cases h
      | none =>
        have hnil : (cstring token).drop pre.length = [] := List.getLast?_eq_none_iff.1 hl
        have hcs : cstring token = pre := by rw [← List.take_append_drop pre.length (cstring token), hp', hnil, List.append_nil]
        -- the token is the prefix, or the prefix and a NUL
        have htok : token = pre ∨ ∃ t, token = pre ++ 0 :: t := by
          by_cases h0t : (0 : UInt8) ∈ token
          · obtain ⟨x, y, rfl, hx⟩ := split_at h0t
            rw [cstring_zero hx] at hcs; subst hcs
            exact Or.inr ⟨y, rfl⟩
          · rw [cstring_good h0t] at hcs; exact Or.inl hcs
        by_cases hn : (10 : UInt8) ∈ rest
        · obtain ⟨a, b, rfl, ha⟩ := split_at hn
          rw [fgets_line _ _ _ ha] at hf
          injection hf with hf
          injection hf with hf _
          have hpre : token <+: a ++ [10] := by rw [← hf]; exact List.take_prefix _ _
          rcases htok with rfl | ⟨t, rfl⟩
          · exfalso
            by_cases hl3 : a.length + 1 ≤ 127
            · rw [List.take_of_length_le (by simp; omega)] at hf
              exact h10 (by rw [← hf]; simp)
            · have := congrArg List.length hf
              simp [List.length_take] at this; omega
          · obtain ⟨u, hu⟩ := hpre
            refine Or.inr ⟨t ++ u ++ b, ?_⟩
            have : a ++ 10 :: b = (a ++ [10]) ++ b := by simp
            rw [this, ← hu]; simp
        · rw [fgets_last _ _ hn hr] at hf
          injection hf with hf
          injection hf with hf _
          have hpre : token <+: rest := by rw [← hf]; exact List.take_prefix _ _
          rcases htok with rfl | ⟨t, rfl⟩
          · left
            by_cases hl3 : rest.length ≤ 127
            · rw [List.take_of_length_le (by omega)] at hf; exact hf
            · have := congrArg List.length hf
              simp [List.length_take] at this; omega
          · obtain ⟨u, hu⟩ := hpre
            exact Or.inr ⟨t ++ u, by rw [← hu]; simp⟩
  · intro h
    -- whatever follows, the string the code sees is the prefix alone
    have key : ∀ token r', fgets 128 rest = some (token, r') → cstring token = pre → authLine pre rest = .ub := by
      intro token r' hf hc
      unfold authLine
      rw [hf]
      dsimp only
      rw [hc, if_neg (by simp)]
      simp
    rcases h with rfl | ⟨t, rfl⟩
    · refine key _ _ (fgets_last _ _ h10 hne) ?_
      rw [List.take_of_length_le (by omega), cstring_good h0]
    · by_cases hn : (10 : UInt8) ∈ t
      · obtain ⟨a, b, rfl, ha⟩ := split_at hn
        have e : pre ++ 0 :: (a ++ 10 :: b) = (pre ++ 0 :: a) ++ 10 :: b := by simp
        rw [e] at key ⊢
        have ha' : (10 : UInt8) ∉ pre ++ 0 :: a := by simp [h10, ha]
        refine key _ _ (fgets_line _ _ _ ha') ?_
        have e2 : ((pre ++ 0 :: a) ++ [10]).take (128 - 1) = pre ++ 0 :: (a ++ [10]).take (126 - pre.length) := by
          rw [List.append_assoc, List.take_append, List.take_of_length_le (by omega)]
          rw [show 128 - 1 - pre.length = (126 - pre.length) + 1 by omega]; rfl
        rw [e2, cstring_zero h0]
      · have ha' : (10 : UInt8) ∉ pre ++ 0 :: t := by simp [h10, hn]
        refine key _ _ (fgets_last _ _ ha' (by simp)) ?_
        have e2 : (pre ++ 0 :: t).take (128 - 1) = pre ++ 0 :: t.take (126 - pre.length) := by
          rw [List.take_append, List.take_of_length_le (by omega)]
          rw [show 128 - 1 - pre.length = (126 - pre.length) + 1 by omega]; rfl
        rw [e2, cstring_zero h0]

theorem readAuthfile_ok (file u p : Bytes) :
    readAuthfile file = .ok (u, p) () ↔
      file = chs "username:" ++ u ++ [10] ++ chs "password:" ++ p ++ [10] ∧ GoodToken u ∧ GoodToken p := by
  have hU := fun rest v r' => authLine_ok (chs "username:") rest v r' (by decide) (by decide) (by decide)
  have hP := fun rest v r' => authLine_ok (chs "password:") rest v r' (by decide) (by decide) (by decide)
  have l1 : (chs "username:").length = 9 := by decide
  have l2 : (chs "password:").length = 9 := by decide
  constructor
  · intro h
    unfold readAuthfile at h
    cases h1 : authLine (chs "username:") file with
    | ok x s =>
      obtain ⟨u', rest⟩ := x
      rw [h1] at h
      dsimp only at h
      cases h2 : authLine (chs "password:") rest with
      | ok y s' =>
        obtain ⟨p', rest'⟩ := y
        rw [h2] at h
        dsimp only at h
        by_cases hr : rest' = []
        · rw [if_pos hr] at h
          injection h with h _
          injection h with e1 e2
          subst e1; subst e2; subst hr
          obtain ⟨f1, a1, a2, a3⟩ := (hU _ _ _).1 h1
          obtain ⟨f2, b1, b2, b3⟩ := (hP _ _ _).1 h2
          rw [l1] at a3; rw [l2] at b3
          exact ⟨by rw [f1, f2]; simp, ⟨a1, a2, by omega⟩, ⟨b1, b2, by omega⟩⟩
        · rw [if_neg hr] at h; cases h
      | err e s' => rw [h2] at h; cases h
      | ub => rw [h2] at h; cases h
      | fuel => rw [h2] at h; cases h
    | err e s => rw [h1] at h; cases h
    | ub => rw [h1] at h; cases h
    | fuel => rw [h1] at h; cases h
  · rintro ⟨rfl, ⟨a1, a2, a3⟩, b1, b2, b3⟩
    have h1 := (hU (chs "username:" ++ u ++ [10] ++ chs "password:" ++ p ++ [10]) u (chs "password:" ++ p ++ [10])).2
      ⟨by simp, a1, a2, by rw [l1]; omega⟩
    have h2 := (hP (chs "password:" ++ p ++ [10]) p []).2 ⟨rfl, b1, b2, by rw [l2]; omega⟩
    unfold readAuthfile
    rw [h1]; dsimp only; rw [h2]; dsimp only; rw [if_pos rfl]

theorem readAuthfile_ub (file : Bytes) :
    readAuthfile file = .ub ↔
      ∃ start tail, file = start ++ tail ∧ (tail = [] ∨ ∃ t, tail = 0 :: t) ∧
        (start = chs "username:" ∨ ∃ u, GoodToken u ∧ start = chs "username:" ++ u ++ [10] ++ chs "password:") := by
  have hU := fun rest v r' => authLine_ok (chs "username:") rest v r' (by decide) (by decide) (by decide)
  have kU := fun rest => authLine_ub (chs "username:") rest (by decide) (by decide) (by decide) (by decide)
  have kP := fun rest => authLine_ub (chs "password:") rest (by decide) (by decide) (by decide) (by decide)
  have l1 : (chs "username:").length = 9 := by decide
  constructor
  · intro h
    unfold readAuthfile at h
    cases h1 : authLine (chs "username:") file with
    | ok x s =>
      obtain ⟨u', rest⟩ := x
      rw [h1] at h
      dsimp only at h
      obtain ⟨f1, a1, a2, a3⟩ := (hU _ _ _).1 h1
      rw [l1] at a3
      cases h2 : authLine (chs "password:") rest with
      | ok y s' => rw [h2] at h; dsimp only at h; split at h <;> cases h
      | err e s' => rw [h2] at h; cases h
      | ub =>
        rcases (kP _).1 h2 with rfl | ⟨t, rfl⟩
        · exact ⟨chs "username:" ++ u' ++ [10] ++ chs "password:", [], by rw [f1]; simp, Or.inl rfl, Or.inr ⟨u', ⟨a1, a2, by omega⟩, by simp⟩⟩
        · exact ⟨chs "username:" ++ u' ++ [10] ++ chs "password:", 0 :: t, by rw [f1]; simp, Or.inr ⟨t, rfl⟩, Or.inr ⟨u', ⟨a1, a2, by omega⟩, by simp⟩⟩
      | fuel => rw [h2] at h; cases h
    | err e s => rw [h1] at h; cases h
    | ub =>
      rcases (kU _).1 h1 with rfl | ⟨t, rfl⟩
      · exact ⟨_, [], by simp, Or.inl rfl, Or.inl rfl⟩
      · exact ⟨_, 0 :: t, rfl, Or.inr ⟨t, rfl⟩, Or.inl rfl⟩
    | fuel => rw [h1] at h; cases h
  · rintro ⟨start, tail, rfl, htail, hstart⟩
    rcases hstart with rfl | ⟨u, ⟨a1, a2, a3⟩, rfl⟩
    · have : authLine (chs "username:") (chs "username:" ++ tail) = .ub := by
        rw [kU]
        rcases htail with rfl | ⟨t, rfl⟩
        · left; simp
        · right; exact ⟨t, rfl⟩
      unfold readAuthfile; rw [this]
    · have h1 := (hU (chs "username:" ++ u ++ [10] ++ chs "password:" ++ tail) u (chs "password:" ++ tail)).2
        ⟨by simp, a1, a2, by rw [l1]; omega⟩
      have h2 : authLine (chs "password:") (chs "password:" ++ tail) = .ub := by
        rw [kP]
        rcases htail with rfl | ⟨t, rfl⟩
        · left; simp
        · right; exact ⟨t, rfl⟩
      unfold readAuthfile; rw [h1]; dsimp only; rw [h2]

/-! ### Names made printable -/

theorem escape_length (b : UInt8) : (escape b).length ≤ 4 := by unfold escape; split <;> simp

theorem stringifyLoop_ok (size : Nat) : ∀ (bs out : Bytes), out.length + bs.length * 4 < size →
    stringifyLoop size out bs () = .ok (out ++ bs.flatMap escape ++ [0]) () := by
  intro bs
  induction bs with
  | nil => intro out h; unfold stringifyLoop; rw [if_pos (by simpa using h)]; simp
  | cons b bs ih =>
    intro out h
    have := escape_length b
    simp only [List.length_cons] at h
    unfold stringifyLoop
    rw [if_pos (by omega), ih _ (by simp; omega)]
    simp

theorem escape_printable : ∀ b : UInt8, ∀ c ∈ escape b, 32 ≤ c ∧ c ≠ 127 := by
  have h : ∀ n : Fin 256, ∀ c ∈ escape (UInt8.ofNat n.val), 32 ≤ c ∧ c ≠ 127 := by decide +kernel
  intro b
  have := h ⟨b.toNat, b.toNat_lt⟩
  simpa using this

theorem escape_octal : ∀ b : UInt8, b ≠ 92 → (∃ d, escape b = [d] ∧ d ≠ 92 ∧ d = b) ∨
    ∃ x y z, escape b = [92, x, y, z] ∧ b = ((x - 48) <<< (6 : UInt8)) ||| ((y - 48) <<< (3 : UInt8)) ||| (z - 48) := by
  have h : ∀ n : Fin 256, UInt8.ofNat n.val ≠ 92 → (escape (UInt8.ofNat n.val) = [UInt8.ofNat n.val]) ∨
      ((escape (UInt8.ofNat n.val)).take 1 = [92] ∧ (escape (UInt8.ofNat n.val)).length = 4 ∧
       UInt8.ofNat n.val = (((escape (UInt8.ofNat n.val)).getD 1 0 - 48) <<< (6 : UInt8)) |||
         (((escape (UInt8.ofNat n.val)).getD 2 0 - 48) <<< (3 : UInt8)) ||| ((escape (UInt8.ofNat n.val)).getD 3 0 - 48)) := by decide +kernel
  intro b hb
  have := h ⟨b.toNat, b.toNat_lt⟩
  simp only [UInt8.ofNat_toNat] at this
  rcases this hb with h1 | ⟨h1, h2, h3⟩
  · exact Or.inl ⟨b, h1, hb, rfl⟩
  · right
    match he : escape b, h2 with
    | [w, x, y, z], _ =>
      rw [he] at h1 h3
      simp at h1 h3
      subst h1
      exact ⟨x, y, z, rfl, h3⟩

theorem stringify_inj : ∀ (a b : Bytes), (92 : UInt8) ∉ a → (92 : UInt8) ∉ b → a.flatMap escape = b.flatMap escape → a = b := by
  intro a
  have hne : ∀ x : UInt8, escape x ≠ [] := by intro x; unfold escape; split <;> simp
  induction a with
  | nil =>
    intro b _ _ h
    cases b with
    | nil => rfl
    | cons y ys => simp at h; exact absurd h.1 (hne y)
  | cons x xs ih =>
    intro b ha hb h
    cases b with
    | nil => simp at h; exact absurd h.1 (hne x)
    | cons y ys =>
      simp only [List.flatMap_cons] at h
      have hx : x ≠ 92 := fun e => ha (by simp [e])
      have hy : y ≠ 92 := fun e => hb (by simp [e])
      have hxs : (92 : UInt8) ∉ xs := fun e => ha (by simp [e])
      have hys : (92 : UInt8) ∉ ys := fun e => hb (by simp [e])
      have fin : escape x = escape y → x = y → x :: xs = y :: ys := by
        intro e1 e2
        rw [e1] at h
        rw [e2, ih ys hxs hys (List.append_cancel_left h)]
      rcases escape_octal x hx with ⟨d, e1, d1, d2⟩ | ⟨p, q, r, e1, d2⟩
      · rcases escape_octal y hy with ⟨d', e1', d1', d2'⟩ | ⟨p', q', r', e1', d2'⟩
        · rw [e1, e1'] at h
          simp at h
          exact fin (by rw [e1, e1', h.1]) (by rw [← d2, ← d2', h.1])
        · rw [e1, e1'] at h; simp at h; exact absurd h.1 d1
      · rcases escape_octal y hy with ⟨d', e1', d1', d2'⟩ | ⟨p', q', r', e1', d2'⟩
        · rw [e1, e1'] at h; simp at h; exact absurd h.1.symm d1'
        · rw [e1, e1'] at h
          simp at h
          obtain ⟨h1, h2, h3, _⟩ := h
          exact fin (by rw [e1, e1', h1, h2, h3]) (by rw [d2, d2', h1, h2, h3])

/-! ### Routing keys -/

theorem dropWhile_eq_nil_of {α : Type} {p : α → Bool} {l : List α} (h : l.dropWhile p = []) : ∀ x ∈ l, p x = true := by
  induction l with
  | nil => simp
  | cons x l ih =>
    rw [List.dropWhile_cons] at h
    by_cases hx : p x = true
    · rw [if_pos hx] at h
      intro y hy; rcases List.mem_cons.1 hy with rfl | hy
      · exact hx
      · exact ih h y hy
    · rw [if_neg hx] at h; cases h

theorem intercalate_cons2 (a b : Bytes) (l : List Bytes) : List.intercalate [44] (a :: b :: l) = a ++ 44 :: List.intercalate [44] (b :: l) := by
  simp [List.intercalate, List.intersperse]

theorem KeysOf.comma {s : Bytes} {ks : List Bytes} (h : KeysOf s ks) : KeysOf (44 :: s) ks := by
  obtain ⟨ps, h1, h2, h3⟩ := h
  cases ps with
  | nil =>
    refine ⟨[[], []], by simp [h1, List.intercalate, List.intersperse], by simp, by simp [h3]⟩
  | cons p ps =>
    exact ⟨[] :: p :: ps, by rw [intercalate_cons2, h1]; rfl, by
      intro q hq; rcases List.mem_cons.1 hq with rfl | hq
      · simp
      · exact h2 q hq, by rw [h3]; simp⟩

theorem KeysOf.dropCommas (s : Bytes) {ks : List Bytes} (h : KeysOf (s.dropWhile (· = 44)) ks) : KeysOf s ks := by
  induction s with
  | nil => exact h
  | cons c s ih =>
    rw [List.dropWhile_cons] at h
    by_cases hc : c = 44
    · rw [if_pos (by simpa using hc)] at h
      rw [hc]; exact KeysOf.comma (ih h)
    · rw [if_neg (by simpa using hc)] at h
      exact h

theorem tokens_keys (n : Nat) : ∀ s : Bytes, s.length < n → KeysOf s (tokens n s) := by
  induction n with
  | zero => intro s h; omega
  | succ n ih =>
    intro s hs
    unfold tokens
    dsimp only
    apply KeysOf.dropCommas
    have hlen : (s.dropWhile (· = 44)).length ≤ s.length := (List.dropWhile_suffix _).length_le
    have hhead : ∀ c t, s.dropWhile (· = 44) = c :: t → c ≠ 44 := by
      intro c t e
      have h := List.head_dropWhile_not (p := fun x : UInt8 => decide (x = 44)) (l := s) (by rw [e]; simp)
      simp only [e, List.head_cons] at h
      simpa using h
    generalize s.dropWhile (· = 44) = u at hlen hhead ⊢
    by_cases hu : u = []
    · rw [if_pos hu, hu]; exact ⟨[], rfl, by simp, rfl⟩
    rw [if_neg hu]
    by_cases hc : (44 : UInt8) ∈ u
    · obtain ⟨a, b, rfl, ha⟩ := split_at hc
      obtain ⟨e1, e2⟩ := takeWhile_append_mem (fun x => decide (x ≠ 44)) a 44 b (ne_of_notin ha) (by simp)
      rw [e1, e2]
      have hane : a ≠ [] := by rintro rfl; exact hhead 44 b rfl rfl
      obtain ⟨ps, h1, h2, h3⟩ := ih b (by simp at hlen; omega)
      show KeysOf _ (a :: tokens n b)
      cases ps with
      | nil =>
        have hb : b = [] := by rw [h1]; rfl
        exact ⟨[a, []], by simp [hb, List.intercalate, List.intersperse], by simp [ha], by rw [h3]; simp [hane]⟩
      | cons p ps =>
        refine ⟨a :: p :: ps, by rw [intercalate_cons2, ← h1], ?_, ?_⟩
        · intro q hq; rcases List.mem_cons.1 hq with rfl | hq
          · exact ha
          · exact h2 q hq
        · have : decide (a ≠ []) = true := by simpa using hane
          rw [h3, List.filter_cons (x := a), if_pos this]
    · obtain ⟨e1, e2⟩ := takeWhile_all (fun x => decide (x ≠ 44)) u (ne_of_notin hc)
      rw [e1, e2]
      refine ⟨[u], by simp [List.intercalate, List.intersperse], by simpa using hc, ?_⟩
      cases n with
      | zero => exfalso; apply hu; cases u with | nil => rfl | cons => simp at hlen; omega
      | succ n => simp [tokens, hu]

theorem bindLoop_ext (S : Shell) (queue ex : Bytes) (ks : List Bytes) : ∀ p : Proc,
    Ext p (bindLoop S queue ex ks p)
      (fun seg _ => seg = ks.map fun key => .call "amqp_queue_bind" [.bytes queue, .bytes ex, .bytes key, .table []])
      (fun _ => True) := by
  induction ks with
  | nil => intro p; exact Ext.pure _ rfl
  | cons k ks ih =>
    intro p
    unfold bindLoop
    refine Ext.bind (callOrDie_ext S _ _ p) ?_ (fun _ _ => trivial)
    rintro _ seg p' rfl _
    exact Ext.mono (ih p') (fun s _ h => by subst h; rfl) (fun _ _ => trivial)

theorem setupQueue_ext (S : Shell) (queue exchange routingKey : Option Bytes) (declare exclusive : Bool) (p : Proc) :
    Ext p (setupQueue S queue exchange routingKey declare exclusive p)
      (fun seg name => SetUp queue exchange routingKey declare exclusive seg name) (fun _ => True) := by
  unfold setupQueue
  by_cases h1 : exchange = none ∧ routingKey ≠ none
  · rw [if_pos h1]; exact Ext.die trivial
  rw [if_neg h1]
  by_cases h2 : queue = none ∨ exchange ≠ none ∨ declare = true ∨ exclusive = true
  · rw [if_pos h2]
    refine Ext.bind (callOrDie_ext S _ _ p) ?_ (fun _ _ => trivial)
    rintro r seg p1 rfl _
    refine Ext.bind (Q₁ := fun seg _ => seg = [.answer r]) (X₁ := fun _ => False) (Ext.act _ rfl) ?_ (fun _ h => h.elim)
    rintro _ seg p2 rfl _
    refine Ext.bind (Q₁ := fun seg name => (queue = some name ∧ seg = []) ∨
        ∃ ok f q, queue = none ∧ r = some f ∧ f.get? .queue = some (.bytes q) ∧ seg = [.alloc ok] ∧ name = if ok then q else [])
        (X₁ := fun _ => False) ?_ ?_ (fun _ h => h.elim)
    · unfold queueName
      cases hq : queue with
      | some q => exact ⟨[], by simp, Or.inl ⟨rfl, rfl⟩⟩
      | none =>
        cases r with
        | none => trivial
        | some f =>
          cases hf : f.get? .queue with
          | none => simp only [hf]; trivial
          | some v =>
            cases v with
            | bytes q =>
              simp only [hf]
              exact ⟨[.alloc _], rfl, Or.inr ⟨_, f, q, trivial, rfl, hf, rfl, rfl⟩⟩
            | u8 _ => simp only [hf]; trivial
            | u16 _ => simp only [hf]; trivial
            | u32 _ => simp only [hf]; trivial
            | u64 _ => simp only [hf]; trivial
            | table _ => simp only [hf]; trivial
            | bool _ => simp only [hf]; trivial
    rintro name copy p3 hname _
    refine Ext.bind (Q₁ := fun seg _ => (exchange = none ∧ seg = []) ∨ ∃ ex k keys, exchange = some ex ∧ routingKey = some k ∧
        KeysOf k keys ∧ seg = .alloc true :: keys.map fun key => .call "amqp_queue_bind" [.bytes name, .bytes ex, .bytes key, .table []])
        (X₁ := fun _ => True) ?_ ?_ (fun _ _ => trivial)
    · unfold bindStep
      cases exchange with
      | none => exact ⟨[], by simp, Or.inl ⟨rfl, rfl⟩⟩
      | some ex =>
        cases routingKey with
        | none => trivial
        | some k =>
          dsimp only
          cases S.alloc p3.acts.length (k.length + 1) with
          | false => exact ⟨rfl, [.alloc false], rfl, trivial⟩
          | true =>
            rw [if_pos rfl]
            refine Ext.step (a := .alloc true) (Ext.mono (bindLoop_ext S name ex _ _) ?_ (fun _ _ => trivial))
            rintro s _ rfl
            exact Or.inr ⟨ex, k, _, rfl, rfl, tokens_keys _ _ (by omega), rfl⟩
    rintro _ bind p4 hbind _
    refine Ext.pure _ ?_
    have := SetUp.declared (routingKey := routingKey) (declare := declare) (exclusive := exclusive) r name copy bind h2 hname hbind
    simpa using this
  · rw [if_neg h2]
    cases hq : queue with
    | none => exact absurd (Or.inl hq) h2
    | some q =>
      refine Ext.pure _ (SetUp.asIs q rfl ?_ ?_ ?_)
      · exact Classical.byContradiction fun h => h2 (Or.inr (Or.inl h))
      · cases hd : declare with
        | false => rfl
        | true => exact absurd (Or.inr (Or.inr (Or.inl hd))) h2
      · cases hd : exclusive with
        | false => rfl
        | true => exact absurd (Or.inr (Or.inr (Or.inr hd))) h2

/-- With an exchange and no routing key there is no normal return: strdup(NULL). -/
theorem setupQueue_no_key (S : Shell) (queue : Option Bytes) (ex : Bytes) (declare exclusive : Bool) (p : Proc) (name : Bytes) (p' : Proc) :
    setupQueue S queue (some ex) none declare exclusive p ≠ .ok name p' := by
  intro h
  have := setupQueue_ext S queue (some ex) none declare exclusive p
  rw [h] at this
  obtain ⟨seg, _, hs⟩ := this
  cases hs with
  | asIs q _ h _ _ => cases h
  | declared r name copy bind _ _ hb =>
    rcases hb with ⟨h, _⟩ | ⟨ex, k, keys, _, h, _⟩
    · cases h
    · cases h

/-! ### Lines -/

theorem fgets_none {n : Nat} {s : Bytes} (h : fgets n s = none) : s = [] := by
  unfold fgets at h
  by_cases hs : s = []
  · exact hs
  · rw [if_neg hs] at h; cases h

theorem fgets_some {s c rest : Bytes} (h : fgets MAX_LINE s = some (c, rest)) :
    s = c ++ rest ∧ c ≠ [] ∧ c.length ≤ 32767 ∧ (10 : UInt8) ∉ c.dropLast ∧ (c.getLast? = some 10 ∨ c.length = 32767 ∨ rest = []) := by
  have hs : s ≠ [] := by rintro rfl; simp [fgets] at h
  by_cases hn : (10 : UInt8) ∈ s
  · obtain ⟨a, b, rfl, ha⟩ := split_at hn
    rw [fgets_line _ _ _ ha] at h
    injection h with h
    injection h with h1 h2
    rw [h1] at h2
    have e0 : a ++ 10 :: b = (a ++ [10]) ++ b := by simp
    by_cases hl : a.length + 1 ≤ 32767
    · have hc : c = a ++ [10] := by rw [← h1]; exact List.take_of_length_le (by simp [MAX_LINE]; omega)
      subst hc
      refine ⟨?_, by simp, by simpa using hl, by simpa using ha, Or.inl (by simp)⟩
      rw [← h2, e0, List.drop_left]
    · have hc : c = a.take 32767 := by
        rw [← h1, List.take_append_of_le_length (by simp [MAX_LINE]; omega)]; rfl
      have hcl : c.length = 32767 := by rw [hc, List.length_take]; omega
      refine ⟨?_, ?_, by omega, ?_, Or.inr (Or.inl hcl)⟩
      · rw [← h2]
        have : c <+: a ++ 10 :: b := by rw [hc]; exact (List.take_prefix _ _).trans (List.prefix_append _ _)
        obtain ⟨t, ht⟩ := this
        rw [← ht, List.drop_left]
      · rintro rfl; simp at hcl
      · intro h10; apply ha
        have := (List.dropLast_prefix _).subset h10
        rw [hc] at this; exact List.mem_of_mem_take this
  · rw [fgets_last _ _ hn hs] at h
    injection h with h
    injection h with h1 h2
    rw [h1] at h2
    have hpre : c <+: s := by rw [← h1]; exact List.take_prefix _ _
    obtain ⟨t, ht⟩ := hpre
    have hrest : rest = t := by rw [← h2, ← ht, List.drop_left]
    have hcl : c.length = min 32767 s.length := by rw [← h1, List.length_take]; rfl
    have hsl : 0 < s.length := by cases s with | nil => exact absurd rfl hs | cons => simp
    refine ⟨by rw [hrest, ht], ?_, by omega, ?_, ?_⟩
    · rintro rfl; simp at hcl; omega
    · intro h10; exact hn (by rw [← ht]; exact List.mem_append_left _ ((List.dropLast_prefix _).subset h10))
    · by_cases hl : s.length ≤ 32767
      · right; right
        have hlen := congrArg List.length ht
        rw [List.length_append] at hlen
        rw [hrest]; exact List.eq_nil_of_length_eq_zero (by omega)
      · right; left; omega

/-- The publish act of the tool. -/
def pubAct (o : PubOpts) (body : Bytes) : Act := .publish (o.exchange.getD []) (o.routingKey.getD []) (pubProps o).1 (pubProps o).2 body

theorem doPublish_ext (S : Shell) (o : PubOpts) (body : Bytes) (p : Proc) :
    Ext p (doPublish S o body p) (fun seg _ => seg = [pubAct o body]) (fun seg => seg = [pubAct o body]) := by
  unfold doPublish
  refine Ext.bind (Q₁ := fun seg _ => seg = [pubAct o body]) (X₁ := fun _ => False) (Ext.act _ rfl) ?_ (fun _ h => h.elim)
  rintro _ seg p' rfl _
  exact Ext.orDie _ (fun _ => by simp) (by simp)

theorem lineLoop_ext (S : Shell) (o : PubOpts) (n : Nat) : ∀ (rest : Bytes) (p : Proc),
    Ext p (lineLoop S o n rest p)
      (fun seg _ => ∃ cs, Chunked rest cs ∧ seg = cs.map fun c => pubAct o (cstring c))
      (fun seg => ∃ cs t, Chunked rest (cs ++ t) ∧ seg = cs.map fun c => pubAct o (cstring c)) := by
  have tot : ∀ (k : Nat) (s : Bytes), s.length < k → ∃ cs, Chunked s cs := by
    intro k
    induction k with
    | zero => intro s h; omega
    | succ k ihk =>
      intro s h
      cases hf : fgets MAX_LINE s with
      | none => rw [fgets_none hf]; exact ⟨[], Chunked.nil⟩
      | some cr =>
        obtain ⟨c, r⟩ := cr
        obtain ⟨e, h1, h2, h3, h4⟩ := fgets_some hf
        subst e
        have : 0 < c.length := by cases c with | nil => exact absurd rfl h1 | cons => simp
        obtain ⟨cs, hcs⟩ := ihk r (by simp at h; omega)
        exact ⟨c :: cs, Chunked.cons c r cs h1 h2 h3 h4 hcs⟩
  induction n with
  | zero => intros; unfold lineLoop; trivial
  | succ n ih =>
    intro rest p
    unfold lineLoop
    cases hf : fgets MAX_LINE rest with
    | none => exact Ext.pure _ ⟨[], by rw [fgets_none hf]; exact Chunked.nil, rfl⟩
    | some cr =>
      obtain ⟨c, r⟩ := cr
      obtain ⟨e, h1, h2, h3, h4⟩ := fgets_some hf
      dsimp only
      refine Ext.bind (doPublish_ext S o (cstring c) p) ?_ ?_
      · rintro _ seg p' rfl _
        refine Ext.mono (ih r p') ?_ ?_
        · rintro s _ ⟨cs, hc, rfl⟩
          exact ⟨c :: cs, by rw [e]; exact Chunked.cons c r cs h1 h2 h3 h4 hc, rfl⟩
        · rintro s ⟨cs, t, hc, rfl⟩
          exact ⟨c :: cs, t, by rw [e]; exact Chunked.cons c r (cs ++ t) h1 h2 h3 h4 hc, rfl⟩
      · rintro seg rfl
        obtain ⟨cs, hcs⟩ := tot (r.length + 1) r (by omega)
        exact ⟨[c], cs, by rw [e]; exact Chunked.cons c r cs h1 h2 h3 h4 hcs, rfl⟩

theorem lineLoop_fuel (S : Shell) (o : PubOpts) (n : Nat) : ∀ (rest : Bytes) (p : Proc), rest.length < n →
    (∀ p body, doPublish S o body p ≠ .fuel) → lineLoop S o n rest p ≠ .fuel := by
  induction n with
  | zero => intro rest p h; omega
  | succ n ih =>
    intro rest p h hf
    unfold lineLoop
    cases hg : fgets MAX_LINE rest with
    | none => simp [pure, M.pure]
    | some cr =>
      obtain ⟨c, r⟩ := cr
      obtain ⟨e, h1, _⟩ := fgets_some hg
      dsimp only
      rw [M.bind_def]
      have hc : 0 < c.length := by cases c with | nil => exact absurd rfl h1 | cons => simp
      cases hd : doPublish S o (cstring c) p with
      | ok a p' => exact ih r p' (by rw [e] at h; simp at h; omega) hf
      | err e s => simp
      | ub => simp
      | fuel => exact absurd hd (hf _ _)

end Rmq.ToolsM
