import Verif.Proofs.Frame
import Verif.Spec.Frames
/-! Reading in chunks. -/
namespace Rmq

theorem drain_nil (E : PEnv) (n : Nat) (s : PState) : drain E n s [] = ([], .ok () s) := by
  cases n <;> simp [drain]

theorem drain_succ {E : PEnv} {n : Nat} {s : PState} {d : Bytes} (h : d ≠ []) :
    drain E (n + 1) s d = match handleInput E s d with
      | .ok (k, f) s' => (f.toList ++ (drain E n s' (d.drop k)).1, (drain E n s' (d.drop k)).2)
      | .err e s' => ([], .err e s')
      | .ub => ([], .ub)
      | .fuel => ([], .fuel) := by
  conv => lhs; unfold drain
  rw [if_neg h]
  rfl

/-- enough calls: the bound does not matter, and the reader ends ready -/
theorem drain_fuel (E : PEnv) : ∀ (n m : Nat) (s : PState) (d : Bytes), Ready s → d.length ≤ n → d.length ≤ m →
    drain E n s d = drain E m s d ∧ (∀ s', (drain E n s d).2 = .ok () s' → Ready s') ∧ (drain E n s d).2 ≠ .fuel ∨
    ∃ fs, drain E n s d = (fs, .fuel) ∧ drain E m s d = (fs, .fuel) := by
  intro n
  induction n with
  | zero =>
    intro m s d hR hn _
    have : d = [] := List.length_eq_zero_iff.1 (by omega)
    subst this
    rw [drain_nil, drain_nil]
    exact Or.inl ⟨rfl, fun s' h => by cases h; exact hR, by simp⟩
  | succ n ih =>
    intro m s d hR hn hm
    by_cases hd : d = []
    · subst hd; rw [drain_nil, drain_nil]; exact Or.inl ⟨rfl, fun s' h => by cases h; exact hR, by simp⟩
    have hl : 1 ≤ d.length := by cases d with | nil => exact absurd rfl hd | cons _ _ => simp
    obtain ⟨m, rfl⟩ : ∃ k, m = k + 1 := ⟨m - 1, by omega⟩
    unfold drain
    rw [if_neg hd, if_neg hd]
    cases h : handleInput E s d with
    | ok p s' =>
      obtain ⟨k, f⟩ := p
      obtain ⟨hR', h1, h2⟩ := handleInput_ready hR hd h
      dsimp only
      rcases ih m s' (d.drop k) hR' (by rw [List.length_drop]; omega) (by rw [List.length_drop]; omega) with ⟨h3, h4, h5⟩ | ⟨fs, h3, h4⟩
      · left; exact ⟨by rw [h3], h4, h5⟩
      · right; exact ⟨_, by rw [h3], by rw [h4]⟩
    | err e s' => exact Or.inl ⟨rfl, by simp, by simp⟩
    | ub => exact Or.inl ⟨rfl, by simp, by simp⟩
    | fuel => exact Or.inr ⟨_, rfl, rfl⟩

theorem drain_bound (E : PEnv) {n m : Nat} {s : PState} {d : Bytes} (hR : Ready s) (hn : d.length ≤ n) (hm : d.length ≤ m) :
    drain E n s d = drain E m s d := by
  rcases drain_fuel E n m s d hR hn hm with ⟨h, _⟩ | ⟨fs, h1, h2⟩
  · exact h
  · rw [h1, h2]

theorem drain_ready {E : PEnv} {n : Nat} {s s' : PState} {d : Bytes} (hR : Ready s) (hn : d.length ≤ n)
    (h : (drain E n s d).2 = .ok () s') : Ready s' := by
  rcases drain_fuel E n n s d hR hn hn with ⟨_, h2, _⟩ | ⟨fs, h1, _⟩
  · exact h2 s' h
  · rw [h1] at h; cases h

/-- Followed by the rest of the input if the first part went well. -/
def andThen (x : List AFrame × Res PState Unit) (k : PState → List AFrame × Res PState Unit) :
    List AFrame × Res PState Unit :=
  match x with
  | (fs, .ok () s') => (fs ++ (k s').1, (k s').2)
  | (fs, .err e s') => (fs, .err e s')
  | (fs, .ub) => (fs, .ub)
  | (fs, .fuel) => (fs, .fuel)

theorem andThen_pre (fs : List AFrame) (x : List AFrame × Res PState Unit) (k : PState → List AFrame × Res PState Unit) :
    andThen (fs ++ x.1, x.2) k = (fs ++ (andThen x k).1, (andThen x k).2) := by
  obtain ⟨a, r⟩ := x
  cases r <;> simp [andThen]

/-- Reading `a` and then `b` is reading `a ++ b`. -/
theorem drain_append (E : PEnv) : ∀ (n : Nat) (s : PState) (a b : Bytes), Ready s → a.length ≤ n →
    drain E (a ++ b).length s (a ++ b) = andThen (drain E n s a) (fun s' => drain E b.length s' b) := by
  intro n
  induction n with
  | zero =>
    intro s a b hR hn
    have : a = [] := List.length_eq_zero_iff.1 (by omega)
    subst this
    simp [drain_nil, andThen]
  | succ n ih =>
    intro s a b hR hn
    by_cases ha : a = []
    · subst ha; simp [drain_nil, andThen]
    have hl : 1 ≤ a.length := by cases a with | nil => exact absurd rfl ha | cons _ _ => simp
    have hab : a ++ b ≠ [] := fun h => ha (List.append_eq_nil_iff.1 h).1
    have hlab : (a ++ b).length = a.length + b.length := List.length_append
    rw [drain_bound E hR (n := (a ++ b).length) (m := (a.length + b.length - 1) + 1) (by omega) (by omega)]
    rcases handleInput_split E hR ha with ⟨s', h1, hR', hm', h2⟩ | h2
    · -- `a` ends inside a frame
      have hrhs : drain E (n + 1) s a = ([], .ok () s') := by
        conv => lhs; unfold drain
        rw [if_neg ha, h1]
        dsimp only
        rw [List.drop_length, drain_nil]
        rfl
      rw [hrhs]
      simp only [andThen, List.nil_append]
      by_cases hb : b = []
      · subst hb
        rw [List.append_nil, drain_nil]
        conv => lhs; unfold drain
        rw [if_neg ha, h1]
        dsimp only
        rw [List.drop_length, drain_nil]
        rfl
      · conv => lhs; unfold drain
        rw [if_neg hab, h2 b hb]
        have hlb : 1 ≤ b.length := by cases b with | nil => exact absurd rfl hb | cons _ _ => simp
        rw [drain_bound E hR' (n := b.length) (m := (b.length - 1) + 1) (by omega) (by omega)]
        conv => rhs; unfold drain
        rw [if_neg hb]
        cases h3 : handleInput E s' b with
        | ok p s2 =>
          obtain ⟨k, f⟩ := p
          obtain ⟨hR2, h4, h5⟩ := handleInput_ready hR' hb h3
          simp only [addC]
          have e : (a ++ b).drop (a.length + k) = b.drop k := by
            rw [List.drop_append, List.drop_of_length_le (by omega), List.nil_append]
            congr 1; omega
          rw [e, drain_bound E hR2 (n := a.length + b.length - 1) (m := b.length - 1)]
          · rw [List.length_drop]; omega
          · rw [List.length_drop]; omega
        | err e s2 => rfl
        | ub => rfl
        | fuel => rfl
    · -- the first call is decided by `a` alone
      rw [drain_succ hab, drain_succ ha, h2 b]
      cases h3 : handleInput E s a with
      | ok p s2 =>
        obtain ⟨k, f⟩ := p
        obtain ⟨hR2, h4, h5⟩ := handleInput_ready hR ha h3
        dsimp only
        rw [List.drop_append_of_le_length h5, andThen_pre,
          ← ih s2 (a.drop k) b hR2 (by rw [List.length_drop]; omega)]
        rw [drain_bound E hR2 (n := a.length + b.length - 1) (m := (a.drop k ++ b).length)]
        · rw [List.length_append, List.length_drop]; omega
        · omega
      | err e s2 => rfl
      | ub => rfl
      | fuel => rfl

theorem readChunks_eq (E : PEnv) : ∀ (cs : List Bytes) (s : PState), Ready s →
    readChunks E s cs = drain E cs.flatten.length s cs.flatten := by
  intro cs
  induction cs with
  | nil => intro s hR; simp [readChunks, drain]
  | cons c cs ih =>
    intro s hR
    rw [List.flatten_cons, drain_append E c.length s c cs.flatten hR (Nat.le_refl _)]
    unfold readChunks
    rcases hd : drain E c.length s c with ⟨fs, r⟩
    cases r with
    | ok u s' =>
      have hR' : Ready s' := drain_ready hR (Nat.le_refl _) (by rw [hd])
      simp only [andThen, ih s' hR']
    | err e s' => rfl
    | ub => rfl
    | fuel => rfl

end Rmq
