import Verif.Proofs.Clone
import Verif.Spec.Tables
/-! # Key comparison, lookup, and merge. -/
namespace Rmq

theorem refMemcmp_spec : MemcmpSpec refMemcmp := by
  intro a b h
  induction a generalizing b with
  | nil => cases b with
    | nil => simp [refMemcmp]
    | cons => simp at h
  | cons x xs ih => cases b with
    | nil => simp at h
    | cons y ys =>
      have h' : xs.length = ys.length := by simpa using h
      obtain ⟨h1, h2⟩ := ih ys h'
      unfold refMemcmp
      by_cases hxy : x < y
      · rw [if_pos hxy]
        have hne : x ≠ y := fun h => by rw [h] at hxy; exact absurd hxy (UInt8.lt_irrefl _)
        exact ⟨by simp [hne], by simp [List.cons_lt_cons_iff, hxy]⟩
      · rw [if_neg hxy]
        by_cases hyx : y < x
        · rw [if_pos hyx]
          have hne : x ≠ y := fun h => by rw [h] at hyx; exact absurd hyx (UInt8.lt_irrefl _)
          exact ⟨by simp [hne], by simp [List.cons_lt_cons_iff, hxy, hne]⟩
        · rw [if_neg hyx]
          have he : x = y := UInt8.le_antisymm (by simpa using hyx) (by simpa using hxy)
          subst he
          exact ⟨by simp [h1], by rw [h2]; simp [List.cons_lt_cons_iff]⟩

theorem lt_take {a b : Bytes} (m : Nat) (hm : m = min a.length b.length) :
    (a.take m ≠ b.take m → (a < b ↔ a.take m < b.take m)) ∧
    (a.take m = b.take m → (a < b ↔ a.length < b.length) ∧ (a = b ↔ a.length = b.length)) := by
  induction a generalizing b m with
  | nil => subst hm; cases b <;> simp
  | cons x xs ih => cases b with
    | nil => subst hm; simp
    | cons y ys =>
      subst hm
      have hm' : min (x :: xs).length (y :: ys).length = min xs.length ys.length + 1 := by simp
      rw [hm']
      simp only [List.take_succ_cons, List.cons_lt_cons_iff, List.cons.injEq, List.length_cons]
      obtain ⟨i1, i2⟩ := ih (b := ys) _ rfl
      by_cases hxy : x = y
      · subst hxy
        simp only [true_and, UInt8.lt_irrefl, false_or]
        refine ⟨fun h => i1 (fun hc => h (by rw [hc])), fun h => ?_⟩
        obtain ⟨j1, j2⟩ := i2 h
        exact ⟨by rw [j1]; omega, by rw [j2]; omega⟩
      · simp [hxy]

theorem castInt_small {n : Nat} (h : n < 2 ^ 31) : castInt n = n := by
  have : n % 2 ^ 32 = n := Nat.mod_eq_of_lt (by omega)
  unfold castInt
  rw [this, if_pos h]; rfl

theorem bytes_lt_asymm {a b : Bytes} (h : a < b) : ¬ b < a := List.lt_asymm h
theorem bytes_lt_trichotomy (a b : Bytes) : a < b ∨ a = b ∨ b < a := by
  by_cases h1 : a < b
  · exact Or.inl h1
  · by_cases h2 : b < a
    · exact Or.inr (Or.inr h2)
    · exact Or.inr (Or.inl (List.le_antisymm (List.not_lt.1 h2) (List.not_lt.1 h1)))

theorem entryCmp_spec {memcmp : Bytes → Bytes → Int} (hM : MemcmpSpec memcmp) (p q : Entry)
    (hp : p.key.length < 2 ^ 31) (hq : q.key.length < 2 ^ 31) :
    ∃ r, entryCmp memcmp p q = some r ∧ (r < 0 ↔ p.key < q.key) ∧ (r = 0 ↔ p.key = q.key) ∧ (0 < r ↔ q.key < p.key) := by
  unfold entryCmp
  have hmin : (if q.key.length < p.key.length then q.key.length else p.key.length) =
      min p.key.length q.key.length := by split <;> omega
  simp only [hmin]
  have hlen : (p.key.take (min p.key.length q.key.length)).length =
      (q.key.take (min p.key.length q.key.length)).length := by simp
  obtain ⟨m1, m2⟩ := hM _ _ hlen
  obtain ⟨t1, t2⟩ := lt_take (a := p.key) (b := q.key) _ rfl
  have pos : ∀ r : Int, (r < 0 ↔ p.key < q.key) → (r = 0 ↔ p.key = q.key) → (0 < r ↔ q.key < p.key) := by
    intro r h1 h2
    constructor
    · intro h
      rcases bytes_lt_trichotomy p.key q.key with h' | h' | h'
      · have := h1.2 h'; omega
      · have := h2.2 h'; omega
      · exact h'
    · intro h
      have a1 : ¬ r < 0 := fun hr => bytes_lt_asymm h (h1.1 hr)
      have a2 : ¬ r = 0 := fun hr => by rw [h2.1 hr] at h; exact absurd h (List.lt_irrefl _)
      omega
  by_cases hd : memcmp (p.key.take (min p.key.length q.key.length)) (q.key.take (min p.key.length q.key.length)) = 0
  · have he := m1.1 hd
    obtain ⟨j1, j2⟩ := t2 he
    rw [if_neg (by simp [hd]), castInt_small hp, castInt_small hq, if_pos (by omega)]
    have e1 : ((p.key.length : Int) - q.key.length < 0 ↔ p.key < q.key) := by rw [j1]; omega
    have e2 : ((p.key.length : Int) - q.key.length = 0 ↔ p.key = q.key) := by rw [j2]; omega
    exact ⟨_, rfl, e1, e2, pos _ e1 e2⟩
  · have hne : p.key.take (min p.key.length q.key.length) ≠ q.key.take (min p.key.length q.key.length) :=
      fun h => hd (m1.2 h)
    rw [if_pos hd]
    have e1 := m2.trans (t1 hne).symm
    have e2 : (memcmp (p.key.take (min p.key.length q.key.length)) (q.key.take (min p.key.length q.key.length)) = 0 ↔
        p.key = q.key) := ⟨fun h => absurd h hd, fun h => absurd (by rw [h]) hne⟩
    exact ⟨_, rfl, e1, e2, pos _ e1 e2⟩

theorem bytesEqual_spec {memcmp : Bytes → Bytes → Int} (hM : MemcmpSpec memcmp) (a b : Bytes) :
    bytesEqual memcmp a b = true ↔ a = b := by
  unfold bytesEqual
  by_cases h : a.length = b.length
  · simp [h, (hM a b h).1]
  · simp [h]; intro hc; exact h (by rw [hc])

theorem getEntryByKey_some {memcmp : Bytes → Bytes → Int} (hM : MemcmpSpec memcmp) (keys : List Bytes) (key : Bytes) (i : Nat) :
    getEntryByKey memcmp keys key = some i ↔ keys[i]? = some key ∧ ∀ j < i, keys[j]? ≠ some key := by
  induction keys generalizing i with
  | nil => simp [getEntryByKey]
  | cons k ks ih =>
    unfold getEntryByKey
    by_cases h : bytesEqual memcmp k key = true
    · rw [if_pos h]
      have hk := (bytesEqual_spec hM k key).1 h
      subst hk
      cases i with
      | zero => simp
      | succ i => simp only [Option.some.injEq]; constructor
                  · intro h; omega
                  · intro h; exact absurd rfl (h.2 0 (by omega))
    · rw [if_neg h]
      have hk : k ≠ key := fun hc => h ((bytesEqual_spec hM k key).2 hc)
      cases i with
      | zero => simp [hk]
      | succ i =>
        rw [Option.map_eq_some_iff]
        constructor
        · rintro ⟨a, ha, hai⟩
          have : a = i := by omega
          subst this
          obtain ⟨h1, h2⟩ := (ih a).1 ha
          refine ⟨by simpa using h1, fun j hj => ?_⟩
          cases j with
          | zero => simp [hk]
          | succ j => simpa using h2 j (by omega)
        · rintro ⟨h1, h2⟩
          exact ⟨i, (ih i).2 ⟨by simpa using h1, fun j hj => by simpa using h2 (j + 1) (by omega)⟩, rfl⟩

theorem getEntryByKey_none {memcmp : Bytes → Bytes → Int} (hM : MemcmpSpec memcmp) (keys : List Bytes) (key : Bytes) :
    getEntryByKey memcmp keys key = none ↔ key ∉ keys := by
  induction keys with
  | nil => simp [getEntryByKey]
  | cons k ks ih =>
    unfold getEntryByKey
    by_cases h : bytesEqual memcmp k key = true
    · rw [if_pos h]
      have hk := (bytesEqual_spec hM k key).1 h
      simp [hk]
    · rw [if_neg h]
      have hk : k ≠ key := fun hc => h ((bytesEqual_spec hM k key).2 hc)
      simp [ih, Ne.symm hk]

end Rmq
