import Verif.Spec.Threads

/-! Threads sharing the TLS library: a critical section is as good as one action. -/

namespace Rmq
namespace Thr

/-- One action other than taking or giving back the mutex. -/
def act : Code → Shared → Option (Shared × Code)
  | .get v k, s => some (s, k (s.g.get v))
  | .set v x k, s => some ({ s with g := s.g.set x v }, k)
  | .check b k, s => if b then some (s, k) else none
  | .alloc ok k, s => if ok then some ({ s with heap := s.next :: s.heap, next := s.next + 1 }, k s.next) else some (s, k 0)
  | .free p k, s => if p = 0 then some (s, k) else if p ∈ s.heap then some ({ s with heap := s.heap.erase p }, k) else none
  | .use p k, s => if p ∈ s.heap then some (s, k) else none
  | _, _ => none

/-- The rest of a critical section, all at once. -/
def crit : Code → Shared → Option (Shared × Code)
  | .unlock k, s => some (s, k)
  | .get v k, s => crit (k (s.g.get v)) s
  | .set v x k, s => crit k { s with g := s.g.set x v }
  | .check b k, s => if b then crit k s else none
  | .alloc ok k, s => if ok then crit (k s.next) { s with heap := s.next :: s.heap, next := s.next + 1 } else crit (k 0) s
  | .free p k, s => if p = 0 then crit k s else if p ∈ s.heap then crit k { s with heap := s.heap.erase p } else none
  | .use p k, s => if p ∈ s.heap then crit k s else none
  | _, _ => none

/-- The BIO method is `m` and set up. -/
def Steady (m : Nat) (s : Shared) : Prop := s.g.bioInit = 1 ∧ s.g.method = m ∧ m ∈ s.heap

/-- To the end of the critical section, the BIO method stays set up and nobody writes its variables. -/
def Keeps (m : Nat) : Code → Shared → Prop
  | .unlock _, s => Steady m s
  | .get v k, s => Steady m s ∧ Keeps m (k (s.g.get v)) s
  | .set v x k, s => Steady m s ∧ v ≠ .bioInit ∧ v ≠ .method ∧ Keeps m k { s with g := s.g.set x v }
  | .check b k, s => Steady m s ∧ (b = true → Keeps m k s)
  | .alloc ok k, s => Steady m s ∧
      (if ok then Keeps m (k s.next) { s with heap := s.next :: s.heap, next := s.next + 1 } else Keeps m (k 0) s)
  | .free p k, s => Steady m s ∧
      (if p = 0 then Keeps m k s else if p ∈ s.heap then Keeps m k { s with heap := s.heap.erase p } else True)
  | .use _ k, s => Steady m s ∧ Keeps m k s
  | _, s => Steady m s

theorem Keeps.steady {m c s} (h : Keeps m c s) : Steady m s := by
  cases c <;> first | exact h | exact h.1

theorem crit_act {c s r} (h : crit c s = some r) (hu : ∀ k, c ≠ .unlock k) :
    ∃ s' c', act c s = some (s', c') ∧ crit c' s' = some r := by
  cases c with
  | done => cases h
  | lock c k => cases h
  | unlock k => exact absurd rfl (hu k)
  | get v k => exact ⟨_, _, rfl, h⟩
  | set v x k => exact ⟨_, _, rfl, h⟩
  | check b k => cases b with
    | true => exact ⟨_, _, rfl, h⟩
    | false => cases h
  | alloc ok k => cases ok with
    | true => exact ⟨_, _, rfl, h⟩
    | false => exact ⟨_, _, rfl, h⟩
  | free p k =>
    simp only [crit] at h; simp only [act]
    split at h
    · rename_i hp; exact ⟨_, _, by rw [if_pos hp], h⟩
    · rename_i hp
      split at h
      · rename_i hq; exact ⟨_, _, by rw [if_neg hp, if_pos hq], h⟩
      · cases h
  | use p k =>
    simp only [crit] at h; simp only [act]
    split at h
    · rename_i hp; exact ⟨_, _, by rw [if_pos hp], h⟩
    · cases h

theorem Keeps.act {m c s s' c'} (h : Keeps m c s) (e : act c s = some (s', c')) : Keeps m c' s' := by
  cases c with
  | done => cases e
  | lock c k => cases e
  | unlock k => cases e
  | get v k => cases e; exact h.2
  | set v x k => cases e; exact h.2.2.2
  | check b k => cases b with
    | true => cases e; exact h.2 rfl
    | false => cases e
  | alloc ok k => cases ok with
    | true => cases e; exact h.2
    | false => cases e; exact h.2
  | free p k =>
    have h2 := h.2
    simp only [Thr.act] at e
    split at e
    · rename_i hp; cases e; rw [if_pos hp] at h2; exact h2
    · rename_i hp
      rw [if_neg hp] at h2
      split at e
      · rename_i hq; cases e; rw [if_pos hq] at h2; exact h2
      · cases e
  | use p k =>
    simp only [Thr.act] at e
    split at e
    · cases e; exact h.2
    · cases e

theorem step_act {w : Procs} {i c s' c'} (hi : w.threads[i]? = some c) (e : act c w.sh = some (s', c')) :
    w.step i = some { w with sh := s', threads := w.threads.set i c' } := by
  unfold Procs.step
  rw [hi]
  cases c with
  | done => cases e
  | lock c k => cases e
  | unlock k => cases e
  | get v k => cases e; rfl
  | set v x k => cases e; rfl
  | check b k => cases b with
    | true => cases e; rfl
    | false => cases e
  | alloc ok k => cases ok with
    | true => cases e; rfl
    | false => cases e; rfl
  | free p k =>
    simp only [act] at e; simp only
    split at e
    · rename_i hp; cases e; rw [if_pos hp]
    · rename_i hp
      split at e
      · rename_i hq; cases e; rw [if_neg hp, if_pos hq]
      · cases e
  | use p k =>
    simp only [act] at e; simp only
    split at e
    · rename_i hp; cases e; rw [if_pos hp]
    · cases e

/-- The shared state between critical sections, when `n` sockets are counted. -/
structure GInv (s : Shared) (n : Nat) : Prop where
  conns : s.g.conns = n
  up : 0 < n → s.g.init = 1 ∧ s.g.bioInit = 1 ∧ s.g.method ∈ s.heap
  down : n = 0 → s.g.init = 0 ∧ s.g.bioInit = 0 ∧ s.g.method = 0
  eng : s.g.engine = 0 ∨ (s.g.engine ∈ s.heap ∧ s.g.engine ≠ s.g.method)
  fresh : ∀ p, p ∈ s.heap → 0 < p ∧ p < s.next
  next : 0 < s.next
  nodup : s.heap.Nodup
  owned : ∀ p, p ∈ s.heap → p = s.g.method ∨ p = s.g.engine

theorem gInv0 : GInv shared0 0 where
  conns := rfl
  up := by omega
  down := fun _ => ⟨rfl, rfl, rfl⟩
  eng := .inl rfl
  fresh := by intro p h; cases h
  next := Nat.lt_succ_self 0
  nodup := List.nodup_nil
  owned := by intro p h; cases h

theorem inc_crit {s n} (h : GInv s n) (a : Bool) (k : Bool → Code) :
    ∃ s', crit (incBody a true k) s = some (s', k true) ∧ GInv s' (n + 1) ∧
      (0 < n → s'.g.method = s.g.method ∧ Keeps s.g.method (incBody a true k) s) := by
  obtain ⟨⟨gi, gc, gb, gm, ge⟩, hp, nx⟩ := s
  obtain ⟨h1, h2, h3, h4, h5, h6, h7, h8⟩ := h
  dsimp only at *
  subst h1
  by_cases hn : gc = 0
  · obtain ⟨rfl, rfl, rfl⟩ := h3 hn
    subst hn
    have hnx : nx ≠ 0 := by omega
    refine ⟨⟨⟨1, 1, 1, nx, ge⟩, nx :: hp, nx + 1⟩, ?_, ?_, fun hh => absurd hh (Nat.lt_irrefl 0)⟩
    · cases a <;> simp [incBody, bioInitC, assertC, incTail, crit, GVals.get, GVals.set, hnx]
    · refine ⟨rfl, fun _ => ⟨rfl, rfl, List.mem_cons_self ..⟩, fun hh => by omega, ?_, ?_, Nat.succ_pos _, ?_, ?_⟩
      · rcases h4 with h4 | ⟨h4, _⟩
        · exact .inl h4
        · exact .inr ⟨List.mem_cons_of_mem _ h4, fun e => by have := h5 _ h4; dsimp only at e; omega⟩
      · intro p hq
        rcases List.mem_cons.1 hq with rfl | hq
        · dsimp only; omega
        · have := h5 p hq; dsimp only; omega
      · exact List.nodup_cons.2 ⟨fun hq => by have := h5 _ hq; omega, h7⟩
      · intro p hq
        rcases List.mem_cons.1 hq with rfl | hq
        · exact .inl rfl
        · rcases h8 p hq with e | e
          · exact absurd (h5 p hq).1 (by omega)
          · exact .inr e
  · obtain ⟨rfl, rfl, hm⟩ := h2 (by omega)
    refine ⟨⟨⟨1, gc + 1, 1, gm, ge⟩, hp, nx⟩, ?_, ?_, fun _ => ⟨rfl, ?_⟩⟩
    · simp [incBody, incTail, crit, GVals.get, GVals.set]
    · exact ⟨rfl, fun _ => ⟨rfl, rfl, hm⟩, fun hh => by omega, h4, h5, h6, h7, h8⟩
    · simp [incBody, incTail, Keeps, GVals.get, GVals.set, Steady, hm]

theorem dec_crit {s n} (h : GInv s (n + 1)) (a : Bool) (k : Code) :
    ∃ s', crit (decBody a k) s = some (s', k) ∧ GInv s' n ∧
      (0 < n → s'.g.method = s.g.method ∧ Keeps s.g.method (decBody a k) s) := by
  obtain ⟨⟨gi, gc, gb, gm, ge⟩, hp, nx⟩ := s
  obtain ⟨h1, h2, h3, h4, h5, h6, h7, h8⟩ := h
  dsimp only at *
  subst h1
  obtain ⟨rfl, rfl, hm⟩ := h2 (by omega)
  by_cases hn : n = 0
  · subst hn
    have hm0 : gm ≠ 0 := by have := h5 _ hm; omega
    refine ⟨⟨⟨0, 0, 0, 0, ge⟩, hp.erase gm, nx⟩, ?_, ?_, fun hh => absurd hh (Nat.lt_irrefl 0)⟩
    · cases a <;> simp [decBody, decTail, bioDestroyC, assertC, crit, GVals.get, GVals.set, hm0, hm]
    · refine ⟨rfl, fun hh => absurd hh (Nat.lt_irrefl 0), fun _ => ⟨rfl, rfl, rfl⟩, ?_, ?_, h6, h7.erase _, ?_⟩
      · rcases h4 with h4 | ⟨h4, h4'⟩
        · exact .inl h4
        · exact .inr ⟨(List.mem_erase_of_ne h4').2 h4, by have := h5 _ h4; dsimp only; omega⟩
      · intro p hq; exact h5 p (List.mem_of_mem_erase hq)
      · intro p hq
        have := h7.mem_erase_iff.1 hq
        rcases h8 p this.2 with e | e
        · exact absurd e this.1
        · exact .inr e
  · refine ⟨⟨⟨1, n, 1, gm, ge⟩, hp, nx⟩, ?_, ?_, fun _ => ⟨rfl, ?_⟩⟩
    · simp [decBody, decTail, crit, GVals.get, GVals.set, hn]
    · exact ⟨rfl, fun _ => ⟨rfl, rfl, hm⟩, fun hh => absurd hh hn, h4, h5, h6, h7, h8⟩
    · simp [decBody, decTail, Keeps, GVals.get, GVals.set, Steady, hm, hn]

/-- The shared state, with the engine `e` on the heap or 0. -/
theorem engineTail_crit {s n} (h : GInv s n) (he : s.g.engine = 0) (a : Option (Bool × Bool)) (k : Code) :
    ∃ s', crit (engineTail a k) s = some (s', k) ∧ GInv s' n ∧
      (0 < n → s'.g.method = s.g.method ∧ Keeps s.g.method (engineTail a k) s) := by
  obtain ⟨⟨gi, gc, gb, gm, ge⟩, hp, nx⟩ := s
  have h0 := h
  obtain ⟨h1, h2, h3, h4, h5, h6, h7, h8⟩ := h
  dsimp only at *
  subst h1; subst he
  have st : 0 < gc → Steady gm ⟨⟨gi, gc, gb, gm, 0⟩, hp, nx⟩ := fun hh => ⟨(h2 hh).2.1, rfl, (h2 hh).2.2⟩
  have stt : 0 < gc → gb = 1 ∧ gm ∈ hp := fun hh => ⟨(h2 hh).2.1, (h2 hh).2.2⟩
  have hnx : nx ≠ 0 := by omega
  have hgm : 0 < gc → gm ≠ nx := fun hh e => by have := h5 _ (h2 hh).2.2; omega
  cases a with
  | none => exact ⟨_, rfl, h0, fun hh => ⟨rfl, st hh⟩⟩
  | some fu =>
    obtain ⟨f, u⟩ := fu
    cases f with
    | false =>
      refine ⟨⟨⟨gi, gc, gb, gm, 0⟩, hp, nx⟩, ?_, h0, fun hh => ⟨rfl, ?_⟩⟩
      · simp [engineTail, crit, GVals.get, GVals.set]
      · simp [engineTail, Keeps, GVals.get, GVals.set, Steady, stt hh]
    | true =>
      cases u with
      | false =>
        refine ⟨⟨⟨gi, gc, gb, gm, 0⟩, hp, nx + 1⟩, ?_, ?_, fun hh => ⟨rfl, ?_⟩⟩
        · simp [engineTail, crit, GVals.get, GVals.set, hnx]
        · exact ⟨rfl, h2, h3, .inl rfl, fun p hq => ⟨(h5 p hq).1, by have := h5 p hq; dsimp only; omega⟩, Nat.succ_pos _, h7, h8⟩
        · simp [engineTail, Keeps, GVals.get, GVals.set, Steady, stt hh, hnx]
      | true =>
        refine ⟨⟨⟨gi, gc, gb, gm, nx⟩, nx :: hp, nx + 1⟩, ?_, ?_, fun hh => ⟨rfl, ?_⟩⟩
        · simp [engineTail, crit, GVals.get, GVals.set, hnx]
        · refine ⟨rfl, fun hh => ⟨(h2 hh).1, (h2 hh).2.1, List.mem_cons_of_mem _ (h2 hh).2.2⟩, h3,
            .inr ⟨List.mem_cons_self .., ?_⟩, ?_, Nat.succ_pos _, ?_, ?_⟩
          · by_cases hh : 0 < gc
            · exact fun e => hgm hh e.symm
            · have := (h3 (by omega)).2.2
              dsimp only; omega
          · intro p hq
            rcases List.mem_cons.1 hq with rfl | hq
            · dsimp only; omega
            · have := h5 p hq; dsimp only; omega
          · exact List.nodup_cons.2 ⟨fun hq => by have := h5 _ hq; omega, h7⟩
          · intro p hq
            rcases List.mem_cons.1 hq with rfl | hq
            · exact .inr rfl
            · rcases h8 p hq with e | e
              · exact .inl e
              · exact absurd (h5 p hq).1 (by omega)
        · simp [engineTail, Keeps, GVals.get, GVals.set, Steady, stt hh, hnx]

theorem engine_crit {s n} (h : GInv s n) (a : Option (Bool × Bool)) (k : Code) :
    ∃ s', crit (engineBody a k) s = some (s', k) ∧ GInv s' n ∧
      (0 < n → s'.g.method = s.g.method ∧ Keeps s.g.method (engineBody a k) s) := by
  by_cases he : s.g.engine = 0
  · obtain ⟨s', e, hi, hk⟩ := engineTail_crit h he a k
    refine ⟨s', ?_, hi, fun hh => ⟨(hk hh).1, ?_⟩⟩
    · simp only [engineBody, crit, GVals.get, he]; simpa using e
    · simp only [engineBody, Keeps, GVals.get, he]
      exact ⟨(hk hh).2.steady, by simpa using (hk hh).2⟩
  · have hm := h.eng.resolve_left he
    have h' : GInv { s with g := s.g.set 0 .engine, heap := s.heap.erase s.g.engine } n := by
      refine ⟨h.conns, fun hh => ⟨(h.up hh).1, (h.up hh).2.1, (List.mem_erase_of_ne hm.2.symm).2 (h.up hh).2.2⟩, h.down, .inl rfl,
        fun p hq => h.fresh p (List.mem_of_mem_erase hq), h.next, h.nodup.erase _, ?_⟩
      intro p hq
      have := h.nodup.mem_erase_iff.1 hq
      rcases h.owned p this.2 with e | e
      · exact .inl e
      · exact absurd e this.1
    obtain ⟨s', e, hi, hk⟩ := engineTail_crit h' rfl a k
    refine ⟨s', ?_, hi, fun hh => ⟨(hk hh).1, ?_⟩⟩
    · show crit (if s.g.engine = 0 then engineTail a k else .free s.g.engine (.set .engine 0 (engineTail a k))) s = _
      rw [if_neg he]
      simp only [crit]
      rw [if_neg he, if_pos hm.1]; exact e
    · have st : Steady s.g.method s := ⟨(h.up hh).2.1, rfl, (h.up hh).2.2⟩
      show Steady _ s ∧ Keeps s.g.method (if s.g.engine = 0 then engineTail a k else .free s.g.engine (.set .engine 0 (engineTail a k))) s
      rw [if_neg he]
      simp only [Keeps]
      refine ⟨st, st, ?_⟩
      rw [if_neg he, if_pos hm.1]
      exact ⟨⟨st.1, rfl, (List.mem_erase_of_ne hm.2.symm).2 st.2.2⟩, nofun, nofun, (hk hh).2⟩

/-- What is left for a thread that is not in a critical section: it has `n` sockets counted, will be left with `fin`, and has read the BIO
method `m`. -/
inductive Pos (a : Bool) : Nat → Nat → Nat → Code → Prop where
  | done {m n} : Pos a m n n .done
  | inc {m n fin} (k : Bool → Code) : (∀ m', (0 < n → m' = m) → Pos a m' (n + 1) fin (k true)) → Pos a m n fin (incC a true k)
  | dec {m n fin} (k : Code) : Pos a m n fin k → Pos a m (n + 1) fin (decC a k)
  | eng {m n fin} (x : Option (Bool × Bool)) (k : Code) : Pos a m n fin k → Pos a m n fin (engineC x k)
  | check {m n fin} (k : Code) : 0 < n → Pos a m n fin k → Pos a m n fin (.check true k)
  | getB {m n fin} (k : Nat → Code) : 0 < n → Pos a m n fin (k 1) → Pos a m n fin (.get .bioInit k)
  | getM {m n fin} (k : Nat → Code) : 0 < n → Pos a m n fin (k m) → Pos a m n fin (.get .method k)
  | use {m n fin} (k : Code) : 0 < n → Pos a m n fin k → Pos a m n fin (.use m k)

theorem Pos.weaken {a m n fin c} (h : Pos a m n fin c) (m' : Nat) (hn : 0 < n → m' = m) : Pos a m' n fin c := by
  by_cases h0 : 0 < n
  · rw [hn h0]; exact h
  · induction h with
    | done => exact .done
    | inc k h' _ => exact .inc k fun m'' e => h' m'' fun hh => absurd hh h0
    | dec k h' _ => exact absurd (Nat.succ_pos _) h0
    | eng x k h' ih => exact .eng x k (ih hn h0)
    | check k hh => exact absurd hh h0
    | getB k hh => exact absurd hh h0
    | getM k hh => exact absurd hh h0
    | use k hh => exact absurd hh h0

theorem pos_threadCode (a : Bool) (cs : List TlsCmd) : ∀ (sl : List Nat) (m : Nat), SetUpsWork cs → (∀ x, x ∈ sl → x = 0 ∨ x = m) →
    Pos a m sl.length (socketsLeft cs sl.length) (threadCode a cs sl) := by
  induction cs with
  | nil => intro sl m _ _; exact .done
  | cons c cs ih =>
    intro sl m hs hm
    cases c with
    | create x =>
      have hs : x.bio = true ∧ SetUpsWork cs := hs
      simp only [threadCode, socketsLeft]
      by_cases h1 : x.calloc = false
      · rw [if_pos h1, if_neg (by simp [h1])]; exact ih sl m hs.2 hm
      · rw [if_neg h1, hs.1]
        refine .inc _ fun m' hm' => ?_
        by_cases h2 : x.ctx = false ∨ x.versions = false
        · have h3 : ¬ (x.calloc = true ∧ x.ctx = true ∧ x.versions = true) := by
            rintro ⟨_, e1, e2⟩; rw [e1, e2] at h2; rcases h2 with h2 | h2 <;> cases h2
          simp only [h2, or_true, if_true]
          rw [if_neg h3]
          refine .dec _ (ih sl m' hs.2 fun y hy => ?_)
          rcases hm y hy with e | e
          · exact .inl e
          · exact .inr (e.trans (hm' (List.length_pos_of_mem hy)).symm)
        · have h3 : x.calloc = true ∧ x.ctx = true ∧ x.versions = true := by
            refine ⟨by cases h : x.calloc <;> simp_all, by cases h : x.ctx <;> simp_all, by cases h : x.versions <;> simp_all⟩
          have h4 : ¬ (true = false ∨ x.ctx = false ∨ x.versions = false) := by
            rintro (h | h)
            · cases h
            · exact h2 h
          simp only [h4, if_false]
          rw [if_pos h3]
          have := ih (sl ++ [0]) m' hs.2 fun y hy => by
            rcases List.mem_append.1 hy with hy | hy
            · rcases hm y hy with e | e
              · exact .inl e
              · exact .inr (e.trans (hm' (List.length_pos_of_mem hy)).symm)
            · exact .inl (List.mem_singleton.1 hy)
          rw [List.length_append] at this
          exact this
    | connect i ok =>
      simp only [threadCode, socketsLeft]
      by_cases h1 : sl[i]? = some 0
      · rw [if_pos h1]
        have hl : 0 < sl.length := by
          have := (List.getElem?_eq_some_iff.1 h1).1; omega
        have hk : Pos a m sl.length (socketsLeft cs sl.length)
            (.use m (if ok then threadCode a cs (sl.set i m) else .use m (threadCode a cs sl))) := by
          refine .use _ hl ?_
          cases ok with
          | true =>
            have := ih (sl.set i m) m hs fun y hy => by
              rcases List.mem_or_eq_of_mem_set hy with hy | hy
              · exact hm y hy
              · exact .inr hy
            rw [List.length_set] at this
            exact this
          | false => exact .use _ hl (ih sl m hs hm)
        cases a with
        | true => exact .getB _ hl (.check _ hl (.getM _ hl hk))
        | false => exact .getM _ hl hk
      · rw [if_neg h1]; exact ih sl m hs hm
    | io i =>
      simp only [threadCode, socketsLeft]
      by_cases h1 : sl.getD i 0 = 0
      · rw [if_neg (by simpa using h1)]; exact ih sl m hs hm
      · rw [if_pos h1]
        rw [List.getD_eq_getElem?_getD] at h1 ⊢
        cases h2 : sl[i]? with
        | none => rw [h2] at h1; exact absurd rfl h1
        | some x =>
          rw [h2] at h1
          have hx := List.mem_of_getElem? h2
          have e := (hm x hx).resolve_left h1
          subst e
          exact .use _ (List.length_pos_of_mem hx) (ih sl x hs hm)
    | delete i =>
      simp only [threadCode, socketsLeft]
      by_cases h0 : i < sl.length
      · rw [if_pos h0, if_pos h0]
        have hlen : sl.length = (sl.eraseIdx i).length + 1 := by rw [List.length_eraseIdx]; simp [h0]; omega
        have hd : Pos a m sl.length (socketsLeft cs (sl.length - 1)) (decC a (threadCode a cs (sl.eraseIdx i))) := by
          have := Pos.dec _ (ih (sl.eraseIdx i) m hs fun y hy => hm y (List.mem_of_mem_eraseIdx hy))
          rw [← hlen] at this
          have e : sl.length - 1 = (sl.eraseIdx i).length := by omega
          rw [e]; exact this
        by_cases h1 : sl.getD i 0 = 0
        · rw [if_neg (by simpa using h1)]; exact hd
        · rw [if_pos h1]
          rw [List.getD_eq_getElem?_getD] at h1 ⊢
          have h2 : sl[i]? = some sl[i] := List.getElem?_eq_getElem h0
          rw [h2] at h1 ⊢
          have hx := List.mem_of_getElem? h2
          have e := (hm _ hx).resolve_left h1
          show Pos a m _ _ (.use sl[i] _)
          rw [e]
          exact .use _ (by omega) hd
      · rw [if_neg h0, if_neg h0]; exact ih sl m hs hm
    | engine x => exact .eng _ _ (ih sl m hs hm)

/-- The sum of the first `n` values. -/
def total (f : Nat → Nat) : Nat → Nat
  | 0 => 0
  | n + 1 => total f n + f n

/-- `f` changed at one place. -/
def upd (f : Nat → Nat) (i x : Nat) : Nat → Nat := fun j => if j = i then x else f j

theorem upd_self (f : Nat → Nat) (i x : Nat) : upd f i x i = x := if_pos rfl
theorem upd_ne (f : Nat → Nat) {i j : Nat} (x : Nat) (h : j ≠ i) : upd f i x j = f j := if_neg h

theorem total_upd_ge (f : Nat → Nat) (i x : Nat) : ∀ n, n ≤ i → total (upd f i x) n = total f n
  | 0, _ => rfl
  | n + 1, h => by
    simp only [total]
    rw [total_upd_ge f i x n (by omega), upd_ne f x (by omega)]

theorem total_upd (f : Nat → Nat) (i x : Nat) : ∀ n, i < n → total (upd f i x) n + f i = total f n + x
  | 0, h => by omega
  | n + 1, h => by
    simp only [total]
    by_cases e : i = n
    · subst e
      rw [total_upd_ge f i x i (Nat.le_refl _), upd_self]; omega
    · have := total_upd f i x n (by omega)
      rw [upd_ne f x (fun hh => e hh.symm)]; omega

theorem le_total (f : Nat → Nat) (i : Nat) : ∀ n, i < n → f i ≤ total f n
  | 0, h => by omega
  | n + 1, h => by
    simp only [total]
    by_cases e : i = n
    · subst e; omega
    · have := le_total f i n (by omega); omega

theorem le_total2 (f : Nat → Nat) (i j : Nat) (hij : i ≠ j) : ∀ n, i < n → j < n → f i + f j ≤ total f n
  | 0, h, _ => by omega
  | n + 1, h, h' => by
    simp only [total]
    by_cases e : i = n
    · subst e; have := le_total f j i (by omega); omega
    · by_cases e' : j = n
      · subst e'; have := le_total f i j (by omega); omega
      · have := le_total2 f i j hij n (by omega) (by omega); omega

theorem total_pos (f : Nat → Nat) : ∀ n, 0 < total f n → ∃ i, i < n ∧ 0 < f i
  | 0, h => absurd h (Nat.lt_irrefl 0)
  | n + 1, h => by
    simp only [total] at h
    by_cases e : 0 < f n
    · exact ⟨n, Nat.lt_succ_self n, e⟩
    · obtain ⟨i, hi, h'⟩ := total_pos f n (by omega)
      exact ⟨i, by omega, h'⟩

theorem Pos.cases {a m n fin c} (h : Pos a m n fin c) :
    (c = .done ∧ n = fin) ∨
    (∃ l k, c = .lock l k ∧ ∀ S T, GInv S T → n ≤ T → S.g.method = m →
      ∃ S' k' n', crit k S = some (S', k') ∧ GInv S' (T - n + n') ∧ Pos a S'.g.method n' fin k' ∧
        (0 < T - n → S'.g.method = S.g.method ∧ Keeps S.g.method k S)) ∨
    (0 < n ∧ (∀ v b, c.access = some (v, b) → b = false ∧ (v = .bioInit ∨ v = .method)) ∧
      ∀ s, Steady m s → ∃ c', act c s = some (s, c') ∧ Pos a m n fin c') := by
  cases h with
  | done => exact .inl ⟨rfl, rfl⟩
  | inc k h' =>
    refine .inr (.inl ⟨_, _, rfl, fun S T hg hn hm => ?_⟩)
    obtain ⟨S', e, hi, hk⟩ := inc_crit hg a k
    refine ⟨S', k true, n + 1, e, ?_, ?_, fun hh => hk (by omega)⟩
    · have : T - n + (n + 1) = T + 1 := by omega
      rw [this]; exact hi
    · exact h' _ fun hh => by rw [(hk (by omega)).1, hm]
  | @dec _ n0 _ k h' =>
    refine .inr (.inl ⟨_, _, rfl, fun S T hg hn hm => ?_⟩)
    obtain ⟨T, rfl⟩ : ∃ T', T = T' + 1 := ⟨T - 1, by omega⟩
    obtain ⟨S', e, hi, hk⟩ := dec_crit hg a k
    refine ⟨S', k, n0, e, ?_, ?_, fun hh => hk (by omega)⟩
    · have : T + 1 - (n0 + 1) + n0 = T := by omega
      rw [this]; exact hi
    · exact h'.weaken _ fun hh => by rw [(hk (by omega)).1, hm]
  | eng x k h' =>
    refine .inr (.inl ⟨_, _, rfl, fun S T hg hn hm => ?_⟩)
    obtain ⟨S', e, hi, hk⟩ := engine_crit hg x k
    refine ⟨S', k, n, e, ?_, ?_, fun hh => hk (by omega)⟩
    · have : T - n + n = T := by omega
      rw [this]; exact hi
    · exact h'.weaken _ fun hh => by rw [(hk (by omega)).1, hm]
  | check k h0 h' => exact .inr (.inr ⟨h0, nofun, fun s hs => ⟨_, rfl, h'⟩⟩)
  | getB k h0 h' =>
    refine .inr (.inr ⟨h0, fun v b e => by cases e; exact ⟨rfl, .inl rfl⟩, fun s hs => ⟨_, rfl, ?_⟩⟩)
    show Pos a m n fin (k s.g.bioInit)
    rw [hs.1]; exact h'
  | getM k h0 h' =>
    refine .inr (.inr ⟨h0, fun v b e => by cases e; exact ⟨rfl, .inr rfl⟩, fun s hs => ⟨_, rfl, ?_⟩⟩)
    show Pos a m n fin (k s.g.method)
    rw [hs.2.1]; exact h'
  | use k h0 h' => exact .inr (.inr ⟨h0, nofun, fun s hs => ⟨_, if_pos hs.2.2, h'⟩⟩)

/-- The invariant: `S` is what is shared once the critical section in progress is over. -/
structure Inv (a : Bool) (fin : Nat → Nat) (w : Procs) (ns : Nat → Nat) (S : Shared) : Prop where
  ginv : GInv S (total ns w.threads.length)
  out : ∀ (i : Nat) (c : Code), w.threads[i]? = some c → w.owner ≠ some i → Pos a S.g.method (ns i) (fin i) c
  free : w.owner = none → w.sh = S
  inside : ∀ (j : Nat), w.owner = some j → ∃ c k, w.threads[j]? = some c ∧ crit c w.sh = some (S, k) ∧
    Pos a S.g.method (ns j) (fin j) k ∧ ((∃ i, i ≠ j ∧ i < w.threads.length ∧ 0 < ns i) → Keeps S.g.method c w.sh)

theorem Inv.steady {a fin w ns S} (h : Inv a fin w ns S) {i c} (hi : w.threads[i]? = some c) (ho : w.owner ≠ some i) (h0 : 0 < ns i) :
    Steady S.g.method w.sh := by
  have hl := (List.getElem?_eq_some_iff.1 hi).1
  cases ho' : w.owner with
  | none =>
    rw [h.free ho']
    have := le_total ns i _ hl
    have := h.ginv.up (by omega)
    exact ⟨this.2.1, rfl, this.2.2⟩
  | some j =>
    obtain ⟨c', k, _, _, _, hk⟩ := h.inside j ho'
    exact (hk ⟨i, fun e => ho (by rw [ho', e]), hl, h0⟩).steady

theorem getElem?_set_ne' {α : Type} {l : List α} {i j : Nat} (x : α) (h : j ≠ i) : (l.set i x)[j]? = l[j]? :=
  List.getElem?_set_ne (fun e => h e.symm)

theorem getElem?_set_self' {α : Type} {l : List α} {i : Nat} {c : α} (x : α) (h : l[i]? = some c) : (l.set i x)[i]? = some x := by
  have := (List.getElem?_eq_some_iff.1 h).1
  rw [List.getElem?_set_self this]

/-- One action of any thread. -/
theorem Inv.step {a fin w ns S} (h : Inv a fin w ns S) (i : Nat) :
    ∃ w' ns' S', w.step i = some w' ∧ w'.threads.length = w.threads.length ∧ Inv a fin w' ns' S' := by
  cases hi : w.threads[i]? with
  | none => exact ⟨w, ns, S, by unfold Procs.step; rw [hi], rfl, h⟩
  | some c =>
    have hl := (List.getElem?_eq_some_iff.1 hi).1
    by_cases ho : w.owner = some i
    · -- inside the critical section
      obtain ⟨c', k, e, hc, hp, hk⟩ := h.inside i ho
      rw [hi] at e; cases e
      by_cases hu : ∃ k', c = .unlock k'
      · obtain ⟨k', rfl⟩ := hu
        cases hc
        refine ⟨{ w with owner := none, threads := w.threads.set i k }, ns, w.sh, ?_, List.length_set, ?_⟩
        · unfold Procs.step; rw [hi]; exact if_pos ho
        · refine ⟨by show GInv _ (total ns (w.threads.set i k).length); rw [List.length_set]; exact h.ginv, fun j c hj _ => ?_, fun _ => rfl, nofun⟩
          by_cases e : j = i
          · subst e
            have hj : (w.threads.set j k)[j]? = some c := hj
            rw [getElem?_set_self' k hi] at hj; cases hj; exact hp
          · have hj : (w.threads.set i k)[j]? = some c := hj
            rw [getElem?_set_ne' k e] at hj
            exact h.out j c hj (by rw [ho]; intro e'; cases e'; exact e rfl)
      · obtain ⟨s', c', e, e'⟩ := crit_act hc fun k' hh => hu ⟨k', hh⟩
        refine ⟨_, ns, S, step_act hi e, List.length_set, ?_⟩
        refine ⟨by show GInv _ (total ns (w.threads.set i c').length); rw [List.length_set]; exact h.ginv, fun j c2 hj hj' => ?_, ?_, ?_⟩
        · have hji : j ≠ i := fun e => hj' (by rw [e]; exact ho)
          have hj : (w.threads.set i c')[j]? = some c2 := hj
          rw [getElem?_set_ne' c' hji] at hj
          exact h.out j c2 hj hj'
        · intro hn
          have hn : w.owner = none := hn
          rw [ho] at hn; cases hn
        · intro j hj
          have hj : w.owner = some j := hj
          rw [ho] at hj; cases hj
          refine ⟨c', k, getElem?_set_self' c' hi, e', hp, fun hh => ?_⟩
          have hh : ∃ i', i' ≠ i ∧ i' < (w.threads.set i c').length ∧ 0 < ns i' := hh
          rw [List.length_set] at hh
          exact (hk hh).act e
    · have hp := h.out i c hi ho
      rcases hp.cases with ⟨rfl, hf⟩ | ⟨l, k, rfl, hlk⟩ | ⟨h0, _, hact⟩
      · exact ⟨w, ns, S, by unfold Procs.step; rw [hi], rfl, h⟩
      · cases hn : w.owner with
        | some j => exact ⟨w, ns, S, by unfold Procs.step; rw [hi]; exact if_neg (by rw [hn]; nofun), rfl, h⟩
        | none =>
          obtain ⟨S', k', n', hc, hg, hp', hk⟩ := hlk S _ h.ginv (le_total ns i _ hl) rfl
          refine ⟨{ w with owner := some i, threads := w.threads.set i k, calls := w.calls ++ [(i, l)] }, upd ns i n', S', ?_,
            List.length_set, ?_⟩
          · unfold Procs.step; rw [hi]; exact if_pos hn
          · refine ⟨?_, fun j c2 hj hj' => ?_, nofun, fun j hj => ?_⟩
            · show GInv _ (total _ (w.threads.set i k).length)
              rw [List.length_set]
              have e1 := total_upd ns i n' _ hl
              have e2 := le_total ns i _ hl
              have e : total (upd ns i n') w.threads.length = total ns w.threads.length - ns i + n' := by omega
              rw [e]; exact hg
            · have hji : j ≠ i := fun e => hj' (by rw [e])
              have hj : (w.threads.set i k)[j]? = some c2 := hj
              rw [getElem?_set_ne' k hji] at hj
              rw [upd_ne ns n' hji]
              refine (h.out j c2 hj (by rw [hn]; nofun)).weaken _ fun hh => (hk ?_).1
              have := le_total2 ns j i hji _ (List.getElem?_eq_some_iff.1 hj).1 hl
              omega
            · cases hj
              refine ⟨k, k', getElem?_set_self' k hi, by rw [h.free hn]; exact hc, by rw [upd_self]; exact hp', ?_⟩
              rintro ⟨j, hji, hj, h0⟩
              have hj : j < (w.threads.set i k).length := hj
              rw [List.length_set] at hj
              rw [upd_ne ns n' hji] at h0
              have := le_total2 ns j i hji _ hj hl
              have hk := hk (by omega)
              rw [hk.1]
              show Keeps _ k w.sh
              rw [h.free hn]; exact hk.2
      · obtain ⟨c', e, hp'⟩ := hact _ (h.steady hi ho h0)
        refine ⟨_, ns, S, step_act hi e, List.length_set, ?_⟩
        refine ⟨by show GInv _ (total ns (w.threads.set i c').length); rw [List.length_set]; exact h.ginv, fun j c2 hj hj' => ?_, h.free, fun j hj => ?_⟩
        · have hj : (w.threads.set i c')[j]? = some c2 := hj
          by_cases e : j = i
          · subst e
            rw [getElem?_set_self' c' hi] at hj; cases hj; exact hp'
          · rw [getElem?_set_ne' c' e] at hj
            exact h.out j c2 hj hj'
        · have hj : w.owner = some j := hj
          have hji : j ≠ i := fun e => ho (by rw [hj, e])
          obtain ⟨c2, k, e2, r⟩ := h.inside j hj
          refine ⟨c2, k, (getElem?_set_ne' c' hji).trans e2, r.1, r.2.1, fun hh => r.2.2 ?_⟩
          have hh : ∃ i', i' ≠ j ∧ i' < (w.threads.set i c').length ∧ 0 < ns i' := hh
          rw [List.length_set] at hh; exact hh

theorem Inv.run {a fin} : ∀ (sched : List Nat) {w ns S}, Inv a fin w ns S →
    ∃ w' ns' S', Procs.run sched w = some w' ∧ w'.threads.length = w.threads.length ∧ Inv a fin w' ns' S'
  | [], w, ns, S, h => ⟨w, ns, S, rfl, rfl, h⟩
  | i :: rest, w, ns, S, h => by
    obtain ⟨w1, ns1, S1, e, hl, h1⟩ := h.step i
    obtain ⟨w2, ns2, S2, e2, hl2, h2⟩ := Inv.run rest h1
    exact ⟨w2, ns2, S2, by simp only [Procs.run, e]; exact e2, hl2.trans hl, h2⟩

theorem total_zero : ∀ n, total (fun _ => 0) n = 0
  | 0 => rfl
  | n + 1 => by simp only [total]; rw [total_zero n]

theorem inv0 (a : Bool) (progs : List (List TlsCmd)) (hs : ∀ p, p ∈ progs → SetUpsWork p) :
    Inv a (fun i => socketsLeft (progs.getD i []) 0) (procs0 a progs) (fun _ => 0) shared0 where
  ginv := by rw [total_zero]; exact gInv0
  out := by
    intro i c hi _
    have hi : (progs.map fun p => threadCode a p [])[i]? = some c := hi
    rw [List.getElem?_map] at hi
    cases hp : progs[i]? with
    | none => rw [hp] at hi; cases hi
    | some p =>
      rw [hp] at hi; cases hi
      have : progs.getD i [] = p := by rw [List.getD_eq_getElem?_getD, hp]; rfl
      show Pos a _ 0 (socketsLeft (progs.getD i []) 0) _
      rw [this]
      exact pos_threadCode a p [] _ (hs p (List.mem_of_getElem? hp)) nofun
  free := fun _ => rfl
  inside := nofun

theorem Inv.noRace {a fin w ns S} (h : Inv a fin w ns S) : ¬ w.Race := by
  -- what a thread outside may access
  have out : ∀ i c v b, w.threads[i]? = some c → w.owner ≠ some i → c.access = some (v, b) →
      0 < ns i ∧ b = false ∧ (v = .bioInit ∨ v = .method) := by
    intro i c v b hi ho hc
    rcases (h.out i c hi ho).cases with ⟨rfl, _⟩ | ⟨l, k, rfl, _⟩ | ⟨h0, ha, _⟩
    · cases hc
    · cases hc
    · exact ⟨h0, ha v b hc⟩
  -- a thread inside and one outside
  have one : ∀ i j c c' v b b', i ≠ j → w.owner = some i → w.threads[i]? = some c → w.threads[j]? = some c' →
      c.access = some (v, b) → c'.access = some (v, b') → b = false ∧ b' = false := by
    intro i j c c' v b b' hij ho hi hj hc hc'
    obtain ⟨h0, hb', hv⟩ := out j c' v b' hj (by rw [ho]; intro e; cases e; exact hij rfl) hc'
    obtain ⟨c2, k, e, _, _, hk⟩ := h.inside i ho
    rw [hi] at e; cases e
    have hk := hk ⟨j, fun e => hij e.symm, (List.getElem?_eq_some_iff.1 hj).1, h0⟩
    refine ⟨?_, hb'⟩
    cases c with
    | get v' k' => cases hc; rfl
    | set v' x k' =>
      cases hc
      rcases hv with rfl | rfl
      · exact absurd rfl hk.2.1
      · exact absurd rfl hk.2.2.1
    | _ => cases hc
  rintro ⟨i, j, c, c', v, b, b', hij, hi, hj, hc, hc', hb⟩
  have : b = false ∧ b' = false := by
    by_cases ho : w.owner = some i
    · exact one i j c c' v b b' hij ho hi hj hc hc'
    · by_cases ho' : w.owner = some j
      · exact (one j i c' c v b' b (fun e => hij e.symm) ho' hj hi hc' hc).symm
      · exact ⟨(out i c v b hi ho hc).2.1, (out j c' v b' hj ho' hc').2.1⟩
  rw [this.1, this.2] at hb
  rcases hb with hb | hb <;> cases hb

theorem crit_ready {c s r} (h : crit c s = some r) : c ≠ .done ∧ ∀ l k, c ≠ .lock l k := by
  cases c <;> first | (cases h; done) | exact ⟨nofun, nofun⟩

theorem Inv.ready {a fin w ns S} (h : Inv a fin w ns S) (hn : ¬ w.Finished) : ∃ i, w.Ready i := by
  cases ho : w.owner with
  | some j =>
    obtain ⟨c, k, hj, hc, _⟩ := h.inside j ho
    exact ⟨j, c, hj, (crit_ready hc).1, fun l k e => absurd e ((crit_ready hc).2 l k)⟩
  | none =>
    have : ∃ c, c ∈ w.threads ∧ c ≠ .done := Classical.byContradiction fun hh =>
      hn fun c hc => Classical.byContradiction fun hd => hh ⟨c, hc, hd⟩
    obtain ⟨c, hc, hd⟩ := this
    obtain ⟨i, hi⟩ := List.getElem?_of_mem hc
    exact ⟨i, c, hi, hd, fun _ _ _ => ho⟩

/-- What can be left after the next action. -/
def Child (c' : Code) : Code → Prop
  | .done => False
  | .lock _ k => c' = k
  | .unlock k => c' = k
  | .get _ k => ∃ x, c' = k x
  | .set _ _ k => c' = k
  | .check _ k => c' = k
  | .alloc _ k => ∃ x, c' = k x
  | .free _ k => c' = k
  | .use _ k => c' = k

theorem child_induct {P : Code → Prop} (h : ∀ c, (∀ c', Child c' c → P c') → P c) : ∀ c, P c := by
  intro c
  induction c with
  | done => exact h _ nofun
  | lock l k ih => exact h _ fun c' e => by cases e; exact ih
  | unlock k ih => exact h _ fun c' e => by cases e; exact ih
  | get v k ih => exact h _ fun c' e => by obtain ⟨x, rfl⟩ := e; exact ih x
  | set v x k ih => exact h _ fun c' e => by cases e; exact ih
  | check b k ih => exact h _ fun c' e => by cases e; exact ih
  | alloc b k ih => exact h _ fun c' e => by obtain ⟨x, rfl⟩ := e; exact ih x
  | free p k ih => exact h _ fun c' e => by cases e; exact ih
  | use p k ih => exact h _ fun c' e => by cases e; exact ih

/-- What an action that happened was. -/
theorem step_cases {w w' : Procs} {i c} (hi : w.threads[i]? = some c) (e : w.step i = some w') :
    (c = .done ∧ w' = w) ∨
    (∃ l k, c = .lock l k ∧ ((w.owner = none ∧ w' = { w with owner := some i, threads := w.threads.set i k, calls := w.calls ++ [(i, l)] }) ∨
      (w.owner ≠ none ∧ w' = w))) ∨
    (∃ k, c = .unlock k ∧ w.owner = some i ∧ w' = { w with owner := none, threads := w.threads.set i k }) ∨
    (∃ s' c', act c w.sh = some (s', c') ∧ Child c' c ∧ w' = { w with sh := s', threads := w.threads.set i c' }) := by
  unfold Procs.step at e
  rw [hi] at e
  cases c with
  | done => cases e; exact .inl ⟨rfl, rfl⟩
  | lock l k =>
    dsimp only at e
    refine .inr (.inl ⟨l, k, rfl, ?_⟩)
    split at e
    · rename_i h; cases e; exact .inl ⟨h, rfl⟩
    · rename_i h; cases e; exact .inr ⟨h, rfl⟩
  | unlock k =>
    dsimp only at e
    split at e
    · rename_i h; cases e; exact .inr (.inr (.inl ⟨k, rfl, h, rfl⟩))
    · cases e
  | get v k => cases e; exact .inr (.inr (.inr ⟨_, _, rfl, ⟨_, rfl⟩, rfl⟩))
  | set v x k => cases e; exact .inr (.inr (.inr ⟨_, _, rfl, rfl, rfl⟩))
  | check b k =>
    cases b with
    | true => cases e; exact .inr (.inr (.inr ⟨_, _, rfl, rfl, rfl⟩))
    | false => cases e
  | alloc ok k =>
    cases ok with
    | true => cases e; exact .inr (.inr (.inr ⟨_, _, rfl, ⟨_, rfl⟩, rfl⟩))
    | false => cases e; exact .inr (.inr (.inr ⟨_, _, rfl, ⟨_, rfl⟩, rfl⟩))
  | free p k =>
    dsimp only at e
    refine .inr (.inr (.inr ?_))
    simp only [act]
    split at e
    · rename_i h; cases e; exact ⟨_, _, if_pos h, rfl, rfl⟩
    · rename_i h
      split at e
      · rename_i h'; cases e; exact ⟨_, _, by rw [if_neg h, if_pos h'], rfl, rfl⟩
      · cases e
  | use p k =>
    dsimp only at e
    refine .inr (.inr (.inr ?_))
    simp only [act]
    split at e
    · rename_i h; cases e; exact ⟨_, _, if_pos h, rfl, rfl⟩
    · cases e

theorem run_append (xs ys : List Nat) : ∀ w, Procs.run (xs ++ ys) w = (Procs.run xs w).bind (Procs.run ys) := by
  induction xs with
  | nil => intro w; rfl
  | cons i xs ih =>
    intro w
    simp only [List.cons_append, Procs.run]
    cases w.step i with
    | none => rfl
    | some w1 => exact ih w1

/-- A thread running alone, when nobody else is inside, comes to its end. -/
theorem solo {a fin} (i : Nat) : ∀ c, ∀ w ns S, Inv a fin w ns S → w.threads[i]? = some c → (w.owner = none ∨ w.owner = some i) →
    ∃ sched w' ns' S', Procs.run sched w = some w' ∧ w'.threads.length = w.threads.length ∧ Inv a fin w' ns' S' ∧ w'.owner = none ∧
      w'.threads[i]? = some .done ∧ ∀ j, j ≠ i → w'.threads[j]? = w.threads[j]? := by
  refine child_induct fun c ih w ns S h hi ho => ?_
  have next : ∀ w1 c1, Child c1 c → w.step i = some w1 → (w1.owner = none ∨ w1.owner = some i) → w1.threads = w.threads.set i c1 →
      ∃ sched w' ns' S', Procs.run sched w = some w' ∧ w'.threads.length = w.threads.length ∧ Inv a fin w' ns' S' ∧ w'.owner = none ∧
      w'.threads[i]? = some .done ∧ ∀ j, j ≠ i → w'.threads[j]? = w.threads[j]? := by
    intro w1 c1 hc e ho1 ht
    obtain ⟨w2, ns1, S1, e2, hl, h1⟩ := h.step i
    rw [e] at e2; cases e2
    obtain ⟨sched, w', ns', S', r1, r2, r3, r4, r5, r6⟩ := ih c1 hc w1 ns1 S1 h1 (by rw [ht]; exact getElem?_set_self' c1 hi) ho1
    refine ⟨i :: sched, w', ns', S', by simp only [Procs.run, e]; exact r1, r2.trans hl, r3, r4, r5, fun j hj => ?_⟩
    rw [r6 j hj, ht]; exact getElem?_set_ne' c1 hj
  obtain ⟨w1, _, _, e, _, _⟩ := h.step i
  rcases step_cases hi e with ⟨rfl, _⟩ | ⟨l, k, rfl, ⟨_, rfl⟩ | ⟨hb, _⟩⟩ | ⟨k, rfl, _, rfl⟩ | ⟨s', c', _, hc, rfl⟩
  · rcases ho with ho | ho
    · exact ⟨[], w, ns, S, rfl, rfl, h, ho, hi, fun _ _ => rfl⟩
    · obtain ⟨c, k, hj, hc, _⟩ := h.inside i ho
      rw [hi] at hj; cases hj; cases hc
  · exact next _ k rfl e (.inr rfl) rfl
  · rcases ho with ho | ho
    · exact absurd ho hb
    · obtain ⟨c, k', hj, hc, _⟩ := h.inside i ho
      rw [hi] at hj; cases hj; cases hc
  · exact next _ k rfl e (.inl rfl) rfl
  · exact next _ c' hc e ho rfl

theorem finish_from {a fin} : ∀ (n : Nat) w ns S, Inv a fin w ns S → w.owner = none →
    (∀ i c, w.threads[i]? = some c → n ≤ i → c = .done) →
    ∃ sched w' ns' S', Procs.run sched w = some w' ∧ w'.threads.length = w.threads.length ∧ Inv a fin w' ns' S' ∧ w'.Finished
  | 0, w, ns, S, h, ho, hd => ⟨[], w, ns, S, rfl, rfl, h, fun c hc => by
      obtain ⟨i, hi⟩ := List.getElem?_of_mem hc
      exact hd i c hi (Nat.zero_le _)⟩
  | n + 1, w, ns, S, h, ho, hd => by
    cases hn : w.threads[n]? with
    | none =>
      refine finish_from n w ns S h ho fun i c hi hge => ?_
      by_cases e : i = n
      · subst e; rw [hn] at hi; cases hi
      · exact hd i c hi (by omega)
    | some c =>
      obtain ⟨sched, w1, ns1, S1, r1, r2, r3, r4, r5, r6⟩ := solo n c w ns S h hn (.inl ho)
      obtain ⟨sched2, w2, ns2, S2, q1, q2, q3, q4⟩ := finish_from n w1 ns1 S1 r3 r4 fun i c hi hge => by
        by_cases e : i = n
        · subst e; rw [r5] at hi; cases hi; rfl
        · rw [r6 i e] at hi; exact hd i c hi (by omega)
      exact ⟨sched ++ sched2, w2, ns2, S2, by rw [run_append, r1]; exact q1, q2.trans r2, q3, q4⟩

theorem finish {a fin w ns S} (h : Inv a fin w ns S) :
    ∃ sched w' ns' S', Procs.run sched w = some w' ∧ w'.threads.length = w.threads.length ∧ Inv a fin w' ns' S' ∧ w'.Finished := by
  cases ho : w.owner with
  | none =>
    exact finish_from w.threads.length w ns S h ho fun i c hi hge => by
      have := (List.getElem?_eq_some_iff.1 hi).1; omega
  | some j =>
    obtain ⟨c, k, hj, _⟩ := h.inside j ho
    obtain ⟨sched, w1, ns1, S1, r1, r2, r3, r4, r5, r6⟩ := solo j c w ns S h hj (.inr ho)
    obtain ⟨sched2, w2, ns2, S2, q1, q2, q3, q4⟩ := finish_from w1.threads.length w1 ns1 S1 r3 r4 fun i c hi hge => by
      have := (List.getElem?_eq_some_iff.1 hi).1; omega
    exact ⟨sched ++ sched2, w2, ns2, S2, by rw [run_append, r1]; exact q1, q2.trans r2, q3, q4⟩

theorem total_congr {f g : Nat → Nat} : ∀ n, (∀ i, i < n → f i = g i) → total f n = total g n
  | 0, _ => rfl
  | n + 1, h => by
    simp only [total]
    rw [total_congr n fun i hi => h i (by omega), h n (Nat.lt_succ_self n)]

theorem total_succ (f : Nat → Nat) : ∀ n, total f (n + 1) = f 0 + total (fun i => f (i + 1)) n
  | 0 => by simp [total]
  | n + 1 => by
    have := total_succ f n
    simp only [total] at this ⊢
    omega

theorem total_list {α : Type} (f : α → Nat) (d : α) : ∀ l : List α, total (fun i => f (l.getD i d)) l.length = (l.map f).sum
  | [] => rfl
  | x :: l => by
    rw [List.length_cons, total_succ, List.map_cons, List.sum_cons, ← total_list f d l]
    rfl

theorem Inv.finished {a fin w ns S} (h : Inv a fin w ns S) (hf : w.Finished) :
    w.owner = none ∧ w.sh = S ∧ GInv S (total fin w.threads.length) := by
  have ho : w.owner = none := by
    cases ho : w.owner with
    | none => rfl
    | some j =>
      obtain ⟨c, k, hj, hc, _⟩ := h.inside j ho
      exact absurd (hf c (List.mem_of_getElem? hj)) (crit_ready hc).1
  refine ⟨ho, h.free ho, ?_⟩
  have : total fin w.threads.length = total ns w.threads.length := by
    refine total_congr _ fun i hi => ?_
    have hi' := List.getElem?_eq_getElem hi
    have hd := hf _ (List.mem_of_getElem? hi')
    rcases (h.out i _ hi' (by rw [ho]; nofun)).cases with ⟨_, e⟩ | ⟨l, k, e, _⟩ | ⟨_, _, hact⟩
    · exact e.symm
    · rw [hd] at e; cases e
    · have st := h.steady hi' (by rw [ho]; nofun) (by assumption)
      obtain ⟨c', e, _⟩ := hact _ st
      rw [hd] at e; cases e
  rw [this]; exact h.ginv

/-! ### The calls are atomic, whatever fails -/

/-- Outside the critical sections; whatever the answers. -/
inductive Outside (a : Bool) : Code → Prop where
  | done : Outside a .done
  | inc (b : Bool) (k : Bool → Code) : (∀ ok, Outside a (k ok)) → Outside a (incC a b k)
  | dec (k : Code) : Outside a k → Outside a (decC a k)
  | eng (x : Option (Bool × Bool)) (k : Code) : Outside a k → Outside a (engineC x k)
  | check (b : Bool) (k : Code) : Outside a k → Outside a (.check b k)
  | getB (k : Nat → Code) : (∀ x, Outside a (k x)) → Outside a (.get .bioInit k)
  | getM (k : Nat → Code) : (∀ x, Outside a (k x)) → Outside a (.get .method k)
  | use (p : Nat) (k : Code) : Outside a k → Outside a (.use p k)

theorem outside_threadCode (a : Bool) (cs : List TlsCmd) : ∀ sl, Outside a (threadCode a cs sl) := by
  induction cs with
  | nil => intro sl; exact .done
  | cons c cs ih =>
    intro sl
    cases c with
    | create x =>
      simp only [threadCode]
      split
      · exact ih sl
      · refine .inc _ _ fun ok => ?_
        split
        · exact .dec _ (ih sl)
        · exact ih _
    | connect i ok =>
      simp only [threadCode]
      split
      · have hk : ∀ m, Outside a (.use m (if ok then threadCode a cs (sl.set i m) else .use m (threadCode a cs sl))) := fun m => by
          refine .use _ _ ?_
          split
          · exact ih _
          · exact .use _ _ (ih sl)
        cases a with
        | true => exact .getB _ fun x => .check _ _ (.getM _ hk)
        | false => exact .getM _ hk
      · exact ih sl
    | io i =>
      simp only [threadCode]
      split
      · exact .use _ _ (ih sl)
      · exact ih sl
    | delete i =>
      simp only [threadCode]
      split
      · split
        · exact .use _ _ (.dec _ (ih _))
        · exact .dec _ (ih _)
      · exact ih sl
    | engine x => exact .eng _ _ (ih sl)

/-- The shared variables agree with the global state, and new objects are not NULL. -/
def Agrees (s : Shared) (g : TlsGlobal) : Prop := Holds s g ∧ 0 < s.next

theorem inc_seq {a b k s g r} (h : Agrees s g) (e : crit (incBody a b k) s = some r) :
    ∃ ok g', incConnections a b g = some (ok, g') ∧ Agrees r.1 g' ∧ r.2 = k ok := by
  obtain ⟨⟨gi, gc, gb, gm, ge⟩, hp, nx⟩ := s
  obtain ⟨gi', gc', gb', gm', lv, nn, tr⟩ := g
  obtain ⟨⟨h1, h2, h3, h4⟩, h5⟩ := h
  dsimp only at h1 h2 h3 h4 h5
  subst h1; subst h2; subst h3
  have hnx : nx ≠ 0 := by omega
  cases gi' <;> cases a <;> cases b <;> cases gb' <;>
    simp [incBody, bioInitC, assertC, incTail, crit, GVals.get, GVals.set, hnx] at e <;>
    subst e <;>
    refine ⟨_, _, rfl, ⟨⟨?_, ?_, ?_, ?_⟩, ?_⟩, rfl⟩ <;> simp <;> first | omega | exact h4 | exact h5

theorem dec_seq {a k s g r} (h : Agrees s g) (e : crit (decBody a k) s = some r) :
    ∃ g', decConnections a g = some g' ∧ Agrees r.1 g' ∧ r.2 = k := by
  obtain ⟨⟨gi, gc, gb, gm, ge⟩, hp, nx⟩ := s
  obtain ⟨gi', gc', gb', gm', lv, nn, tr⟩ := g
  obtain ⟨⟨h1, h2, h3, h4⟩, h5⟩ := h
  dsimp only at h1 h2 h3 h4 h5
  subst h1; subst h2; subst h3
  by_cases hc : gc - 1 = 0
  · have hx : ∀ s' : Shared, crit (bioDestroyC a (.set .init 0 (.unlock k))) s' = some r → s'.g.conns = 0 →
        s'.g.bioInit = (if gb' then 1 else 0) → 0 < s'.next →
        (a = true → gb' = true) ∧ r.1.g = ⟨0, 0, 0, 0, s'.g.engine⟩ ∧ 0 < r.1.next ∧ r.2 = k := by
      intro s' e' hc' hb' hn'
      obtain ⟨⟨gi2, gc2, gb2, gm2, ge2⟩, hp2, nx2⟩ := s'
      dsimp only at hc' hb' hn'
      subst hc'; subst hb'
      by_cases hm0 : gm2 = 0
      · subst hm0
        cases a <;> cases gb' <;> simp [bioDestroyC, assertC, crit, GVals.get, GVals.set] at e' <;> subst e' <;> simp [hn']
      · by_cases hm1 : gm2 ∈ hp2
        · cases a <;> cases gb' <;> simp [bioDestroyC, assertC, crit, GVals.get, GVals.set, hm0, hm1] at e' <;> subst e' <;> simp [hn']
        · cases a <;> cases gb' <;> simp [bioDestroyC, assertC, crit, GVals.get, GVals.set, hm0, hm1] at e'
    have fin : (a = true → gb' = true) ∧ r.1.g = ⟨0, 0, 0, 0, ge⟩ ∧ 0 < r.1.next ∧ r.2 = k := by
      by_cases h0 : gc = 0
      · subst h0
        simp [decBody, decTail, crit, GVals.get] at e
        exact hx _ e rfl rfl h5
      · have h01 : 0 < gc := by omega
        simp [decBody, decTail, crit, GVals.get, GVals.set, h01, hc] at e
        exact hx _ e rfl rfl h5
    obtain ⟨f1, f2, f3, f4⟩ := fin
    have hg : (if gc > 0 then (⟨gi', gc - 1, gb', gm', lv, nn, tr⟩ : TlsGlobal) else ⟨gi', gc, gb', gm', lv, nn, tr⟩) =
        ⟨gi', 0, gb', gm', lv, nn, tr⟩ := by
      split
      · rw [hc]
      · have : gc = 0 := by omega
        rw [this]
    refine ⟨⟨false, 0, false, false, lv, nn, tr ++ [if gm' then .tearDown else .strayTearDown]⟩, ?_, ⟨⟨?_, ?_, ?_, ?_⟩, f3⟩, f4⟩
    · simp only [decConnections]
      rw [hg]
      cases a <;> cases gb' <;> first | rfl | exact absurd (f1 rfl) nofun
    · rw [f2]; rfl
    · rw [f2]
    · rw [f2]; rfl
    · rw [f2]; simp
  · have h0 : 0 < gc := by omega
    simp [decBody, decTail, crit, GVals.get, GVals.set, h0, hc] at e
    subst e
    refine ⟨⟨gi', gc - 1, gb', gm', lv, nn, tr⟩, ?_, ⟨⟨rfl, rfl, rfl, h4⟩, h5⟩, rfl⟩
    simp [decConnections, h0, hc]

theorem engine_seq {x k s r} {g : TlsGlobal} (h : Agrees s g) (e : crit (engineBody x k) s = some r) : Agrees r.1 g ∧ r.2 = k := by
  have tail : ∀ s', Agrees s' g → crit (engineTail x k) s' = some r → Agrees r.1 g ∧ r.2 = k := by
    intro s' h' e'
    obtain ⟨⟨h1, h2, h3, h4⟩, h5⟩ := h'
    have hnx : s'.next ≠ 0 := by omega
    cases x with
    | none => cases e'; exact ⟨⟨⟨h1, h2, h3, h4⟩, h5⟩, rfl⟩
    | some fu =>
      obtain ⟨f, u⟩ := fu
      cases f <;> cases u <;> simp [engineTail, crit, GVals.get, GVals.set, hnx] at e' <;> subst e' <;>
        exact ⟨⟨⟨h1, h2, h3, h4⟩, by first | exact h5 | exact Nat.succ_pos _⟩, rfl⟩
  by_cases he : s.g.engine = 0
  · refine tail s h ?_
    have e : crit (if s.g.engine = 0 then engineTail x k else .free s.g.engine (.set .engine 0 (engineTail x k))) s = some r := e
    rw [if_pos he] at e; exact e
  · have e : crit (if s.g.engine = 0 then engineTail x k else .free s.g.engine (.set .engine 0 (engineTail x k))) s = some r := e
    rw [if_neg he] at e
    simp only [crit] at e
    rw [if_neg he] at e
    split at e
    · exact tail { s with g := s.g.set 0 .engine, heap := s.heap.erase s.g.engine }
        ⟨⟨h.1.init, h.1.conns, h.1.bioInit, h.1.method⟩, h.2⟩ e
    · cases e

theorem crit_of_act {c s s' c'} (e : act c s = some (s', c')) : crit c s = crit c' s' := by
  cases c with
  | done => cases e
  | lock l k => cases e
  | unlock k => cases e
  | get v k => cases e; rfl
  | set v x k => cases e; rfl
  | check b k => cases b with
    | true => cases e; rfl
    | false => cases e
  | alloc ok k => cases ok with
    | true => cases e; rfl
    | false => cases e; rfl
  | free p k =>
    simp only [act] at e; simp only [crit]
    split at e
    · rename_i h; cases e; rw [if_pos h]
    · rename_i h
      split at e
      · rename_i h'; cases e; rw [if_neg h, if_pos h']
      · cases e
  | use p k =>
    simp only [act] at e; simp only [crit]
    split at e
    · rename_i h; cases e; rw [if_pos h]
    · cases e

theorem oneByOne_snoc (a : Bool) (c : TlsCall) : ∀ cs g, oneByOne a (cs ++ [c]) g = (oneByOne a cs g).bind (oneByOne a [c])
  | [], g => rfl
  | .inc b :: cs, g => by
    simp only [List.cons_append, oneByOne]
    cases incConnections a b g with
    | none => rfl
    | some r => exact oneByOne_snoc a c cs r.2
  | .dec :: cs, g => by
    simp only [List.cons_append, oneByOne]
    cases decConnections a g with
    | none => rfl
    | some r => exact oneByOne_snoc a c cs r
  | .engine :: cs, g => by
    simp only [List.cons_append, oneByOne]
    exact oneByOne_snoc a c cs g

theorem call_seq {a l k s cs} {g : TlsGlobal} (ho : Outside a (.lock l k)) (h : Agrees s g) (hg : oneByOne a cs tlsGlobal0 = some g) {r}
    (e : crit k s = some r) : Outside a r.2 ∧ ∃ g', oneByOne a (cs ++ [l]) tlsGlobal0 = some g' ∧ Agrees r.1 g' := by
  rw [oneByOne_snoc, hg]
  cases ho with
  | inc b k h' =>
    obtain ⟨ok, g', e1, e2, e3⟩ := inc_seq h e
    refine ⟨by rw [e3]; exact h' ok, g', ?_, e2⟩
    simp [oneByOne, e1]
  | dec k h' =>
    obtain ⟨g', e1, e2, e3⟩ := dec_seq h e
    refine ⟨by rw [e3]; exact h', g', ?_, e2⟩
    simp [oneByOne, e1]
  | eng x k h' =>
    obtain ⟨e2, e3⟩ := engine_seq h e
    exact ⟨by rw [e3]; exact h', g, rfl, e2⟩

/-- The invariant of atomicity. -/
structure Atom (a : Bool) (w : Procs) : Prop where
  out : ∀ (i : Nat) (c : Code), w.threads[i]? = some c → w.owner ≠ some i → Outside a c
  free : w.owner = none → ∃ g, oneByOne a (w.calls.map (·.2)) tlsGlobal0 = some g ∧ Agrees w.sh g
  inside : ∀ (j : Nat), w.owner = some j → ∃ c, w.threads[j]? = some c ∧ ∀ r, crit c w.sh = some r →
    Outside a r.2 ∧ ∃ g, oneByOne a (w.calls.map (·.2)) tlsGlobal0 = some g ∧ Agrees r.1 g

theorem atom0 (a : Bool) (progs : List (List TlsCmd)) : Atom a (procs0 a progs) where
  out := by
    intro i c hi _
    have hi : (progs.map fun p => threadCode a p [])[i]? = some c := hi
    rw [List.getElem?_map] at hi
    cases hp : progs[i]? with
    | none => rw [hp] at hi; cases hi
    | some p => rw [hp] at hi; cases hi; exact outside_threadCode a p []
  free := fun _ => ⟨tlsGlobal0, rfl, ⟨rfl, rfl, rfl, fun h => absurd rfl h, nofun⟩, Nat.lt_succ_self 0⟩
  inside := nofun

theorem Outside.act {a c s s' c'} (h : Outside a c) (e : Thr.act c s = some (s', c')) : s' = s ∧ Outside a c' := by
  cases h with
  | done => cases e
  | inc b k h' => cases e
  | dec k h' => cases e
  | eng x k h' => cases e
  | check b k h' =>
    cases b with
    | true => cases e; exact ⟨rfl, h'⟩
    | false => cases e
  | getB k h' => cases e; exact ⟨rfl, h' _⟩
  | getM k h' => cases e; exact ⟨rfl, h' _⟩
  | use p k h' =>
    simp only [Thr.act] at e
    split at e
    · cases e; exact ⟨rfl, h'⟩
    · cases e

theorem Atom.step {a w w'} (h : Atom a w) (i : Nat) (e : w.step i = some w') : Atom a w' := by
  cases hi : w.threads[i]? with
  | none => unfold Procs.step at e; rw [hi] at e; cases e; exact h
  | some c =>
    rcases step_cases hi e with ⟨_, rfl⟩ | ⟨l, k, rfl, ⟨hn, rfl⟩ | ⟨_, rfl⟩⟩ | ⟨k, rfl, ho, rfl⟩ | ⟨s', c', ea, _, rfl⟩
    · exact h
    · obtain ⟨g, hg, hag⟩ := h.free hn
      refine ⟨fun j c hj hj' => ?_, nofun, fun j hj => ?_⟩
      · have hji : j ≠ i := fun e => hj' (by rw [e])
        have hj : (w.threads.set i k)[j]? = some c := hj
        rw [getElem?_set_ne' k hji] at hj
        exact h.out j c hj (by rw [hn]; nofun)
      · cases hj
        refine ⟨k, getElem?_set_self' k hi, fun r hr => ?_⟩
        have := call_seq (h.out i _ hi (by rw [hn]; nofun)) hag hg hr
        rw [List.map_append]
        exact this
    · exact h
    · obtain ⟨c, hj, hc⟩ := h.inside i ho
      rw [hi] at hj; cases hj
      obtain ⟨hout, g, hg, hag⟩ := hc _ rfl
      refine ⟨fun j c hj _ => ?_, fun _ => ⟨g, hg, hag⟩, nofun⟩
      have hj : (w.threads.set i k)[j]? = some c := hj
      by_cases e : j = i
      · subst e; rw [getElem?_set_self' k hi] at hj; cases hj; exact hout
      · rw [getElem?_set_ne' k e] at hj
        exact h.out j c hj (by rw [ho]; intro e'; cases e'; exact e rfl)
    · by_cases ho : w.owner = some i
      · obtain ⟨c2, hj, hc⟩ := h.inside i ho
        rw [hi] at hj; cases hj
        refine ⟨fun j c hj hj' => ?_, fun hn => ?_, fun j hj => ?_⟩
        · have hji : j ≠ i := fun e => hj' (by rw [e]; exact ho)
          have hj : (w.threads.set i c')[j]? = some c := hj
          rw [getElem?_set_ne' c' hji] at hj
          exact h.out j c hj hj'
        · have hn : w.owner = none := hn
          rw [ho] at hn; cases hn
        · have hj : w.owner = some j := hj
          rw [ho] at hj; cases hj
          exact ⟨c', getElem?_set_self' c' hi, fun r hr => hc r (by rw [crit_of_act ea]; exact hr)⟩
      · obtain ⟨rfl, hout⟩ := (h.out i c hi ho).act ea
        refine ⟨fun j c hj hj' => ?_, h.free, fun j hj => ?_⟩
        · have hj : (w.threads.set i c')[j]? = some c := hj
          by_cases e : j = i
          · subst e; rw [getElem?_set_self' c' hi] at hj; cases hj; exact hout
          · rw [getElem?_set_ne' c' e] at hj
            exact h.out j c hj hj'
        · have hj : w.owner = some j := hj
          have hji : j ≠ i := fun e => ho (by rw [hj, e])
          obtain ⟨c2, e2, hc⟩ := h.inside j hj
          exact ⟨c2, (getElem?_set_ne' c' hji).trans e2, hc⟩

theorem Atom.run {a} : ∀ (sched : List Nat) {w w'}, Atom a w → Procs.run sched w = some w' → Atom a w'
  | [], w, w', h, e => by cases e; exact h
  | i :: rest, w, w', h, e => by
    simp only [Procs.run] at e
    cases e1 : w.step i with
    | none => rw [e1] at e; cases e
    | some w1 => rw [e1] at e; exact Atom.run rest (h.step i e1) e

/-! ### Fair schedules -/

/-- One thread has moved on. -/
def Less (l' l : List Code) : Prop := ∃ (i : Nat) (c c' : Code), l[i]? = some c ∧ Child c' c ∧ l' = l.set i c'

theorem less_wf : ∀ l : List Code, Acc Less l := by
  intro l
  induction l with
  | nil => exact ⟨_, fun l' h => by obtain ⟨i, c, c', h, _⟩ := h; simp at h⟩
  | cons c l ih =>
    revert l
    refine child_induct (P := fun c => ∀ l, Acc Less l → Acc Less (c :: l)) (fun c ihc l hl => ?_) c
    induction hl with
    | intro l hl ihl =>
      refine ⟨_, fun l' h => ?_⟩
      obtain ⟨i, d, d', h, hc, rfl⟩ := h
      cases i with
      | zero =>
        simp only [List.getElem?_cons_zero, Option.some.injEq] at h
        subst h
        exact ihc d' hc l ⟨l, hl⟩
      | succ i =>
        simp only [List.getElem?_cons_succ] at h
        exact ihl _ ⟨i, d, d', h, hc, rfl⟩

/-- An action does nothing or moves its thread on; a thread that can act does. -/
theorem step_less {w w' : Procs} {i : Nat} (e : w.step i = some w') : (w' = w ∧ ¬ w.Ready i) ∨ Less w'.threads w.threads := by
  cases hi : w.threads[i]? with
  | none =>
    unfold Procs.step at e; rw [hi] at e; cases e
    exact .inl ⟨rfl, fun ⟨c, h, _⟩ => by rw [hi] at h; cases h⟩
  | some c =>
    rcases step_cases hi e with ⟨rfl, rfl⟩ | ⟨l, k, rfl, ⟨_, rfl⟩ | ⟨hb, rfl⟩⟩ | ⟨k, rfl, _, rfl⟩ | ⟨s', c', _, hc, rfl⟩
    · exact .inl ⟨rfl, fun ⟨c, h, hd, _⟩ => by rw [hi] at h; cases h; exact hd rfl⟩
    · exact .inr ⟨i, _, k, hi, rfl, rfl⟩
    · refine .inl ⟨rfl, fun ⟨c, h, _, hl⟩ => ?_⟩
      rw [hi] at h; cases h
      exact hb (hl l k rfl)
    · exact .inr ⟨i, _, k, hi, rfl, rfl⟩
    · exact .inr ⟨i, _, c', hi, hc, rfl⟩

/-- Under a fair schedule the threads finish. -/
theorem fair_finish {a fin} (σ : Nat → Nat) (n : Nat) (hσ : ∀ i, i < n → ∀ m, ∃ m', m ≤ m' ∧ σ m' = i) :
    ∀ l, ∀ w ns S p, w.threads = l → w.threads.length = n → Inv a fin w ns S →
      ∃ q w', Procs.run ((List.range' p q).map σ) w = some w' ∧ w'.Finished := by
  intro l
  induction less_wf l with
  | intro l _ ih =>
    intro w ns S p hl hn h
    by_cases hf : w.Finished
    · exact ⟨0, w, rfl, hf⟩
    obtain ⟨i, hi⟩ := h.ready hf
    have hlt : i < n := by
      obtain ⟨c, hc, _⟩ := hi
      exact hn ▸ (List.getElem?_eq_some_iff.1 hc).1
    obtain ⟨m, hm, hs⟩ := hσ i hlt p
    -- until `m`, nothing changes or somebody moves on
    have key : ∀ d p, p + d = m → ∃ q w', Procs.run ((List.range' p q).map σ) w = some w' ∧ w'.Finished := by
      intro d
      induction d with
      | zero =>
        intro p hp
        obtain ⟨w1, ns1, S1, e, hl1, h1⟩ := h.step (σ p)
        rcases step_less e with ⟨_, hr⟩ | hless
        · rw [show p = m by omega, hs] at hr; exact absurd hi hr
        · obtain ⟨q, w', r, f⟩ := ih _ (hl ▸ hless) w1 ns1 S1 (p + 1) rfl (hl1.trans hn) h1
          exact ⟨q + 1, w', by rw [List.range'_succ, List.map_cons]; simp only [Procs.run, e]; exact r, f⟩
      | succ d ihd =>
        intro p hp
        obtain ⟨w1, ns1, S1, e, hl1, h1⟩ := h.step (σ p)
        rcases step_less e with ⟨rfl, _⟩ | hless
        · obtain ⟨q, w', r, f⟩ := ihd (p + 1) (by omega)
          exact ⟨q + 1, w', by rw [List.range'_succ, List.map_cons]; simp only [Procs.run, e]; exact r, f⟩
        · obtain ⟨q, w', r, f⟩ := ih _ (hl ▸ hless) w1 ns1 S1 (p + 1) rfl (hl1.trans hn) h1
          exact ⟨q + 1, w', by rw [List.range'_succ, List.map_cons]; simp only [Procs.run, e]; exact r, f⟩
    exact key (m - p) p (by omega)

end Thr
end Rmq
