import Verif.Spec.Bounded
import Verif.Proofs.ConnMem
/-!
# How much memory is in use: proofs
-/
namespace Rmq.PoolM

variable {A : Nat → Bool}

/-- Freeing what is listed first leaves what is listed after it. -/
theorem filter_claims {live X Y : List (Nat × Nat)} (hp : live.Perm (X ++ Y)) (nd : (live.map (·.1)).Nodup) :
    (live.filter fun p => p.1 ∉ X.map (·.1)).Perm Y := by
  refine (hp.filter _).trans ?_
  have nd' : ((X ++ Y).map (·.1)).Nodup := (hp.map _).nodup_iff.1 nd
  rw [List.map_append, List.nodup_append] at nd'
  rw [List.filter_append]
  have h1 : X.filter (fun p => decide (p.1 ∉ X.map (·.1))) = [] := List.filter_eq_nil_iff.2 fun p hp hh => by
    rw [decide_eq_true_eq] at hh
    exact hh (List.mem_map.2 ⟨p, hp, rfl⟩)
  have h2 : Y.filter (fun p => decide (p.1 ∉ X.map (·.1))) = Y := List.filter_eq_self.2 fun p hp => by
    rw [decide_eq_true_eq]
    exact fun hm => nd'.2.2 _ hm _ (List.mem_map.2 ⟨p, hp, rfl⟩) rfl
  rw [h1, h2, List.nil_append]

/-- The array of a list of blocks. -/
def arrClaim (x : BlockList) : List (Nat × Nat) := x.arr.toList.map fun a => (a, 8 * x.blocks.length)

theorem hAlloc_true (hA : ∀ n, A n = true) (h : Heap) (n : Nat) :
    hAlloc A h n = (some h.next, ⟨(h.next, n) :: h.live, h.next + 1, h.calls + 1⟩) := by unfold hAlloc; rw [if_pos (hA _)]

theorem recordBlock_claims (hA : ∀ n, A n = true) {h h' : Heap} {x l : BlockList} {b : Nat} {res : Bool} {rest : List (Nat × Nat)}
    (ok : h.OK) (hp : h.live.Perm (arrClaim x ++ rest)) (e : recordBlock A h x b = some (res, l, h')) :
    res = true ∧ l.blocks = x.blocks ++ [b] ∧ (∃ a, l.arr = some a) ∧ h'.live.Perm (arrClaim l ++ rest) ∧ h'.OK := by
  unfold recordBlock at e
  cases hx : x.arr with
  | none =>
    rw [hx] at e
    dsimp only at e
    rw [hAlloc_true hA] at e
    cases e
    refine ⟨rfl, rfl, ⟨_, rfl⟩, ?_, ok.cons rfl rfl⟩
    unfold arrClaim at hp ⊢
    rw [hx] at hp
    simp only [Option.toList_none, List.map_nil, List.nil_append] at hp
    simp only [Option.toList_some, List.map_cons, List.map_nil, List.singleton_append, List.length_append, List.length_cons, List.length_nil]
    exact hp.cons _
  | some a =>
    rw [hx] at e
    dsimp only at e
    unfold hRealloc at e
    by_cases hl : a ∈ h.live.map (·.1)
    · rw [if_pos hl, hAlloc_true hA] at e
      cases e
      refine ⟨rfl, rfl, ⟨_, rfl⟩, ?_, (ok.cons (h' := ⟨(h.next, 8 * (x.blocks.length + 1)) :: h.live, h.next + 1, h.calls + 1⟩) rfl rfl).filter (fun p => p.1 ≠ a) rfl rfl⟩
      have hne : h.next ≠ a := fun he => Nat.lt_irrefl _ (he ▸ ok.lt a hl)
      unfold arrClaim at hp ⊢
      rw [hx] at hp
      simp only [Option.toList_some, List.map_cons, List.map_nil, List.singleton_append, List.length_append, List.length_cons, List.length_nil] at hp ⊢
      rw [List.filter_cons, if_pos (by simpa using hne)]
      refine .cons _ ?_
      have := filter_claims (X := [(a, 8 * x.blocks.length)]) hp ok.nodup
      simpa using this
    · rw [if_neg hl] at e
      cases e

/-- The blocks of a pool whose large blocks have the sizes `ls`. -/
def poolClaims (p : Pool) (ls : List Nat) : List (Nat × Nat) :=
  arrClaim p.pages ++ (p.pages.blocks.map fun b => (b, p.pagesize)) ++ (arrClaim p.large ++ p.large.blocks.zip ls)

/-- A pool in which `S` octets are pending, and never more than `K` were. -/
structure Within (K : Nat) (p : Pool) (ls : List Nat) (S : Nat) : Prop where
  len : ls.length = p.large.blocks.length
  arrP : p.pages.arr = none → p.pages.blocks = []
  arrL : p.large.arr = none → p.large.blocks = []
  np : p.nextPage ≤ p.pages.blocks.length
  pages : p.pages.blocks.length * p.pagesize ≤ 2 * K + p.pagesize
  wide : 0 < p.pages.blocks.length → 8 ≤ p.pagesize
  parts : ∃ s l, s + l ≤ S ∧ ls.sum ≤ l ∧ 8 * ls.length ≤ l ∧ (p.allocBlock = none → p.nextPage = 0) ∧
    (0 < p.nextPage → (p.nextPage - 1) * p.pagesize + p.allocUsed ≤ 2 * s)
  most : S ≤ K

theorem Within.init {K S : Nat} (ps : Nat) (hS : S ≤ K) : Within K (initPool ps) [] S where
  len := rfl
  arrP := fun _ => rfl
  arrL := fun _ => rfl
  np := Nat.le_refl _
  pages := by simp [initPool]
  wide := fun h => absurd h (Nat.lt_irrefl _)
  parts := ⟨0, 0, Nat.zero_le _, Nat.le_refl _, Nat.le_refl _, fun _ => rfl, fun h => absurd h (Nat.lt_irrefl _)⟩
  most := hS

theorem octets_claims {K : Nat} {p : Pool} {ls : List Nat} {S : Nat} (w : Within K p ls S) :
    ((poolClaims p ls).map (·.2)).sum ≤ 6 * K + 2 * p.pagesize := by
  have arr : ∀ x : BlockList, ((arrClaim x).map (·.2)).sum ≤ 8 * x.blocks.length := fun x => by
    unfold arrClaim
    cases x.arr with
    | none => exact Nat.zero_le _
    | some a => simp
  have pg : ∀ l : List Nat, ((l.map fun b => (b, p.pagesize)).map (·.2)).sum = l.length * p.pagesize := fun l => by
    induction l with
    | nil => simp
    | cons a l ih => simp only [List.map_cons, List.sum_cons, ih, List.length_cons, Nat.succ_mul]; omega
  have lg : ((p.large.blocks.zip ls).map (·.2)).sum = ls.sum := by
    rw [← List.unzip_snd, List.unzip_zip w.len.symm]
  have h1 := arr p.pages
  have h2 := arr p.large
  have h3 := w.pages
  obtain ⟨s, l, e1, e2, e3, _⟩ := w.parts
  have h4 := w.most
  have h5 : 8 * p.pages.blocks.length ≤ 2 * K + p.pagesize := by
    rcases Nat.eq_zero_or_pos p.pages.blocks.length with h | h
    · rw [h]; exact Nat.zero_le _
    · have := Nat.mul_le_mul_left p.pages.blocks.length (w.wide h)
      omega
  rw [w.len] at e3
  unfold poolClaims
  simp only [List.map_append, List.sum_append, lg, pg]
  omega

theorem roundUp8_eq {n : Nat} (h : n ≤ 2 ^ 64 - 8) : roundUp8 n = rounded n := by
  unfold roundUp8 rounded
  rw [Nat.mod_eq_of_lt (by omega)]

/-- A request. -/
theorem alloc_claims (hA : ∀ n, A n = true) {K S n : Nat} {p p' : Pool} {h h' : Heap} {ls : List Nat} {rest : List (Nat × Nat)} {x : Option (Nat × Nat)}
    (hn : n ≤ 2 ^ 64 - 8) (hps : p.pagesize < 2 ^ 63) (ok : h.OK) (hp : h.live.Perm (poolClaims p ls ++ rest)) (w : Within K p ls S) (hK : S + rounded n ≤ K)
    (e : poolAlloc A p h n = .ok x (p', h')) :
    ∃ ls', h'.live.Perm (poolClaims p' ls' ++ rest) ∧ Within K p' ls' (S + rounded n) ∧ h'.OK ∧ p'.pagesize = p.pagesize := by
  obtain ⟨s, l, e1, e2, e3, e4, e5⟩ := w.parts
  have h0 := w.most
  unfold poolAlloc at e
  by_cases hz : n = 0
  · rw [if_pos hz] at e
    cases e
    exact ⟨ls, hp, { w with parts := ⟨s, l, by omega, e2, e3, e4, e5⟩, most := hK }, ok, rfl⟩
  rw [if_neg hz] at e
  dsimp only at e
  rw [roundUp8_eq hn] at e
  have hr8 : 8 ≤ rounded n := by unfold rounded; omega
  have hr63 : rounded n ≤ 2 ^ 64 := by unfold rounded; omega
  by_cases hbig : rounded n > p.pagesize
  · rw [if_pos hbig, hAlloc_true hA] at e
    dsimp only at e
    cases hr : recordBlock A ⟨(h.next, rounded n) :: h.live, h.next + 1, h.calls + 1⟩ p.large h.next with
    | none => rw [hr] at e; cases e
    | some y =>
      obtain ⟨res, bl, h1⟩ := y
      obtain ⟨rfl, c2, ⟨a, c3⟩, c4, c5⟩ := recordBlock_claims (h := ⟨(h.next, rounded n) :: h.live, h.next + 1, h.calls + 1⟩)
        (rest := (h.next, rounded n) :: (p.large.blocks.zip ls ++ (arrClaim p.pages ++ (p.pages.blocks.map fun b => (b, p.pagesize)) ++ rest))) hA (ok.cons rfl rfl) (by
          refine List.perm_iff_count.2 fun q => ?_
          have := List.perm_iff_count.1 hp q
          unfold poolClaims at this
          simp only [List.count_append, List.count_cons] at this ⊢
          omega) hr
      rw [hr] at e
      cases e
      refine ⟨ls ++ [rounded n], ?_, ?_, c5, rfl⟩
      · refine List.perm_iff_count.2 fun q => ?_
        have := List.perm_iff_count.1 c4 q
        unfold poolClaims
        dsimp only
        rw [c2, List.zip_append w.len.symm]
        simp only [List.count_append, List.count_cons, List.zip_cons_cons, List.zip_nil_left, List.count_nil] at this ⊢
        omega
      · exact {
          len := by rw [c2, List.length_append, List.length_append, w.len]; rfl
          arrP := w.arrP
          arrL := fun h => by rw [c3] at h; cases h
          np := w.np
          pages := w.pages
          wide := w.wide
          parts := ⟨s, l + rounded n, by omega, by rw [List.sum_append]; simp; omega, by rw [List.length_append]; simp; omega, e4, e5⟩
          most := hK }
  · rw [if_neg hbig] at e
    have page : ∀ q : Nat, 0 < q → (p.nextPage = 0 → q = 1) → (0 < p.nextPage → q = p.nextPage + 1 ∧ p.pagesize < p.allocUsed + rounded n) →
        (q - 1) * p.pagesize + rounded n ≤ 2 * (s + rounded n) := fun q hq hq0 hq1 => by
      rcases Nat.eq_zero_or_pos p.nextPage with hz | hz
      · rw [hq0 hz]; simp; omega
      · obtain ⟨rfl, hlt⟩ := hq1 hz
        have h5 := e5 hz
        have : (p.nextPage + 1 - 1) * p.pagesize = (p.nextPage - 1) * p.pagesize + p.pagesize := by
          rw [Nat.add_sub_cancel, ← Nat.succ_mul, Nat.succ_eq_add_one, Nat.sub_add_cancel hz]
        omega
    have new : (0 < p.nextPage → p.pagesize < p.allocUsed + rounded n) →
        (if p.nextPage ≥ p.pages.blocks.length then
          match hAlloc A h p.pagesize with
          | (none, h) => (.ok none ({ p with allocBlock := none }, h) : Res (Pool × Heap) (Option (Nat × Nat)))
          | (some b, h) =>
            match recordBlock A h p.pages b with
            | none => .ub
            | some (false, l, h) => .ok none ({ p with allocBlock := some b, pages := l }, h)
            | some (true, l, h) =>
              .ok (some (b, 0)) ({ p with allocBlock := some b, pages := l, nextPage := l.blocks.length, allocUsed := rounded n }, h)
        else
          match p.pages.blocks[p.nextPage]? with
          | none => .ub
          | some b => .ok (some (b, 0)) ({ p with allocBlock := some b, nextPage := p.nextPage + 1, allocUsed := rounded n }, h)) = .ok x (p', h') →
        ∃ ls', h'.live.Perm (poolClaims p' ls' ++ rest) ∧ Within K p' ls' (S + rounded n) ∧ h'.OK ∧ p'.pagesize = p.pagesize := by
      intro hlt e
      by_cases hfull : p.nextPage ≥ p.pages.blocks.length
      · rw [if_pos hfull, hAlloc_true hA] at e
        dsimp only at e
        have hnp : p.nextPage = p.pages.blocks.length := Nat.le_antisymm w.np hfull
        cases hr : recordBlock A ⟨(h.next, p.pagesize) :: h.live, h.next + 1, h.calls + 1⟩ p.pages h.next with
        | none => rw [hr] at e; cases e
        | some y =>
          obtain ⟨res, bl, h1⟩ := y
          obtain ⟨rfl, c2, ⟨a, c3⟩, c4, c5⟩ := recordBlock_claims (h := ⟨(h.next, p.pagesize) :: h.live, h.next + 1, h.calls + 1⟩)
            (rest := (h.next, p.pagesize) :: ((p.pages.blocks.map fun b => (b, p.pagesize)) ++ (arrClaim p.large ++ p.large.blocks.zip ls ++ rest))) hA (ok.cons rfl rfl) (by
              refine List.perm_iff_count.2 fun q => ?_
              have := List.perm_iff_count.1 hp q
              unfold poolClaims at this
              simp only [List.count_append, List.count_cons] at this ⊢
              omega) hr
          rw [hr] at e
          cases e
          have hlen : bl.blocks.length = p.pages.blocks.length + 1 := by rw [c2, List.length_append]; rfl
          have hpage := page bl.blocks.length (by omega) (fun h => by omega) (fun h => ⟨by omega, hlt h⟩)
          refine ⟨ls, ?_, ?_, c5, rfl⟩
          · refine List.perm_iff_count.2 fun q => ?_
            have := List.perm_iff_count.1 c4 q
            unfold poolClaims
            dsimp only
            rw [c2]
            simp only [List.count_append, List.count_cons, List.map_append, List.map_cons, List.map_nil, List.count_nil] at this ⊢
            omega
          · exact {
              len := w.len
              arrP := fun h => by rw [c3] at h; cases h
              arrL := w.arrL
              np := Nat.le_refl _
              pages := by
                show bl.blocks.length * p.pagesize ≤ 2 * K + p.pagesize
                have : bl.blocks.length * p.pagesize = (bl.blocks.length - 1) * p.pagesize + p.pagesize := by
                  rw [← Nat.succ_mul, Nat.succ_eq_add_one, Nat.sub_add_cancel (by omega)]
                omega
              wide := fun _ => by show 8 ≤ p.pagesize; omega
              parts := ⟨s + rounded n, l, by omega, e2, e3, (fun h => by cases h), fun _ => hpage⟩
              most := hK }
      · rw [if_neg hfull] at e
        cases hb : p.pages.blocks[p.nextPage]? with
        | none => rw [hb] at e; cases e
        | some b =>
          rw [hb] at e
          cases e
          have hpage := page (p.nextPage + 1) (by omega) (fun h => by omega) (fun h => ⟨by omega, hlt h⟩)
          exact ⟨ls, hp, { w with
            np := by show p.nextPage + 1 ≤ p.pages.blocks.length; omega
            parts := ⟨s + rounded n, l, by omega, e2, e3, (fun h => by cases h), fun _ => hpage⟩
            most := hK }, ok, rfl⟩
    cases hab : p.allocBlock with
    | none =>
      rw [hab] at e
      exact new (fun h => by have := e4 hab; omega) e
    | some b =>
      rw [hab] at e
      dsimp only at e
      by_cases hu : p.allocUsed > p.pagesize
      · rw [if_pos hu] at e; cases e
      rw [if_neg hu] at e
      have hmod : (p.allocUsed + rounded n) % 2 ^ 64 = p.allocUsed + rounded n := Nat.mod_eq_of_lt (by omega)
      rw [hmod] at e
      by_cases hfit : p.allocUsed + rounded n ≤ p.pagesize
      · rw [if_pos hfit] at e
        cases e
        exact ⟨ls, by rw [← hab]; exact hp, { w with
          parts := ⟨s + rounded n, l, by omega, e2, e3, (fun h => by cases h), fun h => by
            have := e5 h
            show (p.nextPage - 1) * p.pagesize + (p.allocUsed + rounded n) ≤ _
            omega⟩
          most := hK }, ok, rfl⟩
      · rw [if_neg hfit] at e
        exact new (fun _ => by omega) e

/-- Freeing. -/
theorem emptyBlocklist_claims {x l : BlockList} {h h' : Heap} {sizes : List Nat} {rest : List (Nat × Nat)} (ok : h.OK) (hl : sizes.length = x.blocks.length)
    (ha : x.arr = none → x.blocks = []) (hp : h.live.Perm (arrClaim x ++ x.blocks.zip sizes ++ rest)) (e : emptyBlocklist h x = some (l, h')) :
    l = ⟨[], none⟩ ∧ h'.live.Perm rest ∧ h'.OK := by
  have ids : (arrClaim x ++ x.blocks.zip sizes).map (·.1) = x.owned := by
    unfold arrClaim BlockList.owned
    have hz : (x.blocks.zip sizes).map (·.1) = x.blocks := by rw [← List.unzip_fst, List.unzip_zip hl.symm]
    rw [List.map_append, hz]
    cases x.arr <;> rfl
  have nd : x.owned.Nodup := by
    rw [← ids]
    have := (hp.map (·.1)).nodup_iff.1 ok.nodup
    rw [List.map_append, List.nodup_append] at this
    exact this.1
  obtain ⟨h1, e1, l1, n1⟩ := emptyBlocklist_spec x h nd (fun b hb => by
    rw [← ids] at hb
    obtain ⟨y, hy, rfl⟩ := List.mem_map.1 hb
    exact mem_ids_of (n := y.2) (hp.mem_iff.2 (List.mem_append_left _ hy))) ha
  rw [e] at e1
  cases e1
  refine ⟨rfl, ?_, ok.filter _ l1 n1⟩
  rw [l1, ← ids]
  exact filter_claims hp ok.nodup

theorem recycle_claims {K S : Nat} {p p' : Pool} {h h' : Heap} {ls : List Nat} {rest : List (Nat × Nat)}
    (ok : h.OK) (hp : h.live.Perm (poolClaims p ls ++ rest)) (w : Within K p ls S) (e : recyclePool p h = some (p', h')) :
    h'.live.Perm (poolClaims p' [] ++ rest) ∧ Within K p' [] 0 ∧ h'.OK ∧ p'.pagesize = p.pagesize := by
  unfold recyclePool at e
  cases hl : emptyBlocklist h p.large with
  | none => rw [hl] at e; cases e
  | some y =>
    obtain ⟨l, h1⟩ := y
    rw [hl] at e
    cases e
    obtain ⟨rfl, c2, c3⟩ := emptyBlocklist_claims (rest := (arrClaim p.pages ++ (p.pages.blocks.map fun b => (b, p.pagesize))) ++ rest) ok w.len w.arrL (by
      refine List.perm_iff_count.2 fun q => ?_
      have := List.perm_iff_count.1 hp q
      unfold poolClaims at this
      simp only [List.count_append] at this ⊢
      omega) hl
    refine ⟨?_, ?_, c3, rfl⟩
    · unfold poolClaims
      dsimp only
      rw [show arrClaim (⟨[], none⟩ : BlockList) = [] from rfl, List.zip_nil_left, List.append_nil, List.append_nil]
      exact c2
    · exact { w with
        len := rfl
        arrL := fun _ => rfl
        np := Nat.zero_le _
        parts := ⟨0, 0, Nat.le_refl _, Nat.le_refl _, Nat.le_refl _, fun _ => rfl, fun h => absurd h (Nat.lt_irrefl _)⟩
        most := Nat.zero_le _ }

theorem empty_claims {K S : Nat} {p p' : Pool} {h h' : Heap} {ls : List Nat} {rest : List (Nat × Nat)}
    (ok : h.OK) (hp : h.live.Perm (poolClaims p ls ++ rest)) (w : Within K p ls S) (e : emptyPool p h = some (p', h')) :
    h'.live.Perm (poolClaims p' [] ++ rest) ∧ Within K p' [] 0 ∧ h'.OK ∧ p'.pagesize = p.pagesize := by
  unfold emptyPool at e
  cases hr : recyclePool p h with
  | none => rw [hr] at e; cases e
  | some y =>
    obtain ⟨p1, h1⟩ := y
    obtain ⟨c1, c2, c3, c4⟩ := recycle_claims ok hp w hr
    rw [hr] at e
    simp only [Option.bind_some] at e
    cases hl : emptyBlocklist h1 p1.pages with
    | none => rw [hl] at e; cases e
    | some y =>
      obtain ⟨l, h2⟩ := y
      rw [hl] at e
      cases e
      have hlarge : p1.large = ⟨[], none⟩ := by
        unfold recyclePool emptyBlocklist at hr
        cases hx : p.large.arr with
        | none => rw [hx] at hr; cases hr; rfl
        | some a =>
          rw [hx] at hr
          dsimp only at hr
          cases hf : freeAll h p.large.blocks with
          | none => rw [hf] at hr; cases hr
          | some g =>
            rw [hf] at hr
            simp only [Option.bind_some] at hr
            cases hg : hFree g a with
            | none => rw [hg] at hr; cases hr
            | some g' => rw [hg] at hr; cases hr; rfl
      have hz : p1.pages.blocks.zip (List.replicate p1.pages.blocks.length p1.pagesize) = p1.pages.blocks.map fun b => (b, p1.pagesize) := by
        generalize p1.pages.blocks = bs
        induction bs with
        | nil => rfl
        | cons b bs ih => rw [List.length_cons, List.replicate_succ, List.zip_cons_cons, ih]; rfl
      obtain ⟨rfl, c5, c6⟩ := emptyBlocklist_claims (sizes := List.replicate p1.pages.blocks.length p1.pagesize) (rest := rest) c3 (by simp) c2.arrP (by
        rw [hz]
        unfold poolClaims at c1
        rw [hlarge, show arrClaim (⟨[], none⟩ : BlockList) = [] from rfl, List.zip_nil_left, List.append_nil, List.append_nil] at c1
        exact c1) hl
      refine ⟨?_, ?_, c6, c4⟩
      · unfold poolClaims
        dsimp only
        rw [hlarge, show arrClaim (⟨[], none⟩ : BlockList) = [] from rfl, List.zip_nil_left]
        exact c5
      · have : p1.nextPage = 0 := by
          obtain ⟨s, l, f1, f2, f3, f4, f5⟩ := c2.parts
          refine f4 ?_
          unfold recyclePool at hr
          cases hx : emptyBlocklist h p.large with
          | none => rw [hx] at hr; cases hr
          | some y => rw [hx] at hr; cases hr; rfl
        exact { c2 with
          arrP := fun _ => rfl
          np := by show p1.nextPage ≤ 0; omega
          pages := by simp
          wide := fun h => absurd h (Nat.lt_irrefl _) }

/-! ## A pool -/

theorem poolRun_claims (hA : ∀ n, A n = true) {K ps : Nat} (hps : ps < 2 ^ 63) {rest : List (Nat × Nat)} : ∀ (ops : List PoolOp) {r r' : PoolRun} {S : Nat},
    (∀ op ∈ ops, op.sane) → (∀ before, before <+: ops → before.foldl poolPendingStep S ≤ K) → r.pool.pagesize = ps →
    (∃ ls, r.heap.live.Perm (poolClaims r.pool ls ++ rest) ∧ Within K r.pool ls S ∧ r.heap.OK) → poolRun A r ops = some r' →
    r'.pool.pagesize = ps ∧ ∃ ls, r'.heap.live.Perm (poolClaims r'.pool ls ++ rest) ∧ Within K r'.pool ls (ops.foldl poolPendingStep S) ∧ r'.heap.OK
  | [], r, r', S, _, _, hp, h, e => by cases e; exact ⟨hp, h⟩
  | op :: ops, r, r', S, hs, hK, hp, ⟨ls, h1, h2, h3⟩, e => by
    rw [poolRun] at e
    have hop := hs op List.mem_cons_self
    have hK1 := hK [op] ⟨ops, rfl⟩
    have go : ∀ {r1 : PoolRun}, poolStep A r op = some r1 → r1.pool.pagesize = ps ∧ ∃ ls, r1.heap.live.Perm (poolClaims r1.pool ls ++ rest) ∧
        Within K r1.pool ls (poolPendingStep S op) ∧ r1.heap.OK := by
      intro r1 e1
      cases op with
      | alloc n =>
        unfold poolStep at e1
        dsimp only at e1
        cases ha : poolAlloc A r.pool r.heap n with
        | ok x y =>
          obtain ⟨p, h⟩ := y
          obtain ⟨ls', c1, c2, c3, c4⟩ := alloc_claims hA hop (by rw [hp]; exact hps) h3 h1 h2 hK1 ha
          rw [ha] at e1
          cases x <;> cases e1 <;> exact ⟨by rw [c4, hp], ls', c1, c2, c3⟩
        | err e s => rw [ha] at e1; cases e1
        | ub => rw [ha] at e1; cases e1
        | fuel => rw [ha] at e1; cases e1
      | recycle =>
        unfold poolStep at e1
        dsimp only at e1
        cases ha : recyclePool r.pool r.heap with
        | none => rw [ha] at e1; cases e1
        | some y =>
          obtain ⟨p, h⟩ := y
          obtain ⟨c1, c2, c3, c4⟩ := recycle_claims h3 h1 h2 ha
          rw [ha] at e1
          cases e1
          exact ⟨by rw [c4, hp], [], c1, c2, c3⟩
      | empty =>
        unfold poolStep at e1
        dsimp only at e1
        cases ha : emptyPool r.pool r.heap with
        | none => rw [ha] at e1; cases e1
        | some y =>
          obtain ⟨p, h⟩ := y
          obtain ⟨c1, c2, c3, c4⟩ := empty_claims h3 h1 h2 ha
          rw [ha] at e1
          cases e1
          exact ⟨by rw [c4, hp], [], c1, c2, c3⟩
    cases e1 : poolStep A r op with
    | none => rw [e1] at e; cases e
    | some r1 =>
      rw [e1] at e
      obtain ⟨g1, g2⟩ := go e1
      exact poolRun_claims hA hps ops (fun o ho => hs o (List.mem_cons_of_mem _ ho)) (fun b hb => by
        obtain ⟨t, rfl⟩ := hb
        exact hK (op :: b) ⟨t, rfl⟩) g1 g2 e

/-! ## A connection -/

/-- The blocks of a channel's entry. -/
def share (x : Entry × List Nat) : List (Nat × Nat) := (x.1.node, ENTRY_SIZE) :: poolClaims x.1.pool x.2

/-- The blocks of the connection itself. -/
def fixed (c : CMem) (outSize : Nat) : List (Nat × Nat) := [(c.self, CONN_SIZE), (c.out, outSize), (c.sockBuf, SOCK_BUF)]

/-- Whose the blocks of the heap are. -/
structure Ledger (K M : Nat) (chs : List UInt16) (app : List (Nat × Nat)) (r : ConnRun) (pend : Owner → Nat) (L : List (Entry × List Nat)) (lsp : List Nat) (outSize : Nat) :
    Prop where
  perm : (L.map (·.1)).Perm (entries r.conn)
  live : r.heap.live.Perm (fixed r.conn outSize ++ (L.flatMap share ++ (poolClaims r.conn.props lsp ++ app)))
  out : outSize ≤ M
  each : ∀ x ∈ L, Within K x.1.pool x.2 (pend (some x.1.channel)) ∧ x.1.pool.pagesize ≤ M ∧ x.1.channel ∈ chs
  props : Within K r.conn.props lsp (pend none)
  psz : r.conn.props.pagesize = 512
  fm : 0 < r.conn.frameMax ∧ r.conn.frameMax ≤ M
  pend : ∀ o, pend o ≤ K

/-- The entry of a channel in the ledger. -/
theorem ledger_split {L : List (Entry × List Nat)} {es rest : List Entry} {e : Entry} (hp : (L.map (·.1)).Perm es) (he : es.Perm (e :: rest)) :
    ∃ ls L', L.Perm ((e, ls) :: L') ∧ (L'.map (·.1)).Perm rest := by
  have hm : e ∈ L.map (·.1) := (hp.trans he).mem_iff.2 List.mem_cons_self
  obtain ⟨⟨e', ls⟩, hx, rfl⟩ := List.mem_map.1 hm
  have h1 := List.perm_cons_erase hx
  refine ⟨ls, L.erase (e', ls), h1, ?_⟩
  have h2 := ((h1.map (·.1)).symm.trans (hp.trans he))
  rw [List.map_cons] at h2
  exact h2.cons_inv

variable {K M : Nat} {chs : List UInt16} {app : List (Nat × Nat)} {r r' : ConnRun} {pend : Owner → Nat}

/-- Some ledger. -/
def Kept (K M : Nat) (chs : List UInt16) (app : List (Nat × Nat)) (r : ConnRun) (pend : Owner → Nat) : Prop :=
  ∃ L lsp outSize, Ledger K M chs app r pend L lsp outSize

/-- Storing for a channel that has its entry. -/
theorem Kept.store_in (hA : ∀ n, A n = true) (k : Kept K M chs app r pend) (ci : CInv A app r) (hM : M < 2 ^ 63) {ch : UInt16} {e : Entry}
    (hf : findEntry ch (r.conn.table.getD (slot ch) []) = some e) {n : Nat} (hn : n ≤ 2 ^ 64 - 8) {pend' : Owner → Nat}
    (hs : pend' (some ch) = pend (some ch) + rounded n) (ho : ∀ o, o ≠ some ch → pend' o = pend o) (hK : ∀ o, pend' o ≤ K)
    {x : Option (Nat × Nat)} {p : Pool} {h : Heap} (e1 : poolAlloc A e.pool r.heap n = .ok x (p, h)) {gs : List (Owner × Grant)} :
    Kept K M chs app ⟨putPool ch p r.conn, h, gs, r.tuned⟩ pend' := by
  obtain ⟨L, lsp, os, k⟩ := k
  obtain ⟨f1, rest, f2, f3⟩ := entry_split ci.len hf
  obtain ⟨ls, L', g1, g2⟩ := ledger_split k.perm f2
  have nd : ((e, ls) :: L').Pairwise fun x y => x.1.channel ≠ y.1.channel := by
    have : (((e, ls) :: L').map fun x => x.1.channel).Nodup := by
      refine (g1.map fun x => x.1.channel).nodup_iff.1 ?_
      have := (k.perm.map (·.channel)).nodup_iff.2 ci.keys
      rw [List.map_map] at this
      exact this
    exact List.pairwise_map.1 this
  have hw := k.each (e, ls) (g1.mem_iff.2 List.mem_cons_self)
  have hlive : r.heap.live.Perm (poolClaims e.pool ls ++ ((e.node, ENTRY_SIZE) :: (fixed r.conn os ++ (L'.flatMap share ++ (poolClaims r.conn.props lsp ++ app))))) := by
    refine List.perm_iff_count.2 fun q => ?_
    have h1 := List.perm_iff_count.1 k.live q
    have h2 := List.perm_iff_count.1 (g1.flatMap_right share) q
    rw [List.flatMap_cons] at h2
    unfold share at h2
    simp only [List.count_append, List.count_cons] at h1 h2 ⊢
    unfold share at h1 ⊢
    omega
  obtain ⟨ls', c1, c2, c3, c4⟩ := alloc_claims hA hn (show e.pool.pagesize < 2 ^ 63 from Nat.lt_of_le_of_lt hw.2.1 hM) ci.w.ok hlive hw.1 (by
    have := hK (some ch)
    rw [hs] at this
    dsimp only
    rw [f1]
    exact this) e1
  dsimp only at c2
  rw [f1, ← hs] at c2
  refine ⟨({ e with pool := p }, ls') :: L', lsp, os, {
    perm := (g2.cons _).trans (f3 p).symm
    live := ?_
    out := k.out
    each := fun x hx => ?_
    props := by rw [ho none (by simp)]; exact k.props
    psz := k.psz
    fm := k.fm
    pend := hK }⟩
  · refine List.perm_iff_count.2 fun q => ?_
    have h1 := List.perm_iff_count.1 c1 q
    have e1 : fixed (putPool ch p r.conn) os = fixed r.conn os := rfl
    have e2 : (putPool ch p r.conn).props = r.conn.props := rfl
    rw [List.flatMap_cons]
    dsimp only
    rw [e1, e2]
    have e3 : share ({ e with pool := p }, ls') = (e.node, ENTRY_SIZE) :: poolClaims p ls' := rfl
    rw [e3]
    simp only [List.count_append, List.count_cons] at h1 ⊢
    omega
  · rcases List.mem_cons.1 hx with rfl | hx
    · refine ⟨by show Within _ _ _ (pend' (some e.channel)); rw [f1]; exact c2, by show p.pagesize ≤ M; rw [c4]; exact hw.2.1, hw.2.2⟩
    · have hne : x.1.channel ≠ ch := fun he => (List.pairwise_cons.1 nd).1 x hx (by rw [he]; exact f1)
      rw [ho (some x.1.channel) (by intro he; cases he; exact hne rfl)]
      exact k.each x (g1.mem_iff.2 (List.mem_cons_of_mem _ hx))

/-- The first thing stored for a channel creates its entry. -/
theorem Kept.create (hA : ∀ n, A n = true) (k : Kept K M chs app r pend) (ci : CInv A app r) {ch : UInt16} (hch : ch ∈ chs)
    (hf : findEntry ch (r.conn.table.getD (slot ch) []) = none) :
    Kept K M chs app ⟨{ r.conn with table := r.conn.table.set (slot ch) (⟨ch, r.heap.next, initPool r.conn.frameMax⟩ :: r.conn.table.getD (slot ch) []) },
      ⟨(r.heap.next, ENTRY_SIZE) :: r.heap.live, r.heap.next + 1, r.heap.calls + 1⟩, r.grants, r.tuned⟩ pend := by
  obtain ⟨L, lsp, os, k⟩ := k
  have hslot : slot ch < r.conn.table.length := by rw [ci.len]; exact slot_lt ch
  obtain ⟨rest, h4, h5⟩ := table_split r.conn.table (slot ch) hslot
  have hent : ((r.conn.table.set (slot ch) (⟨ch, r.heap.next, initPool r.conn.frameMax⟩ :: r.conn.table.getD (slot ch) [])).flatten).Perm
      (⟨ch, r.heap.next, initPool r.conn.frameMax⟩ :: entries r.conn) := (h5 _).trans (h4.symm.cons _)
  refine ⟨(⟨ch, r.heap.next, initPool r.conn.frameMax⟩, []) :: L, lsp, os, {
    perm := (k.perm.cons _).trans hent.symm
    live := ?_
    out := k.out
    each := fun x hx => ?_
    props := k.props
    psz := k.psz
    fm := k.fm
    pend := k.pend }⟩
  · refine List.perm_iff_count.2 fun q => ?_
    have h1 := List.perm_iff_count.1 k.live q
    rw [List.flatMap_cons]
    have h0 : poolClaims (initPool r.conn.frameMax) [] = [] := rfl
    unfold share fixed at *
    simp only [List.count_append, List.count_cons, h0, List.count_nil] at h1 ⊢
    omega
  · rcases List.mem_cons.1 hx with rfl | hx
    · refine ⟨Within.init _ (k.pend _), ?_, hch⟩
      show (if r.conn.frameMax ≠ 0 then r.conn.frameMax else 4096) ≤ M
      rw [if_pos (by have := k.fm.1; omega)]
      exact k.fm.2
    · exact k.each x hx

/-- One step. -/
theorem Kept.step (hA : ∀ n, A n = true) (k : Kept K M chs app r pend) (ci : CInv A app r) (hM : M < 2 ^ 63) {op : ConnOp} (hs : op.sane)
    (hfm : ∀ c fm, op = .tune c fm → fm ≤ M) (hch : ∀ ch n, op = .store ch n → ch ∈ chs) (hK : ∀ o, pendingStep o (pend o) op ≤ K)
    (e : connStep A r op = some r') : Kept K M chs app r' fun o => pendingStep o (pend o) op := by
  cases op with
  | store ch n =>
    have same : pendingStep (some ch) (pend (some ch)) (.store ch n) = pend (some ch) + rounded n := if_pos rfl
    have other : ∀ o, o ≠ some ch → pendingStep o (pend o) (.store ch n) = pend o := fun o ho => if_neg ho
    unfold connStep chanAlloc getOrCreate at e
    dsimp only at e
    cases hf : findEntry ch (r.conn.table.getD (slot ch) []) with
    | some en =>
      rw [hf] at e
      dsimp only at e
      cases ha : poolAlloc A en.pool r.heap n with
      | ok x y =>
        obtain ⟨p, h⟩ := y
        rw [ha] at e
        cases e
        exact k.store_in hA ci hM hf hs same other hK ha
      | err c s => rw [ha] at e; cases e
      | ub => rw [ha] at e; cases e
      | fuel => rw [ha] at e; cases e
    | none =>
      rw [hf] at e
      dsimp only at e
      rw [hAlloc_true hA] at e
      dsimp only at e
      obtain ⟨ci1, hf1⟩ := ci.create hf (hAlloc_true hA r.heap ENTRY_SIZE)
      have k1 := k.create hA ci (hch _ _ rfl) hf
      cases ha : poolAlloc A (initPool r.conn.frameMax) ⟨(r.heap.next, ENTRY_SIZE) :: r.heap.live, r.heap.next + 1, r.heap.calls + 1⟩ n with
      | ok x y =>
        obtain ⟨p, h⟩ := y
        rw [ha] at e
        cases e
        exact k1.store_in hA ci1 hM hf1 hs same other hK ha
      | err c s => rw [ha] at e; cases e
      | ub => rw [ha] at e; cases e
      | fuel => rw [ha] at e; cases e
  | property n =>
    unfold connStep propsAlloc at e
    dsimp only at e
    obtain ⟨L, lsp, os, k⟩ := k
    cases ha : poolAlloc A r.conn.props r.heap n with
    | ok x y =>
      obtain ⟨p, h⟩ := y
      rw [ha] at e
      cases e
      have hlive : r.heap.live.Perm (poolClaims r.conn.props lsp ++ (fixed r.conn os ++ (L.flatMap share ++ app))) := by
        refine List.perm_iff_count.2 fun q => ?_
        have h1 := List.perm_iff_count.1 k.live q
        simp only [List.count_append] at h1 ⊢
        omega
      have hn : pendingStep none (pend none) (.property n) = pend none + rounded n := by simp [pendingStep]
      obtain ⟨ls', c1, c2, c3, c4⟩ := alloc_claims hA hs (by rw [k.psz]; decide) ci.w.ok hlive k.props (by rw [← hn]; exact hK none) ha
      refine ⟨L, ls', os, {
        perm := k.perm
        live := ?_
        out := k.out
        each := fun x hx => k.each x hx
        props := by rw [hn]; exact c2
        psz := by show p.pagesize = 512; rw [c4, k.psz]
        fm := k.fm
        pend := hK }⟩
      refine List.perm_iff_count.2 fun q => ?_
      have h1 := List.perm_iff_count.1 c1 q
      unfold fixed at *
      simp only [List.count_append] at h1 ⊢
      omega
    | err c s => rw [ha] at e; cases e
    | ub => rw [ha] at e; cases e
    | fuel => rw [ha] at e; cases e
  | release ch =>
    have same : pendingStep (some ch) (pend (some ch)) (.release ch) = 0 := if_pos rfl
    have other : ∀ o, o ≠ some ch → pendingStep o (pend o) (.release ch) = pend o := fun o ho => if_neg ho
    unfold connStep releaseChan getPool at e
    dsimp only at e
    obtain ⟨L, lsp, os, k⟩ := k
    cases hf : findEntry ch (r.conn.table.getD (slot ch) []) with
    | none =>
      rw [hf] at e
      cases e
      have habs := ci.absent hf
      exact ⟨L, lsp, os, { k with
        each := fun x hx => by
          have : x.1.channel ≠ ch := habs x.1 (k.perm.mem_iff.1 (List.mem_map.2 ⟨x, hx, rfl⟩))
          rw [other (some x.1.channel) (by intro he; cases he; exact this rfl)]
          exact k.each x hx
        props := k.props
        pend := hK }⟩
    | some en =>
      rw [hf] at e
      simp only [Option.map_some] at e
      cases hr : recyclePool en.pool r.heap with
      | none => rw [hr] at e; cases e
      | some y =>
        obtain ⟨p, h⟩ := y
        rw [hr] at e
        cases e
        obtain ⟨f1, rest, f2, f3⟩ := entry_split ci.len hf
        obtain ⟨ls, L', g1, g2⟩ := ledger_split k.perm f2
        have nd : ((en, ls) :: L').Pairwise fun x y => x.1.channel ≠ y.1.channel := by
          have : (((en, ls) :: L').map fun x => x.1.channel).Nodup := by
            refine (g1.map fun x => x.1.channel).nodup_iff.1 ?_
            have := (k.perm.map (·.channel)).nodup_iff.2 ci.keys
            rw [List.map_map] at this
            exact this
          exact List.pairwise_map.1 this
        have hw := k.each (en, ls) (g1.mem_iff.2 List.mem_cons_self)
        have hlive : r.heap.live.Perm (poolClaims en.pool ls ++ ((en.node, ENTRY_SIZE) :: (fixed r.conn os ++ (L'.flatMap share ++ (poolClaims r.conn.props lsp ++ app))))) := by
          refine List.perm_iff_count.2 fun q => ?_
          have h1 := List.perm_iff_count.1 k.live q
          have h2 := List.perm_iff_count.1 (g1.flatMap_right share) q
          rw [List.flatMap_cons] at h2
          unfold share at h2
          simp only [List.count_append, List.count_cons] at h1 h2 ⊢
          unfold share at h1 ⊢
          omega
        obtain ⟨c1, c2, c3, c4⟩ := recycle_claims ci.w.ok hlive hw.1 hr
        refine ⟨({ en with pool := p }, []) :: L', lsp, os, {
          perm := (g2.cons _).trans (f3 p).symm
          live := ?_
          out := k.out
          each := fun x hx => ?_
          props := k.props
          psz := k.psz
          fm := k.fm
          pend := hK }⟩
        · refine List.perm_iff_count.2 fun q => ?_
          have h1 := List.perm_iff_count.1 c1 q
          have e1 : fixed (putPool ch p r.conn) os = fixed r.conn os := rfl
          have e2 : (putPool ch p r.conn).props = r.conn.props := rfl
          rw [List.flatMap_cons]
          dsimp only
          rw [e1, e2]
          have e3 : share ({ en with pool := p }, []) = (en.node, ENTRY_SIZE) :: poolClaims p [] := rfl
          rw [e3]
          simp only [List.count_append, List.count_cons] at h1 ⊢
          omega
        · rcases List.mem_cons.1 hx with rfl | hx
          · refine ⟨?_, by show p.pagesize ≤ M; rw [c4]; exact hw.2.1, hw.2.2⟩
            show Within _ _ _ (pendingStep (some en.channel) (pend (some en.channel)) (.release ch))
            rw [f1, same]
            exact c2
          · have hne : x.1.channel ≠ ch := fun he => (List.pairwise_cons.1 nd).1 x hx (by rw [he]; exact f1)
            rw [other (some x.1.channel) (by intro he; cases he; exact hne rfl)]
            exact k.each x (g1.mem_iff.2 (List.mem_cons_of_mem _ hx))
  | tune clock fm =>
    obtain ⟨hs1, hs2⟩ : 0 < fm ∧ fm < 2 ^ 31 := hs
    have hfm' : fm ≤ M := hfm _ _ rfl
    clear hfm
    obtain ⟨L, lsp, os, k⟩ := k
    unfold connStep tuneMem at e
    dsimp only at e
    cases clock with
    | false => cases e; exact ⟨L, lsp, os, { k with fm := ⟨hs1, hfm'⟩ }⟩
    | true =>
      rw [if_neg (by simp)] at e
      unfold hRealloc0 at e
      rw [if_neg (by omega)] at e
      unfold hRealloc at e
      have hlive : r.conn.out ∈ r.heap.live.map (·.1) := (ci.w.rawOk r.conn.out (by simp [rawOf])).1
      rw [if_pos hlive, hAlloc_true hA] at e
      cases e
      refine ⟨L, lsp, fm, { k with
        live := ?_
        out := hfm'
        fm := ⟨hs1, hfm'⟩ }⟩
      have hne : r.heap.next ≠ r.conn.out := fun he => Nat.lt_irrefl _ (he ▸ ci.w.ok.lt _ hlive)
      dsimp only
      rw [List.filter_cons, if_pos (by simpa using hne)]
      have := filter_claims (X := [(r.conn.out, os)]) (Y := (r.conn.self, CONN_SIZE) :: (r.conn.sockBuf, SOCK_BUF) :: (L.flatMap share ++ (poolClaims r.conn.props lsp ++ app)))
        (live := r.heap.live) (by
          refine List.perm_iff_count.2 fun q => ?_
          have h1 := List.perm_iff_count.1 k.live q
          unfold fixed at h1
          simp only [List.count_append, List.count_cons, List.count_nil] at h1 ⊢
          omega) ci.w.ok.nodup
      refine List.perm_iff_count.2 fun q => ?_
      have h1 := List.perm_iff_count.1 this q
      have hfe : (r.heap.live.filter fun p => decide (p.1 ∉ [(r.conn.out, os)].map (·.1))) = r.heap.live.filter fun p => decide (p.1 ≠ r.conn.out) := by
        congr 1; funext p; simp
      rw [hfe] at h1
      unfold fixed
      simp only [List.count_append, List.count_cons, List.count_nil] at h1 ⊢
      omega

theorem Kept.run (hA : ∀ n, A n = true) (hM : M < 2 ^ 63) : ∀ (ops : List ConnOp) {r r' : ConnRun} {pend : Owner → Nat}, Kept K M chs app r pend → CInv A app r →
    (∀ op ∈ ops, op.sane) → (∀ c fm, ConnOp.tune c fm ∈ ops → fm ≤ M) → (∀ ch n, ConnOp.store ch n ∈ ops → ch ∈ chs) →
    (∀ before, before <+: ops → ∀ o, before.foldl (pendingStep o) (pend o) ≤ K) → connRun A r ops = some r' →
    Kept K M chs app r' fun o => ops.foldl (pendingStep o) (pend o)
  | [], r, r', pend, k, _, _, _, _, _, e => by cases e; exact k
  | op :: ops, r, r', pend, k, ci, hs, hf, hc, hK, e => by
    obtain ⟨r1, e1, ci1⟩ := ci.step op (hs op List.mem_cons_self)
    rw [connRun, e1] at e
    have k1 := k.step hA ci hM (hs op List.mem_cons_self) (fun c fm h => hf c fm (h ▸ List.mem_cons_self)) (fun c n h => hc c n (h ▸ List.mem_cons_self))
      (fun o => hK [op] ⟨ops, rfl⟩ o) e1
    exact Kept.run hA hM ops k1 ci1 (fun o ho => hs o (List.mem_cons_of_mem _ ho)) (fun c fm h => hf c fm (List.mem_cons_of_mem _ h))
      (fun c n h => hc c n (List.mem_cons_of_mem _ h)) (fun b hb o => by
        obtain ⟨t, rfl⟩ := hb
        exact hK (op :: b) ⟨t, rfl⟩ o) e

theorem Kept.new (hA : ∀ n, A n = true) {clock : Bool} {h h1 : Heap} {c : CMem} (hc : newConn A clock h = some (some c, h1)) (hM : 65536 ≤ M) :
    Kept K M chs h.live ⟨c, h1, [], St.OK⟩ fun _ => 0 := by
  unfold newConn at hc
  rw [hAlloc_true hA] at hc
  dsimp only at hc
  cases clock with
  | false =>
    rw [if_pos (by rfl)] at hc
    cases hf : hFree ⟨(h.next, CONN_SIZE) :: h.live, h.next + 1, h.calls + 1⟩ h.next with
    | none => rw [hf] at hc; cases hc
    | some _ => rw [hf] at hc; cases hc
  | true =>
    rw [if_neg (by simp), hAlloc_true hA] at hc
    dsimp only at hc
    rw [hAlloc_true hA] at hc
    cases hc
    refine ⟨[], [], 65536, {
      perm := .of_eq (by rfl)
      live := ?_
      out := hM
      each := fun _ h => nomatch h
      props := Within.init _ (Nat.zero_le _)
      psz := rfl
      fm := ⟨(by decide : 0 < 65536), hM⟩
      pend := fun _ => Nat.zero_le _ }⟩
    refine List.perm_iff_count.2 fun q => ?_
    have h0 : poolClaims (initPool 512) [] = [] := rfl
    unfold fixed
    simp only [h0, List.flatMap_nil, List.count_append, List.count_cons, List.count_nil]
    omega

theorem length_le_of_nodup {α : Type _} [BEq α] [LawfulBEq α] : ∀ {l l' : List α}, l.Nodup → (∀ x ∈ l, x ∈ l') → l.length ≤ l'.length
  | [], _, _, _ => Nat.zero_le _
  | x :: l, l', nd, h => by
    have hx := h x List.mem_cons_self
    have h1 := (List.nodup_cons.1 nd).1
    have := length_le_of_nodup (l := l) (l' := l'.erase x) (List.nodup_cons.1 nd).2 fun y hy =>
      (List.mem_erase_of_ne (a := y) (b := x) (fun e : y = x => h1 (e ▸ hy))).2 (h y (List.mem_cons_of_mem _ hy))
    rw [List.length_erase_of_mem hx] at this
    have h2 := List.length_pos_of_mem hx
    rw [List.length_cons]
    omega

theorem Kept.octets (k : Kept K M chs app r pend) (keys : ((entries r.conn).map (·.channel)).Nodup) :
    PoolM.octets r.heap ≤ (app.map (·.2)).sum + (CONN_SIZE + M + SOCK_BUF) + chs.length * (ENTRY_SIZE + 6 * K + 2 * M) + (6 * K + 2 * 512) := by
  obtain ⟨L, lsp, os, k⟩ := k
  have hL : L.length ≤ chs.length := by
    have nd : (L.map fun x => x.1.channel).Nodup := by
      have := (k.perm.map (·.channel)).nodup_iff.2 keys
      rw [List.map_map] at this
      exact this
    have := length_le_of_nodup nd (l' := chs) fun c hc => by
      obtain ⟨x, hx, rfl⟩ := List.mem_map.1 hc
      exact (k.each x hx).2.2
    rwa [List.length_map] at this
  have hsum : ∀ L : List (Entry × List Nat), (∀ x ∈ L, Within K x.1.pool x.2 (pend (some x.1.channel)) ∧ x.1.pool.pagesize ≤ M) →
      ((L.flatMap share).map (·.2)).sum ≤ L.length * (ENTRY_SIZE + 6 * K + 2 * M) := fun L h => by
    induction L with
    | nil => simp
    | cons x L ih =>
      have h1 := ih fun y hy => h y (List.mem_cons_of_mem _ hy)
      have h2 := h x List.mem_cons_self
      have h3 := octets_claims h2.1
      rw [List.flatMap_cons, List.map_append, List.sum_append, List.length_cons, Nat.succ_mul]
      unfold share at h1 ⊢
      rw [List.map_cons, List.sum_cons]
      dsimp only
      omega
  have h1 := hsum L fun x hx => ⟨(k.each x hx).1, (k.each x hx).2.1⟩
  have h2 := octets_claims k.props
  rw [k.psz] at h2
  have h3 := k.out
  have h4 := Nat.mul_le_mul_right (ENTRY_SIZE + 6 * K + 2 * M) hL
  unfold PoolM.octets
  rw [(k.live.map (·.2)).sum_nat]
  unfold fixed
  simp only [List.map_append, List.sum_append, List.map_cons, List.map_nil, List.sum_cons, List.sum_nil]
  omega

end Rmq.PoolM
