import Verif.Proofs.Pool
import Verif.Spec.ConnMem
/-!
# Several pools and single blocks on one heap
-/
namespace Rmq.PoolM

/-- The blocks a pool has to do with. -/
def Touch (p : Pool) (gs : List Grant) (b : Nat) : Prop :=
  b ∈ p.pages.owned ++ p.large.owned ∨ p.allocBlock = some b ∨ ∃ g ∈ gs, g.block = b

theorem PInv.touch_live {base p h gs} (inv : PInv base p h gs) {b : Nat} (t : Touch p gs b) : b ∈ h.ids := by
  rcases t with t | t | ⟨g, hg, rfl⟩
  · exact inv.live b t
  · exact mem_ids_of (inv.ab b t).1
  · obtain ⟨sz, h1, _⟩ := (inv.gr g hg).inside
    exact mem_ids_of h1

theorem PInv.touch_base {base p h gs} (inv : PInv base p h gs) {x : Nat × Nat} (hx : x ∈ base) : ¬ Touch p gs x.1 := by
  rintro (t | t | ⟨g, hg, e⟩)
  · exact (inv.keep x hx).2 t
  · exact (inv.ab _ t).2.2.2.2 x hx rfl
  · exact (inv.gr g hg).keep x hx e.symm

/-- The invariant of a pool is about the blocks it touches only. -/
theorem PInv.rebase {base base' p h h' gs} (inv : PInv base p h gs) (ok : h'.OK) (hk : ∀ x ∈ h.live, Touch p gs x.1 → x ∈ h'.live)
    (hb : ∀ x ∈ base', x ∈ h'.live ∧ ¬ Touch p gs x.1) : PInv base' p h' gs where
  ok := ok
  used := inv.used
  dvd := inv.dvd
  np := inv.np
  nodup := inv.nodup
  live := fun b hb => by
    obtain ⟨x, hx, rfl⟩ := List.mem_map.1 (inv.live b hb)
    exact List.mem_map.2 ⟨x, hk x hx (.inl hb), rfl⟩
  arrP := inv.arrP
  arrL := inv.arrL
  pg := fun b hb => hk _ (inv.pg b hb) (.inl (List.mem_append_left _ (mem_blocks_owned hb)))
  keep := fun x hx => ⟨(hb x hx).1, fun ho => (hb x hx).2 (.inl ho)⟩
  ab := fun b hab => by
    obtain ⟨h1, h2, h3, h4, _⟩ := inv.ab b hab
    exact ⟨hk _ h1 (.inr (.inl hab)), h2, h3, h4, fun x hx e => (hb x hx).2 (.inr (.inl (e ▸ hab)))⟩
  gr := fun g hg => by
    have go := inv.gr g hg
    obtain ⟨sz, h1, h2⟩ := go.inside
    exact { inside := ⟨sz, hk _ h1 (.inr (.inr ⟨g, hg, rfl⟩)), h2⟩, align := go.align, le := go.le, arrP := go.arrP, arrL := go.arrL,
            fut := go.fut, keep := fun x hx e => (hb x hx).2 (.inr (.inr ⟨g, hg, e.symm⟩)), cur := go.cur, big := go.big }
  pw := inv.pw

/-- Every block of the second heap was in the first or is newer. -/
def Grows (h h' : Heap) : Prop := h.next ≤ h'.next ∧ ∀ b ∈ h'.ids, b ∈ h.ids ∨ h.next ≤ b

theorem Grows.refl (h : Heap) : Grows h h := ⟨Nat.le_refl _, fun _ hb => .inl hb⟩

theorem Grows.trans {h h' h'' : Heap} (a : Grows h h') (b : Grows h' h'') : Grows h h'' :=
  ⟨Nat.le_trans a.1 b.1, fun x hx => by
    rcases b.2 x hx with h1 | h1
    · exact a.2 x h1
    · exact .inr (Nat.le_trans a.1 h1)⟩

theorem hAlloc_grows {A : Nat → Bool} {h h' : Heap} {n : Nat} {o : Option Nat} (e : hAlloc A h n = (o, h')) : Grows h h' := by
  cases o with
  | none =>
    obtain ⟨l, m, _⟩ := hAlloc_none e
    exact ⟨Nat.le_of_eq m.symm, fun b hb => .inl (by unfold Heap.ids at hb ⊢; rwa [l] at hb)⟩
  | some b =>
    unfold hAlloc at e
    split at e
    · cases e
      exact ⟨Nat.le_succ _, fun b hb => by
        rcases List.mem_cons.1 hb with rfl | hb
        · exact .inr (Nat.le_refl _)
        · exact .inl hb⟩
    · cases e

theorem hFree_grows {h h' : Heap} {b : Nat} (e : hFree h b = some h') : Grows h h' := by
  unfold hFree at e
  split at e
  · cases e
    refine ⟨Nat.le_refl _, fun x hx => .inl ?_⟩
    obtain ⟨y, hy, rfl⟩ := List.mem_map.1 hx
    exact List.mem_map.2 ⟨y, (List.mem_filter.1 hy).1, rfl⟩
  · cases e

theorem hRealloc_grows {A : Nat → Bool} {h h' : Heap} {b n : Nat} {o : Option Nat} (e : hRealloc A h b n = some (o, h')) : Grows h h' := by
  unfold hRealloc at e
  split at e
  · cases ea : hAlloc A h n with
    | mk o1 h1 =>
      rw [ea] at e
      cases o1 with
      | none => cases e; exact hAlloc_grows ea
      | some b1 =>
        cases e
        refine (hAlloc_grows ea).trans ⟨Nat.le_refl _, fun x hx => .inl ?_⟩
        obtain ⟨y, hy, rfl⟩ := List.mem_map.1 hx
        exact List.mem_map.2 ⟨y, (List.mem_filter.1 hy).1, rfl⟩
  · cases e

theorem recordBlock_grows {A : Nat → Bool} {h h' : Heap} {x l : BlockList} {b : Nat} {o : Bool} (e : recordBlock A h x b = some (o, l, h')) :
    Grows h h' := by
  unfold recordBlock at e
  split at e
  · cases ea : hAlloc A h (8 * (x.blocks.length + 1)) with
    | mk o1 h1 =>
      rw [ea] at e
      cases o1 <;> cases e <;> exact hAlloc_grows ea
  · rename_i a _
    cases ea : hRealloc A h a (8 * (x.blocks.length + 1)) with
    | none => rw [ea] at e; cases e
    | some z =>
      obtain ⟨o1, h1⟩ := z
      rw [ea] at e
      cases o1 <;> cases e <;> exact hRealloc_grows ea

theorem poolAlloc_grows {A : Nat → Bool} {p p' : Pool} {h h' : Heap} {n : Nat} {x : Option (Nat × Nat)}
    (e : poolAlloc A p h n = .ok x (p', h')) : Grows h h' := by
  unfold poolAlloc at e
  dsimp only at e
  by_cases h0 : n = 0
  · rw [if_pos h0] at e; cases e; exact .refl _
  rw [if_neg h0] at e
  by_cases hbig : roundUp8 n > p.pagesize
  · rw [if_pos hbig] at e
    cases ea : hAlloc A h (roundUp8 n) with
    | mk o1 h1 =>
      have g1 := hAlloc_grows ea
      rw [ea] at e
      cases o1 with
      | none => cases e; exact g1
      | some b =>
        dsimp only at e
        cases er : recordBlock A h1 p.large b with
        | none => rw [er] at e; cases e
        | some z =>
          obtain ⟨o2, l, h2⟩ := z
          have g2 := g1.trans (recordBlock_grows er)
          rw [er] at e
          cases o2 with
          | true => cases e; exact g2
          | false =>
            dsimp only at e
            cases ef : hFree h2 b with
            | none => rw [ef] at e; cases e
            | some h3 => rw [ef] at e; cases e; exact g2.trans (hFree_grows ef)
  · rw [if_neg hbig] at e
    have np : ∀ (e : (if p.nextPage ≥ p.pages.blocks.length then
        match hAlloc A h p.pagesize with
        | (none, h) => Res.ok none ({ p with allocBlock := none }, h)
        | (some b, h) =>
          match recordBlock A h p.pages b with
          | none => .ub
          | some (false, l, h) => .ok none ({ p with allocBlock := some b, pages := l }, h)
          | some (true, l, h) =>
            .ok (some (b, 0)) ({ p with allocBlock := some b, pages := l, nextPage := l.blocks.length, allocUsed := roundUp8 n }, h)
      else
        match p.pages.blocks[p.nextPage]? with
        | none => .ub
        | some b => .ok (some (b, 0)) ({ p with allocBlock := some b, nextPage := p.nextPage + 1, allocUsed := roundUp8 n }, h)) =
        .ok x (p', h')), Grows h h' := by
      intro e
      by_cases hn : p.nextPage ≥ p.pages.blocks.length
      · rw [if_pos hn] at e
        cases ea : hAlloc A h p.pagesize with
        | mk o1 h1 =>
          have g1 := hAlloc_grows ea
          rw [ea] at e
          cases o1 with
          | none => cases e; exact g1
          | some b =>
            dsimp only at e
            cases er : recordBlock A h1 p.pages b with
            | none => rw [er] at e; cases e
            | some z =>
              obtain ⟨o2, l, h2⟩ := z
              have g2 := g1.trans (recordBlock_grows er)
              rw [er] at e
              cases o2 <;> cases e <;> exact g2
      · rw [if_neg hn] at e
        cases hg : p.pages.blocks[p.nextPage]? with
        | none => rw [hg] at e; cases e
        | some b => rw [hg] at e; cases e; exact .refl _
    cases hab : p.allocBlock with
    | none => rw [hab] at e; exact np e
    | some b =>
      rw [hab] at e
      dsimp only at e
      split at e
      · cases e
      · split at e
        · cases e; exact .refl _
        · exact np e

/-- Pools with what they handed out, single blocks (`raw`) and foreign blocks (`app`) on one heap, all apart. -/
structure World (A : Nat → Bool) (app : List (Nat × Nat)) (raw : List Nat) (ts : List (Pool × List Grant)) (h : Heap) : Prop where
  ok : h.OK
  pools : ∀ t ∈ ts, PInv [] t.1 h t.2 ∧ t.1.pagesize < 2 ^ 63
  disj : ts.Pairwise fun t t' => ∀ b, Touch t.1 t.2 b → ¬ Touch t'.1 t'.2 b
  nodup : raw.Nodup
  rawOk : ∀ b ∈ raw, b ∈ h.ids ∧ ∀ t ∈ ts, ¬ Touch t.1 t.2 b
  appOk : ∀ x ∈ app, x ∈ h.live ∧ x.1 ∉ raw ∧ ∀ t ∈ ts, ¬ Touch t.1 t.2 x.1
  noleak : (∀ n, A n = true) → ∀ b ∈ h.ids, b ∈ app.map (·.1) ∨ b ∈ raw ∨ ∃ t ∈ ts, b ∈ t.1.pages.owned ++ t.1.large.owned

variable {A : Nat → Bool} {app : List (Nat × Nat)} {raw raw' : List Nat} {ts ts' : List (Pool × List Grant)} {h h' : Heap} {p : Pool} {gs : List Grant}

theorem World.perm (w : World A app raw ts h) (hr : raw.Perm raw') (ht : ts.Perm ts') : World A app raw' ts' h where
  ok := w.ok
  pools := fun t h => w.pools t (ht.mem_iff.2 h)
  disj := (ht.pairwise_iff (fun {t t'} (hh : ∀ b, Touch t.1 t.2 b → ¬ Touch t'.1 t'.2 b) b h1 h2 => hh b h2 h1)).1 w.disj
  nodup := hr.nodup_iff.1 w.nodup
  rawOk := fun b hb => ⟨(w.rawOk b (hr.mem_iff.2 hb)).1, fun t h => (w.rawOk b (hr.mem_iff.2 hb)).2 t (ht.mem_iff.2 h)⟩
  appOk := fun x hx => ⟨(w.appOk x hx).1, fun h => (w.appOk x hx).2.1 (hr.mem_iff.2 h), fun t h => (w.appOk x hx).2.2 t (ht.mem_iff.2 h)⟩
  noleak := fun hA b hb => by
    rcases w.noleak hA b hb with h1 | h1 | ⟨t, h1, h2⟩
    · exact .inl h1
    · exact .inr (.inl (hr.mem_iff.1 h1))
    · exact .inr (.inr ⟨t, ht.mem_iff.1 h1, h2⟩)

/-- The blocks that are not the pool's. -/
noncomputable def apart (p : Pool) (gs : List Grant) (h : Heap) : List (Nat × Nat) :=
  open Classical in h.live.filter fun x => ¬ Touch p gs x.1

theorem mem_apart {x : Nat × Nat} : x ∈ apart p gs h ↔ x ∈ h.live ∧ ¬ Touch p gs x.1 := by
  unfold apart
  rw [List.mem_filter]
  simp

theorem ids_live {h : Heap} {b : Nat} (hb : b ∈ h.ids) : ∃ n, (b, n) ∈ h.live := by
  obtain ⟨⟨x, n⟩, hx, rfl⟩ := List.mem_map.1 hb
  exact ⟨n, hx⟩

theorem World.head (w : World A app raw ((p, gs) :: ts) h) : PInv (apart p gs h) p h gs :=
  (w.pools _ List.mem_cons_self).1.rebase w.ok (fun _ hx _ => hx) (fun _ hx => mem_apart.1 hx)

/-- One pool works on its own; the world around it stays. -/
theorem World.step (w : World A app raw ((p, gs) :: ts) h) {p' : Pool} {gs' : List Grant} (inv : PInv (apart p gs h) p' h' gs')
    (hp : p'.pagesize = p.pagesize) (gr : Grows h h')
    (nl : (∀ n, A n = true) → (∀ b ∈ h.ids, b ∈ (apart p gs h).map (·.1) ∨ b ∈ p.pages.owned ++ p.large.owned) →
      (∀ b ∈ h'.ids, b ∈ (apart p gs h).map (·.1) ∨ b ∈ p'.pages.owned ++ p'.large.owned)) :
    World A app raw ((p', gs') :: ts) h' := by
  -- what the pool touches now it touched before, or it is new
  have tch : ∀ b, Touch p' gs' b → Touch p gs b ∨ b ∉ h.ids := fun b hb => by
    refine Classical.byContradiction fun hn => ?_
    rw [not_or, Classical.not_not] at hn
    obtain ⟨n, hl⟩ := ids_live hn.2
    exact inv.touch_base (x := (b, n)) (mem_apart.2 ⟨hl, hn.1⟩) hb
  have keep : ∀ x ∈ h.live, ¬ Touch p gs x.1 → x ∈ h'.live := fun x hx hn => (inv.keep x (mem_apart.2 ⟨hx, hn⟩)).1
  have dis : ∀ t ∈ ts, ∀ b, Touch t.1 t.2 b → ¬ Touch p gs b := fun t ht b h1 h2 =>
    (List.pairwise_cons.1 w.disj).1 t ht b h2 h1
  have pin : ∀ t ∈ ts, PInv [] t.1 h t.2 := fun t ht => (w.pools t (List.mem_cons_of_mem _ ht)).1
  exact {
    ok := inv.ok
    pools := fun t ht => by
      rcases List.mem_cons.1 ht with rfl | ht
      · exact ⟨inv.rebase inv.ok (fun _ hx _ => hx) (fun _ hx => nomatch hx), by
          show p'.pagesize < _
          rw [hp]; exact (w.pools _ List.mem_cons_self).2⟩
      · exact ⟨(pin t ht).rebase inv.ok (fun x hx htx => keep x hx (dis t ht _ htx)) (fun _ hx => nomatch hx),
          (w.pools t (List.mem_cons_of_mem _ ht)).2⟩
    disj := List.pairwise_cons.2 ⟨fun t ht b h1 h2 => by
      rcases tch b h1 with h3 | h3
      · exact dis t ht b h2 h3
      · exact h3 ((pin t ht).touch_live h2), (List.pairwise_cons.1 w.disj).2⟩
    nodup := w.nodup
    rawOk := fun b hb => by
      obtain ⟨h1, h2⟩ := w.rawOk b hb
      obtain ⟨n, hl⟩ := ids_live h1
      refine ⟨mem_ids_of (keep _ hl (h2 _ List.mem_cons_self)), fun t ht => ?_⟩
      rcases List.mem_cons.1 ht with rfl | ht
      · intro h3
        rcases tch b h3 with h4 | h4
        · exact h2 _ List.mem_cons_self h4
        · exact h4 h1
      · exact h2 t (List.mem_cons_of_mem _ ht)
    appOk := fun x hx => by
      obtain ⟨h1, h2, h3⟩ := w.appOk x hx
      refine ⟨keep _ h1 (h3 _ List.mem_cons_self), h2, fun t ht => ?_⟩
      rcases List.mem_cons.1 ht with rfl | ht
      · intro h5
        rcases tch _ h5 with h4 | h4
        · exact h3 _ List.mem_cons_self h4
        · exact h4 (mem_ids_of (n := x.2) h1)
      · exact h3 t (List.mem_cons_of_mem _ ht)
    noleak := fun hA b hb => by
      have own : ∀ b ∈ h.ids, Touch p gs b → b ∈ p.pages.owned ++ p.large.owned := fun b hb ht => by
        rcases w.noleak hA b hb with h1 | h1 | ⟨t, h1, h2⟩
        · obtain ⟨x, hx, rfl⟩ := List.mem_map.1 h1
          exact absurd ht ((w.appOk x hx).2.2 _ List.mem_cons_self)
        · exact absurd ht ((w.rawOk b h1).2 _ List.mem_cons_self)
        · rcases List.mem_cons.1 h1 with rfl | h1
          · exact h2
          · exact absurd ht (dis t h1 b (.inl h2))
      rcases nl hA (fun b hb => by
        obtain ⟨n, hl⟩ := ids_live hb
        by_cases ht : Touch p gs b
        · exact .inr (own b hb ht)
        · exact .inl (List.mem_map.2 ⟨(b, n), mem_apart.2 ⟨hl, ht⟩, rfl⟩)) b hb with h1 | h1
      · obtain ⟨x, hx, rfl⟩ := List.mem_map.1 h1
        obtain ⟨h2, h3⟩ := mem_apart.1 hx
        rcases w.noleak hA x.1 (mem_ids_of (n := x.2) h2) with h4 | h4 | ⟨t, h4, h5⟩
        · exact .inl h4
        · exact .inr (.inl h4)
        · rcases List.mem_cons.1 h4 with rfl | h4
          · exact absurd (.inl h5) h3
          · exact .inr (.inr ⟨t, List.mem_cons_of_mem _ h4, h5⟩)
      · exact .inr (.inr ⟨_, List.mem_cons_self, h1⟩) }

theorem World.alloc (w : World A app raw ((p, gs) :: ts) h) {n : Nat} (hn : n ≤ 2 ^ 64 - 8) :
    ∃ x p' h', poolAlloc A p h n = .ok x (p', h') ∧ p'.pagesize = p.pagesize ∧
      World A app raw ((p', (x.toList.map fun y => ⟨y.1, y.2, n⟩) ++ gs) :: ts) h' ∧ ∀ y ∈ h.live, ¬ Touch p gs y.1 → y ∈ h'.live := by
  obtain ⟨x, p', h', e, out⟩ := alloc_spec (A := A) w.head (w.pools _ List.mem_cons_self).2 hn
  exact ⟨x, p', h', e, out.page, w.step out.inv out.page (poolAlloc_grows e) out.noleak, fun y hy hn => (out.inv.keep y (mem_apart.2 ⟨hy, hn⟩)).1⟩

theorem Grows.filter {f : Nat × Nat → Bool} (hl : h'.live = h.live.filter f) (hn : h'.next = h.next) : Grows h h' :=
  ⟨Nat.le_of_eq hn.symm, fun x hx => .inl (by
    unfold Heap.ids at hx ⊢
    rw [hl] at hx
    obtain ⟨y, hy, rfl⟩ := List.mem_map.1 hx
    exact List.mem_map.2 ⟨y, (List.mem_filter.1 hy).1, rfl⟩)⟩

theorem World.recycle (w : World A app raw ((p, gs) :: ts) h) :
    ∃ p' h', recyclePool p h = some (p', h') ∧ World A app raw ((p', []) :: ts) h' ∧ ∀ y ∈ h.live, ¬ Touch p gs y.1 → y ∈ h'.live := by
  obtain ⟨h', e, l, n, inv⟩ := recycle_spec w.head
  refine ⟨_, h', e, w.step inv rfl (.filter l n) (fun hA hh b hb => ?_), fun y hy hn => (inv.keep y (mem_apart.2 ⟨hy, hn⟩)).1⟩
  unfold Heap.ids at hb; rw [l] at hb
  obtain ⟨x, hx, rfl⟩ := List.mem_map.1 hb
  obtain ⟨hx, hx'⟩ := List.mem_filter.1 hx
  rcases hh _ (mem_ids_of (n := x.2) hx) with h | h
  · exact .inl h
  · refine .inr ?_
    rcases List.mem_append.1 h with h | h
    · exact List.mem_append_left _ h
    · exact absurd h (by simpa using hx')

theorem World.empty (w : World A app raw ((p, gs) :: ts) h) :
    ∃ p' h', emptyPool p h = some (p', h') ∧ World A app raw ts h' := by
  obtain ⟨h', e, l, n, inv⟩ := empty_spec w.head
  refine ⟨_, h', e, ?_⟩
  have w' := w.step inv rfl (.filter l n) (fun hA hh b hb => by
    unfold Heap.ids at hb; rw [l] at hb
    obtain ⟨x, hx, rfl⟩ := List.mem_map.1 hb
    obtain ⟨hx, hx'⟩ := List.mem_filter.1 hx
    rcases hh _ (mem_ids_of (n := x.2) hx) with h | h
    · exact .inl h
    · exact absurd h (by simpa using hx'))
  exact {
    ok := w'.ok
    pools := fun t ht => w'.pools t (List.mem_cons_of_mem _ ht)
    disj := (List.pairwise_cons.1 w'.disj).2
    nodup := w'.nodup
    rawOk := fun b hb => ⟨(w'.rawOk b hb).1, fun t ht => (w'.rawOk b hb).2 t (List.mem_cons_of_mem _ ht)⟩
    appOk := fun x hx => ⟨(w'.appOk x hx).1, (w'.appOk x hx).2.1, fun t ht => (w'.appOk x hx).2.2 t (List.mem_cons_of_mem _ ht)⟩
    noleak := fun hA b hb => by
      rcases w'.noleak hA b hb with h1 | h1 | ⟨t, h1, h2⟩
      · exact .inl h1
      · exact .inr (.inl h1)
      · rcases List.mem_cons.1 h1 with rfl | h1
        · simp [BlockList.owned] at h2
        · exact .inr (.inr ⟨t, h1, h2⟩) }

/-- A new pool. -/
theorem World.init (w : World A app raw ts h) (pagesize : Nat) (hp : pagesize < 2 ^ 63) : World A app raw ((initPool pagesize, []) :: ts) h := by
  have nt : ∀ b, ¬ Touch (initPool pagesize) [] b := by
    rintro b (h | h | ⟨g, hg, _⟩)
    · simp [initPool, BlockList.owned] at h
    · cases h
    · cases hg
  exact {
    ok := w.ok
    pools := fun t ht => by
      rcases List.mem_cons.1 ht with rfl | ht
      · exact ⟨(PInv.init w.ok pagesize).rebase w.ok (fun _ hx _ => hx) (fun _ hx => nomatch hx), by
          show (if pagesize ≠ 0 then pagesize else 4096) < _
          split <;> omega⟩
      · exact w.pools t ht
    disj := List.pairwise_cons.2 ⟨fun t _ b hb => absurd hb (nt b), w.disj⟩
    nodup := w.nodup
    rawOk := fun b hb => ⟨(w.rawOk b hb).1, fun t ht => by
      rcases List.mem_cons.1 ht with rfl | ht
      · exact nt b
      · exact (w.rawOk b hb).2 t ht⟩
    appOk := fun x hx => ⟨(w.appOk x hx).1, (w.appOk x hx).2.1, fun t ht => by
      rcases List.mem_cons.1 ht with rfl | ht
      · exact nt _
      · exact (w.appOk x hx).2.2 t ht⟩
    noleak := fun hA b hb => by
      rcases w.noleak hA b hb with h1 | h1 | ⟨t, h1, h2⟩
      · exact .inl h1
      · exact .inr (.inl h1)
      · exact .inr (.inr ⟨t, List.mem_cons_of_mem _ h1, h2⟩) }

/-- The heap changed, but not in what is here. -/
theorem World.heap (w : World A app raw ts h) (hl : h'.live = h.live) (hn : h'.next = h.next) : World A app raw ts h' where
  ok := w.ok.same hl hn
  pools := fun t ht => ⟨(w.pools t ht).1.heap hl hn, (w.pools t ht).2⟩
  disj := w.disj
  nodup := w.nodup
  rawOk := fun b hb => ⟨by unfold Heap.ids; rw [hl]; exact (w.rawOk b hb).1, (w.rawOk b hb).2⟩
  appOk := fun x hx => ⟨by rw [hl]; exact (w.appOk x hx).1, (w.appOk x hx).2⟩
  noleak := fun hA b hb => w.noleak hA b (by unfold Heap.ids at hb ⊢; rwa [hl] at hb)

/-- A new block. -/
theorem World.block (w : World A app raw ts h) {n b : Nat} (e : hAlloc A h n = (some b, h')) :
    World A app (b :: raw) ts h' ∧ (b, n) ∈ h'.live ∧ ∀ y ∈ h.live, y ∈ h'.live := by
  obtain ⟨rfl, h1, h2, _⟩ : b = h.next ∧ h'.live = (h.next, n) :: h.live ∧ h'.next = h.next + 1 ∧ True := by
    unfold hAlloc at e
    split at e <;> cases e
    exact ⟨rfl, rfl, rfl, trivial⟩
  have up : ∀ x ∈ h.live, x ∈ h'.live := fun x hx => by rw [h1]; exact List.mem_cons_of_mem _ hx
  have old : ∀ x ∈ h.ids, x ≠ h.next := fun x hx => mem_live_ids_ne w.ok hx
  have ok' := w.ok.cons h1 h2
  refine ⟨{
    ok := ok'
    pools := fun t ht => ⟨(w.pools t ht).1.rebase ok' (fun x hx _ => up x hx) (fun _ hx => nomatch hx), (w.pools t ht).2⟩
    disj := w.disj
    nodup := List.nodup_cons.2 ⟨fun hm => old _ (w.rawOk _ hm).1 rfl, w.nodup⟩
    rawOk := fun b hb => by
      rcases List.mem_cons.1 hb with rfl | hb
      · exact ⟨mem_ids_of (n := n) (by rw [h1]; exact List.mem_cons_self), fun t ht hto => old _ ((w.pools t ht).1.touch_live hto) rfl⟩
      · obtain ⟨m, hm⟩ := ids_live (w.rawOk b hb).1
        exact ⟨mem_ids_of (up _ hm), (w.rawOk b hb).2⟩
    appOk := fun x hx => ⟨up x (w.appOk x hx).1, fun hm => by
      rcases List.mem_cons.1 hm with he | hm
      · exact old _ (mem_ids_of (n := x.2) (w.appOk x hx).1) he
      · exact (w.appOk x hx).2.1 hm, (w.appOk x hx).2.2⟩
    noleak := fun hA b hb => by
      unfold Heap.ids at hb
      rw [h1] at hb
      rcases List.mem_cons.1 hb with rfl | hb
      · exact .inr (.inl List.mem_cons_self)
      · rcases w.noleak hA b hb with h1 | h1 | h1
        · exact .inl h1
        · exact .inr (.inl (List.mem_cons_of_mem _ h1))
        · exact .inr (.inr h1) }, by rw [h1]; exact List.mem_cons_self, up⟩

/-- A block is given back. -/
theorem World.free {b : Nat} (w : World A app (b :: raw) ts h) :
    ∃ h', hFree h b = some h' ∧ World A app raw ts h' ∧ ∀ y ∈ h.live, y.1 ≠ b → y ∈ h'.live := by
  obtain ⟨hb, ht⟩ := w.rawOk b List.mem_cons_self
  have hnd := List.nodup_cons.1 w.nodup
  refine ⟨{ h with live := h.live.filter (fun p => p.1 ≠ b) }, by unfold hFree; exact if_pos hb, ?_, fun y hy hn => List.mem_filter.2 ⟨hy, by simpa using hn⟩⟩
  have keep : ∀ y ∈ h.live, y.1 ≠ b → y ∈ h.live.filter (fun p => p.1 ≠ b) := fun y hy hn => List.mem_filter.2 ⟨hy, by simpa using hn⟩
  have ok' : Heap.OK { h with live := h.live.filter (fun p => p.1 ≠ b) } := w.ok.filter _ rfl rfl
  exact {
    ok := ok'
    pools := fun t h1 => ⟨(w.pools t h1).1.rebase ok' (fun x hx hto => keep x hx (fun e => ht t h1 (e ▸ hto))) (fun _ hx => nomatch hx), (w.pools t h1).2⟩
    disj := w.disj
    nodup := hnd.2
    rawOk := fun x hx => by
      obtain ⟨h1, h2⟩ := w.rawOk x (List.mem_cons_of_mem _ hx)
      obtain ⟨m, hm⟩ := ids_live h1
      exact ⟨mem_ids_of (n := m) (keep _ hm (fun e => hnd.1 (by dsimp only at e; exact e ▸ hx))), h2⟩
    appOk := fun x hx => by
      obtain ⟨h1, h2, h3⟩ := w.appOk x hx
      exact ⟨keep x h1 (fun e => h2 (by rw [e]; exact List.mem_cons_self)), fun hm => h2 (List.mem_cons_of_mem _ hm), h3⟩
    noleak := fun hA x hx => by
      obtain ⟨y, hy, rfl⟩ := List.mem_map.1 hx
      obtain ⟨hy, hyb⟩ := List.mem_filter.1 hy
      rcases w.noleak hA y.1 (mem_ids_of (n := y.2) hy) with h1 | h1 | h1
      · exact .inl h1
      · rcases List.mem_cons.1 h1 with e | h1
        · exact absurd e (by simpa using hyb)
        · exact .inr (.inl h1)
      · exact .inr (.inr h1) }

end Rmq.PoolM
