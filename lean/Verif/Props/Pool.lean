import Verif.Proofs.Pool
/-!
# Memory pools: C48, C49
-/
namespace Rmq

open PoolM

/-- A heap with one block of the application in it. -/
def sampleHeap : Heap := ⟨[(0, 100)], 1, 0⟩
theorem sampleHeap_ok : sampleHeap.OK := ⟨by simp [sampleHeap], by simp [sampleHeap]⟩

/-! ## C48 -/

/-- C48: after any history of allocations (some of which may have failed, in any pattern `A`), recycles and empties, the blocks handed
out since the last recycle are pairwise disjoint, start at a multiple of 8 in a block obtained from the system, and lie inside it with the
size asked for.  Missing: requests within 8 bytes of 2^64 (see `C48_wraparound`) and pages of half the address space. -/
theorem C48_grants_disjoint_partial (A : Nat → Bool) (h : Heap) (ok : h.OK) (pagesize : Nat) (hps : pagesize < 2 ^ 63) (ops : List PoolOp)
    (hops : ∀ n, .alloc n ∈ ops → n ≤ 2 ^ 64 - 8) :
    ∃ r, poolRun A (newRun pagesize h) ops = some r ∧ r.grants.Pairwise Grant.disjoint ∧
      ∀ g ∈ r.grants, 8 ∣ g.off ∧ g.inside r.heap ∧ ∀ x ∈ h.live, x.1 ≠ g.block := by
  obtain ⟨r, e, ri⟩ := run_spec (A := A) (base := h.live) (by split <;> omega) ops _ (newRun_inv A ok pagesize)
    (fun op ho => by cases op with | alloc n => exact hops n ho | _ => trivial)
  refine ⟨r, e, ri.inv.pw, fun g hg => ?_⟩
  have go := ri.inv.gr g hg
  obtain ⟨sz, s1, s2⟩ := go.inside
  exact ⟨go.align, ⟨sz, s1, by have := go.le; omega⟩, go.keep⟩

/-- C48: a request that fits succeeds: it returns a block whenever the system gives memory. -/
theorem C48_succeeds (h : Heap) (ok : h.OK) (pagesize : Nat) (hps : pagesize < 2 ^ 63) (ops : List PoolOp)
    (hops : ∀ n, .alloc n ∈ ops → n ≤ 2 ^ 64 - 8) (n : Nat) (hn : 0 < n) (hn' : n ≤ 2 ^ 64 - 8) :
    ∃ r r', poolRun (fun _ => true) (newRun pagesize h) ops = some r ∧ poolRun (fun _ => true) r [.alloc n] = some r' ∧
      ∃ g, r'.grants = g :: r.grants ∧ g.amount = n := by
  obtain ⟨r, e, ri⟩ := run_spec (A := fun _ => true) (base := h.live) (by split <;> omega) ops _ (newRun_inv _ ok pagesize)
    (fun op ho => by cases op with | alloc n => exact hops n ho | _ => trivial)
  obtain ⟨r', e', ri'⟩ := step_spec (A := fun _ => true) (by split <;> omega) ri (.alloc n) hn'
  refine ⟨r, r', e, by rw [poolRun, e']; rfl, ?_⟩
  obtain ⟨o, p', h', ea, out⟩ := alloc_spec (A := fun _ => true) ri.inv (by rw [ri.page]; split <;> omega) hn'
  unfold poolStep at e'
  dsimp only at e'
  rw [ea] at e'
  cases o with
  | some x => injection e' with e'; subst e'; exact ⟨_, rfl, rfl⟩
  | none =>
    exfalso
    revert ea
    have hrec : ∀ (h : Heap) (x : BlockList) (b : Nat), h.OK → (∀ a ∈ x.arr.toList, a ∈ h.ids) → (x.arr = none → x.blocks = []) →
        ∃ l h', recordBlock (fun _ => true) h x b = some (true, l, h') := by
      intro h x b hok h1 h2
      rcases recordBlock_spec (fun _ => true) h hok x b h1 h2 with ⟨_, _, _, _, hf⟩ | ⟨h', _, he, _⟩
      · cases hf
      · exact ⟨_, h', he⟩
    unfold poolAlloc
    rw [if_neg (by omega)]
    dsimp only [hAlloc]
    rw [if_pos rfl, if_pos rfl]
    dsimp only
    by_cases hb : roundUp8 n > r.pool.pagesize
    · rw [if_pos hb]
      obtain ⟨l, h', er⟩ := hrec ⟨(r.heap.next, roundUp8 n) :: r.heap.live, r.heap.next + 1, r.heap.calls + 1⟩ r.pool.large r.heap.next
        (ri.inv.ok.cons rfl rfl) (fun a ha => List.mem_cons_of_mem _ (ri.inv.live a (List.mem_append_right _ (mem_arr_owned ha)))) ri.inv.arrL
      rw [er]; intro h; cases h
    · rw [if_neg hb]
      obtain ⟨l, h', er⟩ := hrec ⟨(r.heap.next, r.pool.pagesize) :: r.heap.live, r.heap.next + 1, r.heap.calls + 1⟩ r.pool.pages r.heap.next
        (ri.inv.ok.cons rfl rfl) (fun a ha => List.mem_cons_of_mem _ (ri.inv.live a (List.mem_append_left _ (mem_arr_owned ha)))) ri.inv.arrP
      rw [er]
      dsimp only
      intro h
      repeat' split at h
      all_goals cases h

/-- Non-vacuity: with 64-byte pages, requests of 10, 200, 60 and 5 bytes. -/
example : (poolRun (fun _ => true) (newRun 64 sampleHeap) [.alloc 10, .alloc 200, .alloc 60, .alloc 5]).map (·.grants) =
    some [⟨7, 0, 5⟩, ⟨5, 0, 60⟩, ⟨3, 0, 200⟩, ⟨1, 0, 10⟩] := by decide +kernel

/-- C48 fails at the top of `size_t`: a request of 2^64-1 bytes is rounded to 0 and "succeeds" with a pointer to no memory at all. -/
theorem C48_wraparound :
    ((poolRun (fun _ => true) (newRun 64 sampleHeap) [.alloc (2 ^ 64 - 1)]).map fun r => (r.grants, r.pool.allocUsed)) =
      some ([⟨1, 0, 2 ^ 64 - 1⟩], 0) := by decide +kernel

/-! ## C49 -/

/-- C49: no history frees a block twice, frees a block it does not own, or runs into an assertion: every history has an outcome, and the
blocks the application had are still there.  Missing (from "without leaking"): the page lost when its bookkeeping allocation fails, see
`C49_page_leak`. -/
theorem C49_no_double_free_partial (A : Nat → Bool) (h : Heap) (ok : h.OK) (pagesize : Nat) (hps : pagesize < 2 ^ 63) (ops : List PoolOp)
    (hops : ∀ n, .alloc n ∈ ops → n ≤ 2 ^ 64 - 8) :
    ∃ r, poolRun A (newRun pagesize h) ops = some r ∧ ∀ x ∈ h.live, x ∈ r.heap.live := by
  obtain ⟨r, e, ri⟩ := run_spec (A := A) (base := h.live) (by split <;> omega) ops _ (newRun_inv A ok pagesize)
    (fun op ho => by cases op with | alloc n => exact hops n ho | _ => trivial)
  exact ⟨r, e, fun x hx => (ri.inv.keep x hx).1⟩

/-- C49: if the system never refuses memory, emptying gives everything back: after any history that ends in `empty` the live blocks are
exactly those there were before the pool. -/
theorem C49_empty_frees_all (h : Heap) (ok : h.OK) (pagesize : Nat) (hps : pagesize < 2 ^ 63) (ops : List PoolOp)
    (hops : ∀ n, .alloc n ∈ ops → n ≤ 2 ^ 64 - 8) :
    ∃ r, poolRun (fun _ => true) (newRun pagesize h) (ops ++ [.empty]) = some r ∧ ∀ x, x ∈ r.heap.live ↔ x ∈ h.live := by
  obtain ⟨r, e, ri⟩ := run_spec (A := fun _ => true) (base := h.live) (by split <;> omega) ops _ (newRun_inv _ ok pagesize)
    (fun op ho => by cases op with | alloc n => exact hops n ho | _ => trivial)
  obtain ⟨r', e', ri'⟩ := step_spec (by split <;> omega) ri .empty trivial
  refine ⟨r', by rw [poolRun_append, e]; show (poolStep _ r .empty).bind _ = _; rw [e']; rfl, fun x => ⟨fun hx => ?_, fun hx => (ri'.inv.keep x hx).1⟩⟩
  rcases ri'.noleak (fun _ => rfl) x.1 (mem_ids_of hx) with h' | h'
  · obtain ⟨y, hy, hye⟩ := List.mem_map.1 h'
    have hy' := (ri'.inv.keep y hy).1
    have : x = y := heap_unique _ ri'.inv.ok.nodup hx hy' hye.symm
    rw [this]; exact hy
  · obtain ⟨h1, em, _⟩ := empty_spec ri.inv
    unfold poolStep at e'; dsimp only at e'; rw [em] at e'
    injection e' with e'; subst e'
    simp [BlockList.owned] at h'

/-- C49: recycling gives back exactly the blocks larger than a page: of the grants valid before, the memory of those is gone and the
memory of the others stays (to be reused). -/
theorem C49_recycle_frees_large (A : Nat → Bool) (h : Heap) (ok : h.OK) (pagesize : Nat) (hps : pagesize < 2 ^ 63) (h0 : pagesize ≠ 0)
    (ops : List PoolOp) (hops : ∀ n, .alloc n ∈ ops → n ≤ 2 ^ 64 - 8) :
    ∃ r r', poolRun A (newRun pagesize h) ops = some r ∧ poolRun A r [.recycle] = some r' ∧
      ∀ g ∈ r.grants, g.block ∈ r'.heap.live.map (·.1) ↔ roundUp8 g.amount ≤ pagesize := by
  obtain ⟨r, e, ri⟩ := run_spec (A := A) (base := h.live) (by split <;> omega) ops _ (newRun_inv A ok pagesize)
    (fun op ho => by cases op with | alloc n => exact hops n ho | _ => trivial)
  obtain ⟨h', e', l, n, inv⟩ := recycle_spec ri.inv
  refine ⟨r, _, e, by show (poolStep A r .recycle).bind _ = _; unfold poolStep; dsimp only; rw [e']; rfl, fun g hg => ?_⟩
  have go := ri.inv.gr g hg
  have hp : r.pool.pagesize = pagesize := by rw [ri.page, if_pos h0]
  have hbig := go.big
  rw [hp] at hbig
  dsimp only
  constructor
  · intro hm
    rw [l] at hm
    obtain ⟨x, hx, hxe⟩ := List.mem_map.1 hm
    have := (List.mem_filter.1 hx).2
    refine Nat.not_lt.1 (fun hb => ?_)
    have hl := mem_blocks_owned (hbig.1 hb)
    rw [← hxe] at hl
    simp [hl] at this
  · intro hle
    obtain ⟨sz, s1, s2⟩ := go.inside
    refine List.mem_map.2 ⟨(g.block, sz), ?_, rfl⟩
    rw [l]
    refine List.mem_filter.2 ⟨s1, ?_⟩
    have : g.block ∉ r.pool.large.owned := by
      unfold BlockList.owned
      rw [List.mem_append, not_or]
      exact ⟨go.arrL, fun hb => by have := hbig.2 hb; omega⟩
    simpa using this

/-- C49: after a recycle every page is reusable: as many requests of at most a page as the pool has pages are served without a single
request to the system, even if the system has no memory left. -/
theorem C49_recycled_pages_reused (A A' : Nat → Bool) (h : Heap) (ok : h.OK) (pagesize : Nat) (hps : pagesize < 2 ^ 63) (h0 : pagesize ≠ 0)
    (ops : List PoolOp) (hops : ∀ n, .alloc n ∈ ops → n ≤ 2 ^ 64 - 8) :
    ∃ r, poolRun A (newRun pagesize h) (ops ++ [.recycle]) = some r ∧
      ∀ ns : List Nat, (∀ n ∈ ns, 0 < n ∧ roundUp8 n ≤ pagesize) → ns.length ≤ r.pool.pages.blocks.length →
        ∃ r', poolRun A' r (ns.map .alloc) = some r' ∧ r'.heap = r.heap ∧ r'.grants.length = ns.length := by
  obtain ⟨r, e, ri⟩ := run_spec (A := A) (base := h.live) (by split <;> omega) ops _ (newRun_inv A ok pagesize)
    (fun op ho => by cases op with | alloc n => exact hops n ho | _ => trivial)
  have hp : r.pool.pagesize = pagesize := by rw [ri.page, if_pos h0]
  obtain ⟨h', e', l, n, inv⟩ := recycle_spec ri.inv
  refine ⟨_, by rw [poolRun_append, e]; show (poolStep A r .recycle).bind _ = _; unfold poolStep; dsimp only; rw [e']; rfl, fun ns hns hlen => ?_⟩
  obtain ⟨r', h1, h2, h3⟩ := small_allocs (A := A') ns
    ⟨{ r.pool with large := ⟨[], none⟩, nextPage := 0, allocBlock := none, allocUsed := 0 }, h', []⟩ inv.used (by dsimp only; rw [hp]; exact hps) (by dsimp only; rw [hp]; exact hns)
    (by dsimp only at hlen ⊢; omega)
  exact ⟨r', h1, h2, by rw [h3]; simp⟩

/-- C49 fails when the bookkeeping array cannot grow: request number 1 (the array of the first page) is refused, the page stays
allocated, and emptying the pool does not give it back. -/
theorem C49_page_leak :
    ((poolRun (fun n => n ≠ 1) (newRun 64 sampleHeap) [.alloc 10, .empty]).map fun r => r.heap.live) = some [(1, 64), (0, 100)] := by
  decide +kernel

end Rmq
