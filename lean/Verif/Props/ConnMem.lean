import Verif.Proofs.ConnMem
import Verif.Props.Pool
/-!
# C64, C65: the memory of a connection
-/
namespace Rmq

open PoolM

/-! ## C64 -/

/-- C64.  From any new connection, after any history of tunings, of things stored for channels or among the properties, and of releases, with
the system refusing memory in any pattern: nothing was freed twice; everything handed out for a channel and not released since *for that
channel* lies in memory obtained from the system, none of it overlaps anything else handed out (for whatever channel), a block of the
application, or the connection's own object and buffers; and after a successful tuning the output buffer has the size the library thinks it
has.  Missing: frame sizes of 0 (`C64_tune_zero`) and requests near 2^64 (`C48_wraparound`). -/
theorem C64_memory_partial (A : Nat → Bool) (h : Heap) (ok : h.OK) {clock : Bool} {c : CMem} {h1 : Heap} (hc : newConn A clock h = some (some c, h1))
    (ops : List ConnOp) (hops : ∀ op ∈ ops, op.sane) :
    ∃ r, connRun A ⟨c, h1, [], St.OK⟩ ops = some r ∧
      r.grants.Pairwise (fun g g' => g.2.disjoint g'.2) ∧
      (∀ g ∈ r.grants, 8 ∣ g.2.off ∧ g.2.inside r.heap ∧ (∀ x ∈ h.live, x.1 ≠ g.2.block) ∧
        g.2.block ≠ r.conn.self ∧ g.2.block ≠ r.conn.out ∧ g.2.block ≠ r.conn.sockBuf) ∧
      (∀ x ∈ h.live, x ∈ r.heap.live) ∧
      (r.tuned = St.OK → (r.conn.out, r.conn.outLen) ∈ r.heap.live) ∧ (r.conn.sockBuf, 131072) ∈ r.heap.live := by
  obtain ⟨r, e, ci⟩ := (new_inv ok hc).run ops hops
  refine ⟨r, e, ?_, fun g hg => ?_, fun x hx => (ci.w.appOk x hx).1, ci.out, ci.sock⟩
  · refine pairwise_by_key (·.1) _ r.grants (fun o => ?_) (fun g hg g' hg' hne => .inl (ci.owners_apart hg hg' hne))
    have key : ∀ p gs, (p, gs) ∈ tsOf r.conn r.grants → gs.Pairwise Grant.disjoint := fun p gs hm => (ci.w.pools _ hm).1.pw
    have : (gsOf r.grants o).Pairwise Grant.disjoint := by
      cases hg : gsOf r.grants o with
      | nil => exact .nil
      | cons g gs =>
        have hm : g ∈ gsOf r.grants o := by rw [hg]; exact List.mem_cons_self
        obtain ⟨y, hy, rfl⟩ := List.mem_map.1 hm
        obtain ⟨hy1, hy2⟩ := List.mem_filter.1 hy
        obtain ⟨p, hp, _⟩ := ci.grant hy1
        have : y.1 = o := by simpa using hy2
        rw [this] at hp
        rw [← hg]
        exact key p _ hp
    exact List.pairwise_map.1 this
  · obtain ⟨p, hp, hm, _⟩ := ci.grant hg
    have inv := (ci.w.pools _ hp).1
    have go := inv.gr g.2 hm
    obtain ⟨sz, s1, s2⟩ := go.inside
    have ht : Touch p (gsOf r.grants g.1) g.2.block := .inr (.inr ⟨_, hm, rfl⟩)
    refine ⟨go.align, ⟨sz, s1, by have := go.le; omega⟩, fun x hx e => (ci.w.appOk x hx).2.2 _ hp (e ▸ ht), fun e => ?_, fun e => ?_, fun e => ?_⟩
    · exact (ci.w.rawOk r.conn.self List.mem_cons_self).2 _ hp (e ▸ ht)
    · exact (ci.w.rawOk r.conn.out mem_raw_out).2 _ hp (e ▸ ht)
    · exact (ci.w.rawOk r.conn.sockBuf mem_raw_sock).2 _ hp (e ▸ ht)

/-- Two channels that share a bucket of the table, and what releasing one of them leaves. -/
example : ((newConn (fun _ => true) true sampleHeap).bind fun (c, h) => c.bind fun c =>
      connRun (fun _ => true) ⟨c, h, [], St.OK⟩ [.tune true 4096, .store 1 100, .store 17 200, .property 50, .store 1 8, .release 1]).map
        (fun r => (r.grants.map fun g => (g.1, g.2.amount), r.conn.outLen)) = some ([(none, 50), (some 17, 200)], 4096) := by decide +kernel

/-- C64 fails when a tuning is refused memory: the library then thinks its output buffer has the new size, while it has the old one. -/
theorem C64_tune_refused (A : Nat → Bool) (h : Heap) (ok : h.OK) {clock : Bool} {c : CMem} {h1 : Heap} (hc : newConn A clock h = some (some c, h1))
    (fm : Nat) (hfm : 0 < fm) (hA : A h1.calls = false) :
    ∃ r, connRun A ⟨c, h1, [], St.OK⟩ [.tune true fm] = some r ∧ r.tuned = St.NO_MEMORY ∧ r.conn.outLen = fm ∧ (r.conn.out, 65536) ∈ r.heap.live := by
  have ci := new_inv ok hc
  have hout : (c.out, c.outLen) ∈ h1.live := ci.out rfl
  have hlen : c.outLen = 65536 := (new_shape hc).1
  refine ⟨⟨{ c with frameMax := fm, outLen := fm }, { h1 with calls := h1.calls + 1 }, [], St.NO_MEMORY⟩, ?_, rfl, rfl, by rw [← hlen]; exact hout⟩
  have hl : c.out ∈ h1.live.map (·.1) := List.mem_map.2 ⟨_, hout, rfl⟩
  have e1 : hRealloc0 A h1 c.out fm = some (none, { h1 with calls := h1.calls + 1 }) := by
    unfold hRealloc0 hRealloc hAlloc
    rw [if_neg (by omega), if_pos hl, hA]
    rfl
  unfold connRun connStep tuneMem
  dsimp only
  rw [e1]
  rfl

/-- C64 fails for a frame size of 0 ("no limit", if neither the application nor the broker sets one): tuning fails, and destroying the
connection then frees the output buffer a second time. -/
theorem C64_tune_zero (A : Nat → Bool) (h : Heap) (ok : h.OK) {clock : Bool} {c : CMem} {h1 : Heap} (hc : newConn A clock h = some (some c, h1)) :
    ∃ r, connRun A ⟨c, h1, [], St.OK⟩ [.tune true 0] = some r ∧ r.tuned = St.NO_MEMORY ∧ destroyConn r.conn r.heap = none := by
  have ci := new_inv ok hc
  have ht : c.table = List.replicate TABLE [] := (new_shape hc).2
  have hout : (c.out, c.outLen) ∈ h1.live := ci.out rfl
  have hl : c.out ∈ h1.live.map (·.1) := List.mem_map.2 ⟨_, hout, rfl⟩
  refine ⟨⟨{ c with frameMax := 0, outLen := 0 }, { h1 with live := h1.live.filter (fun p => p.1 ≠ c.out) }, [], St.NO_MEMORY⟩, ?_, rfl, ?_⟩
  · have e1 : hRealloc0 A h1 c.out 0 = some (none, { h1 with live := h1.live.filter (fun p => p.1 ≠ c.out) }) := by
      unfold hRealloc0 hFree
      rw [if_pos rfl, if_pos hl]
      rfl
    unfold connRun connStep tuneMem
    dsimp only
    rw [e1]
    rfl
  · unfold destroyConn
    dsimp only
    rw [ht]
    have : ∀ h : Heap, destroyTable h (List.replicate TABLE []) = some h := fun h => rfl
    rw [this]
    show (hFree _ c.out).bind _ = none
    have : hFree { h1 with live := h1.live.filter (fun p => p.1 ≠ c.out) } c.out = none := by
      unfold hFree
      rw [if_neg]
      intro hm
      obtain ⟨x, hx, he⟩ := List.mem_map.1 hm
      have := (List.mem_filter.1 hx).2
      simp [he] at this
    rw [this]
    rfl

/-! ## C65 -/

/-- C65: after any such history the connection can be destroyed, nothing is freed twice, the application's blocks are still there, and if
the system never refused memory there is nothing else.  Missing: what is lost if the system did refuse memory (`C49_page_leak`,
`C65_new_leak`), and the socket object (C52, C55). -/
theorem C65_destroy_partial (A : Nat → Bool) (h : Heap) (ok : h.OK) {clock : Bool} {c : CMem} {h1 : Heap} (hc : newConn A clock h = some (some c, h1))
    (ops : List ConnOp) (hops : ∀ op ∈ ops, op.sane) :
    ∃ r h2, connRun A ⟨c, h1, [], St.OK⟩ ops = some r ∧ destroyConn r.conn r.heap = some h2 ∧ (∀ x ∈ h.live, x ∈ h2.live) ∧
      ((∀ n, A n = true) → ∀ x ∈ h2.live, x ∈ h.live) := by
  obtain ⟨r, e, ci⟩ := (new_inv ok hc).run ops hops
  obtain ⟨h2, e2, w⟩ := ci.destroy
  refine ⟨r, h2, e, e2, fun x hx => (w.appOk x hx).1, fun hA x hx => ?_⟩
  rcases w.noleak hA x.1 (mem_ids_of (n := x.2) hx) with h3 | h3 | ⟨t, h3, _⟩
  · obtain ⟨y, hy, hye⟩ := List.mem_map.1 h3
    have : x = y := heap_unique _ w.ok.nodup hx (w.appOk y hy).1 hye.symm
    rw [this]
    exact hy
  · cases h3
  · cases h3

/-- C65: creating a connection never frees anything that is not its own; if the system never refuses memory, it fails only for lack of a
clock, and then leaves nothing behind. -/
theorem C65_new (A : Nat → Bool) (clock : Bool) (h : Heap) (ok : h.OK) :
    ∃ o h1, newConn A clock h = some (o, h1) ∧ (∀ x ∈ h.live, x ∈ h1.live) ∧
      ((∀ n, A n = true) → (o.isSome = clock) ∧ (clock = false → ∀ x ∈ h1.live, x ∈ h.live)) := by
  have nm : ∀ {raw : List Nat} {self : Nat} {h' : Heap}, World A h.live (self :: raw) [] h' →
      ∃ h2, hFree h' self = some h2 ∧ (∀ x ∈ h.live, x ∈ h2.live) ∧ World A h.live raw [] h2 := fun w => by
    obtain ⟨h2, e2, w2, _⟩ := w.free
    exact ⟨h2, e2, fun x hx => (w2.appOk x hx).1, w2⟩
  unfold newConn
  cases e1 : hAlloc A h CONN_SIZE with
  | mk o h1 =>
  cases o with
  | none =>
    obtain ⟨l, m, f⟩ := hAlloc_none e1
    exact ⟨_, _, rfl, by rw [l]; exact fun _ h => h, fun hA => by
      exfalso
      unfold hAlloc at e1
      rw [if_pos (hA _)] at e1
      cases e1⟩
  | some self =>
  obtain ⟨w1, l1, k1⟩ := (World.start (A := A) ok).block e1
  dsimp only
  cases clock with
  | false =>
    rw [if_pos (by simp)]
    obtain ⟨h2, e2, f, w2⟩ := nm w1
    rw [e2]
    refine ⟨_, _, rfl, f, fun hA => ⟨rfl, fun _ x hx => ?_⟩⟩
    rcases w2.noleak hA x.1 (mem_ids_of (n := x.2) hx) with h3 | h3 | ⟨t, h3, _⟩
    · obtain ⟨y, hy, hye⟩ := List.mem_map.1 h3
      have : x = y := heap_unique _ w2.ok.nodup hx (w2.appOk y hy).1 hye.symm
      rw [this]
      exact hy
    · cases h3
    · cases h3
  | true =>
  rw [if_neg (by simp)]
  cases e2 : hAlloc A h1 65536 with
  | mk o h2 =>
  cases o with
  | none =>
    obtain ⟨l, m, f⟩ := hAlloc_none e2
    obtain ⟨h3, e3, f3, _⟩ := nm (w1.heap l m)
    dsimp only
    rw [e3]
    exact ⟨_, _, rfl, f3, fun hA => by
      exfalso
      unfold hAlloc at e2
      rw [if_pos (hA _)] at e2
      cases e2⟩
  | some out =>
  obtain ⟨w2, l2, k2⟩ := w1.block e2
  dsimp only
  cases e3 : hAlloc A h2 SOCK_BUF with
  | mk o h3 =>
  cases o with
  | none =>
    obtain ⟨l, m, f⟩ := hAlloc_none e3
    obtain ⟨h4, e4, f4, _⟩ := nm ((w2.heap l m).perm (.swap _ _ _) (.refl _))
    dsimp only
    rw [e4]
    exact ⟨_, _, rfl, f4, fun hA => by
      exfalso
      unfold hAlloc at e3
      rw [if_pos (hA _)] at e3
      cases e3⟩
  | some sock => exact ⟨_, _, rfl, fun x hx => (w2.block e3).2.2 _ (k2 _ (k1 _ hx)), fun _ => ⟨rfl, fun h => nomatch h⟩⟩

/-- C65 fails when the third request of amqp_new_connection (the input buffer) is refused: the output buffer is lost. -/
theorem C65_new_leak : (newConn (fun n => n ≠ 2) true sampleHeap).map (fun r => (r.1, r.2.live)) = some (none, [(2, 65536), (0, 100)]) := by
  decide +kernel

/-- A connection created, used and destroyed. -/
example : ((newConn (fun _ => true) true sampleHeap).bind fun (c, h) => c.bind fun c =>
      (connRun (fun _ => true) ⟨c, h, [], St.OK⟩ [.tune true 4096, .store 1 100, .store 17 5000, .property 50, .store 1 8]).bind fun r =>
        (destroyConn r.conn r.heap).map (·.live)) = some [(0, 100)] := by decide +kernel

end Rmq
