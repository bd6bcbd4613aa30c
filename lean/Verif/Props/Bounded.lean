import Verif.Proofs.Bounded
import Verif.Props.ConnMem
/-!
# C88: memory in use is bounded by what is pending, not by how long the connection has lived
-/
namespace Rmq
open PoolM

/-- C88: a connection whose channels are released often enough — at no time more than `K` octets are pending for any one of them — uses no
more memory after any history than is fixed by `K`, the number of channels and the largest frame size agreed, however long the history is.
Missing: a system that refuses memory now and then; there each refusal can cost a page for good, see `C88_refused_grows`. -/
theorem C88_bounded_partial (A : Nat → Bool) (hA : ∀ n, A n = true) (h : Heap) (ok : h.OK) {clock : Bool} {c : CMem} {h1 : Heap}
    (hc : PoolM.newConn A clock h = some (some c, h1)) (K M : Nat) (channels : List UInt16) (ops : List ConnOp) (hops : ∀ op ∈ ops, op.sane)
    (hK : AtMost K ops) (hM : 65536 ≤ M ∧ M < 2 ^ 31) (htune : ∀ clock fm, .tune clock fm ∈ ops → fm ≤ M)
    (hch : ∀ ch n, .store ch n ∈ ops → ch ∈ channels) :
    ∃ r, connRun A ⟨c, h1, [], St.OK⟩ ops = some r ∧
      octets r.heap ≤ octets h + (640 + M + 131072) + channels.length * (72 + 6 * K + 2 * M) + (6 * K + 1024) := by
  have ci := new_inv ok hc
  obtain ⟨r, e, ci1⟩ := ci.run ops hops
  have k := (Kept.new (K := K) (chs := channels) hA hc hM.1).run hA (by omega) ops ci hops htune hch (fun b hb o => hK b hb o) e
  exact ⟨r, e, k.octets ci1.keys⟩

/-- C88: the same for a pool of the application's own: at most six times the most that was ever pending, and two pages. -/
theorem C88_pool (A : Nat → Bool) (hA : ∀ n, A n = true) (h : Heap) (ok : h.OK) (pagesize K : Nat) (hps : 0 < pagesize ∧ pagesize < 2 ^ 63) (ops : List PoolOp)
    (hops : ∀ n, .alloc n ∈ ops → n ≤ 2 ^ 64 - 8) (hK : ∀ before, before <+: ops → poolPending before ≤ K) :
    ∃ r, poolRun A (newRun pagesize h) ops = some r ∧ octets r.heap ≤ octets h + (6 * K + 2 * pagesize) := by
  have hsane : ∀ op ∈ ops, op.sane := fun op ho => by cases op with | alloc n => exact hops n ho | _ => trivial
  obtain ⟨r, e, ri⟩ := run_spec (A := A) (base := h.live) (by split <;> omega) ops _ (newRun_inv A ok pagesize) hsane
  have hp : (newRun pagesize h).pool.pagesize = pagesize := if_pos (by omega)
  obtain ⟨g1, ls, g2, g3, _⟩ := poolRun_claims hA (K := K) (ps := pagesize) (S := 0) hps.2 (rest := h.live) ops hsane hK hp
    ⟨[], .refl _, Within.init _ (Nat.zero_le _), ok⟩ e
  refine ⟨r, e, ?_⟩
  have := octets_claims g3
  rw [g1] at this
  unfold octets
  rw [(g2.map (·.2)).sum_nat, List.map_append, List.sum_append_nat]
  omega

/-- The rounds of `C88_refused_grows`. -/
def rounds : Nat → List PoolOp
  | 0 => []
  | n + 1 => .alloc 1 :: .empty :: rounds n

/-- C88 fails when the system refuses memory: in `n` rounds of asking a pool for one octet and emptying it, never more than 8 octets are
pending, nothing is ever handed out, and yet `n` pages are lost for good. -/
theorem C88_refused_grows (h : Heap) (hc : h.calls % 2 = 0) (n : Nat) :
    (∀ before, before <+: rounds n → poolPending before ≤ 8) ∧
    ∃ r, poolRun (fun k => k % 2 = 0) (newRun 4096 h) (rounds n) = some r ∧ r.grants = [] ∧ octets r.heap = octets h + n * 4096 := by
  have pend : ∀ n before, before <+: rounds n → poolPending before ≤ 8 := by
    intro n
    induction n with
    | zero => intro b hb; rw [show b = [] from List.prefix_nil.1 hb]; decide
    | succ n ih =>
      intro b hb
      rcases b with _ | ⟨x, b⟩
      · decide
      · obtain ⟨rfl, hb1⟩ := List.cons_prefix_cons.1 hb
        rcases b with _ | ⟨y, b⟩
        · decide
        · obtain ⟨rfl, hb2⟩ := List.cons_prefix_cons.1 hb1
          exact ih b hb2
  refine ⟨pend n, ?_⟩
  induction n generalizing h with
  | zero => exact ⟨_, rfl, rfl, by simp [newRun]⟩
  | succ n ih =>
    obtain ⟨r, e, g, o⟩ := ih ⟨(h.next, 4096) :: h.live, h.next + 1, h.calls + 1 + 1⟩ (by dsimp only; omega)
    refine ⟨r, ?_, g, ?_⟩
    · rw [← e]
      show (poolStep _ _ _).bind _ = _
      have e1 : poolStep (fun k => decide (k % 2 = 0)) (newRun 4096 h) (.alloc 1) =
          some ⟨{ initPool 4096 with allocBlock := some h.next }, ⟨(h.next, 4096) :: h.live, h.next + 1, h.calls + 1 + 1⟩, []⟩ := by
        have h1 : (h.calls + 1) % 2 ≠ 0 := by omega
        simp [poolStep, poolAlloc, newRun, initPool, roundUp8, hAlloc, hc, recordBlock, h1]
      rw [e1]
      rfl
    · rw [o]
      unfold octets
      rw [List.map_cons, List.sum_cons, Nat.succ_mul]
      omega

/-- `n` deliveries on channel 1, each released: never more than 304 octets are pending. -/
def served : Nat → List ConnOp
  | 0 => []
  | n + 1 => .store 1 100 :: .store 1 200 :: .release 1 :: served n

theorem served_pending (n : Nat) : AtMost 304 (served n) := by
  induction n with
  | zero => intro b hb o; rw [show b = [] from List.prefix_nil.1 hb]; exact Nat.zero_le _
  | succ n ih =>
    intro b hb o
    rcases b with _ | ⟨x, b⟩
    · exact Nat.zero_le _
    · obtain ⟨rfl, hb1⟩ := List.cons_prefix_cons.1 hb
      rcases b with _ | ⟨y, b⟩
      · by_cases ho : o = some 1 <;> simp [pending, pendingStep, rounded, ho]
      · obtain ⟨rfl, hb2⟩ := List.cons_prefix_cons.1 hb1
        rcases b with _ | ⟨z, b⟩
        · by_cases ho : o = some 1 <;> simp [pending, pendingStep, rounded, ho]
        · obtain ⟨rfl, hb3⟩ := List.cons_prefix_cons.1 hb2
          have := ih b hb3 o
          by_cases ho : o = some 1
          · subst ho; simpa [pending, pendingStep] using this
          · simpa [pending, pendingStep, ho] using this

theorem mem_served : ∀ {n op}, op ∈ served n → op ∈ [ConnOp.store 1 100, .store 1 200, .release 1]
  | n + 1, _, h => (List.mem_append.1 (show _ ∈ [ConnOp.store 1 100, .store 1 200, .release 1] ++ served n from h)).elim id mem_served

/-- C88 is not vacuous: any number of deliveries on one channel, each released. -/
example (n : Nat) : ∃ c h1 r, PoolM.newConn (fun _ => true) true sampleHeap = some (some c, h1) ∧
    connRun (fun _ => true) ⟨c, h1, [], St.OK⟩ (served n) = some r ∧
    octets r.heap ≤ octets sampleHeap + (640 + 65536 + 131072) + 1 * (72 + 6 * 304 + 2 * 65536) + (6 * 304 + 1024) := by
  have hc : ∃ c h1, PoolM.newConn (fun _ => true) true sampleHeap = some (some c, h1) := ⟨_, _, rfl⟩
  obtain ⟨c, h1, hc⟩ := hc
  obtain ⟨r, e, o⟩ := C88_bounded_partial (fun _ => true) (fun _ => rfl) sampleHeap sampleHeap_ok hc 304 65536 [1] (served n)
    (fun op ho => by
      have := mem_served ho
      simp only [List.mem_cons, List.not_mem_nil, or_false] at this
      rcases this with rfl | rfl | rfl <;> simp [ConnOp.sane])
    (served_pending n) (by decide)
    (fun _ _ ho => by simpa using mem_served ho)
    (fun ch k ho => by
      have := mem_served ho
      simp only [List.mem_cons, List.not_mem_nil, or_false, ConnOp.store.injEq, reduceCtorEq] at this
      rcases this with ⟨rfl, _⟩ | ⟨rfl, _⟩ <;> simp)
  exact ⟨c, h1, r, hc, e, o⟩

/-- Without releases the memory grows with the history, though each request is small. -/
example : (poolRun (fun _ => true) (newRun 64 sampleHeap) (List.replicate 3 (.alloc 60))).map (fun r => octets r.heap) = some (100 + 3 * 64 + 24) := by decide +kernel
example : (poolRun (fun _ => true) (newRun 64 sampleHeap) (List.replicate 3 [PoolOp.alloc 60, .recycle]).flatten).map (fun r => octets r.heap) =
    some (100 + 64 + 8) := by decide +kernel

end Rmq
