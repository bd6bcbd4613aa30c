import Verif.Proofs.Threads

/-!
# C104 — Threads may share the TLS library

`procs0 asserts progs` is a process with one thread per program; `Procs.run sched` lets them act, one access to what they share at a time,
in the order of the schedule; it is `none` if an assertion fails, an object that is gone (or never was) is used or released, or a mutex is
given back by a thread that does not hold it.
-/

namespace Rmq

/-- C104 (what is missing: programs in which BIO_meth_new fails; see `C104_failed_setup`): whatever the threads do with TLS sockets of their
own and with the engine, and whatever the schedule, nothing undefined happens — no object is used after it is gone, none is released twice, no
assertion fails — and no data race ever arises, even though amqp_openssl_bio reads the shared variables without taking the mutex. -/
theorem C104_safe_partial (asserts : Bool) (progs : List (List TlsCmd)) (hs : ∀ p, p ∈ progs → SetUpsWork p) (sched : List Nat) :
    ∃ w, Procs.run sched (procs0 asserts progs) = some w ∧ ¬ w.Race := by
  obtain ⟨w, ns, S, e, _, h⟩ := (Thr.inv0 asserts progs hs).run sched
  exact ⟨w, e, h.noRace⟩

/-- C104 (what is missing: as for `C104_safe_partial`): no schedule leads to a deadlock — some thread can always act until all have finished —
and from every state the threads can all finish. -/
theorem C104_progress_partial (asserts : Bool) (progs : List (List TlsCmd)) (hs : ∀ p, p ∈ progs → SetUpsWork p) (sched : List Nat) (w : Procs)
    (hw : Procs.run sched (procs0 asserts progs) = some w) :
    (¬ w.Finished → ∃ i, w.Ready i) ∧ ∃ more w', Procs.run more w = some w' ∧ w'.Finished := by
  obtain ⟨w1, ns, S, e, _, h⟩ := (Thr.inv0 asserts progs hs).run sched
  rw [hw] at e; cases e
  obtain ⟨more, w', _, _, e', _, _, hf⟩ := Thr.finish h
  exact ⟨h.ready, more, w', e', hf⟩

/-- C104 (what is missing: as for `C104_safe_partial`): when all threads have finished, whatever the schedule was, the mutex is free, the
counter is the number of sockets they are left with, the BIO method is in place iff there are any, and nothing else is left over but the
engine. -/
theorem C104_end_partial (asserts : Bool) (progs : List (List TlsCmd)) (hs : ∀ p, p ∈ progs → SetUpsWork p) (sched : List Nat) (w : Procs)
    (hw : Procs.run sched (procs0 asserts progs) = some w) (hf : w.Finished) :
    w.owner = none ∧ w.sh.g.conns = socketsLeftAll progs ∧
    (0 < socketsLeftAll progs → w.sh.g.init = 1 ∧ w.sh.g.bioInit = 1 ∧ w.sh.g.method ∈ w.sh.heap) ∧
    (socketsLeftAll progs = 0 → w.sh.g.init = 0 ∧ w.sh.g.bioInit = 0 ∧ w.sh.g.method = 0) ∧
    (∀ p, p ∈ w.sh.heap → p = w.sh.g.method ∨ p = w.sh.g.engine) ∧ w.sh.heap.Nodup := by
  obtain ⟨w1, ns, S, e, hl, h⟩ := (Thr.inv0 asserts progs hs).run sched
  rw [hw] at e; cases e
  obtain ⟨ho, hsh, hg⟩ := h.finished hf
  have hlen : w.threads.length = progs.length := by rw [hl]; exact List.length_map ..
  have ht : Thr.total (fun i => socketsLeft (progs.getD i []) 0) w.threads.length = socketsLeftAll progs := by
    rw [hlen]; exact Thr.total_list (fun p => socketsLeft p 0) [] progs
  rw [ht] at hg
  rw [hsh]
  exact ⟨ho, hg.conns, hg.up, hg.down, hg.owned, hg.nodup⟩

/-- C104 (what is missing: as for `C104_safe_partial`): under every fair schedule — one that lets each thread act again and again — all
threads come to their ends after finitely many actions. -/
theorem C104_fair_partial (asserts : Bool) (progs : List (List TlsCmd)) (hs : ∀ p, p ∈ progs → SetUpsWork p) (σ : Nat → Nat)
    (hσ : ∀ i, i < progs.length → ∀ n, ∃ m, n ≤ m ∧ σ m = i) :
    ∃ n w, Procs.run ((List.range n).map σ) (procs0 asserts progs) = some w ∧ w.Finished := by
  obtain ⟨q, w, e, f⟩ := Thr.fair_finish σ progs.length hσ _ _ _ _ 0 rfl (by simp [procs0]) (Thr.inv0 asserts progs hs)
  exact ⟨q, w, by rw [List.range_eq_range']; exact e, f⟩


/-- C104: the calls are atomic, whatever fails in them and whatever the schedule: whenever the mutex is free, the shared variables are what
the calls that have taken it leave when they are made one after the other in that order (by the functions C52 is about). -/
theorem C104_atomic (asserts : Bool) (progs : List (List TlsCmd)) (sched : List Nat) (w : Procs)
    (hw : Procs.run sched (procs0 asserts progs) = some w) (ho : w.owner = none) :
    ∃ g, oneByOne asserts (w.calls.map (·.2)) tlsGlobal0 = some g ∧ Holds w.sh g := by
  obtain ⟨g, e, h⟩ := ((Thr.atom0 asserts progs).run sched hw).free ho
  exact ⟨g, e, h.1⟩

/-- One thread fails to set the BIO method up; another creates a socket, connects and uses it. -/
def unluckyThread : List (List TlsCmd) :=
  [[.create ⟨true, false, true, true⟩], [.create ⟨true, true, true, true⟩, .connect 0 true, .io 0]]

/-- C104 (limit): when BIO_meth_new fails for one thread, cleaning up after it (amqp_ssl_socket_delete decrements a counter that was never
incremented) takes down the BIO method another thread has set up in the meantime: the session of the other thread uses it after it was
released — and the other thread may read the variable as it is being written.  One after the other, the same programs do no harm. -/
theorem C104_failed_setup :
    Procs.run (List.replicate 6 0 ++ List.replicate 12 1 ++ List.replicate 12 0 ++ [1]) (procs0 false unluckyThread) = none ∧
    (∃ w, Procs.run (List.replicate 6 0 ++ List.replicate 10 1 ++ List.replicate 7 0) (procs0 false unluckyThread) = some w ∧ w.Race) ∧
    (∃ w, Procs.run (List.replicate 20 0 ++ List.replicate 20 1) (procs0 false unluckyThread) = some w ∧ w.sh.g.conns = 1) := by
  refine ⟨rfl, ⟨_, rfl, ⟨0, 1, _, _, .method, true, false, by decide, rfl, rfl, rfl, rfl, .inl rfl⟩⟩, ⟨_, rfl, rfl⟩⟩

/-- Three threads: create, connect, use, delete; create with a failing context; set an engine twice. -/
def threeThreads : List (List TlsCmd) :=
  [[.create ⟨true, true, true, true⟩, .connect 0 true, .io 0, .delete 0], [.create ⟨true, true, false, true⟩, .create ⟨true, true, true, true⟩],
   [.engine (some (true, true)), .engine (some (true, false))]]

/-- The hypotheses are met, and round-robin scheduling brings the three to their ends: one socket is left. -/
theorem C104_sample : (∀ p, p ∈ threeThreads → SetUpsWork p) ∧
    ∃ w, Procs.run (List.replicate 80 [0, 1, 2]).flatten (procs0 true threeThreads) = some w ∧ w.Finished ∧ w.sh.g.conns = 1 ∧
      w.calls.length = 7 := by
  refine ⟨?_, _, rfl, ?_, rfl, rfl⟩
  · intro p hp
    simp only [threeThreads, List.mem_cons, List.not_mem_nil, or_false] at hp
    rcases hp with rfl | rfl | rfl
    · exact ⟨rfl, trivial⟩
    · exact ⟨rfl, rfl, trivial⟩
    · exact trivial
  · intro c hc
    have hc : c ∈ [Code.done, Code.done, Code.done] := hc
    simp only [List.mem_cons, List.not_mem_nil, or_false, or_self] at hc
    exact hc

/-- Round-robin is fair. -/
example : ∀ i, i < threeThreads.length → ∀ n, ∃ m, n ≤ m ∧ m % 3 = i := fun i hi n => by
  have : threeThreads.length = 3 := rfl
  exact ⟨3 * n + i, by omega, by omega⟩

end Rmq
