import Verif.Proofs.Sockets
/-!
# C103: a connection owns its sockets

Histories of an application's calls, from nothing: connections are made, get TCP and TLS sockets or a descriptor of the application's, use them,
replace them, and are destroyed (Model/Sockets.lean); the operating system and OpenSSL answer as they like.  `Allowed`, `Orderly`, `balance`,
`handed`, `NoMishap` are in Spec/Sockets.lean.

The theorems are partial: the full claim has no hypothesis `NoMishap` (no close() failed), no restriction on amqp_tcp_socket_set_sockfd (in
`Allowed`), and sessions are given back whatever the time limits are.  The code does not keep it: C103_failed_close, C103_replaced_lost,
C103_session_lost.
-/
namespace Rmq

/-- C103: no allowed history uses a socket, a connection or a TLS session that does not exist (any more), if no close fails. -/
theorem C103_defined_partial (O : Os) (hO : ∀ i, O.closeOk i = true) (ops : List AppOp) (ha : Allowed O ops noSockets []) :
    appRun O ops noSockets [] ≠ .ub :=
  run_ne_ub O hO ops noSockets [] noSockets_tidy noSockets_sound ha

/-- C103: in every allowed history (so at every moment of it) each call of the library finds the descriptor and the TLS session it works on open:
opened by the library, or handed over by the application, and not closed since. -/
theorem C103_orderly_partial (O : Os) (ops : List AppOp) (w : Sockets) (l : OsLog) (ha : Allowed O ops noSockets [])
    (h : appRun O ops noSockets [] = .ok w l) (hc : NoMishap l) : Orderly (fun r => handed r ops) l := by
  obtain ⟨m, hm, _, g⟩ := run_spec h noSockets_tidy ha
  rw [List.nil_append] at hm
  subst hm
  obtain ⟨_, leak, _, hmv⟩ := g hc noSockets_sound
  exact hmv.1.mono fun r => by show ownL [] r + handed r ops ≤ _; unfold ownL; omega

/-- C103: the descriptors that are open are those of the connections, as amqp_get_sockfd reports them. -/
theorem C103_held_partial (O : Os) (ops : List AppOp) (w : Sockets) (l : OsLog) (ha : Allowed O ops noSockets [])
    (h : appRun O ops noSockets [] = .ok w l) (hc : NoMishap l) (f : Int) :
    0 < handed (.fd f) ops + balance (.fd f) l ↔ f ≠ -1 ∧ ∃ c, w.getSockfd c l = .ok f l := by
  obtain ⟨m, hm, ht, g⟩ := run_spec h noSockets_tidy ha
  rw [List.nil_append] at hm
  subst hm
  obtain ⟨_, leak, hl, hmv⟩ := g hc noSockets_sound
  have h1 := hmv.2 (.fd f)
  have h2 := hl.2.1 f
  have h3 : ownL noSockets.objs (.fd f) = 0 := rfl
  rw [← ht.own_fd f l]
  dsimp only at h1
  rw [h3, h2] at h1
  omega

theorem handed_session (k : Nat) (ops : List AppOp) : handed (.session k) ops = 0 := by
  induction ops with
  | nil => rfl
  | cons op ops ih =>
    rw [handed_cons, ih]
    cases op with
    | use c op => cases op <;> simp [handed]
    | _ => simp [handed]

/-- C103: when no connection is left, every descriptor that was opened or handed over has been closed, exactly once; and every TLS session has
been freed, if nothing was opened with a time limit. -/
theorem C103_returned_partial (O : Os) (ops : List AppOp) (w : Sockets) (l : OsLog) (ha : Allowed O ops noSockets [])
    (h : appRun O ops noSockets [] = .ok w l) (hc : NoMishap l) (hg : w.allGone) :
    (∀ f, handed (.fd f) ops + balance (.fd f) l = 0) ∧ ((∀ op ∈ ops, op.unlimited) → ∀ k, balance (.session k) l = 0) := by
  obtain ⟨m, hm, ht, g⟩ := run_spec h noSockets_tidy ha
  rw [List.nil_append] at hm
  subst hm
  obtain ⟨_, leak, hl, hmv⟩ := g hc noSockets_sound
  refine ⟨fun f => ?_, fun hu k => ?_⟩
  · have h1 := hmv.2 (.fd f)
    have h2 := hl.2.1 f
    have h3 : ownL noSockets.objs (.fd f) = 0 := rfl
    have h4 := ht.gone hg (.fd f)
    dsimp only at h1
    omega
  · have h1 := hmv.2 (.session k)
    have h2 : leak (.session k) = 0 := by rw [hl.2.2 hu]; rfl
    have h3 : ownL noSockets.objs (.session k) = 0 := rfl
    have h4 := ht.gone hg (.session k)
    have h5 : handed (.session k) ops = 0 := handed_session k ops
    dsimp only at h1
    omega

/-- C103: giving a connection another socket, or destroying it, closes the descriptor it has. -/
theorem C103_replaced (O : Os) (ops : List AppOp) (w w' : Sockets) (l l' : OsLog) (op : AppOp) (c : Nat) (f : Int)
    (ha : Allowed O ops noSockets []) (h : appRun O ops noSockets [] = .ok w l) (hf : w.getSockfd c l = .ok f l) (h1 : f ≠ -1)
    (hop : op = .tcpSocketNew c true ∨ op = .sslSocketNew c true ∨ (∃ g, op = .setSockfd c g true) ∨ op = .destroy c)
    (hs : op.step O w l = .ok w' l') :
    (∃ m ok, l' = l ++ m ∧ Sys.close f ok ∈ m) ∧
    (op = .tcpSocketNew c true ∨ op = .sslSocketNew c true → w'.getSockfd c l' = .ok (-1) l') ∧
    (∀ g, op = .setSockfd c g true → w'.getSockfd c l' = .ok g l') ∧ (op = .destroy c → ¬ w'.alive c) := by
  obtain ⟨_, _, ht, _⟩ := run_spec h noSockets_tidy ha
  exact replaced_spec ht hf h1 hop hs


/-! ## Examples -/

/-- `AppOp.allowed`, decided. -/
def AppOp.allowedB (w : Sockets) : AppOp → Bool
  | .newConnection _ => true
  | .tcpSocketNew c _ | .sslSocketNew c _ | .setSockfd c _ _ | .getSockfd c | .destroy c => (w.conns[c]?.getD none).isSome
  | .use c (.setFd _) => match (w.conns[c]?.getD none).getD none with | some i => decide (w.objs[i]? = some (some (.tcp (-1)))) | none => false
  | .use c _ => ((w.conns[c]?.getD none).getD none).isSome

theorem AppOp.allowedB_sound {w : Sockets} {op : AppOp} (h : op.allowedB w = true) : op.allowed w := by
  have al : ∀ c, (w.conns[c]?.getD none).isSome = true → w.alive c := fun c h => by
    cases hc : w.conns[c]? with
    | none => rw [hc] at h; cases h
    | some a =>
      cases a with
      | none => rw [hc] at h; cases h
      | some s => exact ⟨s, hc⟩
  have ref : ∀ {c i : Nat}, (w.conns[c]?.getD none).getD none = some i → w.conns[c]? = some (some (some i)) := fun {c i} h => by
    cases hc : w.conns[c]? with
    | none => rw [hc] at h; cases h
    | some a =>
      cases a with
      | none => rw [hc] at h; cases h
      | some s => rw [hc] at h; rw [show s = some i from h]
  have us : ∀ c, ((w.conns[c]?.getD none).getD none).isSome = true → ∃ i, w.conns[c]? = some (some (some i)) := fun c h => by
    obtain ⟨i, hi⟩ := Option.isSome_iff_exists.mp h
    exact ⟨i, ref hi⟩
  cases op with
  | newConnection ok => trivial
  | use c op =>
    cases op with
    | setFd f =>
      have h : (match (w.conns[c]?.getD none).getD none with | some i => decide (w.objs[i]? = some (some (.tcp (-1)))) | none => false) = true := h
      cases hc : (w.conns[c]?.getD none).getD none with
      | none => rw [hc] at h; cases h
      | some i =>
        rw [hc] at h
        have h := of_decide_eq_true h
        refine ⟨⟨i, ref hc⟩, fun j fd h1 h2 => ?_⟩
        rw [ref hc] at h1
        cases h1
        rw [h] at h2
        cases h2
        rfl
    | _ => exact us c h
  | _ => exact al _ h

/-- `Allowed`, decided by running the history. -/
def allowedRun (O : Os) : List AppOp → Sockets → OsLog → Bool
  | [], _, _ => true
  | op :: rest, w, l => op.allowedB w && (match op.step O w l with | .ok w' l' => allowedRun O rest w' l' | _ => true)

theorem allowedRun_sound {O : Os} : ∀ {ops : List AppOp} {w : Sockets} {l : OsLog}, allowedRun O ops w l = true → Allowed O ops w l := by
  intro ops
  induction ops with
  | nil => intro _ _ _; trivial
  | cons op ops ih =>
    intro w l h
    unfold allowedRun at h
    rw [Bool.and_eq_true] at h
    refine ⟨AppOp.allowedB_sound h.1, fun w' l' hs => ih ?_⟩
    have h := h.2
    rw [hs] at h
    exact h

/-- `NoMishap`, decided. -/
def cleanB (l : List Sys) : Bool := l.all fun e => match e with | .close _ false => false | .resolve _ _ (some []) => false | _ => true

theorem cleanB_sound {l : List Sys} (h : cleanB l = true) : NoMishap l := by
  unfold cleanB at h
  rw [List.all_eq_true] at h
  exact ⟨fun f hm => absurd (h _ hm) (by simp), fun a p hm => absurd (h _ hm) (by simp)⟩

theorem allGone_of {w : Sockets} (h : w.conns.all Option.isNone = true) : w.allGone := by
  intro c ⟨s, hc⟩
  rw [List.all_eq_true] at h
  exact absurd (h _ (List.mem_of_getElem? hc)) (by simp)

theorem unlimited_of {ops : List AppOp} (h : ops.all (fun op => match op with | .use _ (.open _ _ (some _)) => false | _ => true) = true) :
    ∀ op ∈ ops, op.unlimited := by
  rw [List.all_eq_true] at h
  intro op hop
  have h := h op hop
  cases op with
  | use c sop =>
    intro a p tv e
    subst e
    cases tv with
    | none => rfl
    | some t => cases h
  | _ => trivial

/-- A system that connects at once, and OpenSSL sessions that work. -/
def easyOs : Os := { twoAddrs with connect := fun _ => .ok, sslNew := fun _ => some 1, bioNew := fun _ => true, sni := fun _ => true, hs := fun _ => .done,
                                   tlsSend := fun _ => .sent 1 }

/-- A TLS connection is opened and used; then the connection gets a descriptor of the application's and is destroyed.  A second connection
gets a TCP socket, which is opened, closed and opened again. -/
def easyOps : List AppOp :=
  [.newConnection true, .sslSocketNew 0 true, .use 0 (.setVerifyPeer false), .use 0 (.setVerifyHost false), .use 0 (.open [104] 5671 none),
   .use 0 (.send [1] false), .newConnection true, .setSockfd 0 77 true, .tcpSocketNew 1 true, .use 1 (.open [104] 5672 none), .use 1 (.close false),
   .use 1 (.open [104] 5672 none), .getSockfd 1, .destroy 0, .destroy 1]

/-- Non-vacuity of C103: a history that meets all hypotheses, with descriptors of all three kinds (one is open, number 77 handed over and one TLS
descriptor closed, just before the connections are destroyed). -/
theorem C103_sample : ∃ w l, Allowed easyOs easyOps noSockets [] ∧ appRun easyOs easyOps noSockets [] = .ok w l ∧ NoMishap l ∧ w.allGone ∧
    (∀ op ∈ easyOps, op.unlimited) ∧ Sys.close 77 true ∈ l ∧ Sys.close 4 true ∈ l ∧ Sys.sslFree 1 ∈ l := by
  refine ⟨((appRun easyOs easyOps noSockets []).val?.getD noSockets), ((appRun easyOs easyOps noSockets []).state?.getD []), ?_, ?_, ?_, ?_, ?_, ?_, ?_, ?_⟩
  · exact allowedRun_sound (by decide +kernel)
  · decide +kernel
  · exact cleanB_sound (by decide +kernel)
  · exact allGone_of (by decide +kernel)
  · exact unlimited_of (by decide +kernel)
  · decide +kernel
  · decide +kernel
  · decide +kernel

/-- A close that fails: amqp_socket_close returns AMQP_STATUS_SOCKET_ERROR and keeps the descriptor number. -/
def badClose : Os := { easyOs with closeOk := fun i => decide (i ≠ 0) }

/-- C103 (limit): when close() fails — on Linux the descriptor is gone all the same — a TCP socket keeps the number, and deleting the socket
closes it again: by then it may be another thread's file. -/
theorem C103_failed_close : ∃ w l, Allowed badClose [.newConnection true, .setSockfd 0 77 true, .use 0 (.close false), .destroy 0] noSockets [] ∧
    appRun badClose [.newConnection true, .setSockfd 0 77 true, .use 0 (.close false), .destroy 0] noSockets [] = .ok w l ∧
    l = [.close 77 false, .close 77 true] ∧
    ¬ Orderly (fun r => handed r [.newConnection true, .setSockfd 0 77 true, .use 0 (.close false), .destroy 0]) l := by
  refine ⟨⟨[none], [none]⟩, _, allowedRun_sound (by decide +kernel), by decide +kernel, rfl, fun h => ?_⟩
  have := h.2.1 (.fd 77) (by simp [Sys.needs])
  revert this
  decide

/-- C103 (limit): amqp_tcp_socket_set_sockfd on a socket that is open forgets the descriptor it had, which is never closed. -/
theorem C103_replaced_lost : ∃ w, appRun easyOs [.newConnection true, .tcpSocketNew 0 true, .use 0 (.setFd 77), .use 0 (.setFd 78), .destroy 0] noSockets []
      = .ok w [.close 78 true] ∧ w.allGone ∧
    handed (.fd 77) [.newConnection true, .tcpSocketNew 0 true, .use 0 (.setFd 77), .use 0 (.setFd 78), .destroy 0] + balance (.fd 77) [.close 78 true] = 1 :=
  ⟨⟨[none], [none]⟩, by decide +kernel, allGone_of (by decide +kernel), by decide⟩

/-- C103 (limit): when amqp_ssl_socket_open refuses its time limit, the TLS session it has just made is never freed. -/
theorem C103_session_lost : ∃ w, Allowed easyOs [.newConnection true, .sslSocketNew 0 true, .use 0 (.open [104] 5671 (some ⟨-1, 0⟩)), .destroy 0] noSockets [] ∧
    appRun easyOs [.newConnection true, .sslSocketNew 0 true, .use 0 (.open [104] 5671 (some ⟨-1, 0⟩)), .destroy 0] noSockets []
      = .ok w [.sslNew (some 1)] ∧ w.allGone ∧ balance (.session 1) [.sslNew (some 1)] = 1 :=
  ⟨⟨[none], [none]⟩, allowedRun_sound (by decide +kernel), by decide +kernel, allGone_of (by decide +kernel), by decide⟩

/-- C103 (what `Allowed` is for): a call that uses the socket of a connection that has none, or of a connection that was destroyed, is
undefined. -/
theorem C103_misuse : appRun easyOs [.newConnection true, .use 0 (.recv 1)] noSockets [] = .ub ∧
    appRun easyOs [.newConnection true, .destroy 0, .getSockfd 0] noSockets [] = .ub := by
  constructor <;> (rw [← Res.isUB_iff]; decide +kernel)

end Rmq
