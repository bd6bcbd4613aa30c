import Verif.Proofs.Tls
/-!
# Connecting and socket states: C54, C55
-/
namespace Rmq
open OsSpec

/-! ## C54 -/

/-- C54: opening a connection resolves the name once and then tries the addresses in order (`Tries`, Spec/Os.lean): the first one that
connects is returned; one that fails otherwise than by the deadline is skipped; the last failure is returned if none is left. -/
theorem C54_in_order (O : Os) (host : Bytes) (port : Int) (dl : Nat) (l0 l1 : OsLog) (r : Int)
    (h : openSocketInner O host port dl l0 = .ok r l1) : ∃ l, l1 = l0 ++ l ∧ Opens dl host port l r :=
  openSocketInner_post O host port dl _ _ _ h

/-- C54: the same for amqp_open_socket_noblock, whose deadline is the clock plus the timeout. -/
theorem C54_noblock (O : Os) (host : Bytes) (port : Int) (tv : Option TimeVal) (l0 l1 : OsLog) (r : Int)
    (h : openSocketNoblock O host port tv l0 = .ok r l1) :
    ∃ l, l1 = l0 ++ l ∧ (Deadline tv l (.error r) ∨ ∃ m k dl, l = m ++ k ∧ Deadline tv m (.ok dl) ∧ Opens dl host port k r) :=
  openSocketNoblock_post O host port tv _ _ _ h

/-- C54: if a descriptor is returned, it is the one connected to some address, and every address before that one was tried and failed, each
with its own calls in between, in order. -/
theorem C54_first_that_connects (dl : Nat) (as : List Addr) (l : List Sys) (fd : Nat) (h : Tries dl as l fd) :
    ∃ (before : List Addr) (a : Addr) (after : List Addr) (attempts : List (List Sys)) (last : List Sys), as = before ++ a :: after ∧ l = attempts.flatten ++ last ∧ Attempt a dl last fd ∧
      attempts.length = before.length ∧
      ∀ i (h1 : i < before.length) (h2 : i < attempts.length), ∃ r, r < 0 ∧ r ≠ St.TIMEOUT ∧ Attempt before[i] dl attempts[i] r := by
  generalize hr : (fd : Int) = r at h
  induction h with
  | @found a as l f h => exact ⟨[], a, as, [], l, rfl, by simp, h, rfl, fun i h1 => absurd h1 (by simp)⟩
  | timeout _ => simp only [St.TIMEOUT] at hr; omega
  | @next a as l r l' r' ha hneg hne _ ih =>
    obtain ⟨before, b, after, attempts, last, e1, e2, h3, h4, h5⟩ := ih hr
    refine ⟨a :: before, b, after, l :: attempts, last, by rw [e1]; rfl, by rw [e2]; simp, h3, by simp [h4], fun i h1 h2 => ?_⟩
    cases i with
    | zero => exact ⟨r, hneg, hne, ha⟩
    | succ i => exact h5 i (by simpa using h1) (by simpa using h2)
  | last _ hneg _ => omega

/-- C54: if opening fails for another reason than the deadline, every address was tried. -/
theorem C54_all_tried (dl : Nat) (as : List Addr) (l : List Sys) (r : Int) (h : Tries dl as l r) (hneg : r < 0) (hne : r ≠ St.TIMEOUT) :
    ∃ attempts : List (List Sys), l = attempts.flatten ∧ attempts.length = as.length ∧
      ∀ i (h1 : i < as.length) (h2 : i < attempts.length), ∃ r, r < 0 ∧ r ≠ St.TIMEOUT ∧ Attempt as[i] dl attempts[i] r := by
  induction h with
  | found h => omega
  | timeout _ => exact absurd rfl hne
  | @next a as l r l' r' ha hn1 hn2 _ ih =>
    obtain ⟨attempts, e, h4, h5⟩ := ih hneg hne
    refine ⟨l :: attempts, by rw [e]; rfl, by simp [h4], fun i h1 h2 => ?_⟩
    cases i with
    | zero => exact ⟨r, hn1, hn2, ha⟩
    | succ i => exact h5 i (by simpa using h1) (by simpa using h2)
  | @last a l r ha _ _ =>
    refine ⟨[l], by simp, rfl, fun i h1 h2 => ?_⟩
    have : i = 0 := by simp at h1; exact h1
    subst this
    exact ⟨r, hneg, hne, ha⟩

/-- C54: no descriptor is leaked: of all the descriptors opened, only the returned one is still open at the end; if a status is returned, none
is.  (The resolver never answers with an empty list, as POSIX demands.) -/
theorem C54_no_leak (O : Os) (host : Bytes) (port : Int) (dl : Nat) (l0 l : OsLog) (r : Int)
    (h : openSocketInner O host port dl l0 = .ok r (l0 ++ l)) (hne : Sys.resolve host port (some []) ∉ l) (fd : Nat) :
    held fd l = if r = fd then 1 else 0 := by
  obtain ⟨l', e, ho⟩ := C54_in_order O host port dl l0 _ r h
  have e := List.append_cancel_left e
  subst e
  exact Opens.held ho hne fd

/-- C54: every poll waits at most until the deadline: with a deadline, its argument comes from a clock reading made just before it, and is 0
or leaves the deadline unexceeded; it is not short by a millisecond or more; without a deadline it waits without limit.  (No clock reading is
2^31 ms or more before the deadline.) -/
theorem C54_polls_partial (O : Os) (host : Bytes) (port : Int) (dl : Nat) (l0 l : OsLog) (r : Int)
    (h : openSocketInner O host port dl l0 = .ok r (l0 ++ l)) (hfar : ∀ now, .clock now ∈ l → ¬ Far now dl)
    (pre post : List Sys) (fd : Int) (ev : PollEv) (ms : Int) (a : PollAns) (e : l = pre ++ .poll fd ev ms a :: post) :
    (dl = TIME_INF ∧ ms = -1) ∨ (dl = 0 ∧ ms = 0) ∨
    (dl ≠ TIME_INF ∧ 0 ≤ ms ∧ ∃ (pre' : List Sys) (now : Nat), pre = pre' ++ [.clock now] ∧ (ms = 0 ∨ now + ms * 1000000 ≤ dl) ∧ (dl : Int) < now + (ms + 1) * 1000000) := by
  obtain ⟨l', e', ho⟩ := C54_in_order O host port dl l0 _ r h
  have e' := List.append_cancel_left e'
  subst e'
  have key : ∀ m, PollsTimed dl m → (∃ x, l = x :: m ∧ ∀ fd ev ms a, x ≠ .poll fd ev ms a) → ∃ pre' c, pre = pre' ++ c ∧ TimeLeft dl c ms := by
    rintro m hm ⟨x, rfl, hx⟩
    cases pre with
    | nil => simp only [List.nil_append, List.cons.injEq] at e; exact absurd e.1 (hx _ _ _ _)
    | cons y pre =>
      simp only [List.cons_append, List.cons.injEq] at e
      obtain ⟨p', c, h1, h2⟩ := hm pre fd ev ms a post e.2
      exact ⟨y :: p', c, by rw [h1]; rfl, h2⟩
  have hx : ∃ pre' c, pre = pre' ++ c ∧ TimeLeft dl c ms := by
    cases ho with
    | unresolved => exact key [] (.none (by simp)) ⟨_, rfl, by simp⟩
    | empty => exact key [] (.none (by simp)) ⟨_, rfl, by simp⟩
    | tried ht => exact key _ (Tries.timed ht) ⟨_, rfl, by simp⟩
  obtain ⟨pre', c, hc, ht⟩ := hx
  cases ht with
  | forever h => exact Or.inl ⟨h, rfl⟩
  | zero h => exact Or.inr (Or.inl ⟨h, rfl⟩)
  | clock now ms _ hi h1 h2 => exact Or.inr (Or.inr ⟨hi, by omega, pre', now, hc, by clear hfar; omega, by clear hfar; omega⟩)
  | far now ms _ hf _ => exact absurd hf (hfar now (by rw [e, hc]; simp))

/-- C54: connecting stops at the deadline: after a poll that timed out the descriptor is closed, no other address is tried, and the status is
AMQP_STATUS_TIMEOUT. -/
theorem C54_stops (O : Os) (host : Bytes) (port : Int) (dl : Nat) (l0 l : OsLog) (r : Int)
    (h : openSocketInner O host port dl l0 = .ok r (l0 ++ l)) (pre post : List Sys) (fd : Int) (ev : PollEv) (ms : Int)
    (e : l = pre ++ .poll fd ev ms .timeout :: post) : r = St.TIMEOUT ∧ ∃ ok, post = [.close fd ok] := by
  obtain ⟨l', e', ho⟩ := C54_in_order O host port dl l0 _ r h
  have e' := List.append_cancel_left e'
  subst e'
  cases ho with
  | unresolved => exact absurd (by rw [e]; simp : Sys.poll fd ev ms .timeout ∈ [Sys.resolve host port none]) (by simp)
  | empty => exact absurd (by rw [e]; simp : Sys.poll fd ev ms .timeout ∈ [Sys.resolve host port (some [])]) (by simp)
  | tried ht =>
    cases pre with
    | nil => simp at e
    | cons y pre =>
      simp only [List.cons_append, List.cons.injEq] at e
      exact (Tries.to ht).split e.2

/-- C54: and AMQP_STATUS_TIMEOUT is returned only then.  (No clock reading is 2^31 ms or more before the deadline.) -/
theorem C54_timeout_partial (O : Os) (host : Bytes) (port : Int) (dl : Nat) (l0 l : OsLog)
    (h : openSocketInner O host port dl l0 = .ok St.TIMEOUT (l0 ++ l)) (hfar : ∀ now, .clock now ∈ l → ¬ Far now dl) :
    ∃ pre fd ev ms ok, l = pre ++ [.poll fd ev ms .timeout, .close fd ok] := by
  obtain ⟨l', e', ho⟩ := C54_in_order O host port dl l0 _ _ h
  have e' := List.append_cancel_left e'
  subst e'
  generalize hr : St.TIMEOUT = r at ho
  cases ho with
  | unresolved => cases hr
  | empty => cases hr
  | tried ht =>
    rcases Tries.to ht with ⟨_, h1⟩ | ⟨_, pre, fd, ev, ms, ok, h1, _⟩
    · obtain ⟨now, h2, h3⟩ := h1 hr.symm
      exact absurd h3 (hfar now (by simp [h2]))
    · exact ⟨_ :: pre, fd, ev, ms, ok, by rw [h1]; rfl⟩

/-- C54: the call returns unless a poll is interrupted: when no poll is, it returns whatever the system answers; and it never runs into
undefined behaviour. -/
theorem C54_returns (O : Os) (host : Bytes) (port : Int) (dl : Nat) (l0 : OsLog) :
    ((∀ i, O.poll i ≠ .intr) → O.fuel ≠ 0 → ∃ r l1, openSocketInner O host port dl l0 = .ok r l1) ∧
    (∀ r l1, openSocketInner O host port dl l0 ≠ .err r l1) ∧ openSocketInner O host port dl l0 ≠ .ub := by
  refine ⟨fun h1 h2 => openSocketInner_ret O host port dl h1 h2 l0, fun r l1 h => ?_, fun h => ?_⟩ <;>
    rcases openSocketInner_total O host port dl l0 with ⟨a, l2, h'⟩ | h' <;> rw [h] at h' <;> cases h'

/-- Two addresses: the first is refused, the second connects after a wait. -/
def twoAddrs : Os where
  clock := fun i => 1000000 * (i + 1)
  addrs := fun _ => some [[1], [2]]
  newFd := fun i => some (i + 2)
  optOk := fun _ => true
  connect := fun i => if i < 10 then .error else .inProgress
  poll := fun i => if i < 20 then .intr else .ready
  soError := fun _ => some 0
  closeOk := fun _ => true
  send := fun _ => .again
  recv := fun _ => .again
  sslNew := fun _ => none
  bioNew := fun _ => false
  sni := fun _ => false
  hs := fun _ => .other
  peerCert := fun _ => none
  verifyResult := fun _ => 0
  checkHost := fun _ => 0
  tlsSend := fun _ => .other
  tlsRecv := fun _ => .other
  fuel := 10

example : (openSocketNoblock twoAddrs [104] 5672 (some ⟨1, 0⟩) []).val? = some 13 := by decide +kernel
example : (openSocketNoblock { twoAddrs with poll := fun _ => .timeout, connect := fun _ => .inProgress } [104] 5672 (some ⟨1, 0⟩) []).val? =
    some St.TIMEOUT := by decide +kernel

/-- C54: amqp_open_socket has no deadline: every poll waits without limit, and AMQP_STATUS_TIMEOUT is returned only if such a poll claims to
have timed out. -/
theorem C54_blocking (O : Os) (host : Bytes) (port : Int) (l0 l : OsLog) (r : Int) (h : openSocket O host port l0 = .ok r (l0 ++ l)) :
    (∀ fd ev ms a, Sys.poll fd ev ms a ∈ l → ms = -1) ∧
    ((∀ fd ev, Sys.poll fd ev (-1) .timeout ∉ l) → r ≠ St.TIMEOUT) := by
  have hfar : ∀ now, Sys.clock now ∈ l → ¬ Far now TIME_INF := fun now _ hf => hf.1 rfl
  have hp : ∀ fd ev ms a, Sys.poll fd ev ms a ∈ l → ms = -1 := by
    intro fd ev ms a hm
    obtain ⟨pre, post, e⟩ := List.append_of_mem hm
    rcases C54_polls_partial O host port TIME_INF l0 l r h hfar pre post fd ev ms a e with ⟨_, h1⟩ | ⟨h1, _⟩ | ⟨h1, _⟩
    · exact h1
    · exact absurd h1 (by decide)
    · exact absurd rfl h1
  refine ⟨hp, fun hno hr => ?_⟩
  subst hr
  obtain ⟨pre, fd, ev, ms, ok, e⟩ := C54_timeout_partial O host port TIME_INF l0 l h hfar
  have hm : Sys.poll fd ev ms .timeout ∈ l := by rw [e]; simp
  have := hp _ _ _ _ hm
  subst this
  exact hno _ _ hm

/-- Non-vacuity: the second address is connected after an unlimited wait that was interrupted. -/
example : (openSocket twoAddrs [104] 5672 []).val? = some 12 ∧
    Sys.poll 12 .pollOut (-1) .intr ∈ ((openSocket twoAddrs [104] 5672 []).state?.getD []) := by decide +kernel

/-- C54 (limit): a resolver that succeeds with an empty list — which POSIX rules out — makes the call return descriptor 0 without
connecting. -/
theorem C54_empty_list : ∃ O, (openSocket O [104] 5672 []).val? = some 0 ∧
    (openSocket O [104] 5672 []).state? = some [.resolve [104] 5672 (some [])] :=
  ⟨{ twoAddrs with addrs := fun _ => some [] }, by decide +kernel, by decide +kernel⟩

/-- C54 (limit): for a deadline 2^32 - 13 ms away (49.7 days) the call returns AMQP_STATUS_TIMEOUT at once, without polling. -/
theorem C54_far_deadline : ∃ O, (openSocketNoblock O [104] 5672 (some ⟨4294967, 283000⟩) []).val? = some St.TIMEOUT ∧
    ∀ fd ev ms a, Sys.poll fd ev ms a ∉ ((openSocketNoblock O [104] 5672 (some ⟨4294967, 283000⟩) []).state?.getD []) := by
  refine ⟨{ twoAddrs with connect := fun _ => .inProgress, clock := fun _ => 1000 }, by decide +kernel, ?_⟩
  have : ((openSocketNoblock { twoAddrs with connect := fun _ => .inProgress, clock := fun _ => 1000 } [104] 5672
    (some ⟨4294967, 283000⟩) []).state?.getD []).all (fun e => match e with | .poll .. => false | _ => true) = true := by decide +kernel
  rw [List.all_eq_true] at this
  intro fd ev ms a hm
  exact absurd (this _ hm) (by simp)

/-! ## C55 -/

/-- C55: every history of operations on a TCP socket, from its creation, follows the state machine `OsSpec.Step` (Spec/Os.lean): operations
on a closed socket return AMQP_STATUS_SOCKET_CLOSED without a system call, opening an open socket returns AMQP_STATUS_SOCKET_INUSE, closing
twice returns AMQP_STATUS_SOCKET_CLOSED, interrupted calls are made again with the same arguments. -/
theorem C55_history (O : Os) (ops : List TcpOp) (l0 l1 : OsLog) (rs : List (Int × Bytes)) (fd : Int)
    (h : tcpRun O ops (-1) l0 = .ok (rs, fd) l1) : ∃ l, l1 = l0 ++ l ∧ OsSpec.Steps (-1) ops l rs fd :=
  tcpRun_post O ops (-1) _ _ _ h

/-- C55: on a closed socket no operation but open makes a system call, and send, recv and close return AMQP_STATUS_SOCKET_CLOSED. -/
theorem C55_closed (O : Os) (l : OsLog) :
    (∀ buf more, tcpOp O (.send buf more) (-1) l = .ok (St.SOCKET_CLOSED, [], -1) l) ∧
    (∀ len, tcpOp O (.recv len) (-1) l = .ok (St.SOCKET_CLOSED, [], -1) l) ∧
    tcpOp O .close (-1) l = .ok (St.SOCKET_CLOSED, [], -1) l ∧ tcpOp O .getFd (-1) l = .ok (-1, [], -1) l :=
  ⟨fun _ _ => rfl, fun _ => rfl, rfl, rfl⟩

/-- C55: opening an open socket fails, without a system call, and keeps the descriptor. -/
theorem C55_in_use (O : Os) (fd : Int) (hfd : fd ≠ -1) (host : Bytes) (port : Int) (tv : Option TimeVal) (l : OsLog) :
    tcpOp O (.open host port tv) fd l = .ok (St.SOCKET_INUSE, [], fd) l := by
  simp only [tcpOp, tcpOpen, M.bind_def, if_pos (Ne.symm hfd)]; rfl

/-- C55: closing twice: after a close that succeeded the second returns AMQP_STATUS_SOCKET_CLOSED, without a system call. -/
theorem C55_close_twice (O : Os) (fd : Int) (l l1 : OsLog) (r : Int) (b : Bytes) (fd1 : Int) (h : tcpOp O .close fd l = .ok (r, b, fd1) l1)
    (hr : r = St.OK) : tcpOp O .close fd1 l1 = .ok (St.SOCKET_CLOSED, [], -1) l1 := by
  obtain ⟨m, _, hs⟩ := tcpOp_post O .close fd _ _ _ h
  dsimp only at hs
  generalize hop : TcpOp.close = op at hs
  cases hs <;> cases hop <;> first | (cases hr; done) | rfl

/-- C55: a send on an open socket hands the data to the descriptor with the same arguments as often as it is interrupted, and answers with the
number of octets taken, or would-block, or an error. -/
theorem C55_send (O : Os) (fd : Int) (hfd : fd ≠ -1) (buf : Bytes) (more : Bool) (l l1 : OsLog) (r : Int) (b : Bytes) (fd1 : Int)
    (h : tcpOp O (.send buf more) fd l = .ok (r, b, fd1) l1) :
    fd1 = fd ∧ ∃ n a, a ≠ .intr ∧ l1 = l ++ (List.replicate n (.send fd buf more .intr) ++ [.send fd buf more a]) ∧
      r = (match a with | .sent k => (k : Int) | .again => St.PRIVATE_NEED_WRITE | _ => St.SOCKET_ERROR) := by
  obtain ⟨m, e, hs⟩ := tcpOp_post O (.send buf more) fd _ _ _ h
  dsimp only at hs
  cases hs with
  | sendClosed h => exact absurd ‹fd = -1› hfd
  | send _ hs =>
    refine ⟨rfl, ?_⟩
    subst e
    clear h
    induction hs with
    | sent k => exact ⟨0, .sent k, by simp, rfl, rfl⟩
    | again => exact ⟨0, .again, by simp, rfl, rfl⟩
    | error => exact ⟨0, .error, by simp, rfl, rfl⟩
    | intr _ ih =>
      obtain ⟨n, a, h1, h2, h3⟩ := ih
      refine ⟨n + 1, a, h1, ?_, h3⟩
      have h2 := List.append_cancel_left h2
      rw [h2]; rfl

/-- C55: a receive on an open socket asks again with the same arguments as often as it is interrupted; end of file is reported as
AMQP_STATUS_CONNECTION_CLOSED. -/
theorem C55_recv (O : Os) (fd : Int) (hfd : fd ≠ -1) (len : Nat) (l l1 : OsLog) (r : Int) (b : Bytes) (fd1 : Int)
    (h : tcpOp O (.recv len) fd l = .ok (r, b, fd1) l1) :
    fd1 = fd ∧ ∃ n a, a ≠ .intr ∧ l1 = l ++ (List.replicate n (.recv fd len .intr) ++ [.recv fd len a]) ∧
      (r, b) = (match a with
        | .data [] => (St.CONNECTION_CLOSED, []) | .data d => ((d.length : Int), d) | .again => (St.PRIVATE_NEED_READ, [])
        | _ => (St.SOCKET_ERROR, [])) := by
  obtain ⟨m, e, hs⟩ := tcpOp_post O (.recv len) fd _ _ _ h
  dsimp only at hs
  cases hs with
  | recvClosed h => exact absurd ‹fd = -1› hfd
  | recv _ hs =>
    refine ⟨rfl, ?_⟩
    subst e
    clear h
    induction hs with
    | data d hd =>
      refine ⟨0, .data d, by simp, rfl, ?_⟩
      cases d with
      | nil => exact absurd rfl hd
      | cons => rfl
    | eof => exact ⟨0, .data [], by simp, rfl, rfl⟩
    | again => exact ⟨0, .again, by simp, rfl, rfl⟩
    | error => exact ⟨0, .error, by simp, rfl, rfl⟩
    | intr _ ih =>
      obtain ⟨n, a, h1, h2, h3⟩ := ih
      refine ⟨n + 1, a, h1, ?_, h3⟩
      have h2 := List.append_cancel_left h2
      rw [h2]; rfl

/-- C55: no operation on a TCP socket runs into undefined behaviour. -/
theorem C55_defined (O : Os) (op : TcpOp) (fd : Int) (l : OsLog) : tcpOp O op fd l ≠ .ub := by
  rcases tcpOp_total O op fd l with ⟨a, l1, h⟩ | h <;> rw [h] <;> simp

/-- C55: every history of operations on a TLS socket follows `TlsSpec.Step` (Spec/Tls.lean). -/
theorem C55_tls_history (O : Os) (ops : List TlsOp) (l0 l1 : OsLog) (rs : List (Int × Bytes)) (s' : TlsSock)
    (h : tlsRun O ops newTlsSock l0 = .ok (rs, s') l1) : ∃ l, l1 = l0 ++ l ∧ TlsSpec.Steps newTlsSock ops l rs s' :=
  tlsRun_post O ops newTlsSock _ _ _ h

/-- C55: on a closed TLS socket no operation but open makes a call, and send, recv and close return AMQP_STATUS_SOCKET_CLOSED; opening an open
one returns AMQP_STATUS_SOCKET_INUSE. -/
theorem C55_tls_closed (O : Os) (s : TlsSock) (l : OsLog) :
    (s.fd = -1 → (∀ buf, tlsOp O (.send buf) s l = .ok (St.SOCKET_CLOSED, [], s) l) ∧
      (∀ len, tlsOp O (.recv len) s l = .ok (St.SOCKET_CLOSED, [], s) l) ∧
      (∀ force, tlsOp O (.close force) s l = .ok (St.SOCKET_CLOSED, [], s) l)) ∧
    (s.fd ≠ -1 → ∀ host port tv, tlsOp O (.open host port tv) s l = .ok (St.SOCKET_INUSE, [], s) l) := by
  refine ⟨fun h => ⟨fun buf => ?_, fun len => ?_, fun force => ?_⟩, fun h host port tv => ?_⟩
  · simp only [tlsOp, tlsSend, M.bind_def, h, if_true]; rfl
  · simp only [tlsOp, tlsRecv, M.bind_def, h, if_true]; rfl
  · simp only [tlsOp, tlsClose, M.bind_def, h, if_true]; rfl
  · simp only [tlsOp, tlsOpen, M.bind_def, if_pos (Ne.symm h)]; rfl

/-- an open TLS socket has a session -/
def TlsSock.Sound (s : TlsSock) : Prop := s.fd ≠ -1 → s.ssl ≠ none

theorem tlsHandshake_total (O : Os) (h : Nat) (fd : Int) (dl : Nat) (n : Nat) : OsTotal (tlsHandshake O h fd dl n) := by
  induction n with
  | zero => exact OsTotal.fuel
  | succ n ih =>
    unfold tlsHandshake
    refine OsTotal.sys.bind fun a => ?_
    cases a with
    | done => exact OsTotal.pure
    | other => exact OsTotal.pure
    | wantRead =>
      refine (osPoll_total O fd .pollIn dl O.fuel).bind fun r => ?_
      split
      · exact ih
      · exact OsTotal.pure
    | wantWrite =>
      refine (osPoll_total O fd .pollOut dl O.fuel).bind fun r => ?_
      split
      · exact ih
      · exact OsTotal.pure

theorem tlsCheck_total (O : Os) (s : TlsSock) (h : Nat) (host : Bytes) : OsTotal (tlsCheck O s h host) := by
  unfold tlsCheck
  refine OsTotal.sys.bind fun cert => ?_
  refine OsTotal.bind ?_ fun r => OsTotal.bind ?_ fun r => OsTotal.bind ?_ fun _ => ?_
  · split
    · cases cert with
      | none => exact OsTotal.pure
      | some c =>
        refine OsTotal.sys.bind fun v => ?_
        split <;> exact OsTotal.pure
    · exact OsTotal.pure
  · split
    · exact OsTotal.pure
    · split
      · cases cert with
        | none => exact OsTotal.pure
        | some c =>
          refine OsTotal.sys.bind fun v => ?_
          split <;> exact OsTotal.pure
      · exact OsTotal.pure
  · cases cert with
    | none => exact OsTotal.pure
    | some c => unfold certFree; exact OsTotal.sys
  · split
    · exact OsTotal.pure
    · exact OsTotal.sys.bind fun _ => OsTotal.pure

theorem tlsOpen_total (O : Os) (s : TlsSock) (host : Bytes) (port : Int) (tv : Option TimeVal) : OsTotal (tlsOpen O s host port tv) := by
  unfold tlsOpen
  split
  · exact OsTotal.pure
  · refine OsTotal.sys.bind fun n => ?_
    cases n with
    | none => exact OsTotal.pure
    | some h =>
      refine (osTimeFromNow_ret O tv).total.bind fun d => ?_
      cases d with
      | error e => exact OsTotal.pure
      | ok dl =>
        refine (openSocketInner_total O host port dl).bind fun fd => ?_
        split
        · exact OsTotal.sys.bind fun _ => OsTotal.pure
        · refine OsTotal.bind ?_ fun r => ?_
          · unfold tlsSession
            refine OsTotal.sys.bind fun b => ?_
            split
            · exact OsTotal.pure
            · refine OsTotal.sys.bind fun b => ?_
              split
              · exact OsTotal.pure
              · refine (tlsHandshake_total O h fd dl O.fuel).bind fun r => ?_
                split
                · exact OsTotal.pure
                · exact tlsCheck_total O s h host
          · split
            · exact OsTotal.pure
            · exact OsTotal.sys.bind fun _ => OsTotal.sys.bind fun _ => OsTotal.pure

theorem tlsOp_total (O : Os) (op : TlsOp) (s : TlsSock) (hs : s.Sound) : OsTotal (tlsOp O op s) := by
  unfold tlsOp
  cases op with
  | send buf =>
    refine OsTotal.bind ?_ fun _ => OsTotal.pure
    unfold tlsSend
    by_cases hf : -1 = s.fd
    · rw [if_pos hf]; exact OsTotal.pure
    rw [if_neg hf]
    split
    · exact OsTotal.pure
    · cases h : s.ssl with
      | none => exact absurd h (hs (Ne.symm hf))
      | some k => refine OsTotal.sys.bind fun a => ?_; cases a <;> exact OsTotal.pure
  | recv len =>
    refine OsTotal.bind ?_ fun _ => OsTotal.pure
    unfold tlsRecv
    by_cases hf : -1 = s.fd
    · rw [if_pos hf]; exact OsTotal.pure
    rw [if_neg hf]
    split
    · exact OsTotal.pure
    · cases h : s.ssl with
      | none => exact absurd h (hs (Ne.symm hf))
      | some k => refine OsTotal.sys.bind fun a => ?_; cases a <;> exact OsTotal.pure
  | «open» host port tv => exact (tlsOpen_total O s host port tv).bind fun _ => OsTotal.pure
  | close force =>
    refine OsTotal.bind ?_ fun _ => OsTotal.pure
    unfold tlsClose
    by_cases hf : -1 = s.fd
    · rw [if_pos hf]; exact OsTotal.pure
    rw [if_neg hf]
    cases h : s.ssl with
    | none => exact absurd h (hs (Ne.symm hf))
    | some k =>
      refine OsTotal.bind ?_ fun _ => OsTotal.sys.bind fun _ => OsTotal.sys.bind fun ok => ?_
      · split
        · exact OsTotal.sys
        · exact OsTotal.pure
      · split <;> exact OsTotal.pure
  | setVerifyPeer b => exact OsTotal.pure
  | setVerifyHost b => exact OsTotal.pure

theorem tlsOp_sound (O : Os) (hO : ∀ i, O.closeOk i = true) (op : TlsOp) (s : TlsSock) (hs : s.Sound) :
    OsPost (tlsOp O op s) (fun r _ => r.2.2.Sound) := by
  cases op with
  | close force =>
    unfold tlsOp
    refine OsPost.bind (P := fun r _ => r.2.Sound) ?_ fun r l h => OsPost.pure h
    unfold tlsClose
    by_cases hf : -1 = s.fd
    · rw [if_pos hf]; exact OsPost.pure hs
    rw [if_neg hf]
    have hc : TlsSock.Sound { s with fd := -1, ssl := none } := fun h => absurd rfl h
    cases h : s.ssl with
    | none => exact absurd h (hs (Ne.symm hf))
    | some k =>
      refine OsPost.bind (P := fun _ _ => True) (fun _ _ _ _ => ?_) fun _ _ _ => OsPost.sysBind fun _ => OsPost.sysBind' fun i => ?_
      · cases force with
        | true => rename_i e; cases e; exact ⟨[], by simp, trivial⟩
        | false => rename_i e; cases e; exact ⟨_, rfl, trivial⟩
      · rw [hO i]; exact OsPost.pure hc
  | «open» host port tv =>
    refine (tlsOp_post O _ s).mono fun r l h => ?_
    obtain ⟨r, b, s'⟩ := r
    dsimp only at h ⊢
    cases h with
    | openInUse => exact hs
    | «open» hf ho =>
      cases ho with
      | opened => intro _ h; cases h
      | _ => exact fun h => absurd rfl h
  | _ =>
    refine (tlsOp_post O _ s).mono fun r l h => ?_
    obtain ⟨r, b, s'⟩ := r
    dsimp only at h ⊢
    cases h <;> exact hs

/-- C55: as long as close() succeeds, no history of operations on a TLS socket runs into undefined behaviour.
Missing: a failing close(), see `C55_tls_failed_close`. -/
theorem C55_tls_defined_partial (O : Os) (hO : ∀ i, O.closeOk i = true) (ops : List TlsOp) (l : OsLog) : tlsRun O ops newTlsSock l ≠ .ub := by
  suffices h : ∀ (ops : List TlsOp) (s : TlsSock), s.Sound → OsTotal (tlsRun O ops s) by
    rcases h ops newTlsSock (fun h => absurd rfl h) l with ⟨a, l1, h⟩ | h <;> rw [h] <;> simp
  intro ops
  induction ops with
  | nil => intro s _; unfold tlsRun; exact OsTotal.pure
  | cons op ops ih =>
    intro s hs l0
    unfold tlsRun
    rw [M.bind_def]
    rcases tlsOp_total O op s hs l0 with ⟨⟨r, b, s'⟩, l1, h⟩ | h
    · obtain ⟨_, _, h'⟩ := tlsOp_sound O hO op s hs _ _ _ h
      rw [h]
      exact (ih s' h').bind (fun _ => OsTotal.pure) l1
    · rw [h]; exact Or.inr rfl

/-- C55 (limit): when close() fails — it can, with EINTR or EIO — a TLS socket keeps its descriptor but has lost its session; the next send
then dereferences NULL. -/
theorem C55_tls_failed_close :
    tlsRun { twoAddrs with closeOk := fun _ => false, sslNew := fun _ => some 1, bioNew := fun _ => true, sni := fun _ => true,
                           hs := fun _ => .done, connect := fun _ => .ok }
      [.setVerifyPeer false, .setVerifyHost false, .open [104] 5671 none, .close true, .send [1]] newTlsSock [] = .ub := by
  rw [← Res.isUB_iff]; decide +kernel

/-- C55: no send or receive of either kind of socket answers AMQP_STATUS_TIMEOUT or AMQP_STATUS_HEARTBEAT_TIMEOUT — what the connection layer
takes for granted when it reads these statuses as its own. -/
theorem C55_no_timeouts (O : Os) (l l1 : OsLog) (r : Int) :
    (∀ fd buf more, tcpSend O fd buf more l = .ok r l1 → r ≠ St.TIMEOUT ∧ r ≠ St.HEARTBEAT_TIMEOUT) ∧
    (∀ fd len b, tcpRecv O fd len l = .ok (r, b) l1 → r ≠ St.TIMEOUT ∧ r ≠ St.HEARTBEAT_TIMEOUT) ∧
    (∀ s buf, tlsSend O s buf l = .ok r l1 → r ≠ St.TIMEOUT ∧ r ≠ St.HEARTBEAT_TIMEOUT) ∧
    (∀ s len b, tlsRecv O s len l = .ok (r, b) l1 → r ≠ St.TIMEOUT ∧ r ≠ St.HEARTBEAT_TIMEOUT) := by
  have hn : ∀ n : Nat, (n : Int) ≠ St.TIMEOUT ∧ (n : Int) ≠ St.HEARTBEAT_TIMEOUT := fun n => by
    simp only [St.TIMEOUT, St.HEARTBEAT_TIMEOUT]; omega
  refine ⟨fun fd buf more h => ?_, fun fd len b h => ?_, fun s buf h => ?_, fun s len b h => ?_⟩
  · have h1 : tcpOp O (.send buf more) fd l = .ok (r, [], fd) l1 := by simp only [tcpOp, M.bind_def, h]; rfl
    obtain ⟨m, hm, hs⟩ := tcpOp_post O _ _ _ _ _ h1
    clear hm
    dsimp only at hs
    cases hs with
    | sendClosed => decide
    | send _ hs =>
      clear h h1
      induction hs with
      | sent n => exact hn n
      | again => decide
      | error => decide
      | intr _ ih => exact ih
  · have h1 : tcpOp O (.recv len) fd l = .ok (r, b, fd) l1 := by simp only [tcpOp, M.bind_def, h]; rfl
    obtain ⟨m, hm, hs⟩ := tcpOp_post O _ _ _ _ _ h1
    clear hm
    dsimp only at hs
    cases hs with
    | recvClosed => decide
    | recv _ hs =>
      clear h h1
      induction hs with
      | data n => exact hn _
      | eof => decide
      | again => decide
      | error => decide
      | intr _ ih => exact ih
  · have h1 : tlsOp O (.send buf) s l = .ok (r, [], s) l1 := by simp only [tlsOp, M.bind_def, h]; rfl
    obtain ⟨m, _, hs⟩ := tlsOp_post O _ _ _ _ _ h1
    dsimp only at hs
    cases hs with
    | sendClosed => decide
    | sendHuge => decide
    | @send _ _ a => cases a <;> first | exact hn _ | decide
  · have h1 : tlsOp O (.recv len) s l = .ok (r, b, s) l1 := by simp only [tlsOp, M.bind_def, h]; rfl
    obtain ⟨m, _, hs⟩ := tlsOp_post O _ _ _ _ _ h1
    dsimp only at hs
    generalize hs' : s = s' at hs
    cases hs with
    | recvClosed => decide
    | recvHuge => decide
    | @recv _ _ a => cases a <;> first | exact hn _ | decide

end Rmq
