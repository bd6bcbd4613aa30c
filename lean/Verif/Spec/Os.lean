import Verif.Model.Os
/-!
# What connecting a socket has to look like to the operating system

Written from the manual pages and the documentation of amqp_open_socket_noblock, over sequences of system calls only.
-/
namespace Rmq.OsSpec

/-- `dl` is 2^31 ms (24.8 days) or more after `now`: the remaining milliseconds do not fit poll's `int`. -/
def Far (now dl : Nat) : Prop := dl ≠ TIME_INF ∧ now + 2 ^ 31 * 1000000 ≤ dl

/-- `TimeLeft dl l ms`: after the clock readings `l`, `ms` milliseconds is the right argument for a poll that has to end at `dl`: infinite
(-1) without deadline, otherwise the time left, rounded down.  For a deadline too far away the argument is not specified. -/
inductive TimeLeft (dl : Nat) : List Sys → Int → Prop where
  | forever : dl = TIME_INF → TimeLeft dl [] (-1)
  | zero : dl = 0 → TimeLeft dl [] 0
  | clock (now ms : Nat) : now ≠ 0 → dl ≠ TIME_INF → (ms = 0 ∨ now + ms * 1000000 ≤ dl) → dl < now + (ms + 1) * 1000000 →
      TimeLeft dl [.clock now] ms
  | far (now : Nat) (ms : Int) : now ≠ 0 → Far now dl → -1 ≤ ms → TimeLeft dl [.clock now] ms

/-- `Waited fd ev dl l r`: the calls `l` are a wait for `ev` on `fd` until `dl` that was started again whenever a signal interrupted it and
ended with status `r`; for a deadline too far away the status may be any. -/
inductive Waited (fd : Int) (ev : PollEv) (dl : Nat) : List Sys → Int → Prop where
  | ready {l ms} : TimeLeft dl l ms → Waited fd ev dl (l ++ [.poll fd ev ms .ready]) St.OK
  | timeout {l ms} : TimeLeft dl l ms → Waited fd ev dl (l ++ [.poll fd ev ms .timeout]) St.TIMEOUT
  | error {l ms} : TimeLeft dl l ms → Waited fd ev dl (l ++ [.poll fd ev ms .error]) St.SOCKET_ERROR
  | noClock : dl ≠ TIME_INF → dl ≠ 0 → Waited fd ev dl [.clock 0] St.TIMER_FAILURE
  | far (now : Nat) (r : Int) : now ≠ 0 → Far now dl → r < -1 → Waited fd ev dl [.clock now] r
  | intr {l ms m r} : TimeLeft dl l ms → Waited fd ev dl m r → Waited fd ev dl (l ++ .poll fd ev ms .intr :: m) r

/-- The calls that prepare a new descriptor, all successful: close-on-exec, non-blocking, no Nagle delay, keep-alive. -/
def setup (fd : Nat) : List Sys :=
  [.opt fd .getFd true, .opt fd .setCloexec true, .opt fd .getFl true, .opt fd .setNonblock true, .opt fd .noDelay true,
   .opt fd .keepAlive true]

/-- The calls that connect a prepared descriptor: connect succeeds at once, or it is in progress, the descriptor becomes writable in time and
SO_ERROR is 0. -/
inductive Connected (fd : Nat) (a : Addr) (dl : Nat) : List Sys → Prop where
  | atOnce : Connected fd a dl [.connect fd a .ok]
  | later {w} : Waited fd .pollOut dl w St.OK → Connected fd a dl (.connect fd a .inProgress :: (w ++ [.soError fd (some 0)]))

/-- The ways in which preparing and connecting fails, with the status. -/
inductive Failing (fd : Nat) (a : Addr) (dl : Nat) : List Sys → Int → Prop where
  | opt {pre o rest} : setup fd = pre ++ .opt fd o true :: rest → Failing fd a dl (pre ++ [.opt fd o false]) St.SOCKET_ERROR
  | refused : Failing fd a dl (setup fd ++ [.connect fd a .error]) St.SOCKET_ERROR
  | waiting {w r} : Waited fd .pollOut dl w r → r ≠ St.OK → Failing fd a dl (setup fd ++ .connect fd a .inProgress :: w) r
  | soError {w e} : Waited fd .pollOut dl w St.OK → e ≠ some 0 →
      Failing fd a dl (setup fd ++ .connect fd a .inProgress :: (w ++ [.soError fd e])) St.SOCKET_ERROR

/-- `Attempt a dl l r`: the calls `l` try to connect to `a`; `r` is the connected descriptor, or a negative status and the descriptor is
closed again. -/
inductive Attempt (a : Addr) (dl : Nat) : List Sys → Int → Prop where
  | noSocket : Attempt a dl [.socket a none] St.SOCKET_ERROR
  | connected {fd m} : Connected fd a dl m → Attempt a dl (.socket a (some fd) :: (setup fd ++ m)) fd
  | failed {fd m r ok} : Failing fd a dl m r → Attempt a dl (.socket a (some fd) :: (m ++ [.close fd ok])) r

/-- `Tries dl as l r`: the addresses are tried in order until one connects (`r` is its descriptor) or the deadline passes; an address that
fails for another reason is skipped, and the last failure is reported if none is left. -/
inductive Tries (dl : Nat) : List Addr → List Sys → Int → Prop where
  | found {a as l} {fd : Nat} : Attempt a dl l fd → Tries dl (a :: as) l fd
  | timeout {a as l} : Attempt a dl l St.TIMEOUT → Tries dl (a :: as) l St.TIMEOUT
  | next {a as l r l' r'} : Attempt a dl l r → r < 0 → r ≠ St.TIMEOUT → Tries dl as l' r' → Tries dl (a :: as) (l ++ l') r'
  | last {a l r} : Attempt a dl l r → r < 0 → r ≠ St.TIMEOUT → Tries dl [a] l r

/-- How often the descriptor is opened in `l`, minus how often it is closed. -/
def held (fd : Nat) : List Sys → Int
  | [] => 0
  | .socket _ (some f) :: l => (if f = fd then 1 else 0) + held fd l
  | .close f _ :: l => held fd l - (if f = (fd : Int) then 1 else 0)
  | _ :: l => held fd l

/-! ## The TCP socket -/

/-- What one send has to do: give the data to the descriptor as often as it is interrupted, and translate the final answer. -/
inductive Sends (fd : Int) (buf : Bytes) (more : Bool) : List Sys → Int → Prop where
  | sent (n : Nat) : Sends fd buf more [.send fd buf more (.sent n)] n
  | again : Sends fd buf more [.send fd buf more .again] St.PRIVATE_NEED_WRITE
  | error : Sends fd buf more [.send fd buf more .error] St.SOCKET_ERROR
  | intr {l r} : Sends fd buf more l r → Sends fd buf more (.send fd buf more .intr :: l) r

/-- What one receive has to do. -/
inductive Receives (fd : Int) (len : Nat) : List Sys → Int → Bytes → Prop where
  | data (b : Bytes) : b ≠ [] → Receives fd len [.recv fd len (.data b)] b.length b
  | eof : Receives fd len [.recv fd len (.data [])] St.CONNECTION_CLOSED []
  | again : Receives fd len [.recv fd len .again] St.PRIVATE_NEED_READ []
  | error : Receives fd len [.recv fd len .error] St.SOCKET_ERROR []
  | intr {l r b} : Receives fd len l r b → Receives fd len (.recv fd len .intr :: l) r b

/-- How a socket without a descriptor is opened: the deadline is computed first (`Deadline`), then the name is resolved, then the addresses
are tried.  A resolver that succeeds without an address — POSIX forbids it — yields descriptor 0. -/
inductive Opens (dl : Nat) (host : Bytes) (port : Int) : List Sys → Int → Prop where
  | unresolved : Opens dl host port [.resolve host port none] St.HOSTNAME_RESOLUTION_FAILED
  | empty : Opens dl host port [.resolve host port (some [])] 0
  | tried {as l r} : Tries dl as l r → Opens dl host port (.resolve host port (some as) :: l) r

/-- The deadline for a timeout: none for no timeout; otherwise the clock plus the timeout, which has to fit 64 bits of nanoseconds; for a
timeout that does not fit them itself (584 years) it is not specified. -/
inductive Deadline : Option TimeVal → List Sys → Except Int Nat → Prop where
  | none : Deadline none [] (.ok TIME_INF)
  | negative (tv : TimeVal) : tv.sec < 0 ∨ tv.usec < 0 → Deadline (some tv) [] (.error St.INVALID_PARAMETER)
  | noClock (s u : Nat) : Deadline (some ⟨s, u⟩) [.clock 0] (.error St.TIMER_FAILURE)
  | at (s u now : Nat) : now ≠ 0 → now + (s * 1000000000 + u * 1000) < 2 ^ 64 →
      Deadline (some ⟨s, u⟩) [.clock now] (.ok (now + (s * 1000000000 + u * 1000)))
  | tooFar (s u now : Nat) : now ≠ 0 → s * 1000000000 + u * 1000 < 2 ^ 64 → 2 ^ 64 ≤ now + (s * 1000000000 + u * 1000) →
      Deadline (some ⟨s, u⟩) [.clock now] (.error St.INVALID_PARAMETER)
  | wraps (s u now : Nat) (r : Except Int Nat) : now ≠ 0 → 2 ^ 64 ≤ s * 1000000000 + u * 1000 → (∀ e, r = .error e → e < 0) →
      Deadline (some ⟨s, u⟩) [.clock now] r

/-- What one operation of the socket has to do: `Step fd op l r b fd'` — on a socket with descriptor `fd` (-1: closed) operation `op` makes
the calls `l`, returns `r`, stores `b`, and leaves the descriptor `fd'`. -/
inductive Step (fd : Int) : TcpOp → List Sys → Int → Bytes → Int → Prop where
  | sendClosed {buf more} : fd = -1 → Step fd (.send buf more) [] St.SOCKET_CLOSED [] fd
  | send {buf more l r} : fd ≠ -1 → Sends fd buf more l r → Step fd (.send buf more) l r [] fd
  | recvClosed {len} : fd = -1 → Step fd (.recv len) [] St.SOCKET_CLOSED [] fd
  | recv {len l r b} : fd ≠ -1 → Receives fd len l r b → Step fd (.recv len) l r b fd
  | openInUse {h p tv} : fd ≠ -1 → Step fd (.open h p tv) [] St.SOCKET_INUSE [] fd
  | openNoDeadline {h p tv l e} : fd = -1 → Deadline tv l (.error e) → Step fd (.open h p tv) l e [] (-1)
  | openFails {h p tv l dl m r} : fd = -1 → Deadline tv l (.ok dl) → Opens dl h p m r → r < 0 → Step fd (.open h p tv) (l ++ m) r [] (-1)
  | opens {h p tv l dl m} {f : Nat} : fd = -1 → Deadline tv l (.ok dl) → Opens dl h p m f →
      Step fd (.open h p tv) (l ++ m) St.OK [] f
  | closeClosed : fd = -1 → Step fd .close [] St.SOCKET_CLOSED [] fd
  | close : fd ≠ -1 → Step fd .close [.close fd true] St.OK [] (-1)
  | closeFails : fd ≠ -1 → Step fd .close [.close fd false] St.SOCKET_ERROR [] fd
  | setFd (f : Int) : Step fd (.setFd f) [] 0 [] f
  | getFd : Step fd .getFd [] fd [] fd

/-- A history of operations: each does what it has to do, on the descriptor the one before left. -/
inductive Steps : Int → List TcpOp → List Sys → List (Int × Bytes) → Int → Prop where
  | nil {fd} : Steps fd [] [] [] fd
  | cons {fd op l r b fd' ops l' rs fd''} : Step fd op l r b fd' → Steps fd' ops l' rs fd'' →
      Steps fd (op :: ops) (l ++ l') ((r, b) :: rs) fd''

end Rmq.OsSpec
