import Verif.Model.Sockets
/-!
# Specification: descriptors and TLS sessions are opened, used and closed properly

Over sequences of calls to the operating system and to OpenSSL only.
-/
namespace Rmq

/-- What has to be given back: an open descriptor (close), a TLS session (SSL_free). -/
inductive Resource where
  | fd (n : Int)
  | session (h : Nat)
deriving Repr, DecidableEq

/-- The resource a call creates. -/
def Sys.creates : Sys → Option Resource
  | .socket _ (some f) => some (.fd f)
  | .sslNew (some h) => some (.session h)
  | _ => none

/-- The resource a call gives back.  (close gives the descriptor back whatever it returns.) -/
def Sys.givesBack : Sys → Option Resource
  | .close f _ => some (.fd f)
  | .sslFree h => some (.session h)
  | _ => none

/-- The resources a call needs: those it works on, and the one it gives back. -/
def Sys.needs : Sys → List Resource
  | .opt f _ _ => [.fd f]
  | .connect f _ _ => [.fd f]
  | .poll f _ _ _ => [.fd f]
  | .soError f _ => [.fd f]
  | .close f _ => [.fd f]
  | .send f _ _ _ => [.fd f]
  | .recv f _ _ => [.fd f]
  | .bioNew h f _ => [.session h, .fd f]
  | .sni h _ _ => [.session h]
  | .sslConnect h _ => [.session h]
  | .peerCert h _ => [.session h]
  | .verifyResult h _ => [.session h]
  | .sslShutdown h => [.session h]
  | .sslFree h => [.session h]
  | .sslWrite h _ _ => [.session h]
  | .sslRead h _ _ => [.session h]
  | _ => []

/-- By how much a call changes how often the resource is there. -/
def Sys.change (r : Resource) (e : Sys) : Int := (if e.creates = some r then 1 else 0) - (if e.givesBack = some r then 1 else 0)

/-- By how much a sequence of calls changes it. -/
def balance (r : Resource) : List Sys → Int
  | [] => 0
  | e :: l => e.change r + balance r l

/-- With these resources there at first, every call finds there what it needs: nothing is used before it was opened or after it was closed,
nothing is closed twice. -/
def Orderly (there : Resource → Int) : List Sys → Prop
  | [] => True
  | e :: l => (∀ r ∈ e.needs, 0 < there r) ∧ Orderly (fun r => there r + e.change r) l

/-- How often the application hands over the descriptor in these calls. -/
def handed (r : Resource) : List AppOp → Int
  | [] => 0
  | .setSockfd _ fd _ :: l => (if fd ≠ -1 ∧ r = .fd fd then 1 else 0) + handed r l
  | .use _ (.setFd fd) :: l => (if fd ≠ -1 ∧ r = .fd fd then 1 else 0) + handed r l
  | _ :: l => handed r l

/-- The connection `c` exists. -/
def Sockets.alive (w : Sockets) (c : Nat) : Prop := ∃ s, w.conns[c]? = some (some s)

/-- The connection has a socket, which (if it is a TCP socket) has no descriptor. -/
def Sockets.closed (w : Sockets) (c : Nat) : Prop :=
  ∀ i fd, w.conns[c]? = some (some (some i)) → w.objs[i]? = some (some (.tcp fd)) → fd = -1

/-- What an application may do next: only with connections that exist, with a socket only when there is one; and a descriptor is handed to a
TCP socket only when it has none. -/
def AppOp.allowed (w : Sockets) : AppOp → Prop
  | .newConnection _ => True
  | .tcpSocketNew c _ => w.alive c
  | .sslSocketNew c _ => w.alive c
  | .setSockfd c _ _ => w.alive c
  | .use c (.setFd _) => (∃ i, w.conns[c]? = some (some (some i))) ∧ w.closed c
  | .use c _ => ∃ i, w.conns[c]? = some (some (some i))
  | .getSockfd c => w.alive c
  | .destroy c => w.alive c

/-- A history of such calls. -/
def Allowed (O : Os) : List AppOp → Sockets → OsLog → Prop
  | [], _, _ => True
  | op :: rest, w, l => op.allowed w ∧ ∀ w' l', op.step O w l = .ok w' l' → Allowed O rest w' l'

/-- No connection is left. -/
def Sockets.allGone (w : Sockets) : Prop := ∀ c, ¬ w.alive c

/-- Nothing at all yet. -/
def noSockets : Sockets := ⟨[], []⟩

/-- No close failed, and no name was resolved to no address. -/
def NoMishap (l : List Sys) : Prop := (∀ f, Sys.close f false ∉ l) ∧ ∀ h p, Sys.resolve h p (some []) ∉ l

/-- The operation opens without a time limit (if it opens at all). -/
def SockOp.unlimited (op : SockOp) : Prop := ∀ h p tv, op = .open h p tv → tv = none

/-- The call does not open with a time limit. -/
def AppOp.unlimited : AppOp → Prop
  | .use _ op => op.unlimited
  | _ => True

end Rmq
