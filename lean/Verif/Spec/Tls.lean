import Verif.Spec.Os
import Verif.Model.Tls
/-!
# What opening a TLS socket has to look like to the operating system and to OpenSSL
-/
namespace Rmq.TlsSpec
open OsSpec

/-- The handshake of session `h` over `fd`: SSL_connect is repeated, each time after waiting for the direction it asked for, until it is done
or fails or the wait does. -/
inductive Handshake (h : Nat) (fd : Int) (dl : Nat) : List Sys → Int → Prop where
  | done : Handshake h fd dl [.sslConnect h .done] St.OK
  | broken : Handshake h fd dl [.sslConnect h .other] St.SSL_CONNECTION_FAILED
  | read {w r} : Waited fd .pollIn dl w r → r ≠ St.OK → Handshake h fd dl (.sslConnect h .wantRead :: w) r
  | write {w r} : Waited fd .pollOut dl w r → r ≠ St.OK → Handshake h fd dl (.sslConnect h .wantWrite :: w) r
  | readOn {w l r} : Waited fd .pollIn dl w St.OK → Handshake h fd dl l r → Handshake h fd dl (.sslConnect h .wantRead :: (w ++ l)) r
  | writeOn {w l r} : Waited fd .pollOut dl w St.OK → Handshake h fd dl l r → Handshake h fd dl (.sslConnect h .wantWrite :: (w ++ l)) r

/-- The verification of the peer of session `h`: `peer` is peer verification, `name` host name verification.  The chain is good if OpenSSL's
verify result is 0 (X509_V_OK), the name matches if X509_check_host says 1; both need a certificate.  When one of them fails, the session is
shut down. -/
inductive Verified (peer name : Bool) (h : Nat) (host : Bytes) : List Sys → Int → Prop where
  | noCertPeer : peer = true → Verified peer name h host [.peerCert h none, .sslShutdown h] St.SSL_PEER_VERIFY_FAILED
  | badChain {c v} : peer = true → v ≠ 0 →
      Verified peer name h host [.peerCert h (some c), .verifyResult h v, .certFree c, .sslShutdown h] St.SSL_PEER_VERIFY_FAILED
  | noCertName : peer = false → name = true → Verified peer name h host [.peerCert h none, .sslShutdown h] St.SSL_HOSTNAME_VERIFY_FAILED
  | badName {c v} : name = true → v ≠ 1 →
      Verified peer name h host (.peerCert h (some c) :: ((if peer then [.verifyResult h 0] else []) ++
        [.checkHost c host v, .certFree c, .sslShutdown h])) St.SSL_HOSTNAME_VERIFY_FAILED
  | good {c} : Verified peer name h host (.peerCert h (some c) :: ((if peer then [.verifyResult h 0] else []) ++
      ((if name then [.checkHost c host 1] else []) ++ [.certFree c]))) St.OK
  | unchecked : peer = false → name = false → Verified peer name h host [.peerCert h none] St.OK

/-- A session `h` over the connected descriptor `fd`: attach, name the host (SNI), handshake, verify. -/
inductive Session (peer name : Bool) (h : Nat) (fd : Int) (host : Bytes) (dl : Nat) : List Sys → Int → Prop where
  | noBio : Session peer name h fd host dl [.bioNew h fd false] St.NO_MEMORY
  | noSni : Session peer name h fd host dl [.bioNew h fd true, .sni h host false] St.SSL_ERROR
  | noHandshake {l r} : Handshake h fd dl l r → r ≠ St.OK → Session peer name h fd host dl (.bioNew h fd true :: .sni h host true :: l) r
  | checked {l m r} : Handshake h fd dl l St.OK → Verified peer name h host m r →
      Session peer name h fd host dl (.bioNew h fd true :: .sni h host true :: (l ++ m)) r

/-- Opening a closed TLS socket: calls, status, new descriptor, new session. -/
inductive TlsOpens (peer name : Bool) (host : Bytes) (port : Int) (tv : Option TimeVal) : List Sys → Int → Int → Option Nat → Prop where
  | noSession : TlsOpens peer name host port tv [.sslNew none] St.SSL_ERROR (-1) none
  /-- (the session is not freed here) -/
  | noDeadline {h l e} : Deadline tv l (.error e) → TlsOpens peer name host port tv (.sslNew (some h) :: l) e (-1) (some h)
  | noConnection {h l dl m r} : Deadline tv l (.ok dl) → Opens dl host port m r → r < 0 →
      TlsOpens peer name host port tv (.sslNew (some h) :: (l ++ (m ++ [.sslFree h]))) r (-1) none
  | failed {h l dl m k r ok} {fd : Nat} : Deadline tv l (.ok dl) → Opens dl host port m fd → Session peer name h fd host dl k r → r ≠ St.OK →
      TlsOpens peer name host port tv (.sslNew (some h) :: (l ++ (m ++ (k ++ [.close fd ok, .sslFree h])))) r (-1) none
  | opened {h l dl m k} {fd : Nat} : Deadline tv l (.ok dl) → Opens dl host port m fd → Session peer name h fd host dl k St.OK →
      TlsOpens peer name host port tv (.sslNew (some h) :: (l ++ (m ++ k))) St.OK fd (some h)

/-- How often session `h` is created in `l`, minus how often it is freed. -/
def sessions (h : Nat) : List Sys → Int
  | [] => 0
  | .sslNew (some k) :: l => (if k = h then 1 else 0) + sessions h l
  | .sslFree k :: l => sessions h l - (if k = h then 1 else 0)
  | _ :: l => sessions h l

/-- The status of a failed SSL_write or SSL_read. -/
def tlsStatus : TlsSendAns → Int
  | .sent n => n
  | .wantRead => St.PRIVATE_NEED_READ
  | .wantWrite => St.PRIVATE_NEED_WRITE
  | .zeroReturn => St.CONNECTION_CLOSED
  | .other => St.SSL_ERROR

/-- The status of SSL_read and the octets it stored. -/
def tlsRecvStatus : TlsRecvAns → Int × Bytes
  | .data b => (b.length, b)
  | .wantRead => (St.PRIVATE_NEED_READ, [])
  | .wantWrite => (St.PRIVATE_NEED_WRITE, [])
  | .zeroReturn => (St.CONNECTION_CLOSED, [])
  | .other => (St.SSL_ERROR, [])

/-- What one operation on a TLS socket has to do. -/
inductive Step (s : TlsSock) : TlsOp → List Sys → Int → Bytes → TlsSock → Prop where
  | sendClosed {buf} : s.fd = -1 → Step s (.send buf) [] St.SOCKET_CLOSED [] s
  | sendHuge {buf} : s.fd ≠ -1 → 2 ^ 31 ≤ buf.length → Step s (.send buf) [] St.INVALID_PARAMETER [] s
  | send {buf h a} : s.fd ≠ -1 → buf.length < 2 ^ 31 → s.ssl = some h → Step s (.send buf) [.sslWrite h buf a] (tlsStatus a) [] s
  | recvClosed {len} : s.fd = -1 → Step s (.recv len) [] St.SOCKET_CLOSED [] s
  | recvHuge {len} : s.fd ≠ -1 → 2 ^ 31 ≤ len → Step s (.recv len) [] St.INVALID_PARAMETER [] s
  | recv {len h a} : s.fd ≠ -1 → len < 2 ^ 31 → s.ssl = some h →
      Step s (.recv len) [.sslRead h len a] (tlsRecvStatus a).1 (tlsRecvStatus a).2 s
  | openInUse {h p tv} : s.fd ≠ -1 → Step s (.open h p tv) [] St.SOCKET_INUSE [] s
  | «open» {h p tv l r fd ssl} : s.fd = -1 → TlsOpens s.verifyPeer s.verifyHost h p tv l r fd ssl →
      Step s (.open h p tv) l r [] { s with fd := fd, ssl := ssl }
  | closeClosed {force} : s.fd = -1 → Step s (.close force) [] St.SOCKET_CLOSED [] s
  | close {force h} : s.fd ≠ -1 → s.ssl = some h →
      Step s (.close force) ((if force then [] else [.sslShutdown h]) ++ [.sslFree h, .close s.fd true]) St.OK [] { s with fd := -1, ssl := none }
  | closeFails {force h} : s.fd ≠ -1 → s.ssl = some h →
      Step s (.close force) ((if force then [] else [.sslShutdown h]) ++ [.sslFree h, .close s.fd false]) St.SOCKET_ERROR [] { s with ssl := none }
  /-- (closing again by force after a failed close) -/
  | closeAgain {ok} : s.fd ≠ -1 → s.ssl = none →
      Step s (.close true) [.close s.fd ok] (if ok then St.OK else St.SOCKET_ERROR) [] { s with fd := if ok then -1 else s.fd }
  | setVerifyPeer {b} : Step s (.setVerifyPeer b) [] 0 [] { s with verifyPeer := b }
  | setVerifyHost {b} : Step s (.setVerifyHost b) [] 0 [] { s with verifyHost := b }

/-- A history of operations. -/
inductive Steps : TlsSock → List TlsOp → List Sys → List (Int × Bytes) → TlsSock → Prop where
  | nil {s} : Steps s [] [] [] s
  | cons {s op l r b s' ops l' rs s''} : Step s op l r b s' → Steps s' ops l' rs s'' → Steps s (op :: ops) (l ++ l') ((r, b) :: rs) s''

/-! ## Library life cycle -/

/-- Is the global TLS I/O state in place, if it was (`true`) or was not (`false`) before `trace`?  `none`: it was set up twice, or set-up was
attempted while in place, or it was torn down without being in place. -/
def inPlace : Bool → List LifeEv → Option Bool
  | b, [] => some b
  | false, .setUp :: tr => inPlace true tr
  | false, .setUpFailed :: tr => inPlace false tr
  | true, .tearDown :: tr => inPlace false tr
  | _, _ :: _ => none

/-- A history that deletes only sockets that exist, each once. -/
def Legal (asserts : Bool) : List LifeOp → TlsGlobal → Prop
  | [], _ => True
  | .new a :: rest, g => ∀ r g', tlsNew asserts a g = some (r, g') → Legal asserts rest g'
  | .delete i :: rest, g => i ∈ g.live ∧ ∀ g', tlsDelete asserts i g = some g' → Legal asserts rest g'

end Rmq.TlsSpec
