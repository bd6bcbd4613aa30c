import Verif.Spec.Statuses
import Verif.Proofs.StatusCalls
import Verif.Props.Time
import Verif.Props.Heartbeat
import Verif.Props.Login
import Verif.Props.Limits
import Verif.Props.Os
/-!
# C100: a failing call reports a documented status
-/
namespace Rmq

theorem Use.hb {E : NetEnv} (hC : ClockFine E) {s s' : Conn} (h : Use E s s') (hs : HbSettings E s) : HbSettings E s' := by
  cases h with
  | call h => exact h.hb hC hs
  | timeouts τ => exact hs

/-- C100: whatever a connection has been used for since it was made, whatever the server sends and however the transport behaves (when it fails it
says why): if a call fails, the status the application is given is a code of amqp_status_enum, and amqp_error_string2 has a message for it. -/
theorem C100_documented {E : NetEnv} (hC : ClockFine E) (hT : Transport E) (mem : Nat → UInt8) {s : Conn} (hs : Steps (Use E) (newConn mem) s)
    {st : Int} (hf : Fails E s st) : ∃ m, (st, m) ∈ statusMessages ∧ st < 0 ∧ errorString2 st = some m := by
  have hb : HbSettings E s := Steps.inv (P := HbSettings E) (fun h a => Use.hb hC h a) hs (hbSettings_new E mem)
  have hF : Fair E s s := ⟨hb, [], by simp [Since]⟩
  have key : IsStatus st := by
    cases hf with
    | waitFrame tv h1 h2 => exact (waitFrame_says hC hT h1 hF).err h2
    | waitFrameOn ch h => exact (waitFrameOn_says hC hT ch hF).err h
    | waitMethod ch id h => exact (waitMethodList_says hC hT ch [id] (Or.inl (near_inf E s.time)) hF).err h
    | sendFrame f fl h => exact (sendFrame_says hC hT f fl (Or.inl (near_inf E s.time)) hF).err h
    | publish ch ex rk m i props body h => exact (basicPublish_says hC hT ch ex rk m i props body hF).err h
    | tune cm fm hb mem h => exact (tune_says cm fm hb mem s).err h
    | simpleRpc ch id ex args h1 h2 => exact (simpleRpc_says hC hT ch id ex args h1 hF).val h2
    | readMessage ch h => exact (readMessage_says hC hT ch hF).val h
    | consumeMessage tv h1 h2 => exact (consumeMessage_says hC hT h1 hF).val h2
    | confirmWait tv h1 h2 => exact (confirmWait_says hC hT h1 hF).val h2
  obtain ⟨h0, m, hm⟩ := key
  refine ⟨m, hm, h0, ?_⟩
  have : ∀ p ∈ statusMessages, errorString2 p.1 = some p.2 := by decide +kernel
  exact this _ hm

/-- C100, for logging in.  Missing: the status may be a positive number, if the deadline passes while the eight octets of the protocol header are
being sent (see `C100_login_three`). -/
theorem C100_login_partial {E : NetEnv} (hC : ClockFine E) (hT : Transport E) (mem : Nat → UInt8) {s : Conn} (hs : Steps (Use E) (newConn mem) s)
    (hd : Short (getHandshakeTimeout s.timeouts)) (b : Build) (memcmp : Bytes → Bytes → Int) (mem' : Nat → UInt8) (a : LoginArgs) {st : Int}
    (hf : (login E b memcmp mem' a s).val? = some (.libraryException st)) : LoginStatus st := by
  have hb : HbSettings E s := Steps.inv (P := HbSettings E) (fun h a => Use.hb hC h a) hs (hbSettings_new E mem)
  have h := login_says hC hT b memcmp mem' a hd (s0 := s) ⟨hb, [], by simp [Since]⟩
  revert h hf
  cases login E b memcmp mem' a s with
  | ok o t => intro hf h; cases hf; exact h
  | err e t => intro hf; cases hf
  | ub => intro hf; cases hf
  | fuel => intro hf; cases hf

/-- … and login returns normally, in every case, or it does not return: it has no other way of failing. -/
theorem C100_login_total (E : NetEnv) (b : Build) (memcmp : Bytes → Bytes → Int) (mem : Nat → UInt8) (a : LoginArgs) (s : Conn) :
    (login E b memcmp mem a s).errCode? = none := by
  unfold login loginInner
  split
  · rfl
  split
  · rfl
  split
  · rfl
  cases loginSteps E b memcmp mem a (getHandshakeTimeout s.timeouts) s <;> rfl

theorem documented_of {e : Int} (h : (decide (e < 0) && (statusMessages.any fun p => p.1 == e)) = true) : IsStatus e := by
  rw [Bool.and_eq_true, decide_eq_true_eq, List.any_eq_true] at h
  obtain ⟨h0, ⟨c, m⟩, hp, hc⟩ := h
  rw [beq_iff_eq] at hc
  exact ⟨h0, m, by rw [← hc]; exact hp⟩

/-- C100: the library's own transports are such transports: whatever the operating system and OpenSSL answer, a send or receive on a TCP or a TLS
socket returns a count, a documented status, or one of the two codes for "would block". -/
theorem C100_transport (O : Os) (l l1 : OsLog) (r : Int) :
    (∀ fd buf more, tcpSend O fd buf more l = .ok r l1 → 0 ≤ r ∨ IsStatus r ∨ WouldBlock r) ∧
    (∀ fd len b, tcpRecv O fd len l = .ok (r, b) l1 → 0 ≤ r ∨ IsStatus r ∨ WouldBlock r) ∧
    (∀ s buf, tlsSend O s buf l = .ok r l1 → 0 ≤ r ∨ IsStatus r ∨ WouldBlock r) ∧
    (∀ s len b, tlsRecv O s len l = .ok (r, b) l1 → 0 ≤ r ∨ IsStatus r ∨ WouldBlock r) := by
  have hn : ∀ n : Nat, 0 ≤ (n : Int) ∨ IsStatus (n : Int) ∨ WouldBlock (n : Int) := fun n => Or.inl (by omega)
  have hd : ∀ e : Int, (decide (e < 0) && (statusMessages.any fun p => p.1 == e)) = true → 0 ≤ e ∨ IsStatus e ∨ WouldBlock e :=
    fun e h => Or.inr (Or.inl (documented_of h))
  have hw : ∀ e : Int, e = -0x1301 ∨ e = -0x1302 → 0 ≤ e ∨ IsStatus e ∨ WouldBlock e := fun e h => Or.inr (Or.inr h)
  refine ⟨fun fd buf more h => ?_, fun fd len b h => ?_, fun s buf h => ?_, fun s len b h => ?_⟩
  · have h1 : tcpOp O (.send buf more) fd l = .ok (r, [], fd) l1 := by simp only [tcpOp, M.bind_def, h]; rfl
    obtain ⟨m, hm, hs⟩ := tcpOp_post O _ _ _ _ _ h1
    clear hm
    dsimp only at hs
    cases hs with
    | sendClosed => exact hd _ (by decide +kernel)
    | send _ hs =>
      clear h h1
      induction hs with
      | sent n => exact hn n
      | again => first | exact hd _ (by decide +kernel) | exact hw _ (by decide)
      | error => exact hd _ (by decide +kernel)
      | intr _ ih => exact ih
  · have h1 : tcpOp O (.recv len) fd l = .ok (r, b, fd) l1 := by simp only [tcpOp, M.bind_def, h]; rfl
    obtain ⟨m, hm, hs⟩ := tcpOp_post O _ _ _ _ _ h1
    clear hm
    dsimp only at hs
    cases hs with
    | recvClosed => exact hd _ (by decide +kernel)
    | recv _ hs =>
      clear h h1
      induction hs with
      | data n => exact hn _
      | eof => exact hd _ (by decide +kernel)
      | again => first | exact hd _ (by decide +kernel) | exact hw _ (by decide)
      | error => exact hd _ (by decide +kernel)
      | intr _ ih => exact ih
  · have h1 : tlsOp O (.send buf) s l = .ok (r, [], s) l1 := by simp only [tlsOp, M.bind_def, h]; rfl
    obtain ⟨m, _, hs⟩ := tlsOp_post O _ _ _ _ _ h1
    dsimp only at hs
    cases hs with
    | sendClosed => exact hd _ (by decide +kernel)
    | sendHuge => exact hd _ (by decide +kernel)
    | @send _ _ a => cases a <;> first | exact hn _ | exact hd _ (by decide +kernel) | exact hw _ (by decide)
  · have h1 : tlsOp O (.recv len) s l = .ok (r, b, s) l1 := by simp only [tlsOp, M.bind_def, h]; rfl
    obtain ⟨m, _, hs⟩ := tlsOp_post O _ _ _ _ _ h1
    dsimp only at hs
    generalize hs' : s = s' at hs
    cases hs with
    | recvClosed => exact hd _ (by decide +kernel)
    | recvHuge => exact hd _ (by decide +kernel)
    | @recv _ _ a => cases a <;> first | exact hn _ | exact hd _ (by decide +kernel) | exact hw _ (by decide)

/-! ## The hypotheses are met, and what falls outside them -/

/-- A transport that never has anything to read, and takes whatever is sent. -/
example : ClockFine steadyClock ∧ Transport steadyClock :=
  ⟨steadyClock_fine, ⟨fun _ _ _ h => (nomatch h), fun _ _ _ h => by cases h; exact Or.inr (Or.inl rfl)⟩⟩

theorem reply_of_status {r : Res Conn Reply} {st : Int} (h0 : st ≠ 0) (h : r.val?.map Reply.status = some st) : r.val? = some (.libraryException st) := by
  cases r with
  | ok a t => cases a with
    | libraryException e => cases h; rfl
    | normal _ _ => cases h; exact absurd rfl h0
    | serverException _ _ => cases h; exact absurd rfl h0
  | err e t => cases h
  | ub => cases h
  | fuel => cases h

/-- On a new connection over it, after the RPC timeout was set to five seconds, a wait of one second fails, and so do an RPC and sending a frame
with an exchange name of 300 octets. -/
example : Fails steadyClock { newConn (fun _ => 0) with timeouts := limitedConn.timeouts } St.TIMEOUT :=
  .waitFrame (some ⟨1, 0⟩) (by simp [Short, TimeVal.nanos]) (by decide +kernel)
example : Fails steadyClock { newConn (fun _ => 0) with timeouts := limitedConn.timeouts } St.TIMEOUT :=
  .simpleRpc 1 0x0014000A [0x0014000B] [(.out_of_band, .bytes [])] (by simp [Short, getRpcTimeout, limitedConn, TimeVal.nanos]) (reply_of_status (by decide) (by decide +kernel))
example : Fails steadyClock { newConn (fun _ => 0) with timeouts := limitedConn.timeouts } St.BAD_AMQP_DATA :=
  .publish 1 (List.replicate 300 65) [] 0 0 none [66] (by decide +kernel)
example : Steps (Use steadyClock) (newConn fun _ => 0) { newConn (fun _ => 0) with timeouts := limitedConn.timeouts } :=
  .step (.refl _) (.timeouts _)
example : errorString2 St.TIMEOUT = some "request timed out" := by decide +kernel

/-- A timeout of thirty days is beyond the hypothesis: the wait fails at once, with a status that means nothing, whose message is "(unknown error)". -/
theorem C100_far_deadline : (waitFrame steadyClock (some ⟨2592000, 0⟩) (newConn fun _ => 0)).errCode? = some (-1702967296) ∧
    (¬ ∃ m, ((-1702967296 : Int), m) ∈ statusMessages) ∧ errorString2 (-1702967296) = some "(unknown error)" := by
  refine ⟨by decide +kernel, ?_, by decide +kernel⟩
  rintro ⟨m, hm⟩
  have : ∀ p ∈ statusMessages, p.1 ≠ -1702967296 := by decide +kernel
  exact this _ hm rfl

/-- Logging in over a connection that takes three octets and then blocks until the deadline: the status is 3, for which there is no message. -/
def clogged : NetEnv := { steadyClock with send := fun t _ => if t = 1 then .sent 3 else .fail 0x1301 }
def Outcome.status {α : Type} : Outcome α → Option Int
  | .libraryException e => some e
  | _ => none
theorem C100_login_three : ((login clogged ⟨[49], [50]⟩ eqMemcmp (fun _ => 0) loginArgs (newConn fun _ => 0)).val?.bind Outcome.status) = some 3 ∧
    (¬ ∃ m, ((3 : Int), m) ∈ statusMessages) ∧ errorString2 3 = some "(unknown error)" := by
  refine ⟨by decide +kernel, ?_, by decide +kernel⟩
  rintro ⟨m, hm⟩
  have : ∀ p ∈ statusMessages, p.1 ≠ 3 := by decide +kernel
  exact this _ hm rfl
example : ClockFine clogged ∧ Transport clogged :=
  ⟨steadyClock_fine, ⟨fun t b n h => by
      have h : (if t = 1 then SendR.sent 3 else .fail 0x1301) = .fail n := h
      split at h
      · cases h
      · cases h; exact Or.inr (Or.inr rfl), fun _ _ _ h => by cases h; exact Or.inr (Or.inl rfl)⟩⟩
example : Short (getHandshakeTimeout (newConn fun _ => 0).timeouts) := by simp [Short, getHandshakeTimeout, newConn, newTimeouts, TimeVal.nanos]

end Rmq
