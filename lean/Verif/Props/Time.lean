import Verif.Model.Time
import Verif.Spec.Time
/-!
# Time, timeout settings and status strings: C39, C40, C53, C60
-/
namespace Rmq

/-- a timeout in nanoseconds -/
def TimeVal.ns (tv : TimeVal) : Nat := tv.sec.toNat * 1000000000 + tv.usec.toNat * 1000

/-! ## C39 -/

/-- C39: with a working clock, a non-negative timeout gives the deadline `now + timeout`, provided that is a representable time.
Missing: timeouts of 2^64 ns (584 years) and more, see `C39_huge_timeout_wraps`. -/
theorem C39_deadline_partial (now : Nat) (tv : TimeVal) (h1 : 0 ≤ tv.sec) (h2 : 0 ≤ tv.usec) (hnow : now ≠ 0)
    (hfit : now + tv.ns < 2 ^ 64) : timeFromNow now (some tv) = .ok (now + tv.ns) := by
  unfold TimeVal.ns at *
  unfold timeFromNow
  simp only [if_neg (show ¬ (tv.sec < 0 ∨ tv.usec < 0) by omega), if_neg hnow]
  rw [Nat.mod_eq_of_lt (a := tv.sec.toNat * 1000000000 + tv.usec.toNat * 1000) (by omega), Nat.mod_eq_of_lt hfit, if_neg (by omega)]

/-- C39: a deadline past the end of the clock's range is refused, not wrapped. -/
theorem C39_overflow_refused (now : Nat) (tv : TimeVal) (hclock : now < 2 ^ 64) (h1 : 0 ≤ tv.sec) (h2 : 0 ≤ tv.usec) (hnow : now ≠ 0)
    (hd : tv.ns < 2 ^ 64) (hbig : 2 ^ 64 ≤ now + tv.ns) : timeFromNow now (some tv) = .error St.INVALID_PARAMETER := by
  unfold TimeVal.ns at *
  unfold timeFromNow
  simp only [if_neg (show ¬ (tv.sec < 0 ∨ tv.usec < 0) by omega), if_neg hnow]
  rw [Nat.mod_eq_of_lt hd, if_pos (by omega)]

/-- C39: no timeout means no deadline; a negative timeout is refused whatever the clock says; a failing clock is reported. -/
theorem C39_special_cases (now : Nat) :
    timeFromNow now none = .ok TIME_INF ∧
    (∀ tv : TimeVal, tv.sec < 0 ∨ tv.usec < 0 → timeFromNow now (some tv) = .error St.INVALID_PARAMETER) ∧
    (∀ tv : TimeVal, 0 ≤ tv.sec → 0 ≤ tv.usec → timeFromNow 0 (some tv) = .error St.TIMER_FAILURE) := by
  refine ⟨rfl, fun tv h => ?_, fun tv h1 h2 => ?_⟩
  · simp only [timeFromNow, if_pos h]
  · simp only [timeFromNow, if_neg (show ¬ (tv.sec < 0 ∨ tv.usec < 0) by omega), if_true]

/-- C39 (deadlines in seconds, used for heartbeats): non-positive means never. -/
theorem C39_seconds (now : Nat) (seconds : Int) (hclock : now < 2 ^ 64) (hint : seconds < 2 ^ 31) :
    (seconds ≤ 0 → timeSFromNow now seconds = .ok TIME_INF) ∧
    (0 < seconds → now = 0 → timeSFromNow now seconds = .error St.TIMER_FAILURE) ∧
    (0 < seconds → now ≠ 0 → now + seconds.toNat * 1000000000 < 2 ^ 64 →
      timeSFromNow now seconds = .ok (now + seconds.toNat * 1000000000)) ∧
    (0 < seconds → now ≠ 0 → 2 ^ 64 ≤ now + seconds.toNat * 1000000000 →
      timeSFromNow now seconds = .error St.INVALID_PARAMETER) := by
  unfold timeSFromNow
  have hd : 0 < seconds → (seconds.toNat * 1000000000) % 2 ^ 64 = seconds.toNat * 1000000000 := fun h =>
    Nat.mod_eq_of_lt (by omega)
  refine ⟨fun h => by rw [if_pos (by omega)], fun h h0 => by rw [if_neg (by omega), if_pos h0], fun h h0 hf => ?_, fun h h0 hf => ?_⟩
  · rw [if_neg (by omega), if_neg h0]; dsimp only; rw [hd h, Nat.mod_eq_of_lt hf, if_neg (by omega)]
  · rw [if_neg (by omega), if_neg h0]; dsimp only; rw [hd h, if_pos (by omega)]

/-- C39: the earlier of two deadlines. -/
theorem C39_first (l r : Nat) : timeFirst l r = min l r := by unfold timeFirst; by_cases h : l < r <;> simp [h] <;> omega

/-- C39: a deadline has passed exactly when the clock is beyond it; no deadline never passes. -/
theorem C39_has_past (now t : Nat) (hnow : now ≠ 0) :
    hasPast now t = St.TIMEOUT ↔ t ≠ TIME_INF ∧ t < now := by
  unfold hasPast
  by_cases h1 : TIME_INF = t
  · simp [h1, St.OK, St.TIMEOUT]
  · rw [if_neg h1, if_neg hnow]
    by_cases h2 : now > t <;> simp [h2, St.OK, St.TIMEOUT] <;> omega

/-- C39 fails for absurd timeouts: 2^55 seconds is accepted and gives a deadline that is already over. -/
theorem C39_huge_timeout_wraps : timeFromNow 1000 (some ⟨2 ^ 55, 0⟩) = .ok 1000 := by rfl

example : timeFromNow 5000000000 (some ⟨2, 500000⟩) = .ok 7500000000 := by rfl

/-! ## C40 -/

/-- C40: while less than 2^31 ms (24.8 days) remain, the poll timeout is the time left in milliseconds, rounded down: never more
than the time left, less than one millisecond short of it, 0 once the deadline has passed, and never negative.  Missing: longer waits,
see `C40_long_wait_is_infinite`. -/
theorem C40_poll_timeout_partial (now t : Nat) (hnow : now ≠ 0) (hfin : t ≠ TIME_INF) (hshort : t - now < 2 ^ 31 * 1000000) :
    0 ≤ msUntil now t ∧ (msUntil now t).toNat * 1000000 ≤ t - now ∧ t - now < ((msUntil now t).toNat + 1) * 1000000 ∧
    (t ≤ now → msUntil now t = 0) := by
  unfold msUntil
  rw [if_neg (Ne.symm hfin)]
  by_cases h0 : 0 = t
  · rw [if_pos h0]; subst h0; simp
  rw [if_neg h0, if_neg hnow]
  by_cases h : now ≥ t
  · rw [if_pos h]; simp; omega
  rw [if_neg h]
  have : (t - now) / 1000000 < 2 ^ 31 := by omega
  unfold toInt32
  rw [Nat.mod_eq_of_lt (by omega), if_pos this]
  have h1 := Nat.div_mul_le_self (t - now) 1000000
  have h2 := Nat.lt_div_mul_add (a := t - now) (b := 1000000) (by omega)
  refine ⟨by omega, ?_, ?_, fun h' => absurd h' (by omega)⟩
  · rw [Int.toNat_natCast]; exact h1
  · rw [Int.toNat_natCast, Nat.add_mul]; omega

/-- C40: no deadline means poll without a timeout; a broken clock is reported as such. -/
theorem C40_special_cases (now t : Nat) : msUntil now TIME_INF = -1 ∧
    (t ≠ TIME_INF → t ≠ 0 → msUntil 0 t = St.TIMER_FAILURE) := by
  refine ⟨by unfold msUntil; rw [if_pos rfl], fun h1 h2 => ?_⟩
  unfold msUntil
  rw [if_neg (Ne.symm h1), if_neg (Ne.symm h2), if_pos rfl]

/-- C40: the same for the select() form. -/
theorem C40_select_timeout (now t : Nat) (hnow : now ≠ 0) (hfin : t ≠ TIME_INF) (hshort : t - now < 2 ^ 31 * 1000000000) :
    ∃ tv, tvUntil now t = .ok (some tv) ∧ 0 ≤ tv.sec ∧ 0 ≤ tv.usec ∧ tv.usec < 1000000 ∧
      tv.sec.toNat * 1000000000 + tv.usec.toNat * 1000 ≤ t - now ∧
      t - now < tv.sec.toNat * 1000000000 + (tv.usec.toNat + 1) * 1000 := by
  unfold tvUntil
  rw [if_neg (Ne.symm hfin)]
  by_cases h0 : 0 = t
  · rw [if_pos h0]; exact ⟨⟨0, 0⟩, rfl, by simp; omega⟩
  rw [if_neg h0, if_neg hnow]
  by_cases h : now ≥ t
  · rw [if_pos h]; exact ⟨⟨0, 0⟩, rfl, by simp; omega⟩
  rw [if_neg h]
  refine ⟨_, rfl, ?_⟩
  have e1 : toInt32 ((t - now) / 1000000000) = ((t - now) / 1000000000 : Nat) := by
    unfold toInt32; rw [Nat.mod_eq_of_lt (by omega), if_pos (by omega)]
  have e2 : toInt32 ((t - now) % 1000000000 / 1000) = ((t - now) % 1000000000 / 1000 : Nat) := by
    unfold toInt32; rw [Nat.mod_eq_of_lt (by omega), if_pos (by omega)]
  rw [e1, e2]
  simp only [Int.toNat_natCast]
  omega

/-- C40 fails for waits of about 50 days: the timeout handed to poll is -1, which means no timeout at all. -/
theorem C40_long_wait_is_infinite : msUntil 1 (1 + (2 ^ 32 - 1) * 1000000) = -1 := by decide +kernel

example : msUntil 5000000 7999999 = 2 := by decide +kernel

/-! ## C53 -/

/-- C53: every documented status has its message; every other value in the range of status codes gives the unknown-error
message.  Missing: values outside (-65536, 0], see `C53_aliases`. -/
theorem C53_messages_partial (code : Int) (hlo : -65536 < code) (hhi : code ≤ 0) :
    (∀ m, (code, m) ∈ statusMessages → errorString2 code = some m) ∧
    ((∀ m, (code, m) ∉ statusMessages) → errorString2 code = some "(unknown error)") := by
  constructor
  · intro m hm
    have : ∀ p ∈ statusMessages, errorString2 p.1 = some p.2 := by decide +kernel
    exact this _ hm
  · intro hno
    unfold errorString2
    rw [if_neg (by omega)]
    dsimp only
    have hkey : ∀ c : Int, (∃ m, (c, m) ∈ statusMessages) ↔ ((-20 ≤ c ∧ c ≤ 0) ∨ (-257 ≤ c ∧ c ≤ -256) ∨ (-517 ≤ c ∧ c ≤ -512)) := by
      intro c
      constructor
      · rintro ⟨m, hm⟩
        have : ∀ p ∈ statusMessages, ((-20 ≤ p.1 ∧ p.1 ≤ 0) ∨ (-257 ≤ p.1 ∧ p.1 ≤ -256) ∨ (-517 ≤ p.1 ∧ p.1 ≤ -512)) := by
          decide +kernel
        exact this _ hm
      · intro h
        have all : ∀ n : Nat, n < 21 → ∃ m, (-(n : Int), m) ∈ statusMessages := by
          intro n hn
          have : ∀ n : Fin 21, (statusMessages.find? (fun p => p.1 = -(n.val : Int))).isSome := by decide +kernel
          have h' := this ⟨n, hn⟩
          rw [List.find?_isSome] at h'
          obtain ⟨⟨a, b⟩, h1, h2⟩ := h'
          simp only [decide_eq_true_eq] at h2
          exact ⟨b, by rw [← h2]; exact h1⟩
        have all2 : ∀ n : Nat, n < 2 → ∃ m, (-256 - (n : Int), m) ∈ statusMessages := by
          intro n hn
          have : ∀ n : Fin 2, (statusMessages.find? (fun p => p.1 = -256 - (n.val : Int))).isSome := by decide +kernel
          have h' := this ⟨n, hn⟩
          rw [List.find?_isSome] at h'
          obtain ⟨⟨a, b⟩, h1, h2⟩ := h'
          simp only [decide_eq_true_eq] at h2
          exact ⟨b, by rw [← h2]; exact h1⟩
        have all3 : ∀ n : Nat, n < 6 → ∃ m, (-512 - (n : Int), m) ∈ statusMessages := by
          intro n hn
          have : ∀ n : Fin 6, (statusMessages.find? (fun p => p.1 = -512 - (n.val : Int))).isSome := by decide +kernel
          have h' := this ⟨n, hn⟩
          rw [List.find?_isSome] at h'
          obtain ⟨⟨a, b⟩, h1, h2⟩ := h'
          simp only [decide_eq_true_eq] at h2
          exact ⟨b, by rw [← h2]; exact h1⟩
        rcases h with h | h | h
        · have := all (-c).toNat (by omega)
          rw [show -(((-c).toNat : Nat) : Int) = c by omega] at this; exact this
        · have := all2 (-256 - c).toNat (by omega)
          rw [show -256 - (((-256 - c).toNat : Nat) : Int) = c by omega] at this; exact this
        · have := all3 (-512 - c).toNat (by omega)
          rw [show -512 - (((-512 - c).toNat : Nat) : Int) = c by omega] at this; exact this
    have hout : ¬ ((-20 ≤ code ∧ code ≤ 0) ∨ (-257 ≤ code ∧ code ≤ -256) ∨ (-517 ≤ code ∧ code ≤ -512)) := by
      rw [← hkey]; rintro ⟨m, hm⟩; exact hno m hm
    generalize hc : (-code % 65536 / 256).toNat = cat
    generalize he : (-code % 256).toNat = er
    have hx : -code % 65536 = -code := by omega
    rw [hx] at hc
    match cat, hc with
    | 0, hc =>
      show some (baseErrorStrings.getD er unknownErrorString) = _
      rw [List.getD_eq_getElem?_getD, List.getElem?_eq_none (by show 21 ≤ er; omega)]; rfl
    | 1, hc =>
      show some (tcpErrorStrings.getD er unknownErrorString) = _
      rw [List.getD_eq_getElem?_getD, List.getElem?_eq_none (by show 2 ≤ er; omega)]; rfl
    | 2, hc =>
      show some (sslErrorStrings.getD er unknownErrorString) = _
      rw [List.getD_eq_getElem?_getD, List.getElem?_eq_none (by show 6 ≤ er; omega)]; rfl
    | n + 3, _ => rfl

/-- C53: a message is returned for every `int` but the most negative one, where negation overflows. -/
theorem C53_always_a_message (code : Int) : (errorString2 code).isSome ↔ code ≠ -(2 ^ 31) := by
  unfold errorString2
  by_cases h : code = -(2 ^ 31) <;> simp [h]

/-- C53: distinct documented codes other than SOCKET_ERROR and TCP_ERROR have distinct messages. -/
theorem C53_distinct : ∀ p ∈ statusMessages, ∀ q ∈ statusMessages, p.2 = q.2 → p.1 ≠ St.TCP_ERROR → q.1 ≠ St.TCP_ERROR →
    p.1 = q.1 := by decide +kernel

/-- C53 fails outside the range of status codes: other values give the message of a documented status. -/
theorem C53_aliases : errorString2 (-65536) = some "operation completed successfully" ∧
    errorString2 65535 = some "could not allocate memory" := by decide +kernel

/-! ## C60 -/

/-- C60 (accept/store): a non-negative timeval is accepted and the getter returns it; NULL removes the timeout; the other
setting is untouched.  Missing: `tv_usec` of a million or more should be refused as not normalised, but is accepted, see
`C60_unnormalised_accepted`. -/
theorem C60_set_rpc_partial (s : Timeouts) (t : Option TimeVal) :
    ((setRpcTimeout s t).1 = St.OK ↔ ∀ tv, t = some tv → 0 ≤ tv.sec ∧ 0 ≤ tv.usec) ∧
    ((setRpcTimeout s t).1 = St.OK → getRpcTimeout (setRpcTimeout s t).2 = t) ∧
    ((setRpcTimeout s t).1 ≠ St.OK → (setRpcTimeout s t).1 = St.INVALID_PARAMETER ∧ (setRpcTimeout s t).2 = s) ∧
    getHandshakeTimeout (setRpcTimeout s t).2 = getHandshakeTimeout s := by
  cases t with
  | none => exact ⟨by simp [setRpcTimeout], fun _ => rfl, fun h => absurd rfl h, rfl⟩
  | some tv =>
    unfold setRpcTimeout
    by_cases h : tv.sec < 0 ∨ tv.usec < 0
    · simp only [if_pos h]
      refine ⟨?_, by simp [St.INVALID_PARAMETER, St.OK], by simp, trivial⟩
      simp [St.INVALID_PARAMETER, St.OK]; omega
    · simp only [if_neg h]
      refine ⟨?_, by simp [getRpcTimeout], by simp, rfl⟩
      simp; omega

theorem C60_set_handshake_partial (s : Timeouts) (t : Option TimeVal) :
    ((setHandshakeTimeout s t).1 = St.OK ↔ ∀ tv, t = some tv → 0 ≤ tv.sec ∧ 0 ≤ tv.usec) ∧
    ((setHandshakeTimeout s t).1 = St.OK → getHandshakeTimeout (setHandshakeTimeout s t).2 = t) ∧
    ((setHandshakeTimeout s t).1 ≠ St.OK →
      (setHandshakeTimeout s t).1 = St.INVALID_PARAMETER ∧ (setHandshakeTimeout s t).2 = s) ∧
    getRpcTimeout (setHandshakeTimeout s t).2 = getRpcTimeout s := by
  cases t with
  | none => exact ⟨by simp [setHandshakeTimeout], fun _ => rfl, fun h => absurd rfl h, rfl⟩
  | some tv =>
    unfold setHandshakeTimeout
    by_cases h : tv.sec < 0 ∨ tv.usec < 0
    · simp only [if_pos h]
      refine ⟨?_, by simp [St.INVALID_PARAMETER, St.OK], by simp, trivial⟩
      simp [St.INVALID_PARAMETER, St.OK]; omega
    · simp only [if_neg h]
      refine ⟨?_, by simp [getHandshakeTimeout], by simp, rfl⟩
      simp; omega

/-- The calls an application can make to the setters. -/
inductive SetCall where
  | rpc (t : Option TimeVal)
  | handshake (t : Option TimeVal)

/-- The settings after a history of calls. -/
def runSets : Timeouts → List SetCall → Timeouts
  | s, [] => s
  | s, .rpc t :: cs => runSets (setRpcTimeout s t).2 cs
  | s, .handshake t :: cs => runSets (setHandshakeTimeout s t).2 cs

/-- A timeout the setters accept. -/
def goodTimeout (t : Option TimeVal) : Bool := t.all fun tv => decide (0 ≤ tv.sec) && decide (0 ≤ tv.usec)

/-- What the RPC timeout should be after a history: the last accepted one, the initial one if there is none. -/
def lastRpc : Option TimeVal → List SetCall → Option TimeVal
  | d, [] => d
  | d, .rpc t :: cs => lastRpc (if goodTimeout t then t else d) cs
  | d, .handshake _ :: cs => lastRpc d cs

/-- C60 over histories: after any sequence of calls on a new connection the RPC timeout is the last accepted one, none at
first. -/
theorem C60_histories (cs : List SetCall) : getRpcTimeout (runSets newTimeouts cs) = lastRpc none cs := by
  suffices h : ∀ (s : Timeouts), getRpcTimeout (runSets s cs) = lastRpc (getRpcTimeout s) cs from h newTimeouts
  induction cs with
  | nil => intro s; rfl
  | cons c cs ih =>
    intro s
    cases c with
    | handshake t =>
      show getRpcTimeout (runSets (setHandshakeTimeout s t).2 cs) = lastRpc (getRpcTimeout s) cs
      rw [ih, (C60_set_handshake_partial s t).2.2.2]
    | rpc t =>
      show getRpcTimeout (runSets (setRpcTimeout s t).2 cs) = lastRpc (if goodTimeout t then t else getRpcTimeout s) cs
      rw [ih]
      congr 1
      obtain ⟨h1, h2, h3, _⟩ := C60_set_rpc_partial s t
      by_cases hg : goodTimeout t = true
      · rw [if_pos hg]
        refine h2 (h1.2 fun tv htv => ?_)
        subst htv; simpa [goodTimeout] using hg
      · rw [if_neg hg]
        have : (setRpcTimeout s t).1 ≠ St.OK := by
          intro hok
          apply hg
          have := h1.1 hok
          cases t with
          | none => rfl
          | some tv => simpa [goodTimeout] using this tv rfl
        rw [(h3 this).2]

theorem C60_unnormalised_accepted : (setRpcTimeout newTimeouts (some ⟨0, 5000000⟩)).1 = St.OK := by decide +kernel

example : getHandshakeTimeout newTimeouts = some ⟨12, 0⟩ ∧ getRpcTimeout newTimeouts = none := by decide +kernel

end Rmq
