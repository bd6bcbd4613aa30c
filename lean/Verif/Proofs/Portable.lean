import Verif.Proofs.PortableParser
import Verif.Model.Api
/-!
# The whole connection: neither the host's byte order nor uninitialised memory matters
-/
namespace Rmq

/-- The same network, clock and allocator on another machine: another byte order, other leftovers in fresh memory. -/
abbrev NetEnv.machine (E : NetEnv) (b : Bool) (f : Nat → Nat → UInt8) : NetEnv := { E with pe := { be := b, alloc := E.pe.alloc, fresh := f } }

/-- The same connection, up to the contents of memory not yet written. -/
def Alike (H : Prop) (s s' : Conn) : Prop :=
  ∃ p m, s' = { s with ps := p, outMem := m } ∧ PAlike H s.ps p ∧ s.outMem.length = m.length

/-- The same answer, the same connection afterwards. -/
inductive Rel (H : Prop) {α : Type} : Res Conn α → Res Conn α → Prop where
  | ok (a : α) {t t' : Conn} : Alike H t t' → Rel H (.ok a t) (.ok a t')
  | err (e : Int) {t t' : Conn} : Alike H t t' → Rel H (.err e t) (.err e t')
  | ub : Rel H .ub .ub
  | fuel : Rel H .fuel .fuel

section
variable {H : Prop} {α β : Type}

theorem Rel.split {r r' : Res Conn α} (h : Rel H r r') :
    (∃ a t t', r = .ok a t ∧ r' = .ok a t' ∧ Alike H t t') ∨ (∃ e t t', r = .err e t ∧ r' = .err e t' ∧ Alike H t t') ∨
    (r = .ub ∧ r' = .ub) ∨ (r = .fuel ∧ r' = .fuel) := by
  cases h with
  | ok a h => exact Or.inl ⟨a, _, _, rfl, rfl, h⟩
  | err e h => exact Or.inr (Or.inl ⟨e, _, _, rfl, rfl, h⟩)
  | ub => exact Or.inr (Or.inr (Or.inl ⟨rfl, rfl⟩))
  | fuel => exact Or.inr (Or.inr (Or.inr ⟨rfl, rfl⟩))

theorem Rel.bind {x x' : M Conn α} {f f' : α → M Conn β} {s s' : Conn} (hx : Rel H (x s) (x' s'))
    (hf : ∀ a t t', Alike H t t' → Rel H (f a t) (f' a t')) : Rel H ((x >>= f) s) ((x' >>= f') s') := by
  rw [M.bind_def, M.bind_def]
  rcases hx.split with ⟨a, t, t', e1, e2, h⟩ | ⟨e, t, t', e1, e2, h⟩ | ⟨e1, e2⟩ | ⟨e1, e2⟩ <;> rw [e1, e2]
  · exact hf a t t' h
  · exact .err _ h
  · exact .ub
  · exact .fuel

theorem Alike.push {s s' : Conn} (h : Alike H s s') (e : Ev) : Alike H (s.push e) (s'.push e) := by
  obtain ⟨p, m, rfl, hp, hm⟩ := h
  exact ⟨p, m, rfl, hp, hm⟩

theorem Alike.log {s s' : Conn} (h : Alike H s s') : s'.log = s.log := by obtain ⟨p, m, rfl, hp, hm⟩ := h; rfl
theorem Alike.inb {s s' : Conn} (h : Alike H s s') : s'.inb = s.inb := by obtain ⟨p, m, rfl, hp, hm⟩ := h; rfl
theorem Alike.queue {s s' : Conn} (h : Alike H s s') : s'.queue = s.queue := by obtain ⟨p, m, rfl, hp, hm⟩ := h; rfl
theorem Alike.nextRecv {s s' : Conn} (h : Alike H s s') : s'.nextRecv = s.nextRecv := by obtain ⟨p, m, rfl, hp, hm⟩ := h; rfl
theorem Alike.nextSend {s s' : Conn} (h : Alike H s s') : s'.nextSend = s.nextSend := by obtain ⟨p, m, rfl, hp, hm⟩ := h; rfl
theorem Alike.isOpen {s s' : Conn} (h : Alike H s s') : s'.isOpen = s.isOpen := by obtain ⟨p, m, rfl, hp, hm⟩ := h; rfl
theorem Alike.frameMax {s s' : Conn} (h : Alike H s s') : s'.frameMax = s.frameMax := by obtain ⟨p, m, rfl, hp, hm⟩ := h; rfl
theorem Alike.timeouts {s s' : Conn} (h : Alike H s s') : s'.timeouts = s.timeouts := by obtain ⟨p, m, rfl, hp, hm⟩ := h; rfl
theorem Alike.time {s s' : Conn} (h : Alike H s s') : s'.time = s.time := by unfold Conn.time; rw [h.log]
theorem Alike.received {s s' : Conn} (h : Alike H s s') : s'.received = s.received := by unfold Conn.received; rw [h.log]
theorem Alike.setInb {s s' : Conn} (h : Alike H s s') (x : Bytes) : Alike H { s with inb := x } { s' with inb := x } := by
  obtain ⟨p, m, rfl, hp, hm⟩ := h; exact ⟨p, m, rfl, hp, hm⟩
theorem Alike.setQueue {s s' : Conn} (h : Alike H s s') (x : List DFrame) : Alike H { s with queue := x } { s' with queue := x } := by
  obtain ⟨p, m, rfl, hp, hm⟩ := h; exact ⟨p, m, rfl, hp, hm⟩
theorem Alike.setNextSend {s s' : Conn} (h : Alike H s s') (x : Nat) : Alike H { s with nextSend := x } { s' with nextSend := x } := by
  obtain ⟨p, m, rfl, hp, hm⟩ := h; exact ⟨p, m, rfl, hp, hm⟩
theorem Alike.setNextRecv {s s' : Conn} (h : Alike H s s') (x : Nat) : Alike H { s with nextRecv := x } { s' with nextRecv := x } := by
  obtain ⟨p, m, rfl, hp, hm⟩ := h; exact ⟨p, m, rfl, hp, hm⟩

/-- The same value, the same connection afterwards. -/
def PairRel (H : Prop) (x x' : α × Conn) : Prop := ∃ a t t', x = (a, t) ∧ x' = (a, t') ∧ Alike H t t'

variable {E : NetEnv} {b : Bool} {f : Nat → Nat → UInt8}

theorem readClock_alike {s s' : Conn} (h : Alike H s s') : PairRel H (readClock E s) (readClock (E.machine b f) s') := by
  unfold readClock; rw [h.time]; exact ⟨_, _, _, rfl, rfl, h.push _⟩

theorem msUntilIO_alike (d : Nat) {s s' : Conn} (h : Alike H s s') : PairRel H (msUntilIO E d s) (msUntilIO (E.machine b f) d s') := by
  unfold msUntilIO readClock; rw [h.time]
  split
  · exact ⟨_, _, _, rfl, rfl, h⟩
  · exact ⟨_, _, _, rfl, rfl, h.push _⟩

theorem hasPastIO_alike (d : Nat) {s s' : Conn} (h : Alike H s s') : PairRel H (hasPastIO E d s) (hasPastIO (E.machine b f) d s') := by
  unfold hasPastIO readClock; rw [h.time]
  split
  · exact ⟨_, _, _, rfl, rfl, h⟩
  · exact ⟨_, _, _, rfl, rfl, h.push _⟩

theorem fromNowIO_alike (tv : Option TimeVal) {s s' : Conn} (h : Alike H s s') : Rel H (fromNowIO E tv s) (fromNowIO (E.machine b f) tv s') := by
  unfold fromNowIO readClock; rw [h.time]
  cases tv with
  | none => exact .ok _ h
  | some v =>
    dsimp only
    split
    · exact .err _ h
    · cases timeFromNow (E.clock s.time) (some v) with
      | ok t => exact .ok _ (h.push _)
      | error e => exact .err _ (h.push _)

theorem tvUntilIO_alike (d : Nat) {s s' : Conn} (h : Alike H s s') : Rel H (tvUntilIO E d s) (tvUntilIO (E.machine b f) d s') := by
  unfold tvUntilIO readClock; rw [h.time]
  split
  · exact .ok _ h
  · split
    · exact .ok _ h
    · dsimp only
      cases tvUntil (E.clock s.time) d with
      | ok t => exact .ok _ (h.push _)
      | error e => exact .err _ (h.push _)

theorem sFromNowIO_alike (x : Int) (old : Nat) {s s' : Conn} (h : Alike H s s') : ∃ st v t t', sFromNowIO E x old s = (st, v, t) ∧
    sFromNowIO (E.machine b f) x old s' = (st, v, t') ∧ Alike H t t' := by
  unfold sFromNowIO readClock; rw [h.time]
  split
  · exact ⟨_, _, _, _, rfl, rfl, h⟩
  · dsimp only
    split
    · exact ⟨_, _, _, _, rfl, rfl, h.push _⟩
    · split
      · exact ⟨_, _, _, _, rfl, rfl, h.push _⟩
      · exact ⟨_, _, _, _, rfl, rfl, h.push _⟩

theorem restartSend_alike {s s' : Conn} (h : Alike H s s') : Rel H (restartSend E s) (restartSend (E.machine b f) s') := by
  have e1 : s'.heartbeat = s.heartbeat := by obtain ⟨p, m, rfl, hp, hm⟩ := h; rfl
  unfold restartSend
  rw [e1, h.nextSend]
  obtain ⟨st, v, t, t', e1, e2, ht⟩ := sFromNowIO_alike (E := E) (b := b) (f := f) s.heartbeat s.nextSend h
  rw [e1, e2]
  dsimp only
  split
  · exact .ok _ (ht.setNextSend _)
  · exact .err _ (ht.setNextSend _)

theorem restartRecv_alike {s s' : Conn} (h : Alike H s s') : Rel H (restartRecv E s) (restartRecv (E.machine b f) s') := by
  have e1 : s'.heartbeat = s.heartbeat := by obtain ⟨p, m, rfl, hp, hm⟩ := h; rfl
  unfold restartRecv
  rw [e1, h.nextRecv]
  obtain ⟨st, v, t, t', e1, e2, ht⟩ := sFromNowIO_alike (E := E) (b := b) (f := f) (2 * s.heartbeat) s.nextRecv h
  rw [e1, e2]
  dsimp only
  split
  · exact .ok _ (ht.setNextRecv _)
  · exact .err _ (ht.setNextRecv _)

theorem pollFd_alike (d : Dir) (dl : Nat) : ∀ (n : Nat) (s s' : Conn), Alike H s s' → Rel H (pollFd E d dl n s) (pollFd (E.machine b f) d dl n s') := by
  intro n
  induction n with
  | zero => intro s s' _; exact .fuel
  | succ n ih =>
    intro s s' h
    unfold pollFd
    obtain ⟨ms, t, t', e1, e2, ht⟩ := msUntilIO_alike (E := E) (b := b) (f := f) dl h
    rw [e1, e2]
    dsimp only
    split
    · exact .err _ ht
    · rw [ht.time]
      cases E.poll t.time with
      | ready => exact .ok _ (ht.push _)
      | timeout => exact .err _ (ht.push _)
      | error => exact .err _ (ht.push _)
      | intr => exact ih _ _ (ht.push _)

theorem sockSend_alike (x : Bytes) (fl : Nat) {s s' : Conn} (h : Alike H s s') : PairRel H (sockSend E x fl s) (sockSend (E.machine b f) x fl s') := by
  unfold sockSend
  rw [h.isOpen, h.time]
  split
  · dsimp only
    cases E.send s.time x with
    | sent n => exact ⟨_, _, _, rfl, rfl, h.push _⟩
    | fail n => exact ⟨_, _, _, rfl, rfl, h.push _⟩
  · exact ⟨_, _, _, rfl, rfl, h⟩

theorem doPoll_alike (res : Int) (dl : Nat) {s s' : Conn} (h : Alike H s s') : Rel H (doPoll E res dl s) (doPoll (E.machine b f) res dl s') := by
  unfold doPoll
  rw [h.isOpen]
  split
  · exact .err _ h
  · split
    · exact pollFd_alike _ _ _ _ _ h
    · split
      · exact pollFd_alike _ _ _ _ _ h
      · split
        · exact .ok _ h
        · exact .err _ h

theorem trySend_alike (dl fl len : Nat) : ∀ (n : Nat) (left : Bytes) (s s' : Conn), Alike H s s' →
    Rel H (trySend E dl fl len n left s) (trySend (E.machine b f) dl fl len n left s') := by
  intro n
  induction n with
  | zero => intro left s s' _; exact .fuel
  | succ n ih =>
    intro left s s' h
    unfold trySend
    obtain ⟨res, t, t', e1, e2, ht⟩ := sockSend_alike (E := E) (b := b) (f := f) left fl h
    rw [e1, e2]
    dsimp only
    split
    · split
      · exact .ok _ ht
      · exact ih _ _ _ ht
    · rcases (doPoll_alike (E := E) (b := b) (f := f) res dl ht).split with ⟨a, u, u', g1, g2, hu⟩ | ⟨e, u, u', g1, g2, hu⟩ | ⟨g1, g2⟩ | ⟨g1, g2⟩ <;> rw [g1, g2]
      · exact ih _ _ _ hu
      · dsimp only
        split
        · exact .ok _ hu
        · exact .err _ hu
      · exact .ub
      · exact .fuel

theorem recvWithTimeout_alike (to : Nat) : ∀ (n : Nat) (s s' : Conn), Alike H s s' →
    Rel H (recvWithTimeout E to n s) (recvWithTimeout (E.machine b f) to n s') := by
  intro n
  induction n with
  | zero => intro s s' _; exact .fuel
  | succ n ih =>
    intro s s' h
    unfold recvWithTimeout
    rw [h.isOpen, h.time, h.received]
    split
    · exact .err _ h
    · dsimp only
      cases E.recv s.time s.received with
      | data x =>
        have h2 := (h.setInb (x.take SOCK_BUF)).push (.recvData (x.take SOCK_BUF))
        rw [h.isOpen] at h2
        exact restartRecv_alike h2
      | fail k =>
        dsimp only
        have hp := h.push (.recvFail (-(k + 1 : Nat)))
        split
        · rcases (pollFd_alike (E := E) (b := b) (f := f) .read to E.fuel _ _ hp).split with ⟨a, u, u', g1, g2, hu⟩ | ⟨e, u, u', g1, g2, hu⟩ | ⟨g1, g2⟩ | ⟨g1, g2⟩ <;> rw [g1, g2]
          · exact ih _ _ hu
          · exact .err _ hu
          · exact .ub
          · exact .fuel
        · split
          · rcases (pollFd_alike (E := E) (b := b) (f := f) .write to E.fuel _ _ hp).split with ⟨a, u, u', g1, g2, hu⟩ | ⟨e, u, u', g1, g2, hu⟩ | ⟨g1, g2⟩ | ⟨g1, g2⟩ <;> rw [g1, g2]
            · exact ih _ _ hu
            · exact .err _ hu
            · exact .ub
            · exact .fuel
          · exact .err _ hp

theorem smallAlloc_alike {s s' : Conn} (h : Alike H s s') : PairRel H (smallAlloc E s) (smallAlloc (E.machine b f) s') := by
  obtain ⟨p, m, rfl, hp, hm⟩ := h
  unfold smallAlloc
  have := hp.fields.2.2.2.2.2.2.1
  dsimp only
  rw [this]
  exact ⟨_, _, _, rfl, rfl, _, m, rfl, hp.allocs _, hm⟩

theorem createLink_alike (ch : UInt16) {s s' : Conn} (h : Alike H s s') : PairRel H (createLink E ch s) (createLink (E.machine b f) ch s') := by
  obtain ⟨p, m, rfl, hp, hm⟩ := h
  unfold createLink
  obtain ⟨x, t, t', e1, e2, ht, _⟩ := getPool_alike (E := E.pe) (E' := (E.machine b f).pe) rfl hp ch
  dsimp only at e2 ⊢
  rw [e1, e2]
  cases x with
  | false => exact ⟨_, _, _, rfl, rfl, t', m, rfl, ht, hm⟩
  | true =>
    have h0 : Alike H { s with ps := t } { s with ps := t', outMem := m } := ⟨t', m, rfl, ht, hm⟩
    obtain ⟨a, u, u', g1, g2, hu⟩ := smallAlloc_alike (E := E) (b := b) (f := f) h0
    dsimp only at g2 ⊢
    rw [g1, g2]
    dsimp only
    obtain ⟨a, w, w', k1, k2, hw⟩ := smallAlloc_alike (E := E) (b := b) (f := f) hu
    rw [k1, k2]
    exact ⟨_, _, _, rfl, rfl, hw⟩

theorem queueFrame_alike (x : DFrame) {s s' : Conn} (h : Alike H s s') : Rel H (queueFrame E x s) (queueFrame (E.machine b f) x s') := by
  unfold queueFrame
  obtain ⟨a, u, u', g1, g2, hu⟩ := createLink_alike (E := E) (b := b) (f := f) x.frame.channel h
  rw [g1, g2]
  cases a with
  | true => dsimp only; rw [hu.queue]; exact .ok _ (hu.setQueue _)
  | false => exact .err _ hu

theorem putBackFrame_alike (x : DFrame) {s s' : Conn} (h : Alike H s s') : Rel H (putBackFrame E x s) (putBackFrame (E.machine b f) x s') := by
  unfold putBackFrame
  obtain ⟨a, u, u', g1, g2, hu⟩ := createLink_alike (E := E) (b := b) (f := f) x.frame.channel h
  rw [g1, g2]
  cases a with
  | true => dsimp only; rw [hu.queue]; exact .ok _ (hu.setQueue _)
  | false => exact .err _ hu

theorem sockClose_alike {s s' : Conn} (h : Alike H s s') : PairRel H (sockClose E s) (sockClose (E.machine b f) s') := by
  unfold sockClose
  rw [h.isOpen, h.time]
  split
  · exact ⟨_, _, _, rfl, rfl, h⟩
  · split
    · obtain ⟨p, m, rfl, hp, hm⟩ := h
      exact ⟨_, _, _, rfl, rfl, p, m, rfl, hp, hm⟩
    · exact ⟨_, _, _, rfl, rfl, h.push _⟩

theorem sockClose_alike2 {s s' : Conn} (h : Alike H s s') : Alike H (sockClose E s).2 (sockClose (E.machine b f) s').2 := by
  obtain ⟨a, t, t', e1, e2, ht⟩ := sockClose_alike (E := E) (b := b) (f := f) h
  rw [e1, e2]; exact ht

theorem maybeReleaseOn_alike (ch : UInt16) {s s' : Conn} (h : Alike H s s') : Alike H (maybeReleaseOn ch s) (maybeReleaseOn ch s') := by
  unfold maybeReleaseOn
  obtain ⟨p, m, rfl, hp, hm⟩ := h
  have e := hp.fields
  dsimp only
  rw [e.1, e.2.2.2.2.2.1]
  split
  · exact ⟨p, m, rfl, hp, hm⟩
  · split
    · exact ⟨p, m, rfl, hp, hm⟩
    · split <;> exact ⟨p, m, rfl, hp, hm⟩

theorem releaseAll_alike : ∀ (l : List UInt16) {s s' : Conn}, Alike H s s' →
    Alike H (l.foldl (fun s ch => maybeReleaseOn ch s) s) (l.foldl (fun s ch => maybeReleaseOn ch s) s')
  | [], _, _, h => h
  | c :: l, _, _, h => releaseAll_alike l (maybeReleaseOn_alike c h)

theorem Alike.mode {s s' : Conn} (h : Alike H s s') : s'.ps.mode = s.ps.mode ∧ s'.ps.pools = s.ps.pools := by
  obtain ⟨p, m, rfl, hp, hm⟩ := h; exact ⟨hp.fields.1, hp.fields.2.2.2.2.2.1⟩

theorem maybeRelease_alike {s s' : Conn} (h : Alike H s s') : Alike H (maybeRelease s) (maybeRelease s') := by
  unfold maybeRelease
  rw [h.mode.1, h.mode.2]
  split
  · exact releaseAll_alike _ h
  · exact h

theorem releaseBuffers_alike {s s' : Conn} (h : Alike H s s') : Rel H (releaseBuffers s) (releaseBuffers s') := by
  unfold releaseBuffers
  rw [h.mode.1, h.mode.2]
  split
  · exact .ub
  · exact .ok _ (releaseAll_alike _ h)

theorem withAlloc_alike {α : Type} (x : (Nat → Bool) → M AState α) {s s' : Conn} (h : Alike H s s') :
    Rel H (withAlloc E x s) (withAlloc (E.machine b f) x s') := by
  obtain ⟨p, m, rfl, hp, hm⟩ := h
  unfold withAlloc
  have e := hp.fields.2.2.2.2.2.2.1
  dsimp only
  rw [e]
  cases x E.pe.alloc ⟨s.ps.allocs⟩ with
  | ok a st => exact .ok _ ⟨_, m, rfl, hp.allocs _, hm⟩
  | err a st => exact .err _ ⟨_, m, rfl, hp.allocs _, hm⟩
  | ub => exact .ub
  | fuel => exact .fuel

theorem allocOr_alike {s s' : Conn} (h : Alike H s s') : Rel H (allocOr E s) (allocOr (E.machine b f) s') := by
  unfold allocOr
  obtain ⟨a, u, u', g1, g2, hu⟩ := smallAlloc_alike (E := E) (b := b) (f := f) h
  rw [g1, g2]
  cases a with
  | true => exact .ok _ hu
  | false => exact .err _ hu

theorem mallocDup_alike (x : Bytes) {s s' : Conn} (h : Alike H s s') : PairRel H (mallocDup E x s) (mallocDup (E.machine b f) x s') := by
  unfold mallocDup
  obtain ⟨a, u, u', g1, g2, hu⟩ := smallAlloc_alike (E := E) (b := b) (f := f) h
  rw [g1, g2]
  exact ⟨_, _, _, rfl, rfl, hu⟩

end

section
variable {H : Prop} {E : NetEnv} {b : Bool} {f : Nat → Nat → UInt8} (hH : H → ∀ n, E.pe.fresh n 7 = f n 7)
include hH

theorem consumeOne_alike {s s' : Conn} (h : Alike H s s') : Rel H (consumeOne E s) (consumeOne (E.machine b f) s') := by
  obtain ⟨p, m, rfl, hp, hm⟩ := h
  unfold consumeOne
  have := handleInput_alike (E := E.pe) (E' := (E.machine b f).pe) rfl hH hp s.inb
  dsimp only
  generalize handleInput E.pe s.ps s.inb = r at this ⊢
  generalize handleInput _ p s.inb = r' at this ⊢
  cases this with
  | ok a ht =>
    obtain ⟨k, fr⟩ := a
    exact .ok _ ⟨_, m, rfl, ht, hm⟩
  | err e ht => exact .err _ ⟨_, m, rfl, ht, hm⟩
  | ub => exact .ub
  | fuel => exact .fuel

theorem drainToQueue_alike : ∀ (n : Nat) (s s' : Conn), Alike H s s' → Rel H (drainToQueue E n s) (drainToQueue (E.machine b f) n s') := by
  intro n
  induction n with
  | zero => intro s s' _; exact .fuel
  | succ n ih =>
    intro s s' h
    unfold drainToQueue
    rw [h.inb]
    split
    · exact .ok _ h
    · rcases (consumeOne_alike (b := b) hH h).split with ⟨a, u, u', g1, g2, hu⟩ | ⟨e, u, u', g1, g2, hu⟩ | ⟨g1, g2⟩ | ⟨g1, g2⟩ <;> rw [g1, g2]
      · cases a with
        | none => exact ih _ _ hu
        | some fr =>
          dsimp only
          rcases (queueFrame_alike (E := E) (b := b) (f := f) fr hu).split with ⟨a, u, u', g1, g2, hu⟩ | ⟨e, u, u', g1, g2, hu⟩ | ⟨g1, g2⟩ | ⟨g1, g2⟩ <;> rw [g1, g2]
          · exact ih _ _ hu
          · exact .err _ hu
          · exact .ub
          · exact .fuel
      · exact .err _ hu
      · exact .ub
      · exact .fuel

theorem tryRecv_alike {s s' : Conn} (h : Alike H s s') : Rel H (tryRecv E s) (tryRecv (E.machine b f) s') := by
  unfold tryRecv
  exact Rel.bind (drainToQueue_alike hH _ _ _ h) fun _ _ _ h => Rel.bind (fromNowIO_alike _ h) fun _ _ _ h => recvWithTimeout_alike _ _ _ _ h

theorem sendLoop_alike (fl dl : Nat) : ∀ (n : Nat) (enc : Bytes) (s s' : Conn), Alike H s s' →
    Rel H (sendLoop E fl dl n enc s) (sendLoop (E.machine b f) fl dl n enc s') := by
  intro n
  induction n with
  | zero => intro enc s s' _; exact .fuel
  | succ n ih =>
    intro enc s s' h
    unfold sendLoop
    dsimp only
    rw [h.nextRecv]
    rcases (trySend_alike (E := E) (b := b) (f := f) (timeFirst dl s.nextRecv) fl enc.length E.fuel enc _ _ h).split with ⟨a, u, u', g1, g2, hu⟩ | ⟨e, u, u', g1, g2, hu⟩ | ⟨g1, g2⟩ | ⟨g1, g2⟩ <;> rw [g1, g2]
    · dsimp only
      split
      · split
        · exact .err _ hu
        · rcases (tryRecv_alike (b := b) hH hu).split with ⟨a, w, w', g1, g2, hw⟩ | ⟨e, w, w', g1, g2, hw⟩ | ⟨g1, g2⟩ | ⟨g1, g2⟩ <;> rw [g1, g2]
          · exact ih _ _ _ hw
          · dsimp only
            split
            · exact .err _ hw
            · exact .err _ hw
          · exact .ub
          · exact .fuel
      · exact restartSend_alike hu
    · exact .err _ hu
    · exact .ub
    · exact .fuel

theorem sendFrame_alike (fr : AFrame) (fl dl : Nat) {s s' : Conn} (h : Alike H s s') :
    Rel H (sendFrame E fr fl dl s) (sendFrame (E.machine b f) fr fl dl s') := by
  obtain ⟨p, m, rfl, hp, hm⟩ := h
  unfold sendFrame
  dsimp only
  rcases frameToBytes_alike E.pe.be b hm s.outLen fr with ⟨enc, t, t', e1, e2, l1, l2⟩ | ⟨e, t, t', e1, e2, l1, l2⟩ | ⟨e1, e2⟩ | ⟨e1, e2⟩ <;> rw [e1, e2]
  · exact sendLoop_alike hH fl dl _ _ _ _ ⟨p, t', rfl, hp, l1.trans l2.symm⟩
  · exact .err _ ⟨p, t', rfl, hp, l1.trans l2.symm⟩
  · exact .ub
  · exact .fuel

theorem beginRecv_alike (d : Nat) {s s' : Conn} (h : Alike H s s') : Rel H (beginRecv E d s) (beginRecv (E.machine b f) d s') := by
  unfold beginRecv
  rw [h.nextSend]
  obtain ⟨res, t, t', e1, e2, ht⟩ := hasPastIO_alike (E := E) (b := b) (f := f) s.nextSend h
  rw [e1, e2]
  dsimp only
  split
  · exact .err _ ht
  · have h2 : Rel H (if res = St.TIMEOUT then sendFrame E ⟨0, .heartbeat⟩ SF_NONE TIME_INF t else .ok () t)
        (if res = St.TIMEOUT then sendFrame (E.machine b f) ⟨0, .heartbeat⟩ SF_NONE TIME_INF t' else .ok () t') := by
      split
      · exact sendFrame_alike hH _ _ _ ht
      · exact .ok _ ht
    rcases h2.split with ⟨a, u, u', g1, g2, hu⟩ | ⟨e, u, u', g1, g2, hu⟩ | ⟨g1, g2⟩ | ⟨g1, g2⟩ <;> rw [g1, g2]
    · dsimp only
      rw [hu.nextRecv, hu.nextSend]
      rcases (recvWithTimeout_alike (E := E) (b := b) (f := f) (timeFirst d (timeFirst u.nextRecv u.nextSend)) E.fuel _ _ hu).split with ⟨a, w, w', g1, g2, hw⟩ | ⟨e, w, w', g1, g2, hw⟩ | ⟨g1, g2⟩ | ⟨g1, g2⟩ <;> rw [g1, g2]
      · exact .ok _ hw
      · dsimp only
        rw [hw.nextRecv, hw.nextSend]
        split
        · split
          · exact .err _ (sockClose_alike2 hw)
          · split
            · exact .err _ hw
            · split
              · exact .ok _ hw
              · exact .ub
        · exact .err _ hw
      · exact .ub
      · exact .fuel
    · exact .err _ hu
    · exact .ub
    · exact .fuel

theorem waitInner_alike (d : Nat) : ∀ (n : Nat) (c : Bool) (s s' : Conn), Alike H s s' →
    Rel H (waitInner E d n c s) (waitInner (E.machine b f) d n c s') := by
  intro n
  induction n with
  | zero => intro c s s' _; exact .fuel
  | succ n ih =>
    intro c s s' h
    unfold waitInner
    rw [h.inb]
    split
    · rcases (consumeOne_alike (b := b) hH h).split with ⟨a, u, u', g1, g2, hu⟩ | ⟨e, u, u', g1, g2, hu⟩ | ⟨g1, g2⟩ | ⟨g1, g2⟩ <;> rw [g1, g2]
      · cases a with
        | none => exact ih _ _ _ hu
        | some fr =>
          dsimp only
          have h2 := ih false _ _ (maybeReleaseOn_alike 0 hu)
          cases fr.frame.payload with
          | heartbeat => exact h2
          | _ => exact .ok _ hu
      · exact .err _ hu
      · exact .ub
      · exact .fuel
    · rcases (beginRecv_alike (b := b) hH d h).split with ⟨a, u, u', g1, g2, hu⟩ | ⟨e, u, u', g1, g2, hu⟩ | ⟨g1, g2⟩ | ⟨g1, g2⟩ <;> rw [g1, g2]
      · exact ih _ _ _ hu
      · exact .err _ hu
      · exact .ub
      · exact .fuel

theorem waitFrameInner_alike (d : Nat) {s s' : Conn} (h : Alike H s s') : Rel H (waitFrameInner E d s) (waitFrameInner (E.machine b f) d s') :=
  waitInner_alike hH d _ _ _ _ h

theorem waitFrame_alike (tv : Option TimeVal) {s s' : Conn} (h : Alike H s s') : Rel H (waitFrame E tv s) (waitFrame (E.machine b f) tv s') := by
  unfold waitFrame
  refine Rel.bind (fromNowIO_alike tv h) fun d t t' ht => ?_
  show Rel H (match t.queue with
    | f :: rest => .ok f { t with queue := rest }
    | [] => waitFrameInner E d t : Res Conn DFrame) (match t'.queue with
    | f :: rest => .ok f { t' with queue := rest }
    | [] => waitFrameInner (E.machine b f) d t' : Res Conn DFrame)
  rw [ht.queue]
  cases t.queue with
  | nil => exact waitFrameInner_alike hH d ht
  | cons x rest => exact .ok _ (ht.setQueue _)

theorem waitOnLoop_alike (ch : UInt16) : ∀ (n : Nat) (s s' : Conn), Alike H s s' →
    Rel H (waitOnLoop E ch n s) (waitOnLoop (E.machine b f) ch n s') := by
  intro n
  induction n with
  | zero => intro s s' _; exact .fuel
  | succ n ih =>
    intro s s' h
    unfold waitOnLoop
    rcases (waitFrameInner_alike (b := b) hH TIME_INF h).split with ⟨a, u, u', g1, g2, hu⟩ | ⟨e, u, u', g1, g2, hu⟩ | ⟨g1, g2⟩ | ⟨g1, g2⟩ <;> rw [g1, g2]
    · dsimp only
      split
      · exact .ok _ hu
      · rcases (queueFrame_alike (E := E) (b := b) (f := f) a hu).split with ⟨a, u, u', g1, g2, hu⟩ | ⟨e, u, u', g1, g2, hu⟩ | ⟨g1, g2⟩ | ⟨g1, g2⟩ <;> rw [g1, g2]
        · exact ih _ _ hu
        · exact .err _ hu
        · exact .ub
        · exact .fuel
    · exact .err _ hu
    · exact .ub
    · exact .fuel

theorem waitFrameOn_alike (ch : UInt16) {s s' : Conn} (h : Alike H s s') : Rel H (waitFrameOn E ch s) (waitFrameOn (E.machine b f) ch s') := by
  unfold waitFrameOn
  rw [h.queue]
  cases findQueued ch s.queue with
  | none => exact waitOnLoop_alike hH ch _ _ _ h
  | some p => exact .ok _ (h.setQueue _)

theorem waitMethodList_alike (ch : UInt16) (ex : List UInt32) (d : Nat) {s s' : Conn} (h : Alike H s s') :
    Rel H (waitMethodList E ch ex d s) (waitMethodList (E.machine b f) ch ex d s') := by
  unfold waitMethodList
  refine Rel.bind (tvUntilIO_alike d h) fun tv t t' ht => Rel.bind (waitFrame_alike hH tv ht) fun fr t t' ht => ?_
  cases fr.frame.payload with
  | method i args =>
    dsimp only
    split
    · exact .ok _ ht
    · exact .err _ ht
  | _ => exact .err _ ht

theorem rpcLoop_alike (ch : UInt16) (ex : List UInt32) (d : Nat) : ∀ (n : Nat) (s s' : Conn), Alike H s s' →
    Rel H (rpcLoop E ch ex d n s) (rpcLoop (E.machine b f) ch ex d n s') := by
  intro n
  induction n with
  | zero => intro s s' _; exact .fuel
  | succ n ih =>
    intro s s' h
    unfold rpcLoop
    rcases (waitFrameInner_alike (b := b) hH d h).split with ⟨a, u, u', g1, g2, hu⟩ | ⟨e, u, u', g1, g2, hu⟩ | ⟨g1, g2⟩ | ⟨g1, g2⟩ <;> rw [g1, g2]
    · dsimp only
      split
      · cases a.frame.payload with
        | method i args => exact .ok _ hu
        | _ => exact .ub
      · rcases (queueFrame_alike (E := E) (b := b) (f := f) a hu).split with ⟨a, u, u', g1, g2, hu⟩ | ⟨e, u, u', g1, g2, hu⟩ | ⟨g1, g2⟩ | ⟨g1, g2⟩ <;> rw [g1, g2]
        · exact ih _ _ hu
        · exact .ok _ hu
        · exact .ub
        · exact .fuel
    · dsimp only
      split
      · exact .ok _ (sockClose_alike2 hu)
      · exact .ok _ hu
    · exact .ub
    · exact .fuel

theorem rpcInner_alike (ch : UInt16) (i : UInt32) (ex : List UInt32) (args : Rec) (d : Nat) {s s' : Conn} (h : Alike H s s') :
    Rel H (rpcInner E ch i ex args d s) (rpcInner (E.machine b f) ch i ex args d s') := by
  unfold rpcInner sendMethod
  rcases (sendFrame_alike (b := b) hH ⟨ch, .method i args⟩ SF_NONE TIME_INF h).split with ⟨a, u, u', g1, g2, hu⟩ | ⟨e, u, u', g1, g2, hu⟩ | ⟨g1, g2⟩ | ⟨g1, g2⟩ <;> rw [g1, g2]
  · exact rpcLoop_alike hH ch ex d _ _ _ hu
  · exact .ok _ hu
  · exact .ub
  · exact .fuel

theorem simpleRpc_alike (ch : UInt16) (i : UInt32) (ex : List UInt32) (args : Rec) {s s' : Conn} (h : Alike H s s') :
    Rel H (simpleRpc E ch i ex args s) (simpleRpc (E.machine b f) ch i ex args s') := by
  unfold simpleRpc
  rw [h.timeouts]
  rcases (fromNowIO_alike (E := E) (b := b) (f := f) (getRpcTimeout s.timeouts) h).split with ⟨a, u, u', g1, g2, hu⟩ | ⟨e, u, u', g1, g2, hu⟩ | ⟨g1, g2⟩ | ⟨g1, g2⟩ <;> rw [g1, g2]
  · exact rpcInner_alike hH ch i ex args a hu
  · exact .ok _ hu
  · exact .ub
  · exact .fuel

omit hH in
theorem sendHeaderInner_alike (d : Nat) {s s' : Conn} (h : Alike H s s') : Rel H (sendHeaderInner E d s) (sendHeaderInner (E.machine b f) d s') := by
  unfold sendHeaderInner
  rcases (trySend_alike (E := E) (b := b) (f := f) d SF_NONE 8 E.fuel protocolHeaderBytes _ _ h).split with ⟨a, u, u', g1, g2, hu⟩ | ⟨e, u, u', g1, g2, hu⟩ | ⟨g1, g2⟩ | ⟨g1, g2⟩ <;> rw [g1, g2]
  · exact .ok _ hu
  · exact .ok _ hu
  · exact .ub
  · exact .fuel

theorem publishBody_alike (ch : UInt16) (us : Nat) : ∀ (n : Nat) (rest : Bytes) (s s' : Conn), Alike H s s' →
    Rel H (publishBody E ch us n rest s) (publishBody (E.machine b f) ch us n rest s') := by
  intro n
  induction n with
  | zero => intro rest s s' _; exact .fuel
  | succ n ih =>
    intro rest s s' h
    unfold publishBody
    split
    · exact .ok _ h
    · split
      · rcases (sendFrame_alike (b := b) hH ⟨ch, .body (rest.take us)⟩ SF_MORE TIME_INF h).split with ⟨a, u, u', g1, g2, hu⟩ | ⟨e, u, u', g1, g2, hu⟩ | ⟨g1, g2⟩ | ⟨g1, g2⟩ <;> rw [g1, g2]
        · exact ih _ _ _ hu
        · exact .err _ hu
        · exact .ub
        · exact .fuel
      · rcases (sendFrame_alike (b := b) hH ⟨ch, .body rest⟩ SF_NONE TIME_INF h).split with ⟨a, u, u', g1, g2, hu⟩ | ⟨e, u, u', g1, g2, hu⟩ | ⟨g1, g2⟩ | ⟨g1, g2⟩ <;> rw [g1, g2]
        · exact ih _ _ _ hu
        · exact .err _ hu
        · exact .ub
        · exact .fuel

theorem publishCheck_alike {s s' : Conn} (h : Alike H s s') : Rel H (publishCheck E s) (publishCheck (E.machine b f) s') := by
  unfold publishCheck
  rw [h.nextRecv]
  obtain ⟨res, t, t', e1, e2, ht⟩ := hasPastIO_alike (E := E) (b := b) (f := f) s.nextRecv h
  rw [e1, e2]
  dsimp only
  split
  · exact .err _ ht
  · split
    · rcases (tryRecv_alike (b := b) hH ht).split with ⟨a, u, u', g1, g2, hu⟩ | ⟨e, u, u', g1, g2, hu⟩ | ⟨g1, g2⟩ | ⟨g1, g2⟩ <;> rw [g1, g2]
      · exact .ok _ hu
      · dsimp only
        split <;> exact .err _ hu
      · exact .ub
      · exact .fuel
    · exact .ok _ ht

theorem basicPublish_alike (ch : UInt16) (ex rk : Bytes) (mand imm : Int32) (p : Option (UInt32 × Rec)) (body : Bytes) {s s' : Conn}
    (h : Alike H s s') : Rel H (basicPublish E ch ex rk mand imm p body s) (basicPublish (E.machine b f) ch ex rk mand imm p body s') := by
  unfold basicPublish sendMethod
  rw [h.frameMax]
  exact Rel.bind (publishCheck_alike hH h) fun _ _ _ h => Rel.bind (sendFrame_alike hH _ _ _ h) fun _ _ _ h =>
    Rel.bind (sendFrame_alike hH _ _ _ h) fun _ _ _ h => publishBody_alike hH _ _ _ _ _ _ h

theorem readBody_alike (ch : UInt16) (len : Nat) : ∀ (n : Nat) (got : Bytes) (s s' : Conn), Alike H s s' →
    Rel H (readBody E ch len n got s) (readBody (E.machine b f) ch len n got s') := by
  intro n
  induction n with
  | zero => intro got s s' _; exact .fuel
  | succ n ih =>
    intro got s s' h
    unfold readBody
    split
    · rcases (waitFrameOn_alike (b := b) hH ch h).split with ⟨a, u, u', g1, g2, hu⟩ | ⟨e, u, u', g1, g2, hu⟩ | ⟨g1, g2⟩ | ⟨g1, g2⟩ <;> rw [g1, g2]
      · dsimp only
        cases a.frame.payload with
        | body x =>
          dsimp only
          split
          · exact .ok _ hu
          · exact ih _ _ _ hu
        | method i args =>
          dsimp only
          split <;> exact .ok _ hu
        | _ => exact .ok _ hu
      · exact .ok _ hu
      · exact .ub
      · exact .fuel
    · exact .ok _ h

omit hH in
theorem cloneProp_alike (v : Val) {s s' : Conn} (h : Alike H s s') : Rel H (cloneProp E v s) (cloneProp (E.machine b f) v s') := by
  cases v with
  | bytes x =>
    show Rel H ((if x.length = 0 then pure (.bytes []) else do allocOr E; pure (.bytes x) : M Conn Val) s)
      ((if x.length = 0 then pure (.bytes []) else do allocOr (E.machine b f); pure (.bytes x) : M Conn Val) s')
    by_cases hx : x.length = 0
    · rw [if_pos hx, if_pos hx]; exact .ok _ h
    · rw [if_neg hx, if_neg hx]
      exact Rel.bind (allocOr_alike h) fun _ _ _ h => .ok _ h
  | table t =>
    unfold cloneProp
    exact Rel.bind (withAlloc_alike _ h) fun _ _ _ h => .ok _ h
  | _ => exact .ok _ h

omit hH in
theorem cloneProps_alike (fl : UInt32) (r : Rec) : ∀ (ps : List (Nat × Fld)) {s s' : Conn}, Alike H s s' →
    Rel H (cloneProps E fl r ps s) (cloneProps (E.machine b f) fl r ps s')
  | [], _, _, h => .ok _ h
  | (bit, x) :: ps, s, s', h => by
    unfold cloneProps
    split
    · cases r.get? x with
      | none => exact .ub
      | some v => exact Rel.bind (cloneProp_alike v h) fun _ _ _ h => Rel.bind (cloneProps_alike fl r ps h) fun _ _ _ h => .ok _ h
    · exact cloneProps_alike fl r ps h

theorem readContent_alike (ch : UInt16) (size : UInt64) (fl : UInt32) (r : Rec) {s s' : Conn} (h : Alike H s s') :
    Rel H (readContent E ch size fl r s) (readContent (E.machine b f) ch size fl r s') := by
  unfold readContent
  rcases (cloneProps_alike (E := E) (b := b) (f := f) fl r clonedProps h).split with ⟨a, u, u', g1, g2, hu⟩ | ⟨e, u, u', g1, g2, hu⟩ | ⟨g1, g2⟩ | ⟨g1, g2⟩ <;> rw [g1, g2]
  · dsimp only
    have h2 : Rel H (if size.toNat = 0 then .ok () u else allocOr E u) (if size.toNat = 0 then .ok () u' else allocOr (E.machine b f) u') := by
      split
      · exact .ok _ hu
      · exact allocOr_alike hu
    rcases h2.split with ⟨_, w, w', g1, g2, hw⟩ | ⟨e, w, w', g1, g2, hw⟩ | ⟨g1, g2⟩ | ⟨g1, g2⟩ <;> rw [g1, g2]
    · dsimp only
      rcases (readBody_alike (b := b) hH ch size.toNat E.fuel [] _ _ hw).split with ⟨a, u, u', g1, g2, hu⟩ | ⟨e, u, u', g1, g2, hu⟩ | ⟨g1, g2⟩ | ⟨g1, g2⟩ <;> rw [g1, g2]
      · cases a <;> exact .ok _ hu
      · exact .err _ hu
      · exact .ub
      · exact .fuel
    · exact .ok _ hw
    · exact .ub
    · exact .fuel
  · exact .ok _ hu
  · exact .ub
  · exact .fuel

omit hH in
theorem putBackIgnored_alike (x : DFrame) {s s' : Conn} (h : Alike H s s') : Rel H (putBackIgnored E x s) (putBackIgnored (E.machine b f) x s') := by
  unfold putBackIgnored
  rcases (putBackFrame_alike (E := E) (b := b) (f := f) x h).split with ⟨a, u, u', g1, g2, hu⟩ | ⟨e, u, u', g1, g2, hu⟩ | ⟨g1, g2⟩ | ⟨g1, g2⟩ <;> rw [g1, g2]
  · exact .ok _ hu
  · exact .ok _ hu
  · exact .ub
  · exact .fuel

omit hH in
theorem refuse_alike {α : Type} (x : DFrame) (o : Outcome α) {s s' : Conn} (h : Alike H s s') :
    Rel H (match putBackIgnored E x s with
        | .ok () s => .ok o s
        | .err e s => .err e s
        | .ub => .ub
        | .fuel => .fuel : Res Conn (Outcome α)) (match putBackIgnored (E.machine b f) x s' with
        | .ok () s => .ok o s
        | .err e s => .err e s
        | .ub => .ub
        | .fuel => .fuel : Res Conn (Outcome α)) := by
  rcases (putBackIgnored_alike (E := E) (b := b) (f := f) x h).split with ⟨a, u, u', g1, g2, hu⟩ | ⟨e, u, u', g1, g2, hu⟩ | ⟨g1, g2⟩ | ⟨g1, g2⟩ <;> rw [g1, g2]
  · exact .ok _ hu
  · exact .err _ hu
  · exact .ub
  · exact .fuel

theorem readMessage_alike (ch : UInt16) {s s' : Conn} (h : Alike H s s') : Rel H (readMessage E ch s) (readMessage (E.machine b f) ch s') := by
  unfold readMessage
  rcases (waitFrameOn_alike (b := b) hH ch h).split with ⟨a, u, u', g1, g2, hu⟩ | ⟨e, u, u', g1, g2, hu⟩ | ⟨g1, g2⟩ | ⟨g1, g2⟩ <;> rw [g1, g2]
  · dsimp only
    cases a.frame.payload with
    | header c size fl r => exact readContent_alike hH ch size fl r hu
    | method i args =>
      dsimp only
      split
      · exact .ok _ hu
      · exact refuse_alike a _ hu
    | _ => exact refuse_alike a _ hu
  · exact .ok _ hu
  · exact .ub
  · exact .fuel

theorem takeDelivery_alike (ch : UInt16) (r : Rec) {s s' : Conn} (h : Alike H s s') :
    Rel H (takeDelivery E ch r s) (takeDelivery (E.machine b f) ch r s') := by
  unfold takeDelivery
  split
  · next tag dt red ex rk _ _ _ _ _ =>
    obtain ⟨a1, t, t', e1, e2, h⟩ := mallocDup_alike (E := E) (b := b) (f := f) tag h
    rw [e1, e2]; dsimp only
    obtain ⟨a2, t, t', e1, e2, h⟩ := mallocDup_alike (E := E) (b := b) (f := f) ex h
    rw [e1, e2]; dsimp only
    obtain ⟨a3, t, t', e1, e2, h⟩ := mallocDup_alike (E := E) (b := b) (f := f) rk h
    rw [e1, e2]; dsimp only
    split
    · rcases (readMessage_alike (b := b) hH ch h).split with ⟨a, u, u', g1, g2, hu⟩ | ⟨e, u, u', g1, g2, hu⟩ | ⟨g1, g2⟩ | ⟨g1, g2⟩ <;> rw [g1, g2]
      · cases a <;> exact .ok _ hu
      · exact .err _ hu
      · exact .ub
      · exact .fuel
    · exact .ok _ h
  · exact .ub

theorem consumeMessage_alike (tv : Option TimeVal) {s s' : Conn} (h : Alike H s s') :
    Rel H (consumeMessage E tv s) (consumeMessage (E.machine b f) tv s') := by
  unfold consumeMessage
  rcases (waitFrame_alike (b := b) hH tv h).split with ⟨a, u, u', g1, g2, hu⟩ | ⟨e, u, u', g1, g2, hu⟩ | ⟨g1, g2⟩ | ⟨g1, g2⟩ <;> rw [g1, g2]
  · dsimp only
    cases a.frame.payload with
    | method i r =>
      dsimp only
      split
      · exact takeDelivery_alike hH _ r hu
      · exact refuse_alike a _ hu
    | _ => exact refuse_alike a _ hu
  · exact .ok _ hu
  · exact .ub
  · exact .fuel

theorem confirmWait_alike (tv : Option TimeVal) {s s' : Conn} (h : Alike H s s') : Rel H (confirmWait E tv s) (confirmWait (E.machine b f) tv s') := by
  unfold confirmWait
  rcases (waitFrame_alike (b := b) hH tv h).split with ⟨a, u, u', g1, g2, hu⟩ | ⟨e, u, u', g1, g2, hu⟩ | ⟨g1, g2⟩ | ⟨g1, g2⟩ <;> rw [g1, g2]
  · dsimp only
    cases a.frame.payload with
    | method i r =>
      dsimp only
      split
      · exact refuse_alike a _ hu
      · exact .ok _ hu
    | _ => exact refuse_alike a _ hu
  · exact .ok _ hu
  · exact .ub
  · exact .fuel

omit hH in
theorem tune_alike (c fm hb : Int) (mem mem' : Nat → UInt8) {s s' : Conn} (h : Alike H s s') :
    Rel H (tune E c fm hb mem s) (tune (E.machine b f) c fm hb mem' s') := by
  unfold tune
  rw [h.mode.1]
  split
  · exact .ub
  · dsimp only
    have h0 : Alike H { s with channelMax := c, frameMax := fm, ps := { s.ps with frameMax := (fm % 2 ^ 64).toNat }, heartbeat := if 0 > hb then 0 else hb }
        { s' with channelMax := c, frameMax := fm, ps := { s'.ps with frameMax := (fm % 2 ^ 64).toNat }, heartbeat := if 0 > hb then 0 else hb } := by
      obtain ⟨p, m, rfl, hp, hm⟩ := h
      refine ⟨_, m, rfl, ?_, hm⟩
      have e := hp.fields
      have := hp.counters s.ps.pools s.ps.allocs (fm % 2 ^ 64).toNat s.ps.bufLog
      obtain ⟨_, _, i', rfl, _⟩ := hp
      exact this
    generalize ({ s with channelMax := c, frameMax := fm, ps := { s.ps with frameMax := (fm % 2 ^ 64).toNat }, heartbeat := if 0 > hb then 0 else hb } : Conn) = t at h0 ⊢
    generalize ({ s' with channelMax := c, frameMax := fm, ps := { s'.ps with frameMax := (fm % 2 ^ 64).toNat }, heartbeat := if 0 > hb then 0 else hb } : Conn) = t' at h0 ⊢
    rcases (restartSend_alike (E := E) (b := b) (f := f) h0).split with ⟨a, u, u', g1, g2, hu⟩ | ⟨e, u, u', g1, g2, hu⟩ | ⟨g1, g2⟩ | ⟨g1, g2⟩ <;> rw [g1, g2]
    · dsimp only
      rcases (restartRecv_alike (E := E) (b := b) (f := f) hu).split with ⟨a, u, u', g1, g2, hu⟩ | ⟨e, u, u', g1, g2, hu⟩ | ⟨g1, g2⟩ | ⟨g1, g2⟩ <;> rw [g1, g2]
      · dsimp only
        have h1 : Alike H { u with outLen := (fm % 2 ^ 64).toNat } { u' with outLen := (fm % 2 ^ 64).toNat } := by
          obtain ⟨p, m, rfl, hp, hm⟩ := hu; exact ⟨p, m, rfl, hp, hm⟩
        obtain ⟨a, w, w', k1, k2, hw⟩ := smallAlloc_alike (E := E) (b := b) (f := f) h1
        rw [k1, k2]
        cases a with
        | false => exact .err _ hw
        | true =>
          obtain ⟨p, m, rfl, hp, hm⟩ := hw
          exact .ok _ ⟨p, _, rfl, hp, by simp⟩
      · exact .err _ hu
      · exact .ub
      · exact .fuel
    · exact .err _ hu
    · exact .ub
    · exact .fuel

theorem openVhost_alike (v : Bytes) (d : Nat) {s s' : Conn} (h : Alike H s s') : Rel H (openVhost E v d s) (openVhost (E.machine b f) v d s') := by
  unfold openVhost
  rcases (rpcInner_alike (b := b) hH 0 CONNECTION_OPEN [CONNECTION_OPEN_OK]
    [(.virtual_host, .bytes v), (.capabilities, .bytes []), (.insist, .bool 1)] d h).split with ⟨a, u, u', g1, g2, hu⟩ | ⟨e, u, u', g1, g2, hu⟩ | ⟨g1, g2⟩ | ⟨g1, g2⟩ <;> rw [g1, g2]
  · cases a with
    | normal => exact .ok _ (maybeRelease_alike hu)
    | _ => exact .ok _ hu
  · exact .err _ hu
  · exact .ub
  · exact .fuel

omit hH in
theorem saslResponse_alike (x : Sasl) {s s' : Conn} (h : Alike H s s') : Rel H (saslResponse E x s) (saslResponse (E.machine b f) x s') := by
  cases x with
  | plain u p => exact Rel.bind (allocOr_alike h) fun _ _ _ h => .ok _ h
  | external i =>
    show Rel H ((if i.length = 0 then M.fail St.NO_MEMORY else do allocOr E; pure i : M Conn Bytes) s)
      ((if i.length = 0 then M.fail St.NO_MEMORY else do allocOr (E.machine b f); pure i : M Conn Bytes) s')
    by_cases hx : i.length = 0
    · rw [if_pos hx, if_pos hx]; exact .err _ h
    · rw [if_neg hx, if_neg hx]
      exact Rel.bind (allocOr_alike h) fun _ _ _ h => .ok _ h

theorem awaitStart_alike (memcmp : Bytes → Bytes → Int) (x : Sasl) (d : Nat) {s s' : Conn} (h : Alike H s s') :
    Rel H (awaitStart E memcmp x d s) (awaitStart (E.machine b f) memcmp x d s') := by
  unfold awaitStart
  refine Rel.bind (waitMethodList_alike hH 0 _ d h) fun p t t' ht => ?_
  obtain ⟨_, r⟩ := p
  dsimp only
  have key : ∀ (major minor : UInt8) (sp : Table) (mech : Bytes), Rel H
      ((if major ≠ 0 ∨ minor ≠ 9 then M.fail St.INCOMPATIBLE_AMQP_VERSION
        else do
          let t ← withAlloc E fun alloc => cloneTable alloc 1 (storeTable sp)
          (fun s => .ok () { s with serverProps := t.erase } : M Conn Unit)
          if mechanismInList memcmp mech x then pure () else M.fail St.BROKER_UNSUPPORTED_SASL_METHOD : M Conn Unit) t)
      ((if major ≠ 0 ∨ minor ≠ 9 then M.fail St.INCOMPATIBLE_AMQP_VERSION
        else do
          let t ← withAlloc (E.machine b f) fun alloc => cloneTable alloc 1 (storeTable sp)
          (fun s => .ok () { s with serverProps := t.erase } : M Conn Unit)
          if mechanismInList memcmp mech x then pure () else M.fail St.BROKER_UNSUPPORTED_SASL_METHOD : M Conn Unit) t') := by
    intro major minor sp mech
    by_cases hv : major ≠ 0 ∨ minor ≠ 9
    · rw [if_pos hv, if_pos hv]; exact .err _ ht
    rw [if_neg hv, if_neg hv]
    refine Rel.bind (withAlloc_alike _ ht) fun y t t' ht => ?_
    refine Rel.bind (.ok _ ?_) fun _ t t' ht => ?_
    · obtain ⟨p, m, rfl, hp, hm⟩ := ht; exact ⟨p, m, rfl, hp, hm⟩
    · by_cases hx : mechanismInList memcmp mech x = true
      · rw [if_pos hx]; exact .ok _ ht
      · rw [if_neg hx]; exact .err _ ht
  cases r.get? .version_major with
  | none => exact .ub
  | some v1 =>
    cases v1 with
    | u8 major =>
      cases r.get? .version_minor with
      | none => exact .ub
      | some v2 =>
        cases v2 with
        | u8 minor =>
          cases r.get? .server_properties with
          | none => exact .ub
          | some v3 =>
            cases v3 with
            | table sp =>
              cases r.get? .mechanisms with
              | none => exact .ub
              | some v4 =>
                cases v4 with
                | bytes mech => exact key major minor sp mech
                | _ => exact .ub
            | _ => exact .ub
        | _ => exact .ub
    | _ => exact .ub

theorem sendStartOk_alike (bd : Build) (memcmp : Bytes → Bytes → Int) (props : Option PTable) (x : Sasl) (d : Nat) {s s' : Conn} (h : Alike H s s') :
    Rel H (sendStartOk E bd memcmp props x d s) (sendStartOk (E.machine b f) bd memcmp props x d s') := by
  unfold sendStartOk sendMethod
  refine Rel.bind ?_ fun _ t t' ht => Rel.bind (saslResponse_alike x ht) fun _ t t' ht => Rel.bind (withAlloc_alike _ ht) fun _ t t' ht =>
    Rel.bind (.ok _ ?_) fun _ t t' ht => sendFrame_alike hH _ _ _ ht
  · obtain ⟨p, m, rfl, hp, hm⟩ := h
    obtain ⟨y, t, t', e1, e2, ht, _⟩ := getPool_alike (E := E.pe) (E' := (E.machine b f).pe) rfl hp 0
    dsimp only at e2 ⊢
    rw [e1, e2]
    cases y with
    | true => exact .ok _ ⟨t', m, rfl, ht, hm⟩
    | false => exact .err _ ⟨t', m, rfl, ht, hm⟩
  · obtain ⟨p, m, rfl, hp, hm⟩ := ht; exact ⟨p, m, rfl, hp, hm⟩

theorem loginSteps_alike (bd : Build) (memcmp : Bytes → Bytes → Int) (mem mem' : Nat → UInt8) (a : LoginArgs) (tv : Option TimeVal) {s s' : Conn}
    (h : Alike H s s') : Rel H (loginSteps E bd memcmp mem a tv s) (loginSteps (E.machine b f) bd memcmp mem' a tv s') := by
  unfold loginSteps
  refine Rel.bind (fromNowIO_alike tv h) fun d t t' ht => Rel.bind (sendHeaderInner_alike d ht) fun r t t' ht => ?_
  by_cases hr : r ≠ St.OK
  · rw [if_pos hr, if_pos hr]; exact .err _ ht
  rw [if_neg hr, if_neg hr]
  refine Rel.bind (awaitStart_alike hH memcmp a.sasl d ht) fun _ t t' ht => Rel.bind (sendStartOk_alike hH bd memcmp _ _ d ht) fun _ t t' ht =>
    Rel.bind (releaseBuffers_alike ht) fun _ t t' ht => Rel.bind (waitMethodList_alike hH 0 _ d ht) fun x t t' ht => ?_
  obtain ⟨i, r⟩ := x
  dsimp only
  by_cases hi : i = CONNECTION_CLOSE
  · rw [if_pos hi, if_pos hi]; exact .ok _ ht
  rw [if_neg hi, if_neg hi]
  have key : ∀ (c : UInt16) (g : UInt32) (h : UInt16), Rel H ((do
      tuneOk E mem (negotiate (UInt16.ofNat a.channelMax.toNat) (UInt32.ofNat a.frameMax.toNat)
        (UInt16.ofNat a.heartbeat.toNat) c g h) d
      releaseBuffers
      openVhost E a.vhost d : M Conn (Outcome Unit)) t) ((do
      tuneOk (E.machine b f) mem' (negotiate (UInt16.ofNat a.channelMax.toNat) (UInt32.ofNat a.frameMax.toNat)
        (UInt16.ofNat a.heartbeat.toNat) c g h) d
      releaseBuffers
      openVhost (E.machine b f) a.vhost d : M Conn (Outcome Unit)) t') := by
    intro c g h
    refine Rel.bind ?_ fun _ t t' ht => Rel.bind (releaseBuffers_alike ht) fun _ t t' ht => openVhost_alike hH _ _ ht
    unfold tuneOk sendMethod
    exact Rel.bind (tune_alike _ _ _ mem mem' ht) fun _ t t' ht => sendFrame_alike hH _ _ _ ht
  cases r.get? .channel_max with
  | none => exact .ub
  | some x =>
    cases x with
    | u16 c =>
      cases r.get? .frame_max with
      | none => exact .ub
      | some y =>
        cases y with
        | u32 g =>
          cases r.get? .heartbeat with
          | none => exact .ub
          | some z =>
            cases z with
            | u16 h => exact key c g h
            | _ => exact .ub
        | _ => exact .ub
    | _ => exact .ub

theorem login_alike (bd : Build) (memcmp : Bytes → Bytes → Int) (mem mem' : Nat → UInt8) (a : LoginArgs) {s s' : Conn} (h : Alike H s s') :
    Rel H (login E bd memcmp mem a s) (login (E.machine b f) bd memcmp mem' a s') := by
  unfold login loginInner
  rw [h.timeouts]
  split
  · exact .ok _ h
  split
  · exact .ok _ h
  split
  · exact .ok _ h
  rcases (loginSteps_alike (b := b) hH bd memcmp mem mem' a (getHandshakeTimeout s.timeouts) h).split with ⟨a, u, u', g1, g2, hu⟩ | ⟨e, u, u', g1, g2, hu⟩ | ⟨g1, g2⟩ | ⟨g1, g2⟩ <;> rw [g1, g2]
  · exact .ok _ hu
  · exact .ok _ (sockClose_alike2 hu)
  · exact .ub
  · exact .fuel

end
end Rmq
