import Verif.Proofs.Conn
/-!
# Invariants of the connection: a property kept by the elementary actions is kept by every function
-/
namespace Rmq

/-- For results carrying a frame: `I` of the state left behind, and `J` of the frame. -/
def Res.AllF (I : Conn → Prop) (J : Conn → DFrame → Prop) : Res Conn DFrame → Prop
  | .ok f s => I s ∧ J s f
  | .err _ s => I s
  | _ => True

/-- Events without further effect on the receiving side. -/
def Ev.plain : Ev → Bool
  | .clock _ => true
  | .poll _ _ _ => true
  | .recvFail _ => true
  | _ => false

theorem Ev.quiet_plain {e : Ev} (h : e.quiet = true) : e.plain = true := by cases e <;> simp_all [Ev.quiet, Ev.plain]

/-- `I` is kept by waiting for data. -/
structure ClosedIO (E : NetEnv) (I : Conn → Prop) : Prop where
  ev : ∀ {s : Conn} {e : Ev}, e.plain = true → I s → I (s.push e)
  recv : ∀ {s : Conn} (b : Bytes), E.recv s.time s.received = .data b → I s → (restartRecv E ({ s with inb := b.take SOCK_BUF }.push (.recvData (b.take SOCK_BUF)))).All I

/-- `I` (of the connection) and `J` (of a frame just read) are kept by the elementary actions of receiving. -/
structure ClosedR (E : NetEnv) (I : Conn → Prop) (J : Conn → DFrame → Prop) : Prop extends ClosedIO E I where
  consume : ∀ {s s' : Conn} {f : Option DFrame}, I s → consumeOne E s = .ok f s' → I s' ∧ ∀ g, f = some g → J s' g
  consumeErr : ∀ {s s' : Conn} {e : Int}, I s → consumeOne E s = .err e s' → I s'
  queue : ∀ {s : Conn} {f : DFrame}, J s f → I s → (queueFrame E f s).All I

/-- … and of everything else. -/
structure Closed (E : NetEnv) (I : Conn → Prop) (J : Conn → DFrame → Prop) : Prop extends ClosedR E I J where
  send : ∀ {s : Conn} (b : Bytes) (flags : Nat), I s → I (sockSend E b flags s).2
  restartSend : ∀ {s : Conn}, I s → (restartSend E s).All I
  outMem : ∀ {s : Conn} (m : Bytes), I s → I { s with outMem := m }
  putBack : ∀ {s : Conn} {f : DFrame}, J s f → I s → (putBackFrame E f s).All I
  pop : ∀ {s : Conn} {a rest : List DFrame} {f : DFrame}, I s → s.queue = a ++ f :: rest →
    I { s with queue := rest } ∧ J { s with queue := rest } f
  close : ∀ {s : Conn}, I s → I (sockClose E s).2
  release : ∀ {s : Conn} (ch : UInt16), I s → I (maybeReleaseOn ch s)

variable {E : NetEnv} {I : Conn → Prop} {J : Conn → DFrame → Prop}

theorem ClosedIO.evs (h : ClosedIO E I) : ∀ (l : List Ev) {s : Conn}, (∀ e ∈ l, e.plain = true) → I s → I (s.ext l)
  | [], s, _, hs => by simpa using hs
  | e :: l, s, hl, hs => by
    have : s.ext (e :: l) = (s.push e).ext l := by simp [Conn.ext, Conn.push]
    rw [this]
    exact ClosedIO.evs h l (fun x hx => hl x (by simp [hx])) (h.ev (hl e (by simp)) hs)

theorem ClosedIO.quiet (h : ClosedIO E I) {s s' : Conn} (hs : I s) (hq : QuietStep s s') : I s' := by
  obtain ⟨l, rfl, hl⟩ := hq
  exact h.evs l (fun e he => Ev.quiet_plain (hl e he)) hs

theorem ClosedIO.quietAll (h : ClosedIO E I) {s : Conn} {α : Type} {r : Res Conn α} (hs : I s) (hr : r.All (QuietStep s)) : r.All I := by
  cases r with
  | ok a s' => exact h.quiet hs hr
  | err e s' => exact h.quiet hs hr
  | ub => trivial
  | fuel => trivial

theorem ClosedIO.recvWithTimeout (h : ClosedIO E I) (timeout : Nat) : ∀ (n : Nat) {s : Conn}, I s →
    (recvWithTimeout E timeout n s).All I := by
  intro n
  induction n with
  | zero => intro s _; trivial
  | succ n ih =>
    intro s hs
    unfold Rmq.recvWithTimeout
    by_cases ho : s.isOpen = false
    · rw [if_pos ho]; exact hs
    rw [if_neg ho]
    cases hr : E.recv s.time s.received with
    | data b => exact h.recv b hr hs
    | fail k =>
      dsimp only
      have h0 : I (s.push (.recvFail (-(k + 1 : Nat)))) := h.ev rfl hs
      have key : ∀ d : Dir, (match pollFd E d timeout E.fuel (s.push (.recvFail (-(k + 1 : Nat)))) with
            | .ok () s => Rmq.recvWithTimeout E timeout n s
            | .err e s => .err e s
            | .ub => .ub
            | .fuel => .fuel : Res Conn Unit).All I := by
        intro d
        have h1 := h.quietAll h0 (pollFd_quiet E d timeout E.fuel _)
        revert h1
        cases pollFd E d timeout E.fuel (s.push (.recvFail (-(k + 1 : Nat)))) with
        | ok a t => exact fun h1 => ih h1
        | err e t => exact id
        | ub => exact id
        | fuel => exact id
      by_cases h1 : (-(k + 1 : Nat) : Int) = St.PRIVATE_NEED_READ
      · rw [if_pos h1]; exact key .read
      rw [if_neg h1]
      by_cases h2 : (-(k + 1 : Nat) : Int) = St.PRIVATE_NEED_WRITE
      · rw [if_pos h2]; exact key .write
      rw [if_neg h2]
      exact h0

theorem ClosedR.drainToQueue (h : ClosedR E I J) : ∀ (n : Nat) {s : Conn}, I s → (drainToQueue E n s).All I := by
  intro n
  induction n with
  | zero => intro s _; trivial
  | succ n ih =>
    intro s hs
    unfold Rmq.drainToQueue
    by_cases hi : s.inb = []
    · rw [if_pos hi]; exact hs
    rw [if_neg hi]
    cases h1 : consumeOne E s with
    | err e t => exact h.consumeErr hs h1
    | ub => trivial
    | fuel => trivial
    | ok f t =>
      obtain ⟨ht, hf⟩ := h.consume hs h1
      cases f with
      | none => exact ih ht
      | some f =>
        dsimp only
        have h2 := h.queue (hf f rfl) ht
        revert h2
        cases queueFrame E f t with
        | ok a u => exact fun h2 => ih h2
        | err e u => exact id
        | ub => exact id
        | fuel => exact id

theorem ClosedR.tryRecv (h : ClosedR E I J) {s : Conn} (hs : I s) : (tryRecv E s).All I := by
  unfold Rmq.tryRecv
  rw [M.bind_def]
  have h1 := h.drainToQueue E.fuel hs
  revert h1
  cases Rmq.drainToQueue E E.fuel s with
  | err e t => exact id
  | ub => exact id
  | fuel => exact id
  | ok a t =>
    intro h1
    dsimp only
    rw [M.bind_def]
    have h2 := h.quietAll h1 (fromNowIO_quiet E (some ⟨0, 0⟩) t)
    revert h2
    cases fromNowIO E (some ⟨0, 0⟩) t with
    | err e t => exact id
    | ub => exact id
    | fuel => exact id
    | ok d t => exact fun h2 => h.recvWithTimeout d _ h2

theorem Closed.trySend (h : Closed E I J) (deadline flags len : Nat) : ∀ (n : Nat) (left : Bytes) {s : Conn}, I s →
    (trySend E deadline flags len n left s).All I := by
  intro n
  induction n with
  | zero => intro left s _; trivial
  | succ n ih =>
    intro left s hs
    unfold Rmq.trySend
    have h1 := h.send left flags hs
    revert h1
    obtain ⟨res, s1⟩ := sockSend E left flags s
    intro h1
    dsimp only at h1 ⊢
    by_cases hres : res > 0
    · rw [if_pos hres]
      by_cases hd : (left.drop res.toNat).length = 0
      · rw [if_pos hd]; exact h1
      · rw [if_neg hd]; exact ih _ h1
    · rw [if_neg hres]
      have h2 := h.quietAll h1 (doPoll_quiet E res deadline s1)
      revert h2
      cases doPoll E res deadline s1 with
      | ok a t => exact fun h2 => ih _ h2
      | err e t =>
        intro h2
        dsimp only
        by_cases he : e = St.TIMEOUT
        · rw [if_pos he]; exact h2
        · rw [if_neg he]; exact h2
      | ub => exact id
      | fuel => exact id

theorem Closed.sendLoop (h : Closed E I J) (flags deadline : Nat) : ∀ (n : Nat) (enc : Bytes) {s : Conn}, I s →
    (sendLoop E flags deadline n enc s).All I := by
  intro n
  induction n with
  | zero => intro enc s _; trivial
  | succ n ih =>
    intro enc s hs
    unfold Rmq.sendLoop
    dsimp only
    have h1 := h.trySend (timeFirst deadline s.nextRecv) flags enc.length E.fuel enc hs
    revert h1
    cases Rmq.trySend E (timeFirst deadline s.nextRecv) flags enc.length E.fuel enc s with
    | err e t => exact id
    | ub => exact id
    | fuel => exact id
    | ok m t =>
      intro h1
      dsimp only
      by_cases hm : enc.length ≠ m
      · rw [if_pos hm]
        by_cases ht : timeEqual (timeFirst deadline s.nextRecv) deadline = true
        · rw [if_pos ht]; exact h1
        rw [if_neg ht]
        have h2 := h.tryRecv h1
        revert h2
        cases Rmq.tryRecv E t with
        | ok a u => exact fun h2 => ih _ h2
        | err e u =>
          intro h2
          dsimp only
          by_cases he : e = St.TIMEOUT
          · rw [if_pos he]; exact h2
          · rw [if_neg he]; exact h2
        | ub => exact id
        | fuel => exact id
      · rw [if_neg hm]; exact h.restartSend h1

theorem Closed.sendFrame (h : Closed E I J) (f : AFrame) (flags deadline : Nat) {s : Conn} (hs : I s) :
    (sendFrame E f flags deadline s).All I := by
  unfold Rmq.sendFrame
  cases frameToBytes E.pe.be s.outMem s.outLen f with
  | ok enc mem => exact h.sendLoop flags deadline _ enc (h.outMem mem hs)
  | err e mem => exact h.outMem mem hs
  | ub => trivial
  | fuel => trivial

/-- `I` is kept by receiving, by sending whole frames, and by closing and releasing. -/
structure ClosedW (E : NetEnv) (I : Conn → Prop) (J : Conn → DFrame → Prop) : Prop extends ClosedR E I J where
  sendFrame : ∀ (f : AFrame) (flags deadline : Nat) {s : Conn}, I s → (Rmq.sendFrame E f flags deadline s).All I
  close : ∀ {s : Conn}, I s → I (sockClose E s).2
  release : ∀ {s : Conn} (ch : UInt16), I s → I (maybeReleaseOn ch s)

theorem Closed.toW (h : Closed E I J) : ClosedW E I J :=
  { h.toClosedR with sendFrame := fun f fl d _ hs => h.sendFrame f fl d hs, close := h.close, release := h.release }

theorem ClosedIO.hasPastIO (h : ClosedIO E I) (t : Nat) {s : Conn} (hs : I s) : I (hasPastIO E t s).2 := by
  obtain ⟨l, h1, h2⟩ := hasPastIO_ext E t s
  exact h.quiet hs ⟨l, h1, h2⟩

theorem ClosedW.beginRecv (h : ClosedW E I J) (d : Nat) {s : Conn} (hs : I s) : (beginRecv E d s).All I := by
  unfold Rmq.beginRecv
  have h1 := h.hasPastIO s.nextSend hs
  revert h1
  obtain ⟨res, s1⟩ := Rmq.hasPastIO E s.nextSend s
  intro h1
  dsimp only at h1 ⊢
  by_cases hr : res = St.TIMER_FAILURE
  · rw [if_pos hr]; exact h1
  rw [if_neg hr]
  have h2 : (if res = St.TIMEOUT then Rmq.sendFrame E ⟨0, .heartbeat⟩ SF_NONE TIME_INF s1 else .ok () s1 : Res Conn Unit).All I := by
    by_cases hr : res = St.TIMEOUT
    · rw [if_pos hr]; exact h.sendFrame _ _ _ h1
    · rw [if_neg hr]; exact h1
  revert h2
  cases (if res = St.TIMEOUT then Rmq.sendFrame E ⟨0, .heartbeat⟩ SF_NONE TIME_INF s1 else .ok () s1 : Res Conn Unit) with
  | err e t => exact id
  | ub => exact id
  | fuel => exact id
  | ok a t =>
    intro h2
    dsimp only
    have h3 := h.recvWithTimeout (timeFirst d (timeFirst t.nextRecv t.nextSend)) E.fuel h2
    revert h3
    cases Rmq.recvWithTimeout E (timeFirst d (timeFirst t.nextRecv t.nextSend)) E.fuel t with
    | ok b u => exact id
    | ub => exact id
    | fuel => exact id
    | err e u =>
      intro h3
      dsimp only
      by_cases he : e = St.TIMEOUT
      · rw [if_pos he]
        by_cases c1 : timeEqual (timeFirst d (timeFirst t.nextRecv t.nextSend)) u.nextRecv = true
        · rw [if_pos c1]; exact h.close h3
        rw [if_neg c1]
        by_cases c2 : timeEqual (timeFirst d (timeFirst t.nextRecv t.nextSend)) d = true
        · rw [if_pos c2]; exact h3
        rw [if_neg c2]
        by_cases c3 : timeEqual (timeFirst d (timeFirst t.nextRecv t.nextSend)) u.nextSend = true
        · rw [if_pos c3]; exact h3
        rw [if_neg c3]; trivial
      · rw [if_neg he]; exact h3

theorem ClosedW.waitInner (h : ClosedW E I J) (d : Nat) : ∀ (n : Nat) (b : Bool) {s : Conn}, I s → (waitInner E d n b s).AllF I J := by
  intro n
  induction n with
  | zero => intro b s _; trivial
  | succ n ih =>
    intro b s hs
    unfold Rmq.waitInner
    by_cases hb : b = false ∧ s.inb ≠ []
    · rw [if_pos hb]
      cases h1 : consumeOne E s with
      | err e t => exact h.consumeErr hs h1
      | ub => trivial
      | fuel => trivial
      | ok f t =>
        obtain ⟨ht, hf⟩ := h.consume hs h1
        cases f with
        | none => exact ih false ht
        | some f =>
          dsimp only
          have hf := hf f rfl
          cases hp : f.frame.payload <;> dsimp only
          case heartbeat => exact ih false (h.release 0 ht)
          all_goals exact ⟨ht, hf⟩
    · rw [if_neg hb]
      have h1 := h.beginRecv d hs
      revert h1
      cases Rmq.beginRecv E d s with
      | ok a t => exact fun h1 => ih a h1
      | err e t => exact id
      | ub => exact id
      | fuel => exact id

theorem ClosedW.waitFrameInner (h : ClosedW E I J) (d : Nat) {s : Conn} (hs : I s) : (waitFrameInner E d s).AllF I J :=
  h.waitInner d _ _ hs

theorem Closed.beginRecv (h : Closed E I J) (d : Nat) {s : Conn} (hs : I s) : (beginRecv E d s).All I := h.toW.beginRecv d hs
theorem Closed.waitInner (h : Closed E I J) (d : Nat) (n : Nat) (b : Bool) {s : Conn} (hs : I s) : (waitInner E d n b s).AllF I J :=
  h.toW.waitInner d n b hs
theorem Closed.waitFrameInner (h : Closed E I J) (d : Nat) {s : Conn} (hs : I s) : (waitFrameInner E d s).AllF I J :=
  h.toW.waitInner d _ _ hs

/-- The same for the functions built on waiting for a frame and sending one. -/
structure Upper (E : NetEnv) (I : Conn → Prop) (J : Conn → DFrame → Prop) : Prop where
  tick : ∀ {s s' : Conn}, I s → Tick s s' → I s'
  wait : ∀ (d : Nat) {s : Conn}, I s → (waitFrameInner E d s).AllF I J
  sendFrame : ∀ (f : AFrame) (flags deadline : Nat) {s : Conn}, deadline ≤ TIME_INF → I s → (sendFrame E f flags deadline s).All I
  header : ∀ (deadline n : Nat) {s : Conn}, I s → (trySend E deadline SF_NONE 8 n protocolHeaderBytes s).All I
  queue : ∀ {s : Conn} {f : DFrame}, J s f → I s → (queueFrame E f s).All I
  putBack : ∀ {s : Conn} {f : DFrame}, J s f → I s → (putBackFrame E f s).All I
  pop : ∀ {s : Conn} {a rest : List DFrame} {f : DFrame}, I s → s.queue = a ++ f :: rest →
    I { s with queue := rest } ∧ J { s with queue := rest } f
  close : ∀ {s : Conn}, I s → I (sockClose E s).2
  release : ∀ {s : Conn} (ch : UInt16), I s → I (maybeReleaseOn ch s)

theorem Closed.upper (h : Closed E I J) : Upper E I J where
  tick := fun hs ht => h.quiet hs ht.quiet
  wait := fun d _ hs => h.waitFrameInner d hs
  sendFrame := fun f fl d _ _ hs => h.sendFrame f fl d hs
  header := fun d n _ hs => h.trySend d SF_NONE 8 n protocolHeaderBytes hs
  queue := h.queue
  putBack := h.putBack
  pop := h.pop
  close := h.close
  release := h.release

theorem Upper.tickAll (h : Upper E I J) {s : Conn} {α : Type} {r : Res Conn α} (hs : I s) (hr : r.All (Tick s)) : r.All I := by
  cases r with
  | ok a s' => exact h.tick hs hr
  | err e s' => exact h.tick hs hr
  | ub => trivial
  | fuel => trivial

theorem waitFrame_def (E : NetEnv) (tv : Option TimeVal) (s : Conn) : waitFrame E tv s =
    match fromNowIO E tv s with
    | .ok d t =>
      match t.queue with
      | f :: rest => .ok f { t with queue := rest }
      | [] => waitFrameInner E d t
    | .err e t => .err e t
    | .ub => .ub
    | .fuel => .fuel := by
  unfold waitFrame
  show M.bind (fromNowIO E tv) _ s = _
  unfold M.bind
  cases fromNowIO E tv s <;> rfl

theorem Upper.waitFrame (h : Upper E I J) (tv : Option TimeVal) {s : Conn} (hs : I s) : (waitFrame E tv s).AllF I J := by
  rw [waitFrame_def]
  have h1 := h.tickAll hs (fromNowIO_tick E tv s)
  revert h1
  cases fromNowIO E tv s with
  | err e t => exact id
  | ub => exact id
  | fuel => exact id
  | ok d t =>
    intro h1
    dsimp only
    cases hq : t.queue with
    | nil => exact h.wait d h1
    | cons f rest => exact h.pop (a := []) h1 hq

theorem Upper.waitOnLoop (h : Upper E I J) (ch : UInt16) : ∀ (n : Nat) {s : Conn}, I s → (waitOnLoop E ch n s).AllF I J := by
  intro n
  induction n with
  | zero => intro s _; trivial
  | succ n ih =>
    intro s hs
    unfold Rmq.waitOnLoop
    have h1 := h.wait TIME_INF hs
    revert h1
    cases Rmq.waitFrameInner E TIME_INF s with
    | err e t => exact id
    | ub => exact id
    | fuel => exact id
    | ok f t =>
      rintro ⟨h1, h2⟩
      dsimp only
      by_cases hc : f.frame.channel = ch
      · rw [if_pos hc]; exact ⟨h1, h2⟩
      rw [if_neg hc]
      have h3 := h.queue h2 h1
      revert h3
      cases queueFrame E f t with
      | ok a u => exact fun h3 => ih h3
      | err e u => exact id
      | ub => exact id
      | fuel => exact id

theorem findQueued_split {ch : UInt16} : ∀ {q : List DFrame} {f : DFrame} {rest : List DFrame}, findQueued ch q = some (f, rest) →
    f.frame.channel = ch ∧ ∃ a, q = a ++ f :: rest ∧ ∀ g ∈ a, g.frame.channel ≠ ch
  | [], f, rest, h => nomatch h
  | g :: q, f, rest, h => by
    unfold findQueued at h
    by_cases hc : g.frame.channel = ch
    · rw [if_pos hc] at h
      cases h
      exact ⟨hc, [], rfl, by simp⟩
    · rw [if_neg hc] at h
      obtain ⟨h1, a, h2, h3⟩ := findQueued_split h
      refine ⟨h1, g :: a, by rw [h2]; rfl, ?_⟩
      intro x hx
      rcases List.mem_cons.1 hx with rfl | hx
      · exact hc
      · exact h3 x hx

theorem Upper.waitFrameOn (h : Upper E I J) (ch : UInt16) {s : Conn} (hs : I s) : (waitFrameOn E ch s).AllF I J := by
  unfold Rmq.waitFrameOn
  cases hq : findQueued ch s.queue with
  | none => exact h.waitOnLoop ch _ hs
  | some p =>
    obtain ⟨f, rest⟩ := p
    obtain ⟨_, a, h2, _⟩ := findQueued_split hq
    exact h.pop hs h2

theorem Upper.waitMethodList (h : Upper E I J) (ch : UInt16) (expected : List UInt32) (d : Nat) {s : Conn} (hs : I s) :
    (waitMethodList E ch expected d s).All I := by
  unfold Rmq.waitMethodList
  rw [M.bind_def]
  have h1 := h.tickAll hs (tvUntilIO_tick E d s)
  revert h1
  cases tvUntilIO E d s with
  | err e t => exact id
  | ub => exact id
  | fuel => exact id
  | ok tv t =>
    intro h1
    dsimp only
    rw [M.bind_def]
    have h2 := h.waitFrame tv h1
    revert h2
    cases Rmq.waitFrame E tv t with
    | err e t => exact id
    | ub => exact id
    | fuel => exact id
    | ok f u =>
      rintro ⟨h2, _⟩
      dsimp only
      cases f.frame.payload <;> dsimp only
      case method id args =>
        by_cases hc : f.frame.channel = ch ∧ id ∈ expected
        · rw [if_pos hc]; exact h2
        · rw [if_neg hc]; exact h2
      all_goals exact h2

theorem Upper.rpcLoop (h : Upper E I J) (ch : UInt16) (expected : List UInt32) (d : Nat) : ∀ (n : Nat) {s : Conn}, I s →
    (rpcLoop E ch expected d n s).All I := by
  intro n
  induction n with
  | zero => intro s _; trivial
  | succ n ih =>
    intro s hs
    unfold Rmq.rpcLoop
    have h1 := h.wait d hs
    revert h1
    cases Rmq.waitFrameInner E d s with
    | ub => exact id
    | fuel => exact id
    | err e t =>
      intro h1
      dsimp only
      by_cases he : e = St.TIMEOUT
      · rw [if_pos he]; exact h.close h1
      · rw [if_neg he]; exact h1
    | ok f t =>
      rintro ⟨h1, h2⟩
      dsimp only
      by_cases hc : endsRpc ch expected f.frame = true
      · rw [if_pos hc]
        cases f.frame.payload <;> dsimp only <;> first | exact h1 | trivial
      rw [if_neg hc]
      have h3 := h.queue h2 h1
      revert h3
      cases queueFrame E f t with
      | ok a u => exact fun h3 => ih h3
      | err e u => exact id
      | ub => exact id
      | fuel => exact id

theorem Upper.rpcInner (h : Upper E I J) (ch : UInt16) (id : UInt32) (expected : List UInt32) (args : Rec) (d : Nat) {s : Conn}
    (hs : I s) : (rpcInner E ch id expected args d s).All I := by
  unfold Rmq.rpcInner sendMethod
  have h1 := h.sendFrame ⟨ch, .method id args⟩ SF_NONE TIME_INF (Nat.le_refl _) hs
  revert h1
  cases Rmq.sendFrame E ⟨ch, .method id args⟩ SF_NONE TIME_INF s with
  | ok a t => exact fun h1 => h.rpcLoop ch expected d _ h1
  | err e t => exact fun h1 => h1
  | ub => exact fun h1 => h1
  | fuel => exact fun h1 => h1

theorem Upper.simpleRpc (h : Upper E I J) (ch : UInt16) (id : UInt32) (expected : List UInt32) (args : Rec) {s : Conn}
    (hs : I s) : (simpleRpc E ch id expected args s).All I := by
  unfold Rmq.simpleRpc
  have h1 := h.tickAll hs (fromNowIO_tick E (getRpcTimeout s.timeouts) s)
  revert h1
  cases fromNowIO E (getRpcTimeout s.timeouts) s with
  | ok d t => exact fun h1 => h.rpcInner ch id expected args d h1
  | err e t => exact fun h1 => h1
  | ub => exact fun h1 => h1
  | fuel => exact fun h1 => h1

theorem Upper.sendHeaderInner (h : Upper E I J) (d : Nat) {s : Conn} (hs : I s) : (sendHeaderInner E d s).All I := by
  unfold Rmq.sendHeaderInner
  have h1 := h.header d E.fuel hs
  revert h1
  cases Rmq.trySend E d SF_NONE 8 E.fuel protocolHeaderBytes s <;> exact fun h1 => h1

theorem Upper.releaseAll (h : Upper E I J) : ∀ (chs : List UInt16) {s : Conn}, I s → I (chs.foldl (fun s ch => maybeReleaseOn ch s) s)
  | [], _, hs => hs
  | ch :: chs, _, hs => Upper.releaseAll h chs (h.release ch hs)

theorem Upper.maybeRelease (h : Upper E I J) {s : Conn} (hs : I s) : I (maybeRelease s) := by
  unfold Rmq.maybeRelease
  by_cases hm : s.ps.mode = .idle
  · rw [if_pos hm]; exact h.releaseAll _ hs
  · rw [if_neg hm]; exact hs

theorem Upper.releaseBuffers (h : Upper E I J) {s : Conn} (hs : I s) : (releaseBuffers s).All I := by
  unfold Rmq.releaseBuffers
  by_cases hm : s.ps.mode ≠ .idle
  · rw [if_pos hm]; trivial
  · rw [if_neg hm]; exact h.releaseAll _ hs

end Rmq
