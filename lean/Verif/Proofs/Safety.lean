import Verif.Proofs.Clean
import Verif.Proofs.FrameOut
import Verif.Proofs.Kept
import Verif.Proofs.ApiClosed
/-!
# Nothing undefined happens while the server sends what can be digested
-/
namespace Rmq

/-! ## The invariant -/

/-- No undefined behaviour, and `I` of the state left behind. -/
def Res.Safe {α : Type} (I : Conn → Prop) : Res Conn α → Prop
  | .ok _ s => I s
  | .err _ s => I s
  | .ub => False
  | .fuel => True

/-- … and `J` of the frame given. -/
def Res.SafeF (I : Conn → Prop) (J : DFrame → Prop) : Res Conn DFrame → Prop
  | .ok f s => I s ∧ J f
  | .err _ s => I s
  | .ub => False
  | .fuel => True

/-- … and `J` of the frame given and that state. -/
def Res.SafeJ (I : Conn → Prop) (J : DFrame → Conn → Prop) : Res Conn DFrame → Prop
  | .ok f s => I s ∧ J f s
  | .err _ s => I s
  | .ub => False
  | .fuel => True

theorem Res.SafeJ.safeF {I : Conn → Prop} {J : DFrame → Conn → Prop} {K : DFrame → Prop} {r : Res Conn DFrame} (h : r.SafeJ I J)
    (hJ : ∀ f s, J f s → K f) : r.SafeF I K := by
  cases r with
  | ok a s => exact ⟨h.1, hJ _ _ h.2⟩
  | err e s => exact h
  | ub => exact h
  | fuel => trivial

theorem Res.Safe.of {α : Type} {I : Conn → Prop} {r : Res Conn α} (h : r.All I) (hu : r.isUB = false) : r.Safe I := by
  cases r with
  | ok a s => exact h
  | err e s => exact h
  | ub => cases hu
  | fuel => trivial

theorem Res.Safe.mono {α : Type} {I K : Conn → Prop} {r : Res Conn α} (h : r.Safe I) (hu : ∀ s, I s → K s) : r.Safe K := by
  cases r with
  | ok a s => exact hu _ h
  | err e s => exact hu _ h
  | ub => exact h
  | fuel => trivial

theorem Res.SafeF.safe {I : Conn → Prop} {J : DFrame → Prop} {r : Res Conn DFrame} (h : r.SafeF I J) : r.Safe I := by
  cases r with
  | ok a s => exact h.1
  | err e s => exact h
  | ub => exact h
  | fuel => trivial

theorem Res.Safe.bind {I : Conn → Prop} {α β : Type} {x : M Conn α} {f : α → M Conn β} {s : Conn} (hx : (x s).Safe I)
    (hf : ∀ a t, I t → (f a t).Safe I) : ((x >>= f) s).Safe I := by
  rw [M.bind_def]
  revert hx
  cases x s with
  | ok a t => exact fun h => hf a t h
  | err e t => exact id
  | ub => exact id
  | fuel => exact id

/-- A frame that can be handed to any of the functions. -/
def Dig (f : DFrame) : Prop := Basic f.frame ∧ Proper f.frame.payload

/-- The frame was just given, and `Q` holds of it. -/
def Given (Q : AFrame → PState → Bytes → Prop) (S : Bytes) (f : DFrame) (t : Conn) : Prop :=
  Good t.ps ∧ Q f.frame t.ps (t.inb ++ S.drop t.received)

/-- What is still to come can be digested, or the parser has given up. -/
def RecvOK (E : NetEnv) (Q : AFrame → PState → Bytes → Prop) (S : Bytes) (s : Conn) : Prop :=
  Expects E.pe Q s.ps (s.inb ++ S.drop s.received)

/-- The invariant: the output buffer is there and has the size `room`; waiting is not held up by heartbeats; queued frames and those to
come can be digested. -/
structure Fit (E : NetEnv) (Q : AFrame → PState → Bytes → Prop) (S : Bytes) (room : Nat) (s : Conn) : Prop where
  law : QLaw Q
  mem : s.outMem.length = room
  len : s.outLen = room
  fm : s.frameMax = room
  pass : Unblocked E s
  queue : ∀ f ∈ s.queue, Dig f
  recv : RecvOK E Q S s

theorem received_ext (s : Conn) (l : List Ev) : (s.ext l).received = s.received + (recvBytes l).length := by
  unfold Conn.received Conn.ext recvBytes
  simp only [List.map_append, List.sum_append, List.length_flatMap]
  congr 2
  apply List.map_congr_left
  intro e _
  cases e <;> rfl

theorem received_same {s t : Conn} {l : List Ev} (h : Since s t l) (hr : recvBytes l = []) : t.received = s.received := by
  have : t.received = (s.ext l).received := by unfold Conn.received; rw [h]; rfl
  rw [this, received_ext, hr]
  rfl

variable {E : NetEnv} {Q : AFrame → PState → Bytes → Prop} {S : Bytes} {room : Nat}

theorem RecvOK.same {s t : Conn} (h : RecvOK E Q S s) (hp : t.ps = s.ps) (hi : t.inb = s.inb) (hr : t.received = s.received) :
    RecvOK E Q S t := by
  unfold RecvOK at *
  rw [hp, hi, hr]
  exact h

namespace Fit

/-- Everything but the receiving side stays as it is. -/
theorem same {s t : Conn} (h : Fit E Q S room s) {l : List Ev} (hl : Since s t l) (hr : recvBytes l = []) (hm : t.outMem = s.outMem)
    (hn : t.outLen = s.outLen) (hf : t.frameMax = s.frameMax) (hU : Unblocked E t) (hq : t.queue = s.queue) (hp : t.ps = s.ps) (hi : t.inb = s.inb) :
    Fit E Q S room t :=
  ⟨h.law, by rw [hm]; exact h.mem, by rw [hn]; exact h.len, by rw [hf]; exact h.fm, hU, by rw [hq]; exact h.queue,
    h.recv.same hp hi (received_same hl hr)⟩

theorem quiet {s t : Conn} (h : Fit E Q S room s) (hq : QuietStep s t) : Fit E Q S room t := by
  have hU := (unblocked_closed E).quiet h.pass hq
  obtain ⟨l, rfl, hl⟩ := hq
  exact h.same (l := l) rfl hl.recv rfl rfl rfl hU rfl rfl rfl

theorem quietAll {s : Conn} (h : Fit E Q S room s) {α : Type} {r : Res Conn α} (hr : r.All (QuietStep s)) (hu : r.isUB = false) :
    r.Safe (Fit E Q S room) := .of (hr.mono fun _ hq => h.quiet hq) hu

end Fit

/-! ## No undefined behaviour below -/

theorem pollFd_noub (E : NetEnv) (d : Dir) (deadline : Nat) : ∀ (n : Nat) (s : Conn), (pollFd E d deadline n s).isUB = false := by
  intro n
  induction n with
  | zero => intro s; rfl
  | succ n ih =>
    intro s
    unfold pollFd
    obtain ⟨ms, s1⟩ := msUntilIO E deadline s
    dsimp only
    split
    · rfl
    · split
      · rfl
      · rfl
      · exact ih _
      · rfl

theorem doPoll_noub (E : NetEnv) (res : Int) (deadline : Nat) (s : Conn) : (doPoll E res deadline s).isUB = false := by
  unfold doPoll
  split
  · rfl
  split
  · exact pollFd_noub _ _ _ _ _
  split
  · exact pollFd_noub _ _ _ _ _
  split <;> rfl

theorem fromNowIO_noub (E : NetEnv) (tv : Option TimeVal) (s : Conn) : (fromNowIO E tv s).isUB = false := by
  unfold fromNowIO
  split
  · rfl
  · split
    · rfl
    · split <;> rfl

theorem tvUntilIO_noub (E : NetEnv) (t : Nat) (s : Conn) : (tvUntilIO E t s).isUB = false := by
  unfold tvUntilIO
  split
  · rfl
  split
  · rfl
  split <;> rfl

theorem restartSend_noub (E : NetEnv) (s : Conn) : (restartSend E s).isUB = false := by
  unfold restartSend
  obtain ⟨st, t, s1⟩ := sFromNowIO E s.heartbeat s.nextSend s
  dsimp only
  split <;> rfl

theorem restartRecv_noub (E : NetEnv) (s : Conn) : (restartRecv E s).isUB = false := by
  unfold restartRecv
  obtain ⟨st, t, s1⟩ := sFromNowIO E (2 * s.heartbeat) s.nextRecv s
  dsimp only
  split <;> rfl

namespace Fit

theorem restartSend {s : Conn} (h : Fit E Q S room s) : (restartSend E s).Safe (Fit E Q S room) := by
  refine .of ?_ (restartSend_noub E s)
  have h1 := restartSend_eff E s
  have h2 := (unblocked_closed E).restartSend h.pass
  revert h1 h2
  cases Rmq.restartSend E s with
  | ok a t => rintro ⟨x, l, rfl, hl⟩ h2; exact h.same (l := l) rfl hl.recv rfl rfl rfl h2 rfl rfl rfl
  | err a t => rintro ⟨x, l, rfl, hl⟩ h2; exact h.same (l := l) rfl hl.recv rfl rfl rfl h2 rfl rfl rfl
  | ub => exact fun _ _ => trivial
  | fuel => exact fun _ _ => trivial

theorem hasPastIO {s : Conn} (h : Fit E Q S room s) (t : Nat) : Fit E Q S room (hasPastIO E t s).2 := by
  obtain ⟨l, h1, hl⟩ := hasPastIO_ext E t s
  exact h.quiet ⟨l, h1, hl⟩

theorem sockSend {s : Conn} (h : Fit E Q S room s) (b : Bytes) (flags : Nat) : Fit E Q S room (sockSend E b flags s).2 := by
  have hU := (unblocked_closed E).send b flags h.pass
  obtain ⟨l, h1, hl, _⟩ := sockSend_eff E b flags s
  rw [h1] at hU ⊢
  exact h.same (l := l) rfl (sendish_recv hl) rfl rfl rfl hU rfl rfl rfl

theorem close {s : Conn} (h : Fit E Q S room s) : Fit E Q S room (sockClose E s).2 := by
  have hU := (unblocked_closed E).close h.pass
  obtain ⟨l, h1, hl⟩ := sockClose_ext E s
  rw [h1] at hU ⊢
  refine h.same (l := l) rfl ?_ rfl rfl rfl hU rfl rfl rfl
  exact (none_read fun e he => by obtain ⟨ok, rfl⟩ := hl e he; exact ⟨rfl, rfl⟩).1

theorem release {s : Conn} (h : Fit E Q S room s) (ch : UInt16) : Fit E Q S room (maybeReleaseOn ch s) := by
  have hU := (unblocked_closed E).release ch h.pass
  obtain ⟨l, h1, hl⟩ := maybeReleaseOn_ext ch s
  rw [h1] at hU ⊢
  refine h.same (l := l) rfl ?_ rfl rfl rfl hU rfl rfl rfl
  rcases hl with rfl | rfl <;> rfl

theorem releaseAll : ∀ (chs : List UInt16) {s : Conn}, Fit E Q S room s → Fit E Q S room (chs.foldl (fun s ch => maybeReleaseOn ch s) s)
  | [], _, hs => hs
  | ch :: chs, _, hs => releaseAll chs (hs.release ch)

theorem maybeRelease {s : Conn} (h : Fit E Q S room s) : Fit E Q S room (maybeRelease s) := by
  unfold Rmq.maybeRelease
  by_cases hm : s.ps.mode = .idle
  · rw [if_pos hm]; exact releaseAll _ h
  · rw [if_neg hm]; exact h

theorem allocs (hA : ∀ k, E.pe.alloc k = true) {s : Conn} (h : Fit E Q S room s) (a : Nat) {p : List UInt16} (hp : s.ps.pools ⊆ p) :
    Fit E Q S room { s with ps := { s.ps with allocs := a, pools := p } } :=
  ⟨h.law, h.mem, h.len, h.fm, h.pass, h.queue, h.recv.alloc hA h.law a hp⟩

theorem smallAlloc (hA : ∀ k, E.pe.alloc k = true) {s : Conn} (h : Fit E Q S room s) : Fit E Q S room (smallAlloc E s).2 :=
  h.allocs hA _ (List.Subset.refl _)

theorem getPool (hA : ∀ k, E.pe.alloc k = true) {s : Conn} (h : Fit E Q S room s) (ch : UInt16) :
    Fit E Q S room { s with ps := (Rmq.getPool E.pe s.ps ch).2 } := by
  unfold Rmq.getPool
  split
  · exact h
  · split
    · exact h.allocs hA _ (fun x hx => by simp [hx])
    · exact h.allocs hA _ (List.Subset.refl _)

theorem createLink (hA : ∀ k, E.pe.alloc k = true) {s : Conn} (h : Fit E Q S room s) (ch : UInt16) : Fit E Q S room (createLink E ch s).2 := by
  unfold Rmq.createLink
  have h1 := h.getPool hA ch
  revert h1
  obtain ⟨b, ps⟩ := Rmq.getPool E.pe s.ps ch
  intro h1
  cases b with
  | false => exact h1
  | true => exact (h1.smallAlloc hA).smallAlloc hA

theorem setQueue {s : Conn} (h : Fit E Q S room s) {q : List DFrame} (hq : ∀ f ∈ q, Dig f) : Fit E Q S room { s with queue := q } :=
  ⟨h.law, h.mem, h.len, h.fm, h.pass, hq, h.recv⟩

theorem queueFrame (hA : ∀ k, E.pe.alloc k = true) {s : Conn} (h : Fit E Q S room s) {f : DFrame} (hf : Dig f) :
    (queueFrame E f s).Safe (Fit E Q S room) := by
  unfold Rmq.queueFrame
  have h1 := h.createLink hA f.frame.channel
  revert h1
  obtain ⟨b, t⟩ := Rmq.createLink E f.frame.channel s
  intro h1
  cases b with
  | false => exact h1
  | true =>
    refine setQueue h1 fun g hg => ?_
    rcases List.mem_append.1 hg with hg | hg
    · exact h1.queue g hg
    · cases List.mem_singleton.1 hg; exact hf

theorem putBackFrame (hA : ∀ k, E.pe.alloc k = true) {s : Conn} (h : Fit E Q S room s) {f : DFrame} (hf : Dig f) :
    (putBackFrame E f s).Safe (Fit E Q S room) := by
  unfold Rmq.putBackFrame
  have h1 := h.createLink hA f.frame.channel
  revert h1
  obtain ⟨b, t⟩ := Rmq.createLink E f.frame.channel s
  intro h1
  cases b with
  | false => exact h1
  | true =>
    refine setQueue h1 fun g hg => ?_
    rcases List.mem_cons.1 hg with rfl | hg
    · exact hf
    · exact h1.queue g hg

theorem pop {s : Conn} (h : Fit E Q S room s) {a rest : List DFrame} {f : DFrame} (hq : s.queue = a ++ f :: rest) :
    Fit E Q S room { s with queue := rest } ∧ Dig f :=
  ⟨h.setQueue fun g hg => h.queue g (by rw [hq]; simp [hg]), h.queue f (by rw [hq]; simp)⟩

/-- One call of the parser. -/
theorem consumeOne (hA : ∀ k, E.pe.alloc k = true) {s : Conn} (h : Fit E Q S room s) :
    match Rmq.consumeOne E s with
    | .ok f t => Fit E Q S room t ∧ ∀ g, f = some g → Dig g ∧ Given Q S g t
    | .err _ t => Fit E Q S room t
    | .ub => False
    | .fuel => True := by
  unfold Rmq.consumeOne
  have h1 := Expects.step hA h.recv
  revert h1
  cases handleInput E.pe s.ps s.inb with
  | ub => exact id
  | fuel => exact id
  | err e p => exact fun h1 => ⟨h.law, h.mem, h.len, h.fm, h.pass, h.queue, h1 _⟩
  | ok r p =>
    obtain ⟨k, f⟩ := r
    rintro ⟨g, hb⟩
    have hr : ∀ (x : Conn), x.log = s.log ++ [.parsed (s.inb.take k)] → x.received = s.received := fun x hx =>
      received_same (l := [.parsed (s.inb.take k)]) hx rfl
    refine ⟨⟨h.law, h.mem, h.len, h.fm, h.pass, h.queue, ?_⟩, ?_⟩
    · unfold RecvOK
      rw [hr _ rfl]
      exact g
    · intro x hx
      cases f with
      | none => cases hx
      | some f =>
        cases hx
        obtain ⟨h1, h2, h3⟩ := hb f rfl
        refine ⟨⟨h.law.basic h1, h2⟩, h3, ?_⟩
        rw [hr _ rfl]
        exact h1

/-- Octets arriving in an empty buffer. -/
theorem arrive (hS : Serves E S) {s : Conn} (h : Fit E Q S room s) (hi : s.inb = []) {b : Bytes} (hb : E.recv s.time s.received = .data b) :
    (restartRecv E ({ s with inb := b.take SOCK_BUF }.push (.recvData (b.take SOCK_BUF)))).Safe (Fit E Q S room) := by
  refine .of ?_ (restartRecv_noub E _)
  have h2 := (unblocked_closed E).recv b hb h.pass
  have h3 : RecvOK E Q S ({ s with inb := b.take SOCK_BUF }.push (.recvData (b.take SOCK_BUF))) := by
    have hr : ({ s with inb := b.take SOCK_BUF }.push (.recvData (b.take SOCK_BUF)) : Conn).received = s.received + (b.take SOCK_BUF).length := by
      have := received_ext ({ s with inb := b.take SOCK_BUF }) [.recvData (b.take SOCK_BUF)]
      rw [Conn.push_eq, this]
      simp [recvBytes, Ev.delivered, Conn.received]
    obtain ⟨rest, hrest⟩ := hS _ _ _ hb
    have e1 : S.drop (s.received + (b.take SOCK_BUF).length) = rest := by
      rw [← List.drop_drop, ← hrest, List.drop_left]
    have hT := h.recv
    unfold RecvOK at hT ⊢
    rw [hr, e1]
    rw [hi, List.nil_append, ← hrest] at hT
    exact hT
  have h1 := restartRecv_eff E ({ s with inb := b.take SOCK_BUF }.push (.recvData (b.take SOCK_BUF)))
  revert h1 h2
  have key : ∀ t : Conn, Unblocked E t → (∃ x l, t = { ({ s with inb := b.take SOCK_BUF }.push (.recvData (b.take SOCK_BUF))).ext l with nextRecv := x } ∧ Quiet l) →
      Fit E Q S room t := by
    rintro t hU ⟨x, l, rfl, hl⟩
    exact ⟨h.law, h.mem, h.len, h.fm, hU, h.queue, h3.same rfl rfl (received_same (l := l) rfl hl.recv)⟩
  cases Rmq.restartRecv E ({ s with inb := b.take SOCK_BUF }.push (.recvData (b.take SOCK_BUF))) with
  | ok a t => exact fun hU h1 => key t hU h1
  | err a t => exact fun hU h1 => key t hU h1
  | ub => exact fun _ _ => trivial
  | fuel => exact fun _ _ => trivial

theorem recvWithTimeout (hS : Serves E S) (timeout : Nat) : ∀ (n : Nat) {s : Conn}, Fit E Q S room s → s.inb = [] →
    (recvWithTimeout E timeout n s).Safe (Fit E Q S room) := by
  intro n
  induction n with
  | zero => intro s _ _; trivial
  | succ n ih =>
    intro s hs hi
    unfold Rmq.recvWithTimeout
    by_cases ho : s.isOpen = false
    · rw [if_pos ho]; exact hs
    rw [if_neg ho]
    cases hE : E.recv s.time s.received with
    | data b => exact arrive hS hs hi hE
    | fail k =>
      dsimp only
      have h0 : Fit E Q S room (s.push (.recvFail (-(k + 1 : Nat)))) :=
        hs.same (l := [.recvFail (-(k + 1 : Nat))]) rfl rfl rfl rfl rfl ((unblocked_closed E).ev rfl hs.pass) rfl rfl rfl
      have key : ∀ d : Dir, (match pollFd E d timeout E.fuel (s.push (.recvFail (-(k + 1 : Nat)))) with
            | .ok () s => Rmq.recvWithTimeout E timeout n s
            | .err e s => .err e s
            | .ub => .ub
            | .fuel => .fuel : Res Conn Unit).Safe (Fit E Q S room) := by
        intro d
        have hq := pollFd_quiet E d timeout E.fuel (s.push (.recvFail (-(k + 1 : Nat))))
        have h1 := h0.quietAll hq (pollFd_noub E d timeout E.fuel _)
        revert h1 hq
        cases pollFd E d timeout E.fuel (s.push (.recvFail (-(k + 1 : Nat)))) with
        | ok a t =>
          rintro ⟨l, rfl, _⟩ h1
          exact ih h1 hi
        | err e t => exact fun _ => id
        | ub => exact fun _ => id
        | fuel => exact fun _ => id
      by_cases h1 : (-(k + 1 : Nat) : Int) = St.PRIVATE_NEED_READ
      · rw [if_pos h1]; exact key .read
      rw [if_neg h1]
      by_cases h2 : (-(k + 1 : Nat) : Int) = St.PRIVATE_NEED_WRITE
      · rw [if_pos h2]; exact key .write
      rw [if_neg h2]
      exact h0

theorem drainToQueue (hA : ∀ k, E.pe.alloc k = true) : ∀ (n : Nat) {s : Conn}, Fit E Q S room s →
    (Rmq.drainToQueue E n s).Safe (Fit E Q S room) ∧ ∀ t, Rmq.drainToQueue E n s = .ok () t → t.inb = [] := by
  intro n
  induction n with
  | zero => intro s _; exact ⟨trivial, fun t h => (by cases h)⟩
  | succ n ih =>
    intro s hs
    unfold Rmq.drainToQueue
    by_cases hi : s.inb = []
    · rw [if_pos hi]; exact ⟨hs, fun t h => (by cases h; exact hi)⟩
    rw [if_neg hi]
    have h1 := hs.consumeOne hA
    revert h1
    cases Rmq.consumeOne E s with
    | err e t => exact fun h1 => ⟨h1, fun t h => (by cases h)⟩
    | ub => exact fun h1 => h1.elim
    | fuel => exact fun _ => ⟨trivial, fun t h => (by cases h)⟩
    | ok f t =>
      rintro ⟨ht, hf⟩
      cases f with
      | none => exact ih ht
      | some f =>
        dsimp only
        have h2 := ht.queueFrame hA (hf f rfl).1
        revert h2
        cases Rmq.queueFrame E f t with
        | ok a u => exact fun h2 => ih h2
        | err e u => exact fun h2 => ⟨h2, fun t h => (by cases h)⟩
        | ub => exact fun h2 => h2.elim
        | fuel => exact fun _ => ⟨trivial, fun t h => (by cases h)⟩

theorem tryRecv (hA : ∀ k, E.pe.alloc k = true) (hS : Serves E S) {s : Conn} (hs : Fit E Q S room s) : (tryRecv E s).Safe (Fit E Q S room) := by
  unfold Rmq.tryRecv
  rw [M.bind_def]
  have h1 := hs.drainToQueue hA E.fuel
  revert h1
  cases Rmq.drainToQueue E E.fuel s with
  | err e t => exact fun h => h.1
  | ub => exact fun h => h.1
  | fuel => exact fun h => h.1
  | ok a t =>
    rintro ⟨h1, hi⟩
    have hi := hi t rfl
    dsimp only
    rw [M.bind_def]
    have hq := fromNowIO_quiet E (some ⟨0, 0⟩) t
    have h2 := Fit.quietAll h1 hq (fromNowIO_noub E _ t)
    revert h2 hq
    cases fromNowIO E (some ⟨0, 0⟩) t with
    | err e t => exact fun _ => id
    | ub => exact fun _ => id
    | fuel => exact fun _ => id
    | ok d t =>
      rintro ⟨l, rfl, _⟩ h2
      exact recvWithTimeout hS d _ h2 hi

theorem trySend (deadline flags len : Nat) : ∀ (n : Nat) (left : Bytes) {s : Conn}, Fit E Q S room s →
    (trySend E deadline flags len n left s).Safe (Fit E Q S room) := by
  intro n
  induction n with
  | zero => intro left s _; trivial
  | succ n ih =>
    intro left s hs
    unfold Rmq.trySend
    have h1 := hs.sockSend left flags
    revert h1
    obtain ⟨res, s1⟩ := Rmq.sockSend E left flags s
    intro h1
    dsimp only at h1 ⊢
    by_cases hres : res > 0
    · rw [if_pos hres]
      by_cases hd : (left.drop res.toNat).length = 0
      · rw [if_pos hd]; exact h1
      · rw [if_neg hd]; exact ih _ h1
    · rw [if_neg hres]
      have h2 := h1.quietAll (doPoll_quiet E res deadline s1) (doPoll_noub E res deadline s1)
      revert h2
      cases doPoll E res deadline s1 with
      | ok a t => exact fun h2 => ih _ h2
      | err e t =>
        intro h2
        dsimp only
        by_cases he : e = St.TIMEOUT
        · rw [if_pos he]; exact h2
        · rw [if_neg he]; exact h2
      | ub => exact id
      | fuel => exact id

theorem sendLoop (hA : ∀ k, E.pe.alloc k = true) (hS : Serves E S) (flags deadline : Nat) : ∀ (n : Nat) (enc : Bytes) {s : Conn}, Fit E Q S room s →
    (sendLoop E flags deadline n enc s).Safe (Fit E Q S room) := by
  intro n
  induction n with
  | zero => intro enc s _; trivial
  | succ n ih =>
    intro enc s hs
    unfold Rmq.sendLoop
    dsimp only
    have h1 := hs.trySend (timeFirst deadline s.nextRecv) flags enc.length E.fuel enc
    revert h1
    cases Rmq.trySend E (timeFirst deadline s.nextRecv) flags enc.length E.fuel enc s with
    | err e t => exact id
    | ub => exact id
    | fuel => exact id
    | ok m t =>
      intro h1
      dsimp only
      by_cases hm : enc.length ≠ m
      · rw [if_pos hm]
        by_cases ht : timeEqual (timeFirst deadline s.nextRecv) deadline = true
        · rw [if_pos ht]; exact h1
        rw [if_neg ht]
        have h2 := tryRecv hA hS h1
        revert h2
        cases Rmq.tryRecv E t with
        | ok a u => exact fun h2 => ih _ h2
        | err e u =>
          intro h2
          dsimp only
          by_cases he : e = St.TIMEOUT
          · rw [if_pos he]; exact h2
          · rw [if_neg he]; exact h2
        | ub => exact id
        | fuel => exact id
      · rw [if_neg hm]; exact Fit.restartSend h1

/-- Sending a frame whose struct is what its type says and which, if it is a body frame, fits. -/
theorem sendFrame (hA : ∀ k, E.pe.alloc k = true) (hS : Serves E S) (h20 : 20 ≤ room) (f : AFrame) (flags deadline : Nat) {s : Conn} (hs : Fit E Q S room s)
    (hW : WellTyped f.payload) (hb : ∀ b, f.payload = .body b → b.length + 8 ≤ room) : (sendFrame E f flags deadline s).Safe (Fit E Q S room) := by
  unfold Rmq.sendFrame
  have key : ∀ mem' : Bytes, mem'.length = s.outLen → Fit E Q S room { s with outMem := mem' } := fun mem' hm =>
    ⟨hs.law, hm.trans hs.len, hs.len, hs.fm, hs.pass, hs.queue, hs.recv⟩
  have := frameToBytes_kept E.pe.be s.outMem f (by rw [hs.mem]; exact h20) hW (by rw [hs.mem]; exact hb)
  rw [show s.outMem.length = s.outLen by rw [hs.mem, hs.len]] at this
  rcases this with ⟨bs, mem', h1, _, h2⟩ | ⟨e, mem', h1, h2⟩
  · rw [h1]; exact sendLoop hA hS flags deadline _ bs (key mem' h2)
  · rw [h1]; exact key mem' h2

theorem beginRecv (hA : ∀ k, E.pe.alloc k = true) (hS : Serves E S) (h20 : 20 ≤ room) (d : Nat) {s : Conn} (hs : Fit E Q S room s) (hi : s.inb = []) :
    match beginRecv E d s with
    | .ok again t => Fit E Q S room t ∧ (again = true → t.inb = [])
    | .err _ t => Fit E Q S room t
    | .ub => False
    | .fuel => True := by
  unfold Rmq.beginRecv
  have h1 := hs.hasPastIO s.nextSend
  have h1' : (Rmq.hasPastIO E s.nextSend s).2.inb = [] := by
    obtain ⟨l, h1, hl⟩ := hasPastIO_ext E s.nextSend s
    rw [h1]; exact hi
  revert h1 h1'
  obtain ⟨res, s1⟩ := Rmq.hasPastIO E s.nextSend s
  intro h1 i1
  dsimp only at h1 i1 ⊢
  by_cases hr : res = St.TIMER_FAILURE
  · rw [if_pos hr]; exact h1
  rw [if_neg hr]
  have h2 : (if res = St.TIMEOUT then Rmq.sendFrame E ⟨0, .heartbeat⟩ SF_NONE TIME_INF s1 else .ok () s1 : Res Conn Unit).Safe
      fun t => Fit E Q S room t ∧ t.inb = [] := by
    by_cases hr : res = St.TIMEOUT
    · rw [if_pos hr]
      have a1 := sendFrame hA hS h20 ⟨0, .heartbeat⟩ SF_NONE TIME_INF h1 trivial (by intro b hb; cases hb)
      have a2 := sendBeat_ext (E := E) SF_NONE h1.pass
      revert a1 a2
      cases Rmq.sendFrame E ⟨0, .heartbeat⟩ SF_NONE TIME_INF s1 with
      | ok x t => rintro a1 ⟨l, m, tt, rfl, _⟩; exact ⟨a1, i1⟩
      | err x t => rintro a1 ⟨l, m, tt, rfl, _⟩; exact ⟨a1, i1⟩
      | ub => exact fun a _ => a
      | fuel => exact fun a _ => a
    · rw [if_neg hr]; exact ⟨h1, i1⟩
  revert h2
  cases (if res = St.TIMEOUT then Rmq.sendFrame E ⟨0, .heartbeat⟩ SF_NONE TIME_INF s1 else .ok () s1 : Res Conn Unit) with
  | err e t => exact fun h => h.1
  | ub => exact id
  | fuel => exact id
  | ok a t =>
    rintro ⟨h2, i2⟩
    dsimp only
    have h3 := recvWithTimeout hS (timeFirst d (timeFirst t.nextRecv t.nextSend)) E.fuel h2 i2
    cases h4 : Rmq.recvWithTimeout E (timeFirst d (timeFirst t.nextRecv t.nextSend)) E.fuel t with
    | ok b u => rw [h4] at h3; exact ⟨h3, fun h => (by cases h)⟩
    | ub => rw [h4] at h3; exact h3
    | fuel => trivial
    | err e u =>
      rw [h4] at h3
      dsimp only
      by_cases he : e = St.TIMEOUT
      · rw [if_pos he]
        obtain ⟨l, rfl, _⟩ := recvWithTimeout_timeout _ _ _ _ (by rw [h4, he])
        by_cases c1 : timeEqual (timeFirst d (timeFirst t.nextRecv t.nextSend)) t.nextRecv = true
        · rw [if_pos (show timeEqual _ (t.ext l).nextRecv = true from c1)]; exact Fit.close h3
        rw [if_neg (show ¬ timeEqual _ (t.ext l).nextRecv = true from c1)]
        by_cases c2 : timeEqual (timeFirst d (timeFirst t.nextRecv t.nextSend)) d = true
        · rw [if_pos c2]; exact h3
        rw [if_neg c2]
        by_cases c3 : timeEqual (timeFirst d (timeFirst t.nextRecv t.nextSend)) t.nextSend = true
        · rw [if_pos (show timeEqual _ (t.ext l).nextSend = true from c3)]; exact ⟨h3, fun _ => i2⟩
        exfalso
        revert c1 c2 c3
        unfold timeEqual timeFirst
        split <;> split <;> simp
      · rw [if_neg he]; exact h3

theorem waitInner (hA : ∀ k, E.pe.alloc k = true) (hS : Serves E S) (h20 : 20 ≤ room) (d : Nat) : ∀ (n : Nat) (b : Bool) {s : Conn}, Fit E Q S room s →
    (b = true → s.inb = []) → (waitInner E d n b s).SafeJ (Fit E Q S room) (fun f t => Dig f ∧ Given Q S f t) := by
  intro n
  induction n with
  | zero => intro b s _ _; trivial
  | succ n ih =>
    intro b s hs hbi
    unfold Rmq.waitInner
    by_cases hb : b = false ∧ s.inb ≠ []
    · rw [if_pos hb]
      have h1 := hs.consumeOne hA
      revert h1
      cases Rmq.consumeOne E s with
      | err e t => exact id
      | ub => exact id
      | fuel => exact id
      | ok f t =>
        rintro ⟨ht, hf⟩
        cases f with
        | none => exact ih false ht (fun h => (by cases h))
        | some f =>
          dsimp only
          have hf := hf f rfl
          cases hp : f.frame.payload <;> dsimp only
          case heartbeat => exact ih false (ht.release 0) (fun h => (by cases h))
          all_goals exact ⟨ht, hf⟩
    · rw [if_neg hb]
      have hi : s.inb = [] := by
        cases b with
        | true => exact hbi rfl
        | false =>
          cases hs : s.inb with
          | nil => rfl
          | cons x y => exact absurd ⟨rfl, by rw [hs]; simp⟩ hb
      have h1 := hs.beginRecv hA hS h20 d hi
      revert h1
      cases Rmq.beginRecv E d s with
      | ok a t => exact fun h1 => ih a h1.1 h1.2
      | err e t => exact id
      | ub => exact id
      | fuel => exact id

end Fit

/-! ## Structs read from the wire -/

/-- Every flagged property that is copied is there. -/
theorem cloned_present {flags : UInt32} {r : Rec} (h : PropsOK (fun _ _ => True) flags r basicProps) :
    ∀ p ∈ clonedProps, flags &&& UInt32.ofNat (1 <<< p.1) ≠ 0 → r.get? p.2 ≠ none := by
  have key : ∀ p ∈ clonedProps, p.1 < 32 ∧ ∃ q ∈ basicProps, q.1 = p.1 ∧ q.2.1 = p.2 := by decide +kernel
  intro p hp hf
  obtain ⟨hlt, q, hq, e1, e2⟩ := key p hp
  obtain ⟨v, hv, _⟩ := h q hq (by rw [e1]; exact (and_bit hlt).1 hf)
  rw [← e2, hv]
  exact fun h => by cases h

theorem basic_class {c : UInt16 × List (Nat × Fld × Dom)} (hc : c ∈ propClasses) (h : c.1 = 60) : c.2 = basicProps := by
  have key : ∀ c ∈ propClasses, c.1 = 60 → c.2 = basicProps := by decide
  exact key c hc h

/-- The fields of basic.deliver that amqp_consume_message reads are there. -/
theorem deliver_fields {r : Rec} (h : Proper (.method BASIC_DELIVER r)) : ∃ tag dt red ex rk,
    r.get? .consumer_tag = some (.bytes tag) ∧ r.get? .delivery_tag = some (.u64 dt) ∧ r.get? .redelivered = some (.bool red) ∧
    r.get? .exchange = some (.bytes ex) ∧ r.get? .routing_key = some (.bytes rk) := by
  obtain ⟨p, hp, he, ha⟩ := h
  have key : ∀ p ∈ protocol, p.id = BASIC_DELIVER → p.args =
      [(.consumer_tag, .shortstr), (.delivery_tag, .longlong), (.redelivered, .bit), (.exchange, .shortstr), (.routing_key, .shortstr)] := by
    decide
  rw [key p hp he] at ha
  cases ha with
  | cons a1 ha =>
  rename_i v1 _
  cases ha with
  | cons a2 ha =>
  rename_i v2 _
  cases ha with
  | cons a3 ha =>
  rename_i v3 _
  cases ha with
  | cons a4 ha =>
  rename_i v4 _
  cases ha with
  | cons a5 ha =>
  rename_i v5 _
  cases ha
  cases v1 <;> try exact a1.elim
  cases v2 <;> try exact a2.elim
  cases v3 <;> try exact a3.elim
  cases v4 <;> try exact a4.elim
  cases v5 <;> try exact a5.elim
  exact ⟨_, _, _, _, _, rfl, rfl, rfl, rfl, rfl⟩

/-! ## The functions the application calls -/

/-- What the theorems below are about: memory is to spare, the server sends `S`, the output buffer is not tiny. -/
structure World (E : NetEnv) (Q : AFrame → PState → Bytes → Prop) (S : Bytes) (room : Nat) : Prop where
  alloc : ∀ k, E.pe.alloc k = true
  serves : Serves E S
  room : 20 ≤ room

namespace World

theorem waitJ (w : World E Q S room) (d : Nat) {s : Conn} (hs : Fit E Q S room s) :
    (waitFrameInner E d s).SafeJ (Fit E Q S room) (fun f t => Dig f ∧ Given Q S f t) :=
  hs.waitInner w.alloc w.serves w.room d _ _ (fun h => (by cases h))

theorem wait (w : World E Q S room) (d : Nat) {s : Conn} (hs : Fit E Q S room s) : (waitFrameInner E d s).SafeF (Fit E Q S room) Dig :=
  (w.waitJ d hs).safeF fun _ _ h => h.1

theorem waitFrame (w : World E Q S room) (tv : Option TimeVal) {s : Conn} (hs : Fit E Q S room s) : (waitFrame E tv s).SafeF (Fit E Q S room) Dig := by
  rw [waitFrame_def]
  have h1 := hs.quietAll (fromNowIO_quiet E tv s) (fromNowIO_noub E tv s)
  revert h1
  cases fromNowIO E tv s with
  | err e t => exact id
  | ub => exact id
  | fuel => exact id
  | ok d t =>
    intro h1
    dsimp only
    cases hq : t.queue with
    | nil => exact w.wait d h1
    | cons f rest => exact Fit.pop (a := []) h1 hq

theorem waitOnLoop (w : World E Q S room) (ch : UInt16) : ∀ (n : Nat) {s : Conn}, Fit E Q S room s → (waitOnLoop E ch n s).SafeF (Fit E Q S room) Dig := by
  intro n
  induction n with
  | zero => intro s _; trivial
  | succ n ih =>
    intro s hs
    unfold Rmq.waitOnLoop
    have h1 := w.wait TIME_INF hs
    revert h1
    cases Rmq.waitFrameInner E TIME_INF s with
    | err e t => exact id
    | ub => exact id
    | fuel => exact id
    | ok f t =>
      rintro ⟨h1, h2⟩
      dsimp only
      by_cases hc : f.frame.channel = ch
      · rw [if_pos hc]; exact ⟨h1, h2⟩
      rw [if_neg hc]
      have h3 := h1.queueFrame w.alloc h2
      revert h3
      cases queueFrame E f t with
      | ok a u => exact fun h3 => ih h3
      | err e u => exact id
      | ub => exact id
      | fuel => exact id

theorem waitFrameOn (w : World E Q S room) (ch : UInt16) {s : Conn} (hs : Fit E Q S room s) : (waitFrameOn E ch s).SafeF (Fit E Q S room) Dig := by
  unfold Rmq.waitFrameOn
  cases hq : findQueued ch s.queue with
  | none => exact w.waitOnLoop ch _ hs
  | some p =>
    obtain ⟨f, rest⟩ := p
    obtain ⟨_, a, h2, _⟩ := findQueued_split hq
    exact hs.pop h2

theorem waitMethodList (w : World E Q S room) (ch : UInt16) (expected : List UInt32) (d : Nat) {s : Conn} (hs : Fit E Q S room s) :
    (waitMethodList E ch expected d s).Safe (Fit E Q S room) := by
  unfold Rmq.waitMethodList
  rw [M.bind_def]
  have h1 := hs.quietAll (tvUntilIO_quiet E d s) (tvUntilIO_noub E d s)
  revert h1
  cases tvUntilIO E d s with
  | err e t => exact id
  | ub => exact id
  | fuel => exact id
  | ok tv t =>
    intro h1
    dsimp only
    rw [M.bind_def]
    have h2 := w.waitFrame tv h1
    revert h2
    cases Rmq.waitFrame E tv t with
    | err e t => exact id
    | ub => exact id
    | fuel => exact id
    | ok f u =>
      rintro ⟨h2, _⟩
      dsimp only
      cases f.frame.payload <;> dsimp only
      case method id args =>
        by_cases hc : f.frame.channel = ch ∧ id ∈ expected
        · rw [if_pos hc]; exact h2
        · rw [if_neg hc]; exact h2
      all_goals exact h2

theorem rpcLoop (w : World E Q S room) (ch : UInt16) (expected : List UInt32) (d : Nat) : ∀ (n : Nat) {s : Conn}, Fit E Q S room s →
    (rpcLoop E ch expected d n s).Safe (Fit E Q S room) := by
  intro n
  induction n with
  | zero => intro s _; trivial
  | succ n ih =>
    intro s hs
    unfold Rmq.rpcLoop
    have h1 := w.wait d hs
    revert h1
    cases Rmq.waitFrameInner E d s with
    | ub => exact id
    | fuel => exact id
    | err e t =>
      intro h1
      dsimp only
      by_cases he : e = St.TIMEOUT
      · rw [if_pos he]; exact Fit.close h1
      · rw [if_neg he]; exact h1
    | ok f t =>
      rintro ⟨h1, h2⟩
      dsimp only
      by_cases hc : endsRpc ch expected f.frame = true
      · rw [if_pos hc]
        unfold endsRpc at hc
        cases hp : f.frame.payload <;> rw [hp] at hc <;> dsimp only at hc ⊢ <;> first | exact h1 | cases hc
      rw [if_neg hc]
      have h3 := h1.queueFrame w.alloc h2
      revert h3
      cases queueFrame E f t with
      | ok a u => exact fun h3 => ih h3
      | err e u => exact id
      | ub => exact id
      | fuel => exact id

theorem sendFrame (w : World E Q S room) (f : AFrame) (flags : Nat) {s : Conn} (hs : Fit E Q S room s)
    (hW : WellTyped f.payload) (hb : ∀ b, f.payload = .body b → b.length + 8 ≤ room) : (sendFrame E f flags TIME_INF s).Safe (Fit E Q S room) :=
  hs.sendFrame w.alloc w.serves w.room f flags TIME_INF hW hb

theorem rpcInner (w : World E Q S room) (ch : UInt16) (id : UInt32) (expected : List UInt32) (args : Rec) (d : Nat) {s : Conn}
    (hs : Fit E Q S room s) (hW : WellTyped (.method id args)) : (rpcInner E ch id expected args d s).Safe (Fit E Q S room) := by
  unfold Rmq.rpcInner sendMethod
  have h1 := w.sendFrame ⟨ch, .method id args⟩ SF_NONE hs hW (fun b hb => by cases hb)
  revert h1
  cases Rmq.sendFrame E ⟨ch, .method id args⟩ SF_NONE TIME_INF s with
  | ok a t => exact fun h1 => w.rpcLoop ch expected d _ h1
  | err e t => exact fun h1 => h1
  | ub => exact fun h1 => h1
  | fuel => exact fun h1 => h1

theorem simpleRpc (w : World E Q S room) (ch : UInt16) (id : UInt32) (expected : List UInt32) (args : Rec) {s : Conn}
    (hs : Fit E Q S room s) (hW : WellTyped (.method id args)) : (simpleRpc E ch id expected args s).Safe (Fit E Q S room) := by
  unfold Rmq.simpleRpc
  have h1 := hs.quietAll (fromNowIO_quiet E (getRpcTimeout s.timeouts) s) (fromNowIO_noub E _ s)
  revert h1
  cases fromNowIO E (getRpcTimeout s.timeouts) s with
  | ok d t => exact fun h1 => w.rpcInner ch id expected args d h1 hW
  | err e t => exact fun h1 => h1
  | ub => exact fun h1 => h1
  | fuel => exact fun h1 => h1

theorem sendHeaderInner (d : Nat) {s : Conn} (hs : Fit E Q S room s) : (sendHeaderInner E d s).Safe (Fit E Q S room) := by
  unfold Rmq.sendHeaderInner
  have h1 := hs.trySend d SF_NONE 8 E.fuel protocolHeaderBytes
  revert h1
  cases Rmq.trySend E d SF_NONE 8 E.fuel protocolHeaderBytes s <;> exact fun h1 => h1

theorem publishCheck (w : World E Q S room) {s : Conn} (hs : Fit E Q S room s) : (publishCheck E s).Safe (Fit E Q S room) := by
  unfold Rmq.publishCheck
  have h2 := hs.hasPastIO s.nextRecv
  revert h2
  obtain ⟨res, t⟩ := hasPastIO E s.nextRecv s
  intro h2
  dsimp only at h2 ⊢
  by_cases c1 : res = St.TIMER_FAILURE
  · rw [if_pos c1]; exact h2
  rw [if_neg c1]
  by_cases c2 : res = St.TIMEOUT
  · rw [if_pos c2]
    have h3 := h2.tryRecv w.alloc w.serves
    revert h3
    cases Rmq.tryRecv E t with
    | ok x t => exact id
    | err e t => intro h3; dsimp only; by_cases he : e = St.TIMEOUT <;> simp only [he, if_true, if_false] <;> exact h3
    | ub => exact id
    | fuel => exact id
  · rw [if_neg c2]; exact h2

theorem publishBody (w : World E Q S room) (ch : UInt16) {usable : Nat} (hu : usable + 8 ≤ room) : ∀ (n : Nat) (rest : Bytes) {s : Conn}, Fit E Q S room s →
    (publishBody E ch usable n rest s).Safe (Fit E Q S room) := by
  intro n
  induction n with
  | zero => intro rest s _; trivial
  | succ n ih =>
    intro rest s hs
    unfold Rmq.publishBody
    by_cases h0 : rest.length = 0
    · rw [if_pos h0]; exact hs
    rw [if_neg h0]
    by_cases h1 : rest.length ≥ usable
    · rw [if_pos h1]
      have h2 := w.sendFrame ⟨ch, .body (rest.take usable)⟩ SF_MORE hs trivial (fun b hb => by cases hb; rw [List.length_take]; omega)
      revert h2
      cases Rmq.sendFrame E ⟨ch, .body (rest.take usable)⟩ SF_MORE TIME_INF s with
      | ok x t => exact fun h2 => ih _ h2
      | err e t => exact id
      | ub => exact id
      | fuel => exact id
    · rw [if_neg h1]
      have h2 := w.sendFrame ⟨ch, .body rest⟩ SF_NONE hs trivial (fun b hb => by cases hb; omega)
      revert h2
      cases Rmq.sendFrame E ⟨ch, .body rest⟩ SF_NONE TIME_INF s with
      | ok x t => exact fun h2 => ih _ h2
      | err e t => exact id
      | ub => exact id
      | fuel => exact id

theorem basicPublish (w : World E Q S room) (hR : room < 2 ^ 64) (ch : UInt16) (exchange routingKey : Bytes) (mandatory immediate : Int32)
    (props : Option (UInt32 × Rec)) (hp : TypedProps props) (body : Bytes) {s : Conn} (hs : Fit E Q S room s) :
    (basicPublish E ch exchange routingKey mandatory immediate props body s).Safe (Fit E Q S room) := by
  unfold Rmq.basicPublish
  dsimp only
  refine Res.Safe.bind (w.publishCheck hs) fun _ t ht => ?_
  refine Res.Safe.bind (w.sendFrame _ _ ht (publish_typed _ _ _ _) (fun b hb => by cases hb)) fun _ u hu => ?_
  refine Res.Safe.bind (w.sendFrame _ _ hu (header_typed _ hp) (fun b hb => by cases hb)) fun _ v hv => ?_
  · refine w.publishBody ch ?_ _ _ hv
    unfold usablePayload
    rw [hs.fm]
    have := w.room
    unfold HEADER_SIZE FOOTER_SIZE
    omega

/-! ### Reading messages -/

theorem allocOr (w : World E Q S room) {s : Conn} (hs : Fit E Q S room s) : (allocOr E s).Safe (Fit E Q S room) := by
  unfold Rmq.allocOr
  have := hs.smallAlloc w.alloc
  revert this
  obtain ⟨b, t⟩ := Rmq.smallAlloc E s
  cases b <;> exact id

theorem cloneProp (w : World E Q S room) (v : Val) {s : Conn} (hs : Fit E Q S room s) : (cloneProp E v s).Safe (Fit E Q S room) := by
  cases v with
  | bytes b =>
    show Res.Safe _ ((if b.length = 0 then pure (.bytes []) else do Rmq.allocOr E; pure (.bytes b) : M Conn Val) s)
    by_cases h0 : b.length = 0
    · rw [if_pos h0]; exact hs
    · rw [if_neg h0]; exact Res.Safe.bind (w.allocOr hs) fun _ t ht => ht
  | table t =>
    unfold Rmq.cloneProp
    refine Res.Safe.bind ?_ fun _ t ht => ht
    unfold withAlloc
    dsimp only
    have h1 := cloneTable_AOK E.pe.alloc 0 (storeTable t) (FV.storeEs_stored t) ⟨s.ps.allocs⟩
    revert h1
    cases cloneTable E.pe.alloc 0 (storeTable t) ⟨s.ps.allocs⟩ with
    | ok a u =>
      intro _
      exact hs.allocs (p := s.ps.pools) w.alloc u.allocs (List.Subset.refl _)
    | err a u =>
      intro _
      exact hs.allocs (p := s.ps.pools) w.alloc u.allocs (List.Subset.refl _)
    | ub => exact fun h => h.elim
    | fuel => exact fun h => h.elim
  | _ => exact hs

theorem cloneProps (w : World E Q S room) (flags : UInt32) (r : Rec) : ∀ (ps : List (Nat × Fld))
    (_ : ∀ p ∈ ps, flags &&& UInt32.ofNat (1 <<< p.1) ≠ 0 → r.get? p.2 ≠ none) {s : Conn}, Fit E Q S room s →
    (cloneProps E flags r ps s).Safe (Fit E Q S room)
  | [], _, s, hs => hs
  | (bit, f) :: ps, hp, s, hs => by
    unfold Rmq.cloneProps
    by_cases hb : flags &&& UInt32.ofNat (1 <<< bit) ≠ 0
    · rw [if_pos hb]
      cases hg : r.get? f with
      | none => exact absurd hg (hp _ List.mem_cons_self hb)
      | some v =>
        exact Res.Safe.bind (w.cloneProp v hs) fun _ t ht => Res.Safe.bind (cloneProps w flags r ps (fun p hq => hp p (List.mem_cons_of_mem _ hq)) ht) fun _ u hu => hu
    · rw [if_neg hb]; exact cloneProps w flags r ps (fun p hq => hp p (List.mem_cons_of_mem _ hq)) hs

theorem readBody (w : World E Q S room) (ch : UInt16) (len : Nat) : ∀ (n : Nat) (got : Bytes) {s : Conn}, Fit E Q S room s →
    (readBody E ch len n got s).Safe (Fit E Q S room) := by
  intro n
  induction n with
  | zero => intro got s _; trivial
  | succ n ih =>
    intro got s hs
    unfold Rmq.readBody
    by_cases hl : got.length < len
    · rw [if_pos hl]
      have h1 := w.waitFrameOn ch hs
      revert h1
      cases Rmq.waitFrameOn E ch s with
      | err e t => exact fun h1 => h1
      | ub => exact fun h1 => h1
      | fuel => exact fun h1 => h1
      | ok f t =>
        rintro ⟨h1, h2⟩
        dsimp only
        cases f.frame.payload <;> dsimp only
        case body b =>
          by_cases hb : got.length + b.length > len
          · rw [if_pos hb]; exact h1
          · rw [if_neg hb]; exact ih _ h1
        case method id args => by_cases hc : isClose id = true <;> simp only [hc, if_true, if_false] <;> exact h1
        all_goals exact h1
    · rw [if_neg hl]; exact hs

theorem readContent (w : World E Q S room) (ch : UInt16) (size : UInt64) (flags : UInt32) (r : Rec)
    (hp : PropsOK (fun _ _ => True) flags r basicProps) {s : Conn} (hs : Fit E Q S room s) :
    (readContent E ch size flags r s).Safe (Fit E Q S room) := by
  unfold Rmq.readContent
  have h1 := w.cloneProps flags r clonedProps (cloned_present hp) hs
  revert h1
  cases Rmq.cloneProps E flags r clonedProps s with
  | err e t => exact fun h1 => h1
  | ub => exact fun h1 => h1
  | fuel => exact fun h1 => h1
  | ok props t =>
    intro h1
    dsimp only
    have h2 : (if size.toNat = 0 then .ok () t else Rmq.allocOr E t : Res Conn Unit).Safe (Fit E Q S room) := by
      by_cases h0 : size.toNat = 0
      · rw [if_pos h0]; exact h1
      · rw [if_neg h0]; exact w.allocOr h1
    revert h2
    cases (if size.toNat = 0 then .ok () t else Rmq.allocOr E t : Res Conn Unit) with
    | err e t => exact fun h1 => h1
    | ub => exact fun h1 => h1
    | fuel => exact fun h1 => h1
    | ok x u =>
      intro h2
      dsimp only
      have h3 := w.readBody ch size.toNat E.fuel [] h2
      revert h3
      cases Rmq.readBody E ch size.toNat E.fuel [] u with
      | err e t => exact fun h1 => h1
      | ub => exact fun h1 => h1
      | fuel => exact fun h1 => h1
      | ok x v => cases x <;> exact fun h1 => h1

theorem putBackThen (w : World E Q S room) {α : Type} {f : DFrame} {s : Conn} (hf : Dig f) (hs : Fit E Q S room s) (a : α) :
    (match Rmq.putBackIgnored E f s with
      | .ok () s => .ok a s
      | .err e s => .err e s
      | .ub => .ub
      | .fuel => .fuel : Res Conn α).Safe (Fit E Q S room) := by
  unfold Rmq.putBackIgnored
  have h1 := hs.putBackFrame w.alloc hf
  revert h1
  cases Rmq.putBackFrame E f s <;> exact id

theorem readMessage (w : World E Q S room) (ch : UInt16) {s : Conn} (hs : Fit E Q S room s) : (readMessage E ch s).Safe (Fit E Q S room) := by
  unfold Rmq.readMessage
  have h1 := w.waitFrameOn ch hs
  revert h1
  cases Rmq.waitFrameOn E ch s with
  | err e t => exact fun h1 => h1
  | ub => exact fun h1 => h1
  | fuel => exact fun h1 => h1
  | ok f t =>
    rintro ⟨h1, h2⟩
    dsimp only
    cases hp : f.frame.payload <;> dsimp only
    case header cls size flags r =>
      refine w.readContent ch size flags r ?_ h1
      obtain ⟨hb, hpr⟩ := h2
      have := hb _ _ _ _ hp
      subst this
      rw [hp] at hpr
      obtain ⟨c, hc, he, hok, _⟩ := hpr
      have hcb := basic_class hc he
      rw [hcb] at hok
      exact hok
    case method id args =>
      by_cases hc : isClose id = true
      · rw [if_pos hc]; exact h1
      · rw [if_neg hc]; exact w.putBackThen h2 h1 _
    all_goals exact w.putBackThen h2 h1 _

theorem mallocDup (w : World E Q S room) (b : Bytes) {s : Conn} (hs : Fit E Q S room s) : Fit E Q S room (mallocDup E b s).2 := hs.smallAlloc w.alloc

theorem takeDelivery (w : World E Q S room) (ch : UInt16) (r : Rec) (hr : Proper (.method BASIC_DELIVER r)) {s : Conn} (hs : Fit E Q S room s) :
    (takeDelivery E ch r s).Safe (Fit E Q S room) := by
  obtain ⟨tag, dt, red, ex, rk, g1, g2, g3, g4, g5⟩ := deliver_fields hr
  unfold Rmq.takeDelivery
  rw [g1, g2, g3, g4, g5]
  dsimp only
  have h1 := w.mallocDup tag hs
  revert h1
  obtain ⟨a, t⟩ := Rmq.mallocDup E tag s
  intro h1
  dsimp only at h1 ⊢
  have h2 := w.mallocDup ex h1
  revert h2
  obtain ⟨b, u⟩ := Rmq.mallocDup E ex t
  intro h2
  dsimp only at h2 ⊢
  have h3 := w.mallocDup rk h2
  revert h3
  obtain ⟨c, v⟩ := Rmq.mallocDup E rk u
  intro h3
  dsimp only at h3 ⊢
  by_cases hc : (a && b && c) = true
  · rw [if_pos hc]
    have h4 := w.readMessage ch h3
    revert h4
    cases Rmq.readMessage E ch v with
    | ok x w => cases x <;> exact fun h4 => h4
    | err e w => exact fun h4 => h4
    | ub => exact fun h4 => h4
    | fuel => exact fun h4 => h4
  · rw [if_neg hc]; exact h3

theorem consumeMessage (w : World E Q S room) (tv : Option TimeVal) {s : Conn} (hs : Fit E Q S room s) : (consumeMessage E tv s).Safe (Fit E Q S room) := by
  unfold Rmq.consumeMessage
  have h1 := w.waitFrame tv hs
  revert h1
  cases Rmq.waitFrame E tv s with
  | err e t => exact fun h1 => h1
  | ub => exact fun h1 => h1
  | fuel => exact fun h1 => h1
  | ok f t =>
    rintro ⟨h1, h2⟩
    dsimp only
    cases hp : f.frame.payload <;> dsimp only
    case method id args =>
      by_cases hc : id = BASIC_DELIVER
      · rw [if_pos hc]
        subst hc
        exact w.takeDelivery _ _ (by rw [← hp]; exact h2.2) h1
      · rw [if_neg hc]; exact w.putBackThen h2 h1 _
    all_goals exact w.putBackThen h2 h1 _

theorem confirmWait (w : World E Q S room) (tv : Option TimeVal) {s : Conn} (hs : Fit E Q S room s) : (confirmWait E tv s).Safe (Fit E Q S room) := by
  unfold Rmq.confirmWait
  have h1 := w.waitFrame tv hs
  revert h1
  cases Rmq.waitFrame E tv s with
  | err e t => exact fun h1 => h1
  | ub => exact fun h1 => h1
  | fuel => exact fun h1 => h1
  | ok f t =>
    rintro ⟨h1, h2⟩
    dsimp only
    cases f.frame.payload <;> dsimp only
    case method id args =>
      by_cases hc : id ≠ BASIC_ACK ∧ id ≠ BASIC_NACK ∧ id ≠ BASIC_REJECT
      · rw [if_pos hc]; exact w.putBackThen h2 h1 _
      · rw [if_neg hc]; exact h1
    all_goals exact w.putBackThen h2 h1 _

end World

theorem ended_safe {α : Type} {I : Conn → Prop} {r : Res Conn α} (h : r.Safe I) : (ended r).Safe I := by
  cases r <;> exact h

theorem ApiCall.safe (w : World E Q S room) (hR : room < 2 ^ 64) (c : ApiCall) (hc : c.legal room) {s : Conn} (hs : Fit E Q S room s) :
    (c.run E s).Safe (Fit E Q S room) := by
  cases c with
  | waitFrame tv => exact ended_safe (w.waitFrame tv hs).safe
  | waitFrameOn ch => exact ended_safe (w.waitFrameOn ch hs).safe
  | waitMethod ch id => exact ended_safe (w.waitMethodList ch [id] TIME_INF hs)
  | sendFrame f fl => exact ended_safe (w.sendFrame f fl hs hc.1 hc.2)
  | simpleRpc ch id ex args => exact ended_safe (w.simpleRpc ch id ex args hs hc)
  | sendHeader => exact ended_safe (World.sendHeaderInner _ hs)
  | readMessage ch => exact ended_safe (w.readMessage ch hs)
  | consumeMessage tv => exact ended_safe (w.consumeMessage tv hs)
  | confirmWait tv => exact ended_safe (w.confirmWait tv hs)
  | publish ch ex rk m i p b =>
    exact ended_safe (w.basicPublish hR ch ex rk m i p (by cases p <;> first | trivial | exact hc) b hs)
  | maybeRelease => exact hs.maybeRelease
  | maybeReleaseOn ch => exact hs.release ch
  | close => exact hs.close

theorem perform_safe (w : World E Q S room) (hR : room < 2 ^ 64) : ∀ (cs : List ApiCall), (∀ c ∈ cs, c.legal room) → ∀ {s : Conn}, Fit E Q S room s →
    (perform E cs s).Safe (Fit E Q S room)
  | [], _, s, hs => hs
  | c :: cs, hc, s, hs => by
    unfold perform
    have h1 := c.safe w hR (hc c List.mem_cons_self) hs
    revert h1
    cases c.run E s with
    | ok a t => exact fun h1 => perform_safe w hR cs (fun d hd => hc d (List.mem_cons_of_mem _ hd)) h1
    | err e t => exact fun h1 => perform_safe w hR cs (fun d hd => hc d (List.mem_cons_of_mem _ hd)) h1
    | ub => exact id
    | fuel => exact id

end Rmq
