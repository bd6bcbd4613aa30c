import Verif.Spec.Ends
import Verif.Spec.History
import Verif.Proofs.EndsCalls
/-!
# A closed connection asks nothing of the network

What the network would answer makes no difference to a connection that is closed.
-/
namespace Rmq

/-- The same clock and allocator, behind a network that fails at once whatever is asked of it. -/
abbrev NetEnv.deaf (E : NetEnv) : NetEnv := { E with recv := fun _ _ => .fail 6, send := fun _ _ => .fail 6, poll := fun _ => .error }

abbrev Shut (s : Conn) : Prop := s.isOpen = false

theorem deaf_bind {α β : Type} {x x' : M Conn α} {f f' : α → M Conn β} {s : Conn} (hx : x' s = x s) (ha : (x s).All Shut)
    (hf : ∀ a t, Shut t → f' a t = f a t) : (x' >>= f') s = (x >>= f) s := by
  rw [M.bind_def, M.bind_def, hx]
  cases h : x s with
  | ok a t => rw [h] at ha; exact hf a t ha
  | err e t => rfl
  | ub => rfl
  | fuel => rfl

variable {E : NetEnv}

theorem fromNowIO_shut (tv : Option TimeVal) {s : Conn} (h : Shut s) : (fromNowIO E tv s).All Shut := by
  have h1 := fromNowIO_quiet E tv s
  revert h1
  cases fromNowIO E tv s with
  | ok a t => rintro ⟨l, rfl, _⟩; exact h
  | err e t => rintro ⟨l, rfl, _⟩; exact h
  | ub => exact fun _ => trivial
  | fuel => exact fun _ => trivial

theorem trySend_deaf (dl fl len n : Nat) (left : Bytes) {s : Conn} (h : Shut s) :
    trySend E.deaf dl fl len n left s = trySend E dl fl len n left s := by
  cases n with
  | zero => rfl
  | succ n => rw [trySend_shut dl fl len n left h, trySend_shut dl fl len n left h]

theorem recvWithTimeout_deaf (to n : Nat) {s : Conn} (h : Shut s) : recvWithTimeout E.deaf to n s = recvWithTimeout E to n s := by
  cases n with
  | zero => rfl
  | succ n =>
    unfold recvWithTimeout
    rw [if_pos h, if_pos h]

theorem drainToQueue_deaf : ∀ (n : Nat) (s : Conn), drainToQueue E.deaf n s = drainToQueue E n s := by
  intro n
  induction n with
  | zero => intro s; rfl
  | succ n ih =>
    intro s
    unfold drainToQueue
    split
    · rfl
    · have h1 : consumeOne E.deaf s = consumeOne E s := rfl
      rw [h1]
      cases consumeOne E s with
      | err e t => rfl
      | ub => rfl
      | fuel => rfl
      | ok f t =>
        cases f with
        | none => exact ih _
        | some f =>
          dsimp only
          have h2 : queueFrame E.deaf f t = queueFrame E f t := rfl
          rw [h2]
          cases queueFrame E f t with
          | ok a u => exact ih _
          | err e u => rfl
          | ub => rfl
          | fuel => rfl

theorem tryRecv_deaf {s : Conn} (h : Shut s) : tryRecv E.deaf s = tryRecv E s := by
  unfold tryRecv
  exact deaf_bind (drainToQueue_deaf _ s) ((shut_closed E).drainToQueue _ h) fun _ t ht =>
    deaf_bind (x' := fromNowIO E.deaf (some ⟨0, 0⟩)) rfl (fromNowIO_shut _ ht) fun to u hu => recvWithTimeout_deaf to _ hu

theorem sendLoop_deaf (fl dl n : Nat) (enc : Bytes) {s : Conn} (h : Shut s) : sendLoop E.deaf fl dl n enc s = sendLoop E fl dl n enc s := by
  cases n with
  | zero => rfl
  | succ n =>
    unfold sendLoop
    dsimp only
    cases hf : E.fuel with
    | zero => rfl
    | succ k => rw [trySend_shut _ fl _ k enc h, trySend_shut _ fl _ k enc h]

theorem sendFrame_deaf (f : AFrame) (fl dl : Nat) {s : Conn} (h : Shut s) : sendFrame E.deaf f fl dl s = sendFrame E f fl dl s := by
  unfold sendFrame
  show (match frameToBytes E.pe.be s.outMem s.outLen f with
    | .ok enc mem => sendLoop E.deaf fl dl E.fuel enc { s with outMem := mem }
    | .err e mem => .err e { s with outMem := mem }
    | .ub => .ub
    | .fuel => .fuel : Res Conn Unit) = _
  cases frameToBytes E.pe.be s.outMem s.outLen f with
  | ok enc mem => exact sendLoop_deaf fl dl _ enc (s := { s with outMem := mem }) h
  | err e mem => rfl
  | ub => rfl
  | fuel => rfl

theorem hasPastIO_shut (d : Nat) {s : Conn} (h : Shut s) : Shut (hasPastIO E d s).2 := by
  obtain ⟨l, h1, _⟩ := hasPastIO_ext E d s
  rw [h1]; exact h

theorem beginRecv_deaf (d : Nat) {s : Conn} (hs : Shut s) : beginRecv E.deaf d s = beginRecv E d s := by
  unfold beginRecv
  have h1 : hasPastIO E.deaf s.nextSend s = hasPastIO E s.nextSend s := rfl
  rw [h1]
  have h2 := hasPastIO_shut (E := E) s.nextSend hs
  revert h2
  obtain ⟨res, t⟩ := hasPastIO E s.nextSend s
  intro h2
  dsimp only at h2 ⊢
  split
  · rfl
  · have h3 : (if res = St.TIMEOUT then sendFrame E.deaf ⟨0, .heartbeat⟩ SF_NONE TIME_INF t else .ok () t) =
        (if res = St.TIMEOUT then sendFrame E ⟨0, .heartbeat⟩ SF_NONE TIME_INF t else .ok () t) := by
      split
      · exact sendFrame_deaf _ _ _ h2
      · rfl
    have h4 : (if res = St.TIMEOUT then sendFrame E ⟨0, .heartbeat⟩ SF_NONE TIME_INF t else .ok () t).All Shut := by
      split
      · exact (shut_closed E).sendFrame _ _ _ h2
      · exact h2
    rw [h3]
    revert h4
    cases (if res = St.TIMEOUT then sendFrame E ⟨0, .heartbeat⟩ SF_NONE TIME_INF t else .ok () t) with
    | err e u => exact fun _ => rfl
    | ub => exact fun _ => rfl
    | fuel => exact fun _ => rfl
    | ok a u =>
      intro h4
      dsimp only
      have h5 : Shut u := h4
      rw [recvWithTimeout_deaf _ _ h5]
      rfl

theorem waitInner_deaf (d : Nat) : ∀ (n : Nat) (b : Bool) {s : Conn}, Shut s → waitInner E.deaf d n b s = waitInner E d n b s := by
  intro n
  induction n with
  | zero => intro b s _; rfl
  | succ n ih =>
    intro b s hs
    unfold waitInner
    by_cases hb : b = false ∧ s.inb ≠ []
    · rw [if_pos hb, if_pos hb]
      have h1 : consumeOne E.deaf s = consumeOne E s := rfl
      rw [h1]
      cases hc : consumeOne E s with
      | err e t => rfl
      | ub => rfl
      | fuel => rfl
      | ok f t =>
        have ht := ((shut_closed E).consume hs hc).1
        cases f with
        | none => exact ih _ ht
        | some f =>
          dsimp only
          have h2 := ih false ((shut_closed E).release 0 ht)
          cases f.frame.payload with
          | heartbeat => exact h2
          | _ => rfl
    · rw [if_neg hb, if_neg hb]
      have h1 := (shut_closed E).beginRecv d hs
      rw [beginRecv_deaf d hs]
      revert h1
      cases beginRecv E d s with
      | err e t => exact fun _ => rfl
      | ub => exact fun _ => rfl
      | fuel => exact fun _ => rfl
      | ok a t => exact fun h1 => ih _ h1

theorem waitFrameInner_deaf (d : Nat) {s : Conn} (hs : Shut s) : waitFrameInner E.deaf d s = waitFrameInner E d s := waitInner_deaf d _ _ hs

theorem waitFrame_deaf (tv : Option TimeVal) {s : Conn} (hs : Shut s) : waitFrame E.deaf tv s = waitFrame E tv s := by
  unfold waitFrame
  refine deaf_bind (x' := fromNowIO E.deaf tv) rfl (fromNowIO_shut _ hs) fun d t ht => ?_
  cases t.queue with
  | nil => exact waitFrameInner_deaf d ht
  | cons f rest => rfl

theorem waitOnLoop_deaf (ch : UInt16) : ∀ (n : Nat) {s : Conn}, Shut s → waitOnLoop E.deaf ch n s = waitOnLoop E ch n s := by
  intro n
  induction n with
  | zero => intro s _; rfl
  | succ n ih =>
    intro s hs
    unfold waitOnLoop
    have h1 := ((shut_closed E).waitFrameInner TIME_INF hs)
    rw [waitFrameInner_deaf TIME_INF hs]
    revert h1
    cases waitFrameInner E TIME_INF s with
    | err e t => exact fun _ => rfl
    | ub => exact fun _ => rfl
    | fuel => exact fun _ => rfl
    | ok f t =>
      intro h1
      dsimp only
      split
      · rfl
      · have h2 : queueFrame E.deaf f t = queueFrame E f t := rfl
        rw [h2]
        have h3 := (shut_closed E).queue (f := f) trivial h1.1
        revert h3
        cases queueFrame E f t with
        | ok a u => exact fun h3 => ih h3
        | err e u => exact fun _ => rfl
        | ub => exact fun _ => rfl
        | fuel => exact fun _ => rfl

theorem waitFrameOn_deaf (ch : UInt16) {s : Conn} (hs : Shut s) : waitFrameOn E.deaf ch s = waitFrameOn E ch s := by
  unfold waitFrameOn
  cases findQueued ch s.queue with
  | none => exact waitOnLoop_deaf ch _ hs
  | some p => rfl

theorem tvUntilIO_shut (d : Nat) {s : Conn} (h : Shut s) : (tvUntilIO E d s).All Shut := by
  have h1 := tvUntilIO_quiet E d s
  revert h1
  cases tvUntilIO E d s with
  | ok a t => rintro ⟨l, rfl, _⟩; exact h
  | err e t => rintro ⟨l, rfl, _⟩; exact h
  | ub => exact fun _ => trivial
  | fuel => exact fun _ => trivial

theorem waitMethodList_deaf (ch : UInt16) (ex : List UInt32) (d : Nat) {s : Conn} (hs : Shut s) :
    waitMethodList E.deaf ch ex d s = waitMethodList E ch ex d s := by
  unfold waitMethodList
  exact deaf_bind (x' := tvUntilIO E.deaf d) rfl (tvUntilIO_shut d hs) fun tv t ht =>
    deaf_bind (waitFrame_deaf tv ht) ((shut_closed E).upper.waitFrame tv ht).all fun f u _ => rfl

theorem simpleRpc_deaf (ch : UInt16) (id : UInt32) (ex : List UInt32) (args : Rec) {s : Conn} (hs : Shut s) :
    simpleRpc E.deaf ch id ex args s = simpleRpc E ch id ex args s := by
  unfold simpleRpc
  have h1 : fromNowIO E.deaf (getRpcTimeout s.timeouts) s = fromNowIO E (getRpcTimeout s.timeouts) s := rfl
  rw [h1]
  have h2 := fromNowIO_shut (E := E) (getRpcTimeout s.timeouts) hs
  revert h2
  cases fromNowIO E (getRpcTimeout s.timeouts) s with
  | err e t => exact fun _ => rfl
  | ub => exact fun _ => rfl
  | fuel => exact fun _ => rfl
  | ok d t =>
    intro h2
    have h2 : Shut t := h2
    show rpcInner E.deaf ch id ex args d t = rpcInner E ch id ex args d t
    unfold rpcInner sendMethod
    rw [sendFrame_deaf ⟨ch, .method id args⟩ SF_NONE TIME_INF h2]
    cases hf : sendFrame E ⟨ch, .method id args⟩ SF_NONE TIME_INF t with
    | ok a u => exact absurd hf (sendFrame_shut _ _ _ h2)
    | err e u => rfl
    | ub => rfl
    | fuel => rfl

theorem sendHeaderInner_deaf (d : Nat) {s : Conn} (hs : Shut s) : sendHeaderInner E.deaf d s = sendHeaderInner E d s := by
  unfold sendHeaderInner
  rw [trySend_deaf d SF_NONE 8 _ protocolHeaderBytes hs]

theorem publishCheck_deaf {s : Conn} (hs : Shut s) : publishCheck E.deaf s = publishCheck E s := by
  unfold publishCheck
  have h1 : hasPastIO E.deaf s.nextRecv s = hasPastIO E s.nextRecv s := rfl
  rw [h1]
  have h2 := hasPastIO_shut (E := E) s.nextRecv hs
  revert h2
  obtain ⟨res, t⟩ := hasPastIO E s.nextRecv s
  intro h2
  dsimp only at h2 ⊢
  split
  · rfl
  · split
    · rw [tryRecv_deaf h2]
    · rfl

theorem basicPublish_deaf (ch : UInt16) (ex rk : Bytes) (mand imm : Int32) (p : Option (UInt32 × Rec)) (body : Bytes)
    {s : Conn} (hs : Shut s) : basicPublish E.deaf ch ex rk mand imm p body s = basicPublish E ch ex rk mand imm p body s := by
  unfold basicPublish sendMethod
  refine deaf_bind (publishCheck_deaf hs) ((shut_login E).publishCheck hs) fun _ t ht => ?_
  rw [M.bind_def, M.bind_def, sendFrame_deaf _ _ _ ht]
  cases hf : sendFrame E ⟨ch, .method BASIC_PUBLISH (publishArgs ex rk mand imm)⟩ SF_MORE TIME_INF t with
  | ok a u => exact absurd hf (sendFrame_shut _ _ _ ht)
  | err e u => rfl
  | ub => rfl
  | fuel => rfl

theorem readBody_deaf (ch : UInt16) (len : Nat) : ∀ (n : Nat) (got : Bytes) {s : Conn}, Shut s →
    readBody E.deaf ch len n got s = readBody E ch len n got s := by
  intro n
  induction n with
  | zero => intro got s _; rfl
  | succ n ih =>
    intro got s hs
    unfold readBody
    split
    · have h1 := (shut_closed E).upper.waitFrameOn ch hs
      rw [waitFrameOn_deaf ch hs]
      revert h1
      cases waitFrameOn E ch s with
      | err e t => exact fun _ => rfl
      | ub => exact fun _ => rfl
      | fuel => exact fun _ => rfl
      | ok f t =>
        intro h1
        dsimp only
        cases f.frame.payload with
        | body b =>
          dsimp only
          split
          · rfl
          · exact ih _ h1.1
        | _ => rfl
    · rfl

theorem cloneProps_deaf (flags : UInt32) (r : Rec) : ∀ ps, cloneProps E.deaf flags r ps = cloneProps E flags r ps
  | [] => rfl
  | (bit, f) :: ps => by
    unfold cloneProps
    rw [cloneProps_deaf flags r ps]
    rfl

theorem readContent_deaf (ch : UInt16) (size : UInt64) (flags : UInt32) (r : Rec) {s : Conn} (hs : Shut s) :
    readContent E.deaf ch size flags r s = readContent E ch size flags r s := by
  unfold readContent
  have h0 : cloneProps E.deaf flags r clonedProps = cloneProps E flags r clonedProps := cloneProps_deaf flags r clonedProps
  rw [h0]
  have h2 := (shut_login E).cloneProps flags r clonedProps hs
  revert h2
  cases cloneProps E flags r clonedProps s with
  | err e t => exact fun _ => rfl
  | ub => exact fun _ => rfl
  | fuel => exact fun _ => rfl
  | ok props t =>
    intro h2
    have h1 : allocOr E.deaf t = allocOr E t := rfl
    dsimp only
    rw [h1]
    have h3 : (if size.toNat = 0 then .ok () t else allocOr E t).All Shut := by
      split
      · exact h2
      · exact (shut_login E).allocOr h2
    revert h3
    cases (if size.toNat = 0 then .ok () t else allocOr E t) with
    | err e u => exact fun _ => rfl
    | ub => exact fun _ => rfl
    | fuel => exact fun _ => rfl
    | ok x u =>
      intro h3
      have h3 : Shut u := h3
      dsimp only
      rw [readBody_deaf ch size.toNat _ [] h3]

theorem readMessage_deaf (ch : UInt16) {s : Conn} (hs : Shut s) : readMessage E.deaf ch s = readMessage E ch s := by
  unfold readMessage
  have h1 := (shut_closed E).upper.waitFrameOn ch hs
  rw [waitFrameOn_deaf ch hs]
  revert h1
  cases waitFrameOn E ch s with
  | err e t => exact fun _ => rfl
  | ub => exact fun _ => rfl
  | fuel => exact fun _ => rfl
  | ok f t =>
    intro h1
    dsimp only
    cases f.frame.payload with
    | header c size flags r => exact readContent_deaf ch size flags r h1.1
    | _ => rfl

theorem takeDelivery_deaf (ch : UInt16) (r : Rec) {s : Conn} (hs : Shut s) : takeDelivery E.deaf ch r s = takeDelivery E ch r s := by
  unfold takeDelivery
  split
  · unfold mallocDup smallAlloc
    dsimp only
    split
    · rw [readMessage_deaf ch (s := { s with ps := { s.ps with allocs := s.ps.allocs + 1 + 1 + 1 } }) hs]
    · rfl
  · rfl

theorem consumeMessage_deaf (tv : Option TimeVal) {s : Conn} (hs : Shut s) : consumeMessage E.deaf tv s = consumeMessage E tv s := by
  unfold consumeMessage
  have h1 := (shut_closed E).upper.waitFrame tv hs
  rw [waitFrame_deaf tv hs]
  revert h1
  cases waitFrame E tv s with
  | err e t => exact fun _ => rfl
  | ub => exact fun _ => rfl
  | fuel => exact fun _ => rfl
  | ok f t =>
    intro h1
    dsimp only
    cases f.frame.payload with
    | method id r =>
      dsimp only
      split
      · exact takeDelivery_deaf _ r h1.1
      · rfl
    | _ => rfl

theorem confirmWait_deaf (tv : Option TimeVal) {s : Conn} (hs : Shut s) : confirmWait E.deaf tv s = confirmWait E tv s := by
  unfold confirmWait
  rw [waitFrame_deaf tv hs]
  rfl

theorem ApiCall.run_deaf (c : ApiCall) {s : Conn} (hs : Shut s) : c.run E.deaf s = c.run E s := by
  cases c with
  | waitFrame tv => exact congrArg ended (waitFrame_deaf tv hs)
  | waitFrameOn ch => exact congrArg ended (waitFrameOn_deaf ch hs)
  | waitMethod ch id => exact congrArg ended (waitMethodList_deaf ch [id] TIME_INF hs)
  | sendFrame f fl => exact congrArg ended (sendFrame_deaf f fl TIME_INF hs)
  | simpleRpc ch id ex args => exact congrArg ended (simpleRpc_deaf ch id ex args hs)
  | sendHeader => exact congrArg ended (sendHeaderInner_deaf TIME_INF hs)
  | readMessage ch => exact congrArg ended (readMessage_deaf ch hs)
  | consumeMessage tv => exact congrArg ended (consumeMessage_deaf tv hs)
  | confirmWait tv => exact congrArg ended (confirmWait_deaf tv hs)
  | publish ch ex rk mand imm p b => exact congrArg ended (basicPublish_deaf ch ex rk mand imm p b hs)
  | maybeRelease => rfl
  | maybeReleaseOn ch => rfl
  | close => rfl

theorem ended_all {α : Type} {I : Conn → Prop} {r : Res Conn α} (h : r.All I) : (ended r).All I := by
  cases r <;> exact h

theorem ApiClosed.run {I : Conn → Prop} {J : Conn → DFrame → Prop} (h : ApiClosed E I J) (c : ApiCall) {s : Conn} (hs : I s) : (c.run E s).All I := by
  cases c with
  | waitFrame tv => exact ended_all (h.waitFrame tv hs).all
  | waitFrameOn ch => exact ended_all (h.waitFrameOn ch hs).all
  | waitMethod ch id => exact ended_all (h.waitMethodList ch [id] TIME_INF hs)
  | sendFrame f fl => exact ended_all (h.sendFrame f fl _ (Nat.le_refl _) hs)
  | simpleRpc ch id ex args => exact ended_all (h.simpleRpc ch id ex args hs)
  | sendHeader => exact ended_all (h.sendHeaderInner _ hs)
  | readMessage ch => exact ended_all (h.readMessage ch hs)
  | consumeMessage tv => exact ended_all (h.consumeMessage tv hs)
  | confirmWait tv => exact ended_all (h.confirmWait tv hs)
  | publish ch ex rk m i p b => exact ended_all (h.basicPublish ch ex rk m i p b hs)
  | maybeRelease => exact h.maybeRelease hs
  | maybeReleaseOn ch => exact h.release ch hs
  | close => exact h.close hs

theorem perform_deaf : ∀ (calls : List ApiCall) {s : Conn}, Shut s → perform E.deaf calls s = perform E calls s
  | [], s, _ => rfl
  | c :: cs, s, hs => by
    unfold perform
    rw [c.run_deaf hs]
    have h1 := (shut_login E).toApiClosed.run c hs
    revert h1
    cases c.run E s with
    | ok a t => exact fun h1 => perform_deaf cs h1
    | err e t => exact fun h1 => perform_deaf cs h1
    | ub => exact fun _ => rfl
    | fuel => exact fun _ => rfl

theorem deaf_lost (E : NetEnv) : LostFrom E.deaf 0 := by
  have h : Permanent 6 := by unfold Permanent; decide
  exact ⟨fun _ _ _ => ⟨6, rfl, h⟩, fun _ _ _ => ⟨6, rfl, h⟩, fun _ _ h => nomatch h⟩

/-! ### Nothing is asked of the network -/

/-- Closed, and nothing was asked of the network since `s0`. -/
def Inert (s0 s : Conn) : Prop := Shut s ∧ ∃ l, Since s0 s l ∧ ∀ e ∈ l, e.network = false

theorem Inert.refl {s : Conn} (h : Shut s) : Inert s s := ⟨h, [], by simp [Since], by simp⟩

theorem Inert.step {s0 s t : Conn} {l : List Ev} (h : Inert s0 s) (ho : t.isOpen = s.isOpen) (hl : t.log = s.log ++ l)
    (hn : ∀ e ∈ l, e.network = false) : Inert s0 t := by
  obtain ⟨h1, l0, h2, h3⟩ := h
  refine ⟨ho.trans h1, l0 ++ l, ?_, fun e he => ?_⟩
  · unfold Since at *
    rw [hl, h2, List.append_assoc]
  · rcases List.mem_append.1 he with he | he
    · exact h3 e he
    · exact hn e he

theorem Inert.same {s0 s t : Conn} (h : Inert s0 s) (ho : t.isOpen = s.isOpen) (hl : t.log = s.log) : Inert s0 t :=
  h.step (l := []) ho (by rw [hl, List.append_nil]) (fun _ h => nomatch h)

theorem Inert.tick {s0 s t : Conn} (h : Inert s0 s) (ht : Tick s t) : Inert s0 t := by
  rcases ht with rfl | ⟨now, rfl⟩
  · exact h
  · exact h.step (l := [.clock now]) rfl rfl (by simp [Ev.network])

theorem Inert.release {s0 s : Conn} (ch : UInt16) (h : Inert s0 s) : Inert s0 (maybeReleaseOn ch s) := by
  obtain ⟨l, h1, h2⟩ := maybeReleaseOn_ext ch s
  rw [h1]
  refine h.step (l := l) rfl rfl fun e he => ?_
  rcases h2 with rfl | rfl
  · cases he
  · simp at he; subst he; rfl

theorem trySend_inert {s0 : Conn} (dl fl len n : Nat) (left : Bytes) {s : Conn} (h : Inert s0 s) : (trySend E dl fl len n left s).All (Inert s0) := by
  cases n with
  | zero => trivial
  | succ n => rw [trySend_shut dl fl len n left h.1]; exact h

theorem sendFrame_inert {s0 : Conn} (f : AFrame) (fl dl : Nat) {s : Conn} (h : Inert s0 s) : (sendFrame E f fl dl s).All (Inert s0) := by
  unfold sendFrame
  cases frameToBytes E.pe.be s.outMem s.outLen f with
  | err e mem => exact h.same rfl rfl
  | ub => trivial
  | fuel => trivial
  | ok enc mem =>
    dsimp only
    cases E.fuel with
    | zero => trivial
    | succ n =>
      unfold sendLoop
      dsimp only
      cases hf : E.fuel with
      | zero => trivial
      | succ k =>
        rw [trySend_shut _ fl _ k enc (s := { s with outMem := mem }) h.1]
        exact h.same rfl rfl

theorem recvWithTimeout_inert {s0 : Conn} (to n : Nat) {s : Conn} (h : Inert s0 s) : (recvWithTimeout E to n s).All (Inert s0) := by
  cases n with
  | zero => trivial
  | succ n => unfold recvWithTimeout; rw [if_pos h.1]; exact h

theorem consumeOne_inert {s0 s : Conn} (h : Inert s0 s) : (consumeOne E s).All (Inert s0) := by
  unfold consumeOne
  cases handleInput E.pe s.ps s.inb with
  | ok r p => exact h.step (l := [.parsed (s.inb.take r.1)]) rfl rfl (by simp [Ev.network])
  | err e p => exact h.same rfl rfl
  | ub => trivial
  | fuel => trivial

theorem queueFrame_inert {s0 s : Conn} (f : DFrame) (h : Inert s0 s) : (queueFrame E f s).All (Inert s0) := by
  unfold queueFrame
  have hp := createLink_eff E f.frame.channel s
  revert hp
  obtain ⟨b, t⟩ := createLink E f.frame.channel s
  rintro ⟨a, p, hp⟩
  dsimp only at hp
  subst hp
  cases b <;> exact h.same rfl rfl

theorem putBackFrame_inert {s0 s : Conn} (f : DFrame) (h : Inert s0 s) : (putBackFrame E f s).All (Inert s0) := by
  unfold putBackFrame
  have hp := createLink_eff E f.frame.channel s
  revert hp
  obtain ⟨b, t⟩ := createLink E f.frame.channel s
  rintro ⟨a, p, hp⟩
  dsimp only at hp
  subst hp
  cases b <;> exact h.same rfl rfl

theorem beginRecv_inert {s0 : Conn} (d : Nat) {s : Conn} (h : Inert s0 s) : (beginRecv E d s).All (Inert s0) := by
  unfold beginRecv
  have h1 := hasPastIO_tick E s.nextSend s
  revert h1
  obtain ⟨res, t⟩ := hasPastIO E s.nextSend s
  intro h1
  have h2 : Inert s0 t := h.tick h1
  dsimp only
  split
  · exact h2
  · have h4 : (if res = St.TIMEOUT then sendFrame E ⟨0, .heartbeat⟩ SF_NONE TIME_INF t else .ok () t).All (Inert s0) := by
      split
      · exact sendFrame_inert _ _ _ h2
      · exact h2
    revert h4
    cases (if res = St.TIMEOUT then sendFrame E ⟨0, .heartbeat⟩ SF_NONE TIME_INF t else .ok () t) with
    | err e u => exact fun h => h
    | ub => exact fun _ => trivial
    | fuel => exact fun _ => trivial
    | ok a u =>
      intro h4
      dsimp only
      cases hf : E.fuel with
      | zero => trivial
      | succ n =>
        unfold recvWithTimeout
        rw [if_pos h4.1]
        dsimp only
        rw [if_neg (by decide)]
        exact h4

theorem waitInner_inert {s0 : Conn} (d : Nat) : ∀ (n : Nat) (b : Bool) {s : Conn}, Inert s0 s → (waitInner E d n b s).All (Inert s0) := by
  intro n
  induction n with
  | zero => intro b s _; trivial
  | succ n ih =>
    intro b s hs
    unfold waitInner
    by_cases hb : b = false ∧ s.inb ≠ []
    · rw [if_pos hb]
      have h1 := consumeOne_inert (E := E) hs
      revert h1
      cases consumeOne E s with
      | err e t => exact fun h => h
      | ub => exact fun _ => trivial
      | fuel => exact fun _ => trivial
      | ok f t =>
        intro h1
        have h1 : Inert s0 t := h1
        cases f with
        | none => exact ih _ h1
        | some f =>
          dsimp only
          have h2 := ih false (h1.release 0)
          cases f.frame.payload with
          | heartbeat => exact h2
          | _ => exact h1
    · rw [if_neg hb]
      have h1 := beginRecv_inert (E := E) d hs
      revert h1
      cases beginRecv E d s with
      | err e t => exact fun h => h
      | ub => exact fun _ => trivial
      | fuel => exact fun _ => trivial
      | ok a t => exact fun h1 => ih _ h1

theorem inert_upper (E : NetEnv) (s0 : Conn) : Upper E (Inert s0) (fun _ _ => True) where
  tick := fun hs ht => hs.tick ht
  wait := fun d s hs => by
    have h := waitInner_inert (E := E) d E.fuel false hs
    show (waitInner E d E.fuel false s).AllF _ _
    revert h
    cases waitInner E d E.fuel false s with
    | ok f t => exact fun h => ⟨h, trivial⟩
    | err e t => exact fun h => h
    | ub => exact fun _ => trivial
    | fuel => exact fun _ => trivial
  sendFrame := fun f fl dl _ _ hs => sendFrame_inert f fl dl hs
  header := fun dl n _ hs => trySend_inert dl _ _ n _ hs
  queue := fun _ hs => queueFrame_inert _ hs
  putBack := fun _ hs => putBackFrame_inert _ hs
  pop := fun hs _ => ⟨hs.same rfl rfl, trivial⟩
  close := fun {s} hs => by unfold sockClose; rw [if_pos hs.1]; exact hs
  release := fun ch hs => hs.release ch

theorem drainToQueue_inert {s0 : Conn} : ∀ (n : Nat) {s : Conn}, Inert s0 s → (drainToQueue E n s).All (Inert s0) := by
  intro n
  induction n with
  | zero => intro s _; trivial
  | succ n ih =>
    intro s hs
    unfold drainToQueue
    split
    · exact hs
    · have h1 := consumeOne_inert (E := E) hs
      revert h1
      cases consumeOne E s with
      | err e t => exact fun h => h
      | ub => exact fun _ => trivial
      | fuel => exact fun _ => trivial
      | ok f t =>
        intro h1
        cases f with
        | none => exact ih h1
        | some f =>
          dsimp only
          have h2 := queueFrame_inert (E := E) f h1
          revert h2
          cases queueFrame E f t with
          | ok a u => exact fun h2 => ih h2
          | err e u => exact fun h => h
          | ub => exact fun _ => trivial
          | fuel => exact fun _ => trivial

theorem sFromNowIO_inert {s0 : Conn} (secs : Int) (old : Nat) {s : Conn} (h : Inert s0 s) : Inert s0 (sFromNowIO E secs old s).2.2 := by
  have ht : Tick s (sFromNowIO E secs old s).2.2 := by
    unfold sFromNowIO
    split
    · exact Or.inl rfl
    · refine Or.inr ⟨E.clock s.time, ?_⟩
      dsimp only [readClock]
      split
      · rfl
      · split <;> rfl
  exact h.tick ht

theorem restartSend_inert {s0 s : Conn} (h : Inert s0 s) : (restartSend E s).All (Inert s0) := by
  have h1 := sFromNowIO_inert (E := E) s.heartbeat s.nextSend h
  unfold restartSend
  revert h1
  obtain ⟨st, t, s1⟩ := sFromNowIO E s.heartbeat s.nextSend s
  intro h1
  dsimp only at h1 ⊢
  split <;> exact Inert.same (s := s1) h1 rfl rfl

theorem restartRecv_inert {s0 s : Conn} (h : Inert s0 s) : (restartRecv E s).All (Inert s0) := by
  have h1 := sFromNowIO_inert (E := E) (2 * s.heartbeat) s.nextRecv h
  unfold restartRecv
  revert h1
  obtain ⟨st, t, s1⟩ := sFromNowIO E (2 * s.heartbeat) s.nextRecv s
  intro h1
  dsimp only at h1 ⊢
  split <;> exact Inert.same (s := s1) h1 rfl rfl

theorem tune_inert {s0 : Conn} (cm fm hb : Int) (mem : Nat → UInt8) {s : Conn} (h : Inert s0 s) : (tune E cm fm hb mem s).All (Inert s0) := by
  unfold tune
  split
  · trivial
  dsimp only
  have r1 := restartSend_inert (E := E) (s0 := s0) (s := { s with channelMax := cm, frameMax := fm, ps := { s.ps with frameMax := (fm % 2 ^ 64).toNat }, heartbeat := if 0 > hb then 0 else hb }) (h.same rfl rfl)
  revert r1
  cases restartSend E { s with channelMax := cm, frameMax := fm, ps := { s.ps with frameMax := (fm % 2 ^ 64).toNat }, heartbeat := if 0 > hb then 0 else hb } with
  | ub => exact fun _ => trivial
  | fuel => exact fun _ => trivial
  | err e t => exact fun h => h
  | ok x t =>
    intro r1
    have r2 := restartRecv_inert (E := E) (s0 := s0) (s := t) r1
    dsimp only
    revert r2
    cases restartRecv E t with
    | ub => exact fun _ => trivial
    | fuel => exact fun _ => trivial
    | err e t => exact fun h => h
    | ok x u =>
      intro r2
      have r2 : Inert s0 u := r2
      dsimp only [smallAlloc]
      cases E.pe.alloc _ <;> exact r2.same rfl rfl

theorem inert_login (E : NetEnv) (s0 : Conn) : LoginClosed E (Inert s0) (fun _ _ => True) where
  toUpper := inert_upper E s0
  allocs := fun _ _ h => h.same rfl rfl
  publishCheck := publishCheck_closed (inert_upper E s0) fun {s} h => by
    unfold tryRecv
    exact Res.All.bind (drainToQueue_inert _ h) fun _ t ht => Res.All.bind ((inert_upper E s0).tickAll ht (fromNowIO_tick E _ t)) fun to u hu =>
      recvWithTimeout_inert to _ hu
  tune := fun cm fm hb mem h => tune_inert cm fm hb mem h
  setServer := fun _ h => h.same rfl rfl
  setClient := fun _ _ h => h.same rfl rfl

/-! ### What fails -/

theorem beginRecv_shut (d : Nat) {s : Conn} (h : Shut s) (a : Bool) (t : Conn) : beginRecv E d s ≠ .ok a t := by
  unfold beginRecv
  have h1 := hasPastIO_shut (E := E) s.nextSend h
  revert h1
  obtain ⟨res, t⟩ := hasPastIO E s.nextSend s
  intro h1
  dsimp only at h1 ⊢
  split
  · exact fun h => nomatch h
  · by_cases hr : res = St.TIMEOUT
    · rw [if_pos hr]
      cases hf : sendFrame E ⟨0, .heartbeat⟩ SF_NONE TIME_INF t with
      | ok a u => exact absurd hf (sendFrame_shut _ _ _ h1)
      | err e u => exact fun h => nomatch h
      | ub => exact fun h => nomatch h
      | fuel => exact fun h => nomatch h
    · rw [if_neg hr]
      dsimp only
      cases hf : E.fuel with
      | zero => exact fun h => nomatch h
      | succ n =>
        unfold recvWithTimeout
        rw [if_pos h1]
        dsimp only
        rw [if_neg (by decide)]
        exact fun h => nomatch h

theorem waitFrameInner_shut (d : Nat) {s : Conn} (hs : Shut s) (hi : s.inb = []) (f : DFrame) (t : Conn) : waitFrameInner E d s ≠ .ok f t := by
  unfold waitFrameInner
  cases hf : E.fuel with
  | zero => exact fun h => nomatch h
  | succ n =>
    unfold waitInner
    rw [if_neg (by rw [hi]; simp)]
    cases hb : beginRecv E d s with
    | ok a u => exact absurd hb (beginRecv_shut d hs _ _)
    | err e u => exact fun h => nomatch h
    | ub => exact fun h => nomatch h
    | fuel => exact fun h => nomatch h

end Rmq
