import Verif.Spec.Safety
import Verif.Proofs.Finite
/-!
# The bound on the number of rounds does not matter

A run that ends within the bound is the same run with any larger bound.
-/
namespace Rmq

/-- The same network and allocator, another bound. -/
abbrev NetEnv.upto (E : NetEnv) (m : Nat) : NetEnv := { E with fuel := m }

/-- The first was cut off, or both are the same. -/
def Ref {σ α : Type} (r r' : Res σ α) : Prop := r = .fuel ∨ r' = r

theorem Ref.rfl {σ α : Type} {r : Res σ α} : Ref r r := Or.inr (Eq.refl _)
theorem Ref.fuel {σ α : Type} {r : Res σ α} : Ref .fuel r := Or.inl (Eq.refl _)

theorem Ref.bind {α β : Type} {x x' : M Conn α} {f f' : α → M Conn β} {s : Conn} (hx : Ref (x s) (x' s)) (hf : ∀ a t, Ref (f a t) (f' a t)) :
    Ref ((x >>= f) s) ((x' >>= f') s) := by
  rw [M.bind_def, M.bind_def]
  rcases hx with h | h
  · rw [h]; exact .fuel
  · rw [h]
    cases x s with
    | ok a t => exact hf a t
    | err e t => exact .rfl
    | ub => exact .rfl
    | fuel => exact .rfl

variable {E : NetEnv} {m : Nat}

theorem pollFd_ref (d : Dir) (dl : Nat) : ∀ (n n' : Nat) (s : Conn), n ≤ n' → Ref (pollFd E d dl n s) (pollFd (E.upto m) d dl n' s) := by
  intro n
  induction n with
  | zero => intro n' s _; exact .fuel
  | succ n ih =>
    intro n' s hn
    cases n' with
    | zero => omega
    | succ n' =>
      unfold pollFd
      have h1 : msUntilIO (E.upto m) dl s = msUntilIO E dl s := rfl
      rw [h1]
      obtain ⟨ms, t⟩ := msUntilIO E dl s
      dsimp only
      split
      · exact .rfl
      · cases E.poll t.time with
        | ready => exact .rfl
        | timeout => exact .rfl
        | error => exact .rfl
        | intr => exact ih n' _ (by omega)

theorem doPoll_ref (hm : E.fuel ≤ m) (res : Int) (dl : Nat) (s : Conn) : Ref (doPoll E res dl s) (doPoll (E.upto m) res dl s) := by
  unfold doPoll
  split
  · exact .rfl
  · split
    · exact pollFd_ref _ _ _ _ _ hm
    · split
      · exact pollFd_ref _ _ _ _ _ hm
      · split <;> exact .rfl

theorem trySend_ref (hm : E.fuel ≤ m) (dl fl len : Nat) : ∀ (n n' : Nat) (left : Bytes) (s : Conn), n ≤ n' →
    Ref (trySend E dl fl len n left s) (trySend (E.upto m) dl fl len n' left s) := by
  intro n
  induction n with
  | zero => intro n' left s _; exact .fuel
  | succ n ih =>
    intro n' left s hn
    cases n' with
    | zero => omega
    | succ n' =>
      unfold trySend
      have h1 : sockSend (E.upto m) left fl s = sockSend E left fl s := rfl
      rw [h1]
      obtain ⟨res, t⟩ := sockSend E left fl s
      dsimp only
      split
      · split
        · exact .rfl
        · exact ih n' _ _ (by omega)
      · rcases doPoll_ref hm res dl t with h | h
        · rw [h]; exact .fuel
        · rw [h]
          cases doPoll E res dl t with
          | ok a u => exact ih n' _ _ (by omega)
          | err e u => exact .rfl
          | ub => exact .rfl
          | fuel => exact .rfl

theorem recvWithTimeout_ref (hm : E.fuel ≤ m) (to : Nat) : ∀ (n n' : Nat) (s : Conn), n ≤ n' →
    Ref (recvWithTimeout E to n s) (recvWithTimeout (E.upto m) to n' s) := by
  intro n
  induction n with
  | zero => intro n' s _; exact .fuel
  | succ n ih =>
    intro n' s hn
    cases n' with
    | zero => omega
    | succ n' =>
      unfold recvWithTimeout
      split
      · exact .rfl
      · cases E.recv s.time s.received with
        | data b => exact .rfl
        | fail k =>
          dsimp only
          have key : ∀ (d : Dir) (t : Conn), Ref (match pollFd E d to E.fuel t with
              | .ok () s => recvWithTimeout E to n s
              | .err e s => .err e s
              | .ub => .ub
              | .fuel => .fuel : Res Conn Unit) (match pollFd (E.upto m) d to (E.upto m).fuel t with
              | .ok () s => recvWithTimeout (E.upto m) to n' s
              | .err e s => .err e s
              | .ub => .ub
              | .fuel => .fuel : Res Conn Unit) := by
            intro d t
            rcases pollFd_ref (E := E) (m := m) d to E.fuel (E.upto m).fuel t hm with h | h
            · rw [h]; exact .fuel
            · rw [h]
              cases pollFd E d to E.fuel t with
              | ok a u => exact ih n' _ (by omega)
              | err e u => exact .rfl
              | ub => exact .rfl
              | fuel => exact .rfl
          split
          · exact key _ _
          · split
            · exact key _ _
            · exact .rfl

theorem drainToQueue_ref : ∀ (n n' : Nat) (s : Conn), n ≤ n' → Ref (drainToQueue E n s) (drainToQueue (E.upto m) n' s) := by
  intro n
  induction n with
  | zero => intro n' s _; exact .fuel
  | succ n ih =>
    intro n' s hn
    cases n' with
    | zero => omega
    | succ n' =>
      unfold drainToQueue
      split
      · exact .rfl
      · have h1 : consumeOne (E.upto m) s = consumeOne E s := rfl
        rw [h1]
        cases consumeOne E s with
        | err e t => exact .rfl
        | ub => exact .rfl
        | fuel => exact .rfl
        | ok f t =>
          cases f with
          | none => exact ih n' _ (by omega)
          | some f =>
            dsimp only
            have h2 : queueFrame (E.upto m) f t = queueFrame E f t := rfl
            rw [h2]
            cases queueFrame E f t with
            | ok a u => exact ih n' _ (by omega)
            | err e u => exact .rfl
            | ub => exact .rfl
            | fuel => exact .rfl

theorem tryRecv_ref (hm : E.fuel ≤ m) (s : Conn) : Ref (tryRecv E s) (tryRecv (E.upto m) s) := by
  unfold tryRecv
  exact Ref.bind (drainToQueue_ref _ _ s hm) fun _ t => Ref.bind (x' := fromNowIO (E.upto m) (some ⟨0, 0⟩)) .rfl fun to u =>
    recvWithTimeout_ref hm to _ _ u hm

theorem sendLoop_ref (hm : E.fuel ≤ m) (fl dl : Nat) : ∀ (n n' : Nat) (enc : Bytes) (s : Conn), n ≤ n' →
    Ref (sendLoop E fl dl n enc s) (sendLoop (E.upto m) fl dl n' enc s) := by
  intro n
  induction n with
  | zero => intro n' enc s _; exact .fuel
  | succ n ih =>
    intro n' enc s hn
    cases n' with
    | zero => omega
    | succ n' =>
      unfold sendLoop
      dsimp only
      rcases trySend_ref (E := E) (m := m) hm (timeFirst dl s.nextRecv) fl enc.length E.fuel (E.upto m).fuel enc s hm with h | h
      · rw [h]; exact .fuel
      · rw [h]
        cases trySend E (timeFirst dl s.nextRecv) fl enc.length E.fuel enc s with
        | err e t => exact .rfl
        | ub => exact .rfl
        | fuel => exact .rfl
        | ok k t =>
          dsimp only
          split
          · split
            · exact .rfl
            · rcases tryRecv_ref hm t with h | h
              · rw [h]; exact .fuel
              · rw [h]
                cases tryRecv E t with
                | ok a u => exact ih n' _ _ (by omega)
                | err e u => exact .rfl
                | ub => exact .rfl
                | fuel => exact .rfl
          · exact .rfl

theorem sendFrame_ref (hm : E.fuel ≤ m) (f : AFrame) (fl dl : Nat) (s : Conn) :
    Ref (sendFrame E f fl dl s) (sendFrame (E.upto m) f fl dl s) := by
  unfold sendFrame
  show Ref _ (match frameToBytes E.pe.be s.outMem s.outLen f with
    | .ok enc mem => sendLoop (E.upto m) fl dl (E.upto m).fuel enc { s with outMem := mem }
    | .err e mem => .err e { s with outMem := mem }
    | .ub => .ub
    | .fuel => .fuel : Res Conn Unit)
  cases frameToBytes E.pe.be s.outMem s.outLen f with
  | ok enc mem => exact sendLoop_ref hm fl dl _ _ _ _ hm
  | err e mem => exact .rfl
  | ub => exact .rfl
  | fuel => exact .rfl

theorem sockClose_upto (s : Conn) : sockClose (E.upto m) s = sockClose E s := rfl

theorem beginRecv_ref (hm : E.fuel ≤ m) (d : Nat) (s : Conn) : Ref (beginRecv E d s) (beginRecv (E.upto m) d s) := by
  unfold beginRecv
  have h1 : hasPastIO (E.upto m) s.nextSend s = hasPastIO E s.nextSend s := rfl
  rw [h1]
  obtain ⟨res, t⟩ := hasPastIO E s.nextSend s
  dsimp only
  split
  · exact .rfl
  · have h2 : Ref (if res = St.TIMEOUT then sendFrame E ⟨0, .heartbeat⟩ SF_NONE TIME_INF t else .ok () t)
        (if res = St.TIMEOUT then sendFrame (E.upto m) ⟨0, .heartbeat⟩ SF_NONE TIME_INF t else .ok () t) := by
      split
      · exact sendFrame_ref hm _ _ _ _
      · exact .rfl
    rcases h2 with h | h
    · rw [h]; exact .fuel
    · rw [h]
      cases (if res = St.TIMEOUT then sendFrame E ⟨0, .heartbeat⟩ SF_NONE TIME_INF t else .ok () t) with
      | err e u => exact .rfl
      | ub => exact .rfl
      | fuel => exact .rfl
      | ok a u =>
        dsimp only
        rcases recvWithTimeout_ref (E := E) (m := m) hm (timeFirst d (timeFirst u.nextRecv u.nextSend)) E.fuel (E.upto m).fuel u hm with h | h
        · rw [h]; exact .fuel
        · rw [h]; exact .rfl

theorem waitInner_ref (hm : E.fuel ≤ m) (d : Nat) : ∀ (n n' : Nat) (b : Bool) (s : Conn), n ≤ n' →
    Ref (waitInner E d n b s) (waitInner (E.upto m) d n' b s) := by
  intro n
  induction n with
  | zero => intro n' b s _; exact .fuel
  | succ n ih =>
    intro n' b s hn
    cases n' with
    | zero => omega
    | succ n' =>
      unfold waitInner
      by_cases hb : b = false ∧ s.inb ≠ []
      · rw [if_pos hb, if_pos hb]
        have h1 : consumeOne (E.upto m) s = consumeOne E s := rfl
        rw [h1]
        cases consumeOne E s with
        | err e t => exact .rfl
        | ub => exact .rfl
        | fuel => exact .rfl
        | ok f t =>
          cases f with
          | none => exact ih n' _ _ (by omega)
          | some f =>
            dsimp only
            have h2 := ih n' false (maybeReleaseOn 0 t) (by omega)
            cases f.frame.payload with
            | heartbeat => exact h2
            | _ => exact .rfl
      · rw [if_neg hb, if_neg hb]
        rcases beginRecv_ref hm d s with h | h
        · rw [h]; exact .fuel
        · rw [h]
          cases beginRecv E d s with
          | err e t => exact .rfl
          | ub => exact .rfl
          | fuel => exact .rfl
          | ok a t => exact ih n' _ _ (by omega)

theorem waitFrameInner_ref (hm : E.fuel ≤ m) (d : Nat) (s : Conn) : Ref (waitFrameInner E d s) (waitFrameInner (E.upto m) d s) :=
  waitInner_ref hm d _ _ _ s hm

theorem waitFrame_ref (hm : E.fuel ≤ m) (tv : Option TimeVal) (s : Conn) : Ref (waitFrame E tv s) (waitFrame (E.upto m) tv s) := by
  unfold waitFrame
  refine Ref.bind (x' := fromNowIO (E.upto m) tv) .rfl fun d t => ?_
  cases t.queue with
  | nil => exact waitFrameInner_ref hm d t
  | cons f rest => exact .rfl

theorem waitOnLoop_ref (hm : E.fuel ≤ m) (ch : UInt16) : ∀ (n n' : Nat) (s : Conn), n ≤ n' →
    Ref (waitOnLoop E ch n s) (waitOnLoop (E.upto m) ch n' s) := by
  intro n
  induction n with
  | zero => intro n' s _; exact .fuel
  | succ n ih =>
    intro n' s hn
    cases n' with
    | zero => omega
    | succ n' =>
      unfold waitOnLoop
      rcases waitFrameInner_ref hm TIME_INF s with h | h
      · rw [h]; exact .fuel
      · rw [h]
        cases waitFrameInner E TIME_INF s with
        | err e t => exact .rfl
        | ub => exact .rfl
        | fuel => exact .rfl
        | ok f t =>
          dsimp only
          split
          · exact .rfl
          · have h2 : queueFrame (E.upto m) f t = queueFrame E f t := rfl
            rw [h2]
            cases queueFrame E f t with
            | ok a u => exact ih n' _ (by omega)
            | err e u => exact .rfl
            | ub => exact .rfl
            | fuel => exact .rfl

theorem waitFrameOn_ref (hm : E.fuel ≤ m) (ch : UInt16) (s : Conn) : Ref (waitFrameOn E ch s) (waitFrameOn (E.upto m) ch s) := by
  unfold waitFrameOn
  cases findQueued ch s.queue with
  | none => exact waitOnLoop_ref hm ch _ _ s hm
  | some p => exact .rfl

theorem waitMethodList_ref (hm : E.fuel ≤ m) (ch : UInt16) (ex : List UInt32) (d : Nat) (s : Conn) :
    Ref (waitMethodList E ch ex d s) (waitMethodList (E.upto m) ch ex d s) := by
  unfold waitMethodList
  exact Ref.bind (x' := tvUntilIO (E.upto m) d) .rfl fun tv t => Ref.bind (waitFrame_ref hm tv t) fun f u => .rfl

theorem rpcLoop_ref (hm : E.fuel ≤ m) (ch : UInt16) (ex : List UInt32) (d : Nat) : ∀ (n n' : Nat) (s : Conn), n ≤ n' →
    Ref (rpcLoop E ch ex d n s) (rpcLoop (E.upto m) ch ex d n' s) := by
  intro n
  induction n with
  | zero => intro n' s _; exact .fuel
  | succ n ih =>
    intro n' s hn
    cases n' with
    | zero => omega
    | succ n' =>
      unfold rpcLoop
      rcases waitFrameInner_ref hm d s with h | h
      · rw [h]; exact .fuel
      · rw [h]
        cases waitFrameInner E d s with
        | err e t => exact .rfl
        | ub => exact .rfl
        | fuel => exact .rfl
        | ok f t =>
          dsimp only
          split
          · exact .rfl
          · have h2 : queueFrame (E.upto m) f t = queueFrame E f t := rfl
            rw [h2]
            cases queueFrame E f t with
            | ok a u => exact ih n' _ (by omega)
            | err e u => exact .rfl
            | ub => exact .rfl
            | fuel => exact .rfl

theorem rpcInner_ref (hm : E.fuel ≤ m) (ch : UInt16) (id : UInt32) (ex : List UInt32) (args : Rec) (d : Nat) (s : Conn) :
    Ref (rpcInner E ch id ex args d s) (rpcInner (E.upto m) ch id ex args d s) := by
  unfold rpcInner sendMethod
  rcases sendFrame_ref hm ⟨ch, .method id args⟩ SF_NONE TIME_INF s with h | h
  · rw [h]; exact .fuel
  · rw [h]
    cases sendFrame E ⟨ch, .method id args⟩ SF_NONE TIME_INF s with
    | ok a t => exact rpcLoop_ref hm ch ex d _ _ t hm
    | err e t => exact .rfl
    | ub => exact .rfl
    | fuel => exact .rfl

theorem simpleRpc_ref (hm : E.fuel ≤ m) (ch : UInt16) (id : UInt32) (ex : List UInt32) (args : Rec) (s : Conn) :
    Ref (simpleRpc E ch id ex args s) (simpleRpc (E.upto m) ch id ex args s) := by
  unfold simpleRpc
  have h1 : fromNowIO (E.upto m) (getRpcTimeout s.timeouts) s = fromNowIO E (getRpcTimeout s.timeouts) s := rfl
  rw [h1]
  cases fromNowIO E (getRpcTimeout s.timeouts) s with
  | ok d t => exact rpcInner_ref hm ch id ex args d t
  | err e t => exact .rfl
  | ub => exact .rfl
  | fuel => exact .rfl

theorem sendHeaderInner_ref (hm : E.fuel ≤ m) (d : Nat) (s : Conn) : Ref (sendHeaderInner E d s) (sendHeaderInner (E.upto m) d s) := by
  unfold sendHeaderInner
  rcases trySend_ref (E := E) (m := m) hm d SF_NONE 8 E.fuel (E.upto m).fuel protocolHeaderBytes s hm with h | h
  · rw [h]; exact .fuel
  · rw [h]; exact .rfl

theorem publishBody_ref (hm : E.fuel ≤ m) (ch : UInt16) (usable : Nat) : ∀ (n n' : Nat) (rest : Bytes) (s : Conn), n ≤ n' →
    Ref (publishBody E ch usable n rest s) (publishBody (E.upto m) ch usable n' rest s) := by
  intro n
  induction n with
  | zero => intro n' rest s _; exact .fuel
  | succ n ih =>
    intro n' rest s hn
    cases n' with
    | zero => omega
    | succ n' =>
      unfold publishBody
      have key : ∀ (p fl : Nat) (b : Bytes), Ref (match sendFrame E ⟨ch, .body b⟩ fl TIME_INF s with
          | .ok () s => publishBody E ch usable n (rest.drop p) s
          | .err e s => .err e s
          | .ub => .ub
          | .fuel => .fuel : Res Conn Unit) (match sendFrame (E.upto m) ⟨ch, .body b⟩ fl TIME_INF s with
          | .ok () s => publishBody (E.upto m) ch usable n' (rest.drop p) s
          | .err e s => .err e s
          | .ub => .ub
          | .fuel => .fuel : Res Conn Unit) := by
        intro p fl b
        rcases sendFrame_ref hm ⟨ch, .body b⟩ fl TIME_INF s with h | h
        · rw [h]; exact .fuel
        · rw [h]
          cases sendFrame E ⟨ch, .body b⟩ fl TIME_INF s with
          | ok a u => exact ih n' _ _ (by omega)
          | err e u => exact .rfl
          | ub => exact .rfl
          | fuel => exact .rfl
      split
      · exact .rfl
      · split
        · exact key _ _ _
        · exact key _ _ _

theorem publishCheck_ref (hm : E.fuel ≤ m) (s : Conn) : Ref (publishCheck E s) (publishCheck (E.upto m) s) := by
  unfold publishCheck
  have h1 : hasPastIO (E.upto m) s.nextRecv s = hasPastIO E s.nextRecv s := rfl
  rw [h1]
  obtain ⟨res, t⟩ := hasPastIO E s.nextRecv s
  dsimp only
  split
  · exact .rfl
  · split
    · rcases tryRecv_ref hm t with h | h
      · rw [h]; exact .fuel
      · rw [h]; exact .rfl
    · exact .rfl

theorem basicPublish_ref (hm : E.fuel ≤ m) (ch : UInt16) (ex rk : Bytes) (mand imm : Int32) (p : Option (UInt32 × Rec)) (body : Bytes)
    (s : Conn) : Ref (basicPublish E ch ex rk mand imm p body s) (basicPublish (E.upto m) ch ex rk mand imm p body s) := by
  unfold basicPublish sendMethod
  exact Ref.bind (publishCheck_ref hm s) fun _ t => Ref.bind (sendFrame_ref hm _ _ _ t) fun _ u =>
    Ref.bind (sendFrame_ref hm _ _ _ u) fun _ w => publishBody_ref hm _ _ _ _ _ w hm

theorem readBody_ref (hm : E.fuel ≤ m) (ch : UInt16) (len : Nat) : ∀ (n n' : Nat) (got : Bytes) (s : Conn), n ≤ n' →
    Ref (readBody E ch len n got s) (readBody (E.upto m) ch len n' got s) := by
  intro n
  induction n with
  | zero => intro n' got s _; exact .fuel
  | succ n ih =>
    intro n' got s hn
    cases n' with
    | zero => omega
    | succ n' =>
      unfold readBody
      split
      · rcases waitFrameOn_ref hm ch s with h | h
        · rw [h]; exact .fuel
        · rw [h]
          cases waitFrameOn E ch s with
          | err e t => exact .rfl
          | ub => exact .rfl
          | fuel => exact .rfl
          | ok f t =>
            dsimp only
            cases f.frame.payload with
            | body b =>
              dsimp only
              split
              · exact .rfl
              · exact ih n' _ _ (by omega)
            | _ => exact .rfl
      · exact .rfl

theorem cloneProps_upto (flags : UInt32) (r : Rec) : ∀ ps, cloneProps (E.upto m) flags r ps = cloneProps E flags r ps
  | [] => rfl
  | (bit, f) :: ps => by
    unfold cloneProps
    rw [cloneProps_upto flags r ps]
    rfl

theorem readContent_ref (hm : E.fuel ≤ m) (ch : UInt16) (size : UInt64) (flags : UInt32) (r : Rec) (s : Conn) :
    Ref (readContent E ch size flags r s) (readContent (E.upto m) ch size flags r s) := by
  unfold readContent
  have h0 : cloneProps (E.upto m) flags r clonedProps = cloneProps E flags r clonedProps := cloneProps_upto flags r clonedProps
  rw [h0]
  cases cloneProps E flags r clonedProps s with
  | err e t => exact .rfl
  | ub => exact .rfl
  | fuel => exact .rfl
  | ok props t =>
    have h1 : allocOr (E.upto m) t = allocOr E t := rfl
    dsimp only
    rw [h1]
    cases (if size.toNat = 0 then .ok () t else allocOr E t) with
    | err e u => exact .rfl
    | ub => exact .rfl
    | fuel => exact .rfl
    | ok x u =>
      dsimp only
      rcases readBody_ref (E := E) (m := m) hm ch size.toNat E.fuel (E.upto m).fuel [] u hm with h | h
      · rw [h]; exact .fuel
      · rw [h]; exact .rfl

theorem readMessage_ref (hm : E.fuel ≤ m) (ch : UInt16) (s : Conn) : Ref (readMessage E ch s) (readMessage (E.upto m) ch s) := by
  unfold readMessage
  rcases waitFrameOn_ref hm ch s with h | h
  · rw [h]; exact .fuel
  · rw [h]
    cases waitFrameOn E ch s with
    | err e t => exact .rfl
    | ub => exact .rfl
    | fuel => exact .rfl
    | ok f t =>
      dsimp only
      cases f.frame.payload with
      | header c size flags r => exact readContent_ref hm ch size flags r t
      | _ => exact .rfl

theorem takeDelivery_ref (hm : E.fuel ≤ m) (ch : UInt16) (r : Rec) (s : Conn) : Ref (takeDelivery E ch r s) (takeDelivery (E.upto m) ch r s) := by
  unfold takeDelivery
  split
  · unfold mallocDup smallAlloc
    dsimp only
    split
    · rcases readMessage_ref hm ch { s with ps := { s.ps with allocs := s.ps.allocs + 1 + 1 + 1 } } with h | h
      · rw [h]; exact .fuel
      · rw [h]; exact .rfl
    · exact .rfl
  · exact .rfl

theorem consumeMessage_ref (hm : E.fuel ≤ m) (tv : Option TimeVal) (s : Conn) :
    Ref (consumeMessage E tv s) (consumeMessage (E.upto m) tv s) := by
  unfold consumeMessage
  rcases waitFrame_ref hm tv s with h | h
  · rw [h]; exact .fuel
  · rw [h]
    cases waitFrame E tv s with
    | err e t => exact .rfl
    | ub => exact .rfl
    | fuel => exact .rfl
    | ok f t =>
      dsimp only
      cases f.frame.payload with
      | method id r =>
        dsimp only
        split
        · exact takeDelivery_ref hm _ r t
        · exact .rfl
      | _ => exact .rfl

theorem confirmWait_ref (hm : E.fuel ≤ m) (tv : Option TimeVal) (s : Conn) : Ref (confirmWait E tv s) (confirmWait (E.upto m) tv s) := by
  unfold confirmWait
  rcases waitFrame_ref hm tv s with h | h
  · rw [h]; exact .fuel
  · rw [h]; exact .rfl

theorem ended_ref {α : Type} {r r' : Res Conn α} (h : Ref r r') : Ref (ended r) (ended r') := by
  rcases h with rfl | rfl
  · exact .fuel
  · exact .rfl

theorem ApiCall.run_ref (hm : E.fuel ≤ m) (c : ApiCall) (s : Conn) : Ref (c.run E s) (c.run (E.upto m) s) := by
  cases c with
  | waitFrame tv => exact ended_ref (waitFrame_ref hm tv s)
  | waitFrameOn ch => exact ended_ref (waitFrameOn_ref hm ch s)
  | waitMethod ch id => exact ended_ref (waitMethodList_ref hm ch [id] TIME_INF s)
  | sendFrame f fl => exact ended_ref (sendFrame_ref hm f fl TIME_INF s)
  | simpleRpc ch id ex args => exact ended_ref (simpleRpc_ref hm ch id ex args s)
  | sendHeader => exact ended_ref (sendHeaderInner_ref hm TIME_INF s)
  | readMessage ch => exact ended_ref (readMessage_ref hm ch s)
  | consumeMessage tv => exact ended_ref (consumeMessage_ref hm tv s)
  | confirmWait tv => exact ended_ref (confirmWait_ref hm tv s)
  | publish ch ex rk mand imm p b => exact ended_ref (basicPublish_ref hm ch ex rk mand imm p b s)
  | maybeRelease => exact .rfl
  | maybeReleaseOn ch => exact .rfl
  | close => exact .rfl

theorem perform_ref (hm : E.fuel ≤ m) : ∀ (calls : List ApiCall) (s : Conn), Ref (perform E calls s) (perform (E.upto m) calls s)
  | [], s => .rfl
  | c :: cs, s => by
    unfold perform
    rcases c.run_ref hm s with h | h
    · rw [h]; exact .fuel
    · rw [h]
      cases c.run E s with
      | ok a t => exact perform_ref hm cs t
      | err e t => exact perform_ref hm cs t
      | ub => exact .rfl
      | fuel => exact .rfl

theorem openVhost_ref (hm : E.fuel ≤ m) (v : Bytes) (d : Nat) (s : Conn) : Ref (openVhost E v d s) (openVhost (E.upto m) v d s) := by
  unfold openVhost
  rcases rpcInner_ref hm 0 CONNECTION_OPEN [CONNECTION_OPEN_OK]
    [(.virtual_host, .bytes v), (.capabilities, .bytes []), (.insist, .bool 1)] d s with h | h
  · rw [h]; exact .fuel
  · rw [h]; exact .rfl

theorem loginSteps_ref (hm : E.fuel ≤ m) (b : Build) (memcmp : Bytes → Bytes → Int) (mem : Nat → UInt8) (a : LoginArgs) (tv : Option TimeVal)
    (s : Conn) : Ref (loginSteps E b memcmp mem a tv s) (loginSteps (E.upto m) b memcmp mem a tv s) := by
  unfold loginSteps
  refine Ref.bind (x' := fromNowIO (E.upto m) tv) .rfl fun d t => Ref.bind (sendHeaderInner_ref hm d t) fun r u => ?_
  by_cases hr : r ≠ St.OK
  · rw [if_pos hr, if_pos hr]; exact .rfl
  rw [if_neg hr, if_neg hr]
  refine Ref.bind ?_ fun _ t => Ref.bind ?_ fun _ t => Ref.bind .rfl fun _ t => Ref.bind (waitMethodList_ref hm 0 _ d t) fun x t => ?_
  · unfold awaitStart
    exact Ref.bind (waitMethodList_ref hm 0 _ d u) fun _ t => .rfl
  · unfold sendStartOk sendMethod
    exact Ref.bind .rfl fun _ t => Ref.bind (x' := saslResponse (E.upto m) a.sasl) (by cases a.sasl <;> exact .rfl) fun _ t =>
      Ref.bind .rfl fun _ t => Ref.bind .rfl fun _ t => sendFrame_ref hm _ _ _ t
  · obtain ⟨i, r⟩ := x
    dsimp only
    by_cases hi : i = CONNECTION_CLOSE
    · rw [if_pos hi, if_pos hi]; exact .rfl
    rw [if_neg hi, if_neg hi]
    have key : ∀ (c : UInt16) (f : UInt32) (h : UInt16), Ref ((do
        tuneOk E mem (negotiate (UInt16.ofNat a.channelMax.toNat) (UInt32.ofNat a.frameMax.toNat)
          (UInt16.ofNat a.heartbeat.toNat) c f h) d
        releaseBuffers
        openVhost E a.vhost d : M Conn (Outcome Unit)) t) ((do
        tuneOk (E.upto m) mem (negotiate (UInt16.ofNat a.channelMax.toNat) (UInt32.ofNat a.frameMax.toNat)
          (UInt16.ofNat a.heartbeat.toNat) c f h) d
        releaseBuffers
        openVhost (E.upto m) a.vhost d : M Conn (Outcome Unit)) t) := by
      intro c f h
      refine Ref.bind ?_ fun _ t => Ref.bind .rfl fun _ t => openVhost_ref hm _ _ t
      unfold tuneOk sendMethod
      exact Ref.bind (x' := tune (E.upto m) _ _ _ mem) .rfl fun _ t => sendFrame_ref hm _ _ _ t
    cases r.get? .channel_max with
    | none => exact .rfl
    | some x =>
      cases x with
      | u16 c =>
        cases r.get? .frame_max with
        | none => exact .rfl
        | some y =>
          cases y with
          | u32 f =>
            cases r.get? .heartbeat with
            | none => exact .rfl
            | some z =>
              cases z with
              | u16 h => exact key c f h
              | _ => exact .rfl
          | _ => exact .rfl
      | _ => exact .rfl

theorem login_ref (hm : E.fuel ≤ m) (b : Build) (memcmp : Bytes → Bytes → Int) (mem : Nat → UInt8) (a : LoginArgs) (s : Conn) :
    Ref (login E b memcmp mem a s) (login (E.upto m) b memcmp mem a s) := by
  unfold login loginInner
  split
  · exact .rfl
  split
  · exact .rfl
  split
  · exact .rfl
  rcases loginSteps_ref hm b memcmp mem a (getHandshakeTimeout s.timeouts) s with h | h
  · rw [h]; exact .fuel
  · rw [h]; exact .rfl

end Rmq
