import Verif.Proofs.Kept
import Verif.Spec.History
/-!
# Invariants kept by every call of the application
-/
namespace Rmq

variable {E : NetEnv} {I : Conn → Prop} {J : Conn → DFrame → Prop}

theorem Res.All.bind {α β : Type} {x : M Conn α} {f : α → M Conn β} {s : Conn} (hx : (x s).All I)
    (hf : ∀ a t, I t → (f a t).All I) : ((x >>= f) s).All I := by
  rw [M.bind_def]
  revert hx
  cases x s with
  | ok a t => exact fun h => hf a t h
  | err e t => exact id
  | ub => exact id
  | fuel => exact id

/-- `I` and `J` are also kept by allocating. -/
structure CallClosed (E : NetEnv) (I : Conn → Prop) (J : Conn → DFrame → Prop) : Prop extends Upper E I J where
  allocs : ∀ {s : Conn} (n : Nat) (p : List UInt16), I s → I { s with ps := { s.ps with allocs := n, pools := p } }

/-- … and by the check before publishing. -/
structure ApiClosed (E : NetEnv) (I : Conn → Prop) (J : Conn → DFrame → Prop) : Prop extends CallClosed E I J where
  publishCheck : ∀ {s : Conn}, I s → (publishCheck E s).All I

/-- … and by what only login does. -/
structure Login16 (E : NetEnv) (I : Conn → Prop) (J : Conn → DFrame → Prop) : Prop extends ApiClosed E I J where
  tune16 : ∀ {s : Conn} (cm fm hb : Int) (mem : Nat → UInt8), hb ≤ 65535 → I s → (Rmq.tune E cm fm hb mem s).All I
  setServer : ∀ {s : Conn} (t : Table), I s → I { s with serverProps := t }
  setClient : ∀ {s : Conn} (t : Table) (n : Nat), I s → I { s with clientProps := t, clientBorn := n }

/-- … and by tuning with any interval. -/
structure LoginClosed (E : NetEnv) (I : Conn → Prop) (J : Conn → DFrame → Prop) : Prop extends Login16 E I J where
  tune : ∀ {s : Conn} (cm fm hb : Int) (mem : Nat → UInt8), I s → (Rmq.tune E cm fm hb mem s).All I
  tune16 := fun cm fm hb mem _ hs => tune cm fm hb mem hs

theorem publishCheck_closed (h : Upper E I J) (hr : ∀ {s : Conn}, I s → (tryRecv E s).All I) {s : Conn} (hs : I s) :
    (publishCheck E s).All I := by
  unfold Rmq.publishCheck
  have h1 := hasPastIO_tick E s.nextRecv s
  revert h1
  obtain ⟨res, t⟩ := hasPastIO E s.nextRecv s
  intro h1
  have h2 : I t := h.tick hs h1
  dsimp only
  by_cases c1 : res = St.TIMER_FAILURE
  · rw [if_pos c1]; exact h2
  rw [if_neg c1]
  by_cases c2 : res = St.TIMEOUT
  · rw [if_pos c2]
    have h3 := hr h2
    revert h3
    cases Rmq.tryRecv E t with
    | ok x t => exact id
    | err e t => intro h3; dsimp only; by_cases he : e = St.TIMEOUT <;> simp only [he, if_true, if_false] <;> exact h3
    | ub => exact id
    | fuel => exact id
  · rw [if_neg c2]; exact h2

namespace ApiClosed

theorem publishBody (h : ApiClosed E I J) (ch : UInt16) (usable : Nat) : ∀ (n : Nat) (rest : Bytes) {s : Conn}, I s →
    (publishBody E ch usable n rest s).All I := by
  intro n
  induction n with
  | zero => intro rest s _; trivial
  | succ n ih =>
    intro rest s hs
    unfold Rmq.publishBody
    by_cases h0 : rest.length = 0
    · rw [if_pos h0]; exact hs
    rw [if_neg h0]
    by_cases h1 : rest.length ≥ usable
    · rw [if_pos h1]
      have h2 := h.sendFrame ⟨ch, .body (rest.take usable)⟩ SF_MORE TIME_INF (Nat.le_refl _) hs
      revert h2
      cases Rmq.sendFrame E ⟨ch, .body (rest.take usable)⟩ SF_MORE TIME_INF s with
      | ok x t => exact fun h2 => ih _ h2
      | err e t => exact id
      | ub => exact id
      | fuel => exact id
    · rw [if_neg h1]
      have h2 := h.sendFrame ⟨ch, .body rest⟩ SF_NONE TIME_INF (Nat.le_refl _) hs
      revert h2
      cases Rmq.sendFrame E ⟨ch, .body rest⟩ SF_NONE TIME_INF s with
      | ok x t => exact fun h2 => ih _ h2
      | err e t => exact id
      | ub => exact id
      | fuel => exact id

theorem basicPublish (h : ApiClosed E I J) (ch : UInt16) (exchange routingKey : Bytes) (mandatory immediate : Int32)
    (props : Option (UInt32 × Rec)) (body : Bytes) {s : Conn} (hs : I s) :
    (basicPublish E ch exchange routingKey mandatory immediate props body s).All I := by
  unfold Rmq.basicPublish
  dsimp only
  refine Res.All.bind (h.publishCheck hs) fun _ t ht => ?_
  refine Res.All.bind (h.sendFrame _ _ _ (Nat.le_refl _) ht) fun _ u hu => ?_
  refine Res.All.bind (h.sendFrame _ _ _ (Nat.le_refl _) hu) fun _ v hv => ?_
  exact h.publishBody _ _ _ _ hv

end ApiClosed

namespace CallClosed

theorem smallAlloc (h : CallClosed E I J) {s : Conn} (hs : I s) : I (smallAlloc E s).2 := h.allocs _ _ hs

theorem allocOr (h : CallClosed E I J) {s : Conn} (hs : I s) : (allocOr E s).All I := by
  unfold Rmq.allocOr
  have := h.smallAlloc hs
  revert this
  obtain ⟨b, t⟩ := Rmq.smallAlloc E s
  cases b <;> exact id

theorem withAlloc (h : CallClosed E I J) {α : Type} (x : (Nat → Bool) → M AState α) {s : Conn} (hs : I s) : (withAlloc E x s).All I := by
  unfold Rmq.withAlloc
  cases x E.pe.alloc ⟨s.ps.allocs⟩ with
  | ok a t => exact h.allocs _ _ hs
  | err e t => exact h.allocs _ _ hs
  | ub => trivial
  | fuel => trivial

theorem cloneProp (h : CallClosed E I J) (v : Val) {s : Conn} (hs : I s) : (cloneProp E v s).All I := by
  cases v with
  | bytes b =>
    show Res.All I ((if b.length = 0 then pure (.bytes []) else do Rmq.allocOr E; pure (.bytes b) : M Conn Val) s)
    by_cases h0 : b.length = 0
    · rw [if_pos h0]; exact hs
    · rw [if_neg h0]; exact Res.All.bind (h.allocOr hs) fun _ t ht => ht
  | table t =>
    unfold Rmq.cloneProp
    exact Res.All.bind (h.withAlloc _ hs) fun _ t ht => ht
  | _ => exact hs

theorem cloneProps (h : CallClosed E I J) (flags : UInt32) (r : Rec) : ∀ (ps : List (Nat × Fld)) {s : Conn}, I s →
    (cloneProps E flags r ps s).All I
  | [], s, hs => hs
  | (bit, f) :: ps, s, hs => by
    unfold Rmq.cloneProps
    by_cases hb : flags &&& UInt32.ofNat (1 <<< bit) ≠ 0
    · rw [if_pos hb]
      cases r.get? f with
      | none => trivial
      | some v =>
        exact Res.All.bind (h.cloneProp v hs) fun _ t ht => Res.All.bind (cloneProps h flags r ps ht) fun _ u hu => hu
    · rw [if_neg hb]; exact cloneProps h flags r ps hs

theorem readBody (h : CallClosed E I J) (ch : UInt16) (len : Nat) : ∀ (n : Nat) (got : Bytes) {s : Conn}, I s →
    (readBody E ch len n got s).All I := by
  intro n
  induction n with
  | zero => intro got s _; trivial
  | succ n ih =>
    intro got s hs
    unfold Rmq.readBody
    by_cases hl : got.length < len
    · rw [if_pos hl]
      have h1 := h.waitFrameOn ch hs
      revert h1
      cases Rmq.waitFrameOn E ch s with
      | err e t => exact fun h1 => h1
      | ub => exact fun h1 => h1
      | fuel => exact fun h1 => h1
      | ok f t =>
        rintro ⟨h1, h2⟩
        dsimp only
        cases f.frame.payload <;> dsimp only
        case body b =>
          by_cases hb : got.length + b.length > len
          · rw [if_pos hb]; exact h1
          · rw [if_neg hb]; exact ih _ h1
        case method id args => by_cases hc : isClose id = true <;> simp only [hc, if_true, if_false] <;> exact h1
        all_goals exact h1
    · rw [if_neg hl]; exact hs

theorem putBackIgnored (h : CallClosed E I J) {f : DFrame} {s : Conn} (hf : J s f) (hs : I s) : (putBackIgnored E f s).All I := by
  unfold Rmq.putBackIgnored
  have h1 := h.putBack hf hs
  revert h1
  cases Rmq.putBackFrame E f s <;> exact id

theorem readContent (h : CallClosed E I J) (ch : UInt16) (size : UInt64) (flags : UInt32) (r : Rec) {s : Conn} (hs : I s) :
    (readContent E ch size flags r s).All I := by
  unfold Rmq.readContent
  have h1 := h.cloneProps flags r clonedProps hs
  revert h1
  cases Rmq.cloneProps E flags r clonedProps s with
  | err e t => exact fun h1 => h1
  | ub => exact fun h1 => h1
  | fuel => exact fun h1 => h1
  | ok props t =>
    intro h1
    dsimp only
    have h2 : (if size.toNat = 0 then .ok () t else Rmq.allocOr E t : Res Conn Unit).All I := by
      by_cases h0 : size.toNat = 0
      · rw [if_pos h0]; exact h1
      · rw [if_neg h0]; exact h.allocOr h1
    revert h2
    cases (if size.toNat = 0 then .ok () t else Rmq.allocOr E t : Res Conn Unit) with
    | err e t => exact fun h1 => h1
    | ub => exact fun h1 => h1
    | fuel => exact fun h1 => h1
    | ok x u =>
      intro h2
      dsimp only
      have h3 := h.readBody ch size.toNat E.fuel [] h2
      revert h3
      cases Rmq.readBody E ch size.toNat E.fuel [] u with
      | err e t => exact fun h1 => h1
      | ub => exact fun h1 => h1
      | fuel => exact fun h1 => h1
      | ok x v => cases x <;> exact fun h1 => h1

theorem putBackThen (h : CallClosed E I J) {α : Type} {f : DFrame} {s : Conn} (hf : J s f) (hs : I s) (a : α) :
    (match Rmq.putBackIgnored E f s with
      | .ok () s => .ok a s
      | .err e s => .err e s
      | .ub => .ub
      | .fuel => .fuel : Res Conn α).All I := by
  have h1 := h.putBackIgnored hf hs
  revert h1
  cases Rmq.putBackIgnored E f s <;> exact id

theorem readMessage (h : CallClosed E I J) (ch : UInt16) {s : Conn} (hs : I s) : (readMessage E ch s).All I := by
  unfold Rmq.readMessage
  have h1 := h.waitFrameOn ch hs
  revert h1
  cases Rmq.waitFrameOn E ch s with
  | err e t => exact fun h1 => h1
  | ub => exact fun h1 => h1
  | fuel => exact fun h1 => h1
  | ok f t =>
    rintro ⟨h1, h2⟩
    dsimp only
    cases f.frame.payload <;> dsimp only
    case header cls size flags r => exact h.readContent ch size flags r h1
    case method id args =>
      by_cases hc : isClose id = true
      · rw [if_pos hc]; exact h1
      · rw [if_neg hc]; exact h.putBackThen h2 h1 _
    all_goals exact h.putBackThen h2 h1 _

theorem mallocDup (h : CallClosed E I J) (b : Bytes) {s : Conn} (hs : I s) : I (mallocDup E b s).2 := h.smallAlloc hs

theorem takeDelivery (h : CallClosed E I J) (ch : UInt16) (r : Rec) {s : Conn} (hs : I s) : (takeDelivery E ch r s).All I := by
  unfold Rmq.takeDelivery
  split
  · rename_i tag dt red ex rk _ _ _ _ _
    have h1 := h.mallocDup tag hs
    revert h1
    obtain ⟨a, t⟩ := Rmq.mallocDup E tag s
    intro h1
    dsimp only at h1 ⊢
    have h2 := h.mallocDup ex h1
    revert h2
    obtain ⟨b, u⟩ := Rmq.mallocDup E ex t
    intro h2
    dsimp only at h2 ⊢
    have h3 := h.mallocDup rk h2
    revert h3
    obtain ⟨c, v⟩ := Rmq.mallocDup E rk u
    intro h3
    dsimp only at h3 ⊢
    by_cases hc : (a && b && c) = true
    · rw [if_pos hc]
      have h4 := h.readMessage ch h3
      revert h4
      cases Rmq.readMessage E ch v with
      | ok x w => cases x <;> exact fun h4 => h4
      | err e w => exact fun h4 => h4
      | ub => exact fun h4 => h4
      | fuel => exact fun h4 => h4
    · rw [if_neg hc]; exact h3
  · trivial

theorem consumeMessage (h : CallClosed E I J) (tv : Option TimeVal) {s : Conn} (hs : I s) : (consumeMessage E tv s).All I := by
  unfold Rmq.consumeMessage
  have h1 := h.waitFrame tv hs
  revert h1
  cases Rmq.waitFrame E tv s with
  | err e t => exact fun h1 => h1
  | ub => exact fun h1 => h1
  | fuel => exact fun h1 => h1
  | ok f t =>
    rintro ⟨h1, h2⟩
    dsimp only
    cases f.frame.payload <;> dsimp only
    case method id args =>
      by_cases hc : id = BASIC_DELIVER
      · rw [if_pos hc]; exact h.takeDelivery _ _ h1
      · rw [if_neg hc]; exact h.putBackThen h2 h1 _
    all_goals exact h.putBackThen h2 h1 _

theorem confirmWait (h : CallClosed E I J) (tv : Option TimeVal) {s : Conn} (hs : I s) : (confirmWait E tv s).All I := by
  unfold Rmq.confirmWait
  have h1 := h.waitFrame tv hs
  revert h1
  cases Rmq.waitFrame E tv s with
  | err e t => exact fun h1 => h1
  | ub => exact fun h1 => h1
  | fuel => exact fun h1 => h1
  | ok f t =>
    rintro ⟨h1, h2⟩
    dsimp only
    cases f.frame.payload <;> dsimp only
    case method id args =>
      by_cases hc : id ≠ BASIC_ACK ∧ id ≠ BASIC_NACK ∧ id ≠ BASIC_REJECT
      · rw [if_pos hc]; exact h.putBackThen h2 h1 _
      · rw [if_neg hc]; exact h1
    all_goals exact h.putBackThen h2 h1 _

end CallClosed

namespace Login16

theorem awaitStart (h : Login16 E I J) (memcmp : Bytes → Bytes → Int) (sasl : Sasl) (d : Nat) {s : Conn} (hs : I s) :
    (awaitStart E memcmp sasl d s).All I := by
  unfold Rmq.awaitStart
  refine Res.All.bind (h.waitMethodList 0 _ d hs) fun a t ht => ?_
  obtain ⟨_, r⟩ := a
  dsimp only
  rcases r.get? .version_major with _ | ⟨major⟩ | _ | _ | _ | _ | _ | _ <;> try trivial
  rcases r.get? .version_minor with _ | ⟨minor⟩ | _ | _ | _ | _ | _ | _ <;> try trivial
  rcases r.get? .server_properties with _ | _ | _ | _ | _ | _ | ⟨sp⟩ | _ <;> try trivial
  rcases r.get? .mechanisms with _ | _ | _ | _ | _ | ⟨mech⟩ | _ | _ <;> try trivial
  · dsimp only
    by_cases hc : major ≠ 0 ∨ minor ≠ 9
    · rw [if_pos hc]; exact ht
    · rw [if_neg hc]
      refine Res.All.bind (h.withAlloc _ ht) fun tb u hu => ?_
      refine Res.All.bind (show Res.All I (.ok () { u with serverProps := tb.erase }) from h.setServer _ hu) fun _ v hv => ?_
      split
      · exact hv
      · exact hv

theorem getPool (h : CallClosed E I J) (ch : UInt16) {s : Conn} (hs : I s) :
    I { s with ps := (Rmq.getPool E.pe s.ps ch).2 } := by
  unfold Rmq.getPool
  split
  · exact hs
  · split
    · exact h.allocs _ _ hs
    · exact h.allocs _ s.ps.pools hs

theorem sendStartOk (h : Login16 E I J) (b : Build) (memcmp : Bytes → Bytes → Int) (props : Option PTable) (sasl : Sasl) (d : Nat)
    (hd : d ≤ TIME_INF) {s : Conn} (hs : I s) : (sendStartOk E b memcmp props sasl d s).All I := by
  unfold Rmq.sendStartOk
  refine Res.All.bind ?_ fun _ t ht => ?_
  · have := getPool h.toCallClosed 0 hs
    revert this
    obtain ⟨a, ps⟩ := Rmq.getPool E.pe s.ps 0
    cases a <;> exact id
  refine Res.All.bind ?_ fun resp u hu => ?_
  · unfold saslResponse
    cases sasl with
    | plain u p => exact Res.All.bind (h.allocOr ht) fun _ v hv => hv
    | external i =>
      dsimp only
      by_cases h0 : i.length = 0
      · rw [if_pos h0]; exact ht
      · rw [if_neg h0]; exact Res.All.bind (h.allocOr ht) fun _ v hv => hv
  refine Res.All.bind (h.withAlloc _ hu) fun tb v hv => ?_
  refine Res.All.bind (show Res.All I (.ok () { v with clientProps := tb.erase, clientBorn := v.time }) from h.setClient _ _ hv) fun _ w hw => ?_
  exact h.sendFrame _ _ _ hd hw

theorem tuneOk (h : Login16 E I J) (mem : Nat → UInt8) (v : UInt16 × UInt32 × UInt16) (d : Nat)
    (hd : d ≤ TIME_INF) {s : Conn} (hs : I s) : (tuneOk E mem v d s).All I := by
  unfold Rmq.tuneOk
  exact Res.All.bind (h.tune16 _ _ _ _ (by have := v.2.2.toNat_lt; omega) hs) fun _ t ht => h.sendFrame _ _ _ hd ht

theorem openVhost (h : Login16 E I J) (vhost : Bytes) (d : Nat) {s : Conn} (hs : I s) : (openVhost E vhost d s).All I := by
  unfold Rmq.openVhost
  have h1 := h.rpcInner 0 CONNECTION_OPEN [CONNECTION_OPEN_OK]
      [(.virtual_host, .bytes vhost), (.capabilities, .bytes []), (.insist, .bool 1)] d hs
  revert h1
  cases Rmq.rpcInner E 0 CONNECTION_OPEN [CONNECTION_OPEN_OK]
      [(.virtual_host, .bytes vhost), (.capabilities, .bytes []), (.insist, .bool 1)] d s with
  | err e t => exact id
  | ub => exact id
  | fuel => exact id
  | ok r t =>
    cases r with
    | normal id args => exact fun h1 => h.maybeRelease h1
    | serverException i args => exact id
    | libraryException e => exact id

theorem fromNowIO_le {tv : Option TimeVal} {s t : Conn} {d : Nat} (h : fromNowIO E tv s = .ok d t) : d ≤ TIME_INF := by
  unfold fromNowIO at h
  cases tv with
  | none => cases h; exact Nat.le_refl _
  | some v =>
    dsimp only at h
    split at h
    · cases h
    · cases hv : timeFromNow (E.clock s.time) (some v) with
      | error e => rw [hv] at h; cases h
      | ok x =>
        rw [hv] at h
        cases h
        unfold timeFromNow at hv
        dsimp only at hv
        split at hv
        · cases hv
        split at hv
        · cases hv
        split at hv
        · cases hv
        cases hv
        unfold TIME_INF
        omega

theorem loginSteps (h : Login16 E I J) (b : Build) (memcmp : Bytes → Bytes → Int) (mem : Nat → UInt8) (a : LoginArgs)
    (tv : Option TimeVal) {s : Conn} (hs : I s) : (loginSteps E b memcmp mem a tv s).All I := by
  unfold Rmq.loginSteps
  rw [M.bind_def]
  have h1 := h.tickAll hs (fromNowIO_tick E tv s)
  cases hd : fromNowIO E tv s with
  | err e t => rw [hd] at h1; exact h1
  | ub => trivial
  | fuel => trivial
  | ok d t =>
    rw [hd] at h1
    have hd' : d ≤ TIME_INF := fromNowIO_le hd
    dsimp only
    refine Res.All.bind (h.sendHeaderInner d h1) fun r u hu => ?_
    by_cases hr : r ≠ St.OK
    · rw [if_pos hr]; exact hu
    rw [if_neg hr]
    refine Res.All.bind (h.awaitStart memcmp a.sasl d hu) fun _ v hv => ?_
    refine Res.All.bind (h.sendStartOk b memcmp a.clientProperties a.sasl d hd' hv) fun _ w hw => ?_
    refine Res.All.bind (h.releaseBuffers hw) fun _ x hx => ?_
    refine Res.All.bind (h.waitMethodList 0 _ d hx) fun p y hy => ?_
    obtain ⟨id, r⟩ := p
    dsimp only
    split
    · exact hy
    · rcases r.get? .channel_max with _ | _ | ⟨c⟩ | _ | _ | _ | _ | _ <;> try trivial
      rcases r.get? .frame_max with _ | _ | _ | ⟨f⟩ | _ | _ | _ | _ <;> try trivial
      rcases r.get? .heartbeat with _ | _ | ⟨hb⟩ | _ | _ | _ | _ | _ <;> try trivial
      refine Res.All.bind (h.tuneOk mem _ d hd' hy) fun _ z hz => ?_
      refine Res.All.bind (h.releaseBuffers hz) fun _ z' hz' => ?_
      exact h.openVhost a.vhost d hz'

theorem login (h : Login16 E I J) (b : Build) (memcmp : Bytes → Bytes → Int) (mem : Nat → UInt8) (a : LoginArgs)
    {s : Conn} (hs : I s) : (login E b memcmp mem a s).All I := by
  show (Rmq.loginInner E b memcmp mem a (getHandshakeTimeout s.timeouts) s).All I
  unfold Rmq.loginInner
  split
  · exact hs
  split
  · exact hs
  split
  · exact hs
  have h1 := h.loginSteps b memcmp mem a (getHandshakeTimeout s.timeouts) hs
  revert h1
  cases Rmq.loginSteps E b memcmp mem a (getHandshakeTimeout s.timeouts) s with
  | ok r t => exact id
  | err e t => exact fun h1 => h.close h1
  | ub => exact id
  | fuel => exact id

end Login16

theorem Res.All.leaves {α : Type} {r : Res Conn α} {s' : Conn} (h : r.All I) (hl : r.leaves s') : I s' := by
  unfold Res.leaves at hl
  cases r with
  | ok a t => cases hl; exact h
  | err e t => cases hl; exact h
  | ub => cases hl
  | fuel => cases hl

theorem Res.AllF.all {r : Res Conn DFrame} (h : r.AllF I J) : r.All I := by
  cases r with
  | ok a t => exact h.1
  | err e t => exact h
  | ub => trivial
  | fuel => trivial

theorem CallClosed.call (h : CallClosed E I J) {s s' : Conn} (hc : Call E s s') (hs : I s) : I s' := by
  cases hc with
  | waitFrame tv hl => exact (h.waitFrame tv hs).all.leaves hl
  | waitFrameOn ch hl => exact (h.waitFrameOn ch hs).all.leaves hl
  | waitMethod ch id hl => exact (h.waitMethodList ch [id] TIME_INF hs).leaves hl
  | sendFrame f fl hl => exact (h.sendFrame f fl _ (Nat.le_refl _) hs).leaves hl
  | simpleRpc ch id ex args hl => exact (h.simpleRpc ch id ex args hs).leaves hl
  | sendHeader hl => exact (h.sendHeaderInner _ hs).leaves hl
  | readMessage ch hl => exact (h.readMessage ch hs).leaves hl
  | consumeMessage tv hl => exact (h.consumeMessage tv hs).leaves hl
  | confirmWait tv hl => exact (h.confirmWait tv hs).leaves hl
  | release hl => exact (h.releaseBuffers hs).leaves hl
  | maybeRelease => exact h.maybeRelease hs
  | maybeReleaseOn ch => exact h.release ch hs
  | close => exact h.close hs

theorem ApiClosed.callP (h : ApiClosed E I J) {s s' : Conn} (hc : CallP E s s') (hs : I s) : I s' := by
  cases hc with
  | call hc => exact h.call hc hs
  | publish ch ex rk m i p b hl => exact (h.basicPublish ch ex rk m i p b hs).leaves hl

theorem LoginClosed.callL (h : LoginClosed E I J) {s s' : Conn} (hc : CallL E s s') (hs : I s) : I s' := by
  cases hc with
  | callP hc => exact h.callP hc hs
  | tune cm fm hb mem hl => exact (h.tune cm fm hb mem hs).leaves hl
  | login b mc mem a hl => exact (h.login b mc mem a hs).leaves hl

theorem Steps.inv {σ : Type} {R : σ → σ → Prop} {P : σ → Prop} (hR : ∀ {s s'}, R s s' → P s → P s') {s s' : σ} (h : Steps R s s') (hs : P s) :
    P s' := by
  induction h with
  | refl => exact hs
  | step _ hr ih => exact hR hr ih

end Rmq
