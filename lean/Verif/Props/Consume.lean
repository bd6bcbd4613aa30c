import Verif.Props.Receive
import Verif.Proofs.Properties
/-!
# C45–C47: messages and publisher confirms
-/
namespace Rmq

/-! ## C45 -/

theorem copiedProps_eq (flags : UInt32) (r : Rec) : copiedProps flags r clonedProps = flaggedProps flags r basicProps := by
  have h : ∀ (ps : List (Nat × Fld × Dom)), (∀ p ∈ ps, p.1 < 32) →
      copiedProps flags r (ps.map fun p => (p.1, p.2.1)) = flaggedProps flags r ps := by
    intro ps
    induction ps with
    | nil => intro _; rfl
    | cons p ps ih =>
      intro hp
      obtain ⟨i, f, d⟩ := p
      unfold copiedProps flaggedProps
      have hi := and_bit (flags := flags) (i := i) (hp _ List.mem_cons_self)
      have ih' := ih fun q hq => hp q (List.mem_cons_of_mem _ hq)
      unfold copiedProps at ih'
      rw [List.map_cons, List.filterMap_cons]
      dsimp only
      cases hg : r.get? f with
      | none => simp only [Option.map_none, ite_self]; exact ih'
      | some v =>
        by_cases hs : flagSet flags i
        · rw [if_pos (hi.2 hs)]; dsimp only [Option.map_some]; rw [if_pos hs, ih']
        · rw [if_neg (fun h => hs (hi.1 h))]; dsimp only; rw [if_neg hs]; exact ih'
  exact h basicProps (by decide)

/-- C45: when amqp_read_message returns normally, the frames pending on the channel began with a content header, followed by body frames;
the message's body is the concatenation of these body frames and has exactly the length declared in the header, its properties are the
flagged ones of the header; these frames are taken, and all other frames of the channel are still pending. -/
theorem C45_body_assembly {E : NetEnv} {ch : UInt16} {m : Message} {s s' : Conn} (hI : InUse E s) (hU : Unblocked E s)
    (hN : ∀ g ∈ s.queue, g.frame.isHeartbeat = false) (h : readMessage E ch s = .ok (.normal m) s') :
    ∃ (cls : UInt16) (size : UInt64) (props : Rec) (bodies : List Bytes) (l : List Ev), Since s s' l ∧
      m.body = bodies.flatten ∧ m.body.length = size.toNat ∧ m.props = flaggedProps m.flags props basicProps ∧
      ∀ X, (pending E s (recvBytes l ++ X)).filter (·.channel == ch) =
        ⟨ch, .header cls size m.flags props⟩ :: bodies.map (fun b => ⟨ch, .body b⟩) ++ (pending E s' X).filter (·.channel == ch) := by
  obtain ⟨_, cls, size, r, bs, h1, h2, h3, l, h4, h5⟩ := readMessage_acc ⟨hI.good, hU, hN⟩ h
  exact ⟨cls, size, r, bs, l, h4, h1, h2, by rw [h3, copiedProps_eq], h5⟩

/-- C45 for amqp_consume_message: the next frame of all was a basic.deliver, whose fields are those of the envelope; the message was
assembled from the frames that follow on its channel. -/
theorem C45_envelope {E : NetEnv} {tv : Option TimeVal} {env : Envelope} {s s' : Conn} (hI : InUse E s) (hU : Unblocked E s)
    (hN : ∀ g ∈ s.queue, g.frame.isHeartbeat = false) (h : consumeMessage E tv s = .ok (.normal env) s') :
    ∃ (args : Rec) (cls : UInt16) (size : UInt64) (props : Rec) (bodies : List Bytes) (l : List Ev), Since s s' l ∧
      args.get? .consumer_tag = some (.bytes env.consumerTag) ∧ args.get? .delivery_tag = some (.u64 env.deliveryTag) ∧
      args.get? .redelivered = some (.bool env.redelivered) ∧ args.get? .exchange = some (.bytes env.exchange) ∧
      args.get? .routing_key = some (.bytes env.routingKey) ∧
      env.message.body = bodies.flatten ∧ env.message.body.length = size.toNat ∧
      env.message.props = flaggedProps env.message.flags props basicProps ∧
      ∀ X, (pending E s (recvBytes l ++ X)).head? = some ⟨env.channel, .method BASIC_DELIVER args⟩ ∧
        (pending E s (recvBytes l ++ X)).tail.filter (·.channel == env.channel) =
        ⟨env.channel, .header cls size env.message.flags props⟩ :: bodies.map (fun b => ⟨env.channel, .body b⟩) ++
          (pending E s' X).filter (·.channel == env.channel) := by
  unfold consumeMessage at h
  have h1 := waitFrame_acc tv hI.good hU
  cases h2 : waitFrame E tv s with
  | err e t => rw [h2] at h; cases h
  | ub => rw [h2] at h; cases h
  | fuel => rw [h2] at h; cases h
  | ok f t =>
    rw [h2] at h h1
    obtain ⟨g1, u1, ⟨l1, s1, a1⟩, n1⟩ := h1
    obtain ⟨hb, n1⟩ := n1 hN
    dsimp only at h
    cases hp : f.frame.payload with
    | method id r =>
      rw [hp] at h
      dsimp only at h
      by_cases hid : id = BASIC_DELIVER
      · rw [if_pos hid] at h
        subst hid
        unfold takeDelivery at h
        split at h
        · rename_i tag dt red ex rk hr1 hr2 hr3 hr4 hr5
          dsimp only [mallocDup] at h
          split at h
          · have al : Alloced t (smallAlloc E (smallAlloc E (smallAlloc E t).2).2).2 :=
              ((smallAlloc_alloced E _).trans (smallAlloc_alloced E _)).trans (smallAlloc_alloced E _)
            obtain ⟨c2, a2⟩ := (Calm.mk g1 u1 n1).alloced al
            revert h
            cases h3 : readMessage E f.frame.channel (smallAlloc E (smallAlloc E (smallAlloc E t).2).2).2 with
            | err e t => intro h; cases h
            | ub => intro h; cases h
            | fuel => intro h; cases h
            | ok o u =>
              cases o with
              | serverException id args => intro h; cases h
              | libraryException e => intro h; cases h
              | normal m =>
                intro h
                cases h
                obtain ⟨_, cls, size, ps, bs, k1, k2, k3, a3⟩ := readMessage_acc c2 h3
                obtain ⟨l2, k4, k5⟩ := (a2 f.frame.channel).trans a3
                have hf : f.frame = ⟨f.frame.channel, .method BASIC_DELIVER r⟩ := by rw [← hp]
                have key : ∀ X, pending E s (recvBytes (l1 ++ l2) ++ X) = f.frame :: pending E t (recvBytes l2 ++ X) := by
                  intro X
                  rw [recvBytes_append, List.append_assoc, a1]
                  simp [hb]
                refine ⟨r, cls, size, ps, bs, l1 ++ l2, ?_, hr1, hr2, hr3, hr4, hr5, k1, k2, by rw [k3, copiedProps_eq], fun X => ?_⟩
                · unfold Since at *; rw [k4, s1, List.append_assoc]
                · rw [key X]
                  exact ⟨by rw [List.head?_cons, ← hf], by rw [List.tail_cons]; exact k5 X⟩
          · cases h
        · cases h
      · rw [if_neg hid] at h; exact (putBack_not_normal h).elim
    | header a b c d => rw [hp] at h; exact (putBack_not_normal h).elim
    | body b => rw [hp] at h; exact (putBack_not_normal h).elim
    | heartbeat => rw [hp] at h; exact (putBack_not_normal h).elim
    | protocolHeader a b c d => rw [hp] at h; exact (putBack_not_normal h).elim
    | other t => rw [hp] at h; exact (putBack_not_normal h).elim

/-- C45: an empty consumer tag, exchange or routing key needs no memory (malloc(0) may answer NULL), so it does not keep a message from
being returned: only a field with contents whose copy is refused ends the call with NO_MEMORY. -/
theorem C45_empty_fields {E : NetEnv} {tv : Option TimeVal} {ch : UInt16} {args : Rec} {born : Nat} {dt : UInt64} {red : Int32} {s t : Conn}
    (hw : waitFrame E tv s = .ok ⟨⟨ch, .method BASIC_DELIVER args⟩, born⟩ t)
    (h1 : args.get? .consumer_tag = some (.bytes [])) (h2 : args.get? .delivery_tag = some (.u64 dt))
    (h3 : args.get? .redelivered = some (.bool red)) (h4 : args.get? .exchange = some (.bytes []))
    (h5 : args.get? .routing_key = some (.bytes [])) :
    ∃ t', Alloced t t' ∧ ∀ m u, readMessage E ch t' = .ok (.normal m) u →
      consumeMessage E tv s = .ok (.normal ⟨ch, [], dt, red, [], [], m⟩) u := by
  refine ⟨(smallAlloc E (smallAlloc E (smallAlloc E t).2).2).2,
    ((smallAlloc_alloced E _).trans (smallAlloc_alloced E _)).trans (smallAlloc_alloced E _), fun m u hm => ?_⟩
  unfold consumeMessage
  rw [hw]
  dsimp only
  rw [if_pos rfl]
  unfold takeDelivery
  rw [h1, h2, h3, h4, h5]
  dsimp only [mallocDup]
  rw [hm]
  rfl

/-- A body of three octets in two frames, with a body frame of another channel in between; a content type of one octet. -/
def headerBytes : Bytes := [2, 0, 1, 0, 0, 0, 16, 0, 60, 0, 0, 0, 0, 0, 0, 0, 0, 0, 3, 128, 0, 1, 88, 206]
def deliverBytes : Bytes := [1, 0, 1, 0, 0, 0, 19, 0, 60, 0, 60, 1, 84, 0, 0, 0, 0, 0, 0, 0, 7, 1, 1, 69, 1, 75, 206]
def messageEnv : NetEnv := netEnv [] [] [(0, .data (deliverBytes ++ headerBytes ++ [3, 0, 1, 0, 0, 0, 2, 65, 66, 206] ++ [3, 0, 2, 0, 0, 0, 1, 90, 206] ++ [3, 0, 1, 0, 0])), (6, .data [0, 1, 67, 206])] []

def Outcome.normal? {α : Type} : Outcome α → Option α
  | .normal a => some a
  | _ => none
def Outcome.status? {α : Type} : Outcome α → Option Int
  | .libraryException e => some e
  | _ => none

example : let r := consumeMessage messageEnv none (demoConn 64)
    (r.val?.bind (·.normal?)).map (fun e => ([e.channel.toNat, e.deliveryTag.toNat], [e.consumerTag, e.exchange, e.routingKey, e.message.body])) =
      some ([1, 7], [[84], [69], [75], [65, 66, 67]]) ∧
    r.state?.map (fun s => s.queue.map (·.frame.bodyOf)) = some [(2, [90])] := by decide +kernel

/-- A body frame that would make the body longer than declared is refused. -/
example : (readMessage (netEnv [] [] [(0, .data (headerBytes ++ [3, 0, 1, 0, 0, 0, 4, 65, 66, 67, 68, 206]))] []) 1 (demoConn 64)).val?.bind (·.status?) =
    some St.BAD_AMQP_DATA := by decide +kernel


/-! ## C46 -/

theorem putBackIgnored_mem {E : NetEnv} (hM : ∀ n, E.pe.alloc n = true) (f : DFrame) (s : Conn) :
    ∃ s', putBackIgnored E f s = .ok () s' ∧ putBackFrame E f s = .ok () s' := by
  have h : ∃ s', putBackFrame E f s = .ok () s' := by
    unfold putBackFrame createLink
    obtain ⟨p, hp⟩ := getPool_true hM s.ps f.frame.channel
    rw [hp]
    dsimp only [smallAlloc]
    rw [hM, hM]
    exact ⟨_, rfl⟩
  obtain ⟨s', h⟩ := h
  exact ⟨s', by unfold putBackIgnored; rw [h], h⟩

/-- Putting back keeps everything pending, the frame first. -/
theorem putBack_pending {E : NetEnv} {f : DFrame} {t s' : Conn} (hG : Good t.ps) (hb : f.frame.isHeartbeat = false)
    (h : putBackFrame E f t = .ok () s') : s'.log = t.log ∧ ∀ X, pending E s' X = f.frame :: pending E t X := by
  obtain ⟨⟨_, l, hl, he⟩, hq, _, _, _, _, hi, hlog⟩ := putBackFrame_eff hG h
  have hl0 : l = [] := by
    unfold Since at hl
    rw [hlog] at hl
    simpa using hl.symm
  subst hl0
  refine ⟨hlog, fun X => ?_⟩
  unfold pending
  have := he X
  simp only [recvBytes, List.flatMap_nil, List.nil_append] at this
  rw [hq, ← this]
  simp [hb]

/-- What it means that a call took no frame and left `f` the next one to be delivered: everything pending is still pending, `f` is the first
of these frames, and waiting (without a timeout) delivers it. -/
def LeftPending (E : NetEnv) (s : Conn) (f : DFrame) (s' : Conn) : Prop :=
  (∃ l, Since s s' l ∧ ∀ X, pending E s' X = pending E s (recvBytes l ++ X) ∧ (pending E s' X).head? = some f.frame) ∧
  ∃ s'', waitFrame E none s' = .ok f s''

theorem leftPending_of_putBack {E : NetEnv} {tv : Option TimeVal} {f : DFrame} {s t s' : Conn} (hI : InUse E s) (hU : Unblocked E s)
    (hN : ∀ g ∈ s.queue, g.frame.isHeartbeat = false) (hw : waitFrame E tv s = .ok f t) (h : putBackFrame E f t = .ok () s') :
    LeftPending E s f s' := by
  have h1 := waitFrame_acc tv hI.good hU
  rw [hw] at h1
  obtain ⟨g1, u1, ⟨l1, s1, a1⟩, n1⟩ := h1
  obtain ⟨hb, n1⟩ := n1 hN
  obtain ⟨k1, k2⟩ := putBack_pending g1 hb h
  refine ⟨⟨l1, by unfold Since at *; rw [k1, s1], fun X => ⟨?_, by rw [k2]; rfl⟩⟩, ?_⟩
  · rw [k2, a1]; simp [hb]
  · obtain ⟨s'', h', _⟩ := C28_put_back_delivered h
    exact ⟨s'', h'⟩

/-- C46, as long as memory does not run out: if the next frame (the one amqp_simple_wait_frame_noblock would deliver) is not a
basic.deliver, amqp_consume_message returns UNEXPECTED_STATE, takes no frame, and this frame is still the next one.  Missing: putting the frame
back needs memory, and when there is none the frame is lost (`C46_frame_lost`). -/
theorem C46_not_a_delivery_partial {E : NetEnv} {tv : Option TimeVal} {f : DFrame} {s t : Conn} (hI : InUse E s) (hU : Unblocked E s)
    (hN : ∀ g ∈ s.queue, g.frame.isHeartbeat = false) (hM : ∀ n, E.pe.alloc n = true) (hw : waitFrame E tv s = .ok f t)
    (hf : ∀ args, f.frame.payload ≠ .method BASIC_DELIVER args) :
    ∃ s', consumeMessage E tv s = .ok (.libraryException St.UNEXPECTED_STATE) s' ∧ LeftPending E s f s' := by
  obtain ⟨s', h1, h2⟩ := putBackIgnored_mem hM f t
  refine ⟨s', ?_, leftPending_of_putBack hI hU hN hw h2⟩
  unfold consumeMessage
  rw [hw]
  dsimp only
  cases hp : f.frame.payload with
  | method id r =>
    dsimp only
    have hid : id ≠ BASIC_DELIVER := fun he => hf r (by rw [hp, he])
    rw [if_neg hid, h1]
  | header a b c d => dsimp only; rw [h1]
  | body b => dsimp only; rw [h1]
  | heartbeat => dsimp only; rw [h1]
  | protocolHeader a b c d => dsimp only; rw [h1]
  | other t => dsimp only; rw [h1]

/-- C46: when no frame is delivered, amqp_consume_message reports the status of the wait. -/
theorem C46_wait_failed {E : NetEnv} {tv : Option TimeVal} {e : Int} {s t : Conn} (hw : waitFrame E tv s = .err e t) :
    consumeMessage E tv s = .ok (.libraryException e) t := by
  unfold consumeMessage
  rw [hw]

/-- An environment where every allocation after the first `n` fails. -/
def scarce (n : Nat) (E : NetEnv) : NetEnv := { E with pe := { E.pe with alloc := fun k => decide (k < n) } }

/-- A body frame is queued, and there is no memory. -/
def poorEnv : NetEnv := scarce 0 (netEnv [] [] [] [])
def queuedConn : Conn := { demoConn 64 with queue := [bodyOn 1 [65]] }
theorem queuedConn_wait (E : NetEnv) : waitFrame E none queuedConn = .ok (bodyOn 1 [65]) { queuedConn with queue := [] } := rfl
theorem poor_putBack : ∃ s', putBackIgnored poorEnv (bodyOn 1 [65]) { queuedConn with queue := [] } = .ok () s' ∧ s'.queue = [] ∧
    s'.inb = [] := by
  unfold putBackIgnored putBackFrame createLink getPool
  rw [if_neg (by show ¬ (1 : UInt16) ∈ ([] : List UInt16); simp), if_neg (by show ¬ decide (0 < 0) = true; simp)]
  exact ⟨_, rfl, rfl, rfl⟩
theorem queuedConn_inUse (E : NetEnv) : InUse E queuedConn := ⟨demoParser_live _ _, fun h => nomatch h⟩

/-- C46 fails without memory: the frame is gone. -/
theorem C46_frame_lost : ∃ (E : NetEnv) (s s' : Conn) (f : DFrame) (t : Conn), InUse E s ∧ Unblocked E s ∧ s.queue = [f] ∧
    waitFrame E none s = .ok f t ∧ (∀ args, f.frame.payload ≠ .method BASIC_DELIVER args) ∧
    consumeMessage E none s = .ok (.libraryException St.UNEXPECTED_STATE) s' ∧ s'.queue = [] ∧ s'.inb = [] := by
  obtain ⟨s', h1, h2, h3⟩ := poor_putBack
  refine ⟨poorEnv, queuedConn, s', bodyOn 1 [65], _, queuedConn_inUse _, Or.inr ⟨(by decide : (0 : Int) ≤ 0), rfl, rfl⟩, rfl,
    queuedConn_wait _, (fun args h => nomatch h), ?_, h2, h3⟩
  unfold consumeMessage
  rw [queuedConn_wait]
  show (match putBackIgnored poorEnv (bodyOn 1 [65]) { queuedConn with queue := [] } with
    | .ok () s => .ok (.libraryException St.UNEXPECTED_STATE) s
    | .err e s => .err e s
    | .ub => .ub
    | .fuel => .fuel : Res Conn (Outcome _)) = _
  rw [h1]

/-- A channel.close arrives instead of a delivery. -/
def closeBytes : Bytes := [1, 0, 1, 0, 0, 0, 11, 0, 20, 0, 40, 0, 200, 0, 0, 0, 0, 0, 206]
example : let E := netEnv [] [] [(0, .data closeBytes)] []
    let r := consumeMessage E none (demoConn 64)
    r.val?.bind (·.status?) = some St.UNEXPECTED_STATE ∧ r.state?.map (fun s => s.queue.map (·.frame.channel.toNat)) = some [1] := by decide +kernel

/-! ## C47 -/

/-- Is it a confirmation? -/
def isConfirm (f : AFrame) : Prop := ∃ id args, f.payload = .method id args ∧ (id = BASIC_ACK ∨ id = BASIC_NACK ∨ id = BASIC_REJECT)

/-- C47 (yes): if the next frame is basic.ack, basic.nack or basic.reject, amqp_publisher_confirm_wait returns its channel, method and
arguments, and has done nothing else. -/
theorem C47_confirmation {E : NetEnv} {tv : Option TimeVal} {f : DFrame} {s t : Conn} {id : UInt32} {args : Rec}
    (hw : waitFrame E tv s = .ok f t) (hp : f.frame.payload = .method id args)
    (hid : id = BASIC_ACK ∨ id = BASIC_NACK ∨ id = BASIC_REJECT) :
    confirmWait E tv s = .ok (.normal ⟨f.frame.channel, id, args⟩) t := by
  unfold confirmWait
  rw [hw]
  dsimp only
  rw [hp]
  dsimp only
  rw [if_neg (by rintro ⟨a, b, c⟩; rcases hid with h | h | h <;> contradiction)]

/-- C47 (only then). -/
theorem C47_only_confirmations {E : NetEnv} {tv : Option TimeVal} {c : Confirm} {s t : Conn}
    (h : confirmWait E tv s = .ok (.normal c) t) :
    ∃ f, waitFrame E tv s = .ok f t ∧ f.frame = ⟨c.channel, .method c.method c.args⟩ ∧
      (c.method = BASIC_ACK ∨ c.method = BASIC_NACK ∨ c.method = BASIC_REJECT) := by
  unfold confirmWait at h
  cases hw : waitFrame E tv s with
  | err e t => rw [hw] at h; cases h
  | ub => rw [hw] at h; cases h
  | fuel => rw [hw] at h; cases h
  | ok f u =>
    rw [hw] at h
    dsimp only at h
    cases hp : f.frame.payload with
    | method id r =>
      rw [hp] at h
      dsimp only at h
      by_cases hid : id ≠ BASIC_ACK ∧ id ≠ BASIC_NACK ∧ id ≠ BASIC_REJECT
      · rw [if_pos hid] at h; exact (putBack_not_normal h).elim
      · rw [if_neg hid] at h
        cases h
        refine ⟨f, rfl, by rw [← hp], ?_⟩
        by_cases h1 : id = BASIC_ACK
        · exact Or.inl h1
        by_cases h2 : id = BASIC_NACK
        · exact Or.inr (Or.inl h2)
        by_cases h3 : id = BASIC_REJECT
        · exact Or.inr (Or.inr h3)
        exact absurd ⟨h1, h2, h3⟩ hid
    | header a b c d => rw [hp] at h; exact (putBack_not_normal h).elim
    | body b => rw [hp] at h; exact (putBack_not_normal h).elim
    | heartbeat => rw [hp] at h; exact (putBack_not_normal h).elim
    | protocolHeader a b c d => rw [hp] at h; exact (putBack_not_normal h).elim
    | other t => rw [hp] at h; exact (putBack_not_normal h).elim

/-- C47 (no), as long as memory does not run out: on any other frame it returns UNEXPECTED_STATE, takes no frame, and this frame is still the
next one.  Missing: without memory the frame is lost (`C47_frame_lost`). -/
theorem C47_other_frames_partial {E : NetEnv} {tv : Option TimeVal} {f : DFrame} {s t : Conn} (hI : InUse E s) (hU : Unblocked E s)
    (hN : ∀ g ∈ s.queue, g.frame.isHeartbeat = false) (hM : ∀ n, E.pe.alloc n = true) (hw : waitFrame E tv s = .ok f t)
    (hf : ¬ isConfirm f.frame) :
    ∃ s', confirmWait E tv s = .ok (.libraryException St.UNEXPECTED_STATE) s' ∧ LeftPending E s f s' := by
  obtain ⟨s', h1, h2⟩ := putBackIgnored_mem hM f t
  refine ⟨s', ?_, leftPending_of_putBack hI hU hN hw h2⟩
  unfold confirmWait
  rw [hw]
  dsimp only
  cases hp : f.frame.payload with
  | method id r =>
    dsimp only
    have hid : id ≠ BASIC_ACK ∧ id ≠ BASIC_NACK ∧ id ≠ BASIC_REJECT :=
      ⟨fun h => hf ⟨id, r, hp, Or.inl h⟩, fun h => hf ⟨id, r, hp, Or.inr (Or.inl h)⟩, fun h => hf ⟨id, r, hp, Or.inr (Or.inr h)⟩⟩
    rw [if_pos hid, h1]
  | header a b c d => dsimp only; rw [h1]
  | body b => dsimp only; rw [h1]
  | heartbeat => dsimp only; rw [h1]
  | protocolHeader a b c d => dsimp only; rw [h1]
  | other t => dsimp only; rw [h1]

/-- C47: when no frame is delivered, the status of the wait is reported. -/
theorem C47_wait_failed {E : NetEnv} {tv : Option TimeVal} {e : Int} {s t : Conn} (hw : waitFrame E tv s = .err e t) :
    confirmWait E tv s = .ok (.libraryException e) t := by
  unfold confirmWait
  rw [hw]

theorem C47_frame_lost : ∃ (E : NetEnv) (s s' : Conn) (f : DFrame) (t : Conn), InUse E s ∧ Unblocked E s ∧ s.queue = [f] ∧
    waitFrame E none s = .ok f t ∧ ¬ isConfirm f.frame ∧
    confirmWait E none s = .ok (.libraryException St.UNEXPECTED_STATE) s' ∧ s'.queue = [] ∧ s'.inb = [] := by
  obtain ⟨s', h1, h2, h3⟩ := poor_putBack
  refine ⟨poorEnv, queuedConn, s', bodyOn 1 [65], _, queuedConn_inUse _, Or.inr ⟨(by decide : (0 : Int) ≤ 0), rfl, rfl⟩, rfl,
    queuedConn_wait _, (fun ⟨_, _, h, _⟩ => nomatch h), ?_, h2, h3⟩
  unfold confirmWait
  rw [queuedConn_wait]
  show (match putBackIgnored poorEnv (bodyOn 1 [65]) { queuedConn with queue := [] } with
    | .ok () s => .ok (.libraryException St.UNEXPECTED_STATE) s
    | .err e s => .err e s
    | .ub => .ub
    | .fuel => .fuel : Res Conn (Outcome _)) = _
  rw [h1]

def ackBytes : Bytes := [1, 0, 1, 0, 0, 0, 13, 0, 60, 0, 80, 0, 0, 0, 0, 0, 0, 0, 5, 1, 206]
example : let E := netEnv [] [] [(0, .data ackBytes)] []
    (((confirmWait E none (demoConn 64)).val?.bind (·.normal?)).map fun c => [c.channel.toNat, c.method.toNat]) = some [1, 0x003C0050] := by
  decide +kernel
example : let E := netEnv [] [] [(0, .data frameA)] []
    let r := confirmWait E none (demoConn 64)
    r.val?.bind (·.status?) = some St.UNEXPECTED_STATE ∧ r.state?.map (fun s => s.queue.map (·.frame.bodyOf)) = some [(1, [65])] := by decide +kernel

end Rmq
