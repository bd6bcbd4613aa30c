import Verif.Spec.Reads
import Verif.Proofs.ReadOut
import Verif.Props.Arrive
/-!
# C95: what reading a message yields
-/
namespace Rmq

/-- C95: whatever amqp_read_message returns, it is what the frames on the channel say (`Reads`: a message; the server's channel.close or
connection.close; UNEXPECTED_STATE for anything else in the place of the header, which is left unread; BAD_AMQP_DATA for anything else
in the place of the body), and all other frames are still to be read; or the status with which a wait for a frame failed; or the properties in
the header cannot be copied. -/
theorem C95_read_message {E : NetEnv} (hA : ∀ k, E.pe.alloc k = true) {ch : UInt16} {o : Outcome Message} {s s' : Conn} (hI : InUse E s)
    (hU : Unblocked E s) (hN : ∀ g ∈ s.queue, g.frame.isHeartbeat = false) (h : readMessage E ch s = .ok o s') :
    (∃ found kept, Reads ch found kept o ∧ Found E ch s s' found kept) ∨
    (∃ e, o = .libraryException e ∧ WaitFailed E ch e s') ∨
    ∃ e cls size flags props l, o = .libraryException e ∧ ¬ (KindProps props ∧ KeyedProps props) ∧ Since s s' l ∧
      ∀ X, ((pending E s (recvBytes l ++ X)).filter (·.channel == ch)).head? = some ⟨ch, .header cls size flags props⟩ :=
  readMessage_out hA ⟨hI.good, hU, hN⟩ h

/-- C95: the frames leave no choice: of two lists of frames that can be read and begin alike, one result and one rest. -/
theorem C95_unique {ch : UInt16} {found found' kept kept' X Y : List AFrame} {o o' : Outcome Message} (h : Reads ch found kept o)
    (h' : Reads ch found' kept' o') (he : found ++ X = found' ++ Y) : found = found' ∧ kept = kept' ∧ o = o' := h.unique h' he

/-- C95: so, if the frames pending on the channel can be read as `o`, then `o` is what a read yields — unless waiting fails, or the
properties cannot be copied. -/
theorem C95_determined {E : NetEnv} (hA : ∀ k, E.pe.alloc k = true) {ch : UInt16} {o o' : Outcome Message} {s s' : Conn} (hI : InUse E s)
    (hU : Unblocked E s) (hN : ∀ g ∈ s.queue, g.frame.isHeartbeat = false) {found kept rest : List AFrame} {l : List Ev} {X : Bytes}
    (hr : Reads ch found kept o) (hl : Since s s' l) (hp : (pending E s (recvBytes l ++ X)).filter (·.channel == ch) = found ++ rest)
    (hc : ∀ cls size flags props, found.head? = some ⟨ch, .header cls size flags props⟩ → KindProps props ∧ KeyedProps props)
    (h : readMessage E ch s = .ok o' s') :
    (o' = o ∧ Found E ch s s' found kept) ∨ ∃ e, o' = .libraryException e ∧ WaitFailed E ch e s' := by
  rcases C95_read_message hA hI hU hN h with ⟨found', kept', h1, h2⟩ | hw | ⟨e, cls, size, flags, props, l', h1, h2, h3, h4⟩
  · obtain ⟨l', hl', h3⟩ := h2
    have e : l' = l := by
      unfold Since at hl hl'
      rw [hl] at hl'
      exact (List.append_cancel_left hl').symm
    subst e
    obtain ⟨rest', h4, h5⟩ := h3 X
    obtain ⟨rfl, rfl, rfl⟩ := hr.unique h1 (hp.symm.trans h4)
    exact Or.inl ⟨rfl, l', hl', h3⟩
  · exact Or.inr hw
  · exfalso
    have e : l' = l := by
      unfold Since at hl h3
      rw [hl] at h3
      exact (List.append_cancel_left h3).symm
    subst e
    have h5 := h4 X
    rw [hp] at h5
    refine h2 (hc cls size flags props ?_)
    rcases hr.split with ⟨_, _, _, _, _, _, _, rfl, _⟩ | ⟨f, rfl, _⟩ <;> exact h5

/-- C95, the server's closing in particular: if it closes the channel while, or before, a message is sent on it, a read returns
SERVER_EXCEPTION with the server's method, unless waiting fails. -/
theorem C95_closed {E : NetEnv} (hA : ∀ k, E.pe.alloc k = true) {ch : UInt16} {o : Outcome Message} {s s' : Conn} (hI : InUse E s)
    (hU : Unblocked E s) (hN : ∀ g ∈ s.queue, g.frame.isHeartbeat = false) {id : UInt32} {args : Rec} (hid : id = 0x00140028 ∨ id = 0x000A0032)
    {rest : List AFrame} {l : List Ev} {X : Bytes} (hl : Since s s' l)
    (hp : (pending E s (recvBytes l ++ X)).filter (·.channel == ch) = ⟨ch, .method id args⟩ :: rest ∨
      ∃ cls size flags props, ∃ bodies : List Bytes, bodies.flatten.length < UInt64.toNat size ∧ (KindProps props ∧ KeyedProps props) ∧
        (pending E s (recvBytes l ++ X)).filter (·.channel == ch) =
          ⟨ch, .header cls size flags props⟩ :: (bodies.map fun b => ⟨ch, .body b⟩) ++ ⟨ch, .method id args⟩ :: rest)
    (h : readMessage E ch s = .ok o s') :
    o = .serverException id args ∨ ∃ e, o = .libraryException e ∧ WaitFailed E ch e s' := by
  rcases hp with hp | ⟨cls, size, flags, props, bodies, h1, h2, hp⟩
  · exact (C95_determined hA hI hU hN (.closed hid) hl (by simpa using hp) (fun _ _ _ _ hh => by cases hh) h).imp And.left (fun h => h)
  · refine (C95_determined (rest := rest) hA hI hU hN (.closedWithin (cls := cls) (size := size) (flags := flags) (props := props) (bodies := bodies) (.closed h1 hid)) hl
      (by simpa using hp) (fun _ _ _ _ hh => ?_) h).imp And.left (fun h => h)
    cases hh
    exact h2

/-- C95: amqp_consume_message returns what reading the message of the delivery yields. -/
theorem C95_consume {E : NetEnv} (hA : ∀ k, E.pe.alloc k = true) {tv : Option TimeVal} {f : DFrame} {args : Rec} {o : Outcome Envelope} {s t s' : Conn}
    (hI : InUse E s) (hU : Unblocked E s) (hN : ∀ g ∈ s.queue, g.frame.isHeartbeat = false) (hw : waitFrame E tv s = .ok f t)
    (hf : f.frame.payload = .method 0x003C003C args) (h : consumeMessage E tv s = .ok o s') :
    (∃ found kept om, Reads f.frame.channel found kept om ∧ Found E f.frame.channel t s' found kept ∧
      match om with
      | .normal m => ∃ env, o = .normal env ∧ env.message = m
      | .serverException id args => o = .serverException id args
      | .libraryException e => o = .libraryException e) ∨
    (∃ e, o = .libraryException e ∧ WaitFailed E f.frame.channel e s') ∨
    ∃ e cls size flags props l, o = .libraryException e ∧ ¬ (KindProps props ∧ KeyedProps props) ∧ Since t s' l ∧
      ∀ X, ((pending E t (recvBytes l ++ X)).filter (·.channel == f.frame.channel)).head? = some ⟨f.frame.channel, .header cls size flags props⟩ := by
  have h1 := waitFrame_acc tv hI.good hU
  rw [hw] at h1
  obtain ⟨g1, u1, _, n1⟩ := h1
  obtain ⟨_, n1⟩ := n1 hN
  have hC : Calm E t := ⟨g1, u1, n1⟩
  unfold consumeMessage at h
  rw [hw] at h
  dsimp only at h
  rw [hf] at h
  dsimp only at h
  rw [if_pos (show (0x003C003C : UInt32) = BASIC_DELIVER from rfl)] at h
  unfold takeDelivery at h
  split at h
  · dsimp only [mallocDup] at h
    split at h
    · let t' := (smallAlloc E (smallAlloc E (smallAlloc E t).2).2).2
      have al : Alloced t t' := ((smallAlloc_alloced E _).trans (smallAlloc_alloced E _)).trans (smallAlloc_alloced E _)
      have hlog : t'.log = t.log := by obtain ⟨a, e⟩ := al; rw [e]
      obtain ⟨c', acc⟩ := hC.alloced al
      have hpen : ∀ X, (pending E t X).filter (·.channel == f.frame.channel) = (pending E t' X).filter (·.channel == f.frame.channel) := by
        intro X
        obtain ⟨l, hl, ha⟩ := acc f.frame.channel
        have : l = [] := by
          unfold Since at hl
          rw [hlog] at hl
          simpa using hl.symm
        subst this
        exact ha X
      have hS : ∀ {u l}, Since t' u l → Since t u l := by intro u l hh; unfold Since at *; rw [hh, hlog]
      cases hr : readMessage E f.frame.channel t' with
      | err e u => rw [hr] at h; cases h
      | ub => rw [hr] at h; cases h
      | fuel => rw [hr] at h; cases h
      | ok om u =>
        rw [hr] at h
        have key := readMessage_out hA c' hr
        have hu : u = s' := by cases om <;> cases h <;> rfl
        subst hu
        rcases key with ⟨found, kept, k1, l, k2, k3⟩ | ⟨e, rfl, k2⟩ | ⟨e, cls, size, flags, props, l, rfl, k2, k3, k4⟩
        · refine Or.inl ⟨found, kept, om, k1, ⟨l, hS k2, fun X => ?_⟩, ?_⟩
          · obtain ⟨rest, k4, k5⟩ := k3 X
            exact ⟨rest, by rw [hpen]; exact k4, k5⟩
          · cases om <;> cases h
            · exact ⟨_, rfl, rfl⟩
            · rfl
            · rfl
        · cases h
          exact Or.inr (Or.inl ⟨e, rfl, k2⟩)
        · cases h
          exact Or.inr (Or.inr ⟨e, cls, size, flags, props, l, rfl, k2, hS k3, fun X => by rw [hpen]; exact k4 X⟩)
    · rename_i hn
      exfalso
      apply hn
      simp [smallAlloc, hA]
  · cases h

/-! The cases occur: a channel.close in the place of the header, one in the middle of the body, an ack in the place of the header, and
another message's header in the middle of the body. -/
def hangUp : Bytes := [1, 0, 1, 0, 0, 0, 11, 0, 20, 0, 40, 1, 64, 0, 0, 0, 0, 0, 206]
def Outcome.closeId? {α : Type} : Outcome α → Option UInt32
  | .serverException id _ => some id
  | _ => none
def readEnv (b : Bytes) : NetEnv := netEnv [] [] [(0, .data b)] []
example : (readMessage (readEnv hangUp) 1 (demoConn 64)).val?.bind (·.closeId?) = some 0x00140028 := by decide +kernel
example : (readMessage (readEnv (headerBytes ++ [3, 0, 1, 0, 0, 0, 1, 65, 206] ++ hangUp)) 1 (demoConn 64)).val?.bind (·.closeId?) = some 0x00140028 := by decide +kernel
example : let r := readMessage (readEnv [1, 0, 1, 0, 0, 0, 13, 0, 60, 0, 80, 0, 0, 0, 0, 0, 0, 0, 7, 0, 206]) 1 (demoConn 64)
    r.val?.bind (·.status?) = some (-0x10) ∧ r.state?.map (·.queue.length) = some 1 := by decide +kernel
example : let r := readMessage (readEnv (headerBytes ++ headerBytes)) 1 (demoConn 64)
    r.val?.bind (·.status?) = some (-0x02) ∧ r.state?.map (·.queue.length) = some 0 := by decide +kernel
example (s : Conn) (h : s.queue = []) : ∀ g ∈ s.queue, g.frame.isHeartbeat = false := by rw [h]; exact fun g hg => nomatch hg

/-- C95 says "on the channel".  A connection.close comes on channel 0: a reader of another channel does not see it, and goes on waiting — here
until the server, having waited in vain for the answer, hangs up; then it is told CONNECTION_CLOSED, not SERVER_EXCEPTION, and the server's reason sits
in the queue. -/
theorem C95_connection_close_unseen :
    let E := { readEnv [] with recv := fun t _ => if t = 0 then .data [1, 0, 0, 0, 0, 0, 11, 0, 10, 0, 50, 1, 64, 0, 0, 0, 0, 0, 206] else .fail 6 }
    let r := readMessage E 1 (demoConn 64)
    r.val?.bind (·.closeId?) = none ∧ r.val?.bind (·.status?) = some St.CONNECTION_CLOSED ∧
    r.state?.map (fun s => s.queue.map (·.frame.channel)) = some [0] := by decide +kernel

end Rmq
