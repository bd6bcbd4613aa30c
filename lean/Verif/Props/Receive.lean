import Verif.Proofs.Held
import Verif.Props.Send
import Verif.Proofs.Channels
import Verif.Proofs.Consume
/-!
# C26–C30, C32, C33, C56: receiving
-/
namespace Rmq

theorem demoConn_inUse (E : NetEnv) (fm : Nat) : InUse E (demoConn fm) := ⟨demoParser_live _ _, fun h => nomatch h⟩

/-! ## C26 -/

/-- C26, as long as no wait is held up by the sending of a heartbeat (these get through, or are off; everything else may be held up):
whatever sequence of waits, timeouts, retries, sends and releases, the frames delivered are exactly the first ones of those queued or
arriving, in order; the rest is still to come.  `X` is whatever arrives later.  Missing: heartbeats that
block while waiting —
`C26_frame_lost` shows that frames can be lost then. -/
theorem C26_in_order_exactly_once_partial {E : NetEnv} {s s' : Conn} {fs : List AFrame} (hI : InUse E s) (hU : Unblocked E s)
    (hR : Run E s fs s') :
    ∃ l, Since s s' l ∧ ∀ X, pending E s (recvBytes l ++ X) = fs.filter (!·.isHeartbeat) ++ pending E s' X :=
  hR.acc hI.good hU

theorem Run.nohb {E : NetEnv} {s s' : Conn} {fs : List AFrame} (hR : Run E s fs s') : Unhurried E s → NoHb s →
    ∀ f ∈ fs, f.isHeartbeat = false := by
  induction hR with
  | done s => simp
  | @frame s t u tv f fs hw _ ih =>
    intro hU hN
    have h := (nohb_upper E).waitFrame tv ⟨hU, hN⟩
    rw [hw] at h
    intro g hg
    rcases List.mem_cons.1 hg with rfl | hg
    · exact h.2
    · exact ih h.1.1 h.1.2 g hg
  | @timedOut s t u tv fs hw _ ih =>
    intro hU hN
    have h := (nohb_upper E).waitFrame tv ⟨hU, hN⟩
    rw [hw] at h
    exact ih h.1 h.2
  | @sent s t u f fl d fs hd hw _ ih =>
    intro hU hN
    have h := (nohb_upper E).sendFrame f fl d hd ⟨hU, hN⟩
    rw [hw] at h
    exact ih h.1 h.2
  | @sendTimedOut s t u f fl d fs hd hw _ ih =>
    intro hU hN
    have h := (nohb_upper E).sendFrame f fl d hd ⟨hU, hN⟩
    rw [hw] at h
    exact ih h.1 h.2
  | @released s u fs _ ih =>
    intro hU hN
    have h := (nohb_upper E).maybeRelease ⟨hU, hN⟩
    exact ih h.1 h.2
  | @releasedOn s u ch fs _ ih =>
    intro hU hN
    have h := (nohb_upper E).release ch ⟨hU, hN⟩
    exact ih h.1 h.2

/-- C26 on the wire: a connection with nothing pending is sent the frames `frames`, of which `received` has arrived so far in whatever
pieces.  The frames delivered are the first non-heartbeat ones of these, each once, and those still to be delivered are the rest.  The application sees no heartbeat unless sending blocks (see C29). -/
theorem C26_stream_partial {E : NetEnv} {s s' : Conn} {fs : List AFrame} (hI : InUse E s) (hidle : s.ps.mode = .idle)
    (hempty : s.inb = [] ∧ s.queue = []) (hU : Unblocked E s) (hR : Run E s fs s') :
    (∃ l, Since s s' l ∧ ∀ rest frames, Stream s.ps.frameMax (recvBytes l ++ rest) frames →
      frames.filter (!·.isHeartbeat) = fs.filter (!·.isHeartbeat) ++ pending E s' rest) ∧
    (Unhurried E s → ∀ f ∈ fs, f.isHeartbeat = false) := by
  obtain ⟨l, hl, h⟩ := hR.acc hI.good hU
  refine ⟨⟨l, hl, fun rest frames hS => ?_⟩, fun hU => hR.nohb hU (by unfold NoHb; rw [hempty.2]; simp)⟩
  have h1 := h rest
  unfold pending at h1
  rw [hempty.1, hempty.2, List.nil_append, List.map_nil, List.nil_append,
    framesOf_stream E.pe hS hI.good hidle rfl] at h1
  rw [h1]
  rfl

/-- Frames A and B on channel 1, in the chunks in which they arrive below. -/
def frameA : Bytes := [3, 0, 1, 0, 0, 0, 1, 65, 206]
def frameB : Bytes := [3, 0, 1, 0, 0, 0, 1, 66, 206]

/-- The channel and body bytes of a frame, for the examples. -/
def AFrame.bodyOf (f : AFrame) : Nat × Bytes := (f.channel.toNat, match f.payload with | .body b => b | _ => [])

/-- Both frames, one octet in the first read, a timeout in between. -/
def splitEnv : NetEnv := netEnv [(0, 1), (4, 3)] [] [(1, .data [3]), (3, .fail 0x1300), (6, .data (frameA.drop 1 ++ frameB))] [(5, .timeout)]
example : let r1 := waitFrame splitEnv (some ⟨0, 1⟩) (demoConn 64)
    let r2 := r1.state?.map fun s => waitFrame splitEnv none s
    let r3 := (r2.bind (·.state?)).map fun s => waitFrame splitEnv none s
    r1.errCode? = some St.TIMEOUT ∧ (r2.bind (·.val?)).map (·.frame.bodyOf) = some (1, [65]) ∧
      (r3.bind (·.val?)).map (·.frame.bodyOf) = some (1, [66]) := by decide +kernel
example : InUse splitEnv (demoConn 64) ∧ Unblocked splitEnv (demoConn 64) := ⟨demoConn_inUse _ _, Or.inr ⟨by decide, rfl, rfl⟩⟩

/-- A heartbeat is due, but the transport is blocked until the time by which something should have been received; then frame A is read
so that this deadline moves on, the heartbeat is sent, and reading the next bytes overwrites frame A. -/
def lossEnv : NetEnv := netEnv [(0, 20), (2, 20), (4, 2000000000), (6, 2000000000), (8, 2000000000), (10, 2000000000)]
  [(1, .fail 0x1301), (7, .sent 99)] [(5, .data frameA), (9, .data frameB)] [(3, .timeout)]
def lossConn : Conn := { demoConn 64 with heartbeat := 1, nextSend := 10, nextRecv := 1000000000 }

/-- C26 fails without the hypothesis `Unblocked`: frames A and B are received, only B is delivered, and nothing is left. -/
theorem C26_frame_lost : ∃ (E : NetEnv) (s s' : Conn) (f : DFrame) (l : List Ev), InUse E s ∧ s.queue = [] ∧ s.inb = [] ∧
    waitFrame E none s = .ok f s' ∧ Since s s' l ∧ recvBytes l = frameA ++ frameB ∧ f.frame.bodyOf = (1, [66]) ∧
    (pending E s (recvBytes l)).map (·.bodyOf) = [(1, [65]), (1, [66])] ∧ pending E s' [] = [] := by
  have h : ∀ r : Res Conn DFrame, (r.val?.isSome = true) → ∃ f s', r = .ok f s' := by
    intro r; cases r <;> simp [Res.val?]
  obtain ⟨f, s', h1⟩ := h (waitFrame lossEnv none lossConn) (by decide +kernel)
  have hv : (waitFrame lossEnv none lossConn).val? = some f := by rw [h1]; rfl
  have hs : (waitFrame lossEnv none lossConn).state? = some s' := by rw [h1]; rfl
  refine ⟨lossEnv, lossConn, s', f, s'.log, ⟨demoParser_live _ _, fun h => nomatch h⟩, rfl, rfl, h1, rfl, ?_, ?_, ?_, ?_⟩
  · have : ((waitFrame lossEnv none lossConn).state?.map fun s => recvBytes s.log) = some (frameA ++ frameB) := by decide +kernel
    rw [hs] at this; simpa using this
  · have : ((waitFrame lossEnv none lossConn).val?.map fun f => f.frame.bodyOf) = some (1, [66]) := by decide +kernel
    rw [hv] at this; simpa using this
  · have : ((waitFrame lossEnv none lossConn).state?.map fun s => (pending lossEnv lossConn (recvBytes s.log)).map (·.bodyOf)) =
      some [(1, [65]), (1, [66])] := by decide +kernel
    rw [hs] at this; simpa using this
  · have : ((waitFrame lossEnv none lossConn).state?.map fun s => (pending lossEnv s []).length) = some 0 := by decide +kernel
    rw [hs] at this; simpa using this

/-! ## C27 -/

/-- C27, the order on the channel itself: waiting on a channel returns the earliest frame of this channel among those queued and
arriving, and its other frames stay, in order. -/
theorem C27_channel_order_kept {E : NetEnv} {ch : UInt16} {s s' : Conn} {f : DFrame} (hI : InUse E s) (hU : Unblocked E s)
    (hN : ∀ g ∈ s.queue, g.frame.isHeartbeat = false) (h : waitFrameOn E ch s = .ok f s') :
    f.frame.channel = ch ∧ ∃ l, Since s s' l ∧ ∀ X,
      (pending E s (recvBytes l ++ X)).filter (·.channel == ch) = f.frame :: (pending E s' X).filter (·.channel == ch) := by
  obtain ⟨_, _, _, hc, h⟩ := waitFrameOn_acc ⟨hI.good, hU, hN⟩ h
  exact ⟨hc, h⟩

/-- C27, in full as long as no queued frame of another channel is ahead of the one returned: the frame returned is the earliest of its
channel, and every other pending frame is still pending, in its original order.  Missing: the case where the queue holds frames of
other channels and then a frame of this channel — `C27_earlier_frames_lost` says what happens then. -/
theorem C27_others_kept_partial {E : NetEnv} {ch : UInt16} {s s' : Conn} {f : DFrame} (hI : InUse E s) (hU : Unblocked E s)
    (hN : ∀ g ∈ s.queue, g.frame.isHeartbeat = false)
    (hQ : (∀ g ∈ s.queue, g.frame.channel ≠ ch) ∨ ∃ g, s.queue.head? = some g ∧ g.frame.channel = ch)
    (h : waitFrameOn E ch s = .ok f s') :
    f.frame.channel = ch ∧ ∃ l before, Since s s' l ∧ (∀ g ∈ before, g.channel ≠ ch) ∧ ∀ X, ∃ after,
      pending E s (recvBytes l ++ X) = before ++ f.frame :: after ∧ pending E s' X = before ++ after := by
  unfold waitFrameOn at h
  rcases hQ with hQ | ⟨g, hg, hc⟩
  · have hf : findQueued ch s.queue = none := by
      cases hf : findQueued ch s.queue with
      | none => rfl
      | some p =>
        obtain ⟨hc, a, ha, _⟩ := findQueued_split hf
        exact absurd hc (hQ p.1 (by rw [ha]; simp))
    rw [hf] at h
    obtain ⟨a1, b1, u1, fs, aside, e1, q1, m1, n1⟩ := waitOnLoop_eff ch _ s s' f hI.good hU h
    obtain ⟨_, l, hl, he⟩ := e1
    refine ⟨b1, l, (s.queue.map (·.frame)).filter (!·.isHeartbeat) ++ fs.filter (!·.isHeartbeat), hl, ?_, fun X =>
      ⟨(framesOf E.pe s'.ps (s'.inb ++ X)).filter (!·.isHeartbeat), ?_, ?_⟩⟩
    · intro x hx
      rcases List.mem_append.1 hx with hx | hx
      · obtain ⟨g, hg, rfl⟩ := List.mem_map.1 (List.mem_filter.1 hx).1
        exact hQ g hg
      · rw [← m1] at hx
        obtain ⟨g, hg, rfl⟩ := List.mem_map.1 hx
        exact n1 g hg
    · unfold pending
      rw [he X]
      simp [List.filter_append, a1]
    · unfold pending
      rw [q1, List.map_append, m1]
      simp [List.filter_append, List.filter_filter]
  · cases hq : s.queue with
    | nil => rw [hq] at hg; cases hg
    | cons g' rest =>
      rw [hq] at hg h
      cases hg
      unfold findQueued at h
      rw [if_pos hc] at h
      cases h
      refine ⟨hc, [], [], by simp [Since], by simp, fun X => ⟨_, ?_, rfl⟩⟩
      unfold pending
      rw [hq]
      have hb : f.frame.isHeartbeat = false := hN f (by rw [hq]; simp)
      show List.filter _ (List.map _ (f :: rest) ++ framesOf E.pe s.ps (s.inb ++ X)) = _
      simp [List.filter_cons, hb]

/-- C27 fails otherwise: queued frames of other channels ahead of the one returned are dropped from the queue. -/
theorem C27_earlier_frames_lost (E : NetEnv) {ch : UInt16} {s : Conn} {f : DFrame} {before after : List DFrame}
    (hq : s.queue = before ++ f :: after) (hc : f.frame.channel = ch) (hb : ∀ g ∈ before, g.frame.channel ≠ ch) :
    waitFrameOn E ch s = .ok f { s with queue := after } := by
  unfold waitFrameOn
  rw [hq]
  have : ∀ q : List DFrame, (∀ g ∈ q, g.frame.channel ≠ ch) → findQueued ch (q ++ f :: after) = some (f, after) := by
    intro q
    induction q with
    | nil => intro _; show findQueued ch (f :: after) = _; unfold findQueued; rw [if_pos hc]
    | cons g q ih =>
      intro h
      show findQueued ch (g :: (q ++ f :: after)) = _
      unfold findQueued
      rw [if_neg (h g (by simp))]
      exact ih fun x hx => h x (by simp [hx])
  rw [this before hb]

def bodyOn (ch : UInt16) (b : Bytes) : DFrame := ⟨⟨ch, .body b⟩, 0⟩

/-- The general situation is met: a frame of channel 2 is queued ahead of one of channel 1; waiting on channel 1 loses it. -/
theorem C27_loss_example (E : NetEnv) : let s := { demoConn 64 with queue := [bodyOn 2 [65], bodyOn 1 [66], bodyOn 2 [67]] }
    waitFrameOn E 1 s = .ok (bodyOn 1 [66]) { s with queue := [bodyOn 2 [67]] } :=
  C27_earlier_frames_lost E (before := [bodyOn 2 [65]]) rfl rfl (by intro g hg; cases List.mem_singleton.1 hg; decide)

/-- Frames of channel 2 arrive first: they are kept. -/
example : let E := netEnv [] [] [(0, .data ([3, 0, 2, 0, 0, 0, 1, 65, 206] ++ frameA))] []
    let r := waitFrameOn E 1 (demoConn 64)
    r.val?.map (·.frame.bodyOf) = some (1, [65]) ∧ r.state?.map (fun s => s.queue.map (·.frame.bodyOf)) = some [(2, [65])] := by decide +kernel

/-! ## C28 -/

/-- C28: a frame put back is the next one amqp_simple_wait_frame delivers, with any timeout, and all else is as before; such a wait can
only fail for want of a clock or with an invalid timeout, and then the frame stays where it is. -/
theorem C28_put_back_is_next {E : NetEnv} {f : DFrame} {s s' : Conn} (h : putBackFrame E f s = .ok () s') (tv : Option TimeVal) :
    match waitFrame E tv s' with
    | .ok g s'' => g = f ∧ s''.queue = s.queue ∧ s''.inb = s.inb ∧ s''.ps = s'.ps
    | .err e s'' => (e = St.INVALID_PARAMETER ∨ e = St.TIMER_FAILURE) ∧ s''.queue = f :: s.queue ∧ s''.inb = s.inb
    | .ub => False
    | .fuel => False := by
  obtain ⟨p, rfl⟩ : ∃ p, s' = { s with ps := p, queue := f :: s.queue } := by
    unfold putBackFrame createLink smallAlloc at h
    revert h
    obtain ⟨b, p⟩ := getPool E.pe s.ps f.frame.channel
    cases b with
    | false => intro h; cases h
    | true =>
      dsimp only
      cases (E.pe.alloc p.allocs && E.pe.alloc (p.allocs + 1)) with
      | false => intro h; cases h
      | true => intro h; cases h; exact ⟨_, rfl⟩
  rw [waitFrame_def]
  have hq := fromNowIO_quiet E tv { s with ps := p, queue := f :: s.queue }
  cases hn : fromNowIO E tv { s with ps := p, queue := f :: s.queue } with
  | ok d t =>
    rw [hn] at hq
    obtain ⟨l, rfl, _⟩ := hq
    exact ⟨rfl, rfl, rfl, rfl⟩
  | err e t =>
    have := fromNowIO_status hn
    rw [hn] at hq
    obtain ⟨l, rfl, _⟩ := hq
    exact ⟨this, rfl, rfl⟩
  | ub => unfold fromNowIO at hn; revert hn; cases tv <;> dsimp only <;> (repeat' split) <;> intro hn <;> cases hn
  | fuel => unfold fromNowIO at hn; revert hn; cases tv <;> dsimp only <;> (repeat' split) <;> intro hn <;> cases hn

/-- C28 without a timeout: it is delivered. -/
theorem C28_put_back_delivered {E : NetEnv} {f : DFrame} {s s' : Conn} (h : putBackFrame E f s = .ok () s') :
    ∃ s'', waitFrame E none s' = .ok f s'' ∧ s''.queue = s.queue ∧ s''.inb = s.inb := by
  have h1 := C28_put_back_is_next h none
  rw [waitFrame_def] at h1 ⊢
  revert h1
  show (match (match s'.queue with | f :: rest => .ok f { s' with queue := rest } | [] => waitFrameInner E TIME_INF s' : Res Conn DFrame) with
    | .ok g s'' => g = f ∧ s''.queue = s.queue ∧ s''.inb = s.inb ∧ s''.ps = s'.ps
    | .err e s'' => (e = St.INVALID_PARAMETER ∨ e = St.TIMER_FAILURE) ∧ s''.queue = f :: s.queue ∧ s''.inb = s.inb
    | .ub => False
    | .fuel => False) → ∃ s'', (match s'.queue with | f :: rest => .ok f { s' with queue := rest } | [] => waitFrameInner E TIME_INF s' : Res Conn DFrame) = .ok f s'' ∧ s''.queue = s.queue ∧ s''.inb = s.inb
  have hq : s'.queue = f :: s.queue := by
    unfold putBackFrame at h
    have hc := createLink_queue E f.frame.channel s
    revert h hc
    obtain ⟨b, t⟩ := createLink E f.frame.channel s
    cases b with
    | false => intro h; cases h
    | true => intro h hc; cases h; show f :: t.queue = _; rw [show t.queue = s.queue from hc]
  rw [hq]
  rintro ⟨_, h2, h3, _⟩
  exact ⟨_, rfl, h2, h3⟩

example : let E := netEnv [] [] [] []
    (putBackFrame E (bodyOn 3 [1]) { demoConn 64 with queue := [bodyOn 2 [65]] }).state?.map (fun s => s.queue.map (·.frame.bodyOf)) =
      some [(3, [1]), (2, [65])] := by decide +kernel

/-! ## C29 -/

/-- C29 when the transport never says would-block: in every history of receiving, sending and RPC calls from a connection without a
queued heartbeat (as a new one is), waiting never delivers a heartbeat frame.  Missing: see `C29_heartbeat_delivered`. -/
theorem C29_no_heartbeat_partial {E : NetEnv} (hE : NeverBlocks E) {s0 s s' : Conn} {f : DFrame}
    (h0 : ∀ g ∈ s0.queue, g.frame.isHeartbeat = false) (hS : Steps (Call E) s0 s) :
    (∀ tv, waitFrame E tv s = .ok f s' → f.frame.isHeartbeat = false) ∧
    (∀ ch, waitFrameOn E ch s = .ok f s' → f.frame.isHeartbeat = false) := by
  have hs : NoHb s := hS.inv (fun hc => (nohb_login hE).call hc) h0
  refine ⟨fun tv h => ?_, fun ch h => ?_⟩
  · have := (nohb_login hE).waitFrame tv hs; rw [h] at this; exact this.2
  · have := (nohb_login hE).waitFrameOn ch hs; rw [h] at this; exact this.2

/-- C29 when heartbeats are off on this side (the broker may send some all the same): in every history, publishing included. -/
theorem C29_no_heartbeat_off_partial {E : NetEnv} {s0 s s' : Conn} {f : DFrame} (hoff : s0.heartbeat ≤ 0 ∧ s0.nextSend = TIME_INF ∧ s0.nextRecv = TIME_INF)
    (h0 : ∀ g ∈ s0.queue, g.frame.isHeartbeat = false) (hS : Steps (CallP E) s0 s) :
    (∀ tv, waitFrame E tv s = .ok f s' → f.frame.isHeartbeat = false) ∧
    (∀ ch, waitFrameOn E ch s = .ok f s' → f.frame.isHeartbeat = false) := by
  have hs := hS.inv (fun hc => (nohb_api E).callP hc) ⟨hoff, Or.inr hoff, h0⟩
  refine ⟨fun tv h => ?_, fun ch h => ?_⟩
  · have := (nohb_api E).waitFrame tv hs; rw [h] at this; exact this.2.2
  · have := (nohb_api E).waitFrameOn ch hs; rw [h] at this; exact this.2.2

/-- The hypotheses are met, and heartbeats on the wire are skipped: a heartbeat, then frame A. -/
example : let E := netEnv [] [] [(0, .data ([8, 0, 0, 0, 0, 0, 0, 206] ++ frameA))] []
    (waitFrame E none (demoConn 64)).val?.map (·.frame.bodyOf) = some (1, [65]) := by decide +kernel
example : NeverBlocks (netEnv [] [] [] []) := by
  intro t b n h
  simp [netEnv] at h
  subst h
  decide

/-- A heartbeat has been received along with frame A, which is delivered; when the application then publishes after the time by which
something should have been received, the library looks for input, and queues the heartbeat for the application. -/
def hbEnv : NetEnv := netEnv [(0, 1), (2, 20), (4, 3000000000), (6, 3000000000), (8, 3000000000), (10, 3000000000), (12, 3000000000)]
  [(9, .sent 99), (11, .sent 99)] [(1, .data (frameA ++ [8, 0, 0, 0, 0, 0, 0, 206])), (7, .data frameB)] []
def hbConn : Conn := { demoConn 64 with heartbeat := 1, nextSend := 10000000000, nextRecv := 1000000000 }

theorem Res.ok_of_val {σ α : Type} {r : Res σ α} (h : r.val?.isSome = true) : ∃ a s', r = .ok a s' := by
  cases r <;> simp_all [Res.val?]
theorem Res.val_ok {σ α : Type} {r : Res σ α} {a : α} {s : σ} (h : r = .ok a s) : r.val? = some a ∧ r.state? = some s := by
  subst h; exact ⟨rfl, rfl⟩

/-- C29 fails in general: with heartbeats on, a heartbeat can reach the application although the transport never blocks. -/
theorem C29_heartbeat_delivered : ∃ (E : NetEnv) (s0 s1 s2 s3 : Conn) (f g : DFrame), NeverBlocks E ∧ InUse E s0 ∧ s0.queue = [] ∧
    waitFrame E none s0 = .ok f s1 ∧ f.frame.isHeartbeat = false ∧
    basicPublish E 1 [] [] 0 0 none [] s1 = .ok () s2 ∧ waitFrame E none s2 = .ok g s3 ∧ g.frame.isHeartbeat = true := by
  have hf : NeverBlocks hbEnv := by
    intro t b n h
    have : ∀ t, hbEnv.send t b = .sent 99 ∨ hbEnv.send t b = .fail 0 := by
      intro t
      show ((List.lookup t [(9, SendR.sent 99), (11, .sent 99)]).getD (.fail 0) = .sent 99) ∨
        ((List.lookup t [(9, SendR.sent 99), (11, .sent 99)]).getD (.fail 0) = .fail 0)
      simp only [List.lookup]
      split
      · exact Or.inl rfl
      · split
        · exact Or.inl rfl
        · exact Or.inr rfl
    rcases this t with h1 | h1 <;> rw [h1] at h <;> cases h
    decide
  obtain ⟨f, s1, h1⟩ := Res.ok_of_val (r := waitFrame hbEnv none hbConn) (by decide +kernel)
  have v1 := Res.val_ok h1
  have hb1 : ((waitFrame hbEnv none hbConn).val?.map fun f => f.frame.isHeartbeat) = some false := by decide +kernel
  have p2 : ((waitFrame hbEnv none hbConn).state?.map fun s => (basicPublish hbEnv 1 [] [] 0 0 none [] s).val?.isSome) = some true := by
    decide +kernel
  have p3 : ((waitFrame hbEnv none hbConn).state?.bind fun s => (basicPublish hbEnv 1 [] [] 0 0 none [] s).state?.bind fun s =>
      (waitFrame hbEnv none s).val?.map fun f => f.frame.isHeartbeat) = some true := by decide +kernel
  rw [v1.1] at hb1
  rw [v1.2] at p2 p3
  obtain ⟨u, s2, h2⟩ := Res.ok_of_val (r := basicPublish hbEnv 1 [] [] 0 0 none [] s1) (by simpa using p2)
  have v2 := Res.val_ok h2
  simp only [Option.bind_some] at p3
  rw [v2.2] at p3
  simp only [Option.bind_some] at p3
  obtain ⟨g, s3, h3⟩ := Res.ok_of_val (r := waitFrame hbEnv none s2) (by
    cases hv : (waitFrame hbEnv none s2).val? with
    | none => rw [hv] at p3; cases p3
    | some x => rfl)
  rw [(Res.val_ok h3).1] at p3
  exact ⟨hbEnv, hbConn, s1, s2, s3, f, g, hf, ⟨demoParser_live _ _, fun h => nomatch h⟩, rfl, h1, by simpa using hb1, h2, h3, by simpa using p3⟩

/-! ## C30 -/

/-- A frame that answers a call on channel `ch` awaiting one of the methods `expected`: one of these or a channel.close, on the channel;
or a connection.close on channel 0. -/
def AnswersRpc (ch : UInt16) (expected : List UInt32) (f : AFrame) : Prop :=
  ∃ id args, f.payload = .method id args ∧ (f.channel = ch ∧ (id ∈ expected ∨ id = 0x00140028) ∨ f.channel = 0 ∧ id = 0x000A0032)

theorem endsRpc_iff (ch : UInt16) (expected : List UInt32) (f : AFrame) : endsRpc ch expected f = true ↔ AnswersRpc ch expected f := by
  unfold endsRpc AnswersRpc CHANNEL_CLOSE CONNECTION_CLOSE
  cases f.payload <;> simp

/-- C30: the method an RPC answers with, if it gives one, is that of the first frame to arrive that answers it; everything else that
arrived before (`before`) has been queued, in order, behind what was queued already; nothing else is lost.  `X` is what arrives later.
Missing: transports that block while sending with heartbeats on. -/
theorem C30_reply_and_rest_partial {E : NetEnv} {ch : UInt16} {id : UInt32} {expected : List UInt32} {args : Rec} {s s' : Conn} {r : Reply}
    (hI : InUse E s) (hU : Unhurried E s) (h : simpleRpc E ch id expected args s = .ok r s') :
    (∃ st, r = .libraryException st) ∨
    ∃ l f rid rargs before, Since s s' l ∧ AnswersRpc ch expected f ∧ f.payload = .method rid rargs ∧
      (rid ∈ expected → r = .normal rid rargs) ∧ (rid ∉ expected → r = .serverException rid rargs) ∧
      (∀ g ∈ before, ¬ AnswersRpc ch expected g ∧ g.isHeartbeat = false) ∧
      s'.queue.map (·.frame) = s.queue.map (·.frame) ++ before ∧
      ∀ X, (framesOf E.pe s.ps (s.inb ++ (recvBytes l ++ X))).filter (!·.isHeartbeat) =
        before ++ f :: (framesOf E.pe s'.ps (s'.inb ++ X)).filter (!·.isHeartbeat) := by
  unfold simpleRpc at h
  have hq := fromNowIO_quiet E (getRpcTimeout s.timeouts) s
  cases hd : fromNowIO E (getRpcTimeout s.timeouts) s with
  | ub => rw [hd] at h; cases h
  | fuel => rw [hd] at h; cases h
  | err e t => rw [hd] at h; cases h; exact Or.inl ⟨_, rfl⟩
  | ok d t =>
    rw [hd] at h hq
    dsimp only at h
    have hU1 : Unhurried E t := (unhurried_closed E).quiet hU hq
    have e1 : Eff E s t [] := Eff.quiet hI.good hq
    have q1 : t.queue = s.queue := by obtain ⟨l, rfl, _⟩ := hq; rfl
    unfold rpcInner sendMethod at h
    have h2 := sendFrame_same (E := E) ⟨ch, .method id args⟩ SF_NONE TIME_INF (Nat.le_refl _) hU1 e1.1
    have hu2 := (unhurried_closed E).sendFrame ⟨ch, .method id args⟩ SF_NONE TIME_INF hU1
    cases hs : sendFrame E ⟨ch, .method id args⟩ SF_NONE TIME_INF t with
    | ub => rw [hs] at h; cases h
    | fuel => rw [hs] at h; cases h
    | err e u => rw [hs] at h; cases h; exact Or.inl ⟨_, rfl⟩
    | ok x u =>
      rw [hs] at h h2 hu2
      dsimp only at h
      rcases rpcLoop_eff ch expected d _ u s' r h2.1.1 (Unhurried.unblocked hu2) h with h3 | ⟨f, fs, aside, rid, rargs, hp, he, hr, _, e3, q3, m3, n3⟩
      · exact Or.inl h3
      right
      obtain ⟨_, l, hl, hX⟩ := (e1.trans h2.1).trans e3
      have hmeth : f.isHeartbeat = false := by unfold AFrame.isHeartbeat; rw [hp]
      refine ⟨l, f, rid, rargs, fs.filter (!·.isHeartbeat), hl, (endsRpc_iff _ _ _).1 he, hp, fun hm => ?_, fun hm => ?_, fun g hg => ⟨?_, ?_⟩, ?_, fun X => ?_⟩
      · rw [hr, if_pos (by simpa using hm)]
      · rw [hr, if_neg (by simpa using hm)]
      · rw [← m3] at hg
        obtain ⟨x, hx, rfl⟩ := List.mem_map.1 hg
        rw [← endsRpc_iff, n3 x hx]
        simp
      · simpa using (List.mem_filter.1 hg).2
      · rw [q3, List.map_append, m3, h2.2.1, q1]
      · rw [hX X]
        simp [List.filter_append, hmeth]

/-- C30 when sending the request may be held up (but no heartbeat is): frames that arrive before the request has gone out are queued,
`early`; the reply is the first frame after these that answers the call, and nothing is lost.  Missing: an answer among the early
frames is not seen (`C30_early_close_missed`). -/
theorem C30_blocked_request_partial {E : NetEnv} {ch : UInt16} {id : UInt32} {expected : List UInt32} {args : Rec} {s s' : Conn} {r : Reply}
    (hI : InUse E s) (hU : Unblocked E s) (h : simpleRpc E ch id expected args s = .ok r s') :
    (∃ st, r = .libraryException st) ∨
    ∃ l f rid rargs early before, Since s s' l ∧ AnswersRpc ch expected f ∧ f.payload = .method rid rargs ∧
      (rid ∈ expected → r = .normal rid rargs) ∧ (rid ∉ expected → r = .serverException rid rargs) ∧
      (∀ g ∈ before, ¬ AnswersRpc ch expected g ∧ g.isHeartbeat = false) ∧
      s'.queue.map (·.frame) = s.queue.map (·.frame) ++ early ++ before ∧
      ∀ X, (framesOf E.pe s.ps (s.inb ++ (recvBytes l ++ X))).filter (!·.isHeartbeat) =
        early.filter (!·.isHeartbeat) ++ before ++ f :: (framesOf E.pe s'.ps (s'.inb ++ X)).filter (!·.isHeartbeat) := by
  unfold simpleRpc at h
  have hq := fromNowIO_quiet E (getRpcTimeout s.timeouts) s
  cases hd : fromNowIO E (getRpcTimeout s.timeouts) s with
  | ub => rw [hd] at h; cases h
  | fuel => rw [hd] at h; cases h
  | err e t => rw [hd] at h; cases h; exact Or.inl ⟨_, rfl⟩
  | ok d t =>
    rw [hd] at h hq
    dsimp only at h
    have hU1 : Unblocked E t := (unblocked_closed E).quiet hU hq
    have e1 : Eff E s t [] := Eff.quiet hI.good hq
    have q1 : t.queue = s.queue := by obtain ⟨l, rfl, _⟩ := hq; rfl
    unfold rpcInner sendMethod at h
    have h2 := sendFrame_sendEff (E := E) ⟨ch, .method id args⟩ SF_NONE TIME_INF e1.1
    have hu2 := (unblocked_closed E).sendFrame ⟨ch, .method id args⟩ SF_NONE TIME_INF hU1
    cases hs : sendFrame E ⟨ch, .method id args⟩ SF_NONE TIME_INF t with
    | ub => rw [hs] at h; cases h
    | fuel => rw [hs] at h; cases h
    | err e u => rw [hs] at h; cases h; exact Or.inl ⟨_, rfl⟩
    | ok x u =>
      rw [hs] at h h2 hu2
      dsimp only at h
      obtain ⟨early, e2, q2⟩ := h2
      rcases rpcLoop_eff ch expected d _ u s' r e2.1 hu2 h with h3 | ⟨f, fs, aside, rid, rargs, hp, he, hr, _, e3, q3, m3, n3⟩
      · exact Or.inl h3
      right
      obtain ⟨_, l, hl, hX⟩ := (e1.trans e2).trans e3
      have hmeth : f.isHeartbeat = false := by unfold AFrame.isHeartbeat; rw [hp]
      refine ⟨l, f, rid, rargs, early, fs.filter (!·.isHeartbeat), hl, (endsRpc_iff _ _ _).1 he, hp, fun hm => ?_, fun hm => ?_, fun g hg => ⟨?_, ?_⟩, ?_, fun X => ?_⟩
      · rw [hr, if_pos (by simpa using hm)]
      · rw [hr, if_neg (by simpa using hm)]
      · rw [← m3] at hg
        obtain ⟨x, hx, rfl⟩ := List.mem_map.1 hg
        rw [← endsRpc_iff, n3 x hx]
        simp
      · simpa using (List.mem_filter.1 hg).2
      · rw [q3, List.map_append, m3, q2, q1]
      · rw [hX X]
        simp [List.filter_append, hmeth]

/-- A channel.close on channel 1 is in the receive buffer; the transport is busy when the request (channel.flow) is sent, but would take a
heartbeat at any time; another frame comes in, the request goes out, and then the connection breaks. -/
def earlyClose : Bytes := [1, 0, 1, 0, 0, 0, 11, 0, 20, 0, 40, 1, 244, 0, 0, 0, 0, 0, 206]
def earlyEnv : NetEnv := { netEnv [] [] [(5, .data [3, 0, 2, 0, 0, 0, 1, 65, 206]), (11, .fail 8)] [(2, .timeout)] with
  clock := fun _ => 20
  send := fun t b => if b = [8, 0, 0, 0, 0, 0, 0, 206] then .sent 8 else if t = 0 then .fail 0x1301 else .sent 99 }
def earlyConn : Conn := { demoConn 64 with heartbeat := 1, nextSend := 1000000000, nextRecv := 10, inb := earlyClose }

def Reply.status : Reply → Int
  | .libraryException e => e
  | _ => 0

/-- C30 fails for an answer that comes early: the server has closed the channel, which is among the frames pending, but the call does not
see it and waits, here until the connection breaks. -/
theorem C30_early_close_missed : ∃ (E : NetEnv) (s s' : Conn), InUse E s ∧ Unblocked E s ∧ s.queue = [] ∧
    (∃ f ∈ pending E s [], AnswersRpc 1 [0x00140015] f) ∧
    simpleRpc E 1 0x00140014 [0x00140015] [(.active, .bool 1)] s = .ok (.libraryException St.SOCKET_ERROR) s' ∧
    ∃ f ∈ s'.queue, AnswersRpc 1 [0x00140015] f.frame := by
  obtain ⟨r, s', h1⟩ := Res.ok_of_val (r := simpleRpc earlyEnv 1 0x00140014 [0x00140015] [(.active, .bool 1)] earlyConn) (by decide +kernel)
  have hv := Res.val_ok h1
  refine ⟨earlyEnv, earlyConn, s', ⟨demoParser_live _ _, fun h => nomatch h⟩, Or.inl (Or.inr fun t => ?_), rfl, ?_, ?_, ?_⟩
  · simp [earlyEnv]
  · have : (pending earlyEnv earlyConn []).any (endsRpc 1 [0x00140015]) = true := by decide +kernel
    obtain ⟨f, hf, he⟩ := List.any_eq_true.1 this
    exact ⟨f, hf, (endsRpc_iff _ _ _).1 he⟩
  · have : (simpleRpc earlyEnv 1 0x00140014 [0x00140015] [(.active, .bool 1)] earlyConn).val?.map Reply.status = some St.SOCKET_ERROR := by
      decide +kernel
    rw [hv.1] at this
    have key : ∀ r : Reply, some (Reply.status r) = some St.SOCKET_ERROR → r = .libraryException St.SOCKET_ERROR := by
      intro r hr
      cases r with
      | libraryException e => exact congrArg Reply.libraryException (Option.some.inj hr)
      | normal a b => cases hr
      | serverException a b => cases hr
    rw [h1, key r this]
  · have : (simpleRpc earlyEnv 1 0x00140014 [0x00140015] [(.active, .bool 1)] earlyConn).state?.map
        (fun s => s.queue.any fun f => endsRpc 1 [0x00140015] f.frame) = some true := by decide +kernel
    rw [hv.2] at this
    obtain ⟨f, hf, he⟩ := List.any_eq_true.1 (by simpa using this)
    exact ⟨f, hf, (endsRpc_iff _ _ _).1 he⟩

/-- A frame of channel 2 arrives before the reply (channel.flow-ok on channel 1): the reply is returned, the frame is queued. -/
example : let E := netEnv [] [(0, .sent 99)] [(1, .data ([3, 0, 2, 0, 0, 0, 1, 65, 206] ++ [1, 0, 1, 0, 0, 0, 5, 0, 20, 0, 21, 1, 206]))] []
    let r := simpleRpc E 1 0x00140014 [0x00140015] [(.active, .bool 1)] (demoConn 64)
    r.val?.map (fun r => match r with | .normal id _ => id | _ => 0) = some 0x00140015 ∧
      r.state?.map (fun s => s.queue.map (·.frame.bodyOf)) = some [(2, [65])] := by decide +kernel

/-! ## C32 -/

/-- C32: amqp_simple_wait_method gives exactly the arguments of a method frame of the channel and method asked for; the next frame, if
it is any other, gives WRONG_METHOD. -/
theorem C32_wait_method {E : NetEnv} {ch : UInt16} {id : UInt32} {s s1 : Conn} {f : DFrame} (hw : waitFrame E none s = .ok f s1) :
    (∀ args, f.frame = ⟨ch, .method id args⟩ → waitMethod E ch id s = .ok (id, args) s1) ∧
    ((∀ args, f.frame ≠ ⟨ch, .method id args⟩) → waitMethod E ch id s = .err St.WRONG_METHOD s1) := by
  have e : waitMethod E ch id s = (match f.frame.payload with
    | .method id' args => if f.frame.channel = ch ∧ id' ∈ [id] then pure (id', args) else M.fail St.WRONG_METHOD
    | _ => M.fail St.WRONG_METHOD : M Conn (UInt32 × Rec)) s1 := by
    unfold waitMethod waitMethodList
    rw [M.bind_def]
    have : tvUntilIO E TIME_INF s = .ok none s := by unfold tvUntilIO; rw [if_pos rfl]
    rw [this]
    dsimp only
    rw [M.bind_def, hw]
    rfl
  rw [e]
  refine ⟨fun args hf => ?_, fun hf => ?_⟩
  · rw [hf]
    show (if ch = ch ∧ id ∈ [id] then pure (id, args) else M.fail St.WRONG_METHOD : M Conn (UInt32 × Rec)) s1 = _
    rw [if_pos ⟨rfl, by simp⟩]
    rfl
  · cases hp : f.frame.payload with
    | method id' args =>
      show (if f.frame.channel = ch ∧ id' ∈ [id] then pure (id', args) else M.fail St.WRONG_METHOD : M Conn (UInt32 × Rec)) s1 = _
      rw [if_neg]
      · rfl
      · rintro ⟨h1, h2⟩
        have : id' = id := by simpa using h2
        subst this
        apply hf args
        obtain ⟨⟨c, p⟩, b⟩ := f
        simp only at h1 hp
        rw [h1, hp]
    | header c sz fl ps => rfl
    | body b => rfl
    | heartbeat => rfl
    | protocolHeader a b c d => rfl
    | other t => rfl

/-- C32, the other way round: OK only with such a frame. -/
theorem C32_ok_only_if {E : NetEnv} {ch : UInt16} {id rid : UInt32} {args : Rec} {s s1 : Conn} (h : waitMethod E ch id s = .ok (rid, args) s1) :
    rid = id ∧ ∃ f, waitFrame E none s = .ok f s1 ∧ f.frame = ⟨ch, .method id args⟩ := by
  have h' := h
  unfold waitMethod waitMethodList at h
  rw [M.bind_def] at h
  have : tvUntilIO E TIME_INF s = .ok none s := by unfold tvUntilIO; rw [if_pos rfl]
  rw [this] at h
  dsimp only at h
  rw [M.bind_def] at h
  cases hw : waitFrame E none s with
  | err e t => rw [hw] at h; cases h
  | ub => rw [hw] at h; cases h
  | fuel => rw [hw] at h; cases h
  | ok f t =>
    have c := C32_wait_method (ch := ch) (id := id) hw
    by_cases hf : ∃ a, f.frame = ⟨ch, .method id a⟩
    · obtain ⟨a, ha⟩ := hf
      rw [c.1 a ha] at h'
      injection h' with h1 h2
      injection h1 with h3 h4
      subst h2 h3 h4
      exact ⟨rfl, f, rfl, ha⟩
    · rw [c.2 (fun a ha => hf ⟨a, ha⟩)] at h'
      cases h'

example : let E := netEnv [] [] [(0, .data [1, 0, 1, 0, 0, 0, 4, 0, 20, 0, 41, 206])] []
    (waitMethod E 1 0x00140029 (demoConn 64)).val?.map (·.1) = some 0x00140029 ∧
    (waitMethod E 1 0x00140028 (demoConn 64)).errCode? = some St.WRONG_METHOD ∧
    (waitMethod E 2 0x00140029 (demoConn 64)).errCode? = some St.WRONG_METHOD := by decide +kernel

/-! ## C33 -/

/-- C33: in every history of calls on a connection — login, tuning, publishing, receiving, releasing in any order, with any outcomes —
the memory that a queued frame points to has not been released since the frame was decoded. -/
theorem C33_queued_frames_stay_valid {E : NetEnv} {mem : Nat → UInt8} {s : Conn} (h : Steps (CallL E) (newConn mem) s) :
    ∀ f ∈ s.queue, Valid s f := by
  have : Intact s := h.inv (fun hc => (intact_login E).callL hc) (by intro f hf; cases hf)
  exact this

/-- The same from any connection whose queued frames are valid, in particular for the two release functions by themselves. -/
theorem C33_release_keeps_queued {s : Conn} (h : ∀ f ∈ s.queue, Valid s f) (ch : UInt16) :
    (∀ f ∈ (maybeReleaseOn ch s).queue, Valid (maybeReleaseOn ch s) f) ∧
    (∀ f ∈ (maybeRelease s).queue, Valid (maybeRelease s) f) ∧ (maybeReleaseOn ch s).queue = s.queue ∧ (maybeRelease s).queue = s.queue := by
  let E := netEnv [] [] [] []
  refine ⟨(intact_closed E).upper.release ch h, (intact_closed E).upper.maybeRelease h, ?_, ?_⟩
  · obtain ⟨l, h1, _⟩ := maybeReleaseOn_ext ch s; rw [h1]; rfl
  · obtain ⟨l, h1, _⟩ := maybeRelease_ext s; rw [h1]; rfl

/-- Releasing does recycle the pools of other channels. -/
example : let s := { demoConn 64 with ps := { demoParser 64 with pools := [1, 2] }, queue := [bodyOn 2 [65]] }
    (maybeRelease s).log = [.recycle 1] ∧ (maybeReleaseOn 2 s).log = [] := by decide +kernel

/-- C33, for a frame that has arrived only in part: between two moments of any history at which the same frame is being received (the
parser is in a body, and no frame buffer was allocated in between), no pool was recycled, so the bytes received so far are in place. -/
theorem C33_frame_in_progress {E : NetEnv} {s0 s : Conn} (h : Steps (CallL E) s0 s) (hm : s.ps.mode = .body)
    (hb : s.ps.bufLog.length = s0.ps.bufLog.length) {l : List Ev} (hl : Since s0 s l) (ch : UInt16) : Ev.recycle ch ∉ l := by
  have h1 : Held s0 s := h.inv (fun hc => (held_login E s0).callL hc) ⟨Nat.le_refl _, Nat.le_refl _, fun _ _ ch => by simp⟩
  have h2 := h1.2.2 hm hb ch
  rwa [hl, List.drop_left] at h2

/-- The first part of a method frame has arrived when receiving fails: releasing recycles nothing, although the channel's pool exists. -/
example : let E := netEnv [] [] [(0, .data [1, 0, 1, 0, 0, 0, 4, 0])] []
    let s := (waitFrame E none (demoConn 64)).state?.getD (demoConn 64)
    s.ps.mode = .body ∧ s.ps.bufLog = [12] ∧ s.ps.pools = [1] ∧ (maybeRelease s).log = s.log ∧ (maybeReleaseOn 1 s).log = s.log := by
  decide +kernel

/-! ## C56 -/

/-- C56, as long as no wait is held up by the sending of a heartbeat: in every history of calls, all that was received is all that was
parsed, followed by what is in the receive buffer. -/
theorem C56_received_is_parsed_or_kept_partial {E : NetEnv} {s0 s : Conn} (hU : Unblocked E s0) (h : Steps (CallP E) s0 s) :
    ∃ l, Since s0 s l ∧ s0.inb ++ recvBytes l = parsedBytes l ++ s.inb := by
  have := h.inv (P := fun s => Unblocked E s ∧ Kept s0 s) (fun hc => (kept_api E s0).callP hc) ⟨hU, Kept.refl s0⟩
  exact this.2

/-- … login and tuning included if heartbeats get through. -/
theorem C56_login_partial {E : NetEnv} (hN : NeverBlocks E ∨ HeartbeatsPass E) {s0 s : Conn} (h : Steps (CallL E) s0 s) :
    ∃ l, Since s0 s l ∧ s0.inb ++ recvBytes l = parsedBytes l ++ s.inb :=
  h.inv (P := Kept s0) (fun hc => (kept_login hN s0).callL hc) (Kept.refl s0)

/-- C56 fails in general: the nine bytes of frame A are received, and neither parsed nor kept. -/
theorem C56_data_lost : ∃ (E : NetEnv) (s s' : Conn) (f : DFrame) (l : List Ev), InUse E s ∧ s.inb = [] ∧
    waitFrame E none s = .ok f s' ∧ Since s s' l ∧ recvBytes l = frameA ++ frameB ∧ parsedBytes l = frameB ∧ s'.inb = [] := by
  obtain ⟨f, s', h1⟩ := Res.ok_of_val (r := waitFrame lossEnv none lossConn) (by decide +kernel)
  have hs := (Res.val_ok h1).2
  have : ((waitFrame lossEnv none lossConn).state?.map fun s => (recvBytes s.log, parsedBytes s.log, s.inb)) =
    some (frameA ++ frameB, frameB, []) := by decide +kernel
  rw [hs] at this
  simp only [Option.map_some, Option.some.injEq, Prod.mk.injEq] at this
  exact ⟨lossEnv, lossConn, s', f, s'.log, ⟨demoParser_live _ _, fun h => nomatch h⟩, rfl, h1, rfl, this.1, this.2.1, this.2.2⟩

end Rmq
