import Verif.Proofs.Message
import Verif.Props.ConnMem
import Verif.Props.Consume
import Verif.Props.Frames
/-!
# C87: messages belong to the application
-/
namespace Rmq

open PoolM

/-- A connection nothing was done with yet, for an application that holds nothing. -/
def freshApp (c : CMem) (h : Heap) : AppRun := ⟨⟨c, h, [], St.OK⟩, []⟩

/-- C87: whatever an application does with a connection — any number of messages consumed and read, with any frames arriving in any of these
calls, destroyed in any order, any use of the connection in between, the system refusing memory in any pattern — nothing is freed twice and
nothing copied outside its memory, and at every moment each piece of memory a message it holds points to is there, as long as the message
says, apart from every other piece of any message it holds, from everything the connection has handed out, from the connection's own buffers
and from the application's other memory. -/
theorem C87_messages_apart (A : Nat → Bool) (h : Heap) (ok : h.OK) {clock : Bool} {c : CMem} {h1 : Heap} (hc : PoolM.newConn A clock h = some (some c, h1))
    (ops : List AppOp) (hops : ∀ op ∈ ops, op.sane) :
    ∃ s, appRun A (freshApp c h1) ops = some s ∧
      (s.held.flatMap Held.pieces).Pairwise Grant.disjoint ∧
      (∀ g ∈ s.held.flatMap Held.pieces, g.inside s.run.heap ∧ (∀ x ∈ h.live, x.1 ≠ g.block) ∧ (∀ o ∈ s.run.grants, o.2.block ≠ g.block) ∧
        g.block ≠ s.run.conn.self ∧ g.block ≠ s.run.conn.out ∧ g.block ≠ s.run.conn.sockBuf) ∧
      (∀ x ∈ h.live, x ∈ s.run.heap.live) := by
  obtain ⟨s, e, ci⟩ := (AInv.new ok hc).run ops hops
  have sp : Sep (s.held.flatMap Held.blocks) (s.held.map Held.own) := by
    have w := ci.w
    have nd := List.nodup_append.1 w.nodup
    exact { nodup := nd.2.1, disj := (List.pairwise_append.1 w.disj).2.1,
            apart := fun x hx t ht => (w.rawOk x.1 (List.mem_append_right _ (List.mem_map.2 ⟨x, hx, rfl⟩))).2 t (List.mem_append_right _ ht),
            pw := fun t ht => (w.pools t (List.mem_append_right _ ht)).1.pw }
  refine ⟨s, e, pieces_apart _ sp, fun g hg => ?_, fun x hx => (ci.w.appOk x hx).1⟩
  obtain ⟨h2, h3, h4, h5⟩ := piece_inside ci.w ci.sized hg
  refine ⟨h2, h3, fun o ho eo => ?_, fun e => h4 (e ▸ List.mem_cons_self), fun e => h4 (e ▸ mem_raw_out), fun e => h4 (e ▸ mem_raw_sock)⟩
  have hm : o.2 ∈ gsOf s.run.grants o.1 := List.mem_map.2 ⟨o, List.mem_filter.2 ⟨ho, by simp⟩, rfl⟩
  have : ∃ p, (p, gsOf s.run.grants o.1) ∈ tsOf s.run.conn s.run.grants := by
    cases hw : o.1 with
    | none => exact ⟨_, List.mem_cons_self⟩
    | some ch =>
      obtain ⟨en, he, hch⟩ := ci.own o ho ch hw
      exact ⟨en.pool, List.mem_cons_of_mem _ (List.mem_map.2 ⟨en, he, by rw [hch]⟩)⟩
  obtain ⟨p, hp⟩ := this
  exact h5 _ hp (eo ▸ .inr (.inr ⟨o.2, hm, rfl⟩))

/-- C87: a message or envelope that a call hands over with AMQP_RESPONSE_NORMAL has a body of the announced size, all of it received, memory for each of its
flagged properties and, for an envelope, for the three strings of the delivery. -/
theorem C87_message_complete (A : Nat → Bool) (h : Heap) (ok : h.OK) {clock : Bool} {c : CMem} {h1 : Heap} (hc : PoolM.newConn A clock h = some (some c, h1))
    (ops : List AppOp) (hops : ∀ op ∈ ops, op.sane) (waits : Script) (hw : waits.sane) :
    ∃ s, appRun A (freshApp c h1) ops = some s ∧
      (∀ m r, readMem A waits s.run = some (.normal, m, r) → m.announced waits) ∧
      (∀ e r, consumeMem A waits s.run = some (.normal, e, r) → e.announced waits) := by
  obtain ⟨s, e, ci⟩ := (AInv.new ok hc).run ops hops
  refine ⟨s, e, fun m r hm => ?_, fun en r he => ?_⟩
  · obtain ⟨ret, m', r', e', ho⟩ := read_spec hw.fits ci
    rw [hm] at e'
    cases e'
    rcases ho with ⟨_, h, _⟩ | ⟨h, _⟩
    · exact h
    · exact absurd rfl h
  · obtain ⟨ret, m', r', e', ho⟩ := consume_spec hw.fits ci
    rw [he] at e'
    cases e'
    rcases ho with ⟨_, h, _⟩ | ⟨h, _⟩
    · exact h
    · exact absurd rfl h

/-- C87: the connection may be destroyed before the messages: they stay as they were. -/
theorem C87_messages_outlive (A : Nat → Bool) (h : Heap) (ok : h.OK) {clock : Bool} {c : CMem} {h1 : Heap} (hc : PoolM.newConn A clock h = some (some c, h1))
    (ops : List AppOp) (hops : ∀ op ∈ ops, op.sane) :
    ∃ s h2, appRun A (freshApp c h1) ops = some s ∧ destroyConn s.run.conn s.run.heap = some h2 ∧ ∀ g ∈ s.held.flatMap Held.pieces, g.inside h2 := by
  obtain ⟨s, e, ci⟩ := (AInv.new ok hc).run ops hops
  obtain ⟨h2, e2, w, sz⟩ := ci.destroyConn
  exact ⟨s, h2, e, e2, fun g hg => (piece_inside (raw := []) (ts := []) w sz hg).1⟩

/-- C87: destroying gives everything back: after any such history, once the connection is destroyed and then what the application still holds, in
any order, nothing was freed twice, and if the system never refused memory exactly the blocks from before the connection was created are
left.  (So a call that failed left nothing behind.)  Missing: the system refusing memory (`C87_body_refused`, `C49_page_leak`), and an
application that destroys the envelope of a call that failed (`C87_destroy_after_failure`). -/
theorem C87_nothing_left_partial (A : Nat → Bool) (h : Heap) (ok : h.OK) {clock : Bool} {c : CMem} {h1 : Heap} (hc : PoolM.newConn A clock h = some (some c, h1))
    (ops : List AppOp) (hops : ∀ op ∈ ops, op.sane) :
    ∃ s h2, appRun A (freshApp c h1) ops = some s ∧ destroyConn s.run.conn s.run.heap = some h2 ∧
      ∀ xs, xs.Perm s.held → ∃ h3, destroyAll xs h2 = some h3 ∧ (∀ x ∈ h.live, x ∈ h3.live) ∧ ((∀ n, A n = true) → ∀ x ∈ h3.live, x ∈ h.live) := by
  obtain ⟨s, e, ci⟩ := (AInv.new ok hc).run ops hops
  obtain ⟨h2, e2, w, _⟩ := ci.destroyConn
  refine ⟨s, h2, e, e2, fun xs hp => ?_⟩
  obtain ⟨h3, e3, w3⟩ := destroyAll_world xs (w.perm (((hp.symm.flatMap_right _)).map _) (hp.symm.map _))
  refine ⟨h3, e3, fun x hx => (w3.appOk x hx).1, fun hA x hx => ?_⟩
  rcases w3.noleak hA x.1 (mem_ids_of (n := x.2) hx) with h4 | h4 | ⟨t, h4, _⟩
  · obtain ⟨y, hy, hye⟩ := List.mem_map.1 h4
    have : x = y := heap_unique _ w3.ok.nodup hx (w3.appOk y hy).1 hye.symm
    rw [this]
    exact hy
  · cases h4
  · cases h4

/-! ## A delivery -/

/-- The frame that some octets are. -/
def arrived (d : Bytes) : AFrame :=
  match handleInput sampleEnv (steady 200) d with
  | .ok (_, some f) _ => f
  | _ => ⟨0, .heartbeat⟩

/-- A basic.deliver: consumer tag "ct", no exchange, routing key "que". -/
def handedBytes : Bytes := rawFrame 1 1 [0, 60, 0, 60, 2, 99, 116, 0, 0, 0, 0, 0, 0, 0, 1, 0, 0, 3, 113, 117, 101] FRAME_END
/-- A content header for 5 octets, with a content type and a headers table with one entry. -/
def someHeader : Bytes :=
  rawFrame 2 1 [0, 60, 0, 0, 0, 0, 0, 0, 0, 0, 0, 5, 0xA0, 0, 4, 116, 101, 120, 116, 0, 0, 0, 9, 1, 107, 83, 0, 0, 0, 2, 118, 118] FRAME_END
def someBody (b : Bytes) : Bytes := rawFrame 3 1 b FRAME_END

/-- A delivery of a 5-octet message in two body frames; while it waits the library stores frames and releases the channel. -/
def delivery : Script :=
  .frame [.store 1 60] (arrived handedBytes)
    (.frame [.store 1 100, .store 2 40] (arrived someHeader)
      (.frame [.release 2] (arrived (someBody [1, 2, 3])) (.frame [.store 1 9000] (arrived (someBody [4, 5])) (.fails [] St.TIMEOUT))))

/-- The same, but the connection is lost after the first body frame. -/
def lostDelivery : Script :=
  .frame [.store 1 60] (arrived handedBytes)
    (.frame [.store 1 100] (arrived someHeader) (.frame [] (arrived (someBody [1, 2, 3])) (.fails [] St.CONNECTION_CLOSED)))

/-- The octets are a frame, and no header of another class. -/
def isFrame (d : Bytes) : Bool :=
  match handleInput sampleEnv (steady 200) d with
  | .ok (_, some ⟨_, .header cls _ _ _⟩) _ => cls = 60
  | .ok (_, some _) _ => true
  | _ => false

theorem received_of {d : Bytes} (h : isFrame d = true) : Received (arrived d) := by
  unfold isFrame at h
  unfold arrived
  cases hr : handleInput sampleEnv (steady 200) d with
  | ok x s' =>
    obtain ⟨n, o⟩ := x
    rw [hr] at h
    cases o with
    | none => cases h
    | some f =>
      refine ⟨⟨_, _, _, _, _, hr⟩, fun cls size flags props hf => ?_⟩
      obtain ⟨ch, p⟩ := f
      dsimp only at hf
      subst hf
      exact of_decide_eq_true h
  | err e s' => rw [hr] at h; cases h
  | ub => rw [hr] at h; cases h
  | fuel => rw [hr] at h; cases h

/-- The hypotheses hold of both. -/
example : delivery.sane ∧ lostDelivery.sane := by
  have fit : Received (arrived someHeader) := received_of (by decide +kernel)
  have del : Received (arrived handedBytes) := received_of (by decide +kernel)
  have b1 : Received (arrived (someBody [1, 2, 3])) := received_of (by decide +kernel)
  have b2 : Received (arrived (someBody [4, 5])) := received_of (by decide +kernel)
  have ops : ∀ l : List ConnOp, l.all (fun op => match op with | .store _ n => n ≤ 2 ^ 64 - 8 | .release _ => true | _ => false) = true → ∀ op ∈ l, op.sane := by
    intro l hl op ho
    have := List.all_eq_true.1 hl op ho
    cases op with
    | store ch n => exact (of_decide_eq_true this : n ≤ 2 ^ 64 - 8)
    | release ch => trivial
    | tune _ _ => cases this
    | property _ => cases this
  exact ⟨⟨ops _ rfl, del, ops _ rfl, fit, ops _ rfl, b1, ops _ rfl, b2, ops _ rfl⟩, ops _ rfl, del, ops _ rfl, fit, ops _ rfl, b1, ops _ rfl⟩

/-- On a new connection: what is given to the application after these operations: the lengths of the pieces of each thing it holds, and how many
blocks are left once everything is destroyed. -/
def story (A : Nat → Bool) (ops : List AppOp) : Option (List (List Nat) × Option (List (Nat × Nat))) :=
  (PoolM.newConn A true sampleHeap).bind fun (c, h) => c.bind fun c =>
    (appRun A (freshApp c h) ops).map fun s =>
      (s.held.map fun x => x.pieces.map (·.amount), ((destroyConn s.run.conn s.run.heap).bind fun h => destroyAll s.held h).map (·.live))

/-- Two messages consumed, one lost, the second (the older) destroyed. -/
example : story (fun _ => true) [.consume delivery, .consume delivery, .consume lostDelivery, .other [.release 1], .destroy 1] =
    some ([[5, 3, 0, 2, 2, 1, 40, 4]], some [(0, 100)]) := by decide +kernel

/-- C87 fails when the system refuses the memory for the body, whose size the other side announces: the copies of the properties (a page and
the array that lists the pages) are lost. -/
theorem C87_body_refused : ∃ k, story (fun n => n ≠ k) [.consume delivery] = some ([], some [(14, 8), (13, 4096), (0, 100)]) := by
  exact ⟨14, by decide +kernel⟩

/-- C87 fails if the application destroys the envelope of a call that failed after the delivery had arrived: its strings are freed again.  (If
the call failed before that, it is harmless: the envelope is empty.) -/
theorem C87_destroy_after_failure :
    ((PoolM.newConn (fun _ => true) true sampleHeap).bind fun (c, h) => c.bind fun c =>
      (consumeMem (fun _ => true) lostDelivery (freshApp c h).run).map fun (ret, e, r) => (ret, destroyEnvelope e r.heap)) =
        some (.library St.CONNECTION_CLOSED, none) ∧
    ∀ A ops r ret e r', consumeMem A (.fails ops ret) r = some (.library ret, e, r') → destroyEnvelope e r'.heap = some r'.heap := by
  refine ⟨by decide +kernel, fun A ops r ret e r' h => ?_⟩
  unfold consumeMem at h
  dsimp only at h
  cases hr : connRun A r ops with
  | none => rw [hr] at h; cases h
  | some r1 => rw [hr] at h; cases h; rfl

/-- C87 needs headers of class basic: amqp_handle_input also delivers a header of class connection, with any flags and no properties; reading
a message then looks at properties of class basic that are not there (undefined behaviour). -/
theorem C87_other_class :
    let d := rawFrame 2 1 [0, 10, 0, 0, 0, 0, 0, 0, 0, 0, 0, 5, 0x80, 0] FRAME_END
    (handleInput sampleEnv (steady 200) d).val?.isSome = true ∧
    ((PoolM.newConn (fun _ => true) true sampleHeap).bind fun (c, h) => c.map fun c =>
      (readMem (fun _ => true) (.frame [] (arrived d) (.fails [] St.TIMEOUT)) (freshApp c h).run).isSome) = some false := by decide +kernel

end Rmq
