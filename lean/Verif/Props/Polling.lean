import Verif.Props.Arrive
import Verif.Proofs.Polling
import Verif.Proofs.PublishFine

/-!
# C105 — A consumer that polls misses nothing
-/

namespace Rmq

/-- When there is no frame to come, a call can only fail, having had a limit. -/
theorem consumeMessage_nothing {E : NetEnv} (hA : ∀ k, E.pe.alloc k = true) {o : Outcome Envelope} {s s' : Conn} (hC : Calm0 E s) (hN : NoHb s)
    {tv : Option TimeVal} (h : consumeMessage E tv s = .ok o s') {l l' : List Ev} (hl : Since s s' (l)) (hf : ∀ e ∈ l ++ l', e.fine) {X : Bytes}
    (hS : Sane E s (recvBytes l ++ X)) (hp : pending E s (recvBytes l ++ X) = []) :
    tv ≠ none ∧ (∃ e, o = .libraryException e ∧ SaysTimeout E tv e) ∧ Unharmed E s s' := by
  have hm := waitFrame_spared hA tv hC
  have ha := waitFrame_acc tv hC.good hC.heart.unblocked
  have hB := (since_api E s).consumeMessage tv (since_nil s)
  unfold consumeMessage at h
  revert hm ha
  cases h1 : waitFrame E tv s with
  | ub => rw [h1] at h; cases h
  | fuel => rw [h1] at h; cases h
  | err e t =>
    rw [h1] at h
    cases h
    rintro (⟨l2, h2, h3⟩ | ⟨hu, ht, hst⟩) _
    · cases hl.unique h2
      exact absurd hS (h3 (fun e he => hf e (List.mem_append_left _ he)) X)
    · exact ⟨ht, ⟨_, rfl, hst⟩, hu⟩
  | ok f t =>
    rintro ⟨⟨c, l1, h2, _⟩, _⟩ ⟨_, _, ⟨l1', h2', h3'⟩, hnb⟩
    cases h2.unique h2'
    obtain ⟨hfb, _⟩ := hnb hN
    exfalso
    have hs2 : ∃ l2, Since t s' l2 := by
      rw [h1] at h
      dsimp only at h
      revert h
      cases hp : f.frame.payload with
      | method id args =>
        dsimp only
        intro h
        by_cases hc : id = BASIC_DELIVER
        · rw [if_pos hc] at h
          have := (since_api E t).takeDelivery f.frame.channel args (since_nil t)
          rw [h] at this
          exact this
        · rw [if_neg hc] at h; exact putBack_since h
      | header a b c d => intro h; exact putBack_since h
      | body b => intro h; exact putBack_since h
      | heartbeat => intro h; exact putBack_since h
      | protocolHeader a b c d => intro h; exact putBack_since h
      | other t => intro h; exact putBack_since h
    obtain ⟨l2, h4⟩ := hs2
    cases hl.unique (h2.trans h4)
    rw [recvBytes_append, List.append_assoc, h3'] at hp
    simp [List.filter_cons, hfb] at hp

theorem Polls.since {E : NetEnv} {s s' : Conn} {calls : List (Option TimeVal × Outcome Envelope)} (h : Polls E s calls s') : ∃ l, Since s s' l := by
  induction h with
  | nil s => exact since_nil s
  | cons h1 _ ih =>
    rename_i s t u tv o os _
    have h2 := (since_api E s).consumeMessage tv (since_nil s)
    rw [h1] at h2
    obtain ⟨l, h2⟩ := h2
    obtain ⟨l', h3⟩ := ih
    exact ⟨l ++ l', h2.trans h3⟩
  | send h1 _ ih =>
    rename_i s t u ch id args calls _
    have h2 := (since_api E s).sendFrame ⟨ch, .method id args⟩ SF_NONE TIME_INF (Nat.le_refl _) (since_nil s)
    obtain ⟨l, hl⟩ : ∃ l, Since s t l := by
      unfold sendMethod at h1
      revert h1 h2
      cases sendFrame E ⟨ch, .method id args⟩ SF_NONE TIME_INF s <;> intro h1 h2 <;> cases h1 <;> exact h2
    obtain ⟨l', h3⟩ := ih
    exact ⟨l ++ l', hl.trans h3⟩
  | publish _ h1 _ ih =>
    have h2 := ((since_api E _).basicPublish _ _ _ _ _ _ _ (since_nil _)).leaves h1
    obtain ⟨l, hl⟩ := h2
    obtain ⟨l', h3⟩ := ih
    exact ⟨l ++ l', hl.trans h3⟩

theorem MessageOrLimit.cons {E : NetEnv} {c : Option TimeVal × Outcome Envelope} {calls : List (Option TimeVal × Outcome Envelope)}
    (h : (∃ e, c.2 = .normal e) ∨ (c.1 ≠ none ∧ ∃ st, c.2 = .libraryException st ∧ SaysTimeout E c.1 st)) (h' : MessageOrLimit E calls) : MessageOrLimit E (c :: calls) := by
  intro x hx
  rcases List.mem_cons.1 hx with rfl | hx
  · exact h
  · exact h' x hx

theorem polls_all {E : NetEnv} (hA : ∀ k, E.pe.alloc k = true) {s s' : Conn} {calls : List (Option TimeVal × Outcome Envelope)} (h : Polls E s calls s') :
    ∀ {ds : List Delivery} {rest : Bytes} {l : List Ev}, Calm0 E s → Since s s' l → (∀ e ∈ l, e.fine) →
      (∀ d ∈ ds, KindProps d.props ∧ KeyedProps d.props ∧ d.bodies.flatten.length < 2 ^ 64 ∧ d.bodies.getLast? ≠ some []) →
      Sane E s (recvBytes l ++ rest) → s.queue = [] → pending E s (recvBytes l ++ rest) = ds.flatMap Delivery.frames →
      MessageOrLimit E calls ∧ ∃ n, n ≤ ds.length ∧ messagesOf calls = (ds.take n).map Delivery.envelope := by
  induction h with
  | nil s => exact fun _ _ _ _ _ _ _ => ⟨nofun, 0, Nat.zero_le _, rfl⟩
  | @send s t u ch id args calls h1 h2 ih =>
    intro ds rest l hC hl hf hd hS hq hp
    obtain ⟨l2, h5⟩ := h2.since
    obtain ⟨l1, h3, hu⟩ := sendFrame_unharmed (Nat.le_refl _) hC h1
    cases hl.unique (h3.trans h5)
    rw [recvBytes_append, List.append_assoc] at hS hp
    obtain ⟨c, q, l1', h3', h4⟩ := hu fun e he => hf e (List.mem_append_left _ he)
    cases h3.unique h3'
    exact ih c h5 (fun e he => hf e (List.mem_append_right _ he)) hd ((h4 _).1 hS) (q.trans hq) ((h4 _).2.trans hp)
  | @publish s t u _ _ _ _ _ _ _ calls h0 h1 h2 ih =>
    intro ds rest l hC hl hf hd hS hq hp
    obtain ⟨l2, h5⟩ := h2.since
    obtain ⟨l1, h3, hu⟩ := basicPublish_unharmed h0 hC h1
    cases hl.unique (h3.trans h5)
    rw [recvBytes_append, List.append_assoc] at hS hp
    obtain ⟨c, q, l1', h3', h4⟩ := hu fun e he => hf e (List.mem_append_left _ he)
    cases h3.unique h3'
    exact ih c h5 (fun e he => hf e (List.mem_append_right _ he)) hd ((h4 _).1 hS) (q.trans hq) ((h4 _).2.trans hp)
  | @cons s t u tv o calls h1 h2 ih =>
    intro ds rest l hC hl hf hd hS hq hp
    have hN : NoHb s := by intro g hg; rw [hq] at hg; cases hg
    obtain ⟨l2, h5⟩ := h2.since
    have h1s := (since_api E s).consumeMessage tv (since_nil s)
    rw [h1] at h1s
    obtain ⟨l1, h3⟩ := h1s
    cases hl.unique (h3.trans h5)
    rw [recvBytes_append, List.append_assoc] at hS hp
    have hf1 : ∀ e ∈ l1, e.fine := fun e he => hf e (List.mem_append_left _ he)
    have hf2 : ∀ e ∈ l2, e.fine := fun e he => hf e (List.mem_append_right _ he)
    -- a call that failed
    have failed : tv ≠ none ∧ (∃ e, o = .libraryException e ∧ SaysTimeout E tv e) ∧ Unharmed E s t →
        MessageOrLimit E ((tv, o) :: calls) ∧ ∃ n, n ≤ ds.length ∧ messagesOf ((tv, o) :: calls) = (ds.take n).map Delivery.envelope := by
      rintro ⟨htv, ⟨e, rfl, hst⟩, c, q, l1', h3', h4⟩
      cases h3.unique h3'
      obtain ⟨m, n, hn, e1⟩ := ih c h5 hf2 hd ((h4 _).1 hS) (q.trans hq) ((h4 _).2.trans hp)
      exact ⟨m.cons (.inr ⟨htv, _, rfl, hst⟩), n, hn, e1⟩
    cases ds with
    | nil => exact failed (consumeMessage_nothing hA hC hN h1 h3 hf hS (by rw [hp]; rfl))
    | cons d ds =>
      obtain ⟨k1, k2, k3, k4⟩ := hd d List.mem_cons_self
      have hz : (UInt64.ofNat d.bodies.flatten.length).toNat = d.bodies.flatten.length := by rw [UInt64.toNat_ofNat', Nat.mod_eq_of_lt k3]
      obtain ⟨l1', h3', h4⟩ := consumeMessage_polls hA (everything_view E d.channel) (tag := d.tag) (dt := d.deliveryTag) (red := d.redelivered)
        (ex := d.exchange) (rk := d.routingKey) (cls := 60) (flags := d.flags) (bodies := d.bodies) hC hN k1 k2 hz h1
      cases h3.unique h3'
      rw [List.flatMap_cons] at hp
      rcases h4 hf1 (recvBytes l2 ++ rest) _ (ds.flatMap Delivery.frames) hS
        (by rw [hp]; rfl) fun t Y _ hq' hp' => ⟨List.eq_nil_iff_forall_not_mem.2 (fun g hg => by have := hq' g hg; rw [hq] at this; cases this), hp'⟩ with
        ⟨rfl, b⟩ | h4
      · obtain ⟨c1, c2, c3, c4⟩ := b k4
        obtain ⟨m, n, hn, e1⟩ := ih c1 h5 hf2 (fun d hd' => hd d (List.mem_cons_of_mem _ hd')) c2 c3 c4
        refine ⟨m.cons (.inl ⟨_, rfl⟩), n + 1, by simpa using hn, ?_⟩
        simp only [messagesOf, List.take_succ_cons, List.map_cons, e1, copiedProps_eq]
        rfl
      · exact failed h4

/-- C105, one channel after the other (what is missing: as for `C78_in_order_partial`, messages whose headers have an empty key and bodies followed by an
empty body frame): if what the server sends is deliveries one after the other (heartbeats anywhere), cut into pieces and spread over time
anyhow, then a consumer that polls — any number of calls of amqp_consume_message, with limits of any length, each taken up again after those
that ran out, and acknowledgements or other methods sent between them, messages
published between them if heartbeats are off — gets these messages, in this order, each once and none left out; every call that returns no message had a limit, and fails
with an error of the library: with a working clock, that the time is over. -/
theorem C105_in_order_partial {E : NetEnv} {ds : List Delivery} {frames : List AFrame} {rest : Bytes} {l : List Ev}
    {calls : List (Option TimeVal × Outcome Envelope)} {s s' : Conn} (hR : Receiving E s) (h : Polls E s calls s') (hl : Since s s' l)
    (hf : ∀ e ∈ l, e.fine) (hS : Stream s.ps.frameMax (s.inb ++ (recvBytes l ++ rest)) frames)
    (hd : frames.filter (!·.isHeartbeat) = ds.flatMap Delivery.frames)
    (hk : ∀ d ∈ ds, KeyedProps d.props ∧ d.bodies.flatten.length < 2 ^ 64 ∧ d.bodies.getLast? ≠ some []) :
    MessageOrLimit E calls ∧ ∃ n, n ≤ ds.length ∧ messagesOf calls = (ds.take n).map Delivery.envelope := by
  refine polls_all hR.memory h ⟨hR.inUse.good, hR.heart, hR.isOpen⟩ hl hf (fun d hd' => ?_) (hS.sane hR.inUse.good hR.idle rfl) hR.queue
    (by rw [pending_stream hR.inUse hR.idle hR.queue rfl hS, hd])
  obtain ⟨a, b, c⟩ := hk d hd'
  refine ⟨?_, a, b, c⟩
  have m : (⟨d.channel, .header 60 (UInt64.ofNat d.bodies.flatten.length) d.flags d.props⟩ : AFrame) ∈ frames.filter (!·.isHeartbeat) := by
    rw [hd]
    refine List.mem_flatMap.2 ⟨d, hd', ?_⟩
    simp [Delivery.frames]
  exact hS.kinds (List.mem_filter.1 m).1

/-- One call, when the next frame is of channel `a`. -/
theorem polls_pair_step {E : NetEnv} (hA : ∀ k, E.pe.alloc k = true) {a b : UInt16} (hab : a ≠ b) {s t : Conn} {o : Outcome Envelope} {As Bs : List Delivery}
    {X : Bytes} {l : List Ev} {tv : Option TimeVal} (h : consumeMessage E tv s = .ok o t) (hC : Calm0 E s) (hl : Since s t l) (hf : ∀ e ∈ l, e.fine)
    (hAs : ∀ d ∈ As, d.channel = a ∧ KindProps d.props ∧ KeyedProps d.props ∧ d.bodies.flatten.length < 2 ^ 64 ∧ d.bodies.getLast? ≠ some [])
    (hS : Sane E s (recvBytes l ++ X)) (hp : Pair E a b (Bs.flatMap Delivery.frames) s (recvBytes l ++ X) (As.flatMap Delivery.frames))
    {g : AFrame} {gs : List AFrame} (hg : pending E s (recvBytes l ++ X) = g :: gs) (hga : g.channel = a) :
    (∃ d As', As = d :: As' ∧ o = .normal d.envelope ∧ Calm0 E t ∧ Sane E t X ∧ Pair E a b (Bs.flatMap Delivery.frames) t X (As'.flatMap Delivery.frames)) ∨
    (tv ≠ none ∧ (∃ e, o = .libraryException e ∧ SaysTimeout E tv e) ∧ Unharmed E s t) := by
  have hm := hp.mine
  have hy := hp.yours
  rw [hg] at hm hy
  rw [List.filter_cons_of_pos (by simpa using hga)] at hm
  rw [List.filter_cons_of_neg (by rw [hga]; simpa using hab)] at hy
  cases As with
  | nil => cases hm
  | cons d As =>
    obtain ⟨rfl, k1, k2, k3, k4⟩ := hAs d List.mem_cons_self
    rw [List.flatMap_cons] at hm
    injection hm with hm1 hm2
    have hz : (UInt64.ofNat d.bodies.flatten.length).toNat = d.bodies.flatten.length := by rw [UInt64.toNat_ofNat', Nat.mod_eq_of_lt k3]
    obtain ⟨l1, h3, h4⟩ := consumeMessage_polls hA (pair_view hab (Bs.flatMap Delivery.frames)) (tag := d.tag) (dt := d.deliveryTag) (red := d.redelivered)
      (ex := d.exchange) (rk := d.routingKey) (cls := 60) (flags := d.flags) (bodies := d.bodies) hC hp.hb k1 k2 hz h
    cases hl.unique h3
    rcases h4 hf X gs (As.flatMap Delivery.frames) hS (by rw [hg, hm1]) fun t Y hN hq hpt => {
      hb := hN
      all := fun x hx => hp.all x (by rw [hg]; rw [hpt] at hx; exact List.mem_cons_of_mem _ hx)
      one := hp.one.imp (fun h x hx => h x (hq x hx)) fun h x hx => h x (hq x hx)
      mine := by rw [hpt, hm2]; rfl
      yours := by rw [hpt]; exact hy } with ⟨c1, c2⟩ | h4
    · obtain ⟨c2, c3, c4⟩ := c2 k4
      exact .inl ⟨d, As, rfl, by rw [c1, copiedProps_eq]; rfl, c2, c3, c4⟩
    · exact .inr h4

theorem polls_pair {E : NetEnv} (hA : ∀ k, E.pe.alloc k = true) {a b : UInt16} (hab : a ≠ b) {s s' : Conn}
    {calls : List (Option TimeVal × Outcome Envelope)} (h : Polls E s calls s') : ∀ {As Bs : List Delivery} {rest : Bytes} {l : List Ev}, Calm0 E s →
      Since s s' l → (∀ e ∈ l, e.fine) →
      (∀ d ∈ As, d.channel = a ∧ KindProps d.props ∧ KeyedProps d.props ∧ d.bodies.flatten.length < 2 ^ 64 ∧ d.bodies.getLast? ≠ some []) →
      (∀ d ∈ Bs, d.channel = b ∧ KindProps d.props ∧ KeyedProps d.props ∧ d.bodies.flatten.length < 2 ^ 64 ∧ d.bodies.getLast? ≠ some []) →
      Sane E s (recvBytes l ++ rest) → Pair E a b (Bs.flatMap Delivery.frames) s (recvBytes l ++ rest) (As.flatMap Delivery.frames) →
      MessageOrLimit E calls ∧ ∃ i j, i ≤ As.length ∧ j ≤ Bs.length ∧
        Shuffle ((As.take i).map Delivery.envelope) ((Bs.take j).map Delivery.envelope) (messagesOf calls) := by
  induction h with
  | nil s => exact fun _ _ _ _ _ _ _ => ⟨nofun, 0, 0, Nat.zero_le _, Nat.zero_le _, .nil⟩
  | @send s t u ch id args calls h1 h2 ih =>
    intro As Bs rest l hC hl hf hAs hBs hS hp
    obtain ⟨l2, h5⟩ := h2.since
    obtain ⟨l1, h3, hu⟩ := sendFrame_unharmed (Nat.le_refl _) hC h1
    cases hl.unique (h3.trans h5)
    rw [recvBytes_append, List.append_assoc] at hS hp
    obtain ⟨c, q, l1', h3', h4⟩ := hu fun e he => hf e (List.mem_append_left _ he)
    cases h3.unique h3'
    have hpe := (h4 (recvBytes l2 ++ rest)).2
    exact ih c h5 (fun e he => hf e (List.mem_append_right _ he)) hAs hBs ((h4 _).1 hS)
      ⟨by intro g hg; rw [q] at hg; exact hp.hb g hg, by rw [hpe]; exact hp.all, by rw [q]; exact hp.one, by rw [hpe]; exact hp.mine, by rw [hpe]; exact hp.yours⟩
  | @publish s t u _ _ _ _ _ _ _ calls h0 h1 h2 ih =>
    intro As Bs rest l hC hl hf hAs hBs hS hp
    obtain ⟨l2, h5⟩ := h2.since
    obtain ⟨l1, h3, hu⟩ := basicPublish_unharmed h0 hC h1
    cases hl.unique (h3.trans h5)
    rw [recvBytes_append, List.append_assoc] at hS hp
    obtain ⟨c, q, l1', h3', h4⟩ := hu fun e he => hf e (List.mem_append_left _ he)
    cases h3.unique h3'
    have hpe := (h4 (recvBytes l2 ++ rest)).2
    exact ih c h5 (fun e he => hf e (List.mem_append_right _ he)) hAs hBs ((h4 _).1 hS)
      ⟨by intro g hg; rw [q] at hg; exact hp.hb g hg, by rw [hpe]; exact hp.all, by rw [q]; exact hp.one, by rw [hpe]; exact hp.mine, by rw [hpe]; exact hp.yours⟩
  | @cons s t u tv o calls h1 h2 ih =>
    intro As Bs rest l hC hl hf hAs hBs hS hp
    obtain ⟨l2, h5⟩ := h2.since
    have h1s := (since_api E s).consumeMessage tv (since_nil s)
    rw [h1] at h1s
    obtain ⟨l1, h1s⟩ := h1s
    cases hl.unique (h1s.trans h5)
    rw [recvBytes_append, List.append_assoc] at hS hp
    have hf1 : ∀ e ∈ l1, e.fine := fun e he => hf e (List.mem_append_left _ he)
    have hf2 : ∀ e ∈ l2, e.fine := fun e he => hf e (List.mem_append_right _ he)
    have failed : tv ≠ none ∧ (∃ e, o = .libraryException e ∧ SaysTimeout E tv e) ∧ Unharmed E s t → MessageOrLimit E ((tv, o) :: calls) ∧ ∃ i j, i ≤ As.length ∧ j ≤ Bs.length ∧
        Shuffle ((As.take i).map Delivery.envelope) ((Bs.take j).map Delivery.envelope) (messagesOf ((tv, o) :: calls)) := by
      rintro ⟨htv, ⟨e, rfl, hst⟩, c, q, l1', h3', h4⟩
      cases h1s.unique h3'
      have hpe := (h4 (recvBytes l2 ++ rest)).2
      obtain ⟨m, i, j, hi, hj, hsh⟩ := ih c h5 hf2 hAs hBs ((h4 _).1 hS)
        ⟨by intro g hg; rw [q] at hg; exact hp.hb g hg, by rw [hpe]; exact hp.all, by rw [q]; exact hp.one, by rw [hpe]; exact hp.mine, by rw [hpe]; exact hp.yours⟩
      exact ⟨m.cons (.inr ⟨htv, _, rfl, hst⟩), i, j, hi, hj, hsh⟩
    cases hg : pending E s (recvBytes l1 ++ (recvBytes l2 ++ rest)) with
    | nil => exact failed (consumeMessage_nothing hA hC hp.hb h1 h1s hf hS hg)
    | cons g gs =>
      rcases hp.all g (by rw [hg]; exact List.mem_cons_self) with hga | hgb
      · rcases polls_pair_step hA hab h1 hC h1s hf1 hAs hS hp hg hga with ⟨d, As, rfl, rfl, c1, c2, c3⟩ | h
        · obtain ⟨m, i, j, hi, hj, hsh⟩ := ih c1 h5 hf2 (fun d hd => hAs d (List.mem_cons_of_mem _ hd)) hBs c2 c3
          exact ⟨m.cons (.inl ⟨_, rfl⟩), i + 1, j, by simpa using hi, hj, hsh.left⟩
        · exact failed h
      · rcases polls_pair_step hA (Ne.symm hab) h1 hC h1s hf1 hBs hS hp.swap hg hgb with ⟨d, Bs, rfl, rfl, c1, c2, c3⟩ | h
        · obtain ⟨m, i, j, hi, hj, hsh⟩ := ih c1 h5 hf2 hAs (fun d hd => hBs d (List.mem_cons_of_mem _ hd)) c2 c3.swap
          exact ⟨m.cons (.inl ⟨_, rfl⟩), i, j + 1, hi, by simpa using hj, hsh.right⟩
        · exact failed h

/-- C105, two channels (what is missing: as for `C78_two_channels_partial`): the same when the deliveries are on two channels and their frames
interleaved anyhow: the messages of each channel come in order, each once and none left out. -/
theorem C105_two_channels_partial {E : NetEnv} {a b : UInt16} (hab : a ≠ b) {As Bs : List Delivery} {frames : List AFrame} {rest : Bytes} {l : List Ev}
    {calls : List (Option TimeVal × Outcome Envelope)} {s s' : Conn} (hR : Receiving E s) (h : Polls E s calls s') (hl : Since s s' l)
    (hf : ∀ e ∈ l, e.fine) (hS : Stream s.ps.frameMax (s.inb ++ (recvBytes l ++ rest)) frames)
    (hd : Shuffle (As.flatMap Delivery.frames) (Bs.flatMap Delivery.frames) (frames.filter (!·.isHeartbeat)))
    (hA : ∀ d ∈ As, d.channel = a) (hB : ∀ d ∈ Bs, d.channel = b)
    (hk : ∀ d ∈ As ++ Bs, KeyedProps d.props ∧ d.bodies.flatten.length < 2 ^ 64 ∧ d.bodies.getLast? ≠ some []) :
    MessageOrLimit E calls ∧ ∃ i j, i ≤ As.length ∧ j ≤ Bs.length ∧
      Shuffle ((As.take i).map Delivery.envelope) ((Bs.take j).map Delivery.envelope) (messagesOf calls) := by
  have fr : ∀ {Ds : List Delivery} {c : UInt16}, (∀ d ∈ Ds, d.channel = c) → ∀ f ∈ Ds.flatMap Delivery.frames, f.channel = c := by
    intro Ds c hc f hf
    obtain ⟨d, hd, hf⟩ := List.mem_flatMap.1 hf
    rw [← hc d hd]
    unfold Delivery.frames at hf
    simp only [List.mem_cons, List.mem_map] at hf
    rcases hf with rfl | rfl | ⟨_, _, rfl⟩ <;> rfl
  have kinds : ∀ d ∈ As ++ Bs, KindProps d.props := by
    intro d hd'
    have m : (⟨d.channel, .header 60 (UInt64.ofNat d.bodies.flatten.length) d.flags d.props⟩ : AFrame) ∈ frames.filter (!·.isHeartbeat) := by
      refine hd.mem.2 ?_
      have : (⟨d.channel, .header 60 (UInt64.ofNat d.bodies.flatten.length) d.flags d.props⟩ : AFrame) ∈ d.frames := by simp [Delivery.frames]
      exact (List.mem_append.1 hd').imp (fun h => List.mem_flatMap.2 ⟨d, h, this⟩) fun h => List.mem_flatMap.2 ⟨d, h, this⟩
    exact hS.kinds (List.mem_filter.1 m).1
  refine polls_pair hR.memory hab h ⟨hR.inUse.good, hR.heart, hR.isOpen⟩ hl hf
    (fun d hd' => ⟨hA d hd', kinds d (List.mem_append_left _ hd'), hk d (List.mem_append_left _ hd')⟩)
    (fun d hd' => ⟨hB d hd', kinds d (List.mem_append_right _ hd'), hk d (List.mem_append_right _ hd')⟩) (hS.sane hR.inUse.good hR.idle rfl) ?_
  have hpe := pending_stream hR.inUse hR.idle hR.queue rfl hS
  refine ⟨(by intro g hg; rw [hR.queue] at hg; cases hg), ?_, .inl (by intro g hg; rw [hR.queue] at hg; cases hg), ?_, ?_⟩
  · intro g hg
    rw [hpe] at hg
    exact (hd.mem.1 hg).imp (fr hA g) (fr hB g)
  · rw [hpe]; exact hd.filter_left (fun f hf => by simpa using fr hA f hf) fun f hf => by simpa [fr hB f hf] using Ne.symm hab
  · rw [hpe]; exact hd.filter_right (fun f hf => by simpa [fr hA f hf] using hab) fun f hf => by simpa using fr hB f hf


/-! ### A sample -/

/-- The first call gets ten octets of a basic.deliver before its tenth of a second is over; the second, with a second, gets the rest of it, the
header, and — having no limit any more — waits for the body. -/
def pollEnv : NetEnv := { netEnv [] [] [(1, .data (deliverBytes.take 10)), (3, .fail 0x1300), (7, .data (deliverBytes.drop 10 ++ headerBytes)), (10, .fail 0x1300),
  (12, .data [3, 0, 1, 0, 0, 0, 3, 65, 66, 67, 206])] [(5, .timeout), (11, .ready)] with clock := fun t => 1000000000 + t }

theorem C105_sample :
    let r := consumeMessage pollEnv (some ⟨0, 100000⟩) (demoConn 64)
    let r2 := r.state?.map (consumeMessage pollEnv (some ⟨1, 0⟩))
    r.val?.bind (·.status?) = some St.TIMEOUT ∧
    ((r2.bind (·.val?)).bind (·.normal?)).map (fun e => (e.channel, e.deliveryTag, e.message.body)) = some (1, 7, [65, 66, 67]) ∧
    Receiving pollEnv (demoConn 64) :=
  ⟨by decide +kernel, by decide +kernel, ⟨demoParser_live _ _, by simp [demoConn, demoParser, PState.idle]⟩, rfl, rfl, rfl, .inl ⟨by decide, rfl, rfl⟩, fun _ => rfl⟩

/-- The same with a message of two octets published between the two calls: a step of `Polls`, since there are no heartbeats. -/
def busyEnv : NetEnv := { netEnv [] [] [(1, .data (deliverBytes.take 10)), (3, .fail 0x1300), (10, .data (deliverBytes.drop 10 ++ headerBytes)),
  (13, .fail 0x1300), (15, .data [3, 0, 1, 0, 0, 0, 3, 65, 66, 67, 206])] [(5, .timeout), (14, .ready)] with
    clock := fun t => 1000000000 + t, send := fun _ b => .sent b.length }
def busyFirst : Option Conn := (consumeMessage busyEnv (some ⟨0, 100000⟩) (demoConn 64)).state?
def busyPublish : Option (Res Conn Unit) := busyFirst.map (basicPublish busyEnv 1 [] [113] 0 0 none [72, 105])
def busySecond : Option (Res Conn (Outcome Envelope)) := (busyPublish.bind (·.state?)).map (consumeMessage busyEnv (some ⟨1, 0⟩))

theorem C105_publish_sample :
    busyFirst.map (·.heartbeat) = some 0 ∧ (busyPublish.bind (·.val?)).isSome = true ∧
    ((busyPublish.bind (·.state?)).map fun s => (sentBytes (s.log.drop ((busyFirst.map (·.log.length)).getD 0))).reverse.take 10) =
      some [206, 105, 72, 2, 0, 0, 0, 1, 0, 3] ∧
    ((busySecond.bind (·.val?)).bind (·.normal?)).map (fun e => (e.channel, e.deliveryTag)) = some (1, 7) ∧
    (busySecond.bind (·.state?)).map (fun s => s.log.all evFine) = some true := by
  decide +kernel

end Rmq
