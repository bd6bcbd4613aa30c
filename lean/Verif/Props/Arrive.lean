import Verif.Props.Consume
import Verif.Props.Send
import Verif.Proofs.TwoChannels
/-!
# C78: a message arrives as it was published
-/
namespace Rmq

/-! ## Small facts -/

theorem prefix_flatten {α : Type} {f : Bytes → α} (hf : ∀ a b, f a = f b → a = b) : ∀ {as bs : List Bytes} {X Y : List α},
    as.map f ++ X = bs.map f ++ Y → as.flatten.length = bs.flatten.length → as.flatten = bs.flatten
  | [], bs, _, _, _, h => by
    have : bs.flatten = [] := List.eq_nil_of_length_eq_zero (by simpa using h.symm)
    rw [this]; rfl
  | as, [], _, _, _, h => by
    have : as.flatten = [] := List.eq_nil_of_length_eq_zero (by simpa using h)
    rw [this]; rfl
  | a :: as, b :: bs, X, Y, h, hl => by
    rw [List.map_cons, List.map_cons, List.cons_append, List.cons_append] at h
    injection h with h1 h2
    have := hf _ _ h1
    subst this
    rw [List.flatten_cons, List.flatten_cons, List.length_append, List.length_append] at hl
    rw [List.flatten_cons, List.flatten_cons, prefix_flatten hf h2 (by omega)]

theorem pending_stream {E : NetEnv} {s : Conn} {fm : Nat} {X : Bytes} {frames : List AFrame} (hI : InUse E s) (hidle : s.ps.mode = .idle)
    (hq : s.queue = []) (hfm : s.ps.frameMax = fm) (hS : Stream fm (s.inb ++ X) frames) : pending E s X = frames.filter (!·.isHeartbeat) := by
  unfold pending
  rw [hq, framesOf_stream E.pe hS hI.good hidle hfm]
  rfl

/-! ## C78 -/

/-- C78, completeness: a client waiting on an open connection, to which the server sends a sequence of frames — the first (heartbeats aside)
a basic.deliver, and on its channel next a content (header, body frames; other channels' frames may be interleaved) — gets exactly the
delivery's fields, the flagged properties and the body, if the outside does not fail (no error or end of stream from the socket, no
error from poll) and there is memory.  Missing: messages whose headers have an empty key (see `C78_empty_key`). -/
theorem C78_arrives_partial {E : NetEnv} {ch : UInt16} {tag : Bytes} {dt : UInt64} {red : Int32} {ex rk : Bytes} {flags : UInt32} {props : Rec}
    {body rest : Bytes} {frames fs content more : List AFrame} {l : List Ev} {o : Outcome Envelope} {s s' : Conn} (hR : Receiving E s)
    (h : consumeMessage E none s = .ok o s') (hl : Since s s' l) (hf : ∀ e ∈ l, e.fine)
    (hS : Stream s.ps.frameMax (s.inb ++ (recvBytes l ++ rest)) frames)
    (hd : frames.filter (!·.isHeartbeat) = ⟨ch, .method BASIC_DELIVER (deliverArgs tag dt red ex rk)⟩ :: fs)
    (hc : fs.filter (·.channel == ch) = content ++ more) (hC : Content ch flags props body content) (hk : KeyedProps props) :
    o = .normal ⟨ch, tag, dt, red, ex, rk, ⟨flags, flaggedProps flags props basicProps, body⟩⟩ := by
  obtain ⟨size, bodies, rfl, rfl, hz⟩ := hC
  have hK : KindProps props := by
    have m1 : (⟨ch, .header 60 size flags props⟩ : AFrame) ∈ fs.filter (·.channel == ch) := by rw [hc]; simp
    have m2 : (⟨ch, .header 60 size flags props⟩ : AFrame) ∈ frames.filter (!·.isHeartbeat) := by
      rw [hd]; exact List.mem_cons_of_mem _ (List.mem_filter.1 m1).1
    exact hS.kinds (List.mem_filter.1 m2).1
  obtain ⟨l', h1, h2⟩ := consumeMessage_meets hR.memory (onChannel_view E ch) (tag := tag) (dt := dt) (red := red) (ex := ex) (rk := rk) (cls := 60)
    (flags := flags) (bodies := bodies) ⟨hR.inUse.good, hR.heart, hR.isOpen⟩ (by intro g hg; rw [hR.queue] at hg; cases hg) hK hk hz h
  cases hl.unique h1
  obtain ⟨this, _⟩ := h2 hf rest fs more (hS.sane hR.inUse.good hR.idle rfl) (by rw [pending_stream hR.inUse hR.idle hR.queue rfl hS, hd])
    fun t Y hN _ hp => ⟨hN, by rw [hp, hc]⟩
  rw [this, copiedProps_eq]

/-- C78, soundness: whatever fails, and whatever timeout is given, if a message is returned at all it is the one sent. -/
theorem C78_nothing_else {E : NetEnv} {tv : Option TimeVal} {ch : UInt16} {tag : Bytes} {dt : UInt64} {red : Int32} {ex rk : Bytes} {flags : UInt32}
    {props : Rec} {body rest : Bytes} {frames fs content more : List AFrame} {l : List Ev} {env : Envelope} {s s' : Conn} (hI : InUse E s)
    (hU : Unblocked E s) (hidle : s.ps.mode = .idle) (hq : s.queue = []) (h : consumeMessage E tv s = .ok (.normal env) s') (hl : Since s s' l)
    (hS : Stream s.ps.frameMax (s.inb ++ (recvBytes l ++ rest)) frames)
    (hd : frames.filter (!·.isHeartbeat) = ⟨ch, .method BASIC_DELIVER (deliverArgs tag dt red ex rk)⟩ :: fs)
    (hc : fs.filter (·.channel == ch) = content ++ more) (hC : Content ch flags props body content) :
    env = ⟨ch, tag, dt, red, ex, rk, ⟨flags, flaggedProps flags props basicProps, body⟩⟩ := by
  obtain ⟨size, bodies, rfl, rfl, hz⟩ := hC
  obtain ⟨args, cls, sz, ps, bs, l', h1, a1, a2, a3, a4, a5, b1, b2, b3, h2⟩ := C45_envelope hI hU (by intro g hg; rw [hq] at hg; cases hg) h
  cases hl.unique h1
  obtain ⟨h3, h4⟩ := h2 rest
  rw [pending_stream hI hidle hq rfl hS, hd] at h3 h4
  obtain ⟨ech, etag, edt, ered, eex, erk, eflags, eprops, ebody⟩ := env
  simp only [List.head?_cons, Option.some.injEq, AFrame.mk.injEq, Payload.method.injEq, true_and] at h3
  obtain ⟨rfl, rfl⟩ := h3
  rw [List.tail_cons, hc] at h4
  rw [List.cons_append, List.cons_append] at h4
  injection h4 with h4 h5
  simp only [AFrame.mk.injEq, Payload.header.injEq, true_and] at h4
  obtain ⟨rfl, rfl, rfl, rfl⟩ := h4
  simp (decide := true) [deliverArgs, Rec.get?, List.find?] at a1 a2 a3 a4 a5
  dsimp only at b1 b2 b3 h5
  subst a1 a2 a3 a4 a5 b1 b3
  have := prefix_flatten (f := fun b => (⟨ch, .body b⟩ : AFrame)) (as := bodies) (bs := bs) (by intro a b h; cases h; rfl) h5 (by omega)
  rw [this]


theorem Consumes.since {E : NetEnv} {s s' : Conn} {os : List (Outcome Envelope)} (h : Consumes E s os s') : ∃ l, Since s s' l := by
  induction h with
  | nil s => exact since_nil s
  | cons h1 _ ih =>
    rename_i s t u o os _
    have h2 := (since_api E s).consumeMessage none (since_nil s)
    rw [h1] at h2
    obtain ⟨l, h2⟩ := h2
    obtain ⟨l', h3⟩ := ih
    exact ⟨l ++ l', h2.trans h3⟩

theorem consumes_all {E : NetEnv} (hA : ∀ k, E.pe.alloc k = true) {s s' : Conn} {os : List (Outcome Envelope)} (h : Consumes E s os s') :
    ∀ {ds : List Delivery} {more : List AFrame} {rest : Bytes} {l : List Ev}, Calm0 E s → os.length ≤ ds.length → Since s s' l → (∀ e ∈ l, e.fine) →
      (∀ d ∈ ds, KindProps d.props ∧ KeyedProps d.props ∧ d.bodies.flatten.length < 2 ^ 64 ∧ d.bodies.getLast? ≠ some []) →
      Sane E s (recvBytes l ++ rest) → s.queue = [] → pending E s (recvBytes l ++ rest) = ds.flatMap Delivery.frames ++ more →
      os = (ds.take os.length).map fun d => .normal d.envelope := by
  induction h with
  | nil s => intros; simp
  | @cons s t u o os h1 h2 ih =>
    intro ds more rest l hC hlen hl hf hd hS hq hp
    cases ds with
    | nil => simp at hlen
    | cons d ds =>
      obtain ⟨k1, k2, k3, k4⟩ := hd d List.mem_cons_self
      have hz : (UInt64.ofNat d.bodies.flatten.length).toNat = d.bodies.flatten.length := by rw [UInt64.toNat_ofNat', Nat.mod_eq_of_lt k3]
      obtain ⟨l1, h3, h4⟩ := consumeMessage_meets hA (everything_view E d.channel) (tag := d.tag) (dt := d.deliveryTag) (red := d.redelivered)
        (ex := d.exchange) (rk := d.routingKey) (cls := 60) (flags := d.flags) (bodies := d.bodies) hC
        (by intro g hg; rw [hq] at hg; cases hg) k1 k2 hz h1
      obtain ⟨l2, h5⟩ := h2.since
      cases hl.unique (h3.trans h5)
      rw [recvBytes_append, List.append_assoc] at hS hp
      rw [List.flatMap_cons, List.append_assoc] at hp
      obtain ⟨a, b⟩ := h4 (fun e he => hf e (List.mem_append_left _ he)) (recvBytes l2 ++ rest) _ (ds.flatMap Delivery.frames ++ more) hS
        (by rw [hp]; rfl) fun t Y _ hq' hp' => ⟨List.eq_nil_iff_forall_not_mem.2 (fun g hg => by have := hq' g hg; rw [hq] at this; cases this), hp'⟩
      obtain ⟨c1, c2, c3, c4⟩ := b k4
      rw [ih c1 (by simpa using hlen) h5 (fun e he => hf e (List.mem_append_right _ he)) (fun d hd' => hd d (List.mem_cons_of_mem _ hd')) c2 c3 c4, a,
        copiedProps_eq]
      simp only [List.length_cons, List.take_succ_cons, List.map_cons, List.length_map, List.length_take]
      have : os.length ≤ ds.length := by simpa using hlen
      rw [Nat.min_eq_left this]
      rfl

/-- C78, many messages: if the server sends deliveries one after the other (each complete before the next, heartbeats anywhere), then the calls
of amqp_consume_message return these messages, in this order, each once and none left out.  Missing: messages whose headers have an empty
key, and bodies followed by an empty body frame (`C78_trailing_empty`). -/
theorem C78_in_order_partial {E : NetEnv} {ds : List Delivery} {frames more : List AFrame} {rest : Bytes} {l : List Ev} {os : List (Outcome Envelope)}
    {s s' : Conn} (hR : Receiving E s) (h : Consumes E s os s') (hn : os.length ≤ ds.length) (hl : Since s s' l) (hf : ∀ e ∈ l, e.fine)
    (hS : Stream s.ps.frameMax (s.inb ++ (recvBytes l ++ rest)) frames) (hd : frames.filter (!·.isHeartbeat) = ds.flatMap Delivery.frames ++ more)
    (hk : ∀ d ∈ ds, KeyedProps d.props ∧ d.bodies.flatten.length < 2 ^ 64 ∧ d.bodies.getLast? ≠ some []) :
    os = (ds.take os.length).map fun d => .normal d.envelope := by
  refine consumes_all hR.memory h ⟨hR.inUse.good, hR.heart, hR.isOpen⟩ hn hl hf (fun d hd' => ?_) (hS.sane hR.inUse.good hR.idle rfl) hR.queue
    (by rw [pending_stream hR.inUse hR.idle hR.queue rfl hS, hd])
  obtain ⟨a, b, c⟩ := hk d hd'
  refine ⟨?_, a, b, c⟩
  have m : (⟨d.channel, .header 60 (UInt64.ofNat d.bodies.flatten.length) d.flags d.props⟩ : AFrame) ∈ frames.filter (!·.isHeartbeat) := by
    rw [hd]
    refine List.mem_append_left _ (List.mem_flatMap.2 ⟨d, hd', ?_⟩)
    simp [Delivery.frames]
  exact hS.kinds (List.mem_filter.1 m).1

/-! ### Two channels -/

/-- One call, when the next frame is of channel `a`. -/
theorem consumes_pair_step {E : NetEnv} (hA : ∀ k, E.pe.alloc k = true) {a b : UInt16} (hab : a ≠ b) {s t : Conn} {o : Outcome Envelope} {As Bs : List Delivery}
    {X : Bytes} {l : List Ev} (h : consumeMessage E none s = .ok o t) (hC : Calm0 E s) (hl : Since s t l) (hf : ∀ e ∈ l, e.fine)
    (hAs : ∀ d ∈ As, d.channel = a ∧ KindProps d.props ∧ KeyedProps d.props ∧ d.bodies.flatten.length < 2 ^ 64 ∧ d.bodies.getLast? ≠ some [])
    (hS : Sane E s (recvBytes l ++ X)) (hp : Pair E a b (Bs.flatMap Delivery.frames) s (recvBytes l ++ X) (As.flatMap Delivery.frames))
    {g : AFrame} {gs : List AFrame} (hg : pending E s (recvBytes l ++ X) = g :: gs) (hga : g.channel = a) :
    ∃ d As', As = d :: As' ∧ o = .normal d.envelope ∧ Calm0 E t ∧ Sane E t X ∧ Pair E a b (Bs.flatMap Delivery.frames) t X (As'.flatMap Delivery.frames) := by
  have hm := hp.mine
  have hy := hp.yours
  rw [hg] at hm hy
  rw [List.filter_cons_of_pos (by simpa using hga)] at hm
  rw [List.filter_cons_of_neg (by rw [hga]; simpa using hab)] at hy
  cases As with
  | nil => cases hm
  | cons d As =>
    obtain ⟨rfl, k1, k2, k3, k4⟩ := hAs d List.mem_cons_self
    rw [List.flatMap_cons] at hm
    injection hm with hm1 hm2
    have hz : (UInt64.ofNat d.bodies.flatten.length).toNat = d.bodies.flatten.length := by rw [UInt64.toNat_ofNat', Nat.mod_eq_of_lt k3]
    obtain ⟨l1, h3, h4⟩ := consumeMessage_meets hA (pair_view hab (Bs.flatMap Delivery.frames)) (tag := d.tag) (dt := d.deliveryTag) (red := d.redelivered)
      (ex := d.exchange) (rk := d.routingKey) (cls := 60) (flags := d.flags) (bodies := d.bodies) hC hp.hb k1 k2 hz h
    cases hl.unique h3
    obtain ⟨c1, c2⟩ := h4 hf X gs (As.flatMap Delivery.frames) hS (by rw [hg, hm1]) fun t Y hN hq hpt => {
      hb := hN
      all := fun x hx => hp.all x (by rw [hg]; rw [hpt] at hx; exact List.mem_cons_of_mem _ hx)
      one := hp.one.imp (fun h x hx => h x (hq x hx)) fun h x hx => h x (hq x hx)
      mine := by rw [hpt, hm2]; rfl
      yours := by rw [hpt]; exact hy }
    obtain ⟨c2, c3, c4⟩ := c2 k4
    exact ⟨d, As, rfl, by rw [c1, copiedProps_eq]; rfl, c2, c3, c4⟩

theorem consumes_pair {E : NetEnv} (hA : ∀ k, E.pe.alloc k = true) {a b : UInt16} (hab : a ≠ b) {s s' : Conn} {os : List (Outcome Envelope)}
    (h : Consumes E s os s') : ∀ {As Bs : List Delivery} {rest : Bytes} {l : List Ev}, Calm0 E s → os.length ≤ As.length + Bs.length → Since s s' l →
      (∀ e ∈ l, e.fine) →
      (∀ d ∈ As, d.channel = a ∧ KindProps d.props ∧ KeyedProps d.props ∧ d.bodies.flatten.length < 2 ^ 64 ∧ d.bodies.getLast? ≠ some []) →
      (∀ d ∈ Bs, d.channel = b ∧ KindProps d.props ∧ KeyedProps d.props ∧ d.bodies.flatten.length < 2 ^ 64 ∧ d.bodies.getLast? ≠ some []) →
      Sane E s (recvBytes l ++ rest) → Pair E a b (Bs.flatMap Delivery.frames) s (recvBytes l ++ rest) (As.flatMap Delivery.frames) →
      ∃ i j, i ≤ As.length ∧ j ≤ Bs.length ∧
        Shuffle ((As.take i).map fun d => .normal d.envelope) ((Bs.take j).map fun d => .normal d.envelope) os := by
  induction h with
  | nil s => exact fun _ _ _ _ _ _ _ _ => ⟨0, 0, Nat.zero_le _, Nat.zero_le _, .nil⟩
  | @cons s t u o os h1 h2 ih =>
    intro As Bs rest l hC hlen hl hf hAs hBs hS hp
    obtain ⟨l2, h5⟩ := h2.since
    have h1s := (since_api E s).consumeMessage none (since_nil s)
    rw [h1] at h1s
    obtain ⟨l1, h1s⟩ := h1s
    cases hl.unique (h1s.trans h5)
    rw [recvBytes_append, List.append_assoc] at hS hp
    have hf1 : ∀ e ∈ l1, e.fine := fun e he => hf e (List.mem_append_left _ he)
    have hf2 : ∀ e ∈ l2, e.fine := fun e he => hf e (List.mem_append_right _ he)
    cases hg : pending E s (recvBytes l1 ++ (recvBytes l2 ++ rest)) with
    | nil =>
      have hm := hp.mine
      have hy := hp.yours
      rw [hg] at hm hy
      cases As with
      | cons d As => cases hm
      | nil =>
        cases Bs with
        | cons d Bs => cases hy
        | nil => simp at hlen
    | cons g gs =>
      rcases hp.all g (by rw [hg]; exact List.mem_cons_self) with hga | hgb
      · obtain ⟨d, As, rfl, rfl, c1, c2, c3⟩ := consumes_pair_step hA hab h1 hC h1s hf1 hAs hS hp hg hga
        obtain ⟨i, j, hi, hj, hsh⟩ := ih c1 (by simp at hlen; omega) h5 hf2 (fun d hd => hAs d (List.mem_cons_of_mem _ hd)) hBs c2 c3
        exact ⟨i + 1, j, by simpa using hi, hj, hsh.left⟩
      · obtain ⟨d, Bs, rfl, rfl, c1, c2, c3⟩ := consumes_pair_step hA (Ne.symm hab) h1 hC h1s hf1 hBs hS hp.swap hg hgb
        obtain ⟨i, j, hi, hj, hsh⟩ := ih c1 (by simp at hlen; omega) h5 hf2 hAs (fun d hd => hBs d (List.mem_cons_of_mem _ hd)) c2 c3.swap
        exact ⟨i, j + 1, hi, by simpa using hj, hsh.right⟩

/-- C78, two channels: if what the server sends is the deliveries on two channels, their frames interleaved anyhow (heartbeats anywhere), then
the calls of amqp_consume_message return the messages of each channel in order, each once and none left out.  Missing: messages whose
headers have an empty key, a body followed by an empty body frame (`C78_trailing_empty`), and a third channel (`C78_third_channel`). -/
theorem C78_two_channels_partial {E : NetEnv} {a b : UInt16} (hab : a ≠ b) {As Bs : List Delivery} {frames : List AFrame} {rest : Bytes} {l : List Ev}
    {os : List (Outcome Envelope)} {s s' : Conn} (hR : Receiving E s) (h : Consumes E s os s') (hn : os.length ≤ As.length + Bs.length) (hl : Since s s' l)
    (hf : ∀ e ∈ l, e.fine) (hS : Stream s.ps.frameMax (s.inb ++ (recvBytes l ++ rest)) frames)
    (hd : Shuffle (As.flatMap Delivery.frames) (Bs.flatMap Delivery.frames) (frames.filter (!·.isHeartbeat)))
    (hA : ∀ d ∈ As, d.channel = a) (hB : ∀ d ∈ Bs, d.channel = b)
    (hk : ∀ d ∈ As ++ Bs, KeyedProps d.props ∧ d.bodies.flatten.length < 2 ^ 64 ∧ d.bodies.getLast? ≠ some []) :
    ∃ i j, i ≤ As.length ∧ j ≤ Bs.length ∧
      Shuffle ((As.take i).map fun d => .normal d.envelope) ((Bs.take j).map fun d => .normal d.envelope) os := by
  have fr : ∀ {Ds : List Delivery} {c : UInt16}, (∀ d ∈ Ds, d.channel = c) → ∀ f ∈ Ds.flatMap Delivery.frames, f.channel = c := by
    intro Ds c hc f hf
    obtain ⟨d, hd, hf⟩ := List.mem_flatMap.1 hf
    rw [← hc d hd]
    unfold Delivery.frames at hf
    simp only [List.mem_cons, List.mem_map] at hf
    rcases hf with rfl | rfl | ⟨_, _, rfl⟩ <;> rfl
  have kinds : ∀ d ∈ As ++ Bs, KindProps d.props := by
    intro d hd'
    have m : (⟨d.channel, .header 60 (UInt64.ofNat d.bodies.flatten.length) d.flags d.props⟩ : AFrame) ∈ frames.filter (!·.isHeartbeat) := by
      refine hd.mem.2 ?_
      have : (⟨d.channel, .header 60 (UInt64.ofNat d.bodies.flatten.length) d.flags d.props⟩ : AFrame) ∈ d.frames := by simp [Delivery.frames]
      exact (List.mem_append.1 hd').imp (fun h => List.mem_flatMap.2 ⟨d, h, this⟩) fun h => List.mem_flatMap.2 ⟨d, h, this⟩
    exact hS.kinds (List.mem_filter.1 m).1
  refine consumes_pair hR.memory hab h ⟨hR.inUse.good, hR.heart, hR.isOpen⟩ hn hl hf
    (fun d hd' => ⟨hA d hd', kinds d (List.mem_append_left _ hd'), hk d (List.mem_append_left _ hd')⟩)
    (fun d hd' => ⟨hB d hd', kinds d (List.mem_append_right _ hd'), hk d (List.mem_append_right _ hd')⟩) (hS.sane hR.inUse.good hR.idle rfl) ?_
  have hpe := pending_stream hR.inUse hR.idle hR.queue rfl hS
  refine ⟨(by intro g hg; rw [hR.queue] at hg; cases hg), ?_, .inl (by intro g hg; rw [hR.queue] at hg; cases hg), ?_, ?_⟩
  · intro g hg
    rw [hpe] at hg
    exact (hd.mem.1 hg).imp (fr hA g) (fr hB g)
  · rw [hpe]; exact hd.filter_left (fun f hf => by simpa using fr hA f hf) fun f hf => by simpa [fr hB f hf] using Ne.symm hab
  · rw [hpe]; exact hd.filter_right (fun f hf => by simpa [fr hA f hf] using hab) fun f hf => by simpa using fr hB f hf

/-! ### What goes wrong with more -/

/-- The same frame on another channel. -/
def onCh (ch : UInt8) (frame : Bytes) : Bytes := frame.set 2 ch
/-- A header for an empty body. -/
def header0 : Bytes := [2, 0, 1, 0, 0, 0, 16, 0, 60, 0, 0, 0, 0, 0, 0, 0, 0, 0, 0, 128, 0, 1, 88, 206]

/-- Two channels, the frames of the two messages alternating: both are returned. -/
example : let E := netEnv [] [] [(0, .data (deliverBytes ++ onCh 2 deliverBytes ++ onCh 2 headerBytes ++ headerBytes ++ [3, 0, 2, 0, 0, 0, 2, 65, 66, 206] ++
      [3, 0, 1, 0, 0, 0, 3, 67, 68, 69, 206] ++ [3, 0, 2, 0, 0, 0, 1, 70, 206]))] []
    let r := consumeMessage E none (demoConn 64)
    let r2 := r.state?.map (consumeMessage E none)
    (r.val?.bind (·.normal?)).map (fun e => (e.channel, e.message.body)) = some (1, [67, 68, 69]) ∧
    ((r2.bind (·.val?)).bind (·.normal?)).map (fun e => (e.channel, e.message.body)) = some (2, [65, 66, 70]) := by decide +kernel

/-- C78 fails with a third channel: messages on channels 1, 2 and 3 whose frames are interleaved.  Those on channels 1 and 2 are returned; reading
the one on channel 2 drops the delivery on channel 3 that was queued ahead of its header (see C27), so that every later call ends with
AMQP_STATUS_UNEXPECTED_STATE on the header left over, which is put back each time. -/
theorem C78_third_channel : let E := netEnv [] [] [(0, .data (deliverBytes ++ onCh 2 deliverBytes ++ onCh 3 deliverBytes ++ onCh 2 header0 ++ onCh 3 header0 ++ header0))] []
    let r := consumeMessage E none (demoConn 64)
    let r2 := r.state?.map (consumeMessage E none)
    let r3 := (r2.bind (·.state?)).map (consumeMessage E none)
    let r4 := (r3.bind (·.state?)).map (consumeMessage E none)
    (r.val?.bind (·.normal?)).map (·.channel) = some 1 ∧ ((r2.bind (·.val?)).bind (·.normal?)).map (·.channel) = some 2 ∧
    (r3.bind (·.val?)).bind (·.status?) = some St.UNEXPECTED_STATE ∧ (r4.bind (·.val?)).bind (·.status?) = some St.UNEXPECTED_STATE ∧
    (r4.bind (·.state?)).map (fun s => s.queue.map (·.frame.channel)) = some [3] := by decide +kernel

/-- C78 fails when a body is followed by an empty body frame (which adds up to the announced size as well): the message is returned, but the
empty frame stays, and the next message is not found behind it. -/
theorem C78_trailing_empty : let E := netEnv [] [] [(0, .data (deliverBytes ++ header0 ++ [3, 0, 1, 0, 0, 0, 0, 206] ++ deliverBytes ++ header0))] []
    let r := consumeMessage E none (demoConn 64)
    let r2 := r.state?.map (consumeMessage E none)
    let r3 := (r2.bind (·.state?)).map (consumeMessage E none)
    (r.val?.bind (·.normal?)).map (·.message.body) = some [] ∧
    (r2.bind (·.val?)).bind (·.status?) = some St.UNEXPECTED_STATE ∧ (r3.bind (·.val?)).bind (·.status?) = some St.UNEXPECTED_STATE := by decide +kernel

/-! ### From a publisher -/

theorem flagged_get {flags : UInt32} {r : Rec} : ∀ {ps : List (Nat × Fld × Dom)}, (ps.map (·.2.1)).Nodup → ∀ p ∈ ps, flagSet flags p.1 →
    (flaggedProps flags r ps).get? p.2.1 = r.get? p.2.1
  | [], _, _, hp, _ => nomatch hp
  | (i, f, d) :: ps, hn, p, hp, hs => by
    rw [List.map_cons, List.nodup_cons] at hn
    have other : ∀ {v}, f ≠ p.2.1 → Rec.get? ((f, v) :: flaggedProps flags r ps) p.2.1 = Rec.get? (flaggedProps flags r ps) p.2.1 := by
      intro v hne
      unfold Rec.get?
      rw [List.find?_cons]
      simp [hne]
    have absent : ∀ {qs : List (Nat × Fld × Dom)}, f ∉ qs.map (·.2.1) → (flaggedProps flags r qs).get? f = none := by
      intro qs
      induction qs with
      | nil => intro _; rfl
      | cons q qs ih =>
        intro hq
        obtain ⟨j, g, e⟩ := q
        rw [List.map_cons, List.mem_cons, not_or] at hq
        have := ih hq.2
        unfold flaggedProps
        cases r.get? g with
        | none => exact this
        | some v =>
          dsimp only
          by_cases hj : flagSet flags j
          · rw [if_pos hj]; unfold Rec.get? at *; rw [List.find?_cons]; simp [Ne.symm hq.1]; simpa using this
          · rw [if_neg hj]; exact this
    rcases List.mem_cons.1 hp with rfl | hp
    · dsimp only at hs ⊢
      unfold flaggedProps
      cases hg : r.get? f with
      | none => exact absent hn.1
      | some v => dsimp only; rw [if_pos hs]; simp [Rec.get?]
    · have hne : f ≠ p.2.1 := fun e => hn.1 (by show f ∈ _; rw [e]; exact List.mem_map_of_mem (f := fun q : Nat × Fld × Dom => q.2.1) hp)
      have ih := flagged_get (r := r) hn.2 p hp hs
      unfold flaggedProps
      cases hg : r.get? f with
      | none => exact ih
      | some v =>
        dsimp only
        by_cases hj : flagSet flags i
        · rw [if_pos hj, other hne]; exact ih
        · rw [if_neg hj]; exact ih

theorem flagged_congr {flags : UInt32} {r r' : Rec} : ∀ {ps : List (Nat × Fld × Dom)},
    (∀ p ∈ ps, flagSet flags p.1 → r.get? p.2.1 = r'.get? p.2.1) → flaggedProps flags r ps = flaggedProps flags r' ps
  | [], _ => rfl
  | (i, f, d) :: ps, h => by
    have ih := flagged_congr (ps := ps) fun p hp => h p (List.mem_cons_of_mem _ hp)
    unfold flaggedProps
    by_cases hs : flagSet flags i
    · have h0 := h _ List.mem_cons_self hs
      dsimp only at h0
      rw [h0, ih]
    · cases r.get? f <;> cases r'.get? f <;> simp [hs, ih]

theorem flagged_twice (flags : UInt32) (r : Rec) : flaggedProps flags (flaggedProps flags r basicProps) basicProps = flaggedProps flags r basicProps :=
  flagged_congr fun p hp hs => flagged_get (by decide) p hp hs

theorem flagged_sub {flags : UInt32} {r : Rec} : ∀ {ps : List (Nat × Fld × Dom)} {f : Fld} {v : Val}, (f, v) ∈ flaggedProps flags r ps → (f, v) ∈ r
  | (i, g, d) :: ps, f, v, h => by
    unfold flaggedProps at h
    cases hg : r.get? g with
    | none => rw [hg] at h; exact flagged_sub h
    | some w =>
      rw [hg] at h
      dsimp only at h
      by_cases hs : flagSet flags i
      · rw [if_pos hs] at h
        rcases List.mem_cons.1 h with h | h
        · cases h; exact Rec.get?_mem hg
        · exact flagged_sub h
      · rw [if_neg hs] at h; exact flagged_sub h

theorem stream_bodies {fm : Nat} {ch : UInt16} {tail : Bytes} {frames : List AFrame} : ∀ {bodies : List Bytes}, (∀ b ∈ bodies, b.length + 8 ≤ fm) →
    fm ≤ 2 ^ 30 → Stream fm tail frames →
    Stream fm ((bodies.flatMap fun b => rawFrame 3 ch b FRAME_END) ++ tail) (bodies.map (fun b => ⟨ch, .body b⟩) ++ frames)
  | [], _, _, h => h
  | b :: bs, hb, hm, h => by
    have h1 := stream_bodies (ch := ch) (fun x hx => hb x (List.mem_cons_of_mem _ hx)) hm h
    have := hb b List.mem_cons_self
    rw [List.flatMap_cons, List.append_assoc]
    exact .frame ch (.body b) this (by omega) h1

theorem deliver_wire {tag : Bytes} {dt : UInt64} {red : Bool} {ex rk : Bytes} (ht : tag.length ≤ 255) (he : ex.length ≤ 255) (hr : rk.length ≤ 255) :
    Wire (.method BASIC_DELIVER (deliverArgs tag dt (if red then 1 else 0) ex rk)) 1
      (beBytes 4 deliverProto.id.toNat ++ serArgs deliverProto.args (deliverArgs tag dt (if red then 1 else 0) ex rk) [])
      (.method BASIC_DELIVER (deliverArgs tag dt (if red then 1 else 0) ex rk)) := by
  have hp : deliverProto ∈ protocol := by decide
  exact Wire.method (p := deliverProto) (r := deliverArgs tag dt (if red then 1 else 0) ex rk) hp
    (.cons trivial (.cons trivial (.cons trivial (.cons trivial (.cons trivial .nil)))))
    ⟨ht, trivial, trivial, he, hr, trivial⟩
    ⟨trivial, trivial, by cases red <;> simp [Dom.faithful], trivial, trivial, trivial⟩

/-- The header frame of a published message, as the receiver decodes it. -/
theorem published_header {props : Option (UInt32 × Rec)} (h : PropsGiven props) {n : Nat} (h64 : n < 2 ^ 64) :
    Wire (.header 60 (UInt64.ofNat n) (props.getD (0, [])).1 (props.getD (0, [])).2) 2
      (contentHeaderPayload n (props.getD (0, [])).1 (props.getD (0, [])).2)
      (.header 60 (UInt64.ofNat n) (props.getD (0, [])).1 (flaggedProps (props.getD (0, [])).1 (props.getD (0, [])).2 basicProps)) := by
  have key : ∀ {flags : UInt32} {r : Rec}, (flags.toNat < 65536 ∧ ¬ flagSet flags 0) → PropsOK Dom.encodable flags r basicProps →
      PropsOK Dom.faithful flags r basicProps → Wire (.header 60 (UInt64.ofNat n) flags r) 2 (contentHeaderPayload n flags r)
        (.header 60 (UInt64.ofNat n) flags (flaggedProps flags r basicProps)) := by
    intro flags r hw he hf
    have h1 := Wire.header (c := (60, basicProps)) (size := UInt64.ofNat n) (by decide) hw he hf
    have hb : contentHeaderPayload n flags r = beBytes 2 (60 : UInt16).toNat ++ [0, 0] ++ beBytes 8 (UInt64.ofNat n).toNat ++
        (beBytes 2 flags.toNat ++ serProps flags r basicProps) := by
      rw [beBytes_8_ofNat h64]
      unfold contentHeaderPayload
      rfl
    rw [hb]
    exact h1
  cases props with
  | none => refine key (by decide) ?_ ?_ <;> intro p hp hf <;> simp [flagSet] at hf
  | some p =>
    obtain ⟨a, b, c, d⟩ := h p.1 p.2 rfl
    exact key ⟨a, b⟩ c d

/-- C78, from publisher to consumer: when amqp_basic_publish returns OK it has sent a basic.publish, a header frame and body frames; a client
to which the server delivers the same header payload and the same body octets — in body frames cut anywhere, after a basic.deliver, on any
channel, on a connection with another frame_max — gets from amqp_consume_message the properties that were published (those whose flag is
set) and the body that was published.  Missing: messages whose headers have an empty key (see `C78_empty_key`). -/
theorem C78_end_to_end_partial {E : NetEnv} {ch : UInt16} {exchange routingKey : Bytes} {mandatory immediate : Bool} {props : Option (UInt32 × Rec)}
    {body : Bytes} {s s' : Conn} (hO : OutReady s) (h31 : s.frameMax < 2 ^ 31) (hex : exchange.length ≤ 255) (hrk : routingKey.length ≤ 255)
    (h64 : body.length < 2 ^ 64) (hw : PropsGiven props) (hk : KeyedProps (props.getD (0, [])).2)
    (h : basicPublish E ch exchange routingKey (if mandatory then 1 else 0) (if immediate then 1 else 0) props body s = .ok () s') :
    ∃ (header : Bytes) (frags : List Bytes) (l : List Ev), Since s s' l ∧
      sentBytes l = rawFrame 1 ch (publishPayload exchange routingKey mandatory immediate) FRAME_END ++ rawFrame 2 ch header FRAME_END ++
        (frags.flatMap fun b => rawFrame 3 ch b FRAME_END) ∧
      ∀ (E' : NetEnv) (t t' : Conn) (o : Outcome Envelope) (l' : List Ev) (ch' : UInt16) (tag : Bytes) (dt : UInt64) (red : Bool) (ex rk : Bytes)
        (bodies : List Bytes) (tail rest : Bytes) (others : List AFrame),
        Receiving E' t → consumeMessage E' none t = .ok o t' → Since t t' l' → (∀ e ∈ l', e.fine) → tag.length ≤ 255 → ex.length ≤ 255 →
        rk.length ≤ 255 → t.ps.frameMax ≤ 2 ^ 30 → 800 ≤ t.ps.frameMax → header.length + 8 ≤ t.ps.frameMax → (∀ b ∈ bodies, b.length + 8 ≤ t.ps.frameMax) →
        bodies.flatten = frags.flatten → Stream t.ps.frameMax tail others →
        t.inb ++ (recvBytes l' ++ rest) = deliveryBytes ch' (deliverArgs tag dt (if red then 1 else 0) ex rk) header bodies ++ tail →
        o = .normal ⟨ch', tag, dt, if red then 1 else 0, ex, rk,
          ⟨(props.getD (0, [])).1, flaggedProps (props.getD (0, [])).1 (props.getD (0, [])).2 basicProps, body⟩⟩ := by
  obtain ⟨frags, hfr, _, l, hl, hsent⟩ := C24_publish_fragments hO h31 hex hrk h64 hw h
  refine ⟨_, frags, l, hl, hsent, ?_⟩
  intro E' t t' o l' ch' tag dt red ex rk bodies tail rest others hR hc hl' hf ht he hr hm hm2 hh hb hbb hT hin
  have w1 := deliver_wire (dt := dt) (red := red) ht he hr
  have w2 := published_header hw h64
  have hS : Stream t.ps.frameMax (t.inb ++ (recvBytes l' ++ rest))
      (⟨ch', .method BASIC_DELIVER (deliverArgs tag dt (if red then 1 else 0) ex rk)⟩ ::
        ⟨ch', .header 60 (UInt64.ofNat body.length) (props.getD (0, [])).1 (flaggedProps (props.getD (0, [])).1 (props.getD (0, [])).2 basicProps)⟩ ::
        (bodies.map (fun b => ⟨ch', .body b⟩) ++ others)) := by
    rw [hin]
    unfold deliveryBytes methodFrame
    rw [List.append_assoc, List.append_assoc]
    have hlen : (beBytes 4 deliverProto.id.toNat ++ serArgs deliverProto.args (deliverArgs tag dt (if red then 1 else 0) ex rk) []).length + 8 ≤ 800 := by
      simp [deliverProto, deliverArgs, serArgs, serDom, serShort, serBits, beBytes_length]
      omega
    refine .frame ch' w1 (by omega) (by omega) (.frame ch' w2 hh (by omega) (stream_bodies hb hm hT))
  have hnb : ∀ bs : List Bytes, (bs.map (fun b => (⟨ch', .body b⟩ : AFrame))).filter (!·.isHeartbeat) = bs.map (fun b => ⟨ch', .body b⟩) := by
    intro bs
    rw [List.filter_eq_self]
    intro a ha
    obtain ⟨b, _, rfl⟩ := List.mem_map.1 ha
    rfl
  have hch : ∀ bs : List Bytes, (bs.map (fun b => (⟨ch', .body b⟩ : AFrame))).filter (·.channel == ch') = bs.map (fun b => ⟨ch', .body b⟩) := by
    intro bs
    rw [List.filter_eq_self]
    intro a ha
    obtain ⟨b, _, rfl⟩ := List.mem_map.1 ha
    simp
  have hz : (UInt64.ofNat body.length).toNat = body.length := by rw [UInt64.toNat_ofNat', Nat.mod_eq_of_lt h64]
  have := C78_arrives_partial (fs := _ :: (bodies.map (fun b => ⟨ch', .body b⟩) ++ others.filter (!·.isHeartbeat)))
    (content := _ :: bodies.map (fun b => ⟨ch', .body b⟩)) (more := (others.filter (!·.isHeartbeat)).filter (·.channel == ch')) hR hc hl' hf hS
    (by rw [List.filter_cons_of_pos (by rfl), List.filter_cons_of_pos (by rfl), List.filter_append, hnb])
    (by rw [List.filter_cons_of_pos (by simp), List.filter_append, hch]; rfl)
    ⟨_, bodies, rfl, rfl, by rw [hz, hbb, hfr]⟩ (fun f t ht => hk f t (flagged_sub ht))
  rw [this, flagged_twice, hbb, hfr]


/-! ### The exception -/

mutual
theorem keyed_of_cloneable (v : FV) (h : v.store.cloneable) : keyedV v := by
  match v with
  | .array vs => exact keyeds_of_cloneable vs h.2
  | .table es => exact keyedEs_of_cloneable es h
  | .boolean _ | .i8 _ | .u8 _ | .i16 _ | .u16 _ | .i32 _ | .u32 _ | .i64 _ | .u64 _ | .f32 _ | .f64 _ | .decimal _ _ | .utf8 _
  | .bytes _ | .timestamp _ | .void | .other _ => trivial
theorem keyeds_of_cloneable (vs : List FV) (h : PV.cloneables (FV.stores vs)) : keyedVs vs := by
  match vs with
  | [] => trivial
  | v :: vs => exact ⟨keyed_of_cloneable v h.1, keyeds_of_cloneable vs h.2⟩
theorem keyedE_of_cloneable (e : Entry) (h : e.store.cloneable) : keyedE e := by
  match e with
  | .mk _ v => exact ⟨h.1, keyed_of_cloneable v h.2⟩
theorem keyedEs_of_cloneable (es : List Entry) (h : PV.cloneableEs (FV.storeEs es)) : keyedEs es := by
  match es with
  | [] => trivial
  | e :: es => exact ⟨keyedE_of_cloneable e h.1, keyedEs_of_cloneable es h.2⟩
end

theorem cloneProps_keyed {E : NetEnv} (hA : ∀ k, E.pe.alloc k = true) {flags : UInt32} {r : Rec} : ∀ {ps : List (Nat × Fld)} {s t : Conn} {q : Rec},
    cloneProps E flags r ps s = .ok q t → KeyedProps q
  | [], s, t, q, h, _, _, hm => by cases h; cases hm
  | (bit, f) :: ps, s, t, q, h, g, tb, hm => by
    unfold cloneProps at h
    by_cases hf : flags &&& UInt32.ofNat (1 <<< bit) ≠ 0
    · rw [if_pos hf] at h
      cases hg : r.get? f with
      | none => rw [hg] at h; cases h
      | some v =>
        rw [hg] at h
        simp only [bind, M.bind, pure, M.pure] at h
        cases h1 : cloneProp E v s with
        | err e t => rw [h1] at h; cases h
        | ub => rw [h1] at h; cases h
        | fuel => rw [h1] at h; cases h
        | ok v' u =>
          rw [h1] at h
          dsimp only at h
          cases h2 : cloneProps E flags r ps u with
          | err e w => rw [h2] at h; cases h
          | ub => rw [h2] at h; cases h
          | fuel => rw [h2] at h; cases h
          | ok q' w =>
            rw [h2] at h
            cases h
            rcases List.mem_cons.1 hm with hm | hm
            · obtain ⟨rfl, _⟩ := cloneProp_same h1
              cases hm
              unfold cloneProp at h1
              simp only [bind, M.bind, pure, M.pure, withAlloc] at h1
              refine Classical.byContradiction fun hk => ?_
              obtain ⟨e, st, hd⟩ := (cloneTable_Decides hA 0 (storeTable tb) (FV.storeEs_stored tb) ⟨s.ps.allocs⟩).2
                fun hc => hk (keyedEs_of_cloneable tb hc)
              rw [hd] at h1
              cases h1
            · exact cloneProps_keyed hA h2 _ _ hm
    · rw [if_neg hf] at h
      exact cloneProps_keyed hA h _ _ hm

theorem readMessage_keyed {E : NetEnv} (hA : ∀ k, E.pe.alloc k = true) {ch : UInt16} {m : Message} {s s' : Conn}
    (h : readMessage E ch s = .ok (.normal m) s') : KeyedProps m.props := by
  unfold readMessage at h
  cases h1 : waitFrameOn E ch s with
  | err e t => rw [h1] at h; cases h
  | ub => rw [h1] at h; cases h
  | fuel => rw [h1] at h; cases h
  | ok f t =>
    rw [h1] at h
    dsimp only at h
    cases hp : f.frame.payload with
    | header cls size flags r =>
      rw [hp] at h
      dsimp only at h
      unfold readContent at h
      cases h2 : cloneProps E flags r clonedProps t with
      | err e t => rw [h2] at h; cases h
      | ub => rw [h2] at h; cases h
      | fuel => rw [h2] at h; cases h
      | ok q u =>
        rw [h2] at h
        dsimp only at h
        have hq := cloneProps_keyed hA h2
        cases h3 : (if size.toNat = 0 then .ok () u else allocOr E u : Res Conn Unit) with
        | err e t => rw [h3] at h; cases h
        | ub => rw [h3] at h; cases h
        | fuel => rw [h3] at h; cases h
        | ok x v =>
          rw [h3] at h
          dsimp only at h
          cases h4 : readBody E ch size.toNat E.fuel [] v with
          | err e t => rw [h4] at h; cases h
          | ub => rw [h4] at h; cases h
          | fuel => rw [h4] at h; cases h
          | ok o w =>
            rw [h4] at h
            cases o with
            | serverException id args => cases h
            | libraryException e => cases h
            | normal body => cases h; exact hq
    | method id args =>
      rw [hp] at h
      dsimp only at h
      by_cases hc : isClose id = true
      · rw [if_pos hc] at h; cases h
      · rw [if_neg hc] at h; exact (putBack_not_normal h).elim
    | body b => rw [hp] at h; exact (putBack_not_normal h).elim
    | heartbeat => rw [hp] at h; exact (putBack_not_normal h).elim
    | protocolHeader a b c d => rw [hp] at h; exact (putBack_not_normal h).elim
    | other t => rw [hp] at h; exact (putBack_not_normal h).elim

theorem consumeMessage_keyed {E : NetEnv} (hA : ∀ k, E.pe.alloc k = true) {tv : Option TimeVal} {env : Envelope} {s s' : Conn}
    (h : consumeMessage E tv s = .ok (.normal env) s') : KeyedProps env.message.props := by
  unfold consumeMessage at h
  cases h1 : waitFrame E tv s with
  | err e t => rw [h1] at h; cases h
  | ub => rw [h1] at h; cases h
  | fuel => rw [h1] at h; cases h
  | ok f t =>
    rw [h1] at h
    dsimp only at h
    cases hp : f.frame.payload with
    | method id r =>
      rw [hp] at h
      dsimp only at h
      by_cases hid : id = BASIC_DELIVER
      · rw [if_pos hid] at h
        unfold takeDelivery at h
        split at h
        · dsimp only [mallocDup] at h
          split at h
          · revert h
            generalize (smallAlloc E (smallAlloc E (smallAlloc E t).2).2).2 = u
            cases h3 : readMessage E f.frame.channel u with
            | err e t => intro h; cases h
            | ub => intro h; cases h
            | fuel => intro h; cases h
            | ok o u =>
              cases o with
              | serverException id args => intro h; cases h
              | libraryException e => intro h; cases h
              | normal m => intro h; cases h; exact readMessage_keyed hA h3
          · cases h
        · cases h
      · rw [if_neg hid] at h; exact (putBack_not_normal h).elim
    | header a b c d => rw [hp] at h; exact (putBack_not_normal h).elim
    | body b => rw [hp] at h; exact (putBack_not_normal h).elim
    | heartbeat => rw [hp] at h; exact (putBack_not_normal h).elim
    | protocolHeader a b c d => rw [hp] at h; exact (putBack_not_normal h).elim
    | other t => rw [hp] at h; exact (putBack_not_normal h).elim

/-- C78, the exception: a message one of whose flagged properties is a table with an empty key somewhere — amqp_basic_publish sends it, and the
decoder accepts it — is never returned by amqp_consume_message, because copying the table refuses empty keys (amqp_table.c:570). -/
theorem C78_empty_key {E : NetEnv} {tv : Option TimeVal} {ch : UInt16} {tag : Bytes} {dt : UInt64} {red : Int32} {ex rk : Bytes} {flags : UInt32}
    {props : Rec} {body rest : Bytes} {frames fs content more : List AFrame} {l : List Ev} {o : Outcome Envelope} {s s' : Conn} (hI : InUse E s)
    (hU : Unblocked E s) (hidle : s.ps.mode = .idle) (hq : s.queue = []) (hA : ∀ k, E.pe.alloc k = true) (h : consumeMessage E tv s = .ok o s')
    (hl : Since s s' l) (hS : Stream s.ps.frameMax (s.inb ++ (recvBytes l ++ rest)) frames)
    (hd : frames.filter (!·.isHeartbeat) = ⟨ch, .method BASIC_DELIVER (deliverArgs tag dt red ex rk)⟩ :: fs)
    (hc : fs.filter (·.channel == ch) = content ++ more) (hC : Content ch flags props body content)
    (hk : ¬ KeyedProps (flaggedProps flags props basicProps)) (env : Envelope) : o ≠ .normal env := by
  rintro rfl
  have := C78_nothing_else hI hU hidle hq h hl hS hd hc hC
  subst this
  exact hk (consumeMessage_keyed hA h)


/-- Such a message: published without complaint, with headers holding one empty key; the consumer gets INVALID_PARAMETER, and the body frame is
left behind as the next frame. -/
example : ((basicPublish (netEnv [] [(0, .sent 99), (1, .sent 99), (2, .sent 99)] [] []) 1 [] [65] 0 0
      (some (0x2000, [(.headers, .table [.mk [] .void])])) [7] (demoConn 64)).state?.map fun s => (sentBytes s.log).drop 18) =
    some ([2, 0, 1, 0, 0, 0, 20, 0, 60, 0, 0, 0, 0, 0, 0, 0, 0, 0, 1, 32, 0, 0, 0, 0, 2, 0, 86, 206] ++ [3, 0, 1, 0, 0, 0, 1, 7, 206]) := by
  decide +kernel
example : let r := consumeMessage (netEnv [] [] [(0, .data (deliverBytes ++
      [2, 0, 1, 0, 0, 0, 20, 0, 60, 0, 0, 0, 0, 0, 0, 0, 0, 0, 1, 32, 0, 0, 0, 0, 2, 0, 86, 206] ++ [3, 0, 1, 0, 0, 0, 1, 7, 206]))] []) none (demoConn 64)
    r.val?.bind (·.status?) = some St.INVALID_PARAMETER ∧ r.state?.map (·.inb) = some [3, 0, 1, 0, 0, 0, 1, 7, 206] := by decide +kernel

/-- The hypotheses of the theorems are met: a delivery of three octets in two body frames, heartbeats before and in between, received in two
pieces with a wait in between. -/
def arriveEnv : NetEnv := netEnv [] [] [(0, .data ([8, 0, 0, 0, 0, 0, 0, 206] ++ deliverBytes ++ headerBytes ++ [3, 0, 1, 0, 0, 0, 2, 65, 66, 206] ++ [3, 0, 1])),
  (7, .fail 0x1300), (9, .data [0, 0, 0, 1, 67, 206])] [(8, .ready)]

example : Receiving arriveEnv (demoConn 64) := ⟨⟨demoParser_live _ _, by simp [demoConn, demoParser, PState.idle]⟩, rfl, rfl, rfl, .inl ⟨by decide, rfl, rfl⟩, fun _ => rfl⟩
def evFine : Ev → Bool
  | .recvFail st => wouldBlock st
  | .poll _ ms r => r == .ready || r == .intr || (r == .timeout && 0 ≤ ms)
  | .send _ _ res => 0 < res
  | .close _ => false
  | _ => true
theorem evFine_iff (e : Ev) : evFine e = true ↔ e.fine := by
  cases e <;> simp [evFine, Ev.fine, or_assoc]
example : let r := consumeMessage arriveEnv none (demoConn 64)
    (r.val?.bind (·.normal?)).map (fun e => (e.channel, e.message.flags, e.message.body)) = some (1, 0x8000, [65, 66, 67]) ∧
    r.state?.map (fun s => s.log.all evFine) = some true ∧
    r.state?.map (fun s => recvBytes s.log == [8, 0, 0, 0, 0, 0, 0, 206] ++ deliverBytes ++ headerBytes ++ [3, 0, 1, 0, 0, 0, 2, 65, 66, 206] ++
      [3, 0, 1, 0, 0, 0, 1, 67, 206]) = some true := by decide +kernel

/-- … and these octets are a sequence of frames as the theorem wants it. -/
example : Stream 64 ([8, 0, 0, 0, 0, 0, 0, 206] ++ (deliverBytes ++ (headerBytes ++ ([3, 0, 1, 0, 0, 0, 2, 65, 66, 206] ++ ([3, 0, 1, 0, 0, 0, 1, 67, 206] ++ [])))))
    [⟨0, .heartbeat⟩, ⟨1, .method BASIC_DELIVER (deliverArgs [84] 7 (if true then 1 else 0) [69] [75])⟩,
     ⟨1, .header 60 (UInt64.ofNat 3) 0x8000 [(.content_type, .bytes [88])]⟩, ⟨1, .body [65, 66]⟩, ⟨1, .body [67]⟩] := by
  have w := deliver_wire (tag := [84]) (dt := 7) (red := true) (ex := [69]) (rk := [75]) (by decide) (by decide) (by decide)
  have hw : PropsGiven (some (0x8000, [(.content_type, .bytes [88])])) := by
    rintro f r ⟨⟩
    refine ⟨by decide, by decide, ?_, ?_⟩ <;> intro p hp hs
    all_goals
      simp only [basicProps, List.mem_cons, List.not_mem_nil, or_false] at hp
      rcases hp with rfl | rfl | rfl | rfl | rfl | rfl | rfl | rfl | rfl | rfl | rfl | rfl | rfl | rfl
      all_goals first | exact ⟨_, rfl, trivial, by simp [Dom.encodable, Dom.faithful]⟩ | exact ⟨_, rfl, trivial, trivial⟩ | exact absurd hs (by decide)
  have w2 := published_header hw (n := 3) (by decide)
  have s1 := Stream.frame (fm := 64) 1 (.body [67]) (by decide) (by decide) .nil
  have s2 := Stream.frame (fm := 64) 1 (.body [65, 66]) (by decide) (by decide) s1
  have s3 := Stream.frame (fm := 64) 1 w2 (by decide) (by decide) s2
  have s4 := Stream.frame (fm := 64) 1 w (by decide) (by decide) s3
  exact Stream.frame (fm := 64) 0 .heartbeat (by decide) (by decide) s4

/-- Two messages in one piece of input, one call each. -/
example : let E := netEnv [] [] [(0, .data (deliverBytes ++ headerBytes ++ [3, 0, 1, 0, 0, 0, 3, 65, 66, 67, 206] ++ deliverBytes ++ headerBytes ++
      [3, 0, 1, 0, 0, 0, 3, 68, 69, 70, 206]))] []
    let r := consumeMessage E none (demoConn 64)
    let r2 := r.state?.map (consumeMessage E none)
    (r.val?.bind (·.normal?)).map (·.message.body) = some [65, 66, 67] ∧
    ((r2.bind (·.val?)).bind (·.normal?)).map (·.message.body) = some [68, 69, 70] := by decide +kernel

/-- With heartbeats on, one every two seconds: waiting for the message the time comes to send one, and it is sent. -/
def beatingEnv : NetEnv := { netEnv [] [] [(1, .fail 0x1300), (7, .data (deliverBytes ++ headerBytes ++ [3, 0, 1, 0, 0, 0, 3, 65])), (13, .fail 0x1300),
  (16, .data [66, 67, 206])] [(3, .timeout), (15, .ready)] with clock := fun t => 1000000000 + min t 100 * 250000000, send := fun _ _ => .sent 99 }
def beatingConn : Conn := { demoConn 64 with heartbeat := 2, nextSend := 1200000000, nextRecv := 5000000000 }

theorem C78_sample_heartbeats :
    let r := consumeMessage beatingEnv none beatingConn
    (r.val?.bind (·.normal?)).map (fun e => (e.channel, e.deliveryTag, e.message.body)) = some (1, 7, [65, 66, 67]) ∧
    r.state?.map (fun s => sentBytes s.log) = some [8, 0, 0, 0, 0, 0, 0, 206] ∧
    r.state?.map (fun s => s.log.all evFine) = some true ∧ Receiving beatingEnv beatingConn := by
  refine ⟨by decide +kernel, by decide +kernel, by decide +kernel, ⟨demoParser_live _ _, by simp [beatingConn, demoConn, demoParser, PState.idle]⟩, rfl, rfl, rfl,
    .inr ⟨⟨(by decide : (2 : Int) ≤ 65535), fun h => absurd h (by decide), .inr ⟨by decide, by decide, fun k _ => .inr ?_⟩,
      .inr ⟨by decide, by decide, fun k _ => .inr ?_⟩⟩, fun t => ?_, ⟨fun j k _ => .inr ?_, fun k => ?_⟩, fun k => ?_⟩, fun _ => rfl⟩
  · show 1200000000 < 1000000000 + min k 100 * 250000000 + 2 ^ 31 * 1000000; omega
  · show 5000000000 < 1000000000 + min k 100 * 250000000 + 2 ^ 31 * 1000000; omega
  · show 8 ≤ 99; decide
  · show 1000000000 + min j 100 * 250000000 ≤ 1000000000 + min k 100 * 250000000; omega
  · show 1000000000 + min k 100 * 250000000 < 2 ^ 63; omega
  · show 1000000000 + min k 100 * 250000000 ≠ 0; omega

/-- … and when nothing comes for two of them, the connection is closed: that is for the outside to answer for. -/
example : let r := consumeMessage { beatingEnv with recv := fun _ _ => .fail 0x1300, poll := fun _ => .timeout } none beatingConn
    r.val?.bind (·.status?) = some St.HEARTBEAT_TIMEOUT ∧ r.state?.map (fun s => s.log.all evFine) = some false := by decide +kernel

end Rmq
