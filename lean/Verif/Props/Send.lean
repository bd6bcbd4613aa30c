import Verif.Proofs.Sends
/-!
# C23, C24, C25, C57: what is put on the wire
-/
namespace Rmq

/-! ## A concrete connection for the examples -/

/-- An environment answering each request by the number of events so far; what is not listed is an error. -/
def netEnv (clock : List (Nat × Nat)) (send : List (Nat × SendR)) (recv : List (Nat × RecvR)) (poll : List (Nat × PollR)) : NetEnv :=
  { pe := ⟨false, fun _ => true, fun _ _ => 0⟩
    clock := fun t => (clock.lookup t).getD 0
    send := fun t _ => (send.lookup t).getD (.fail 0)
    recv := fun t _ => (recv.lookup t).getD (.fail 0)
    poll := fun t => (poll.lookup t).getD .error
    close := fun _ => true
    fuel := 50 }

/-- A parser past the protocol header. -/
def demoParser (fm : Nat) : PState := { newParser fm with hdr := [65, 77, 81, 80, 0, 0, 9, 1], off := 8 }.idle

theorem demoParser_live (E : PEnv) (fm : Nat) : Live E (demoParser fm) := by
  have h : handleInput E (newParser fm) [65, 77, 81, 80, 0, 0, 9, 1] =
      .ok (8, some ⟨0, .protocolHeader 0 0 9 1⟩) (demoParser fm) := rfl
  exact .call (.new fm) h

/-- A connection after the handshake with a frame_max of `fm`. -/
def demoConn (fm : Nat) : Conn :=
  { newConn (fun _ => 0) with ps := demoParser fm, outMem := List.replicate fm 0, outLen := fm, frameMax := fm }

/-- `OutReady` holds on a new connection … -/
theorem outReady_new (mem : Nat → UInt8) : OutReady (newConn mem) := by
  unfold OutReady newConn; simp

/-- … and after tuning. -/
theorem outReady_tune {E : NetEnv} {cm fm hb : Int} {mem : Nat → UInt8} {s s' : Conn} (h0 : 0 ≤ fm) (h31 : fm < 2 ^ 31)
    (h : tune E cm fm hb mem s = .ok () s') : OutReady s' ∧ s'.frameMax = fm := by
  unfold tune at h
  by_cases hm : s.ps.mode ≠ .idle
  · rw [if_pos hm] at h; cases h
  rw [if_neg hm] at h
  dsimp only at h
  have hsz : (((fm % 2 ^ 64).toNat : Nat) : Int) = fm := by omega
  have r1 := restartSend_eff E { s with channelMax := cm, frameMax := fm, ps := { s.ps with frameMax := (fm % 2 ^ 64).toNat },
                                        heartbeat := if 0 > hb then 0 else hb }
  revert r1 h
  cases restartSend E { s with channelMax := cm, frameMax := fm, ps := { s.ps with frameMax := (fm % 2 ^ 64).toNat },
                                        heartbeat := if 0 > hb then 0 else hb } with
  | ub => intro h; cases h
  | fuel => intro h; cases h
  | err e t => intro h; cases h
  | ok x t =>
    rintro h ⟨t1, l1, rfl, _⟩
    dsimp only at h
    have r2 := restartRecv_eff E { ({ s with channelMax := cm, frameMax := fm, ps := { s.ps with frameMax := (fm % 2 ^ 64).toNat },
                                             heartbeat := if 0 > hb then 0 else hb } : Conn).ext l1 with nextSend := t1 }
    revert r2 h
    cases restartRecv E { ({ s with channelMax := cm, frameMax := fm, ps := { s.ps with frameMax := (fm % 2 ^ 64).toNat },
                                             heartbeat := if 0 > hb then 0 else hb } : Conn).ext l1 with nextSend := t1 } with
    | ub => intro h; cases h
    | fuel => intro h; cases h
    | err e t => intro h; cases h
    | ok x t =>
      rintro h ⟨t2, l2, rfl, _⟩
      dsimp only [smallAlloc] at h
      revert h
      cases E.pe.alloc _ with
      | false => intro h; cases h
      | true =>
        intro h
        cases h
        exact ⟨⟨by simp, by simp only [Conn.ext]; exact hsz.symm⟩, rfl⟩

example : OutReady (demoConn 64) := ⟨by decide +kernel, by decide +kernel⟩

/-! ## C23 -/

/-- C23 (success): when amqp_send_frame returns OK, the transport has taken exactly the frame's bytes, in order and once, however it
splits them up and whatever happens meanwhile. -/
theorem C23_sent_bytes_are_the_frame {E : NetEnv} {p q : Payload} {ty : UInt8} {bs : Bytes} (hW : Wire p ty bs q) (ch : UInt16)
    (flags deadline : Nat) {s s' : Conn} (hO : OutReady s) (h31 : s.frameMax < 2 ^ 31) (h20 : 20 ≤ s.frameMax)
    (h : sendFrame E ⟨ch, p⟩ flags deadline s = .ok () s') :
    ∃ l, Since s s' l ∧ sentBytes l = rawFrame ty ch bs FRAME_END := by
  have := hO.2
  obtain ⟨_, _, _, l, hl, hs⟩ := sendFrame_wire hW ch flags deadline hO (by omega) (by omega) h
  refine ⟨l, hl, ?_⟩
  rw [← sentTagged_bytes, hs]
  simp [Bytes.flagged, Function.comp_def]

/-- C23 (failure): on an error the transport has taken a prefix of the frame's bytes. -/
theorem C23_error_means_prefix {E : NetEnv} {p q : Payload} {ty : UInt8} {bs : Bytes} (hW : Wire p ty bs q) (ch : UInt16)
    (flags deadline : Nat) {s s' : Conn} {e : Int} (hO : OutReady s) (h31 : s.frameMax < 2 ^ 31) (h20 : 20 ≤ s.frameMax)
    (h : sendFrame E ⟨ch, p⟩ flags deadline s = .err e s') :
    ∃ l, Since s s' l ∧ sentBytes l <+: rawFrame ty ch bs FRAME_END := by
  have := hO.2
  have hw := sendFrame_wrote (E := E) ⟨ch, p⟩ flags deadline s
  rw [h] at hw
  obtain ⟨l, hl, hs⟩ := hw
  refine ⟨l, hl, ?_⟩
  rw [← sentTagged_bytes]
  rcases hs with hs | ⟨enc, mem, k, hf, hs⟩
  · rw [hs]; exact List.nil_prefix
  · rw [hs]
    rw [← hO.1] at hf
    obtain ⟨h1, _⟩ := frameToBytes_ok hW E.pe.be ch s.outMem (by rw [hO.1]; omega) (by rw [hO.1]; omega) hf
    subst h1
    simp only [Bytes.flagged, List.map_map, Function.comp_def, List.map_id']
    exact List.take_prefix _ _

/-- Partial writes, a would-block in between: the ten bytes of a body frame all the same. -/
example : ((sendFrame (netEnv [] [(0, .sent 4), (1, .fail 0x1301), (3, .sent 5), (4, .sent 9)] [] [(2, .ready)])
    ⟨1, .body [7, 9]⟩ 0 TIME_INF (demoConn 64)).state?.map fun s => sentBytes s.log) = some [3, 0, 1, 0, 0, 0, 2, 7, 9, 206] := by
  decide +kernel
/-- A deadline that passes after four bytes. -/
example : ((sendFrame (netEnv [(2, 5)] [(0, .sent 4), (1, .fail 0x1301)] [] [(3, .timeout)])
    ⟨1, .body [7, 9]⟩ 0 10 (demoConn 64)).errCode?) = some St.TIMEOUT ∧
  ((sendFrame (netEnv [(2, 5)] [(0, .sent 4), (1, .fail 0x1301)] [] [(3, .timeout)])
    ⟨1, .body [7, 9]⟩ 0 10 (demoConn 64)).state?.map fun s => sentBytes s.log) = some [3, 0, 1, 0] := by decide +kernel

/-! ## C24 -/

theorem beBytes_8_ofNat {n : Nat} (h : n < 2 ^ 64) : beBytes 8 (UInt64.ofNat n).toNat = beBytes 8 n := by
  rw [UInt64.toNat_ofNat', Nat.mod_eq_of_lt h]

/-- A message's method and header frames are as the protocol wants them. -/
theorem publish_wire {exchange routingKey : Bytes} {mandatory immediate : Bool} (he : exchange.length ≤ 255) (hr : routingKey.length ≤ 255) :
    ∃ q, Wire (.method BASIC_PUBLISH (publishArgs exchange routingKey (if mandatory then 1 else 0) (if immediate then 1 else 0))) 1
      (publishPayload exchange routingKey mandatory immediate) q := by
  have hp : (⟨60, 40, "basic", "publish", [(.ticket, .short), (.exchange, .shortstr), (.routing_key, .shortstr), (.mandatory, .bit),
    (.immediate, .bit)], true⟩ : Proto) ∈ protocol := by decide
  have h1 := Wire.method (r := publishArgs exchange routingKey (if mandatory then 1 else 0) (if immediate then 1 else 0)) hp
    (.cons trivial (.cons trivial (.cons trivial (.cons trivial (.cons trivial .nil)))))
    ⟨trivial, he, hr, trivial, trivial, trivial⟩
    ⟨trivial, trivial, trivial, by cases mandatory <;> simp [Dom.faithful], by cases immediate <;> simp [Dom.faithful], trivial⟩
  have hb : publishPayload exchange routingKey mandatory immediate = beBytes 4 (0x003C0028 : UInt32).toNat ++
      serArgs [(.ticket, .short), (.exchange, .shortstr), (.routing_key, .shortstr), (.mandatory, .bit), (.immediate, .bit)]
        (publishArgs exchange routingKey (if mandatory then 1 else 0) (if immediate then 1 else 0)) [] := by
    cases mandatory <;> cases immediate <;>
      simp [publishPayload, publishArgs, serArgs, serBits, serDom, serShort, bitsVal, beBytes]
  rw [hb]
  exact ⟨_, h1⟩

theorem header_wire {n : Nat} {flags : UInt32} {r : Rec} (h64 : n < 2 ^ 64) (hw : flags.toNat < 65536 ∧ ¬ flagSet flags 0)
    (he : PropsOK Dom.encodable flags r basicProps) (hf : PropsOK Dom.faithful flags r basicProps) :
    ∃ q, Wire (.header BASIC_CLASS (UInt64.ofNat n) flags r) 2 (contentHeaderPayload n flags r) q := by
  have h1 := Wire.header (c := (60, basicProps)) (size := UInt64.ofNat n) (by decide) hw he hf
  have hb : contentHeaderPayload n flags r = beBytes 2 (60 : UInt16).toNat ++ [0, 0] ++ beBytes 8 (UInt64.ofNat n).toNat ++
      (beBytes 2 flags.toNat ++ serProps flags r basicProps) := by
    rw [beBytes_8_ofNat h64]
    unfold contentHeaderPayload
    rfl
  rw [hb]
  exact ⟨_, h1⟩

/-- The properties of a message as a caller may give them: a flag word of the sixteen bits there are, whose flagged properties are set
to values that can be sent. -/
def PropsGiven (props : Option (UInt32 × Rec)) : Prop :=
  ∀ f r, props = some (f, r) → f.toNat < 65536 ∧ ¬ flagSet f 0 ∧ PropsOK Dom.encodable f r basicProps ∧ PropsOK Dom.faithful f r basicProps

theorem PropsGiven.wire {props : Option (UInt32 × Rec)} (h : PropsGiven props) {n : Nat} (h64 : n < 2 ^ 64) :
    ∃ q, Wire (.header BASIC_CLASS (UInt64.ofNat n) (props.getD (0, [])).1 (props.getD (0, [])).2) 2
      (contentHeaderPayload n (props.getD (0, [])).1 (props.getD (0, [])).2) q := by
  cases props with
  | none =>
    refine header_wire h64 (by decide) ?_ ?_ <;> intro p hp hf <;> simp [flagSet] at hf
  | some p =>
    obtain ⟨a, b, c, d⟩ := h p.1 p.2 rfl
    exact header_wire h64 ⟨a, b⟩ c d

theorem publish_tagged {E : NetEnv} {ch : UInt16} {exchange routingKey : Bytes} {mandatory immediate : Bool}
    {props : Option (UInt32 × Rec)} {body : Bytes} {s s' : Conn} (hO : OutReady s) (h31 : s.frameMax < 2 ^ 31)
    (hex : exchange.length ≤ 255) (hrk : routingKey.length ≤ 255) (h64 : body.length < 2 ^ 64) (hw : PropsGiven props)
    (h : basicPublish E ch exchange routingKey (if mandatory then 1 else 0) (if immediate then 1 else 0) props body s = .ok () s') :
    ∃ l n, Since s s' l ∧ body.length ≤ n * (s.outLen - 8) ∧ 20 ≤ s.outLen ∧
      sentTagged l = Bytes.flagged (rawFrame 1 ch (publishPayload exchange routingKey mandatory immediate) FRAME_END) SF_MORE ++
        (Bytes.flagged (rawFrame 2 ch (contentHeaderPayload body.length (props.getD (0, [])).1 (props.getD (0, [])).2) FRAME_END)
          (if body.length > 0 then SF_MORE else SF_NONE) ++
        (fragments (s.outLen - 8) n body).flatMap fun b =>
          Bytes.flagged (rawFrame 3 ch b FRAME_END) (if b.length = s.outLen - 8 then SF_MORE else SF_NONE)) := by
  have := hO.2
  obtain ⟨q1, w1⟩ := publish_wire (mandatory := mandatory) (immediate := immediate) hex hrk
  obtain ⟨q2, w2⟩ := hw.wire h64
  exact basicPublish_sent hO (by omega) w1 w2 h

/-- C24: a successful amqp_basic_publish puts on the wire one method frame, one header frame carrying the body length, and body frames,
each non-empty and at most frame_max - 8 long, whose concatenation is the body — and nothing else. -/
theorem C24_publish_fragments {E : NetEnv} {ch : UInt16} {exchange routingKey : Bytes} {mandatory immediate : Bool}
    {props : Option (UInt32 × Rec)} {body : Bytes} {s s' : Conn} (hO : OutReady s) (h31 : s.frameMax < 2 ^ 31)
    (hex : exchange.length ≤ 255) (hrk : routingKey.length ≤ 255) (h64 : body.length < 2 ^ 64) (hw : PropsGiven props)
    (h : basicPublish E ch exchange routingKey (if mandatory then 1 else 0) (if immediate then 1 else 0) props body s = .ok () s') :
    ∃ frags : List Bytes, frags.flatten = body ∧ (∀ b ∈ frags, b ≠ [] ∧ b.length ≤ s.frameMax - 8) ∧
      ∃ l, Since s s' l ∧ sentBytes l =
        rawFrame 1 ch (publishPayload exchange routingKey mandatory immediate) FRAME_END ++
        rawFrame 2 ch (contentHeaderPayload body.length (props.getD (0, [])).1 (props.getD (0, [])).2) FRAME_END ++
        frags.flatMap fun b => rawFrame 3 ch b FRAME_END := by
  have h2 := hO.2
  obtain ⟨l, n, hl, hn, h20, hs⟩ := publish_tagged hO h31 hex hrk h64 hw h
  obtain ⟨a, b⟩ := fragments_spec (s.outLen - 8) (by omega) n body hn
  refine ⟨fragments (s.outLen - 8) n body, a, fun x hx => ⟨(b x hx).1, ?_⟩, l, hl, ?_⟩
  · have := (b x hx).2
    omega
  · rw [← sentTagged_bytes, hs]
    simp [Bytes.flagged, Function.comp_def, List.map_flatMap]

/-- A message of ten octets with frame_max 15 needs …: the method frame alone is too large there. -/
example : (basicPublish (netEnv [] [(0, .sent 99), (1, .sent 99), (2, .sent 99), (3, .sent 99), (4, .sent 99)] [] []) 1 [] [65] 0 0 none
    [1, 2, 3] (demoConn 15)).errCode? = some St.BAD_AMQP_DATA := by decide +kernel
/-- A body of 20 octets with frame_max 22 travels as 14 and 6. -/
example : ((basicPublish (netEnv [] [(0, .sent 99), (1, .sent 99), (2, .sent 99), (3, .sent 99), (4, .sent 99)] [] []) 1 [] [65] 0 0 none
    (List.range 20 |>.map UInt8.ofNat) (demoConn 22)).state?.map fun s => sentBytes s.log) =
    some ([1, 0, 1, 0, 0, 0, 10, 0, 60, 0, 40, 0, 0, 0, 1, 65, 0, 206] ++
      [2, 0, 1, 0, 0, 0, 14, 0, 60, 0, 0, 0, 0, 0, 0, 0, 0, 0, 20, 0, 0, 206] ++
      ([3, 0, 1, 0, 0, 0, 14] ++ [0, 1, 2, 3, 4, 5, 6, 7, 8, 9, 10, 11, 12, 13] ++ [206]) ++
      [3, 0, 1, 0, 0, 0, 6, 14, 15, 16, 17, 18, 19, 206]) := by decide +kernel

/-! ## C25 -/

/-- The full statement of C25: everything up to the last frame is sent with MORE, the last frame is sent without. -/
def LastFlushed (l : List Ev) : Prop :=
  ∃ initial last ty ch payload, last = rawFrame ty ch payload FRAME_END ∧
    sentTagged l = Bytes.flagged initial SF_MORE ++ Bytes.flagged last SF_NONE

/-- C25, for bodies that are empty or not an exact multiple of the payload size.  Missing: bodies that are an exact multiple
(`C25_exact_multiple_never_flushed` shows that the claim is false there). -/
theorem C25_last_frame_flushed_partial {E : NetEnv} {ch : UInt16} {exchange routingKey : Bytes} {mandatory immediate : Bool}
    {props : Option (UInt32 × Rec)} {body : Bytes} {s s' : Conn} (hO : OutReady s) (h31 : s.frameMax < 2 ^ 31)
    (hex : exchange.length ≤ 255) (hrk : routingKey.length ≤ 255) (h64 : body.length < 2 ^ 64) (hw : PropsGiven props)
    (hmul : body = [] ∨ (body.length : Int) % (s.frameMax - 8) ≠ 0)
    (h : basicPublish E ch exchange routingKey (if mandatory then 1 else 0) (if immediate then 1 else 0) props body s = .ok () s') :
    ∃ l, Since s s' l ∧ LastFlushed l := by
  have h2 := hO.2
  obtain ⟨l, n, hl, hn, h20, hs⟩ := publish_tagged hO h31 hex hrk h64 hw h
  refine ⟨l, hl, ?_⟩
  rcases hmul with rfl | hmul
  · have hf : fragments (s.outLen - 8) n [] = [] := by cases n <;> rfl
    rw [hf] at hs
    simp only [List.length_nil, Nat.lt_irrefl, if_false, gt_iff_lt, List.flatMap_nil, List.append_nil] at hs
    exact ⟨_, _, 2, ch, _, rfl, hs⟩
  · have h8 : ((s.outLen - 8 : Nat) : Int) = s.frameMax - 8 := by omega
    have hm : body.length % (s.outLen - 8) ≠ 0 := by
      intro hz
      apply hmul
      rw [← h8, ← Int.natCast_emod, hz]; rfl
    obtain ⟨init, last, e1, e2, e3⟩ := (fragments_full (s.outLen - 8) (by omega) n body hn).2 hm
    have hb : body.length > 0 := by
      refine Nat.pos_of_ne_zero fun h0 => hm ?_
      rw [h0, Nat.zero_mod]
    rw [e1, if_pos hb, List.flatMap_append, List.flatMap_cons, List.flatMap_nil, List.append_nil, if_neg (by omega)] at hs
    have hi : (init.flatMap fun b => Bytes.flagged (rawFrame 3 ch b FRAME_END) (if b.length = s.outLen - 8 then SF_MORE else SF_NONE)) =
        Bytes.flagged (init.flatMap fun b => rawFrame 3 ch b FRAME_END) SF_MORE := by
      clear hs e1
      induction init with
      | nil => rfl
      | cons x xs ih =>
        rw [List.flatMap_cons, List.flatMap_cons, if_pos (e2 x (by simp)), ih fun b hb => e2 b (by simp [hb])]
        simp [Bytes.flagged]
    rw [hi] at hs
    refine ⟨rawFrame 1 ch (publishPayload exchange routingKey mandatory immediate) FRAME_END ++
      (rawFrame 2 ch (contentHeaderPayload body.length (props.getD (0, [])).1 (props.getD (0, [])).2) FRAME_END ++ init.flatMap fun b => rawFrame 3 ch b FRAME_END), _, 3, ch, last, rfl, ?_⟩
    rw [hs]
    simp [Bytes.flagged]

/-- C25 (finding): when the body is a non-empty exact multiple of the payload size, every octet of the publish, the last included, is
sent with MORE. -/
theorem C25_exact_multiple_never_flushed {E : NetEnv} {ch : UInt16} {exchange routingKey : Bytes} {mandatory immediate : Bool}
    {props : Option (UInt32 × Rec)} {body : Bytes} {s s' : Conn} (hO : OutReady s) (h31 : s.frameMax < 2 ^ 31)
    (hex : exchange.length ≤ 255) (hrk : routingKey.length ≤ 255) (h64 : body.length < 2 ^ 64) (hw : PropsGiven props)
    (hne : body ≠ []) (hmul : (body.length : Int) % (s.frameMax - 8) = 0)
    (h : basicPublish E ch exchange routingKey (if mandatory then 1 else 0) (if immediate then 1 else 0) props body s = .ok () s') :
    ∃ l, Since s s' l ∧ sentTagged l ≠ [] ∧ (∀ x ∈ sentTagged l, x.2 = SF_MORE) ∧ ¬ LastFlushed l := by
  have h2 := hO.2
  obtain ⟨l, n, hl, hn, h20, hs⟩ := publish_tagged hO h31 hex hrk h64 hw h
  have h8 : ((s.outLen - 8 : Nat) : Int) = s.frameMax - 8 := by omega
  have hm : body.length % (s.outLen - 8) = 0 := by
    rw [← h8, ← Int.natCast_emod] at hmul
    omega
  have hf := (fragments_full (s.outLen - 8) (by omega) n body hn).1 hm
  have hb : body.length > 0 := List.length_pos_iff.2 hne
  rw [if_pos hb] at hs
  have hall : ∀ x ∈ sentTagged l, x.2 = SF_MORE := by
    rw [hs]
    intro x hx
    simp only [Bytes.flagged, List.mem_append, List.mem_map, List.mem_flatMap] at hx
    rcases hx with ⟨_, _, rfl⟩ | ⟨_, _, rfl⟩ | ⟨b, hb, _, _, rfl⟩
    · rfl
    · rfl
    · dsimp only; rw [if_pos (hf b hb)]
  refine ⟨l, hl, ?_, hall, ?_⟩
  · rw [hs]; simp [Bytes.flagged, rawFrame]
  · rintro ⟨initial, last, ty, c, payload, rfl, hL⟩
    have := hall (ty, SF_NONE) (by rw [hL]; simp [Bytes.flagged, rawFrame])
    exact absurd this (by decide : SF_NONE ≠ SF_MORE)

example : ((basicPublish (netEnv [] [(0, .sent 99), (1, .sent 99), (2, .sent 99), (3, .sent 99), (4, .sent 99)] [] []) 1 [] [65] 0 0 none
    (List.range 20 |>.map UInt8.ofNat) (demoConn 22)).state?.map fun s => (sentTagged s.log).map (·.2)) =
    some (List.replicate (18 + 22 + 22) 1 ++ List.replicate 14 0) := by decide +kernel
example : ((basicPublish (netEnv [] [(0, .sent 99), (1, .sent 99), (2, .sent 99), (3, .sent 99), (4, .sent 99)] [] []) 1 [] [65] 0 0 none
    (List.range 28 |>.map UInt8.ofNat) (demoConn 22)).state?.map fun s => (sentTagged s.log).map (·.2)) =
    some (List.replicate (18 + 22 + 22 + 22) 1) := by decide +kernel

/-! ## C57 -/

/-- C57: amqp_send_header (send_header_inner without a deadline, amqp_socket.c:503-505) reports OK only if the eight protocol header
octets were handed to the transport, in order.  Assumed of the outside: `send` does not answer with the library's TIMEOUT, and the
kernel's poll without a timeout does not time out. -/
theorem C57_header_handed_over {E : NetEnv} (hT : NoTimeoutSend E) {s s' : Conn} (hP : PollHonest s s')
    (h : sendHeaderInner E TIME_INF s = .ok St.OK s') :
    ∃ l, Since s s' l ∧ sentBytes l = [65, 77, 81, 80, 0, 0, 9, 1] := by
  unfold sendHeaderInner at h
  have h1 := trySend_eff E TIME_INF SF_NONE 8 E.fuel protocolHeaderBytes s (Nat.le_refl _)
  have h2 := trySend_inf hT SF_NONE 8 E.fuel protocolHeaderBytes s
  have h3 := fun s' e => trySend_err (E := E) TIME_INF SF_NONE 8 E.fuel protocolHeaderBytes s s' e
  revert h h1 h2 h3
  cases trySend E TIME_INF SF_NONE 8 E.fuel protocolHeaderBytes s with
  | ub => intro h; cases h
  | fuel => intro h; cases h
  | err e t =>
    intro h _ _ h3
    injection h with h4 _
    exact absurd h4 (h3 _ _ rfl)
  | ok n t =>
    intro h h1 h2 _
    injection h with _ h5
    subst h5
    rcases h2 t n (Nat.le_refl _) rfl with rfl | ⟨l, d, hl, hd⟩
    · obtain ⟨k, ⟨l, rfl, _, _, hs⟩, hk⟩ := h1
      have : k = 8 := by
        have : protocolHeaderBytes.length = 8 := rfl
        omega
      subst this
      exact ⟨l, rfl, hs⟩
    · exact absurd hd (hP l hl d)

/-- Three pieces, waiting twice. -/
example : ((sendHeaderInner (netEnv [] [(0, .sent 3), (1, .fail 0x1301), (3, .sent 1), (4, .fail 0x1301), (6, .sent 8)] []
    [(2, .ready), (5, .ready)]) TIME_INF (demoConn 64)).val?) = some St.OK ∧
  ((sendHeaderInner (netEnv [] [(0, .sent 3), (1, .fail 0x1301), (3, .sent 1), (4, .fail 0x1301), (6, .sent 8)] []
    [(2, .ready), (5, .ready)]) TIME_INF (demoConn 64)).state?.map fun s => sentBytes s.log) = some [65, 77, 81, 80, 0, 0, 9, 1] := by
  decide +kernel

/-- C57 (finding): with a deadline, as used by amqp_login, the same code answers OK although nothing at all was sent: the deadline
passed before the first octet was taken. -/
theorem C57_timeout_reported_as_ok : ∃ (E : NetEnv) (s s' : Conn) (deadline : Nat), NoTimeoutSend E ∧
    sendHeaderInner E deadline s = .ok St.OK s' ∧ sentBytes s'.log = [] := by
  refine ⟨netEnv [(1, 5)] [(0, .fail 0x1301)] [] [(2, .timeout)], demoConn 64,
    (demoConn 64).ext [.send protocolHeaderBytes 0 St.PRIVATE_NEED_WRITE, .clock 5, .poll .write 0 .timeout], 10, ?_, ?_, ?_⟩
  · intro t b n h
    simp only [netEnv, List.lookup] at h
    split at h <;> simp at h <;> subst h <;> decide
  · rfl
  · rfl

end Rmq
