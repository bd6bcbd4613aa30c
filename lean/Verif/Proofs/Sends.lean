import Verif.Proofs.Closed
import Verif.Proofs.FrameOut
import Verif.Model.Api
/-!
# What is put on the wire
-/
namespace Rmq

theorem sentTagged_append (l l' : List Ev) : sentTagged (l ++ l') = sentTagged l ++ sentTagged l' := by simp [sentTagged]

theorem sentTagged_bytes (l : List Ev) : (sentTagged l).map (·.1) = sentBytes l := by
  induction l with
  | nil => rfl
  | cons e l ih =>
    have h1 : sentTagged (e :: l) = e.tagged ++ sentTagged l := rfl
    have h2 : sentBytes (e :: l) = e.accepted ++ sentBytes l := rfl
    rw [h1, h2, List.map_append, ih]
    congr 1
    cases e <;> simp [Ev.tagged, Ev.accepted, Function.comp_def]

theorem sendish_tagged {flags : Nat} : ∀ {l : List Ev}, (∀ e ∈ l, e.sendish flags = true) → sentTagged l = Bytes.flagged (sentBytes l) flags
  | [], _ => rfl
  | e :: l, h => by
    have h1 : sentTagged (e :: l) = e.tagged ++ sentTagged l := rfl
    have h2 : sentBytes (e :: l) = e.accepted ++ sentBytes l := rfl
    rw [h1, h2, sendish_tagged fun x hx => h x (by simp [hx])]
    have he := h e (by simp)
    unfold Bytes.flagged
    rw [List.map_append]
    congr 1
    cases e <;> simp_all [Ev.tagged, Ev.accepted, Ev.sendish]

def Ev.isSend : Ev → Bool
  | .send _ _ _ => true
  | _ => false

/-- Nothing was sent, and the output side is as it was. -/
def Hush (s s' : Conn) : Prop :=
  s'.outMem = s.outMem ∧ s'.outLen = s.outLen ∧ s'.frameMax = s.frameMax ∧ ∃ l, Since s s' l ∧ sentTagged l = [] ∧ l.any Ev.isSend = false

theorem Hush.refl (s : Conn) : Hush s s := ⟨rfl, rfl, rfl, [], by simp [Since], rfl, rfl⟩
theorem Hush.trans {s t u : Conn} (h : Hush s t) (h' : Hush t u) : Hush s u := by
  obtain ⟨a, b, c, l, hl, hs, hn⟩ := h
  obtain ⟨a', b', c', l', hl', hs', hn'⟩ := h'
  refine ⟨a'.trans a, b'.trans b, c'.trans c, l ++ l', ?_, by rw [sentTagged_append, hs, hs']; rfl, by rw [List.any_append, hn, hn']; rfl⟩
  unfold Since at *
  rw [hl', hl, List.append_assoc]

theorem quiet_tagged {l : List Ev} (h : Quiet l) : sentTagged l = [] := by
  rw [sendish_tagged (h.sendish 0), h.sent]; rfl

theorem Quiet.noSend {l : List Ev} (h : Quiet l) : l.any Ev.isSend = false := by
  rw [List.any_eq_false]
  intro e he
  have := h e he
  cases e <;> simp_all [Ev.quiet, Ev.isSend]

theorem Hush.quiet {s s' : Conn} (h : QuietStep s s') : Hush s s' := by
  obtain ⟨l, rfl, hl⟩ := h
  exact ⟨rfl, rfl, rfl, l, rfl, quiet_tagged hl, hl.noSend⟩

theorem hush_closed (E : NetEnv) (s0 : Conn) : ClosedR E (Hush s0) (fun _ _ => True) where
  ev := by
    intro s e he h
    refine h.trans ⟨rfl, rfl, rfl, [e], rfl, ?_, ?_⟩ <;> cases e <;> simp_all [Ev.plain, sentTagged, Ev.tagged, Ev.isSend]
  recv := by
    intro s b _ h
    have h1 := restartRecv_eff E ({ s with inb := b.take SOCK_BUF }.push (.recvData (b.take SOCK_BUF)))
    revert h1
    have key : ∀ s', (∃ t l, s' = { ({ s with inb := b.take SOCK_BUF }.push (.recvData (b.take SOCK_BUF))).ext l with nextRecv := t } ∧ Quiet l) →
        Hush s0 s' := by
      rintro s' ⟨t, l, rfl, hl⟩
      refine h.trans ⟨rfl, rfl, rfl, .recvData (b.take SOCK_BUF) :: l, by simp [Since, Conn.ext, Conn.push], ?_, hl.noSend⟩
      have : sentTagged (.recvData (b.take SOCK_BUF) :: l) = sentTagged l := rfl
      rw [this, quiet_tagged hl]
    cases restartRecv E ({ s with inb := b.take SOCK_BUF }.push (.recvData (b.take SOCK_BUF))) with
    | ok a s' => exact key s'
    | err e s' => exact key s'
    | ub => exact id
    | fuel => exact id
  consume := by
    intro s s' f h hc
    unfold consumeOne at hc
    split at hc
    · dsimp only at hc
      injection hc with h1 h2
      subst h2
      exact ⟨h.trans ⟨rfl, rfl, rfl, [_], rfl, rfl, rfl⟩, fun _ _ => trivial⟩
    all_goals cases hc
  consumeErr := by
    intro s s' e h hc
    unfold consumeOne at hc
    split at hc
    · cases hc
    · cases hc; exact h.trans ⟨rfl, rfl, rfl, [], by simp [Since], rfl, rfl⟩
    all_goals cases hc
  queue := by
    intro s f _ h
    have hl : Hush s (createLink E f.frame.channel s).2 := by
      unfold createLink smallAlloc
      split <;> exact ⟨rfl, rfl, rfl, [], by simp [Since], rfl, rfl⟩
    unfold queueFrame
    revert hl
    obtain ⟨a, t⟩ := createLink E f.frame.channel s
    intro hl
    cases a with
    | true => exact h.trans (hl.trans ⟨rfl, rfl, rfl, [], by simp [Since], rfl, rfl⟩)
    | false => exact h.trans hl

theorem tryRecv_hush (E : NetEnv) (s : Conn) : (tryRecv E s).All (Hush s) := (hush_closed E s).tryRecv (Hush.refl s)

/-- The first `k` bytes of `enc` were sent with the given flags, and the output side is as it was. -/
def Wrote (flags : Nat) (enc : Bytes) (k : Nat) (s s' : Conn) : Prop :=
  s'.outMem = s.outMem ∧ s'.outLen = s.outLen ∧ s'.frameMax = s.frameMax ∧
    ∃ l, Since s s' l ∧ sentTagged l = Bytes.flagged (enc.take k) flags

theorem Wrote.hush {flags k : Nat} {enc : Bytes} {s t u : Conn} (h : Wrote flags enc k s t) (h' : Hush t u) : Wrote flags enc k s u := by
  obtain ⟨a, b, c, l, hl, hs⟩ := h
  obtain ⟨a', b', c', l', hl', hs', _⟩ := h'
  refine ⟨a'.trans a, b'.trans b, c'.trans c, l ++ l', ?_, by rw [sentTagged_append, hs, hs', List.append_nil]⟩
  unfold Since at *
  rw [hl', hl, List.append_assoc]

theorem Wrote.trans {flags j k : Nat} {enc : Bytes} {s t u : Conn} (h : Wrote flags enc j s t) (h' : Wrote flags (enc.drop j) k t u) :
    Wrote flags enc (j + k) s u := by
  obtain ⟨a, b, c, l, hl, hs⟩ := h
  obtain ⟨a', b', c', l', hl', hs'⟩ := h'
  refine ⟨a'.trans a, b'.trans b, c'.trans c, l ++ l', ?_, ?_⟩
  · unfold Since at *
    rw [hl', hl, List.append_assoc]
  · rw [sentTagged_append, hs, hs', List.take_add]
    simp [Bytes.flagged]

theorem SentPart.wrote {flags k : Nat} {enc : Bytes} {s s' : Conn} (h : SentPart flags enc s s' k) : Wrote flags enc k s s' := by
  obtain ⟨l, rfl, hl, hk, hs⟩ := h
  exact ⟨rfl, rfl, rfl, l, rfl, by rw [sendish_tagged hl, hs]⟩

theorem sendLoop_wrote {E : NetEnv} (flags deadline : Nat) : ∀ (n : Nat) (enc : Bytes) (s : Conn),
    match sendLoop E flags deadline n enc s with
    | .ok () s' => Wrote flags enc enc.length s s'
    | .err _ s' => ∃ k, Wrote flags enc k s s'
    | _ => True := by
  intro n
  induction n with
  | zero => intro enc s; trivial
  | succ n ih =>
    intro enc s
    unfold sendLoop
    dsimp only
    have h1 := trySend_eff E (timeFirst deadline s.nextRecv) flags enc.length E.fuel enc s (Nat.le_refl _)
    revert h1
    cases trySend E (timeFirst deadline s.nextRecv) flags enc.length E.fuel enc s with
    | ub => exact fun _ => trivial
    | fuel => exact fun _ => trivial
    | err e t => rintro ⟨k, h⟩; exact ⟨k, h.wrote⟩
    | ok sent t =>
      rintro ⟨k, h, hk⟩
      have hk' : sent = k := by omega
      subst hk'
      dsimp only
      by_cases hs : enc.length ≠ sent
      · rw [if_pos hs]
        by_cases hd : timeEqual (timeFirst deadline s.nextRecv) deadline = true
        · rw [if_pos hd]; exact ⟨sent, h.wrote⟩
        rw [if_neg hd]
        have h2 := tryRecv_hush E t
        revert h2
        cases tryRecv E t with
        | ub => exact fun _ => trivial
        | fuel => exact fun _ => trivial
        | err e u =>
          intro h2
          dsimp only
          by_cases he : e = St.TIMEOUT
          · rw [if_pos he]; exact ⟨sent, h.wrote.hush h2⟩
          · rw [if_neg he]; exact ⟨sent, h.wrote.hush h2⟩
        | ok x u =>
          intro h2
          dsimp only
          have h3 := ih (enc.drop sent) u
          have h4 := h.wrote.hush h2
          have hle : sent ≤ enc.length := by obtain ⟨_, _, _, hle, _⟩ := h; exact hle
          revert h3
          cases sendLoop E flags deadline n (enc.drop sent) u with
          | ub => exact fun _ => trivial
          | fuel => exact fun _ => trivial
          | err e v => rintro ⟨j, h5⟩; exact ⟨sent + j, h4.trans h5⟩
          | ok y v =>
            intro h5
            have := h4.trans h5
            rw [List.length_drop] at this
            rwa [show sent + (enc.length - sent) = enc.length by omega] at this
      · rw [if_neg hs]
        have hs' : sent = enc.length := by omega
        subst hs'
        have h2 := restartSend_eff E t
        revert h2
        cases restartSend E t with
        | ub => exact fun _ => trivial
        | fuel => exact fun _ => trivial
        | ok x u =>
          rintro ⟨tt, l, rfl, hl⟩
          exact h.wrote.hush ⟨rfl, rfl, rfl, l, rfl, quiet_tagged hl, hl.noSend⟩
        | err e u =>
          rintro ⟨tt, l, rfl, hl⟩
          exact ⟨_, h.wrote.hush ⟨rfl, rfl, rfl, l, rfl, quiet_tagged hl, hl.noSend⟩⟩

/-- `SentFrame`: the frame's bytes and nothing else were sent. -/
theorem sendFrame_wrote {E : NetEnv} (f : AFrame) (flags deadline : Nat) (s : Conn) :
    match sendFrame E f flags deadline s with
    | .ok () s' => ∃ enc mem l, frameToBytes E.pe.be s.outMem s.outLen f = .ok enc mem ∧ s'.outMem = mem ∧ s'.outLen = s.outLen ∧
        s'.frameMax = s.frameMax ∧ Since s s' l ∧ sentTagged l = Bytes.flagged enc flags
    | .err _ s' => ∃ l, Since s s' l ∧ (sentTagged l = [] ∨
        ∃ enc mem k, frameToBytes E.pe.be s.outMem s.outLen f = .ok enc mem ∧ sentTagged l = Bytes.flagged (enc.take k) flags)
    | _ => True := by
  unfold sendFrame
  cases hf : frameToBytes E.pe.be s.outMem s.outLen f with
  | ub => trivial
  | fuel => trivial
  | err e mem => exact ⟨[], by simp [Since], Or.inl rfl⟩
  | ok enc mem =>
    dsimp only
    have h := sendLoop_wrote (E := E) flags deadline E.fuel enc { s with outMem := mem }
    revert h
    cases sendLoop E flags deadline E.fuel enc { s with outMem := mem } with
    | ub => exact fun _ => trivial
    | fuel => exact fun _ => trivial
    | ok x t =>
      rintro ⟨a, b, c, l, hl, hs⟩
      exact ⟨enc, mem, l, rfl, a, b, c, hl, by rw [hs, List.take_length]⟩
    | err e t =>
      rintro ⟨k, a, b, c, l, hl, hs⟩
      exact ⟨l, hl, Or.inr ⟨enc, mem, k, rfl, hs⟩⟩

/-! ## Frames that were serialised -/

/-- A content header is only serialised into a buffer of at least 20 bytes. -/
theorem header_room (be : Bool) (mem : Bytes) (len : Nat) (ch cls : UInt16) (size : UInt64) (flags : UInt32) (r : Rec) {out mem' : Bytes}
    (h : frameToBytes be mem len ⟨ch, .header cls size flags r⟩ = .ok out mem') : 20 ≤ mem.length := by
  have pk : ∀ {m : Bytes} {o : Nat} {bs : Bytes} {m' : Bytes}, poke m o bs = some m' → m'.length = m.length := by
    intro m o bs m' h
    unfold poke at h
    by_cases hc : o + bs.length ≤ m.length
    · rw [if_pos hc] at h; cases h; exact splice_length hc
    · rw [if_neg hc] at h; cases h
  refine Classical.byContradiction fun hlt => ?_
  unfold frameToBytes at h
  dsimp only at h
  split at h; · cases h
  rename_i m1 h1
  split at h; · cases h
  rename_i m2 h2
  split at h; · cases h
  rename_i m3 h3
  split at h; · cases h
  rename_i m4 h4
  split at h; · cases h
  rename_i m5 h5
  have l5 : m5.length = mem.length := by rw [pk h5, pk h4, pk h3, pk h2, pk h1]
  have hd : m5.drop (HEADER_SIZE + 12) = [] := by
    rw [List.drop_eq_nil_iff]; rw [HEADER_SIZE]; omega
  rw [hd] at h
  have hno : ∀ L n s, encProperties be [] L cls flags r ≠ .ok n s := by
    intro L n s
    have hw : ∀ (w : UInt16) x, enc16 be L w ⟨[], 0⟩ ≠ .ok true x := by
      intro w x
      unfold enc16 encRaw
      dsimp only
      split
      · have : ∀ x, writeAt (e16 be w) 0 ⟨[], 0 + (e16 be w).length⟩ ≠ .ok () x := by
          intro x
          unfold writeAt
          rw [if_neg (by simp [e16_length])]
          exact fun hh => nomatch hh
        split
        · rename_i hh; exact absurd hh (this _)
        · exact fun hh => nomatch hh
      · exact fun hh => nomatch hh
    have hf : ∀ x, encFlags be L 3 flags ⟨[], 0⟩ ≠ .ok () x := by
      intro x
      unfold encFlags
      rw [M.bind_def]
      unfold M.orFail
      split
      · rename_i hh
        split at hh
        · rename_i h3; exact absurd h3 (hw _ _)
        all_goals cases hh
      all_goals exact fun hh => nomatch hh
    unfold encProperties
    split
    · rename_i hh; exact absurd hh (hf _)
    all_goals exact fun hh => nomatch hh
  split at h
  · rename_i hh; exact hno _ _ _ hh
  all_goals cases h

theorem enc16_nil (be : Bool) (L : Nat) (w : UInt16) (x : EState) : enc16 be L w ⟨[], 0⟩ ≠ .ok true x := by
  unfold enc16 encRaw
  dsimp only
  split
  · have : ∀ x, writeAt (e16 be w) 0 ⟨[], 0 + (e16 be w).length⟩ ≠ .ok () x := by
      intro x
      unfold writeAt
      rw [if_neg (by simp [e16_length])]
      exact fun hh => nomatch hh
    split
    · rename_i hh; exact absurd hh (this _)
    · exact fun hh => nomatch hh
  · exact fun hh => nomatch hh

theorem encPublish_nil (be : Bool) (L : Nat) (ex rk : Bytes) (m i : Int32) (n : Nat) (x : EState) :
    encMethod be [] L BASIC_PUBLISH (publishArgs ex rk m i) ≠ .ok n x := by
  have ho : switch BASIC_PUBLISH encTableOps = some (.field .short .ticket :: .field .shortstr .exchange ::
      .field .shortstr .routing_key :: [.bits [(.mandatory, 0), (.immediate, 1)]]) := by rfl
  unfold encMethod
  rw [ho]
  dsimp only
  unfold encOps
  rw [M.bind_def]
  have hg : (publishArgs ex rk m i).get? .ticket = some (.u16 0) := by rfl
  have h0 : ∀ x, encOp be L (publishArgs ex rk m i) (.field .short .ticket) ⟨[], 0⟩ ≠ .ok () x := by
    intro x
    show encField be L .short ((publishArgs ex rk m i).get? .ticket) ⟨[], 0⟩ ≠ _
    rw [hg]
    unfold encField
    dsimp only
    unfold M.orFail
    split
    · rename_i h3; exact absurd h3 (enc16_nil _ _ _ _)
    all_goals exact fun hh => nomatch hh
  split
  · rename_i hh
    split at hh
    · rename_i h3; exact absurd h3 (h0 _)
    all_goals cases hh
  all_goals exact fun hh => nomatch hh

/-- Serialising a Publish method leaves the buffer's size alone. -/
theorem publish_room (be : Bool) (m : Bytes) (ch : UInt16) (ex rk : Bytes) (ma im : Int32) {out mem' : Bytes}
    (h : frameToBytes be m m.length ⟨ch, .method BASIC_PUBLISH (publishArgs ex rk ma im)⟩ = .ok out mem') : mem'.length = m.length := by
  unfold frameToBytes at h
  dsimp only at h
  split at h; · cases h
  rename_i m1 p1
  split at h; · cases h
  rename_i m2 p2
  split at h; · cases h
  rename_i m3 p3
  have l3 : m3.length = m.length := by rw [poke_len p3, poke_len p2, poke_len p1]
  split at h
  · rename_i n st hst
    by_cases h12 : 12 ≤ m.length
    · have hk := encMethod_kept be (m3.drop (HEADER_SIZE + 4)) (subWrap m.length (HEADER_SIZE + 4 + FOOTER_SIZE))
        (by rw [List.length_drop, l3]; unfold subWrap HEADER_SIZE FOOTER_SIZE; split <;> omega) BASIC_PUBLISH
        (publishArgs ex rk ma im) (by
          intro p hp hid
          have key : ∀ p ∈ protocol, p.id = BASIC_PUBLISH → p.args =
              [(.ticket, .short), (.exchange, .shortstr), (.routing_key, .shortstr), (.mandatory, .bit), (.immediate, .bit)] := by
            decide
          rw [key p hp hid]
          exact .cons trivial (.cons trivial (.cons trivial (.cons trivial (.cons trivial .nil)))))
      rw [hst] at hk
      have hs : st.mem.length = (m3.drop (HEADER_SIZE + 4)).length := by
        rcases hk with ⟨_, _, h1, _, h2⟩ | ⟨_, _, h1, _⟩
        · cases h1; exact h2
        · cases h1
      unfold finishFrame at h
      split at h; · cases h
      rename_i m4 p4
      split at h; · cases h
      rename_i m5 p5
      cases h
      rw [poke_len p5, poke_len p4, List.length_append, List.length_take, hs, List.length_drop, l3]
      unfold HEADER_SIZE
      omega
    · have hd : m3.drop (HEADER_SIZE + 4) = [] := by
        rw [List.drop_eq_nil_iff, l3]; rw [HEADER_SIZE]; omega
      rw [hd] at hst
      exact absurd hst (encPublish_nil _ _ _ _ _ _ _ _)
  all_goals cases h

/-- What a successfully serialised frame looks like. -/
theorem frameToBytes_ok {p q : Payload} {ty : UInt8} {bs : Bytes} (hW : Wire p ty bs q) (be : Bool) (ch : UInt16) (mem : Bytes)
    (h20 : 20 ≤ mem.length) (hsz : mem.length < 2 ^ 32) {out mem' : Bytes} (h : frameToBytes be mem mem.length ⟨ch, p⟩ = .ok out mem') :
    out = rawFrame ty ch bs FRAME_END ∧ mem'.length = mem.length ∧ bs.length + 8 ≤ mem.length := by
  by_cases hfit : bs.length + 8 ≤ mem.length
  · obtain ⟨m, h1, h2⟩ := frameToBytes_wire hW be ch mem hfit (by omega)
    rw [h1] at h
    cases h
    exact ⟨rfl, h2, hfit⟩
  · exfalso
    by_cases hb : ∃ b, p = .body b
    · obtain ⟨b, rfl⟩ := hb
      cases hW
      have := (frameToBytes_body be mem ch bs).2 (by omega)
      rw [h] at this
      cases this
    · obtain ⟨e, m, h1⟩ := frameToBytes_refuse be mem ch hW (fun b hb' => hb ⟨b, hb'⟩) h20 (by omega)
      rw [h1] at h
      cases h

/-! ## Publishing -/


theorem sendFrame_wire {E : NetEnv} {p q : Payload} {ty : UInt8} {bs : Bytes} (hW : Wire p ty bs q) (ch : UInt16) (flags deadline : Nat)
    {s s' : Conn} (hO : OutReady s) (hsz : s.outLen < 2 ^ 32) (h20 : 20 ≤ s.outLen) (h : sendFrame E ⟨ch, p⟩ flags deadline s = .ok () s') :
    OutReady s' ∧ s'.outLen = s.outLen ∧ bs.length + 8 ≤ s.outLen ∧
      ∃ l, Since s s' l ∧ sentTagged l = Bytes.flagged (rawFrame ty ch bs FRAME_END) flags := by
  have hw := sendFrame_wrote (E := E) ⟨ch, p⟩ flags deadline s
  rw [h] at hw
  obtain ⟨enc, mem, l, hf, a, b, c, hl, hs⟩ := hw
  rw [← hO.1] at hf
  obtain ⟨h1, h2, h3⟩ := frameToBytes_ok hW E.pe.be ch s.outMem (by rw [hO.1]; exact h20) (by rw [hO.1]; exact hsz) hf
  refine ⟨⟨by rw [a, h2, hO.1, b], by rw [c, hO.2, b]⟩, b, by rw [← hO.1]; exact h3, l, hl, by rw [hs, h1]⟩

/-- The fragments of a body. -/
def fragments (usable : Nat) : Nat → Bytes → List Bytes
  | 0, _ => []
  | n + 1, rest => if rest.length = 0 then [] else rest.take usable :: fragments usable n (rest.drop usable)

theorem Since.trans {s t u : Conn} {l l' : List Ev} (h : Since s t l) (h' : Since t u l') : Since s u (l ++ l') := by
  unfold Since at *
  rw [h', h, List.append_assoc]

theorem publishBody_sent {E : NetEnv} (ch : UInt16) (usable : Nat) (hu : 0 < usable) (h32 : usable < 2 ^ 31) : ∀ (n : Nat) (rest : Bytes) (s s' : Conn),
    OutReady s → 20 ≤ s.outLen → s.outLen = usable + 8 → publishBody E ch usable n rest s = .ok () s' →
    ∃ l, Since s s' l ∧ sentTagged l = (fragments usable n rest).flatMap fun b =>
      Bytes.flagged (rawFrame 3 ch b FRAME_END) (if b.length = usable then SF_MORE else SF_NONE) := by
  intro n
  induction n with
  | zero => intro rest s s' _ _ _ h; cases h
  | succ n ih =>
    intro rest s s' hO h20 hU h
    unfold publishBody at h
    unfold fragments
    by_cases h0 : rest.length = 0
    · rw [if_pos h0] at h ⊢
      cases h
      exact ⟨[], by simp [Since], rfl⟩
    rw [if_neg h0] at h ⊢
    by_cases h1 : rest.length ≥ usable
    · rw [if_pos h1] at h
      cases h2 : sendFrame E ⟨ch, .body (rest.take usable)⟩ SF_MORE TIME_INF s with
      | err e t => rw [h2] at h; cases h
      | ub => rw [h2] at h; cases h
      | fuel => rw [h2] at h; cases h
      | ok x t =>
        rw [h2] at h
        dsimp only at h
        have hl : (rest.take usable).length = usable := by rw [List.length_take]; omega
        obtain ⟨o1, o2, o3, l, hl1, hl2⟩ := sendFrame_wire (.body (rest.take usable)) ch SF_MORE TIME_INF hO (by omega) h20 h2
        obtain ⟨l', hl1', hl2'⟩ := ih _ t s' o1 (by rw [o2]; exact h20) (by rw [o2]; exact hU) h
        refine ⟨l ++ l', hl1.trans hl1', ?_⟩
        rw [sentTagged_append, hl2, hl2', List.flatMap_cons, if_pos hl]
    · rw [if_neg h1] at h
      cases h2 : sendFrame E ⟨ch, .body rest⟩ SF_NONE TIME_INF s with
      | err e t => rw [h2] at h; cases h
      | ub => rw [h2] at h; cases h
      | fuel => rw [h2] at h; cases h
      | ok x t =>
        rw [h2] at h
        dsimp only at h
        have ht : rest.take usable = rest := List.take_of_length_le (by omega)
        have hd : rest.drop usable = rest.drop rest.length := by
          rw [List.drop_eq_nil_of_le (by omega), List.drop_eq_nil_of_le (Nat.le_refl _)]
        obtain ⟨o1, o2, o3, l, hl1, hl2⟩ := sendFrame_wire (.body rest) ch SF_NONE TIME_INF hO (by omega) h20 h2
        obtain ⟨l', hl1', hl2'⟩ := ih _ t s' o1 (by rw [o2]; exact h20) (by rw [o2]; exact hU) h
        refine ⟨l ++ l', hl1.trans hl1', ?_⟩
        rw [sentTagged_append, hl2, hl2', List.flatMap_cons, ht, hd, if_neg (by omega)]

theorem fragments_spec (usable : Nat) (hu : 0 < usable) : ∀ (n : Nat) (rest : Bytes), rest.length ≤ n * usable →
    (fragments usable n rest).flatten = rest ∧ ∀ b ∈ fragments usable n rest, b ≠ [] ∧ b.length ≤ usable := by
  intro n
  induction n with
  | zero => intro rest h; simp at h; subst h; exact ⟨rfl, by simp [fragments]⟩
  | succ n ih =>
    intro rest h
    unfold fragments
    by_cases h0 : rest.length = 0
    · rw [if_pos h0]; simp at h0; subst h0; exact ⟨rfl, by simp⟩
    rw [if_neg h0]
    obtain ⟨a, b⟩ := ih (rest.drop usable) (by rw [List.length_drop, Nat.add_mul] at *; omega)
    refine ⟨by rw [List.flatten_cons, a, List.take_append_drop], ?_⟩
    intro x hx
    rcases List.mem_cons.1 hx with rfl | hx
    · refine ⟨?_, by rw [List.length_take]; omega⟩
      intro hn
      have : (rest.take usable).length = 0 := by rw [hn]; rfl
      rw [List.length_take] at this; omega
    · exact b x hx

theorem publishBody_enough {E : NetEnv} (ch : UInt16) (usable : Nat) : ∀ (n : Nat) (rest : Bytes) (s s' : Conn),
    publishBody E ch usable n rest s = .ok () s' → rest.length ≤ n * usable := by
  intro n
  induction n with
  | zero => intro rest s s' h; cases h
  | succ n ih =>
    intro rest s s' h
    unfold publishBody at h
    by_cases h0 : rest.length = 0
    · omega
    rw [if_neg h0] at h
    by_cases h1 : rest.length ≥ usable
    · rw [if_pos h1] at h
      cases h2 : sendFrame E ⟨ch, .body (rest.take usable)⟩ SF_MORE TIME_INF s with
      | ok x t =>
        rw [h2] at h
        have := ih _ _ _ h
        rw [List.length_drop] at this
        rw [Nat.add_mul]; omega
      | err e t => rw [h2] at h; cases h
      | ub => rw [h2] at h; cases h
      | fuel => rw [h2] at h; cases h
    · rw [Nat.add_mul]; omega

theorem publishCheck_hush {E : NetEnv} {s s' : Conn} (h : publishCheck E s = .ok () s') : Hush s s' := by
  unfold publishCheck at h
  obtain ⟨l, h1, hl⟩ := hasPastIO_ext E s.nextRecv s
  revert h h1
  obtain ⟨res, t⟩ := hasPastIO E s.nextRecv s
  intro h h1
  dsimp only at h h1
  subst h1
  have h0 : Hush s (s.ext l) := Hush.quiet ⟨l, rfl, hl⟩
  by_cases c1 : res = St.TIMER_FAILURE
  · rw [if_pos c1] at h; cases h
  rw [if_neg c1] at h
  by_cases c2 : res = St.TIMEOUT
  · rw [if_pos c2] at h
    have h2 := tryRecv_hush E (s.ext l)
    cases h3 : tryRecv E (s.ext l) with
    | ok x t => rw [h3] at h h2; cases h; exact h0.trans h2
    | err e t => rw [h3] at h; dsimp only at h; split at h <;> cases h
    | ub => rw [h3] at h; cases h
    | fuel => rw [h3] at h; cases h
  · rw [if_neg c2] at h; cases h; exact h0

theorem Hush.outReady {s s' : Conn} (h : Hush s s') (hO : OutReady s) : OutReady s' ∧ s'.outLen = s.outLen := by
  obtain ⟨a, b, c, _⟩ := h
  exact ⟨⟨by rw [a, b, hO.1], by rw [c, b, hO.2]⟩, b⟩

theorem usablePayload_eq {s : Conn} (hO : OutReady s) (h9 : 8 < s.outLen) (h32 : s.outLen < 2 ^ 32) : usablePayload s.frameMax = s.outLen - 8 := by
  unfold usablePayload HEADER_SIZE FOOTER_SIZE
  rw [hO.2]
  omega

/-- A successful publish puts its frames on the wire, and nothing else. -/
theorem basicPublish_sent {E : NetEnv} {ch : UInt16} {exchange routingKey : Bytes} {mandatory immediate : Int32}
    {props : Option (UInt32 × Rec)} {body : Bytes} {s s' : Conn} (hO : OutReady s) (h31 : s.outLen < 2 ^ 31)
    {mb hb : Bytes} {q1 q2 : Payload}
    (hW1 : Wire (.method BASIC_PUBLISH (publishArgs exchange routingKey mandatory immediate)) 1 mb q1)
    (hW2 : Wire (.header BASIC_CLASS (UInt64.ofNat body.length) (props.getD (0, [])).1 (props.getD (0, [])).2) 2 hb q2)
    (h : basicPublish E ch exchange routingKey mandatory immediate props body s = .ok () s') :
    ∃ l n, Since s s' l ∧ body.length ≤ n * (s.outLen - 8) ∧ 20 ≤ s.outLen ∧
      sentTagged l = Bytes.flagged (rawFrame 1 ch mb FRAME_END) SF_MORE ++
        (Bytes.flagged (rawFrame 2 ch hb FRAME_END) (if body.length > 0 then SF_MORE else SF_NONE) ++
        (fragments (s.outLen - 8) n body).flatMap fun b =>
          Bytes.flagged (rawFrame 3 ch b FRAME_END) (if b.length = s.outLen - 8 then SF_MORE else SF_NONE)) := by
  unfold basicPublish at h
  dsimp only at h
  rw [M.bind_def] at h
  cases h1 : publishCheck E s with
  | err e t => rw [h1] at h; cases h
  | ub => rw [h1] at h; cases h
  | fuel => rw [h1] at h; cases h
  | ok x t =>
  rw [h1] at h
  dsimp only at h
  have hu1 := publishCheck_hush h1
  obtain ⟨o1, e1⟩ := hu1.outReady hO
  obtain ⟨_, _, _, l1, hl1, hs1, _⟩ := hu1
  rw [M.bind_def] at h
  cases h2 : sendMethod E ch BASIC_PUBLISH (publishArgs exchange routingKey mandatory immediate) SF_MORE TIME_INF t with
  | err e t => rw [h2] at h; cases h
  | ub => rw [h2] at h; cases h
  | fuel => rw [h2] at h; cases h
  | ok x u =>
  rw [h2] at h
  dsimp only at h
  rw [M.bind_def] at h
  cases h3 : sendFrame E ⟨ch, .header BASIC_CLASS (UInt64.ofNat body.length) (props.getD (0, [])).1 (props.getD (0, [])).2⟩
      (if body.length > 0 then SF_MORE else SF_NONE) TIME_INF u with
  | err e t => rw [h3] at h; cases h
  | ub => rw [h3] at h; cases h
  | fuel => rw [h3] at h; cases h
  | ok x v =>
  rw [h3] at h
  dsimp only at h
  unfold sendMethod at h2
  have hroom : 20 ≤ t.outLen := by
    have w2 := sendFrame_wrote (E := E) ⟨ch, .method BASIC_PUBLISH (publishArgs exchange routingKey mandatory immediate)⟩ SF_MORE TIME_INF t
    have w3 := sendFrame_wrote (E := E) ⟨ch, .header BASIC_CLASS (UInt64.ofNat body.length) (props.getD (0, [])).1 (props.getD (0, [])).2⟩
      (if body.length > 0 then SF_MORE else SF_NONE) TIME_INF u
    rw [h2] at w2
    rw [h3] at w3
    obtain ⟨enc, mem, _, hf, a, b, _⟩ := w2
    obtain ⟨enc', mem', _, hf', _⟩ := w3
    have := header_room _ _ _ _ _ _ _ _ hf'
    refine Classical.byContradiction fun hc => ?_
    have lm : mem.length = t.outMem.length := by
      rw [← o1.1] at hf
      exact publish_room _ _ _ _ _ _ _ hf
    rw [a, lm, o1.1] at this
    omega
  rw [usablePayload_eq hO (by omega) (by omega)] at h
  obtain ⟨o2, e2, _, l2, hl2, hs2⟩ := sendFrame_wire hW1 ch SF_MORE TIME_INF o1 (by omega) hroom h2
  obtain ⟨o3, e3, _, l3, hl3, hs3⟩ := sendFrame_wire hW2 ch _ TIME_INF o2 (by omega) (by rw [e2]; exact hroom) h3
  have hb := publishBody_enough ch (s.outLen - 8) _ _ _ _ h
  obtain ⟨l4, hl4, hs4⟩ := publishBody_sent ch (s.outLen - 8) (by omega) (by omega) _ _ _ _ o3 (by rw [e3, e2]; exact hroom)
    (by rw [e3, e2, e1]; omega) h
  refine ⟨l1 ++ (l2 ++ (l3 ++ l4)), E.fuel, hl1.trans (hl2.trans (hl3.trans hl4)), hb, by rw [← e1]; exact hroom, ?_⟩
  rw [sentTagged_append, sentTagged_append, sentTagged_append, hs1, hs2, hs3, hs4]
  simp

theorem fragments_full (usable : Nat) (hu : 0 < usable) : ∀ (n : Nat) (rest : Bytes), rest.length ≤ n * usable →
    (rest.length % usable = 0 → ∀ b ∈ fragments usable n rest, b.length = usable) ∧
    (rest.length % usable ≠ 0 → ∃ init last, fragments usable n rest = init ++ [last] ∧ (∀ b ∈ init, b.length = usable) ∧
      last.length < usable) := by
  intro n
  induction n with
  | zero => intro rest h; simp at h; subst h; exact ⟨fun _ b hb => by simp [fragments] at hb, fun h => by simp at h⟩
  | succ n ih =>
    intro rest h
    unfold fragments
    by_cases h0 : rest.length = 0
    · rw [if_pos h0]; simp at h0; subst h0; exact ⟨fun _ b hb => by simp at hb, fun h => by simp at h⟩
    rw [if_neg h0]
    by_cases hge : usable ≤ rest.length
    · obtain ⟨a, b⟩ := ih (rest.drop usable) (by rw [List.length_drop, Nat.add_mul] at *; omega)
      have hm : (rest.drop usable).length % usable = rest.length % usable := by
        rw [List.length_drop]; exact (Nat.mod_eq_sub_mod hge).symm
      have ht : (rest.take usable).length = usable := by rw [List.length_take]; omega
      rw [hm] at a b
      constructor
      · intro hz x hx
        rcases List.mem_cons.1 hx with rfl | hx
        · exact ht
        · exact a hz x hx
      · intro hz
        obtain ⟨init, last, h1, h2, h3⟩ := b hz
        refine ⟨rest.take usable :: init, last, by rw [h1]; rfl, ?_, h3⟩
        intro x hx
        rcases List.mem_cons.1 hx with rfl | hx
        · exact ht
        · exact h2 x hx
    · have ht : rest.take usable = rest := List.take_of_length_le (by omega)
      have hd : rest.drop usable = [] := List.drop_eq_nil_of_le (by omega)
      rw [ht, hd]
      have hn : fragments usable n [] = [] := by cases n <;> rfl
      rw [hn]
      constructor
      · intro hz; rw [Nat.mod_eq_of_lt (by omega)] at hz; omega
      · intro _; exact ⟨[], rest, rfl, by simp, by omega⟩

/-! ## The protocol header -/

theorem pollFd_inf {E : NetEnv} (d : Dir) : ∀ (n : Nat) (s s' : Conn), pollFd E d TIME_INF n s = .err St.TIMEOUT s' →
    ∃ l, s' = s.ext l ∧ Ev.poll d (-1) .timeout ∈ l := by
  intro n
  induction n with
  | zero => intro s s' h; cases h
  | succ n ih =>
    intro s s' h
    unfold pollFd at h
    have hm : msUntilIO E TIME_INF s = (-1, s) := by
      unfold msUntilIO; rw [if_pos (Or.inl rfl)]; rfl
    rw [hm] at h
    dsimp only at h
    rw [if_neg (by decide)] at h
    cases hp : E.poll s.time with
    | ready => rw [hp] at h; cases h
    | timeout => rw [hp] at h; cases h; exact ⟨[_], rfl, by simp⟩
    | intr =>
      rw [hp] at h
      obtain ⟨l, h1, h2⟩ := ih _ _ h
      rw [Conn.push_eq, Conn.ext_ext] at h1
      exact ⟨_, h1, by simp [h2]⟩
    | error => rw [hp] at h; exact absurd (by injection h : St.SOCKET_ERROR = St.TIMEOUT) (by decide)

/-- Without a deadline everything is sent, unless the kernel's poll times out all the same. -/
theorem trySend_inf {E : NetEnv} (hT : NoTimeoutSend E) (flags len : Nat) : ∀ (n : Nat) (left : Bytes) (s s' : Conn) (m : Nat),
    left.length ≤ len → trySend E TIME_INF flags len n left s = .ok m s' → m = len ∨ ∃ l d, Since s s' l ∧ Ev.poll d (-1) .timeout ∈ l := by
  intro n
  induction n with
  | zero => intro left s s' m _ h; cases h
  | succ n ih =>
    intro left s s' m hlen h
    unfold trySend at h
    have hq := sockSend_eff E left flags s
    have hne : (sockSend E left flags s).1 ≠ St.TIMEOUT := by
      unfold sockSend
      by_cases ho : s.isOpen = true
      · rw [if_pos ho]
        cases hs : E.send s.time left with
        | sent k =>
          dsimp only
          intro h
          have : (St.TIMEOUT : Int) < 0 := by decide
          omega
        | fail k => exact hT _ _ _ hs
      · rw [if_neg ho]; exact (by decide : St.SOCKET_CLOSED ≠ St.TIMEOUT)
    revert h hne
    have hlog : ∃ l0, (sockSend E left flags s).2 = s.ext l0 := by
      unfold sockSend
      by_cases ho : s.isOpen = true
      · rw [if_pos ho]
        cases E.send s.time left <;> exact ⟨[_], rfl⟩
      · rw [if_neg ho]; exact ⟨[], by simp⟩
    revert hlog
    obtain ⟨res, t⟩ := sockSend E left flags s
    rintro ⟨l0, hl0⟩ h hne
    dsimp only at h hne hl0
    subst hl0
    by_cases hp : res > 0
    · rw [if_pos hp] at h
      by_cases hz : (left.drop res.toNat).length = 0
      · rw [if_pos hz] at h; cases h; exact Or.inl rfl
      · rw [if_neg hz] at h
        rcases ih _ _ _ _ (by rw [List.length_drop]; omega) h with h1 | ⟨l, d, h1, h2⟩
        · exact Or.inl h1
        · exact Or.inr ⟨l0 ++ l, d, by unfold Since at *; rw [h1]; simp, by simp [h2]⟩
    rw [if_neg hp] at h
    have hq := doPoll_quiet E res TIME_INF (s.ext l0)
    cases hd : doPoll E res TIME_INF (s.ext l0) with
    | ub => rw [hd] at h; cases h
    | fuel => rw [hd] at h; cases h
    | ok x u =>
      rw [hd] at h hq
      obtain ⟨l1, h1, _⟩ := hq
      subst h1
      rcases ih _ _ _ _ hlen h with h1 | ⟨l, d, h1, h2⟩
      · exact Or.inl h1
      · exact Or.inr ⟨l0 ++ l1 ++ l, d, by unfold Since at *; rw [h1]; simp, by simp [h2]⟩
    | err e u =>
      rw [hd] at h
      dsimp only at h
      by_cases he : e = St.TIMEOUT
      · rw [if_pos he] at h
        cases h
        subst he
        unfold doPoll at hd
        by_cases ho : (s.ext l0).isOpen = false
        · rw [if_pos ho] at hd
          exact absurd (by injection hd : St.SOCKET_CLOSED = St.TIMEOUT) (by decide)
        rw [if_neg ho] at hd
        by_cases c1 : res = St.PRIVATE_NEED_READ
        · rw [if_pos c1] at hd
          obtain ⟨l, h1, h2⟩ := pollFd_inf _ _ _ _ hd
          subst h1
          exact Or.inr ⟨l0 ++ l, .read, by unfold Since; simp, by simp [h2]⟩
        rw [if_neg c1] at hd
        by_cases c2 : res = St.PRIVATE_NEED_WRITE
        · rw [if_pos c2] at hd
          obtain ⟨l, h1, h2⟩ := pollFd_inf _ _ _ _ hd
          subst h1
          exact Or.inr ⟨l0 ++ l, .write, by unfold Since; simp, by simp [h2]⟩
        rw [if_neg c2] at hd
        by_cases c3 : res = St.OK
        · rw [if_pos c3] at hd; cases hd
        rw [if_neg c3] at hd
        injection hd with h1
        exact absurd h1 hne
      · rw [if_neg he] at h; cases h

theorem pollFd_err {E : NetEnv} (d : Dir) (deadline : Nat) : ∀ (n : Nat) (s s' : Conn) (e : Int),
    pollFd E d deadline n s = .err e s' → e ≠ St.OK := by
  intro n
  induction n with
  | zero => intro s s' e h; cases h
  | succ n ih =>
    intro s s' e h
    unfold pollFd at h
    revert h
    obtain ⟨ms, t⟩ := msUntilIO E deadline s
    intro h
    dsimp only at h
    by_cases hm : -1 > ms
    · rw [if_pos hm] at h
      injection h with h1
      intro h2
      have : (St.OK : Int) = 0 := rfl
      omega
    rw [if_neg hm] at h
    cases hp : E.poll t.time with
    | ready => rw [hp] at h; cases h
    | timeout => rw [hp] at h; injection h with h1; rw [← h1]; exact (by decide : St.TIMEOUT ≠ St.OK)
    | intr => rw [hp] at h; exact ih _ _ _ h
    | error => rw [hp] at h; injection h with h1; rw [← h1]; exact (by decide : St.SOCKET_ERROR ≠ St.OK)

theorem trySend_err {E : NetEnv} (deadline flags len : Nat) : ∀ (n : Nat) (left : Bytes) (s s' : Conn) (e : Int),
    trySend E deadline flags len n left s = .err e s' → e ≠ St.OK := by
  intro n
  induction n with
  | zero => intro left s s' e h; cases h
  | succ n ih =>
    intro left s s' e h
    unfold trySend at h
    revert h
    obtain ⟨res, t⟩ := sockSend E left flags s
    intro h
    dsimp only at h
    by_cases hp : res > 0
    · rw [if_pos hp] at h
      by_cases hz : (left.drop res.toNat).length = 0
      · rw [if_pos hz] at h; cases h
      · rw [if_neg hz] at h; exact ih _ _ _ _ h
    rw [if_neg hp] at h
    cases hd : doPoll E res deadline t with
    | ub => rw [hd] at h; cases h
    | fuel => rw [hd] at h; cases h
    | ok x u => rw [hd] at h; exact ih _ _ _ _ h
    | err e' u =>
      rw [hd] at h
      dsimp only at h
      by_cases he : e' = St.TIMEOUT
      · rw [if_pos he] at h; cases h
      rw [if_neg he] at h
      cases h
      unfold doPoll at hd
      by_cases ho : t.isOpen = false
      · rw [if_pos ho] at hd
        injection hd with h1; rw [← h1]; exact (by decide : St.SOCKET_CLOSED ≠ St.OK)
      rw [if_neg ho] at hd
      by_cases c1 : res = St.PRIVATE_NEED_READ
      · rw [if_pos c1] at hd; exact pollFd_err _ _ _ _ _ _ hd
      rw [if_neg c1] at hd
      by_cases c2 : res = St.PRIVATE_NEED_WRITE
      · rw [if_pos c2] at hd; exact pollFd_err _ _ _ _ _ _ hd
      rw [if_neg c2] at hd
      by_cases c3 : res = St.OK
      · rw [if_pos c3] at hd; cases hd
      · rw [if_neg c3] at hd; injection hd with h1; rw [← h1]; exact c3

end Rmq
