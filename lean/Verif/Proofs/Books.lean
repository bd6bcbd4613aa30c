import Verif.Proofs.HeartbeatKept
/-!
# The times kept for the heartbeats are those an observer of the events works out
-/
namespace Rmq

/-- The next reading of the clock means nothing. -/
def Settled (h : Int) (last : Option Ev) : Prop :=
  0 < h → (∀ b, last ≠ some (.recvData b)) ∧ ∀ b f r, last = some (.send b f r) → ¬ (r = b.length ∧ b.getLast? = some 206)

theorem see_settled {h : Int} {m : Watch} {e : Ev} (hc : Settled h m.last) : m.see h e = ⟨m.recvBy, m.sendBy, some e⟩ := by
  obtain ⟨r, s, last⟩ := m
  unfold Watch.see
  cases last with
  | none => rfl
  | some x => cases x with
    | recvData b =>
      cases e with
      | clock t =>
        dsimp only
        rw [if_neg]
        rintro ⟨h1, _⟩
        exact (hc h1).1 b rfl
      | _ => rfl
    | send b f res =>
      cases e with
      | clock t =>
        dsimp only
        rw [if_neg]
        rintro ⟨h1, _, h2⟩
        exact (hc h1).2 b f res rfl h2
      | _ => rfl
    | _ => rfl

/-- The connection's books agree with an observer's who began with `w0` when the log was `L0`. -/
def Books (h : Int) (w0 : Watch) (L0 : List Ev) (s : Conn) : Prop :=
  s.heartbeat = h ∧ (h ≤ 0 → s.nextRecv = TIME_INF ∧ s.nextSend = TIME_INF) ∧
  ∃ l last, s.log = L0 ++ l ∧ Settled h last ∧ w0.after h l = ⟨s.nextRecv, s.nextSend, last⟩

section
variable {h : Int} {w0 : Watch} {L0 : List Ev}

theorem Books.congr {s s' : Conn} (hs : Books h w0 L0 s) (h1 : s'.heartbeat = s.heartbeat) (h2 : s'.nextRecv = s.nextRecv) (h3 : s'.nextSend = s.nextSend)
    (h4 : s'.log = s.log) : Books h w0 L0 s' := by
  unfold Books; rw [h1, h2, h3, h4]; exact hs

theorem Books.push {s : Conn} (hs : Books h w0 L0 s) {e : Ev} (he : Settled h (some e)) : Books h w0 L0 (s.push e) := by
  obtain ⟨a, b, l, last, c, d, f⟩ := hs
  refine ⟨a, b, l ++ [e], some e, by simp [Conn.push, c], he, ?_⟩
  rw [Watch.after_append, f]
  show Watch.see h _ _ = _
  rw [see_settled d]
  rfl

theorem settled_plain {e : Ev} (h1 : ∀ b, e ≠ .recvData b) (h2 : ∀ b f r, e ≠ .send b f r) : Settled h (some e) :=
  fun _ => ⟨fun b hh => h1 b (Option.some.inj hh), fun b f r hh => absurd (Option.some.inj hh) (h2 b f r)⟩

theorem Books.ext {s : Conn} (hs : Books h w0 L0 s) : ∀ (l : List Ev), (∀ e ∈ l, Settled h (some e)) → Books h w0 L0 (s.ext l) := by
  intro l
  induction l generalizing s with
  | nil => intro _; simpa using hs
  | cons e l ih =>
    intro hl
    have : s.ext (e :: l) = (s.push e).ext l := by simp [Conn.ext, Conn.push]
    rw [this]
    exact ih (hs.push (hl e (by simp))) (fun x hx => hl x (by simp [hx]))

/-- After something that counts was pushed, the books are settled by the clock. -/
theorem Books.recv {E : NetEnv} (hC : ClockFine E) (hh : h ≤ 65535) {s : Conn} (hs : Books h w0 L0 s) (i b : Bytes) :
    (restartRecv E ({ s with inb := i }.push (.recvData b))).All (Books h w0 L0) := by
  obtain ⟨a, off, l, last, c, d, f⟩ := hs
  have hlog : ({ s with inb := i }.push (.recvData b)).log = L0 ++ (l ++ [.recvData b]) := by simp [Conn.push, c]
  have haft : w0.after h (l ++ [.recvData b]) = ⟨s.nextRecv, s.nextSend, some (.recvData b)⟩ := by
    rw [Watch.after_append, f]
    show Watch.see h _ _ = _
    rw [see_settled d]
  unfold restartRecv
  have e1 : ({ s with inb := i }.push (.recvData b) : Conn).heartbeat = h := a
  have e2 : ({ s with inb := i }.push (.recvData b) : Conn).nextRecv = s.nextRecv := rfl
  have e3 : ({ s with inb := i }.push (.recvData b) : Conn).nextSend = s.nextSend := rfl
  generalize ({ s with inb := i }.push (.recvData b) : Conn) = t at *
  rw [e1, e2]
  by_cases hz : h ≤ 0
  · rw [sFromNowIO_off E (by omega)]
    dsimp only
    rw [if_pos rfl]
    refine ⟨e1, fun _ => ⟨rfl, by show t.nextSend = _; rw [e3]; exact (off hz).2⟩, _, some (.recvData b), hlog, fun hx => absurd hx (by omega), ?_⟩
    rw [haft, (off hz).1, ← e3]
  · rw [sFromNowIO_on E (by omega) (by omega) _ _ (hC.2 _)]
    generalize E.clock t.time = now at *
    have hsee : w0.after h (l ++ [.recvData b] ++ [.clock now]) = ⟨if 0 < h ∧ now ≠ 0 then now + 2 * h.toNat * 1000000000 else s.nextRecv, s.nextSend, some (.clock now)⟩ := by
      rw [Watch.after_append, haft]; rfl
    have hlog2 : (t.push (.clock now)).log = L0 ++ (l ++ [.recvData b] ++ [.clock now]) := by simp [Conn.push, hlog]
    by_cases hn : now = 0
    · rw [if_pos hn]
      dsimp only
      rw [if_neg (by decide)]
      refine ⟨e1, fun hx => absurd hx hz, _, some (.clock now), hlog2, settled_plain (by simp) (by simp), ?_⟩
      rw [hsee, if_neg (fun hx => hx.2 hn), ← e3]
      rfl
    · rw [if_neg hn]
      dsimp only
      rw [if_pos rfl]
      have e4 : (2 * h).toNat = 2 * h.toNat := by omega
      rw [e4]
      rw [if_pos ⟨by omega, hn⟩] at hsee
      generalize now + 2 * h.toNat * 1000000000 = nxt at *
      refine ⟨e1, fun hx => absurd hx hz, _, some (.clock now), hlog2, settled_plain (by simp) (by simp), ?_⟩
      rw [hsee, ← e3]
      rfl

/-- The same after the last byte of a frame. -/
theorem Books.sent {E : NetEnv} (hC : ClockFine E) (hh : h ≤ 65535) {s : Conn} (hs : Books h w0 L0 s) {b : Bytes} (hb : b.getLast? = some 206) (fl : Nat) :
    (restartSend E (s.push (.send b fl b.length))).All (Books h w0 L0) := by
  obtain ⟨a, off, l, last, c, d, f⟩ := hs
  have hlog : (s.push (.send b fl b.length)).log = L0 ++ (l ++ [.send b fl b.length]) := by simp [Conn.push, c]
  have haft : w0.after h (l ++ [.send b fl b.length]) = ⟨s.nextRecv, s.nextSend, some (.send b fl b.length)⟩ := by
    rw [Watch.after_append, f]
    show Watch.see h _ _ = _
    rw [see_settled d]
  unfold restartSend
  have e1 : (s.push (.send b fl b.length) : Conn).heartbeat = h := a
  have e2 : (s.push (.send b fl b.length) : Conn).nextRecv = s.nextRecv := rfl
  have e3 : (s.push (.send b fl b.length) : Conn).nextSend = s.nextSend := rfl
  generalize (s.push (.send b fl b.length) : Conn) = t at *
  rw [e1, e3]
  by_cases hz : h ≤ 0
  · rw [sFromNowIO_off E (by omega)]
    dsimp only
    rw [if_pos rfl]
    refine ⟨e1, fun _ => ⟨by show t.nextRecv = _; rw [e2]; exact (off hz).1, rfl⟩, _, some (.send b fl b.length), hlog, fun hx => absurd hx (by omega), ?_⟩
    rw [haft, (off hz).2, ← e2]
  · rw [sFromNowIO_on E (by omega) (by omega) _ _ (hC.2 _)]
    generalize E.clock t.time = now at *
    have hsee : w0.after h (l ++ [.send b fl b.length] ++ [.clock now]) = ⟨s.nextRecv, if 0 < h ∧ now ≠ 0 ∧ (b.length : Int) = b.length ∧ b.getLast? = some 206 then now + h.toNat * 1000000000 else s.nextSend, some (.clock now)⟩ := by
      rw [Watch.after_append, haft]; rfl
    have hlog2 : (t.push (.clock now)).log = L0 ++ (l ++ [.send b fl b.length] ++ [.clock now]) := by simp [Conn.push, hlog]
    by_cases hn : now = 0
    · rw [if_pos hn]
      dsimp only
      rw [if_neg (by decide)]
      refine ⟨e1, fun hx => absurd hx hz, _, some (.clock now), hlog2, settled_plain (by simp) (by simp), ?_⟩
      rw [hsee, if_neg (fun hx => hx.2.1 hn), ← e2]
      rfl
    · rw [if_neg hn]
      dsimp only
      rw [if_pos rfl]
      rw [if_pos ⟨by omega, hn, rfl, hb⟩] at hsee
      generalize now + h.toNat * 1000000000 = nxt at *
      refine ⟨e1, fun hx => absurd hx hz, _, some (.clock now), hlog2, settled_plain (by simp) (by simp), ?_⟩
      rw [hsee, ← e2]
      rfl

theorem finishFrame_last {be : Bool} {mem out mem' : Bytes} {n : Nat} (h : finishFrame be mem n = .ok out mem') : out.getLast? = some 206 := by
  unfold finishFrame at h
  split at h; · cases h
  split at h; · cases h
  rename_i m1 _ _ m2 h2
  cases h
  unfold poke at h2
  split at h2
  · rename_i hle
    cases h2
    unfold splice
    have h3 : n + HEADER_SIZE + FOOTER_SIZE = (m1.take (HEADER_SIZE + n) ++ e8 FRAME_END).length := by
      rw [e8_length] at hle
      rw [List.length_append, List.length_take, e8_length, Nat.min_eq_left (by omega), FOOTER_SIZE]; omega
    rw [h3, List.take_left, List.getLast?_append]
    rfl
  · cases h2

theorem frameToBytes_last {be : Bool} {mem out mem' : Bytes} {len : Nat} {f : AFrame} (h : frameToBytes be mem len f = .ok out mem') :
    out.getLast? = some 206 := by
  unfold frameToBytes at h
  split at h; · cases h
  split at h; · cases h
  cases hp : f.payload with
  | body b =>
    rw [hp] at h
    dsimp only at h
    split at h
    · cases h
    · exact finishFrame_last h
  | method id args =>
    rw [hp] at h
    dsimp only at h
    split at h; · cases h
    rename_i mem _
    cases h1 : encMethod be (mem.drop (HEADER_SIZE + 4)) (subWrap len (HEADER_SIZE + 4 + FOOTER_SIZE)) id args with
    | ok n s => rw [h1] at h; exact finishFrame_last h
    | err e' s => rw [h1] at h; cases h
    | ub => rw [h1] at h; cases h
    | fuel => rw [h1] at h; cases h
  | header c sz fl ps =>
    rw [hp] at h
    dsimp only at h
    split at h; · cases h
    split at h; · cases h
    split at h; · cases h
    rename_i mem _
    cases h1 : encProperties be (mem.drop (HEADER_SIZE + 12)) (subWrap len (HEADER_SIZE + 12 + FOOTER_SIZE)) c fl ps with
    | ok n s => rw [h1] at h; exact finishFrame_last h
    | err e' s => rw [h1] at h; cases h
    | ub => rw [h1] at h; cases h
    | fuel => rw [h1] at h; cases h
  | heartbeat => rw [hp] at h; exact finishFrame_last h
  | protocolHeader a b c d => rw [hp] at h; cases h
  | other t => rw [hp] at h; cases h

theorem last_drop {b : Bytes} {n : Nat} (hb : b.getLast? = some 206) (h : b.drop n ≠ []) : (b.drop n).getLast? = some 206 := by
  have : (b.take n ++ b.drop n).getLast? = some 206 := by rw [List.take_append_drop]; exact hb
  rw [List.getLast?_append] at this
  cases hd : (b.drop n).getLast? with
  | none => exact absurd (List.getLast?_eq_none_iff.1 hd) h
  | some x => rw [hd] at this; exact this

theorem settled_quiet {l : List Ev} (hl : Quiet l) : ∀ e ∈ l, Settled h (some e) := by
  intro e he
  have := hl e he
  cases e <;> first | (cases this; done) | exact settled_plain (by simp) (by simp)

theorem Books.quiet {s s' : Conn} (hs : Books h w0 L0 s) (hq : QuietStep s s') : Books h w0 L0 s' := by
  obtain ⟨l, rfl, hl⟩ := hq
  exact hs.ext l (settled_quiet hl)

theorem books_closedR {E : NetEnv} (hC : ClockFine E) (hh : h ≤ 65535) : ClosedR E (Books h w0 L0) (fun _ _ => True) := by
  refine ⟨⟨fun {s e} he hs => hs.push (by cases e <;> first | (cases he; done) | exact settled_plain (by simp) (by simp)), fun {s} b _ hs => hs.recv hC hh _ _⟩,
    fun {s s' f} hs hc => ⟨?_, fun _ _ => trivial⟩, fun {s s' e} hs hc => ?_, fun {s f} _ hs => ?_⟩
  · unfold consumeOne at hc
    cases h1 : handleInput E.pe s.ps s.inb with
    | ok r p =>
      rw [h1] at hc
      cases hc
      exact Books.push (s := { s with ps := p, inb := s.inb.drop r.1 }) (hs.congr rfl rfl rfl rfl) (settled_plain (by simp) (by simp))
    | err e p => rw [h1] at hc; cases hc
    | ub => rw [h1] at hc; cases hc
    | fuel => rw [h1] at hc; cases hc
  · unfold consumeOne at hc
    cases h1 : handleInput E.pe s.ps s.inb with
    | ok r p => rw [h1] at hc; cases hc
    | err e p => rw [h1] at hc; cases hc; exact hs
    | ub => rw [h1] at hc; cases hc
    | fuel => rw [h1] at hc; cases hc
  · unfold queueFrame
    obtain ⟨a, p, hp⟩ := createLink_eff E f.frame.channel s
    revert hp
    obtain ⟨b, s1⟩ := createLink E f.frame.channel s
    intro hp
    dsimp only at hp
    subst hp
    cases b <;> exact hs

/-- Sending: either the last thing was the end of a frame, or the books are settled. -/
theorem books_trySend {E : NetEnv} (deadline flags len : Nat) : ∀ (n : Nat) (left : Bytes) {s : Conn}, Books h w0 L0 s → left ≠ [] → left.length ≤ len →
    match trySend E deadline flags len n left s with
    | .ok sent s' => (sent < len ∧ Books h w0 L0 s') ∨ (sent = len ∧ ∃ u n, Books h w0 L0 u ∧ left.drop n ≠ [] ∧ s' = u.push (.send (left.drop n) flags (left.drop n).length))
    | .err _ s' => Books h w0 L0 s'
    | .ub => True
    | .fuel => True := by
  intro n
  induction n with
  | zero => intro left s _ _ _; trivial
  | succ n ih =>
    intro left s hs hl hle
    have hpos : 0 < left.length := by cases left with
      | nil => exact absurd rfl hl
      | cons a l => simp
    unfold trySend sockSend
    by_cases ho : s.isOpen = true
    · rw [if_pos ho]
      have notAll : ∀ res : Int, res ≠ left.length → Books h w0 L0 (s.push (.send left flags res)) := fun res hr =>
        hs.push fun _ => ⟨by simp, by rintro b f r hx ⟨h1, _⟩; cases hx; exact hr h1⟩
      -- polling and trying again
      have again : ∀ (res : Int), res ≤ 0 →
          match (match doPoll E res deadline (s.push (.send left flags res)) with
            | .ok () s => trySend E deadline flags len n left s
            | .err e s => if e = St.TIMEOUT then .ok (len - left.length) s else .err e s
            | .ub => .ub
            | .fuel => .fuel : Res Conn Nat) with
          | .ok sent s' => (sent < len ∧ Books h w0 L0 s') ∨ (sent = len ∧ ∃ u n, Books h w0 L0 u ∧ left.drop n ≠ [] ∧ s' = u.push (.send (left.drop n) flags (left.drop n).length))
          | .err _ s' => Books h w0 L0 s'
          | .ub => True
          | .fuel => True := by
        intro res hr
        have h0 := notAll res (by omega)
        have h1 := doPoll_quiet E res deadline (s.push (.send left flags res))
        revert h1
        cases doPoll E res deadline (s.push (.send left flags res)) with
        | ub => exact fun _ => trivial
        | fuel => exact fun _ => trivial
        | ok x t => intro h1; exact ih left (h0.quiet h1) hl hle
        | err e t =>
          intro h1
          dsimp only
          by_cases he : e = St.TIMEOUT
          · rw [if_pos he]; exact Or.inl ⟨by omega, h0.quiet h1⟩
          · rw [if_neg he]; exact h0.quiet h1
      cases hE : E.send s.time left with
      | sent k =>
        dsimp only
        by_cases hp : ((min k left.length : Nat) : Int) > 0
        · rw [if_pos hp]
          simp only [Int.toNat_natCast]
          by_cases hd : (left.drop (min k left.length)).length = 0
          · rw [if_pos hd]
            have hk : min k left.length = left.length := by
              rw [List.length_drop] at hd; omega
            refine Or.inr ⟨rfl, s, 0, hs, by simpa using hl, ?_⟩
            rw [hk]; rfl
          · rw [if_neg hd]
            have hd' : left.drop (min k left.length) ≠ [] := fun hx => hd (by rw [hx]; rfl)
            have := ih (left.drop (min k left.length)) (notAll (min k left.length : Nat) (by
              rw [List.length_drop] at hd; intro hx; omega)) hd' (by rw [List.length_drop]; omega)
            revert this
            cases trySend E deadline flags len n (left.drop (min k left.length)) (s.push (.send left flags (min k left.length : Nat))) with
            | ub => exact id
            | fuel => exact id
            | err e t => exact id
            | ok sent t =>
              rintro (h1 | ⟨h1, u, j, h2, h3, h4⟩)
              · exact Or.inl h1
              · refine Or.inr ⟨h1, u, (min k left.length) + j, h2, ?_, ?_⟩
                · rw [← List.drop_drop]; exact h3
                · rw [← List.drop_drop]; exact h4
        · rw [if_neg hp]
          exact again _ (by omega)
      | fail k =>
        dsimp only
        rw [if_neg (by omega)]
        exact again _ (by omega)
    · rw [if_neg ho]
      dsimp only
      rw [if_neg (by decide)]
      have h1 := doPoll_quiet E St.SOCKET_CLOSED deadline s
      revert h1
      cases doPoll E St.SOCKET_CLOSED deadline s with
      | ub => exact fun _ => trivial
      | fuel => exact fun _ => trivial
      | ok x t => intro h1; exact ih left (hs.quiet h1) hl hle
      | err e t =>
        intro h1
        dsimp only
        by_cases he : e = St.TIMEOUT
        · rw [if_pos he]; exact Or.inl ⟨by omega, hs.quiet h1⟩
        · rw [if_neg he]; exact hs.quiet h1

theorem books_sendLoop {E : NetEnv} (hC : ClockFine E) (hh : h ≤ 65535) (flags deadline : Nat) : ∀ (n : Nat) (enc : Bytes) {s : Conn}, Books h w0 L0 s →
    enc.getLast? = some 206 → (sendLoop E flags deadline n enc s).All (Books h w0 L0) := by
  intro n
  induction n with
  | zero => intro enc s _ _; trivial
  | succ n ih =>
    intro enc s hs he
    unfold sendLoop
    dsimp only
    have hne : enc ≠ [] := fun hx => by rw [hx] at he; cases he
    have h1 := books_trySend (E := E) (timeFirst deadline s.nextRecv) flags enc.length E.fuel enc hs hne (Nat.le_refl _)
    revert h1
    cases trySend E (timeFirst deadline s.nextRecv) flags enc.length E.fuel enc s with
    | err e t => exact id
    | ub => exact id
    | fuel => exact id
    | ok m t =>
      rintro (⟨h1, h2⟩ | ⟨rfl, u, j, h1, h2, rfl⟩)
      · dsimp only
        rw [if_pos (by omega)]
        by_cases ht : timeEqual (timeFirst deadline s.nextRecv) deadline = true
        · rw [if_pos ht]; exact h2
        rw [if_neg ht]
        have h2 := (books_closedR hC hh).tryRecv h2
        revert h2
        cases tryRecv E t with
        | ok a u => exact fun h2 => ih _ h2 (last_drop he (fun hx => by
            have := congrArg List.length hx
            rw [List.length_drop] at this
            simp at this
            omega))
        | err e u =>
          intro h2
          dsimp only
          by_cases he : e = St.TIMEOUT
          · rw [if_pos he]; exact h2
          · rw [if_neg he]; exact h2
        | ub => exact id
        | fuel => exact id
      · dsimp only
        rw [if_neg (by simp)]
        exact h1.sent hC hh (last_drop he h2) flags

theorem books_closedW {E : NetEnv} (hC : ClockFine E) (hh : h ≤ 65535) : ClosedW E (Books h w0 L0) (fun _ _ => True) where
  toClosedR := books_closedR hC hh
  sendFrame := fun f fl d s hs => by
    unfold sendFrame
    cases hf : frameToBytes E.pe.be s.outMem s.outLen f with
    | ok enc mem => exact books_sendLoop hC hh fl d _ enc (s := { s with outMem := mem }) (hs.congr rfl rfl rfl rfl) (frameToBytes_last hf)
    | err e mem => exact hs.congr rfl rfl rfl rfl
    | ub => trivial
    | fuel => trivial
  close := fun {s} hs => by
    unfold sockClose
    split
    · exact hs
    · split
      · exact Books.push (s := { s with isOpen := false }) (hs.congr rfl rfl rfl rfl) (settled_plain (by simp) (by simp))
      · exact hs.push (settled_plain (by simp) (by simp))
  release := fun {s} ch hs => by
    obtain ⟨l, h1, h2⟩ := maybeReleaseOn_ext ch s
    rw [h1]
    refine hs.ext l ?_
    rcases h2 with rfl | rfl
    · intro e he; cases he
    · intro e he
      rw [List.mem_singleton] at he
      subst he
      exact settled_plain (by simp) (by simp)

theorem books_header {E : NetEnv} (deadline : Nat) : ∀ (n : Nat) (left : Bytes) {s : Conn}, Books h w0 L0 s → left <:+ protocolHeaderBytes →
    (trySend E deadline SF_NONE 8 n left s).All (Books h w0 L0) := by
  intro n
  induction n with
  | zero => intro left s _ _; trivial
  | succ n ih =>
    intro left s hs hl
    have hn : left.getLast? ≠ some 206 := by
      obtain ⟨t, ht⟩ := hl
      intro hx
      have h1 : (t ++ left).getLast? = some 1 := by rw [ht]; rfl
      rw [List.getLast?_append, hx] at h1
      simp at h1
    unfold trySend
    have h1 : Books h w0 L0 (sockSend E left SF_NONE s).2 := by
      unfold sockSend
      split
      · have : ∀ res : Int, Books h w0 L0 (s.push (.send left SF_NONE res)) := fun res =>
          hs.push fun _ => ⟨by simp, by rintro b f r hx ⟨_, h2⟩; cases hx; exact hn h2⟩
        cases E.send s.time left <;> exact this _
      · exact hs
    revert h1
    obtain ⟨res, s1⟩ := sockSend E left SF_NONE s
    intro h1
    dsimp only at h1 ⊢
    by_cases hres : res > 0
    · rw [if_pos hres]
      by_cases hd : (left.drop res.toNat).length = 0
      · rw [if_pos hd]; exact h1
      · rw [if_neg hd]; exact ih _ h1 ((List.drop_suffix _ _).trans hl)
    · rw [if_neg hres]
      have h2 := doPoll_quiet E res deadline s1
      revert h2
      cases doPoll E res deadline s1 with
      | ok a t => exact fun h2 => ih _ (h1.quiet h2) hl
      | err e t =>
        intro h2
        dsimp only
        by_cases he : e = St.TIMEOUT
        · rw [if_pos he]; exact h1.quiet h2
        · rw [if_neg he]; exact h1.quiet h2
      | ub => exact fun _ => trivial
      | fuel => exact fun _ => trivial

theorem books_upper {E : NetEnv} (hC : ClockFine E) (hh : h ≤ 65535) : Upper E (Books h w0 L0) (fun _ _ => True) where
  tick := fun hs hq => hs.quiet hq.quiet
  wait := fun d _ hs => (books_closedW hC hh).waitFrameInner d hs
  sendFrame := fun f fl d _ _ hs => (books_closedW hC hh).sendFrame f fl d hs
  header := fun d n _ hs => books_header d n _ hs (List.suffix_refl _)
  queue := fun j hs => (books_closedW hC hh).queue j hs
  putBack := fun {s f} _ hs => by
    unfold putBackFrame
    obtain ⟨a, p, hp⟩ := createLink_eff E f.frame.channel s
    revert hp
    obtain ⟨b, s1⟩ := createLink E f.frame.channel s
    intro hp
    dsimp only at hp
    subst hp
    cases b <;> exact hs
  pop := fun hs _ => ⟨hs, trivial⟩
  close := fun hs => (books_closedW hC hh).close hs
  release := fun ch hs => (books_closedW hC hh).release ch hs

theorem books_api {E : NetEnv} (hC : ClockFine E) (hh : h ≤ 65535) : ApiClosed E (Books h w0 L0) (fun _ _ => True) where
  toUpper := books_upper hC hh
  allocs := fun _ _ h => h
  publishCheck := publishCheck_closed (books_upper hC hh) fun h => (books_closedR hC hh).tryRecv h

end
end Rmq
