import Verif.Proofs.ParserIdeal
import Verif.Proofs.Conn
/-!
# What the receiving functions read
-/
namespace Rmq

theorem PEnv.ideal_ideal (E : PEnv) : E.ideal.ideal = E.ideal := rfl

/-- The parser has seen the start of the connection and no call failed. -/
def Good (s : PState) : Prop := Ready s ∧ s.mode ≠ .initial

theorem PSim.good {s t : PState} (hS : PSim s t) (h : Good s) : Good t := by
  have hm := hS.mode
  refine ⟨⟨⟨by rw [← hS.hdr]; exact h.1.inv.hdr, ?_⟩, by rw [← hS.off, ← hS.target]; exact h.1.more⟩, by rw [← hm]; exact h.2⟩
  have hs := h.1.inv.shape
  have hi := hS.inb
  rw [← hm, ← hS.off, ← hS.target, ← hS.frameMax]
  cases hmm : s.mode <;> rw [hmm] at hs
  · rw [hs.1] at hi
    cases ht : t.inb <;> rw [ht] at hi <;> first | exact hi.elim | exact ⟨rfl, hs.2⟩
  · exact absurd hmm h.2
  · rw [hs.1] at hi
    cases ht : t.inb <;> rw [ht] at hi <;> first | exact hi.elim | exact ⟨rfl, hs.2⟩
  · obtain ⟨m, h1, h2, h3⟩ := hs
    rw [h1] at hi
    cases ht : t.inb with
    | hdr => rw [ht] at hi; exact hi.elim
    | null => rw [ht] at hi; exact hi.elim
    | pool m' => rw [ht] at hi; exact ⟨m', rfl, by rw [← hi.1]; exact h2, h3⟩

theorem drain_sim (E : PEnv) : ∀ (n : Nat) (s t : PState) (d : Bytes), PSim s t → Good s → Good t →
    (drain E.ideal n s d).1 = (drain E.ideal n t d).1 := by
  intro n
  induction n with
  | zero => intro s t d _ _ _; rfl
  | succ n ih =>
    intro s t d hS hs ht
    by_cases hd : d = []
    · subst hd; rw [drain_nil, drain_nil]
    rw [drain_succ hd, drain_succ hd]
    have h := handleInput_follow E.ideal hS hs.1 ht.1 d
    have h' := handleInput_follow E.ideal hS.symm ht.1 hs.1 d
    rw [PEnv.ideal_ideal] at h h'
    revert h h'
    cases h1 : handleInput E.ideal s d with
    | ok r s' =>
      cases h2 : handleInput E.ideal t d with
      | ok r' t' =>
        intro h _
        obtain ⟨rfl, hS'⟩ := h
        obtain ⟨k, f⟩ := r
        have g := handleInput_ready hs.1 hd h1
        have g' := handleInput_ready ht.1 hd h2
        dsimp only
        rw [ih s' t' (d.drop k) hS' ⟨g.1, hS'.started⟩ ⟨g'.1, by rw [← hS'.mode]; exact hS'.started⟩]
      | err e t' => exact fun h => h.elim
      | ub => exact fun h => h.elim
      | fuel => exact fun h => h.elim
    | err e s' =>
      cases h2 : handleInput E.ideal t d with
      | ok r' t' => exact fun _ h => h.elim
      | err e' t' => exact fun _ _ => rfl
      | ub => exact fun _ h => h.elim
      | fuel => exact fun _ h => h.elim
    | ub =>
      cases h2 : handleInput E.ideal t d with
      | ok r' t' => exact fun h => h.elim
      | err e' t' => exact fun h => h.elim
      | ub => exact fun _ _ => rfl
      | fuel => exact fun h => h.elim
    | fuel =>
      cases h2 : handleInput E.ideal t d with
      | ok r' t' => exact fun h => h.elim
      | err e' t' => exact fun h => h.elim
      | ub => exact fun h => h.elim
      | fuel => exact fun _ _ => rfl

/-- The frames depend on the bytes seen so far and to come, not on what was allocated. -/
theorem framesOf_sim (E : PEnv) {s t : PState} (hS : PSim s t) (hs : Good s) (d : Bytes) : framesOf E s d = framesOf E t d :=
  drain_sim E _ s t d hS hs (hS.good hs)

/-- One call of the parser: the frame it delivers is the next one of the stream. -/
theorem framesOf_step (E : PEnv) {s s' : PState} (hs : Good s) {d : Bytes} {k : Nat} {f : Option AFrame}
    (h : handleInput E s d = .ok (k, f) s') :
    Good s' ∧ k ≤ d.length ∧ ∀ X, framesOf E s (d ++ X) = f.toList ++ framesOf E s' (d.drop k ++ X) := by
  by_cases hd : d = []
  · subst hd
    have : handleInput E s [] = .ok (0, none) s := rfl
    rw [this] at h
    cases h
    exact ⟨hs, Nat.le_refl _, fun X => by simp⟩
  obtain ⟨hR, hk1, hk2⟩ := handleInput_ready hs.1 hd h
  have hfol := handleInput_follow E (PSim.refl hs.1 hs.2) hs.1 hs.1 d
  rw [h] at hfol
  cases h2 : handleInput E.ideal s d with
  | err e t => rw [h2] at hfol; exact hfol.elim
  | ub => rw [h2] at hfol; exact hfol.elim
  | fuel => rw [h2] at hfol; exact hfol.elim
  | ok r t =>
    rw [h2] at hfol
    obtain ⟨rfl, hS⟩ := hfol
    have hG : Good s' := ⟨hR, hS.started⟩
    refine ⟨hG, hk2, fun X => ?_⟩
    have htk : d.take k ≠ [] := by
      intro h0
      have := congrArg List.length h0
      rw [List.length_take, List.length_nil] at this
      omega
    have htl : (d.take k).length = k := by rw [List.length_take]; omega
    have hone : handleInput E.ideal s (d.take k) = .ok (k, f) t := by
      by_cases hkd : k = d.length
      · rw [hkd, List.take_length, ← hkd]; exact h2
      · have hdr : d.drop k ≠ [] := by
          intro h0
          have := congrArg List.length h0
          rw [List.length_drop, List.length_nil] at this
          omega
        rcases handleInput_split E.ideal hs.1 htk with ⟨s2, h3, h4, _, h5⟩ | h3
        · have := h5 (d.drop k) hdr
          rw [List.take_append_drop, h2] at this
          cases h6 : handleInput E.ideal s2 (d.drop k) with
          | ok r2 s3 =>
            obtain ⟨k2, f2⟩ := r2
            rw [h6] at this
            simp only [addC, Res.ok.injEq, Prod.mk.injEq] at this
            have := handleInput_ready h4 hdr h6
            omega
          | err e s3 => rw [h6] at this; cases this
          | ub => rw [h6] at this; cases this
          | fuel => rw [h6] at this; cases this
        · have := h3 (d.drop k)
          rw [List.take_append_drop, h2] at this
          exact this.symm
    have hdrain : drain E.ideal (d.take k).length s (d.take k) = (f.toList, .ok () t) := by
      obtain ⟨n, hn⟩ : ∃ n, (d.take k).length = n + 1 := ⟨k - 1, by omega⟩
      rw [hn, drain_succ htk, hone]
      dsimp only
      rw [List.drop_eq_nil_of_le (by omega), drain_nil]
      simp
    have hap := drain_append E.ideal (d.take k).length s (d.take k) (d.drop k ++ X) hs.1 (Nat.le_refl _)
    rw [← List.append_assoc, List.take_append_drop, hdrain] at hap
    show (drain E.ideal (d ++ X).length s (d ++ X)).1 = _
    rw [hap]
    show f.toList ++ framesOf E t (d.drop k ++ X) = _
    rw [framesOf_sim E hS hG]

/-! ## Connection level -/

/-- Between `s` and `s'` the connection's parser read the frames `fs`; nothing that was received got lost. -/
def Eff (E : NetEnv) (s s' : Conn) (fs : List AFrame) : Prop :=
  Good s'.ps ∧ ∃ l, Since s s' l ∧
    ∀ X, framesOf E.pe s.ps (s.inb ++ (recvBytes l ++ X)) = fs ++ framesOf E.pe s'.ps (s'.inb ++ X)

theorem Eff.refl {E : NetEnv} {s : Conn} (h : Good s.ps) : Eff E s s [] := ⟨h, [], by simp [Since], fun X => rfl⟩

theorem Eff.trans {E : NetEnv} {s t u : Conn} {fs gs : List AFrame} (h : Eff E s t fs) (h' : Eff E t u gs) :
    Eff E s u (fs ++ gs) := by
  obtain ⟨_, l, hl, h1⟩ := h
  obtain ⟨g, l', hl', h2⟩ := h'
  refine ⟨g, l ++ l', by unfold Since at *; rw [hl', hl, List.append_assoc], fun X => ?_⟩
  rw [recvBytes_append, List.append_assoc, h1, h2, List.append_assoc]

/-- A step that neither parses nor receives. -/
theorem Eff.same {E : NetEnv} {s s' : Conn} (h : Good s.ps) {l : List Ev} (hl : Since s s' l) (hr : recvBytes l = [])
    (hp : PSim s.ps s'.ps) (hi : s'.inb = s.inb) : Eff E s s' [] := by
  refine ⟨hp.good h, l, hl, fun X => ?_⟩
  rw [hr, hi, framesOf_sim E.pe hp h]; rfl

theorem Eff.quiet {E : NetEnv} {s s' : Conn} (h : Good s.ps) (hq : QuietStep s s') : Eff E s s' [] := by
  obtain ⟨l, rfl, hl⟩ := hq
  exact Eff.same h rfl hl.recv (PSim.refl h.1 h.2) rfl

theorem consumeOne_eff {E : NetEnv} {s s' : Conn} (h : Good s.ps) {f : Option DFrame} (hc : consumeOne E s = .ok f s') :
    Eff E s s' (f.toList.map (·.frame)) ∧ s'.queue = s.queue ∧ s'.nextRecv = s.nextRecv ∧ s'.nextSend = s.nextSend ∧
      s'.heartbeat = s.heartbeat ∧ s'.isOpen = s.isOpen := by
  unfold consumeOne at hc
  cases h1 : handleInput E.pe s.ps s.inb with
  | err e p => rw [h1] at hc; cases hc
  | ub => rw [h1] at hc; cases hc
  | fuel => rw [h1] at hc; cases hc
  | ok r p =>
    obtain ⟨k, g⟩ := r
    rw [h1] at hc
    simp only [Res.ok.injEq] at hc
    obtain ⟨rfl, rfl⟩ := hc
    obtain ⟨h2, h3, h4⟩ := framesOf_step E.pe h h1
    refine ⟨⟨h2, [.parsed (s.inb.take k)], rfl, fun X => ?_⟩, rfl, rfl, rfl, rfl, rfl⟩
    have : recvBytes [Ev.parsed (s.inb.take k)] = [] := rfl
    rw [this, List.nil_append, h4]
    cases g <;> rfl

/-- Creating a link changes only what is allocated. -/
theorem createLink_eff (E : NetEnv) (ch : UInt16) (s : Conn) :
    ∃ a p, (createLink E ch s).2 = { s with ps := { s.ps with allocs := a, pools := p } } := by
  unfold createLink
  have h := getPool_fields E.pe s.ps ch
  revert h
  obtain ⟨b, ps⟩ := getPool E.pe s.ps ch
  intro h
  dsimp only at h
  cases b with
  | false => exact ⟨ps.allocs, ps.pools, by dsimp only; rw [← h]⟩
  | true =>
    dsimp only [smallAlloc]
    exact ⟨ps.allocs + 1 + 1, ps.pools, by rw [h]⟩

theorem PSim.allocs_right {s : PState} (h : Good s) (a : Nat) (p : List UInt16) : PSim s { s with allocs := a, pools := p } :=
  ((PSim.refl h.1 h.2).alloc a p).symm

theorem queueFrame_eff {E : NetEnv} {s s' : Conn} (h : Good s.ps) {f : DFrame} (hq : queueFrame E f s = .ok () s') :
    Eff E s s' [] ∧ s'.queue = s.queue ++ [f] ∧ s'.nextRecv = s.nextRecv ∧ s'.nextSend = s.nextSend ∧
      s'.heartbeat = s.heartbeat ∧ s'.isOpen = s.isOpen ∧ s'.inb = s.inb ∧ s'.log = s.log := by
  unfold queueFrame at hq
  obtain ⟨a, p, hp⟩ := createLink_eff E f.frame.channel s
  revert hp hq
  obtain ⟨b, s1⟩ := createLink E f.frame.channel s
  intro hq hp
  dsimp only at hp
  subst hp
  cases b with
  | false => cases hq
  | true =>
    cases hq
    exact ⟨Eff.same (l := []) h (by simp [Since]) rfl (PSim.allocs_right h a p) rfl, rfl, rfl, rfl, rfl, rfl, rfl, rfl⟩

theorem putBackFrame_eff {E : NetEnv} {s s' : Conn} (h : Good s.ps) {f : DFrame} (hq : putBackFrame E f s = .ok () s') :
    Eff E s s' [] ∧ s'.queue = f :: s.queue ∧ s'.nextRecv = s.nextRecv ∧ s'.nextSend = s.nextSend ∧
      s'.heartbeat = s.heartbeat ∧ s'.isOpen = s.isOpen ∧ s'.inb = s.inb ∧ s'.log = s.log := by
  unfold putBackFrame at hq
  obtain ⟨a, p, hp⟩ := createLink_eff E f.frame.channel s
  revert hp hq
  obtain ⟨b, s1⟩ := createLink E f.frame.channel s
  intro hq hp
  dsimp only at hp
  subst hp
  cases b with
  | false => cases hq
  | true =>
    cases hq
    exact ⟨Eff.same (l := []) h (by simp [Since]) rfl (PSim.allocs_right h a p) rfl, rfl, rfl, rfl, rfl, rfl, rfl, rfl⟩

theorem drainToQueue_eff {E : NetEnv} : ∀ (n : Nat) (s s' : Conn), Good s.ps → drainToQueue E n s = .ok () s' →
    ∃ fs, Eff E s s' fs ∧ s'.queue.map (·.frame) = s.queue.map (·.frame) ++ fs ∧ s'.inb = [] ∧ s'.nextRecv = s.nextRecv ∧
      s'.nextSend = s.nextSend ∧ s'.heartbeat = s.heartbeat ∧ s'.isOpen = s.isOpen := by
  intro n
  induction n with
  | zero => intro s s' _ h; cases h
  | succ n ih =>
    intro s s' hG h
    unfold drainToQueue at h
    by_cases hi : s.inb = []
    · rw [if_pos hi] at h
      cases h
      exact ⟨[], Eff.refl hG, by simp, hi, rfl, rfl, rfl, rfl⟩
    rw [if_neg hi] at h
    cases h1 : consumeOne E s with
    | err e t => rw [h1] at h; cases h
    | ub => rw [h1] at h; cases h
    | fuel => rw [h1] at h; cases h
    | ok f t =>
      rw [h1] at h
      obtain ⟨e1, q1, a1, b1, c1, d1⟩ := consumeOne_eff hG h1
      cases f with
      | none =>
        dsimp only at h
        obtain ⟨fs, e2, q2, i2, a2, b2, c2, d2⟩ := ih t s' e1.1 h
        exact ⟨fs, e1.trans e2, by rw [q2, q1], i2, by rw [a2, a1], by rw [b2, b1], by rw [c2, c1], by rw [d2, d1]⟩
      | some f =>
        dsimp only at h
        cases h2 : queueFrame E f t with
        | err e u => rw [h2] at h; cases h
        | ub => rw [h2] at h; cases h
        | fuel => rw [h2] at h; cases h
        | ok x u =>
          rw [h2] at h
          dsimp only at h
          obtain ⟨e2, q2, a2, b2, c2, d2, _⟩ := queueFrame_eff e1.1 h2
          obtain ⟨fs, e3, q3, i3, a3, b3, c3, d3⟩ := ih u s' e2.1 h
          refine ⟨f.frame :: fs, ?_, ?_, i3, by rw [a3, a2, a1], by rw [b3, b2, b1], by rw [c3, c2, c1], by rw [d3, d2, d1]⟩
          · exact (e1.trans e2).trans e3
          · rw [q3, q2, q1]; simp

/-- recv_with_timeout on an empty buffer: nothing is lost. -/
theorem recvWithTimeout_eff {E : NetEnv} (timeout : Nat) : ∀ (n : Nat) (s : Conn), Good s.ps → s.inb = [] →
    (recvWithTimeout E timeout n s).All fun s' =>
      Eff E s s' [] ∧ s'.queue = s.queue ∧ s'.nextSend = s.nextSend ∧ s'.heartbeat = s.heartbeat ∧ s'.isOpen = s.isOpen := by
  intro n
  induction n with
  | zero => intro s _ _; trivial
  | succ n ih =>
    intro s hG hi
    unfold recvWithTimeout
    by_cases ho : s.isOpen = false
    · rw [if_pos ho]; exact ⟨Eff.refl hG, rfl, rfl, rfl, rfl⟩
    rw [if_neg ho]
    cases E.recv s.time s.received with
    | data b =>
      dsimp only
      have h := restartRecv_eff E ({ s with inb := b.take SOCK_BUF }.push (.recvData (b.take SOCK_BUF)))
      have key : ∀ s', (∃ t l, s' = { ({ s with inb := b.take SOCK_BUF }.push (.recvData (b.take SOCK_BUF))).ext l with nextRecv := t } ∧
          Quiet l) → Eff E s s' [] ∧ s'.queue = s.queue ∧ s'.nextSend = s.nextSend ∧ s'.heartbeat = s.heartbeat ∧
            s'.isOpen = s.isOpen := by
        rintro s' ⟨t, l, rfl, hl⟩
        refine ⟨⟨hG, .recvData (b.take SOCK_BUF) :: l, by simp [Since, Conn.ext, Conn.push], fun X => ?_⟩, rfl, rfl, rfl, rfl⟩
        have : recvBytes (Ev.recvData (b.take SOCK_BUF) :: l) = b.take SOCK_BUF := by
          have := hl.recv
          simp only [recvBytes] at *
          simp [Ev.delivered, this]
        rw [this, hi]; rfl
      revert h
      cases restartRecv E ({ s with inb := b.take SOCK_BUF }.push (.recvData (b.take SOCK_BUF))) with
      | ok a s' => exact fun h => key s' h
      | err e s' => exact fun h => key s' h
      | ub => exact fun _ => trivial
      | fuel => exact fun _ => trivial
    | fail k =>
      dsimp only
      have e0 : Eff E s (s.push (.recvFail (-(k + 1 : Nat)))) [] :=
        Eff.same (l := [.recvFail (-(k + 1 : Nat))]) hG rfl rfl (PSim.refl hG.1 hG.2) rfl
      have key : ∀ (d : Dir),
          (match pollFd E d timeout E.fuel (s.push (.recvFail (-(k + 1 : Nat)))) with
            | .ok () s => recvWithTimeout E timeout n s
            | .err e s => .err e s
            | .ub => .ub
            | .fuel => .fuel : Res Conn Unit).All fun s' =>
          Eff E s s' [] ∧ s'.queue = s.queue ∧ s'.nextSend = s.nextSend ∧ s'.heartbeat = s.heartbeat ∧ s'.isOpen = s.isOpen := by
        intro d
        have hq := pollFd_quiet E d timeout E.fuel (s.push (.recvFail (-(k + 1 : Nat))))
        revert hq
        cases pollFd E d timeout E.fuel (s.push (.recvFail (-(k + 1 : Nat)))) with
        | ub => exact fun _ => trivial
        | fuel => exact fun _ => trivial
        | err e t =>
          intro hq
          have e1 : Eff E _ t [] := Eff.quiet (E := E) e0.1 hq
          obtain ⟨l, rfl, _⟩ := hq
          exact ⟨e0.trans e1, rfl, rfl, rfl, rfl⟩
        | ok a t =>
          intro hq
          have e1 : Eff E _ t [] := Eff.quiet (E := E) e0.1 hq
          obtain ⟨l, rfl, _⟩ := hq
          dsimp only
          have h2 := ih ((s.push (.recvFail (-(k + 1 : Nat)))).ext l) e1.1 hi
          revert h2
          cases recvWithTimeout E timeout n ((s.push (.recvFail (-(k + 1 : Nat)))).ext l) with
          | ub => exact fun _ => trivial
          | fuel => exact fun _ => trivial
          | err e t => exact fun ⟨h1, h2⟩ => ⟨(e0.trans e1).trans h1, h2⟩
          | ok a t => exact fun ⟨h1, h2⟩ => ⟨(e0.trans e1).trans h1, h2⟩
      by_cases h1 : (-(k + 1 : Nat) : Int) = St.PRIVATE_NEED_READ
      · rw [if_pos h1]; exact key .read
      rw [if_neg h1]
      by_cases h2 : (-(k + 1 : Nat) : Int) = St.PRIVATE_NEED_WRITE
      · rw [if_pos h2]; exact key .write
      rw [if_neg h2]
      exact ⟨e0, rfl, rfl, rfl, rfl⟩

theorem tryRecv_eff {E : NetEnv} {s s' : Conn} (h : Good s.ps) (hr : tryRecv E s = .ok () s') :
    ∃ fs, Eff E s s' fs ∧ s'.queue.map (·.frame) = s.queue.map (·.frame) ++ fs ∧ s'.nextSend = s.nextSend ∧
      s'.heartbeat = s.heartbeat ∧ s'.isOpen = s.isOpen := by
  unfold tryRecv at hr
  rw [M.bind_def] at hr
  cases h1 : drainToQueue E E.fuel s with
  | err e t => rw [h1] at hr; cases hr
  | ub => rw [h1] at hr; cases hr
  | fuel => rw [h1] at hr; cases hr
  | ok x t =>
    rw [h1] at hr
    dsimp only at hr
    obtain ⟨fs, e1, q1, i1, a1, b1, c1, d1⟩ := drainToQueue_eff _ s t h h1
    rw [M.bind_def] at hr
    have h2 := fromNowIO_quiet E (some ⟨0, 0⟩) t
    cases h3 : fromNowIO E (some ⟨0, 0⟩) t with
    | err e u => rw [h3] at hr; cases hr
    | ub => rw [h3] at hr; cases hr
    | fuel => rw [h3] at hr; cases hr
    | ok d u =>
      rw [h3] at hr h2
      dsimp only at hr
      have e2 : Eff E t u [] := Eff.quiet e1.1 h2
      obtain ⟨l, rfl, _⟩ := h2
      have h4 := recvWithTimeout_eff (E := E) d E.fuel (t.ext l) e2.1 i1
      rw [hr] at h4
      obtain ⟨e3, q3, b3, c3, d3⟩ := h4
      refine ⟨fs, by simpa using (e1.trans e2).trans e3, by rw [q3]; exact q1, by rw [b3]; exact b1, by rw [c3]; exact c1, by rw [d3]; exact d1⟩

end Rmq
