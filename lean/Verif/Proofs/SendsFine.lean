import Verif.Proofs.Arrive
/-!
# What is sent does not disturb what is received, as long as the connection takes it
-/
namespace Rmq
variable {E : NetEnv}

/-- If the transport takes something each time it is offered something, everything is sent. -/
theorem trySend_fine (d flags len : Nat) : ∀ (n : Nat) (left : Bytes) (s : Conn), s.isOpen = true →
    match trySend E d flags len n left s with
    | .ok m t => ∃ l, t = s.ext l ∧ ((∀ e ∈ l, e.fine) → m = len ∧ recvBytes l = [])
    | .err _ t => ∃ l, t = s.ext l ∧ ∃ e ∈ l, ¬ e.fine
    | _ => True := by
  intro n
  induction n with
  | zero => intro left s _; trivial
  | succ n ih =>
    intro left s ho
    unfold trySend
    have key : ∀ res : Int, sockSend E left flags s = (res, s.push (.send left flags res)) →
        match (match sockSend E left flags s with
          | (res, s) =>
            if res > 0 then
              if (left.drop res.toNat).length = 0 then (.ok len s : Res Conn Nat)
              else trySend E d flags len n (left.drop res.toNat) s
            else
              match doPoll E res d s with
              | .ok () s => trySend E d flags len n left s
              | .err e s => if e = St.TIMEOUT then .ok (len - left.length) s else .err e s
              | .ub => .ub
              | .fuel => .fuel) with
        | .ok m t => ∃ l, t = s.ext l ∧ ((∀ e ∈ l, e.fine) → m = len ∧ recvBytes l = [])
        | .err _ t => ∃ l, t = s.ext l ∧ ∃ e ∈ l, ¬ e.fine
        | _ => True := by
      intro res hr
      rw [hr]
      dsimp only
      rw [Conn.push_eq]
      by_cases h0 : res > 0
      · rw [if_pos h0]
        by_cases h1 : (left.drop res.toNat).length = 0
        · rw [if_pos h1]
          exact ⟨_, rfl, fun _ => ⟨rfl, rfl⟩⟩
        · rw [if_neg h1]
          have h2 := ih (left.drop res.toNat) (s.ext [.send left flags res]) ho
          revert h2
          cases trySend E d flags len n (left.drop res.toNat) (s.ext [.send left flags res]) with
          | ok m t =>
            rintro ⟨l, rfl, h3⟩
            refine ⟨_, Conn.ext_ext _ _ _, fun hf => ?_⟩
            obtain ⟨a, b⟩ := h3 fun e he => hf e (List.mem_append_right _ he)
            exact ⟨a, by rw [recvBytes_append, b]; rfl⟩
          | err e t =>
            rintro ⟨l, rfl, e, he, hf⟩
            exact ⟨_, Conn.ext_ext _ _ _, e, List.mem_append_right _ he, hf⟩
          | ub => exact fun _ => trivial
          | fuel => exact fun _ => trivial
      · rw [if_neg h0]
        have bad : ∀ l : List Ev, ∃ e ∈ [Ev.send left flags res] ++ l, ¬ e.fine := fun l => ⟨_, List.mem_append_left _ List.mem_cons_self, h0⟩
        obtain ⟨l1, h1⟩ : ∃ l, (doPoll E res d (s.ext [.send left flags res])).All fun t => t = (s.ext [.send left flags res]).ext l := by
          have := doPoll_quiet E res d (s.ext [.send left flags res])
          revert this
          cases doPoll E res d (s.ext [.send left flags res]) with
          | ok x t => rintro ⟨l, h, _⟩; exact ⟨l, h⟩
          | err e t => rintro ⟨l, h, _⟩; exact ⟨l, h⟩
          | ub => exact fun _ => ⟨[], trivial⟩
          | fuel => exact fun _ => ⟨[], trivial⟩
        revert h1
        cases doPoll E res d (s.ext [.send left flags res]) with
        | ub => exact fun _ => trivial
        | fuel => exact fun _ => trivial
        | err e t =>
          intro h1
          have h1 : t = _ := h1
          subst h1
          dsimp only
          by_cases ht : e = St.TIMEOUT
          · rw [if_pos ht]
            exact ⟨_, Conn.ext_ext _ _ _, fun hf => by obtain ⟨e, he, hn⟩ := bad l1; exact absurd (hf e he) hn⟩
          · rw [if_neg ht]
            exact ⟨_, Conn.ext_ext _ _ _, bad l1⟩
        | ok x t =>
          intro h1
          have h1 : t = _ := h1
          subst h1
          dsimp only
          rw [Conn.ext_ext]
          have h2 := ih left (s.ext ([.send left flags res] ++ l1)) ho
          revert h2
          cases trySend E d flags len n left (s.ext ([.send left flags res] ++ l1)) with
          | ok m t =>
            rintro ⟨l, rfl, h3⟩
            refine ⟨_, Conn.ext_ext _ _ _, fun hf => ?_⟩
            obtain ⟨e, he, hn⟩ := bad l1
            exact absurd (hf e (List.mem_append_left _ he)) hn
          | err e t =>
            rintro ⟨l, rfl, e, he, hf⟩
            exact ⟨_, Conn.ext_ext _ _ _, e, List.mem_append_right _ he, hf⟩
          | ub => exact fun _ => trivial
          | fuel => exact fun _ => trivial
    unfold sockSend at key ⊢
    rw [if_pos ho] at key ⊢
    cases hE : E.send s.time left with
    | sent k => rw [hE] at key; exact key _ rfl
    | fail k => rw [hE] at key; exact key _ rfl

/-- Sending a frame, successful or not, on an open connection that takes what it is given harms nothing. -/
theorem sendFrame_unharmed {s t : Conn} {f : AFrame} {flags deadline : Nat} (hd : deadline ≤ TIME_INF) (hC : Calm0 E s)
    (h : (sendFrame E f flags deadline s).leaves t) : ∃ l, Since s t l ∧ ((∀ e ∈ l, e.fine) → Unharmed E s t) := by
  have hh : HeartbeatsFine E t := by
    rcases hC.heart with ho | ⟨hh, hP, hK, hz⟩
    · have h1 := (off_closed E).upper.sendFrame f flags deadline (s := s) hd ho
      revert h h1
      cases sendFrame E f flags deadline s <;> intro h h1 <;> cases h <;> exact .inl h1
    · have h1 := (hb_closed hK).upper.sendFrame f flags deadline hd hh
      revert h h1
      cases sendFrame E f flags deadline s <;> intro h h1 <;> cases h <;> exact .inr ⟨h1, hP, hK, hz⟩
  have hs := (since_api E s).sendFrame f flags deadline hd (since_nil s)
  obtain ⟨l, hl⟩ : ∃ l, Since s t l := by
    revert h hs
    cases sendFrame E f flags deadline s <;> intro h hs <;> cases h <;> exact hs
  refine ⟨l, hl, fun hf => ?_⟩
  have same : ∀ (m : Bytes) (l1 l2 : List Ev) (tt : Nat), t = { ({ s with outMem := m } : Conn).ext (l1 ++ l2) with nextSend := tt } → recvBytes (l1 ++ l2) = [] →
      Unharmed E s t := by
    intro m l1 l2 tt ht hr
    subst ht
    exact .same hC (l := l1 ++ l2) rfl hr (PSim.refl hC.good.1 hC.good.2) rfl rfl hh hC.isOpen
  unfold sendFrame at h
  cases h1 : frameToBytes E.pe.be s.outMem s.outLen f with
  | ub => rw [h1] at h; cases h
  | fuel => rw [h1] at h; cases h
  | err e mem =>
    rw [h1] at h
    cases h
    exact same mem [] [] s.nextSend (by simp) rfl
  | ok enc mem =>
    rw [h1] at h
    dsimp only at h
    cases hfu : E.fuel with
    | zero => rw [hfu] at h; cases h
    | succ n =>
      rw [hfu] at h
      unfold sendLoop at h
      dsimp only at h
      have h2 := trySend_fine (E := E) (timeFirst deadline s.nextRecv) flags enc.length E.fuel enc { s with outMem := mem } hC.isOpen
      revert h h2
      cases trySend E (timeFirst deadline s.nextRecv) flags enc.length E.fuel enc { s with outMem := mem } with
      | ub => intro h; cases h
      | fuel => intro h; cases h
      | err e u =>
        rintro h ⟨l1, rfl, e, he, hn⟩
        cases h
        have : l = l1 := hl.unique (t := ({ s with outMem := mem } : Conn).ext l1) rfl
        exact absurd (hf e (this ▸ he)) hn
      | ok m u =>
        rintro h ⟨l1, rfl, h4⟩
        dsimp only at h
        by_cases hm : enc.length ≠ m
        · exfalso
          obtain ⟨l2, hl2⟩ : ∃ l2, Since (({ s with outMem := mem } : Conn).ext l1) t l2 := by
            rw [if_pos hm] at h
            split at h
            · cases h; exact since_nil _
            have h5 := (since_closed E (({ s with outMem := mem } : Conn).ext l1)).tryRecv (since_nil _)
            revert h h5
            cases tryRecv E (({ s with outMem := mem } : Conn).ext l1) with
            | ub => intro h; cases h
            | fuel => intro h; cases h
            | err e v =>
              intro h h5
              dsimp only at h
              split at h <;> cases h <;> exact h5
            | ok x v =>
              intro h h5
              dsimp only at h
              have h6 := (since_closed E (({ s with outMem := mem } : Conn).ext l1)).sendLoop flags deadline n (enc.drop m) h5
              revert h h6
              cases sendLoop E flags deadline n (enc.drop m) v <;> intro h h6 <;> cases h <;> exact h6
          have h7 : Since s (({ s with outMem := mem } : Conn).ext l1) l1 := rfl
          cases hl.unique (h7.trans hl2)
          exact hm (h4 fun e he => hf e (List.mem_append_left _ he)).1.symm
        · rw [if_neg hm] at h
          have h5 := restartSend_eff E (({ s with outMem := mem } : Conn).ext l1)
          obtain ⟨tt, l2, rfl, hq⟩ : ∃ tt l2, t = { (({ s with outMem := mem } : Conn).ext l1).ext l2 with nextSend := tt } ∧ Quiet l2 := by
            revert h h5
            cases restartSend E (({ s with outMem := mem } : Conn).ext l1) <;> intro h h5 <;> cases h <;> exact h5
          have h7 : l = l1 ++ l2 := hl.unique (by simp [Since, Conn.ext])
          subst h7
          refine same mem l1 l2 tt (by rw [Conn.ext_ext]) ?_
          rw [recvBytes_append, (h4 fun e he => hf e (List.mem_append_left _ he)).2, hq.recv]
          rfl

end Rmq
