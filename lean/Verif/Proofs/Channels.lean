import Verif.Proofs.Deliver
/-!
# Waiting on one channel; remote procedure calls
-/
namespace Rmq

/-- What the loops that set frames aside do: all that is read before the frame `f` (apart from heartbeats) is queued. -/
theorem filter_nonhb_single {f : AFrame} (h : f.isHeartbeat = false) : [f].filter (!·.isHeartbeat) = [f] := by simp [h]

theorem waitOnLoop_eff {E : NetEnv} (ch : UInt16) : ∀ (n : Nat) (s s' : Conn) (f : DFrame), Good s.ps → Unblocked E s →
    waitOnLoop E ch n s = .ok f s' →
    f.frame.isHeartbeat = false ∧ f.frame.channel = ch ∧ Unblocked E s' ∧
    ∃ fs aside, Eff E s s' (fs ++ [f.frame]) ∧ s'.queue = s.queue ++ aside ∧
      aside.map (·.frame) = fs.filter (!·.isHeartbeat) ∧ ∀ g ∈ aside, g.frame.channel ≠ ch := by
  intro n
  induction n with
  | zero => intro s s' f _ _ h; cases h
  | succ n ih =>
    intro s s' f hG hU h
    unfold waitOnLoop at h
    have h1 := waitFrameInner_eff (E := E) TIME_INF hG hU
    cases h2 : waitFrameInner E TIME_INF s with
    | err e t => rw [h2] at h; cases h
    | ub => rw [h2] at h; cases h
    | fuel => rw [h2] at h; cases h
    | ok g t =>
      rw [h2] at h h1
      dsimp only at h
      obtain ⟨a1, ⟨hs, b1, c1⟩, d1, u1⟩ := h1
      by_cases hc : g.frame.channel = ch
      · rw [if_pos hc] at h
        cases h
        exact ⟨a1, hc, u1, hs, [], c1, by simp [d1], by simp [filter_heartbeats b1], by simp⟩
      rw [if_neg hc] at h
      cases h3 : queueFrame E g t with
      | err e u => rw [h3] at h; cases h
      | ub => rw [h3] at h; cases h
      | fuel => rw [h3] at h; cases h
      | ok x u =>
        rw [h3] at h
        dsimp only at h
        obtain ⟨e2, q2, _⟩ := queueFrame_eff c1.1 h3
        have hu2 := (unblocked_closed E).queue (s := t) (f := g) trivial u1
        rw [h3] at hu2
        obtain ⟨a3, b3, u3, fs, aside, e3, q3, m3, n3⟩ := ih u s' f e2.1 hu2 h
        refine ⟨a3, b3, u3, hs ++ [g.frame] ++ fs, g :: aside, ?_, ?_, ?_, ?_⟩
        · have := (c1.trans e2).trans e3
          simpa using this
        · rw [q3, q2, d1]; simp
        · rw [List.map_cons, m3, List.filter_append, List.filter_append, filter_heartbeats b1, filter_nonhb_single a1]; simp
        · intro x hx
          rcases List.mem_cons.1 hx with rfl | hx
          · exact hc
          · exact n3 x hx

theorem findQueued_none {ch : UInt16} : ∀ {q : List DFrame}, findQueued ch q = none → ∀ g ∈ q, g.frame.channel ≠ ch
  | [], _ => by simp
  | g :: q, h => by
    unfold findQueued at h
    by_cases hc : g.frame.channel = ch
    · rw [if_pos hc] at h; cases h
    · rw [if_neg hc] at h
      intro x hx
      rcases List.mem_cons.1 hx with rfl | hx
      · exact hc
      · exact findQueued_none h x hx

/-- The RPC loop. -/
theorem rpcLoop_eff {E : NetEnv} (ch : UInt16) (expected : List UInt32) (d : Nat) : ∀ (n : Nat) (s s' : Conn) (r : Reply),
    Good s.ps → Unblocked E s → rpcLoop E ch expected d n s = .ok r s' →
    (∃ st, r = .libraryException st) ∨
    ∃ f fs aside id args, f.payload = .method id args ∧ endsRpc ch expected f = true ∧
      r = (if expected.contains id then .normal id args else .serverException id args) ∧
      Unblocked E s' ∧ Eff E s s' (fs ++ [f]) ∧ s'.queue = s.queue ++ aside ∧
      aside.map (·.frame) = fs.filter (!·.isHeartbeat) ∧ ∀ g ∈ aside, endsRpc ch expected g.frame = false := by
  intro n
  induction n with
  | zero => intro s s' r _ _ h; cases h
  | succ n ih =>
    intro s s' r hG hU h
    unfold rpcLoop at h
    have h1 := waitFrameInner_eff (E := E) d hG hU
    cases h2 : waitFrameInner E d s with
    | err e t => rw [h2] at h; cases h; exact Or.inl ⟨e, rfl⟩
    | ub => rw [h2] at h; cases h
    | fuel => rw [h2] at h; cases h
    | ok g t =>
      rw [h2] at h h1
      dsimp only at h
      obtain ⟨a1, ⟨hs, b1, c1⟩, d1, u1⟩ := h1
      by_cases hc : endsRpc ch expected g.frame = true
      · rw [if_pos hc] at h
        right
        cases hp : g.frame.payload with
        | method id args =>
          rw [hp] at h
          dsimp only at h
          injection h with h h'
          subst h'
          exact ⟨g.frame, hs, [], id, args, hp, hc, h.symm, u1, c1, by simp [d1], by simp [filter_heartbeats b1], by simp⟩
        | header c sz fl ps => rw [hp] at h; cases h
        | body b => rw [hp] at h; cases h
        | heartbeat => rw [hp] at h; cases h
        | protocolHeader a b c d => rw [hp] at h; cases h
        | other t => rw [hp] at h; cases h
      rw [if_neg hc] at h
      cases h3 : queueFrame E g t with
      | err e u => rw [h3] at h; cases h; exact Or.inl ⟨_, rfl⟩
      | ub => rw [h3] at h; cases h
      | fuel => rw [h3] at h; cases h
      | ok x u =>
        rw [h3] at h
        dsimp only at h
        obtain ⟨e2, q2, _⟩ := queueFrame_eff c1.1 h3
        have hu2 := (unblocked_closed E).queue (s := t) (f := g) trivial u1
        rw [h3] at hu2
        rcases ih u s' r e2.1 hu2 h with h4 | ⟨f, fs, aside, id, args, h5, h6, h7, u3, e3, q3, m3, n3⟩
        · exact Or.inl h4
        right
        refine ⟨f, hs ++ [g.frame] ++ fs, g :: aside, id, args, h5, h6, h7, u3, ?_, ?_, ?_, ?_⟩
        · have := (c1.trans e2).trans e3
          simpa using this
        · rw [q3, q2, d1]; simp
        · rw [List.map_cons, m3, List.filter_append, List.filter_append, filter_heartbeats b1, filter_nonhb_single a1]; simp
        · intro x hx
          rcases List.mem_cons.1 hx with rfl | hx
          · simpa using hc
          · exact n3 x hx

end Rmq
