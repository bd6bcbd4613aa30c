import Verif.Proofs.Outgoing
import Verif.Props.Send
/-!
# C61: the outgoing stream stays framed.  C77: blocked writes are repeated unchanged
-/
namespace Rmq

/-- C61.  As long as every call completes, is refused by the server or runs out of time, what the peer has been sent is a sequence of
complete frames: nothing is cut short, interleaved or lost, whatever the order of the calls, however little the transport takes at a time
and whenever heartbeats fall due. -/
theorem C61_stream_framed {E : NetEnv} (hT : NoTimeoutSend E) {s s' : Conn} (ho : OutBuf s) (hh : Steps (GoodCall E) s s')
    (hp : PollHonest s s') : ∃ l, Since s s' l ∧ WholeFrames (sentBytes l) := by
  rcases good_steps hT ho hh with ⟨_, l, h1, h2, _⟩ | h
  · exact ⟨l, h1, h2⟩
  · exact absurd hp h.not_honest

/-- C61.  A call that fails cuts at most one frame short, the last. -/
theorem C61_cut_at_the_end {E : NetEnv} (hT : NoTimeoutSend E) {s s' t : Conn} (ho : OutBuf s) (hh : Steps (GoodCall E) s s')
    (hp : PollHonest s s') (hc : AnyCall E s' t) : ∃ l, Since s t l ∧ CutFrames (sentBytes l) := by
  rcases good_steps hT ho hh with h | h
  · obtain ⟨l, h1, h2, _⟩ := h.andCut (hc.cut hT h.1)
    exact ⟨l, h1, h2⟩
  · exact absurd hp h.not_honest

/-- C77.  As long as every call completes, is refused by the server or runs out of time, each write the transport could not carry out is
followed by one of the same bytes before any other write, whatever the calls and whatever is read, waited for or falls due in between; and
no write is left to be repeated. -/
theorem C77_repeated {E : NetEnv} (hT : NoTimeoutSend E) {s s' : Conn} (ho : OutBuf s) (hh : Steps (GoodCall E) s s')
    (hp : PollHonest s s') : ∃ l, Since s s' l ∧ Retries none l none := by
  rcases good_steps hT ho hh with ⟨_, l, h1, _, h3⟩ | h
  · exact ⟨l, h1, h3⟩
  · exact absurd hp h.not_honest

/-- C77.  So it is during a call that fails; after it, one write may be left unrepeated. -/
theorem C77_failing_call {E : NetEnv} (hT : NoTimeoutSend E) {s s' t : Conn} (ho : OutBuf s) (hh : Steps (GoodCall E) s s')
    (hp : PollHonest s s') (hc : AnyCall E s' t) : ∃ l q, Since s t l ∧ Retries none l q := by
  rcases good_steps hT ho hh with h | h
  · obtain ⟨l, h1, _, q, h3⟩ := h.andCut (hc.cut hT h.1)
    exact ⟨l, q, h1, h3⟩
  · exact absurd hp h.not_honest

/-- The output buffer of a new connection, … -/
theorem C61_new (mem : Nat → UInt8) : OutBuf (newConn mem) := by
  unfold OutBuf newConn; simp [INITIAL_FRAME_MAX]

/-- … and of one tuned to a frame_max of at least 20. -/
theorem C61_tuned {E : NetEnv} {cm fm hb : Int} {mem : Nat → UInt8} {s s' : Conn} (h0 : 20 ≤ fm) (h31 : fm < 2 ^ 31)
    (h : tune E cm fm hb mem s = .ok () s') : OutBuf s' := by
  obtain ⟨⟨h1, h2⟩, h3⟩ := outReady_tune (by omega) h31 h
  refine ⟨h1, ?_, ?_⟩ <;> omega

/-! ## A history -/

/-- The transport takes little at a time and is at times not ready; after a while it fails for once. -/
def outEnv : NetEnv :=
  netEnv [] [(0, .sent 4), (1, .fail 0x1301), (3, .sent 50), (4, .sent 50), (5, .sent 9), (6, .sent 50), (7, .sent 50), (8, .sent 50), (9, .sent 3),
    (10, .fail 7), (11, .sent 50)] [] [(2, .ready)]
/-- A message is published, … -/
def outPublish : Res Conn Unit := basicPublish outEnv 1 [] [65] 0 0 none (List.range 20 |>.map UInt8.ofNat) (demoConn 22)
/-- … a heartbeat is sent by hand, … -/
def outBeat : Res Conn Unit := (outPublish.state?.map fun s => sendFrame outEnv ⟨0, .heartbeat⟩ 0 TIME_INF s).getD .fuel
/-- … then sending fails … -/
def outBroken : Res Conn Unit := (outBeat.state?.map fun s => sendFrame outEnv ⟨1, .body [1, 2]⟩ 0 TIME_INF s).getD .fuel
/-- … and is tried again. -/
def outAgain : Res Conn Unit := (outBroken.state?.map fun s => sendFrame outEnv ⟨1, .body [1, 2]⟩ 0 TIME_INF s).getD .fuel

/-- The events up to the failure. -/
def outGood : List Ev :=
  [.send [1, 0, 1, 0, 0, 0, 10, 0, 60, 0, 40, 0, 0, 0, 1, 65, 0, 206] 1 4,
   .send [0, 0, 10, 0, 60, 0, 40, 0, 0, 0, 1, 65, 0, 206] 1 (-0x1302),
   .poll .write (-1) .ready,
   .send [0, 0, 10, 0, 60, 0, 40, 0, 0, 0, 1, 65, 0, 206] 1 14,
   .send [2, 0, 1, 0, 0, 0, 14, 0, 60, 0, 0, 0, 0, 0, 0, 0, 0, 0, 20, 0, 0, 206] 1 22,
   .send [3, 0, 1, 0, 0, 0, 14, 0, 1, 2, 3, 4, 5, 6, 7, 8, 9, 10, 11, 12, 13, 206] 1 9,
   .send [2, 3, 4, 5, 6, 7, 8, 9, 10, 11, 12, 13, 206] 1 13,
   .send [3, 0, 1, 0, 0, 0, 6, 14, 15, 16, 17, 18, 19, 206] 0 14,
   .send [8, 0, 0, 0, 0, 0, 0, 206] 0 8]

theorem out_noTimeout : NoTimeoutSend outEnv := by
  intro t b n h
  have : ∀ t, (∃ k, outEnv.send t b = .sent k) ∨ outEnv.send t b = .fail 0 ∨ outEnv.send t b = .fail 7 ∨ outEnv.send t b = .fail 0x1301 := by
    intro t
    simp only [outEnv, netEnv, List.lookup]
    repeat' split
    all_goals first | exact Or.inl ⟨_, rfl⟩ | exact Or.inr (Or.inl rfl) | exact Or.inr (Or.inr (Or.inl rfl)) | exact Or.inr (Or.inr (Or.inr rfl))
  rcases this t with ⟨k, h1⟩ | h1 | h1 | h1 <;> rw [h1] at h <;> cases h <;> decide

/-- The hypotheses of the theorems are met by a message published and a heartbeat sent through a transport that takes the bytes in
pieces, and by a failure after it.  Using the connection on after the failure, as no caller should, the peer loses track: so the
restriction to calls that did not fail is needed. -/
theorem C61_example : ∃ s s' t u : Conn, OutBuf s ∧ Steps (GoodCall outEnv) s s' ∧ PollHonest s s' ∧ Since s s' outGood ∧ AnyCall outEnv s' t ∧
    Since s' t [.send [3, 0, 1, 0, 0, 0, 2, 1, 2, 206] 0 3, .send [0, 0, 0, 2, 1, 2, 206] 0 (-8)] ∧
    GoodCall outEnv t u ∧ Since t u [.send [3, 0, 1, 0, 0, 0, 2, 1, 2, 206] 0 10] ∧
    ∀ l, Since s' u l → ¬ WholeFrames (sentBytes l) := by
  have k1 : outPublish.val? = some () ∧ outPublish.state?.map (·.log) = some (outGood.take 8) := by decide +kernel
  have k2 : outBeat.val? = some () ∧ outBeat.state?.map (·.log) = some outGood := by decide +kernel
  have k3 : outBroken.errCode? = some (-8) ∧ outBroken.state?.map (·.log) =
    some (outGood ++ [.send [3, 0, 1, 0, 0, 0, 2, 1, 2, 206] 0 3, .send [0, 0, 0, 2, 1, 2, 206] 0 (-8)]) := by decide +kernel
  have k4 : outAgain.val? = some () ∧ outAgain.state?.map (·.log) =
    some (outGood ++ [.send [3, 0, 1, 0, 0, 0, 2, 1, 2, 206] 0 3, .send [0, 0, 0, 2, 1, 2, 206] 0 (-8),
      .send [3, 0, 1, 0, 0, 0, 2, 1, 2, 206] 0 10]) := by decide +kernel
  have h1 : ∃ a, outPublish = .ok () a := by cases h : outPublish <;> simp_all [Res.val?]
  obtain ⟨a, h1⟩ := h1
  have h2 : ∃ b, outBeat = .ok () b := by cases h : outBeat <;> simp_all [Res.val?]
  obtain ⟨b, h2⟩ := h2
  have h3 : ∃ c, outBroken = .err (-8) c := by cases h : outBroken <;> simp_all [Res.errCode?]
  obtain ⟨c, h3⟩ := h3
  have h4 : ∃ d, outAgain = .ok () d := by cases h : outAgain <;> simp_all [Res.val?]
  obtain ⟨d, h4⟩ := h4
  have l2 : b.log = outGood := by rw [h2] at k2; simpa [Res.state?] using k2.2
  have l3 : c.log = outGood ++ [.send [3, 0, 1, 0, 0, 0, 2, 1, 2, 206] 0 3, .send [0, 0, 0, 2, 1, 2, 206] 0 (-8)] := by
    rw [h3] at k3; simpa [Res.state?] using k3.2
  have l4 : d.log = outGood ++ [.send [3, 0, 1, 0, 0, 0, 2, 1, 2, 206] 0 3, .send [0, 0, 0, 2, 1, 2, 206] 0 (-8),
      .send [3, 0, 1, 0, 0, 0, 2, 1, 2, 206] 0 10] := by
    rw [h4] at k4; simpa [Res.state?] using k4.2
  have e2 : sendFrame outEnv ⟨0, .heartbeat⟩ 0 TIME_INF a = .ok () b := by rw [← h2, outBeat, h1]; rfl
  have e3 : sendFrame outEnv ⟨1, .body [1, 2]⟩ 0 TIME_INF b = .err (-8) c := by rw [← h3, outBroken, h2]; rfl
  have e4 : sendFrame outEnv ⟨1, .body [1, 2]⟩ 0 TIME_INF c = .ok () d := by rw [← h4, outAgain, h3]; rfl
  have l0 : (demoConn 22).log = [] := rfl
  have sg : Since (demoConn 22) b outGood := by rw [Since, l2, l0, List.nil_append]
  refine ⟨demoConn 22, b, c, d, ⟨by decide +kernel, by decide +kernel, by decide +kernel⟩,
    .step (.step (.refl _) (.publish 1 [] [65] 0 0 none _ trivial h1)) (.sendFrame ⟨0, .heartbeat⟩ 0 trivial e2), ?_, sg,
    .sendFrame ⟨1, .body [1, 2]⟩ 0 trivial (by rw [e3]; rfl), by rw [Since, l2, l3], .sendFrame ⟨1, .body [1, 2]⟩ 0 trivial e4, by rw [Since, l3, l4]; simp, ?_⟩
  · intro l hl d
    have : l = outGood := List.append_cancel_left (hl.symm.trans sg)
    subst this
    unfold outGood; simp
  · intro l hl
    have : l = [.send [3, 0, 1, 0, 0, 0, 2, 1, 2, 206] 0 3, .send [0, 0, 0, 2, 1, 2, 206] 0 (-8), .send [3, 0, 1, 0, 0, 0, 2, 1, 2, 206] 0 10] :=
      List.append_cancel_left (hl.symm.trans (by rw [l4, l2]))
    subst this
    rintro ⟨fs, h1, h2⟩
    have hb : sentBytes [.send [3, 0, 1, 0, 0, 0, 2, 1, 2, 206] 0 3, .send [0, 0, 0, 2, 1, 2, 206] 0 (-8), .send [3, 0, 1, 0, 0, 0, 2, 1, 2, 206] 0 10] =
        [3, 0, 1, 3, 0, 1, 0, 0, 0, 2, 1, 2, 206] := by decide
    rw [hb] at h2
    cases fs with
    | nil => cases h2
    | cons f fs =>
      obtain ⟨ty, ch, p, hp, rfl⟩ := h1 f (by simp)
      have hl : p.length < 13 := by
        have := congrArg List.length h2
        simp [rawFrame, beBytes_length] at this
        omega
      have h7 := congrArg (fun b => (b.drop 3).take 1) h2
      have hz : p.length / 16777216 = 0 := by omega
      simp [rawFrame, beBytes, hz] at h7

/-- The history of `C61_example`, which meets the hypotheses of the theorems, has a write that could not be carried out and was repeated;
what `Retries` demands is more than nothing: to write less, or something else, in its place is excluded. -/
theorem C77_example : Retries none outGood none ∧
    (∃ b f g, Ev.send b f (-0x1302) ∈ outGood ∧ Ev.send b g b.length ∈ outGood) ∧
    (∀ q, ¬ Retries none [.send [1, 2, 3] 0 (-0x1302), .poll .write (-1) .ready, .send [1, 2] 0 2] q) ∧
    (∀ q, ¬ Retries none [.send [1, 2, 3] 0 (-0x1302), .poll .write (-1) .ready, .send [1, 2, 3, 4] 0 4] q) ∧
    ¬ Retries none [.send [1, 2, 3] 0 (-0x1302), .poll .write (-1) .ready] none := by
  refine ⟨?_, ⟨[0, 0, 10, 0, 60, 0, 40, 0, 0, 0, 1, 65, 0, 206], 1, 1, by simp [outGood], by simp [outGood]⟩, ?_, ?_, ?_⟩
  · unfold outGood
    refine .send (.inl rfl) (.send (.inl rfl) (.other (fun _ _ _ => nofun) (.send (.inr rfl) (.send (.inl rfl) (.send (.inl rfl)
      (.send (.inl rfl) (.send (.inl rfl) (.send (.inl rfl) (.nil _)))))))))
  · intro q h
    cases h with | other h1 _ => exact h1 _ _ _ rfl | send _ h => ?_
    cases h with | other _ h => ?_
    cases h with | other h1 _ => exact h1 _ _ _ rfl | send h _ => ?_
    rcases h with h | h <;> exact absurd h (by decide)
  · intro q h
    cases h with | other h1 _ => exact h1 _ _ _ rfl | send _ h => ?_
    cases h with | other _ h => ?_
    cases h with | other h1 _ => exact h1 _ _ _ rfl | send h _ => ?_
    rcases h with h | h <;> exact absurd h (by decide)
  · intro h
    cases h with | other h1 _ => exact h1 _ _ _ rfl | send _ h => ?_
    cases h with | other _ h => ?_
    revert h
    generalize hp : (if wouldBlock (-0x1302) then some ([1, 2, 3] : Bytes) else none) = p
    intro h
    cases h
    exact absurd hp (by decide)

end Rmq
