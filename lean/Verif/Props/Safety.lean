import Verif.Props.Send
import Verif.Props.Receive
import Verif.Props.Consume
import Verif.Props.Login
import Verif.Props.Tables
import Verif.Proofs.LoginSafe
/-!
# C85, C86: nothing undefined happens
-/
namespace Rmq

/-! ## C85 -/

/-- C85: on a connection that is logged in and at rest, as long as allocations succeed, the server's octets are `Harmless` and
waiting is not held up by the sending of heartbeats, **no sequence of calls** — waits with and without a timeout, sends, RPCs, reading
and consuming messages, waiting for confirms, publishing, releasing memory, closing the socket; each made whatever the earlier ones
returned — has undefined behaviour (a read or write outside an object, a NULL pointer, an abort), whatever the network, the clock and
the timing do.  Missing: servers that are not harmless (`C85_short_method`, `C85_alien_header`), failing allocations
(`C85_null_after_no_memory`), heartbeats that hold up the reader (`C85_heartbeat_held_up`: what comes next is parsed from the middle
of a frame), body frames sent by hand beyond the frame size (`C85_large_body`), frame sizes above 2^30 or under 20. -/
theorem C85_no_undefined_behaviour_partial (E : NetEnv) (s : Conn) (S : Bytes) (hmem : ∀ k, E.pe.alloc k = true) (hsrv : Serves E S)
    (hlive : Live E.pe s.ps) (hidle : s.ps.mode = .idle) (hq : s.queue = []) (hout : OutReady s) (h20 : 20 ≤ s.outLen)
    (h64 : s.outLen < 2 ^ 64) (hpass : Unblocked E s) (hmax : s.ps.frameMax ≤ 2 ^ 30)
    (hharm : Harmless s.ps.frameMax (s.inb ++ S.drop s.received)) (cs : List ApiCall) (hcs : ∀ c ∈ cs, c.legal s.outLen) :
    (perform E cs s).isUB = false := by
  have hfit : Fit E OnlyBasic S s.outLen s :=
    ⟨onlyBasic_law, hout.1, rfl, hout.2, hpass, (fun f hf => by rw [hq] at hf; cases hf),
      .inl ⟨⟨hlive.ready, by rw [hidle]; exact fun h => nomatch h⟩,
        hharm.clean E.pe hmax (fun _ _ ty ch p sB s' k g _ _ hcls _ hp _ _ _ => payloadPhase_basic E.pe sB ch ty p _ _ g s' (fun h2 => ⟨0, hcls h2⟩) hp)
          s.ps hlive.ready hidle rfl⟩⟩
  have := perform_safe (Q := OnlyBasic) ⟨hmem, hsrv, h20⟩ h64 cs hcs hfit
  revert this
  cases perform E cs s with
  | ub => exact fun h => h.elim
  | _ => exact fun _ => rfl

/-- The hypotheses can be met: a server that sends a message, something on another channel and a frame that does not end as it must. -/
def harmlessOctets : Bytes := deliverBytes ++ (headerBytes ++ (frameA ++ [3, 0, 1, 0, 0, 0, 1, 65, 7, 1, 2, 3]))

theorem harmlessOctets_harmless : Harmless 64 harmlessOctets := by
  refine .frame 1 1 [0, 60, 0, 60, 1, 84, 0, 0, 0, 0, 0, 0, 0, 7, 1, 1, 69, 1, 75] (by decide) ⟨by decide, by decide⟩ (by decide) ?_
  refine .frame 2 1 [0, 60, 0, 0, 0, 0, 0, 0, 0, 0, 0, 3, 128, 0, 1, 88] (by decide) ⟨by decide, fun _ => ⟨by decide, ?_⟩⟩ (by decide) ?_
  · decide +kernel
  refine .frame 3 1 [65] (by decide) ⟨by decide, by decide⟩ (by decide) ?_
  exact .badEnd 3 1 [65] 7 [1, 2, 3] (by decide) (by decide)

def harmlessEnv : NetEnv :=
  { netEnv [] [] [] [] with
    recv := fun t n => if t % 3 = 2 then .fail 0x1300 else if n < harmlessOctets.length then .data ((harmlessOctets.drop n).take (t % 5 + 1)) else .fail 0
    poll := fun t => if t % 2 = 0 then .ready else .intr
    send := fun t _ => if t % 2 = 0 then .sent 3 else .fail 0x1301 }

theorem harmlessEnv_serves : Serves harmlessEnv harmlessOctets := by
  intro t n d h
  unfold harmlessEnv at h
  dsimp only at h
  by_cases h2 : t % 3 = 2
  · rw [if_pos h2] at h; cases h
  · rw [if_neg h2] at h
    by_cases h3 : n < harmlessOctets.length
    · rw [if_pos h3] at h
      cases h
      exact (List.take_prefix _ _).trans (List.take_prefix _ _)
    · rw [if_neg h3] at h; cases h

example (cs : List ApiCall) (hcs : ∀ c ∈ cs, c.legal 64) : (perform harmlessEnv cs (demoConn 64)).isUB = false :=
  C85_no_undefined_behaviour_partial harmlessEnv (demoConn 64) harmlessOctets (fun _ => rfl) harmlessEnv_serves (demoParser_live _ _) rfl rfl
    ⟨by decide, rfl⟩ (by decide) (by decide) (.inr ⟨by decide, rfl, rfl⟩) (by decide) harmlessOctets_harmless cs hcs

/-- C85: a method frame of two octets. -/
theorem C85_short_method : (perform (netEnv [] [] [(0, .data [1, 0, 1, 0, 0, 0, 2, 0, 60, 206])] []) [.waitFrame none] (demoConn 64)).isUB = true := by
  decide +kernel

/-- C85: the content header of a message whose class is not `basic`: reading the message reads beyond the properties received. -/
theorem C85_alien_header :
    let S : Bytes := [2, 0, 1, 0, 0, 0, 14, 0, 10, 0, 0, 0, 0, 0, 0, 0, 0, 0, 0, 128, 0, 206]
    (perform (netEnv [] [] [(0, .data S)] []) [.waitFrame none] (demoConn 64)).isUB = false ∧
      (perform (netEnv [] [] [(0, .data S)] []) [.readMessage 1] (demoConn 64)).isUB = true := by
  decide +kernel

/-- C85: a wait that fails for lack of memory leaves a NULL pointer for the next one to write through. -/
theorem C85_null_after_no_memory :
    let E := { netEnv [] [] [(0, .data [3, 0, 1, 0, 0, 0, 1]), (1, .data [65, 206])] [] with pe := ⟨false, fun k => k == 0, fun _ _ => 0⟩ }
    (perform E [.waitFrame none] (demoConn 64)).isUB = false ∧ (perform E [.waitFrame none, .waitFrame none] (demoConn 64)).isUB = true := by
  decide +kernel

/-- C85: the sending of a heartbeat is held up while data are read; they are lost, and the rest of a body frame is taken for a (too
short) method frame. -/
theorem C85_heartbeat_held_up :
    let S : Bytes := [3, 0, 1, 0, 0, 0, 10, 1, 0, 1, 0, 0, 0, 2, 0, 60, 206, 206]
    let E := { lossEnv with recv := fun t _ => if t = 5 then .data (S.take 7) else if t = 9 then .data (S.drop 7) else .fail 0 }
    Harmless 64 S ∧ (perform E [.waitFrame none] lossConn).isUB = true := by
  refine ⟨.frame 3 1 [1, 0, 1, 0, 0, 0, 2, 0, 60, 206] (by decide) ⟨by decide, by decide⟩ (by decide) (.short (by decide)), ?_⟩
  decide +kernel

/-- C85: a body frame sent by hand that does not fit the negotiated size is written past the end of the output buffer. -/
theorem C85_large_body : (perform (netEnv [] [] [] []) [.sendFrame ⟨1, .body (List.replicate 60 65)⟩ 0] (demoConn 64)).isUB = true := by
  decide +kernel

/-! ## C86 -/

theorem defaultProperties_stored (b : Build) : (defaultProperties b).stored := by
  simp [defaultProperties, utf8Entry, boolEntry, PTable.stored, PV.storedEs, PE.stored, PV.stored, holds, SIZEOF_ENTRY, cstr]
  decide +kernel

theorem defaultProperties_distinct (b : Build) : distinctKeys (defaultProperties b).erase := by
  simp [defaultProperties, utf8Entry, boolEntry, PTable.erase, PV.eraseEs, PE.erase, PV.erase, distinctKeys, distinctEs, distinctE, distinctV, Entry.key]
  decide +kernel

/-- C86: a client logs in on a new connection, whatever it asks for, and makes any calls after that: as long as allocations succeed,
the server's octets from the first one on can be digested (`HarmlessServer`) and the transport does not hold up heartbeats (or none
are asked for), **neither the login nor any sequence of calls after it** — whether it succeeded, was refused by the server or (if the
clock works, or no heartbeats are asked for) failed at whatever step — has undefined behaviour, however the server's octets are cut
into pieces and whatever the clock and the timing do.
Missing: calls after a login that failed because the clock did (`C86_after_failed_tune`), tables of client properties with
`Twins` in them (`C09_undefined_iff`, `C09_duplicate_key_null_deref`), heartbeats held up (`C86_tune_ok_held_up`), tiny frame sizes
(`C86_tiny_frame_max`), and what C85 misses. -/
theorem C86_whole_session_partial (E : NetEnv) (b : Build) (memcmp : Bytes → Bytes → Int) (mem m0 : Nat → UInt8) (a : LoginArgs) (S : Bytes)
    (hmem : ∀ k, E.pe.alloc k = true) (hsrv : Serves E S) (hharm : HarmlessServer a.frameMax S) (h31 : a.frameMax < 2 ^ 31)
    (hbeat : a.heartbeat = 0 ∨ NeverBlocks E) (hM : MemcmpSpec memcmp)
    (hprops : ∀ t, a.clientProperties = some t → t.stored ∧ ¬ Twins (defaultProperties b).erase t.erase) :
    match login E b memcmp mem a (newConn m0) with
    | .ub => False
    | .ok (.libraryException _) s => a.heartbeat = 0 ∨ ClockWorks E →
        ∀ cs : List ApiCall, (∀ c ∈ cs, c.legal s.outLen) → (perform E cs s).isUB = false
    | .ok _ s => ∀ cs : List ApiCall, (∀ c ∈ cs, c.legal s.outLen) → (perform E cs s).isUB = false
    | _ => True := by
  have hm : ∀ x, (mergeCapabilities memcmp E.pe.alloc 0 (defaultProperties b) a.clientProperties x).isUB = false := by
    intro x
    cases hp : a.clientProperties with
    | none => rcases C09_null_add memcmp E.pe.alloc 0 (defaultProperties b) x (defaultProperties_stored b) with ⟨r, s', h, _⟩ | ⟨e, s', h, _⟩ <;> rw [h] <;> rfl
    | some t =>
      exact C09_no_twins memcmp hM E.pe.alloc 0 (defaultProperties b) t x (defaultProperties_stored b) (hprops t hp).1 (hprops t hp).2
  have h := login_then (W := a.heartbeat = 0 ∨ ClockWorks E) hmem hsrv b mem h31 hbeat id hm hharm m0
  have key : ∀ (r : Outcome Unit) (s : Conn), (∃ Q room, 20 ≤ room ∧ room < 2 ^ 31 ∧ Fit E Q S room s) →
      ∀ cs : List ApiCall, (∀ c ∈ cs, c.legal s.outLen) → (perform E cs s).isUB = false := by
    rintro r s ⟨Q, room, h20, hr, hf⟩ cs hcs
    have := perform_safe (Q := Q) ⟨hmem, hsrv, h20⟩ (by omega) cs (by rw [← hf.len]; exact hcs) hf
    revert this
    cases perform E cs s with
    | ub => exact fun h => h.elim
    | _ => exact fun _ => rfl
  revert h
  cases login E b memcmp mem a (newConn m0) with
  | ok r s =>
    intro h
    cases r with
    | normal u => exact key (.normal u) s h
    | serverException id args => exact key (.serverException id args) s h
    | libraryException e => exact fun hw => key (.libraryException e) s (h hw)
  | err e s => exact fun _ => trivial
  | ub => exact fun h => h
  | fuel => exact fun _ => trivial

/-- A server's first words: connection.start, connection.tune with a frame size of `fm` octets (0: no limit), then `rest`. -/
def greeting (fm : UInt8) (rest : Bytes) : Bytes :=
  startBytes "PLAIN" ++ ([1, 0, 0, 0, 0, 0, 12, 0, 10, 0, 30, 0, 7, 0, 0, 0, fm, 0, 9, 206] ++ rest)

/-- It sends these octets, 28 at a time, and takes what it is sent. -/
def greetEnv (S : Bytes) : NetEnv := { loginEnv [] with recv := fun _ n => if n < S.length then .data ((S.drop n).take 28) else .fail 0 }

theorem greetEnv_serves (S : Bytes) : Serves (greetEnv S) S := by
  intro t n d h
  unfold greetEnv at h
  dsimp only at h
  by_cases h3 : n < S.length
  · rw [if_pos h3] at h
    cases h
    exact (List.take_prefix _ _).trans (List.take_prefix _ _)
  · rw [if_neg h3] at h; cases h

theorem rawFrame_inj {ty ty' : UInt8} {ch ch' : UInt16} {p p' : Bytes} {fe fe' : UInt8} {x x' : Bytes} (hp : p.length < 2 ^ 32) (hp' : p'.length < 2 ^ 32)
    (h : rawFrame ty ch p fe ++ x = rawFrame ty' ch' p' fe' ++ x') : ty = ty' ∧ ch = ch' ∧ p = p' ∧ fe = fe' ∧ x = x' := by
  unfold rawFrame at h
  rw [List.cons_append, List.cons_append, List.cons.injEq] at h
  obtain ⟨rfl, h⟩ := h
  simp only [List.append_assoc] at h
  obtain ⟨h1, h⟩ := List.append_inj h (by rw [beBytes_length, beBytes_length])
  obtain ⟨h2, h⟩ := List.append_inj h (by rw [beBytes_length, beBytes_length])
  have h1 := congrArg beVal h1
  rw [beVal_beBytes 2 _ ch.toNat_lt, beVal_beBytes 2 _ ch'.toNat_lt] at h1
  have h2 := congrArg beVal h2
  rw [beVal_beBytes 4 _ hp, beVal_beBytes 4 _ hp'] at h2
  obtain ⟨h3, h⟩ := List.append_inj h h2
  rw [List.singleton_append, List.singleton_append, List.cons.injEq] at h
  exact ⟨rfl, UInt16.toNat_inj.1 h1, h3, h.1, h.2⟩

/-- Which frames precede one is determined. -/
theorem FullFrames.uncons {before p q after R : Bytes} {ty : UInt8} {ch : UInt16} (hb : FullFrames INITIAL_FRAME_MAX before) (hq : q.length < 2 ^ 32) (hp : p.length < 2 ^ 32)
    (h : rawFrame ty ch q FRAME_END ++ R = before ++ (rawFrame 1 0 p FRAME_END ++ after)) :
    (ty = 1 ∧ ch = 0 ∧ q = p ∧ R = after) ∨ ∃ b', FullFrames INITIAL_FRAME_MAX b' ∧ R = b' ++ (rawFrame 1 0 p FRAME_END ++ after) := by
  cases hb with
  | nil =>
    obtain ⟨h1, h2, h3, _, h5⟩ := rawFrame_inj hq hp h
    exact Or.inl ⟨h1, h2, h3, h5⟩
  | cons ty' ch' p' hp' hrest =>
    rename_i b'
    rw [List.append_assoc] at h
    obtain ⟨_, _, _, _, h5⟩ := rawFrame_inj hq (by have : INITIAL_FRAME_MAX < 2 ^ 32 := by decide
                                                   omega) h
    exact Or.inr ⟨b', hrest, h5⟩

theorem greeting_harmless : HarmlessServer 400 (greeting 0 openOkBytes) := by
  have e0 : greeting 0 openOkBytes = rawFrame 1 0 ((startBytes "PLAIN").drop 7 |>.take 28) FRAME_END ++
      (rawFrame 1 0 [0, 10, 0, 30, 0, 7, 0, 0, 0, 0, 0, 9] FRAME_END ++ (rawFrame 1 0 [0, 10, 0, 41, 0] FRAME_END ++ [])) := by decide +kernel
  have h0 : (greeting 0 openOkBytes).take 4 ≠ [65, 77, 81, 80] := by decide +kernel
  refine ⟨by decide +kernel, ?_, ?_⟩
  · rw [if_neg h0, e0]
    exact .frame _ _ _ (by decide +kernel) ⟨fun _ => by decide +kernel, by decide⟩ (by decide) <|
      .frame _ _ _ (by decide) ⟨by decide, by decide⟩ (by decide) <| .frame _ _ _ (by decide) ⟨by decide, by decide⟩ (by decide) (.short (by decide))
  · intro before p after hb he h4 hl
    rw [if_neg h0, e0] at he
    have hp : p.length < 2 ^ 32 := by
      have := congrArg List.length he
      simp only [List.length_append, rawFrame_length] at this
      have hs : ((startBytes "PLAIN").drop 7 |>.take 28).length = 28 := by decide +kernel
      rw [hs] at this
      simp at this
      omega
    rcases hb.uncons (by decide +kernel) hp he with ⟨_, _, rfl, rfl⟩ | ⟨b, hb, he⟩
    · exact absurd h4 (by decide +kernel)
    rcases hb.uncons (by decide) hp he with ⟨_, _, rfl, rfl⟩ | ⟨b, hb, he⟩
    · refine ⟨by decide +kernel, by decide +kernel, ?_⟩
      exact .frame _ _ _ (by decide) ⟨by decide, by decide⟩ (by decide) (.short (by decide))
    rcases hb.uncons (by decide) hp he with ⟨_, _, rfl, rfl⟩ | ⟨b, hb, he⟩
    · exact absurd h4 (by decide)
    · have := congrArg List.length he
      simp only [List.length_append, rawFrame_length, List.length_nil] at this
      omega

/-- The hypotheses can be met, and the login then succeeds. -/
example : match login (greetEnv (greeting 0 openOkBytes)) ⟨[49], [50]⟩ refMemcmp (fun _ => 0) loginArgs (newConn fun _ => 0) with
    | .ub => False
    | .ok (.libraryException _) s => loginArgs.heartbeat = 0 ∨ ClockWorks (greetEnv (greeting 0 openOkBytes)) →
        ∀ cs : List ApiCall, (∀ c ∈ cs, c.legal s.outLen) → (perform (greetEnv (greeting 0 openOkBytes)) cs s).isUB = false
    | .ok _ s => ∀ cs : List ApiCall, (∀ c ∈ cs, c.legal s.outLen) → (perform (greetEnv (greeting 0 openOkBytes)) cs s).isUB = false
    | _ => True :=
  C86_whole_session_partial _ _ _ _ _ loginArgs _ (fun _ => rfl) (greetEnv_serves _) greeting_harmless (by decide) (Or.inl rfl) refMemcmp_spec
    (fun _ h => by cases h)

theorem C86_login_ends_well : (login (greetEnv (greeting 0 openOkBytes)) ⟨[49], [50]⟩ refMemcmp (fun _ => 0) loginArgs (newConn fun _ => 0)).val?.map Outcome.tag = some 1 := by
  decide +kernel

/-- … and with a client that insists on a mechanism this server does not offer, it fails half-way. -/
theorem C86_login_fails : (login (greetEnv (greeting 0 openOkBytes)) ⟨[49], [50]⟩ refMemcmp (fun _ => 0) { loginArgs with sasl := .external [65] } (newConn fun _ => 0)).val?.map Outcome.tag =
    some St.BROKER_UNSUPPORTED_SASL_METHOD := by
  decide +kernel

/-- C86: connection.tune-ok is held up twice, and part of a (heartbeat) frame is received and parsed meanwhile: the program aborts. -/
theorem C86_tune_ok_held_up :
    let S := greeting 0 [8, 0, 0, 0]
    let E := { greetEnv S with send := fun t _ => if t = 15 ∨ t = 21 then .fail 0x1301 else .sent 100000, poll := fun _ => .timeout,
                               recv := fun _ n => .data ((S.drop n).take (if n < 56 then 28 else 3)) }
    (login E ⟨[49], [50]⟩ refMemcmp (fun _ => 0) { loginArgs with heartbeat := 1 } (newConn fun _ => 0)).isUB = true := by
  decide +kernel

/-- C86: the server wants frames of at most ten octets: connection.tune-ok is written past the end of the output buffer. -/
theorem C86_tiny_frame_max : (login (greetEnv (greeting 10 openOkBytes)) ⟨[49], [50]⟩ refMemcmp (fun _ => 0) loginArgs (newConn fun _ => 0)).isUB = true := by
  decide +kernel

/-- C86: the clock fails when the negotiated values are adopted, and so does the login; the connection then claims a frame size its
output buffer does not have, and sending a body frame of that size writes past its end. -/
theorem C86_after_failed_tune :
    let E := { greetEnv (greeting 0 []) with clock := fun t => if t = 13 then 0 else 1000000000 }
    let r := login E ⟨[49], [50]⟩ refMemcmp (fun _ => 0) { loginArgs with heartbeat := 1, frameMax := 70000 } (newConn fun _ => 0)
    r.val?.map Outcome.tag = some St.TIMER_FAILURE ∧ r.state?.map (·.frameMax) = some 70000 ∧
      r.state?.map (fun s => (sendFrame E ⟨1, .body (List.replicate 69000 65)⟩ 0 TIME_INF s).isUB) = some true := by
  decide +kernel

end Rmq
