import Verif.Proofs.Arrive
import Verif.Proofs.TwoChannels
import Verif.Spec.Polling
import Verif.Proofs.Limits
/-!
# Waits with time limits lose nothing
-/
namespace Rmq

/-- amqp_simple_wait_frame_noblock, with or without a limit: what it receives it takes, and when it fails nothing is lost. -/
theorem waitFrame_spared {E : NetEnv} (hA : ∀ k, E.pe.alloc k = true) (tv : Option TimeVal) {s : Conn} (hC : Calm0 E s) :
    match waitFrame E tv s with
    | .ok _ t => Track E s t ∧ ∀ g ∈ t.queue, g ∈ s.queue
    | .err e t => Lost E s t ∨ (Unharmed E s t ∧ tv ≠ none ∧ SaysTimeout E tv e)
    | _ => True := by
  rw [waitFrame_def]
  have hq := fromNowIO_quiet E tv s
  have hD : ∀ d u, fromNowIO E tv s = .ok d u → d ≤ TIME_INF ∧ (tv = none → d = TIME_INF) := by
    intro d u h
    cases tv with
    | none => cases h; exact ⟨Nat.le_refl _, fun _ => rfl⟩
    | some v =>
      refine ⟨?_, nofun⟩
      unfold fromNowIO timeFromNow at h
      dsimp only at h
      by_cases c : v.sec < 0 ∨ v.usec < 0
      · rw [if_pos c] at h; cases h
      rw [if_neg c, if_neg c] at h
      by_cases c2 : E.clock s.time = 0
      · rw [if_pos c2] at h; cases h
      rw [if_neg c2] at h
      by_cases c3 : E.clock s.time > (E.clock s.time + (v.sec.toNat * 1000000000 + v.usec.toNat * 1000) % 2 ^ 64) % 2 ^ 64 ∨
        (v.sec.toNat * 1000000000 + v.usec.toNat * 1000) % 2 ^ 64 > (E.clock s.time + (v.sec.toNat * 1000000000 + v.usec.toNat * 1000) % 2 ^ 64) % 2 ^ 64
      · rw [if_pos c3] at h; cases h
      · rw [if_neg c3] at h
        cases h
        unfold TIME_INF
        omega
  have hN : ∀ e u, fromNowIO E tv s = .err e u → tv ≠ none := by
    rintro e u h rfl
    cases h
  cases h1 : fromNowIO E tv s with
  | ub => trivial
  | fuel => trivial
  | err e u =>
    rw [h1] at hq
    obtain ⟨l, rfl, hl⟩ := hq
    refine .inr ⟨.quiet hC hl, hN _ _ h1, fun hz hK hv => ?_⟩
    cases tv with
    | none => cases h1
    | some v => rw [fromNowIO_limit hK hv, if_neg (hz _)] at h1; cases h1
  | ok d u =>
    rw [h1] at hq
    obtain ⟨l, rfl, hl⟩ := hq
    have hu := Unharmed.quiet hC hl
    obtain ⟨hd, hd'⟩ := hD _ _ h1
    dsimp only
    cases hqq : (s.ext l).queue with
    | cons f q =>
      refine ⟨hu.track.trans (.same hu.1 (l := []) (by simp [Since]) rfl (PSim.refl hC.good.1 hC.good.2) rfl (hu.1.heart.same0 rfl rfl rfl rfl) hC.isOpen), ?_⟩
      intro g hg
      have : s.queue = f :: q := hqq
      rw [this]
      exact List.mem_cons_of_mem _ hg
    | nil =>
      have h2 := waitInner_spared hA hd E.fuel false hu.1 nofun
      have h3 := waitInner_eff (E := E) d E.fuel false (s.ext l) hC.good hC.heart.unblocked (by simp)
      unfold waitFrameInner
      revert h2 h3
      cases waitInner E d E.fuel false (s.ext l) with
      | ub => exact fun h _ => h
      | fuel => exact fun h _ => h
      | ok f t =>
        intro h h3
        refine ⟨hu.track.trans h, fun g hg => ?_⟩
        rw [h3.2.2.1, hqq] at hg
        cases hg
      | err e t =>
        intro h _
        rcases hu.spared h with h | ⟨h, hne, hst⟩
        · exact .inl h
        · refine .inr ⟨h, fun hn => hne (hd' hn), fun hz hK hv => hst hz ?_⟩
          cases tv with
          | none => exact absurd (hd' rfl) hne
          | some v =>
            rw [fromNowIO_limit hK hv, if_neg (hz _)] at h1
            injection h1 with h1 _
            subst h1
            obtain ⟨v1, v2, v3⟩ := hv
            have h63 := hK.2 s.time
            refine .inr ⟨by have := hz s.time; omega, by unfold TIME_INF; omega, fun k hk => .inr ?_⟩
            have := (hK.1 s.time k hk).resolve_left (hz k)
            omega

/-- amqp_consume_message with or without a deadline, with memory to spare: the message next to come, or nothing lost. -/
theorem consumeMessage_polls {E : NetEnv} (hA : ∀ k, E.pe.alloc k = true) {ch : UInt16} {V} (hV : View E ch V) {tag : Bytes} {dt : UInt64} {red : Int32}
    {ex rk : Bytes} {cls : UInt16} {size : UInt64} {flags : UInt32} {r : Rec} {bodies : List Bytes} {o : Outcome Envelope} {s s' : Conn} (hC : Calm0 E s)
    (hN : NoHb s) (hK : KindProps r) (hE : KeyedProps r) (hz : size.toNat = bodies.flatten.length) {tv : Option TimeVal} (h : consumeMessage E tv s = .ok o s') :
    ∃ l, Since s s' l ∧ ((∀ e ∈ l, e.fine) → ∀ X fs more, Sane E s (recvBytes l ++ X) →
      pending E s (recvBytes l ++ X) = ⟨ch, .method BASIC_DELIVER (deliverArgs tag dt red ex rk)⟩ :: fs →
      (∀ (t : Conn) (Y : Bytes), NoHb t → (∀ g ∈ t.queue, g ∈ s.queue) → pending E t Y = fs →
        V t Y (⟨ch, .header cls size flags r⟩ :: bodies.map (fun b => ⟨ch, .body b⟩) ++ more)) →
      (o = .normal ⟨ch, tag, dt, red, ex, rk, ⟨flags, copiedProps flags r clonedProps, bodies.flatten⟩⟩ ∧
      ((bodies.getLast? ≠ some []) → Calm0 E s' ∧ Sane E s' X ∧ V s' X more)) ∨
      (tv ≠ none ∧ (∃ e, o = .libraryException e ∧ SaysTimeout E tv e) ∧ Unharmed E s s')) := by
  unfold consumeMessage at h
  have hm := waitFrame_spared hA tv hC
  have ha := waitFrame_acc tv hC.good hC.heart.unblocked
  revert hm ha
  cases h1 : waitFrame E tv s with
  | ub => rw [h1] at h; cases h
  | fuel => rw [h1] at h; cases h
  | err e t =>
    rw [h1] at h
    cases h
    rintro (⟨l, h2, h3⟩ | ⟨hu, ht, hst⟩) _
    · exact ⟨l, h2, fun hf X _ more hX _ _ => absurd hX (h3 hf X)⟩
    · obtain ⟨_, _, l, h2, _⟩ := id hu
      exact ⟨l, h2, fun _ _ _ _ _ _ _ => .inr ⟨ht, ⟨_, rfl, hst⟩, hu⟩⟩
  | ok f t =>
    rintro ⟨⟨c, l, h2, h3⟩, hqq⟩ ⟨_, _, ⟨l', h2', h3'⟩, hnb⟩
    cases h2.unique h2'
    obtain ⟨hfb, nt⟩ := hnb hN
    rw [h1] at h
    dsimp only at h
    have hs2 : ∃ l2, Since t s' l2 := by
      revert h
      cases hp : f.frame.payload with
      | method id args =>
        dsimp only
        intro h
        by_cases hc : id = BASIC_DELIVER
        · rw [if_pos hc] at h
          have := (since_api E t).takeDelivery f.frame.channel args (since_nil t)
          rw [h] at this
          exact this
        · rw [if_neg hc] at h; exact putBack_since h
      | header a b c d => intro h; exact putBack_since h
      | body b => intro h; exact putBack_since h
      | heartbeat => intro h; exact putBack_since h
      | protocolHeader a b c d => intro h; exact putBack_since h
      | other t => intro h; exact putBack_since h
    obtain ⟨l2, h4⟩ := hs2
    refine ⟨l ++ l2, h2.trans h4, fun hf X fs more hX hp hfs => ?_⟩
    rw [recvBytes_append, List.append_assoc] at hX hp
    rw [h3'] at hp
    simp only [List.filter_cons, hfb, Bool.not_false, if_true, List.filter_nil, List.cons_append, List.nil_append] at hp
    injection hp with hp1 hp2
    rw [hp1] at h
    dsimp only at h
    rw [if_pos rfl] at h
    have e0 : takeDelivery E ch (deliverArgs tag dt red ex rk) t =
        match readMessage E ch (smallAlloc E (smallAlloc E (smallAlloc E t).2).2).2 with
        | .ok (.normal m) s => .ok (.normal ⟨ch, tag, dt, red, ex, rk, m⟩) s
        | .ok (.serverException id args) s => .ok (.serverException id args) s
        | .ok (.libraryException e) s => .ok (.libraryException e) s
        | .err e s => .err e s
        | .ub => .ub
        | .fuel => .fuel := by
      unfold takeDelivery
      have : ∀ s, (smallAlloc E s).1 = true := fun s => hA _
      simp only [deliverArgs, Rec.get?, List.find?, Option.map, mallocDup, this]
      simp (decide := true)
      rfl
    rw [e0] at h
    have al : Alloced t (smallAlloc E (smallAlloc E (smallAlloc E t).2).2).2 :=
      ((smallAlloc_alloced E _).trans (smallAlloc_alloced E _)).trans (smallAlloc_alloced E _)
    revert h al
    generalize (smallAlloc E (smallAlloc E (smallAlloc E t).2).2).2 = u
    intro h al
    obtain ⟨e1, e2, e3, e4⟩ := al.same (E := E) c.good
    cases h5 : readMessage E ch u with
    | err e w => rw [h5] at h; cases h
    | ub => rw [h5] at h; cases h
    | fuel => rw [h5] at h; cases h
    | ok o' w =>
      rw [h5] at h
      obtain ⟨l3, h6, h7⟩ := readMessage_meets hA hV (cls := cls) (flags := flags) (bodies := bodies) (c.alloced al) hK hE hz h5
      have hw : w = s' := by cases o' <;> (cases h; rfl)
      subst hw
      have h8 : Since t w l3 := by unfold Since at *; rw [h6, e1]
      cases h4.unique h8
      obtain ⟨a, b⟩ := h7 (fun e he => hf e (List.mem_append_right _ he)) X more (e3 _ (h3 _ hX))
        (hV.same c.good al (hfs t _ nt hqq hp2))
      rw [a] at h
      cases h
      exact .inl ⟨rfl, b⟩

end Rmq
