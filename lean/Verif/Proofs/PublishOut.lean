import Verif.Proofs.Exchange
/-!
# All that a successful publish sends
-/
namespace Rmq

def publishProto : Proto := ⟨60, 40, "basic", "publish", [(.ticket, .short), (.exchange, .shortstr), (.routing_key, .shortstr), (.mandatory, .bit),
    (.immediate, .bit)], true⟩

theorem publish_frame (ch : UInt16) (ex rk : Bytes) : methodFrame ch publishProto (publishArgs ex rk 0 0) =
    rawFrame 1 ch (publishPayload ex rk false false) FRAME_END := by
  have h : beBytes 4 publishProto.id.toNat = [0, 60, 0, 40] := by decide +kernel
  unfold methodFrame
  rw [h]
  simp [publishPayload, publishProto, publishArgs, serArgs, serBits, serDom, serShort, bitsVal, beBytes]

theorem flagged_bytes (b : Bytes) (fl : Nat) : (Bytes.flagged b fl).map (·.1) = b := by simp [Bytes.flagged, Function.comp_def]

theorem publish_out {E : NetEnv} (hT : NoTimeoutSend E) {fm : Int} {ch : UInt16} {ex rk : Bytes} {flags : UInt32} {props : Rec} {body : Bytes} {s s' : Conn}
    (hs : Estab fm s) (hw : OneWord flags) (hp : PropsOK (fun _ _ => True) flags props basicProps)
    (h : basicPublish E ch ex rk 0 0 (some (flags, props)) body s = .ok () s') :
    Estab fm s' ∧ ∃ frags : List Bytes, frags.flatten = body ∧ (∀ b ∈ frags, b ≠ [] ∧ (b.length : Int) + 8 ≤ fm) ∧
      Sent s s' (rawFrame 1 ch (publishPayload ex rk false false) FRAME_END ++
        rawFrame 2 ch (contentHeaderPayload body.length flags props) FRAME_END ++ frags.flatMap fun b => rawFrame 3 ch b FRAME_END) := by
  have hfix := (sizes_api E s).basicPublish ch ex rk 0 0 (some (flags, props)) body (s := s) rfl
  have htidy := basicPublish_tidy hT ch ex rk 0 0 (some (flags, props)) body hp hs.1
  rw [h] at hfix htidy
  refine ⟨hs.of_fixed htidy.1 hfix, ?_⟩
  unfold basicPublish at h
  dsimp only at h
  obtain ⟨_, t, h1, h⟩ := M.bind_ok h
  obtain ⟨_, u, h2, h⟩ := M.bind_ok h
  obtain ⟨_, v, h3, h⟩ := M.bind_ok h
  have hu1 := publishCheck_hush h1
  have e1 := hu1.estab hs
  have s1 : Sent s t [] := hu1.sent
  have g2 := sendMethod_out (E := E) (p := publishProto) (r := publishArgs ex rk 0 0) (by decide)
    (.cons trivial (.cons trivial (.cons trivial (.cons trivial (.cons trivial .nil))))) ch SF_MORE TIME_INF e1.1
  have f2 := (sizes_api E t).toUpper.sendFrame ⟨ch, .method BASIC_PUBLISH (publishArgs ex rk 0 0)⟩ SF_MORE TIME_INF (Nat.le_refl _) (s := t) rfl
  have h2' : sendMethod E ch publishProto.id (publishArgs ex rk 0 0) SF_MORE TIME_INF t = .ok () u := h2
  rw [h2'] at g2
  unfold sendMethod at h2
  rw [h2] at f2
  obtain ⟨_, o2, l2, hl2, hb2⟩ := g2
  rw [publish_frame] at hb2
  have e2 := e1.of_fixed o2 f2
  have g3 := sendFrame_wrote (E := E) ⟨ch, .header BASIC_CLASS (UInt64.ofNat body.length) flags props⟩ (if body.length > 0 then SF_MORE else SF_NONE) TIME_INF u
  have h3' : sendFrame E ⟨ch, .header BASIC_CLASS (UInt64.ofNat body.length) flags props⟩ (if body.length > 0 then SF_MORE else SF_NONE) TIME_INF u = .ok () v := h3
  rw [h3'] at g3
  obtain ⟨enc, mem, l3, k1, k2, k3, k4, k5, k6⟩ := g3
  rw [← o2.1] at k1
  obtain ⟨q1, q2⟩ := frameToBytes_header (c := (60, basicProps)) (by decide) hw hp _ _ _ (by rw [o2.1]; exact o2.2.1) (by rw [o2.1]; exact o2.2.2) k1
  have q3 : enc = rawFrame 2 ch (contentHeaderPayload body.length flags props) FRAME_END := by
    rw [q1, UInt64.toNat_ofNat', show (2 : Nat) ^ 64 = 256 ^ 8 from rfl, beBytes_mod]
    rfl
  have hb3 : sentBytes l3 = rawFrame 2 ch (contentHeaderPayload body.length flags props) FRAME_END := by
    rw [← q3, ← sentTagged_bytes, k6, flagged_bytes]
  have hv : OutReady v := ⟨by rw [k2, k3, q2, o2.1], by rw [k4, k3, e2.2.1]⟩
  have eU : usablePayload s.frameMax = s.outLen - 8 := usablePayload_eq ⟨hs.1.1, hs.2.1⟩ (by have := hs.1.2.1; omega) hs.1.2.2
  rw [eU] at h
  have l20 : 20 ≤ s.outLen := hs.1.2.1
  have fmEq : (s.outLen : Int) = fm := by rw [← hs.2.1]; exact hs.2.2.1
  have fm31 := hs.2.2.2
  have evl : v.outLen = s.outLen := by
    have a := e2.2.1; have b := e2.2.2.1
    rw [k3]; omega
  have h31 : s.outLen < 2 ^ 31 := by omega
  have hbound := publishBody_enough ch (s.outLen - 8) _ _ _ _ h
  obtain ⟨l4, hl4, hs4⟩ := publishBody_sent ch (s.outLen - 8) (by omega) (by omega) _ _ _ _ hv (by omega) (by omega) h
  obtain ⟨fr1, fr2⟩ := fragments_spec (s.outLen - 8) (by omega) _ _ hbound
  refine ⟨_, fr1, fun b hb => ⟨(fr2 b hb).1, by have := (fr2 b hb).2; omega⟩, ?_⟩
  have s4 : Sent v s' ((fragments (s.outLen - 8) E.fuel body).flatMap fun b => rawFrame 3 ch b FRAME_END) := by
    refine ⟨l4, hl4, ?_⟩
    rw [← sentTagged_bytes, hs4, List.map_flatMap]
    simp only [flagged_bytes]
  exact s1.before (Sent.append (Sent.append ⟨l2, hl2, hb2⟩ ⟨l3, k5, hb3⟩) s4)

end Rmq
