import Verif.Proofs.Sends
/-!
# What a successfully sent method looks like on the wire
-/
namespace Rmq

theorem frameToBytes_method {p : Proto} {r : Rec} (hp : p ∈ protocol) (hr : HasArgs p.args r) (be : Bool) (ch : UInt16)
    (mem : Bytes) (h12 : 12 ≤ mem.length) (hsz : mem.length < 2 ^ 32) {out mem' : Bytes}
    (h : frameToBytes be mem mem.length ⟨ch, .method p.id r⟩ = .ok out mem') :
    AllArgs Dom.encodable p.args r ∧ out = methodFrame ch p r ∧ mem'.length = mem.length := by
  have hF := frame_prefix (mem := mem) (by omega) be (Payload.method p.id r).frameType ch
  obtain ⟨g, hd3, hg⟩ : ∃ g : Bytes, mem.drop 3 = g ++ mem.drop 7 ∧ g.length = 4 := by
    refine ⟨(mem.drop 3).take 4, ?_, by simp; omega⟩
    have := (List.take_append_drop 4 (mem.drop 3)).symm
    rwa [List.drop_drop] at this
  have h7l : (mem.drop 7).length = mem.length - 7 := by simp
  unfold frameToBytes at h
  simp only [Payload.frameType] at hF h
  rw [hF.1] at h; dsimp only at h; rw [hF.2] at h; dsimp only at h
  have e : (1 :: (beBytes 2 ch.toNat ++ mem.drop 3) : Bytes) =
      (1 :: (beBytes 2 ch.toNat ++ g)) ++ mem.drop 7 := by
    conv => lhs; rw [hd3]
    simp
  rw [e, HEADER_SIZE, poke_of_le (by rw [e32_eq, beBytes_length]; simp [beBytes_length, hg]; omega)] at h
  dsimp only at h
  rw [splice_prefix (by simp [beBytes_length, hg]) (by rw [e32_eq, beBytes_length]; omega), e32_eq, beBytes_length,
    List.drop_drop] at h
  have e2 : (1 :: (beBytes 2 ch.toNat ++ g)) ++ (beBytes 4 p.id.toNat ++ mem.drop (7 + 4)) =
      ((1 :: (beBytes 2 ch.toNat ++ g)) ++ beBytes 4 p.id.toNat) ++ mem.drop 11 := by simp
  have hl11 : ((1 :: (beBytes 2 ch.toNat ++ g)) ++ beBytes 4 p.id.toNat : Bytes).length = 7 + 4 := by
    simp [beBytes_length, hg]
  rw [e2, List.take_append_of_le_length (by omega), List.take_of_length_le (by omega), List.drop_append,
    List.drop_of_length_le (by omega), hl11, Nat.sub_self, List.drop_zero, List.nil_append] at h
  rw [FOOTER_SIZE, subWrap_of_le (by omega)] at h
  have hE := (encArgs_encodes be (mem.length - (7 + 4 + 1)) r p.args r hr
      (get?_of_nodup (by rw [hr.fst_eq]; exact protocol_args_nodup p hp)) [] [] trivial (by simp)).total ⟨mem.drop 11, 0⟩
      (by simp; omega) (Nat.zero_le _)
  simp only [encMethod, enc_switch hp] at h
  rcases hE with ⟨hv, h1, h2⟩ | ⟨e, s', h1, _, h2, _⟩
  · rw [h2] at h
    dsimp only at h h1
    rw [Nat.zero_add] at h h1
    refine ⟨hv, ?_⟩
    obtain ⟨mem2, h3, h4⟩ := finishFrame_eq be (p := beBytes 4 p.id.toNat ++ serArgs p.args r []) hg
      (by rw [List.length_append, beBytes_length]; omega)
      (rest := (mem.drop 11).drop (serArgs p.args r []).length) (ty := 1) (ch := ch) (by simp; omega) rfl
    have e3 : (1 :: (beBytes 2 ch.toNat ++ g)) ++ beBytes 4 p.id.toNat ++ splice (mem.drop 11) 0 (serArgs p.args r []) =
        1 :: (beBytes 2 ch.toNat ++ g ++ (beBytes 4 p.id.toNat ++ serArgs p.args r []) ++ (mem.drop 11).drop (serArgs p.args r []).length) := by
      simp [splice]
    have e4 : (serArgs p.args r []).length + 4 = (beBytes 4 p.id.toNat ++ serArgs p.args r []).length := by
      rw [List.length_append, beBytes_length]; omega
    rw [e3, e4, h3] at h
    cases h
    refine ⟨rfl, ?_⟩
    rw [h4]; simp [beBytes_length, hg]; omega
  · rw [h1] at h; cases h

/-- A method sent with success: it was representable, and its frame was put on the wire, nothing else. -/
theorem sendMethod_wire {E : NetEnv} {p : Proto} {r : Rec} (hp : p ∈ protocol) (hr : HasArgs p.args r) (ch : UInt16) (flags deadline : Nat)
    {s s' : Conn} (hO : OutReady s) (hsz : s.outLen < 2 ^ 32) (h12 : 12 ≤ s.outLen)
    (h : sendMethod E ch p.id r flags deadline s = .ok () s') :
    AllArgs Dom.encodable p.args r ∧ OutReady s' ∧ s'.outLen = s.outLen ∧
      ∃ l, Since s s' l ∧ sentTagged l = Bytes.flagged (methodFrame ch p r) flags := by
  have hw := sendFrame_wrote (E := E) ⟨ch, .method p.id r⟩ flags deadline s
  unfold sendMethod at h
  rw [h] at hw
  obtain ⟨enc, mem, l, hf, a, b, c, hl, hs⟩ := hw
  rw [← hO.1] at hf
  obtain ⟨h1, h2, h3⟩ := frameToBytes_method hp hr E.pe.be ch s.outMem (by rw [hO.1]; exact h12) (by rw [hO.1]; exact hsz) hf
  exact ⟨h1, ⟨by rw [a, h3, hO.1, b], by rw [c, hO.2, b]⟩, b, l, hl, by rw [hs, h2]⟩

end Rmq
