import Verif.Proofs.Rpc
/-!
# What a successfully sent content header looks like on the wire
-/
namespace Rmq

theorem frameToBytes_header {c : UInt16 × List (Nat × Fld × Dom)} (hc : c ∈ propClasses) {size : UInt64} {flags : UInt32} (hw : OneWord flags)
    {r : Rec} (hr : PropsOK (fun _ _ => True) flags r c.2) (be : Bool) (ch : UInt16)
    (mem : Bytes) (h20 : 20 ≤ mem.length) (hsz : mem.length < 2 ^ 32) {out mem' : Bytes}
    (h : frameToBytes be mem mem.length ⟨ch, .header c.1 size flags r⟩ = .ok out mem') :
    out = rawFrame 2 ch (beBytes 2 c.1.toNat ++ [0, 0] ++ beBytes 8 size.toNat ++ (beBytes 2 flags.toNat ++ serProps flags r c.2)) FRAME_END ∧
      mem'.length = mem.length := by
  have hF := frame_prefix (mem := mem) (by omega) be (Payload.header c.1 size flags r).frameType ch
  obtain ⟨g, hd3, hg⟩ : ∃ g : Bytes, mem.drop 3 = g ++ mem.drop 7 ∧ g.length = 4 := by
    refine ⟨(mem.drop 3).take 4, ?_, by simp; omega⟩
    have := (List.take_append_drop 4 (mem.drop 3)).symm
    rwa [List.drop_drop] at this
  have h7l : (mem.drop 7).length = mem.length - 7 := by simp
  unfold frameToBytes at h
  simp only [Payload.frameType] at hF h
  rw [hF.1] at h; dsimp only at h; rw [hF.2] at h; dsimp only at h
  have e : (2 :: (beBytes 2 ch.toNat ++ mem.drop 3) : Bytes) = (2 :: (beBytes 2 ch.toNat ++ g)) ++ mem.drop 7 := by
    conv => lhs; rw [hd3]
    simp
  rw [e, HEADER_SIZE, poke_of_le (by rw [e16_eq, beBytes_length]; simp [beBytes_length, hg]; omega)] at h
  dsimp only at h
  rw [splice_prefix (by simp [beBytes_length, hg]) (by rw [e16_eq, beBytes_length]; omega), e16_eq, beBytes_length,
    List.drop_drop, ← List.append_assoc] at h
  rw [poke_of_le (by rw [e16_eq, beBytes_length]; simp [beBytes_length, hg]; omega)] at h
  dsimp only at h
  rw [splice_prefix (by simp [beBytes_length, hg]) (by rw [e16_eq, beBytes_length]; simp; omega), e16_eq, beBytes_length,
    List.drop_drop, ← List.append_assoc] at h
  rw [poke_of_le (by rw [e64_eq, beBytes_length]; simp [beBytes_length, hg]; omega)] at h
  dsimp only at h
  rw [splice_prefix (by simp [beBytes_length, hg]) (by rw [e64_eq, beBytes_length]; simp; omega), e64_eq, beBytes_length,
    List.drop_drop, ← List.append_assoc] at h
  have hl19 : ((2 :: (beBytes 2 ch.toNat ++ g)) ++ beBytes 2 c.1.toNat ++ beBytes 2 (0 : UInt16).toNat ++
      beBytes 8 size.toNat : Bytes).length = 7 + 12 := by
    simp [beBytes_length, hg]
  rw [List.take_append_of_le_length (by omega), List.take_of_length_le (by omega), List.drop_append,
    List.drop_of_length_le (by omega), hl19, Nat.sub_self, List.drop_zero, List.nil_append] at h
  rw [FOOTER_SIZE, subWrap_of_le (by omega)] at h
  have hF1 := (encFlags_encodes be (mem.length - (7 + 12 + 1)) hw).total ⟨mem.drop (7 + 2 + 2 + 8), 0⟩ (by simp; omega) (Nat.zero_le _)
  unfold encProperties at h
  rcases hF1 with ⟨_, k1, k2⟩ | ⟨e, s', h1, _⟩
  · rw [k2] at h
    dsimp only at h k1
    simp only [Nat.zero_add, beBytes_length] at h k1
    have hlen : (splice (mem.drop (7 + 2 + 2 + 8)) 0 (beBytes 2 flags.toNat)).length = mem.length - 19 := by
      rw [splice_length (by rw [beBytes_length]; simp; omega)]; simp
    rw [encProp_switch hc] at h
    dsimp only at h
    have hP := (encProps_encodes be (mem.length - (7 + 12 + 1)) flags r c.2 (propClasses_ok c hc) hr).total
      ⟨splice (mem.drop (7 + 2 + 2 + 8)) 0 (beBytes 2 flags.toNat), 2⟩ (by show _ ≤ List.length _; rw [hlen]; omega) (by show 2 ≤ _; omega)
    rcases hP with ⟨_, p1, p2⟩ | ⟨e, s', p1, _⟩
    · rw [p2] at h
      dsimp only at h p1
      obtain ⟨mem2, h1, h2⟩ := finishFrame_eq be (p := beBytes 2 c.1.toNat ++ [0, 0] ++ beBytes 8 size.toNat ++
          (beBytes 2 flags.toNat ++ serProps flags r c.2)) hg
        (by simp only [List.length_append, beBytes_length, List.length_cons, List.length_nil]; omega)
        (rest := (mem.drop (7 + 2 + 2 + 8)).drop (2 + (serProps flags r c.2).length)) (ty := 2) (ch := ch)
        (by simp only [List.length_drop]; omega) rfl
      have e3 : (2 :: (beBytes 2 ch.toNat ++ g)) ++ beBytes 2 c.1.toNat ++ beBytes 2 (0 : UInt16).toNat ++ beBytes 8 size.toNat ++
          splice (splice (mem.drop (7 + 2 + 2 + 8)) 0 (beBytes 2 flags.toNat)) 2 (serProps flags r c.2) =
          2 :: (beBytes 2 ch.toNat ++ g ++ (beBytes 2 c.1.toNat ++ [0, 0] ++ beBytes 8 size.toNat ++ (beBytes 2 flags.toNat ++ serProps flags r c.2)) ++
            (mem.drop (7 + 2 + 2 + 8)).drop (2 + (serProps flags r c.2).length)) := by
        have z : beBytes 2 (0 : UInt16).toNat = [0, 0] := by decide
        rw [z]
        have hs : splice (splice (mem.drop (7 + 2 + 2 + 8)) 0 (beBytes 2 flags.toNat)) 2 (serProps flags r c.2) =
            beBytes 2 flags.toNat ++ (serProps flags r c.2 ++ (mem.drop (7 + 2 + 2 + 8)).drop (2 + (serProps flags r c.2).length)) := by
          have : splice (mem.drop (7 + 2 + 2 + 8)) 0 (beBytes 2 flags.toNat) = beBytes 2 flags.toNat ++ (mem.drop (7 + 2 + 2 + 8)).drop 2 := by
            simp [splice, beBytes_length]
          rw [this, splice_prefix (by rw [beBytes_length]) (by simp; omega), List.drop_drop]
        rw [hs]; simp
      have e4 : 2 + (serProps flags r c.2).length + 12 =
          (beBytes 2 c.1.toNat ++ [0, 0] ++ beBytes 8 size.toNat ++ (beBytes 2 flags.toNat ++ serProps flags r c.2)).length := by
        simp only [List.length_append, beBytes_length, List.length_cons, List.length_nil]; omega
      rw [e3, e4, h1] at h
      cases h
      refine ⟨rfl, ?_⟩
      rw [h2]
      simp only [List.length_append, beBytes_length, List.length_cons, List.length_nil, List.length_drop, hg]; omega
    · rw [p1] at h; cases h
  · rw [h1] at h; cases h

end Rmq
