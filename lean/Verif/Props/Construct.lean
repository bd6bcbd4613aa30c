import Verif.Spec.Construct
import Verif.Props.Tables
/-!
# C99: tables built with the constructors arrive as written
-/
namespace Rmq

theorem strlen_text : ∀ {b : Bytes}, 0 ∈ b → strlen b = some (text b).length ∧ b.take (text b).length = text b
  | [], h => nomatch h
  | c :: rest, h => by
    unfold strlen text
    by_cases hc : c = 0
    · subst hc; simp
    · rw [if_neg hc]
      have hr : 0 ∈ rest := by
        rcases List.mem_cons.1 h with h | h
        · exact absurd h.symm hc
        · exact h
      obtain ⟨h1, h2⟩ := strlen_text hr
      rw [h1]
      have ht : List.takeWhile (fun x => decide (x ≠ 0)) (c :: rest) = c :: text rest := by
        rw [List.takeWhile_cons_of_pos (by simpa using hc)]; rfl
      rw [ht]
      exact ⟨rfl, by rw [List.length_cons, List.take_succ_cons, h2]⟩

theorem cstringBytes_text {b : Bytes} (h : 0 ∈ b) : cstringBytes b = some (text b) := by
  obtain ⟨h1, h2⟩ := strlen_text h
  unfold cstringBytes
  rw [h1]
  show some (b.take (text b).length) = _
  rw [h2]

mutual
/-- A built entry and the entry to be seen are the same on the wire. -/
theorem buildOne_ser : ∀ (f : Field), terminatedOne f →
    ∃ e, buildOne f = some e ∧ kindsOKE e ∧ serEntry e = serEntry (seenOne f)
  | .text k v, h => by
    refine ⟨.mk (text k) (.utf8 (text v)), ?_, trivial, rfl⟩
    simp [buildOne, constructUtf8, cstringBytes_text h.1, cstringBytes_text h.2]
  | .flag k v, h => by
    refine ⟨.mk (text k) (.boolean v), ?_, trivial, ?_⟩
    · have h : 0 ∈ k := h
      simp [buildOne, constructBool, cstringBytes_text h]
    · by_cases hv : v = 0
      · simp [seenOne, serEntry, serFV, hv]
      · simp [seenOne, serEntry, serFV, hv]
  | .sub k fs, h => by
    obtain ⟨es, h1, h2, h3⟩ := buildAll_ser fs h.2
    refine ⟨.mk (text k) (.table es), ?_, h2, ?_⟩
    · simp [buildOne, constructTable, cstringBytes_text h.1, h1]
    · simp [seenOne, serEntry, serFV, h3]
theorem buildAll_ser : ∀ (fs : List Field), terminatedAll fs →
    ∃ es, buildAll fs = some es ∧ kindsOKEs es ∧ serEntries es = serEntries (seenAll fs)
  | [], _ => ⟨[], rfl, trivial, rfl⟩
  | f :: fs, h => by
    obtain ⟨e, h1, h2, h3⟩ := buildOne_ser f h.1
    obtain ⟨es, h4, h5, h6⟩ := buildAll_ser fs h.2
    refine ⟨e :: es, ?_, ⟨h2, h5⟩, ?_⟩
    · simp [buildAll, h1, h4]
    · simp [seenAll, serEntries, h3, h6]
end

mutual
theorem seenOne_fits : ∀ (f : Field), shortKeysOne f → (serEntry (seenOne f)).length < 2 ^ 32 → representableE (seenOne f)
  | .text k v, h, hl => by
    refine ⟨h, ?_⟩
    have : (text v).length ≤ (serEntry (seenOne (.text k v))).length := by simp [seenOne, serEntry, serFV, serLong]; omega
    exact Nat.lt_of_le_of_lt this hl
  | .flag k v, h, hl => by
    refine ⟨h, ?_⟩
    by_cases hv : v = 0
    · exact Or.inl (if_pos hv)
    · exact Or.inr (if_neg hv)
  | .sub k fs, h, hl => by
    have : (serEntries (seenAll fs)).length ≤ (serEntry (seenOne (.sub k fs))).length := by simp [seenOne, serEntry, serFV, serLong]; omega
    have hlt := Nat.lt_of_le_of_lt this hl
    exact ⟨h.1, hlt, seenAll_fits fs h.2 hlt⟩
theorem seenAll_fits : ∀ (fs : List Field), shortKeysAll fs → (serEntries (seenAll fs)).length < 2 ^ 32 → representableEs (seenAll fs)
  | [], _, _ => trivial
  | f :: fs, h, hl => by
    have hl : (serEntry (seenOne f) ++ serEntries (seenAll fs)).length < 2 ^ 32 := hl
    rw [List.length_append] at hl
    exact ⟨seenOne_fits f h.1 (by omega), seenAll_fits fs h.2 (by omega)⟩
end

mutual
theorem nesting_seenOne : ∀ f : Field, nestingE (seenOne f) = levelsOne f
  | .text _ _ => rfl
  | .flag _ _ => rfl
  | .sub _ fs => nesting_seenAll fs
theorem nesting_seenAll : ∀ fs : List Field, nestingEs (seenAll fs) = levelsAll fs
  | [] => rfl
  | f :: fs => by
    show max (nestingE (seenOne f) + 1) (nestingEs (seenAll fs)) = _
    rw [nesting_seenOne f, nesting_seenAll fs]
    rfl
end

/-- C99: whatever tables an application builds with the constructors from terminated strings, with keys of at most 255 octets and at
most 101 levels — the constructors build it, and if it is encoded (anywhere in a buffer), a decoder reads from there exactly what was
written: keys and strings up to their first NUL, in order, booleans 1 or 0. -/
theorem C99_built_tables_arrive (fs : List Field) (hT : terminatedAll fs) (hK : shortKeysAll fs) (hL : levelsAll fs ≤ 101) :
    ∃ t, buildAll fs = some t ∧
      ∀ (be be' : Bool) (len : Nat) (s s' : EState), len ≤ s.mem.length → encTable be len t s = .ok () s' →
        ∀ (alloc : Nat → Bool), (∀ n, alloc n = true) → ∀ len' : Nat, s'.off ≤ len' → len' ≤ s'.mem.length → len' ≤ 2 ^ 30 → ∀ k : Nat,
          ∃ c, decodeTable ⟨s'.mem, len', be', alloc⟩ ⟨s.off, k⟩ = .ok (seenAll fs) ⟨s'.off, c⟩ := by
  obtain ⟨t, h1, h2, h3⟩ := buildAll_ser fs hT
  refine ⟨t, h1, fun be be' len s s' hlen henc alloc hA len' i1 i2 i3 k => ?_⟩
  have hE := encTable_encodes be len t s hlen
  have hsT : serTable t = serTable (seenAll fs) := by unfold serTable; rw [h3]
  by_cases hv : s.off + (serTable t).length ≤ len
  · have := hE.1 h2 hv
    rw [henc] at this
    cases this
    dsimp only at i1 i2
    have hsmall : (serEntries (seenAll fs)).length < 2 ^ 32 := by
      have : (serTable t).length = 4 + (serEntries t).length := by simp [serTable, serLong, beBytes_length]
      rw [← h3]
      omega
    rw [hsT] at i1 i2 ⊢
    rw [hsT] at hv
    refine decodeTable_ser ⟨_, len', be', alloc⟩ ⟨i2, i3, hA⟩ (seenAll fs) ⟨hsmall, seenAll_fits fs hK hsmall⟩
      (by rw [nesting_seenAll]; exact hL) ⟨s.off, k⟩ ?_ i1
    dsimp only
    rw [List.append_assoc, List.drop_append_of_le_length (by simp; omega), List.drop_take_self, List.nil_append]
    exact List.prefix_append _ _
  · rcases hE.2 (Or.inr (by omega)) with ⟨e, s'', h, _⟩ | ⟨h, _⟩
    · rw [henc] at h; cases h
    · exact absurd h (serTable_ne t)

/-- C99: such a table is encoded, and takes no more room than its strings ask for, if the buffer has this much. -/
theorem C99_built_tables_encode (fs : List Field) (hT : terminatedAll fs) : ∃ t, buildAll fs = some t ∧
    ∀ (be : Bool) (len : Nat) (s : EState), len ≤ s.mem.length → s.off + (serTable (seenAll fs)).length ≤ len →
      encTable be len t s = .ok () ⟨s.mem.take s.off ++ serTable (seenAll fs) ++ s.mem.drop (s.off + (serTable (seenAll fs)).length),
        s.off + (serTable (seenAll fs)).length⟩ := by
  obtain ⟨t, h1, h2, h3⟩ := buildAll_ser fs hT
  refine ⟨t, h1, fun be len s hlen hr => ?_⟩
  have hsT : serTable t = serTable (seenAll fs) := by unfold serTable; rw [h3]
  rw [← hsT] at hr ⊢
  exact (encTable_encodes be len t s hlen).1 h2 hr

/-- "x-a" with NUL and rubbish behind, the flag 7, a table with a string in it. -/
def sampleFields : List Field := [.text [120, 45, 97, 0, 99] [118, 0], .flag [98, 0] 7, .sub [99, 0] [.text [100, 0] [0, 5]]]
example : terminatedAll sampleFields ∧ shortKeysAll sampleFields ∧ levelsAll sampleFields ≤ 101 := by
  refine ⟨?_, ?_, by decide⟩
  · simp [terminatedAll, terminatedOne, sampleFields]
  · simp [shortKeysAll, shortKeysOne, sampleFields, text]
example : serTable (seenAll sampleFields) =
    [0, 0, 0, 28, 3, 120, 45, 97, 83, 0, 0, 0, 1, 118, 1, 98, 116, 1, 1, 99, 70, 0, 0, 0, 7, 1, 100, 83, 0, 0, 0, 0] := by decide +kernel
example : ((buildAll sampleFields).map fun t => (encTable false 64 t ⟨List.replicate 64 9, 3⟩).state?.map EState.off) = some (some 35) := by
  decide +kernel

end Rmq
