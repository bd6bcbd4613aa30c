import Verif.Proofs.PortableFrame
/-!
# The frame parser: neither the host's byte order nor uninitialised memory matters
-/
namespace Rmq

/-- The states of the parser, failed calls included. -/
structure PFit (s : PState) : Prop where
  hdr : s.hdr.length = 8
  shape : match s.inb with
    | .hdr => s.off ≤ s.target ∧ s.target ≤ 8 ∧ (s.mode ≠ .initial → s.target ≤ 7)
    | .pool m => m.length = s.target ∧ s.off ≤ s.target ∧ s.mode = .body
    | .null => True

/-- The same input buffer, as far as it was filled. -/
def InbAlike (off : Nat) (i i' : Inb) : Prop :=
  i' = i ∨ ∃ m m', i = .pool m ∧ i' = .pool m' ∧ m.length = m'.length ∧ m.take off = m'.take off

/-- The same parser, up to memory not yet written.  `H`: the octet before the first payload octet is the same in all fresh blocks. -/
def PAlike (H : Prop) (s s' : PState) : Prop :=
  PFit s ∧ (s.mode ≠ .initial ∨ H) ∧ ∃ i', s' = { s with inb := i' } ∧ InbAlike s.off s.inb i'

theorem PAlike.refl {H : Prop} {s : PState} (h : PFit s) (hm : s.mode ≠ .initial ∨ H) : PAlike H s s :=
  ⟨h, hm, s.inb, rfl, Or.inl rfl⟩

/-- Counters and limits may change alike. -/
theorem PAlike.counters {H : Prop} {s s' : PState} (h : PAlike H s s') (p : List UInt16) (a : Nat) (f : Nat) (l : List Nat) :
    PAlike H { s with pools := p, allocs := a, frameMax := f, bufLog := l } { s' with pools := p, allocs := a, frameMax := f, bufLog := l } := by
  obtain ⟨hf, hm, i', rfl, hi⟩ := h
  exact ⟨⟨hf.hdr, hf.shape⟩, hm, i', rfl, hi⟩

theorem PAlike.fields {H : Prop} {s s' : PState} (h : PAlike H s s') : s'.mode = s.mode ∧ s'.hdr = s.hdr ∧ s'.off = s.off ∧ s'.target = s.target ∧
    s'.frameMax = s.frameMax ∧ s'.pools = s.pools ∧ s'.allocs = s.allocs ∧ s'.bufLog = s.bufLog := by
  obtain ⟨hf, hm, i', rfl, hi⟩ := h
  exact ⟨rfl, rfl, rfl, rfl, rfl, rfl, rfl, rfl⟩

theorem PAlike.raw {H : Prop} {s s' : PState} (h : PAlike H s s') (ho : s.target ≤ s.off) : s'.raw = s.raw := by
  obtain ⟨hf, hm, i', rfl, hi⟩ := h
  rcases hi with rfl | ⟨m, m', h1, rfl, hl, ht⟩
  · rfl
  · have hs := hf.shape
    rw [h1] at hs
    unfold PState.raw
    rw [h1]
    dsimp only at hs ⊢
    rw [List.take_of_length_le (by omega), List.take_of_length_le (by omega)] at ht
    rw [ht]

theorem PAlike.idle {H : Prop} {s s' : PState} (h : PAlike H s s') : PAlike H s.idle s'.idle := by
  obtain ⟨hf, hm, i', rfl, hi⟩ := h
  refine ⟨⟨hf.hdr, ?_⟩, Or.inl (fun h => nomatch h), _, rfl, Or.inl rfl⟩
  show (0 : Nat) ≤ 7 ∧ 7 ≤ 8 ∧ _
  exact ⟨by omega, by omega, fun _ => Nat.le_refl _⟩

/-- The same answer, the same parser afterwards. -/
inductive PRel (H : Prop) {α : Type} : Res PState α → Res PState α → Prop where
  | ok (a : α) {t t' : PState} : PAlike H t t' → PRel H (.ok a t) (.ok a t')
  | err (e : Int) {t t' : PState} : PAlike H t t' → PRel H (.err e t) (.err e t')
  | ub : PRel H .ub .ub
  | fuel : PRel H .fuel .fuel

section
variable {H : Prop} {E E' : PEnv}

theorem getPool_alike (ha : E'.alloc = E.alloc) {s s' : PState} (h : PAlike H s s') (ch : UInt16) :
    ∃ b t t', getPool E s ch = (b, t) ∧ getPool E' s' ch = (b, t') ∧ PAlike H t t' ∧ t.off = s.off ∧ t.target = s.target ∧ t.mode = s.mode ∧
      t.inb = s.inb := by
  obtain ⟨_, _, _, _, _, hp, hal, _⟩ := h.fields
  unfold getPool
  rw [hp, hal, ha]
  by_cases h1 : ch ∈ s.pools
  · rw [if_pos h1, if_pos h1]; exact ⟨_, _, _, rfl, rfl, h, rfl, rfl, rfl, rfl⟩
  · rw [if_neg h1, if_neg h1]
    by_cases h2 : E.alloc s.allocs = true
    · rw [if_pos h2, if_pos h2]
      refine ⟨_, _, _, rfl, rfl, ?_, rfl, rfl, rfl, rfl⟩
      have := h.counters (ch :: s.pools) (s.allocs + 1) s.frameMax s.bufLog
      obtain ⟨_, _, i', rfl, _⟩ := h
      exact this
    · rw [if_neg h2, if_neg h2]
      refine ⟨_, _, _, rfl, rfl, ?_, rfl, rfl, rfl, rfl⟩
      have := h.counters s.pools (s.allocs + 1) s.frameMax s.bufLog
      obtain ⟨_, _, i', rfl, _⟩ := h
      exact this

theorem PAlike.allocs {s s' : PState} (h : PAlike H s s') (a : Nat) : PAlike H { s with allocs := a } { s' with allocs := a } := by
  have := h.counters s.pools a s.frameMax s.bufLog
  obtain ⟨_, _, i', rfl, _⟩ := h
  exact this

theorem consumeData_alike {s s' : PState} (h : PAlike H s s') (d : Bytes) :
    (consumeData s d = none ∧ consumeData s' d = none) ∨
    ∃ n t t', consumeData s d = some (n, t) ∧ consumeData s' d = some (n, t') ∧ PAlike H t t' ∧ t.mode = s.mode ∧ t.off ≤ t.target := by
  obtain ⟨hf, hm, i', rfl, hi⟩ := h
  have hs := hf.shape
  cases hb : s.inb with
  | null =>
    rw [hb] at hi
    rcases hi with rfl | ⟨m, m', h1, _⟩
    · left
      unfold consumeData PState.raw
      rw [hb]
      exact ⟨rfl, rfl⟩
    · cases h1
  | hdr =>
    rw [hb] at hi hs
    rcases hi with rfl | ⟨m, m', h1, _⟩
    · right
      dsimp only at hs
      have e : { s with inb := .hdr } = s := by rw [← hb]
      have hr : s.raw = some s.hdr := by unfold PState.raw; rw [hb]
      have hh := hf.hdr
      have hc := consumeData_eq hr hs.1 (by omega) d
      refine ⟨_, _, _, hc, by rw [e]; exact hc, ?_, ?_, ?_⟩
      · refine PAlike.refl ⟨?_, ?_⟩ ?_
        · unfold PState.setRaw; rw [hb]; dsimp only
          rw [splice_length (by rw [List.length_take]; omega)]; exact hh
        · unfold PState.setRaw; rw [hb]; dsimp only
          exact ⟨by omega, hs.2⟩
        · unfold PState.setRaw; rw [hb]; exact hm
      · unfold PState.setRaw; rw [hb]
      · unfold PState.setRaw; rw [hb]; dsimp only; omega
    · cases h1
  | pool m =>
    rw [hb] at hi hs
    dsimp only at hs
    right
    have key : ∃ m', i' = .pool m' ∧ m.length = m'.length ∧ m.take s.off = m'.take s.off := by
      rcases hi with rfl | ⟨m1, m', h1, h2, h3, h4⟩
      · exact ⟨m, rfl, rfl, rfl⟩
      · cases h1; exact ⟨m', h2, h3, h4⟩
    obtain ⟨m', rfl, hl, ht⟩ := key
    have hr : s.raw = some m := by unfold PState.raw; rw [hb]
    have hr' : ({ s with inb := Inb.pool m' } : PState).raw = some m' := rfl
    have hlen : ∀ x, (x : Bytes).length = s.target → s.off + (d.take (min (s.target - s.off) d.length)).length ≤ x.length := by
      intro x hx; rw [List.length_take]; omega
    refine ⟨_, _, _, consumeData_eq hr hs.2.1 (by omega) d, consumeData_eq hr' hs.2.1 (by show s.target ≤ _; omega) d, ?_, ?_, ?_⟩
    · unfold PState.setRaw
      rw [hb]
      dsimp only
      refine ⟨⟨hf.hdr, ?_⟩, hm, _, rfl, Or.inr ⟨_, _, rfl, rfl, ?_, ?_⟩⟩
      · show List.length _ = s.target ∧ _
        exact ⟨by rw [splice_length (hlen m hs.1)]; exact hs.1, by dsimp only; omega, hs.2.2⟩
      · rw [splice_length (hlen m hs.1), splice_length (hlen m' (by omega)), hl]
      · refine take_of_agree ((splice_agree hl (hlen m hs.1) (agree_of_take ht)).weaken fun i hi => ?_)
        rw [List.length_take]
        dsimp only at hi
        omega
    · unfold PState.setRaw; rw [hb]
    · unfold PState.setRaw; rw [hb]; dsimp only; omega

theorem bodyPhase_alike (ha : E'.alloc = E.alloc) {s s' : PState} (h : PAlike H s s') (ho : s.target ≤ s.off) (c : Nat) :
    PRel H (bodyPhase E s c) (bodyPhase E' s' c) := by
  have ht := h.fields.2.2.2.1
  unfold bodyPhase
  rw [h.raw ho, ht, ha, rd16_any E'.be E.be, rd32_any E'.be E.be, rd64_any E'.be E.be]
  cases s.raw with
  | none => exact .ub
  | some raw =>
    dsimp only
    cases rd8 raw (subWrap s.target 1) with
    | none => exact .ub
    | some fend =>
      dsimp only
      split
      · exact .err _ h
      · cases rd8 raw 0 with
        | none => exact .ub
        | some ty =>
          cases rd16 E.be raw 1 with
          | none => exact .ub
          | some ch =>
            dsimp only
            obtain ⟨b, t, t', e1, e2, hT, _, hT2, _, _⟩ := getPool_alike ha h ch
            rw [e1, e2]
            cases b with
            | false => exact .err _ hT
            | true =>
              dsimp only
              have hT0 := hT
              obtain ⟨_, _, j', rfl, _⟩ := hT
              dsimp only
              split
              · cases rd32 E.be raw HEADER_SIZE with
                | none => exact .ub
                | some i =>
                  dsimp only
                  have hd := decMethod_on ⟨raw.drop (HEADER_SIZE + 4), subWrap t.target (HEADER_SIZE + 4 + FOOTER_SIZE), E.be, E.alloc⟩ E'.be i t.allocs
                  unfold DEnv.on at hd
                  dsimp only at hd
                  rw [hd]
                  cases decMethod ⟨raw.drop (HEADER_SIZE + 4), subWrap t.target (HEADER_SIZE + 4 + FOOTER_SIZE), E.be, E.alloc⟩ i t.allocs with
                  | ok a d => exact .ok _ (hT0.allocs _).idle
                  | err e d => exact .err _ (hT0.allocs _)
                  | ub => exact .ub
                  | fuel => exact .fuel
              · split
                · cases rd16 E.be raw HEADER_SIZE with
                  | none => exact .ub
                  | some cls =>
                    cases rd64 E.be raw (HEADER_SIZE + 4) with
                    | none => exact .ub
                    | some size =>
                      dsimp only
                      have hd := decProperties_on ⟨raw.drop (HEADER_SIZE + 12), subWrap t.target (HEADER_SIZE + 12 + FOOTER_SIZE), E.be, E.alloc⟩
                        E'.be cls t.allocs
                      unfold DEnv.on at hd
                      dsimp only at hd
                      rw [hd]
                      cases decProperties ⟨raw.drop (HEADER_SIZE + 12), subWrap t.target (HEADER_SIZE + 12 + FOOTER_SIZE), E.be, E.alloc⟩ cls
                        t.allocs with
                      | ok a d => exact .ok _ (hT0.allocs _).idle
                      | err e d => exact .err _ (hT0.allocs _)
                      | ub => exact .ub
                      | fuel => exact .fuel
                · split
                  · cases readAt raw HEADER_SIZE (subWrap t.target (HEADER_SIZE + FOOTER_SIZE)) with
                    | none => exact .ub
                    | some b => exact .ok _ hT0.idle
                  · split
                    · exact .ok _ hT0.idle
                    · exact .ok _ hT0.idle

theorem fresh_agree {f f' : Nat → UInt8} {k n : Nat} {hd : Bytes} (hh : hd.length = 7) (hk : k ≤ 7 ∨ (k ≤ 8 ∧ f 7 = f' 7)) (hn : 7 ≤ n) :
    (splice ((List.range n).map f) 0 hd).take k = (splice ((List.range n).map f') 0 hd).take k := by
  refine take_of_agree fun i hi => ?_
  by_cases h7 : i < 7
  · exact splice_same (by simp) (by simp; omega) i ⟨by omega, by omega⟩
  · have : i = 7 := by omega
    subst this
    rw [splice_getElem? (by simp; omega) 7 (by omega), splice_getElem? (by simp; omega) 7 (by omega)]
    simp only [List.getElem?_map]
    by_cases hn : 7 < n
    · rw [List.getElem?_range hn]
      simp only [Option.map_some]
      rcases hk with h | h
      · omega
      · rw [h.2]
    · rw [List.getElem?_eq_none (by simp; omega)]
      rfl

theorem headerPhase_alike (ha : E'.alloc = E.alloc) (hH : H → ∀ n, E.fresh n 7 = E'.fresh n 7) {s s' : PState} (h : PAlike H s s')
    (ho : s.off = s.target) (hm : s.mode ≠ .body) (c : Nat) (rest : Bytes) :
    PRel H (headerPhase E s c rest) (headerPhase E' s' c rest) := by
  unfold headerPhase
  rw [h.raw (by omega), rd16_any E'.be E.be, rd32_any E'.be E.be]
  cases hr : s.raw with
  | none => exact .ub
  | some raw =>
    dsimp only
    cases rd16 E.be raw 1 with
    | none => exact .ub
    | some ch =>
      cases rd32 E.be raw 3 with
      | none => exact .ub
      | some fs =>
        dsimp only
        have hff := h.fields.2.2.2.2.1
        rw [hff]
        split
        · exact .err _ h
        · split
          · exact .err _ h
          · obtain ⟨b, t, t', e1, e2, hT, o1, o2, o3, o4⟩ := getPool_alike ha h ch
            rw [e1, e2]
            cases b with
            | false => exact .err _ hT
            | true =>
              dsimp only
              obtain ⟨hTf, hTm, j', rfl, hTi⟩ := hT
              dsimp only
              rw [ha]
              have hb : t.inb = .hdr := by
                have hs := h.1.shape
                rw [o4]
                unfold PState.raw at hr
                cases hb : s.inb with
                | hdr => rfl
                | null => rw [hb] at hr; cases hr
                | pool m => rw [hb] at hs; exact absurd hs.2.2 hm
              have hs := hTf.shape
              rw [hb] at hs
              dsimp only at hs
              by_cases hal : E.alloc t.allocs = true
              · rw [if_pos hal, if_pos hal]
                have h7 : (t.hdr.take HEADER_SIZE).length = 7 := by rw [List.length_take, hTf.hdr]; rfl
                have hlen : ∀ f : Nat → UInt8, 0 + (t.hdr.take HEADER_SIZE).length ≤
                    ((List.range (fs.toNat + HEADER_SIZE + FOOTER_SIZE)).map f).length := by
                  intro f; rw [h7, List.length_map, List.length_range]; unfold HEADER_SIZE; omega
                rw [poke_of_le (hlen _), poke_of_le (hlen _)]
                dsimp only
                have hk : PAlike H
                    { t with allocs := t.allocs + 1, bufLog := (fs.toNat + HEADER_SIZE + FOOTER_SIZE) :: t.bufLog, inb := .pool (splice ((List.range (fs.toNat + HEADER_SIZE + FOOTER_SIZE)).map (E.fresh t.allocs)) 0 (t.hdr.take HEADER_SIZE)), mode := .body, target := fs.toNat + HEADER_SIZE + FOOTER_SIZE }
                    { t with allocs := t.allocs + 1, bufLog := (fs.toNat + HEADER_SIZE + FOOTER_SIZE) :: t.bufLog, inb := .pool (splice ((List.range (fs.toNat + HEADER_SIZE + FOOTER_SIZE)).map (E'.fresh t.allocs)) 0 (t.hdr.take HEADER_SIZE)), mode := .body, target := fs.toNat + HEADER_SIZE + FOOTER_SIZE } := by
                  refine ⟨⟨hTf.hdr, ?_⟩, Or.inl (fun h => nomatch h), _, rfl, Or.inr ⟨_, _, rfl, rfl, ?_, ?_⟩⟩
                  · show List.length _ = fs.toNat + HEADER_SIZE + FOOTER_SIZE ∧ t.off ≤ fs.toNat + HEADER_SIZE + FOOTER_SIZE ∧ _
                    refine ⟨?_, ?_, rfl⟩
                    · rw [splice_length (hlen _), List.length_map, List.length_range]
                    · unfold HEADER_SIZE FOOTER_SIZE; omega
                  · rw [splice_length (hlen _), splice_length (hlen _), List.length_map, List.length_map]
                  · refine fresh_agree h7 ?_ (by unfold HEADER_SIZE; omega)
                    rcases hTm with h1 | h1
                    · exact Or.inl (Nat.le_trans hs.1 (hs.2.2 h1))
                    · exact Or.inr ⟨Nat.le_trans hs.1 hs.2.1, hH h1 _⟩
                rcases consumeData_alike hk rest with ⟨p, q⟩ | ⟨n, u, u', p, q, hU, _, hle⟩
                · rw [p, q]; exact .ub
                · rw [p, q]
                  dsimp only
                  rw [hU.fields.2.2.1, hU.fields.2.2.2.1]
                  split
                  · exact .ok _ hU
                  · exact bodyPhase_alike ha hU (by omega) _
              · rw [if_neg hal, if_neg hal]
                refine .err _ ⟨⟨hTf.hdr, trivial⟩, hTm, _, rfl, Or.inl rfl⟩

theorem handleInput_alike (ha : E'.alloc = E.alloc) (hH : H → ∀ n, E.fresh n 7 = E'.fresh n 7) {s s' : PState} (h : PAlike H s s')
    (d : Bytes) : PRel H (handleInput E s d) (handleInput E' s' d) := by
  unfold handleInput
  split
  · exact .ok _ h
  · have hw : PAlike H (if s.mode = .idle then { s with mode := .header } else s) (if s'.mode = .idle then { s' with mode := .header } else s') := by
      rw [h.fields.1]
      split
      · next hm =>
        obtain ⟨hf, hM, i', rfl, hi⟩ := h
        refine ⟨⟨hf.hdr, ?_⟩, Or.inl (fun h => nomatch h), i', rfl, hi⟩
        have hs := hf.shape
        show match s.inb with
          | .hdr => s.off ≤ s.target ∧ s.target ≤ 8 ∧ _
          | .pool m => m.length = s.target ∧ s.off ≤ s.target ∧ PMode.header = .body
          | .null => True
        cases hb : s.inb with
        | hdr => rw [hb] at hs; exact ⟨hs.1, hs.2.1, fun _ => hs.2.2 (by rw [hm]; exact fun h => nomatch h)⟩
        | pool m => rw [hb, hm] at hs; exact absurd hs.2.2 (fun h => nomatch h)
        | null => trivial
      · exact h
    dsimp only
    rcases consumeData_alike hw d with ⟨p, q⟩ | ⟨n, u, u', p, q, hU, _, hle⟩
    · rw [p, q]; exact .ub
    · rw [p, q]
      dsimp only
      rw [hU.fields.2.2.1, hU.fields.2.2.2.1, hU.fields.1]
      split
      · exact .ok _ hU
      · cases hm : u.mode with
        | idle => exact .ub
        | body => exact bodyPhase_alike ha hU (by omega) _
        | header => exact headerPhase_alike ha hH hU (by omega) (by rw [hm]; exact fun h => nomatch h) _ _
        | initial =>
          dsimp only
          rw [hU.raw (by omega)]
          cases u.raw with
          | none => exact .ub
          | some raw =>
            dsimp only
            split
            · cases rd8 raw 4 with
              | none => exact .ub
              | some a =>
                cases rd8 raw 5 with
                | none => exact .ub
                | some b =>
                  cases rd8 raw 6 with
                  | none => exact .ub
                  | some c =>
                    cases rd8 raw 7 with
                    | none => exact .ub
                    | some d => exact .ok _ hU.idle
            · exact headerPhase_alike ha hH hU (by omega) (by rw [hm]; exact fun h => nomatch h) _ _

end
end Rmq
