import Verif.Proofs.PortableCodec
/-!
# Frames: neither the host's byte order nor uninitialised memory matters
-/
namespace Rmq

theorem take_of_agree {m m' : Bytes} {k : Nat} (h : AgreeOn (fun i => i < k) m m') : m.take k = m'.take k := by
  apply List.ext_getElem?
  intro i
  rw [List.getElem?_take, List.getElem?_take]
  by_cases hi : i < k
  · rw [if_pos hi, if_pos hi]; exact h i hi
  · rw [if_neg hi, if_neg hi]

theorem agree_of_take {m m' : Bytes} {k : Nat} (h : m.take k = m'.take k) : AgreeOn (fun i => i < k) m m' := by
  intro i hi
  have := congrArg (·[i]?) h
  simpa only [List.getElem?_take, if_pos hi] using this

theorem AgreeOn.weaken {A B : Nat → Prop} {m m' : Bytes} (h : AgreeOn A m m') (hB : ∀ i, B i → A i) : AgreeOn B m m' :=
  fun i hi => h i (hB i hi)

theorem AgreeOn.none {m m' : Bytes} : AgreeOn (fun _ => False) m m' := fun _ h => h.elim

/-- Two stores of the same octets in the same place. -/
theorem poke_alike {m m' : Bytes} {o : Nat} {bs : Bytes} (hl : m.length = m'.length) {A : Nat → Prop} (hA : AgreeOn A m m') :
    (poke m o bs = none ∧ poke m' o bs = none) ∨
    ∃ t t', poke m o bs = some t ∧ poke m' o bs = some t' ∧ t.length = m.length ∧ t'.length = m.length ∧
      AgreeOn (fun i => A i ∨ (o ≤ i ∧ i < o + bs.length)) t t' := by
  unfold poke
  by_cases h : o + bs.length ≤ m.length
  · rw [if_pos h, if_pos (by omega)]
    exact Or.inr ⟨_, _, rfl, rfl, splice_length h, (splice_length (by omega)).trans hl.symm, splice_agree hl h hA⟩
  · rw [if_neg h, if_neg (by omega)]
    exact Or.inl ⟨rfl, rfl⟩

/-- The same octets, buffers of the same size. -/
def FrameRes (m : Bytes) (r r' : Res Bytes Bytes) : Prop :=
  (∃ enc t t', r = .ok enc t ∧ r' = .ok enc t' ∧ t.length = m.length ∧ t'.length = m.length) ∨
  (∃ e t t', r = .err e t ∧ r' = .err e t' ∧ t.length = m.length ∧ t'.length = m.length) ∨
  (r = .ub ∧ r' = .ub) ∨ (r = .fuel ∧ r' = .fuel)

theorem FrameRes.undefined {m : Bytes} : FrameRes m .ub .ub := Or.inr (Or.inr (Or.inl ⟨rfl, rfl⟩))
theorem FrameRes.len {m n : Bytes} {r r' : Res Bytes Bytes} (h : m.length = n.length) (hr : FrameRes m r r') : FrameRes n r r' := by
  unfold FrameRes at *; rw [← h]; exact hr

theorem finishFrame_alike (b b' : Bool) {m m' : Bytes} {n : Nat} (hl : m.length = m'.length)
    (hA : AgreeOn (fun i => i < 3 ∨ (7 ≤ i ∧ i < 7 + n)) m m') : FrameRes m (finishFrame b m n) (finishFrame b' m' n) := by
  unfold finishFrame
  rw [e32_any b' b]
  have h4 : (e32 b (UInt32.ofNat n)).length = 4 := by rw [e32_eq, beBytes_length]
  rcases poke_alike (o := 3) (bs := e32 b (UInt32.ofNat n)) hl hA with ⟨p, q⟩ | ⟨t, t', p, q, l1, l2, a⟩
  · rw [p, q]; exact .undefined
  · rw [p, q]
    dsimp only
    rcases poke_alike (o := HEADER_SIZE + n) (bs := e8 FRAME_END) (l1.trans l2.symm) a with ⟨p, q⟩ | ⟨u, u', p, q, k1, k2, c⟩
    · rw [p, q]; exact .undefined
    · rw [p, q]
      have h1 : (e8 FRAME_END).length = 1 := rfl
      have e : u.take (n + HEADER_SIZE + FOOTER_SIZE) = u'.take (n + HEADER_SIZE + FOOTER_SIZE) := by
        refine take_of_agree (c.weaken fun i hi => ?_)
        unfold HEADER_SIZE FOOTER_SIZE at hi
        unfold HEADER_SIZE
        omega
      dsimp only
      rw [← e]
      exact Or.inl ⟨_, _, _, rfl, rfl, k1.trans l1, k2.trans l1⟩

theorem join_agree {m m' t t' : Bytes} {k n : Nat} (hk : k ≤ m.length) (hl : m.length = m'.length) {A : Nat → Prop}
    (hA : AgreeOn A m m') (ht : AgreeOn (fun i => i < n) t t') :
    AgreeOn (fun i => (A i ∧ i < k) ∨ (k ≤ i ∧ i < k + n)) (m.take k ++ t) (m'.take k ++ t') := by
  intro i hi
  have h1 : (m.take k).length = k := by simp; omega
  have h2 : (m'.take k).length = k := by simp; omega
  rcases hi with ⟨ha, hi⟩ | ⟨h3, h4⟩
  · rw [List.getElem?_append_left (by omega), List.getElem?_append_left (by omega), List.getElem?_take_of_lt hi,
      List.getElem?_take_of_lt hi]
    exact hA i ha
  · rw [List.getElem?_append_right (by omega), List.getElem?_append_right (by omega), h1, h2]
    exact ht _ (by omega)

theorem join_length {m t : Bytes} {k : Nat} (hk : k ≤ m.length) (ht : t.length = m.length - k) : (m.take k ++ t).length = m.length := by
  simp; omega

/-- What is written after the encoder ran behind the first `k` octets. -/
theorem body_alike (b b' : Bool) {m m' : Bytes} {k c : Nat} (hk : k ≤ m.length) (h7 : 7 + c = k) (hl : m.length = m'.length)
    (hA : AgreeOn (fun i => i < 3 ∨ (7 ≤ i ∧ i < k)) m m') {r r' : Res EState Nat} : EncRes (m.drop k) r r' →
    FrameRes m (match r with
      | .ok n s => finishFrame b (m.take k ++ s.mem) (n + c)
      | .err e s => .err e (m.take k ++ s.mem)
      | .ub => .ub
      | .fuel => .fuel) (match r' with
      | .ok n s => finishFrame b' (m'.take k ++ s.mem) (n + c)
      | .err e s => .err e (m'.take k ++ s.mem)
      | .ub => .ub
      | .fuel => .fuel) := by
  intro hr
  rcases hr with ⟨n, t, t', rfl, rfl, l1, l2, a⟩ | ⟨e, t, t', rfl, rfl, l1, l2⟩ | ⟨rfl, rfl⟩ | ⟨rfl, rfl⟩
  · rw [List.length_drop] at l1 l2
    have j1 := join_length (t := t.mem) hk l1
    have j2 : (m'.take k ++ t'.mem).length = m'.length := join_length (by omega) (by omega)
    refine FrameRes.len j1 (finishFrame_alike b b' (by omega) ((join_agree hk hl hA a).weaken fun i hi => ?_))
    omega
  · rw [List.length_drop] at l1 l2
    have j1 := join_length (t := t.mem) hk l1
    have j2 : (m'.take k ++ t'.mem).length = m'.length := join_length (by omega) (by omega)
    exact Or.inr (Or.inl ⟨_, _, _, rfl, rfl, j1, by omega⟩)
  · exact .undefined
  · exact Or.inr (Or.inr (Or.inr ⟨rfl, rfl⟩))

theorem poke_some_le {m t : Bytes} {o : Nat} {bs : Bytes} (h : poke m o bs = some t) : o + bs.length ≤ m.length := by
  unfold poke at h
  by_cases h1 : o + bs.length ≤ m.length
  · exact h1
  · rw [if_neg h1] at h; cases h

theorem frameToBytes_alike (b b' : Bool) {m m' : Bytes} (hl : m.length = m'.length) (len : Nat) (f : AFrame) :
    FrameRes m (frameToBytes b m len f) (frameToBytes b' m' len f) := by
  unfold frameToBytes
  rw [e16_any b' b, e32_any b' b, e64_any b' b]
  rcases poke_alike (o := 0) (bs := e8 f.payload.frameType) hl AgreeOn.none with ⟨p, q⟩ | ⟨t, t', p, q, l1, l2, a⟩
  · rw [p, q]; exact .undefined
  rw [p, q]
  dsimp only
  rcases poke_alike (o := 1) (bs := e16 b f.channel) (l1.trans l2.symm) a with ⟨p, q⟩ | ⟨u, u', p, q, k1, k2, c⟩
  · rw [p, q]; exact .undefined
  rw [p, q]
  have h1 : (e8 f.payload.frameType).length = 1 := rfl
  have h2 : ∀ v, (e16 b v).length = 2 := fun v => by rw [e16_eq, beBytes_length]
  have h4 : ∀ v, (e32 b v).length = 4 := fun v => by rw [e32_eq, beBytes_length]
  have h8 : ∀ v, (e64 b v).length = 8 := fun v => by rw [e64_eq, beBytes_length]
  have base : AgreeOn (fun i => i < 3) u u' := c.weaken fun i hi => by have := h2 f.channel; omega
  have hu : u.length = m.length := k1.trans l1
  have hu' : u.length = u'.length := k1.trans k2.symm
  dsimp only
  cases hp : f.payload with
  | body x =>
    dsimp only
    rcases poke_alike (o := HEADER_SIZE) (bs := x) hu' base with ⟨p, q⟩ | ⟨v, v', p, q, j1, j2, d⟩
    · rw [p, q]; exact .undefined
    · rw [p, q]
      exact FrameRes.len (j1.trans hu) (finishFrame_alike b b' (j1.trans j2.symm) d)
  | method i args =>
    dsimp only
    rcases poke_alike (o := HEADER_SIZE) (bs := e32 b i) hu' base with ⟨p, q⟩ | ⟨v, v', p, q, j1, j2, d⟩
    · rw [p, q]; exact .undefined
    · have hle := poke_some_le p
      rw [p, q]
      dsimp only
      rw [h4] at d hle
      refine FrameRes.len (j1.trans hu) (body_alike (k := HEADER_SIZE + 4) (c := 4) b b' (by omega) rfl (j1.trans j2.symm) d (encMethod_alike b b' _ ?_ i args))
      rw [List.length_drop, List.length_drop, j1, j2]
  | header cls size flags props =>
    dsimp only
    rcases poke_alike (o := HEADER_SIZE) (bs := e16 b cls) hu' base with ⟨p, q⟩ | ⟨v, v', p, q, j1, j2, d⟩
    · rw [p, q]; exact .undefined
    rw [p, q]
    dsimp only
    rcases poke_alike (o := HEADER_SIZE + 2) (bs := e16 b 0) (j1.trans j2.symm) d with ⟨p, q⟩ | ⟨w, w', p, q, i1, i2, g⟩
    · rw [p, q]; exact .undefined
    rw [p, q]
    dsimp only
    rcases poke_alike (o := HEADER_SIZE + 4) (bs := e64 b size) (i1.trans i2.symm) g with ⟨p, q⟩ | ⟨y, y', p, q, n1, n2, z⟩
    · rw [p, q]; exact .undefined
    have hle := poke_some_le p
    rw [p, q]
    dsimp only
    rw [h8] at hle z
    refine FrameRes.len (n1.trans (i1.trans (j1.trans hu))) (body_alike (k := HEADER_SIZE + 12) (c := 12) b b' (by omega) rfl (n1.trans n2.symm) (z.weaken fun i hi => ?_)
      (encProperties_alike b b' _ ?_ cls flags props))
    · have e1 := h2 cls
      have e2 := h2 0
      unfold HEADER_SIZE at *
      omega
    · rw [List.length_drop, List.length_drop, n1, n2]
  | heartbeat => exact FrameRes.len hu (finishFrame_alike b b' hu' (base.weaken fun i hi => by omega))
  | protocolHeader _ _ _ _ => exact Or.inr (Or.inl ⟨_, _, _, rfl, rfl, hu, by omega⟩)
  | other _ => exact Or.inr (Or.inl ⟨_, _, _, rfl, rfl, hu, by omega⟩)

end Rmq
