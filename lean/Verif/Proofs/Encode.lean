import Verif.Proofs.Endian
import Verif.Spec.Wire
/-! Compositional reasoning about the encoders. -/
namespace Rmq

/-! ### splice -/
theorem splice_length {mem : Bytes} {o : Nat} {bs : Bytes} (h : o + bs.length ≤ mem.length) :
    (splice mem o bs).length = mem.length := by
  simp [splice]; omega

theorem splice_nil (mem : Bytes) (o : Nat) : splice mem o [] = mem := by simp [splice]

theorem splice_splice {mem : Bytes} {o : Nat} {a b : Bytes} (h : o + a.length ≤ mem.length) :
    splice (splice mem o a) (o + a.length) b = splice mem o (a ++ b) := by
  simp only [splice]
  have h1 : (mem.take o).length = o := by simp; omega
  rw [List.take_append_of_le_length (by simp; omega), List.take_of_length_le (by simp; omega)]
  rw [List.drop_append, List.length_append, h1]
  rw [List.drop_of_length_le (l := mem.take o ++ a) (by simp; omega)]
  simp [List.drop_drop]
  congr 1
  omega

theorem splice_splice_before {mem : Bytes} {o : Nat} {a b : Bytes} (h : o + a.length + b.length ≤ mem.length) :
    splice (splice mem (o + a.length) b) o a = splice mem o (a ++ b) := by
  simp only [splice]
  have h1 : (mem.take (o + a.length)).length = o + a.length := by simp; omega
  rw [List.append_assoc (mem.take (o + a.length))]
  rw [List.take_append_of_le_length (by omega), List.take_take, Nat.min_eq_left (by omega)]
  rw [List.drop_append, h1, List.drop_of_length_le (by omega)]
  simp [Nat.add_assoc]

theorem splice_getElem? {mem : Bytes} {o : Nat} {bs : Bytes} (h : o + bs.length ≤ mem.length) (i : Nat)
    (hi : i < o ∨ o + bs.length ≤ i) : (splice mem o bs)[i]? = mem[i]? := by
  simp only [splice]
  have h1 : (mem.take o).length = o := by simp; omega
  rcases hi with hi | hi
  · rw [List.append_assoc, List.getElem?_append_left (by omega), List.getElem?_take_of_lt hi]
  · rw [List.getElem?_append_right (by simp; omega), List.getElem?_drop]
    congr 1
    simp only [List.length_append, h1]; omega

theorem splice_drop {mem : Bytes} {o : Nat} {bs : Bytes} (h : o ≤ mem.length) :
    (splice mem o bs).drop o = bs ++ mem.drop (o + bs.length) := by
  simp only [splice, List.append_assoc]
  rw [List.drop_append, List.drop_of_length_le (by simp; omega)]
  simp [Nat.min_eq_left h]

theorem splice_take {mem : Bytes} {o : Nat} {bs : Bytes} (h : o ≤ mem.length) :
    (splice mem o bs).take o = mem.take o := by
  simp only [splice, List.append_assoc]
  rw [List.take_append_of_le_length (by simp; omega), List.take_of_length_le (by simp; omega)]

/-- `s'` differs from `s` only inside the window `[s.off, len)` of the buffer. -/
def Frame (len : Nat) (s s' : EState) : Prop :=
  s'.mem.length = s.mem.length ∧ ∀ i, (i < s.off ∨ len ≤ i) → s'.mem[i]? = s.mem[i]?

theorem Frame.refl (len : Nat) (s : EState) : Frame len s s := ⟨rfl, fun _ _ => rfl⟩
theorem Frame.off (len : Nat) (s : EState) (o : Nat) : Frame len s { s with off := o } := ⟨rfl, fun _ _ => rfl⟩

theorem Frame.splice {len : Nat} {s : EState} {bs : Bytes} {o : Nat} (hl : len ≤ s.mem.length)
    (h : s.off + bs.length ≤ len) : Frame len s ⟨splice s.mem s.off bs, o⟩ := by
  constructor
  · exact splice_length (by omega)
  · intro i hi
    exact splice_getElem? (by omega) i (by omega)

theorem Frame.trans {len : Nat} {s s' s'' : EState} (h : Frame len s s') (h' : Frame len s' s'')
    (ho : s.off ≤ s'.off) : Frame len s s'' := by
  refine ⟨h'.1.trans h.1, fun i hi => ?_⟩
  rw [h'.2 i (by omega), h.2 i hi]

/-- `x` encodes exactly `bs` (when `valid`): it succeeds iff `bs` fits before `len`, writing `bs` at the offset; otherwise it
reports a status in `errs` having touched nothing outside the window `[off, len)`.  (An empty encoding may succeed even past
the end, writing nothing.) -/
def Encodes (len : Nat) (errs : Int → Prop) (valid : Prop) (bs : Bytes) (x : M EState Unit) : Prop :=
  ∀ s : EState, len ≤ s.mem.length →
    (valid → s.off + bs.length ≤ len →
      x s = .ok () ⟨splice s.mem s.off bs, s.off + bs.length⟩) ∧
    (¬ valid ∨ len < s.off + bs.length →
      (∃ e s', x s = .err e s' ∧ errs e ∧ Frame len s s') ∨ (bs = [] ∧ valid ∧ x s = .ok () s))

theorem Encodes.congr_valid {len errs} {v v' : Prop} {bs x} (hv : v ↔ v') (h : Encodes len errs v bs x) :
    Encodes len errs v' bs x := by
  have : v = v' := propext hv
  subst this; exact h

theorem Encodes.congr_bytes {len errs} {v : Prop} {bs bs' : Bytes} {x} (hb : bs = bs') (h : Encodes len errs v bs x) :
    Encodes len errs v bs' x := by subst hb; exact h

theorem Encodes.mono {len} {errs errs' : Int → Prop} {v : Prop} {bs x} (he : ∀ e, errs e → errs' e)
    (h : Encodes len errs v bs x) : Encodes len errs' v bs x := by
  intro s hs
  refine ⟨(h s hs).1, fun hc => ?_⟩
  rcases (h s hs).2 hc with ⟨e, s', h1, h2, h3⟩ | h'
  · exact Or.inl ⟨e, s', h1, he _ h2, h3⟩
  · exact Or.inr h'

theorem Encodes.bind {len errs} {v₁ v₂ : Prop} {b₁ b₂ : Bytes} {x : M EState Unit} {y : Unit → M EState Unit}
    (hx : Encodes len errs v₁ b₁ x) (hy : Encodes len errs v₂ b₂ (y ())) :
    Encodes len errs (v₁ ∧ v₂) (b₁ ++ b₂) (x >>= y) := by
  intro s hs
  have hX := hx s hs
  constructor
  · rintro ⟨h1, h2⟩ hfit
    rw [List.length_append] at hfit
    rw [M.bind_def, hX.1 h1 (by omega)]
    have hY := hy ⟨splice s.mem s.off b₁, s.off + b₁.length⟩ (by
      show len ≤ (splice s.mem s.off b₁).length
      rw [splice_length (by omega)]; exact hs)
    show y () _ = _
    rw [hY.1 h2 (by show s.off + b₁.length + b₂.length ≤ len; omega)]
    show Res.ok () (EState.mk (splice (splice s.mem s.off b₁) (s.off + b₁.length) b₂) (s.off + b₁.length + b₂.length)) = _
    rw [splice_splice (by omega), List.length_append, Nat.add_assoc]
  · intro hc
    rw [List.length_append] at hc
    by_cases h1 : v₁ ∧ s.off + b₁.length ≤ len
    · rw [M.bind_def, hX.1 h1.1 h1.2]
      have hY := hy ⟨splice s.mem s.off b₁, s.off + b₁.length⟩ (by
        show len ≤ (splice s.mem s.off b₁).length
        rw [splice_length (by omega)]; exact hs)
      have hF : Frame len s ⟨splice s.mem s.off b₁, s.off + b₁.length⟩ := Frame.splice hs h1.2
      rcases hY.2 (by
          rcases hc with hc | hc
          · exact Or.inl fun h2 => hc ⟨h1.1, h2⟩
          · right; show len < s.off + b₁.length + b₂.length; omega) with ⟨e, s', he, hee, hf⟩ | ⟨hb, hv, _⟩
      · left
        exact ⟨e, s', he, hee, hF.trans hf (by simp)⟩
      · exfalso
        subst hb
        simp at hc
        rcases hc with hc | hc
        · exact hc h1.1 hv
        · omega
    · rcases hX.2 (by
          by_cases hv : v₁
          · right
            have : ¬ s.off + b₁.length ≤ len := fun h => h1 ⟨hv, h⟩
            omega
          · exact Or.inl hv) with ⟨e, s', he, hee, hf⟩ | ⟨hb, hv, hok⟩
      · left
        refine ⟨e, s', ?_, hee, hf⟩
        rw [M.bind_def, he]
      · subst hb
        have hoff : len < s.off := by
          have : ¬ s.off + ([] : Bytes).length ≤ len := fun h => h1 ⟨hv, h⟩
          simp at this; exact this
        rw [M.bind_def, hok]
        rcases (hy s hs).2 (Or.inr (by omega)) with ⟨e, s', he, hee, hf⟩ | ⟨hb2, hv2, hok2⟩
        · exact Or.inl ⟨e, s', he, hee, hf⟩
        · exact Or.inr ⟨by simp [hb2], ⟨hv, hv2⟩, hok2⟩

theorem Encodes.pure {len errs} : Encodes len errs True [] (Pure.pure () : M EState Unit) := by
  intro s _
  constructor
  · intro _ _; simp [splice_nil]
  · intro _; exact Or.inr ⟨rfl, trivial, rfl⟩

theorem Encodes.fail {len} {errs : Int → Prop} {e : Int} (he : errs e) (bs : Bytes) :
    Encodes len errs False bs (M.fail e : M EState Unit) := by
  intro s _
  exact ⟨fun h => h.elim, fun _ => Or.inl ⟨e, s, rfl, he, Frame.refl _ _⟩⟩

theorem Encodes.raw {len} {errs : Int → Prop} {e : Int} (he : errs e) (bs : Bytes) (_hbs : bs ≠ []) :
    Encodes len errs True bs (M.orFail e (encRaw len bs)) := by
  intro s hs
  constructor
  · intro _ hfit
    simp only [M.orFail, encRaw, hfit, if_true, writeAt]
    rw [if_pos (by omega)]
  · intro hc
    have hc : len < s.off + bs.length := by simpa using hc
    left
    refine ⟨e, { s with off := s.off + bs.length }, ?_, he, Frame.off _ _ _⟩
    simp only [M.orFail, encRaw]
    rw [if_neg (by show ¬ (s.off + bs.length ≤ len); omega)]

theorem Encodes.enc8 {len} {errs : Int → Prop} {e : Int} (he : errs e) (v : UInt8) :
    Encodes len errs True (beBytes 1 v.toNat) (M.orFail e (Rmq.enc8 len v)) := by
  rw [← e8_eq]; exact Encodes.raw he _ (by simp [e8, native8])
theorem Encodes.enc16 {len} {errs : Int → Prop} {e : Int} (he : errs e) (be : Bool) (v : UInt16) :
    Encodes len errs True (beBytes 2 v.toNat) (M.orFail e (Rmq.enc16 be len v)) := by
  rw [← e16_eq be]; exact Encodes.raw he _ (by rw [e16_eq]; simp [beBytes])
theorem Encodes.enc32 {len} {errs : Int → Prop} {e : Int} (he : errs e) (be : Bool) (v : UInt32) :
    Encodes len errs True (beBytes 4 v.toNat) (M.orFail e (Rmq.enc32 be len v)) := by
  rw [← e32_eq be]; exact Encodes.raw he _ (by rw [e32_eq]; simp [beBytes])
theorem Encodes.enc64 {len} {errs : Int → Prop} {e : Int} (he : errs e) (be : Bool) (v : UInt64) :
    Encodes len errs True (beBytes 8 v.toNat) (M.orFail e (Rmq.enc64 be len v)) := by
  rw [← e64_eq be]; exact Encodes.raw he _ (by rw [e64_eq]; simp [beBytes])

theorem Encodes.encBytes {len} {errs : Int → Prop} {e : Int} (he : errs e) (bs : Bytes) :
    Encodes len errs True bs (M.orFail e (Rmq.encBytes len bs)) := by
  by_cases h : bs = []
  · subst h
    intro s _
    constructor
    · intro _ _; simp [M.orFail, Rmq.encBytes, splice_nil]
    · intro _; exact Or.inr ⟨rfl, trivial, by simp [M.orFail, Rmq.encBytes]⟩
  · have h0 : M.orFail e (Rmq.encBytes len bs) = M.orFail e (encRaw len bs) := by
      funext s
      have : bs.length ≠ 0 := by simpa using h
      simp [M.orFail, Rmq.encBytes, this]
    rw [h0]; exact Encodes.raw he bs h

theorem beBytes_mod (n x : Nat) : beBytes n (x % 256 ^ n) = beBytes n x := by
  conv => rhs; rw [← Nat.mod_add_div x (256 ^ n), Nat.mul_comm (256 ^ n)]
  exact (beBytes_add_mul _ _ _).symm

/-- The back-patched container encoders. -/
theorem Encodes.sized {len} {errs : Int → Prop} (he : errs St.TABLE_TOO_BIG) (be : Bool) {v : Prop} {bs : Bytes}
    {loop : M EState Unit} (h : Encodes len errs v bs loop) :
    Encodes len errs v (serLong bs) (encArrayWith be len loop) := by
  have hlen : (serLong bs).length = 4 + bs.length := by simp [serLong, beBytes_length]
  intro s hs
  have hL := h { s with off := s.off + 4 } hs
  constructor
  · intro hv hfit
    rw [hlen] at hfit
    have h1 := hL.1 hv (by show s.off + 4 + bs.length ≤ len; omega)
    simp only [encArrayWith, h1]
    have hsl : (splice s.mem (s.off + 4) bs).length = s.mem.length := splice_length (by omega)
    have hcount : s.off + 4 + bs.length - s.off - 4 = bs.length := by omega
    have hb : beBytes 4 (UInt32.ofNat bs.length).toNat = beBytes 4 bs.length := by
      rw [UInt32.toNat_ofNat']; exact beBytes_mod 4 bs.length
    have h2 := (Encodes.enc32 (len := len) he be (UInt32.ofNat bs.length)
      ⟨splice s.mem (s.off + 4) bs, s.off⟩ (by show len ≤ _; rw [hsl]; exact hs)).1 trivial
      (by rw [beBytes_length]; show s.off + 4 ≤ len; omega)
    rw [hcount, h2, hb]
    simp only [serLong]
    have := splice_splice_before (mem := s.mem) (o := s.off) (a := beBytes 4 bs.length) (b := bs)
      (by rw [beBytes_length]; omega)
    rw [beBytes_length] at this
    rw [this]
    simp [beBytes_length, Nat.add_assoc]
  · intro hc
    rw [hlen] at hc
    left
    rcases hL.2 (by
        rcases hc with hc | hc
        · exact Or.inl hc
        · right; show len < s.off + 4 + bs.length; omega) with ⟨e, s', h1, hee, hf⟩ | ⟨hb, hv, hok⟩
    · refine ⟨e, s', ?_, hee, ?_⟩
      · simp only [encArrayWith, h1]
      · refine ⟨hf.1, fun i hi => hf.2 i ?_⟩
        show i < s.off + 4 ∨ len ≤ i
        omega
    · subst hb
      simp only [encArrayWith, hok]
      have hoff : len < s.off + 4 := by
        rcases hc with hc | hc
        · exact absurd hv hc
        · simpa using hc
      rcases (Encodes.enc32 (len := len) he be (UInt32.ofNat (s.off + 4 - s.off - 4)) s hs).2
        (Or.inr (by rw [beBytes_length]; omega)) with ⟨e, s', h1, hee, hf⟩ | ⟨hb, _⟩
      · exact ⟨e, { s' with off := s.off + 4 }, by rw [h1], hee, hf⟩
      · simp [beBytes] at hb

theorem encTableWith_eq (be : Bool) (len : Nat) (loop : M EState Unit) :
    encTableWith be len loop = encArrayWith be len loop := rfl

end Rmq
