import Verif.Proofs.FrameEnc
import Verif.Props.Methods
/-! Serialising stays inside the outbound buffer. -/
namespace Rmq

/-- What an encoder that is `Encodes` does on any buffer. -/
theorem Encodes.total {len errs} {v : Prop} {bs : Bytes} {x : M EState Unit} (h : Encodes len errs v bs x) (s : EState)
    (hl : len ≤ s.mem.length) (ho : s.off ≤ len) :
    (v ∧ s.off + bs.length ≤ len ∧ x s = .ok () ⟨splice s.mem s.off bs, s.off + bs.length⟩) ∨
    (∃ e s', x s = .err e s' ∧ errs e ∧ s'.mem.length = s.mem.length ∧ (¬ v ∨ len < s.off + bs.length)) := by
  by_cases hv : v
  · by_cases hf : s.off + bs.length ≤ len
    · exact Or.inl ⟨hv, hf, (h s hl).1 hv hf⟩
    · rcases (h s hl).2 (Or.inr (by omega)) with ⟨e, s', h1, h2, h3⟩ | ⟨h1, _, _⟩
      · exact Or.inr ⟨e, s', h1, h2, h3.1, Or.inr (by omega)⟩
      · subst h1; simp at hf; omega
  · rcases (h s hl).2 (Or.inl hv) with ⟨e, s', h1, h2, h3⟩ | ⟨_, h2, _⟩
    · exact Or.inr ⟨e, s', h1, h2, h3.1, Or.inl hv⟩
    · exact absurd h2 hv

theorem encFlags_any (be : Bool) (len : Nat) (flags : UInt32) :
    ∃ bs, Encodes len TableErr True bs (encFlags be len 3 flags) := by
  have h2 : ∀ f : UInt32, f >>> 16 >>> 16 = 0 := by
    intro f
    rw [← UInt32.toNat_inj, UInt32.toNat_shiftRight, UInt32.toNat_shiftRight]
    show f.toNat >>> 16 >>> 16 = 0
    have := f.toNat_lt
    rw [Nat.shiftRight_eq_div_pow, Nat.shiftRight_eq_div_pow]
    omega
  have one : ∀ (n : Nat) (f : UInt32), f >>> 16 = 0 → ∃ bs, Encodes len TableErr True bs (encFlags be len (n + 1) f) := by
    intro n f h
    unfold encFlags
    simp only [h, ne_eq, not_true_eq_false, if_false]
    exact ⟨_, ((Encodes.enc16 (e := St.BAD_AMQP_DATA) TableErr.bad be _).bind (y := fun _ => Pure.pure ()) Encodes.pure).congr_valid
      (and_self_iff)⟩
  by_cases h : flags >>> 16 = 0
  · exact one 2 flags h
  · unfold encFlags
    simp only [ne_eq, h, not_false_eq_true, if_true]
    obtain ⟨bs, hb⟩ := one 1 (flags >>> 16) (h2 flags)
    exact ⟨_, ((Encodes.enc16 (e := St.BAD_AMQP_DATA) TableErr.bad be _).bind (y := fun _ => encFlags be len 2 (flags >>> 16))
      hb).congr_valid (and_self_iff)⟩

/-- Either the encoder stays within `len` and the buffer keeps its size, or it fails, the buffer keeping its size. -/
def KeptBuf (size len : Nat) (r : Res EState Nat) : Prop :=
  (∃ n s, r = .ok n s ∧ n ≤ len ∧ s.mem.length = size) ∨ (∃ e s, r = .err e s ∧ s.mem.length = size)

theorem encMethod_kept (be : Bool) (mem : Bytes) (len : Nat) (hlen : len ≤ mem.length) (id : UInt32) (r : Rec)
    (hW : WellTyped (.method id r)) : KeptBuf mem.length len (encMethod be mem len id r) := by
  by_cases h : ∃ p ∈ protocol, p.id = id
  · obtain ⟨p, hp, rfl⟩ := h
    have hr := hW p hp rfl
    have hE := (encArgs_encodes be len r p.args r hr
      (get?_of_nodup (by rw [hr.fst_eq]; exact protocol_args_nodup p hp)) [] [] trivial (by simp)).total ⟨mem, 0⟩ hlen
      (Nat.zero_le _)
    simp only [encMethod, enc_switch hp]
    rcases hE with ⟨_, h1, h2⟩ | ⟨e, s', h1, _, h2, _⟩
    · rw [h2]
      exact Or.inl ⟨_, _, rfl, h1, splice_length (by simp at h1 ⊢; omega)⟩
    · rw [h1]; exact Or.inr ⟨_, _, rfl, h2⟩
  · have hu : ∀ p ∈ protocol, p.id ≠ id := fun p hp he => h ⟨p, hp, he⟩
    simp only [encMethod, enc_switch_none hu]
    exact Or.inr ⟨_, _, rfl, rfl⟩

theorem encProperties_kept (be : Bool) (mem : Bytes) (len : Nat) (hlen : len ≤ mem.length) (cls : UInt16) (size : UInt64)
    (flags : UInt32) (r : Rec) (hW : WellTyped (.header cls size flags r)) :
    KeptBuf mem.length len (encProperties be mem len cls flags r) := by
  obtain ⟨bs, hF⟩ := encFlags_any be len flags
  unfold encProperties
  rcases hF.total ⟨mem, 0⟩ hlen (Nat.zero_le _) with ⟨_, h1, h2⟩ | ⟨e, s', h1, _, h2, _⟩
  · rw [h2]
    dsimp only
    simp only [Nat.zero_add] at h1 ⊢
    have hsl : (splice mem 0 bs).length = mem.length := splice_length (by omega)
    by_cases hc : ∃ c ∈ propClasses, c.1 = cls
    · obtain ⟨c, hc, rfl⟩ := hc
      rw [encProp_switch hc]
      dsimp only
      have hP := (encProps_encodes be len flags r c.2 (propClasses_ok c hc) (hW c hc rfl)).total
        ⟨splice mem 0 bs, bs.length⟩ (by simp [hsl]; omega) (by simp; omega)
      rcases hP with ⟨_, p1, p2⟩ | ⟨e, s', p1, _, p2, _⟩
      · rw [p2]
        exact Or.inl ⟨_, _, rfl, p1, (splice_length (by simp [hsl] at p1 ⊢; omega)).trans hsl⟩
      · rw [p1]; exact Or.inr ⟨_, _, rfl, p2.trans hsl⟩
    · have : switch cls encPropTable = none := by
        rw [encPropTable_eq]
        exact (switch_mem _ _ propClasses_nodup).2 cls (fun c hm he => hc ⟨c, hm, he⟩)
      rw [this]
      exact Or.inr ⟨_, _, rfl, hsl⟩
  · rw [h1]; exact Or.inr ⟨_, _, rfl, h2⟩

theorem poke_ok {mem : Bytes} {o : Nat} {bs : Bytes} (h : o + bs.length ≤ mem.length) :
    ∃ m, poke mem o bs = some m ∧ m.length = mem.length := ⟨_, poke_of_le h, splice_length h⟩

theorem e8_length (v : UInt8) : (e8 v).length = 1 := rfl
theorem e16_length (be : Bool) (v : UInt16) : (e16 be v).length = 2 := by rw [e16_eq, beBytes_length]
theorem e32_length (be : Bool) (v : UInt32) : (e32 be v).length = 4 := by rw [e32_eq, beBytes_length]
theorem e64_length (be : Bool) (v : UInt64) : (e64 be v).length = 8 := by rw [e64_eq, beBytes_length]

theorem finishFrame_kept (be : Bool) {mem : Bytes} {n : Nat} (h : n + 8 ≤ mem.length) :
    ∃ bs mem', finishFrame be mem n = .ok bs mem' ∧ bs.length = n + 8 ∧ mem'.length = mem.length := by
  unfold finishFrame
  obtain ⟨m1, h1, l1⟩ := poke_ok (mem := mem) (o := 3) (bs := e32 be (UInt32.ofNat n)) (by rw [e32_length]; omega)
  rw [h1]; dsimp only
  obtain ⟨m2, h2, l2⟩ := poke_ok (mem := m1) (o := HEADER_SIZE + n) (bs := e8 FRAME_END)
    (by rw [e8_length, HEADER_SIZE]; omega)
  rw [h2]
  exact ⟨_, _, rfl, by rw [List.length_take, HEADER_SIZE, FOOTER_SIZE]; omega, by omega⟩

theorem frameToBytes_kept (be : Bool) (mem : Bytes) (f : AFrame) (h20 : 20 ≤ mem.length) (hW : WellTyped f.payload)
    (hbody : ∀ b, f.payload = .body b → b.length + 8 ≤ mem.length) :
    (∃ bs mem', frameToBytes be mem mem.length f = .ok bs mem' ∧ bs.length ≤ mem.length ∧ mem'.length = mem.length) ∨
    (∃ e mem', frameToBytes be mem mem.length f = .err e mem' ∧ mem'.length = mem.length) := by
  unfold frameToBytes
  obtain ⟨m1, h1, l1⟩ := poke_ok (mem := mem) (o := 0) (bs := e8 f.payload.frameType) (by rw [e8_length]; omega)
  rw [h1]; dsimp only
  obtain ⟨m2, h2, l2⟩ := poke_ok (mem := m1) (o := 1) (bs := e16 be f.channel) (by rw [e16_length]; omega)
  rw [h2]; dsimp only
  cases hp : f.payload with
  | body b =>
    dsimp only
    have := hbody b hp
    obtain ⟨m3, h3, l3⟩ := poke_ok (mem := m2) (o := HEADER_SIZE) (bs := b) (by rw [HEADER_SIZE]; omega)
    rw [h3]; dsimp only
    obtain ⟨bs, mem', q1, q2, q3⟩ := finishFrame_kept be (mem := m3) (n := b.length) (by omega)
    exact Or.inl ⟨bs, mem', q1, by omega, by omega⟩
  | method id r =>
    dsimp only
    obtain ⟨m3, h3, l3⟩ := poke_ok (mem := m2) (o := HEADER_SIZE) (bs := e32 be id) (by rw [HEADER_SIZE, e32_length]; omega)
    rw [h3]; dsimp only [HEADER_SIZE, FOOTER_SIZE]
    rw [subWrap_of_le (by omega)]
    rw [hp] at hW
    rcases encMethod_kept be (m3.drop 11) (mem.length - 12) (by simp; omega) id r hW with ⟨n, s, e1, e2, e3⟩ | ⟨e, s, e1, e3⟩
    · rw [e1]; dsimp only
      have hl : (m3.take 11 ++ s.mem).length = mem.length := by
        rw [List.length_append, e3, List.length_take, List.length_drop]; omega
      obtain ⟨bs, mem', q1, q2, q3⟩ := finishFrame_kept be (mem := m3.take 11 ++ s.mem) (n := n + 4) (by omega)
      exact Or.inl ⟨bs, mem', q1, by omega, by omega⟩
    · rw [e1]
      exact Or.inr ⟨_, _, rfl, by rw [List.length_append, e3, List.length_take, List.length_drop]; omega⟩
  | header cls size flags r =>
    dsimp only
    obtain ⟨m3, h3, l3⟩ := poke_ok (mem := m2) (o := HEADER_SIZE) (bs := e16 be cls) (by rw [HEADER_SIZE, e16_length]; omega)
    rw [h3]; dsimp only
    obtain ⟨m4, h4, l4⟩ := poke_ok (mem := m3) (o := HEADER_SIZE + 2) (bs := e16 be 0)
      (by rw [HEADER_SIZE, e16_length]; omega)
    rw [h4]; dsimp only
    obtain ⟨m5, h5, l5⟩ := poke_ok (mem := m4) (o := HEADER_SIZE + 4) (bs := e64 be size)
      (by rw [HEADER_SIZE, e64_length]; omega)
    rw [h5]; dsimp only [HEADER_SIZE, FOOTER_SIZE]
    rw [subWrap_of_le (by omega)]
    rw [hp] at hW
    rcases encProperties_kept be (m5.drop 19) (mem.length - 20) (by simp; omega) cls size flags r hW with
      ⟨n, s, e1, e2, e3⟩ | ⟨e, s, e1, e3⟩
    · rw [e1]; dsimp only
      have hl : (m5.take 19 ++ s.mem).length = mem.length := by
        rw [List.length_append, e3, List.length_take, List.length_drop]; omega
      obtain ⟨bs, mem', q1, q2, q3⟩ := finishFrame_kept be (mem := m5.take 19 ++ s.mem) (n := n + 12) (by omega)
      exact Or.inl ⟨bs, mem', q1, by omega, by omega⟩
    · rw [e1]
      exact Or.inr ⟨_, _, rfl, by rw [List.length_append, e3, List.length_take, List.length_drop]; omega⟩
  | heartbeat =>
    dsimp only
    obtain ⟨bs, mem', q1, q2, q3⟩ := finishFrame_kept be (mem := m2) (n := 0) (by omega)
    exact Or.inl ⟨bs, mem', q1, by omega, by omega⟩
  | protocolHeader a b c d => exact Or.inr ⟨_, _, rfl, by omega⟩
  | other t => exact Or.inr ⟨_, _, rfl, by omega⟩

theorem nodup_map_inj {α β : Type} (f : α → β) {l : List α} (hn : (l.map f).Nodup) {a b : α} (ha : a ∈ l) (hb : b ∈ l)
    (h : f a = f b) : a = b := by
  induction l with
  | nil => cases ha
  | cons x l ih =>
    rw [List.map_cons, List.nodup_cons] at hn
    rcases List.mem_cons.mp ha with rfl | ha'
    · rcases List.mem_cons.mp hb with rfl | hb'
      · rfl
      · exact absurd (by rw [h]; exact List.mem_map_of_mem hb') hn.1
    · rcases List.mem_cons.mp hb with rfl | hb'
      · exact absurd (by rw [← h]; exact List.mem_map_of_mem ha') hn.1
      · exact ih hn.2 ha' hb'

/-- Method and header frames that do not fit are refused. -/
theorem frameToBytes_refuse (be : Bool) (mem : Bytes) (ch : UInt16) {p q : Payload} {ty : UInt8} {bs : Bytes}
    (hW : Wire p ty bs q) (hnb : ∀ b, p ≠ .body b) (h20 : 20 ≤ mem.length) (hbig : mem.length < bs.length + 8) :
    ∃ e mem', frameToBytes be mem mem.length ⟨ch, p⟩ = .err e mem' := by
  have hK : WellTyped p := by
    cases hW with
    | @method p r hp hr he hf =>
      intro p' hp' hid
      have : p' = p := nodup_map_inj Proto.id protocol_ids_nodup hp' hp hid
      subst this; exact hr
    | @header c size flags r hc hw he hf =>
      intro c' hc' hid
      have : c' = c := nodup_map_inj (·.1) propClasses_nodup hc' hc hid
      subst this
      exact fun p hm hs => by
        obtain ⟨v, h1, h2, _⟩ := he p hm hs
        exact ⟨v, h1, h2, trivial⟩
    | body b => trivial
    | heartbeat => trivial
  unfold frameToBytes
  obtain ⟨m1, h1, l1⟩ := poke_ok (mem := mem) (o := 0) (bs := e8 p.frameType) (by rw [e8_length]; omega)
  rw [h1]; dsimp only
  obtain ⟨m2, h2, l2⟩ := poke_ok (mem := m1) (o := 1) (bs := e16 be ch) (by rw [e16_length]; omega)
  rw [h2]; dsimp only
  cases hW with
  | body b => exact absurd rfl (hnb _)
  | heartbeat => simp at hbig; omega
  | @method p r hp hr he hf =>
    dsimp only
    obtain ⟨m3, h3, l3⟩ := poke_ok (mem := m2) (o := HEADER_SIZE) (bs := e32 be p.id)
      (by rw [HEADER_SIZE, e32_length]; omega)
    rw [h3]; dsimp only [HEADER_SIZE, FOOTER_SIZE]
    rw [subWrap_of_le (by omega)]
    rw [List.length_append, beBytes_length] at hbig
    obtain ⟨e, s, h⟩ := (C10_method_wire_layout p hp r hr he be (m3.drop 11) (mem.length - 12) (by simp; omega)).2 (by omega)
    rw [h]; exact ⟨_, _, rfl⟩
  | @header c size flags r hc hw he hf =>
    dsimp only
    obtain ⟨m3, h3, l3⟩ := poke_ok (mem := m2) (o := HEADER_SIZE) (bs := e16 be c.1)
      (by rw [HEADER_SIZE, e16_length]; omega)
    rw [h3]; dsimp only
    obtain ⟨m4, h4, l4⟩ := poke_ok (mem := m3) (o := HEADER_SIZE + 2) (bs := e16 be 0)
      (by rw [HEADER_SIZE, e16_length]; omega)
    rw [h4]; dsimp only
    obtain ⟨m5, h5, l5⟩ := poke_ok (mem := m4) (o := HEADER_SIZE + 4) (bs := e64 be size)
      (by rw [HEADER_SIZE, e64_length]; omega)
    rw [h5]; dsimp only [HEADER_SIZE, FOOTER_SIZE]
    rw [subWrap_of_le (by omega)]
    simp only [List.length_append, beBytes_length, List.length_cons, List.length_nil] at hbig
    have hn := (C13_properties_wire_layout hc be flags hw r he (m5.drop 19) (mem.length - 20) (by simp; omega)).2 (by omega)
    obtain ⟨e, s, h⟩ := hn
    rw [h]; exact ⟨_, _, rfl⟩

/-- Exactly when serialising a body frame leaves the buffer. -/
theorem frameToBytes_body (be : Bool) (mem : Bytes) (ch : UInt16) (b : Bytes) :
    (frameToBytes be mem mem.length ⟨ch, .body b⟩).isUB = true ↔ mem.length < b.length + 8 := by
  constructor
  · intro h
    refine Classical.byContradiction fun hc => ?_
    have hfit : b.length + 8 ≤ mem.length := by omega
    unfold frameToBytes at h
    obtain ⟨m1, h1, l1⟩ := poke_ok (mem := mem) (o := 0) (bs := e8 (AFrame.mk ch (.body b)).payload.frameType) (by rw [e8_length]; omega)
    rw [h1] at h; dsimp only at h
    obtain ⟨m2, h2, l2⟩ := poke_ok (mem := m1) (o := 1) (bs := e16 be ch) (by rw [e16_length]; omega)
    rw [h2] at h; dsimp only at h
    obtain ⟨m3, h3, l3⟩ := poke_ok (mem := m2) (o := HEADER_SIZE) (bs := b) (by rw [HEADER_SIZE]; omega)
    rw [h3] at h; dsimp only at h
    obtain ⟨bs, mem', q1, q2, q3⟩ := finishFrame_kept be (mem := m3) (n := b.length) (by omega)
    rw [q1] at h; cases h
  · intro hlt
    have pk : ∀ {m : Bytes} {o : Nat} {bs : Bytes} {m' : Bytes}, poke m o bs = some m' → m'.length = m.length := by
      intro m o bs m' h
      unfold poke at h
      by_cases hc : o + bs.length ≤ m.length
      · rw [if_pos hc] at h; cases h; exact splice_length hc
      · rw [if_neg hc] at h; cases h
    unfold frameToBytes
    cases h1 : poke mem 0 (e8 (AFrame.mk ch (.body b)).payload.frameType) with
    | none => rfl
    | some m1 =>
      have l1 := pk h1
      dsimp only
      cases h2 : poke m1 1 (e16 be ch) with
      | none => rfl
      | some m2 =>
        have l2 := pk h2
        dsimp only
        cases h3 : poke m2 HEADER_SIZE b with
        | none => rfl
        | some m3 =>
          have l3 := pk h3
          dsimp only
          unfold finishFrame
          cases h4 : poke m3 3 (e32 be (UInt32.ofNat b.length)) with
          | none => rfl
          | some m4 =>
            have l4 := pk h4
            dsimp only
            have : poke m4 (HEADER_SIZE + b.length) (e8 FRAME_END) = none := by
              unfold poke
              rw [if_neg (by rw [e8_length, HEADER_SIZE]; omega)]
            rw [this]; rfl

end Rmq
