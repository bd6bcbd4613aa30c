import Verif.Proofs.TableDecode
/-! Decoding the specified wire layout gives back the value; nesting limit. -/
namespace Rmq

/-- Decoding `bs` (found at the offset, inside the claimed length) with `x` yields `v` and consumes exactly `bs`. -/
def DecodesTo {α : Type} (E : DEnv) (x : M DState α) (bs : Bytes) (v : α) : Prop :=
  ∀ s : DState, bs <+: E.mem.drop s.off → s.off + bs.length ≤ E.len →
    ∃ c, x s = .ok v ⟨s.off + bs.length, c⟩

theorem DecodesTo.bind {α β : Type} {E : DEnv} {x : M DState α} {f : α → M DState β} {b₁ b₂ : Bytes} {a : α} {v : β}
    (hx : DecodesTo E x b₁ a) (hf : DecodesTo E (f a) b₂ v) : DecodesTo E (x >>= f) (b₁ ++ b₂) v := by
  intro s hp hl
  rw [List.length_append] at hl
  obtain ⟨c, h1⟩ := hx s ((List.prefix_append _ _).trans hp) (by omega)
  obtain ⟨c', h2⟩ := hf ⟨s.off + b₁.length, c⟩ (by
    obtain ⟨t, ht⟩ := hp
    refine ⟨t, ?_⟩
    show b₂ ++ t = E.mem.drop (s.off + b₁.length)
    rw [← List.drop_drop, ← ht]; simp) (by show s.off + b₁.length + b₂.length ≤ E.len; omega)
  refine ⟨c', ?_⟩
  rw [M.bind_def, h1]
  show f a _ = _
  rw [h2]; simp [Nat.add_assoc]

theorem DecodesTo.pure {α : Type} {E : DEnv} (v : α) : DecodesTo E (Pure.pure v : M DState α) [] v := by
  intro s _ _; exact ⟨s.allocs, by simp⟩

theorem DecodesTo.map {α β : Type} {E : DEnv} {x : M DState α} {bs : Bytes} {a : α} (f : α → β)
    (hx : DecodesTo E x bs a) : DecodesTo E (x >>= fun a => Pure.pure (f a)) bs (f a) := by
  have := DecodesTo.bind (f := fun a => (Pure.pure (f a) : M DState β)) hx (DecodesTo.pure (f a))
  simpa using this

theorem DecodesTo.raw {α : Type} {E : DEnv} (hE : E.len ≤ E.mem.length) (e : Int) {n : Nat} {d : Bytes → Option α}
    {bs : Bytes} {v : α} (hn : bs.length = n) (hd : d bs = some v) :
    DecodesTo E (M.orFailVal e (decRaw E n d)) bs v := by
  intro s hp hl
  refine ⟨s.allocs, ?_⟩
  simp only [M.orFailVal, decRaw]
  rw [← hn, if_pos (show s.off + bs.length ≤ E.len from hl)]
  simp only [readAt]
  rw [if_pos (by omega)]
  have : (E.mem.drop s.off).take bs.length = bs := by
    obtain ⟨t, ht⟩ := hp
    rw [← ht]; simp
  simp only [this, hd]

theorem DecodesTo.dec8 {E : DEnv} (hE : E.len ≤ E.mem.length) (e : Int) (v : UInt8) :
    DecodesTo E (M.orFailVal e (Rmq.dec8 E)) (beBytes 1 v.toNat) v :=
  DecodesTo.raw hE e (beBytes_length _ _) (by rw [← e8_eq]; exact d8_e8 v)
theorem DecodesTo.dec16 {E : DEnv} (hE : E.len ≤ E.mem.length) (e : Int) (v : UInt16) :
    DecodesTo E (M.orFailVal e (Rmq.dec16 E)) (beBytes 2 v.toNat) v :=
  DecodesTo.raw hE e (beBytes_length _ _) (by rw [← e16_eq E.be]; exact d16_e16 _ v)
theorem DecodesTo.dec32 {E : DEnv} (hE : E.len ≤ E.mem.length) (e : Int) (v : UInt32) :
    DecodesTo E (M.orFailVal e (Rmq.dec32 E)) (beBytes 4 v.toNat) v :=
  DecodesTo.raw hE e (beBytes_length _ _) (by rw [← e32_eq E.be]; exact d32_e32 _ v)
theorem DecodesTo.dec64 {E : DEnv} (hE : E.len ≤ E.mem.length) (e : Int) (v : UInt64) :
    DecodesTo E (M.orFailVal e (Rmq.dec64 E)) (beBytes 8 v.toNat) v :=
  DecodesTo.raw hE e (beBytes_length _ _) (by rw [← e64_eq E.be]; exact d64_e64 _ v)
theorem DecodesTo.decBytes {E : DEnv} (hE : E.len ≤ E.mem.length) (e : Int) (b : Bytes) :
    DecodesTo E (M.orFailVal e (Rmq.decBytes E b.length)) b b :=
  DecodesTo.raw hE e rfl rfl

theorem DecodesTo.longstr {α : Type} {E : DEnv} (hE : E.len ≤ E.mem.length) (b : Bytes) (hb : b.length < 2 ^ 32)
    (f : Bytes → α) :
    DecodesTo E (M.orFailVal St.BAD_AMQP_DATA (Rmq.dec32 E) >>= fun n =>
      M.orFailVal St.BAD_AMQP_DATA (Rmq.decBytes E n.toNat) >>= fun b => Pure.pure (f b)) (serLong b) (f b) := by
  have hb' : (UInt32.ofNat b.length).toNat = b.length := by rw [UInt32.toNat_ofNat']; exact Nat.mod_eq_of_lt hb
  have h1 := DecodesTo.dec32 hE St.BAD_AMQP_DATA (UInt32.ofNat b.length)
  rw [hb'] at h1
  refine DecodesTo.bind h1 ?_
  rw [hb']
  exact DecodesTo.map f (DecodesTo.decBytes hE _ b)

/-- A decoding environment in which nothing external fails. -/
structure DEnv.Good (E : DEnv) : Prop where
  mem : E.len ≤ E.mem.length
  size : E.len ≤ 2 ^ 30
  alloc : ∀ n, E.alloc n = true

theorem growCap_ok {E : DEnv} (hG : E.Good) (num allocated : Nat) (hn : num < 2 ^ 30) :
    ∃ a, DecodesTo E (growCap E num allocated) [] a := by
  unfold growCap
  by_cases h : num ≥ allocated
  · rw [if_pos h, if_neg (by unfold INT_MAX; omega)]
    refine ⟨allocated * 2, ?_⟩
    intro s _ _
    exact ⟨s.allocs + 1, by simp [M.bind_def, M.orFail, allocate, hG.alloc]⟩
  · rw [if_neg h]; exact ⟨allocated, DecodesTo.pure _⟩

theorem growEntries_ok {E : DEnv} (hG : E.Good) (num allocated : Nat) (hn : num < 2 ^ 30) (h1 : num ≤ allocated)
    (h2 : 0 < allocated) : ∃ a, num < a ∧ DecodesTo E (growEntries E num allocated) [] a := by
  obtain ⟨a, ha⟩ := growCap_ok hG num allocated hn
  by_cases hl : num < a
  · refine ⟨a, hl, fun s hp hs => ?_⟩
    obtain ⟨c, hc⟩ := ha s hp hs
    exact ⟨c, by unfold growEntries; rw [M.bind_def, hc]; simp only [if_pos hl]; rfl⟩
  · refine ⟨num + 1, by omega, fun s hp hs => ?_⟩
    obtain ⟨c, hc⟩ := ha s hp hs
    exact absurd (growCap_lt h1 h2 hc) hl

theorem finishEntries_ok {E : DEnv} (hG : E.Good) (num : Nat) : DecodesTo E (finishEntries E num) [] () := by
  unfold finishEntries
  by_cases h : num = 0
  · rw [if_pos h]; exact DecodesTo.pure _
  · rw [if_neg h]; intro s _ _
    exact ⟨s.allocs + 1, by simp [M.orFail, allocate, hG.alloc]⟩

theorem allocate_ok {E : DEnv} (hG : E.Good) (e : Int) : DecodesTo E (M.orFail e (allocate E)) [] () := by
  intro s _ _
  exact ⟨s.allocs + 1, by simp [M.orFail, allocate, hG.alloc]⟩

theorem serFV_pos (v : FV) : 1 ≤ (serFV v).length := by
  cases v <;> simp [serFV]

theorem if_self_eq {α : Type} {c : UInt8} {x y : α} : (if c = c then x else y) = x := if_pos rfl

theorem DecodesTo.kind {E : DEnv} (hE : E.len ≤ E.mem.length) (k : UInt8) {bs : Bytes} {v : FV}
    {f : UInt8 → M DState FV} (h : DecodesTo E (f k) bs v) :
    DecodesTo E (M.orFailVal St.BAD_AMQP_DATA (Rmq.dec8 E) >>= f) (k :: bs) v := by
  have h8 := DecodesTo.dec8 hE St.BAD_AMQP_DATA k
  rw [beBytes1] at h8
  exact DecodesTo.bind (b₁ := [k]) h8 h

macro "pick_kind" h:term : tactic => `(tactic| (
  refine DecodesTo.kind (DEnv.Good.mem $h) _ ?_
  repeat rw [if_neg (by decide)]
  rw [if_pos (by decide)]))

/-- Decoding a container: size, bounds check, allocation, loop, copy-out. -/
theorem DecodesTo.container {α : Type} {E : DEnv} (hG : E.Good) {body : Bytes} (hb : body.length < 2 ^ 32) {vs : List α}
    {loop : Nat → M DState (List α)} 
    (hloop : ∀ s : DState, body <+: E.mem.drop s.off → s.off + body.length ≤ E.len →
      ∃ c, loop (s.off + body.length) s = .ok vs ⟨s.off + body.length, c⟩) :
    DecodesTo E (M.orFailVal St.BAD_AMQP_DATA (Rmq.dec32 E) >>= fun size =>
      M.get >>= fun s =>
      if size.toNat + s.off > E.len then M.fail St.BAD_AMQP_DATA
      else
        M.orFail St.NO_MEMORY (allocate E) >>= fun _ =>
        loop (s.off + size.toNat) >>= fun vs =>
        finishEntries E vs.length >>= fun _ => Pure.pure vs) (serLong body) vs := by
  have hb' : (UInt32.ofNat body.length).toNat = body.length := by rw [UInt32.toNat_ofNat']; exact Nat.mod_eq_of_lt hb
  have h1 := DecodesTo.dec32 hG.mem St.BAD_AMQP_DATA (UInt32.ofNat body.length)
  rw [hb'] at h1
  refine DecodesTo.bind h1 ?_
  rw [hb']
  intro s hp hl
  rw [M.bind_def, M.get_def]
  dsimp only
  rw [if_neg (by omega)]
  obtain ⟨c1, hc1⟩ := allocate_ok hG St.NO_MEMORY s (by simp) (by simp; omega)
  rw [M.bind_def, hc1]
  dsimp only [List.length_nil, Nat.add_zero]
  obtain ⟨c2, hc2⟩ := hloop ⟨s.off, c1⟩ hp hl
  rw [M.bind_def, hc2]
  dsimp only
  obtain ⟨c3, hc3⟩ := finishEntries_ok hG vs.length ⟨s.off + body.length, c2⟩ (by simp) (by simpa using hl)
  rw [M.bind_def, hc3]
  exact ⟨c3, by simp⟩

mutual
theorem decFV_ser (E : DEnv) (hG : E.Good) (v : FV) (fuel depth : Nat) (hr : representable v)
    (hd : depth + nesting v ≤ TABLE_DEPTH_LIMIT) (hf : 3 * (serFV v).length + 1 ≤ fuel) :
    DecodesTo E (decFV E fuel depth) (serFV v) v := by
  match fuel, hf with
  | 0, hf => omega
  | fuel + 1, hf =>
  have hd' : ¬ depth > TABLE_DEPTH_LIMIT := by omega
  unfold decFV
  rw [if_neg hd']
  cases v with
  | boolean v =>
    simp only [serFV]; pick_kind hG
    simp only [representable] at hr
    rcases hr with rfl | rfl
    · exact DecodesTo.map _ (DecodesTo.dec8 hG.mem _ 0)
    · exact DecodesTo.map _ (DecodesTo.dec8 hG.mem _ 1)
  | i8 v =>
    simp only [serFV]; pick_kind hG
    have := DecodesTo.map (fun v : UInt8 => FV.i8 v.toInt8) (DecodesTo.dec8 hG.mem St.BAD_AMQP_DATA v.toUInt8)
    simpa using this
  | u8 v => simp only [serFV]; pick_kind hG; exact DecodesTo.map _ (DecodesTo.dec8 hG.mem _ v)
  | i16 v =>
    simp only [serFV]; pick_kind hG
    have := DecodesTo.map (fun v : UInt16 => FV.i16 v.toInt16) (DecodesTo.dec16 hG.mem St.BAD_AMQP_DATA v.toUInt16)
    simpa using this
  | u16 v => simp only [serFV]; pick_kind hG; exact DecodesTo.map _ (DecodesTo.dec16 hG.mem _ v)
  | i32 v =>
    simp only [serFV]; pick_kind hG
    have := DecodesTo.map (fun v : UInt32 => FV.i32 v.toInt32) (DecodesTo.dec32 hG.mem St.BAD_AMQP_DATA v.toUInt32)
    simpa using this
  | u32 v => simp only [serFV]; pick_kind hG; exact DecodesTo.map _ (DecodesTo.dec32 hG.mem _ v)
  | i64 v =>
    simp only [serFV]; pick_kind hG
    have := DecodesTo.map (fun v : UInt64 => FV.i64 v.toInt64) (DecodesTo.dec64 hG.mem St.BAD_AMQP_DATA v.toUInt64)
    simpa using this
  | u64 v => simp only [serFV]; pick_kind hG; exact DecodesTo.map _ (DecodesTo.dec64 hG.mem _ v)
  | f32 v => simp only [serFV]; pick_kind hG; exact DecodesTo.map _ (DecodesTo.dec32 hG.mem _ v)
  | f64 v => simp only [serFV]; pick_kind hG; exact DecodesTo.map _ (DecodesTo.dec64 hG.mem _ v)
  | decimal d v =>
    simp only [serFV]; pick_kind hG
    exact DecodesTo.bind (DecodesTo.dec8 hG.mem _ d) (DecodesTo.map _ (DecodesTo.dec32 hG.mem _ v))
  | utf8 b =>
    simp only [serFV]; pick_kind hG; exact DecodesTo.longstr hG.mem b (by simpa [representable] using hr) FV.utf8
  | bytes b =>
    simp only [serFV]; pick_kind hG; exact DecodesTo.longstr hG.mem b (by simpa [representable] using hr) FV.bytes
  | array vs =>
    simp only [representable] at hr
    simp only [nesting] at hd
    simp only [serFV, List.length_cons, serLong, List.length_append, beBytes_length] at hf
    simp only [serFV]; pick_kind hG
    refine DecodesTo.map FV.array ?_
    match fuel, hf with
    | 0, hf => omega
    | fuel + 1, hf =>
    unfold decArray
    exact DecodesTo.container hG hr.1 (loop := fun limit => decArrayLoop E fuel (depth + 1) limit 0 INITIAL_SIZE)
      (fun s hp hl => decFVs_ser E hG vs fuel (depth + 1) 0 INITIAL_SIZE hr.2 (by omega) (by omega) s hp hl ⟨by omega, by decide, by decide⟩)
  | timestamp v => simp only [serFV]; pick_kind hG; exact DecodesTo.map _ (DecodesTo.dec64 hG.mem _ v)
  | table es =>
    simp only [representable] at hr
    simp only [nesting] at hd
    simp only [serFV, List.length_cons, serLong, List.length_append, beBytes_length] at hf
    simp only [serFV]; pick_kind hG
    refine DecodesTo.map FV.table ?_
    match fuel, hf with
    | 0, hf => omega
    | fuel + 1, hf =>
    unfold decTable
    exact DecodesTo.container hG hr.1 (loop := fun limit => decTableLoop E fuel (depth + 1) limit 0 INITIAL_SIZE)
      (fun s hp hl => decEs_ser E hG es fuel (depth + 1) 0 INITIAL_SIZE hr.2 (by omega) (by omega) s hp hl ⟨by omega, by decide, by decide⟩)
  | void => simp only [serFV]; pick_kind hG; exact DecodesTo.pure _
  | other k => exact absurd hr (by simp [representable])

theorem decFVs_ser (E : DEnv) (hG : E.Good) (vs : List FV) (fuel depth num allocated : Nat) (hr : representables vs)
    (hd : depth + nestings vs ≤ TABLE_DEPTH_LIMIT + 1) (hf : 3 * (serFVs vs).length + 2 ≤ fuel) :
    ∀ s : DState, serFVs vs <+: E.mem.drop s.off → s.off + (serFVs vs).length ≤ E.len → num ≤ s.off ∧ num ≤ allocated ∧ 0 < allocated →
      ∃ c, decArrayLoop E fuel depth (s.off + (serFVs vs).length) num allocated s
        = .ok vs ⟨s.off + (serFVs vs).length, c⟩ := by
  intro s hp hl hn
  match fuel, hf with
  | 0, hf => omega
  | fuel + 1, hf =>
  unfold decArrayLoop
  rw [M.bind_def, M.get_def]
  dsimp only
  cases vs with
  | nil => rw [if_neg (by simp [serFVs])]; exact ⟨s.allocs, rfl⟩
  | cons v vs =>
    have hpos := serFV_pos v
    simp only [representables] at hr
    simp only [nestings] at hd
    simp only [serFVs, List.length_append] at hf hl hp ⊢
    rw [if_pos (by omega)]
    have hs30 := hG.size
    obtain ⟨a, hna, ha⟩ := growEntries_ok hG num allocated (by omega) hn.2.1 hn.2.2
    obtain ⟨c1, hc1⟩ := ha s (by simp) (by simp; omega)
    rw [M.bind_def, hc1]
    dsimp only [List.length_nil, Nat.add_zero]
    obtain ⟨c2, hc2⟩ := decFV_ser E hG v fuel depth hr.1 (by omega) (by omega) ⟨s.off, c1⟩
      ((List.prefix_append _ _).trans hp) (by show s.off + _ ≤ _; omega)
    rw [M.bind_def, hc2]
    dsimp only
    obtain ⟨c3, hc3⟩ := decFVs_ser E hG vs fuel depth (num + 1) a hr.2 (by omega) (by omega)
      ⟨s.off + (serFV v).length, c2⟩ (by
        obtain ⟨t, ht⟩ := hp
        refine ⟨t, ?_⟩
        show _ = E.mem.drop (s.off + _)
        rw [← List.drop_drop, ← ht]; simp) (by show s.off + _ + _ ≤ _; omega) ⟨by show _ ≤ s.off + _; omega, by omega, by omega⟩
    dsimp only at hc3
    rw [Nat.add_assoc] at hc3
    rw [M.bind_def, hc3]
    exact ⟨c3, rfl⟩

theorem decEs_ser (E : DEnv) (hG : E.Good) (es : List Entry) (fuel depth num allocated : Nat) (hr : representableEs es)
    (hd : depth + nestingEs es ≤ TABLE_DEPTH_LIMIT + 1) (hf : 3 * (serEntries es).length + 2 ≤ fuel) :
    ∀ s : DState, serEntries es <+: E.mem.drop s.off → s.off + (serEntries es).length ≤ E.len → num ≤ s.off ∧ num ≤ allocated ∧ 0 < allocated →
      ∃ c, decTableLoop E fuel depth (s.off + (serEntries es).length) num allocated s
        = .ok es ⟨s.off + (serEntries es).length, c⟩ := by
  intro s hp hl hn
  match fuel, hf with
  | 0, hf => omega
  | fuel + 1, hf =>
  unfold decTableLoop
  rw [M.bind_def, M.get_def]
  dsimp only
  match es with
  | [] => rw [if_neg (by simp [serEntries])]; exact ⟨s.allocs, rfl⟩
  | .mk k v :: es =>
    have hpos := serFV_pos v
    simp only [representableEs, representableE] at hr
    simp only [nestingEs, nestingE] at hd
    simp only [serEntries, serEntry, serShort, List.length_append, beBytes_length] at hf hl hp ⊢
    rw [if_pos (by omega)]
    have hs30 := hG.size
    have hk : (UInt8.ofNat k.length).toNat = k.length := by
      rw [UInt8.toNat_ofNat']; exact Nat.mod_eq_of_lt (by omega)
    have h8 := DecodesTo.dec8 hG.mem St.BAD_AMQP_DATA (UInt8.ofNat k.length)
    rw [hk] at h8
    obtain ⟨c0, hc0⟩ := h8 s ((by simp only [List.append_assoc]; exact List.prefix_append _ _ : _ <+: _).trans hp)
      (by rw [beBytes_length]; omega)
    rw [M.bind_def, hc0, beBytes_length]
    dsimp only
    obtain ⟨a, hna, ha⟩ := growEntries_ok hG num allocated (by omega) hn.2.1 hn.2.2
    obtain ⟨c1, hc1⟩ := ha ⟨s.off + 1, c0⟩ (by simp) (by simp; omega)
    rw [M.bind_def, hc1]
    dsimp only [List.length_nil, Nat.add_zero]
    rw [hk]
    have hp1 : k ++ (serFV v ++ serEntries es) <+: E.mem.drop (s.off + 1) := by
      obtain ⟨t, ht⟩ := hp
      refine ⟨t, ?_⟩
      rw [← List.drop_drop, ← ht]
      simp [beBytes]
    obtain ⟨c2, hc2⟩ := DecodesTo.decBytes hG.mem St.BAD_AMQP_DATA k ⟨s.off + 1, c1⟩
      ((List.prefix_append _ _).trans hp1) (by show s.off + 1 + _ ≤ _; omega)
    rw [M.bind_def, hc2]
    dsimp only
    have hp2 : serFV v ++ serEntries es <+: E.mem.drop (s.off + 1 + k.length) := by
      obtain ⟨t, ht⟩ := hp1
      refine ⟨t, ?_⟩
      rw [← List.drop_drop, ← ht]; simp
    obtain ⟨c3, hc3⟩ := decFV_ser E hG v fuel depth hr.1.2 (by omega) (by omega) ⟨s.off + 1 + k.length, c2⟩
      ((List.prefix_append _ _).trans hp2) (by show s.off + 1 + _ + _ ≤ _; omega)
    rw [M.bind_def, hc3]
    dsimp only
    obtain ⟨c4, hc4⟩ := decEs_ser E hG es fuel depth (num + 1) a hr.2 (by omega) (by omega)
      ⟨s.off + 1 + k.length + (serFV v).length, c3⟩ (by
        obtain ⟨t, ht⟩ := hp2
        refine ⟨t, ?_⟩
        show _ = E.mem.drop (s.off + 1 + k.length + _)
        rw [← List.drop_drop, ← ht]; simp) (by show s.off + _ + _ + _ + _ ≤ _; omega)
        ⟨by show _ ≤ s.off + 1 + _ + _; omega, by omega, by omega⟩
    dsimp only at hc4
    have harr : s.off + 1 + k.length + (serFV v).length + (serEntries es).length
        = s.off + (1 + k.length + (serFV v).length + (serEntries es).length) := by omega
    rw [harr] at hc4
    rw [M.bind_def, hc4]
    exact ⟨c4, rfl⟩
end

theorem decodeTable_ser (E : DEnv) (hG : E.Good) (es : Table) (hr : representableTable es)
    (hn : nestingEs es ≤ TABLE_DEPTH_LIMIT + 1) : DecodesTo E (decodeTable E) (serTable es) es := by
  intro s hp hl
  have hlen : (serTable es).length = 4 + (serEntries es).length := by simp [serTable, serLong, beBytes_length]
  unfold decodeTable
  have hfuel : decFuel E s.off = (3 * (E.len - s.off) + 3) + 1 := rfl
  rw [hfuel]
  unfold decTable
  exact DecodesTo.container hG hr.1
    (loop := fun limit => decTableLoop E (3 * (E.len - s.off) + 3) 0 limit 0 INITIAL_SIZE)
    (fun s' hp' hl' => decEs_ser E hG es _ 0 0 INITIAL_SIZE hr.2 (by omega) (by omega) s' hp' hl' ⟨by omega, by decide, by decide⟩) s hp hl

/-- Whatever the bytes, a successfully decoded value respects the nesting limit. -/
theorem decode_nesting_aux (E : DEnv) (fuel : Nat) :
    (∀ depth s v s', decFV E fuel depth s = .ok v s' → depth + nesting v ≤ TABLE_DEPTH_LIMIT) ∧
    (∀ depth s vs s', depth ≤ TABLE_DEPTH_LIMIT + 1 → decArray E fuel depth s = .ok vs s' → depth + nestings vs ≤ TABLE_DEPTH_LIMIT + 1) ∧
    (∀ depth limit num a s vs s', depth ≤ TABLE_DEPTH_LIMIT + 1 → decArrayLoop E fuel depth limit num a s = .ok vs s' →
        depth + nestings vs ≤ TABLE_DEPTH_LIMIT + 1) ∧
    (∀ depth s es s', depth ≤ TABLE_DEPTH_LIMIT + 1 → decTable E fuel depth s = .ok es s' → depth + nestingEs es ≤ TABLE_DEPTH_LIMIT + 1) ∧
    (∀ depth limit num a s es s', depth ≤ TABLE_DEPTH_LIMIT + 1 → decTableLoop E fuel depth limit num a s = .ok es s' →
        depth + nestingEs es ≤ TABLE_DEPTH_LIMIT + 1) := by
  have okbind : ∀ {α β : Type} {x : M DState α} {f : α → M DState β} {s : DState} {b : β} {s' : DState},
      (x >>= f) s = .ok b s' → ∃ a s1, x s = .ok a s1 ∧ f a s1 = .ok b s' := by
    intro α β x f s b s' h
    rw [M.bind_def] at h
    cases hx : x s with
    | ok a s1 => rw [hx] at h; exact ⟨a, s1, rfl, h⟩
    | err e s1 => rw [hx] at h; simp at h
    | ub => rw [hx] at h; simp at h
    | fuel => rw [hx] at h; simp at h
  induction fuel with
  | zero => refine ⟨?_, ?_, ?_, ?_, ?_⟩ <;> intros <;> simp_all [decFV, decArray, decArrayLoop, decTable, decTableLoop]
  | succ fuel ih =>
    obtain ⟨ihV, ihA, ihAL, ihT, ihTL⟩ := ih
    refine ⟨?_, ?_, ?_, ?_, ?_⟩
    · intro depth s v s' h
      unfold decFV at h
      by_cases hd : depth > TABLE_DEPTH_LIMIT
      · rw [if_pos hd] at h; simp at h
      rw [if_neg hd] at h
      obtain ⟨kind, s1, _, h⟩ := okbind h
      have scalar : ∀ {α : Type} {x : M DState α} {f : α → FV}, (∀ a, nesting (f a) = 0) →
          (x >>= fun a => Pure.pure (f a)) s1 = .ok v s' → depth + nesting v ≤ TABLE_DEPTH_LIMIT := by
        intro α x f hf h
        obtain ⟨a, s2, _, h⟩ := okbind h
        simp only [M.pure_def, Res.ok.injEq] at h
        rw [← h.1, hf]; omega
      by_cases hk : kind = Kind.BOOLEAN
      · rw [if_pos hk] at h; exact scalar (fun _ => rfl) h
      rw [if_neg hk] at h; clear hk
      by_cases hk : kind = Kind.I8
      · rw [if_pos hk] at h; exact scalar (fun _ => rfl) h
      rw [if_neg hk] at h; clear hk
      by_cases hk : kind = Kind.U8
      · rw [if_pos hk] at h; exact scalar (fun _ => rfl) h
      rw [if_neg hk] at h; clear hk
      by_cases hk : kind = Kind.I16
      · rw [if_pos hk] at h; exact scalar (fun _ => rfl) h
      rw [if_neg hk] at h; clear hk
      by_cases hk : kind = Kind.U16
      · rw [if_pos hk] at h; exact scalar (fun _ => rfl) h
      rw [if_neg hk] at h; clear hk
      by_cases hk : kind = Kind.I32
      · rw [if_pos hk] at h; exact scalar (fun _ => rfl) h
      rw [if_neg hk] at h; clear hk
      by_cases hk : kind = Kind.U32
      · rw [if_pos hk] at h; exact scalar (fun _ => rfl) h
      rw [if_neg hk] at h; clear hk
      by_cases hk : kind = Kind.I64
      · rw [if_pos hk] at h; exact scalar (fun _ => rfl) h
      rw [if_neg hk] at h; clear hk
      by_cases hk : kind = Kind.U64
      · rw [if_pos hk] at h; exact scalar (fun _ => rfl) h
      rw [if_neg hk] at h; clear hk
      by_cases hk : kind = Kind.F32
      · rw [if_pos hk] at h; exact scalar (fun _ => rfl) h
      rw [if_neg hk] at h; clear hk
      by_cases hk : kind = Kind.F64
      · rw [if_pos hk] at h; exact scalar (fun _ => rfl) h
      rw [if_neg hk] at h; clear hk
      by_cases hk : kind = Kind.DECIMAL
      · rw [if_pos hk] at h
        obtain ⟨_, s2, _, h⟩ := okbind h
        obtain ⟨_, s3, _, h⟩ := okbind h
        simp only [M.pure_def, Res.ok.injEq] at h
        rw [← h.1]; simp only [nesting]; omega
      rw [if_neg hk] at h; clear hk
      by_cases hk : kind = Kind.UTF8
      · rw [if_pos hk] at h
        obtain ⟨_, s2, _, h⟩ := okbind h
        obtain ⟨_, s3, _, h⟩ := okbind h
        simp only [M.pure_def, Res.ok.injEq] at h
        rw [← h.1]; simp only [nesting]; omega
      rw [if_neg hk] at h; clear hk
      by_cases hk : kind = Kind.BYTES
      · rw [if_pos hk] at h
        obtain ⟨_, s2, _, h⟩ := okbind h
        obtain ⟨_, s3, _, h⟩ := okbind h
        simp only [M.pure_def, Res.ok.injEq] at h
        rw [← h.1]; simp only [nesting]; omega
      rw [if_neg hk] at h; clear hk
      by_cases hk : kind = Kind.ARRAY
      · rw [if_pos hk] at h
        obtain ⟨vs, s2, h2, h⟩ := okbind h
        simp only [M.pure_def, Res.ok.injEq] at h
        rw [← h.1]; simp only [nesting]
        have := ihA _ _ _ _ (by omega) h2
        omega
      rw [if_neg hk] at h; clear hk
      by_cases hk : kind = Kind.TIMESTAMP
      · rw [if_pos hk] at h; exact scalar (fun _ => rfl) h
      rw [if_neg hk] at h; clear hk
      by_cases hk : kind = Kind.TABLE
      · rw [if_pos hk] at h
        obtain ⟨vs, s2, h2, h⟩ := okbind h
        simp only [M.pure_def, Res.ok.injEq] at h
        rw [← h.1]; simp only [nesting]
        have := ihT _ _ _ _ (by omega) h2
        omega
      rw [if_neg hk] at h; clear hk
      by_cases hk : kind = Kind.VOID
      · rw [if_pos hk] at h
        simp only [M.pure_def, Res.ok.injEq] at h
        rw [← h.1]; simp only [nesting]; omega
      rw [if_neg hk] at h; clear hk
      simp at h
    · intro depth s vs s' hd h
      unfold decArray at h
      obtain ⟨size, s1, _, h⟩ := okbind h
      obtain ⟨sg, s2, _, h⟩ := okbind h
      by_cases hb : size.toNat + sg.off > E.len
      · rw [if_pos hb] at h; simp at h
      rw [if_neg hb] at h
      obtain ⟨_, s3, _, h⟩ := okbind h
      obtain ⟨vs', s4, h4, h⟩ := okbind h
      obtain ⟨_, s5, _, h⟩ := okbind h
      simp only [M.pure_def, Res.ok.injEq] at h
      rw [← h.1]; exact ihAL _ _ _ _ _ _ _ hd h4
    · intro depth limit num a s vs s' hd h
      unfold decArrayLoop at h
      obtain ⟨sg, s2, _, h⟩ := okbind h
      by_cases hb : sg.off < limit
      · rw [if_pos hb] at h
        obtain ⟨_, s3, _, h⟩ := okbind h
        obtain ⟨v, s4, h4, h⟩ := okbind h
        obtain ⟨vs', s5, h5, h⟩ := okbind h
        simp only [M.pure_def, Res.ok.injEq] at h
        rw [← h.1]
        have h1 := ihV _ _ _ _ h4
        have h2 := ihAL _ _ _ _ _ _ _ hd h5
        simp only [nestings]; omega
      · rw [if_neg hb] at h
        simp only [M.pure_def, Res.ok.injEq] at h
        rw [← h.1]; simp only [nestings]; omega
    · intro depth s es s' hd h
      unfold decTable at h
      obtain ⟨size, s1, _, h⟩ := okbind h
      obtain ⟨sg, s2, _, h⟩ := okbind h
      by_cases hb : size.toNat + sg.off > E.len
      · rw [if_pos hb] at h; simp at h
      rw [if_neg hb] at h
      obtain ⟨_, s3, _, h⟩ := okbind h
      obtain ⟨vs', s4, h4, h⟩ := okbind h
      obtain ⟨_, s5, _, h⟩ := okbind h
      simp only [M.pure_def, Res.ok.injEq] at h
      rw [← h.1]; exact ihTL _ _ _ _ _ _ _ hd h4
    · intro depth limit num a s es s' hd h
      unfold decTableLoop at h
      obtain ⟨sg, s2, _, h⟩ := okbind h
      by_cases hb : sg.off < limit
      · rw [if_pos hb] at h
        obtain ⟨_, s3, _, h⟩ := okbind h
        obtain ⟨_, s6, _, h⟩ := okbind h
        obtain ⟨key, s7, _, h⟩ := okbind h
        obtain ⟨v, s4, h4, h⟩ := okbind h
        obtain ⟨vs', s5, h5, h⟩ := okbind h
        simp only [M.pure_def, Res.ok.injEq] at h
        rw [← h.1]
        have h1 := ihV _ _ _ _ h4
        have h2 := ihTL _ _ _ _ _ _ _ hd h5
        simp only [nestingEs, nestingE]; omega
      · rw [if_neg hb] at h
        simp only [M.pure_def, Res.ok.injEq] at h
        rw [← h.1]; simp only [nestingEs]; omega

theorem decodeTable_nesting (E : DEnv) (s s' : DState) (es : Table) (h : decodeTable E s = .ok es s') :
    nestingEs es ≤ TABLE_DEPTH_LIMIT + 1 := by
  have := (decode_nesting_aux E (decFuel E s.off)).2.2.2.1 0 s es s' (by omega) h
  omega

end Rmq
