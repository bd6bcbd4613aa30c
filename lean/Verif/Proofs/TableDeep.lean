import Verif.Proofs.TableRound
/-! Too deeply nested tables are rejected. -/
namespace Rmq

theorem prefix_drop {mem a b : Bytes} {o : Nat} (h : a ++ b <+: mem.drop o) : b <+: mem.drop (o + a.length) := by
  obtain ⟨t, ht⟩ := h
  refine ⟨t, ?_⟩
  rw [← List.drop_drop, ← ht]; simp

/-- Decoding `bs` with `x` is rejected as malformed. -/
def Rejects {α : Type} (E : DEnv) (x : M DState α) (bs : Bytes) : Prop :=
  ∀ s : DState, bs <+: E.mem.drop s.off → s.off + bs.length ≤ E.len → ∃ s', x s = .err St.BAD_AMQP_DATA s'

theorem Rejects.bind_left {α β : Type} {E : DEnv} {x : M DState α} {f : α → M DState β} {bs : Bytes}
    (h : Rejects E x bs) : Rejects E (x >>= f) bs := by
  intro s hp hl
  obtain ⟨s', h⟩ := h s hp hl
  exact ⟨s', by rw [M.bind_def, h]⟩

theorem Rejects.bind_right {α β : Type} {E : DEnv} {x : M DState α} {f : α → M DState β} {b₁ b₂ : Bytes} {a : α}
    (hx : DecodesTo E x b₁ a) (hf : Rejects E (f a) b₂) : Rejects E (x >>= f) (b₁ ++ b₂) := by
  intro s hp hl
  rw [List.length_append] at hl
  obtain ⟨c, h1⟩ := hx s ((List.prefix_append _ _).trans hp) (by omega)
  obtain ⟨s', h2⟩ := hf ⟨s.off + b₁.length, c⟩ (prefix_drop hp) (by show s.off + b₁.length + b₂.length ≤ E.len; omega)
  exact ⟨s', by rw [M.bind_def, h1]; exact h2⟩

theorem Rejects.kind {E : DEnv} (hE : E.len ≤ E.mem.length) (k : UInt8) {bs : Bytes}
    {f : UInt8 → M DState FV} (h : Rejects E (f k) bs) :
    Rejects E (M.orFailVal St.BAD_AMQP_DATA (Rmq.dec8 E) >>= f) (k :: bs) := by
  have h8 := DecodesTo.dec8 hE St.BAD_AMQP_DATA k
  rw [beBytes1] at h8
  exact Rejects.bind_right (b₁ := [k]) h8 h

theorem Rejects.container {α : Type} {E : DEnv} (hG : E.Good) {body : Bytes} (hb : body.length < 2 ^ 32)
    {loop : Nat → M DState (List α)}
    (hloop : ∀ s : DState, body <+: E.mem.drop s.off → s.off + body.length ≤ E.len →
      ∃ s', loop (s.off + body.length) s = .err St.BAD_AMQP_DATA s') :
    Rejects E (M.orFailVal St.BAD_AMQP_DATA (Rmq.dec32 E) >>= fun size =>
      M.get >>= fun s =>
      if size.toNat + s.off > E.len then M.fail St.BAD_AMQP_DATA
      else
        M.orFail St.NO_MEMORY (allocate E) >>= fun _ =>
        loop (s.off + size.toNat) >>= fun vs =>
        finishEntries E vs.length >>= fun _ => Pure.pure vs) (serLong body) := by
  have hb' : (UInt32.ofNat body.length).toNat = body.length := by rw [UInt32.toNat_ofNat']; exact Nat.mod_eq_of_lt hb
  have h1 := DecodesTo.dec32 hG.mem St.BAD_AMQP_DATA (UInt32.ofNat body.length)
  rw [hb'] at h1
  refine Rejects.bind_right h1 ?_
  rw [hb']
  intro s hp hl
  rw [M.bind_def, M.get_def]
  dsimp only
  rw [if_neg (by omega)]
  obtain ⟨c1, hc1⟩ := allocate_ok hG St.NO_MEMORY s (by simp) (by simp; omega)
  rw [M.bind_def, hc1]
  dsimp only [List.length_nil, Nat.add_zero]
  obtain ⟨s', hc2⟩ := hloop ⟨s.off, c1⟩ hp hl
  rw [M.bind_def, hc2]
  exact ⟨s', rfl⟩

macro "pick_kind_r" h:term : tactic => `(tactic| (
  refine Rejects.kind (DEnv.Good.mem $h) _ ?_
  repeat rw [if_neg (by decide)]
  rw [if_pos (by decide)]))

mutual
theorem decFV_deep (E : DEnv) (hG : E.Good) (v : FV) (fuel depth : Nat) (hr : representable v)
    (hd : TABLE_DEPTH_LIMIT < depth + nesting v) (hf : 3 * (serFV v).length + 1 ≤ fuel) :
    Rejects E (decFV E fuel depth) (serFV v) := by
  match fuel, hf with
  | 0, hf => omega
  | fuel + 1, hf =>
  unfold decFV
  by_cases hd' : depth > TABLE_DEPTH_LIMIT
  · rw [if_pos hd']; intro s _ _; exact ⟨s, rfl⟩
  rw [if_neg hd']
  cases v with
  | array vs =>
    simp only [representable] at hr
    simp only [nesting] at hd
    simp only [serFV, List.length_cons, serLong, List.length_append, beBytes_length] at hf
    simp only [serFV]; pick_kind_r hG
    refine Rejects.bind_left ?_
    match fuel, hf with
    | 0, hf => omega
    | fuel + 1, hf =>
    unfold decArray
    exact Rejects.container hG hr.1 (loop := fun limit => decArrayLoop E fuel (depth + 1) limit 0 INITIAL_SIZE)
      (fun s hp hl => decFVs_deep E hG vs fuel (depth + 1) 0 INITIAL_SIZE hr.2 (by omega) (by omega) (by omega) s hp hl ⟨by omega, by decide, by decide⟩)
  | table es =>
    simp only [representable] at hr
    simp only [nesting] at hd
    simp only [serFV, List.length_cons, serLong, List.length_append, beBytes_length] at hf
    simp only [serFV]; pick_kind_r hG
    refine Rejects.bind_left ?_
    match fuel, hf with
    | 0, hf => omega
    | fuel + 1, hf =>
    unfold decTable
    exact Rejects.container hG hr.1 (loop := fun limit => decTableLoop E fuel (depth + 1) limit 0 INITIAL_SIZE)
      (fun s hp hl => decEs_deep E hG es fuel (depth + 1) 0 INITIAL_SIZE hr.2 (by omega) (by omega) (by omega) s hp hl ⟨by omega, by decide, by decide⟩)
  | _ => exact absurd hd (by simp only [nesting]; omega)

theorem decFVs_deep (E : DEnv) (hG : E.Good) (vs : List FV) (fuel depth num allocated : Nat) (hr : representables vs)
    (hd0 : depth ≤ TABLE_DEPTH_LIMIT + 1)
    (hd : TABLE_DEPTH_LIMIT + 1 < depth + nestings vs) (hf : 3 * (serFVs vs).length + 2 ≤ fuel) :
    ∀ s : DState, serFVs vs <+: E.mem.drop s.off → s.off + (serFVs vs).length ≤ E.len → num ≤ s.off ∧ num ≤ allocated ∧ 0 < allocated →
      ∃ s', decArrayLoop E fuel depth (s.off + (serFVs vs).length) num allocated s = .err St.BAD_AMQP_DATA s' := by
  intro s hp hl hn
  match fuel, hf with
  | 0, hf => omega
  | fuel + 1, hf =>
  unfold decArrayLoop
  rw [M.bind_def, M.get_def]
  dsimp only
  cases vs with
  | nil => simp only [nestings] at hd; omega
  | cons v vs =>
    have hpos := serFV_pos v
    simp only [representables] at hr
    simp only [nestings] at hd
    simp only [serFVs, List.length_append] at hf hl hp ⊢
    rw [if_pos (by omega)]
    have hs30 := hG.size
    obtain ⟨a, hna, ha⟩ := growEntries_ok hG num allocated (by omega) hn.2.1 hn.2.2
    obtain ⟨c1, hc1⟩ := ha s (by simp) (by simp; omega)
    rw [M.bind_def, hc1]
    dsimp only [List.length_nil, Nat.add_zero]
    by_cases hv : TABLE_DEPTH_LIMIT < depth + nesting v
    · obtain ⟨s2, hc2⟩ := decFV_deep E hG v fuel depth hr.1 hv (by omega) ⟨s.off, c1⟩
        ((List.prefix_append _ _).trans hp) (by show s.off + _ ≤ _; omega)
      rw [M.bind_def, hc2]
      exact ⟨s2, rfl⟩
    · obtain ⟨c2, hc2⟩ := decFV_ser E hG v fuel depth hr.1 (by omega) (by omega) ⟨s.off, c1⟩
        ((List.prefix_append _ _).trans hp) (by show s.off + _ ≤ _; omega)
      rw [M.bind_def, hc2]
      dsimp only
      obtain ⟨s3, hc3⟩ := decFVs_deep E hG vs fuel depth (num + 1) a hr.2 hd0 (by omega) (by omega)
        ⟨s.off + (serFV v).length, c2⟩ (prefix_drop hp) (by show s.off + _ + _ ≤ _; omega) ⟨by show _ ≤ s.off + _; omega, by omega, by omega⟩
      dsimp only at hc3
      rw [Nat.add_assoc] at hc3
      rw [M.bind_def, hc3]
      exact ⟨s3, rfl⟩

theorem decEs_deep (E : DEnv) (hG : E.Good) (es : List Entry) (fuel depth num allocated : Nat) (hr : representableEs es)
    (hd0 : depth ≤ TABLE_DEPTH_LIMIT + 1)
    (hd : TABLE_DEPTH_LIMIT + 1 < depth + nestingEs es) (hf : 3 * (serEntries es).length + 2 ≤ fuel) :
    ∀ s : DState, serEntries es <+: E.mem.drop s.off → s.off + (serEntries es).length ≤ E.len → num ≤ s.off ∧ num ≤ allocated ∧ 0 < allocated →
      ∃ s', decTableLoop E fuel depth (s.off + (serEntries es).length) num allocated s = .err St.BAD_AMQP_DATA s' := by
  intro s hp hl hn
  match fuel, hf with
  | 0, hf => omega
  | fuel + 1, hf =>
  unfold decTableLoop
  rw [M.bind_def, M.get_def]
  dsimp only
  match es with
  | [] => simp only [nestingEs] at hd; omega
  | .mk k v :: es =>
    have hpos := serFV_pos v
    simp only [representableEs, representableE] at hr
    simp only [nestingEs, nestingE] at hd
    simp only [serEntries, serEntry, serShort, List.length_append, beBytes_length] at hf hl hp ⊢
    rw [if_pos (by omega)]
    have hs30 := hG.size
    have hk : (UInt8.ofNat k.length).toNat = k.length := by
      rw [UInt8.toNat_ofNat']; exact Nat.mod_eq_of_lt (by omega)
    have h8 := DecodesTo.dec8 hG.mem St.BAD_AMQP_DATA (UInt8.ofNat k.length)
    rw [hk] at h8
    simp only [List.append_assoc] at hp
    obtain ⟨c0, hc0⟩ := h8 s ((List.prefix_append _ _).trans hp) (by rw [beBytes_length]; omega)
    rw [M.bind_def, hc0, beBytes_length]
    dsimp only
    obtain ⟨a, hna, ha⟩ := growEntries_ok hG num allocated (by omega) hn.2.1 hn.2.2
    obtain ⟨c1, hc1⟩ := ha ⟨s.off + 1, c0⟩ (by simp) (by simp; omega)
    rw [M.bind_def, hc1]
    dsimp only [List.length_nil, Nat.add_zero]
    rw [hk]
    have hp1 : k ++ (serFV v ++ serEntries es) <+: E.mem.drop (s.off + 1) := by
      have := prefix_drop hp; rw [beBytes_length] at this; exact this
    obtain ⟨c2, hc2⟩ := DecodesTo.decBytes hG.mem St.BAD_AMQP_DATA k ⟨s.off + 1, c1⟩
      ((List.prefix_append _ _).trans hp1) (by show s.off + 1 + _ ≤ _; omega)
    rw [M.bind_def, hc2]
    dsimp only
    have hp2 : serFV v ++ serEntries es <+: E.mem.drop (s.off + 1 + k.length) := prefix_drop hp1
    by_cases hv : TABLE_DEPTH_LIMIT < depth + nesting v
    · obtain ⟨s3, hc3⟩ := decFV_deep E hG v fuel depth hr.1.2 hv (by omega) ⟨s.off + 1 + k.length, c2⟩
        ((List.prefix_append _ _).trans hp2) (by show s.off + 1 + _ + _ ≤ _; omega)
      rw [M.bind_def, hc3]
      exact ⟨s3, rfl⟩
    · obtain ⟨c3, hc3⟩ := decFV_ser E hG v fuel depth hr.1.2 (by omega) (by omega) ⟨s.off + 1 + k.length, c2⟩
        ((List.prefix_append _ _).trans hp2) (by show s.off + 1 + _ + _ ≤ _; omega)
      rw [M.bind_def, hc3]
      dsimp only
      obtain ⟨s4, hc4⟩ := decEs_deep E hG es fuel depth (num + 1) a hr.2 hd0 (by omega) (by omega)
        ⟨s.off + 1 + k.length + (serFV v).length, c3⟩ (prefix_drop hp2) (by show s.off + _ + _ + _ + _ ≤ _; omega)
          ⟨by show _ ≤ s.off + 1 + _ + _; omega, by omega, by omega⟩
      dsimp only at hc4
      have harr : s.off + 1 + k.length + (serFV v).length + (serEntries es).length
          = s.off + (1 + k.length + (serFV v).length + (serEntries es).length) := by omega
      rw [harr] at hc4
      rw [M.bind_def, hc4]
      exact ⟨s4, rfl⟩
end

theorem decodeTable_deep (E : DEnv) (hG : E.Good) (es : Table) (hr : representableTable es)
    (hn : TABLE_DEPTH_LIMIT + 1 < nestingEs es) : Rejects E (decodeTable E) (serTable es) := by
  intro s hp hl
  have hlen : (serTable es).length = 4 + (serEntries es).length := by simp [serTable, serLong, beBytes_length]
  unfold decodeTable
  have hfuel : decFuel E s.off = (3 * (E.len - s.off) + 3) + 1 := rfl
  rw [hfuel]
  unfold decTable
  exact Rejects.container hG hr.1
    (loop := fun limit => decTableLoop E (3 * (E.len - s.off) + 3) 0 limit 0 INITIAL_SIZE)
    (fun s' hp' hl' => decEs_deep E hG es _ 0 0 INITIAL_SIZE hr.2 (by omega) (by omega) (by omega) s' hp' hl' ⟨by omega, by decide, by decide⟩) s hp hl

end Rmq
