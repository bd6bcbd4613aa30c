import Verif.Model.Api
/-!
# Everything between two requests to the operating system ends: the codecs, the parser and the copying of tables
-/
namespace Rmq

/-- `x` ends. -/
def NF {σ α : Type} (x : M σ α) : Prop := ∀ s, x s ≠ .fuel

theorem NF.bind {σ α β : Type} {x : M σ α} {f : α → M σ β} (hx : NF x) (hf : ∀ a, NF (f a)) : NF (x >>= f) := by
  intro s h
  rw [M.bind_def] at h
  cases h1 : x s with
  | ok a t => rw [h1] at h; exact hf a t h
  | err e' t => rw [h1] at h; cases h
  | ub => rw [h1] at h; cases h
  | fuel => exact hx s h1
theorem NF.pure {σ α : Type} (a : α) : NF (Pure.pure a : M σ α) := fun _ h => nomatch h
theorem NF.fail {σ α : Type} {e : Int} : NF (M.fail e : M σ α) := fun _ h => nomatch h
theorem NF.ub {σ α : Type} : NF (M.ub : M σ α) := fun _ h => nomatch h
theorem NF.get {σ : Type} : NF (M.get : M σ σ) := fun _ h => nomatch h
theorem NF.ite {σ α : Type} {p : Prop} [Decidable p] {x y : M σ α} (hx : NF x) (hy : NF y) : NF (if p then x else y) := by
  by_cases h : p
  · rw [if_pos h]; exact hx
  · rw [if_neg h]; exact hy
theorem NF.orFail {σ : Type} {st : Int} {x : M σ Bool} (hx : NF x) : NF (M.orFail st x) := by
  intro s h
  unfold M.orFail at h
  cases h1 : x s with
  | ok b t => rw [h1] at h; cases b <;> cases h
  | err e' t => rw [h1] at h; cases h
  | ub => rw [h1] at h; cases h
  | fuel => exact hx s h1
theorem NF.orFailVal {σ α : Type} {st : Int} {x : M σ (Option α)} (hx : NF x) : NF (M.orFailVal st x) := by
  intro s h
  unfold M.orFailVal at h
  cases h1 : x s with
  | ok b t => rw [h1] at h; cases b <;> cases h
  | err e' t => rw [h1] at h; cases h
  | ub => rw [h1] at h; cases h
  | fuel => exact hx s h1

/-! ### Encoding -/

theorem NF.encRaw (len : Nat) (bs : Bytes) : NF (Rmq.encRaw len bs) := by
  intro s
  unfold Rmq.encRaw
  dsimp only
  split
  · split <;> exact fun h => nomatch h
  · exact fun h => nomatch h
theorem NF.encBytes (len : Nat) (bs : Bytes) : NF (Rmq.encBytes len bs) := by
  intro s
  unfold Rmq.encBytes
  split
  · exact fun h => nomatch h
  · exact NF.encRaw _ _ _
theorem NF.raw {st : Int} (len : Nat) (bs : Bytes) : NF (M.orFail st (Rmq.encRaw len bs)) := .orFail (.encRaw _ _)
theorem NF.bytes {st : Int} (len : Nat) (bs : Bytes) : NF (M.orFail st (Rmq.encBytes len bs)) := .orFail (.encBytes _ _)

theorem NF.tableWith (be : Bool) (len : Nat) {loop : M EState Unit} (hl : NF loop) : NF (encTableWith be len loop) := by
  intro s h
  unfold encTableWith at h
  dsimp only at h
  cases h1 : loop { s with off := s.off + 4 } with
  | err e' t => rw [h1] at h; cases h
  | ub => rw [h1] at h; cases h
  | fuel => exact hl _ h1
  | ok x t =>
    rw [h1] at h
    dsimp only at h
    cases h2 : M.orFail St.TABLE_TOO_BIG (enc32 be len (UInt32.ofNat (t.off - s.off - 4))) { t with off := s.off } with
    | ok y u => rw [h2] at h; cases h
    | err e' u => rw [h2] at h; cases h
    | ub => rw [h2] at h; cases h
    | fuel => exact NF.raw _ _ _ h2
theorem NF.arrayWith (be : Bool) (len : Nat) {loop : M EState Unit} (hl : NF loop) : NF (encArrayWith be len loop) :=
  NF.tableWith be len hl

mutual
theorem NF.fv (be : Bool) (len : Nat) : (v : FV) → NF (encFV be len v)
  | .boolean _ => by unfold encFV; exact .bind (.raw _ _) fun _ => .raw _ _
  | .i8 _ => by unfold encFV; exact .bind (.raw _ _) fun _ => .raw _ _
  | .u8 _ => by unfold encFV; exact .bind (.raw _ _) fun _ => .raw _ _
  | .i16 _ => by unfold encFV; exact .bind (.raw _ _) fun _ => .raw _ _
  | .u16 _ => by unfold encFV; exact .bind (.raw _ _) fun _ => .raw _ _
  | .i32 _ => by unfold encFV; exact .bind (.raw _ _) fun _ => .raw _ _
  | .u32 _ => by unfold encFV; exact .bind (.raw _ _) fun _ => .raw _ _
  | .i64 _ => by unfold encFV; exact .bind (.raw _ _) fun _ => .raw _ _
  | .u64 _ => by unfold encFV; exact .bind (.raw _ _) fun _ => .raw _ _
  | .f32 _ => by unfold encFV; exact .bind (.raw _ _) fun _ => .raw _ _
  | .f64 _ => by unfold encFV; exact .bind (.raw _ _) fun _ => .raw _ _
  | .timestamp _ => by unfold encFV; exact .bind (.raw _ _) fun _ => .raw _ _
  | .decimal _ _ => by unfold encFV; exact .bind (.raw _ _) fun _ => .bind (.raw _ _) fun _ => .raw _ _
  | .utf8 _ => by unfold encFV; exact .bind (.raw _ _) fun _ => .bind (.raw _ _) fun _ => .bytes _ _
  | .bytes _ => by unfold encFV; exact .bind (.raw _ _) fun _ => .bind (.raw _ _) fun _ => .bytes _ _
  | .array vs => by unfold encFV; exact .bind (.raw _ _) fun _ => .arrayWith be len (NF.fvs be len vs)
  | .table es => by unfold encFV; exact .bind (.raw _ _) fun _ => .tableWith be len (NF.entries be len es)
  | .void => by unfold encFV; exact .raw _ _
  | .other _ => by unfold encFV; exact .bind (.raw _ _) fun _ => .fail
theorem NF.fvs (be : Bool) (len : Nat) : (vs : List FV) → NF (encFVs be len vs)
  | [] => by unfold encFVs; exact .pure _
  | v :: vs => by unfold encFVs; exact .bind (NF.fv be len v) fun _ => NF.fvs be len vs
theorem NF.entry (be : Bool) (len : Nat) : (e : Entry) → NF (encEntry be len e)
  | .mk k v => by unfold encEntry; exact .bind (.raw _ _) fun _ => .bind (.bytes _ _) fun _ => NF.fv be len v
theorem NF.entries (be : Bool) (len : Nat) : (es : List Entry) → NF (encEntries be len es)
  | [] => by unfold encEntries; exact .pure _
  | e :: es => by unfold encEntries; exact .bind (NF.entry be len e) fun _ => NF.entries be len es
end

theorem NF.field (be : Bool) (len : Nat) (t : FT) (v : Option Val) : NF (encField be len t v) := by
  unfold encField
  split
  · exact .raw _ _
  · exact .raw _ _
  · exact .raw _ _
  · exact .raw _ _
  · exact .ite .fail (.bind (.raw _ _) fun _ => .bytes _ _)
  · exact .ite .fail (.bind (.raw _ _) fun _ => .bytes _ _)
  · exact .tableWith be len (.entries be len _)
  · exact .ub

theorem NF.op (be : Bool) (len : Nat) (r : Rec) (o : Op) : NF (encOp be len r o) := by
  cases o with
  | field t f => exact .field be len t _
  | bits bs =>
    unfold encOp
    dsimp only
    split
    · exact .raw _ _
    · exact .ub

theorem NF.ops (be : Bool) (len : Nat) (r : Rec) : ∀ os, NF (encOps be len r os)
  | [] => .pure _
  | o :: os => by unfold encOps; exact .bind (.op be len r o) fun _ => NF.ops be len r os

theorem NF.flagsLast (be : Bool) (len : Nat) (n : Nat) (f : UInt32) (h : f >>> 16 = 0) : NF (encFlags be len (n + 1) f) := by
  unfold encFlags
  dsimp only
  refine .bind (.raw _ _) fun _ => ?_
  rw [if_neg (by rw [h]; decide)]
  exact .pure _
theorem NF.flags (be : Bool) (len : Nat) (f : UInt32) : NF (encFlags be len 3 f) := by
  unfold encFlags
  dsimp only
  refine .bind (.raw _ _) fun _ => .ite (.flagsLast be len 1 _ ?_) (.pure _)
  simp only [← UInt32.toNat_inj, UInt32.toNat_shiftRight]
  have := f.toNat_lt
  simp [Nat.shiftRight_eq_div_pow]
  omega

theorem NF.props (be : Bool) (len : Nat) (fl : UInt32) (r : Rec) : ∀ ps, NF (encProps be len fl r ps)
  | [] => .pure _
  | (b, t, f) :: ps => by
    unfold encProps
    refine .bind ?_ fun _ => NF.props be len fl r ps
    unfold encProp
    exact .ite (.field be len t _) (.pure _)

theorem encMethod_ends (be : Bool) (m : Bytes) (len : Nat) (id : UInt32) (r : Rec) : encMethod be m len id r ≠ .fuel := by
  unfold encMethod
  split
  · exact fun h => nomatch h
  · rename_i ops _
    cases h1 : encOps be len r ops ⟨m, 0⟩ with
    | ok x t => exact fun h => nomatch h
    | err e' t => exact fun h => nomatch h
    | ub => exact fun h => nomatch h
    | fuel => exact absurd h1 (NF.ops be len r _ _)

theorem encProperties_ends (be : Bool) (m : Bytes) (len : Nat) (c : UInt16) (fl : UInt32) (r : Rec) :
    encProperties be m len c fl r ≠ .fuel := by
  unfold encProperties
  cases h0 : encFlags be len 3 fl ⟨m, 0⟩ with
  | err e' t => exact fun h => nomatch h
  | ub => exact fun h => nomatch h
  | fuel => exact absurd h0 (NF.flags be len _ _)
  | ok x t =>
    dsimp only
    split
    · exact fun h => nomatch h
    · rename_i ps _
      cases h1 : encProps be len fl r ps t with
      | ok x u => exact fun h => nomatch h
      | err e' u => exact fun h => nomatch h
      | ub => exact fun h => nomatch h
      | fuel => exact absurd h1 (NF.props be len fl r _ _)

theorem finishFrame_ends (be : Bool) (m : Bytes) (n : Nat) : finishFrame be m n ≠ .fuel := by
  unfold finishFrame
  repeat' split
  all_goals exact fun h => nomatch h

theorem frameToBytes_ends (be : Bool) (m : Bytes) (len : Nat) (f : AFrame) : frameToBytes be m len f ≠ .fuel := by
  intro h
  unfold frameToBytes at h
  split at h; · cases h
  split at h; · cases h
  cases hp : f.payload with
  | body b =>
    rw [hp] at h
    dsimp only at h
    split at h
    · cases h
    · exact absurd h (finishFrame_ends _ _ _)
  | method id args =>
    rw [hp] at h
    dsimp only at h
    split at h; · cases h
    rename_i mem _
    cases h1 : encMethod be (mem.drop (HEADER_SIZE + 4)) (subWrap len (HEADER_SIZE + 4 + FOOTER_SIZE)) id args with
    | ok n s => rw [h1] at h; exact absurd h (finishFrame_ends _ _ _)
    | err e' s => rw [h1] at h; cases h
    | ub => rw [h1] at h; cases h
    | fuel => exact encMethod_ends _ _ _ _ _ h1
  | header c sz fl ps =>
    rw [hp] at h
    dsimp only at h
    split at h; · cases h
    split at h; · cases h
    split at h; · cases h
    rename_i mem _
    cases h1 : encProperties be (mem.drop (HEADER_SIZE + 12)) (subWrap len (HEADER_SIZE + 12 + FOOTER_SIZE)) c fl ps with
    | ok n s => rw [h1] at h; exact absurd h (finishFrame_ends _ _ _)
    | err e' s => rw [h1] at h; cases h
    | ub => rw [h1] at h; cases h
    | fuel => exact encProperties_ends _ _ _ _ _ _ h1
  | heartbeat => rw [hp] at h; exact absurd h (finishFrame_ends _ _ _)
  | protocolHeader a b c d => rw [hp] at h; cases h
  | other t => rw [hp] at h; cases h

/-! ### Copying and merging tables -/

theorem NF.poolAlloc (alloc : Nat → Bool) (pool amount : Nat) : NF (Rmq.poolAlloc alloc pool amount) := by
  intro s
  unfold Rmq.poolAlloc
  split
  · exact fun h => nomatch h
  · split <;> exact fun h => nomatch h
theorem NF.fillBlock (b : Blk) (n : Nat) : NF (Rmq.fillBlock b n) := by
  intro s
  unfold Rmq.fillBlock
  split <;> exact fun h => nomatch h
theorem NF.dupBytes (alloc : Nat → Bool) (pool : Nat) (b : Bytes) : NF (Rmq.dupBytes alloc pool b) := by
  unfold Rmq.dupBytes
  exact .bind (.orFailVal (.poolAlloc _ _ _)) fun _ => .bind (.fillBlock _ _) fun _ => .pure _

mutual
theorem NF.cloneFV (alloc : Nat → Bool) (pool : Nat) : (v : PV) → NF (Rmq.cloneFV alloc pool v)
  | .utf8 p b => by unfold Rmq.cloneFV; exact .ite (.pure _) (.bind (.dupBytes _ _ _) fun _ => .pure _)
  | .bytes p b => by unfold Rmq.cloneFV; exact .ite (.pure _) (.bind (.dupBytes _ _ _) fun _ => .pure _)
  | .array none _ => by unfold Rmq.cloneFV; exact .pure _
  | .array (some _) vs => by
    unfold Rmq.cloneFV
    exact .bind (.orFailVal (.poolAlloc _ _ _)) fun _ => .bind (.fillBlock _ _) fun _ => .bind (NF.cloneFVs alloc pool vs) fun _ => .pure _
  | .table _ es => by
    unfold Rmq.cloneFV
    exact .ite (.pure _) (.bind (.orFailVal (.poolAlloc _ _ _)) fun _ => .bind (.fillBlock _ _) fun _ =>
      .bind (NF.cloneEntries alloc pool es) fun _ => .pure _)
  | .other _ => by unfold Rmq.cloneFV; exact .fail
  | .boolean _ => by unfold Rmq.cloneFV; exact .pure _
  | .i8 _ => by unfold Rmq.cloneFV; exact .pure _
  | .u8 _ => by unfold Rmq.cloneFV; exact .pure _
  | .i16 _ => by unfold Rmq.cloneFV; exact .pure _
  | .u16 _ => by unfold Rmq.cloneFV; exact .pure _
  | .i32 _ => by unfold Rmq.cloneFV; exact .pure _
  | .u32 _ => by unfold Rmq.cloneFV; exact .pure _
  | .i64 _ => by unfold Rmq.cloneFV; exact .pure _
  | .u64 _ => by unfold Rmq.cloneFV; exact .pure _
  | .f32 _ => by unfold Rmq.cloneFV; exact .pure _
  | .f64 _ => by unfold Rmq.cloneFV; exact .pure _
  | .decimal _ _ => by unfold Rmq.cloneFV; exact .pure _
  | .timestamp _ => by unfold Rmq.cloneFV; exact .pure _
  | .void => by unfold Rmq.cloneFV; exact .pure _
theorem NF.cloneFVs (alloc : Nat → Bool) (pool : Nat) : (vs : List PV) → NF (Rmq.cloneFVs alloc pool vs)
  | [] => by unfold Rmq.cloneFVs; exact .pure _
  | v :: vs => by unfold Rmq.cloneFVs; exact .bind (NF.cloneFV alloc pool v) fun _ => .bind (NF.cloneFVs alloc pool vs) fun _ => .pure _
theorem NF.cloneEntry (alloc : Nat → Bool) (pool : Nat) : (e : PE) → NF (Rmq.cloneEntry alloc pool e)
  | .mk _ k v => by
    unfold Rmq.cloneEntry
    exact .ite .fail (.bind (.dupBytes _ _ _) fun _ => .bind (NF.cloneFV alloc pool v) fun _ => .pure _)
theorem NF.cloneEntries (alloc : Nat → Bool) (pool : Nat) : (es : List PE) → NF (Rmq.cloneEntries alloc pool es)
  | [] => by unfold Rmq.cloneEntries; exact .pure _
  | e :: es => by
    unfold Rmq.cloneEntries
    exact .bind (NF.cloneEntry alloc pool e) fun _ => .bind (NF.cloneEntries alloc pool es) fun _ => .pure _
end

theorem NF.cloneTable (alloc : Nat → Bool) (pool : Nat) (t : PTable) : NF (Rmq.cloneTable alloc pool t) := by
  unfold Rmq.cloneTable
  exact .ite (.pure _) (.bind (.orFailVal (.poolAlloc _ _ _)) fun _ => .bind (.fillBlock _ _) fun _ =>
    .bind (.cloneEntries alloc pool _) fun _ => .pure _)

mutual
theorem NF.mergeNested (memcmp : Bytes → Bytes → Int) (alloc : Nat → Bool) : (v : PV) → ∀ (pool : Nat) (bs : List PE),
    NF (Rmq.mergeNested memcmp alloc v pool bs)
  | .table _ ts, pool, bs => by
    unfold Rmq.mergeNested
    exact .bind (.orFailVal (.poolAlloc _ _ _)) fun p => .bind (NF.mergeLoop memcmp alloc ts _ _ _ _) fun _ => .cloneTable _ _ _
  | .utf8 _ _, _, _ => by unfold Rmq.mergeNested; exact .ub
  | .bytes _ _, _, _ => by unfold Rmq.mergeNested; exact .ub
  | .array _ _, _, _ => by unfold Rmq.mergeNested; exact .ub
  | .other _, _, _ => by unfold Rmq.mergeNested; exact .ub
  | .boolean _, _, _ => by unfold Rmq.mergeNested; exact .ub
  | .i8 _, _, _ => by unfold Rmq.mergeNested; exact .ub
  | .u8 _, _, _ => by unfold Rmq.mergeNested; exact .ub
  | .i16 _, _, _ => by unfold Rmq.mergeNested; exact .ub
  | .u16 _, _, _ => by unfold Rmq.mergeNested; exact .ub
  | .i32 _, _, _ => by unfold Rmq.mergeNested; exact .ub
  | .u32 _, _, _ => by unfold Rmq.mergeNested; exact .ub
  | .i64 _, _, _ => by unfold Rmq.mergeNested; exact .ub
  | .u64 _, _, _ => by unfold Rmq.mergeNested; exact .ub
  | .f32 _, _, _ => by unfold Rmq.mergeNested; exact .ub
  | .f64 _, _, _ => by unfold Rmq.mergeNested; exact .ub
  | .decimal _ _, _, _ => by unfold Rmq.mergeNested; exact .ub
  | .timestamp _, _, _ => by unfold Rmq.mergeNested; exact .ub
  | .void, _, _ => by unfold Rmq.mergeNested; exact .ub
theorem NF.mergeEntry (memcmp : Bytes → Bytes → Int) (alloc : Nat → Bool) : (e : PE) → ∀ (tpool cap : Nat) (base temp : List PE),
    NF (Rmq.mergeEntry memcmp alloc e tpool cap base temp)
  | .mk kp k v, tpool, cap, base, temp => by
    unfold Rmq.mergeEntry
    split
    · exact .ite (.pure _) .ub
    · split
      · exact .ub
      · refine .ite ?_ (.pure _)
        split
        · exact .ub
        · split
          · exact .bind (NF.mergeNested memcmp alloc v _ _) fun _ => .pure _
          · exact .ub
theorem NF.mergeLoop (memcmp : Bytes → Bytes → Int) (alloc : Nat → Bool) : (es : List PE) → ∀ (tpool cap : Nat) (base temp : List PE),
    NF (Rmq.mergeLoop memcmp alloc es tpool cap base temp)
  | [], _, _, _, _ => by unfold Rmq.mergeLoop; exact .pure _
  | e :: rest, _, _, _, _ => by
    unfold Rmq.mergeLoop
    exact .bind (NF.mergeEntry memcmp alloc e _ _ _ _) fun _ => NF.mergeLoop memcmp alloc rest _ _ _ _
end

theorem NF.mergeCapabilities (memcmp : Bytes → Bytes → Int) (alloc : Nat → Bool) (pool : Nat) (base : PTable) (add : Option PTable) :
    NF (Rmq.mergeCapabilities memcmp alloc pool base add) := by
  unfold Rmq.mergeCapabilities
  split
  · exact .cloneTable _ _ _
  · exact .mergeNested _ _ _ _ _

/-! ### Decoding: every step takes octets from what is left -/

/-- What is left to decode. -/
def DEnv.rem (E : DEnv) (s : DState) : Nat := E.len - s.off

/-- Ends, having taken at least `m` octets if it succeeds. -/
def DecRun {α : Type} (E : DEnv) (m : Nat) (s : DState) : Res DState α → Prop
  | .ok _ t => E.rem t + m ≤ E.rem s
  | .err _ _ => True
  | .ub => True
  | .fuel => False

theorem DecRun.ends {α : Type} {E : DEnv} {m : Nat} {s : DState} {r : Res DState α} (h : DecRun E m s r) : r ≠ .fuel := by
  rintro rfl; exact h
theorem DecRun.weaken {α : Type} {E : DEnv} {m n : Nat} {s : DState} {r : Res DState α} (h : DecRun E m s r) (hn : n ≤ m) : DecRun E n s r := by
  cases r with
  | ok a t => have : E.rem t + m ≤ E.rem s := h; show E.rem t + n ≤ E.rem s; omega
  | err e t => trivial
  | ub => trivial
  | fuel => exact h
theorem DecRun.bind {α β : Type} {E : DEnv} {a b : Nat} {s : DState} {x : M DState α} {f : α → M DState β} (hx : DecRun E a s (x s))
    (hf : ∀ v t, E.rem t + a ≤ E.rem s → DecRun E b t (f v t)) : DecRun E (a + b) s ((x >>= f) s) := by
  rw [M.bind_def]
  cases h1 : x s with
  | ok v t =>
    rw [h1] at hx
    have h2 := hf v t hx
    dsimp only
    cases h3 : f v t with
    | ok w u =>
      rw [h3] at h2
      have : E.rem t + a ≤ E.rem s := hx
      have : E.rem u + b ≤ E.rem t := h2
      show E.rem u + (a + b) ≤ E.rem s
      omega
    | err e u => trivial
    | ub => trivial
    | fuel => rw [h3] at h2; exact h2
  | err e t => trivial
  | ub => trivial
  | fuel => rw [h1] at hx; exact hx
theorem DecRun.bind0 {α β : Type} {E : DEnv} {b : Nat} {s : DState} {x : M DState α} {f : α → M DState β} (hx : DecRun E 0 s (x s))
    (hf : ∀ v t, E.rem t ≤ E.rem s → DecRun E b t (f v t)) : DecRun E b s ((x >>= f) s) := by
  have := DecRun.bind (a := 0) (b := b) hx (fun v t h => hf v t h)
  rwa [Nat.zero_add] at this
theorem DecRun.pure {α : Type} {E : DEnv} {s : DState} (a : α) : DecRun E 0 s ((Pure.pure a : M DState α) s) := Nat.le_refl _
theorem DecRun.fail {α : Type} {E : DEnv} {m : Nat} {s : DState} {e : Int} : DecRun E m s ((M.fail e : M DState α) s) := trivial
theorem DecRun.ub {α : Type} {E : DEnv} {m : Nat} {s : DState} : DecRun E m s ((M.ub : M DState α) s) := trivial
theorem DecRun.get {E : DEnv} {s : DState} : DecRun E 0 s ((M.get : M DState DState) s) := Nat.le_refl _
theorem DecRun.ite {α : Type} {E : DEnv} {m : Nat} {s : DState} {p : Prop} [Decidable p] {x y : M DState α} (hx : p → DecRun E m s (x s))
    (hy : ¬p → DecRun E m s (y s)) : DecRun E m s ((if p then x else y) s) := by
  by_cases h : p
  · rw [if_pos h]; exact hx h
  · rw [if_neg h]; exact hy h
theorem DecRun.raw {α : Type} (E : DEnv) (n : Nat) (d : Bytes → Option α) (e : Int) (s : DState) :
    DecRun E n s (M.orFailVal e (decRaw E n d) s) := by
  simp only [M.orFailVal, decRaw]
  by_cases h1 : s.off + n ≤ E.len
  · rw [if_pos h1]
    cases readAt E.mem s.off n with
    | none => trivial
    | some bs =>
      dsimp only
      cases d bs with
      | none => trivial
      | some v => show E.len - (s.off + n) + n ≤ E.len - s.off; omega
  · rw [if_neg h1]; trivial
theorem DecRun.raw0 {α : Type} (E : DEnv) (n : Nat) (d : Bytes → Option α) (e : Int) (s : DState) :
    DecRun E 0 s (M.orFailVal e (decRaw E n d) s) := (DecRun.raw E n d e s).weaken (Nat.zero_le _)
theorem DecRun.alloc (E : DEnv) (e : Int) (s : DState) : DecRun E 0 s (M.orFail e (allocate E) s) := by
  simp only [M.orFail, allocate]
  cases E.alloc s.allocs with
  | true => exact Nat.le_refl _
  | false => trivial

theorem growEntries_run (E : DEnv) (num allocated : Nat) (s : DState) : DecRun E 0 s (growEntries E num allocated s) := by
  unfold growEntries growCap
  refine DecRun.bind0 (DecRun.ite (fun _ => DecRun.ite (fun _ => DecRun.ub) fun _ => ?_) fun _ => DecRun.pure _) fun _ _ _ =>
    DecRun.ite (fun _ => DecRun.pure _) fun _ => DecRun.ub
  exact DecRun.bind0 (DecRun.alloc E _ s) fun _ _ _ => DecRun.pure _

theorem finishEntries_run (E : DEnv) (num : Nat) (s : DState) : DecRun E 0 s (finishEntries E num s) := by
  unfold finishEntries
  exact DecRun.ite (fun _ => DecRun.pure _) fun _ => DecRun.alloc E _ s

theorem decode_run (E : DEnv) (fuel : Nat) :
    (∀ depth s, 3 * E.rem s + 1 ≤ fuel → DecRun E 1 s (decFV E fuel depth s)) ∧
    (∀ depth s, 3 * E.rem s + 1 ≤ fuel → DecRun E 0 s (decArray E fuel depth s)) ∧
    (∀ depth limit num allocated s, 3 * E.rem s + 2 ≤ fuel → DecRun E 0 s (decArrayLoop E fuel depth limit num allocated s)) ∧
    (∀ depth s, 3 * E.rem s + 1 ≤ fuel → DecRun E 0 s (decTable E fuel depth s)) ∧
    (∀ depth limit num allocated s, 3 * E.rem s + 2 ≤ fuel → DecRun E 0 s (decTableLoop E fuel depth limit num allocated s)) := by
  induction fuel with
  | zero => refine ⟨?_, ?_, ?_, ?_, ?_⟩ <;> intros <;> omega
  | succ fuel ih =>
    obtain ⟨i1, i2, i3, i4, i5⟩ := ih
    refine ⟨?_, ?_, ?_, ?_, ?_⟩
    · intro depth s hf
      unfold decFV
      refine DecRun.ite (fun _ => DecRun.fail) fun _ => DecRun.bind (a := 1) (b := 0) (DecRun.raw E 1 _ _ s) fun k t ht => ?_
      have j2 : ∀ depth, DecRun E 0 t (decArray E fuel depth t) := fun depth => i2 _ _ (by omega)
      have j4 : ∀ depth, DecRun E 0 t (decTable E fuel depth t) := fun depth => i4 _ _ (by omega)
      repeat' first
        | apply DecRun.raw0
        | apply j2 | apply j4
        | apply DecRun.pure | exact DecRun.fail
        | refine DecRun.ite (fun _ => ?_) (fun _ => ?_)
        | refine DecRun.bind0 ?_ (fun _ _ _ => ?_)
    · intro depth s hf
      unfold decArray
      refine (DecRun.bind (a := 4) (b := 0) (DecRun.raw E 4 _ _ s) fun size t ht => ?_).weaken (Nat.zero_le _)
      refine DecRun.bind0 DecRun.get fun s' t' ht' => ?_
      refine DecRun.ite (fun _ => DecRun.fail) (fun _ => DecRun.bind0 (DecRun.alloc E _ _) fun _ u hu => ?_)
      exact DecRun.bind0 (i3 _ _ _ _ _ (by omega)) fun vs _ _ => DecRun.bind0 (finishEntries_run E _ _) fun _ _ _ => DecRun.pure _
    · intro depth limit num allocated s hf
      unfold decArrayLoop
      refine DecRun.bind0 DecRun.get fun s' t ht => DecRun.ite (fun _ => ?_) fun _ => DecRun.pure _
      refine DecRun.bind0 (growEntries_run E _ _ _) fun _ u hu => ?_
      refine (DecRun.bind (a := 1) (b := 0) (i1 _ _ (by omega)) fun _ w hw => ?_).weaken (Nat.zero_le _)
      exact DecRun.bind0 (i3 _ _ _ _ _ (by omega)) fun _ _ _ => DecRun.pure _
    · intro depth s hf
      unfold decTable
      refine (DecRun.bind (a := 4) (b := 0) (DecRun.raw E 4 _ _ s) fun size t ht => ?_).weaken (Nat.zero_le _)
      refine DecRun.bind0 DecRun.get fun s' t' ht' => ?_
      refine DecRun.ite (fun _ => DecRun.fail) (fun _ => DecRun.bind0 (DecRun.alloc E _ _) fun _ u hu => ?_)
      exact DecRun.bind0 (i5 _ _ _ _ _ (by omega)) fun vs _ _ => DecRun.bind0 (finishEntries_run E _ _) fun _ _ _ => DecRun.pure _
    · intro depth limit num allocated s hf
      unfold decTableLoop
      refine DecRun.bind0 DecRun.get fun s' t ht => DecRun.ite (fun _ => ?_) fun _ => DecRun.pure _
      refine (DecRun.bind (a := 1) (b := 0) (DecRun.raw E 1 _ _ _) fun _ u hu => ?_).weaken (Nat.zero_le _)
      refine DecRun.bind0 (growEntries_run E _ _ _) fun _ u' hu' => ?_
      refine DecRun.bind0 (DecRun.raw0 E _ _ _ _) fun _ u'' hu'' => ?_
      refine (DecRun.bind (a := 1) (b := 0) (i1 _ _ (by omega)) fun _ w hw => ?_).weaken (Nat.zero_le _)
      exact DecRun.bind0 (i5 _ _ _ _ _ (by omega)) fun _ _ _ => DecRun.pure _

theorem decodeTable_run (E : DEnv) (s : DState) : DecRun E 0 s (decodeTable E s) :=
  (decode_run E _).2.2.2.1 0 s (by show 3 * (E.len - s.off) + 1 ≤ 3 * (E.len - s.off) + 4; omega)

theorem decField_run (E : DEnv) (t : FT) (s : DState) : DecRun E 0 s (decField E t s) := by
  cases t <;> unfold decField
  all_goals
    repeat' first
      | apply DecRun.raw0
      | apply decodeTable_run
      | apply DecRun.pure
      | refine DecRun.bind0 ?_ (fun _ _ _ => ?_)

theorem decOp_run (E : DEnv) (o : Op) (s : DState) : DecRun E 0 s (decOp E o s) := by
  cases o <;> unfold decOp
  · exact DecRun.bind0 (decField_run E _ _) fun _ _ _ => DecRun.pure _
  · exact DecRun.bind0 (DecRun.raw0 E _ _ _ _) fun _ _ _ => DecRun.pure _

theorem decOps_run (E : DEnv) : ∀ ops s, DecRun E 0 s (decOps E ops s)
  | [], _ => DecRun.pure _
  | o :: os, s => by
    unfold decOps
    exact DecRun.bind0 (decOp_run E o s) fun _ _ _ => DecRun.bind0 (decOps_run E os _) fun _ _ _ => DecRun.pure _

theorem decMethod_ends (E : DEnv) (id : UInt32) (k : Nat) : decMethod E id k ≠ .fuel := by
  unfold decMethod
  cases switch id decTableOps with
  | none => exact fun h => nomatch h
  | some ops => exact (DecRun.bind0 (DecRun.alloc E _ _) fun _ _ _ => decOps_run E ops _).ends

theorem decFlags_run (E : DEnv) : ∀ (fuel idx : Nat) (flags : UInt32) (s : DState), 3 ≤ fuel + idx → 1 ≤ fuel →
    DecRun E 0 s (decFlags E fuel idx flags s)
  | 0, _, _, _, _, h => absurd h (by decide)
  | fuel + 1, idx, flags, s, h, _ => by
    unfold decFlags
    refine DecRun.bind0 (DecRun.raw0 E _ _ _ _) fun w t _ => DecRun.ite (fun _ => DecRun.ub) fun h1 => DecRun.ite (fun _ => DecRun.ub) fun _ => ?_
    refine DecRun.ite (fun _ => ?_) fun _ => DecRun.pure _
    exact decFlags_run E fuel (idx + 1) _ _ (by omega) (by omega)

theorem decProps_run (E : DEnv) (flags : UInt32) : ∀ ps s, DecRun E 0 s (decProps E flags ps s)
  | [], _ => DecRun.pure _
  | (bit, t, f) :: ps, s => by
    unfold decProps
    refine DecRun.ite (fun _ => ?_) (fun _ => decProps_run E flags ps s)
    exact DecRun.bind0 (decField_run E t s) fun _ _ _ => DecRun.bind0 (decProps_run E flags ps _) fun _ _ _ => DecRun.pure _

theorem decProperties_ends (E : DEnv) (cls : UInt16) (k : Nat) : decProperties E cls k ≠ .fuel := by
  unfold decProperties
  refine (DecRun.bind0 (E := E) (b := 0) (decFlags_run E 3 0 0 _ (by decide) (by decide)) fun flags t _ => ?_).ends
  cases switch cls decPropTable with
  | none => exact DecRun.fail
  | some ps => exact DecRun.bind0 (DecRun.alloc E _ _) fun _ _ _ => DecRun.bind0 (decProps_run E _ ps _) fun _ _ _ => DecRun.pure _

/-! ### The parser -/

theorem bodyPhase_ends (E : PEnv) (s : PState) (k : Nat) : bodyPhase E s k ≠ .fuel := by
  intro h
  unfold bodyPhase at h
  split at h
  · cases h
  · split at h
    · cases h
    · split at h
      · cases h
      · split at h
        · split at h
          · cases h
          · split at h
            · split at h
              · cases h
              · split at h
                · cases h
                · cases h
                · cases h
                · next hd => exact decMethod_ends _ _ _ hd
            · split at h
              · split at h
                · split at h
                  · cases h
                  · cases h
                  · cases h
                  · next hd => exact decProperties_ends _ _ _ hd
                · cases h
              · split at h
                · split at h <;> cases h
                · split at h <;> cases h
        · cases h

theorem headerPhase_ends (E : PEnv) (s : PState) (k : Nat) (r : Bytes) : headerPhase E s k r ≠ .fuel := by
  intro h
  unfold headerPhase at h
  split at h
  · cases h
  · split at h
    · split at h
      · cases h
      · dsimp only at h
        split at h
        · cases h
        · split at h
          · cases h
          · split at h
            · split at h
              · cases h
              · split at h
                · cases h
                · split at h
                  · cases h
                  · exact bodyPhase_ends _ _ _ h
            · cases h
    · cases h

/-- Handling input always ends. -/
theorem handleInput_ends (E : PEnv) (s : PState) (d : Bytes) : handleInput E s d ≠ .fuel := by
  intro h
  unfold handleInput at h
  split at h
  · cases h
  · dsimp only at h
    split at h
    · cases h
    · split at h
      · cases h
      · split at h
        · split at h
          · cases h
          · split at h
            · split at h <;> cases h
            · exact headerPhase_ends _ _ _ _ h
        · exact headerPhase_ends _ _ _ _ h
        · exact bodyPhase_ends _ _ _ h
        · cases h

/-- The parser has all the octets it was waiting for. -/
def PState.full (s : PState) : Bool := subWrap s.target s.off == 0

theorem bodyPhase_took {E : PEnv} {s s' : PState} {k n : Nat} {f : Option AFrame} (h : bodyPhase E s k = .ok (n, f) s') :
    n = k ∧ s'.full = false := by
  unfold bodyPhase at h
  split at h
  · cases h
  · split at h
    · cases h
    · split at h
      · cases h
      · split at h
        · split at h
          · cases h
          · split at h
            · split at h
              · cases h
              · split at h <;> cases h
                exact ⟨rfl, rfl⟩
            · split at h
              · split at h
                · split at h <;> cases h
                  exact ⟨rfl, rfl⟩
                · cases h
              · split at h
                · split at h <;> cases h
                  exact ⟨rfl, rfl⟩
                · split at h <;> cases h <;> exact ⟨rfl, rfl⟩
        · cases h

theorem full_of_lt {s : PState} (h : s.off < s.target) : s.full = false := by
  unfold PState.full
  simp only [beq_eq_false_iff_ne, ne_eq, subWrap]
  split <;> omega

theorem headerPhase_took {E : PEnv} {s s' : PState} {k n : Nat} {r : Bytes} {f : Option AFrame}
    (h : headerPhase E s k r = .ok (n, f) s') : k ≤ n ∧ s'.full = false := by
  unfold headerPhase at h
  split at h
  · cases h
  · split at h
    · split at h
      · cases h
      · dsimp only at h
        split at h
        · cases h
        · split at h
          · cases h
          · split at h
            · split at h
              · cases h
              · split at h
                · cases h
                · split at h
                  · next hlt => cases h; exact ⟨Nat.le_add_right _ _, full_of_lt hlt⟩
                  · have := bodyPhase_took h; exact ⟨by omega, this.2⟩
            · cases h
    · cases h

theorem consumeData_took {s s' : PState} {d : Bytes} {k : Nat} (hs : s.full = false) (hd : d ≠ [])
    (h : consumeData s d = some (k, s')) : 0 < k := by
  unfold consumeData at h
  dsimp only at h
  have h1 : 0 < min (subWrap s.target s.off) d.length := by
    have : 0 < d.length := List.length_pos_iff.2 hd
    have h2 : subWrap s.target s.off ≠ 0 := by simpa [PState.full] using hs
    omega
  split at h
  · cases h
  · split at h
    · cases h
    · cases h; exact h1

/-- Handling input takes octets, unless the parser had all it was waiting for; afterwards it waits for more. -/
theorem handleInput_took {E : PEnv} {s s' : PState} {d : Bytes} (hd : d ≠ []) {n : Nat}
    {f : Option AFrame} (h : handleInput E s d = .ok (n, f) s') : (s.full = true ∨ 0 < n) ∧ s'.full = false := by
  unfold handleInput at h
  rw [if_neg (fun hl => hd (List.length_eq_zero_iff.1 hl))] at h
  dsimp only at h
  have key : ∀ (u : PState) (k : Nat) (t : PState), u.full = s.full → consumeData u d = some (k, t) →
      s.full = true ∨ 0 < k := by
    intro u k t hu hc
    cases hf : s.full with
    | true => exact Or.inl rfl
    | false => exact Or.inr (consumeData_took (hu.trans hf) hd hc)
  cases hc : consumeData (if s.mode = .idle then { s with mode := .header } else s) d with
  | none => rw [hc] at h; cases h
  | some p =>
    obtain ⟨k, t⟩ := p
    have hk : s.full = true ∨ 0 < k := key _ k t (by split <;> rfl) hc
    rw [hc] at h
    dsimp only at h
    have up : ∀ {a b : Nat}, a ≤ b → (s.full = true ∨ 0 < a) → (s.full = true ∨ 0 < b) := fun hab h => h.imp id fun h => by omega
    split at h
    · next hlt => cases h; exact ⟨hk, full_of_lt hlt⟩
    · split at h
      · split at h
        · cases h
        · split at h
          · split at h <;> cases h
            exact ⟨hk, rfl⟩
          · have := headerPhase_took h; exact ⟨up this.1 hk, this.2⟩
      · have := headerPhase_took h; exact ⟨up this.1 hk, this.2⟩
      · have := bodyPhase_took h; rw [this.1]; exact ⟨hk, this.2⟩
      · cases h

end Rmq
