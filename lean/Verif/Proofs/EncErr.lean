import Verif.Model.Frame
/-!
# The statuses the frame encoder can report
-/
namespace Rmq

/-- One of the encoding errors: BAD_AMQP_DATA, UNKNOWN_CLASS, UNKNOWN_METHOD, INVALID_PARAMETER, TABLE_TOO_BIG. -/
def EncodeErr (e : Int) : Prop := -11 ≤ e ∧ e ≤ -2

def Ece {α : Type} (x : M EState α) : Prop := ∀ s e s', x s = .err e s' → EncodeErr e

theorem Ece.bind {α β : Type} {x : M EState α} {f : α → M EState β} (hx : Ece x) (hf : ∀ a, Ece (f a)) : Ece (x >>= f) := by
  intro s e s' h
  rw [M.bind_def] at h
  cases h1 : x s with
  | ok a t => rw [h1] at h; exact hf a t e s' h
  | err e' t => rw [h1] at h; cases h; exact hx s _ _ h1
  | ub => rw [h1] at h; cases h
  | fuel => rw [h1] at h; cases h
theorem Ece.pure {α : Type} (a : α) : Ece (Pure.pure a : M EState α) := fun _ _ _ h => nomatch h
theorem Ece.fail {α : Type} {e : Int} (he : EncodeErr e) : Ece (M.fail e : M EState α) := by
  intro s e' s' h; cases h; exact he
theorem Ece.ub {α : Type} : Ece (M.ub : M EState α) := fun _ _ _ h => nomatch h
theorem Ece.ite {α : Type} {p : Prop} [Decidable p] {x y : M EState α} (hx : Ece x) (hy : Ece y) : Ece (if p then x else y) := by
  by_cases h : p
  · rw [if_pos h]; exact hx
  · rw [if_neg h]; exact hy

theorem encRaw_noerr (len : Nat) (bs : Bytes) (s : EState) (e : Int) (s' : EState) : encRaw len bs s ≠ .err e s' := by
  unfold encRaw
  dsimp only
  split
  · split <;> exact fun h => nomatch h
  · exact fun h => nomatch h
theorem encBytes_noerr (len : Nat) (bs : Bytes) (s : EState) (e : Int) (s' : EState) : encBytes len bs s ≠ .err e s' := by
  unfold encBytes
  split
  · exact fun h => nomatch h
  · exact encRaw_noerr _ _ _ _ _
theorem Ece.orFail {st : Int} (hst : EncodeErr st) {x : M EState Bool} (hx : ∀ s e s', x s ≠ .err e s') : Ece (M.orFail st x) := by
  intro s e s' h
  unfold M.orFail at h
  cases h1 : x s with
  | ok b t => rw [h1] at h; cases b <;> cases h; exact hst
  | err e' t => exact absurd h1 (hx _ _ _)
  | ub => rw [h1] at h; cases h
  | fuel => rw [h1] at h; cases h

theorem ee_bad : EncodeErr St.BAD_AMQP_DATA := ⟨by decide, by decide⟩
theorem ee_big : EncodeErr St.TABLE_TOO_BIG := ⟨by decide, by decide⟩
theorem ee_inv : EncodeErr St.INVALID_PARAMETER := ⟨by decide, by decide⟩

theorem Ece.raw {st : Int} (hst : EncodeErr st) (len : Nat) (bs : Bytes) : Ece (M.orFail st (encRaw len bs)) := .orFail hst (encRaw_noerr _ _)
theorem Ece.bytes {st : Int} (hst : EncodeErr st) (len : Nat) (bs : Bytes) : Ece (M.orFail st (encBytes len bs)) := .orFail hst (encBytes_noerr _ _)

theorem Ece.tableWith (be : Bool) (len : Nat) {loop : M EState Unit} (hl : Ece loop) : Ece (encTableWith be len loop) := by
  intro s e s' h
  unfold encTableWith at h
  dsimp only at h
  cases h1 : loop { s with off := s.off + 4 } with
  | err e' t => rw [h1] at h; cases h; exact hl _ _ _ h1
  | ub => rw [h1] at h; cases h
  | fuel => rw [h1] at h; cases h
  | ok x t =>
    rw [h1] at h
    dsimp only at h
    cases h2 : M.orFail St.TABLE_TOO_BIG (enc32 be len (UInt32.ofNat (t.off - s.off - 4))) { t with off := s.off } with
    | ok y u => rw [h2] at h; cases h
    | err e' u => rw [h2] at h; cases h; exact Ece.raw ee_big _ _ _ _ _ h2
    | ub => rw [h2] at h; cases h
    | fuel => rw [h2] at h; cases h
theorem Ece.arrayWith (be : Bool) (len : Nat) {loop : M EState Unit} (hl : Ece loop) : Ece (encArrayWith be len loop) :=
  Ece.tableWith be len hl

mutual
theorem Ece.fv (be : Bool) (len : Nat) : (v : FV) → Ece (encFV be len v)
  | .boolean _ => by unfold encFV; exact .bind (.raw ee_bad _ _) fun _ => .raw ee_big _ _
  | .i8 _ => by unfold encFV; exact .bind (.raw ee_bad _ _) fun _ => .raw ee_big _ _
  | .u8 _ => by unfold encFV; exact .bind (.raw ee_bad _ _) fun _ => .raw ee_big _ _
  | .i16 _ => by unfold encFV; exact .bind (.raw ee_bad _ _) fun _ => .raw ee_big _ _
  | .u16 _ => by unfold encFV; exact .bind (.raw ee_bad _ _) fun _ => .raw ee_big _ _
  | .i32 _ => by unfold encFV; exact .bind (.raw ee_bad _ _) fun _ => .raw ee_big _ _
  | .u32 _ => by unfold encFV; exact .bind (.raw ee_bad _ _) fun _ => .raw ee_big _ _
  | .i64 _ => by unfold encFV; exact .bind (.raw ee_bad _ _) fun _ => .raw ee_big _ _
  | .u64 _ => by unfold encFV; exact .bind (.raw ee_bad _ _) fun _ => .raw ee_big _ _
  | .f32 _ => by unfold encFV; exact .bind (.raw ee_bad _ _) fun _ => .raw ee_big _ _
  | .f64 _ => by unfold encFV; exact .bind (.raw ee_bad _ _) fun _ => .raw ee_big _ _
  | .timestamp _ => by unfold encFV; exact .bind (.raw ee_bad _ _) fun _ => .raw ee_big _ _
  | .decimal _ _ => by unfold encFV; exact .bind (.raw ee_bad _ _) fun _ => .bind (.raw ee_big _ _) fun _ => .raw ee_big _ _
  | .utf8 _ => by unfold encFV; exact .bind (.raw ee_bad _ _) fun _ => .bind (.raw ee_big _ _) fun _ => .bytes ee_big _ _
  | .bytes _ => by unfold encFV; exact .bind (.raw ee_bad _ _) fun _ => .bind (.raw ee_big _ _) fun _ => .bytes ee_big _ _
  | .array vs => by unfold encFV; exact .bind (.raw ee_bad _ _) fun _ => .arrayWith be len (Ece.fvs be len vs)
  | .table es => by unfold encFV; exact .bind (.raw ee_bad _ _) fun _ => .tableWith be len (Ece.entries be len es)
  | .void => by unfold encFV; exact .raw ee_bad _ _
  | .other _ => by unfold encFV; exact .bind (.raw ee_bad _ _) fun _ => .fail ee_inv
theorem Ece.fvs (be : Bool) (len : Nat) : (vs : List FV) → Ece (encFVs be len vs)
  | [] => by unfold encFVs; exact .pure _
  | v :: vs => by unfold encFVs; exact .bind (Ece.fv be len v) fun _ => Ece.fvs be len vs
theorem Ece.entry (be : Bool) (len : Nat) : (e : Entry) → Ece (encEntry be len e)
  | .mk k v => by unfold encEntry; exact .bind (.raw ee_big _ _) fun _ => .bind (.bytes ee_big _ _) fun _ => Ece.fv be len v
theorem Ece.entries (be : Bool) (len : Nat) : (es : List Entry) → Ece (encEntries be len es)
  | [] => by unfold encEntries; exact .pure _
  | e :: es => by unfold encEntries; exact .bind (Ece.entry be len e) fun _ => Ece.entries be len es
end

theorem Ece.field (be : Bool) (len : Nat) (t : FT) (v : Option Val) : Ece (encField be len t v) := by
  unfold encField
  split
  · exact .raw ee_bad _ _
  · exact .raw ee_bad _ _
  · exact .raw ee_bad _ _
  · exact .raw ee_bad _ _
  · exact .ite (.fail ee_bad) (.bind (.raw ee_bad _ _) fun _ => .bytes ee_bad _ _)
  · exact .ite (.fail ee_bad) (.bind (.raw ee_bad _ _) fun _ => .bytes ee_bad _ _)
  · exact .tableWith be len (.entries be len _)
  · exact .ub

theorem Ece.op (be : Bool) (len : Nat) (r : Rec) (o : Op) : Ece (encOp be len r o) := by
  cases o with
  | field t f => exact .field be len t _
  | bits bs =>
    unfold encOp
    dsimp only
    split
    · exact .raw ee_bad _ _
    · exact .ub

theorem Ece.ops (be : Bool) (len : Nat) (r : Rec) : ∀ os, Ece (encOps be len r os)
  | [] => .pure _
  | o :: os => by unfold encOps; exact .bind (.op be len r o) fun _ => Ece.ops be len r os

theorem Ece.flags (be : Bool) (len : Nat) : ∀ n f, Ece (encFlags be len n f)
  | 0, _ => fun _ _ _ h => nomatch h
  | n + 1, f => by unfold encFlags; exact .bind (.raw ee_bad _ _) fun _ => .ite (Ece.flags be len n _) (.pure _)

theorem Ece.props (be : Bool) (len : Nat) (fl : UInt32) (r : Rec) : ∀ ps, Ece (encProps be len fl r ps)
  | [] => .pure _
  | (b, t, f) :: ps => by
    unfold encProps
    refine .bind ?_ fun _ => Ece.props be len fl r ps
    unfold encProp
    exact .ite (.field be len t _) (.pure _)

theorem encMethod_err {be : Bool} {m : Bytes} {len : Nat} {id : UInt32} {r : Rec} {e : Int} {s : EState} (h : encMethod be m len id r = .err e s) : EncodeErr e := by
  unfold encMethod at h
  split at h
  · cases h; exact ⟨by decide, by decide⟩
  · rename_i ops _
    cases h1 : encOps be len r ops ⟨m, 0⟩ with
    | ok x t => rw [h1] at h; cases h
    | err e' t => rw [h1] at h; cases h; exact Ece.ops be len r _ _ _ _ h1
    | ub => rw [h1] at h; cases h
    | fuel => rw [h1] at h; cases h

theorem encProperties_err {be : Bool} {m : Bytes} {len : Nat} {c : UInt16} {fl : UInt32} {r : Rec} {e : Int} {s : EState}
    (h : encProperties be m len c fl r = .err e s) : EncodeErr e := by
  unfold encProperties at h
  cases h0 : encFlags be len 3 fl ⟨m, 0⟩ with
  | err e' t => rw [h0] at h; cases h; exact Ece.flags be len _ _ _ _ _ h0
  | ub => rw [h0] at h; cases h
  | fuel => rw [h0] at h; cases h
  | ok x t =>
    rw [h0] at h
    dsimp only at h
    split at h
    · cases h; exact ⟨by decide, by decide⟩
    · rename_i ps _
      cases h1 : encProps be len fl r ps t with
      | ok x u => rw [h1] at h; cases h
      | err e' u => rw [h1] at h; cases h; exact Ece.props be len fl r _ _ _ _ h1
      | ub => rw [h1] at h; cases h
      | fuel => rw [h1] at h; cases h

theorem finishFrame_noerr (be : Bool) (m : Bytes) (n : Nat) (e : Int) (m' : Bytes) : finishFrame be m n ≠ .err e m' := by
  unfold finishFrame
  repeat' split
  all_goals exact fun h => nomatch h

theorem frameToBytes_err {be : Bool} {m : Bytes} {len : Nat} {f : AFrame} {e : Int} {m' : Bytes} (h : frameToBytes be m len f = .err e m') :
    EncodeErr e := by
  unfold frameToBytes at h
  split at h; · cases h
  split at h; · cases h
  cases hp : f.payload with
  | body b =>
    rw [hp] at h
    dsimp only at h
    split at h
    · cases h
    · exact absurd h (finishFrame_noerr _ _ _ _ _)
  | method id args =>
    rw [hp] at h
    dsimp only at h
    split at h; · cases h
    rename_i mem _
    cases h1 : encMethod be (mem.drop (HEADER_SIZE + 4)) (subWrap len (HEADER_SIZE + 4 + FOOTER_SIZE)) id args with
    | ok n s => rw [h1] at h; exact absurd h (finishFrame_noerr _ _ _ _ _)
    | err e' s => rw [h1] at h; cases h; exact encMethod_err h1
    | ub => rw [h1] at h; cases h
    | fuel => rw [h1] at h; cases h
  | header c sz fl ps =>
    rw [hp] at h
    dsimp only at h
    split at h; · cases h
    split at h; · cases h
    split at h; · cases h
    rename_i mem _
    cases h1 : encProperties be (mem.drop (HEADER_SIZE + 12)) (subWrap len (HEADER_SIZE + 12 + FOOTER_SIZE)) c fl ps with
    | ok n s => rw [h1] at h; exact absurd h (finishFrame_noerr _ _ _ _ _)
    | err e' s => rw [h1] at h; cases h; exact encProperties_err h1
    | ub => rw [h1] at h; cases h
    | fuel => rw [h1] at h; cases h
  | heartbeat => rw [hp] at h; exact absurd h (finishFrame_noerr _ _ _ _ _)
  | protocolHeader a b c d => rw [hp] at h; cases h; exact ee_inv
  | other t => rw [hp] at h; cases h; exact ee_inv

end Rmq
