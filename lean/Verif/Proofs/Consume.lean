import Verif.Proofs.Channels
import Verif.Proofs.Instances
import Verif.Proofs.Clone
/-!
# Assembling messages; frames that are put back
-/
namespace Rmq

/-- The situation in which receiving loses nothing. -/
structure Calm (E : NetEnv) (s : Conn) : Prop where
  good : Good s.ps
  unblocked : Unblocked E s
  nohb : NoHb s

/-- Accounting for one channel. -/
def ChAcc (E : NetEnv) (ch : UInt16) (s s' : Conn) (fs : List AFrame) : Prop :=
  ∃ l, Since s s' l ∧ ∀ X,
    (pending E s (recvBytes l ++ X)).filter (·.channel == ch) = fs ++ (pending E s' X).filter (·.channel == ch)

theorem ChAcc.refl (E : NetEnv) (ch : UInt16) (s : Conn) : ChAcc E ch s s [] := ⟨[], by simp [Since], fun X => rfl⟩
theorem ChAcc.trans {E : NetEnv} {ch : UInt16} {s t u : Conn} {fs gs : List AFrame} (h : ChAcc E ch s t fs) (h' : ChAcc E ch t u gs) :
    ChAcc E ch s u (fs ++ gs) := by
  obtain ⟨l, h1, h2⟩ := h
  obtain ⟨l', h3, h4⟩ := h'
  refine ⟨l ++ l', by unfold Since at *; rw [h3, h1, List.append_assoc], fun X => ?_⟩
  rw [recvBytes_append, List.append_assoc, h2, h4, List.append_assoc]

theorem waitFrameOn_acc {E : NetEnv} {ch : UInt16} {s s' : Conn} {f : DFrame} (hC : Calm E s) (h : waitFrameOn E ch s = .ok f s') :
    Good s'.ps ∧ Unblocked E s' ∧ NoHb s' ∧ f.frame.channel = ch ∧ ChAcc E ch s s' [f.frame] := by
  have hN := hC.nohb
  have off : ∀ {q : List DFrame}, (∀ g ∈ q, g.frame.channel ≠ ch) →
      ((q.map (·.frame)).filter (!·.isHeartbeat)).filter (·.channel == ch) = [] := by
    intro q hq
    rw [List.filter_eq_nil_iff]
    intro x hx
    obtain ⟨g, hg, rfl⟩ := List.mem_map.1 (List.mem_filter.1 hx).1
    simpa using hq g hg
  unfold waitFrameOn at h
  cases hf : findQueued ch s.queue with
  | some p =>
    rw [hf] at h
    cases h
    obtain ⟨hc, a, ha, hoff⟩ := findQueued_split hf
    refine ⟨hC.good, hC.unblocked, ?_, hc, [], by simp [Since], fun X => ?_⟩
    · intro g hg
      apply hN g
      rw [ha]
      show g ∈ _ ++ _ :: _
      exact List.mem_append.2 (Or.inr (List.mem_cons_of_mem _ hg))
    unfold pending
    have hb : p.1.frame.isHeartbeat = false := hN p.1 (by rw [ha]; simp)
    rw [ha]
    show List.filter _ (List.filter _ ((List.map _ _) ++ framesOf E.pe s.ps (s.inb ++ X))) = _
    simp only [List.map_append, List.map_cons, List.filter_append, List.filter_cons, hb, hc, off hoff, List.nil_append,
      List.cons_append, beq_self_eq_true, Bool.not_false, if_true]
  | none =>
    rw [hf] at h
    obtain ⟨a1, b1, u1, fs, aside, e1, q1, m1, n1⟩ := waitOnLoop_eff ch _ s s' f hC.good hC.unblocked h
    obtain ⟨g1, l, hl, he⟩ := e1
    refine ⟨g1, u1, ?_, b1, l, hl, fun X => ?_⟩
    · intro g hg
      rw [q1] at hg
      rcases List.mem_append.1 hg with hg | hg
      · exact hN g hg
      · have : g.frame ∈ fs.filter (!·.isHeartbeat) := by rw [← m1]; exact List.mem_map_of_mem hg
        simpa using (List.mem_filter.1 this).2
    unfold pending
    rw [he X, q1]
    have h2 := off n1
    rw [m1, List.filter_filter, List.filter_filter] at h2
    simp only [List.map_append, List.filter_append, off (findQueued_none hf), off n1, List.nil_append]
    rw [List.filter_filter (l := fs)]
    have h3 : List.filter (fun a => a.channel == ch && !a.isHeartbeat) fs = [] := by
      rw [List.filter_eq_nil_iff] at h2 ⊢
      intro x hx hh
      apply h2 x hx
      simp only [Bool.and_eq_true] at hh ⊢
      exact ⟨⟨hh.1, hh.2⟩, hh.2⟩
    rw [h3]
    simp [List.filter_cons, a1, b1]


/-! ## Copying properties -/

theorem decodedBlk_holds (n : Nat) : holds (decodedBlk n) n := by
  unfold decodedBlk
  by_cases h : n = 0
  · exact Or.inl h
  · rw [if_neg h]; exact Or.inr ⟨_, rfl, Nat.le_refl _⟩

theorem FV.stores_length (vs : List FV) : (FV.stores vs).length = vs.length := by
  induction vs with
  | nil => rfl
  | cons v vs ih => simp [FV.stores, ih]
theorem FV.storeEs_length (vs : List Entry) : (FV.storeEs vs).length = vs.length := by
  induction vs with
  | nil => rfl
  | cons v vs ih => simp [FV.storeEs, ih]

mutual
theorem FV.store_erase (v : FV) : v.store.erase = v := by
  match v with
  | .array vs => simp [FV.store, PV.erase, FV.stores_erase vs]
  | .table es => simp [FV.store, PV.erase, FV.storeEs_erase es]
  | .boolean _ | .i8 _ | .u8 _ | .i16 _ | .u16 _ | .i32 _ | .u32 _ | .i64 _ | .u64 _ | .f32 _ | .f64 _ | .decimal _ _ | .utf8 _
  | .bytes _ | .timestamp _ | .void | .other _ => rfl
theorem FV.stores_erase (vs : List FV) : PV.erases (FV.stores vs) = vs := by
  match vs with
  | [] => rfl
  | v :: vs => simp [FV.stores, PV.erases, FV.store_erase v, FV.stores_erase vs]
theorem Entry.store_erase (e : Entry) : e.store.erase = e := by
  match e with
  | .mk k v => simp [Entry.store, PE.erase, FV.store_erase v]
theorem FV.storeEs_erase (es : List Entry) : PV.eraseEs (FV.storeEs es) = es := by
  match es with
  | [] => rfl
  | e :: es => simp [FV.storeEs, PV.eraseEs, Entry.store_erase e, FV.storeEs_erase es]
end

mutual
theorem FV.store_stored (v : FV) : v.store.stored := by
  match v with
  | .array vs => exact ⟨by rw [FV.stores_length]; exact decodedBlk_holds _, FV.stores_stored vs⟩
  | .table es => exact ⟨by rw [FV.storeEs_length]; exact decodedBlk_holds _, FV.storeEs_stored es⟩
  | .utf8 _ | .bytes _ => exact decodedBlk_holds _
  | .boolean _ | .i8 _ | .u8 _ | .i16 _ | .u16 _ | .i32 _ | .u32 _ | .i64 _ | .u64 _ | .f32 _ | .f64 _ | .decimal _ _
  | .timestamp _ | .void | .other _ => trivial
theorem FV.stores_stored (vs : List FV) : PV.storeds (FV.stores vs) := by
  match vs with
  | [] => trivial
  | v :: vs => exact ⟨FV.store_stored v, FV.stores_stored vs⟩
theorem Entry.store_stored (e : Entry) : e.store.stored := by
  match e with
  | .mk k v => exact ⟨decodedBlk_holds _, FV.store_stored v⟩
theorem FV.storeEs_stored (es : List Entry) : PV.storedEs (FV.storeEs es) := by
  match es with
  | [] => trivial
  | e :: es => exact ⟨Entry.store_stored e, FV.storeEs_stored es⟩
end

/-- Only the allocator's counter moved. -/
def Alloced (s s' : Conn) : Prop := ∃ a, s' = { s with ps := { s.ps with allocs := a } }
theorem Alloced.refl (s : Conn) : Alloced s s := ⟨_, rfl⟩
theorem Alloced.trans {s t u : Conn} (h : Alloced s t) (h' : Alloced t u) : Alloced s u := by
  obtain ⟨a, rfl⟩ := h; obtain ⟨b, rfl⟩ := h'; exact ⟨b, rfl⟩

theorem smallAlloc_alloced (E : NetEnv) (s : Conn) : Alloced s (smallAlloc E s).2 := ⟨_, rfl⟩

theorem allocOr_alloced (E : NetEnv) (s : Conn) : (allocOr E s).All (Alloced s) := by
  unfold allocOr smallAlloc
  dsimp only
  cases E.pe.alloc s.ps.allocs <;> exact ⟨_, rfl⟩

theorem cloneProp_same {E : NetEnv} {v v' : Val} {s s' : Conn} (h : cloneProp E v s = .ok v' s') : v' = v ∧ Alloced s s' := by
  unfold cloneProp at h
  split at h
  · rename_i b
    by_cases hb : b.length = 0
    · rw [if_pos hb] at h; cases h; exact ⟨by rw [List.eq_nil_of_length_eq_zero hb], .refl _⟩
    · rw [if_neg hb] at h
      have h1 := allocOr_alloced E s
      simp only [bind, M.bind, pure, M.pure] at h
      cases h2 : allocOr E s with
      | ok u t => rw [h2] at h h1; cases h; exact ⟨rfl, h1⟩
      | err e t => rw [h2] at h; cases h
      | ub => rw [h2] at h; cases h
      | fuel => rw [h2] at h; cases h
  · rename_i tb
    simp only [bind, M.bind, pure, M.pure, withAlloc] at h
    have h1 := cloneTable_AOK E.pe.alloc 0 (storeTable tb) (FV.storeEs_stored tb) ⟨s.ps.allocs⟩
    cases h2 : cloneTable E.pe.alloc 0 (storeTable tb) ⟨s.ps.allocs⟩ with
    | ok t' st =>
      rw [h2] at h h1
      cases h
      refine ⟨?_, ⟨_, rfl⟩⟩
      have h3 := h1.2.1
      rw [h3]
      show Val.table (PV.eraseEs (FV.storeEs tb)) = _
      rw [FV.storeEs_erase]
    | err e t => rw [h2] at h; cases h
    | ub => rw [h2] at h; cases h
    | fuel => rw [h2] at h; cases h
  · cases h; exact ⟨rfl, .refl _⟩

/-- The flagged properties, as they are. -/
def copiedProps (flags : UInt32) (r : Rec) (ps : List (Nat × Fld)) : Rec :=
  ps.filterMap fun p => if flags &&& UInt32.ofNat (1 <<< p.1) ≠ 0 then (r.get? p.2).map (p.2, ·) else none

theorem cloneProps_same {E : NetEnv} {flags : UInt32} {r : Rec} : ∀ {ps : List (Nat × Fld)} {s s' : Conn} {q : Rec},
    cloneProps E flags r ps s = .ok q s' → q = copiedProps flags r ps ∧ Alloced s s'
  | [], s, s', q, h => by cases h; exact ⟨rfl, .refl _⟩
  | (bit, f) :: ps, s, s', q, h => by
    unfold cloneProps at h
    unfold copiedProps
    rw [List.filterMap_cons]
    dsimp only
    by_cases hf : flags &&& UInt32.ofNat (1 <<< bit) ≠ 0
    · rw [if_pos hf] at h ⊢
      cases hg : r.get? f with
      | none => rw [hg] at h; cases h
      | some v =>
        rw [hg] at h
        simp only [bind, M.bind, pure, M.pure] at h
        cases h1 : cloneProp E v s with
        | err e t => rw [h1] at h; cases h
        | ub => rw [h1] at h; cases h
        | fuel => rw [h1] at h; cases h
        | ok v' t =>
          rw [h1] at h
          dsimp only at h
          obtain ⟨rfl, a1⟩ := cloneProp_same h1
          cases h2 : cloneProps E flags r ps t with
          | err e u => rw [h2] at h; cases h
          | ub => rw [h2] at h; cases h
          | fuel => rw [h2] at h; cases h
          | ok q' u =>
            rw [h2] at h
            cases h
            obtain ⟨rfl, a2⟩ := cloneProps_same h2
            exact ⟨rfl, a1.trans a2⟩
    · rw [if_neg hf] at h ⊢
      exact cloneProps_same h

theorem Calm.alloced {E : NetEnv} {s s' : Conn} (hC : Calm E s) (h : Alloced s s') : Calm E s' ∧ ∀ ch, ChAcc E ch s s' [] := by
  obtain ⟨a, rfl⟩ := h
  have hp : PSim s.ps { s.ps with allocs := a } := PSim.allocs_right hC.good a s.ps.pools
  refine ⟨⟨hp.good hC.good, hC.unblocked, hC.nohb⟩, fun ch => ⟨[], by simp [Since], fun X => ?_⟩⟩
  unfold pending
  show List.filter _ (List.filter _ (s.queue.map (·.frame) ++ framesOf E.pe s.ps (s.inb ++ ([] ++ X)))) = _
  rw [framesOf_sim E.pe hp hC.good]
  rfl

/-! ## The body -/

theorem readBody_acc {E : NetEnv} {ch : UInt16} {len : Nat} : ∀ {n : Nat} {got body : Bytes} {s s' : Conn}, Calm E s →
    got.length ≤ len → readBody E ch len n got s = .ok (.normal body) s' →
    Calm E s' ∧ body.length = len ∧ ∃ bodies : List Bytes, body = got ++ bodies.flatten ∧
      ChAcc E ch s s' (bodies.map fun b => ⟨ch, .body b⟩)
  | 0, _, _, _, _, _, _, h => nomatch h
  | n + 1, got, body, s, s', hC, hl, h => by
    unfold readBody at h
    by_cases hg : got.length < len
    · rw [if_pos hg] at h
      cases h1 : waitFrameOn E ch s with
      | err e t => rw [h1] at h; cases h
      | ub => rw [h1] at h; cases h
      | fuel => rw [h1] at h; cases h
      | ok f t =>
        rw [h1] at h
        obtain ⟨g1, u1, n1, c1, a1⟩ := waitFrameOn_acc hC h1
        dsimp only at h
        cases hp : f.frame.payload with
        | body b =>
          rw [hp] at h
          dsimp only at h
          by_cases hb : got.length + b.length > len
          · rw [if_pos hb] at h; cases h
          rw [if_neg hb] at h
          obtain ⟨c2, l2, bs, e2, a2⟩ := readBody_acc ⟨g1, u1, n1⟩ (by rw [List.length_append]; omega) h
          refine ⟨c2, l2, b :: bs, by rw [e2]; simp, ?_⟩
          have := a1.trans a2
          have hf : f.frame = ⟨ch, .body b⟩ := by rw [← c1, ← hp]
          rw [hf] at this
          exact this
        | method id args =>
          rw [hp] at h
          dsimp only at h
          by_cases hc : isClose id <;> simp only [hc] at h <;> cases h
        | header a b c d => rw [hp] at h; cases h
        | heartbeat => rw [hp] at h; cases h
        | protocolHeader a b c d => rw [hp] at h; cases h
        | other t => rw [hp] at h; cases h
    · rw [if_neg hg] at h
      cases h
      exact ⟨hC, by omega, [], by simp, .refl _ _ _⟩

theorem putBack_not_normal {E : NetEnv} {α : Type} {f : DFrame} {s s' : Conn} {m : α} {st : Int}
    (h : (match putBackIgnored E f s with
      | .ok () s => .ok (.libraryException st) s
      | .err e s => .err e s
      | .ub => .ub
      | .fuel => .fuel : Res Conn (Outcome α)) = .ok (.normal m) s') : False := by
  revert h
  cases putBackIgnored E f s <;> intro h <;> cases h

theorem readMessage_acc {E : NetEnv} {ch : UInt16} {m : Message} {s s' : Conn} (hC : Calm E s)
    (h : readMessage E ch s = .ok (.normal m) s') :
    Calm E s' ∧ ∃ (cls : UInt16) (size : UInt64) (r : Rec) (bodies : List Bytes), m.body = bodies.flatten ∧
      m.body.length = size.toNat ∧ m.props = copiedProps m.flags r clonedProps ∧
      ChAcc E ch s s' (⟨ch, .header cls size m.flags r⟩ :: bodies.map fun b => ⟨ch, .body b⟩) := by
  unfold readMessage at h
  cases h1 : waitFrameOn E ch s with
  | err e t => rw [h1] at h; cases h
  | ub => rw [h1] at h; cases h
  | fuel => rw [h1] at h; cases h
  | ok f t =>
    rw [h1] at h
    obtain ⟨g1, u1, n1, c1, a1⟩ := waitFrameOn_acc hC h1
    dsimp only at h
    cases hp : f.frame.payload with
    | header cls size flags r =>
      rw [hp] at h
      dsimp only at h
      unfold readContent at h
      cases h2 : cloneProps E flags r clonedProps t with
      | err e t => rw [h2] at h; cases h
      | ub => rw [h2] at h; cases h
      | fuel => rw [h2] at h; cases h
      | ok q u =>
        rw [h2] at h
        dsimp only at h
        obtain ⟨rfl, al1⟩ := cloneProps_same h2
        have al2 : (if size.toNat = 0 then .ok () u else allocOr E u : Res Conn Unit).All (Alloced u) := by
          by_cases hz : size.toNat = 0
          · rw [if_pos hz]; exact .refl _
          · rw [if_neg hz]; exact allocOr_alloced E u
        cases h3 : (if size.toNat = 0 then .ok () u else allocOr E u : Res Conn Unit) with
        | err e t => rw [h3] at h; cases h
        | ub => rw [h3] at h; cases h
        | fuel => rw [h3] at h; cases h
        | ok x v =>
          rw [h3] at h al2
          dsimp only at h
          obtain ⟨c2, a2⟩ := (Calm.mk g1 u1 n1).alloced (al1.trans al2)
          cases h4 : readBody E ch size.toNat E.fuel [] v with
          | err e t => rw [h4] at h; cases h
          | ub => rw [h4] at h; cases h
          | fuel => rw [h4] at h; cases h
          | ok o w =>
            rw [h4] at h
            cases o with
            | serverException id args => cases h
            | libraryException e => cases h
            | normal body =>
              cases h
              obtain ⟨c3, l3, bs, e3, a3⟩ := readBody_acc c2 (by simp) h4
              refine ⟨c3, cls, size, r, bs, e3, l3, rfl, ?_⟩
              have := a1.trans ((a2 ch).trans a3)
              have hf : f.frame = ⟨ch, .header cls size flags r⟩ := by rw [← c1, ← hp]
              rw [hf] at this
              exact this
    | method id args =>
      rw [hp] at h
      dsimp only at h
      by_cases hc : isClose id = true
      · rw [if_pos hc] at h; cases h
      · rw [if_neg hc] at h; exact (putBack_not_normal h).elim
    | body b => rw [hp] at h; exact (putBack_not_normal h).elim
    | heartbeat => rw [hp] at h; exact (putBack_not_normal h).elim
    | protocolHeader a b c d => rw [hp] at h; exact (putBack_not_normal h).elim
    | other t => rw [hp] at h; exact (putBack_not_normal h).elim

end Rmq
