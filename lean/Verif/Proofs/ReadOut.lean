import Verif.Spec.Reads
import Verif.Proofs.Arrive
import Verif.Props.Consume
/-!
# What amqp_read_message makes of the frames it finds
-/
namespace Rmq

theorem isClose_closing (id : UInt32) : isClose id = true ↔ ClosingId id := by
  unfold isClose ClosingId CHANNEL_CLOSE CONNECTION_CLOSE
  simp

theorem readBody_out {E : NetEnv} {ch : UInt16} {len : Nat} : ∀ {n : Nat} {gs : List Bytes} {o : Outcome Bytes} {s s' : Conn}, Calm E s →
    (∀ k < gs.length, (gs.take k).flatten.length < len) → gs.flatten.length ≤ len → readBody E ch len n gs.flatten s = .ok o s' →
    (∃ (new : List Bytes) (last : Option AFrame), BodyFound ch len (gs ++ new) last o ∧
      ChAcc E ch s s' ((new.map fun b => ⟨ch, .body b⟩) ++ last.toList)) ∨ ∃ e, o = .libraryException e ∧ WaitFailed E ch e s'
  | 0, _, _, _, _, _, _, _, h => nomatch h
  | n + 1, gs, o, s, s', hC, hk, hl, h => by
    unfold readBody at h
    by_cases hg : gs.flatten.length < len
    · rw [if_pos hg] at h
      cases h1 : waitFrameOn E ch s with
      | err e t => rw [h1] at h; cases h; exact Or.inr ⟨e, rfl, s, h1⟩
      | ub => rw [h1] at h; cases h
      | fuel => rw [h1] at h; cases h
      | ok f t =>
        rw [h1] at h
        obtain ⟨g1, u1, n1, c1, a1⟩ := waitFrameOn_acc hC h1
        dsimp only at h
        have foreign : (∀ b, f.frame.payload ≠ .body b) → (∀ id args, f.frame.payload = .method id args → ¬ ClosingId id) →
            o = .libraryException St.BAD_AMQP_DATA → s' = t → (∃ (new : List Bytes) (last : Option AFrame), BodyFound ch len (gs ++ new) last o ∧
              ChAcc E ch s s' ((new.map fun b => ⟨ch, .body b⟩) ++ last.toList)) ∨ ∃ e, o = .libraryException e ∧ WaitFailed E ch e s' := by
          rintro k1 k2 rfl rfl
          refine Or.inl ⟨[], some f.frame, ?_, a1⟩
          rw [List.append_nil]
          exact .foreign hg c1 k1 k2
        cases hp : f.frame.payload with
        | body b =>
          rw [hp] at h
          dsimp only at h
          have hf : f.frame = ⟨ch, .body b⟩ := by rw [← c1, ← hp]
          by_cases hb : gs.flatten.length + b.length > len
          · rw [if_pos hb] at h
            cases h
            refine Or.inl ⟨[], some f.frame, ?_, a1⟩
            rw [List.append_nil, hf]
            exact .tooMuch hg hb
          rw [if_neg hb] at h
          have he : gs.flatten ++ b = (gs ++ [b]).flatten := by simp
          rw [he] at h
          have hk' : ∀ k < (gs ++ [b]).length, ((gs ++ [b]).take k).flatten.length < len := by
            intro k hk1
            rw [List.length_append] at hk1
            have hk1 : k < gs.length + 1 := hk1
            by_cases hk2 : k < gs.length
            · rw [List.take_append_of_le_length (by omega)]; exact hk k hk2
            · have : k = gs.length := by omega
              subst this
              rw [List.take_left]; exact hg
          rcases readBody_out ⟨g1, u1, n1⟩ hk' (by rw [← he, List.length_append]; omega) h with ⟨new, last, c2, a2⟩ | hw
          · refine Or.inl ⟨b :: new, last, by simpa using c2, ?_⟩
            have := a1.trans a2
            rw [hf] at this
            exact this
          · exact Or.inr hw
        | method id args =>
          rw [hp] at h
          dsimp only at h
          by_cases hc : isClose id = true
          · rw [if_pos hc] at h
            cases h
            refine Or.inl ⟨[], some f.frame, ?_, a1⟩
            have hf : f.frame = ⟨ch, .method id args⟩ := by rw [← c1, ← hp]
            rw [List.append_nil, hf]
            exact .closed hg ((isClose_closing id).1 hc)
          · rw [if_neg hc] at h
            refine foreign (fun b hb => ?_) (fun i a hi => ?_) (by cases h; rfl) (by cases h; rfl)
            · rw [hp] at hb; cases hb
            · rw [hp] at hi; cases hi; exact fun hh => hc ((isClose_closing id).2 hh)
        | header a b c d => rw [hp] at h; exact foreign (by rw [hp]; exact fun _ hh => nomatch hh) (by rw [hp]; exact fun _ _ hh => nomatch hh) (by cases h; rfl) (by cases h; rfl)
        | heartbeat => rw [hp] at h; exact foreign (by rw [hp]; exact fun _ hh => nomatch hh) (by rw [hp]; exact fun _ _ hh => nomatch hh) (by cases h; rfl) (by cases h; rfl)
        | protocolHeader a b c d => rw [hp] at h; exact foreign (by rw [hp]; exact fun _ hh => nomatch hh) (by rw [hp]; exact fun _ _ hh => nomatch hh) (by cases h; rfl) (by cases h; rfl)
        | other t => rw [hp] at h; exact foreign (by rw [hp]; exact fun _ hh => nomatch hh) (by rw [hp]; exact fun _ _ hh => nomatch hh) (by cases h; rfl) (by cases h; rfl)
    · rw [if_neg hg] at h
      cases h
      refine Or.inl ⟨[], none, ?_, .refl _ _ _⟩
      rw [List.append_nil]
      exact .all hk (by omega)

theorem Found.of {E : NetEnv} {ch : UInt16} {s s' : Conn} {fs : List AFrame} (h : ChAcc E ch s s' fs) : Found E ch s s' fs [] := by
  obtain ⟨l, h1, h2⟩ := h
  exact ⟨l, h1, fun X => ⟨_, h2 X, rfl⟩⟩

theorem readMessage_out {E : NetEnv} (hA : ∀ k, E.pe.alloc k = true) {ch : UInt16} {o : Outcome Message} {s s' : Conn} (hC : Calm E s)
    (h : readMessage E ch s = .ok o s') :
    (∃ found kept, Reads ch found kept o ∧ Found E ch s s' found kept) ∨ (∃ e, o = .libraryException e ∧ WaitFailed E ch e s') ∨
    ∃ e cls size flags props l, o = .libraryException e ∧ ¬ (KindProps props ∧ KeyedProps props) ∧ Since s s' l ∧
      ∀ X, ((pending E s (recvBytes l ++ X)).filter (·.channel == ch)).head? = some ⟨ch, .header cls size flags props⟩ := by
  unfold readMessage at h
  cases h1 : waitFrameOn E ch s with
  | err e t => rw [h1] at h; cases h; exact Or.inr (Or.inl ⟨e, rfl, s, h1⟩)
  | ub => rw [h1] at h; cases h
  | fuel => rw [h1] at h; cases h
  | ok f t =>
    rw [h1] at h
    obtain ⟨g1, u1, n1, c1, a1⟩ := waitFrameOn_acc hC h1
    dsimp only at h
    have k3 : f.frame.isHeartbeat = false := by
      obtain ⟨l, _, b⟩ := a1
      have hm : f.frame ∈ (pending E s (recvBytes l ++ [])).filter (·.channel == ch) := by rw [b]; simp
      have := (List.mem_filter.1 (List.mem_filter.1 hm).1).2
      simpa using this
    have back : (∀ a b c d, f.frame.payload ≠ .header a b c d) → (∀ id args, f.frame.payload = .method id args → ¬ ClosingId id) →
        (match putBackIgnored E f t with
          | .ok () s => .ok (.libraryException St.UNEXPECTED_STATE) s
          | .err e s => .err e s
          | .ub => .ub
          | .fuel => .fuel : Res Conn (Outcome Message)) = .ok o s' → ∃ found kept, Reads ch found kept o ∧ Found E ch s s' found kept := by
      intro k1 k2 h
      obtain ⟨t', p1, p2⟩ := putBackIgnored_mem hA f t
      rw [p1] at h
      cases h
      obtain ⟨q1, q2⟩ := putBack_pending g1 k3 p2
      refine ⟨[f.frame], [f.frame], .noHeader c1 k1 k2, ?_⟩
      obtain ⟨l, b1, b2⟩ := a1
      refine ⟨l, by unfold Since at *; rw [q1, b1], fun X => ⟨_, b2 X, ?_⟩⟩
      rw [q2, List.filter_cons_of_pos (by simp [c1])]
      rfl
    cases hp : f.frame.payload with
    | header cls size flags r =>
      rw [hp] at h
      dsimp only at h
      have hf : f.frame = ⟨ch, .header cls size flags r⟩ := by rw [← c1, ← hp]
      unfold readContent at h
      cases h2 : cloneProps E flags r clonedProps t with
      | err e w =>
        rw [h2] at h
        cases h
        have hn : ¬ (KindProps r ∧ KeyedProps r) := fun hh => cloneProps_ok hA hh.1 hh.2 h2
        have hh := cloneProps_hush E flags r clonedProps t
        rw [h2] at hh
        obtain ⟨_, _, _, l2, s2, _, _⟩ := hh
        obtain ⟨l1, s1, b1⟩ := a1
        refine Or.inr (Or.inr ⟨e, cls, size, flags, r, l1 ++ l2, rfl, hn, s1.trans s2, fun X => ?_⟩)
        rw [recvBytes_append, List.append_assoc, b1, hf]
        rfl
      | ub => rw [h2] at h; cases h
      | fuel => rw [h2] at h; cases h
      | ok q u =>
        rw [h2] at h
        dsimp only at h
        obtain ⟨rfl, al1⟩ := cloneProps_same h2
        have al2 : (if size.toNat = 0 then .ok () u else allocOr E u : Res Conn Unit).All (Alloced u) := by
          by_cases hz : size.toNat = 0
          · rw [if_pos hz]; exact .refl _
          · rw [if_neg hz]; exact allocOr_alloced E u
        cases h3 : (if size.toNat = 0 then .ok () u else allocOr E u : Res Conn Unit) with
        | err e w =>
          exfalso
          by_cases hz : size.toNat = 0
          · rw [if_pos hz] at h3; cases h3
          · rw [if_neg hz] at h3
            unfold allocOr smallAlloc at h3
            rw [hA] at h3
            cases h3
        | ub => rw [h3] at h; cases h
        | fuel => rw [h3] at h; cases h
        | ok x v =>
          rw [h3] at h al2
          dsimp only at h
          obtain ⟨c2, a2⟩ := (Calm.mk g1 u1 n1).alloced (al1.trans al2)
          rw [hf] at a1
          cases h4 : readBody E ch size.toNat E.fuel [] v with
          | err e t => rw [h4] at h; cases h
          | ub => rw [h4] at h; cases h
          | fuel => rw [h4] at h; cases h
          | ok o' w =>
            rw [h4] at h
            rcases readBody_out (gs := []) c2 (fun k hk => absurd hk (by simp)) (by simp) h4 with ⟨new, last, b1, b2⟩ | ⟨e, b1, b2⟩
            · have acc := a1.trans ((a2 ch).trans b2)
              left
              rw [List.nil_append] at b1
              cases b1 with
              | all k1 k2 =>
                cases h
                rw [copiedProps_eq]
                exact ⟨_, _, .message (.all k1 k2), .of (by simpa using acc)⟩
              | closed k1 k2 => cases h; exact ⟨_, _, .closedWithin (cls := cls) (flags := flags) (props := r) (.closed k1 k2), .of (by simpa using acc)⟩
              | foreign k1 k2 k3 k4 => cases h; exact ⟨_, _, .broken (cls := cls) (flags := flags) (props := r) (.foreign k1 k2 k3 k4), .of (by simpa using acc)⟩
              | tooMuch k1 k2 => cases h; exact ⟨_, _, .broken (cls := cls) (flags := flags) (props := r) (.tooMuch k1 k2), .of (by simpa using acc)⟩
            · subst b1
              cases h
              exact Or.inr (Or.inl ⟨e, rfl, b2⟩)
    | method id args =>
      rw [hp] at h
      dsimp only at h
      by_cases hc : isClose id = true
      · rw [if_pos hc] at h
        cases h
        have hf : f.frame = ⟨ch, .method id args⟩ := by rw [← c1, ← hp]
        rw [hf] at a1
        exact Or.inl ⟨_, _, .closed ((isClose_closing id).1 hc), .of a1⟩
      · rw [if_neg hc] at h
        refine Or.inl (back ?_ ?_ h)
        · rw [hp]; exact fun _ _ _ _ hh => nomatch hh
        · rw [hp]; intro i a hi; cases hi; exact fun hh => hc ((isClose_closing id).2 hh)
    | body b => rw [hp] at h; exact Or.inl (back (by rw [hp]; exact fun _ _ _ _ hh => nomatch hh) (by rw [hp]; exact fun _ _ hh => nomatch hh) h)
    | heartbeat => exact absurd hp (fun hh => by simp [AFrame.isHeartbeat, hh] at k3)
    | protocolHeader a b c d => rw [hp] at h; exact Or.inl (back (by rw [hp]; exact fun _ _ _ _ hh => nomatch hh) (by rw [hp]; exact fun _ _ hh => nomatch hh) h)
    | other t => rw [hp] at h; exact Or.inl (back (by rw [hp]; exact fun _ _ _ _ hh => nomatch hh) (by rw [hp]; exact fun _ _ hh => nomatch hh) h)

/-! ## The frames determine the result -/

structure BodyFound.Facts (ch : UInt16) (size : Nat) (bodies : List Bytes) (last : Option AFrame) : Prop where
  le : bodies.flatten.length ≤ size
  before : ∀ k < bodies.length, (bodies.take k).flatten.length < size
  whole : last = none → bodies.flatten.length = size
  short : ∀ f, last = some f → bodies.flatten.length < size
  over : ∀ b, last = some ⟨ch, .body b⟩ → size < bodies.flatten.length + b.length

theorem flatten_take_le (bs : List Bytes) (k : Nat) : (bs.take k).flatten.length ≤ bs.flatten.length := by
  have : bs.flatten = (bs.take k).flatten ++ (bs.drop k).flatten := by rw [← List.flatten_append, List.take_append_drop]
  rw [this, List.length_append]
  omega

theorem BodyFound.facts {ch : UInt16} {size : Nat} {bodies : List Bytes} {last : Option AFrame} {o : Outcome Bytes} (h : BodyFound ch size bodies last o) :
    BodyFound.Facts ch size bodies last := by
  cases h with
  | all h1 h2 => exact ⟨by omega, h1, fun _ => h2, fun f hf => (nomatch hf), fun b hb => (nomatch hb)⟩
  | closed h1 h2 =>
    exact ⟨by omega, fun k _ => Nat.lt_of_le_of_lt (flatten_take_le _ _) h1, fun h => (nomatch h), fun f hf => h1, fun b hb => by cases hb⟩
  | foreign h1 h2 h3 h4 =>
    refine ⟨by omega, fun k _ => Nat.lt_of_le_of_lt (flatten_take_le _ _) h1, fun h => (nomatch h), fun f hf => h1, fun b hb => ?_⟩
    cases hb
    exact absurd rfl (h3 b)
  | tooMuch h1 h2 =>
    refine ⟨by omega, fun k _ => Nat.lt_of_le_of_lt (flatten_take_le _ _) h1, fun h => (nomatch h), fun f hf => h1, fun b hb => ?_⟩
    cases hb
    exact h2

theorem map_append_take {α β : Type} {g : α → β} (hg : ∀ a b, g a = g b → a = b) : ∀ {as bs : List α} {X Y : List β}, as.length ≤ bs.length →
    as.map g ++ X = bs.map g ++ Y → as = bs.take as.length ∧ X = (bs.drop as.length).map g ++ Y
  | [], bs, X, Y, _, h => ⟨rfl, h⟩
  | a :: as, [], X, Y, hl, h => absurd hl (by simp)
  | a :: as, b :: bs, X, Y, hl, h => by
    simp only [List.map_cons, List.cons_append, List.cons.injEq] at h
    obtain ⟨h1, h2⟩ := map_append_take hg (by simpa using hl) h.2
    have := hg _ _ h.1
    subst this
    refine ⟨?_, h2⟩
    rw [List.length_cons, List.take_succ_cons, ← h1]

theorem BodyFound.no_shorter {ch : UInt16} {size : Nat} {as bs : List Bytes} {p q : Option AFrame} {X Y : List AFrame}
    (ha : BodyFound.Facts ch size as p) (hb : BodyFound.Facts ch size bs q)
    (h : (as.map fun b => (⟨ch, .body b⟩ : AFrame)) ++ (p.toList ++ X) = (bs.map fun b => ⟨ch, .body b⟩) ++ (q.toList ++ Y)) : bs.length ≤ as.length := by
  refine Nat.le_of_not_lt fun hlt => ?_
  obtain ⟨h1, h2⟩ := map_append_take (fun a b h => by injection h with _ h; injection h) (Nat.le_of_lt hlt) h
  have hk := hb.before as.length hlt
  rw [← h1] at hk
  cases p with
  | none => have := ha.whole rfl; omega
  | some f =>
    rw [List.drop_eq_getElem_cons hlt] at h2
    simp only [Option.toList_some, List.cons_append, List.map_cons, List.cons.injEq, List.nil_append] at h2
    have h3 := ha.over _ (congrArg some h2.1)
    have h4 : (bs.take (as.length + 1)).flatten.length = as.flatten.length + (bs[as.length]).length := by
      rw [List.take_succ_eq_append_getElem hlt, ← h1, List.flatten_append, List.length_append]
      simp
    have h5 := flatten_take_le bs (as.length + 1)
    have := hb.le
    omega

theorem BodyFound.unique {ch : UInt16} {size : Nat} {as bs : List Bytes} {p q : Option AFrame} {o o' : Outcome Bytes} {X Y : List AFrame}
    (ha : BodyFound ch size as p o) (hb : BodyFound ch size bs q o')
    (h : (as.map fun b => (⟨ch, .body b⟩ : AFrame)) ++ (p.toList ++ X) = (bs.map fun b => ⟨ch, .body b⟩) ++ (q.toList ++ Y)) :
    as = bs ∧ p = q ∧ o = o' := by
  have hl : as.length = bs.length := Nat.le_antisymm (no_shorter hb.facts ha.facts h.symm) (no_shorter ha.facts hb.facts h)
  obtain ⟨h1, h2⟩ := map_append_take (fun a b h => by injection h with _ h; injection h) (Nat.le_of_eq hl) h
  rw [hl] at h1 h2
  rw [List.take_length] at h1
  rw [List.drop_length, List.map_nil, List.nil_append] at h2
  subst h1
  have hpq : p = q := by
    cases p with
    | none =>
      cases q with
      | none => rfl
      | some g => have a := ha.facts.whole rfl; have b := hb.facts.short g rfl; omega
    | some f =>
      cases q with
      | none => have a := hb.facts.whole rfl; have b := ha.facts.short f rfl; omega
      | some g => simp only [Option.toList_some, List.cons_append, List.cons.injEq] at h2; rw [h2.1]
  subst hpq
  refine ⟨rfl, rfl, ?_⟩
  cases ha with
  | all => cases hb; rfl
  | closed k1 k2 =>
    cases hb with
    | closed => rfl
    | foreign _ _ _ k => exact absurd k2 (k _ _ rfl)
  | foreign k1 k2 k3 k4 =>
    cases hb with
    | closed _ k => exact absurd k (k4 _ _ rfl)
    | foreign => rfl
    | tooMuch => rfl
  | tooMuch k1 k2 =>
    cases hb with
    | foreign _ _ k => exact absurd rfl (k _)
    | tooMuch => rfl

def wrapBody (flags : UInt32) (props : Rec) : Outcome Bytes → Outcome Message
  | .normal body => .normal ⟨flags, flaggedProps flags props basicProps, body⟩
  | .serverException id args => .serverException id args
  | .libraryException e => .libraryException e

theorem Reads.split {ch : UInt16} {found kept : List AFrame} {o : Outcome Message} (h : Reads ch found kept o) :
    (∃ cls size flags props bodies last ob, found = ⟨ch, .header cls size flags props⟩ :: ((bodies.map fun b => ⟨ch, .body b⟩) ++ Option.toList last) ∧
      kept = [] ∧ BodyFound ch size.toNat bodies last ob ∧ o = wrapBody flags props ob) ∨
    ∃ f : AFrame, found = [f] ∧ (∀ a b c d, f.payload ≠ .header a b c d) ∧
      ((∃ id args, f.payload = .method id args ∧ ClosingId id ∧ kept = [] ∧ o = .serverException id args) ∨
       ((∀ id args, f.payload = .method id args → ¬ ClosingId id) ∧ kept = [f] ∧ o = .libraryException (-0x10))) := by
  cases h with
  | @message cls size flags props bodies body hb => exact Or.inl ⟨cls, size, flags, props, bodies, none, _, by simp, rfl, hb, rfl⟩
  | @broken cls size flags props bodies f e hb => exact Or.inl ⟨cls, size, flags, props, bodies, some f, _, by simp, rfl, hb, rfl⟩
  | @closedWithin cls size flags props bodies f id args hb => exact Or.inl ⟨cls, size, flags, props, bodies, some f, _, by simp, rfl, hb, rfl⟩
  | closed hi => exact Or.inr ⟨_, rfl, (fun _ _ _ _ h => nomatch h), Or.inl ⟨_, _, rfl, hi, rfl, rfl⟩⟩
  | noHeader h1 h2 h3 => exact Or.inr ⟨_, rfl, h2, Or.inr ⟨h3, rfl, rfl⟩⟩

theorem Reads.unique {ch : UInt16} {found found' kept kept' X Y : List AFrame} {o o' : Outcome Message} (h : Reads ch found kept o)
    (h' : Reads ch found' kept' o') (he : found ++ X = found' ++ Y) : found = found' ∧ kept = kept' ∧ o = o' := by
  rcases h.split with ⟨cls, size, flags, props, bodies, last, ob, rfl, rfl, hb, rfl⟩ | ⟨f, rfl, hn, hf⟩ <;>
    rcases h'.split with ⟨cls', size', flags', props', bodies', last', ob', rfl, rfl, hb', rfl⟩ | ⟨f', rfl, hn', hf'⟩
  · simp only [List.cons_append, List.cons.injEq, List.append_assoc] at he
    obtain ⟨h1, h2⟩ := he
    injection h1 with _ h1
    injection h1 with e1 e2 e3 e4
    subst e1 e2 e3 e4
    obtain ⟨rfl, rfl, rfl⟩ := hb.unique hb' h2
    exact ⟨rfl, rfl, rfl⟩
  · simp only [List.cons_append, List.cons.injEq] at he
    exact absurd (by rw [← he.1]) (hn' _ _ _ _)
  · simp only [List.cons_append, List.cons.injEq] at he
    exact absurd (by rw [he.1]) (hn _ _ _ _)
  · simp only [List.cons_append, List.cons.injEq] at he
    obtain ⟨rfl, _⟩ := he
    refine ⟨rfl, ?_⟩
    rcases hf with ⟨id, args, k1, k2, rfl, rfl⟩ | ⟨k1, rfl, rfl⟩ <;> rcases hf' with ⟨id', args', k1', k2', rfl, rfl⟩ | ⟨k1', rfl, rfl⟩
    · rw [k1] at k1'
      injection k1' with e1 e2
      subst e1 e2
      exact ⟨rfl, rfl⟩
    · exact absurd k2 (k1' _ _ k1)
    · exact absurd k2' (k1 _ _ k1')
    · exact ⟨rfl, rfl⟩

end Rmq
