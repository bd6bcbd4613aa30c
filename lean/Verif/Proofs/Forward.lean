import Verif.Proofs.Typed
import Verif.Proofs.Spelling
import Verif.Proofs.FrameSafe
/-!
# What was received can be sent on
-/
namespace Rmq

/-! ### Octets read with the lax rules: same number when written again -/

mutual
theorem SpellFV.size {strict canon : Prop} {bs : Bytes} {v : FV} (h : SpellFV strict canon bs v) :
    bs.length = (serFV v).length ∧ (bs.length < 2 ^ 32 → representable v) := by
  match h with
  | .plain v _ hr => exact ⟨rfl, fun _ => hr⟩
  | .boolean b hb =>
    refine ⟨rfl, fun _ => ?_⟩
    by_cases h : b = 0
    · rw [if_pos h]; exact Or.inl rfl
    · rw [if_neg h]; exact Or.inr rfl
  | .array n bs vs hn h =>
    obtain ⟨h1, h3⟩ := SpellFVs.size h
    refine ⟨?_, fun hl => ?_⟩
    · simp only [serFV, serLong, List.length_cons, List.length_append, beBytes_length]; omega
    · simp only [List.length_cons, List.length_append, beBytes_length] at hl
      simp only [representable]; exact ⟨by omega, h3 (by omega)⟩
  | .table n bs vs hn h =>
    obtain ⟨h1, h3⟩ := SpellEntries.size h
    refine ⟨?_, fun hl => ?_⟩
    · simp only [serFV, serLong, List.length_cons, List.length_append, beBytes_length]; omega
    · simp only [List.length_cons, List.length_append, beBytes_length] at hl
      simp only [representable]; exact ⟨by omega, h3 (by omega)⟩
theorem SpellFVs.size {strict canon : Prop} {n : Nat} {bs : Bytes} {vs : List FV} (h : SpellFVs strict canon n bs vs) :
    bs.length = (serFVs vs).length ∧ (bs.length < 2 ^ 32 → representables vs) := by
  match h with
  | .nil => exact ⟨rfl, fun _ => trivial⟩
  | .cons n a bs v vs h0 hs h1 h2 =>
    obtain ⟨e1, r1⟩ := SpellFV.size h1
    obtain ⟨e2, r2⟩ := SpellFVs.size h2
    refine ⟨by simp only [serFVs, List.length_append]; omega, fun hl => ?_⟩
    rw [List.length_append] at hl
    exact ⟨r1 (by omega), r2 (by omega)⟩
theorem SpellEntries.size {strict canon : Prop} {n : Nat} {bs : Bytes} {es : List Entry} (h : SpellEntries strict canon n bs es) :
    bs.length = (serEntries es).length ∧ (bs.length < 2 ^ 32 → representableEs es) := by
  match h with
  | .nil => exact ⟨rfl, fun _ => trivial⟩
  | .cons n k a bs v es h0 hk hs h1 h2 =>
    obtain ⟨e1, r1⟩ := SpellFV.size h1
    obtain ⟨e2, r2⟩ := SpellEntries.size h2
    refine ⟨by simp only [serEntries, serEntry, List.length_append] at *; omega, fun hl => ?_⟩
    simp only [List.length_append] at hl
    exact ⟨⟨hk, r1 (by omega)⟩, r2 (by omega)⟩
end

theorem spellTable_size {strict canon : Prop} {bs : Bytes} {t : Table} (h : SpellTable strict canon bs t) :
    bs.length = (serTable t).length ∧ (bs.length < 2 ^ 32 → representableTable t) := by
  obtain ⟨n, body, hn, rfl, h⟩ := h
  obtain ⟨h1, h3⟩ := h.size
  refine ⟨by simp only [serTable, serLong, List.length_append, beBytes_length]; omega, fun hl => ?_⟩
  simp only [List.length_append, beBytes_length] at hl
  exact ⟨by omega, h3 (by omega)⟩

theorem decodeTable_size {E : DEnv} (s : DState) (hm : E.mem.length < 2 ^ 32) :
    Yields E (fun bs t => (serTable t).length = bs.length ∧ representableTable t ∧ nestingEs t ≤ 101) s (decodeTable E s) := by
  have h := (decode_spells E (decFuel E s.off)).2.2.2.1 0 s
  cases hd : decodeTable E s with
  | ok t s' =>
    have hd' := hd
    unfold decodeTable at hd
    rw [hd] at h
    obtain ⟨bs, h1, h2, h3⟩ := h
    obtain ⟨h4, h5⟩ := spellTable_size h3
    have hl := h1.length_le
    rw [List.length_drop] at hl
    exact ⟨bs, h1, h2, h4.symm, h5 (by omega), decodeTable_nesting E s s' t hd'⟩
  | _ => trivial

/-! ### Fields -/

/-- The value fits its domain, can be sent on, and takes as many octets as it was read from. -/
def Again (d : Dom) (bs : Bytes) (v : Val) : Prop := d.admits v ∧ d.encodable v ∧ d.faithful v ∧ (serDom d v).length = bs.length

theorem decField_again {E : DEnv} {d : Dom} (hd : d ≠ .bit) (s : DState) (hm : E.mem.length < 2 ^ 32) :
    Yields E (Again d) s (decField E d.ft s) := by
  cases d <;> simp only [Dom.ft, decField]
  case bit => exact absurd rfl hd
  case octet => exact Yields.map _ ((Yields.dec8 _ s).mono fun bs a h => ⟨trivial, trivial, trivial, by rw [h, serDom]⟩)
  case short => exact Yields.map _ ((Yields.dec16 _ s).mono fun bs a h => ⟨trivial, trivial, trivial, by rw [h, serDom]⟩)
  case long => exact Yields.map _ ((Yields.dec32 _ s).mono fun bs a h => ⟨trivial, trivial, trivial, by rw [h, serDom]⟩)
  case longlong => exact Yields.map _ ((Yields.dec64 _ s).mono fun bs a h => ⟨trivial, trivial, trivial, by rw [h, serDom]⟩)
  case shortstr =>
    refine Yields.bind (Yields.dec8 _ s) fun n b₁ s' h1 _ => Yields.map _ ((Yields.decBytes _ _ s').mono ?_)
    rintro bs a ⟨rfl, h2⟩
    have hn := n.toNat_lt
    refine ⟨trivial, ?_, trivial, ?_⟩
    · show bs.length ≤ 255; omega
    · rw [h1]; simp only [serDom, serShort, List.length_append, beBytes_length]
  case longstr =>
    refine Yields.bind (Yields.dec32 _ s) fun n b₁ s' h1 _ => Yields.map _ ((Yields.decBytes _ _ s').mono ?_)
    rintro bs a ⟨rfl, h2⟩
    have hn := n.toNat_lt
    refine ⟨trivial, ?_, trivial, ?_⟩
    · show bs.length < 2 ^ 32; omega
    · rw [h1]; simp only [serDom, serLong, List.length_append, beBytes_length]
  case table =>
    exact Yields.map _ ((decodeTable_size s hm).mono fun bs t h => ⟨trivial, representableEs_kinds t h.2.1.2, h.2, h.1⟩)

/-- The arguments of a method that can be sent. -/
def SendArgs (as : List (Fld × Dom)) (r : Rec) : Prop := HasArgs as r ∧ AllArgs Dom.encodable as r ∧ AllArgs Dom.faithful as r

theorem SendArgs.nil : SendArgs [] [] := ⟨.nil, trivial, trivial⟩

theorem SendArgs.cons {f : Fld} {d : Dom} {v : Val} {as : List (Fld × Dom)} {r : Rec} (h1 : d.admits v) (h2 : d.encodable v) (h3 : d.faithful v)
    (h : SendArgs as r) : SendArgs ((f, d) :: as) ((f, v) :: r) := ⟨.cons h1 h.1, ⟨h2, h.2.1⟩, h3, h.2.2⟩

theorem SendArgs.append {as bs : List (Fld × Dom)} {r q : Rec} (h : SendArgs as r) (h' : SendArgs bs q) : SendArgs (as ++ bs) (r ++ q) := by
  obtain ⟨h1, h2, h3⟩ := h
  induction h1 with
  | nil => exact h'
  | cons hd _ ih => exact (ih h2.2 h3.2).cons hd h2.1 h3.1

theorem flushOps_again {E : DEnv} (p : List (Fld × Nat)) (s : DState) :
    Yields E (fun bs r => SendArgs (p.map fun q => (q.1, .bit)) r ∧ ∀ bl : List Bool, bl.length = p.length → (serBits bl).length = bs.length) s
      (decOps E (flushOps p) s) := by
  cases p with
  | nil =>
    refine Yields.pure _ ⟨.nil, fun bl h => ?_⟩
    cases bl with
    | nil => rfl
    | cons _ _ => cases h
  | cons a p =>
    unfold flushOps decOps
    refine Yields.bind (P₁ := fun bs r => SendArgs ((a :: p).map fun q => (q.1, .bit)) r ∧ bs.length = 1) ?_ ?_
    · unfold decOp
      refine Yields.map _ ((Yields.dec8 _ s).mono fun bs b h => ⟨?_, by rw [h, beBytes_length]⟩)
      generalize a :: p = l
      induction l with
      | nil => exact .nil
      | cons c l ih =>
        refine SendArgs.cons trivial trivial ?_ ih
        show (if _ then (1 : Int32) else 0) = 0 ∨ (if _ then (1 : Int32) else 0) = 1
        split
        · exact Or.inr rfl
        · exact Or.inl rfl
    · intro r b₁ s' h _
      refine Yields.map _ ?_
      unfold decOps
      refine Yields.pure _ ⟨by rw [List.append_nil]; exact h.1, fun bl hl => ?_⟩
      cases bl with
      | nil => cases hl
      | cons _ _ => rw [serBits, beBytes_length, List.append_nil, h.2]; exact fun e => by cases e

theorem decOps_app {E : DEnv} (a b : List Op) (s : DState) :
    decOps E (a ++ b) s = (decOps E a >>= fun x => decOps E b >>= fun y => pure (x ++ y)) s := by
  induction a generalizing s with
  | nil =>
    rw [List.nil_append, M.bind_def]
    show _ = (decOps E b >>= fun y => pure ([] ++ y)) s
    rw [M.bind_def]
    cases decOps E b s <;> rfl
  | cons o a ih =>
    rw [List.cons_append]
    show (decOp E o >>= fun x => decOps E (a ++ b) >>= fun y => pure (x ++ y)) s =
      ((decOp E o >>= fun x => decOps E a >>= fun y => pure (x ++ y)) >>= fun x => decOps E b >>= fun y => pure (x ++ y)) s
    rw [M.bind_def, M.bind_def, M.bind_def]
    cases decOp E o s with
    | ok x t =>
      dsimp only
      rw [M.bind_def, ih, M.bind_def, M.bind_def]
      cases decOps E a t with
      | ok y u =>
        dsimp only
        rw [M.bind_def]
        show _ = (decOps E b >>= fun z => pure ((x ++ y) ++ z)) u
        rw [M.bind_def]
        cases decOps E b u with
        | ok z v => show Res.ok (x ++ (y ++ z)) v = Res.ok ((x ++ y) ++ z) v; rw [List.append_assoc]
        | _ => rfl
      | _ => rfl
    | _ => rfl

theorem decArgs_again {E : DEnv} (hm : E.mem.length < 2 ^ 32) : ∀ (as : List (Fld × Dom)) (p : List (Fld × Nat)) (s : DState),
    Yields E (fun bs r => ∃ rp ra, r = rp ++ ra ∧ SendArgs (p.map fun q => (q.1, .bit)) rp ∧ SendArgs as ra ∧
      ∀ bl : List Bool, bl.length = p.length → (serArgs as ra bl).length = bs.length) s (decOps E (groupOps as p) s)
  | [], p, s => (flushOps_again p s).mono fun bs r h => ⟨r, [], by simp, h.1, .nil, h.2⟩
  | (f, d) :: as, p, s => by
    by_cases hd : d = .bit
    · subst hd
      unfold groupOps
      by_cases hp : p.length = 8
      · rw [if_pos hp, decOps_app]
        refine Yields.bind (flushOps_again p s) fun x b₁ s' h1 _ => Yields.map _ ((decArgs_again hm as [(f, 0)] s').mono ?_)
        rintro bs r ⟨rp, ra, rfl, h2, h3, h4⟩
        cases rp with
        | nil => cases h2.1
        | cons q rp =>
          obtain ⟨h2, h2e, h2f⟩ := h2
          cases h2 with
          | cons ha hn =>
            cases hn
            next v =>
            refine ⟨x, (f, v) :: ra, by simp, h1.1, h3.cons ha h2e.1 h2f.1, fun bl hl => ?_⟩
            cases v <;> try exact ha.elim
            next v =>
            have hl8 : bl.length = 8 := by omega
            simp only [serArgs, hl8, if_true, List.length_append]
            rw [h1.2 bl hl, h4 _ rfl]
      · rw [if_neg hp]
        refine (decArgs_again hm as (p ++ [(f, p.length)]) s).mono ?_
        rintro bs r ⟨rp, ra, rfl, h2, h3, h4⟩
        rw [List.map_append] at h2
        obtain ⟨x, y, rfl, hx, hy⟩ : ∃ x y, rp = x ++ y ∧ SendArgs (p.map fun q => (q.1, .bit)) x ∧ SendArgs [(f, .bit)] y := by
          clear h4 h3 hp
          generalize p.map (fun q => (q.1, Dom.bit)) = l at h2 ⊢
          induction l generalizing rp with
          | nil => exact ⟨[], rp, rfl, .nil, h2⟩
          | cons c l ih =>
            obtain ⟨h2, h2e, h2f⟩ := h2
            cases h2 with
            | cons ha hn =>
              obtain ⟨x, y, rfl, hx, hy⟩ := ih _ ⟨hn, h2e.2, h2f.2⟩
              exact ⟨_ :: x, y, rfl, hx.cons ha h2e.1 h2f.1, hy⟩
        obtain ⟨hy1, hye, hyf⟩ := hy
        cases hy1 with
        | cons ha hn =>
          cases hn
          next v =>
          refine ⟨x, (f, v) :: ra, by simp, hx, h3.cons ha hye.1 hyf.1, fun bl hl => ?_⟩
          cases v <;> try exact ha.elim
          next v =>
          have hl8 : bl.length ≠ 8 := by omega
          simp only [serArgs, hl8, if_false]
          exact h4 _ (by simp [hl])
    · rw [groupOps_nonbit hd, decOps_app]
      refine Yields.bind (flushOps_again p s) fun x b₁ s' h1 _ => Yields.map _ ?_
      unfold decOps
      refine Yields.bind (P₁ := fun bs r => ∃ v, r = [(f, v)] ∧ Again d bs v) ?_ fun y b₂ s'' hy _ => Yields.map _ ((decArgs_again hm as [] s'').mono ?_)
      · unfold decOp
        exact Yields.map _ ((decField_again hd s' hm).mono fun bs v h => ⟨v, rfl, h⟩)
      · obtain ⟨v, rfl, hv⟩ := hy
        rintro bs r ⟨rp, ra, rfl, h2, h3, h4⟩
        obtain ⟨h2, _, _⟩ := h2
        cases h2
        refine ⟨x, (f, v) :: ra, by simp, h1.1, h3.cons hv.1 hv.2.1 hv.2.2.1, fun bl hl => ?_⟩
        rw [serArgs_nonbit hd]
        simp only [List.length_append]
        rw [h1.2 bl hl, hv.2.2.2, h4 [] rfl]
        omega

/-- A decoded method can be sent on, in as many octets as were read. -/
theorem decMethod_again {E : DEnv} (hm : E.mem.length < 2 ^ 32) {id : UInt32} {k : Nat} {r : Rec} {d : DState} (h : decMethod E id k = .ok r d) :
    ∃ p ∈ protocol, p.id = id ∧ SendArgs p.args r ∧ (serArgs p.args r []).length = d.off ∧ (serArgs p.args r []).length ≤ E.mem.length := by
  unfold decMethod at h
  cases h1 : switch id decTableOps with
  | none => rw [h1] at h; cases h
  | some ops =>
    rw [h1] at h
    have hy : Yields E (fun bs r => ∃ p ∈ protocol, p.id = id ∧ SendArgs p.args r ∧ (serArgs p.args r []).length = bs.length) ⟨0, k⟩
        ((M.orFail St.NO_MEMORY (allocate E) >>= fun _ => decOps E ops : M DState Rec) ⟨0, k⟩) := by
      refine Yields.bind (Yields.alloc _ _) fun _ b₁ s' hb _ => ?_
      subst hb
      by_cases hx : ∃ p ∈ protocol, p.id = id
      · obtain ⟨p, hp, rfl⟩ := hx
        rw [dec_switch hp] at h1
        cases h1
        refine (decArgs_again hm p.args [] s').mono ?_
        rintro bs r ⟨rp, ra, rfl, h2, h3, h4⟩
        obtain ⟨h2, _, _⟩ := h2
        cases h2
        exact ⟨p, hp, rfl, h3, by rw [List.nil_append, List.nil_append, h4 [] rfl]⟩
      · rw [dec_switch_none fun p hp he => hx ⟨p, hp, he⟩] at h1
        cases h1
    have h' : ((M.orFail St.NO_MEMORY (allocate E) >>= fun _ => decOps E ops : M DState Rec) ⟨0, k⟩) = .ok r d := h
    rw [h'] at hy
    obtain ⟨bs, h2, h3, p, hp, h4, h5, h6⟩ := hy
    have hl := h2.length_le
    simp only [List.drop_zero] at hl
    simp only [Nat.zero_add] at h3
    exact ⟨p, hp, h4, h5, by omega, by omega⟩


/-! ### Properties -/

theorem decFlags_bit0 {E : DEnv} : ∀ (fuel idx : Nat) (acc : UInt32) {s s' : DState} {fl : UInt32}, flagSet acc 0 →
    decFlags E fuel idx acc s = .ok fl s' → flagSet fl 0
  | 0, _, _, _, _, _, _, h => by cases h
  | fuel + 1, idx, acc, s, s', fl, ha, h => by
    unfold decFlags at h
    obtain ⟨w, t, _, h⟩ := bind_val h
    split at h
    · cases h
    · split at h
      · cases h
      · have h' : flagSet (acc ||| (w.toUInt32 <<< UInt32.ofNat (idx * 16))) 0 := by
          unfold flagSet at ha ⊢
          rw [UInt32.toNat_or, Nat.testBit_or, ha, Bool.true_or]
        dsimp only at h
        split at h
        · exact decFlags_bit0 fuel _ _ h' h
        · cases h; exact h'

theorem decFlags_again {E : DEnv} (s : DState) : Yields E (fun bs fl => OneWord fl → bs.length = 2) s (decFlags E 3 0 0 s) := by
  unfold decFlags
  refine Yields.bind (Yields.dec16 _ s) fun w b₁ s' h1 _ => ?_
  rw [if_neg (by omega)]
  split
  · trivial
  · dsimp only
    split
    · next hw =>
      have hb : flagSet ((0 : UInt32) ||| (w.toUInt32 <<< UInt32.ofNat (0 * 16))) 0 := by
        have e : (0 : UInt32) ||| (w.toUInt32 <<< UInt32.ofNat (0 * 16)) = w.toUInt32 := by
          rw [← UInt32.toNat_inj, UInt32.toNat_or, UInt32.toNat_shiftLeft]; simp
        rw [e]
        unfold flagSet
        rw [UInt16.toNat_toUInt32]
        refine Classical.byContradiction fun hn => hw ?_
        rw [← UInt16.toNat_inj, UInt16.toNat_and]
        show w.toNat &&& 1 = 0
        rw [Nat.and_one_is_mod]
        rw [Nat.testBit_zero] at hn
        simp only [decide_eq_true_eq] at hn
        omega
      cases hr : decFlags E 2 (0 + 1) ((0 : UInt32) ||| (w.toUInt32 <<< UInt32.ofNat (0 * 16))) s' with
      | ok fl t =>
        have hy : Yields E (fun _ _ => True) s' (decFlags E 2 (0 + 1) ((0 : UInt32) ||| (w.toUInt32 <<< UInt32.ofNat (0 * 16))) s') := by
          unfold decFlags
          refine Yields.bind (Yields.dec16 _ s') fun w' b₂ s'' h2 _ => ?_
          split
          · trivial
          · split
            · trivial
            · dsimp only
              split
              · unfold decFlags
                refine Yields.bind (Yields.dec16 _ s'') fun w' b₂ s'' h2 _ => ?_
                split
                · trivial
                · split
                  · trivial
                  · dsimp only
                    split
                    · unfold decFlags; trivial
                    · exact Yields.pure _ trivial
              · exact Yields.pure _ trivial
        rw [hr] at hy
        obtain ⟨bs, h3, h4, _⟩ := hy
        exact ⟨bs, h3, h4, fun ho => absurd (decFlags_bit0 2 _ _ hb hr) ho.2⟩
      | _ => trivial
    · refine Yields.pure _ fun _ => ?_
      rw [List.append_nil, h1, beBytes_length]

theorem decProps_again {E : DEnv} (hm : E.mem.length < 2 ^ 32) {flags : UInt32} : ∀ {ps : List (Nat × Fld × Dom)}, PropList ps →
    (ps.map (·.2.1)).Nodup → ∀ s : DState, Yields E (fun bs r => PropsOK Dom.encodable flags r ps ∧ PropsOK Dom.faithful flags r ps ∧
      flaggedProps flags r ps = r ∧ (serProps flags r ps).length = bs.length ∧ ∀ q ∈ r, q.1 ∈ ps.map (·.2.1)) s (decProps E flags (propOps ps) s)
  | [], _, _, s => Yields.pure _ ⟨(fun p hp => by cases hp), (fun p hp => by cases hp), rfl, rfl, fun q hq => by cases hq⟩
  | (i, f, d) :: ps, hP, hN, s => by
    show Yields E _ s (decProps E flags ((i, d.ft, f) :: propOps ps) s)
    have hP' : PropList ps := fun p hp => hP p (List.mem_cons_of_mem _ hp)
    have hi := hP _ (List.mem_cons_self : (i, f, d) ∈ (i, f, d) :: ps)
    rw [List.map_cons, List.nodup_cons] at hN
    unfold decProps
    split
    · next hf =>
      have hs := (and_bit hi.1).1 hf
      refine Yields.bind (decField_again hi.2 s hm) fun v b₁ s' hv _ => Yields.map _ ((decProps_again hm hP' hN.2 s').mono ?_)
      rintro bs r ⟨h1, h2, h3, h4, h5⟩
      have hg : Rec.get? ((f, v) :: r) f = some v := by simp [Rec.get?]
      have lift : ∀ {P : Dom → Val → Prop}, P d v → PropsOK P flags r ps → PropsOK P flags ((f, v) :: r) ((i, f, d) :: ps) := by
        intro P hPv h p hp hsp
        rcases List.mem_cons.1 hp with rfl | hp
        · exact ⟨v, hg, hv.1, hPv⟩
        · obtain ⟨w, h6, h7⟩ := h p hp hsp
          have hne : f ≠ p.2.1 := fun e => hN.1 (by dsimp only; rw [e]; exact List.mem_map_of_mem hp)
          exact ⟨w, by rw [Rec.get?_ne hne]; exact h6, h7⟩
      obtain ⟨e1, e2⟩ := serProps_cons (flags := flags) (v := v) (r := r) hN.1
      refine ⟨lift hv.2.1 h1, lift hv.2.2.1 h2, ?_, ?_, ?_⟩
      · simp only [flaggedProps, hg, hs, if_true, e2, h3]
      · simp only [serProps, hg, hs, if_true, e1, List.length_append]; rw [hv.2.2.2, h4]
      · intro q hq
        rw [List.map_cons, List.mem_cons]
        rcases List.mem_cons.1 hq with rfl | hq
        · exact Or.inl rfl
        · exact Or.inr (h5 q hq)
    · next hf =>
      have hs : ¬ flagSet flags i := fun h => hf ((and_bit hi.1).2 h)
      refine (decProps_again hm hP' hN.2 s).mono ?_
      rintro bs r ⟨h1, h2, h3, h4, h5⟩
      have lift : ∀ {P : Dom → Val → Prop}, PropsOK P flags r ps → PropsOK P flags r ((i, f, d) :: ps) := by
        intro P h p hp hsp
        rcases List.mem_cons.1 hp with rfl | hp
        · exact absurd hsp hs
        · exact h p hp hsp
      refine ⟨lift h1, lift h2, ?_, ?_, ?_⟩
      · simp only [flaggedProps, hs, if_false]; split <;> exact h3
      · simp only [serProps, hs, if_false]; split <;> exact h4
      · intro q hq
        rw [List.map_cons, List.mem_cons]
        exact Or.inr (h5 q hq)

/-- Decoded properties can be sent on, in as many octets as were read. -/
theorem decProperties_again {E : DEnv} (hm : E.mem.length < 2 ^ 32) {cls : UInt16} {k : Nat} {flags : UInt32} {r : Rec} {d : DState}
    (h : decProperties E cls k = .ok (flags, r) d) : ∃ c ∈ propClasses, c.1 = cls ∧ PropsOK Dom.encodable flags r c.2 ∧
      PropsOK Dom.faithful flags r c.2 ∧ flaggedProps flags r c.2 = r ∧
      (OneWord flags → 2 + (serProps flags r c.2).length = d.off) := by
  have hy : Yields E (fun bs (x : UInt32 × Rec) => ∃ c ∈ propClasses, c.1 = cls ∧ PropsOK Dom.encodable x.1 x.2 c.2 ∧
      PropsOK Dom.faithful x.1 x.2 c.2 ∧ flaggedProps x.1 x.2 c.2 = x.2 ∧ (OneWord x.1 → 2 + (serProps x.1 x.2 c.2).length = bs.length)) ⟨0, k⟩
      (decProperties E cls k) := by
    unfold decProperties
    refine Yields.bind (decFlags_again _) fun fl b₁ s1 h1 _ => ?_
    have sw := switch_mem (fun ps => propOps ps) propClasses propClasses_nodup
    rw [← decPropTable_eq] at sw
    by_cases hx : ∃ c ∈ propClasses, c.1 = cls
    · obtain ⟨c, hc, rfl⟩ := hx
      rw [sw.1 c hc]
      dsimp only
      refine Yields.bind (Yields.alloc _ s1) fun _ b₂ s2 h2 _ => ?_
      subst h2
      refine Yields.map _ ((decProps_again hm (propClasses_ok c hc) (propClasses_fields c hc) s2).mono ?_)
      rintro bs r ⟨h3, h4, h5, h6, _⟩
      refine ⟨c, hc, rfl, h3, h4, h5, fun ho => ?_⟩
      rw [List.nil_append, List.length_append, h1 ho, h6]
    · rw [sw.2 cls fun p hp he => hx ⟨p, hp, he⟩]
      trivial
  rw [h] at hy
  obtain ⟨bs, _, h2, c, hc, h3, h4, h5, h6, h7⟩ := hy
  simp only [Nat.zero_add] at h2
  exact ⟨c, hc, h3, h4, h5, h6, fun ho => by rw [h7 ho, h2]⟩


/-! ### Frames -/

/-- The frame can be sent on within `n` octets: it has a wire form of at most that size which a receiver reads back as the same frame. -/
def Passes (n : Nat) : Payload → Prop
  | .protocolHeader _ _ _ _ => True
  | .header cls size flags r => OneWord flags → ∃ ty bs, Wire (.header cls size flags r) ty bs (.header cls size flags r) ∧ bs.length + 8 ≤ n
  | p => ∃ ty bs, Wire p ty bs p ∧ bs.length + 8 ≤ n

theorem decMethod_off {E : DEnv} (hmem : E.len ≤ E.mem.length) (hsize : E.len ≤ 2 ^ 30) {id : UInt32} {k : Nat} {r : Rec} {s : DState}
    (hd : decMethod E id k = .ok r s) : s.off ≤ E.len := by
  unfold decMethod at hd
  cases h : switch id decTableOps with
  | none => rw [h] at hd; cases hd
  | some ops =>
    rw [h] at hd
    have hS : SafeRes E DecErr 0 ⟨0, k⟩ ((M.orFail St.NO_MEMORY (allocate E) >>= fun _ => decOps E ops) ⟨0, k⟩) :=
      SafeRes.bind (m₁ := 0) (m₂ := 0) (SafeRes.allocate DecErr.mem _ (Nat.zero_le _))
        (fun _ s1 _ _ h1 => decOps_safe hmem hsize ops s1 h1)
    have hd' : (M.orFail St.NO_MEMORY (allocate E) >>= fun _ => decOps E ops) ⟨0, k⟩ = .ok r s := hd
    rw [hd'] at hS
    exact hS.2

/-- Where every successful read ends. -/
def Inside (E : DEnv) {α : Type} (r : Res DState α) : Prop := match r with | .ok _ s => s.off ≤ E.len | _ => True

theorem Inside.bind {E : DEnv} {α β : Type} {x : M DState α} {f : α → M DState β} {s : DState}
    (h : ∀ a t, x s = .ok a t → Inside E (f a t)) : Inside E ((x >>= f) s) := by
  rw [M.bind_def]
  cases hx : x s with
  | ok a t => exact h a t hx
  | _ => trivial

theorem orFailVal_off {E : DEnv} {α : Type} {e : Int} {n : Nat} {d : Bytes → Option α} {s s' : DState} {a : α}
    (h : M.orFailVal e (decRaw E n d) s = .ok a s') : s'.off ≤ E.len := by
  simp only [M.orFailVal, decRaw] at h
  by_cases h1 : s.off + n ≤ E.len
  · rw [if_pos h1] at h
    cases h2 : readAt E.mem s.off n with
    | none => rw [h2] at h; cases h
    | some bs =>
      rw [h2] at h
      dsimp only at h
      cases h3 : d bs with
      | none => rw [h3] at h; cases h
      | some v => rw [h3] at h; cases h; exact h1
  · rw [if_neg h1] at h; cases h

theorem decFlags_inside {E : DEnv} : ∀ (fuel idx : Nat) (acc : UInt32) (s : DState), Inside E (decFlags E fuel idx acc s)
  | 0, _, _, _ => trivial
  | fuel + 1, idx, acc, s => by
    unfold decFlags
    refine Inside.bind fun w t hw => ?_
    split
    · trivial
    · split
      · trivial
      · dsimp only
        split
        · exact decFlags_inside fuel _ _ t
        · exact orFailVal_off hw

theorem decProperties_off {E : DEnv} (hmem : E.len ≤ E.mem.length) (hsize : E.len ≤ 2 ^ 30) {cls : UInt16} {k : Nat} {x : UInt32 × Rec} {d : DState}
    (hd : decProperties E cls k = .ok x d) : d.off ≤ E.len := by
  unfold decProperties at hd
  obtain ⟨fl, t, h1, hd⟩ := bind_val hd
  have ht := decFlags_inside 3 0 0 ⟨0, k⟩ (E := E)
  rw [h1] at ht
  cases h : switch cls decPropTable with
  | none => rw [h] at hd; cases hd
  | some ps =>
    rw [h] at hd
    dsimp only at hd
    obtain ⟨_, t', h2, hd⟩ := bind_val hd
    obtain ⟨r, t'', h3, hd⟩ := bind_val hd
    cases hd
    have ht' : t'.off ≤ E.len := by
      simp only [M.orFail, allocate] at h2
      have ht : t.off ≤ E.len := ht
      cases ha : E.alloc t.allocs <;> rw [ha] at h2 <;> cases h2
      exact ht
    have := decProps_safe hmem hsize fl ps t' ht'
    rw [h3] at this
    exact this.2

theorem readAt_some {m : Bytes} {o n : Nat} {b : Bytes} (h : readAt m o n = some b) : o + n ≤ m.length ∧ b = (m.drop o).take n := by
  unfold readAt at h
  split at h
  · next hl => cases h; exact ⟨hl, rfl⟩
  · cases h

theorem bodyPhase_again {E : PEnv} {s : PState} {m : Bytes} (hr : s.raw = some m) (hl : m.length = s.target) (h8 : 8 ≤ s.target)
    (h30 : s.target ≤ 2 ^ 30) {k n : Nat} {f : AFrame} {s' : PState} (h : bodyPhase E s k = .ok (n, some f) s') : Passes s.target f.payload := by
  unfold bodyPhase at h
  rw [hr] at h
  dsimp only at h
  cases hfe : rd8 m (subWrap s.target 1) with
  | none => rw [hfe] at h; cases h
  | some fend =>
  rw [hfe] at h
  dsimp only at h
  by_cases hE : fend ≠ FRAME_END
  · rw [if_pos hE] at h; cases h
  rw [if_neg hE] at h
  have hE : fend = FRAME_END := Classical.byContradiction hE
  subst hE
  cases hty : rd8 m 0 with
  | none => rw [hty] at h; cases h
  | some ty =>
  rw [hty] at h
  cases hch : rd16 E.be m 1 with
  | none => rw [hch] at h; cases h
  | some ch =>
  rw [hch] at h
  dsimp only at h
  rcases hg : getPool E s ch with ⟨_ | _, s1⟩
  · rw [hg] at h; cases h
  rw [hg] at h
  dsimp only at h
  have e1 := getPool_eq hg
  have ht : s1.target = s.target := by rw [e1]
  rw [ht] at h
  by_cases t1 : ty = 1
  · rw [if_pos t1] at h
    cases hid : rd32 E.be m HEADER_SIZE with
    | none => rw [hid] at h; cases h
    | some id =>
    rw [hid] at h
    dsimp only at h
    cases hd : decMethod ⟨m.drop (HEADER_SIZE + 4), subWrap s.target (HEADER_SIZE + 4 + FOOTER_SIZE), E.be, E.alloc⟩ id s1.allocs with
    | ok args d =>
      rw [hd] at h
      cases h
      have hml : (m.drop (HEADER_SIZE + 4)).length = s.target - 11 := by rw [List.length_drop, hl]; rfl
      obtain ⟨p, hp, rfl, hS, h6, h7⟩ := decMethod_again (by dsimp only; rw [hml]; omega) hd
      have h11 : 11 ≤ s.target := by
        unfold rd32 at hid
        cases hra : readAt m HEADER_SIZE 4 with
        | none => rw [hra] at hid; cases hid
        | some b => have := (readAt_some hra).1; unfold HEADER_SIZE at this; omega
      have h12 : 12 ≤ s.target := by
        refine Classical.byContradiction fun hn => ?_
        have heq : s.target = 11 := by omega
        rw [heq] at hfe
        unfold rd32 at hid
        cases hra : readAt m HEADER_SIZE 4 with
        | none => rw [hra] at hid; cases hid
        | some b =>
          rw [hra] at hid
          have hb := (readAt_some hra).2
          have hb4 : b.length = 4 := by rw [hb, List.length_take, List.length_drop, hl, heq]; rfl
          have hid' : d32 E.be b = some p.id := hid
          rw [d32_spec _ b hb4] at hid'
          unfold rd8 at hfe
          rw [show subWrap 11 1 = 10 from rfl] at hfe
          rw [readAt_of_le (by omega)] at hfe
          have hlast : b = b.take 3 ++ [FRAME_END] := by
            have h1 : (m.drop 10).take 1 = [FRAME_END] := by
              have hx : ((m.drop 10).take 1).length = 1 := by rw [List.length_take, List.length_drop, hl, heq]; rfl
              have hfe' : d8 ((m.drop 10).take 1) = some FRAME_END := hfe
              generalize (m.drop 10).take 1 = l at hx hfe'
              match l, hx with
              | [x], _ =>
                rw [d8_spec _ rfl] at hfe'
                simp only [Option.some.injEq] at hfe'
                have e : UInt8.ofNat (beVal [x]) = x := by
                  rw [← UInt8.toNat_inj, UInt8.toNat_ofNat']
                  simp [beVal]
                rw [e] at hfe'
                rw [hfe']
            conv => lhs; rw [← List.take_append_drop 3 b]
            congr 1
            rw [hb]
            rw [List.drop_take, List.drop_drop]
            exact h1
          have hmod : beVal b % 256 = 206 := by rw [hlast, beVal_append_one]; rfl
          have hlt : beVal b < 2 ^ 32 := by have := beVal_lt b; rw [hb4] at this; exact this
          simp only [Option.some.injEq] at hid'
          have : p.id.toNat = beVal b := by rw [← hid', UInt32.toNat_ofNat', Nat.mod_eq_of_lt hlt]
          exact no_method_206 p hp (by rw [this, hmod])
      have hoff := decMethod_off (E := ⟨m.drop (HEADER_SIZE + 4), subWrap s.target (HEADER_SIZE + 4 + FOOTER_SIZE), E.be, E.alloc⟩)
        (by dsimp only; rw [hml, subWrap_of_le (show HEADER_SIZE + 4 + FOOTER_SIZE ≤ s.target from h12)]; show s.target - 12 ≤ _; omega) (by dsimp only; rw [subWrap_of_le (show HEADER_SIZE + 4 + FOOTER_SIZE ≤ s.target from h12)]; show s.target - 12 ≤ _; omega) hd
      dsimp only at hoff
      rw [subWrap_of_le (show HEADER_SIZE + 4 + FOOTER_SIZE ≤ s.target from h12)] at hoff
      have hoff : d.off ≤ s.target - 12 := hoff
      refine ⟨1, _, .method hp hS.1 hS.2.1 hS.2.2, ?_⟩
      rw [List.length_append, beBytes_length]
      omega
    | err e d => rw [hd] at h; cases h
    | ub => rw [hd] at h; cases h
    | fuel => rw [hd] at h; cases h
  rw [if_neg t1] at h
  by_cases t2 : ty = 2
  · rw [if_pos t2] at h
    cases hcl : rd16 E.be m HEADER_SIZE with
    | none => rw [hcl] at h; cases h
    | some cls =>
    rw [hcl] at h
    cases hsz : rd64 E.be m (HEADER_SIZE + 4) with
    | none => rw [hsz] at h; cases h
    | some size =>
    rw [hsz] at h
    dsimp only at h
    cases hd : decProperties ⟨m.drop (HEADER_SIZE + 12), subWrap s.target (HEADER_SIZE + 12 + FOOTER_SIZE), E.be, E.alloc⟩ cls s1.allocs with
    | ok x d =>
      obtain ⟨flags, props⟩ := x
      rw [hd] at h
      cases h
      intro ho
      have hml : (m.drop (HEADER_SIZE + 12)).length = s.target - 19 := by rw [List.length_drop, hl]; rfl
      obtain ⟨c, hc, rfl, h3, h4, h5, h6⟩ := decProperties_again (by dsimp only; rw [hml]; omega) hd
      have h20 : 20 ≤ s.target := by
        refine Classical.byContradiction fun hn => ?_
        have he : m.drop (HEADER_SIZE + 12) = [] := List.eq_nil_of_length_eq_zero (by rw [hml]; omega)
        unfold decProperties at hd
        obtain ⟨fl, t, h1, _⟩ := bind_val hd
        unfold decFlags at h1
        obtain ⟨w, t', h2, _⟩ := bind_val h1
        have hy := Yields.dec16 (E := ⟨m.drop (HEADER_SIZE + 12), subWrap s.target (HEADER_SIZE + 12 + FOOTER_SIZE), E.be, E.alloc⟩) St.BAD_AMQP_DATA ⟨0, s1.allocs⟩
        rw [h2] at hy
        obtain ⟨bs, hp, _, hbs⟩ := hy
        have := hp.length_le
        dsimp only at this
        rw [he, hbs, beBytes_length] at this
        simp at this
      have hoff := decProperties_off (E := ⟨m.drop (HEADER_SIZE + 12), subWrap s.target (HEADER_SIZE + 12 + FOOTER_SIZE), E.be, E.alloc⟩)
        (by dsimp only; rw [hml, subWrap_of_le (show HEADER_SIZE + 12 + FOOTER_SIZE ≤ s.target from h20)]; show s.target - 20 ≤ _; omega) (by dsimp only; rw [subWrap_of_le (show HEADER_SIZE + 12 + FOOTER_SIZE ≤ s.target from h20)]; show s.target - 20 ≤ _; omega) hd
      dsimp only at hoff
      rw [subWrap_of_le (show HEADER_SIZE + 12 + FOOTER_SIZE ≤ s.target from h20)] at hoff
      have hoff : d.off ≤ s.target - 20 := hoff
      have hW := Wire.header (size := size) hc ho h3 h4
      rw [h5] at hW
      refine ⟨2, _, hW, ?_⟩
      have h6 := h6 ho
      simp only [List.length_append, beBytes_length, List.length_cons, List.length_nil]
      omega
    | err e d => rw [hd] at h; cases h
    | ub => rw [hd] at h; cases h
    | fuel => rw [hd] at h; cases h
  rw [if_neg t2] at h
  by_cases t3 : ty = 3
  · rw [if_pos t3] at h
    cases hb : readAt m HEADER_SIZE (subWrap s.target (HEADER_SIZE + FOOTER_SIZE)) with
    | none => rw [hb] at h; cases h
    | some b =>
      rw [hb] at h
      cases h
      obtain ⟨h1, h2⟩ := readAt_some hb
      refine ⟨3, b, .body b, ?_⟩
      rw [h2, List.length_take]
      rw [subWrap_of_le (show HEADER_SIZE + FOOTER_SIZE ≤ s.target from h8)]
      show min (s.target - 8) _ + 8 ≤ _
      omega
  rw [if_neg t3] at h
  by_cases t8 : ty = 8
  · rw [if_pos t8] at h
    cases h
    exact ⟨8, [], .heartbeat, h8⟩
  rw [if_neg t8] at h
  cases h

/-- Whatever the receiver has read so far: a frame it delivers can be sent on, and is no larger than the limit. -/
theorem handleInput_again {E : PEnv} {s s' : PState} (hR : Ready s) (h30 : s.frameMax ≤ 2 ^ 30) {d : Bytes} {n : Nat} {f : AFrame}
    (h : handleInput E s d = .ok (n, some f) s') : Passes s.frameMax f.payload := by
  have mono : ∀ {a b : Nat} {p : Payload}, a ≤ b → Passes a p → Passes b p := by
    intro a b p hab hp
    cases p with
    | header c z fl r => intro ho; obtain ⟨ty, bs, h1, h2⟩ := hp ho; exact ⟨ty, bs, h1, by omega⟩
    | protocolHeader _ _ _ _ => trivial
    | method _ _ => obtain ⟨ty, bs, h1, h2⟩ := hp; exact ⟨ty, bs, h1, by omega⟩
    | body _ => obtain ⟨ty, bs, h1, h2⟩ := hp; exact ⟨ty, bs, h1, by omega⟩
    | heartbeat => obtain ⟨ty, bs, h1, h2⟩ := hp; exact ⟨ty, bs, h1, by omega⟩
    | other _ => obtain ⟨ty, bs, h1, h2⟩ := hp; exact ⟨ty, bs, h1, by omega⟩
  have hbody : ∀ {t : PState} {k n : Nat} {f : AFrame} {s' : PState}, PInv t → t.mode = .body → t.frameMax = s.frameMax →
      bodyPhase E t k = .ok (n, some f) s' → Passes s.frameMax f.payload := by
    intro t k n f s' hi hm hf h
    have hs := hi.shape
    rw [hm] at hs
    obtain ⟨m, h1, h2, _, _, h3, h4, _⟩ := hs
    exact mono (hf ▸ h4) (bodyPhase_again (by simp [PState.raw, h1]) h2 h3 (by omega) h)
  have hcont : ∀ {t : PState} {k n : Nat} {d : Bytes} {f : AFrame} {s' : PState}, PInv t → t.mode = .body → t.frameMax = s.frameMax →
      contBody E t k d = .ok (n, some f) s' → Passes s.frameMax f.payload := by
    intro t k n d f s' hi hm hf h
    obtain ⟨m, hr, ht, ho⟩ := hi.raw
    have hne : t.mode ≠ .idle := by rw [hm]; simp
    unfold contBody at h
    by_cases hd : t.target - t.off ≤ d.length
    · rw [consumeData_full hr ho ht hd] at h
      dsimp only at h
      rw [if_neg (by simp)] at h
      exact hbody (hi.at hne hr (splice_length (by simp; omega)) ho (Nat.le_refl _)) (by simp [hm]) (by simp [hf]) h
    · rw [consumeData_part hr ho ht (by omega)] at h
      dsimp only at h
      rw [if_pos (by simp; omega)] at h
      cases h
  have hhead : ∀ {t : PState} {k n : Nat} {d : Bytes} {f : AFrame} {s' : PState}, PInv t → 7 ≤ t.off → t.off ≤ 8 → t.frameMax = s.frameMax →
      headerPhase E t k d = .ok (n, some f) s' → Passes s.frameMax f.payload := by
    intro t k n d f s' hi h7 h8 hf h
    rw [headerPhase_eq] at h
    cases hO : headerOpen E t with
    | ok u s2 =>
      rw [hO] at h
      obtain ⟨hi2, hm2⟩ := headerOpen_inv hi h7 h8 hO
      exact hcont hi2 hm2 (by rw [(headerOpen_ok hi.hdr hO).2.2.1, hf]) h
    | err e s2 => rw [hO] at h; cases h
    | ub => rw [hO] at h; cases h
    | fuel => rw [hO] at h; cases h
  by_cases hd : d = []
  · subst hd; cases h
  obtain ⟨hW, hne⟩ := hR.wake
  obtain ⟨m, hr, ht, ho⟩ := hW.inv.raw
  have hwf : s.wake.frameMax = s.frameMax := by unfold PState.wake; split <;> rfl
  rw [handleInput_eq hd] at h
  by_cases hfull : s.wake.target - s.wake.off ≤ d.length
  · rw [consumeData_full hr ho ht hfull] at h
    dsimp only at h
    rw [if_neg (by simp)] at h
    have hi := hW.inv.at hne hr (m' := splice m s.wake.off (d.take (s.wake.target - s.wake.off)))
      (splice_length (by simp; omega)) ho (Nat.le_refl _)
    have hs := hi.shape
    unfold dispatch at h
    simp only [PState.at_mode] at h hs
    have hff : (s.wake.at (splice m s.wake.off (d.take (s.wake.target - s.wake.off))) s.wake.target).frameMax = s.frameMax := by simp [hwf]
    cases hm : s.wake.mode <;> rw [hm] at h hs
    · cases h
    · dsimp only at h hs
      rw [PState.at_raw hr] at h
      dsimp only at h
      split at h
      · split at h
        · cases h; trivial
        · cases h
      · refine hhead hi ?_ ?_ hff h <;> simp only [PState.at_off, PState.at_target] at hs ⊢ <;> omega
    · refine hhead hi ?_ ?_ hff h <;> simp only [PState.at_off, PState.at_target] at hs ⊢ <;> omega
    · exact hbody hi (by simp [hm]) hff h
  · rw [consumeData_part hr ho ht (by omega)] at h
    dsimp only at h
    rw [if_pos (by simp; omega)] at h
    cases h

end Rmq
