import Verif.Proofs.Properties
import Verif.Proofs.FrameSticky
import Verif.Spec.Frames
/-!
# What the parser delivers has the fields its method number or class prescribes
-/
namespace Rmq

theorem HasArgs.append {as bs : List (Fld × Dom)} {r q : Rec} (h : HasArgs as r) (h' : HasArgs bs q) : HasArgs (as ++ bs) (r ++ q) := by
  induction h with
  | nil => exact h'
  | cons hd _ ih => exact .cons hd ih

theorem bind_val {σ α β : Type} {x : M σ α} {f : α → M σ β} {s : σ} {b : β} {u : σ} (h : (x >>= f) s = .ok b u) :
    ∃ a t, x s = .ok a t ∧ f a t = .ok b u := by
  rw [M.bind_def] at h
  cases h1 : x s with
  | ok a t => rw [h1] at h; exact ⟨a, t, rfl, h⟩
  | err e t => rw [h1] at h; cases h
  | ub => rw [h1] at h; cases h
  | fuel => rw [h1] at h; cases h

theorem decField_typed {E : DEnv} {d : Dom} (hd : d ≠ .bit) {s s' : DState} {v : Val} (h : decField E d.ft s = .ok v s') : d.admits v := by
  cases d <;> simp only [Dom.ft, decField] at h
  case bit => exact absurd rfl hd
  case shortstr => obtain ⟨_, _, _, h⟩ := bind_val h; obtain ⟨_, _, _, h⟩ := bind_val h; cases h; trivial
  case longstr => obtain ⟨_, _, _, h⟩ := bind_val h; obtain ⟨_, _, _, h⟩ := bind_val h; cases h; trivial
  all_goals obtain ⟨_, _, _, h⟩ := bind_val h; cases h; trivial

theorem decOps_append {E : DEnv} : ∀ {a b : List Op} {s s' : DState} {r : Rec}, decOps E (a ++ b) s = .ok r s' →
    ∃ q t q', decOps E a s = .ok q t ∧ decOps E b t = .ok q' s' ∧ r = q ++ q'
  | [], b, s, s', r, h => ⟨[], s, r, rfl, h, rfl⟩
  | o :: a, b, s, s', r, h => by
    rw [List.cons_append] at h
    unfold decOps at h
    obtain ⟨x, t, h1, h⟩ := bind_val h
    obtain ⟨y, u, h2, h⟩ := bind_val h
    cases h
    obtain ⟨q, t', q', h3, h4, rfl⟩ := decOps_append h2
    refine ⟨x ++ q, t', q', ?_, h4, by rw [List.append_assoc]⟩
    unfold decOps
    rw [M.bind_def, h1]
    dsimp only
    rw [M.bind_def, h3]
    rfl

theorem flushOps_typed {E : DEnv} {p : List (Fld × Nat)} {s s' : DState} {r : Rec} (h : decOps E (flushOps p) s = .ok r s') :
    HasArgs (p.map fun q => (q.1, .bit)) r := by
  cases p with
  | nil => cases h; exact .nil
  | cons a p =>
    unfold flushOps decOps at h
    obtain ⟨x, t, h1, h⟩ := bind_val h
    obtain ⟨y, u, h2, h⟩ := bind_val h
    cases h
    cases h2
    unfold decOp at h1
    obtain ⟨b, v, _, h1⟩ := bind_val h1
    cases h1
    rw [List.append_nil]
    generalize a :: p = l
    induction l with
    | nil => exact .nil
    | cons c l ih => exact .cons trivial ih

theorem decArgs_typed {E : DEnv} : ∀ (as : List (Fld × Dom)) (p : List (Fld × Nat)) {s s' : DState} {r : Rec},
    decOps E (groupOps as p) s = .ok r s' → HasArgs (p.map (fun q => (q.1, .bit)) ++ as) r
  | [], p, s, s', r, h => by rw [List.append_nil]; exact flushOps_typed h
  | (f, d) :: as, p, s, s', r, h => by
    by_cases hd : d = .bit
    · subst hd
      unfold groupOps at h
      by_cases hp : p.length = 8
      · rw [if_pos hp] at h
        obtain ⟨q, t, q', h1, h2, rfl⟩ := decOps_append h
        exact (flushOps_typed h1).append (decArgs_typed as _ h2)
      · rw [if_neg hp] at h
        have := decArgs_typed as _ h
        simpa using this
    · rw [groupOps_nonbit hd] at h
      obtain ⟨q, t, q', h1, h2, rfl⟩ := decOps_append h
      refine (flushOps_typed h1).append ?_
      unfold decOps at h2
      obtain ⟨x, t', h3, h2⟩ := bind_val h2
      obtain ⟨y, u, h4, h2⟩ := bind_val h2
      cases h2
      unfold decOp at h3
      obtain ⟨v, w, h5, h3⟩ := bind_val h3
      cases h3
      exact .cons (decField_typed hd h5) (decArgs_typed as [] h4)

/-- A decoded method has its arguments. -/
theorem decMethod_typed {E : DEnv} {id : UInt32} {k : Nat} {r : Rec} {d : DState} (h : decMethod E id k = .ok r d) :
    ∃ p ∈ protocol, p.id = id ∧ HasArgs p.args r := by
  unfold decMethod at h
  cases h1 : switch id decTableOps with
  | none => rw [h1] at h; cases h
  | some ops =>
    rw [h1] at h
    obtain ⟨_, t, _, h2⟩ := bind_val h
    refine Classical.byContradiction fun hn => ?_
    have hx : ∀ p ∈ protocol, p.id ≠ id := by
      intro p hp he
      subst he
      rw [dec_switch hp] at h1
      cases h1
      exact hn ⟨p, hp, rfl, decArgs_typed p.args [] h2⟩
    rw [dec_switch_none hx] at h1
    cases h1

theorem Rec.get?_ne {f g : Fld} {v : Val} {r : Rec} (h : f ≠ g) : Rec.get? ((f, v) :: r) g = r.get? g := by
  simp only [Rec.get?, List.find?_cons, decide_eq_false h]

theorem serProps_cons {flags : UInt32} {f : Fld} {v : Val} {r : Rec} : ∀ {ps : List (Nat × Fld × Dom)}, f ∉ ps.map (·.2.1) →
    serProps flags ((f, v) :: r) ps = serProps flags r ps ∧ flaggedProps flags ((f, v) :: r) ps = flaggedProps flags r ps
  | [], _ => ⟨rfl, rfl⟩
  | (i, g, d) :: ps, h => by
    rw [List.map_cons, List.mem_cons, not_or] at h
    obtain ⟨h1, h2⟩ := serProps_cons (flags := flags) (v := v) (r := r) h.2
    simp only [serProps, flaggedProps, Rec.get?_ne h.1, h1, h2]
    exact ⟨trivial, trivial⟩

theorem decProps_flagged {E : DEnv} {flags : UInt32} : ∀ {ps : List (Nat × Fld × Dom)}, PropList ps → (ps.map (·.2.1)).Nodup →
    ∀ {s s' : DState} {r : Rec}, decProps E flags (propOps ps) s = .ok r s' → flaggedProps flags r ps = r
  | [], _, _, s, s', r, h => by cases h; rfl
  | (i, f, d) :: ps, hP, hN, s, s', r, h => by
    have h : decProps E flags ((i, d.ft, f) :: propOps ps) s = .ok r s' := h
    have hP' : PropList ps := fun p hp => hP p (List.mem_cons_of_mem _ hp)
    have hi := hP _ (List.mem_cons_self : (i, f, d) ∈ (i, f, d) :: ps)
    rw [List.map_cons, List.nodup_cons] at hN
    unfold decProps at h
    split at h
    · next hf =>
      have hs := (and_bit hi.1).1 hf
      obtain ⟨v, t, _, h⟩ := bind_val h
      obtain ⟨y, u, h4, h⟩ := bind_val h
      cases h
      have hg : Rec.get? ((f, v) :: y) f = some v := by simp [Rec.get?]
      simp only [flaggedProps, hg, hs, if_true, (serProps_cons hN.1).2, decProps_flagged hP' hN.2 h4]
    · next hf =>
      have hs : ¬ flagSet flags i := fun h => hf ((and_bit hi.1).2 h)
      simp only [flaggedProps, hs, if_false]
      split <;> exact decProps_flagged hP' hN.2 h

theorem decProps_typed {E : DEnv} {flags : UInt32} : ∀ {ps : List (Nat × Fld × Dom)}, PropList ps → (ps.map (·.2.1)).Nodup →
    ∀ {s s' : DState} {r : Rec}, decProps E flags (propOps ps) s = .ok r s' → PropsOK (fun _ _ => True) flags r ps
  | [], _, _, s, s', r, h => by intro p hp; cases hp
  | (i, f, d) :: ps, hP, hN, s, s', r, h => by
    have h : decProps E flags ((i, d.ft, f) :: propOps ps) s = .ok r s' := h
    have hP' : PropList ps := fun p hp => hP p (List.mem_cons_of_mem _ hp)
    rw [List.map_cons, List.nodup_cons] at hN
    unfold decProps at h
    split at h
    · next hf =>
      obtain ⟨v, t, h3, h⟩ := bind_val h
      obtain ⟨y, u, h4, h⟩ := bind_val h
      cases h
      intro p hp hs
      rcases List.mem_cons.1 hp with rfl | hp
      · exact ⟨v, by simp [Rec.get?], decField_typed (hP _ List.mem_cons_self).2 h3, trivial⟩
      · obtain ⟨w, h5, h6⟩ := decProps_typed hP' hN.2 h4 p hp hs
        refine ⟨w, ?_, h6⟩
        have hne : f ≠ p.2.1 := fun e => hN.1 (by dsimp only; rw [e]; exact List.mem_map_of_mem hp)
        simp only [Rec.get?, List.find?_cons, decide_eq_false hne] at h5 ⊢
        exact h5
    · next hf =>
      intro p hp hs
      rcases List.mem_cons.1 hp with rfl | hp
      · exact absurd ((and_bit (hP _ List.mem_cons_self).1).2 hs) hf
      · exact decProps_typed hP' hN.2 h p hp hs

theorem propClasses_fields : ∀ c ∈ propClasses, (c.2.map (·.2.1)).Nodup := by decide +kernel

/-- Decoded properties are those of the class. -/
theorem decProperties_typed {E : DEnv} {cls : UInt16} {k : Nat} {flags : UInt32} {r : Rec} {d : DState}
    (h : decProperties E cls k = .ok (flags, r) d) : ∃ c ∈ propClasses, c.1 = cls ∧ PropsOK (fun _ _ => True) flags r c.2 ∧ flaggedProps flags r c.2 = r := by
  unfold decProperties at h
  obtain ⟨fl, t, _, h⟩ := bind_val h
  have sw := switch_mem (fun ps => propOps ps) propClasses propClasses_nodup
  rw [← decPropTable_eq] at sw
  by_cases hx : ∃ c ∈ propClasses, c.1 = cls
  · obtain ⟨c, hc, rfl⟩ := hx
    rw [sw.1 c hc] at h
    obtain ⟨_, t', _, h⟩ := bind_val h
    obtain ⟨r', t'', h2, h⟩ := bind_val h
    cases h
    exact ⟨c, hc, rfl, decProps_typed (propClasses_ok c hc) (propClasses_fields c hc) h2, decProps_flagged (propClasses_ok c hc) (propClasses_fields c hc) h2⟩
  · rw [sw.2 cls fun p hp he => hx ⟨p, hp, he⟩] at h
    cases h

theorem bodyPhase_proper {E : PEnv} {s : PState} {k n : Nat} {f : AFrame} {s' : PState} (h : bodyPhase E s k = .ok (n, some f) s') : Proper f.payload := by
  unfold bodyPhase at h
  split at h
  · cases h
  · split at h
    · cases h
    · split at h
      · cases h
      · split at h
        · split at h
          · cases h
          · split at h
            · split at h
              · cases h
              · split at h
                · next hd => cases h; exact decMethod_typed hd
                · cases h
                · cases h
                · cases h
            · split at h
              · split at h
                · split at h
                  · next hd => cases h; exact decProperties_typed hd
                  · cases h
                  · cases h
                  · cases h
                · cases h
              · split at h
                · split at h <;> cases h
                  trivial
                · split at h <;> cases h
                  trivial
        · cases h

theorem headerPhase_proper {E : PEnv} {s : PState} {k n : Nat} {r : Bytes} {f : AFrame} {s' : PState} (h : headerPhase E s k r = .ok (n, some f) s') :
    Proper f.payload := by
  unfold headerPhase at h
  split at h
  · cases h
  · split at h
    · split at h
      · cases h
      · dsimp only at h
        split at h
        · cases h
        · split at h
          · cases h
          · split at h
            · split at h
              · cases h
              · split at h
                · cases h
                · split at h
                  · cases h
                  · exact bodyPhase_proper h
            · cases h
    · cases h

/-- Whatever the bytes, the frame delivered is proper. -/
theorem handleInput_proper {E : PEnv} {s : PState} {d : Bytes} {n : Nat} {f : AFrame} {s' : PState} (h : handleInput E s d = .ok (n, some f) s') :
    Proper f.payload := by
  unfold handleInput at h
  split at h
  · cases h
  · dsimp only at h
    split at h
    · cases h
    · split at h
      · cases h
      · split at h
        · split at h
          · cases h
          · split at h
            · split at h <;> cases h
              trivial
            · exact headerPhase_proper h
        · exact headerPhase_proper h
        · exact bodyPhase_proper h
        · cases h

end Rmq
