import Verif.Spec.Merge
import Verif.Proofs.Merge
/-! # amqp_merge_capabilities on tables in which keys may occur more than once -/
namespace Rmq

/-- As `AOK`, but undefined behaviour is allowed if `u`. -/
def AOKU {α : Type} (errs : Int → Prop) (u : Prop) (post : α → AState → Prop) (s : AState) : Res AState α → Prop
  | .ok a s' => s.allocs ≤ s'.allocs ∧ post a s'
  | .err e _ => errs e
  | .ub => u
  | .fuel => False

theorem AOK.toU {α : Type} {errs : Int → Prop} {u : Prop} {p : α → AState → Prop} {s : AState} {r : Res AState α} (h : AOK errs p s r) : AOKU errs u p s r := by
  cases r with
  | ok a s' => exact h
  | err e s' => exact h
  | ub => exact h.elim
  | fuel => exact h.elim

theorem AOKU.bind {α β : Type} {errs : Int → Prop} {u : Prop} {p : α → AState → Prop} {q : β → AState → Prop} {s : AState}
    {x : M AState α} {f : α → M AState β} (hx : AOKU errs u p s (x s))
    (hf : ∀ a s', s.allocs ≤ s'.allocs → p a s' → AOKU errs u q s' (f a s')) : AOKU errs u q s ((x >>= f) s) := by
  rw [M.bind_def]
  cases hr : x s with
  | ok a s' =>
    rw [hr] at hx
    have h2 := hf a s' hx.1 hx.2
    dsimp only
    cases hr2 : f a s' with
    | ok b s₂ => rw [hr2] at h2; exact ⟨Nat.le_trans hx.1 h2.1, h2.2⟩
    | err e s₂ => rw [hr2] at h2; exact h2
    | ub => rw [hr2] at h2; exact h2
    | fuel => rw [hr2] at h2; exact h2
  | err e s' => rw [hr] at hx; exact hx
  | ub => rw [hr] at hx; exact hx
  | fuel => rw [hr] at hx; exact hx

theorem AOKU.pure {α : Type} {errs : Int → Prop} {u : Prop} {p : α → AState → Prop} {s : AState} {a : α} (h : p a s) :
    AOKU errs u p s ((Pure.pure a : M AState α) s) := ⟨Nat.le_refl _, h⟩

theorem AOKU.mono {α : Type} {errs errs' : Int → Prop} {u u' : Prop} {p q : α → AState → Prop} {s : AState} {r : Res AState α}
    (h : AOKU errs u p s r) (he : ∀ e, errs e → errs' e) (hu : u → u') (hp : ∀ a s', s.allocs ≤ s'.allocs → p a s' → q a s') :
    AOKU errs' u' q s r := by
  cases r with
  | ok a s' => exact ⟨h.1, hp a s' h.1 h.2⟩
  | err e s' => exact he e h
  | ub => exact hu h
  | fuel => exact h

theorem PV.isTable_erase (v : PV) : v.erase.isTable = v.isTable := by cases v <;> rfl

/-- What looking a key up finds, in memory and on paper. -/
theorem find_first {memcmp : Bytes → Bytes → Int} (hM : MemcmpSpec memcmp) (temp : List PE) (k : Bytes) :
    (getEntryByKey memcmp (temp.map PE.key) k = none ∧ lookup (PV.eraseEs temp) k = none) ∨
    ∃ i kp ev, getEntryByKey memcmp (temp.map PE.key) k = some i ∧ temp[i]? = some (.mk kp k ev) ∧ lookup (PV.eraseEs temp) k = some ev.erase ∧
      ∀ w : PV, PV.eraseEs (temp.set i (.mk kp k w)) = setFirst k w.erase (PV.eraseEs temp) := by
  induction temp with
  | nil => exact .inl ⟨rfl, rfl⟩
  | cons e es ih =>
    obtain ⟨kp, ek, ev⟩ := e
    simp only [List.map_cons, PE.key, getEntryByKey, PV.eraseEs, PE.erase, lookup]
    by_cases h : ek = k
    · subst h
      rw [if_pos ((bytesEqual_spec hM _ _).2 rfl), if_pos rfl]
      refine .inr ⟨0, kp, ev, rfl, rfl, rfl, fun w => ?_⟩
      simp [PV.eraseEs, PE.erase, setFirst, Entry.key]
    · rw [if_neg (fun hc => h ((bytesEqual_spec hM _ _).1 hc)), if_neg h]
      rcases ih with ⟨h1, h2⟩ | ⟨i, kp', ev', h1, h2, h3, h4⟩
      · exact .inl ⟨by rw [h1]; rfl, h2⟩
      · refine .inr ⟨i + 1, kp', ev', by rw [h1]; rfl, by simpa using h2, h3, fun w => ?_⟩
        simp [PV.eraseEs, PE.erase, setFirst, Entry.key, h, h4]

mutual
theorem mergeNested_any {memcmp : Bytes → Bytes → Int} (hM : MemcmpSpec memcmp) (alloc : Nat → Bool) (v : PV) (pool : Nat)
    (bs : List PE) (s : AState) (hv : v.stored) (hb : PV.storedEs bs) (ht : v.isTable = true) :
    AOKU (ErrUnless ((∀ n, alloc n = true) ∧ v.cloneable ∧ PV.cloneableEs bs ∧
          ∃ ts, v.erase = .table ts ∧ nonEmptyEs ts ∧ (bs ≠ [] ∨ ts ≠ []))) (mergeTable v.erase (PV.eraseEs bs) = none)
      (fun r s' => (mergeTable v.erase (PV.eraseEs bs) = some r.erase ∧ r.stored ∧
        FreshRun pool s.allocs s'.allocs r.blocks) ∧ r.cloneable) s (mergeNested memcmp alloc v pool bs s) := by
  match v, ht with
  | .table q ts, _ =>
    unfold mergeNested
    simp only [PV.erase, mergeTable]
    refine AOKU.bind ((poolAlloc_AOK (errs := CloneErr) (Or.inl rfl) _ _ s).errUnless fun hG => ?_).toU fun p s' hs hp => ?_
    · refine (poolAlloc_Decides hG.1 _ _ _ s).1 ?_
      obtain ⟨ts', h1, _, h3⟩ := hG.2.2.2
      simp only [FV.table.injEq] at h1
      have : 0 < bs.length + ts.length := by
        rcases h3 with h | h
        · have := List.length_pos_iff.2 h; omega
        · rw [← h1] at h
          have := List.length_pos_iff.2 h
          rw [PV.eraseEs_length] at this; omega
      simp only [SIZEOF_ENTRY]; omega
    refine AOKU.bind (AOKU.mono (mergeLoop_any hM alloc ts (pool + 1) p.size bs bs s' hv.2 hb hb (by rw [hp.1]; exact Nat.le_refl _))
      (ErrUnless.mono fun hG => ⟨hG.1, hG.2.1, hG.2.2.1, hG.2.2.1, ?_⟩) id (fun _ _ _ h => h)) fun m s₂ hs₂ hm => ?_
    · obtain ⟨ts', h1, h2, _⟩ := hG.2.2.2
      simp only [FV.table.injEq] at h1
      rw [h1]; exact h2
    refine ((((cloneTable_AOK alloc pool ⟨some p, m⟩ hm.1.2 s₂).errUnless fun hG => ?_).and_ok
      (q := fun r _ => r.cloneable) (fun r s' h => cloneTable_cloneable _ _ _ _ _ _ h)).mono (fun _ h => h)
      fun r s₃ hs₃ hr => ?_).toU
    · refine (cloneTable_Decides hG.1 pool ⟨some p, m⟩ hm.1.2 s₂).1 (hm.2 hG.2.1 hG.2.2.1)
    obtain ⟨hr, hrc⟩ := hr
    refine ⟨⟨?_, hr.2.1, hr.2.2.1, fun b hb => ?_⟩, hrc⟩
    · rw [hr.1, PTable.erase, hm.1.1]
    · have := hr.2.2.2 b hb; exact ⟨this.1, by omega, this.2.2⟩
theorem mergeEntry_any {memcmp : Bytes → Bytes → Int} (hM : MemcmpSpec memcmp) (alloc : Nat → Bool) (e : PE)
    (tpool cap : Nat) (base temp : List PE) (s : AState) (he : e.stored) (hb : PV.storedEs base) (ht : PV.storedEs temp)
    (hcap : SIZEOF_ENTRY * (temp.length + 1) ≤ cap) :
    AOKU (ErrUnless ((∀ n, alloc n = true) ∧ e.cloneable ∧ PV.cloneableEs base ∧ PV.cloneableEs temp ∧ nonEmptyE e.erase))
      (mergeOne e.erase (PV.eraseEs base) (PV.eraseEs temp) = none)
      (fun temp' _ => (mergeOne e.erase (PV.eraseEs base) (PV.eraseEs temp) = some (PV.eraseEs temp') ∧ PV.storedEs temp' ∧ temp'.length ≤ temp.length + 1) ∧
        (e.cloneable → PV.cloneableEs temp → PV.cloneableEs temp')) s (mergeEntry memcmp alloc e tpool cap base temp s) := by
  match e with
  | .mk kp k v =>
    unfold mergeEntry
    simp only [PE.erase, mergeOne]
    rcases find_first hM temp k with ⟨hg, hl⟩ | ⟨i, ekp, ev, hg, hti, hl, hset⟩
    · rw [hg, hl]
      dsimp only
      rw [if_pos hcap]
      refine AOKU.pure ⟨⟨?_, storedEs_append ht ⟨he, trivial⟩, by simp⟩, fun hc ht => ?_⟩
      · simp [PV.eraseEs_map, PE.erase]
      · rw [PV.cloneableEs_iff] at *
        intro x hx
        rcases List.mem_append.1 hx with h | h
        · exact ht x h
        · simp only [List.mem_singleton] at h; rw [h]; exact hc
    · rw [hg, hl]
      dsimp only
      rw [hti]
      dsimp only
      have hts : (PE.mk ekp k ev).stored := (PV.storedEs_iff _).1 ht _ (List.mem_of_getElem? hti)
      rw [PV.isTable_erase, PV.isTable_erase]
      by_cases hT : (v.isTable && ev.isTable) = true
      · rw [if_pos hT, if_pos hT]
        simp only [Bool.and_eq_true] at hT
        rcases find_first hM base k with ⟨hgb, hlb⟩ | ⟨j, bkp, bv, hgb, htj, hlb, _⟩
        · rw [hgb, hlb]
          exact rfl
        · rw [hgb, hlb]
          dsimp only
          rw [htj]
          have hbs : (PE.mk bkp k bv).stored := (PV.storedEs_iff _).1 hb _ (List.mem_of_getElem? htj)
          match bv, hbs, htj with
          | .table bp bs, hbs, htj =>
            dsimp only [PV.erase]
            refine AOKU.bind (AOKU.mono (mergeNested_any hM alloc v tpool bs s he.2 hbs.2.2 hT.1)
                (ErrUnless.mono fun hG => ⟨hG.1, hG.2.1.2, ?_, ?_⟩) (fun h => by rw [h]; rfl) (fun _ _ _ h => h)) fun r s' hs hr => ?_
            · exact ((PV.cloneableEs_iff _).1 hG.2.2.1 _ (List.mem_of_getElem? htj)).2
            · match v, hT.1, hG.2.2.2.2 with
              | .table vp ts, _, hn =>
                simp only [PV.erase, nonEmptyE, nonEmptyV] at hn
                exact ⟨_, rfl, hn.2, Or.inr hn.1⟩
            refine AOKU.pure ⟨⟨?_, storedEs_set ht ⟨hts.1, hr.1.2.1⟩, by simp⟩, fun hc ht => cloneableEs_set ht ⟨hc.1, hr.2⟩⟩
            rw [hset, hr.1.1]
            rfl
          | .utf8 _ _, _, _ | .bytes _ _, _, _ | .array _ _, _, _ | .other _, _, _ | .boolean _, _, _ | .i8 _, _, _ | .u8 _, _, _ | .i16 _, _, _
          | .u16 _, _, _ | .i32 _, _, _ | .u32 _, _, _ | .i64 _, _, _ | .u64 _, _, _ | .f32 _, _, _ | .f64 _, _, _ | .decimal _ _, _, _ | .timestamp _, _, _
          | .void, _, _ => exact rfl
      · rw [if_neg hT, if_neg hT]
        refine AOKU.pure ⟨⟨?_, storedEs_set ht ⟨hts.1, he.2⟩, by simp⟩, fun hc ht => cloneableEs_set ht hc⟩
        rw [hset]
theorem mergeLoop_any {memcmp : Bytes → Bytes → Int} (hM : MemcmpSpec memcmp) (alloc : Nat → Bool) (add : List PE)
    (tpool cap : Nat) (base temp : List PE) (s : AState) (ha : PV.storedEs add) (hb : PV.storedEs base)
    (ht : PV.storedEs temp) (hcap : SIZEOF_ENTRY * (temp.length + add.length) ≤ cap) :
    AOKU (ErrUnless ((∀ n, alloc n = true) ∧ PV.cloneableEs add ∧ PV.cloneableEs base ∧ PV.cloneableEs temp ∧
          nonEmptyEs (PV.eraseEs add))) (mergeAll (PV.eraseEs add) (PV.eraseEs base) (PV.eraseEs temp) = none)
      (fun r _ => (mergeAll (PV.eraseEs add) (PV.eraseEs base) (PV.eraseEs temp) = some (PV.eraseEs r) ∧ PV.storedEs r) ∧
        (PV.cloneableEs add → PV.cloneableEs temp → PV.cloneableEs r)) s
      (mergeLoop memcmp alloc add tpool cap base temp s) := by
  match add with
  | [] =>
    unfold mergeLoop
    exact AOKU.pure ⟨⟨by simp [PV.eraseEs, mergeAll], ht⟩, fun _ h => h⟩
  | a :: rest =>
    unfold mergeLoop
    simp only [PV.eraseEs, mergeAll]
    refine AOKU.bind (AOKU.mono (mergeEntry_any hM alloc a tpool cap base temp s ha.1 hb ht (by
        refine Nat.le_trans (Nat.mul_le_mul_left _ ?_) hcap
        simp)) (ErrUnless.mono fun hG => ⟨hG.1, hG.2.1.1, hG.2.2.1, hG.2.2.2.1, hG.2.2.2.2.1⟩) (fun h => by rw [h]; rfl) (fun _ _ _ h => h))
      fun temp' s' hs hp => ?_
    obtain ⟨⟨p1, p2, p3⟩, p5⟩ := hp
    rw [p1]
    refine (mergeLoop_any hM alloc rest tpool cap base temp' s' ha.2 hb p2
      (Nat.le_trans (Nat.mul_le_mul_left _ (by simp; omega)) hcap)).mono
      (ErrUnless.mono fun hG => ⟨hG.1, hG.2.1.2, hG.2.2.1, p5 hG.2.1.1 hG.2.2.2.1, hG.2.2.2.2.2⟩) (fun h => h) fun r s₂ _ hr => ?_
    exact ⟨hr.1, fun hc ht => hr.2 hc.2 (p5 hc.1 ht)⟩
end

/-! ## On paper -/

theorem lookup_set {k : Bytes} {v w : FV} {t : Table} (h : lookup t k = some w) : lookup (setFirst k v t) k = some v := by
  induction t with
  | nil => cases h
  | cons e es ih =>
    obtain ⟨ek, ev⟩ := e
    unfold setFirst
    by_cases hk : ek = k
    · rw [if_pos (show (Entry.mk ek ev).key = k from hk), lookup, if_pos (show (Entry.mk ek ev).key = k from hk)]
    · rw [lookup, if_neg hk] at h
      rw [if_neg (show ¬ (Entry.mk ek ev).key = k from hk), lookup, if_neg hk, ih h]

theorem lookup_set_ne {k k' : Bytes} {v : FV} (t : Table) (h : ¬ k = k') : lookup (setFirst k v t) k' = lookup t k' := by
  induction t with
  | nil => rfl
  | cons e es ih =>
    obtain ⟨ek, ev⟩ := e
    unfold setFirst
    by_cases hk : ek = k
    · subst hk
      rw [if_pos (show (Entry.mk ek ev).key = ek from rfl), lookup, lookup, if_neg (show ¬ (Entry.mk ek ev).key = k' from h), if_neg h]
    · rw [if_neg (show ¬ (Entry.mk ek ev).key = k from hk), lookup, lookup, ih]

theorem setFirst_keys (k : Bytes) (v : FV) (t : Table) : (setFirst k v t).map Entry.key = t.map Entry.key := by
  induction t with
  | nil => rfl
  | cons e es ih =>
    simp only [setFirst]
    by_cases h : e.key = k
    · rw [if_pos h]; rfl
    · rw [if_neg h, List.map_cons, ih, List.map_cons]

theorem lookup_snoc (t : Table) (k : Bytes) (v : FV) (k' : Bytes) : lookup (t ++ [.mk k v]) k' = (lookup t k').or (if k = k' then some v else none) := by
  rw [lookup_append]
  simp [lookup]

/-- The value found in the table under construction is the latest one, or both are tables. -/
def Tracks (base pre temp : Table) : Prop := ∀ k, lookup temp k = latest base pre k ∨ ∃ r us, lookup temp k = some (.table r) ∧ latest base pre k = some (.table us)

theorem latest_snoc (base pre : Table) (k : Bytes) (v : FV) (k' : Bytes) : latest base (pre ++ [.mk k v]) k' = if k = k' then some v else latest base pre k' := by
  unfold latest
  rw [List.reverse_append, List.reverse_singleton, List.singleton_append, lookup]
  split <;> rfl

theorem Tracks.start (base : Table) : Tracks base [] base := fun k => .inl (by simp [latest, lookup])

/-- The three ways an entry can take effect. -/
theorem mergeOne_cases {k : Bytes} {v : FV} {base temp : Table} :
    (∃ ts r bs r', v = .table ts ∧ lookup temp k = some (.table r) ∧ lookup base k = some (.table bs) ∧ mergeOnto bs ts = some r' ∧
      mergeOne (.mk k v) base temp = some (setFirst k (.table r') temp)) ∨
    (∃ ts r, v = .table ts ∧ lookup temp k = some (.table r) ∧ mergeOne (.mk k v) base temp = none ∧
      ((∀ bs, lookup base k ≠ some (.table bs)) ∨ ∃ bs, lookup base k = some (.table bs) ∧ mergeOnto bs ts = none)) ∨
    (∃ w, lookup temp k = some w ∧ (v.isTable && w.isTable) = false ∧ mergeOne (.mk k v) base temp = some (setFirst k v temp)) ∨
    (lookup temp k = none ∧ mergeOne (.mk k v) base temp = some (temp ++ [.mk k v])) := by
  unfold mergeOne
  cases hl : lookup temp k with
  | none => exact .inr (.inr (.inr ⟨rfl, rfl⟩))
  | some w =>
    dsimp only
    by_cases hT : (v.isTable && w.isTable) = true
    · rw [if_pos hT]
      simp only [Bool.and_eq_true] at hT
      match v, w, hT with
      | .table ts, .table r, _ =>
        cases hb : lookup base k with
        | none => exact .inr (.inl ⟨ts, r, rfl, rfl, rfl, .inl fun _ h => nomatch h⟩)
        | some b =>
          cases b with
          | table bs =>
            dsimp only
            rw [show mergeTable (.table ts) bs = mergeOnto bs ts by rw [mergeTable]; rfl]
            cases hm : mergeOnto bs ts with
            | none => exact .inr (.inl ⟨ts, r, rfl, rfl, rfl, .inr ⟨bs, rfl, hm⟩⟩)
            | some r' => exact .inl ⟨ts, r, bs, r', rfl, rfl, rfl, hm, rfl⟩
          | _ => exact .inr (.inl ⟨ts, r, rfl, rfl, rfl, .inl fun _ h => nomatch h⟩)
    · rw [if_neg hT]
      exact .inr (.inr (.inl ⟨w, rfl, by simpa using hT, rfl⟩))

theorem Tracks.step {base pre temp temp' : Table} {k : Bytes} {v : FV} (h : Tracks base pre temp) (hm : mergeOne (.mk k v) base temp = some temp') :
    Tracks base (pre ++ [.mk k v]) temp' := by
  intro k'
  rw [latest_snoc]
  rcases mergeOne_cases (k := k) (v := v) (base := base) (temp := temp) with ⟨ts, r, bs, r', rfl, h1, h2, h3, h4⟩ | ⟨_, _, _, _, h4, _⟩ | ⟨w, h1, h2, h4⟩ | ⟨h1, h4⟩
  · rw [hm] at h4; cases h4
    by_cases hk : k = k'
    · subst hk
      rw [lookup_set h1, if_pos rfl]
      exact .inr ⟨r', ts, rfl, rfl⟩
    · rw [lookup_set_ne _ hk, if_neg hk]; exact h k'
  · rw [hm] at h4; cases h4
  · rw [hm] at h4; cases h4
    by_cases hk : k = k'
    · subst hk
      rw [lookup_set h1, if_pos rfl]; exact .inl rfl
    · rw [lookup_set_ne _ hk, if_neg hk]; exact h k'
  · rw [hm] at h4; cases h4
    rw [lookup_snoc]
    by_cases hk : k = k'
    · subst hk
      rw [h1, if_pos rfl, if_pos rfl]; exact .inl rfl
    · rw [if_neg hk, if_neg hk, Option.or_none]; exact h k'

theorem mergeAll_append (a b base temp : Table) : mergeAll (a ++ b) base temp = (mergeAll a base temp).bind (mergeAll b base) := by
  induction a generalizing temp with
  | nil => simp [mergeAll]
  | cons e es ih =>
    rw [List.cons_append, mergeAll, mergeAll]
    cases mergeOne e base temp with
    | none => rfl
    | some t => exact ih t

theorem Tracks.all {base pre temp temp' add : Table} (h : Tracks base pre temp) (hm : mergeAll add base temp = some temp') : Tracks base (pre ++ add) temp' := by
  induction add generalizing pre temp with
  | nil => rw [mergeAll] at hm; cases hm; rwa [List.append_nil]
  | cons e es ih =>
    obtain ⟨k, v⟩ := e
    rw [mergeAll] at hm
    cases h1 : mergeOne (.mk k v) base temp with
    | none => rw [h1] at hm; cases hm
    | some t =>
      rw [h1] at hm
      have := ih (h.step h1) hm
      rwa [List.append_assoc] at this

theorem Tracks.table {base pre temp : Table} (h : Tracks base pre temp) {k : Bytes} : (∃ r, lookup temp k = some (.table r)) ↔ ∃ us, latest base pre k = some (.table us) := by
  rcases h k with h | ⟨r, us, h1, h2⟩
  · rw [h]
  · exact ⟨fun _ => ⟨us, h2⟩, fun _ => ⟨r, h1⟩⟩

/-- Undefined merges are those of tables with twins in them. -/
theorem Twins.undefined {base add : Table} (h : Twins base add) : mergeOnto base add = none := by
  have key : ∀ (base pre post : Table) (k : Bytes) (ts us : Table), latest base pre k = some (.table us) →
      ((∀ bs, lookup base k ≠ some (.table bs)) ∨ ∃ bs, lookup base k = some (.table bs) ∧ mergeOnto bs ts = none) →
      mergeOnto base (pre ++ .mk k (.table ts) :: post) = none := by
    intro base pre post k ts us hl hb
    unfold mergeOnto
    rw [mergeAll_append]
    cases hp : mergeAll pre base base with
    | none => rfl
    | some temp =>
      have hF := (Tracks.start base).all hp
      rw [List.nil_append] at hF
      obtain ⟨r, hr⟩ := hF.table.2 ⟨us, hl⟩
      rw [Option.bind_some, mergeAll]
      rcases mergeOne_cases (k := k) (v := .table ts) (base := base) (temp := temp) with ⟨ts', r, bs, r', h0, h1, h2, h3, h4⟩ | ⟨_, _, _, _, h4, _⟩ | ⟨w, h1, h2, h4⟩ | ⟨h1, h4⟩
      · cases h0
        rcases hb with hb | ⟨bs', hb, hm⟩
        · exact absurd h2 (hb bs)
        · rw [h2] at hb; cases hb; rw [h3] at hm; cases hm
      · rw [h4]; rfl
      · rw [hr] at h1; cases h1; cases h2
      · rw [hr] at h1; cases h1
  induction h with
  | here base pre post k ts us h1 h2 => exact key base pre post k ts us h1 (.inl h2)
  | inside base pre post k ts us bs h1 h2 _ ih => exact key base pre post k ts us h1 (.inr ⟨bs, h2, ih⟩)

mutual
theorem twins_of_V (v : FV) (ts bs : Table) (hv : v = .table ts) (h : mergeOnto bs ts = none) : Twins bs ts := by
  match v, hv with
  | .table ts', hv =>
    cases hv
    have := twins_of_L ts bs [] bs (Tracks.start bs) h
    simpa using this
theorem twins_of_E (e : Entry) (base pre temp post : Table) (hF : Tracks base pre temp) (h : mergeOne e base temp = none) : Twins base (pre ++ e :: post) := by
  match e with
  | .mk k v =>
    rcases mergeOne_cases (k := k) (v := v) (base := base) (temp := temp) with ⟨_, _, _, _, _, _, _, _, h4⟩ | ⟨ts, r, hv, h1, h4, h5⟩ | ⟨w, h1, h2, h4⟩ | ⟨h1, h4⟩
    · rw [h] at h4; cases h4
    · obtain ⟨us, hu⟩ := hF.table.1 ⟨r, h1⟩
      rcases h5 with h5 | ⟨bs, h5, h6⟩
      · subst hv
        exact .here base pre post k ts us hu h5
      · have ht := twins_of_V v ts bs hv h6
        subst hv
        exact .inside base pre post k ts us bs hu h5 ht
    · rw [h] at h4; cases h4
    · rw [h] at h4; cases h4
theorem twins_of_L (add : List Entry) (base pre temp : Table) (hF : Tracks base pre temp) (h : mergeAll add base temp = none) : Twins base (pre ++ add) := by
  match add with
  | [] => rw [mergeAll] at h; cases h
  | e :: es =>
    rw [mergeAll] at h
    cases h1 : mergeOne e base temp with
    | none => exact twins_of_E e base pre temp es hF h1
    | some t =>
      rw [h1] at h
      match e, h1 with
      | .mk k v, h1 =>
        have := twins_of_L es base (pre ++ [.mk k v]) t (hF.step h1) h
        rwa [List.append_assoc] at this
end

theorem mergeOnto_none {base add : Table} : mergeOnto base add = none ↔ Twins base add :=
  ⟨fun h => by simpa using twins_of_L add base [] base (Tracks.start base) h, Twins.undefined⟩

theorem mergeAll_keep {add base temp r : Table} {k : Bytes} (hk : k ∉ add.map Entry.key) (h : mergeAll add base temp = some r) : lookup r k = lookup temp k := by
  induction add generalizing temp with
  | nil => rw [mergeAll] at h; cases h; rfl
  | cons e es ih =>
    obtain ⟨k', v⟩ := e
    simp only [List.map_cons, List.mem_cons, not_or, Entry.key] at hk
    rw [mergeAll] at h
    cases h1 : mergeOne (.mk k' v) base temp with
    | none => rw [h1] at h; cases h
    | some t =>
      rw [h1] at h
      rw [ih hk.2 h]
      have hne : ¬ k' = k := fun hc => hk.1 hc.symm
      rcases mergeOne_cases (k := k') (v := v) (base := base) (temp := temp) with ⟨_, _, _, _, _, _, _, _, h4⟩ | ⟨_, _, _, _, h4, _⟩ | ⟨_, _, _, h4⟩ | ⟨_, h4⟩ <;>
        rw [h1] at h4 <;> cases h4
      · rw [lookup_set_ne _ hne]
      · rw [lookup_set_ne _ hne]
      · rw [lookup_snoc, if_neg hne, Option.or_none]

theorem mergeAll_keys {add base temp r : Table} (h : mergeAll add base temp = some r) :
    r.map Entry.key = (add.map Entry.key).foldl (fun ks k => if k ∈ ks then ks else ks ++ [k]) (temp.map Entry.key) := by
  induction add generalizing temp with
  | nil => rw [mergeAll] at h; cases h; rfl
  | cons e es ih =>
    obtain ⟨k, v⟩ := e
    rw [mergeAll] at h
    cases h1 : mergeOne (.mk k v) base temp with
    | none => rw [h1] at h; cases h
    | some t =>
      rw [h1] at h
      rw [ih h, List.map_cons, List.foldl_cons, show (Entry.mk k v).key = k from rfl]
      congr 1
      have hin : ∀ w, lookup temp k = some w → k ∈ temp.map Entry.key := fun w hw =>
        Classical.byContradiction fun hc => by rw [lookup_none.2 hc] at hw; cases hw
      rcases mergeOne_cases (k := k) (v := v) (base := base) (temp := temp) with ⟨_, _, _, _, _, hl, _, _, h4⟩ | ⟨_, _, _, _, h4, _⟩ | ⟨_, hl, _, h4⟩ | ⟨hl, h4⟩ <;>
        rw [h1] at h4 <;> cases h4
      · rw [setFirst_keys, if_pos (hin _ hl)]
      · rw [setFirst_keys, if_pos (hin _ hl)]
      · rw [if_neg (lookup_none.1 hl), List.map_append]; rfl

end Rmq
