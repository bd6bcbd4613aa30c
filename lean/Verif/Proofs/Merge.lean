import Verif.Proofs.TableOps
/-! # amqp_merge_capabilities against its specification. -/
namespace Rmq

theorem PV.eraseEs_map (es : List PE) : PV.eraseEs es = es.map PE.erase := by
  induction es with
  | nil => rfl
  | cons e es ih => simp [PV.eraseEs, ih]
@[simp] theorem PE.erase_key (e : PE) : e.erase.key = e.key := by cases e; rfl
@[simp] theorem PE.erase_value (e : PE) : e.erase.value = e.value.erase := by cases e; rfl
theorem PV.eraseEs_keys (es : List PE) : (PV.eraseEs es).map Entry.key = es.map PE.key := by
  rw [PV.eraseEs_map, List.map_map]; congr 1; funext e; simp
theorem PV.storedEs_iff (es : List PE) : PV.storedEs es ↔ ∀ e ∈ es, e.stored := by
  induction es with
  | nil => simp [PV.storedEs]
  | cons e es ih => simp [PV.storedEs, ih]
theorem distinctEs_iff (es : List Entry) : distinctEs es ↔ ∀ e ∈ es, distinctE e := by
  induction es with
  | nil => simp [distinctEs]
  | cons e es ih => simp [distinctEs, ih]

theorem overrideE_key (add : List Entry) (e : Entry) : (overrideE add e).key = e.key := by
  induction add with
  | nil => simp [overrideE]
  | cons a rest ih =>
    unfold overrideE
    by_cases h : a.key = e.key
    · rw [if_pos h]; rfl
    · rw [if_neg h, ih]

theorem overrideE_notin {add : List Entry} {e : Entry} (h : e.key ∉ add.map Entry.key) : overrideE add e = e := by
  induction add with
  | nil => simp [overrideE]
  | cons a rest ih =>
    unfold overrideE
    simp only [List.map_cons, List.mem_cons, not_or] at h
    rw [if_neg (fun hc => h.1 hc.symm), ih h.2]

theorem overrideE_cons {a : Entry} {rest : List Entry} {e : Entry} (h : a.key ∉ rest.map Entry.key) :
    overrideE rest (overrideE [a] e) = overrideE (a :: rest) e := by
  by_cases hk : a.key = e.key
  · have h1 : overrideE [a] e = .mk e.key (mergedE a e.value) := by rw [overrideE, if_pos hk]
    have h2 : overrideE (a :: rest) e = .mk e.key (mergedE a e.value) := by rw [overrideE, if_pos hk]
    rw [h1, h2]
    exact overrideE_notin (by rw [show (Entry.mk e.key (mergedE a e.value)).key = e.key from rfl, ← hk]; exact h)
  · have h1 : overrideE [a] e = e := by rw [overrideE, if_neg hk, overrideE]
    have h2 : overrideE (a :: rest) e = overrideE rest e := by rw [overrideE, if_neg hk]
    rw [h1, h2]

theorem merge_step {T rest : List Entry} {a : Entry} (h : a.key ∉ rest.map Entry.key) :
    mergeSpec (mergeSpec T [a]) rest = mergeSpec T (a :: rest) := by
  unfold mergeSpec
  by_cases ha : a.key ∈ T.map Entry.key
  · have e1 : [a].filter (fun x => x.key ∉ T.map Entry.key) = [] := by simpa using ha
    rw [e1, List.append_nil, List.map_map]
    have e2 : (overrideE rest ∘ overrideE [a]) = overrideE (a :: rest) := by
      funext e; exact overrideE_cons h
    have e3 : (T.map (overrideE [a])).map Entry.key = T.map Entry.key := by
      rw [List.map_map]; congr 1; funext e; exact overrideE_key _ _
    rw [e2, e3, List.filter_cons_of_neg (by simpa using ha)]
  · have e1 : [a].filter (fun x => x.key ∉ T.map Entry.key) = [a] := by simpa using ha
    rw [e1, List.map_append, List.map_map]
    have e2 : (overrideE rest ∘ overrideE [a]) = overrideE (a :: rest) := by
      funext e; exact overrideE_cons h
    have e3 : (T.map (overrideE [a]) ++ [a]).map Entry.key = T.map Entry.key ++ [a.key] := by
      rw [List.map_append, List.map_map]; congr 2; funext e; exact overrideE_key _ _
    rw [e2, e3, List.filter_cons_of_pos (by simpa using ha)]
    simp only [List.map_cons, List.map_nil, overrideE_notin h]
    rw [List.append_assoc, List.singleton_append]
    congr 2
    apply List.filter_congr
    intro x hx
    have : x.key ≠ a.key := fun hc => h (List.mem_map.2 ⟨x, hx, hc⟩)
    simp [this]

theorem set_erase {temp : List PE} {i : Nat} {kp : Option Blk} {k : Bytes} {ev : PV} {w : PV}
    {a : Entry} (hi : temp[i]? = some (.mk kp k ev)) (hn : (temp.map PE.key).Nodup) (ha : a.key = k)
    (hw : w.erase = mergedE a ev.erase) :
    PV.eraseEs (temp.set i (.mk kp k w)) = mergeSpec (PV.eraseEs temp) [a] := by
  have hmem : k ∈ temp.map PE.key := List.mem_map.2 ⟨_, List.mem_of_getElem? hi, rfl⟩
  unfold mergeSpec
  rw [List.filter_cons_of_neg (by rw [PV.eraseEs_keys]; simpa [ha] using hmem), List.filter_nil, List.append_nil]
  rw [PV.eraseEs_map, PV.eraseEs_map, List.map_map]
  apply List.ext_getElem?
  intro j
  rw [List.getElem?_map, List.getElem?_map, List.getElem?_set]
  have hlt : i < temp.length := by
    rcases Nat.lt_or_ge i temp.length with h | h
    · exact h
    · rw [List.getElem?_eq_none h] at hi; cases hi
  by_cases hij : i = j
  · subst hij
    rw [if_pos rfl, if_pos hlt, hi]
    simp only [Option.map_some, Option.some.injEq, Function.comp]
    rw [overrideE, if_pos (by simp [ha, PE.key])]
    simp [PE.erase, hw, Entry.key, Entry.value]
  · rw [if_neg hij]
    cases hj : temp[j]? with
    | none => rfl
    | some t =>
      simp only [Option.map_some, Option.some.injEq, Function.comp]
      rw [overrideE, if_neg, overrideE]
      intro hc
      rw [PE.erase_key, ha] at hc
      have hlj : j < temp.length := by
        rcases Nat.lt_or_ge j temp.length with h | h
        · exact h
        · rw [List.getElem?_eq_none h] at hj; cases hj
      have h1 : (temp.map PE.key)[i]? = some k := by rw [List.getElem?_map, hi]; rfl
      have h2 : (temp.map PE.key)[j]? = some k := by rw [List.getElem?_map, hj]; simp [hc]
      exact hij ((List.getElem?_inj (by simpa using hlt) hn).1 (h1.trans h2.symm))

theorem mergedV_not_table {v ev : PV} (h : (v.isTable && ev.isTable) = false) : v.erase = mergedV v.erase ev.erase := by
  cases v <;> cases ev <;> simp_all [PV.isTable, PV.erase, mergedV]

theorem storedEs_set {temp : List PE} {i : Nat} {e : PE} (ht : PV.storedEs temp) (he : e.stored) :
    PV.storedEs (temp.set i e) := by
  rw [PV.storedEs_iff] at *
  intro x hx
  rcases List.mem_or_eq_of_mem_set hx with h | h
  · exact ht x h
  · rw [h]; exact he

theorem storedEs_append {a b : List PE} (ha : PV.storedEs a) (hb : PV.storedEs b) : PV.storedEs (a ++ b) := by
  rw [PV.storedEs_iff] at *
  intro x hx
  rcases List.mem_append.1 hx with h | h
  · exact ha x h
  · exact hb x h

theorem set_keys {temp : List PE} {i : Nat} {kp : Option Blk} {k : Bytes} {ev w : PV} (hi : temp[i]? = some (.mk kp k ev)) :
    (temp.set i (.mk kp k w)).map PE.key = temp.map PE.key := by
  rw [List.map_set]
  apply List.ext_getElem?
  intro j
  rw [List.getElem?_set]
  by_cases hij : i = j
  · subst hij
    rw [if_pos rfl]
    by_cases hl : i < (temp.map PE.key).length
    · rw [if_pos hl, List.getElem?_map, hi]; rfl
    · rw [if_neg hl, List.getElem?_eq_none (by omega)]
  · rw [if_neg hij]

theorem PV.cloneableEs_iff (es : List PE) : PV.cloneableEs es ↔ ∀ e ∈ es, e.cloneable := by
  induction es with
  | nil => simp [PV.cloneableEs]
  | cons e es ih => simp [PV.cloneableEs, ih]

theorem cloneableEs_set {temp : List PE} {i : Nat} {e : PE} (ht : PV.cloneableEs temp) (he : e.cloneable) :
    PV.cloneableEs (temp.set i e) := by
  rw [PV.cloneableEs_iff] at *
  intro x hx
  rcases List.mem_or_eq_of_mem_set hx with h | h
  · exact ht x h
  · rw [h]; exact he

/-- An error that only happens when `G` fails. -/
def ErrUnless (G : Prop) (e : Int) : Prop := CloneErr e ∧ ¬ G

theorem AOK.errUnless {α : Type} {G : Prop} {p : α → AState → Prop} {s : AState} {r : Res AState α}
    (h : AOK CloneErr p s r) (hG : G → ∃ a s', r = .ok a s') : AOK (ErrUnless G) p s r := by
  cases r with
  | ok a s' => exact h
  | err e s' => exact ⟨h, fun g => by obtain ⟨a, s', h'⟩ := hG g; cases h'⟩
  | ub => exact h
  | fuel => exact h

theorem ErrUnless.mono {G G' : Prop} (h : G' → G) : ∀ e, ErrUnless G e → ErrUnless G' e :=
  fun _ he => ⟨he.1, fun g => he.2 (h g)⟩

mutual
theorem clone_cloneable_V (alloc : Nat → Bool) (pool : Nat) (v v' : PV) (s s' : AState)
    (h : cloneFV alloc pool v s = .ok v' s') : v'.cloneable := by
  match v with
  | .utf8 p b =>
    unfold cloneFV at h
    by_cases hb : b.length = 0
    · rw [if_pos hb] at h; cases h; trivial
    · rw [if_neg hb, M.bind_def] at h
      cases hx : dupBytes alloc pool b s with
      | ok a s1 => rw [hx] at h; cases h; trivial
      | err e s1 => rw [hx] at h; cases h
      | ub => rw [hx] at h; cases h
      | fuel => rw [hx] at h; cases h
  | .bytes p b =>
    unfold cloneFV at h
    by_cases hb : b.length = 0
    · rw [if_pos hb] at h; cases h; trivial
    · rw [if_neg hb, M.bind_def] at h
      cases hx : dupBytes alloc pool b s with
      | ok a s1 => rw [hx] at h; cases h; trivial
      | err e s1 => rw [hx] at h; cases h
      | ub => rw [hx] at h; cases h
      | fuel => rw [hx] at h; cases h
  | .array none vs => unfold cloneFV at h; cases h; exact ⟨Or.inl rfl, trivial⟩
  | .array (some q) vs =>
    unfold cloneFV at h
    rw [M.bind_def] at h
    cases hx : M.orFailVal St.NO_MEMORY (poolAlloc alloc pool (vs.length * SIZEOF_FV)) s with
    | err e s1 => rw [hx] at h; cases h
    | ub => rw [hx] at h; cases h
    | fuel => rw [hx] at h; cases h
    | ok p s1 =>
      rw [hx] at h; dsimp only at h
      rw [M.bind_def] at h
      have hsz := poolAlloc_size _ _ _ hx
      rw [show fillBlock p (vs.length * SIZEOF_FV) s1 = .ok () s1 by simp [fillBlock, hsz]] at h
      dsimp only at h
      rw [M.bind_def] at h
      cases hy : cloneFVs alloc pool vs s1 with
      | err e s1 => rw [hy] at h; cases h
      | ub => rw [hy] at h; cases h
      | fuel => rw [hy] at h; cases h
      | ok vs' s2 =>
        rw [hy] at h; cases h
        obtain ⟨h1, h2⟩ := clone_cloneable_Vs alloc pool vs vs' s1 _ hy
        refine ⟨Or.inr ?_, h1⟩
        intro hn
        have hv0 : vs.length = 0 := by rw [← h2, hn]; rfl
        rw [hv0] at hx
        simp [M.orFailVal, poolAlloc] at hx
  | .table q es =>
    unfold cloneFV at h
    by_cases h0 : es.length = 0
    · rw [if_pos h0] at h; cases h; trivial
    · rw [if_neg h0, M.bind_def] at h
      cases hx : M.orFailVal St.NO_MEMORY (poolAlloc alloc pool (es.length * SIZEOF_ENTRY)) s with
      | err e s1 => rw [hx] at h; cases h
      | ub => rw [hx] at h; cases h
      | fuel => rw [hx] at h; cases h
      | ok p s1 =>
        rw [hx] at h; dsimp only at h
        rw [M.bind_def] at h
        have hsz := poolAlloc_size _ _ _ hx
        rw [show fillBlock p (es.length * SIZEOF_ENTRY) s1 = .ok () s1 by simp [fillBlock, hsz]] at h
        dsimp only at h
        rw [M.bind_def] at h
        cases hy : cloneEntries alloc pool es s1 with
        | err e s1 => rw [hy] at h; cases h
        | ub => rw [hy] at h; cases h
        | fuel => rw [hy] at h; cases h
        | ok es' s2 => rw [hy] at h; cases h; exact clone_cloneable_Es alloc pool es es' s1 _ hy
  | .other k => unfold cloneFV at h; cases h
  | .boolean _ | .i8 _ | .u8 _ | .i16 _ | .u16 _ | .i32 _ | .u32 _ | .i64 _ | .u64 _ | .f32 _ | .f64 _
  | .decimal _ _ | .timestamp _ | .void =>
    unfold cloneFV at h; cases h; trivial
theorem clone_cloneable_Vs (alloc : Nat → Bool) (pool : Nat) (vs vs' : List PV) (s s' : AState)
    (h : cloneFVs alloc pool vs s = .ok vs' s') : PV.cloneables vs' ∧ vs'.length = vs.length := by
  match vs with
  | [] => unfold cloneFVs at h; cases h; exact ⟨trivial, rfl⟩
  | v :: vs =>
    unfold cloneFVs at h
    rw [M.bind_def] at h
    cases hx : cloneFV alloc pool v s with
    | err e s1 => rw [hx] at h; cases h
    | ub => rw [hx] at h; cases h
    | fuel => rw [hx] at h; cases h
    | ok v' s1 =>
      rw [hx] at h; dsimp only at h
      rw [M.bind_def] at h
      cases hy : cloneFVs alloc pool vs s1 with
      | err e s1 => rw [hy] at h; cases h
      | ub => rw [hy] at h; cases h
      | fuel => rw [hy] at h; cases h
      | ok vs' s2 =>
        rw [hy] at h; cases h
        have := clone_cloneable_Vs alloc pool vs vs' s1 _ hy
        exact ⟨⟨clone_cloneable_V alloc pool v v' s s1 hx, this.1⟩, by simp [this.2]⟩
theorem clone_cloneable_E (alloc : Nat → Bool) (pool : Nat) (e e' : PE) (s s' : AState)
    (h : cloneEntry alloc pool e s = .ok e' s') : e'.cloneable := by
  match e with
  | .mk kp k v =>
    unfold cloneEntry at h
    by_cases hk : k.length = 0
    · rw [if_pos hk] at h; cases h
    · rw [if_neg hk, M.bind_def] at h
      cases hx : dupBytes alloc pool k s with
      | err e s1 => rw [hx] at h; cases h
      | ub => rw [hx] at h; cases h
      | fuel => rw [hx] at h; cases h
      | ok p s1 =>
        rw [hx] at h; dsimp only at h
        rw [M.bind_def] at h
        cases hy : cloneFV alloc pool v s1 with
        | err e s1 => rw [hy] at h; cases h
        | ub => rw [hy] at h; cases h
        | fuel => rw [hy] at h; cases h
        | ok v' s2 =>
          rw [hy] at h; cases h
          exact ⟨fun hc => hk (by rw [hc]; rfl), clone_cloneable_V alloc pool v v' s1 _ hy⟩
theorem clone_cloneable_Es (alloc : Nat → Bool) (pool : Nat) (es es' : List PE) (s s' : AState)
    (h : cloneEntries alloc pool es s = .ok es' s') : PV.cloneableEs es' := by
  match es with
  | [] => unfold cloneEntries at h; cases h; trivial
  | e :: es =>
    unfold cloneEntries at h
    rw [M.bind_def] at h
    cases hx : cloneEntry alloc pool e s with
    | err e s1 => rw [hx] at h; cases h
    | ub => rw [hx] at h; cases h
    | fuel => rw [hx] at h; cases h
    | ok e' s1 =>
      rw [hx] at h; dsimp only at h
      rw [M.bind_def] at h
      cases hy : cloneEntries alloc pool es s1 with
      | err e s1 => rw [hy] at h; cases h
      | ub => rw [hy] at h; cases h
      | fuel => rw [hy] at h; cases h
      | ok vs' s2 =>
        rw [hy] at h; cases h
        exact ⟨clone_cloneable_E alloc pool e e' s s1 hx, clone_cloneable_Es alloc pool es vs' s1 _ hy⟩
end

theorem cloneTable_cloneable (alloc : Nat → Bool) (pool : Nat) (t t' : PTable) (s s' : AState)
    (h : cloneTable alloc pool t s = .ok t' s') : t'.cloneable := by
  unfold cloneTable at h
  by_cases h0 : t.entries.length = 0
  · rw [if_pos h0] at h; cases h; trivial
  · rw [if_neg h0, M.bind_def] at h
    cases hx : M.orFailVal St.NO_MEMORY (poolAlloc alloc pool (t.entries.length * SIZEOF_ENTRY)) s with
    | err e s1 => rw [hx] at h; cases h
    | ub => rw [hx] at h; cases h
    | fuel => rw [hx] at h; cases h
    | ok p s1 =>
      rw [hx] at h; dsimp only at h
      rw [M.bind_def] at h
      have hsz := poolAlloc_size _ _ _ hx
      rw [show fillBlock p (t.entries.length * SIZEOF_ENTRY) s1 = .ok () s1 by simp [fillBlock, hsz]] at h
      dsimp only at h
      rw [M.bind_def] at h
      cases hy : cloneEntries alloc pool t.entries s1 with
      | err e s1 => rw [hy] at h; cases h
      | ub => rw [hy] at h; cases h
      | fuel => rw [hy] at h; cases h
      | ok es' s2 => rw [hy] at h; cases h; exact clone_cloneable_Es alloc pool _ es' s1 _ hy

theorem AOK.and_ok {α : Type} {errs : Int → Prop} {p q : α → AState → Prop} {s : AState} {r : Res AState α}
    (h : AOK errs p s r) (hq : ∀ a s', r = .ok a s' → q a s') : AOK errs (fun a s' => p a s' ∧ q a s') s r := by
  cases r with
  | ok a s' => exact ⟨h.1, h.2, hq a s' rfl⟩
  | err e s' => exact h
  | ub => exact h
  | fuel => exact h

/-- What one merge step promises. -/
def StepPost (e : PE) (temp temp' : List PE) : Prop :=
  PV.eraseEs temp' = mergeSpec (PV.eraseEs temp) [e.erase] ∧ PV.storedEs temp' ∧
  (temp'.map PE.key = temp.map PE.key ∨ (temp'.map PE.key = temp.map PE.key ++ [e.key] ∧ e.key ∉ temp.map PE.key)) ∧
  ∀ t ∈ temp', t.key ≠ e.key → t ∈ temp

mutual
theorem mergeNested_AOK {memcmp : Bytes → Bytes → Int} (hM : MemcmpSpec memcmp) (alloc : Nat → Bool) (v : PV) (pool : Nat)
    (bs : List PE) (s : AState) (hv : v.stored) (hb : PV.storedEs bs) (hd : distinctV v.erase)
    (hbd : distinctKeys (PV.eraseEs bs)) (ht : v.isTable = true) :
    AOK (ErrUnless ((∀ n, alloc n = true) ∧ v.cloneable ∧ PV.cloneableEs bs ∧
          ∃ ts, v.erase = .table ts ∧ nonEmptyEs ts ∧ (bs ≠ [] ∨ ts ≠ [])))
      (fun r s' => (.table r.erase = mergedV v.erase (.table (PV.eraseEs bs)) ∧ r.stored ∧
        FreshRun pool s.allocs s'.allocs r.blocks) ∧ r.cloneable) s (mergeNested memcmp alloc v pool bs s) := by
  match v, ht with
  | .table q ts, _ =>
    unfold mergeNested
    simp only [PV.erase, distinctV] at hd
    refine AOK.bind ((poolAlloc_AOK (errs := CloneErr) (Or.inl rfl) _ _ s).errUnless fun hG => ?_) fun p s' hs hp => ?_
    · refine (poolAlloc_Decides hG.1 _ _ _ s).1 ?_
      obtain ⟨ts', h1, _, h3⟩ := hG.2.2.2
      simp only [PV.erase, FV.table.injEq] at h1
      have : 0 < bs.length + ts.length := by
        rcases h3 with h | h
        · have := List.length_pos_iff.2 h; omega
        · rw [← h1] at h
          have := List.length_pos_iff.2 h
          rw [PV.eraseEs_length] at this; omega
      simp only [SIZEOF_ENTRY]; omega
    refine AOK.bind (AOK.mono (mergeLoop_AOK hM alloc ts (pool + 1) p.size bs bs s' hv.2 hb hb hd.2
      (by rw [← PV.eraseEs_keys]; exact hd.1) hbd
      (by rw [← PV.eraseEs_keys]; exact hbd.1) (fun _ _ t ht _ => ht) (by rw [hp.1]; exact Nat.le_refl _))
      (ErrUnless.mono fun hG => ⟨hG.1, hG.2.1, hG.2.2.1, hG.2.2.1, ?_⟩) (fun _ _ _ h => h)) fun m s₂ hs₂ hm => ?_
    · obtain ⟨ts', h1, h2, _⟩ := hG.2.2.2
      simp only [PV.erase, FV.table.injEq] at h1
      rw [h1]; exact h2
    refine (((cloneTable_AOK alloc pool ⟨some p, m⟩ hm.1.2 s₂).errUnless fun hG => ?_).and_ok
      (q := fun r _ => r.cloneable) (fun r s' h => cloneTable_cloneable _ _ _ _ _ _ h)).mono (fun _ h => h)
      fun r s₃ hs₃ hr => ?_
    · refine (cloneTable_Decides hG.1 pool ⟨some p, m⟩ hm.1.2 s₂).1 (hm.2 hG.2.1 hG.2.2.1)
    obtain ⟨hr, hrc⟩ := hr
    refine ⟨⟨?_, hr.2.1, hr.2.2.1, fun b hb => ?_⟩, hrc⟩
    · rw [hr.1, PTable.erase, hm.1.1]; simp only [PV.erase, mergedV, mergeSpec]
    · have := hr.2.2.2 b hb; exact ⟨this.1, by omega, this.2.2⟩
theorem mergeEntry_AOK {memcmp : Bytes → Bytes → Int} (hM : MemcmpSpec memcmp) (alloc : Nat → Bool) (e : PE)
    (tpool cap : Nat) (base temp : List PE) (s : AState) (he : e.stored) (hb : PV.storedEs base) (ht : PV.storedEs temp)
    (hd : distinctE e.erase) (hbd : distinctKeys (PV.eraseEs base)) (htn : (temp.map PE.key).Nodup)
    (hinv : ∀ t ∈ temp, t.key = e.key → t ∈ base) (hcap : SIZEOF_ENTRY * (temp.length + 1) ≤ cap) :
    AOK (ErrUnless ((∀ n, alloc n = true) ∧ e.cloneable ∧ PV.cloneableEs base ∧ PV.cloneableEs temp ∧ nonEmptyE e.erase))
      (fun temp' _ => StepPost e temp temp' ∧ (e.cloneable → PV.cloneableEs temp → PV.cloneableEs temp')) s (mergeEntry memcmp alloc e tpool cap base temp s) := by
  match e with
  | .mk kp k v =>
    unfold mergeEntry
    cases hg : getEntryByKey memcmp (temp.map PE.key) k with
    | none =>
      dsimp only
      rw [if_pos hcap]
      have hk := (getEntryByKey_none hM _ _).1 hg
      refine AOK.pure ⟨⟨?_, storedEs_append ht ⟨he, trivial⟩, Or.inr ⟨by simp [PE.key], hk⟩, ?_⟩, fun hc ht => by
        rw [PV.cloneableEs_iff] at *
        intro x hx
        rcases List.mem_append.1 hx with h | h
        · exact ht x h
        · simp only [List.mem_singleton] at h; rw [h]; exact hc⟩
      · unfold mergeSpec
        rw [List.filter_cons_of_pos (by rw [PV.eraseEs_keys]; simpa [PE.key] using hk), List.filter_nil,
          PV.eraseEs_map, PV.eraseEs_map, List.map_append, List.map_map]
        simp only [List.map_cons, List.map_nil]
        congr 1
        apply List.map_congr_left
        intro x hx
        symm
        refine overrideE_notin ?_
        simp only [List.map_cons, List.map_nil, PE.erase_key, List.mem_singleton]
        intro hc
        exact hk (List.mem_map.2 ⟨x, hx, hc⟩)
      · intro t ht' hne
        rcases List.mem_append.1 ht' with h | h
        · exact h
        · simp only [List.mem_singleton] at h; rw [h] at hne; exact absurd rfl hne
    | some i =>
      obtain ⟨hi, _⟩ := (getEntryByKey_some hM _ _ _).1 hg
      rw [List.getElem?_map, Option.map_eq_some_iff] at hi
      obtain ⟨t, hti, htk⟩ := hi
      dsimp only
      rw [hti]
      have htb : t ∈ base := hinv t (List.mem_of_getElem? hti) htk
      match t, hti, htk, htb with
      | .mk ekp ek ev, hti, htk, htb =>
        have hek : ek = k := htk
        subst hek
        have hts : (PE.mk ekp ek ev).stored := (PV.storedEs_iff _).1 ht _ (List.mem_of_getElem? hti)
        have mem_set : ∀ w, ∀ t ∈ temp.set i (.mk ekp ek w), t.key ≠ (PE.mk kp ek v).key → t ∈ temp := by
          intro w t ht' hne
          rcases List.mem_or_eq_of_mem_set ht' with h | h
          · exact h
          · rw [h] at hne; exact absurd rfl hne
        by_cases hT : (v.isTable && ev.isTable) = true
        · dsimp only
          rw [if_pos hT]
          cases hgb : getEntryByKey memcmp (base.map PE.key) ek with
          | none => exact absurd (List.mem_map.2 ⟨_, htb, rfl⟩) ((getEntryByKey_none hM _ _).1 hgb)
          | some j =>
            obtain ⟨hj, _⟩ := (getEntryByKey_some hM _ _ _).1 hgb
            rw [List.getElem?_map, Option.map_eq_some_iff] at hj
            obtain ⟨t', htj, htk'⟩ := hj
            have hbn : (base.map PE.key).Nodup := by rw [← PV.eraseEs_keys]; exact hbd.1
            -- the base entry with this key is the one found in `temp`
            have hsame : t' = .mk ekp ek ev := by
              obtain ⟨i', hi'⟩ := List.getElem?_of_mem htb
              have h1 : (base.map PE.key)[j]? = some ek := by rw [List.getElem?_map, htj]; simp [htk']
              have h2 : (base.map PE.key)[i']? = some ek := by rw [List.getElem?_map, hi']; rfl
              have hlj : j < (base.map PE.key).length := by
                rcases Nat.lt_or_ge j (base.map PE.key).length with h | h
                · exact h
                · rw [List.getElem?_eq_none h] at h1; cases h1
              have := (List.getElem?_inj hlj hbn).1 (h1.trans h2.symm)
              subst this
              rw [hi'] at htj
              exact (Option.some.inj htj).symm
            dsimp only
            rw [htj, hsame]
            simp only [Bool.and_eq_true] at hT
            match ev, hT.2 with
            | .table bp bs, _ =>
              dsimp only
              have hbe : PE.erase (.mk ekp ek (.table bp bs)) ∈ PV.eraseEs base := by
                rw [PV.eraseEs_map]; exact List.mem_map.2 ⟨_, htb, rfl⟩
              have hdb : distinctKeys (PV.eraseEs bs) := by
                have := (distinctEs_iff _).1 hbd.2 _ hbe
                simpa [PE.erase, distinctE, PV.erase, distinctV, distinctKeys] using this
              refine AOK.bind (AOK.mono (mergeNested_AOK hM alloc v tpool bs s he.2 hts.2.2 hd hdb hT.1)
                (ErrUnless.mono fun hG => ⟨hG.1, hG.2.1.2, ?_, ?_⟩) (fun _ _ _ h => h)) fun r s' hs hr => ?_
              · exact ((PV.cloneableEs_iff _).1 hG.2.2.1 _ htb).2
              · match v, hT.1, hG.2.2.2.2 with
                | .table vp ts, _, hn =>
                  simp only [PE.erase, PV.erase, nonEmptyE, nonEmptyV] at hn
                  exact ⟨_, rfl, hn.2, Or.inr hn.1⟩
              refine AOK.pure ⟨⟨?_, storedEs_set ht ⟨hts.1, hr.1.2.1⟩, Or.inl (set_keys hti), mem_set _⟩, fun hc ht =>
                cloneableEs_set ht ⟨hc.1, hr.2⟩⟩
              exact set_erase hti htn rfl hr.1.1
        · dsimp only
          rw [if_neg hT]
          refine AOK.pure ⟨⟨?_, storedEs_set ht ⟨hts.1, he.2⟩, Or.inl (set_keys hti), mem_set _⟩, fun hc ht =>
            cloneableEs_set ht hc⟩
          exact set_erase hti htn rfl (mergedV_not_table (by simpa using hT))
theorem mergeLoop_AOK {memcmp : Bytes → Bytes → Int} (hM : MemcmpSpec memcmp) (alloc : Nat → Bool) (add : List PE)
    (tpool cap : Nat) (base temp : List PE) (s : AState) (ha : PV.storedEs add) (hb : PV.storedEs base)
    (ht : PV.storedEs temp) (hd : distinctEs (PV.eraseEs add)) (hdk : (add.map PE.key).Nodup)
    (hbd : distinctKeys (PV.eraseEs base)) (htn : (temp.map PE.key).Nodup)
    (hinv : ∀ a ∈ add, ∀ t ∈ temp, t.key = a.key → t ∈ base)
    (hcap : SIZEOF_ENTRY * (temp.length + add.length) ≤ cap) :
    AOK (ErrUnless ((∀ n, alloc n = true) ∧ PV.cloneableEs add ∧ PV.cloneableEs base ∧ PV.cloneableEs temp ∧
          nonEmptyEs (PV.eraseEs add)))
      (fun r _ => (PV.eraseEs r = mergeSpec (PV.eraseEs temp) (PV.eraseEs add) ∧ PV.storedEs r) ∧
        (PV.cloneableEs add → PV.cloneableEs temp → PV.cloneableEs r)) s
      (mergeLoop memcmp alloc add tpool cap base temp s) := by
  match add with
  | [] =>
    unfold mergeLoop
    refine AOK.pure ⟨⟨?_, ht⟩, fun _ h => h⟩
    simp only [PV.eraseEs, mergeSpec, List.filter_nil, List.append_nil]
    rw [show overrideE [] = id from by funext e; simp [overrideE], List.map_id]
  | a :: rest =>
    unfold mergeLoop
    simp only [List.map_cons, List.nodup_cons] at hdk
    refine AOK.bind (AOK.mono (mergeEntry_AOK hM alloc a tpool cap base temp s ha.1 hb ht hd.1 hbd htn
      (hinv a (by simp)) (by
        refine Nat.le_trans (Nat.mul_le_mul_left _ ?_) hcap
        simp)) (ErrUnless.mono fun hG => ⟨hG.1, hG.2.1.1, hG.2.2.1, hG.2.2.2.1, hG.2.2.2.2.1⟩) (fun _ _ _ h => h))
      fun temp' s' hs hp => ?_
    obtain ⟨⟨p1, p2, p3, p4⟩, p5⟩ := hp
    have hlen : temp'.length + rest.length ≤ temp.length + (a :: rest).length := by
      have : temp'.length = (temp'.map PE.key).length := by simp
      rcases p3 with h | h
      · rw [this, h]; simp
      · rw [this, h.1]; simp; omega
    have htn' : (temp'.map PE.key).Nodup := by
      rcases p3 with h | h
      · rw [h]; exact htn
      · rw [h.1]
        refine List.nodup_append.2 ⟨htn, by simp, ?_⟩
        intro x hx y hy hxy
        simp only [List.mem_singleton] at hy
        rw [hxy, hy] at hx
        exact h.2 hx
    refine (mergeLoop_AOK hM alloc rest tpool cap base temp' s' ha.2 hb p2 hd.2 hdk.2 hbd htn' ?_
      (Nat.le_trans (Nat.mul_le_mul_left _ hlen) hcap)).mono
      (ErrUnless.mono fun hG => ⟨hG.1, hG.2.1.2, hG.2.2.1, p5 hG.2.1.1 hG.2.2.2.1, hG.2.2.2.2.2⟩) fun r s₂ _ hr => ?_
    · intro a' ha' t ht' hta
      have hne : t.key ≠ a.key := fun hc => hdk.1 (List.mem_map.2 ⟨a', ha', by rw [← hta, hc]⟩)
      exact hinv a' (List.mem_cons_of_mem _ ha') t (p4 t ht' hne) hta
    · refine ⟨⟨?_, hr.1.2⟩, fun hc ht => hr.2 hc.2 (p5 hc.1 ht)⟩
      rw [hr.1.1, p1, PV.eraseEs]
      refine merge_step ?_
      rw [PV.eraseEs_keys, PE.erase_key]
      exact hdk.1
end

end Rmq

namespace Rmq

theorem lookup_append (a b : Table) (k : Bytes) : lookup (a ++ b) k = (lookup a k).or (lookup b k) := by
  induction a with
  | nil => simp [lookup]
  | cons e es ih =>
    match e with
    | .mk key v =>
      simp only [List.cons_append, lookup]
      by_cases h : key = k
      · simp [h]
      · simp [h, ih]

theorem lookup_none {t : Table} {k : Bytes} : lookup t k = none ↔ k ∉ t.map Entry.key := by
  induction t with
  | nil => simp [lookup]
  | cons e es ih =>
    match e with
    | .mk key v =>
      simp only [lookup, List.map_cons, List.mem_cons, not_or, Entry.key]
      by_cases h : key = k
      · simp [h]
      · simp [h, ih, Ne.symm h]

theorem overrideE_value (add : Table) (e : Entry) :
    overrideE add e = .mk e.key (match lookup add e.key with | none => e.value | some a => mergedV a e.value) := by
  induction add with
  | nil => cases e; simp [overrideE, lookup, Entry.key, Entry.value]
  | cons a rest ih =>
    match a with
    | .mk k v =>
      unfold overrideE lookup
      by_cases h : k = e.key
      · rw [if_pos (show (Entry.mk k v).key = e.key from h), if_pos h]; simp [mergedE]
      · rw [if_neg (show ¬ (Entry.mk k v).key = e.key from h), if_neg h, ih]

theorem lookup_filter (add : Table) (keys : List Bytes) (k : Bytes) :
    lookup (add.filter (fun a => a.key ∉ keys)) k = if k ∈ keys then none else lookup add k := by
  induction add with
  | nil => simp [lookup]
  | cons a rest ih =>
    match a with
    | .mk key v =>
      by_cases hk : key ∈ keys
      · rw [List.filter_cons_of_neg (by simp [Entry.key, hk]), ih]
        by_cases hk' : k ∈ keys
        · simp [hk']
        · have : key ≠ k := fun h => hk' (h ▸ hk)
          simp [hk', lookup, this]
      · rw [List.filter_cons_of_pos (by simp [Entry.key, hk]), lookup, ih]
        by_cases h : key = k
        · subst h; simp [hk, lookup]
        · simp [h, lookup]

/-- The key-by-key reading of the merge. -/
theorem lookup_mergeSpec (base add : Table) (k : Bytes) :
    lookup (mergeSpec base add) k =
      match lookup add k, lookup base k with
      | none, b => b
      | some a, none => some a
      | some a, some b => some (mergedV a b) := by
  unfold mergeSpec
  rw [lookup_append, lookup_filter]
  have h1 : lookup (base.map (overrideE add)) k =
      (lookup base k).map (fun b => match lookup add k with | none => b | some a => mergedV a b) := by
    induction base with
    | nil => simp [lookup]
    | cons e es ih =>
      rw [List.map_cons, overrideE_value]
      match e with
      | .mk key v =>
        simp only [lookup, Entry.key, Entry.value]
        by_cases h : key = k
        · subst h; simp
        · simp [h, ih]
  rw [h1]
  cases hb : lookup base k with
  | none =>
    have : k ∉ base.map Entry.key := lookup_none.1 hb
    simp only [Option.map_none, Option.none_or, if_neg this]
    cases lookup add k <;> rfl
  | some b =>
    have : k ∈ base.map Entry.key := by
      by_cases h : k ∈ base.map Entry.key
      · exact h
      · rw [lookup_none.2 h] at hb; cases hb
    simp only [Option.map_some, if_pos this]
    cases lookup add k <;> rfl

end Rmq
