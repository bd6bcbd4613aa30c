import Verif.Proofs.World
/-!
# The memory of a connection
-/
namespace Rmq.PoolM

def entries (c : CMem) : List Entry := c.table.flatten

def rawOf (c : CMem) : List Nat := c.self :: c.out :: c.sockBuf :: (entries c).map (·.node)

/-- what was handed out for one owner -/
def gsOf (gs : List (Owner × Grant)) (o : Owner) : List Grant := (gs.filter fun g => g.1 = o).map (·.2)

def tsOf (c : CMem) (gs : List (Owner × Grant)) : List (Pool × List Grant) :=
  (c.props, gsOf gs none) :: (entries c).map fun e => (e.pool, gsOf gs (some e.channel))

/-- What holds after any history. -/
structure CInv (A : Nat → Bool) (app : List (Nat × Nat)) (r : ConnRun) : Prop where
  w : World A app (rawOf r.conn) (tsOf r.conn r.grants) r.heap
  len : r.conn.table.length = TABLE
  slots : ∀ i es, r.conn.table[i]? = some es → ∀ e ∈ es, slot e.channel = i
  keys : ((entries r.conn).map (·.channel)).Nodup
  own : ∀ g ∈ r.grants, ∀ ch, g.1 = some ch → ∃ e ∈ entries r.conn, e.channel = ch
  fm : r.conn.frameMax < 2 ^ 31
  out : r.tuned = St.OK → (r.conn.out, r.conn.outLen) ∈ r.heap.live
  sock : (r.conn.sockBuf, SOCK_BUF) ∈ r.heap.live

theorem mem_raw_out {c : CMem} : c.out ∈ rawOf c := List.mem_cons_of_mem _ List.mem_cons_self
theorem mem_raw_sock {c : CMem} : c.sockBuf ∈ rawOf c := List.mem_cons_of_mem _ (List.mem_cons_of_mem _ List.mem_cons_self)

theorem slot_lt (ch : UInt16) : slot ch < TABLE := Nat.mod_lt _ (by decide)

theorem table_split : ∀ (t : List (List Entry)) (i : Nat), i < t.length →
    ∃ rest, t.flatten.Perm (t.getD i [] ++ rest) ∧ ∀ es', (t.set i es').flatten.Perm (es' ++ rest) := by
  intro t
  induction t with
  | nil => intro i h; cases h
  | cons es t ih =>
    intro i h
    cases i with
    | zero => exact ⟨t.flatten, .refl _, fun es' => .refl _⟩
    | succ i =>
      obtain ⟨rest, h1, h2⟩ := ih i (by simpa using h)
      refine ⟨es ++ rest, ?_, fun es' => ?_⟩
      · show (es ++ t.flatten).Perm (t.getD i [] ++ (es ++ rest))
        refine (h1.append_left es).trans ?_
        rw [← List.append_assoc, ← List.append_assoc]
        exact List.perm_append_comm.append_right _
      · show (es ++ (t.set i es').flatten).Perm (es' ++ (es ++ rest))
        refine ((h2 es').append_left es).trans ?_
        rw [← List.append_assoc, ← List.append_assoc]
        exact List.perm_append_comm.append_right _

theorem findEntry_some {ch : UInt16} : ∀ {es : List Entry} {e : Entry}, findEntry ch es = some e →
    e.channel = ch ∧ ∃ l r, es = l ++ e :: r ∧ ∀ p, putEntry ch p es = l ++ { e with pool := p } :: r := by
  intro es
  induction es with
  | nil => intro e h; cases h
  | cons x es ih =>
    intro e h
    unfold findEntry at h
    by_cases hc : ch = x.channel
    · rw [if_pos hc] at h
      cases h
      exact ⟨hc.symm, [], es, rfl, fun p => by unfold putEntry; rw [if_pos hc]; rfl⟩
    · rw [if_neg hc] at h
      obtain ⟨h1, l, r, h2, h3⟩ := ih h
      exact ⟨h1, x :: l, r, by rw [h2]; rfl, fun p => by rw [putEntry, if_neg hc, h3]; rfl⟩

theorem findEntry_none {ch : UInt16} : ∀ {es : List Entry}, findEntry ch es = none → ∀ e ∈ es, e.channel ≠ ch := by
  intro es
  induction es with
  | nil => intro _ e h; cases h
  | cons x es ih =>
    intro h e he
    unfold findEntry at h
    by_cases hc : ch = x.channel
    · rw [if_pos hc] at h; cases h
    · rw [if_neg hc] at h
      rcases List.mem_cons.1 he with rfl | he
      · exact fun h => hc h.symm
      · exact ih h e he

/-- The entry of a channel, taken out of the table. -/
theorem entry_split {c : CMem} {ch : UInt16} {e : Entry} (len : c.table.length = TABLE) (hf : findEntry ch (c.table.getD (slot ch) []) = some e) :
    e.channel = ch ∧ ∃ rest, (entries c).Perm (e :: rest) ∧ ∀ p, (entries (putPool ch p c)).Perm ({ e with pool := p } :: rest) := by
  obtain ⟨h1, l, r, h2, h3⟩ := findEntry_some hf
  obtain ⟨rest, h4, h5⟩ := table_split c.table (slot ch) (by rw [len]; exact slot_lt ch)
  have mid : ∀ x : Entry, (l ++ x :: r ++ rest).Perm (x :: (l ++ r ++ rest)) := fun x => by
    rw [List.append_assoc, List.append_assoc]
    exact List.perm_middle
  refine ⟨h1, l ++ r ++ rest, ?_, fun p => ?_⟩
  · refine h4.trans ?_
    rw [h2]
    exact mid e
  · refine (h5 _).trans ?_
    rw [h3]
    exact mid _

variable {A : Nat → Bool} {app : List (Nat × Nat)} {r : ConnRun}

/-- A channel without an entry appears nowhere in the table. -/
theorem CInv.absent (ci : CInv A app r) {ch : UInt16} (hf : findEntry ch (r.conn.table.getD (slot ch) []) = none) :
    ∀ e ∈ entries r.conn, e.channel ≠ ch := by
  intro e he hc
  obtain ⟨es, h1, h2⟩ := List.mem_flatten.1 he
  obtain ⟨i, h3, h4⟩ := List.mem_iff_getElem.1 h1
  have h5 : r.conn.table[i]? = some es := by rw [List.getElem?_eq_getElem h3, h4]
  have h6 := ci.slots i es h5 e h2
  rw [hc] at h6
  refine findEntry_none hf e ?_ hc
  rw [h6, List.getD_eq_getElem?_getD, h5]
  exact h2

theorem gsOf_granted_same (o : Owner) (n : Nat) (gs : List (Owner × Grant)) (x : Option (Nat × Nat)) :
    gsOf (granted o n gs x) o = (x.toList.map fun y => ⟨y.1, y.2, n⟩) ++ gsOf gs o := by
  cases x with
  | none => rfl
  | some y => simp [granted, gsOf]

theorem gsOf_granted_other {o o' : Owner} (h : o ≠ o') (n : Nat) (gs : List (Owner × Grant)) (x : Option (Nat × Nat)) :
    gsOf (granted o n gs x) o' = gsOf gs o' := by
  cases x with
  | none => rfl
  | some y => simp [granted, gsOf, h]

theorem gsOf_release_same (ch : UInt16) (gs : List (Owner × Grant)) : gsOf (gs.filter (fun g => g.1 ≠ some ch)) (some ch) = [] := by
  unfold gsOf
  rw [List.filter_filter]
  simp

theorem gsOf_release_other {ch : UInt16} {o : Owner} (h : o ≠ some ch) (gs : List (Owner × Grant)) :
    gsOf (gs.filter (fun g => g.1 ≠ some ch)) o = gsOf gs o := by
  unfold gsOf
  rw [List.filter_filter]
  congr 1
  refine List.filter_congr fun g _ => ?_
  by_cases hg : g.1 = o
  · simp [hg, h]
  · simp [hg]

theorem mem_granted {o : Owner} {n : Nat} {gs : List (Owner × Grant)} {x : Option (Nat × Nat)} {g : Owner × Grant}
    (h : g ∈ granted o n gs x) : g.1 = o ∨ g ∈ gs := by
  cases x with
  | none => exact .inr h
  | some y =>
    rcases List.mem_cons.1 h with rfl | h
    · exact .inl rfl
    · exact .inr h

/-- The entry of a channel in the world. -/
theorem CInv.focus (ci : CInv A app r) {ch : UInt16} {e : Entry} (hf : findEntry ch (r.conn.table.getD (slot ch) []) = some e) :
    e.channel = ch ∧ ∃ rest, (entries r.conn).Perm (e :: rest) ∧ (∀ p, (entries (putPool ch p r.conn)).Perm ({ e with pool := p } :: rest)) ∧
      (∀ x ∈ rest, x.channel ≠ ch) ∧
      World A app (rawOf r.conn) ((e.pool, gsOf r.grants (some ch)) :: (r.conn.props, gsOf r.grants none) ::
        rest.map fun x => (x.pool, gsOf r.grants (some x.channel))) r.heap := by
  obtain ⟨h1, rest, h2, h3⟩ := entry_split ci.len hf
  refine ⟨h1, rest, h2, h3, fun x hx => ?_, ci.w.perm (.refl _) ?_⟩
  · have := (h2.map (·.channel)).nodup_iff.1 ci.keys
    rw [List.map_cons, List.nodup_cons] at this
    intro hc
    exact this.1 (List.mem_map.2 ⟨x, hx, by rw [hc, h1]⟩)
  · unfold tsOf
    refine ((h2.map _).cons _).trans ?_
    rw [List.map_cons, h1]
    exact .swap _ _ _

/-- The pool of a channel was written: everything is as before, except in the world. -/
theorem CInv.put (ci : CInv A app r) {ch : UInt16} {e : Entry} (hf : findEntry ch (r.conn.table.getD (slot ch) []) = some e) {p : Pool} {h : Heap}
    {gs : List (Owner × Grant)} {gs' : List Grant} (hw : ∀ ts, World A app (rawOf r.conn) ((e.pool, gsOf r.grants (some ch)) :: ts) r.heap →
      World A app (rawOf r.conn) ((p, gs') :: ts) h) (same : gsOf gs (some ch) = gs') (other : ∀ o, o ≠ some ch → gsOf gs o = gsOf r.grants o)
    (own : ∀ g ∈ gs, g.1 = some ch ∨ g ∈ r.grants) (keep : ∀ y ∈ r.heap.live, y.1 ∈ rawOf r.conn → y ∈ h.live) :
    CInv A app ⟨putPool ch p r.conn, h, gs, r.tuned⟩ := by
  obtain ⟨h1, rest, h2, h3, h4, w⟩ := ci.focus hf
  have hraw : (rawOf r.conn).Perm (rawOf (putPool ch p r.conn)) := by
    unfold rawOf
    exact ((((h2.map _).trans ((h3 p).map (·.node)).symm).cons _).cons _).cons _
  have hch : ((entries (putPool ch p r.conn)).map (·.channel)).Perm ((entries r.conn).map (·.channel)) :=
    ((h3 p).map _).trans (h2.map (·.channel)).symm
  have hts : ((p, gs') :: (r.conn.props, gsOf r.grants none) :: rest.map fun x => (x.pool, gsOf r.grants (some x.channel))).Perm
      (tsOf (putPool ch p r.conn) gs) := by
    unfold tsOf
    rw [other none (by simp)]
    refine (List.Perm.swap _ _ _).trans (.cons _ ?_)
    refine List.Perm.trans ?_ ((h3 p).map _).symm
    rw [List.map_cons]
    show List.Perm ((p, gs') :: _) ((p, gsOf gs (some e.channel)) :: _)
    rw [h1, same]
    refine .cons _ (.of_eq (List.map_congr_left fun x hx => ?_))
    rw [other (some x.channel) (by intro he; cases he; exact h4 x hx rfl)]
  have hslot : slot ch < r.conn.table.length := by rw [ci.len]; exact slot_lt ch
  exact {
    w := (hw _ w).perm hraw hts
    len := by show (r.conn.table.set _ _).length = _; rw [List.length_set]; exact ci.len
    slots := fun i es hes x hx => by
      by_cases hi : slot ch = i
      · subst hi
        have hes : (r.conn.table.set (slot ch) _)[slot ch]? = some es := hes
        rw [List.getElem?_set_self hslot] at hes
        cases hes
        have h5 : r.conn.table[slot ch]? = some (r.conn.table.getD (slot ch) []) := by
          rw [List.getD_eq_getElem?_getD, List.getElem?_eq_getElem hslot]; rfl
        obtain ⟨_, l, rr, h6, h7⟩ := findEntry_some hf
        rw [h7] at hx
        have old := ci.slots _ _ h5
        rw [h6] at old
        rcases List.mem_append.1 hx with hx | hx
        · exact old x (List.mem_append_left _ hx)
        · rcases List.mem_cons.1 hx with rfl | hx
          · exact old e (List.mem_append_right _ List.mem_cons_self)
          · exact old x (List.mem_append_right _ (List.mem_cons_of_mem _ hx))
      · have hes : (r.conn.table.set (slot ch) _)[i]? = some es := hes
        rw [List.getElem?_set_ne hi] at hes
        exact ci.slots i es hes x hx
    keys := hch.nodup_iff.2 ci.keys
    own := fun g hg c hc => by
      have : ∃ x ∈ entries r.conn, x.channel = c := by
        rcases own g hg with h5 | h5
        · rw [hc] at h5
          cases h5
          exact ⟨e, h2.mem_iff.2 List.mem_cons_self, h1⟩
        · exact ci.own g h5 c hc
      obtain ⟨x, h6, h7⟩ := this
      obtain ⟨y, h8, h9⟩ := List.mem_map.1 (hch.mem_iff.2 (List.mem_map.2 ⟨x, h6, h7⟩))
      exact ⟨y, h8, h9⟩
    fm := ci.fm
    out := fun ht => keep _ (ci.out ht) mem_raw_out
    sock := keep _ ci.sock mem_raw_sock }

/-- A new entry at the head of its chain. -/
theorem CInv.create (ci : CInv A app r) {ch : UInt16} (hf : findEntry ch (r.conn.table.getD (slot ch) []) = none) {b : Nat} {h : Heap}
    (ha : hAlloc A r.heap ENTRY_SIZE = (some b, h)) :
    CInv A app ⟨{ r.conn with table := r.conn.table.set (slot ch) (⟨ch, b, initPool r.conn.frameMax⟩ :: r.conn.table.getD (slot ch) []) }, h, r.grants, r.tuned⟩ ∧
    findEntry ch ((r.conn.table.set (slot ch) (⟨ch, b, initPool r.conn.frameMax⟩ :: r.conn.table.getD (slot ch) [])).getD (slot ch) []) =
      some ⟨ch, b, initPool r.conn.frameMax⟩ := by
  have hslot : slot ch < r.conn.table.length := by rw [ci.len]; exact slot_lt ch
  have hne := ci.absent hf
  obtain ⟨rest, h4, h5⟩ := table_split r.conn.table (slot ch) hslot
  have hent : ((r.conn.table.set (slot ch) (⟨ch, b, initPool r.conn.frameMax⟩ :: r.conn.table.getD (slot ch) [])).flatten).Perm
      (⟨ch, b, initPool r.conn.frameMax⟩ :: entries r.conn) := (h5 _).trans (h4.symm.cons _)
  obtain ⟨w1, w2, w3⟩ := ci.w.block ha
  have w4 := w1.init r.conn.frameMax (by have := ci.fm; omega)
  have hno : gsOf r.grants (some ch) = [] := by
    unfold gsOf
    rw [List.map_eq_nil_iff, List.filter_eq_nil_iff]
    intro g hg hc
    obtain ⟨e, he, hec⟩ := ci.own g hg ch (by simpa using hc)
    exact hne e he hec
  refine ⟨{
    w := w4.perm ?_ ?_
    len := by show (r.conn.table.set _ _).length = _; rw [List.length_set]; exact ci.len
    slots := fun i es hes x hx => ?_
    keys := ?_
    own := fun g hg c hc => ?_
    fm := ci.fm
    out := fun ht => w3 _ (ci.out ht)
    sock := w3 _ ci.sock }, ?_⟩
  · unfold rawOf
    refine List.Perm.trans ?_ (((((hent.map (·.node)).symm).cons _).cons _).cons _)
    rw [List.map_cons]
    refine (List.Perm.swap _ _ _).trans (.cons _ ?_)
    refine (List.Perm.swap _ _ _).trans (.cons _ ?_)
    exact List.Perm.swap _ _ _
  · unfold tsOf
    refine (List.Perm.swap _ _ _).trans (.cons _ ?_)
    refine List.Perm.trans ?_ (hent.map fun e : Entry => (e.pool, gsOf r.grants (some e.channel))).symm
    rw [List.map_cons]
    dsimp only
    rw [hno]
  · by_cases hi : slot ch = i
    · subst hi
      have hes : (r.conn.table.set (slot ch) _)[slot ch]? = some es := hes
      rw [List.getElem?_set_self hslot] at hes
      cases hes
      rcases List.mem_cons.1 hx with rfl | hx
      · rfl
      · exact ci.slots (slot ch) (r.conn.table.getD (slot ch) []) (by
          rw [List.getD_eq_getElem?_getD, List.getElem?_eq_getElem hslot]; rfl) x hx
    · have hes : (r.conn.table.set (slot ch) _)[i]? = some es := hes
      rw [List.getElem?_set_ne hi] at hes
      exact ci.slots i es hes x hx
  · refine (hent.map (·.channel)).nodup_iff.2 ?_
    rw [List.map_cons, List.nodup_cons]
    refine ⟨fun hm => ?_, ci.keys⟩
    obtain ⟨x, hx, hxc⟩ := List.mem_map.1 hm
    exact hne x hx hxc
  · obtain ⟨x, hx, hxc⟩ := ci.own g hg c hc
    exact ⟨x, hent.mem_iff.2 (List.mem_cons_of_mem _ hx), hxc⟩
  · rw [List.getD_eq_getElem?_getD, List.getElem?_set_self hslot]
    show findEntry ch (_ :: _) = _
    unfold findEntry
    rw [if_pos rfl]

/-- storing for a channel that has its entry -/
theorem CInv.store_in (ci : CInv A app r) {ch : UInt16} {e : Entry} (hf : findEntry ch (r.conn.table.getD (slot ch) []) = some e) {n : Nat}
    (hn : n ≤ 2 ^ 64 - 8) :
    ∃ x p h, poolAlloc A e.pool r.heap n = .ok x (p, h) ∧ CInv A app ⟨putPool ch p r.conn, h, granted (some ch) n r.grants x, r.tuned⟩ := by
  obtain ⟨h1, rest, h2, h3, h4, w⟩ := ci.focus hf
  obtain ⟨x, p, h, e1, e2, _, e4⟩ := w.alloc hn
  refine ⟨x, p, h, e1, ci.put hf (gs := granted (some ch) n r.grants x) (fun ts wt => ?_) (gsOf_granted_same _ _ _ _) (fun o ho => gsOf_granted_other (Ne.symm ho) _ _ _)
    (fun g hg => mem_granted hg) (fun y hy hr => e4 y hy ((w.rawOk _ hr).2 _ List.mem_cons_self))⟩
  obtain ⟨x', p', h', f1, _, f3, _⟩ := wt.alloc hn
  rw [e1] at f1
  cases f1
  exact f3

theorem CInv.step (ci : CInv A app r) (op : ConnOp) (hs : op.sane) : ∃ r', connStep A r op = some r' ∧ CInv A app r' := by
  cases op with
  | release ch =>
    unfold connStep
    dsimp only
    cases hf : findEntry ch (r.conn.table.getD (slot ch) []) with
    | none =>
      have e0 : releaseChan ch r.conn r.heap = some (r.conn, r.heap) := by unfold releaseChan getPool; rw [hf]; rfl
      rw [e0]
      refine ⟨_, rfl, ?_⟩
      have he : r.grants.filter (fun g => g.1 ≠ some ch) = r.grants := List.filter_eq_self.2 fun g hg => by
        have := ci.absent hf
        simp only [ne_eq, decide_eq_true_eq]
        intro hc
        obtain ⟨x, hx, hxc⟩ := ci.own g hg ch hc
        exact this x hx hxc
      dsimp only
      rw [he]
      exact ci
    | some e =>
      obtain ⟨h1, rest, h2, h3, h4, w⟩ := ci.focus hf
      obtain ⟨p, h, e1, _, e3⟩ := w.recycle
      have e0 : releaseChan ch r.conn r.heap = some (putPool ch p r.conn, h) := by
        unfold releaseChan getPool
        rw [hf]
        show (recyclePool e.pool r.heap).map _ = _
        rw [e1]
        rfl
      rw [e0]
      refine ⟨_, rfl, ci.put hf (gs := r.grants.filter (fun g => g.1 ≠ some ch)) (gs' := []) (fun ts wt => ?_) (gsOf_release_same _ _) (fun o ho => gsOf_release_other ho _)
        (fun g hg => .inr (List.mem_filter.1 hg).1) (fun y hy hr => e3 y hy ((w.rawOk _ hr).2 _ List.mem_cons_self))⟩
      obtain ⟨p', h', f1, f2, _⟩ := wt.recycle
      rw [e1] at f1
      cases f1
      exact f2
  | store ch n =>
    unfold connStep
    dsimp only
    cases hf : findEntry ch (r.conn.table.getD (slot ch) []) with
    | some e =>
      obtain ⟨x, p, h, e1, e2⟩ := ci.store_in hf (show n ≤ _ from hs)
      have e0 : chanAlloc A ch n r.conn r.heap = .ok x (putPool ch p r.conn, h) := by
        unfold chanAlloc getOrCreate
        rw [hf]
        dsimp only
        rw [e1]
      rw [e0]
      exact ⟨_, rfl, e2⟩
    | none =>
      cases ha : hAlloc A r.heap ENTRY_SIZE with
      | mk o h =>
        cases o with
        | none =>
          obtain ⟨l, m, _⟩ := hAlloc_none ha
          have e0 : chanAlloc A ch n r.conn r.heap = .ok none (r.conn, h) := by
            unfold chanAlloc getOrCreate
            rw [hf]
            dsimp only
            rw [ha]
          rw [e0]
          exact ⟨_, rfl, ci.w.heap l m, ci.len, ci.slots, ci.keys, ci.own, ci.fm, (fun ht => by rw [l]; exact ci.out ht), by rw [l]; exact ci.sock⟩
        | some b =>
          obtain ⟨ci1, hf1⟩ := ci.create hf ha
          obtain ⟨x, p, h2, e1, e2⟩ := ci1.store_in hf1 (show n ≤ _ from hs)
          dsimp only at e1 e2
          have e0 : chanAlloc A ch n r.conn r.heap = .ok x (putPool ch p { r.conn with table := r.conn.table.set (slot ch) (⟨ch, b, initPool r.conn.frameMax⟩ :: r.conn.table.getD (slot ch) []) }, h2) := by
            unfold chanAlloc getOrCreate
            rw [hf]
            dsimp only
            rw [ha]
            dsimp only
            rw [e1]
          rw [e0]
          exact ⟨_, rfl, e2⟩
  | property n =>
    unfold connStep propsAlloc
    obtain ⟨x, p, h, e1, e2, e3, e4⟩ := World.alloc (p := r.conn.props) (gs := gsOf r.grants none) ci.w (show n ≤ _ from hs)
    dsimp only
    rw [e1]
    have keep : ∀ y ∈ r.heap.live, y.1 ∈ rawOf r.conn → y ∈ h.live := fun y hy hr => e4 y hy ((ci.w.rawOk _ hr).2 _ List.mem_cons_self)
    refine ⟨_, rfl, ?_, ci.len, ci.slots, ci.keys, fun g hg c hc => ?_, ci.fm, fun ht => keep _ (ci.out ht) (by simp [rawOf]), keep _ ci.sock (by simp [rawOf])⟩
    · refine e3.perm (.refl _) (.of_eq ?_)
      unfold tsOf
      dsimp only
      rw [gsOf_granted_same]
      congr 1
      refine List.map_congr_left fun y _ => ?_
      rw [gsOf_granted_other (by simp)]
    · rcases mem_granted hg with h5 | h5
      · rw [hc] at h5; cases h5
      · exact ci.own g h5 c hc
  | tune clock fm =>
    obtain ⟨hs1, hs2⟩ : 0 < fm ∧ fm < 2 ^ 31 := hs
    unfold connStep tuneMem
    dsimp only
    cases clock with
    | false => exact ⟨_, rfl, ci.w, ci.len, ci.slots, ci.keys, ci.own, hs2, (fun ht => nomatch ht), ci.sock⟩
    | true =>
      rw [if_neg (by simp)]
      unfold hRealloc0
      rw [if_neg (by omega)]
      unfold hRealloc
      have hlive : r.conn.out ∈ r.heap.live.map (·.1) := (ci.w.rawOk r.conn.out (by simp [rawOf])).1
      rw [if_pos hlive]
      cases ha : hAlloc A r.heap fm with
      | mk o h =>
        cases o with
        | none =>
          obtain ⟨l, m, _⟩ := hAlloc_none ha
          exact ⟨_, rfl, ci.w.heap l m, ci.len, ci.slots, ci.keys, ci.own, hs2, (fun ht => nomatch ht), by rw [l]; exact ci.sock⟩
        | some b =>
          obtain ⟨w1, w2, w3⟩ := ci.w.block ha
          have hp : (b :: rawOf r.conn).Perm (r.conn.out :: r.conn.self :: b :: r.conn.sockBuf :: (entries r.conn).map (·.node)) := by
            unfold rawOf
            refine (List.Perm.swap _ _ _).trans ?_
            refine List.Perm.trans (.cons _ (List.Perm.swap _ _ _)) ?_
            exact List.Perm.swap _ _ _
          have w4 := w1.perm hp (.refl _)
          obtain ⟨h2, e2, w5, e3⟩ := w4.free
          have hbo : b ≠ r.conn.out := by
            intro e
            have := w4.nodup
            rw [e] at this
            simp at this
          have hh : h2 = { h with live := h.live.filter (fun p => p.1 ≠ r.conn.out) } := by
            unfold hFree at e2
            split at e2 <;> cases e2
            rfl
          subst hh
          have hso : r.conn.sockBuf ≠ r.conn.out := by
            intro e
            have := w4.nodup
            rw [e] at this
            simp at this
          exact ⟨_, rfl, w5, ci.len, ci.slots, ci.keys, ci.own, hs2, fun _ => e3 _ w2 hbo, e3 _ (w3 _ ci.sock) hso⟩

theorem CInv.run : ∀ (ops : List ConnOp) {r : ConnRun}, CInv A app r → (∀ op ∈ ops, op.sane) → ∃ r', connRun A r ops = some r' ∧ CInv A app r' := by
  intro ops
  induction ops with
  | nil => intro r ci _; exact ⟨r, rfl, ci⟩
  | cons op ops ih =>
    intro r ci hs
    obtain ⟨r1, e1, c1⟩ := ci.step op (hs op List.mem_cons_self)
    obtain ⟨r2, e2, c2⟩ := ih c1 (fun o ho => hs o (List.mem_cons_of_mem _ ho))
    exact ⟨r2, by rw [connRun, e1]; exact e2, c2⟩

/-- nothing of ours on a heap -/
theorem World.start {h : Heap} (ok : h.OK) : World A h.live [] [] h where
  ok := ok
  pools := fun _ h => nomatch h
  disj := .nil
  nodup := .nil
  rawOk := fun _ h => nomatch h
  appOk := fun x hx => ⟨hx, (fun h => nomatch h), (fun _ h => nomatch h)⟩
  noleak := fun _ _ hb => .inl hb

theorem new_inv {clock : Bool} {h h' : Heap} (ok : h.OK) {c : CMem} (e : newConn A clock h = some (some c, h')) :
    CInv A h.live ⟨c, h', [], St.OK⟩ := by
  unfold newConn at e
  cases e1 : hAlloc A h CONN_SIZE with
  | mk o h1 =>
  rw [e1] at e
  cases o with
  | none => cases e
  | some self =>
  dsimp only at e
  have nm : ∀ h : Heap, (hFree h self).map (fun h => ((none : Option CMem), h)) ≠ some (some c, h') := fun h he => by
    cases hh : hFree h self <;> rw [hh] at he <;> cases he
  cases clock with
  | false => exact absurd e (nm _)
  | true =>
  rw [if_neg (by simp)] at e
  cases e2 : hAlloc A h1 65536 with
  | mk o h2 =>
  rw [e2] at e
  cases o with
  | none => exact absurd e (nm _)
  | some out =>
  dsimp only at e
  cases e3 : hAlloc A h2 SOCK_BUF with
  | mk o h3 =>
  rw [e3] at e
  cases o with
  | none => exact absurd e (nm _)
  | some sock =>
  cases e
  obtain ⟨w1, l1, k1⟩ := (World.start (A := A) ok).block e1
  obtain ⟨w2, l2, k2⟩ := w1.block e2
  obtain ⟨w3, l3, k3⟩ := w2.block e3
  have w4 := w3.init 512 (by decide)
  refine ⟨w4.perm ?_ (.refl _), by simp, fun i es hes x hx => ?_, by simp [entries], (fun g hg => nomatch hg), (show 65536 < 2 ^ 31 by decide), fun _ => k3 _ l2, l3⟩
  · unfold rawOf
    have : entries ({ self := self, out := out, outLen := 65536, sockBuf := sock, frameMax := 65536, table := List.replicate TABLE [], props := initPool 512 } : CMem) = [] := by
      simp [entries]
    rw [this]
    refine (List.Perm.swap _ _ _).trans ?_
    refine List.Perm.trans (.cons _ (List.Perm.swap _ _ _)) ?_
    exact List.Perm.swap _ _ _
  · have hes : (List.replicate TABLE ([] : List Entry))[i]? = some es := hes
    have := List.mem_of_getElem? hes
    rw [List.mem_replicate] at this
    rw [this.2] at hx
    cases hx

theorem new_shape {clock : Bool} {h h' : Heap} {c : CMem} (e : newConn A clock h = some (some c, h')) :
    c.outLen = 65536 ∧ c.table = List.replicate TABLE [] := by
  unfold newConn at e
  have nm : ∀ (h : Heap) (b : Nat), (hFree h b).map (fun h => ((none : Option CMem), h)) ≠ some (some c, h') := fun h b he => by
    cases hh : hFree h b <;> rw [hh] at he <;> cases he
  repeat' split at e
  all_goals first
    | (cases e; done)
    | (cases e; exact ⟨rfl, rfl⟩)
    | exact absurd e (nm _ _)

theorem destroyChain_world (raw : List Nat) (gf : Entry → List Grant) : ∀ (es : List Entry) (ts : List (Pool × List Grant)) (h : Heap),
    World A app (es.map (·.node) ++ raw) (es.map (fun e => (e.pool, gf e)) ++ ts) h → ∃ h', destroyChain h es = some h' ∧ World A app raw ts h' := by
  intro es
  induction es with
  | nil => intro ts h w; exact ⟨h, rfl, w⟩
  | cons e es ih =>
    intro ts h w
    obtain ⟨p, h1, e1, w1⟩ := World.empty (p := e.pool) (gs := gf e) w
    obtain ⟨h2, e2, w2, _⟩ := World.free (b := e.node) w1
    obtain ⟨h3, e3, w3⟩ := ih ts h2 w2
    refine ⟨h3, ?_, w3⟩
    unfold destroyChain
    rw [e1]
    show (hFree h1 e.node).bind _ = _
    rw [e2]
    exact e3

theorem destroyTable_world (raw : List Nat) (gf : Entry → List Grant) : ∀ (t : List (List Entry)) (ts : List (Pool × List Grant)) (h : Heap),
    World A app (t.flatten.map (·.node) ++ raw) (t.flatten.map (fun e => (e.pool, gf e)) ++ ts) h → ∃ h', destroyTable h t = some h' ∧ World A app raw ts h' := by
  intro t
  induction t with
  | nil => intro ts h w; exact ⟨h, rfl, w⟩
  | cons es t ih =>
    intro ts h w
    rw [List.flatten_cons, List.map_append, List.map_append, List.append_assoc, List.append_assoc] at w
    obtain ⟨h1, e1, w1⟩ := destroyChain_world _ gf es _ h w
    obtain ⟨h2, e2, w2⟩ := ih ts h1 w1
    refine ⟨h2, ?_, w2⟩
    unfold destroyTable
    rw [e1]
    exact e2

theorem CInv.destroy (ci : CInv A app r) : ∃ h', destroyConn r.conn r.heap = some h' ∧ World A app [] [] h' := by
  have w := ci.w.perm (raw' := (entries r.conn).map (·.node) ++ [r.conn.out, r.conn.sockBuf, r.conn.self])
    (ts' := (entries r.conn).map (fun e => (e.pool, gsOf r.grants (some e.channel))) ++ [(r.conn.props, gsOf r.grants none)])
    (by
      unfold rawOf
      refine List.Perm.trans ?_ List.perm_append_comm
      show List.Perm _ (r.conn.out :: r.conn.sockBuf :: r.conn.self :: _)
      refine (List.Perm.swap _ _ _).trans (.cons _ ?_)
      exact List.Perm.swap _ _ _)
    (by
      unfold tsOf
      exact (List.perm_append_comm (l₁ := [(r.conn.props, gsOf r.grants none)])))
  obtain ⟨h1, e1, w1⟩ := destroyTable_world _ _ r.conn.table _ r.heap w
  obtain ⟨h2, e2, w2, _⟩ := w1.free
  obtain ⟨h3, e3, w3, _⟩ := w2.free
  obtain ⟨p, h4, e4, w4⟩ := w3.empty
  obtain ⟨h5, e5, w5, _⟩ := w4.free
  refine ⟨h5, ?_, w5⟩
  unfold destroyConn
  rw [e1]
  show (hFree h1 _).bind _ = _
  rw [e2]
  show (hFree h2 _).bind _ = _
  rw [e3]
  show (emptyPool _ h3).bind _ = _
  rw [e4]
  exact e5

theorem pairwise_by_key {α β : Type} [DecidableEq β] (key : α → β) (R : α → α → Prop) : ∀ (l : List α),
    (∀ k, (l.filter fun a => key a = k).Pairwise R) → (∀ a ∈ l, ∀ b ∈ l, key a ≠ key b → R a b) → l.Pairwise R := by
  intro l
  induction l with
  | nil => intro _ _; exact .nil
  | cons x l ih =>
    intro h1 h2
    refine List.pairwise_cons.2 ⟨fun y hy => ?_, ih (fun k => ?_) (fun a ha b hb => h2 a (List.mem_cons_of_mem _ ha) b (List.mem_cons_of_mem _ hb))⟩
    · by_cases hk : key x = key y
      · have := h1 (key x)
        rw [List.filter_cons, if_pos (by simp)] at this
        exact (List.pairwise_cons.1 this).1 y (List.mem_filter.2 ⟨hy, by simp [hk]⟩)
      · exact h2 x List.mem_cons_self y (List.mem_cons_of_mem _ hy) hk
    · have := h1 k
      rw [List.filter_cons] at this
      split at this
      · exact (List.pairwise_cons.1 this).2
      · exact this

theorem CInv.grant (ci : CInv A app r) {g : Owner × Grant} (hg : g ∈ r.grants) :
    ∃ p, (p, gsOf r.grants g.1) ∈ tsOf r.conn r.grants ∧ g.2 ∈ gsOf r.grants g.1 ∧
      (g.1 = none ∧ p = r.conn.props ∨ ∃ e ∈ entries r.conn, g.1 = some e.channel ∧ p = e.pool) := by
  have hm : g.2 ∈ gsOf r.grants g.1 := List.mem_map.2 ⟨g, List.mem_filter.2 ⟨hg, by simp⟩, rfl⟩
  cases ho : g.1 with
  | none => exact ⟨r.conn.props, List.mem_cons_self, by rw [← ho]; exact hm, .inl ⟨rfl, rfl⟩⟩
  | some ch =>
    obtain ⟨e, he, hec⟩ := ci.own g hg ch ho
    exact ⟨e.pool, List.mem_cons_of_mem _ (List.mem_map.2 ⟨e, he, by rw [hec]⟩), by rw [← ho]; exact hm, .inr ⟨e, he, by rw [hec], rfl⟩⟩

theorem CInv.owners_apart (ci : CInv A app r) {g g' : Owner × Grant} (hg : g ∈ r.grants) (hg' : g' ∈ r.grants) (hne : g.1 ≠ g'.1) :
    g.2.block ≠ g'.2.block := by
  intro he
  have hm : g.2 ∈ gsOf r.grants g.1 := List.mem_map.2 ⟨g, List.mem_filter.2 ⟨hg, by simp⟩, rfl⟩
  have hm' : g'.2 ∈ gsOf r.grants g'.1 := List.mem_map.2 ⟨g', List.mem_filter.2 ⟨hg', by simp⟩, rfl⟩
  have dis := ci.w.disj
  unfold tsOf at dis
  obtain ⟨d1, d2⟩ := List.pairwise_cons.1 dis
  have tt : ∀ {p : Pool} {o : Owner} {x : Owner × Grant}, x.2 ∈ gsOf r.grants o → Touch p (gsOf r.grants o) x.2.block := fun h => .inr (.inr ⟨_, h, rfl⟩)
  cases ho : g.1 with
  | none =>
    cases ho' : g'.1 with
    | none => exact hne (by rw [ho, ho'])
    | some ch' =>
      obtain ⟨e, h1, h2⟩ := ci.own g' hg' ch' ho'
      refine d1 _ (List.mem_map.2 ⟨e, h1, rfl⟩) g.2.block (tt (by rw [← ho]; exact hm)) ?_
      rw [he]
      exact tt (by rw [h2, ← ho']; exact hm')
  | some ch =>
    obtain ⟨e, h1, h2⟩ := ci.own g hg ch ho
    cases ho' : g'.1 with
    | none =>
      refine d1 _ (List.mem_map.2 ⟨e, h1, rfl⟩) g'.2.block (tt (by rw [← ho']; exact hm')) ?_
      rw [← he]
      exact tt (by rw [h2, ← ho]; exact hm)
    | some ch' =>
      obtain ⟨e', h1', h2'⟩ := ci.own g' hg' ch' ho'
      have hee : e ≠ e' := by
        rintro rfl
        exact hne (by rw [ho, ho', ← h2, ← h2'])
      rw [List.pairwise_map] at d2
      have p1 : (entries r.conn).Pairwise fun a b : Entry => a ≠ b → ∀ x, Touch a.pool (gsOf r.grants (some a.channel)) x → ¬ Touch b.pool (gsOf r.grants (some b.channel)) x :=
        d2.imp (S := fun a b : Entry => a ≠ b → ∀ x, Touch a.pool (gsOf r.grants (some a.channel)) x → ¬ Touch b.pool (gsOf r.grants (some b.channel)) x) (fun h _ => h)
      have p2 : (entries r.conn).Pairwise (flip fun a b : Entry => a ≠ b → ∀ x, Touch a.pool (gsOf r.grants (some a.channel)) x → ¬ Touch b.pool (gsOf r.grants (some b.channel)) x) :=
        d2.imp fun h _ x h1 h2 => h x h2 h1
      have d3 := List.Pairwise.forall_of_forall_of_flip (fun x _ h => absurd rfl h) p1 p2
      refine d3 h1 h1' hee g.2.block (tt (by rw [h2, ← ho]; exact hm)) ?_
      rw [he]
      exact tt (by rw [h2', ← ho']; exact hm')

end Rmq.PoolM
