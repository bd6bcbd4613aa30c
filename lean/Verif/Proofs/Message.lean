import Verif.Proofs.MessageFits
import Verif.Proofs.ConnMem
/-!
# The memory of messages: proofs
-/
namespace Rmq.PoolM

variable {A : Nat → Bool} {app : List (Nat × Nat)} {raw raw1 raw2 : List Nat} {ts ts1 ts2 : List (Pool × List Grant)} {h h' : Heap} {r r' : ConnRun}

/-- A part of the world can be looked at alone; the rest is foreign to it, and still there afterwards. -/
theorem World.focus (w : World A app (raw1 ++ raw2) (ts1 ++ ts2) h) :
    ∃ oth, World A (app ++ oth) raw1 ts1 h ∧
      (∀ x ∈ h.live, (x.1 ∈ raw2 ∨ ∃ t ∈ ts2, Touch t.1 t.2 x.1) → x ∈ oth) ∧
      ∀ raw1' ts1' h', World A (app ++ oth) raw1' ts1' h' → World A app (raw1' ++ raw2) (ts1' ++ ts2) h' := by
  classical
  let oth := h.live.filter fun x => decide (x.1 ∈ raw2 ∨ ∃ t ∈ ts2, Touch t.1 t.2 x.1)
  have mo : ∀ x, x ∈ oth ↔ x ∈ h.live ∧ (x.1 ∈ raw2 ∨ ∃ t ∈ ts2, Touch t.1 t.2 x.1) := fun x => by
    show x ∈ List.filter _ _ ↔ _
    rw [List.mem_filter, decide_eq_true_eq]
  have dis := List.pairwise_append.1 w.disj
  have nd := List.nodup_append.1 w.nodup
  refine ⟨oth, ?_, fun x hx hh => (mo x).2 ⟨hx, hh⟩, fun raw1' ts1' h' w' => ?_⟩
  · exact {
      ok := w.ok
      pools := fun t ht => w.pools t (List.mem_append_left _ ht)
      disj := dis.1
      nodup := nd.1
      rawOk := fun b hb => ⟨(w.rawOk b (List.mem_append_left _ hb)).1, fun t ht => (w.rawOk b (List.mem_append_left _ hb)).2 t (List.mem_append_left _ ht)⟩
      appOk := fun x hx => by
        rcases List.mem_append.1 hx with hx | hx
        · obtain ⟨h1, h2, h3⟩ := w.appOk x hx
          exact ⟨h1, fun hm => h2 (List.mem_append_left _ hm), fun t ht => h3 t (List.mem_append_left _ ht)⟩
        · obtain ⟨h1, h2⟩ := (mo x).1 hx
          refine ⟨h1, fun hm => ?_, fun t ht hto => ?_⟩
          · rcases h2 with h2 | ⟨t, ht, h2⟩
            · exact nd.2.2 _ hm _ h2 rfl
            · exact (w.rawOk _ (List.mem_append_left _ hm)).2 t (List.mem_append_right _ ht) h2
          · rcases h2 with h2 | ⟨t', ht', h2⟩
            · exact (w.rawOk _ (List.mem_append_right _ h2)).2 t (List.mem_append_left _ ht) hto
            · exact dis.2.2 t ht t' ht' _ hto h2
      noleak := fun hA b hb => by
        obtain ⟨n, hn⟩ := ids_live hb
        have toOth : (b ∈ raw2 ∨ ∃ t ∈ ts2, Touch t.1 t.2 b) → b ∈ (app ++ oth).map (·.1) := fun hh =>
          List.mem_map.2 ⟨(b, n), List.mem_append_right _ ((mo _).2 ⟨hn, hh⟩), rfl⟩
        rcases w.noleak hA b hb with h1 | h1 | ⟨t, h1, h2⟩
        · exact .inl (by rw [List.map_append]; exact List.mem_append_left _ h1)
        · rcases List.mem_append.1 h1 with h1 | h1
          · exact .inr (.inl h1)
          · exact .inl (toOth (.inl h1))
        · rcases List.mem_append.1 h1 with h1 | h1
          · exact .inr (.inr ⟨t, h1, h2⟩)
          · exact .inl (toOth (.inr ⟨t, h1, .inl h2⟩)) }
  · have live2 : ∀ x ∈ oth, x ∈ h'.live := fun x hx => (w'.appOk x (List.mem_append_right _ hx)).1
    have t2 : ∀ t ∈ ts2, ∀ b, Touch t.1 t.2 b → ∃ n, (b, n) ∈ oth := fun t ht b hb => by
      obtain ⟨n, hn⟩ := ids_live ((w.pools t (List.mem_append_right _ ht)).1.touch_live hb)
      exact ⟨n, (mo _).2 ⟨hn, .inr ⟨t, ht, hb⟩⟩⟩
    have r2 : ∀ b ∈ raw2, ∃ n, (b, n) ∈ oth := fun b hb => by
      obtain ⟨n, hn⟩ := ids_live (w.rawOk b (List.mem_append_right _ hb)).1
      exact ⟨n, (mo _).2 ⟨hn, .inl hb⟩⟩
    have far : ∀ b n, (b, n) ∈ oth → b ∉ raw1' ∧ ∀ t ∈ ts1', ¬ Touch t.1 t.2 b := fun b n hb =>
      (w'.appOk _ (List.mem_append_right _ hb)).2
    exact {
      ok := w'.ok
      pools := fun t ht => by
        rcases List.mem_append.1 ht with ht | ht
        · exact w'.pools t ht
        · have := w.pools t (List.mem_append_right _ ht)
          exact ⟨this.1.rebase w'.ok (fun x hx htx => live2 x ((mo x).2 ⟨hx, .inr ⟨t, ht, htx⟩⟩)) (fun _ hx => nomatch hx), this.2⟩
      disj := List.pairwise_append.2 ⟨w'.disj, dis.2.1, fun t ht t' ht' b hb hb' => by
        obtain ⟨n, hn⟩ := t2 t' ht' b hb'
        exact (far b n hn).2 t ht hb⟩
      nodup := List.nodup_append.2 ⟨w'.nodup, nd.2.1, fun b hb b' hb' e => by
        obtain ⟨n, hn⟩ := r2 b' hb'
        exact (far b' n hn).1 (e ▸ hb)⟩
      rawOk := fun b hb => by
        rcases List.mem_append.1 hb with hb | hb
        · obtain ⟨h1, h2⟩ := w'.rawOk b hb
          refine ⟨h1, fun t ht => ?_⟩
          rcases List.mem_append.1 ht with ht | ht
          · exact h2 t ht
          · intro hto
            obtain ⟨n, hn⟩ := t2 t ht b hto
            exact (far b n hn).1 hb
        · obtain ⟨n, hn⟩ := r2 b hb
          refine ⟨mem_ids_of (live2 _ hn), fun t ht => ?_⟩
          rcases List.mem_append.1 ht with ht | ht
          · exact (far b n hn).2 t ht
          · exact (w.rawOk b (List.mem_append_right _ hb)).2 t (List.mem_append_right _ ht)
      appOk := fun x hx => by
        obtain ⟨h1, h2, h3⟩ := w'.appOk x (List.mem_append_left _ hx)
        obtain ⟨_, g2, g3⟩ := w.appOk x hx
        refine ⟨h1, fun hm => ?_, fun t ht => ?_⟩
        · rcases List.mem_append.1 hm with hm | hm
          · exact h2 hm
          · exact g2 (List.mem_append_right _ hm)
        · rcases List.mem_append.1 ht with ht | ht
          · exact h3 t ht
          · exact g3 t (List.mem_append_right _ ht)
      noleak := fun hA b hb => by
        rcases w'.noleak hA b hb with h1 | h1 | ⟨t, h1, h2⟩
        · rw [List.map_append] at h1
          rcases List.mem_append.1 h1 with h1 | h1
          · exact .inl h1
          · obtain ⟨x, hx, rfl⟩ := List.mem_map.1 h1
            rcases w.noleak hA x.1 (mem_ids_of (n := x.2) ((mo x).1 hx).1) with h3 | h3 | ⟨t, h3, h4⟩
            · exact .inl h3
            · rcases List.mem_append.1 h3 with h3 | h3
              · exfalso
                rcases ((mo x).1 hx).2 with h5 | ⟨t, ht, h5⟩
                · exact nd.2.2 _ h3 _ h5 rfl
                · exact (w.rawOk _ (List.mem_append_left _ h3)).2 t (List.mem_append_right _ ht) h5
              · exact .inr (.inl (List.mem_append_right _ h3))
            · rcases List.mem_append.1 h3 with h3 | h3
              · exfalso
                rcases ((mo x).1 hx).2 with h5 | ⟨t', ht', h5⟩
                · exact (w.rawOk _ (List.mem_append_right _ h5)).2 t (List.mem_append_left _ h3) (.inl h4)
                · exact dis.2.2 t h3 t' ht' _ (.inl h4) h5
              · exact .inr (.inr ⟨t, List.mem_append_right _ h3, h4⟩)
        · exact .inr (.inl (List.mem_append_left _ h1))
        · exact .inr (.inr ⟨t, List.mem_append_left _ h1, h2⟩) }

/-- If memory was refused, nothing is said about what is lost. -/
theorem World.forget {t : Pool × List Grant} (w : World A app raw (t :: ts) h) (hA : ¬ ∀ n, A n = true) : World A app raw ts h where
  ok := w.ok
  pools := fun t ht => w.pools t (List.mem_cons_of_mem _ ht)
  disj := (List.pairwise_cons.1 w.disj).2
  nodup := w.nodup
  rawOk := fun b hb => ⟨(w.rawOk b hb).1, fun t ht => (w.rawOk b hb).2 t (List.mem_cons_of_mem _ ht)⟩
  appOk := fun x hx => ⟨(w.appOk x hx).1, (w.appOk x hx).2.1, fun t ht => (w.appOk x hx).2.2 t (List.mem_cons_of_mem _ ht)⟩
  noleak := fun h => absurd h hA

/-- A connection, and besides it blocks of known size and pools that belong to somebody else. -/
structure Ctx (A : Nat → Bool) (app : List (Nat × Nat)) (bl : List (Nat × Nat)) (ts : List (Pool × List Grant)) (r : ConnRun) : Prop where
  w : World A app (rawOf r.conn ++ bl.map (·.1)) (tsOf r.conn r.grants ++ ts) r.heap
  sized : ∀ x ∈ bl, x ∈ r.heap.live
  len : r.conn.table.length = TABLE
  slots : ∀ i es, r.conn.table[i]? = some es → ∀ e ∈ es, slot e.channel = i
  keys : ((entries r.conn).map (·.channel)).Nodup
  own : ∀ g ∈ r.grants, ∀ ch, g.1 = some ch → ∃ e ∈ entries r.conn, e.channel = ch
  fm : r.conn.frameMax < 2 ^ 31
  out : r.tuned = St.OK → (r.conn.out, r.conn.outLen) ∈ r.heap.live
  sock : (r.conn.sockBuf, SOCK_BUF) ∈ r.heap.live

variable {bl bl1 bl2 : List (Nat × Nat)}

/-- What the connection does leaves the rest alone. -/
theorem Ctx.theirs (c : Ctx A app bl ts r) (op : ∀ app', CInv A app' r → CInv A app' r') : Ctx A app bl ts r' := by
  obtain ⟨oth, w1, ho, back⟩ := c.w.focus
  have ci := op _ { w := w1, len := c.len, slots := c.slots, keys := c.keys, own := c.own, fm := c.fm, out := c.out, sock := c.sock }
  exact { w := back _ _ _ ci.w, sized := fun x hx => (ci.w.appOk x (List.mem_append_right _ (ho x (c.sized x hx) (.inl (List.mem_map.2 ⟨x, hx, rfl⟩))))).1,
          len := ci.len, slots := ci.slots, keys := ci.keys, own := ci.own, fm := ci.fm, out := ci.out, sock := ci.sock }

theorem Ctx.conn (c : Ctx A app bl ts r) {ops : List ConnOp} (hs : ∀ op ∈ ops, op.sane) :
    ∃ r', connRun A r ops = some r' ∧ Ctx A app bl ts r' := by
  obtain ⟨oth, w1, ho, back⟩ := c.w.focus
  obtain ⟨r', e, ci⟩ := CInv.run (A := A) (app := app ++ oth) ops (r := r)
    { w := w1, len := c.len, slots := c.slots, keys := c.keys, own := c.own, fm := c.fm, out := c.out, sock := c.sock } hs
  exact ⟨r', e, c.theirs fun app' ci' => by
    obtain ⟨r2, e2, c2⟩ := ci'.run ops hs
    rw [e] at e2
    cases e2
    exact c2⟩

/-- What somebody else does with some of the rest leaves the connection and the others alone. -/
theorem Ctx.mine (c : Ctx A app (bl1 ++ bl2) (ts1 ++ ts2) r) {P : Heap → List (Nat × Nat) → List (Pool × List Grant) → Prop}
    (op : ∀ app', World A app' (bl1.map (·.1)) ts1 r.heap → ∃ h' bl1' ts1', P h' bl1' ts1' ∧ World A app' (bl1'.map (·.1)) ts1' h' ∧
      ∀ x ∈ bl1', x ∈ h'.live) :
    ∃ h' bl1' ts1', P h' bl1' ts1' ∧ Ctx A app (bl1' ++ bl2) (ts1' ++ ts2) { r with heap := h' } := by
  have w0 : World A app (bl1.map (·.1) ++ (rawOf r.conn ++ bl2.map (·.1))) (ts1 ++ (tsOf r.conn r.grants ++ ts2)) r.heap := by
    refine c.w.perm ?_ ?_
    · rw [List.map_append]
      exact List.perm_append_comm_assoc ..
    · exact List.perm_append_comm_assoc ..
  obtain ⟨oth, w1, ho, back⟩ := w0.focus
  obtain ⟨h', bl1', ts1', hp, w2, sz⟩ := op _ w1
  have w3 := back _ _ _ w2
  have keep : ∀ x ∈ r.heap.live, x.1 ∈ rawOf r.conn ++ bl2.map (·.1) → x ∈ h'.live := fun x hx hm =>
    (w2.appOk x (List.mem_append_right _ (ho x hx (.inl hm)))).1
  exact ⟨h', bl1', ts1', hp, {
    w := by
      refine w3.perm ?_ ?_
      · rw [List.map_append]
        exact List.perm_append_comm_assoc ..
      · exact List.perm_append_comm_assoc ..
    sized := fun x hx => by
      rcases List.mem_append.1 hx with hx | hx
      · exact sz x hx
      · exact keep x (c.sized x (List.mem_append_right _ hx)) (List.mem_append_right _ (List.mem_map.2 ⟨x, hx, rfl⟩))
    len := c.len, slots := c.slots, keys := c.keys, own := c.own, fm := c.fm
    out := fun ht => keep _ (c.out ht) (List.mem_append_left _ mem_raw_out)
    sock := keep _ c.sock (List.mem_append_left _ mem_raw_sock) }⟩

/-- The memory of amqp_put_back_frame. -/
theorem CInv.linkCreate (ci : CInv A app r) (ch : UInt16) :
    CInv A app { r with conn := (getOrCreate A ch r.conn r.heap).2.1, heap := (getOrCreate A ch r.conn r.heap).2.2 } := by
  unfold getOrCreate
  cases hf : findEntry ch (r.conn.table.getD (slot ch) []) with
  | some e => exact ci
  | none =>
    dsimp only
    cases ha : hAlloc A r.heap ENTRY_SIZE with
    | mk o h =>
      cases o with
      | none =>
        obtain ⟨l, m, _⟩ := hAlloc_none ha
        exact { ci with w := ci.w.heap l m, out := fun ht => by rw [l]; exact ci.out ht, sock := by rw [l]; exact ci.sock }
      | some b => exact (ci.create hf ha).1

theorem Ctx.putBack (c : Ctx A app bl ts r) (ch : UInt16) : ∃ r', putBackMem A ch r = some r' ∧ Ctx A app bl ts r' := by
  have c1 := c.theirs (r' := { r with conn := (getOrCreate A ch r.conn r.heap).2.1, heap := (getOrCreate A ch r.conn r.heap).2.2 })
    fun app' ci => ci.linkCreate ch
  unfold putBackMem
  cases hg : getOrCreate A ch r.conn r.heap with
  | mk o x =>
    obtain ⟨c', h'⟩ := x
    rw [hg] at c1
    cases o with
    | none => exact ⟨_, rfl, c1⟩
    | some p =>
      obtain ⟨r', e, c2⟩ := c1.conn (ops := [.store ch LINK_SIZE, .store ch FRAME_SIZE]) (by
        intro op ho
        rcases List.mem_cons.1 ho with rfl | ho
        · exact (by decide : LINK_SIZE ≤ 2 ^ 64 - 8)
        · rcases List.mem_cons.1 ho with rfl | ho
          · exact (by decide : FRAME_SIZE ≤ 2 ^ 64 - 8)
          · cases ho)
      exact ⟨r', e, c2⟩

/-! ## Copying the properties -/

/-- What copying something does: it takes what is needed from the pool, or fails. -/
def Grabs (A : Nat → Bool) (need : List Nat) (m : M Copying Unit) : Prop :=
  ∀ app raw ts p h gs, World A app raw ((p, gs) :: ts) h →
    ∃ p' h' gs', (m (p, h, gs) = .ok () (p', h', gs') ∧ gs'.map (·.amount) = need.reverse ++ gs.map (·.amount) ∨ ∃ e, m (p, h, gs) = .err e (p', h', gs')) ∧
      World A app raw ((p', gs') :: ts) h'

theorem Grabs.pure : Grabs A [] (pure ()) := fun _ _ _ p h gs w => ⟨p, h, gs, .inl ⟨rfl, rfl⟩, w⟩

theorem Grabs.fail {need : List Nat} {e : Int} : Grabs A need (M.fail e) := fun _ _ _ p h gs w => ⟨p, h, gs, .inr ⟨e, rfl⟩, w⟩

theorem Grabs.bind {n1 n2 : List Nat} {m1 m2 : M Copying Unit} (h1 : Grabs A n1 m1) (h2 : Grabs A n2 m2) : Grabs A (n1 ++ n2) (do m1; m2) := by
  intro app raw ts p h gs w
  obtain ⟨p1, hh1, gs1, ho, w1⟩ := h1 app raw ts p h gs w
  rcases ho with ⟨e1, a1⟩ | ⟨e, e1⟩
  · obtain ⟨p2, hh2, gs2, ho2, w2⟩ := h2 app raw ts p1 hh1 gs1 w1
    refine ⟨p2, hh2, gs2, ?_, w2⟩
    rcases ho2 with ⟨e2, a2⟩ | ⟨e, e2⟩
    · refine .inl ⟨?_, by rw [a2, a1, List.reverse_append, List.append_assoc]⟩
      show (m1 >>= fun _ => m2) _ = _
      rw [M.bind_def, e1]; exact e2
    · refine .inr ⟨e, ?_⟩
      show (m1 >>= fun _ => m2) _ = _
      rw [M.bind_def, e1]; exact e2
  · refine ⟨p1, hh1, gs1, .inr ⟨e, ?_⟩, w1⟩
    show (m1 >>= fun _ => m2) _ = _
    rw [M.bind_def, e1]

theorem grab_grabs {n : Nat} (hn : n ≤ 2 ^ 64 - 8) : Grabs A [n] (grab A n) := by
  intro app raw ts p h gs w
  obtain ⟨x, p', h', e, _, w', _⟩ := w.alloc hn
  unfold grab
  dsimp only
  rw [e]
  cases x with
  | none => exact ⟨p', h', gs, .inr ⟨_, rfl⟩, w'⟩
  | some y => exact ⟨p', h', _, .inl ⟨rfl, rfl⟩, w'⟩

theorem grabBytes_grabs {b : Bytes} (hb : b.length < 2 ^ 32) : Grabs A ([b.length].filter (0 < ·)) (grabBytes A b) := by
  unfold grabBytes
  by_cases h0 : b.length = 0
  · rw [if_pos h0, h0]; exact .pure
  · rw [if_neg h0]
    have : [b.length].filter (fun x => decide (0 < x)) = [b.length] := by simp; omega
    rw [this]
    exact grab_grabs (by omega)

theorem filter_pos {n k : Nat} (hn : n ≠ 0) (hk : 0 < k) : [n * k].filter (fun x => decide (0 < x)) = [n * k] := by
  have := Nat.mul_pos (Nat.pos_of_ne_zero hn) hk
  simp; omega

mutual
theorem grabFV_grabs : ∀ v : FV, fitsFV v → Grabs A (needFV v) (grabFV A v)
  | .utf8 b, hf => grabBytes_grabs hf
  | .bytes b, hf => grabBytes_grabs hf
  | .array vs, hf => by
    have hf' : vs.length < 2 ^ 32 ∧ fitsL vs := hf
    show Grabs A ([vs.length * SIZEOF_FV].filter (0 < ·) ++ needFVs vs) (if vs.length = 0 then Pure.pure () else do grab A (vs.length * SIZEOF_FV); grabFVs A vs)
    by_cases h0 : vs.length = 0
    · rw [if_pos h0, List.length_eq_zero_iff.1 h0]; exact .pure
    · rw [if_neg h0, filter_pos h0 (by decide)]
      have : SIZEOF_FV = 24 := rfl
      exact (grab_grabs (by rw [this]; omega)).bind (grabFVs_grabs vs hf'.2)
  | .table es, hf => by
    have hf' : es.length < 2 ^ 32 ∧ fitsE es := hf
    show Grabs A ([es.length * SIZEOF_ENTRY].filter (0 < ·) ++ needEntries es) (if es.length = 0 then Pure.pure () else do grab A (es.length * SIZEOF_ENTRY); grabEntries A es)
    by_cases h0 : es.length = 0
    · rw [if_pos h0, List.length_eq_zero_iff.1 h0]; exact .pure
    · rw [if_neg h0, filter_pos h0 (by decide)]
      have : SIZEOF_ENTRY = 40 := rfl
      exact (grab_grabs (by rw [this]; omega)).bind (grabEntries_grabs es hf'.2)
  | .other _, _ => .fail
  | .boolean _, _ | .i8 _, _ | .u8 _, _ | .i16 _, _ | .u16 _, _ | .i32 _, _ | .u32 _, _ | .i64 _, _ | .u64 _, _ | .f32 _, _ | .f64 _, _
  | .decimal _ _, _ | .timestamp _, _ | .void, _ => .pure
theorem grabFVs_grabs : ∀ vs : List FV, fitsL vs → Grabs A (needFVs vs) (grabFVs A vs)
  | [], _ => .pure
  | v :: vs, hf => (grabFV_grabs v (show _ ∧ _ from hf).1).bind (grabFVs_grabs vs (show _ ∧ _ from hf).2)
theorem grabEntry_grabs : ∀ e : Rmq.Entry, fits1 e → Grabs A (needEntry e) (grabEntry A e)
  | .mk k v, hf => by
    have hf' : k.length < 2 ^ 32 ∧ fitsFV v := hf
    show Grabs A ([k.length] ++ needFV v) (if k.length = 0 then M.fail St.INVALID_PARAMETER else do grab A k.length; grabFV A v)
    by_cases h0 : k.length = 0
    · rw [if_pos h0]; exact .fail
    · rw [if_neg h0]
      exact (grab_grabs (by omega)).bind (grabFV_grabs v hf'.2)
theorem grabEntries_grabs : ∀ es : List Rmq.Entry, fitsE es → Grabs A (needEntries es) (grabEntries A es)
  | [], _ => .pure
  | e :: es, hf => (grabEntry_grabs e (show _ ∧ _ from hf).1).bind (grabEntries_grabs es (show _ ∧ _ from hf).2)
end

theorem grabProps_grabs {flags : UInt32} {props : Rec} : ∀ (ps : List (Nat × Fld)),
    (∀ x ∈ ps, flags &&& UInt32.ofNat (1 <<< x.1) ≠ 0 → ∃ v, props.get? x.2 = some v ∧ fitsVal v) →
    Grabs A (ps.flatMap fun x => if flags &&& UInt32.ofNat (1 <<< x.1) ≠ 0 then
      match props.get? x.2 with
      | some (.bytes b) => needFV (.bytes b)
      | some (.table t) => needFV (.table t)
      | _ => []
    else []) (grabProps A flags props ps) := by
  intro ps
  induction ps with
  | nil => intro _; exact .pure
  | cons x ps ih =>
    intro hf
    obtain ⟨bit, f⟩ := x
    have ih' := ih (fun x hx => hf x (List.mem_cons_of_mem _ hx))
    rw [List.flatMap_cons]
    unfold grabProps
    by_cases hb : flags &&& UInt32.ofNat (1 <<< bit) ≠ 0
    · rw [if_pos hb, if_pos hb]
      obtain ⟨v, hv, hfv⟩ := hf (bit, f) List.mem_cons_self hb
      dsimp only at hv ⊢
      rw [hv]
      dsimp only
      cases v with
      | bytes b => exact Grabs.bind (m1 := grabProp A (.bytes b)) (grabFV_grabs (.bytes b) hfv) ih'
      | table t => exact Grabs.bind (m1 := grabProp A (.table t)) (grabFV_grabs (.table t) hfv) ih'
      | u8 _ | u16 _ | u32 _ | u64 _ | bool _ => exact Grabs.bind (m1 := Pure.pure ()) .pure ih'
    · rw [if_neg hb, if_neg hb]
      exact ih'

/-! ## Reading -/

/-- The blocks of a buffer. -/
def Buf.blocks (b : Buf) : List (Nat × Nat) := b.ptr.toList.map fun p => (p, b.len)

theorem size?_of_mem (ok : h.OK) {b n : Nat} (hm : (b, n) ∈ h.live) : h.size? b = some n := by
  unfold Heap.size?
  cases hf : h.live.find? (fun x => decide (x.1 = b)) with
  | none =>
    have := List.find?_eq_none.1 hf _ hm
    simp at this
  | some y =>
    have h1 := List.mem_of_find?_eq_some hf
    have h2 : y.1 = b := by simpa using List.find?_some hf
    rw [heap_unique _ ok.nodup h1 hm h2]
    rfl

theorem Ctx.malloc (c : Ctx A app bl ts r) (n : Nat) :
    ∃ b h', bytesMalloc A r.heap n = (b, h') ∧ b.len = n ∧ Ctx A app (b.blocks ++ bl) ts { r with heap := h' } ∧ (b.ptr = none → ¬ ∀ k, A k = true) := by
  obtain ⟨h', bl1, ts1, ⟨b, e, hb, rfl, rfl, hn⟩, c'⟩ := Ctx.mine (bl1 := []) (bl2 := bl) (ts1 := []) (ts2 := ts) (r := r) c
    (P := fun h' bl1 ts1 => ∃ b, bytesMalloc A r.heap n = (b, h') ∧ b.len = n ∧ bl1 = b.blocks ∧ ts1 = [] ∧ (b.ptr = none → ¬ ∀ k, A k = true))
    (fun app' w => by
      unfold bytesMalloc
      cases ha : hAlloc A r.heap n with
      | mk o h1 =>
        cases o with
        | none =>
          obtain ⟨l, m, _⟩ := hAlloc_none ha
          refine ⟨h1, [], [], ⟨⟨none, n⟩, rfl, rfl, rfl, rfl, fun _ hA => ?_⟩, w.heap l m, fun x hx => nomatch hx⟩
          unfold hAlloc at ha
          rw [if_pos (hA _)] at ha
          cases ha
        | some b =>
          obtain ⟨w', hl, _⟩ := w.block ha
          exact ⟨h1, [(b, n)], [], ⟨⟨some b, n⟩, rfl, rfl, rfl, rfl, fun h => nomatch h⟩, w', fun x hx => by
            rcases List.mem_cons.1 hx with rfl | hx
            · exact hl
            · cases hx⟩)
  exact ⟨b, h', e, hb, c', hn⟩

theorem Ctx.free {b : Buf} (c : Ctx A app (b.blocks ++ bl) ts r) : ∃ h', bytesFree r.heap b = some h' ∧ Ctx A app bl ts { r with heap := h' } := by
  obtain ⟨h', bl1, ts1, ⟨e, rfl, rfl⟩, c'⟩ := Ctx.mine (bl1 := b.blocks) (bl2 := bl) (ts1 := []) (ts2 := ts) (r := r) c
    (P := fun h' bl1 ts1 => bytesFree r.heap b = some h' ∧ bl1 = [] ∧ ts1 = [])
    (fun app' w => by
      obtain ⟨p, n⟩ := b
      cases p with
      | none => exact ⟨r.heap, [], [], ⟨rfl, rfl, rfl⟩, w, fun x hx => nomatch hx⟩
      | some p =>
        obtain ⟨h', e, w', _⟩ := World.free (b := p) (raw := []) w
        exact ⟨h', [], [], ⟨e, rfl, rfl⟩, w', fun x hx => nomatch hx⟩)
  exact ⟨h', e, c'⟩

theorem Ctx.empty {p : Pool} {gs : List Grant} (c : Ctx A app bl ((p, gs) :: ts) r) :
    ∃ p' h', emptyPool p r.heap = some (p', h') ∧ Ctx A app bl ts { r with heap := h' } := by
  obtain ⟨h', bl1, ts1, ⟨p', e, rfl, rfl⟩, c'⟩ := Ctx.mine (bl1 := []) (bl2 := bl) (ts1 := [(p, gs)]) (ts2 := ts) (r := r) c
    (P := fun h' bl1 ts1 => ∃ p', emptyPool p r.heap = some (p', h') ∧ bl1 = [] ∧ ts1 = [])
    (fun app' w => by
      obtain ⟨p', h', e, w'⟩ := w.empty
      exact ⟨h', [], [], ⟨p', e, rfl, rfl⟩, w', fun x hx => nomatch hx⟩)
  exact ⟨p', h', e, c'⟩

theorem Ctx.forget {t : Pool × List Grant} (c : Ctx A app bl (t :: ts) r) (hA : ¬ ∀ n, A n = true) : Ctx A app bl ts r := by
  obtain ⟨h', bl1, ts1, ⟨rfl, rfl, rfl⟩, c'⟩ := Ctx.mine (bl1 := []) (bl2 := bl) (ts1 := [t]) (ts2 := ts) (r := r) c
    (P := fun h' bl1 ts1 => h' = r.heap ∧ bl1 = [] ∧ ts1 = [])
    (fun app' w => ⟨r.heap, [], [], ⟨rfl, rfl, rfl⟩, w.forget hA, fun x hx => nomatch hx⟩)
  exact c'

theorem Ctx.grabs (c : Ctx A app bl ts r) {need : List Nat} {m : M Copying Unit} (g : Grabs A need m) :
    ∃ p h' gs, (m (initPool 4096, r.heap, []) = .ok () (p, h', gs) ∧ gs.map (·.amount) = need.reverse ∨ ∃ e, m (initPool 4096, r.heap, []) = .err e (p, h', gs)) ∧
      Ctx A app bl ((p, gs) :: ts) { r with heap := h' } := by
  obtain ⟨h', bl1, ts1, ⟨p, gs, ho, rfl, rfl⟩, c'⟩ := Ctx.mine (bl1 := []) (bl2 := bl) (ts1 := []) (ts2 := ts) (r := r) c
    (P := fun h' bl1 ts1 => ∃ p gs, (m (initPool 4096, r.heap, []) = .ok () (p, h', gs) ∧ gs.map (·.amount) = need.reverse ∨
      ∃ e, m (initPool 4096, r.heap, []) = .err e (p, h', gs)) ∧ bl1 = [] ∧ ts1 = [(p, gs)])
    (fun app' w => by
      obtain ⟨p', h', gs', ho, w'⟩ := g _ _ _ _ _ _ (w.init 4096 (by decide))
      refine ⟨h', [], _, ⟨p', gs', ?_, rfl, rfl⟩, w', fun x hx => nomatch hx⟩
      rcases ho with ⟨e, a⟩ | ⟨e, e'⟩
      · exact .inl ⟨e, by rw [a]; simp⟩
      · exact .inr ⟨e, e'⟩)
  exact ⟨p, h', gs, ho, c'⟩

theorem readBody_spec {body : Buf} (hb : body.ptr = none → body.len = 0) : ∀ (s : Script) (got : Nat) {r : ConnRun}, s.fits → Ctx A app (body.blocks ++ bl) ts r →
    ∃ ret r', readBodyMem A body s got r = some (ret, r') ∧ Ctx A app (body.blocks ++ bl) ts r' ∧ (ret = .normal → s.carries (body.len - got)) := by
  intro s
  induction s with
  | fails ops st =>
    intro got r hs c
    unfold readBodyMem
    by_cases hg : got < body.len
    · rw [if_pos hg]
      obtain ⟨r', e, c'⟩ := c.conn (ops := ops) hs
      rw [e]
      exact ⟨_, _, rfl, c', fun h => nomatch h⟩
    · rw [if_neg hg]; exact ⟨_, _, rfl, c, fun _ => show _ = 0 by omega⟩
  | frame ops f rest ih =>
    intro got r hs c
    unfold readBodyMem
    by_cases hg : got < body.len
    · rw [if_pos hg]
      obtain ⟨r', e, c'⟩ := c.conn (ops := ops) hs.1
      rw [e]
      show ∃ ret r'', (match f.payload with
        | .body b =>
          if got + b.length > body.len then some (Ret.library St.BAD_AMQP_DATA, r')
          else if mayCopy r'.heap body got b.length then readBodyMem A body rest (got + b.length) r' else none
        | .method id _ => some (if isClose id then .server else .library St.BAD_AMQP_DATA, r')
        | _ => some (.library St.BAD_AMQP_DATA, r')) = some (ret, r'') ∧ _
      cases hp : f.payload with
      | body b =>
        dsimp only
        by_cases hl : got + b.length > body.len
        · rw [if_pos hl]; exact ⟨_, _, rfl, c', fun h => nomatch h⟩
        · rw [if_neg hl]
          have may : mayCopy r'.heap body got b.length = true := by
            unfold mayCopy
            cases hq : body.ptr with
            | none => exact absurd (hb hq) (by omega)
            | some p =>
              dsimp only
              have hm : (p, body.len) ∈ r'.heap.live := c'.sized _ (List.mem_append_left _ (by unfold Buf.blocks; rw [hq]; exact List.mem_cons_self))
              rw [size?_of_mem c'.w.ok hm]
              simp; omega
          rw [if_pos may]
          obtain ⟨ret, r2, e2, c2, hn⟩ := ih (got + b.length) hs.2.2 c'
          refine ⟨ret, r2, e2, c2, fun h => .inr ⟨b, hp, by omega, ?_⟩⟩
          rw [show body.len - got - b.length = body.len - (got + b.length) by omega]
          exact hn h
      | method id args =>
        refine ⟨_, _, rfl, c', fun h => ?_⟩
        by_cases hc : isClose id = true
        · rw [if_pos hc] at h; cases h
        · rw [if_neg hc] at h; cases h
      | _ => exact ⟨_, _, rfl, c', fun h => nomatch h⟩
    · rw [if_neg hg]; exact ⟨_, _, rfl, c, fun _ => .inl (by omega)⟩

/-- The outcome of reading a message. -/
def ReadOut (A : Nat → Bool) (app bl : List (Nat × Nat)) (ts : List (Pool × List Grant)) (Good : Msg → Prop) (x : Option (Ret × Msg × ConnRun)) : Prop :=
  ∃ ret m r', x = some (ret, m, r') ∧
    (ret = .normal ∧ Good m ∧ Ctx A app (m.body.blocks ++ bl) ((m.pool, m.ptrs) :: ts) r' ∨ ret ≠ .normal ∧ Ctx A app bl ts r')

theorem dropPool_spec {Good : Msg → Prop} {ret : Ret} (hr : ret ≠ .normal) {m : Msg} (c : Ctx A app bl ((m.pool, m.ptrs) :: ts) r) :
    ReadOut A app bl ts Good (dropPool ret m r) := by
  unfold dropPool
  obtain ⟨p', h', e, c'⟩ := c.empty
  rw [e]
  exact ⟨_, _, _, rfl, .inr ⟨hr, c'⟩⟩

theorem finishBody_spec {Good : Msg → Prop} {m : Msg} (hb : m.body.ptr = none → m.body.len = 0) {rest : Script} (hs : rest.fits)
    (hg : rest.carries m.body.len → Good m)
    (c : Ctx A app (m.body.blocks ++ bl) ((m.pool, m.ptrs) :: ts) r) : ReadOut A app bl ts Good (finishBody A m rest r) := by
  unfold finishBody
  obtain ⟨ret, r', e, c', hn⟩ := readBody_spec hb rest 0 hs c
  rw [e]
  have drop : ∀ ret, ret ≠ Ret.normal → ReadOut A app bl ts Good (dropBody ret m r') := fun ret hr => by
    unfold dropBody
    obtain ⟨h', e, c2⟩ := c'.free
    rw [e]
    exact dropPool_spec hr c2
  cases ret with
  | normal => exact ⟨_, _, _, rfl,  .inl ⟨rfl, hg (hn rfl), c'⟩⟩
  | server => exact drop .server (fun h => nomatch h)
  | library st => exact drop (.library st) (fun h => nomatch h)

theorem readContent_spec {size : Nat} {flags : UInt32} {props : Rec} {rest : Script} (hs : rest.fits)
    (hf : ∀ x ∈ clonedProps, flags &&& UInt32.ofNat (1 <<< x.1) ≠ 0 → ∃ v, props.get? x.2 = some v ∧ fitsVal v) (c : Ctx A app bl ts r) :
    ReadOut A app bl ts (fun m => rest.carries size ∧ m.body.len = size ∧ (m.body.ptr = none ↔ size = 0) ∧ m.ptrs.reverse.map (·.amount) = needProps flags props)
      (readContentMem A size flags props rest r) := by
  unfold readContentMem
  obtain ⟨p, h', gs, ho, c'⟩ := c.grabs (grabProps_grabs (A := A) clonedProps hf)
  rcases ho with ⟨e, a⟩ | ⟨st, e⟩
  · rw [e]
    dsimp only
    have ha : gs.reverse.map (·.amount) = needProps flags props := by
      rw [List.map_reverse, a, List.reverse_reverse]; rfl
    unfold readSizedMem
    by_cases h0 : size = 0
    · rw [if_pos h0]
      exact finishBody_spec (m := ⟨p, gs, ⟨none, 0⟩⟩) (fun _ => rfl) hs (fun hc => ⟨h0 ▸ hc, h0.symm, ⟨fun _ => h0, fun _ => rfl⟩, ha⟩) c'
    · rw [if_neg h0]
      obtain ⟨b, h2, e2, hl, c2, hn⟩ := c'.malloc size
      dsimp only at e2 ⊢
      rw [e2]
      obtain ⟨q, n⟩ := b
      cases q with
      | none => exact ⟨_, _, _, rfl, .inr ⟨(fun h => nomatch h), c2.forget (hn rfl)⟩⟩
      | some q =>
        exact finishBody_spec (m := ⟨p, gs, ⟨some q, n⟩⟩) (fun h => nomatch h) hs (fun hc => ⟨hl ▸ hc, hl, ⟨(fun h => nomatch h), fun h => absurd h h0⟩, ha⟩) c2
  · rw [e]
    exact dropPool_spec (ret := .library st) (m := ⟨p, gs, ⟨none, 0⟩⟩) (fun h => nomatch h) c'

theorem read_spec {s : Script} (hs : s.fits) (c : Ctx A app bl ts r) : ReadOut A app bl ts (fun m => m.announced s) (readMem A s r) := by
  cases s with
  | fails ops st =>
    unfold readMem
    dsimp only
    obtain ⟨r', e, c'⟩ := c.conn (ops := ops) hs
    rw [e]
    exact ⟨_, _, _, rfl, .inr ⟨(fun h => nomatch h), c'⟩⟩
  | frame ops f rest =>
    unfold readMem
    dsimp only
    obtain ⟨r', e, c'⟩ := c.conn (ops := ops) hs.1
    rw [e]
    obtain ⟨r2, e2, c2⟩ := c'.putBack f.channel
    have back : ReadOut A app bl ts (fun m => m.announced (.frame ops f rest)) ((putBackMem A f.channel r').map fun r => (.library St.UNEXPECTED_STATE, .zero, r)) := by
      rw [e2]
      exact ⟨_, _, _, rfl, .inr ⟨(fun h => nomatch h), c2⟩⟩
    have hfit := hs.2.1
    unfold fitsFrame at hfit
    show ReadOut A app bl ts _ (match f.payload with
      | .header _ size flags props => readContentMem A size.toNat flags props rest r'
      | .method id _ =>
        if isClose id then some (.server, .zero, r')
        else (putBackMem A f.channel r').map fun r => (.library St.UNEXPECTED_STATE, .zero, r)
      | _ => (putBackMem A f.channel r').map fun r => (.library St.UNEXPECTED_STATE, .zero, r))
    cases hp : f.payload with
    | header cls size flags props =>
      rw [hp] at hfit
      obtain ⟨ret, m, r3, e3, ho⟩ := readContent_spec (size := size.toNat) hs.2.2 hfit c'
      refine ⟨ret, m, r3, e3, ?_⟩
      rcases ho with ⟨h1, h2, h3⟩ | ho
      · exact .inl ⟨h1, ⟨cls, size, flags, props, hp, h2⟩, h3⟩
      · exact .inr ho
    | method id args =>
      dsimp only
      by_cases hc : isClose id = true
      · rw [if_pos hc]; exact ⟨_, _, _, rfl, .inr ⟨(fun h => nomatch h), c'⟩⟩
      · rw [if_neg hc]; exact back
    | _ => exact back

/-! ## Consuming -/

theorem dupFailed_false {b : Buf} (h : dupFailed b = false) : b.ptr = none → b.len = 0 := by
  intro hp
  unfold dupFailed at h
  rw [hp] at h
  simpa using h

/-- The blocks of an envelope's strings, in the order they are freed. -/
def Envl.strings (e : Envl) (bl : List (Nat × Nat)) : List (Nat × Nat) := e.routingKey.blocks ++ (e.exchange.blocks ++ (e.tag.blocks ++ bl))

theorem Ctx.freeStrings {e : Envl} (c : Ctx A app (e.strings bl) ts r) :
    ∃ h', PoolM.freeStrings e r.heap = some h' ∧ Ctx A app bl ts { r with heap := h' } := by
  unfold PoolM.freeStrings
  obtain ⟨h1, e1, c1⟩ := Ctx.free c
  obtain ⟨h2, e2, c2⟩ := c1.free
  obtain ⟨h3, e3, c3⟩ := c2.free
  rw [e1]
  show ∃ h', ((bytesFree h1 e.exchange).bind fun h => bytesFree h e.tag) = _ ∧ _
  rw [show bytesFree h1 e.exchange = some h2 from e2]
  exact ⟨h3, e3, c3⟩

/-- The outcome of consuming. -/
def ConsumeOut (A : Nat → Bool) (app bl : List (Nat × Nat)) (ts : List (Pool × List Grant)) (Good : Envl → Prop) (x : Option (Ret × Envl × ConnRun)) : Prop :=
  ∃ ret e r', x = some (ret, e, r') ∧
    (ret = .normal ∧ Good e ∧ Ctx A app (e.msg.body.blocks ++ e.strings bl) ((e.msg.pool, e.msg.ptrs) :: ts) r' ∨ ret ≠ .normal ∧ Ctx A app bl ts r')

theorem dropStrings_spec {Good : Envl → Prop} {ret : Ret} (hr : ret ≠ .normal) {e : Envl} (c : Ctx A app (e.strings bl) ts r) :
    ConsumeOut A app bl ts Good (dropStrings ret e r) := by
  unfold dropStrings
  obtain ⟨h', e', c'⟩ := c.freeStrings
  rw [e']
  exact ⟨_, _, _, rfl, .inr ⟨hr, c'⟩⟩

theorem take_spec {args : Rec} {tag ex rk : Bytes} (ht : args.get? .consumer_tag = some (.bytes tag)) (he : args.get? .exchange = some (.bytes ex))
    (hk : args.get? .routing_key = some (.bytes rk)) {rest : Script} (hs : rest.fits) (c : Ctx A app bl ts r) :
    ConsumeOut A app bl ts (fun e => e.tag.holds args .consumer_tag ∧ e.exchange.holds args .exchange ∧ e.routingKey.holds args .routing_key ∧
      e.msg.announced rest) (takeMem A args rest r) := by
  unfold takeMem
  rw [ht, he, hk]
  dsimp only
  obtain ⟨bt, h1, e1, l1, c1, _⟩ := c.malloc tag.length
  obtain ⟨be, h2, e2, l2, c2, _⟩ := c1.malloc ex.length
  obtain ⟨bk, h3, e3, l3, c3, _⟩ := c2.malloc rk.length
  dsimp only at e2 e3
  rw [e1]; dsimp only
  rw [e2]; dsimp only
  rw [e3]; dsimp only
  have drop : ∀ (m : Msg) (ret : Ret) (r' : ConnRun), ret ≠ .normal → Ctx A app (bk.blocks ++ (be.blocks ++ (bt.blocks ++ bl))) ts r' →
      ConsumeOut A app bl ts (fun e => e.tag.holds args .consumer_tag ∧ e.exchange.holds args .exchange ∧ e.routingKey.holds args .routing_key ∧
        e.msg.announced rest) (dropStrings ret ⟨bt, be, bk, m⟩ r') := fun m ret r' hr c' => dropStrings_spec (e := ⟨bt, be, bk, m⟩) hr c'
  by_cases hd : (dupFailed bt || dupFailed be || dupFailed bk) = true
  · rw [if_pos hd]
    exact drop _ (.library St.NO_MEMORY) _ (fun h => nomatch h) c3
  · rw [if_neg hd]
    simp only [Bool.or_eq_true, not_or, Bool.not_eq_true] at hd
    obtain ⟨ret, m, r', e4, ho⟩ := read_spec hs c3
    rw [e4]
    have bad : ∀ ret, ret ≠ Ret.normal → (ret = .normal ∧ m.announced rest ∧
        Ctx A app (m.body.blocks ++ (bk.blocks ++ (be.blocks ++ (bt.blocks ++ bl)))) ((m.pool, m.ptrs) :: ts) r' ∨
        ret ≠ .normal ∧ Ctx A app (bk.blocks ++ (be.blocks ++ (bt.blocks ++ bl))) ts r') → Ctx A app (bk.blocks ++ (be.blocks ++ (bt.blocks ++ bl))) ts r' := by
      rintro ret hr (⟨h, _⟩ | ⟨_, h⟩)
      · exact absurd h hr
      · exact h
    cases ret with
    | normal =>
      rcases ho with ⟨_, hg, c4⟩ | ⟨hn, _⟩
      · exact ⟨_, _, _, rfl, .inl ⟨rfl, ⟨⟨tag, ht, l1, fun hp => l1 ▸ dupFailed_false hd.1.1 hp⟩, ⟨ex, he, l2, fun hp => l2 ▸ dupFailed_false hd.1.2 hp⟩,
          ⟨rk, hk, l3, fun hp => l3 ▸ dupFailed_false hd.2 hp⟩, hg⟩, c4⟩⟩
      · exact absurd rfl hn
    | server => exact drop m .server r' (fun h => nomatch h) (bad .server (fun h => nomatch h) ho)
    | library st => exact drop m (.library st) r' (fun h => nomatch h) (bad (.library st) (fun h => nomatch h) ho)

theorem consume_spec {s : Script} (hs : s.fits) (c : Ctx A app bl ts r) : ConsumeOut A app bl ts (fun e => e.announced s) (consumeMem A s r) := by
  cases s with
  | fails ops st =>
    unfold consumeMem
    dsimp only
    obtain ⟨r', e, c'⟩ := c.conn (ops := ops) hs
    rw [e]
    exact ⟨_, _, _, rfl, .inr ⟨(fun h => nomatch h), c'⟩⟩
  | frame ops f rest =>
    unfold consumeMem
    dsimp only
    obtain ⟨r', e, c'⟩ := c.conn (ops := ops) hs.1
    rw [e]
    obtain ⟨r2, e2, c2⟩ := c'.putBack f.channel
    have back : ConsumeOut A app bl ts (fun e => e.announced (.frame ops f rest)) ((putBackMem A f.channel r').map fun r => (.library St.UNEXPECTED_STATE, .zero, r)) := by
      rw [e2]
      exact ⟨_, _, _, rfl, .inr ⟨(fun h => nomatch h), c2⟩⟩
    have hfit := hs.2.1
    unfold fitsFrame at hfit
    show ConsumeOut A app bl ts _ (match f.payload with
      | .method id args =>
        if id = BASIC_DELIVER then takeMem A args rest r'
        else (putBackMem A f.channel r').map fun r => (.library St.UNEXPECTED_STATE, .zero, r)
      | _ => (putBackMem A f.channel r').map fun r => (.library St.UNEXPECTED_STATE, .zero, r))
    cases hp : f.payload with
    | method id args =>
      dsimp only
      by_cases hi : id = BASIC_DELIVER
      · rw [if_pos hi]
        rw [hp] at hfit
        obtain ⟨⟨tag, ht⟩, ⟨ex, he⟩, ⟨rk, hk⟩⟩ := hfit hi
        obtain ⟨ret, en, r3, e3, ho⟩ := take_spec ht he hk hs.2.2 c'
        refine ⟨ret, en, r3, e3, ?_⟩
        rcases ho with ⟨h1, h2, h3⟩ | ho
        · exact .inl ⟨h1, ⟨args, hi ▸ hp, h2⟩, h3⟩
        · exact .inr ho
      · rw [if_neg hi]; exact back
    | _ => exact back

/-! ## What the application holds -/

def Held.msg : Held → Msg
  | .envelope e => e.msg
  | .message m => m

/-- The blocks of something held, besides its pool. -/
def Held.blocks : Held → List (Nat × Nat)
  | .envelope e => e.msg.body.blocks ++ e.strings []
  | .message m => m.body.blocks

/-- Its pool, with what the pool handed out. -/
def Held.own (x : Held) : Pool × List Grant := (x.msg.pool, x.msg.ptrs)

theorem Ctx.perm {bl' : List (Nat × Nat)} {ts' : List (Pool × List Grant)} (c : Ctx A app bl ts r) (hb : bl.Perm bl') (ht : ts.Perm ts') : Ctx A app bl' ts' r :=
  { c with w := c.w.perm ((hb.map _).append_left _) (ht.append_left _), sized := fun x hx => c.sized x (hb.mem_iff.2 hx) }

theorem bytesFree_world {b : Buf} (w : World A app (b.blocks.map (·.1) ++ raw) ts h) : ∃ h', bytesFree h b = some h' ∧ World A app raw ts h' := by
  obtain ⟨p, n⟩ := b
  cases p with
  | none => exact ⟨h, rfl, w⟩
  | some p =>
    obtain ⟨h', e, w', _⟩ := World.free (b := p) (raw := raw) w
    exact ⟨h', e, w'⟩

theorem destroyMessage_world {m : Msg} (w : World A app (m.body.blocks.map (·.1) ++ raw) ((m.pool, m.ptrs) :: ts) h) :
    ∃ h', destroyMessage m h = some h' ∧ World A app raw ts h' := by
  unfold destroyMessage
  obtain ⟨p', h1, e1, w1⟩ := w.empty
  rw [e1]
  exact bytesFree_world w1

theorem Held.destroy_world {x : Held} (w : World A app (x.blocks.map (·.1) ++ raw) (x.own :: ts) h) : ∃ h', x.destroy h = some h' ∧ World A app raw ts h' := by
  cases x with
  | message m => exact destroyMessage_world w
  | envelope e =>
    show ∃ h', destroyEnvelope e h = some h' ∧ _
    unfold destroyEnvelope
    have w0 : World A app (e.msg.body.blocks.map (·.1) ++ (e.routingKey.blocks.map (·.1) ++ (e.exchange.blocks.map (·.1) ++ (e.tag.blocks.map (·.1) ++ raw))))
        ((e.msg.pool, e.msg.ptrs) :: ts) h := by
      refine w.perm (List.Perm.of_eq ?_) (.refl _)
      show (e.msg.body.blocks ++ (e.routingKey.blocks ++ (e.exchange.blocks ++ (e.tag.blocks ++ [])))).map (fun y : Nat × Nat => y.1) ++ raw = _
      simp only [List.map_append, List.append_assoc, List.append_nil]
    obtain ⟨h1, e1, w1⟩ := destroyMessage_world w0
    rw [e1]
    unfold PoolM.freeStrings
    obtain ⟨h2, e2, w2⟩ := bytesFree_world w1
    obtain ⟨h3, e3, w3⟩ := bytesFree_world w2
    obtain ⟨h4, e4, w4⟩ := bytesFree_world w3
    refine ⟨h4, ?_, w4⟩
    show ((bytesFree h1 e.routingKey).bind fun h => (bytesFree h e.exchange).bind fun h => bytesFree h e.tag) = _
    rw [e2]
    show ((bytesFree h2 e.exchange).bind fun h => bytesFree h e.tag) = _
    rw [e3]
    exact e4

theorem destroyAll_world : ∀ (xs : List Held) {h : Heap}, World A app ((xs.flatMap Held.blocks).map (·.1)) (xs.map Held.own) h →
    ∃ h', destroyAll xs h = some h' ∧ World A app [] [] h' := by
  intro xs
  induction xs with
  | nil => intro h w; exact ⟨h, rfl, w⟩
  | cons x xs ih =>
    intro h w
    rw [List.flatMap_cons, List.map_append, List.map_cons] at w
    obtain ⟨h1, e1, w1⟩ := Held.destroy_world w
    obtain ⟨h2, e2, w2⟩ := ih w1
    refine ⟨h2, ?_, w2⟩
    show (x.destroy h).bind _ = _
    rw [e1]
    exact e2

/-- What holds after any history. -/
def AInv (A : Nat → Bool) (app : List (Nat × Nat)) (s : AppRun) : Prop := Ctx A app (s.held.flatMap Held.blocks) (s.held.map Held.own) s.run

theorem eraseIdx_perm {α : Type} : ∀ (l : List α) (i : Nat) (x : α), l[i]? = some x → l.Perm (x :: l.eraseIdx i) := by
  intro l
  induction l with
  | nil => intro i x h; cases h
  | cons y l ih =>
    intro i x h
    cases i with
    | zero => cases h; exact .refl _
    | succ i => exact ((ih i x h).cons y).trans (.swap ..)

theorem AInv.step {s : AppRun} (ci : AInv A app s) (op : AppOp) (hs : op.sane) : ∃ s', appStep A s op = some s' ∧ AInv A app s' := by
  cases op with
  | other ops =>
    obtain ⟨r', e, c'⟩ := Ctx.conn ci (ops := ops) hs
    exact ⟨⟨r', s.held⟩, by show Option.map _ (connRun A s.run ops) = _; rw [e]; rfl, c'⟩
  | read waits =>
    obtain ⟨ret, m, r', e, ho⟩ := read_spec (s := waits) (PoolM.Script.sane.fits hs) ci
    rcases ho with ⟨rfl, _, c⟩ | ⟨hn, c⟩
    · exact ⟨⟨r', .message m :: s.held⟩, by unfold appStep; dsimp only; rw [e]; rfl, c⟩
    · refine ⟨⟨r', s.held⟩, ?_, c⟩
      unfold appStep; dsimp only; rw [e]
      cases ret with
      | normal => exact absurd rfl hn
      | _ => rfl
  | consume waits =>
    obtain ⟨ret, en, r', e, ho⟩ := consume_spec (s := waits) (PoolM.Script.sane.fits hs) ci
    rcases ho with ⟨rfl, _, c⟩ | ⟨hn, c⟩
    · refine ⟨⟨r', .envelope en :: s.held⟩, by unfold appStep; dsimp only; rw [e]; rfl, ?_⟩
      unfold AInv
      rw [List.flatMap_cons]
      have : Held.blocks (.envelope en) ++ s.held.flatMap Held.blocks = en.msg.body.blocks ++ en.strings (s.held.flatMap Held.blocks) := by
        show (en.msg.body.blocks ++ (en.routingKey.blocks ++ (en.exchange.blocks ++ (en.tag.blocks ++ [])))) ++ _ = en.msg.body.blocks ++ (_ ++ (_ ++ (_ ++ _)))
        simp only [List.append_assoc, List.nil_append]
      rw [this]
      exact c
    · refine ⟨⟨r', s.held⟩, ?_, c⟩
      unfold appStep; dsimp only; rw [e]
      cases ret with
      | normal => exact absurd rfl hn
      | _ => rfl
  | destroy i =>
    unfold appStep
    dsimp only
    cases hx : s.held[i]? with
    | none => exact ⟨s, rfl, ci⟩
    | some x =>
      have hp := eraseIdx_perm s.held i x hx
      have c1 : Ctx A app (x.blocks ++ (s.held.eraseIdx i).flatMap Held.blocks) ([x.own] ++ (s.held.eraseIdx i).map Held.own) s.run :=
        ci.perm (hp.flatMap_right _) (hp.map _)
      obtain ⟨h', bl1, ts1, ⟨e, rfl, rfl⟩, c'⟩ := c1.mine
        (P := fun h' bl1 ts1 => x.destroy s.run.heap = some h' ∧ bl1 = [] ∧ ts1 = [])
        (fun app' w => by
          obtain ⟨h', e, w'⟩ := Held.destroy_world (raw := []) (ts := []) (by rw [List.append_nil]; exact w)
          exact ⟨h', [], [], ⟨e, rfl, rfl⟩, w', fun x hx => nomatch hx⟩)
      dsimp only
      rw [e]
      exact ⟨_, rfl, c'⟩

theorem AInv.run : ∀ (ops : List AppOp) {s : AppRun}, AInv A app s → (∀ op ∈ ops, op.sane) → ∃ s', appRun A s ops = some s' ∧ AInv A app s' := by
  intro ops
  induction ops with
  | nil => intro s ci _; exact ⟨s, rfl, ci⟩
  | cons op ops ih =>
    intro s ci hs
    obtain ⟨s1, e1, c1⟩ := ci.step op (hs op List.mem_cons_self)
    obtain ⟨s2, e2, c2⟩ := ih c1 (fun o ho => hs o (List.mem_cons_of_mem _ ho))
    exact ⟨s2, by show (appStep A s op).bind _ = _; rw [e1]; exact e2, c2⟩

theorem AInv.new {clock : Bool} {h h' : Heap} (ok : h.OK) {c : CMem} (e : newConn A clock h = some (some c, h')) :
    AInv A h.live ⟨⟨c, h', [], St.OK⟩, []⟩ := by
  have ci := new_inv ok e
  exact { w := ci.w.perm (List.Perm.of_eq (List.append_nil _).symm) (List.Perm.of_eq (List.append_nil _).symm), sized := fun x hx => (nomatch hx), len := ci.len, slots := ci.slots, keys := ci.keys,
          own := ci.own, fm := ci.fm, out := ci.out, sock := ci.sock }

/-- The connection is destroyed; the rest stays. -/
theorem Ctx.destroyConn (c : Ctx A app bl ts r) : ∃ h', PoolM.destroyConn r.conn r.heap = some h' ∧ World A app (bl.map (·.1)) ts h' ∧ ∀ x ∈ bl, x ∈ h'.live := by
  obtain ⟨oth, w1, ho, back⟩ := c.w.focus
  obtain ⟨h', e, w'⟩ := CInv.destroy (A := A) (app := app ++ oth) (r := r)
    { w := w1, len := c.len, slots := c.slots, keys := c.keys, own := c.own, fm := c.fm, out := c.out, sock := c.sock }
  exact ⟨h', e, back [] [] h' w', fun x hx => (w'.appOk x (List.mem_append_right _ (ho x (c.sized x hx) (.inl (List.mem_map.2 ⟨x, hx, rfl⟩))))).1⟩

/-! ## The pieces -/

def Held.bufs : Held → List Buf
  | .envelope e => [e.msg.body, e.routingKey, e.exchange, e.tag]
  | .message m => [m.body]

theorem Held.pieces_eq (x : Held) : x.pieces = x.bufs.flatMap Buf.piece ++ x.msg.ptrs := by
  cases x <;> simp [Held.pieces, Held.bufs, Held.msg]

theorem Held.blocks_eq (x : Held) : x.blocks = x.bufs.flatMap Buf.blocks := by
  cases x <;> simp [Held.blocks, Held.bufs, Envl.strings]

theorem Buf.piece_blocks (b : Buf) : b.piece.map (fun g => (g.block, g.amount)) = b.blocks := by
  obtain ⟨p, n⟩ := b
  cases p <;> rfl

theorem bufs_blocks (bs : List Buf) : (bs.flatMap Buf.piece).map (fun g => (g.block, g.amount)) = bs.flatMap Buf.blocks := by
  induction bs with
  | nil => rfl
  | cons b bs ih => rw [List.flatMap_cons, List.flatMap_cons, List.map_append, Buf.piece_blocks, ih]

theorem piece_off {bs : List Buf} {g : Grant} (hg : g ∈ bs.flatMap Buf.piece) : g.off = 0 := by
  obtain ⟨b, _, hg⟩ := List.mem_flatMap.1 hg
  obtain ⟨p, _, rfl⟩ := List.mem_map.1 hg
  rfl

theorem Held.piece_cases {x : Held} {g : Grant} (hg : g ∈ x.pieces) : (g.off = 0 ∧ (g.block, g.amount) ∈ x.blocks) ∨ g ∈ x.msg.ptrs := by
  rw [x.pieces_eq] at hg
  rcases List.mem_append.1 hg with h | h
  · refine .inl ⟨piece_off h, ?_⟩
    rw [x.blocks_eq, ← bufs_blocks]
    exact List.mem_map.2 ⟨g, h, rfl⟩
  · exact .inr h

/-- The blocks and pools are apart. -/
structure Sep (bl : List (Nat × Nat)) (ts : List (Pool × List Grant)) : Prop where
  nodup : (bl.map (·.1)).Nodup
  disj : ts.Pairwise fun t t' => ∀ b, Touch t.1 t.2 b → ¬ Touch t'.1 t'.2 b
  apart : ∀ x ∈ bl, ∀ t ∈ ts, ¬ Touch t.1 t.2 x.1
  pw : ∀ t ∈ ts, t.2.Pairwise Grant.disjoint

theorem World.sep (w : World A app (bl.map (·.1)) ts h) : Sep bl ts where
  nodup := w.nodup
  disj := w.disj
  apart := fun x hx t ht => (w.rawOk x.1 (List.mem_map.2 ⟨x, hx, rfl⟩)).2 t ht
  pw := fun t ht => (w.pools t ht).1.pw

theorem pieces_apart : ∀ (xs : List Held), Sep (xs.flatMap Held.blocks) (xs.map Held.own) → (xs.flatMap Held.pieces).Pairwise Grant.disjoint := by
  intro xs
  induction xs with
  | nil => intro _; exact .nil
  | cons x xs ih =>
    intro sp
    have nd : ((x.blocks.map (·.1)) ++ ((xs.flatMap Held.blocks).map (·.1))).Nodup := by
      have := sp.nodup
      rwa [List.flatMap_cons, List.map_append] at this
    have nd' := List.nodup_append.1 nd
    have dj := List.pairwise_cons.1 sp.disj
    have touch : ∀ {y : Held} {g : Grant}, g ∈ y.msg.ptrs → Touch y.own.1 y.own.2 g.block := fun {y g} hg => .inr (.inr ⟨g, hg, rfl⟩)
    rw [List.flatMap_cons]
    refine List.pairwise_append.2 ⟨?_, ih ⟨nd'.2.1, dj.2, fun y hy t ht => sp.apart y (by rw [List.flatMap_cons]; exact List.mem_append_right _ hy) t (List.mem_cons_of_mem _ ht),
      fun t ht => sp.pw t (List.mem_cons_of_mem _ ht)⟩, ?_⟩
    · rw [x.pieces_eq]
      refine List.pairwise_append.2 ⟨?_, sp.pw x.own List.mem_cons_self, fun g hg g' hg' => .inl fun e => ?_⟩
      · have : ((x.bufs.flatMap Buf.piece).map (fun g => g.block)).Nodup := by
          have h1 := nd'.1
          rw [x.blocks_eq, ← bufs_blocks, List.map_map] at h1
          exact h1
        exact (List.pairwise_map.1 this).imp fun h => .inl h
      · have hb : (g.block, g.amount) ∈ x.blocks := by
          rw [x.blocks_eq, ← bufs_blocks]
          exact List.mem_map.2 ⟨g, hg, rfl⟩
        exact sp.apart (g.block, g.amount) (by rw [List.flatMap_cons]; exact List.mem_append_left _ hb) x.own List.mem_cons_self (by
          show Touch _ _ g.block
          rw [e]; exact touch hg')
    · intro g hg g' hg'
      refine .inl fun e => ?_
      obtain ⟨y, hy, hg'⟩ := List.mem_flatMap.1 hg'
      have inx : ∀ z ∈ x.blocks, z ∈ (x :: xs).flatMap Held.blocks := fun z hz => by rw [List.flatMap_cons]; exact List.mem_append_left _ hz
      have iny : ∀ z ∈ y.blocks, z ∈ xs.flatMap Held.blocks := fun z hz => List.mem_flatMap.2 ⟨y, hy, hz⟩
      have iny' : ∀ z ∈ y.blocks, z ∈ (x :: xs).flatMap Held.blocks := fun z hz => by rw [List.flatMap_cons]; exact List.mem_append_right _ (iny z hz)
      have my : y.own ∈ xs.map Held.own := List.mem_map.2 ⟨y, hy, rfl⟩
      rcases Held.piece_cases hg with ⟨_, h1⟩ | h1
      · rcases Held.piece_cases hg' with ⟨_, h2⟩ | h2
        · exact nd'.2.2 g.block (List.mem_map.2 ⟨_, h1, rfl⟩) g'.block (List.mem_map.2 ⟨_, iny _ h2, rfl⟩) e
        · exact sp.apart _ (inx _ h1) y.own (List.mem_cons_of_mem _ my) (by show Touch _ _ g.block; rw [e]; exact touch h2)
      · rcases Held.piece_cases hg' with ⟨_, h2⟩ | h2
        · exact sp.apart _ (iny' _ h2) x.own List.mem_cons_self (by show Touch _ _ g'.block; rw [← e]; exact touch h1)
        · exact dj.1 y.own my g.block (touch h1) (by rw [e]; exact touch h2)

/-- Where a piece lies. -/
theorem piece_inside {xs : List Held} (w : World A app (raw ++ (xs.flatMap Held.blocks).map (·.1)) (ts ++ xs.map Held.own) h)
    (sz : ∀ x ∈ xs.flatMap Held.blocks, x ∈ h.live) {g : Grant} (hg : g ∈ xs.flatMap Held.pieces) :
    g.inside h ∧ (∀ x ∈ app, x.1 ≠ g.block) ∧ g.block ∉ raw ∧ ∀ t ∈ ts, ¬ Touch t.1 t.2 g.block := by
  obtain ⟨x, hx, hg⟩ := List.mem_flatMap.1 hg
  have nd := List.nodup_append.1 w.nodup
  have dj := List.pairwise_append.1 w.disj
  rcases Held.piece_cases hg with ⟨h0, h1⟩ | h1
  · have hm : (g.block, g.amount) ∈ xs.flatMap Held.blocks := List.mem_flatMap.2 ⟨x, hx, h1⟩
    have hr : g.block ∈ (xs.flatMap Held.blocks).map (·.1) := List.mem_map.2 ⟨_, hm, rfl⟩
    exact ⟨⟨g.amount, sz _ hm, by omega⟩, fun y hy e => (w.appOk y hy).2.1 (List.mem_append_right _ (e ▸ hr)), fun hn => nd.2.2 _ hn _ hr rfl,
      fun t ht => (w.rawOk _ (List.mem_append_right _ hr)).2 t (List.mem_append_left _ ht)⟩
  · have my : x.own ∈ xs.map Held.own := List.mem_map.2 ⟨x, hx, rfl⟩
    have to : Touch x.own.1 x.own.2 g.block := .inr (.inr ⟨g, h1, rfl⟩)
    have go := (w.pools _ (List.mem_append_right _ my)).1.gr g h1
    obtain ⟨s, s1, s2⟩ := go.inside
    exact ⟨⟨s, s1, by have := go.le; omega⟩, fun y hy e => (w.appOk y hy).2.2 _ (List.mem_append_right _ my) (e ▸ to),
      fun hn => (w.rawOk _ (List.mem_append_left _ hn)).2 _ (List.mem_append_right _ my) to, fun t ht hto => dj.2.2 t ht _ my _ hto to⟩

end Rmq.PoolM
