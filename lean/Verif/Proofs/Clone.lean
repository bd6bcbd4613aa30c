import Verif.Spec.Storage
/-! # amqp_table_clone: equality, freshness, errors, success. -/
namespace Rmq

/-- Post-condition of an allocating computation. -/
def AOK {α : Type} (errs : Int → Prop) (post : α → AState → Prop) (s : AState) : Res AState α → Prop
  | .ok a s' => s.allocs ≤ s'.allocs ∧ post a s'
  | .err e _ => errs e
  | .ub => False
  | .fuel => False

theorem AOK.bind {α β : Type} {errs : Int → Prop} {p : α → AState → Prop} {q : β → AState → Prop} {s : AState}
    {x : M AState α} {f : α → M AState β} (hx : AOK errs p s (x s))
    (hf : ∀ a s', s.allocs ≤ s'.allocs → p a s' → AOK errs q s' (f a s')) : AOK errs q s ((x >>= f) s) := by
  rw [M.bind_def]
  cases hr : x s with
  | ok a s' =>
    rw [hr] at hx
    have h2 := hf a s' hx.1 hx.2
    dsimp only
    cases hr2 : f a s' with
    | ok b s'' => rw [hr2] at h2; exact ⟨Nat.le_trans hx.1 h2.1, h2.2⟩
    | err e s'' => rw [hr2] at h2; exact h2
    | ub => rw [hr2] at h2; exact h2
    | fuel => rw [hr2] at h2; exact h2
  | err e s' => rw [hr] at hx; exact hx
  | ub => rw [hr] at hx; exact hx
  | fuel => rw [hr] at hx; exact hx

theorem AOK.pure {α : Type} {errs : Int → Prop} {p : α → AState → Prop} {s : AState} {a : α} (h : p a s) :
    AOK errs p s ((Pure.pure a : M AState α) s) := ⟨Nat.le_refl _, h⟩

theorem AOK.mono {α : Type} {errs errs' : Int → Prop} {p q : α → AState → Prop} {s : AState} {r : Res AState α}
    (h : AOK errs p s r) (he : ∀ e, errs e → errs' e) (hp : ∀ a s', s.allocs ≤ s'.allocs → p a s' → q a s') :
    AOK errs' q s r := by
  cases r with
  | ok a s' => exact ⟨h.1, hp a s' h.1 h.2⟩
  | err e s' => exact he e h
  | ub => exact h
  | fuel => exact h

/-- Blocks allocated from `pool` with increasing serial numbers in `[lo, hi)`. -/
def FreshRun (pool lo hi : Nat) (bs : List Blk) : Prop :=
  bs.Pairwise (fun a b => a.n < b.n) ∧ ∀ b ∈ bs, b.pool = pool ∧ lo ≤ b.n ∧ b.n < hi

theorem FreshRun.nil (pool lo hi : Nat) : FreshRun pool lo hi [] := ⟨List.Pairwise.nil, by simp⟩

theorem FreshRun.append {pool lo mid hi : Nat} {as bs : List Blk} (ha : FreshRun pool lo mid as)
    (hb : FreshRun pool mid hi bs) (h1 : lo ≤ mid) (h2 : mid ≤ hi) : FreshRun pool lo hi (as ++ bs) := by
  refine ⟨List.pairwise_append.2 ⟨ha.1, hb.1, fun a h b h' => ?_⟩, fun b h => ?_⟩
  · have := ha.2 a h; have := hb.2 b h'; omega
  · rcases List.mem_append.1 h with h | h
    · have := ha.2 b h; exact ⟨this.1, this.2.1, by omega⟩
    · have := hb.2 b h; exact ⟨this.1, by omega, this.2.2⟩

theorem poolAlloc_AOK {alloc : Nat → Bool} {errs : Int → Prop} {e : Int} (he : errs e) (pool amount : Nat) (s : AState) :
    AOK errs (fun b s' => b.size = amount ∧ b.pool = pool ∧ s.allocs = b.n ∧ s'.allocs = b.n + 1 ∧ alloc s.allocs = true) s
      (M.orFailVal e (poolAlloc alloc pool amount) s) := by
  unfold M.orFailVal poolAlloc
  by_cases h0 : amount = 0
  · simp [h0, AOK, he]
  · simp only [h0, if_false]
    by_cases ha : alloc s.allocs = true
    · simp [ha, AOK]
    · simp [ha, AOK, he]

theorem dupBytes_AOK {alloc : Nat → Bool} {errs : Int → Prop} (he : errs St.NO_MEMORY) (pool : Nat) (b : Bytes)
    (s : AState) :
    AOK errs (fun p s' => p.size = b.length ∧ FreshRun pool s.allocs s'.allocs [p]) s (dupBytes alloc pool b s) := by
  unfold dupBytes
  refine AOK.bind (poolAlloc_AOK he pool b.length s) fun p s' hs hp => ?_
  refine AOK.bind (p := fun _ s'' => s'' = s') ?_ fun _ s'' _ h'' => ?_
  · simp [fillBlock, hp.1, AOK]
  · subst h''
    refine AOK.pure ⟨hp.1, by simp, ?_⟩
    simp; omega

theorem fillBlock_AOK {errs : Int → Prop} {b : Blk} {n : Nat} (h : n ≤ b.size) (s : AState) :
    AOK errs (fun _ s' => s' = s) s (fillBlock b n s) := by simp [fillBlock, h, AOK]

def CloneErr (e : Int) : Prop := e = St.NO_MEMORY ∨ e = St.INVALID_PARAMETER

/-- The whole post-condition of one clone step, for values, lists, entries and entry lists alike. -/
def ClonePost {α β : Type} (erase : α → β) (blocks : α → List Blk) (stored : α → Prop) (pool : Nat) (s : AState) (v : α)
    (v' : α) (s' : AState) : Prop :=
  erase v' = erase v ∧ stored v' ∧ FreshRun pool s.allocs s'.allocs (blocks v')

theorem PV.erases_length (vs : List PV) : (PV.erases vs).length = vs.length := by
  induction vs with
  | nil => rfl
  | cons v vs ih => simp [PV.erases, ih]
theorem PV.eraseEs_length (vs : List PE) : (PV.eraseEs vs).length = vs.length := by
  induction vs with
  | nil => rfl
  | cons v vs ih => simp [PV.eraseEs, ih]

theorem holds_none : holds none 0 := Or.inl rfl
theorem holds_some (p : Blk) : holds (some p) p.size := Or.inr ⟨p, rfl, Nat.le_refl _⟩

theorem FreshRun.single {pool lo hi : Nat} {b : Blk} (hp : b.pool = pool) (h1 : lo ≤ b.n) (h2 : b.n < hi) :
    FreshRun pool lo hi [b] := ⟨by simp, by simp [hp, h1, h2]⟩

theorem holds_zero {p : Option Blk} {n : Nat} (h : holds p n) (hp : p = none) : n = 0 := by
  rcases h with h | ⟨b, hb, _⟩
  · exact h
  · rw [hp] at hb; cases hb

mutual
theorem cloneFV_AOK (alloc : Nat → Bool) (pool : Nat) (v : PV) (hv : v.stored) (s : AState) :
    AOK CloneErr (ClonePost PV.erase PV.blocks PV.stored pool s v) s (cloneFV alloc pool v s) := by
  match v with
  | .utf8 p b =>
    unfold cloneFV
    by_cases hb : b.length = 0
    · have hb' : b = [] := List.eq_nil_of_length_eq_zero hb
      subst hb'
      rw [if_pos List.length_nil]
      exact AOK.pure ⟨rfl, by simp [PV.stored, holds], FreshRun.nil ..⟩
    · rw [if_neg hb]
      refine AOK.bind (dupBytes_AOK (Or.inl rfl) pool b s) fun p s' hs hp => ?_
      exact AOK.pure ⟨rfl, by rw [PV.stored, ← hp.1]; exact holds_some p, hp.2⟩
  | .bytes p b =>
    unfold cloneFV
    by_cases hb : b.length = 0
    · have hb' : b = [] := List.eq_nil_of_length_eq_zero hb
      subst hb'
      rw [if_pos List.length_nil]
      exact AOK.pure ⟨rfl, by simp [PV.stored, holds], FreshRun.nil ..⟩
    · rw [if_neg hb]
      refine AOK.bind (dupBytes_AOK (Or.inl rfl) pool b s) fun p s' hs hp => ?_
      exact AOK.pure ⟨rfl, by rw [PV.stored, ← hp.1]; exact holds_some p, hp.2⟩
  | .array none vs =>
    unfold cloneFV
    have h0 := holds_zero hv.1 rfl
    have hvs : vs = [] := by
      cases vs with
      | nil => rfl
      | cons a as => simp [SIZEOF_FV] at h0
    subst hvs
    exact AOK.pure ⟨rfl, ⟨Or.inl rfl, trivial⟩, FreshRun.nil ..⟩
  | .array (some q) vs =>
    unfold cloneFV
    refine AOK.bind (poolAlloc_AOK (Or.inl rfl) pool _ s) fun p s' hs hp => ?_
    refine AOK.bind (fillBlock_AOK (Nat.le_of_eq hp.1.symm) s') fun _ s'' _ h'' => ?_
    rw [h'']
    refine AOK.bind (cloneFVs_AOK alloc pool vs hv.2 s') fun vs' s₂ hs₂ hc => ?_
    refine AOK.pure ⟨by simp [PV.erase, hc.1], ⟨?_, hc.2.1⟩, ?_⟩
    · have : vs'.length = vs.length := by rw [← PV.erases_length, ← PV.erases_length vs, hc.1]
      rw [this, ← hp.1]; exact holds_some p
    · exact (FreshRun.single hp.2.1 (by omega) (by omega) : FreshRun pool s.allocs s'.allocs [p]).append hc.2.2 hs hs₂
  | .table q es =>
    unfold cloneFV
    by_cases h0 : es.length = 0
    · have : es = [] := List.eq_nil_of_length_eq_zero h0
      subst this
      rw [if_pos List.length_nil]
      exact AOK.pure ⟨rfl, ⟨Or.inl rfl, trivial⟩, FreshRun.nil ..⟩
    · rw [if_neg h0]
      refine AOK.bind (poolAlloc_AOK (Or.inl rfl) pool _ s) fun p s' hs hp => ?_
      refine AOK.bind (fillBlock_AOK (Nat.le_of_eq hp.1.symm) s') fun _ s'' _ h'' => ?_
      rw [h'']
      refine AOK.bind (cloneEntries_AOK alloc pool es hv.2 s') fun vs' s₂ hs₂ hc => ?_
      refine AOK.pure ⟨by simp [PV.erase, hc.1], ⟨?_, hc.2.1⟩, ?_⟩
      · have : vs'.length = es.length := by rw [← PV.eraseEs_length, ← PV.eraseEs_length es, hc.1]
        rw [this, ← hp.1]; exact holds_some p
      · exact (FreshRun.single hp.2.1 (by omega) (by omega) : FreshRun pool s.allocs s'.allocs [p]).append hc.2.2 hs hs₂
  | .other k => unfold cloneFV; exact Or.inr rfl
  | .boolean _ | .i8 _ | .u8 _ | .i16 _ | .u16 _ | .i32 _ | .u32 _ | .i64 _ | .u64 _ | .f32 _ | .f64 _
  | .decimal _ _ | .timestamp _ | .void =>
    unfold cloneFV; exact AOK.pure ⟨rfl, trivial, FreshRun.nil ..⟩
theorem cloneFVs_AOK (alloc : Nat → Bool) (pool : Nat) (vs : List PV) (hv : PV.storeds vs) (s : AState) :
    AOK CloneErr (ClonePost PV.erases PV.blockss PV.storeds pool s vs) s (cloneFVs alloc pool vs s) := by
  match vs with
  | [] => unfold cloneFVs; exact AOK.pure ⟨rfl, trivial, FreshRun.nil ..⟩
  | v :: vs =>
    unfold cloneFVs
    refine AOK.bind (cloneFV_AOK alloc pool v hv.1 s) fun v' s' hs hc => ?_
    refine AOK.bind (cloneFVs_AOK alloc pool vs hv.2 s') fun vs' s₂ hs₂ hc₂ => ?_
    exact AOK.pure ⟨by simp [PV.erases, hc.1, hc₂.1], ⟨hc.2.1, hc₂.2.1⟩, hc.2.2.append hc₂.2.2 hs hs₂⟩
theorem cloneEntry_AOK (alloc : Nat → Bool) (pool : Nat) (e : PE) (hv : e.stored) (s : AState) :
    AOK CloneErr (ClonePost PE.erase PE.blocks PE.stored pool s e) s (cloneEntry alloc pool e s) := by
  match e with
  | .mk kp k v =>
    unfold cloneEntry
    by_cases hk : k.length = 0
    · rw [if_pos hk]; exact Or.inr rfl
    · rw [if_neg hk]
      refine AOK.bind (dupBytes_AOK (Or.inl rfl) pool k s) fun p s' hs hp => ?_
      refine AOK.bind (cloneFV_AOK alloc pool v hv.2 s') fun v' s₂ hs₂ hc => ?_
      refine AOK.pure ⟨by simp [PE.erase, hc.1], ⟨by rw [← hp.1]; exact holds_some p, hc.2.1⟩, ?_⟩
      exact hp.2.append hc.2.2 hs hs₂
theorem cloneEntries_AOK (alloc : Nat → Bool) (pool : Nat) (es : List PE) (hv : PV.storedEs es) (s : AState) :
    AOK CloneErr (ClonePost PV.eraseEs PV.blocksEs PV.storedEs pool s es) s (cloneEntries alloc pool es s) := by
  match es with
  | [] => unfold cloneEntries; exact AOK.pure ⟨rfl, trivial, FreshRun.nil ..⟩
  | v :: vs =>
    unfold cloneEntries
    refine AOK.bind (cloneEntry_AOK alloc pool v hv.1 s) fun v' s' hs hc => ?_
    refine AOK.bind (cloneEntries_AOK alloc pool vs hv.2 s') fun vs' s₂ hs₂ hc₂ => ?_
    exact AOK.pure ⟨by simp [PV.eraseEs, hc.1, hc₂.1], ⟨hc.2.1, hc₂.2.1⟩, hc.2.2.append hc₂.2.2 hs hs₂⟩
end

theorem cloneTable_AOK (alloc : Nat → Bool) (pool : Nat) (t : PTable) (hv : PV.storedEs t.entries) (s : AState) :
    AOK CloneErr (ClonePost PTable.erase PTable.blocks PTable.stored pool s t) s (cloneTable alloc pool t s) := by
  unfold cloneTable
  by_cases h0 : t.entries.length = 0
  · rw [if_pos h0]
    have : t.entries = [] := List.eq_nil_of_length_eq_zero h0
    exact AOK.pure ⟨by simp [PTable.erase, this], ⟨Or.inl rfl, trivial⟩, FreshRun.nil ..⟩
  · rw [if_neg h0]
    refine AOK.bind (poolAlloc_AOK (Or.inl rfl) pool _ s) fun p s' hs hp => ?_
    refine AOK.bind (fillBlock_AOK (Nat.le_of_eq hp.1.symm) s') fun _ s'' _ h'' => ?_
    rw [h'']
    refine AOK.bind (cloneEntries_AOK alloc pool t.entries hv s') fun vs' s₂ hs₂ hc => ?_
    refine AOK.pure ⟨by simp [PTable.erase, hc.1], ⟨?_, hc.2.1⟩, ?_⟩
    · have : vs'.length = t.entries.length := by rw [← PV.eraseEs_length, ← PV.eraseEs_length t.entries, hc.1]
      rw [this, ← hp.1]; exact holds_some p
    · exact (FreshRun.single hp.2.1 (by omega) (by omega) : FreshRun pool s.allocs s'.allocs [p]).append hc.2.2 hs hs₂

/-! Success: with memory available, everything cloneable is cloned; what is not cloneable is refused. -/

/-- `x` succeeds when `c` holds and fails when it does not, given memory. -/
def Decides {α : Type} (c : Prop) (x : M AState α) : Prop :=
  ∀ s, (c → ∃ a s', x s = .ok a s') ∧ (¬ c → ∃ e s', x s = .err e s')

theorem Decides.bind {α β : Type} {c d : Prop} {x : M AState α} {f : α → M AState β} (hx : Decides c x)
    (hf : ∀ a, Decides d (f a)) : Decides (c ∧ d) (x >>= f) := by
  intro s
  by_cases hc : c
  · obtain ⟨a, s', h⟩ := (hx s).1 hc
    refine ⟨fun hcd => ?_, fun hcd => ?_⟩
    · obtain ⟨b, s'', h'⟩ := (hf a s').1 hcd.2
      exact ⟨b, s'', by rw [M.bind_def, h]; exact h'⟩
    · obtain ⟨b, s'', h'⟩ := (hf a s').2 (fun hd => hcd ⟨hc, hd⟩)
      exact ⟨b, s'', by rw [M.bind_def, h]; exact h'⟩
  · obtain ⟨a, s', h⟩ := (hx s).2 hc
    exact ⟨fun hcd => absurd hcd.1 hc, fun _ => ⟨a, s', by rw [M.bind_def, h]⟩⟩

theorem Decides.pure {α : Type} (a : α) : Decides True (Pure.pure a : M AState α) :=
  fun s => ⟨fun _ => ⟨a, s, rfl⟩, fun h => absurd trivial h⟩
theorem Decides.congr {α : Type} {c d : Prop} {x : M AState α} (h : c ↔ d) (hx : Decides c x) : Decides d x :=
  fun s => ⟨fun hd => (hx s).1 (h.2 hd), fun hd => (hx s).2 (fun hc => hd (h.1 hc))⟩

/-- Like `bind` when the continuation needs a fact about the intermediate value. -/
theorem Decides.bind' {α β : Type} {c d : Prop} {P : α → Prop} {x : M AState α} {f : α → M AState β} (hx : Decides c x)
    (hP : ∀ s a s', x s = .ok a s' → P a)
    (hf : ∀ a, P a → Decides d (f a)) : Decides (c ∧ d) (x >>= f) := by
  intro s
  by_cases hc : c
  · obtain ⟨a, s', h⟩ := (hx s).1 hc
    refine ⟨fun hcd => ?_, fun hcd => ?_⟩
    · obtain ⟨b, s'', h'⟩ := (hf a (hP _ _ _ h) s').1 hcd.2
      exact ⟨b, s'', by rw [M.bind_def, h]; exact h'⟩
    · obtain ⟨b, s'', h'⟩ := (hf a (hP _ _ _ h) s').2 (fun hd => hcd ⟨hc, hd⟩)
      exact ⟨b, s'', by rw [M.bind_def, h]; exact h'⟩
  · obtain ⟨a, s', h⟩ := (hx s).2 hc
    exact ⟨fun hcd => absurd hcd.1 hc, fun _ => ⟨a, s', by rw [M.bind_def, h]⟩⟩

theorem poolAlloc_Decides {alloc : Nat → Bool} (hA : ∀ n, alloc n = true) (pool amount : Nat) (e : Int) :
    Decides (amount ≠ 0) (M.orFailVal e (poolAlloc alloc pool amount)) := by
  intro s
  unfold M.orFailVal poolAlloc
  by_cases h0 : amount = 0
  · simp [h0]
  · simp [h0, hA]

theorem poolAlloc_size {alloc : Nat → Bool} {pool amount : Nat} {e : Int} (s : AState) (a : Blk) (s' : AState)
    (h : M.orFailVal e (poolAlloc alloc pool amount) s = .ok a s') : a.size = amount := by
  have := poolAlloc_AOK (alloc := alloc) (errs := fun _ => True) (e := e) trivial pool amount s
  rw [h] at this
  exact this.2.1

theorem fillBlock_Decides {b : Blk} {n : Nat} (h : n ≤ b.size) : Decides True (fillBlock b n) :=
  fun s => ⟨fun _ => ⟨(), s, by simp [fillBlock, h]⟩, fun h => absurd trivial h⟩

theorem dupBytes_Decides {alloc : Nat → Bool} (hA : ∀ n, alloc n = true) (pool : Nat) (b : Bytes) (hb : b.length ≠ 0) :
    Decides True (dupBytes alloc pool b) := by
  unfold dupBytes
  refine Decides.congr ?_ (Decides.bind' (d := True ∧ True) (poolAlloc_Decides hA pool b.length _) poolAlloc_size
    fun a ha => Decides.bind (fillBlock_Decides (Nat.le_of_eq ha.symm)) fun _ => Decides.pure _)
  simp [hb]

mutual
theorem cloneFV_Decides {alloc : Nat → Bool} (hA : ∀ n, alloc n = true) (pool : Nat) (v : PV) (hv : v.stored) :
    Decides v.cloneable (cloneFV alloc pool v) := by
  match v with
  | .utf8 p b =>
    unfold cloneFV
    by_cases hb : b.length = 0
    · rw [if_pos hb]; exact Decides.congr (by simp [PV.cloneable]) (Decides.pure _)
    · rw [if_neg hb]
      exact Decides.congr (by simp [PV.cloneable]) (Decides.bind (dupBytes_Decides hA pool b hb) fun _ => Decides.pure _)
  | .bytes p b =>
    unfold cloneFV
    by_cases hb : b.length = 0
    · rw [if_pos hb]; exact Decides.congr (by simp [PV.cloneable]) (Decides.pure _)
    · rw [if_neg hb]
      exact Decides.congr (by simp [PV.cloneable]) (Decides.bind (dupBytes_Decides hA pool b hb) fun _ => Decides.pure _)
  | .array none vs =>
    unfold cloneFV
    have h0 := holds_zero hv.1 rfl
    have hvs : vs = [] := by
      cases vs with
      | nil => rfl
      | cons a as => simp [SIZEOF_FV] at h0
    subst hvs
    exact Decides.congr (by simp [PV.cloneable, PV.cloneables]) (Decides.pure _)
  | .array (some q) vs =>
    unfold cloneFV
    refine Decides.congr ?_ (Decides.bind' (poolAlloc_Decides hA pool _ _) poolAlloc_size
      fun a ha => Decides.bind (fillBlock_Decides (Nat.le_of_eq ha.symm)) fun _ =>
        Decides.bind (cloneFVs_Decides hA pool vs hv.2) fun _ => Decides.pure _)
    cases vs <;> simp [PV.cloneable, SIZEOF_FV]
  | .table q es =>
    unfold cloneFV
    by_cases h0 : es.length = 0
    · have : es = [] := List.eq_nil_of_length_eq_zero h0
      subst this
      rw [if_pos List.length_nil]; exact Decides.congr (by simp [PV.cloneable, PV.cloneableEs]) (Decides.pure _)
    · rw [if_neg h0]
      refine Decides.congr ?_ (Decides.bind' (poolAlloc_Decides hA pool _ _) poolAlloc_size
        fun a ha => Decides.bind (fillBlock_Decides (Nat.le_of_eq ha.symm)) fun _ =>
          Decides.bind (cloneEntries_Decides hA pool es hv.2) fun _ => Decides.pure _)
      simp only [PV.cloneable, SIZEOF_ENTRY, true_and, and_true]
      exact ⟨fun h => h.2, fun h => ⟨by omega, h⟩⟩
  | .other k => unfold cloneFV; exact fun s => ⟨fun h => absurd h id, fun _ => ⟨_, s, rfl⟩⟩
  | .boolean _ | .i8 _ | .u8 _ | .i16 _ | .u16 _ | .i32 _ | .u32 _ | .i64 _ | .u64 _ | .f32 _ | .f64 _
  | .decimal _ _ | .timestamp _ | .void =>
    unfold cloneFV; exact Decides.congr (by simp [PV.cloneable]) (Decides.pure _)
theorem cloneFVs_Decides {alloc : Nat → Bool} (hA : ∀ n, alloc n = true) (pool : Nat) (vs : List PV)
    (hv : PV.storeds vs) : Decides (PV.cloneables vs) (cloneFVs alloc pool vs) := by
  match vs with
  | [] => unfold cloneFVs; exact Decides.congr (by simp [PV.cloneables]) (Decides.pure _)
  | v :: vs =>
    unfold cloneFVs
    exact Decides.congr (by simp [PV.cloneables]) (Decides.bind (cloneFV_Decides hA pool v hv.1) fun _ =>
      Decides.bind (cloneFVs_Decides hA pool vs hv.2) fun _ => Decides.pure _)
theorem cloneEntry_Decides {alloc : Nat → Bool} (hA : ∀ n, alloc n = true) (pool : Nat) (e : PE) (hv : e.stored) :
    Decides e.cloneable (cloneEntry alloc pool e) := by
  match e with
  | .mk kp k v =>
    unfold cloneEntry
    by_cases hk : k.length = 0
    · rw [if_pos hk]
      have : k = [] := List.eq_nil_of_length_eq_zero hk
      exact fun s => ⟨fun h => absurd this h.1, fun _ => ⟨_, s, rfl⟩⟩
    · rw [if_neg hk]
      refine Decides.congr ?_ (Decides.bind (dupBytes_Decides hA pool k hk) fun _ =>
        Decides.bind (cloneFV_Decides hA pool v hv.2) fun _ => Decides.pure _)
      simp only [PE.cloneable, true_and, and_true]
      exact ⟨fun h => ⟨fun h' => hk (by simp [h']), h⟩, fun h => h.2⟩
theorem cloneEntries_Decides {alloc : Nat → Bool} (hA : ∀ n, alloc n = true) (pool : Nat) (es : List PE)
    (hv : PV.storedEs es) : Decides (PV.cloneableEs es) (cloneEntries alloc pool es) := by
  match es with
  | [] => unfold cloneEntries; exact Decides.congr (by simp [PV.cloneableEs]) (Decides.pure _)
  | v :: vs =>
    unfold cloneEntries
    exact Decides.congr (by simp [PV.cloneableEs]) (Decides.bind (cloneEntry_Decides hA pool v hv.1) fun _ =>
      Decides.bind (cloneEntries_Decides hA pool vs hv.2) fun _ => Decides.pure _)
end

theorem cloneTable_Decides {alloc : Nat → Bool} (hA : ∀ n, alloc n = true) (pool : Nat) (t : PTable)
    (hv : PV.storedEs t.entries) : Decides t.cloneable (cloneTable alloc pool t) := by
  unfold cloneTable
  by_cases h0 : t.entries.length = 0
  · rw [if_pos h0]
    have : t.entries = [] := List.eq_nil_of_length_eq_zero h0
    exact Decides.congr (by simp [PTable.cloneable, this, PV.cloneableEs]) (Decides.pure _)
  · rw [if_neg h0]
    refine Decides.congr ?_ (Decides.bind' (poolAlloc_Decides hA pool _ _) poolAlloc_size
      fun a ha => Decides.bind (fillBlock_Decides (Nat.le_of_eq ha.symm)) fun _ =>
        Decides.bind (cloneEntries_Decides hA pool t.entries hv) fun _ => Decides.pure _)
    simp only [PTable.cloneable, SIZEOF_ENTRY, true_and, and_true]
    exact ⟨fun h => h.2, fun h => ⟨by omega, h⟩⟩

end Rmq
