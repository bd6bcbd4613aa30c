import Verif.Proofs.Statuses
import Verif.Proofs.Silent
/-!
# Every failure of the larger calls has a documented status
-/
namespace Rmq

/-! ## Copying tables -/

theorem Res.Says.bind {σ α β : Type} {x : M σ α} {f : α → M σ β} {s : σ} {V : β → Prop} (hx : (x s).Says) (hf : ∀ a t, (f a t).Tells V) :
    ((x >>= f) s).Tells V := by
  rw [M.bind_def]
  revert hx
  cases x s with
  | ok a t => exact fun _ => hf a t
  | err e t => exact id
  | ub => exact id
  | fuel => exact id

theorem Res.Says.andThen {α β : Type} {I : Conn → Prop} {x : M Conn α} {f : α → M Conn β} {s : Conn} {V : β → Prop} (hx : (x s).Says) (hI : (x s).All I)
    (hf : ∀ a t, I t → (f a t).Tells V) : ((x >>= f) s).Tells V := by
  rw [M.bind_def]
  revert hx hI
  cases x s with
  | ok a t => exact fun _ h => hf a t h
  | err e t => exact fun h _ => h
  | ub => exact fun h _ => h
  | fuel => exact fun h _ => h

theorem noMem_status : IsStatus St.NO_MEMORY := isStatus_small (by decide) (by decide)
theorem invalid_status : IsStatus St.INVALID_PARAMETER := isStatus_small (by decide) (by decide)

theorem poolAlloc_or (alloc : Nat → Bool) (pool n : Nat) (s : AState) : (M.orFailVal St.NO_MEMORY (poolAlloc alloc pool n) s).Says := by
  unfold M.orFailVal poolAlloc
  by_cases h0 : n = 0
  · rw [if_pos h0]; exact noMem_status
  rw [if_neg h0]
  by_cases h1 : alloc s.allocs = true
  · rw [if_pos h1]; trivial
  · rw [if_neg h1]; exact noMem_status

theorem fillBlock_says (b : Blk) (n : Nat) (s : AState) : (fillBlock b n s).Says := by
  unfold fillBlock; split <;> trivial

theorem dupBytes_says (alloc : Nat → Bool) (pool : Nat) (b : Bytes) (s : AState) : (dupBytes alloc pool b s).Says := by
  unfold dupBytes
  refine Res.Says.bind (poolAlloc_or _ _ _ _) fun p t => ?_
  refine Res.Says.bind (fillBlock_says _ _ _) fun _ u => ?_
  trivial

mutual
theorem cloneFV_says (alloc : Nat → Bool) (pool : Nat) : ∀ (v : PV) (s : AState), (cloneFV alloc pool v s).Says
  | .utf8 _ b, s => by
      rw [cloneFV]
      split
      · trivial
      · exact Res.Says.bind (dupBytes_says _ _ _ _) fun p t => trivial
  | .bytes _ b, s => by
      rw [cloneFV]
      split
      · trivial
      · exact Res.Says.bind (dupBytes_says _ _ _ _) fun p t => trivial
  | .array none _, s => by rw [cloneFV]; trivial
  | .array (some _) vs, s => by
      rw [cloneFV]
      refine Res.Says.bind (poolAlloc_or _ _ _ _) fun p t => ?_
      refine Res.Says.bind (fillBlock_says _ _ _) fun _ u => ?_
      exact Res.Says.bind (cloneFVs_says alloc pool vs _) fun _ _ => trivial
  | .table _ es, s => by
      rw [cloneFV]
      split
      · trivial
      · refine Res.Says.bind (poolAlloc_or _ _ _ _) fun p t => ?_
        refine Res.Says.bind (fillBlock_says _ _ _) fun _ u => ?_
        exact Res.Says.bind (cloneEntries_says alloc pool es _) fun _ _ => trivial
  | .other _, s => by rw [cloneFV]; exact invalid_status
  | .boolean _, s => by rw [cloneFV] <;> first | trivial | (intros; contradiction)
  | .i8 _, s => by rw [cloneFV] <;> first | trivial | (intros; contradiction)
  | .u8 _, s => by rw [cloneFV] <;> first | trivial | (intros; contradiction)
  | .i16 _, s => by rw [cloneFV] <;> first | trivial | (intros; contradiction)
  | .u16 _, s => by rw [cloneFV] <;> first | trivial | (intros; contradiction)
  | .i32 _, s => by rw [cloneFV] <;> first | trivial | (intros; contradiction)
  | .u32 _, s => by rw [cloneFV] <;> first | trivial | (intros; contradiction)
  | .i64 _, s => by rw [cloneFV] <;> first | trivial | (intros; contradiction)
  | .u64 _, s => by rw [cloneFV] <;> first | trivial | (intros; contradiction)
  | .f32 _, s => by rw [cloneFV] <;> first | trivial | (intros; contradiction)
  | .f64 _, s => by rw [cloneFV] <;> first | trivial | (intros; contradiction)
  | .decimal _ _, s => by rw [cloneFV] <;> first | trivial | (intros; contradiction)
  | .timestamp _, s => by rw [cloneFV] <;> first | trivial | (intros; contradiction)
  | .void, s => by rw [cloneFV] <;> first | trivial | (intros; contradiction)
theorem cloneFVs_says (alloc : Nat → Bool) (pool : Nat) : ∀ (vs : List PV) (s : AState), (cloneFVs alloc pool vs s).Says
  | [], s => by rw [cloneFVs]; trivial
  | v :: vs, s => by
      rw [cloneFVs]
      refine Res.Says.bind (cloneFV_says alloc pool v _) fun _ _ => ?_
      exact Res.Says.bind (cloneFVs_says alloc pool vs _) fun _ _ => trivial
theorem cloneEntry_says (alloc : Nat → Bool) (pool : Nat) : ∀ (e : PE) (s : AState), (cloneEntry alloc pool e s).Says
  | .mk _ k v, s => by
      rw [cloneEntry]
      split
      · exact invalid_status
      · refine Res.Says.bind (dupBytes_says _ _ _ _) fun _ _ => ?_
        exact Res.Says.bind (cloneFV_says alloc pool v _) fun _ _ => trivial
theorem cloneEntries_says (alloc : Nat → Bool) (pool : Nat) : ∀ (es : List PE) (s : AState), (cloneEntries alloc pool es s).Says
  | [], s => by rw [cloneEntries]; trivial
  | e :: es, s => by
      rw [cloneEntries]
      refine Res.Says.bind (cloneEntry_says alloc pool e _) fun _ _ => ?_
      exact Res.Says.bind (cloneEntries_says alloc pool es _) fun _ _ => trivial
end

theorem cloneTable_says (alloc : Nat → Bool) (pool : Nat) (t : PTable) (s : AState) : (cloneTable alloc pool t s).Says := by
  unfold cloneTable
  split
  · trivial
  · refine Res.Says.bind (poolAlloc_or _ _ _ _) fun p t => ?_
    refine Res.Says.bind (fillBlock_says _ _ _) fun _ u => ?_
    exact Res.Says.bind (cloneEntries_says _ _ _ _) fun _ _ => trivial

mutual
theorem mergeNested_says (memcmp : Bytes → Bytes → Int) (alloc : Nat → Bool) : ∀ (v : PV) (pool : Nat) (bs : List PE) (s : AState),
    (mergeNested memcmp alloc v pool bs s).Says
  | .table _ ts, pool, bs, s => by
      rw [mergeNested]
      refine Res.Says.bind (poolAlloc_or _ _ _ _) fun p t => ?_
      exact Res.Says.bind (mergeLoop_says memcmp alloc ts _ _ _ _ _) fun _ _ => cloneTable_says _ _ _ _
  | .utf8 _ _, _, _, _ | .bytes _ _, _, _, _ | .array _ _, _, _, _ | .other _, _, _, _ | .boolean _, _, _, _ | .i8 _, _, _, _ | .u8 _, _, _, _
  | .i16 _, _, _, _ | .u16 _, _, _, _ | .i32 _, _, _, _ | .u32 _, _, _, _ | .i64 _, _, _, _ | .u64 _, _, _, _ | .f32 _, _, _, _ | .f64 _, _, _, _
  | .decimal _ _, _, _, _ | .timestamp _, _, _, _ | .void, _, _, _ => by rw [mergeNested] <;> first | trivial | (intros; contradiction)
theorem mergeEntry_says (memcmp : Bytes → Bytes → Int) (alloc : Nat → Bool) : ∀ (e : PE) (tpool cap : Nat) (base temp : List PE) (s : AState),
    (mergeEntry memcmp alloc e tpool cap base temp s).Says
  | .mk kp k v, tpool, cap, base, temp, s => by
      rw [mergeEntry]
      cases getEntryByKey memcmp (temp.map PE.key) k with
      | none => dsimp only; split <;> trivial
      | some i =>
        dsimp only
        cases temp[i]? with
        | none => trivial
        | some e =>
          obtain ⟨ekp, ek, ev⟩ := e
          dsimp only
          by_cases hv : (v.isTable && ev.isTable) = true
          · rw [if_pos hv]
            cases getEntryByKey memcmp (base.map PE.key) k with
            | none => trivial
            | some j =>
              dsimp only
              rcases base[j]? with _ | ⟨a, b, w⟩
              · trivial
              · cases w with
                | table p bs => exact Res.Says.bind (mergeNested_says memcmp alloc v _ _ _) fun _ _ => trivial
                | _ => trivial
          · rw [if_neg hv]; trivial
theorem mergeLoop_says (memcmp : Bytes → Bytes → Int) (alloc : Nat → Bool) : ∀ (add : List PE) (tpool cap : Nat) (base temp : List PE) (s : AState),
    (mergeLoop memcmp alloc add tpool cap base temp s).Says
  | [], _, _, _, _, _ => by rw [mergeLoop]; trivial
  | e :: rest, tpool, cap, base, temp, s => by
      rw [mergeLoop]
      refine Res.Says.bind (mergeEntry_says memcmp alloc e _ _ _ _ _) fun _ _ => ?_
      exact mergeLoop_says memcmp alloc rest _ _ _ _ _
end

theorem mergeCapabilities_says (memcmp : Bytes → Bytes → Int) (alloc : Nat → Bool) (pool : Nat) (base : PTable) (add : Option PTable) (s : AState) :
    (mergeCapabilities memcmp alloc pool base add s).Says := by
  unfold mergeCapabilities
  cases add with
  | none => exact cloneTable_says _ _ _ _
  | some a => exact mergeNested_says _ _ _ _ _ _

/-! ## In the connection -/

variable {E : NetEnv}

theorem withAlloc_says {α : Type} {x : (Nat → Bool) → M AState α} (hx : ∀ a s, (x a s).Says) (s : Conn) : (withAlloc E x s).Says := by
  unfold withAlloc
  have := hx E.pe.alloc ⟨s.ps.allocs⟩
  revert this
  cases x E.pe.alloc ⟨s.ps.allocs⟩ <;> exact id

theorem allocOr_says (s : Conn) : (allocOr E s).Says := by
  unfold allocOr smallAlloc
  cases E.pe.alloc s.ps.allocs
  · exact noMem_status
  · trivial

theorem cloneProp_says (v : Val) (s : Conn) : (cloneProp E v s).Says := by
  unfold cloneProp
  cases v with
  | bytes b =>
    dsimp only
    split
    · trivial
    · exact Res.Says.bind (allocOr_says _) fun _ _ => trivial
  | table t => exact Res.Says.bind (withAlloc_says (fun a s => cloneTable_says a 0 _ s) _) fun _ _ => trivial
  | _ => trivial

theorem cloneProps_says (flags : UInt32) (r : Rec) : ∀ (ps : List (Nat × Fld)) (s : Conn), (cloneProps E flags r ps s).Says := by
  intro ps
  induction ps with
  | nil => intro s; trivial
  | cons p ps ih =>
    intro s
    obtain ⟨bit, f⟩ := p
    unfold cloneProps
    split
    · cases r.get? f with
      | none => trivial
      | some v =>
        refine Res.Says.bind (cloneProp_says v _) fun _ _ => ?_
        exact Res.Says.bind (ih _) fun _ _ => trivial
    · exact ih s

theorem fair_login (hC : ClockFine E) (s0 : Conn) : Login16 E (Fair E s0) (fun _ _ => True) where
  toUpper := (fair_closed hC s0).upper
  allocs := fun _ _ h => h
  publishCheck := publishCheck_closed (fair_closed hC s0).upper fun h => (fair_closed hC s0).tryRecv h
  tune16 := fun {s} cm fm hb mem hh h => by
    have h1 := (hb_login hC).tune16 cm fm hb mem hh h.1
    have h2 := (since_login E s0).tune cm fm hb mem h.2
    revert h1 h2
    cases tune E cm fm hb mem s <;> first | exact fun a b => ⟨a, b⟩ | exact fun a _ => a
  setServer := fun _ h => h
  setClient := fun _ _ h => h

variable (hC : ClockFine E) (hT : Transport E)

theorem bad_status : IsStatus St.BAD_AMQP_DATA := isStatus_small (by decide) (by decide)
theorem unexpected_status : IsStatus St.UNEXPECTED_STATE := isStatus_small (by decide) (by decide)

include hC hT

theorem readBody_says {s0 : Conn} (ch : UInt16) (len : Nat) : ∀ (n : Nat) (got : Bytes) {s : Conn}, Fair E s0 s →
    (readBody E ch len n got s).Tells Outcome.Says := by
  intro n
  induction n with
  | zero => intro got s _; trivial
  | succ n ih =>
    intro got s hs
    unfold readBody
    by_cases hl : got.length < len
    · rw [if_pos hl]
      have h1 := waitFrameOn_says hC hT ch hs
      have h2 := ((fair_login hC s0).waitFrameOn ch hs).all
      revert h1 h2
      cases waitFrameOn E ch s with
      | err e t => intro h1 _; exact h1
      | ub => intros; trivial
      | fuel => intros; trivial
      | ok f t =>
        intro _ h2
        dsimp only
        cases f.frame.payload with
        | body b =>
          dsimp only
          split
          · exact bad_status
          · exact ih _ h2
        | method id args => dsimp only; split <;> first | trivial | exact bad_status
        | _ => exact bad_status
    · rw [if_neg hl]; trivial

theorem readContent_says {s0 : Conn} (ch : UInt16) (size : UInt64) (flags : UInt32) (r : Rec) {s : Conn} (hs : Fair E s0 s) :
    (readContent E ch size flags r s).Tells Outcome.Says := by
  unfold readContent
  have h1 := cloneProps_says (E := E) flags r clonedProps s
  have h2 := (fair_login hC s0).cloneProps flags r clonedProps hs
  revert h1 h2
  cases cloneProps E flags r clonedProps s with
  | err e t => intro h1 _; exact h1
  | ub => intros; trivial
  | fuel => intros; trivial
  | ok props t =>
    intro _ h2
    dsimp only
    have h3 : (if size.toNat = 0 then (.ok () t : Res Conn Unit) else allocOr E t).Says := by
      split
      · trivial
      · exact allocOr_says _
    have h4 : (if size.toNat = 0 then (.ok () t : Res Conn Unit) else allocOr E t).All (Fair E s0) := by
      split
      · exact h2
      · exact (fair_login hC s0).allocOr h2
    revert h3 h4
    generalize (if size.toNat = 0 then (.ok () t : Res Conn Unit) else allocOr E t) = x
    cases x with
    | err e u => intro h1 _; exact h1
    | ub => intros; trivial
    | fuel => intros; trivial
    | ok x u =>
      intro _ h4
      dsimp only
      have h5 := readBody_says hC hT ch size.toNat E.fuel [] h4
      revert h5
      cases readBody E ch size.toNat E.fuel [] u with
      | err e v => exact id
      | ub => exact id
      | fuel => exact id
      | ok o v => cases o <;> exact id

omit hC hT in
theorem putBackThen_says {α : Type} (f : DFrame) (s : Conn) :
    (match putBackIgnored E f s with
      | .ok () s => (.ok (.libraryException St.UNEXPECTED_STATE) s : Res Conn (Outcome α))
      | .err e s => .err e s
      | .ub => .ub
      | .fuel => .fuel).Tells Outcome.Says := by
  unfold putBackIgnored
  cases putBackFrame E f s <;> first | exact unexpected_status | trivial

theorem readMessage_says {s0 : Conn} (ch : UInt16) {s : Conn} (hs : Fair E s0 s) : (readMessage E ch s).Tells Outcome.Says := by
  unfold readMessage
  have h1 := waitFrameOn_says hC hT ch hs
  have h2 := ((fair_login hC s0).waitFrameOn ch hs).all
  revert h1 h2
  cases waitFrameOn E ch s with
  | err e t => intro h1 _; exact h1
  | ub => intros; trivial
  | fuel => intros; trivial
  | ok f t =>
    intro _ h2
    dsimp only
    cases f.frame.payload with
    | header c size flags r => exact readContent_says hC hT ch size flags r h2
    | method id args =>
      dsimp only
      split
      · trivial
      · exact putBackThen_says f t
    | _ => exact putBackThen_says f t

theorem takeDelivery_says {s0 : Conn} (ch : UInt16) (r : Rec) {s : Conn} (hs : Fair E s0 s) : (takeDelivery E ch r s).Tells Outcome.Says := by
  unfold takeDelivery
  rcases r.get? .consumer_tag with _ | _ | _ | _ | _ | ⟨tag⟩ | _ | _ <;> try trivial
  rcases r.get? .delivery_tag with _ | _ | _ | _ | ⟨dt⟩ | _ | _ | _ <;> try trivial
  rcases r.get? .redelivered with _ | _ | _ | _ | _ | _ | _ | ⟨red⟩ <;> try trivial
  rcases r.get? .exchange with _ | _ | _ | _ | _ | ⟨ex⟩ | _ | _ <;> try trivial
  rcases r.get? .routing_key with _ | _ | _ | _ | _ | ⟨rk⟩ | _ | _ <;> try trivial
  dsimp only
  have h1 := (fair_login hC s0).mallocDup tag hs
  revert h1
  generalize mallocDup E tag s = p
  obtain ⟨a, t⟩ := p
  intro h1
  dsimp only at h1 ⊢
  have h2 := (fair_login hC s0).mallocDup ex h1
  revert h2
  generalize mallocDup E ex t = p
  obtain ⟨b, u⟩ := p
  intro h2
  dsimp only at h2 ⊢
  have h3 := (fair_login hC s0).mallocDup rk h2
  revert h3
  generalize mallocDup E rk u = p
  obtain ⟨c, v⟩ := p
  intro h3
  dsimp only at h3 ⊢
  split
  · have h5 := readMessage_says hC hT ch h3
    revert h5
    cases readMessage E ch v with
    | err e v => exact id
    | ub => exact id
    | fuel => exact id
    | ok o v => cases o <;> exact id
  · exact noMem_status

theorem consumeMessage_says {s0 s : Conn} {tv : Option TimeVal} (htv : Short tv) (hs : Fair E s0 s) : (consumeMessage E tv s).Tells Outcome.Says := by
  unfold consumeMessage
  have h1 := waitFrame_says hC hT htv hs
  have h2 := ((fair_login hC s0).waitFrame tv hs).all
  revert h1 h2
  cases waitFrame E tv s with
  | err e t => intro h1 _; exact h1
  | ub => intros; trivial
  | fuel => intros; trivial
  | ok f t =>
    intro _ h2
    dsimp only
    cases f.frame.payload with
    | method id args =>
      dsimp only
      split
      · exact takeDelivery_says hC hT _ _ h2
      · exact putBackThen_says f t
    | _ => exact putBackThen_says f t

theorem confirmWait_says {s0 s : Conn} {tv : Option TimeVal} (htv : Short tv) (hs : Fair E s0 s) : (confirmWait E tv s).Tells Outcome.Says := by
  unfold confirmWait
  have h1 := waitFrame_says hC hT htv hs
  revert h1
  cases waitFrame E tv s with
  | err e t => intro h1; exact h1
  | ub => intros; trivial
  | fuel => intros; trivial
  | ok f t =>
    intro _
    dsimp only
    cases f.frame.payload with
    | method id args =>
      dsimp only
      split
      · exact putBackThen_says f t
      · trivial
    | _ => exact putBackThen_says f t

/-! ## Login -/

omit hC hT in
theorem trySend_le (X flags len : Nat) : ∀ (n : Nat) (left : Bytes) {s t : Conn} {m : Nat}, trySend E X flags len n left s = .ok m t → m ≤ len := by
  intro n
  induction n with
  | zero => intro left s t m h; cases h
  | succ n ih =>
    intro left s t m h
    unfold trySend at h
    revert h
    generalize sockSend E left flags s = p
    obtain ⟨res, u⟩ := p
    dsimp only
    by_cases hr : res > 0
    · rw [if_pos hr]
      by_cases hl : (left.drop res.toNat).length = 0
      · rw [if_pos hl]; intro h; cases h; exact Nat.le_refl _
      · rw [if_neg hl]; exact ih _
    · rw [if_neg hr]
      cases doPoll E res X u with
      | ok x v => exact ih _
      | err e v =>
        dsimp only
        split
        · intro h; cases h; omega
        · intro h; cases h
      | ub => intro h; cases h
      | fuel => intro h; cases h

def Outcome.LoginSays {α : Type} : Outcome α → Prop
  | .libraryException st => LoginStatus st
  | _ => True

theorem header_says {s0 s : Conn} {D : Nat} (hD : Near E s0.time D ∨ D = 0) (hs : Fair E s0 s) :
    (sendHeaderInner E D s).Tells fun r => r = St.OK ∨ LoginStatus r := by
  unfold sendHeaderInner
  have h1 := trySend_says hC hT hD SF_NONE 8 E.fuel protocolHeaderBytes hs
  have h2 := fun {t : Conn} {m : Nat} => trySend_le (E := E) D SF_NONE 8 E.fuel protocolHeaderBytes (s := s) (t := t) (m := m)
  revert h1 h2
  cases trySend E D SF_NONE 8 E.fuel protocolHeaderBytes s with
  | err e t => intro h1 _; exact Or.inr (Or.inl h1)
  | ub => intros; trivial
  | fuel => intros; trivial
  | ok m t =>
    intro _ h2
    have hm := h2 rfl
    show _ ∨ _
    by_cases h8 : m = 8
    · rw [if_pos h8]; exact Or.inl rfl
    · rw [if_neg h8]
      by_cases h0 : m = 0
      · rw [h0]; exact Or.inl rfl
      · exact Or.inr (Or.inr ⟨by omega, by omega⟩)

theorem awaitStart_says {s0 s : Conn} (memcmp : Bytes → Bytes → Int) (sasl : Sasl) {D : Nat} (hD : Near E s0.time D ∨ D = 0) (hs : Fair E s0 s) :
    (awaitStart E memcmp sasl D s).Says := by
  unfold awaitStart
  refine Res.Says.bind (waitMethodList_says hC hT 0 _ hD hs) fun a t => ?_
  obtain ⟨_, r⟩ := a
  dsimp only
  rcases r.get? .version_major with _ | ⟨major⟩ | _ | _ | _ | _ | _ | _ <;> try trivial
  rcases r.get? .version_minor with _ | ⟨minor⟩ | _ | _ | _ | _ | _ | _ <;> try trivial
  rcases r.get? .server_properties with _ | _ | _ | _ | _ | _ | ⟨sp⟩ | _ <;> try trivial
  rcases r.get? .mechanisms with _ | _ | _ | _ | _ | ⟨mech⟩ | _ | _ <;> try trivial
  dsimp only
  by_cases hc : major ≠ 0 ∨ minor ≠ 9
  · rw [if_pos hc]; exact isStatus_small (e := St.INCOMPATIBLE_AMQP_VERSION) (by decide) (by decide)
  · rw [if_neg hc]
    refine Res.Says.bind (withAlloc_says (fun a s => cloneTable_says a 1 _ s) _) fun tb u => ?_
    refine Res.Says.bind (show Res.Says (.ok () { u with serverProps := tb.erase } : Res Conn Unit) from trivial) fun _ v => ?_
    split
    · trivial
    · exact isStatus_small (e := St.BROKER_UNSUPPORTED_SASL_METHOD) (by decide) (by decide)

theorem sendStartOk_says {s0 s : Conn} (b : Build) (memcmp : Bytes → Bytes → Int) (props : Option PTable) (sasl : Sasl) {D : Nat}
    (hD : Near E s0.time D ∨ D = 0) (hs : Fair E s0 s) : (sendStartOk E b memcmp props sasl D s).Says := by
  have h := fair_login hC s0
  unfold sendStartOk sendMethod
  refine Res.Says.andThen (I := Fair E s0) ?_ ?_ fun _ t ht => ?_
  · obtain ⟨a, ps⟩ := getPool E.pe s.ps 0
    cases a
    · exact noMem_status
    · trivial
  · have := Login16.getPool h.toCallClosed 0 hs
    revert this
    obtain ⟨a, ps⟩ := Rmq.getPool E.pe s.ps 0
    cases a <;> exact id
  refine Res.Says.andThen (I := Fair E s0) ?_ ?_ fun resp u hu => ?_
  · unfold saslResponse
    cases sasl with
    | plain u p => exact Res.Says.bind (allocOr_says _) fun _ _ => trivial
    | external i =>
      dsimp only
      split
      · exact noMem_status
      · exact Res.Says.bind (allocOr_says _) fun _ _ => trivial
  · unfold saslResponse
    cases sasl with
    | plain u p => exact Res.All.bind (h.allocOr ht) fun _ v hv => hv
    | external i =>
      dsimp only
      by_cases h0 : i.length = 0
      · rw [if_pos h0]; exact ht
      · rw [if_neg h0]; exact Res.All.bind (h.allocOr ht) fun _ v hv => hv
  refine Res.Says.andThen (withAlloc_says (fun a s => mergeCapabilities_says memcmp a 0 _ _ s) _) (h.withAlloc _ hu) fun tb v hv => ?_
  refine Res.Says.andThen (I := Fair E s0) (x := fun s => .ok () { s with clientProps := tb.erase, clientBorn := s.time }) trivial (h.setClient _ _ hv) fun _ w hw => ?_
  exact sendFrame_says hC hT _ _ hD hw

theorem tuneOk_says {s0 s : Conn} (mem : Nat → UInt8) (v : UInt16 × UInt32 × UInt16) {D : Nat} (hD : Near E s0.time D ∨ D = 0) (hs : Fair E s0 s) :
    (tuneOk E mem v D s).Says := by
  unfold tuneOk sendMethod
  exact Res.Says.andThen (tune_says _ _ _ _ _) ((fair_login hC s0).tune16 _ _ _ _ (by have := v.2.2.toNat_lt; omega) hs) fun _ t ht =>
    sendFrame_says hC hT _ _ hD ht

theorem openVhost_says {s0 s : Conn} (vhost : Bytes) {D : Nat} (hD : Near E s0.time D ∨ D = 0) (hs : Fair E s0 s) :
    (openVhost E vhost D s).Tells Outcome.Says := by
  unfold openVhost
  have h1 := rpcInner_says hC hT 0 CONNECTION_OPEN [CONNECTION_OPEN_OK]
      [(.virtual_host, .bytes vhost), (.capabilities, .bytes []), (.insist, .bool 1)] hD hs
  revert h1
  cases Rmq.rpcInner E 0 CONNECTION_OPEN [CONNECTION_OPEN_OK]
      [(.virtual_host, .bytes vhost), (.capabilities, .bytes []), (.insist, .bool 1)] D s with
  | err e t => exact id
  | ub => exact id
  | fuel => exact id
  | ok r t => cases r <;> first | exact id | exact fun _ => trivial

omit hC hT in
theorem releaseBuffers_says (s : Conn) : (releaseBuffers s).Says := by
  unfold releaseBuffers; split <;> trivial

/-- What `login` says of its steps. -/
def Res.LoginSays {α : Type} (V : α → Prop) : Res Conn α → Prop
  | .ok a _ => V a
  | .err e _ => LoginStatus e
  | _ => True

omit hC hT in
theorem Res.Tells.login {α : Type} {V W : α → Prop} {r : Res Conn α} (h : r.Tells V) (hV : ∀ a, V a → W a) : r.LoginSays W := by
  cases r <;> first | exact hV _ h | exact Or.inl h | trivial

theorem loginSteps_says {s0 s : Conn} (b : Build) (memcmp : Bytes → Bytes → Int) (mem : Nat → UInt8) (a : LoginArgs) {tv : Option TimeVal} (htv : Short tv)
    (hs : Fair E s0 s) : (loginSteps E b memcmp mem a tv s).LoginSays Outcome.LoginSays := by
  unfold loginSteps
  rw [M.bind_def]
  have h1 := fromNow_near hC htv s
  cases hd : fromNowIO E tv s with
  | err e t => rw [hd] at h1; exact Or.inl h1.1
  | ub => trivial
  | fuel => trivial
  | ok d t =>
    rw [hd] at h1
    have hd' : d ≤ TIME_INF := Login16.fromNowIO_le hd
    have ht : Fair E t t := (Fair.tick hC hs h1.2).base
    have hD := h1.1
    have h := fair_login hC t
    dsimp only
    rw [M.bind_def]
    have h2 := header_says hC hT hD ht
    have h3 := h.sendHeaderInner d ht
    revert h2 h3
    cases sendHeaderInner E d t with
    | err e u => intro h2 _; exact Or.inl h2
    | ub => intros; trivial
    | fuel => intros; trivial
    | ok r u =>
      intro h2 hu
      dsimp only
      by_cases hr : r ≠ St.OK
      · rw [if_pos hr]
        rcases (h2 : _ ∨ _) with h2 | h2
        · exact absurd h2 hr
        · exact h2
      rw [if_neg hr]
      refine Res.Tells.login (V := Outcome.Says) ?_ (by intro o ho; cases o <;> first | exact Or.inl ho | trivial)
      refine Res.Says.andThen (awaitStart_says hC hT memcmp a.sasl hD hu) (h.awaitStart memcmp a.sasl d hu) fun _ v hv => ?_
      refine Res.Says.andThen (sendStartOk_says hC hT b memcmp a.clientProperties a.sasl hD hv) (h.sendStartOk b memcmp a.clientProperties a.sasl d hd' hv) fun _ w hw => ?_
      refine Res.Says.andThen (releaseBuffers_says _) (h.releaseBuffers hw) fun _ x hx => ?_
      refine Res.Says.andThen (waitMethodList_says hC hT 0 _ hD hx) (h.waitMethodList 0 _ d hx) fun p y hy => ?_
      obtain ⟨id, r⟩ := p
      dsimp only
      split
      · trivial
      · rcases r.get? .channel_max with _ | _ | ⟨c⟩ | _ | _ | _ | _ | _ <;> try trivial
        rcases r.get? .frame_max with _ | _ | _ | ⟨f⟩ | _ | _ | _ | _ <;> try trivial
        rcases r.get? .heartbeat with _ | _ | ⟨hb⟩ | _ | _ | _ | _ | _ <;> try trivial
        refine Res.Says.andThen (tuneOk_says hC hT mem _ hD hy) (h.tuneOk mem _ d hd' hy) fun _ z hz => ?_
        refine Res.Says.andThen (releaseBuffers_says _) (h.releaseBuffers hz) fun _ z' hz' => ?_
        exact openVhost_says hC hT a.vhost hD hz'

theorem login_says {s0 s : Conn} (b : Build) (memcmp : Bytes → Bytes → Int) (mem : Nat → UInt8) (a : LoginArgs) (htv : Short (getHandshakeTimeout s.timeouts))
    (hs : Fair E s0 s) : (login E b memcmp mem a s).LoginSays Outcome.LoginSays := by
  unfold login loginInner
  split
  · exact Or.inl invalid_status
  split
  · exact Or.inl invalid_status
  split
  · exact Or.inl invalid_status
  have h1 := loginSteps_says hC hT b memcmp mem a htv hs
  revert h1
  cases loginSteps E b memcmp mem a (getHandshakeTimeout s.timeouts) s <;> exact id

end Rmq
