import Verif.Proofs.Silent
import Verif.Proofs.MethodOut
import Verif.Spec.Login
import Verif.Props.Send
/-!
# The steps of login
-/
namespace Rmq

theorem M.bind_ok {σ α β : Type} {x : M σ α} {f : α → M σ β} {s u : σ} {b : β} (h : (x >>= f) s = .ok b u) :
    ∃ a t, x s = .ok a t ∧ f a t = .ok b u := by
  rw [M.bind_def] at h
  cases hx : x s with
  | ok a t => rw [hx] at h; exact ⟨a, t, rfl, h⟩
  | err e t => rw [hx] at h; cases h
  | ub => rw [hx] at h; cases h
  | fuel => rw [hx] at h; cases h

theorem M.bind_err {σ α β : Type} {x : M σ α} {f : α → M σ β} {s u : σ} {e : Int} (h : (x >>= f) s = .err e u) :
    x s = .err e u ∨ ∃ a t, x s = .ok a t ∧ f a t = .err e u := by
  rw [M.bind_def] at h
  cases hx : x s with
  | ok a t => rw [hx] at h; exact Or.inr ⟨a, t, rfl, h⟩
  | err e' t => rw [hx] at h; cases h; exact Or.inl rfl
  | ub => rw [hx] at h; cases h
  | fuel => rw [hx] at h; cases h

/-! ## The protocol header -/

theorem sendHeaderInner_eff (E : NetEnv) (d : Nat) {s s' : Conn} {r : Int} (h : sendHeaderInner E d s = .ok r s') :
    ∃ l k, s' = s.ext l ∧ (∀ e ∈ l, e.sendish SF_NONE = true) ∧ sentBytes l = protocolHeaderBytes.take k ∧ (r = St.OK → k = 8 ∨ k = 0) := by
  unfold sendHeaderInner at h
  have h1 := trySend_eff E d SF_NONE 8 E.fuel protocolHeaderBytes s (Nat.le_refl _)
  have h3 := fun s' e => trySend_err (E := E) d SF_NONE 8 E.fuel protocolHeaderBytes s s' e
  have hlen : protocolHeaderBytes.length = 8 := rfl
  cases ht : trySend E d SF_NONE 8 E.fuel protocolHeaderBytes s with
  | ub => rw [ht] at h; cases h
  | fuel => rw [ht] at h; cases h
  | err e t =>
    rw [ht] at h h1
    cases h
    obtain ⟨k, l, rfl, hl, _, hs⟩ := h1
    exact ⟨l, k, rfl, hl, hs, fun he => absurd he (h3 _ _ ht)⟩
  | ok n t =>
    rw [ht] at h h1
    cases h
    obtain ⟨k, ⟨l, rfl, hl, _, hs⟩, hk⟩ := h1
    refine ⟨l, k, rfl, hl, hs, fun he => ?_⟩
    by_cases hn : n = 8
    · exact Or.inl (by omega)
    · rw [if_neg hn] at he
      have : n = 0 := by
        have h0 : St.OK = 0 := rfl
        omega
      exact Or.inr (by omega)

theorem sendHeaderInner_not_err (E : NetEnv) (d : Nat) {s s' : Conn} {e : Int} : sendHeaderInner E d s ≠ .err e s' := by
  unfold sendHeaderInner
  cases trySend E d SF_NONE 8 E.fuel protocolHeaderBytes s <;> exact fun h => nomatch h

/-! ## Waiting for a method -/

theorem waitMethodList_ok {E : NetEnv} {ch : UInt16} {expected : List UInt32} {d : Nat} {s s' : Conn} {id : UInt32} {r : Rec}
    (h : waitMethodList E ch expected d s = .ok (id, r) s') :
    ∃ s1, QuietStep s s1 ∧ Received E s1 ⟨ch, .method id r⟩ s' ∧ id ∈ expected := by
  unfold waitMethodList at h
  obtain ⟨tv, s1, h1, h⟩ := M.bind_ok h
  obtain ⟨f, t, h2, h⟩ := M.bind_ok h
  have hq := tvUntilIO_quiet E d s
  rw [h1] at hq
  obtain ⟨⟨fch, fp⟩, fb⟩ := f
  dsimp only at h
  cases fp <;> dsimp only at h
  case method id' args =>
    by_cases hc : fch = ch ∧ id' ∈ expected
    · rw [if_pos hc] at h
      cases h
      obtain ⟨rfl, hm⟩ := hc
      exact ⟨s1, hq, ⟨tv, _, h2, rfl⟩, hm⟩
    · rw [if_neg hc] at h; cases h
  all_goals cases h

theorem Received.idle {E : NetEnv} {s s' : Conn} {f : AFrame} (h : Received E s f s') (h0 : HbOff s) : Idle s s' := by
  obtain ⟨tv, d, h, _⟩ := h
  have := waitFrame_idle (E := E) tv h0
  rw [h] at this
  exact this

theorem waitMethodList_idle {E : NetEnv} (ch : UInt16) (expected : List UInt32) (d : Nat) {s : Conn} (h0 : HbOff s) :
    (waitMethodList E ch expected d s).All (Idle s) := by
  unfold waitMethodList
  refine Res.All.bind (I := Idle s) ?_ fun tv t ht => Res.All.bind ?_ fun f u hu => ?_
  · have hq := tvUntilIO_quiet E d s
    revert hq
    cases tvUntilIO E d s with
    | ok a t => exact fun h => Idle.quiet h
    | err e t => exact fun h => Idle.quiet h
    | ub => exact id
    | fuel => exact id
  · have := waitFrame_idle (E := E) tv (ht.off h0)
    revert this
    cases waitFrame E tv t with
    | ok a u => exact fun h => ht.trans h
    | err e u => exact fun h => ht.trans h
    | ub => exact id
    | fuel => exact id
  · cases f.frame.payload <;> dsimp only
    case method id args =>
      split
      · exact hu
      · exact hu
    all_goals exact hu

/-! ## SASL -/

theorem nextWord_spec : ∀ (bs w : Bytes) (rest : Option Bytes), nextWord bs = (w, rest) →
    SPACE ∉ w ∧ (match rest with | none => bs = w | some r => bs = w ++ SPACE :: r)
  | [], w, rest, h => by cases h; exact ⟨by simp, rfl⟩
  | b :: bs, w, rest, h => by
    unfold nextWord at h
    by_cases hb : b = 32
    · rw [if_pos hb] at h
      cases h
      subst hb
      exact ⟨by simp, rfl⟩
    · rw [if_neg hb] at h
      rcases hw : nextWord bs with ⟨w', r'⟩
      rw [hw] at h
      injection h with e1 e2
      subst e1 e2
      obtain ⟨h1, h2⟩ := nextWord_spec bs w' r' hw
      refine ⟨?_, ?_⟩
      · intro hm
        rcases List.mem_cons.1 hm with hm | hm
        · exact hb hm.symm
        · exact h1 hm
      · cases r' with
        | none => simpa using h2
        | some r => simpa using h2

theorem bytesEq_iff {memcmp : Bytes → Bytes → Int} (hM : MemcmpExact memcmp) (l r : Bytes) : bytesEq memcmp l r = true ↔ l = r := by
  unfold bytesEq
  constructor
  · intro h
    rw [Bool.and_eq_true] at h
    have h1 : l.length = r.length := by simpa using h.1
    exact (hM l r h1).1 (by simpa using h.2)
  · rintro rfl
    have := (hM l l rfl).2 rfl
    simp [this]

/-- The words of a list, from its beginning. -/
theorem isWord_split {name w : Bytes} {rest : Option Bytes} {bs : Bytes} (hn : SPACE ∉ name) (h : nextWord bs = (w, rest)) :
    IsWord name bs ↔ name = w ∨ ∃ r, rest = some r ∧ IsWord name r := by
  obtain ⟨hw, hb⟩ := nextWord_spec bs w rest h
  constructor
  · rintro ⟨_, pre, post, he, hpre, hpost⟩
    rcases hpre with rfl | ⟨p, rfl⟩
    · -- the first word
      left
      cases rest with
      | none =>
        dsimp only at hb
        rcases hpost with rfl | ⟨q, rfl⟩
        · rw [← hb, he]; simp
        · exfalso
          apply hw
          rw [← hb, he]; simp
      | some r =>
        dsimp only at hb
        rw [hb] at he
        rw [List.nil_append] at he
        rcases hpost with rfl | ⟨q, rfl⟩
        · exfalso; apply hn
          rw [List.append_nil] at he
          rw [← he]; simp
        · rcases List.append_eq_append_iff.1 he with ⟨a, h1, h2⟩ | ⟨a, h1, h2⟩
          · cases a with
            | nil => simpa using h1
            | cons x a =>
              exfalso; apply hn
              rw [List.cons_append] at h2
              injection h2 with h2 _
              rw [h1, ← h2]; simp
          · cases a with
            | nil => simpa using h1.symm
            | cons x a =>
              exfalso; apply hw
              rw [List.cons_append] at h2
              injection h2 with h2 _
              rw [h1, ← h2]; simp
    · right
      cases rest with
      | none =>
        exfalso; apply hw
        dsimp only at hb
        rw [← hb, he]; simp
      | some r =>
        dsimp only at hb
        rw [hb] at he
        refine ⟨r, rfl, hn, ?_⟩
        have e2 : p ++ [SPACE] ++ name ++ post = p ++ SPACE :: (name ++ post) := by simp
        rw [e2] at he
        rcases List.append_eq_append_iff.1 he with ⟨a, h1, h2⟩ | ⟨a, h1, h2⟩
        · cases a with
          | nil =>
            rw [List.nil_append] at h2
            injection h2 with _ h2
            exact ⟨[], post, by rw [h2]; simp, Or.inl rfl, hpost⟩
          | cons x a =>
            rw [List.cons_append] at h2
            injection h2 with h2 h3
            exact ⟨a ++ [SPACE], post, by rw [h3]; simp, Or.inr ⟨a, rfl⟩, hpost⟩
        · cases a with
          | nil =>
            rw [List.nil_append] at h2
            injection h2 with _ h2
            exact ⟨[], post, by rw [← h2]; simp, Or.inl rfl, hpost⟩
          | cons x a =>
            exfalso; apply hw
            rw [List.cons_append] at h2
            injection h2 with h2 _
            rw [h1, ← h2]; simp
  · rintro (rfl | ⟨r, rfl, _, pre, post, he, hpre, hpost⟩)
    · refine ⟨hn, [], ?_⟩
      cases rest with
      | none => exact ⟨[], by simpa using hb, Or.inl rfl, Or.inl rfl⟩
      | some r => exact ⟨SPACE :: r, by simpa using hb, Or.inl rfl, Or.inr ⟨r, rfl⟩⟩
    · dsimp only at hb
      refine ⟨hn, w ++ [SPACE] ++ pre, post, by rw [hb, he]; simp, ?_, hpost⟩
      rcases hpre with rfl | ⟨p, rfl⟩
      · exact Or.inr ⟨w, by simp⟩
      · exact Or.inr ⟨w ++ [SPACE] ++ p, by simp⟩

theorem mechLoop_iff {memcmp : Bytes → Bytes → Int} (hM : MemcmpExact memcmp) {name : Bytes} (hn : SPACE ∉ name) : ∀ (n : Nat) (bs : Bytes),
    bs.length < n → (mechLoop memcmp name n bs = true ↔ IsWord name bs) := by
  intro n
  induction n with
  | zero => intro bs h; omega
  | succ n ih =>
    intro bs hb
    unfold mechLoop
    rcases hw : nextWord bs with ⟨w, rest⟩
    dsimp only
    rw [isWord_split hn hw]
    by_cases he : bytesEq memcmp name w = true
    · rw [if_pos he]
      simp only [true_iff]
      exact Or.inl ((bytesEq_iff hM _ _).1 he)
    rw [if_neg he]
    have hne : name ≠ w := fun h => he ((bytesEq_iff hM _ _).2 h)
    have hsp := (nextWord_spec bs w rest hw).2
    cases rest with
    | none =>
      constructor
      · intro h; cases h
      · rintro (h | ⟨r, h, _⟩)
        · exact absurd h hne
        · cases h
    | some r =>
      dsimp only at hsp ⊢
      rw [ih r (by rw [hsp, List.length_append, List.length_cons] at hb; omega)]
      constructor
      · intro h; exact Or.inr ⟨r, rfl, h⟩
      · rintro (h | ⟨r', h, h2⟩)
        · exact absurd h hne
        · cases h; exact h2

theorem Sasl.name_eq (m : Sasl) : m.name = cstr m.ianaName := by
  cases m
  · show ([80, 76, 65, 73, 78] : Bytes) = cstr "PLAIN"; decide +kernel
  · show ([69, 88, 84, 69, 82, 78, 65, 76] : Bytes) = cstr "EXTERNAL"; decide +kernel
theorem Sasl.name_space (m : Sasl) : SPACE ∉ m.name := by cases m <;> simp [Sasl.name, SPACE]
theorem Sasl.name_ne (m : Sasl) : m.name ≠ [] := by cases m <;> simp [Sasl.name]

theorem mechanismInList_iff {memcmp : Bytes → Bytes → Int} (hM : MemcmpExact memcmp) (mech : Bytes) (m : Sasl) :
    mechanismInList memcmp mech m = true ↔ IsWord (cstr m.ianaName) mech := by
  rw [← Sasl.name_eq]
  unfold mechanismInList
  by_cases h0 : mech.length = 0
  · rw [if_pos h0]
    constructor
    · intro h; cases h
    · rintro ⟨_, pre, post, he, _, _⟩
      have : mech = [] := List.length_eq_zero_iff.1 h0
      rw [this] at he
      have := (List.append_eq_nil_iff.1 (List.append_eq_nil_iff.1 he.symm).1).2
      exact absurd this m.name_ne
  · rw [if_neg h0]; exact mechLoop_iff hM m.name_space _ _ (by omega)

/-! ## connection.start -/

theorem withAlloc_eff (E : NetEnv) {α : Type} (x : (Nat → Bool) → M AState α) (s : Conn) :
    (withAlloc E x s).All fun s' => ∃ n, s' = { s with ps := { s.ps with allocs := n } } := by
  unfold withAlloc
  cases x E.pe.alloc ⟨s.ps.allocs⟩ with
  | ok a t => exact ⟨_, rfl⟩
  | err e t => exact ⟨_, rfl⟩
  | ub => trivial
  | fuel => trivial

theorem Idle.allocs (s : Conn) (n : Nat) (p : List UInt16) : Idle s { s with ps := { s.ps with allocs := n, pools := p } } :=
  ⟨{ s.ps with allocs := n, pools := p }, s.inb, s.queue, s.isOpen, [], by simp [Conn.ext], List.suffix_refl _, by simp⟩


theorem awaitStart_idle {E : NetEnv} (memcmp : Bytes → Bytes → Int) (sasl : Sasl) (d : Nat) {s : Conn} (h0 : HbOff s) :
    (awaitStart E memcmp sasl d s).All fun s' => ∃ t sp, Idle s t ∧ s' = { t with serverProps := sp } := by
  unfold awaitStart
  have same : ∀ {t : Conn}, Idle s t → ∃ t' sp, Idle s t' ∧ t = { t' with serverProps := sp } := fun {t} h => ⟨t, t.serverProps, h, rfl⟩
  rw [M.bind_def]
  have h1 := waitMethodList_idle (E := E) 0 [CONNECTION_START] d h0
  revert h1
  cases waitMethodList E 0 [CONNECTION_START] d s with
  | err e t => exact same
  | ub => exact fun _ => trivial
  | fuel => exact fun _ => trivial
  | ok a t =>
    intro ht
    obtain ⟨_, r⟩ := a
    dsimp only
    rcases r.get? .version_major with _ | ⟨major⟩ | _ | _ | _ | _ | _ | _ <;> try trivial
    rcases r.get? .version_minor with _ | ⟨minor⟩ | _ | _ | _ | _ | _ | _ <;> try trivial
    rcases r.get? .server_properties with _ | _ | _ | _ | _ | _ | ⟨sp⟩ | _ <;> try trivial
    rcases r.get? .mechanisms with _ | _ | _ | _ | _ | ⟨mech⟩ | _ | _ <;> try trivial
    dsimp only
    by_cases hc : major ≠ 0 ∨ minor ≠ 9
    · rw [if_pos hc]; exact same ht
    rw [if_neg hc]
    refine Res.All.bind (I := fun s' => ∃ t sp, Idle s t ∧ s' = { t with serverProps := sp }) ?_ fun tb u hu => ?_
    · have := withAlloc_eff E (fun alloc => cloneTable alloc 1 (storeTable sp)) t
      revert this
      cases withAlloc E (fun alloc => cloneTable alloc 1 (storeTable sp)) t with
      | ok a u => rintro ⟨n, rfl⟩; exact same (Idle.trans ht (.allocs t n t.ps.pools))
      | err e u => rintro ⟨n, rfl⟩; exact same (Idle.trans ht (.allocs t n t.ps.pools))
      | ub => exact id
      | fuel => exact id
    · obtain ⟨v, sp', hv, rfl⟩ := hu
      refine Res.All.bind (show Res.All (fun s' => ∃ t sp, Idle s t ∧ s' = { t with serverProps := sp }) (.ok () { v with serverProps := tb.erase })
        from ⟨v, _, hv, rfl⟩) fun _ w hw => ?_
      split
      · exact hw
      · exact hw

theorem awaitStart_ok {E : NetEnv} {memcmp : Bytes → Bytes → Int} (hM : MemcmpExact memcmp) {sasl : Sasl} {d : Nat} {s s' : Conn}
    (h : awaitStart E memcmp sasl d s = .ok () s') :
    ∃ s1 s2 f n sp, QuietStep s s1 ∧ Received E s1 f s2 ∧ SuitableStart sasl f ∧
      s' = { s2 with ps := { s2.ps with allocs := n }, serverProps := sp } := by
  unfold awaitStart at h
  obtain ⟨⟨id, r⟩, t, h1, h⟩ := M.bind_ok h
  obtain ⟨s1, hq, hr, hid⟩ := waitMethodList_ok h1
  dsimp only at h
  have hid : id = CONNECTION_START := by simpa using hid
  subst hid
  revert h
  rcases h2 : r.get? .version_major with _ | ⟨major⟩ | _ | _ | _ | _ | _ | _ <;> try (intro h; cases h)
  rcases h3 : r.get? .version_minor with _ | ⟨minor⟩ | _ | _ | _ | _ | _ | _ <;> try (intro h; cases h)
  rcases h4 : r.get? .server_properties with _ | _ | _ | _ | _ | _ | ⟨sp⟩ | _ <;> try (intro h; cases h)
  rcases h5 : r.get? .mechanisms with _ | _ | _ | _ | _ | ⟨mech⟩ | _ | _ <;> try (intro h; cases h)
  intro h
  dsimp only at h
  by_cases hc : major ≠ 0 ∨ minor ≠ 9
  · rw [if_pos hc] at h; cases h
  rw [if_neg hc] at h
  have hma : major = 0 := Classical.byContradiction fun hh => hc (Or.inl hh)
  have hmi : minor = 9 := Classical.byContradiction fun hh => hc (Or.inr hh)
  subst hma hmi
  obtain ⟨tb, u, h6, h⟩ := M.bind_ok h
  obtain ⟨_, v, h7, h⟩ := M.bind_ok h
  cases h7
  by_cases hm : mechanismInList memcmp mech sasl = true
  · rw [if_pos hm] at h
    cases h
    have h8 := withAlloc_eff E (fun alloc => cloneTable alloc 1 (storeTable sp)) t
    rw [h6] at h8
    obtain ⟨n, rfl⟩ := h8
    exact ⟨s1, t, _, n, _, hq, hr, ⟨r, mech, rfl, h2, h3, h5, (mechanismInList_iff hM _ _).1 hm⟩, rfl⟩
  · rw [if_neg hm] at h; cases h

/-! ## connection.start-ok -/

def startOkProto : Proto := ⟨10, 11, "connection", "start-ok", [(.client_properties, .table), (.mechanism, .shortstr), (.response, .longstr),
    (.locale, .shortstr)], false⟩
def tuneOkProto : Proto := ⟨10, 31, "connection", "tune-ok", [(.channel_max, .short), (.frame_max, .long), (.heartbeat, .short)], false⟩
def openProto : Proto := ⟨10, 40, "connection", "open", [(.virtual_host, .shortstr), (.capabilities, .shortstr), (.insist, .bit)], false⟩

theorem startOk_frame (tb : Table) (m r : Bytes) : methodFrame 0 startOkProto [(.client_properties, .table tb), (.mechanism, .bytes m),
    (.response, .bytes r), (.locale, .bytes (cstr "en_US"))] = startOkFrame tb m r := by
  have h : beBytes 4 startOkProto.id.toNat = [0, 10, 0, 11] := by decide +kernel
  unfold methodFrame startOkFrame
  rw [h]
  simp [startOkProto, serArgs, serDom, serBits, FRAME_END]

theorem tuneOk_frame (c : UInt16) (f : UInt32) (h : UInt16) : methodFrame 0 tuneOkProto [(.channel_max, .u16 c), (.frame_max, .u32 f),
    (.heartbeat, .u16 h)] = tuneOkFrame c f h := by
  have h : beBytes 4 tuneOkProto.id.toNat = [0, 10, 0, 31] := by decide +kernel
  unfold methodFrame tuneOkFrame
  rw [h]
  simp [tuneOkProto, serArgs, serDom, serBits, FRAME_END]

theorem open_frame (v : Bytes) : methodFrame 0 openProto [(.virtual_host, .bytes v), (.capabilities, .bytes []), (.insist, .bool 1)] =
    openFrame v := by
  have h : beBytes 4 openProto.id.toNat = [0, 10, 0, 40] := by decide +kernel
  have h2 : serShort [] = [0] := by decide
  have h3 : serBits [true] = [1] := by decide
  unfold methodFrame openFrame
  rw [h]
  simp [openProto, serArgs, serDom, FRAME_END, h2]
  have : serBits [] = [] := rfl
  simp [this]
  rw [h3]

/-- The output side is ready for a method. -/
def SendReady (s : Conn) : Prop := OutReady s ∧ s.outLen < 2 ^ 32 ∧ 12 ≤ s.outLen

theorem Idle.ready {s s' : Conn} (h : Idle s s') (h0 : SendReady s) : SendReady s' := by
  have h1 := h.hush.outReady h0.1
  exact ⟨h1.1, by rw [h1.2]; exact h0.2.1, by rw [h1.2]; exact h0.2.2⟩

theorem sentBytes_of_tagged {l : List Ev} {bs : Bytes} {fl : Nat} (h : sentTagged l = Bytes.flagged bs fl) : sentBytes l = bs := by
  rw [← sentTagged_bytes, h]
  simp [Bytes.flagged, Function.comp_def]

/-- A method sent with success, with heartbeats off. -/
theorem sendMethod_off {E : NetEnv} {p : Proto} {r : Rec} (hp : p ∈ protocol) (hr : HasArgs p.args r) (ch : UInt16) (flags deadline : Nat)
    (hd : deadline ≤ TIME_INF) {s s' : Conn} (h0 : HbOff s) (hO : SendReady s) (h : sendMethod E ch p.id r flags deadline s = .ok () s') :
    HbOff s' ∧ SendReady s' ∧ ∃ l m t, s' = { s.ext l with outMem := m, nextSend := t } ∧ sentBytes l = methodFrame ch p r := by
  have h1 := sendMethod_wire hp hr ch flags deadline hO.1 hO.2.1 hO.2.2 h
  have h2 := sendFrame_ext (E := E) ⟨ch, .method p.id r⟩ flags deadline hd (s := s) (Or.inr h0)
  have h3 := (off_closed E).sendFrame ⟨ch, .method p.id r⟩ flags deadline h0
  unfold sendMethod at h
  rw [h] at h2 h3
  obtain ⟨l, m, t, rfl, _⟩ := h2
  obtain ⟨_, h4, h5, l', h6, h7⟩ := h1
  have : l = l' := List.append_cancel_left h6
  subst this
  exact ⟨h3, ⟨h4, by rw [h5]; exact hO.2.1, by rw [h5]; exact hO.2.2⟩, l, m, t, rfl, sentBytes_of_tagged h7⟩

theorem saslResponse_eff (E : NetEnv) (m : Sasl) (s : Conn) : (saslResponse E m s).All fun s' => ∃ n, s' = { s with ps := { s.ps with allocs := n } } := by
  have hA : (allocOr E s).All fun s' => ∃ n, s' = { s with ps := { s.ps with allocs := n } } := by
    unfold allocOr smallAlloc
    dsimp only
    cases E.pe.alloc s.ps.allocs
    · exact ⟨_, rfl⟩
    · exact ⟨_, rfl⟩
  unfold saslResponse
  cases m with
  | plain u p => exact Res.All.bind hA fun _ v hv => hv
  | external i =>
    dsimp only
    by_cases h0 : i.length = 0
    · rw [if_pos h0]; exact ⟨s.ps.allocs, rfl⟩
    · rw [if_neg h0]; exact Res.All.bind hA fun _ v hv => hv

theorem saslResponse_ok {E : NetEnv} {m : Sasl} {s s' : Conn} {r : Bytes} (h : saslResponse E m s = .ok r s') : r = m.response := by
  unfold saslResponse at h
  cases m with
  | plain u p =>
    obtain ⟨_, _, _, h⟩ := M.bind_ok h
    cases h; rfl
  | external i =>
    dsimp only at h
    by_cases h0 : i.length = 0
    · rw [if_pos h0] at h; cases h
    · rw [if_neg h0] at h
      obtain ⟨_, _, _, h⟩ := M.bind_ok h
      cases h; rfl

theorem getPool_mem0 {E : PEnv} {ps ps' : PState} {ch : UInt16} (h : getPool E ps ch = (true, ps')) : ch ∈ ps'.pools := by
  unfold getPool at h
  split at h
  · cases h; assumption
  · split at h
    · cases h; simp
    · cases h

theorem getPool_eff (E : PEnv) (ps : PState) (ch : UInt16) : ∃ n p, (getPool E ps ch).2 = { ps with allocs := n, pools := p } := by
  unfold getPool
  split
  · exact ⟨ps.allocs, ps.pools, rfl⟩
  · split
    · exact ⟨_, _, rfl⟩
    · exact ⟨_, ps.pools, rfl⟩

theorem withAlloc_run {E : NetEnv} {α : Type} {x : (Nat → Bool) → M AState α} {s s' : Conn} {a : α} (h : withAlloc E x s = .ok a s') :
    ∃ u v, x E.pe.alloc u = .ok a v := by
  unfold withAlloc at h
  cases hx : x E.pe.alloc ⟨s.ps.allocs⟩ with
  | ok r y => rw [hx] at h; cases h; exact ⟨_, _, hx⟩
  | err e y => rw [hx] at h; cases h
  | ub => rw [hx] at h; cases h
  | fuel => rw [hx] at h; cases h

theorem sendStartOk_ok {E : NetEnv} {b : Build} {memcmp : Bytes → Bytes → Int} {props : Option PTable} {sasl : Sasl} {d : Nat}
    (hd : d ≤ TIME_INF) {s s' : Conn} (h0 : HbOff s) (hO : SendReady s) (h : sendStartOk E b memcmp props sasl d s = .ok () s') :
    HbOff s' ∧ SendReady s' ∧ ∃ l n p tb m t, s' = { s.ext l with ps := { s.ps with allocs := n, pools := p }, clientProps := tb, clientBorn := s.log.length, outMem := m, nextSend := t } ∧ 0 ∈ p ∧ sentBytes l = startOkFrame tb (cstr sasl.ianaName) sasl.response ∧
      ∃ r x y, mergeCapabilities memcmp E.pe.alloc 0 (defaultProperties b) props x = .ok r y ∧ r.erase = tb := by
  unfold sendStartOk at h
  obtain ⟨_, t1, h1, h⟩ := M.bind_ok h
  obtain ⟨resp, t2, h2, h⟩ := M.bind_ok h
  obtain ⟨tb, t3, h3, h⟩ := M.bind_ok h
  obtain ⟨_, t4, h4, h⟩ := M.bind_ok h
  cases h4
  have e1 : ∃ n p, t1 = { s with ps := { s.ps with allocs := n, pools := p } } ∧ 0 ∈ p := by
    have hg := getPool_eff E.pe s.ps 0
    have hm := fun ps' => getPool_mem0 (E := E.pe) (ps := s.ps) (ps' := ps') (ch := 0)
    revert h1 hg hm
    dsimp only
    rcases getPool E.pe s.ps 0 with ⟨_ | _, ps⟩
    · intro h1; cases h1
    · intro h1 hg hm
      cases h1
      obtain ⟨n, p, hg⟩ := hg
      dsimp only at hg
      have := hm ps rfl
      subst hg
      exact ⟨n, p, rfl, this⟩
  obtain ⟨n1, p, rfl, hp⟩ := e1
  have e2 := saslResponse_eff E sasl { s with ps := { s.ps with allocs := n1, pools := p } }
  rw [h2] at e2
  obtain ⟨n2, rfl⟩ := e2
  have hresp := saslResponse_ok h2
  subst hresp
  have e3 := withAlloc_eff E (fun alloc => mergeCapabilities memcmp alloc 0 (defaultProperties b) props) { s with ps := { s.ps with allocs := n2, pools := p } }
  rw [h3] at e3
  have hm : ∃ x y, mergeCapabilities memcmp E.pe.alloc 0 (defaultProperties b) props x = .ok tb y := by
    exact withAlloc_run h3
  obtain ⟨n3, rfl⟩ := e3
  have hs := sendMethod_off (E := E) (p := startOkProto) (r := [(.client_properties, .table tb.erase), (.mechanism, .bytes sasl.name),
      (.response, .bytes sasl.response), (.locale, .bytes (cstr "en_US"))]) (by decide)
    (.cons trivial (.cons trivial (.cons trivial (.cons trivial .nil)))) 0 SF_NONE d hd (s' := s') (by exact h0) (by exact hO) h
  obtain ⟨a1, a2, l, m, t, rfl, a4⟩ := hs
  rw [startOk_frame, Sasl.name_eq] at a4
  obtain ⟨x, y, hm⟩ := hm
  exact ⟨a1, a2, l, n3, p, tb.erase, m, t, rfl, hp, a4, tb, x, y, hm, rfl⟩

/-! ## Releasing -/

theorem foldl_release (ch : UInt16) : ∀ (p : List UInt16) (s : Conn), s.ps.mode = .idle → (∀ f ∈ s.queue, f.frame.channel ≠ ch) →
    ch ∈ p → (∀ c ∈ p, c ∈ s.ps.pools) →
    ∃ l, p.foldl (fun s ch => maybeReleaseOn ch s) s = s.ext l ∧ Ev.recycle ch ∈ l ∧ ∀ e ∈ l, e.isSend = false := by
  have any : ∀ (p : List UInt16) (s : Conn), ∃ l, p.foldl (fun s ch => maybeReleaseOn ch s) s = s.ext l ∧ ∀ e ∈ l, e.isSend = false := by
    intro p
    induction p with
    | nil => intro s; exact ⟨[], by simp, by simp⟩
    | cons c p ih =>
      intro s
      rw [List.foldl_cons]
      obtain ⟨l, h1, h2⟩ := maybeReleaseOn_ext c s
      rw [h1]
      obtain ⟨l', h3, h4⟩ := ih (s.ext l)
      refine ⟨l ++ l', by rw [h3]; simp, ?_⟩
      intro e he
      rcases List.mem_append.1 he with he | he
      · rcases h2 with rfl | rfl
        · cases he
        · simp at he; subst he; rfl
      · exact h4 e he
  intro p
  induction p with
  | nil => intro s _ _ h; cases h
  | cons c p ih =>
    intro s hm hq hc hp
    rw [List.foldl_cons]
    by_cases hcc : c = ch
    · subst hcc
      have : maybeReleaseOn c s = s.ext [.recycle c] := by
        unfold maybeReleaseOn
        rw [if_neg (by simp [hm]), if_neg (by simpa using hq), if_pos (hp c (by simp))]
        rfl
      rw [this]
      obtain ⟨l, h1, h2⟩ := any p (s.ext [.recycle c])
      refine ⟨[.recycle c] ++ l, by rw [h1]; simp, by simp, ?_⟩
      intro e he
      rcases List.mem_append.1 he with he | he
      · simp at he; subst he; rfl
      · exact h2 e he
    · obtain ⟨l, h1, h2⟩ := maybeReleaseOn_ext c s
      rw [h1]
      obtain ⟨l', h3, h4, h5⟩ := ih (s.ext l) hm hq ((List.mem_cons.1 hc).resolve_left (fun h => hcc h.symm))
        (fun c hc => hp c (by simp [hc]))
      refine ⟨l ++ l', by rw [h3]; simp, by simp [h4], ?_⟩
      intro e he
      rcases List.mem_append.1 he with he | he
      · rcases h2 with rfl | rfl
        · cases he
        · simp at he; subst he; rfl
      · exact h5 e he

theorem foldl_idle : ∀ (p : List UInt16) (s : Conn), ∃ l, p.foldl (fun s ch => maybeReleaseOn ch s) s = s.ext l ∧ ∀ e ∈ l, e.isSend = false := by
  intro p
  induction p with
  | nil => intro s; exact ⟨[], by simp, by simp⟩
  | cons c p ih =>
    intro s
    rw [List.foldl_cons]
    obtain ⟨l, h1, h2⟩ := maybeReleaseOn_ext c s
    rw [h1]
    obtain ⟨l', h3, h4⟩ := ih (s.ext l)
    refine ⟨l ++ l', by rw [h3]; simp, ?_⟩
    intro e he
    rcases List.mem_append.1 he with he | he
    · rcases h2 with rfl | rfl
      · cases he
      · simp at he; subst he; rfl
    · exact h4 e he

theorem releaseBuffers_ok {s s' : Conn} (h : releaseBuffers s = .ok () s') : s.ps.mode = .idle ∧
    ∃ l, s' = s.ext l ∧ (∀ e ∈ l, e.isSend = false) ∧ (0 ∈ s.ps.pools → (∀ f ∈ s.queue, f.frame.channel ≠ 0) → Ev.recycle 0 ∈ l) := by
  unfold releaseBuffers at h
  by_cases hm : s.ps.mode ≠ .idle
  · rw [if_pos hm] at h; cases h
  rw [if_neg hm] at h
  cases h
  have hm : s.ps.mode = .idle := Classical.byContradiction hm
  refine ⟨hm, ?_⟩
  obtain ⟨l, h1, h2⟩ := foldl_idle s.ps.pools s
  refine ⟨l, h1, h2, fun h0 hq => ?_⟩
  obtain ⟨l', h3, h4, _⟩ := foldl_release 0 s.ps.pools s hm hq h0 (fun _ h => h)
  have : s.ext l = s.ext l' := h1.symm.trans h3
  have : l = l' := List.append_cancel_left (congrArg Conn.log this)
  rw [this]; exact h4

theorem maybeRelease_idle (s : Conn) : Idle s (maybeRelease s) := by
  unfold maybeRelease
  split
  · obtain ⟨l, h1, h2⟩ := foldl_idle s.ps.pools s
    rw [h1]; exact .ext h2
  · exact .refl s

/-! ## Tuning -/

theorem tune_ok {E : NetEnv} {cm fm hb : Int} {mem : Nat → UInt8} {s s' : Conn} (h : tune E cm fm hb mem s = .ok () s') :
    ∃ ps a b m l, s' = { s.ext l with ps := ps, channelMax := cm, frameMax := fm, heartbeat := if 0 > hb then 0 else hb, nextSend := a, nextRecv := b, outMem := m, outLen := (fm % 2 ^ 64).toNat } ∧ Quiet l := by
  unfold tune at h
  by_cases hm : s.ps.mode ≠ .idle
  · rw [if_pos hm] at h; cases h
  rw [if_neg hm] at h
  dsimp only at h
  have r1 := restartSend_eff E { s with channelMax := cm, frameMax := fm, ps := { s.ps with frameMax := (fm % 2 ^ 64).toNat },
                                        heartbeat := if 0 > hb then 0 else hb }
  revert r1 h
  cases restartSend E { s with channelMax := cm, frameMax := fm, ps := { s.ps with frameMax := (fm % 2 ^ 64).toNat },
                                        heartbeat := if 0 > hb then 0 else hb } with
  | ub => intro h; cases h
  | fuel => intro h; cases h
  | err e t => intro h; cases h
  | ok x t =>
    rintro h ⟨t1, l1, rfl, q1⟩
    dsimp only at h
    have r2 := restartRecv_eff E { ({ s with channelMax := cm, frameMax := fm, ps := { s.ps with frameMax := (fm % 2 ^ 64).toNat },
                                             heartbeat := if 0 > hb then 0 else hb } : Conn).ext l1 with nextSend := t1 }
    revert r2 h
    cases restartRecv E { ({ s with channelMax := cm, frameMax := fm, ps := { s.ps with frameMax := (fm % 2 ^ 64).toNat },
                                             heartbeat := if 0 > hb then 0 else hb } : Conn).ext l1 with nextSend := t1 } with
    | ub => intro h; cases h
    | fuel => intro h; cases h
    | err e t => intro h; cases h
    | ok x t =>
      rintro h ⟨t2, l2, rfl, q2⟩
      dsimp only [smallAlloc] at h
      revert h
      cases E.pe.alloc _ with
      | false => intro h; cases h
      | true =>
        intro h
        cases h
        refine ⟨?_, t1, t2, ?_, l1 ++ l2, ?_, q1.append q2⟩
        rotate_left 2
        · simp only [Conn.ext, List.append_assoc]
          rfl

theorem encTuneOk_nil (be : Bool) (L : Nat) (c : UInt16) (f : UInt32) (h : UInt16) (n : Nat) (x : EState) :
    encMethod be [] L CONNECTION_TUNE_OK [(.channel_max, .u16 c), (.frame_max, .u32 f), (.heartbeat, .u16 h)] ≠ .ok n x := by
  have ho : switch CONNECTION_TUNE_OK encTableOps = some (.field .short .channel_max :: .field .long .frame_max ::
      [.field .short .heartbeat]) := by rfl
  unfold encMethod
  rw [ho]
  dsimp only
  unfold encOps
  rw [M.bind_def]
  have h0 : ∀ x, encOp be L [(.channel_max, .u16 c), (.frame_max, .u32 f), (.heartbeat, .u16 h)] (.field .short .channel_max) ⟨[], 0⟩ ≠ .ok () x := by
    intro x
    show encField be L .short (some (.u16 c)) ⟨[], 0⟩ ≠ _
    unfold encField
    dsimp only
    unfold M.orFail
    split
    · rename_i h3; exact absurd h3 (enc16_nil _ _ _ _)
    all_goals exact fun hh => nomatch hh
  split
  · rename_i hh
    split at hh
    · rename_i h3; exact absurd h3 (h0 _)
    all_goals cases hh
  all_goals exact fun hh => nomatch hh

/-- tune-ok is only serialised if there is room for it. -/
theorem tuneOk_room (be : Bool) (m : Bytes) (c : UInt16) (f : UInt32) (hb : UInt16) {out mem' : Bytes}
    (h : frameToBytes be m m.length ⟨0, .method CONNECTION_TUNE_OK [(.channel_max, .u16 c), (.frame_max, .u32 f), (.heartbeat, .u16 hb)]⟩ =
      .ok out mem') : 12 ≤ m.length := by
  unfold frameToBytes at h
  dsimp only at h
  split at h; · cases h
  rename_i m1 p1
  split at h; · cases h
  rename_i m2 p2
  split at h; · cases h
  rename_i m3 p3
  have l3 : m3.length = m.length := by rw [poke_len p3, poke_len p2, poke_len p1]
  by_cases h12 : 12 ≤ m.length
  · exact h12
  exfalso
  have hd : m3.drop (HEADER_SIZE + 4) = [] := by
    rw [List.drop_eq_nil_iff, l3]; rw [HEADER_SIZE]; omega
  split at h
  · rename_i n st hst
    rw [hd] at hst
    exact absurd hst (encTuneOk_nil _ _ _ _ _ _ _)
  all_goals cases h

theorem tuneOk_ok {E : NetEnv} {mem : Nat → UInt8} {c : UInt16} {f : UInt32} {hb : UInt16} {d : Nat} (hd : d ≤ TIME_INF)
    (hf : f.toNat < 2 ^ 31) {s s' : Conn} (h : tuneOk E mem (c, f, hb) d s = .ok () s') :
    ∃ l, Since s s' l ∧ sentBytes l = tuneOkFrame c f hb ∧ SendReady s' ∧ s'.channelMax = c.toNat ∧ s'.frameMax = f.toNat ∧ s'.heartbeat = hb.toNat ∧
      s'.clientBorn = s.clientBorn := by
  unfold tuneOk at h
  obtain ⟨_, t, h1, h⟩ := M.bind_ok h
  dsimp only at h1 h
  obtain ⟨hO, hfm⟩ := outReady_tune (by omega) (by omega) h1
  obtain ⟨ps, a, b, m, l, e, hq⟩ := tune_ok h1
  have hlen : t.outLen = f.toNat := by have := hO.2; rw [hfm] at this; omega
  have hroom : 12 ≤ t.outLen := by
    have hw := sendFrame_wrote (E := E) ⟨0, .method CONNECTION_TUNE_OK [(.channel_max, .u16 c), (.frame_max, .u32 f), (.heartbeat, .u16 hb)]⟩ SF_NONE d t
    have h' := h
    unfold sendMethod at h'
    rw [h'] at hw
    obtain ⟨enc, mem', l', hfb, _⟩ := hw
    rw [← hO.1] at hfb
    rw [← hO.1]
    exact tuneOk_room _ _ _ _ _ hfb
  have hs := sendMethod_wire (E := E) (p := tuneOkProto) (r := [(.channel_max, .u16 c), (.frame_max, .u32 f), (.heartbeat, .u16 hb)]) (by decide)
    (.cons trivial (.cons trivial (.cons trivial .nil))) 0 SF_NONE d hO (by omega) hroom (s' := s') h
  have hfields := (field_closed E (fun s => (s.channelMax, s.frameMax, s.heartbeat, s.clientBorn)) (t.channelMax, t.frameMax, t.heartbeat, t.clientBorn)
    (fun _ _ _ _ _ _ _ _ _ => rfl)).sendFrame
    ⟨0, .method CONNECTION_TUNE_OK [(.channel_max, .u16 c), (.frame_max, .u32 f), (.heartbeat, .u16 hb)]⟩ SF_NONE d (s := t) rfl
  unfold sendMethod at h
  rw [h] at hfields
  injection hfields with g1 g2
  injection g2 with g2 g3
  injection g3 with g3 g4
  obtain ⟨_, a2, a3, l2, a4, a5⟩ := hs
  rw [tuneOk_frame] at a5
  subst e
  refine ⟨l ++ l2, ?_, ?_, ⟨a2, by rw [a3]; omega, by rw [a3]; exact hroom⟩, g1, g2, ?_, g4⟩
  · unfold Since at *; rw [a4]; simp [Conn.ext]
  · rw [sentBytes_append, hq.sent, sentBytes_of_tagged a5]; rfl
  · rw [g3]; dsimp only; rw [if_neg (by omega)]

/-! ## All of it -/

theorem loginSteps_ok {E : NetEnv} {b : Build} {memcmp : Bytes → Bytes → Int} {mem : Nat → UInt8} {a : LoginArgs} {tv : Option TimeVal}
    {s s' : Conn} {r : Outcome Unit} (h : loginSteps E b memcmp mem a tv s = .ok r s') :
    ∃ d t0 t1 t2 t3 t4 t5 id r0, fromNowIO E tv s = .ok d t0 ∧ sendHeaderInner E d t0 = .ok St.OK t1 ∧
      awaitStart E memcmp a.sasl d t1 = .ok () t2 ∧ sendStartOk E b memcmp a.clientProperties a.sasl d t2 = .ok () t3 ∧
      releaseBuffers t3 = .ok () t4 ∧ waitMethodList E 0 [CONNECTION_TUNE, CONNECTION_CLOSE] d t4 = .ok (id, r0) t5 ∧
      ((id = CONNECTION_CLOSE ∧ r = .serverException id r0 ∧ s' = t5) ∨
       (id = CONNECTION_TUNE ∧ ∃ c f hb t6 t7, r0.get? .channel_max = some (.u16 c) ∧ r0.get? .frame_max = some (.u32 f) ∧
          r0.get? .heartbeat = some (.u16 hb) ∧
          tuneOk E mem (negotiate (UInt16.ofNat a.channelMax.toNat) (UInt32.ofNat a.frameMax.toNat) (UInt16.ofNat a.heartbeat.toNat) c f hb) d t5 =
            .ok () t6 ∧ releaseBuffers t6 = .ok () t7 ∧ openVhost E a.vhost d t7 = .ok r s')) := by
  unfold loginSteps at h
  obtain ⟨d, t0, h1, h⟩ := M.bind_ok h
  obtain ⟨res, t1, h2, h⟩ := M.bind_ok h
  by_cases hr : res ≠ St.OK
  · rw [if_pos hr] at h; cases h
  rw [if_neg hr] at h
  have hr : res = St.OK := Classical.byContradiction hr
  subst hr
  obtain ⟨_, t2, h3, h⟩ := M.bind_ok h
  obtain ⟨_, t3, h4, h⟩ := M.bind_ok h
  obtain ⟨_, t4, h5, h⟩ := M.bind_ok h
  obtain ⟨⟨id, r0⟩, t5, h6, h⟩ := M.bind_ok h
  refine ⟨d, t0, t1, t2, t3, t4, t5, id, r0, h1, h2, h3, h4, h5, h6, ?_⟩
  dsimp only at h
  by_cases hi : id = CONNECTION_CLOSE
  · rw [if_pos hi] at h
    cases h
    exact Or.inl ⟨hi, rfl, rfl⟩
  rw [if_neg hi] at h
  obtain ⟨_, _, _, hmem⟩ := waitMethodList_ok h6
  have hid : id = CONNECTION_TUNE := by simpa [hi] using hmem
  refine Or.inr ⟨hid, ?_⟩
  revert h
  rcases h7 : r0.get? .channel_max with _ | _ | ⟨c⟩ | _ | _ | _ | _ | _ <;> try (intro h; cases h)
  rcases h8 : r0.get? .frame_max with _ | _ | _ | ⟨f⟩ | _ | _ | _ | _ <;> try (intro h; cases h)
  rcases h9 : r0.get? .heartbeat with _ | _ | ⟨hb⟩ | _ | _ | _ | _ | _ <;> try (intro h; cases h)
  intro h
  dsimp only at h
  obtain ⟨_, t6, h10, h⟩ := M.bind_ok h
  obtain ⟨_, t7, h11, h⟩ := M.bind_ok h
  exact ⟨c, f, hb, t6, t7, rfl, rfl, rfl, h10, h11, h⟩

end Rmq
