import Verif.Spec.Outgoing
import Verif.Proofs.Timeouts
import Verif.Proofs.Sends
import Verif.Proofs.Instances
import Verif.Proofs.Heartbeat
/-!
# The outgoing stream stays framed
-/
namespace Rmq

/-! ## One frame -/

theorem mem_split3 {mem : Bytes} {ty : UInt8} {ch : UInt16} {n : Nat} (h3 : mem.take 3 = ty :: beBytes 2 ch.toNat) (hl : n + 8 ≤ mem.length) :
    ∃ g p rest : Bytes, g.length = 4 ∧ p.length = n ∧ 1 ≤ rest.length ∧ mem = ty :: (beBytes 2 ch.toNat ++ g ++ p ++ rest) := by
  refine ⟨(mem.drop 3).take 4, (mem.drop 7).take n, (mem.drop 7).drop n, ?_, ?_, ?_, ?_⟩
  · simp; omega
  · simp; omega
  · simp; omega
  · have e : (mem.drop 3).take 4 ++ (mem.drop 7).take n ++ (mem.drop 7).drop n = mem.drop 3 := by
      rw [List.append_assoc, List.take_append_drop]
      have := List.take_append_drop 4 (mem.drop 3)
      rwa [List.drop_drop] at this
    have : mem = mem.take 3 ++ mem.drop 3 := (List.take_append_drop 3 mem).symm
    conv => lhs; rw [this, h3, ← e]
    simp [List.append_assoc]

theorem finishFrame_whole {be : Bool} {mem out mem' : Bytes} {ty : UInt8} {ch : UInt16} {n : Nat} (h3 : mem.take 3 = ty :: beBytes 2 ch.toNat)
    (hsz : mem.length < 2 ^ 32) (h : finishFrame be mem n = .ok out mem') : WholeFrame out ∧ mem'.length = mem.length := by
  have hl : n + 8 ≤ mem.length := by
    unfold finishFrame at h
    split at h; · cases h
    rename_i m1 p1
    split at h; · cases h
    rename_i m2 p2
    have l1 := poke_len p1
    unfold poke at p2
    split at p2
    · rename_i hc
      rw [e8_length, HEADER_SIZE] at hc
      omega
    · cases p2
  obtain ⟨g, p, rest, hg, hp, hr, hm⟩ := mem_split3 h3 hl
  subst hp
  obtain ⟨m, h1, h2⟩ := finishFrame_eq be hg (by omega) hr hm
  rw [h1] at h
  cases h
  exact ⟨⟨ty, ch, p, by omega, rfl⟩, h2⟩

theorem poke_take3 {m m' bs : Bytes} {o : Nat} (h : poke m o bs = some m') (ho : 3 ≤ o) : m'.take 3 = m.take 3 := by
  unfold poke at h
  split at h
  · cases h
    unfold splice
    rename_i hc
    rw [List.append_assoc, List.take_append_of_le_length (by simp; omega), List.take_take]
    congr 1; omega
  · cases h

theorem frameToBytes_whole {be : Bool} {mem out mem' : Bytes} {f : AFrame} (h20 : 20 ≤ mem.length) (hsz : mem.length < 2 ^ 32)
    (hW : WellTyped f.payload) (h : frameToBytes be mem mem.length f = .ok out mem') : WholeFrame out ∧ mem'.length = mem.length := by
  have hF := frame_prefix (mem := mem) (by omega) be f.payload.frameType f.channel
  unfold frameToBytes at h
  rw [hF.1] at h; dsimp only at h; rw [hF.2] at h; dsimp only at h
  have hl0 : (f.payload.frameType :: (beBytes 2 f.channel.toNat ++ mem.drop 3)).length = mem.length := by
    simp [beBytes_length]; omega
  have ht0 : (f.payload.frameType :: (beBytes 2 f.channel.toNat ++ mem.drop 3)).take 3 = f.payload.frameType :: beBytes 2 f.channel.toNat := by
    simp [beBytes]
  revert h hl0 ht0
  generalize (f.payload.frameType :: (beBytes 2 f.channel.toNat ++ mem.drop 3)) = m0
  intro h hl0 ht0
  cases hp : f.payload with
  | body b =>
    rw [hp] at h; dsimp only at h
    split at h; · cases h
    rename_i m1 p1
    have := poke_len p1
    have ht := poke_take3 p1 (by decide)
    obtain ⟨a, b⟩ := finishFrame_whole (by rw [ht, ht0]) (by omega) h
    exact ⟨a, by omega⟩
  | heartbeat =>
    rw [hp] at h; dsimp only at h
    obtain ⟨a, b⟩ := finishFrame_whole ht0 (by omega) h
    exact ⟨a, by omega⟩
  | protocolHeader a b c d => rw [hp] at h; cases h
  | other x => rw [hp] at h; cases h
  | method id r =>
    rw [hp] at h hW; dsimp only at h
    split at h; · cases h
    rename_i m1 p1
    have l1 := poke_len p1
    have t1 := poke_take3 p1 (by decide)
    have hk := encMethod_kept be (m1.drop (HEADER_SIZE + 4)) (subWrap mem.length (HEADER_SIZE + 4 + FOOTER_SIZE))
        (by rw [List.length_drop, l1]; unfold subWrap HEADER_SIZE FOOTER_SIZE; split <;> omega) id r hW
    rcases hk with ⟨n, s, e1, e2, e3⟩ | ⟨e, s, e1, e3⟩
    · rw [e1] at h; dsimp only at h
      have hlen : (m1.take (HEADER_SIZE + 4) ++ s.mem).length = mem.length := by
        rw [List.length_append, e3, List.length_take, List.length_drop]; simp only [HEADER_SIZE]; omega
      obtain ⟨a, b⟩ := finishFrame_whole (ty := (Payload.method id r).frameType) (ch := f.channel) (by
        rw [List.take_append_of_le_length (by simp [HEADER_SIZE]; omega), List.take_take, ← hp, ← ht0, ← t1]
        rfl) (by omega) h
      exact ⟨a, by omega⟩
    · rw [e1] at h; cases h
  | header cls size flags r =>
    rw [hp] at h hW; dsimp only at h
    split at h; · cases h
    rename_i m1 p1
    split at h; · cases h
    rename_i m2 p2
    split at h; · cases h
    rename_i m3 p3
    have l3 : m3.length = mem.length := by rw [poke_len p3, poke_len p2, poke_len p1, hl0]
    have t3 : m3.take 3 = m0.take 3 := by rw [poke_take3 p3 (by decide), poke_take3 p2 (by decide), poke_take3 p1 (by decide)]
    have hk := encProperties_kept be (m3.drop (HEADER_SIZE + 12)) (subWrap mem.length (HEADER_SIZE + 12 + FOOTER_SIZE))
        (by rw [List.length_drop, l3]; unfold subWrap HEADER_SIZE FOOTER_SIZE; split <;> omega) cls size flags r hW
    rcases hk with ⟨n, s, e1, e2, e3⟩ | ⟨e, s, e1, e3⟩
    · rw [e1] at h; dsimp only at h
      have hlen : (m3.take (HEADER_SIZE + 12) ++ s.mem).length = mem.length := by
        rw [List.length_append, e3, List.length_take, List.length_drop]; simp only [HEADER_SIZE]; omega
      obtain ⟨a, b⟩ := finishFrame_whole (ty := (Payload.header cls size flags r).frameType) (ch := f.channel) (by
        rw [List.take_append_of_le_length (by simp [HEADER_SIZE]; omega), List.take_take, ← hp, ← ht0, ← t3]
        rfl) (by omega) h
      exact ⟨a, by omega⟩
    · rw [e1] at h; cases h

/-! ## The two relations -/

variable {P : Bytes → Prop}

/-- What may be sent includes heartbeats; the transport does not answer TIMEOUT. -/
structure Sends (E : NetEnv) (P : Bytes → Prop) : Prop where
  noTimeout : NoTimeoutSend E
  beat : P (rawFrame 8 0 [] FRAME_END)

/-- From `s` to `t` complete frames were sent, and the output buffer is as it should be. -/
def Whole (P : Bytes → Prop) (s t : Conn) : Prop := OutBuf t ∧ ∃ l, Since s t l ∧ FramesOf P (sentBytes l) ∧ Retries none l none

/-- From `s` to `t` complete frames and perhaps the beginning of another were sent. -/
def Cut (P : Bytes → Prop) (s t : Conn) : Prop := ∃ l, Since s t l ∧ FramesCut P (sentBytes l) ∧ ∃ q, Retries none l q

theorem Retries.append {p q r : Option Bytes} {a b : List Ev} (h : Retries p a q) (h' : Retries q b r) : Retries p (a ++ b) r := by
  induction h with
  | nil => exact h'
  | other he _ ih => exact .other he (ih h')
  | send hp _ ih => exact .send hp (ih h')

theorem Retries.silent {p : Option Bytes} : ∀ {l : List Ev}, l.any Ev.isSend = false → Retries p l p
  | [], _ => .nil p
  | e :: l, h => by
    rw [List.any_cons, Bool.or_eq_false_iff] at h
    refine .other (fun b f r he => ?_) (Retries.silent h.2)
    subst he; exact absurd h.1 (by simp [Ev.isSend])

theorem FramesOf.nil : FramesOf P [] := ⟨[], by simp, rfl⟩
theorem FramesOf.append {a b : Bytes} (h : FramesOf P a) (h' : FramesOf P b) : FramesOf P (a ++ b) := by
  obtain ⟨fs, h1, rfl⟩ := h
  obtain ⟨gs, h2, rfl⟩ := h'
  exact ⟨fs ++ gs, fun f hf => (List.mem_append.1 hf).elim (h1 f) (h2 f), by simp⟩
theorem FramesOf.one {a : Bytes} (h : P a) : FramesOf P a := ⟨[a], by simpa using h, by simp⟩
theorem FramesOf.cut {a : Bytes} (h : FramesOf P a) : FramesCut P a := ⟨a, [], h, Or.inl rfl, by simp⟩
theorem FramesCut.after {a b : Bytes} (h : FramesOf P a) (h' : FramesCut P b) : FramesCut P (a ++ b) := by
  obtain ⟨b1, b2, h1, h2, rfl⟩ := h'
  exact ⟨a ++ b1, b2, h.append h1, h2, by simp⟩

theorem Whole.refl {s : Conn} (h : OutBuf s) : Whole P s s := ⟨h, [], by simp [Since], .nil, .nil _⟩
theorem Whole.trans {s t u : Conn} (h : Whole P s t) (h' : Whole P t u) : Whole P s u := by
  obtain ⟨_, l, h1, h2, h3⟩ := h
  obtain ⟨o, l', h1', h2', h3'⟩ := h'
  exact ⟨o, l ++ l', h1.trans h1', by rw [sentBytes_append]; exact h2.append h2', h3.append h3'⟩
theorem Whole.cut {s t : Conn} (h : Whole P s t) : Cut P s t := by
  obtain ⟨_, l, h1, h2, h3⟩ := h
  exact ⟨l, h1, h2.cut, _, h3⟩
theorem Whole.andCut {s t u : Conn} (h : Whole P s t) (h' : Cut P t u) : Cut P s u := by
  obtain ⟨_, l, h1, h2, h3⟩ := h
  obtain ⟨l', h1', h2', q, h3'⟩ := h'
  exact ⟨l ++ l', h1.trans h1', by rw [sentBytes_append]; exact h2'.after h2, q, h3.append h3'⟩

theorem Hush.sent {s t : Conn} (h : Hush s t) : ∃ l, Since s t l ∧ sentBytes l = [] := by
  obtain ⟨_, _, _, l, h1, h2, _⟩ := h
  exact ⟨l, h1, by rw [← sentTagged_bytes, h2]; rfl⟩
theorem Hush.sent' {s t : Conn} (h : Hush s t) : ∃ l, Since s t l ∧ sentBytes l = [] ∧ l.any Ev.isSend = false := by
  obtain ⟨_, _, _, l, h1, h2, h3⟩ := h
  exact ⟨l, h1, by rw [← sentTagged_bytes, h2]; rfl, h3⟩
theorem Hush.outBuf {s t : Conn} (h : Hush s t) (ho : OutBuf s) : OutBuf t := by
  obtain ⟨h1, h2, _, _⟩ := h
  unfold OutBuf; rw [h1, h2]; exact ho
theorem Whole.hush {s t u : Conn} (h : Whole P s t) (h' : Hush t u) : Whole P s u := by
  obtain ⟨o, l, h1, h2, h3⟩ := h
  obtain ⟨l', h1', h2', h3'⟩ := h'.sent'
  exact ⟨h'.outBuf o, l ++ l', h1.trans h1', by rw [sentBytes_append, h2', List.append_nil]; exact h2, h3.append (.silent h3')⟩
theorem Cut.hush {s t u : Conn} (h : Cut P s t) (h' : Hush t u) : Cut P s u := by
  obtain ⟨l, h1, h2, q, h3⟩ := h
  obtain ⟨l', h1', h2', h3'⟩ := h'.sent'
  exact ⟨l ++ l', h1.trans h1', by rw [sentBytes_append, h2', List.append_nil]; exact h2, q, h3.append (.silent h3')⟩

/-- A poll without a time limit timed out between `s` and `t`. -/
def Liar (s t : Conn) : Prop := ∃ l d, Since s t l ∧ Ev.poll d (-1) .timeout ∈ l

theorem Liar.not_honest {s t : Conn} (h : Liar s t) : ¬ PollHonest s t := by
  obtain ⟨l, d, h1, h2⟩ := h
  exact fun hp => hp l h1 d h2
theorem Liar.before {s t u : Conn} {l : List Ev} (h : Since s t l) (h' : Liar t u) : Liar s u := by
  obtain ⟨l', d, h1, h2⟩ := h'
  exact ⟨l ++ l', d, h.trans h1, List.mem_append_right _ h2⟩
theorem Liar.after {s t u : Conn} {l : List Ev} (h : Liar s t) (h' : Since t u l) : Liar s u := by
  obtain ⟨l', d, h1, h2⟩ := h
  exact ⟨l' ++ l, d, h1.trans h', List.mem_append_left _ h2⟩

/-- An error leaves the stream whole or cut; a timeout leaves it whole, if the kernel keeps time. -/
def Fault (P : Bytes → Prop) (s : Conn) (e : Int) (t : Conn) : Prop := Cut P s t ∧ (e = St.TIMEOUT → Whole P s t ∨ Liar s t)

theorem Whole.fault {s t : Conn} (h : Whole P s t) (e : Int) : Fault P s e t := ⟨h.cut, fun _ => Or.inl h⟩
theorem Fault.hush {s t u : Conn} {e : Int} (h : Fault P s e t) (h' : Hush t u) : Fault P s e u := by
  refine ⟨h.1.hush h', fun he => ?_⟩
  rcases h.2 he with h1 | h1
  · exact Or.inl (h1.hush h')
  · obtain ⟨l, h2, _⟩ := h'.sent
    exact Or.inr (h1.after h2)
theorem Fault.before {s t u : Conn} {e : Int} (h : Whole P s t) (h' : Fault P t e u) : Fault P s e u := by
  refine ⟨h.andCut h'.1, fun he => ?_⟩
  rcases h'.2 he with h1 | h1
  · exact Or.inl (h.trans h1)
  · obtain ⟨_, l, h2, _⟩ := h
    exact Or.inr (h1.before h2)
/-- Another status than TIMEOUT says less. -/
theorem Fault.other {s t : Conn} {e e' : Int} (h : Fault P s e t) (he : e' ≠ St.TIMEOUT) : Fault P s e' t := ⟨h.1, fun h' => absurd h' he⟩

/-- The outcome of a call started in `s`. -/
def Tidy (P : Bytes → Prop) {α : Type} (s : Conn) : Res Conn α → Prop
  | .ok _ t => Whole P s t
  | .err e t => Fault P s e t
  | .ub => True
  | .fuel => True

/-- … of one that reports its failures in its value. -/
def TidyR (P : Bytes → Prop) (s : Conn) : Res Conn Reply → Prop
  | .ok (.libraryException e) t => Fault P s e t
  | .ok _ t => Whole P s t
  | .err e t => Fault P s e t
  | .ub => True
  | .fuel => True
def TidyO (P : Bytes → Prop) {α : Type} (s : Conn) : Res Conn (Outcome α) → Prop
  | .ok (.libraryException e) t => Fault P s e t
  | .ok _ t => Whole P s t
  | .err e t => Fault P s e t
  | .ub => True
  | .fuel => True

theorem Tidy.before {α : Type} {s t : Conn} {r : Res Conn α} (h : Whole P s t) (hr : Tidy P t r) : Tidy P s r := by
  cases r with
  | ok a u => exact h.trans hr
  | err e u => exact Fault.before h hr
  | ub => trivial
  | fuel => trivial
theorem TidyR.before {s t : Conn} {r : Res Conn Reply} (h : Whole P s t) (hr : TidyR P t r) : TidyR P s r := by
  cases r with
  | ok a u => cases a <;> first | exact h.trans hr | exact Fault.before h hr
  | err e u => exact Fault.before h hr
  | ub => trivial
  | fuel => trivial
theorem TidyO.before {α : Type} {s t : Conn} {r : Res Conn (Outcome α)} (h : Whole P s t) (hr : TidyO P t r) : TidyO P s r := by
  cases r with
  | ok a u => cases a <;> first | exact h.trans hr | exact Fault.before h hr
  | err e u => exact Fault.before h hr
  | ub => trivial
  | fuel => trivial

/-- Nothing is sent. -/
theorem Tidy.hush {α : Type} {s : Conn} {r : Res Conn α} (ho : OutBuf s) (h : r.All (Hush s)) : Tidy P s r := by
  cases r with
  | ok a t => exact (Whole.refl ho).hush h
  | err e t => exact ((Whole.refl ho).hush h).fault e
  | ub => trivial
  | fuel => trivial

/-! ## Steps that send nothing -/

theorem Hush.of_eq {s t : Conn} (h1 : t.log = s.log) (h2 : t.outMem = s.outMem) (h3 : t.outLen = s.outLen) (h4 : t.frameMax = s.frameMax) :
    Hush s t := ⟨h2, h3, h4, [], by simp [Since, h1], rfl, rfl⟩

theorem sockClose_hush (E : NetEnv) (s : Conn) : Hush s (sockClose E s).2 := by
  unfold sockClose
  split
  · exact .refl s
  · split <;> exact ⟨rfl, rfl, rfl, [_], rfl, rfl, rfl⟩

theorem maybeReleaseOn_hush (ch : UInt16) (s : Conn) : Hush s (maybeReleaseOn ch s) := by
  unfold maybeReleaseOn
  split
  · exact .refl s
  · split
    · exact .refl s
    · split
      · exact ⟨rfl, rfl, rfl, [_], rfl, rfl, rfl⟩
      · exact .refl s

theorem releaseAll_hush : ∀ (chs : List UInt16) (s : Conn), Hush s (chs.foldl (fun s ch => maybeReleaseOn ch s) s)
  | [], s => .refl s
  | ch :: chs, s => (maybeReleaseOn_hush ch s).trans (releaseAll_hush chs (maybeReleaseOn ch s))

theorem maybeRelease_hush (s : Conn) : Hush s (maybeRelease s) := by
  unfold maybeRelease
  split
  · exact releaseAll_hush _ _
  · exact .refl s

theorem createLink_hush (E : NetEnv) (ch : UInt16) (s : Conn) : Hush s (createLink E ch s).2 := by
  obtain ⟨a, p, h⟩ := createLink_eff E ch s
  rw [h]; exact .of_eq rfl rfl rfl rfl

theorem queueFrame_hush (E : NetEnv) (f : DFrame) (s : Conn) : (queueFrame E f s).All (Hush s) := (hush_closed E s).queue trivial (.refl s)

theorem putBackFrame_hush (E : NetEnv) (f : DFrame) (s : Conn) : (putBackFrame E f s).All (Hush s) := by
  unfold putBackFrame
  have h := createLink_hush E f.frame.channel s
  revert h
  obtain ⟨b, t⟩ := createLink E f.frame.channel s
  intro h
  cases b with
  | true => exact h.trans (.of_eq rfl rfl rfl rfl)
  | false => exact h

theorem putBackIgnored_hush (E : NetEnv) (f : DFrame) (s : Conn) : (putBackIgnored E f s).All (Hush s) := by
  unfold putBackIgnored
  have h := putBackFrame_hush E f s
  revert h
  cases putBackFrame E f s <;> exact id

theorem allocOr_hush (E : NetEnv) (s : Conn) : (allocOr E s).All (Hush s) := by
  unfold allocOr smallAlloc
  dsimp only
  cases E.pe.alloc s.ps.allocs <;> exact .of_eq rfl rfl rfl rfl

theorem withAlloc_hush (E : NetEnv) {α : Type} (x : (Nat → Bool) → M AState α) (s : Conn) : (withAlloc E x s).All (Hush s) := by
  unfold withAlloc
  cases x E.pe.alloc ⟨s.ps.allocs⟩ with
  | ok a t => exact .of_eq rfl rfl rfl rfl
  | err e t => exact .of_eq rfl rfl rfl rfl
  | ub => trivial
  | fuel => trivial

theorem Hush.bind {α β : Type} {x : M Conn α} {f : α → M Conn β} {s : Conn} (hx : (x s).All (Hush s)) (hf : ∀ a t, (f a t).All (Hush t)) :
    ((x >>= f) s).All (Hush s) :=
  Res.All.bind hx fun a t h => (hf a t).mono fun _ h' => h.trans h'

theorem cloneProp_hush (E : NetEnv) (v : Val) (s : Conn) : (cloneProp E v s).All (Hush s) := by
  have hp : ∀ (v : Val) (s : Conn), ((pure v : M Conn Val) s).All (Hush s) := fun v s => Hush.refl s
  cases v with
  | bytes b =>
    show Res.All (Hush s) ((if b.length = 0 then pure (.bytes []) else do allocOr E; pure (.bytes b) : M Conn Val) s)
    by_cases h0 : b.length = 0
    · rw [if_pos h0]; exact hp _ _
    · rw [if_neg h0]; exact Hush.bind (allocOr_hush E s) fun _ t => hp _ t
  | table t => exact Hush.bind (withAlloc_hush E _ s) fun _ t => hp _ t
  | _ => exact Hush.refl s

theorem cloneProps_hush (E : NetEnv) (flags : UInt32) (r : Rec) : ∀ (ps : List (Nat × Fld)) (s : Conn), (cloneProps E flags r ps s).All (Hush s)
  | [], s => Hush.refl s
  | (bit, f) :: ps, s => by
    unfold cloneProps
    split
    · cases hg : r.get? f with
      | none => trivial
      | some v =>
        refine Hush.bind (cloneProp_hush E _ s) fun _ t => Hush.bind (cloneProps_hush E flags r ps t) fun _ u => ?_
        exact Hush.refl u
    · exact cloneProps_hush E flags r ps s

theorem mallocDup_hush (E : NetEnv) (b : Bytes) (s : Conn) : Hush s (mallocDup E b s).2 := .of_eq rfl rfl rfl rfl

/-! ## Sending and waiting -/

/-- A write that was held up is taken up again where it stopped. -/
theorem trySend_retries (E : NetEnv) (deadline flags len : Nat) : ∀ (n : Nat) (left : Bytes) (s : Conn) (p : Option Bytes), left ≠ [] → left.length ≤ len →
    (p = none ∨ p = some left) →
    match trySend E deadline flags len n left s with
    | .ok m s' => ∃ l, Since s s' l ∧ ((m = len ∧ Retries p l none) ∨ ∃ k q, k < left.length ∧ m + left.length = len + k ∧
        (q = none ∨ q = some (left.drop k)) ∧ Retries p l q)
    | .err _ s' => ∃ l q, Since s s' l ∧ Retries p l q
    | _ => True := by
  intro n
  induction n with
  | zero => intro left s p _ _ _; trivial
  | succ n ih =>
    intro left s p hne hlen hp
    have hpos : 0 < left.length := List.length_pos_iff.2 hne
    unfold trySend
    -- what one send does
    have h1 : ∃ l, Since s (sockSend E left flags s).2 l ∧ (sockSend E left flags s).1 ≤ left.length ∧
        ((sockSend E left flags s).1 > 0 → Retries p l none) ∧ ∃ q, (q = none ∨ q = some left) ∧ Retries p l q := by
      unfold sockSend
      by_cases ho : s.isOpen = true
      · rw [if_pos ho]
        cases E.send s.time left with
        | sent k =>
          have hR : Retries p [.send left flags (min k left.length : Nat)] none := by
            refine .send hp ?_
            rw [if_neg (by simp [wouldBlock, St.PRIVATE_NEED_READ, St.PRIVATE_NEED_WRITE])]
            exact .nil _
          exact ⟨_, rfl, by dsimp only; omega, fun _ => hR, none, .inl rfl, hR⟩
        | fail k =>
          refine ⟨[.send left flags (-(k + 1 : Nat))], rfl, by dsimp only; omega, fun h => absurd h (by dsimp only; omega), if wouldBlock (-(k + 1 : Nat)) then some left else none, ?_, .send hp (.nil _)⟩
          split
          · exact .inr rfl
          · exact .inl rfl
      · rw [if_neg ho]
        exact ⟨[], by simp [Since], by simp [St.SOCKET_CLOSED], fun h => absurd h (by simp [St.SOCKET_CLOSED]), p, hp, .nil _⟩
    revert h1
    obtain ⟨res, t⟩ := sockSend E left flags s
    rintro ⟨l, hl, hle, hr0, q0, hq0, hr1⟩
    dsimp only at hl hle hr0 hr1 ⊢
    by_cases hres : res > 0
    · rw [if_pos hres]
      have hr : Retries p l none := hr0 hres
      by_cases hd : (left.drop res.toNat).length = 0
      · rw [if_pos hd]; exact ⟨l, hl, .inl ⟨rfl, hr⟩⟩
      rw [if_neg hd]
      have hd' : left.length - res.toNat ≠ 0 := by rw [List.length_drop] at hd; exact hd
      have h2 := ih (left.drop res.toNat) t none (fun h => hd (by rw [h]; rfl)) (by rw [List.length_drop]; omega) (.inl rfl)
      revert h2
      cases trySend E deadline flags len n (left.drop res.toNat) t with
      | ub => exact fun _ => trivial
      | fuel => exact fun _ => trivial
      | err e u => rintro ⟨l', q, h3, h4⟩; exact ⟨l ++ l', q, hl.trans h3, hr.append h4⟩
      | ok m u =>
        rintro ⟨l', h3, h4⟩
        refine ⟨l ++ l', hl.trans h3, ?_⟩
        rcases h4 with ⟨h4, h5⟩ | ⟨k, q, hk, hm, hq, h5⟩
        · exact .inl ⟨h4, hr.append h5⟩
        · rw [List.length_drop] at hk hm
          refine .inr ⟨res.toNat + k, q, by omega, by omega, ?_, hr.append h5⟩
          rw [List.drop_drop] at hq; exact hq
    · rw [if_neg hres]
      obtain ⟨q, hq, hr⟩ : ∃ q, (q = none ∨ q = some left) ∧ Retries p l q := ⟨q0, hq0, hr1⟩
      have h2 := doPoll_quiet E res deadline t
      revert h2
      cases doPoll E res deadline t with
      | ub => exact fun _ => trivial
      | fuel => exact fun _ => trivial
      | err e u =>
        rintro ⟨l', rfl, hl'⟩
        dsimp only
        have hS : Since s (t.ext l') (l ++ l') := hl.trans rfl
        have hR : Retries p (l ++ l') q := hr.append (.silent hl'.noSend)
        by_cases he : e = St.TIMEOUT
        · rw [if_pos he]; exact ⟨_, hS, .inr ⟨0, q, hpos, by omega, by simpa using hq, hR⟩⟩
        · rw [if_neg he]; exact ⟨_, q, hS, hR⟩
      | ok a u =>
        rintro ⟨l', rfl, hl'⟩
        dsimp only
        have hS : Since s (t.ext l') (l ++ l') := hl.trans rfl
        have hR : Retries p (l ++ l') q := hr.append (.silent hl'.noSend)
        have h3 := ih left (t.ext l') q hne hlen hq
        revert h3
        cases trySend E deadline flags len n left (t.ext l') with
        | ub => exact fun _ => trivial
        | fuel => exact fun _ => trivial
        | err e v => rintro ⟨l2, q2, h4, h5⟩; exact ⟨_, q2, hS.trans h4, hR.append h5⟩
        | ok m v =>
          rintro ⟨l2, h4, h5⟩
          refine ⟨_, hS.trans h4, ?_⟩
          rcases h5 with ⟨h5, h6⟩ | ⟨k, q2, hk, hm, hq2, h6⟩
          · exact .inl ⟨h5, hR.append h6⟩
          · exact .inr ⟨k, q2, hk, hm, hq2, hR.append h6⟩

theorem sendLoop_retries (E : NetEnv) (flags deadline : Nat) : ∀ (n : Nat) (enc : Bytes) (s : Conn) (p : Option Bytes), enc ≠ [] →
    (p = none ∨ p = some enc) →
    match sendLoop E flags deadline n enc s with
    | .ok () s' => ∃ l, Since s s' l ∧ Retries p l none
    | .err _ s' => ∃ l q, Since s s' l ∧ Retries p l q
    | _ => True := by
  intro n
  induction n with
  | zero => intro enc s p _ _; trivial
  | succ n ih =>
    intro enc s p hne hp
    unfold sendLoop
    dsimp only
    have h1 := trySend_retries E (timeFirst deadline s.nextRecv) flags enc.length E.fuel enc s p hne (Nat.le_refl _) hp
    revert h1
    cases trySend E (timeFirst deadline s.nextRecv) flags enc.length E.fuel enc s with
    | ub => exact fun _ => trivial
    | fuel => exact fun _ => trivial
    | err e t => exact id
    | ok sent t =>
      rintro ⟨l, hl, h⟩
      dsimp only
      by_cases hs : enc.length ≠ sent
      · rw [if_pos hs]
        obtain ⟨q, hq, hr⟩ : ∃ q, (q = none ∨ q = some (enc.drop sent)) ∧ Retries p l q := by
          rcases h with ⟨h, _⟩ | ⟨k, q, hk, hm, hq, hr⟩
          · exact absurd h.symm hs
          · rw [show k = sent by omega] at hq; exact ⟨q, hq, hr⟩
        have hne' : enc.drop sent ≠ [] := by
          rcases h with ⟨h, _⟩ | ⟨k, _, hk, hm, _⟩
          · exact absurd h.symm hs
          · intro h0; have := congrArg List.length h0; simp at this; omega
        by_cases hd : timeEqual (timeFirst deadline s.nextRecv) deadline = true
        · rw [if_pos hd]; exact ⟨l, q, hl, hr⟩
        rw [if_neg hd]
        have h2 := tryRecv_hush E t
        revert h2
        cases tryRecv E t with
        | ub => exact fun _ => trivial
        | fuel => exact fun _ => trivial
        | err e u =>
          intro h2
          obtain ⟨l', h3, _, h4⟩ := h2.sent'
          dsimp only
          by_cases he : e = St.TIMEOUT
          · rw [if_pos he]; exact ⟨_, q, hl.trans h3, hr.append (.silent h4)⟩
          · rw [if_neg he]; exact ⟨_, q, hl.trans h3, hr.append (.silent h4)⟩
        | ok x u =>
          intro h2
          obtain ⟨l', h3, _, h4⟩ := h2.sent'
          have hR : Retries p (l ++ l') q := hr.append (.silent h4)
          dsimp only
          have h5 := ih (enc.drop sent) u q hne' hq
          revert h5
          cases sendLoop E flags deadline n (enc.drop sent) u with
          | ub => exact fun _ => trivial
          | fuel => exact fun _ => trivial
          | err e v => rintro ⟨l2, q2, h6, h7⟩; exact ⟨_, q2, (hl.trans h3).trans h6, hR.append h7⟩
          | ok y v => rintro ⟨l2, h6, h7⟩; exact ⟨_, (hl.trans h3).trans h6, hR.append h7⟩
      · rw [if_neg hs]
        have hr : Retries p l none := by
          rcases h with ⟨_, h⟩ | ⟨k, _, hk, hm, _⟩
          · exact h
          · omega
        have h2 := restartSend_eff E t
        revert h2
        cases restartSend E t with
        | ub => exact fun _ => trivial
        | fuel => exact fun _ => trivial
        | ok x u => rintro ⟨tt, l', rfl, hl'⟩; exact ⟨l ++ l', hl.trans rfl, hr.append (.silent hl'.noSend)⟩
        | err e u => rintro ⟨tt, l', rfl, hl'⟩; exact ⟨l ++ l', _, hl.trans rfl, hr.append (.silent hl'.noSend)⟩

theorem sendFrame_retries (E : NetEnv) (f : AFrame) (flags deadline : Nat) (s : Conn)
    (hne : ∀ enc mem, frameToBytes E.pe.be s.outMem s.outLen f = .ok enc mem → enc ≠ []) :
    match sendFrame E f flags deadline s with
    | .ok () s' => ∃ l, Since s s' l ∧ Retries none l none
    | .err _ s' => ∃ l q, Since s s' l ∧ Retries none l q
    | _ => True := by
  unfold sendFrame
  cases hf : frameToBytes E.pe.be s.outMem s.outLen f with
  | ub => trivial
  | fuel => trivial
  | err e mem => exact ⟨[], none, by simp [Since], .nil _⟩
  | ok enc mem => exact sendLoop_retries E flags deadline E.fuel enc { s with outMem := mem } none (hne _ _ hf) (.inl rfl)

theorem Since.unique {s t : Conn} {l l' : List Ev} (h : Since s t l) (h' : Since s t l') : l = l' := by
  unfold Since at h h'
  rw [h] at h'
  exact List.append_cancel_left h'

theorem WholeFrame.ne_nil {b : Bytes} (h : WholeFrame b) : b ≠ [] := by
  obtain ⟨_, _, _, _, rfl⟩ := h
  simp [rawFrame]

theorem sendFrame_tidy {E : NetEnv} (hT : Sends E P) (f : AFrame) (flags : Nat) (hW : WellTyped f.payload) {s : Conn} (ho : OutBuf s)
    (hF : ∀ enc, WholeFrame enc → (∃ mem', frameToBytes E.pe.be s.outMem s.outMem.length f = .ok enc mem') → P enc) :
    Tidy P s (sendFrame E f flags TIME_INF s) := by
  have hw := sendFrame_wrote (E := E) f flags TIME_INF s
  have hr := sendFrame_retries E f flags TIME_INF s fun enc mem h => by
    rw [← ho.1] at h
    exact (frameToBytes_whole (by rw [ho.1]; exact ho.2.1) (by rw [ho.1]; exact ho.2.2) hW h).1.ne_nil
  cases hs : sendFrame E f flags TIME_INF s with
  | ub => trivial
  | fuel => trivial
  | ok a t =>
    rw [hs] at hw hr
    obtain ⟨enc, mem, l, h1, h2, h3, h4, h5, h6⟩ := hw
    obtain ⟨l', h9, h10⟩ := hr
    have := h5.unique h9; subst this
    rw [← ho.1] at h1
    obtain ⟨h7, h8⟩ := frameToBytes_whole (by rw [ho.1]; exact ho.2.1) (by rw [ho.1]; exact ho.2.2) hW h1
    refine ⟨⟨by rw [h2, h3, h8, ho.1], by rw [h3]; exact ho.2.1, by rw [h3]; exact ho.2.2⟩, l, h5, ?_, h10⟩
    have : sentBytes l = enc := by rw [← sentTagged_bytes, h6]; simp [Bytes.flagged, Function.comp_def]
    rw [this]; exact FramesOf.one (hF _ h7 ⟨_, h1⟩)
  | err e t =>
    rw [hs] at hw hr
    obtain ⟨l, h1, h2⟩ := hw
    obtain ⟨l', q, h9, h10⟩ := hr
    have := h1.unique h9; subst this
    refine ⟨⟨l, h1, ?_, q, h10⟩, fun he => Or.inr (sendFrame_inf hT.noTimeout f flags (by rw [hs, he]))⟩
    rcases h2 with h2 | ⟨enc, mem, k, h3, h4⟩
    · have : sentBytes l = [] := by rw [← sentTagged_bytes, h2]; rfl
      rw [this]; exact FramesOf.nil.cut
    · rw [← ho.1] at h3
      obtain ⟨h7, _⟩ := frameToBytes_whole (by rw [ho.1]; exact ho.2.1) (by rw [ho.1]; exact ho.2.2) hW h3
      have : sentBytes l = enc.take k := by rw [← sentTagged_bytes, h4]; simp [Bytes.flagged, Function.comp_def]
      rw [this]
      exact ⟨[], enc.take k, .nil, Or.inr ⟨enc, hF _ h7 ⟨_, h3⟩, List.take_prefix _ _⟩, by simp⟩

theorem frameToBytes_beat {be : Bool} {mem enc mem' : Bytes} (h : frameToBytes be mem mem.length ⟨0, .heartbeat⟩ = .ok enc mem') :
    enc = rawFrame 8 0 [] FRAME_END := by
  rw [frameToBytes_heartbeat h]; rfl

theorem beginRecv_tidy {E : NetEnv} (hT : Sends E P) (d : Nat) {s : Conn} (ho : OutBuf s) : Tidy P s (beginRecv E d s) := by
  unfold beginRecv
  have h1 := (hush_closed E s).hasPastIO s.nextSend (Hush.refl s)
  revert h1
  obtain ⟨res, s1⟩ := hasPastIO E s.nextSend s
  intro h1
  dsimp only at h1 ⊢
  have w1 : Whole P s s1 := (Whole.refl ho).hush h1
  by_cases hr : res = St.TIMER_FAILURE
  · rw [if_pos hr]; exact w1.fault _
  rw [if_neg hr]
  have h2 : Tidy P s (if res = St.TIMEOUT then sendFrame E ⟨0, .heartbeat⟩ SF_NONE TIME_INF s1 else .ok () s1 : Res Conn Unit) := by
    by_cases hc : res = St.TIMEOUT
    · rw [if_pos hc]; exact Tidy.before w1 (sendFrame_tidy hT ⟨0, .heartbeat⟩ _ trivial w1.1 fun enc _ ⟨_, h⟩ => by rw [frameToBytes_beat h]; exact hT.beat)
    · rw [if_neg hc]; exact w1
  revert h2
  cases (if res = St.TIMEOUT then sendFrame E ⟨0, .heartbeat⟩ SF_NONE TIME_INF s1 else .ok () s1 : Res Conn Unit) with
  | ub => exact fun _ => trivial
  | fuel => exact fun _ => trivial
  | err e t => exact id
  | ok a t =>
    intro (h2 : Whole P s t)
    dsimp only
    have h3 := (hush_closed E t).recvWithTimeout (timeFirst d (timeFirst t.nextRecv t.nextSend)) E.fuel (Hush.refl t)
    revert h3
    cases recvWithTimeout E (timeFirst d (timeFirst t.nextRecv t.nextSend)) E.fuel t with
    | ub => exact fun _ => trivial
    | fuel => exact fun _ => trivial
    | ok x u => exact fun h3 => h2.hush h3
    | err e u =>
      intro h3
      have w : Whole P s u := h2.hush h3
      dsimp only
      by_cases he : e = St.TIMEOUT
      · rw [if_pos he]
        split
        · exact (w.hush (sockClose_hush E u)).fault _
        · split
          · exact w.fault _
          · split
            · exact w
            · trivial
      · rw [if_neg he]; exact w.fault _

theorem waitInner_tidy {E : NetEnv} (hT : Sends E P) (d : Nat) : ∀ (n : Nat) (b : Bool) {s : Conn}, OutBuf s →
    Tidy P s (waitInner E d n b s) := by
  intro n
  induction n with
  | zero => intro b s _; trivial
  | succ n ih =>
    intro b s ho
    unfold waitInner
    by_cases hb : b = false ∧ s.inb ≠ []
    · rw [if_pos hb]
      cases hc : consumeOne E s with
      | ub => trivial
      | fuel => trivial
      | err e t => exact ((Whole.refl ho).hush ((hush_closed E s).consumeErr (.refl s) hc)).fault _
      | ok f t =>
        have w : Whole P s t := (Whole.refl ho).hush ((hush_closed E s).consume (.refl s) hc).1
        cases f with
        | none => exact Tidy.before w (ih false w.1)
        | some f =>
          dsimp only
          split
          · have w2 := w.hush (maybeReleaseOn_hush 0 t)
            exact Tidy.before w2 (ih false w2.1)
          · exact w
    · rw [if_neg hb]
      have h1 := beginRecv_tidy hT d ho
      revert h1
      cases beginRecv E d s with
      | ub => exact fun _ => trivial
      | fuel => exact fun _ => trivial
      | err e t => exact id
      | ok a t => exact fun w => Tidy.before w (ih a w.1)

theorem waitFrameInner_tidy {E : NetEnv} (hT : Sends E P) (d : Nat) {s : Conn} (ho : OutBuf s) : Tidy P s (waitFrameInner E d s) :=
  waitInner_tidy hT d _ _ ho

theorem waitFrame_tidy {E : NetEnv} (hT : Sends E P) (tv : Option TimeVal) {s : Conn} (ho : OutBuf s) : Tidy P s (waitFrame E tv s) := by
  rw [waitFrame_def]
  have h1 := fromNowIO_quiet E tv s
  revert h1
  cases fromNowIO E tv s with
  | ub => exact fun _ => trivial
  | fuel => exact fun _ => trivial
  | err e t => exact fun h1 => ((Whole.refl ho).hush (.quiet h1)).fault _
  | ok d t =>
    intro h1
    have w : Whole P s t := (Whole.refl ho).hush (.quiet h1)
    dsimp only
    cases t.queue with
    | nil => exact Tidy.before w (waitFrameInner_tidy hT d w.1)
    | cons f rest => exact w.hush (.of_eq rfl rfl rfl rfl)

theorem waitOnLoop_tidy {E : NetEnv} (hT : Sends E P) (ch : UInt16) : ∀ (n : Nat) {s : Conn}, OutBuf s → Tidy P s (waitOnLoop E ch n s) := by
  intro n
  induction n with
  | zero => intro s _; trivial
  | succ n ih =>
    intro s ho
    unfold waitOnLoop
    have h1 := waitFrameInner_tidy hT TIME_INF ho
    revert h1
    cases waitFrameInner E TIME_INF s with
    | ub => exact fun _ => trivial
    | fuel => exact fun _ => trivial
    | err e t => exact id
    | ok f t =>
      intro (w : Whole P s t)
      dsimp only
      split
      · exact w
      · have h2 := queueFrame_hush E f t
        revert h2
        cases queueFrame E f t with
        | ub => exact fun _ => trivial
        | fuel => exact fun _ => trivial
        | err e u => exact fun h2 => (w.hush h2).fault _
        | ok a u => exact fun h2 => Tidy.before (w.hush h2) (ih (w.hush h2).1)

theorem waitFrameOn_tidy {E : NetEnv} (hT : Sends E P) (ch : UInt16) {s : Conn} (ho : OutBuf s) : Tidy P s (waitFrameOn E ch s) := by
  unfold waitFrameOn
  split
  · exact (Whole.refl ho).hush (.of_eq rfl rfl rfl rfl)
  · exact waitOnLoop_tidy hT ch _ ho

theorem Tidy.bind {α β : Type} {x : M Conn α} {f : α → M Conn β} {s : Conn} (hx : Tidy P s (x s)) (hf : ∀ a t, OutBuf t → Tidy P t (f a t)) :
    Tidy P s ((x >>= f) s) := by
  rw [M.bind_def]
  revert hx
  cases x s with
  | ok a t => exact fun w => Tidy.before w (hf a t w.1)
  | err e t => exact id
  | ub => exact id
  | fuel => exact id

theorem Tidy.quiet {α : Type} {s : Conn} {r : Res Conn α} (ho : OutBuf s) (h : r.All (QuietStep s)) : Tidy P s r :=
  Tidy.hush ho (h.mono fun _ => Hush.quiet)

theorem waitMethodList_tidy {E : NetEnv} (hT : Sends E P) (ch : UInt16) (expected : List UInt32) (d : Nat) {s : Conn} (ho : OutBuf s) :
    Tidy P s (waitMethodList E ch expected d s) := by
  unfold waitMethodList
  refine Tidy.bind (Tidy.quiet ho (tvUntilIO_quiet E d s)) fun tv t ht => Tidy.bind (waitFrame_tidy hT tv ht) fun f u hu => ?_
  have hf : ∀ e, Tidy P u ((M.fail e : M Conn (UInt32 × Rec)) u) := fun e => (Whole.refl hu).fault e
  cases hp : f.frame.payload with
  | method id args =>
    dsimp only
    by_cases hc : f.frame.channel = ch ∧ id ∈ expected
    · rw [if_pos hc]; exact Whole.refl hu
    · rw [if_neg hc]; exact hf _
  | _ => exact hf _

/-! ## RPC -/

theorem rpcLoop_tidy {E : NetEnv} (hT : Sends E P) (ch : UInt16) (expected : List UInt32) (d : Nat) : ∀ (n : Nat) {s : Conn}, OutBuf s →
    TidyR P s (rpcLoop E ch expected d n s) := by
  intro n
  induction n with
  | zero => intro s _; trivial
  | succ n ih =>
    intro s ho
    unfold rpcLoop
    have h1 := waitFrameInner_tidy hT d ho
    revert h1
    cases waitFrameInner E d s with
    | ub => exact fun _ => trivial
    | fuel => exact fun _ => trivial
    | err e t =>
      intro (h1 : Fault P s e t)
      show Fault P s e _
      split
      · exact h1.hush (sockClose_hush E t)
      · exact h1
    | ok f t =>
      intro (w : Whole P s t)
      dsimp only
      split
      · split
        · split <;> exact w
        · trivial
      · have h2 := queueFrame_hush E f t
        revert h2
        cases queueFrame E f t with
        | ub => exact fun _ => trivial
        | fuel => exact fun _ => trivial
        | err e u => exact fun h2 => (w.hush h2).fault _
        | ok a u => exact fun h2 => TidyR.before (w.hush h2) (ih (w.hush h2).1)

theorem sends_whole {E : NetEnv} (hT : NoTimeoutSend E) : Sends E WholeFrame := ⟨hT, 8, 0, [], by decide, rfl⟩

theorem sendFrame_whole {E : NetEnv} (hT : NoTimeoutSend E) (f : AFrame) (flags : Nat) (hW : WellTyped f.payload) {s : Conn} (ho : OutBuf s) :
    Tidy WholeFrame s (sendFrame E f flags TIME_INF s) := sendFrame_tidy (sends_whole hT) f flags hW ho fun _ h _ => h

theorem simpleRpc_tidy {E : NetEnv} (hT : NoTimeoutSend E) (ch : UInt16) (id : UInt32) (expected : List UInt32) (args : Rec)
    (hW : WellTyped (.method id args)) {s : Conn} (ho : OutBuf s) : TidyR WholeFrame s (simpleRpc E ch id expected args s) := by
  unfold simpleRpc
  have h1 := fromNowIO_quiet E (getRpcTimeout s.timeouts) s
  revert h1
  cases fromNowIO E (getRpcTimeout s.timeouts) s with
  | ub => exact fun _ => trivial
  | fuel => exact fun _ => trivial
  | err e t => exact fun h1 => ((Whole.refl ho).hush (.quiet h1)).fault _
  | ok d t =>
    intro h1
    have w : Whole WholeFrame s t := (Whole.refl ho).hush (.quiet h1)
    refine TidyR.before w ?_
    show TidyR WholeFrame t (rpcInner E ch id expected args d t)
    unfold rpcInner sendMethod
    have h2 := sendFrame_whole hT ⟨ch, .method id args⟩ SF_NONE hW w.1
    revert h2
    cases sendFrame E ⟨ch, .method id args⟩ SF_NONE TIME_INF t with
    | ub => exact fun _ => trivial
    | fuel => exact fun _ => trivial
    | err e u => exact fun h2 => h2
    | ok a u => exact fun h2 => TidyR.before h2 (rpcLoop_tidy (sends_whole hT) ch expected d _ h2.1)

/-! ## Publishing -/

theorem publishBody_tidy {E : NetEnv} (hT : NoTimeoutSend E) (ch : UInt16) (usable : Nat) : ∀ (n : Nat) (rest : Bytes) {s : Conn}, OutBuf s →
    Tidy WholeFrame s (publishBody E ch usable n rest s) := by
  intro n
  induction n with
  | zero => intro rest s _; trivial
  | succ n ih =>
    intro rest s ho
    unfold publishBody
    have key : ∀ (b : Bytes) (fl k : Nat), Tidy WholeFrame s (match sendFrame E ⟨ch, .body b⟩ fl TIME_INF s with
        | .ok () s => publishBody E ch usable n (rest.drop k) s
        | .err e s => .err e s
        | .ub => .ub
        | .fuel => .fuel) := by
      intro b fl k
      have h := sendFrame_whole hT ⟨ch, .body b⟩ fl trivial ho
      revert h
      cases sendFrame E ⟨ch, .body b⟩ fl TIME_INF s with
      | ub => exact fun _ => trivial
      | fuel => exact fun _ => trivial
      | err e t => exact id
      | ok a t => exact fun w => Tidy.before w (ih _ w.1)
    split
    · exact Whole.refl ho
    · split
      · exact key _ _ _
      · exact key _ _ _

theorem publishCheck_tidy {E : NetEnv} {s : Conn} (ho : OutBuf s) : Tidy WholeFrame s (publishCheck E s) := by
  unfold publishCheck
  have h1 := (hush_closed E s).hasPastIO s.nextRecv (Hush.refl s)
  revert h1
  obtain ⟨res, s1⟩ := hasPastIO E s.nextRecv s
  intro h1
  dsimp only at h1 ⊢
  have w1 : Whole WholeFrame s s1 := (Whole.refl ho).hush h1
  split
  · exact w1.fault _
  · split
    · have h2 := tryRecv_hush E s1
      revert h2
      cases tryRecv E s1 with
      | ub => exact fun _ => trivial
      | fuel => exact fun _ => trivial
      | ok a t => exact fun h2 => w1.hush h2
      | err e t =>
        intro h2
        dsimp only
        split <;> exact (w1.hush h2).fault _
    · exact w1

theorem publish_typed (ex rk : Bytes) (m i : Int32) : WellTyped (.method BASIC_PUBLISH (publishArgs ex rk m i)) := by
  intro p hp hid
  have key : ∀ p ∈ protocol, p.id = BASIC_PUBLISH → p.args =
      [(.ticket, .short), (.exchange, .shortstr), (.routing_key, .shortstr), (.mandatory, .bit), (.immediate, .bit)] := by
    decide
  rw [key p hp hid]
  exact .cons trivial (.cons trivial (.cons trivial (.cons trivial (.cons trivial .nil))))

theorem header_typed (size : UInt64) {props : Option (UInt32 × Rec)} (h : TypedProps props) :
    WellTyped (.header BASIC_CLASS size (props.getD (0, [])).1 (props.getD (0, [])).2) := by
  intro c hc hcls
  have key : ∀ c ∈ propClasses, c.1 = BASIC_CLASS → c.2 = basicProps := by decide
  rw [key c hc hcls]
  cases props with
  | none =>
    intro p _ hf
    exfalso
    revert hf
    unfold flagSet
    simp
  | some p => exact h

theorem basicPublish_tidy {E : NetEnv} (hT : NoTimeoutSend E) (ch : UInt16) (ex rk : Bytes) (m i : Int32) (props : Option (UInt32 × Rec))
    (body : Bytes) (hp : TypedProps props) {s : Conn} (ho : OutBuf s) : Tidy WholeFrame s (basicPublish E ch ex rk m i props body s) := by
  unfold basicPublish sendMethod
  exact Tidy.bind (publishCheck_tidy ho) fun _ t ht => Tidy.bind (sendFrame_whole hT _ _ (publish_typed ex rk m i) ht) fun _ u hu =>
    Tidy.bind (sendFrame_whole hT _ _ (header_typed _ hp) hu) fun _ v hv => publishBody_tidy hT ch _ _ _ hv

/-! ## Consuming -/

theorem readBody_tidy {E : NetEnv} (hT : Sends E P) (ch : UInt16) (len : Nat) : ∀ (n : Nat) (got : Bytes) {s : Conn}, OutBuf s →
    TidyO P s (readBody E ch len n got s) := by
  intro n
  induction n with
  | zero => intro got s _; trivial
  | succ n ih =>
    intro got s ho
    unfold readBody
    split
    · have h1 := waitFrameOn_tidy hT ch ho
      revert h1
      cases waitFrameOn E ch s with
      | ub => exact fun _ => trivial
      | fuel => exact fun _ => trivial
      | err e t => exact fun h => h
      | ok f t =>
        intro (w : Whole P s t)
        dsimp only
        split
        · split
          · exact w.fault _
          · exact TidyO.before w (ih _ w.1)
        · split
          · exact w
          · exact w.fault _
        · exact w.fault _
    · exact Whole.refl ho

theorem readContent_tidy {E : NetEnv} (hT : Sends E P) (ch : UInt16) (size : UInt64) (flags : UInt32) (r : Rec) {s : Conn} (ho : OutBuf s) :
    TidyO P s (readContent E ch size flags r s) := by
  unfold readContent
  have h1 := cloneProps_hush E flags r clonedProps s
  revert h1
  cases cloneProps E flags r clonedProps s with
  | ub => exact fun _ => trivial
  | fuel => exact fun _ => trivial
  | err e t => exact fun h => ((Whole.refl ho).hush h).fault _
  | ok props t =>
    intro h
    have w : Whole P s t := (Whole.refl ho).hush h
    dsimp only
    have h2 : (if size.toNat = 0 then .ok () t else allocOr E t : Res Conn Unit).All (Hush t) := by
      split
      · exact Hush.refl t
      · exact allocOr_hush E t
    revert h2
    cases (if size.toNat = 0 then .ok () t else allocOr E t : Res Conn Unit) with
    | ub => exact fun _ => trivial
    | fuel => exact fun _ => trivial
    | err e u => exact fun h => (w.hush h).fault _
    | ok a u =>
      intro h
      have w2 : Whole P s u := w.hush h
      refine TidyO.before w2 ?_
      dsimp only
      have h3 := readBody_tidy hT ch size.toNat E.fuel [] w2.1
      revert h3
      cases readBody E ch size.toNat E.fuel [] u with
      | ub => exact fun _ => trivial
      | fuel => exact fun _ => trivial
      | err e v => exact fun h => h
      | ok x v => cases x <;> exact fun h => h

theorem putBack_tidy {E : NetEnv} {α : Type} (f : DFrame) (st : Int) {s : Conn} (ho : OutBuf s) :
    TidyO P s (match putBackIgnored E f s with
      | .ok () s => .ok (.libraryException st) s
      | .err e s => .err e s
      | .ub => .ub
      | .fuel => .fuel : Res Conn (Outcome α)) := by
  have h := putBackIgnored_hush E f s
  revert h
  cases putBackIgnored E f s with
  | ub => exact fun _ => trivial
  | fuel => exact fun _ => trivial
  | err e t => exact fun h => ((Whole.refl ho).hush h).fault _
  | ok a t => exact fun h => ((Whole.refl ho).hush h).fault _

theorem readMessage_tidy {E : NetEnv} (hT : Sends E P) (ch : UInt16) {s : Conn} (ho : OutBuf s) : TidyO P s (readMessage E ch s) := by
  unfold readMessage
  have h1 := waitFrameOn_tidy hT ch ho
  revert h1
  cases waitFrameOn E ch s with
  | ub => exact fun _ => trivial
  | fuel => exact fun _ => trivial
  | err e t => exact fun h => h
  | ok f t =>
    intro (w : Whole P s t)
    dsimp only
    split
    · exact TidyO.before w (readContent_tidy hT ch _ _ _ w.1)
    · split
      · exact w
      · exact TidyO.before w (putBack_tidy f _ w.1)
    · exact TidyO.before w (putBack_tidy f _ w.1)

theorem takeDelivery_tidy {E : NetEnv} (hT : Sends E P) (ch : UInt16) (r : Rec) {s : Conn} (ho : OutBuf s) :
    TidyO P s (takeDelivery E ch r s) := by
  unfold takeDelivery
  split
  · rename_i tag dt red ex rk _ _ _ _ _
    have h1 := mallocDup_hush E tag s
    revert h1
    obtain ⟨a, s1⟩ := mallocDup E tag s
    intro h1
    dsimp only at h1 ⊢
    have h2 := mallocDup_hush E ex s1
    revert h2
    obtain ⟨b, s2⟩ := mallocDup E ex s1
    intro h2
    dsimp only at h2 ⊢
    have h3 := mallocDup_hush E rk s2
    revert h3
    obtain ⟨c, s3⟩ := mallocDup E rk s2
    intro h3
    dsimp only at h3 ⊢
    have w : Whole P s s3 := (Whole.refl ho).hush (h1.trans (h2.trans h3))
    split
    · refine TidyO.before w ?_
      have h4 := readMessage_tidy hT ch w.1
      revert h4
      cases readMessage E ch s3 with
      | ub => exact fun _ => trivial
      | fuel => exact fun _ => trivial
      | err e v => exact fun h => h
      | ok x v => cases x <;> exact fun h => h
    · exact w.fault _
  · trivial

theorem consumeMessage_tidy {E : NetEnv} (hT : Sends E P) (tv : Option TimeVal) {s : Conn} (ho : OutBuf s) :
    TidyO P s (consumeMessage E tv s) := by
  unfold consumeMessage
  have h1 := waitFrame_tidy hT tv ho
  revert h1
  cases waitFrame E tv s with
  | ub => exact fun _ => trivial
  | fuel => exact fun _ => trivial
  | err e t => exact fun h => h
  | ok f t =>
    intro (w : Whole P s t)
    dsimp only
    split
    · split
      · exact TidyO.before w (takeDelivery_tidy hT _ _ w.1)
      · exact TidyO.before w (putBack_tidy f _ w.1)
    · exact TidyO.before w (putBack_tidy f _ w.1)

theorem confirmWait_tidy {E : NetEnv} (hT : Sends E P) (tv : Option TimeVal) {s : Conn} (ho : OutBuf s) :
    TidyO P s (confirmWait E tv s) := by
  unfold confirmWait
  have h1 := waitFrame_tidy hT tv ho
  revert h1
  cases waitFrame E tv s with
  | ub => exact fun _ => trivial
  | fuel => exact fun _ => trivial
  | err e t => exact fun h => h
  | ok f t =>
    intro (w : Whole P s t)
    dsimp only
    split
    · split
      · exact TidyO.before w (putBack_tidy f _ w.1)
      · exact w
    · exact TidyO.before w (putBack_tidy f _ w.1)

/-! ## One call -/

theorem Tidy.leaves {α : Type} {s t : Conn} {r : Res Conn α} (h : Tidy P s r) (hl : r.leaves t) : Cut P s t := by
  cases r <;> cases hl
  · exact Whole.cut h
  · exact h.1
theorem TidyR.leaves {s t : Conn} {r : Res Conn Reply} (h : TidyR P s r) (hl : r.leaves t) : Cut P s t := by
  cases r <;> cases hl
  · rename_i a; cases a <;> first | exact Whole.cut h | exact h.1
  · exact h.1
theorem TidyO.leaves {α : Type} {s t : Conn} {r : Res Conn (Outcome α)} (h : TidyO P s r) (hl : r.leaves t) : Cut P s t := by
  cases r <;> cases hl
  · rename_i a; cases a <;> first | exact Whole.cut h | exact h.1
  · exact h.1

theorem TidyR.usable {s t : Conn} {a : Reply} (h : TidyR P s (.ok a t)) (hu : a.usable) : Whole P s t ∨ Liar s t := by
  cases a <;> first | exact Or.inl h | exact h.2 hu
theorem TidyO.usable {α : Type} {s t : Conn} {a : Outcome α} (h : TidyO P s (.ok a t)) (hu : a.usable) : Whole P s t ∨ Liar s t := by
  cases a <;> first | exact Or.inl h | exact h.2 hu

theorem putBack_whole {E : NetEnv} {α : Type} (f : DFrame) (st : Int) {s t : Conn} (ho : OutBuf s)
    (hl : (match putBackIgnored E f s with
      | .ok () s => .ok (.libraryException st) s
      | .err e s => .err e s
      | .ub => .ub
      | .fuel => .fuel : Res Conn (Outcome α)).leaves t) : Whole P s t := by
  have h := putBackIgnored_hush E f s
  revert h hl
  cases putBackIgnored E f s with
  | ub => exact fun h => by cases h
  | fuel => exact fun h => by cases h
  | err e t => exact fun hl h => by cases hl; exact (Whole.refl ho).hush h
  | ok a t => exact fun hl h => by cases hl; exact (Whole.refl ho).hush h

theorem releaseBuffers_hush {s t : Conn} (h : (releaseBuffers s).leaves t) : Hush s t := by
  unfold releaseBuffers at h
  split at h
  · cases h
  · cases h; exact releaseAll_hush _ s

theorem AnyCall.cut {E : NetEnv} (hT : NoTimeoutSend E) {s t : Conn} (h : AnyCall E s t) (ho : OutBuf s) : Cut WholeFrame s t := by
  have q : ∀ {u : Conn}, Hush s u → Cut WholeFrame s u := fun hh => ((Whole.refl ho).hush hh).cut
  cases h with
  | waitFrame tv h => exact (waitFrame_tidy (sends_whole hT) tv ho).leaves h
  | waitFrameOn ch h => exact (waitFrameOn_tidy (sends_whole hT) ch ho).leaves h
  | waitMethod ch id h => exact (waitMethodList_tidy (sends_whole hT) ch [id] TIME_INF ho).leaves h
  | sendFrame f fl hw h => exact (sendFrame_whole hT f fl hw ho).leaves h
  | simpleRpc ch id ex args hw h => exact (simpleRpc_tidy hT ch id ex args hw ho).leaves h
  | readMessage ch h => exact (readMessage_tidy (sends_whole hT) ch ho).leaves h
  | consumeMessage tv h => exact (consumeMessage_tidy (sends_whole hT) tv ho).leaves h
  | confirmWait tv h => exact (confirmWait_tidy (sends_whole hT) tv ho).leaves h
  | publish ch ex rk m i props body hp h => exact (basicPublish_tidy hT ch ex rk m i props body hp ho).leaves h
  | release h => exact q (releaseBuffers_hush h)
  | maybeRelease => exact q (maybeRelease_hush s)
  | maybeReleaseOn => exact q (maybeReleaseOn_hush _ s)
  | close => exact q (sockClose_hush E s)

theorem GoodCall.whole {E : NetEnv} (hT : NoTimeoutSend E) {s t : Conn} (h : GoodCall E s t) (ho : OutBuf s) : Whole WholeFrame s t ∨ Liar s t := by
  have q : ∀ {u : Conn}, Hush s u → Whole WholeFrame s u ∨ Liar s u := fun hh => .inl ((Whole.refl ho).hush hh)
  cases h with
  | waitFrame tv h => have := waitFrame_tidy (sends_whole hT) tv ho; rw [h] at this; exact .inl this
  | waitFrameTimeout tv h => have := waitFrame_tidy (sends_whole hT) tv ho; rw [h] at this; exact this.2 rfl
  | waitFrameOn ch h => have := waitFrameOn_tidy (sends_whole hT) ch ho; rw [h] at this; exact .inl this
  | @waitMethod _ u f ch id hw h =>
    have w := waitFrame_tidy (sends_whole hT) none ho
    rw [hw] at w
    refine .inl ?_
    unfold Rmq.waitMethod waitMethodList at h
    rw [M.bind_def] at h
    have e : tvUntilIO E TIME_INF s = .ok none s := by unfold tvUntilIO; rw [if_pos rfl]
    rw [e] at h
    dsimp only at h
    rw [M.bind_def, hw] at h
    dsimp only at h
    revert h
    cases f.frame.payload <;> dsimp only
    case method id' args =>
      by_cases hc : f.frame.channel = ch ∧ id' ∈ [id]
      · rw [if_pos hc]; intro h; cases h; exact w
      · rw [if_neg hc]; intro h; cases h; exact w
    all_goals (intro h; cases h; exact w)
  | sendFrame f fl hw h => have := sendFrame_whole hT f fl hw ho; rw [h] at this; exact .inl this
  | simpleRpc ch id ex args hw h hu => have := simpleRpc_tidy hT ch id ex args hw ho; rw [h] at this; exact this.usable hu
  | readMessage ch h hu => have := readMessage_tidy (sends_whole hT) ch ho; rw [h] at this; exact this.usable hu
  | consumeMessage tv h hu => have := consumeMessage_tidy (sends_whole hT) tv ho; rw [h] at this; exact this.usable hu
  | @consumeOther _ u f tv hw hn h =>
    have w := waitFrame_tidy (sends_whole hT) tv ho
    rw [hw] at w
    have w : Whole WholeFrame s u := w
    refine .inl ?_
    unfold Rmq.consumeMessage at h
    rw [hw] at h
    dsimp only at h
    split at h
    · rename_i id r hp
      split at h
      · rename_i he; subst he; exact absurd hp (hn r)
      · exact w.trans (putBack_whole f _ w.1 h)
    · exact w.trans (putBack_whole f _ w.1 h)
  | @confirmWait _ u f tv hw h =>
    have w := waitFrame_tidy (sends_whole hT) tv ho
    rw [hw] at w
    have w : Whole WholeFrame s u := w
    refine .inl ?_
    unfold Rmq.confirmWait at h
    rw [hw] at h
    dsimp only at h
    split at h
    · split at h
      · exact w.trans (putBack_whole f _ w.1 h)
      · cases h; exact w
    · exact w.trans (putBack_whole f _ w.1 h)
  | confirmTimeout tv h => have := confirmWait_tidy (sends_whole hT) tv ho; rw [h] at this; exact this.2 rfl
  | publish ch ex rk m i props body hp h =>
    have := basicPublish_tidy hT ch ex rk m i props body hp ho
    rw [h] at this; exact .inl this
  | release h => exact q (releaseBuffers_hush (by rw [h]; rfl))
  | maybeRelease => exact q (maybeRelease_hush s)
  | maybeReleaseOn => exact q (maybeReleaseOn_hush _ s)
  | close => exact q (sockClose_hush E s)

/-- The log only grows. -/
theorem since_api (E : NetEnv) (s0 : Conn) : ApiClosed E (fun s => ∃ l, Since s0 s l) (fun _ _ => True) where
  toUpper := (since_closed E s0).upper
  allocs := fun _ _ h => h
  publishCheck := publishCheck_closed (since_closed E s0).upper fun h => (since_closed E s0).tryRecv h

theorem GoodCall.callP {E : NetEnv} {s t : Conn} (h : GoodCall E s t) : CallP E s t := by
  have q : ∀ {α : Type} {r : Res Conn α} {a : α} {u : Conn}, r = .ok a u → r.leaves u := fun h => by rw [h]; rfl
  cases h with
  | waitFrame tv h => exact .call (.waitFrame tv (q h))
  | waitFrameTimeout tv h => exact .call (.waitFrame tv (by rw [h]; rfl))
  | waitFrameOn ch h => exact .call (.waitFrameOn ch (q h))
  | waitMethod ch id hw h => exact .call (.waitMethod ch id h)
  | sendFrame f fl hw h => exact .call (.sendFrame f fl (q h))
  | simpleRpc ch id ex args hw h hu => exact .call (.simpleRpc ch id ex args (q h))
  | readMessage ch h hu => exact .call (.readMessage ch (q h))
  | consumeMessage tv h hu => exact .call (.consumeMessage tv (q h))
  | consumeOther tv hw hn h => exact .call (.consumeMessage tv h)
  | confirmWait tv hw h => exact .call (.confirmWait tv h)
  | confirmTimeout tv h => exact .call (.confirmWait tv (q h))
  | publish ch ex rk m i props body hp h => exact .publish ch ex rk m i props body (q h)
  | release h => exact .call (.release (q h))
  | maybeRelease => exact .call (.maybeRelease _)
  | maybeReleaseOn => exact .call (.maybeReleaseOn _ _)
  | close => exact .call (.close _)

theorem good_steps {E : NetEnv} (hT : NoTimeoutSend E) {s t : Conn} (ho : OutBuf s) (h : Steps (GoodCall E) s t) : Whole WholeFrame s t ∨ Liar s t := by
  induction h with
  | refl => exact .inl (Whole.refl ho)
  | step h1 h2 ih =>
    rcases ih with w | hl
    · rcases h2.whole hT w.1 with w' | hl'
      · exact .inl (w.trans w')
      · obtain ⟨_, l, hs, _⟩ := w
        exact .inr (hl'.before hs)
    · obtain ⟨l, hs⟩ := (since_api E _).callP h2.callP ⟨[], (List.append_nil _).symm⟩
      exact .inr (hl.after hs)

end Rmq
