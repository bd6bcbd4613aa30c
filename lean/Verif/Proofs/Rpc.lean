import Verif.Spec.Rpc
import Verif.Proofs.Outgoing
import Verif.Proofs.MethodOut
/-!
# The functions that call the server
-/
namespace Rmq

/-! ## The table -/

/-- The assignments a function should make. -/
def reqOf : List (Fld × Dom) → Nat → List (Fld × Src)
  | [], _ => []
  | (f, d) :: as, k =>
    if fixedArg f then (f, match d with | .shortstr => .empty | .bit => .zero .bool | _ => .zero .short) :: reqOf as k
    else (f, .param k) :: reqOf as (k + 1)

/-- The fixed arguments have these types. -/
def fixedOK (args : List (Fld × Dom)) : Bool :=
  args.all fun a => !fixedArg a.1 || a.2 == .shortstr || a.2 == .bit || a.2 == .short

theorem rpc_entry : ∀ t ∈ rpcFunctions, ∀ p ∈ protocol, p.clsName = t.2.1 → p.name = t.2.2 →
    fixedOK p.args = true ∧
    (rpcTable.find? fun f => f.name = t.1).map (fun f => (f.req, f.request)) = some (reqOf p.args 0, p.id) := by
  decide +kernel

theorem rpc_reply : ∀ t ∈ rpcFunctions, ∀ q ∈ protocol, q.clsName = t.2.1 → q.name = t.2.2 ++ "-ok" →
    (rpcTable.find? fun f => f.name = t.1).map (·.reply) = some q.id := by
  decide +kernel

/-! ## The arguments -/

theorem filled_ok : ∀ (as : List (Fld × Dom)) (vs : List Val) (k : Nat), fixedOK as = true → TypedArgs (askedFor as) (vs.drop k) →
    buildReq vs (reqOf as k) = some (filled as (vs.drop k)) ∧ HasArgs as (filled as (vs.drop k))
  | [], vs, k, _, _ => ⟨rfl, .nil⟩
  | (f, d) :: as, vs, k, hf, ht => by
    have hf' : fixedOK as = true := by unfold fixedOK at hf ⊢; rw [List.all_cons, Bool.and_eq_true] at hf; exact hf.2
    cases hc : fixedArg f with
    | true =>
      have ha : askedFor ((f, d) :: as) = askedFor as := by unfold askedFor; rw [List.filter_cons]; simp [hc]
      rw [ha] at ht
      obtain ⟨h1, h2⟩ := filled_ok as vs k hf' ht
      have hd : d = .shortstr ∨ d = .bit ∨ d = .short := by
        unfold fixedOK at hf
        rw [List.all_cons, Bool.and_eq_true] at hf
        have := hf.1
        rw [hc] at this
        simpa [or_assoc] using this
      unfold reqOf filled
      rw [if_pos hc, if_pos hc]
      refine ⟨?_, .cons ?_ h2⟩
      · unfold buildReq
        rw [h1]
        rcases hd with rfl | rfl | rfl <;> rfl
      · rcases hd with rfl | rfl | rfl <;> trivial
    | false =>
      have ha : askedFor ((f, d) :: as) = (f, d) :: askedFor as := by unfold askedFor; rw [List.filter_cons]; simp [hc]
      rw [ha] at ht
      unfold reqOf filled
      rw [if_neg (by simp [hc]), if_neg (by simp [hc])]
      cases hv : vs.drop k with
      | nil => rw [hv] at ht; exact ht.elim
      | cons v rest =>
        rw [hv] at ht
        have hr : rest = vs.drop (k + 1) := by rw [← List.tail_drop, hv]; rfl
        have hk : vs[k]? = some v := by rw [← List.head?_drop, hv]; rfl
        subst hr
        obtain ⟨h1, h2⟩ := filled_ok as vs (k + 1) hf' ht.2
        refine ⟨?_, .cons ht.1 h2⟩
        unfold buildReq
        rw [h1]
        show (match vs[k]?, some _ with | some v, some r => some ((f, v) :: r) | _, _ => none) = _
        rw [hk]

/-- A generated function is an RPC with the right methods and arguments. -/
theorem callRpc_eq {n c m : String} (hn : (n, c, m) ∈ rpcFunctions) {p q : Proto} (hp : p ∈ protocol) (hpc : p.clsName = c) (hpm : p.name = m)
    (hq : q ∈ protocol) (hqc : q.clsName = c) (hqm : q.name = m ++ "-ok") {vs : List Val} (hv : TypedArgs (askedFor p.args) vs)
    (E : NetEnv) (ch : UInt16) : callRpc E n ch vs = rpcDecoded E ch p.id q.id (filled p.args vs) ∧ HasArgs p.args (filled p.args vs) := by
  obtain ⟨h1, h2⟩ := rpc_entry _ hn p hp hpc hpm
  have h3 := rpc_reply _ hn q hq hqc hqm
  obtain ⟨h4, h5⟩ := filled_ok p.args vs 0 h1 hv
  refine ⟨?_, h5⟩
  unfold callRpc
  dsimp only at h2 h3
  cases hf : rpcTable.find? fun f => f.name = n with
  | none => rw [hf] at h2; cases h2
  | some f =>
    rw [hf] at h2 h3
    simp only [Option.map_some, Option.some.injEq, Prod.mk.injEq] at h2 h3
    dsimp only
    rw [h2.1, h4, h2.2, h3]
    rfl

/-! ## What an RPC sends -/

theorem sendMethod_out {E : NetEnv} {p : Proto} {r : Rec} (hp : p ∈ protocol) (hr : HasArgs p.args r) (ch : UInt16) (flags deadline : Nat)
    {s : Conn} (ho : OutBuf s) : match sendMethod E ch p.id r flags deadline s with
      | .ok _ t => AllArgs Dom.encodable p.args r ∧ OutBuf t ∧ ∃ l, Since s t l ∧ sentBytes l = methodFrame ch p r
      | .err _ t => ∃ l, Since s t l ∧ sentBytes l <+: methodFrame ch p r
      | _ => True := by
  have hw := sendFrame_wrote (E := E) ⟨ch, .method p.id r⟩ flags deadline s
  unfold sendMethod
  have b12 : 12 ≤ s.outMem.length := by rw [ho.1]; have := ho.2.1; omega
  have b32 : s.outMem.length < 2 ^ 32 := by rw [ho.1]; exact ho.2.2
  cases hs : sendFrame E ⟨ch, .method p.id r⟩ flags deadline s with
  | ub => trivial
  | fuel => trivial
  | ok a t =>
    rw [hs] at hw
    obtain ⟨enc, mem, l, hf, h2, h3, h4, hl, h6⟩ := hw
    rw [← ho.1] at hf
    obtain ⟨k1, k2, k3⟩ := frameToBytes_method hp hr E.pe.be ch s.outMem b12 b32 hf
    refine ⟨k1, ⟨by rw [h2, h3, k3, ho.1], by rw [h3]; exact ho.2.1, by rw [h3]; exact ho.2.2⟩, l, hl, ?_⟩
    rw [← k2, ← sentTagged_bytes, h6]; simp [Bytes.flagged, Function.comp_def]
  | err e t =>
    rw [hs] at hw
    obtain ⟨l, hl, h2⟩ := hw
    refine ⟨l, hl, ?_⟩
    rcases h2 with h2 | ⟨enc, mem, k, h3, h4⟩
    · have : sentBytes l = [] := by rw [← sentTagged_bytes, h2]; rfl
      rw [this]; exact List.nil_prefix
    · rw [← ho.1] at h3
      obtain ⟨_, k2, _⟩ := frameToBytes_method hp hr E.pe.be ch s.outMem b12 b32 h3
      have : sentBytes l = enc.take k := by rw [← sentTagged_bytes, h4]; simp [Bytes.flagged, Function.comp_def]
      rw [this, k2]; exact List.take_prefix _ _

theorem sends_beat {E : NetEnv} (hT : NoTimeoutSend E) : Sends E Beat := ⟨hT, rfl⟩

theorem rpcInner_out {E : NetEnv} (hT : NoTimeoutSend E) {p : Proto} {args : Rec} (hp : p ∈ protocol) (hr : HasArgs p.args args) (ch : UInt16)
    (expected : List UInt32) (d : Nat) {s s' : Conn} {r : Reply} (ho : OutBuf s) (h : rpcInner E ch p.id expected args d s = .ok r s') :
    (¬ r.failed → AllArgs Dom.encodable p.args args) ∧ ∃ l, Since s s' l ∧ RequestOut (methodFrame ch p args) r.failed (sentBytes l) := by
  unfold rpcInner at h
  have h1 := sendMethod_out (E := E) hp hr ch SF_NONE TIME_INF ho
  revert h h1
  cases sendMethod E ch p.id args SF_NONE TIME_INF s with
  | ub => intro h; cases h
  | fuel => intro h; cases h
  | err e t =>
    intro h h1
    cases h
    obtain ⟨l, hl, hb⟩ := h1
    exact ⟨fun hn => absurd trivial hn, l, hl, Or.inl ⟨trivial, hb⟩⟩
  | ok a t =>
    rintro h ⟨h1, h2, l, hl, hb⟩
    dsimp only at h
    have h3 := rpcLoop_tidy (sends_beat hT) ch expected d E.fuel h2
    rw [h] at h3
    refine ⟨fun _ => h1, ?_⟩
    have key : ∃ l', Since t s' l' ∧ FramesCut Beat (sentBytes l') ∧ (¬ r.failed → FramesOf Beat (sentBytes l')) := by
      cases r with
      | normal id args => obtain ⟨_, l', k1, k2, _⟩ := h3; exact ⟨l', k1, k2.cut, fun _ => k2⟩
      | serverException id args => obtain ⟨_, l', k1, k2, _⟩ := h3; exact ⟨l', k1, k2.cut, fun _ => k2⟩
      | libraryException e => obtain ⟨⟨l', k1, k2, _⟩, _⟩ := h3; exact ⟨l', k1, k2, fun hn => absurd trivial hn⟩
    obtain ⟨l', k1, k2, k3⟩ := key
    exact ⟨l ++ l', hl.trans k1, Or.inr ⟨sentBytes l', by rw [sentBytes_append, hb], k2, k3⟩⟩

theorem simpleRpc_out {E : NetEnv} (hT : NoTimeoutSend E) {p : Proto} {args : Rec} (hp : p ∈ protocol) (hr : HasArgs p.args args) (ch : UInt16)
    (expected : List UInt32) {s s' : Conn} {r : Reply} (ho : OutBuf s) (h : simpleRpc E ch p.id expected args s = .ok r s') :
    (¬ r.failed → AllArgs Dom.encodable p.args args) ∧ ∃ l, Since s s' l ∧ RequestOut (methodFrame ch p args) r.failed (sentBytes l) := by
  unfold simpleRpc at h
  have h1 := fromNowIO_quiet E (getRpcTimeout s.timeouts) s
  revert h h1
  cases fromNowIO E (getRpcTimeout s.timeouts) s with
  | ub => intro h; cases h
  | fuel => intro h; cases h
  | err e t =>
    intro h h1
    cases h
    obtain ⟨l, hl, hb⟩ := (Hush.quiet h1).sent
    exact ⟨fun hn => absurd trivial hn, l, hl, Or.inl ⟨trivial, by rw [hb]; exact List.nil_prefix⟩⟩
  | ok d t =>
    intro h h1
    dsimp only at h
    obtain ⟨l, hl, hb⟩ := (Hush.quiet h1).sent
    obtain ⟨k1, l', hl', k2⟩ := rpcInner_out hT hp hr ch expected d ((Hush.quiet h1).outBuf ho) h
    refine ⟨k1, l ++ l', hl.trans hl', ?_⟩
    rw [sentBytes_append, hb, List.nil_append]
    exact k2

/-- amqp_simple_rpc_decoded is amqp_simple_rpc with the result kept. -/
theorem rpcDecoded_eq (E : NetEnv) (ch : UInt16) (id reply : UInt32) (args : Rec) {a a' : App} {v : Option Rec}
    (h : rpcDecoded E ch id reply args a = .ok v a') : ∃ r, simpleRpc E ch id [reply] args a.conn = .ok r a'.conn ∧ a'.last = some r ∧
      v = match r with | .normal _ args => some args | _ => none := by
  unfold rpcDecoded at h
  unfold simpleRpc
  cases h1 : fromNowIO E (getRpcTimeout a.conn.timeouts) a.conn with
  | ub => rw [h1] at h; cases h
  | fuel => rw [h1] at h; cases h
  | err e s => rw [h1] at h; cases h; exact ⟨_, rfl, rfl, rfl⟩
  | ok d s =>
    rw [h1] at h
    dsimp only at h ⊢
    cases h2 : rpcInner E ch id [reply] args d s with
    | ub => rw [h2] at h; cases h
    | fuel => rw [h2] at h; cases h
    | err e t => rw [h2] at h; cases h
    | ok r t => rw [h2] at h; cases h; exact ⟨_, rfl, rfl, rfl⟩

theorem rpcLoop_ids {E : NetEnv} {ch : UInt16} {expected : List UInt32} {d : Nat} : ∀ (n : Nat) {s s' : Conn} {r : Reply},
    rpcLoop E ch expected d n s = .ok r s' → r.expects expected := by
  intro n
  induction n with
  | zero => intro s s' r h; cases h
  | succ n ih =>
    intro s s' r h
    unfold rpcLoop at h
    revert h
    cases waitFrameInner E d s with
    | ub => intro h; cases h
    | fuel => intro h; cases h
    | err e t => intro h; cases h; trivial
    | ok f t =>
      dsimp only
      by_cases he : endsRpc ch expected f.frame = true
      · rw [if_pos he]
        unfold endsRpc at he
        cases hp : f.frame.payload with
        | method id args =>
          rw [hp] at he
          dsimp only at he ⊢
          intro h
          cases h
          by_cases hc : expected.contains id = true
          · rw [if_pos hc]; exact List.contains_iff_mem.1 hc
          · rw [if_neg hc]
            simp only [CHANNEL_CLOSE, CONNECTION_CLOSE, hc, Bool.false_or, Bool.or_eq_true, Bool.and_eq_true, beq_iff_eq] at he
            rcases he with he | he
            · exact Or.inl (by simpa [hc] using he.2)
            · exact Or.inr he.2
        | _ => intro h; cases h
      · rw [if_neg he]
        cases queueFrame E f t with
        | ub => intro h; cases h
        | fuel => intro h; cases h
        | err e u => intro h; cases h; trivial
        | ok a u => exact fun h => ih h

theorem simpleRpc_ids {E : NetEnv} {ch : UInt16} {id : UInt32} {expected : List UInt32} {args : Rec} {s s' : Conn} {r : Reply}
    (h : simpleRpc E ch id expected args s = .ok r s') : r.expects expected := by
  unfold simpleRpc at h
  revert h
  cases fromNowIO E (getRpcTimeout s.timeouts) s with
  | ub => intro h; cases h
  | fuel => intro h; cases h
  | err e t => intro h; cases h; trivial
  | ok d t =>
    dsimp only
    unfold rpcInner
    cases sendMethod E ch id args SF_NONE TIME_INF t with
    | ub => intro h; cases h
    | fuel => intro h; cases h
    | err e u => intro h; cases h; trivial
    | ok a u => exact fun h => rpcLoop_ids _ h

end Rmq

namespace Rmq

/-! ## Decimal numbers -/

theorem head_app {l m : Bytes} (h : l ≠ []) : (l ++ m).head? = l.head? := by
  cases l with
  | nil => exact absurd rfl h
  | cons x l => rfl

theorem decimal_ok (n : Nat) : IsDecimal n (decimal n) ∧ (n < 100000 → (decimal n).length ≤ 5) ∧ (n ≠ 0 → (decimal n).head? ≠ some 48) := by
  have one : ∀ n < 10, IsDecimal n [UInt8.ofNat (48 + n)] ∧ (n ≠ 0 → [UInt8.ofNat (48 + n)].head? ≠ some 48) := by
    intro n hn
    have : n = 0 ∨ n = 1 ∨ n = 2 ∨ n = 3 ∨ n = 4 ∨ n = 5 ∨ n = 6 ∨ n = 7 ∨ n = 8 ∨ n = 9 := by omega
    rcases this with rfl | rfl | rfl | rfl | rfl | rfl | rfl | rfl | rfl | rfl <;> unfold IsDecimal <;> decide
  have len : ∀ k n, n < 10 ^ (k + 1) → (decimal n).length ≤ k + 1 := by
    intro k
    induction k with
    | zero => intro n hn; unfold decimal; rw [if_pos (by omega)]; simp
    | succ k ih =>
      intro n hn
      unfold decimal
      split
      · simp
      · have := ih (n / 10) (by rw [Nat.div_lt_iff_lt_mul (by decide)]; rw [Nat.pow_succ] at hn; exact hn)
        simp; omega
  induction n using Nat.strongRecOn with
  | _ n ih =>
    refine ⟨?_, fun h => len 4 n (by omega), ?_⟩
    · unfold decimal
      split
      · rename_i h; exact (one n h).1
      · rename_i h
        obtain ⟨⟨h1, h2, h3, h4⟩, _, h5⟩ := ih (n / 10) (by omega)
        obtain ⟨⟨_, k2, _, k4⟩, _⟩ := one (n % 10) (by omega)
        have hne := h5 (by omega)
        refine ⟨by simp, fun c hc => ?_, fun hh => ?_, ?_⟩
        · rcases List.mem_append.1 hc with hc | hc
          · exact h2 c hc
          · exact k2 c hc
        · rw [head_app h1] at hh
          exact absurd hh hne
        · rw [List.foldl_append, h4]
          simp only [List.foldl_cons, List.foldl_nil] at k4 ⊢
          omega
    · intro hn
      unfold decimal
      split
      · rename_i h; exact (one n h).2 hn
      · rename_i h
        obtain ⟨⟨h1, _⟩, _, h5⟩ := ih (n / 10) (by omega)
        rw [head_app h1]
        exact h5 (by omega)

end Rmq
