import Verif.Proofs.TlsCreds
/-!
# Configuring a TLS socket, and its I/O: C79, C80
-/
namespace Rmq
open TlsSpec

/-! ## C79 -/

/-- C79: whatever OpenSSL answers, after any history of configuration calls on a new TLS socket (that was not aborted) no BIO and no key the library
made is left alive, none was used or freed after it was freed, and what is in force is what `Configured` (Spec/TlsCreds.lean) says: a call that
returned OK has put in force all it was given, a call that failed returned a negative status and has put nothing in force. Missing (`_partial`): a
failing call may have replaced the certificate chain — the second case of `Leaves`. -/
theorem C79_history_partial (O : CtxOracle) (ops : List CredOp) (rs : List Int) (l : CtxLog) (h : credRun O ops [] = some (rs, l)) :
    ∃ c, Ctx.new.steps l = some c ∧ c.bios = [] ∧ c.rsas = [] ∧ c.pkeys = [] ∧ Configured Ctx.new ops rs c := by
  obtain ⟨d, c, hl, hs, hc⟩ := credRun_calls O ops [] l rs h Ctx.new
  subst hl
  suffices hk : ∀ {c0 c : Ctx} {ops rs}, Configured c0 ops rs c → c.bios = c0.bios ∧ c.rsas = c0.rsas ∧ c.pkeys = c0.pkeys by
    obtain ⟨h1, h2, h3⟩ := hk hc
    exact ⟨c, hs, h1, h2, h3, hc⟩
  intro c0 c ops rs hc
  induction hc with
  | nil => exact ⟨rfl, rfl, rfl⟩
  | @ok _ op _ _ _ _ ih =>
    obtain ⟨h1, h2, h3⟩ := ih
    rw [h1, h2, h3]
    cases op <;> exact ⟨rfl, rfl, rfl⟩
  | failed _ hl _ ih =>
    obtain ⟨h1, h2, h3⟩ := ih
    rw [h1, h2, h3]
    rcases hl with rfl | ⟨_, _, _, rfl⟩ <;> exact ⟨rfl, rfl, rfl⟩

/-- C79: the private key in force after a call: the one given if the call gave one and returned OK, otherwise the one before. -/
theorem C79_key (O : CtxOracle) (op : CredOp) (l l' : CtxLog) (r : Int) (h : credOp O true op l = some (r, l')) (c : Ctx) :
    ∃ d c', l' = l ++ d ∧ c.steps d = some c' ∧
      (c'.key = match op with
        | .setKey _ k => if r = St.OK then some (.file k) else c.key
        | .setKeyBuffer _ k => if r = St.OK then some (.buffer k) else c.key
        | .setKeyEngine _ k => if r = St.OK then some (.engine k) else c.key
        | _ => c.key) ∧
      (r = St.OK → c'.chain = match op with
        | .setKey cert _ => some cert
        | .setKeyBuffer cert _ => some cert
        | .setKeyEngine cert _ => some cert
        | .setCert cert => some cert
        | _ => c.chain) := by
  obtain ⟨d, hd, c', hs, hc⟩ := credOp_calls O op l l' r h c
  refine ⟨d, c', hd, hs, ?_⟩
  rcases hc with ⟨rfl, rfl⟩ | ⟨hn, hl⟩
  · cases op <;> exact ⟨rfl, fun _ => rfl⟩
  · have hne : r ≠ St.OK := fun e => by rw [e] at hn; exact absurd hn (by decide)
    refine ⟨?_, fun e => absurd e hne⟩
    have : c'.key = c.key := by rcases hl with rfl | ⟨_, _, _, rfl⟩ <;> rfl
    rw [this]
    cases op <;> simp [hne]

/-- A call OpenSSL refused. -/
def CtxEv.refused : CtxEv → Bool
  | .defaultPaths ok | .caFile _ ok | .chainFile _ ok | .keyFile _ ok | .useRsa _ ok | .usePkey _ ok => !ok
  | .bioMem _ a | .engineKey _ a => a.isNone
  | .readKey _ a => a = .none
  | _ => false

/-- C79: a configuration call fails only for a reason: OpenSSL refused something, the key buffer has 2³¹ octets or more (nothing is done then), or the
build has no engine API (nothing is done then).  Otherwise it returns OK. -/
theorem C79_why (O : CtxOracle) (op : CredOp) (l l' : CtxLog) (r : Int) (h : credOp O true op l = some (r, l')) :
    ∃ d, l' = l ++ d ∧ (
      (r = St.OK ∧ d.any CtxEv.refused = false) ∨
      (r = St.SSL_ERROR ∧ d.any CtxEv.refused = true) ∨
      (r = St.INVALID_PARAMETER ∧ d = [] ∧ ∃ c k, op = .setKeyBuffer c k ∧ 2 ^ 31 ≤ k.length) ∨
      (r = St.SSL_UNIMPLEMENTED ∧ d = [] ∧ O.engineApi = false ∧ ∃ c k, op = .setKeyEngine c k)) := by
  cases op with
  | defaultPaths =>
    simp only [credOp, enableDefaultPaths, ctxCall] at h
    cases hf : O.defaultPaths l <;> simp only [hf, ↓reduceIte, reduceCtorEq] at h <;> injection h with h <;> injection h with h1 h2 <;> subst h1 h2
    · exact ⟨_, rfl, .inr (.inl ⟨rfl, rfl⟩)⟩
    · exact ⟨_, rfl, .inl ⟨rfl, rfl⟩⟩
  | caCert f =>
    simp only [credOp, setCacert, ctxCall] at h
    cases hf : O.caFile l <;> simp only [hf, ↓reduceIte, reduceCtorEq] at h <;> injection h with h <;> injection h with h1 h2 <;> subst h1 h2
    · exact ⟨_, rfl, .inr (.inl ⟨rfl, rfl⟩)⟩
    · exact ⟨_, rfl, .inl ⟨rfl, rfl⟩⟩
  | setCert f =>
    simp only [credOp, setCert, ctxCall] at h
    cases hf : O.chainFile l <;> simp only [hf, ↓reduceIte, reduceCtorEq] at h <;> injection h with h <;> injection h with h1 h2 <;> subst h1 h2
    · exact ⟨_, rfl, .inr (.inl ⟨rfl, rfl⟩)⟩
    · exact ⟨_, rfl, .inl ⟨rfl, rfl⟩⟩
  | setPasswd p =>
    simp only [credOp, ctxCall] at h
    injection h with h; injection h with h1 h2; subst h1 h2
    exact ⟨_, rfl, .inl ⟨rfl, rfl⟩⟩
  | setKey cert key =>
    simp only [credOp, setKey, ctxCall] at h
    cases hf : O.chainFile l <;> simp only [hf, ↓reduceIte, reduceCtorEq] at h
    · injection h with h; injection h with h1 h2; subst h1 h2
      exact ⟨_, rfl, .inr (.inl ⟨rfl, rfl⟩)⟩
    · cases hk : O.keyFile (l ++ [CtxEv.chainFile cert true]) <;> simp only [hk, ↓reduceIte, reduceCtorEq] at h <;>
        injection h with h <;> injection h with h1 h2 <;> subst h1 h2
      · exact ⟨_, List.append_assoc .., .inr (.inl ⟨rfl, rfl⟩)⟩
      · exact ⟨_, List.append_assoc .., .inl ⟨rfl, rfl⟩⟩
  | setKeyEngine cert key =>
    simp only [credOp, setKeyEngine, ctxCall] at h
    by_cases hap : O.engineApi = false
    · simp only [hap, ↓reduceIte] at h
      injection h with h; injection h with h1 h2; subst h1 h2
      exact ⟨[], by simp, .inr (.inr (.inr ⟨rfl, rfl, hap, cert, key, rfl⟩))⟩
    simp only [hap, ↓reduceIte] at h
    cases hf : O.chainFile l <;> simp only [hf, ↓reduceIte, reduceCtorEq] at h
    · injection h with h; injection h with h1 h2; subst h1 h2
      exact ⟨_, rfl, .inr (.inl ⟨rfl, rfl⟩)⟩
    · cases he : O.engineKey (l ++ [CtxEv.chainFile cert true]) with
      | none =>
        simp only [he] at h
        injection h with h; injection h with h1 h2; subst h1 h2
        exact ⟨_, List.append_assoc .., .inr (.inl ⟨rfl, rfl⟩)⟩
      | some p =>
        simp only [he] at h
        cases hk : O.usePkey (l ++ [CtxEv.chainFile cert true] ++ [CtxEv.engineKey key (some p)]) <;>
          simp only [hk, ↓reduceIte, reduceCtorEq] at h <;> injection h with h <;> injection h with h1 h2 <;> subst h1 h2
        · exact ⟨_, by simp only [List.append_assoc]; rfl, .inr (.inl ⟨rfl, rfl⟩)⟩
        · exact ⟨_, by simp only [List.append_assoc]; rfl, .inl ⟨rfl, rfl⟩⟩
  | setKeyBuffer cert key =>
    simp only [credOp, setKeyBuffer, ctxCall] at h
    by_cases hap : key.length > 2147483647
    · simp only [hap, ↓reduceIte] at h
      injection h with h; injection h with h1 h2; subst h1 h2
      exact ⟨[], by simp, .inr (.inr (.inl ⟨rfl, rfl, cert, key, rfl, hap⟩))⟩
    simp only [hap, ↓reduceIte] at h
    cases hf : O.chainFile l <;> simp only [hf, ↓reduceIte, reduceCtorEq] at h
    · injection h with h; injection h with h1 h2; subst h1 h2
      exact ⟨_, rfl, .inr (.inl ⟨rfl, rfl⟩)⟩
    · cases hb : O.bioMem (l ++ [CtxEv.chainFile cert true]) with
      | none =>
        simp only [hb] at h
        injection h with h; injection h with h1 h2; subst h1 h2
        exact ⟨_, List.append_assoc .., .inr (.inl ⟨rfl, rfl⟩)⟩
      | some b =>
        simp only [hb] at h
        cases hr : O.readKey (l ++ [CtxEv.chainFile cert true] ++ [CtxEv.bioMem key (some b)]) with
        | password => simp only [hr] at h; cases h
        | none =>
          simp only [hr] at h
          injection h with h; injection h with h1 h2; subst h1 h2
          exact ⟨_, by simp only [List.append_assoc]; rfl, .inr (.inl ⟨rfl, rfl⟩)⟩
        | key k =>
          simp only [hr] at h
          cases hk : O.useRsa (l ++ [CtxEv.chainFile cert true] ++ [CtxEv.bioMem key (some b)] ++ [CtxEv.readKey b (.key k)]) <;>
            simp only [hk, ↓reduceIte, reduceCtorEq] at h <;> injection h with h <;> injection h with h1 h2 <;> subst h1 h2
          · exact ⟨_, by simp only [List.append_assoc]; rfl, .inr (.inl ⟨rfl, rfl⟩)⟩
          · exact ⟨_, by simp only [List.append_assoc]; rfl, .inl ⟨rfl, rfl⟩⟩

/-- C79: the process is aborted exactly in two cases: the socket is not a TLS socket (for the engine call: in a build with the engine API), or the key in the
buffer is protected by a password — OpenSSL asks for it; a password given before makes no difference. -/
theorem C79_aborts (O : CtxOracle) (tls : Bool) (op : CredOp) (l : CtxLog) :
    credOp O tls op l = none ↔
      (tls = false ∧ ((∃ c k, op = .setKeyEngine c k) → O.engineApi = true)) ∨
      (tls = true ∧ ∃ cert key b, op = .setKeyBuffer cert key ∧ key.length < 2 ^ 31 ∧ O.chainFile l = true ∧
        O.bioMem (l ++ [.chainFile cert true]) = some b ∧ O.readKey (l ++ [.chainFile cert true, .bioMem key (some b)]) = .password) := by
  cases tls with
  | false =>
    cases op <;> simp [credOp]
  | true =>
    cases op <;> simp only [credOp, reduceCtorEq, false_and, exists_false, and_false, or_self, true_and, false_or]
    rename_i cert key
    simp only [setKeyBuffer, ctxCall]
    constructor
    · intro h
      by_cases hap : key.length > 2147483647
      · simp only [hap, ↓reduceIte, reduceCtorEq] at h
      simp only [hap, ↓reduceIte] at h
      cases hf : O.chainFile l <;> simp only [hf, ↓reduceIte, reduceCtorEq] at h
      cases hb : O.bioMem (l ++ [CtxEv.chainFile cert true]) with
      | none => simp only [hb, reduceCtorEq] at h
      | some b =>
        simp only [hb] at h
        cases hr : O.readKey (l ++ [CtxEv.chainFile cert true] ++ [CtxEv.bioMem key (some b)]) with
        | password => exact ⟨cert, key, b, rfl, by omega, rfl, hb, by simpa using hr⟩
        | none => simp only [hr, reduceCtorEq] at h
        | key k =>
          simp only [hr] at h
          cases hk : O.useRsa (l ++ [CtxEv.chainFile cert true] ++ [CtxEv.bioMem key (some b)] ++ [CtxEv.readKey b (.key k)]) <;>
            simp only [hk, ↓reduceIte, reduceCtorEq] at h
    · rintro ⟨_, _, b, he, hl, hf, hb, hr⟩
      injection he with h1 h2
      subst h1 h2
      have hap : ¬ key.length > 2147483647 := by omega
      have hr : O.readKey (l ++ [CtxEv.chainFile cert true] ++ [CtxEv.bioMem key (some b)]) = .password := by simpa using hr
      simp only [hap, hf, hb, hr, ↓reduceIte, reduceCtorEq]

/-- An OpenSSL that accepts everything but the private key in a file. -/
def badKeyFile : CtxOracle :=
  ⟨fun _ => true, fun _ => true, fun _ => true, fun _ => false, fun _ => some 1, fun _ => .key 2, fun _ => true, fun _ => some 3, fun _ => true, false⟩

/-- C79 does not hold in full: a call that fails on the private key leaves the new certificate chain in force, with the old key. -/
theorem C79_chain_replaced :
    ∃ l c, credRun badKeyFile [.setKeyBuffer [1] [2], .setKey [3] [4]] [] = some ([St.OK, St.SSL_ERROR], l) ∧
      Ctx.new.steps l = some c ∧ c.chain = some [3] ∧ c.key = some (.buffer [2]) :=
  ⟨_, _, rfl, rfl, rfl, rfl⟩

example : credRun badKeyFile [.setKeyBuffer [1] [2], .caCert [9], .setPasswd 7, .setKeyEngine [1] [2]] [] =
    some ([0, 0, 0, St.SSL_UNIMPLEMENTED],
      [.chainFile [1] true, .bioMem [2] (some 1), .readKey 1 (.key 2), .useRsa 2 true, .bioFree 1, .rsaFree 2, .caFile [9] true, .passwd 7]) := by
  decide

example : credOp { badKeyFile with readKey := fun _ => .password } true (.setKeyBuffer [1] [2]) [] = none := by decide

/-- C79: after any history of amqp_set_ssl_engine calls the mutex is free and exactly one engine reference is held — the one looked up by the name given last —
or none, if the last call failed or was given NULL, or there was none. -/
theorem C79_engine (calls : List (Option Bytes × Option Nat × Bool)) :
    let (rs, cur, ev) := engineRun calls none
    rs.length = calls.length ∧ (∀ r ∈ rs, r = St.OK ∨ r = St.SSL_SET_ENGINE_FAILED) ∧
    ∃ h, engines (false, []) ev = some (false, h) ∧ h.map (·.1) = cur.toList ∧
      h.map (·.2) = (match calls.getLast?, rs.getLast? with
        | some (some n, _), some r => if r = St.OK then [n] else []
        | _, _ => []) := by
  have happ : ∀ (a b : List EngEv) (s : Bool × List (Nat × Bytes)), engines s (a ++ b) = (engines s a).bind (fun s => engines s b) := by
    intro a b
    induction a with
    | nil => intro s; rfl
    | cons e a ih =>
      rintro ⟨m, h⟩
      cases m with
      | false =>
        cases e with
        | lock => exact ih _
        | byId n x => cases x <;> rfl
        | _ => rfl
      | true =>
        cases e with
        | lock => rfl
        | unlock => exact ih _
        | byId n x => cases x <;> exact ih _
        | free e =>
          show (remove e h).bind _ = ((remove e h).bind _).bind _
          cases remove e h with
          | none => rfl
          | some h => exact ih _
        | setDefault e ok =>
          show (h.lookup e).bind _ = ((h.lookup e).bind _).bind _
          cases h.lookup e with
          | none => rfl
          | some h => exact ih _
  -- one call
  have one : ∀ (n : Option Bytes) (b : Option Nat) (d : Bool) (h : List (Nat × Bytes)) (cur : Option Nat), h.map (·.1) = cur.toList →
      ∃ h', engines (false, h) (setSslEngine n b d cur).2.2 = some (false, h') ∧ h'.map (·.1) = (setSslEngine n b d cur).2.1.toList ∧
        ((setSslEngine n b d cur).1 = St.OK ∨ (setSslEngine n b d cur).1 = St.SSL_SET_ENGINE_FAILED) ∧
        h'.map (·.2) = (match n with | some n => if (setSslEngine n b d cur).1 = St.OK then [n] else [] | none => []) := by
    intro n b d h cur hc
    have hh : ∃ pre, dropEngine cur = pre ∧ engines (false, h) pre = some (true, []) := by
      refine ⟨_, rfl, ?_⟩
      cases cur with
      | none => rw [List.map_eq_nil_iff.1 hc]; rfl
      | some e =>
        match h, hc with
        | [(x, y)], hc =>
          simp only [List.map_cons, List.map_nil, Option.toList_some, List.cons.injEq, and_true] at hc
          subst hc
          simp [dropEngine, engines, remove]
    obtain ⟨pre, hp, he⟩ := hh
    simp only [setSslEngine, hp]
    cases n with
    | none => exact ⟨[], by simp [happ, he, engines], rfl, .inl rfl, rfl⟩
    | some n =>
      cases b with
      | none => exact ⟨[], by simp [happ, he, engines], rfl, .inr rfl, rfl⟩
      | some e =>
        cases d with
        | false => exact ⟨[], by simp [happ, he, engines, remove], rfl, .inr rfl, rfl⟩
        | true => exact ⟨[(e, n)], by simp [happ, he, engines], rfl, .inl rfl, rfl⟩
  -- histories
  have all : ∀ (calls : List (Option Bytes × Option Nat × Bool)) (h : List (Nat × Bytes)) (cur : Option Nat), h.map (·.1) = cur.toList →
      (engineRun calls cur).1.length = calls.length ∧ (∀ r ∈ (engineRun calls cur).1, r = St.OK ∨ r = St.SSL_SET_ENGINE_FAILED) ∧
      ∃ h', engines (false, h) (engineRun calls cur).2.2 = some (false, h') ∧ h'.map (·.1) = (engineRun calls cur).2.1.toList ∧
        h'.map (·.2) = (match calls.getLast?, (engineRun calls cur).1.getLast? with
          | some (some n, _), some r => if r = St.OK then [n] else []
          | some (none, _), _ => []
          | _, _ => h.map (·.2)) := by
    intro calls
    induction calls with
    | nil => intro h cur hc; exact ⟨rfl, (fun _ h => nomatch h), h, rfl, hc, rfl⟩
    | cons c rest ih =>
      intro h cur hc
      obtain ⟨n, b, d⟩ := c
      obtain ⟨h1, he1, hc1, hr1, hn1⟩ := one n b d h cur hc
      obtain ⟨hl, hr, h2, he2, hc2, hn2⟩ := ih h1 _ hc1
      refine ⟨by simpa [engineRun] using hl, ?_, h2, ?_, hc2, ?_⟩
      · intro r hm
        rcases List.mem_cons.1 hm with rfl | hm
        · exact hr1
        · exact hr r hm
      · show engines (false, h) ((setSslEngine n b d cur).2.2 ++ _) = _
        rw [happ, he1]
        exact he2
      · rw [hn2]
        cases rest with
        | nil =>
          rw [show (engineRun [] (setSslEngine n b d cur).2.1).1 = [] from rfl, hn1]
          cases n <;> rfl
        | cons c' rest =>
          have hne : (engineRun (c' :: rest) (setSslEngine n b d cur).2.1).1 ≠ [] := by
            intro e; rw [e] at hl; cases hl
          rw [List.getLast?_cons_cons, show (engineRun ((n, b, d) :: c' :: rest) cur).1 =
            (setSslEngine n b d cur).1 :: (engineRun (c' :: rest) (setSslEngine n b d cur).2.1).1 from rfl]
          generalize (engineRun (c' :: rest) (setSslEngine n b d cur).2.1).1 = L at hne ⊢
          match L, hne with
          | x :: L, _ =>
            rw [List.getLast?_cons_cons]
            have h1 := List.getLast?_eq_some_getLast (l := c' :: rest) (List.cons_ne_nil _ _)
            have h2 := List.getLast?_eq_some_getLast (l := x :: L) (List.cons_ne_nil _ _)
            rw [h1, h2]
            generalize (c' :: rest).getLast _ = q
            obtain ⟨_ | _, _⟩ := q <;> rfl
  obtain ⟨h1, h2, h, h3, h4, h5⟩ := all calls [] none rfl
  refine ⟨h1, h2, h, h3, h4, ?_⟩
  rw [h5]
  cases calls.getLast? with
  | none => rfl
  | some q => obtain ⟨_ | _, _⟩ := q <;> cases (engineRun calls none).1.getLast? <;> rfl

example : engineRun [(some [1], some 5, true), (some [2], some 6, true), (some [3], some 7, false)] none =
    ([0, 0, St.SSL_SET_ENGINE_FAILED], none, [.lock, .byId [1] (some 5), .setDefault 5 true, .unlock, .lock, .free 5, .byId [2] (some 6),
      .setDefault 6 true, .unlock, .lock, .free 6, .byId [3] (some 7), .setDefault 7 false, .free 7, .unlock]) := by decide

/-! ## C80 -/

/-- C80: the write function of the BIO makes one send call with MSG_NOSIGNAL (no SIGPIPE) and the octets it was given, hands its result on unchanged, and
asks OpenSSL to repeat the write exactly if the call failed with a transient error — whatever the retry flags were before. -/
theorem C80_write (buf : Bytes) (a : RawAns) (b : BioState) :
    ∃ b', bioWrite buf a b = (a.res, b') ∧ b'.calls = b.calls ++ [(true, buf, buf.length, true, a)] ∧ b'.retryRead = false ∧
      (b'.retryWrite = true ↔ ∃ e ∈ transient, a = .fail e) := by
  cases a with
  | count n => exact ⟨_, if_neg (fun hc => nomatch hc.2), rfl, rfl, iff_of_false (by simp) (fun ⟨_, _, h⟩ => nomatch h)⟩
  | fail e =>
    by_cases h : e ∈ transient
    · refine ⟨_, if_pos ⟨(by decide : (-1 : Int) ≤ 0), ?_⟩, rfl, rfl, iff_of_true rfl ⟨e, h, rfl⟩⟩
      simp only [transient, List.mem_cons, List.not_mem_nil, or_false] at h
      rcases h with h | h | h | h | h | h <;> subst h <;> rfl
    · refine ⟨_, if_neg (fun hc => h ?_), rfl, rfl, iff_of_false (by simp) ?_⟩
      · have := hc.2
        simp only [bioShouldRetry, Bool.or_false, Bool.or_eq_true, beq_iff_eq] at this
        simp only [transient, List.mem_cons, List.not_mem_nil, or_false]
        omega
      · rintro ⟨e', he', heq⟩
        cases heq
        exact h he'

/-- C80: the read function likewise: one recv call, result handed on unchanged, repetition requested exactly after a transient error; in particular not at the
end of the stream. -/
theorem C80_read (room : Nat) (a : RawAns) (b : BioState) :
    ∃ b', bioRead room a b = (a.res, b') ∧ b'.calls = b.calls ++ [(false, [], room, true, a)] ∧ b'.retryWrite = false ∧
      (b'.retryRead = true ↔ ∃ e ∈ transient, a = .fail e) := by
  cases a with
  | count n => exact ⟨_, if_neg (fun hc => nomatch hc.2), rfl, rfl, iff_of_false (by simp) (fun ⟨_, _, h⟩ => nomatch h)⟩
  | fail e =>
    by_cases h : e ∈ transient
    · refine ⟨_, if_pos ⟨(by decide : (-1 : Int) ≤ 0), ?_⟩, rfl, rfl, iff_of_true rfl ⟨e, h, rfl⟩⟩
      simp only [transient, List.mem_cons, List.not_mem_nil, or_false] at h
      rcases h with h | h | h | h | h | h <;> subst h <;> rfl
    · refine ⟨_, if_neg (fun hc => h ?_), rfl, rfl, iff_of_false (by simp) ?_⟩
      · have := hc.2
        simp only [bioShouldRetry, Bool.or_false, Bool.or_eq_true, beq_iff_eq] at this
        simp only [transient, List.mem_cons, List.not_mem_nil, or_false]
        omega
      · rintro ⟨e', he', heq⟩
        cases heq
        exact h he'

example : bioRead 5 (.fail 11) ⟨false, true, []⟩ = (-1, ⟨true, false, [(false, [], 5, true, .fail 11)]⟩) := by decide
/-- ECONNRESET (104) and EPIPE (32) are not repeated, the end of the stream neither. -/
example : (bioWrite [1] (.fail 32) ⟨false, true, []⟩).2.retryWrite = false ∧ (bioRead 5 (.fail 104) ⟨true, true, []⟩).2.retryRead = false ∧
    (bioRead 5 (.count 0) ⟨true, true, []⟩).2.retryRead = false := by decide

end Rmq
