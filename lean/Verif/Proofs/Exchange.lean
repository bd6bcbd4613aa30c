import Verif.Proofs.LoginStream
import Verif.Proofs.HeaderOut
import Verif.Spec.Session
/-!
# A request and its answer, on an established connection
-/
namespace Rmq

/-- An established connection with the maximum frame size `fm`. -/
def Estab (fm : Int) (s : Conn) : Prop := OutBuf s ∧ s.frameMax = s.outLen ∧ s.frameMax = fm ∧ fm < 2 ^ 31

theorem Estab.of_fixed {fm : Int} {s t : Conn} (h : Estab fm s) (ho : OutBuf t) (hf : (t.frameMax, t.outLen) = (s.frameMax, s.outLen)) : Estab fm t := by
  injection hf with h1 h2
  exact ⟨ho, by rw [h1, h2]; exact h.2.1, by rw [h1]; exact h.2.2.1, h.2.2.2⟩

/-- The sizes stay. -/
theorem sizes_api (E : NetEnv) (s : Conn) : ApiClosed E (fun t => (t.frameMax, t.outLen) = (s.frameMax, s.outLen)) (fun _ _ => True) :=
  field_api E (fun t => (t.frameMax, t.outLen)) _ fun _ _ _ _ _ _ _ _ _ => rfl

theorem Hush.estab {fm : Int} {s t : Conn} (h : Hush s t) (hs : Estab fm s) : Estab fm t := by
  have := h.outReady ⟨hs.1.1, hs.2.1⟩
  exact hs.of_fixed (h.outBuf hs.1) (by rw [this.1.2, this.2, hs.2.1])

/-- A request that was answered as expected. -/
theorem simpleRpc_exchange {E : NetEnv} (hT : NoTimeoutSend E) {fm : Int} {p : Proto} {args : Rec} (hp : p ∈ protocol) (hr : HasArgs p.args args) {ch : UInt16}
    {expected : List UInt32} (hx : CONNECTION_CLOSE ∉ expected) {s s' : Conn} {id : UInt32} {r : Rec} (hs : Estab fm s)
    (h : simpleRpc E ch p.id expected args s = .ok (.normal id r) s') :
    Estab fm s' ∧ id ∈ expected ∧ ∃ beats t u, FramesOf Beat beats ∧ Sent s s' (methodFrame ch p args ++ beats) ∧
      Sent s t (methodFrame ch p args) ∧ (∃ l, Since t u l) ∧ Arrived E u ⟨ch, .method id r⟩ s' := by
  have hfix := (sizes_api E s).toUpper.simpleRpc ch p.id expected args (s := s) rfl
  rw [h] at hfix
  unfold simpleRpc at h
  have h1 := fromNowIO_quiet E (getRpcTimeout s.timeouts) s
  revert h h1
  cases fromNowIO E (getRpcTimeout s.timeouts) s with
  | ub => intro h; cases h
  | fuel => intro h; cases h
  | err e t => intro h; cases h
  | ok d t0 =>
    intro h h1
    dsimp only at h
    have s0 : Sent s t0 [] := QuietStep.sent h1
    unfold rpcInner at h
    have h2 := sendMethod_out (E := E) hp hr ch SF_NONE TIME_INF ((Hush.quiet h1).outBuf hs.1)
    revert h h2
    cases sendMethod E ch p.id args SF_NONE TIME_INF t0 with
    | ub => intro h; cases h
    | fuel => intro h; cases h
    | err e t => intro h; cases h
    | ok x t =>
      intro h h2
      dsimp only at h
      obtain ⟨_, ho, l, hl, hb⟩ := h2
      have h3 := rpcLoop_tidy (sends_beat hT) ch expected d E.fuel ho
      rw [h] at h3
      obtain ⟨o, l', k1, k2, _⟩ := h3
      obtain ⟨hid, u, f, hu, hw, hpay, hch⟩ := rpcLoop_normal E.fuel h
      have hch : f.frame.channel = ch := hch.resolve_right fun hc => hx (hc ▸ hid)
      refine ⟨hs.of_fixed o hfix, hid, sentBytes l', t, u, k2, s0.before (Sent.append ⟨l, hl, hb⟩ ⟨l', k1, rfl⟩), s0.before ⟨l, hl, hb⟩, hu, d, f, hw, ?_⟩
      rw [← hch, ← hpay]

/-- A call of the generated functions that was answered. -/
theorem callRpc_exchange {E : NetEnv} (hT : NoTimeoutSend E) {fm : Int} {n c m : String} (hn : (n, c, m) ∈ rpcFunctions) {p q : Proto}
    (hp : IsMethod p c m) (hq : IsMethod q c (m ++ "-ok")) (hcc : q.id ≠ CONNECTION_CLOSE) {vs : List Val} (hv : TypedArgs (askedFor p.args) vs)
    {ch : UInt16} {a a' : App} {v : Option Rec} (hs : Estab fm a.conn) (h : callRpc E n ch vs a = .ok v a') :
    (∃ r, v = some r ∧ Estab fm a'.conn ∧ Exchange E ch c m (filled p.args vs) r a.conn a'.conn) ∨
      (v = none ∧ ∀ i r, a'.last ≠ some (.normal i r)) := by
  obtain ⟨e, hr⟩ := callRpc_eq hn hp.1 hp.2.1 hp.2.2 hq.1 hq.2.1 hq.2.2 hv E ch
  rw [e] at h
  obtain ⟨r, h1, h2, h3⟩ := rpcDecoded_eq E ch _ _ _ h
  cases r with
  | normal id args =>
    obtain ⟨k1, k2, beats, t, u, b1, b2, b3, b4, b5⟩ := simpleRpc_exchange hT hp.1 hr (by simpa using Ne.symm hcc) hs h1
    have k2 : id = q.id := by simpa using k2
    subst k2
    exact Or.inl ⟨args, h3, k1, p, q, beats, t, u, hp, hq, b1, b2, b3, b4, b5⟩
  | serverException id args => exact Or.inr ⟨h3, fun i r => by rw [h2]; intro h; cases h⟩
  | libraryException st => exact Or.inr ⟨h3, fun i r => by rw [h2]; intro h; cases h⟩

theorem decimal_200 : decimal 200 = cstr "200" := by decide +kernel

end Rmq
