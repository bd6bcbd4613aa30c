import Verif.Proofs.ToolsWire
/-!
# Whole sessions of the tools
-/
namespace Rmq.ToolsM
open Rmq.ToolsSpec

def chanCloseProto : Proto := ⟨20, 40, "channel", "close", [(.reply_code, .short), (.reply_text, .shortstr), (.class_id, .short), (.method_id, .short)], false⟩
def connCloseProto : Proto := ⟨10, 50, "connection", "close", [(.reply_code, .short), (.reply_text, .shortstr), (.class_id, .short), (.method_id, .short)], false⟩

theorem closeArgs_200 : closeArgs 200 = close200 := by
  unfold closeArgs close200
  rw [show (200 : Int).toNat = 200 from rfl, decimal_200]
  rfl

theorem replyOrDie_ok {x : M App Reply} {p p' : Proc} (h : replyOrDie x p = .ok () p') :
    ∃ i r s, x p.app = .ok (.normal i r) s ∧ p' = { p with app := s } := by
  unfold replyOrDie at h
  obtain ⟨r, q, h1, h⟩ := M.bind_ok h
  obtain ⟨s, e, rfl⟩ := orDie_ok h1
  cases r with
  | normal i r => cases h; exact ⟨i, r, s, e, rfl⟩
  | serverException i r => cases h
  | libraryException i => cases h

theorem channelClose_exchange {E : NetEnv} (hT : NoTimeoutSend E) {fm : Int} {a a' : App} {i : UInt32} {r : Rec} (hs : Estab fm a.conn)
    (h : channelClose E 1 200 a = .ok (.normal i r) a') : Estab fm a'.conn ∧ Exchange E 1 "channel" "close" close200 r a.conn a'.conn := by
  unfold channelClose at h
  rw [if_neg (by decide), closeArgs_200] at h
  have h := lift_ok h
  obtain ⟨e1, k2, beats, t, u, b1, b2, b3, b4, b5⟩ := simpleRpc_exchange hT (p := chanCloseProto) (args := close200) (by decide)
    (.cons trivial (.cons trivial (.cons trivial (.cons trivial .nil)))) (by decide) hs h
  have k2 : i = 0x00140029 := by simpa using k2
  subst k2
  exact ⟨e1, chanCloseProto, ⟨20, 41, "channel", "close-ok", [], false⟩, beats, t, u, ⟨by decide, rfl, rfl⟩, ⟨by decide, rfl, rfl⟩, b1, b2, b3, b4, b5⟩

theorem connectionClose_exchange {E : NetEnv} (hT : NoTimeoutSend E) {fm : Int} {a a' : App} {i : UInt32} {r : Rec} (hs : Estab fm a.conn)
    (h : connectionClose E 200 a = .ok (.normal i r) a') : Exchange E 0 "connection" "close" close200 r a.conn a'.conn := by
  unfold connectionClose at h
  rw [if_neg (by decide), closeArgs_200] at h
  have h := lift_ok h
  obtain ⟨e1, k2, beats, t, u, b1, b2, b3, b4, b5⟩ := simpleRpc_exchange hT (p := connCloseProto) (args := close200) (by decide)
    (.cons trivial (.cons trivial (.cons trivial (.cons trivial .nil)))) (by decide) hs h
  have k2 : i = 0x000A0033 := by simpa using k2
  subst k2
  exact ⟨connCloseProto, ⟨10, 51, "connection", "close-ok", [], false⟩, beats, t, u, ⟨by decide, rfl, rfl⟩, ⟨by decide, rfl, rfl⟩, b1, b2, b3, b4, b5⟩

theorem closeConnection_ok {S : Shell} (hT : NoTimeoutSend S.net) {fm : Int} {p p' : Proc} (hs : Estab fm p.app.conn) (h : closeConnection S p = .ok () p') :
    p'.acts = p.acts ∧ ∃ s4 a2 a3, Exchange S.net 1 "channel" "close" close200 a2 p.app.conn s4 ∧
      Exchange S.net 0 "connection" "close" close200 a3 s4 p'.app.conn := by
  unfold closeConnection at h
  obtain ⟨_, q, h1, h⟩ := M.bind_ok h
  obtain ⟨i, r, s, e, rfl⟩ := replyOrDie_ok h1
  obtain ⟨i', r', s', e', rfl⟩ := replyOrDie_ok h
  obtain ⟨k1, k2⟩ := channelClose_exchange hT hs e
  exact ⟨rfl, s.conn, r, r', k2, connectionClose_exchange hT k1 e'⟩

theorem toolLogin_settles {hb : Int} (h0 : 0 ≤ hb) (h1 : hb ≤ 65535) {sc : UInt16} {sf : UInt32} {sh : UInt16} {v1 : UInt16} {v2 : UInt32} {v3 : UInt16}
    (h : negotiate (UInt16.ofNat (0 : Int).toNat) (UInt32.ofNat (131072 : Int).toNat) (UInt16.ofNat hb.toNat) sc sf sh = (v1, v2, v3)) :
    v1 = (if sc = 0 then 65535 else sc) ∧ v2.toNat = (if sf ≠ 0 ∧ sf.toNat < 131072 then sf.toNat else 131072) ∧
    (v3.toNat : Int) = (if sh ≠ 0 ∧ (sh.toNat : Int) < hb then (sh.toNat : Int) else hb) := by
  have hh : (UInt16.ofNat hb.toNat).toNat = hb.toNat := by rw [UInt16.toNat_ofNat']; exact Nat.mod_eq_of_lt (by omega)
  unfold negotiate at h
  simp only [Prod.mk.injEq] at h
  obtain ⟨e1, e2, e3⟩ := h
  refine ⟨?_, ?_, ?_⟩
  · rw [← e1]
    by_cases hz : sc = 0
    · subst hz; rfl
    · rw [if_neg hz, if_pos ⟨hz, Or.inr rfl⟩]
  · rw [← e2]
    simp only [UInt32.lt_iff_toNat_lt]
    have : (UInt32.ofNat (131072 : Int).toNat).toNat = 131072 := rfl
    rw [this]
    split <;> rfl
  · rw [← e3]
    simp only [UInt16.lt_iff_toNat_lt, hh]
    by_cases hc : sh ≠ 0 ∧ sh.toNat < hb.toNat
    · rw [if_pos hc, if_pos ⟨hc.1, by omega⟩]
    · rw [if_neg hc, if_neg (fun c => hc ⟨c.1, by omega⟩), hh]; omega

theorem loginStep_ok {S : Shell} (hT : NoTimeoutSend S.net) {st : Start} (hM : MemcmpExact st.memcmp) {o : ConnOpts} {c : ConnTo} {p p' : Proc}
    (hF : Fresh p.app.conn) (h : loginStep S st o c p = .ok () p') :
    p'.acts = p.acts ∧ Estab p'.app.conn.frameMax p'.app.conn ∧ LoggedIn c.user c.password c.vhost o.heartbeat p.app.conn p'.app.conn := by
  unfold loginStep at h
  obtain ⟨r, q, h1, h⟩ := M.bind_ok h
  obtain ⟨s, e, rfl⟩ := orDie_ok h1
  cases r with
  | serverException i r => cases h
  | libraryException i => cases h
  | normal x =>
    cases h
    obtain ⟨k1, k2, hdr, props, v1, v2, v3, beats, k3, k4, _, _, _, _, _, k6, ⟨sc, sf, sh, k7⟩, k5⟩ := login_stream hT hM (a := toolLogin o c) (by show (131072 : Int) < 2 ^ 31; decide) hF.1
      ⟨hF.2.1, hF.2.2.1, hF.2.2.2⟩ (lift_ok e)
    refine ⟨rfl, ⟨k1, k2.1, rfl, k2.2⟩, hdr, props, v1, v2, v3, beats, ⟨sc, sf, sh, ?_⟩, k3, k4, ?_⟩
    · exact toolLogin_settles k6.1 k6.2 k7
    exact k5

theorem newStep_ok {st : Start} {tls : Bool} {p p' : Proc} {s : Conn} (hst : st.conn = some s) (h : newStep st tls p = .ok () p') :
    st.socket = true ∧ p'.app = ⟨s, none⟩ ∧ p'.acts = p.acts ++ [.setup (.socket tls)] := by
  unfold newStep at h
  split at h
  · cases h
  · next hs =>
    rw [hst] at h
    cases h
    exact ⟨by simpa using hs, rfl, rfl⟩

theorem tlsStep_ok {st : Start} {t : TlsOpts} {tls : Bool} {p p' : Proc} (h : tlsStep st t tls p = .ok () p') :
    p'.app = p.app ∧ p'.acts = p.acts ++ (if tls then [.setup (.cacert t.cacert (st.cacert t.cacert))] ++
    (match t.key with | some k => [.setup (.key t.cert k (st.key t.cert k))] | none => []) else []) := by
  unfold tlsStep at h
  cases tls
  · cases h; exact ⟨rfl, by simp⟩
  · obtain ⟨_, q, h1, h⟩ := M.bind_ok h
    cases h1
    unfold tlsKey at h
    cases hk : t.key with
    | none => rw [hk] at h; cases h; exact ⟨rfl, by simp [Proc.push]⟩
    | some k => rw [hk] at h; cases h; exact ⟨rfl, by simp [Proc.push]⟩

theorem connectStep_ok {st : Start} {c : ConnTo} {p p' : Proc} (h : connectStep st c p = .ok () p') :
    0 ≤ st.connect c.host c.port ∧ p'.app = p.app ∧ p'.acts = p.acts ++ [.setup (.connect c.host c.port)] := by
  unfold connectStep at h
  obtain ⟨_, q, h1, h⟩ := M.bind_ok h
  cases h1
  split at h
  · cases h
  · next hc => cases h; exact ⟨by omega, rfl, rfl⟩

def chanOpenProto : Proto := ⟨20, 10, "channel", "open", [(.out_of_band, .shortstr)], false⟩

theorem makeConnection_ok {S : Shell} (hT : NoTimeoutSend S.net) {st : Start} (hM : MemcmpExact st.memcmp) {o : ConnOpts} {t : TlsOpts} {c : ConnTo} {p p' : Proc}
    {s : Conn} (hst : st.conn = some s) (hF : Fresh s) (h : makeConnection S st o t c p = .ok () p') :
    st.socket = true ∧ 0 ≤ st.connect c.host c.port ∧ p'.acts = p.acts ++ setUpActs st t c ++ [.call "amqp_channel_open" []] ∧
    ∃ s1 a1, Estab s1.frameMax p'.app.conn ∧ LoggedIn c.user c.password c.vhost o.heartbeat s s1 ∧
      Exchange S.net 1 "channel" "open" [(.out_of_band, .bytes [])] a1 s1 p'.app.conn := by
  unfold makeConnection at h
  obtain ⟨_, q1, h1, h⟩ := M.bind_ok h
  obtain ⟨_, q2, h2, h⟩ := M.bind_ok h
  obtain ⟨_, q3, h3, h⟩ := M.bind_ok h
  obtain ⟨_, q4, h4, h⟩ := M.bind_ok h
  obtain ⟨_, q5, h5, h⟩ := M.bind_ok h
  cases h
  obtain ⟨k1, k2, k3⟩ := newStep_ok hst h1
  obtain ⟨l2, l3⟩ := tlsStep_ok h2
  obtain ⟨m1, m2, m3⟩ := connectStep_ok h3
  have hq3 : q3.app.conn = s := by rw [m2, l2, k2]
  obtain ⟨n1, n2, n3⟩ := loginStep_ok hT hM (by rw [hq3]; exact hF) h4
  obtain ⟨o1, o2, r, o3, o4⟩ := callOrDie_exchange S hT (c := "channel") (m := "open") (by decide) (p := chanOpenProto)
    (q := ⟨20, 11, "channel", "open-ok", [(.channel_id, .longstr)], false⟩) ⟨by decide, rfl, rfl⟩ ⟨by decide, rfl, rfl⟩ (by decide) (vs := []) trivial n2 h5
  rw [hq3] at n3
  refine ⟨k1, m1, ?_, q4.app.conn, r, o2, n3, o4⟩
  rw [o1, n1, m3, l3, k3]
  simp [setUpActs]
  cases t.key <;> rfl

/-- A tool's session. -/
theorem connected_ok {S : Shell} (hT : NoTimeoutSend S.net) {st : Start} (hM : MemcmpExact st.memcmp) {env : UrlM.UEnv} {o : ConnOpts} {t : TlsOpts}
    {file : Option Bytes} {α : Type} {body : M Proc α} (hb : ∀ fm, Wired fm body) {p p' : Proc} {a : α} {s : Conn} (hst : st.conn = some s) (hF : Fresh s)
    (h : connected S st env o t file body p = .ok a p') :
    ∃ c q q' s1 s4 a1 a2 a3, ConnectTo env o file c ∧ st.socket = true ∧ 0 ≤ st.connect c.host c.port ∧
      q.acts = p.acts ++ setUpActs st t c ++ [.call "amqp_channel_open" []] ∧ LoggedIn c.user c.password c.vhost o.heartbeat s s1 ∧
      Exchange S.net 1 "channel" "open" [(.out_of_band, .bytes [])] a1 s1 q.app.conn ∧ Estab s1.frameMax q.app.conn ∧
      body q = .ok a q' ∧ p'.acts = q'.acts ∧ Exchange S.net 1 "channel" "close" close200 a2 q'.app.conn s4 ∧
      Exchange S.net 0 "connection" "close" close200 a3 s4 p'.app.conn := by
  unfold connected at h
  obtain ⟨c, q1, h1, h⟩ := M.bind_ok h
  obtain ⟨_, q2, h2, h⟩ := M.bind_ok h
  obtain ⟨b, q3, h3, h⟩ := M.bind_ok h
  obtain ⟨_, q4, h4, h⟩ := M.bind_ok h
  cases h
  have hc : connInfo env o file = .ok c () ∧ q1 = p := by
    unfold infoStep at h1
    split at h1
    · next e => cases h1; exact ⟨e, rfl⟩
    · cases h1
    · cases h1
    · cases h1
  obtain ⟨hc, rfl⟩ := hc
  obtain ⟨k1, k2, k3, s1, a1, k4, k5, k6⟩ := makeConnection_ok hT hM hst hF h2
  obtain ⟨m1, _⟩ := hb _ _ _ _ k4 h3
  obtain ⟨n1, s4, a2, a3, n2, n3⟩ := closeConnection_ok hT m1 h4
  exact ⟨c, q2, q3, s1, s4, a1, a2, a3, (connInfo_iff env o file c).1 hc, k1, k2, k3, k5, k6, k4, h3, n1, n2, n3⟩

/-- … with what it says. -/
theorem connected_session {S : Shell} (hT : NoTimeoutSend S.net) {st : Start} (hM : MemcmpExact st.memcmp) {env : UrlM.UEnv} {o : ConnOpts} {t : TlsOpts}
    {file : Option Bytes} {α : Type} {body : M Proc α} (hb : ∀ fm, Wired fm body) {p p' : Proc} {a : α} {s : Conn} (hst : st.conn = some s) (hF : Fresh s)
    {Q : List Act → α → Prop} {X : List Act → Prop} (hQ : ∀ q, Ext q (body q) Q X)
    (h : connected S st env o t file body p = .ok a p') : ∃ l, Session S st env o t file s p p' l ∧ Q l a := by
  obtain ⟨c, q, q', s1, s4, a1, a2, a3, k1, k2, k3, k4, k5, k6, k7, k8, k9, k10, k11⟩ := connected_ok hT hM hb hst hF h
  obtain ⟨m1, seg, bs, m2, m3, m4⟩ := hb _ _ _ _ k7 k8
  have hq := hQ q
  rw [k8] at hq
  obtain ⟨seg', e1, e2⟩ := hq
  have : seg' = seg := List.append_cancel_left (e1.symm.trans m2)
  subst this
  refine ⟨seg', ⟨c, k1, k3, ?_, s1, _, _, s4, bs, a1, a2, a3, k5, k6, m3, m4, k10, k11⟩, e2⟩
  rw [k9, m2, k4]

/-! ### Exits -/

/-- Every exit is with status 1. -/
def Dies {α : Type} (x : M Proc α) : Prop := ∀ p e p', x p = .err e p' → e = 1

theorem Dies.of_ext {α : Type} {x : M Proc α} {Q : List Act → α → Prop} {X : List Act → Prop} (h : ∀ p, Ext p (x p) Q X) : Dies x := by
  intro p e p' hx
  have := h p
  rw [hx] at this
  exact this.1
theorem Dies.pure {α : Type} (a : α) : Dies (Pure.pure a : M Proc α) := fun _ _ _ h => nomatch h
theorem Dies.die {α : Type} : Dies (die : M Proc α) := fun _ _ _ h => by cases h; rfl
theorem Dies.ub {α : Type} : Dies (M.ub : M Proc α) := fun _ _ _ h => nomatch h
theorem Dies.act (a : Act) : Dies (act a) := fun _ _ _ h => nomatch h
theorem Dies.bind {α β : Type} {x : M Proc α} {f : α → M Proc β} (hx : Dies x) (hf : ∀ a, Dies (f a)) : Dies (x >>= f) := by
  intro p e p' h
  rw [M.bind_def] at h
  cases h1 : x p with
  | ok a q => rw [h1] at h; exact hf a q e p' h
  | err e q => rw [h1] at h; cases h; exact hx p _ _ h1
  | ub => rw [h1] at h; cases h
  | fuel => rw [h1] at h; cases h
theorem Dies.orDie {α : Type} (x : M App α) : Dies (orDie x) := .of_ext (Q := fun _ _ => True) (X := fun _ => True) fun p => Ext.orDie x (fun _ => trivial) trivial
theorem Dies.ite {α : Type} {c : Prop} [Decidable c] {x y : M Proc α} (hx : Dies x) (hy : Dies y) : Dies (if c then x else y) := by split <;> assumption

theorem authLine_err {pre rest : Bytes} {e : Int} {s : Unit} (h : authLine pre rest = .err e s) : e = 1 := by
  unfold authLine at h
  repeat' split at h
  all_goals first
    | (cases h; rfl)
    | (dsimp only at h; split at h <;> first | (cases h; done) | (split at h <;> first | (cases h; rfl) | (cases h; done)))

theorem readAuthfile_err {file : Bytes} {e : Int} {s : Unit} (h : readAuthfile file = .err e s) : e = 1 := by
  unfold readAuthfile at h
  cases h1 : authLine (UrlM.chs "username:") file with
  | ok a _ =>
    obtain ⟨u, rest⟩ := a
    rw [h1] at h
    dsimp only at h
    cases h2 : authLine (UrlM.chs "password:") rest with
    | ok a _ =>
      obtain ⟨pw, rest⟩ := a
      rw [h2] at h
      dsimp only at h
      split at h
      · cases h
      · cases h; rfl
    | err e' s' => rw [h2] at h; cases h; exact authLine_err h2
    | ub => rw [h2] at h; cases h
    | fuel => rw [h2] at h; cases h
  | err e' s' => rw [h1] at h; cases h; exact authLine_err h1
  | ub => rw [h1] at h; cases h
  | fuel => rw [h1] at h; cases h

def Dies1 {α : Type} (r : Res Unit α) : Prop := ∀ e s, r = .err e s → e = 1
theorem Dies1.die {α : Type} : Dies1 (dieO : Res Unit α) := fun _ _ h => by cases h; rfl
theorem Dies1.ok {α : Type} (a : α) : Dies1 (Res.ok a () : Res Unit α) := fun _ _ h => nomatch h
theorem Dies1.then {α β : Type} {r : Res Unit α} {f : α → Res Unit β} (hr : Dies1 r) (hf : ∀ a, Dies1 (f a)) : Dies1 (thenR r f) := by
  intro e s h
  cases r with
  | ok a _ => exact hf a e s h
  | err e' s' => cases h; exact hr _ _ rfl
  | ub => cases h
  | fuel => cases h

theorem connInfo_dies (env : UrlM.UEnv) (o : ConnOpts) (file : Option Bytes) : Dies1 (connInfo env o file) := by
  unfold connInfo
  refine .then ?_ fun c => .then ?_ fun c => .then ?_ fun c => .then ?_ fun c => .then ?_ fun c => .then ?_ fun c => .then ?_ fun c => .then ?_ fun c => ?_
  · intro e s h
    unfold connUrl at h
    repeat' split at h
    all_goals (cases h; try rfl)
  · intro e s h
    unfold connServer at h
    repeat' split at h
    all_goals (cases h; try rfl)
  · unfold connSsl
    repeat' split
    all_goals first | exact .die | exact .ok _
  · unfold connPort
    repeat' split
    all_goals first | exact .die | exact .ok _
  · unfold connUser
    repeat' split
    all_goals first | exact .die | exact .ok _
  · unfold connPass
    repeat' split
    all_goals first | exact .die | exact .ok _
  · intro e s h
    unfold connAuth at h
    split at h
    · cases h
    · split at h
      · cases h; rfl
      · split at h
        · cases h; rfl
        · split at h
          · cases h
          · next he => cases h; exact readAuthfile_err he
          · cases h
          · cases h
  · unfold connVhost
    repeat' split
    all_goals first | exact .die | exact .ok _
  · unfold connHeartbeat
    repeat' split
    all_goals first | exact .die | exact .ok _

theorem callOrDie_dies (S : Shell) (n : String) (vs : List Val) : Dies (callOrDie S n vs) := .of_ext fun p => callOrDie_ext S n vs p

theorem replyOrDie_dies (x : M App Reply) : Dies (replyOrDie x) := by
  refine .bind (.orDie x) fun r => ?_
  cases r with
  | normal i r => exact .pure _
  | serverException i r => exact .die
  | libraryException i => exact .die

theorem makeConnection_dies (S : Shell) (st : Start) (o : ConnOpts) (t : TlsOpts) (c : ConnTo) : Dies (makeConnection S st o t c) := by
  refine .bind ?_ fun _ => .bind ?_ fun _ => .bind ?_ fun _ => .bind ?_ fun _ => .bind (callOrDie_dies S _ _) fun _ => .pure _
  · intro p e p' h
    unfold newStep at h
    repeat' split at h
    all_goals (cases h; try rfl)
  · unfold tlsStep tlsKey
    refine .ite (.bind (.act _) fun _ => ?_) (.pure _)
    split
    · exact .act _
    · exact .pure _
  · exact .bind (.act _) fun _ => .ite .die (.pure _)
  · refine .bind (.orDie _) fun r => ?_
    cases r with
    | normal x => exact .pure _
    | serverException i r => exact .die
    | libraryException i => exact .die

theorem connected_dies (S : Shell) (st : Start) (env : UrlM.UEnv) (o : ConnOpts) (t : TlsOpts) (file : Option Bytes) {α : Type} {body : M Proc α} (hb : Dies body) :
    Dies (connected S st env o t file body) := by
  refine .bind ?_ fun c => .bind (makeConnection_dies S st o t c) fun _ => .bind hb fun a => .bind (.bind (replyOrDie_dies _) fun _ => replyOrDie_dies _) fun _ => .pure _
  intro p e p' h
  unfold infoStep at h
  split at h
  · cases h
  · next he => cases h; exact connInfo_dies env o file _ _ he
  · cases h
  · cases h

theorem declareMain_dies (S : Shell) (st : Start) (env : UrlM.UEnv) (o : ConnOpts) (t : TlsOpts) (file queue : Option Bytes) (durable : Bool) :
    Dies (declareMain S st env o t file queue durable) := by
  unfold declareMain
  cases queue with
  | none => exact .die
  | some q =>
    refine connected_dies S st env o t file (.bind (callOrDie_dies S _ _) fun r => ?_)
    repeat' split
    all_goals first | exact .ub | exact .bind (.act _) fun _ => .pure _

theorem deleteMain_dies (S : Shell) (st : Start) (env : UrlM.UEnv) (o : ConnOpts) (t : TlsOpts) (file queue : Option Bytes) (u e : Bool) :
    Dies (deleteMain S st env o t file queue u e) := by
  unfold deleteMain
  cases queue with
  | none => exact .die
  | some q =>
    refine .ite .die (connected_dies S st env o t file (.bind (callOrDie_dies S _ _) fun r => ?_))
    repeat' split
    all_goals first | exact .ub | exact .bind (.act _) fun _ => .pure _

/-! ### Printing -/

theorem printedOf_append (a b : List Act) : printedOf (a ++ b) = printedOf a ++ printedOf b := by
  induction a with
  | nil => rfl
  | cons x l ih => cases x <;> simp [printedOf, ih]

/-- In every state left. -/
def AllP {α : Type} (P : Proc → Prop) : Res Proc α → Prop
  | .ok _ p => P p
  | .err _ p => P p
  | .ub => True
  | .fuel => True

/-- Prints nothing. -/
def Silent {α : Type} (x : M Proc α) : Prop := ∀ p, AllP (fun p' => printedOf p'.acts = printedOf p.acts) (x p)

theorem Silent.pure {α : Type} (a : α) : Silent (Pure.pure a : M Proc α) := fun _ => rfl
theorem Silent.die {α : Type} : Silent (die : M Proc α) := fun _ => rfl
theorem Silent.bind {α β : Type} {x : M Proc α} {f : α → M Proc β} (hx : Silent x) (hf : ∀ a, Silent (f a)) : Silent (x >>= f) := by
  intro p
  have h1 := hx p
  rw [M.bind_def]
  revert h1
  cases x p with
  | ok a q =>
    intro h1
    have h2 := hf a q
    show AllP _ (f a q)
    revert h2
    cases f a q with
    | ok b r => exact fun h2 => h2.trans h1
    | err e r => exact fun h2 => h2.trans h1
    | ub => exact fun _ => trivial
    | fuel => exact fun _ => trivial
  | err e q => exact fun h1 => h1
  | ub => exact fun _ => trivial
  | fuel => exact fun _ => trivial
theorem Silent.act {a : Act} (h : printedOf [a] = []) : Silent (act a) := by
  intro p
  show printedOf (p.acts ++ [a]) = _
  rw [printedOf_append, h, List.append_nil]
theorem Silent.orDie {α : Type} (x : M App α) : Silent (orDie x) := by
  intro p
  unfold ToolsM.orDie
  cases x p.app with
  | ok a s => rfl
  | err e s =>
    by_cases h : e < 0
    · simp only [if_pos h]; rfl
    · simp only [if_neg h]; trivial
  | ub => trivial
  | fuel => trivial
theorem Silent.ite {α : Type} {c : Prop} [Decidable c] {x y : M Proc α} (hx : Silent x) (hy : Silent y) : Silent (if c then x else y) := by split <;> assumption

theorem callOrDie_silent (S : Shell) (n : String) (vs : List Val) : Silent (callOrDie S n vs) := by
  refine .bind (.act rfl) fun _ => .bind (.orDie _) fun r => ?_
  intro p
  dsimp only
  split <;> rfl
theorem replyOrDie_silent (x : M App Reply) : Silent (replyOrDie x) := by
  refine .bind (.orDie x) fun r => ?_
  cases r with
  | normal i r => exact .pure _
  | serverException i r => exact .die
  | libraryException i => exact .die
theorem closeConnection_silent (S : Shell) : Silent (closeConnection S) := .bind (replyOrDie_silent _) fun _ => replyOrDie_silent _
theorem infoStep_silent (env : UrlM.UEnv) (o : ConnOpts) (file : Option Bytes) : Silent (infoStep env o file) := by
  intro p
  unfold infoStep
  split <;> first | rfl | trivial
theorem makeConnection_silent (S : Shell) (st : Start) (o : ConnOpts) (t : TlsOpts) (c : ConnTo) : Silent (makeConnection S st o t c) := by
  refine .bind ?_ fun _ => .bind ?_ fun _ => .bind ?_ fun _ => .bind ?_ fun _ => .bind (callOrDie_silent S _ _) fun _ => .pure _
  · intro p
    unfold newStep
    split
    · rfl
    · split
      · trivial
      · show printedOf (p.acts ++ [_]) = _
        rw [printedOf_append]; simp [printedOf]
  · unfold tlsStep tlsKey
    refine .ite (.bind (.act rfl) fun _ => ?_) (.pure _)
    split
    · exact .act rfl
    · exact .pure _
  · exact .bind (.act rfl) fun _ => .ite .die (.pure _)
  · refine .bind (.orDie _) fun r => ?_
    cases r with
    | normal x => exact .pure _
    | serverException i r => exact .die
    | libraryException i => exact .die

/-- An exit of a tool: before, while or after its body ran. -/
theorem connected_err {S : Shell} (hT : NoTimeoutSend S.net) {st : Start} (hM : MemcmpExact st.memcmp) {env : UrlM.UEnv} {o : ConnOpts} {t : TlsOpts}
    {file : Option Bytes} {α : Type} {body : M Proc α} {p p' : Proc} {e : Int} {s : Conn} (hst : st.conn = some s) (hF : Fresh s)
    (h : connected S st env o t file body p = .err e p') :
    printedOf p'.acts = printedOf p.acts ∨ ∃ q fm, Estab fm q.app.conn ∧ printedOf q.acts = printedOf p.acts ∧
      (body q = .err e p' ∨ ∃ a q', body q = .ok a q' ∧ printedOf p'.acts = printedOf q'.acts) := by
  unfold connected at h
  rw [M.bind_def] at h
  have s1 := infoStep_silent env o file p
  revert h s1
  cases infoStep env o file p with
  | ub => intro h; cases h
  | fuel => intro h; cases h
  | err e1 q1 => intro h s1; cases h; exact Or.inl s1
  | ok c q1 =>
    intro h s1
    dsimp only at h
    rw [M.bind_def] at h
    have s2 := makeConnection_silent S st o t c q1
    have k2 := @makeConnection_ok S hT st hM o t c q1
    revert h s2 k2
    cases makeConnection S st o t c q1 with
    | ub => intro h; cases h
    | fuel => intro h; cases h
    | err e2 q2 => intro h s2 _; cases h; exact Or.inl (s2.trans s1)
    | ok x q2 =>
      intro h s2 k2
      obtain ⟨_, _, _, s1', _, k4, _⟩ := k2 hst hF rfl
      dsimp only at h
      refine Or.inr ⟨q2, _, k4, s2.trans s1, ?_⟩
      rw [M.bind_def] at h
      cases hb : body q2 with
      | ub => rw [hb] at h; cases h
      | fuel => rw [hb] at h; cases h
      | err e3 q3 => rw [hb] at h; cases h; exact Or.inl rfl
      | ok a q3 =>
        rw [hb] at h
        dsimp only at h
        refine Or.inr ⟨a, q3, rfl, ?_⟩
        have s4 : Silent (closeConnection S >>= fun _ => (pure a : M Proc α)) := .bind (closeConnection_silent S) fun _ => .pure _
        have s5 := s4 q3
        rw [h] at s5
        exact s5

/-! ### Whatever the acts so far -/

/-- Depends on the connection only. -/
def OnApp {α : Type} (x : M Proc α) : Prop := ∀ p q a p', p.app = q.app → x p = .ok a p' → ∃ q', x q = .ok a q' ∧ q'.app = p'.app

theorem OnApp.pure {α : Type} (a : α) : OnApp (Pure.pure a : M Proc α) := by
  intro p q b p' h hx; cases hx; exact ⟨q, rfl, h.symm⟩
theorem OnApp.bind {α β : Type} {x : M Proc α} {f : α → M Proc β} (hx : OnApp x) (hf : ∀ a, OnApp (f a)) : OnApp (x >>= f) := by
  intro p q b p' h hb
  obtain ⟨a, r, h1, h2⟩ := M.bind_ok hb
  obtain ⟨r', h3, h4⟩ := hx p q a r h h1
  obtain ⟨q', h5, h6⟩ := hf a r r' b p' h4.symm h2
  exact ⟨q', by rw [M.bind_def, h3]; exact h5, h6⟩
theorem OnApp.act (a : Act) : OnApp (act a) := by intro p q b p' h hx; cases hx; exact ⟨_, rfl, h.symm⟩
theorem OnApp.die {α : Type} : OnApp (die : M Proc α) := by intro p q b p' h hx; cases hx
theorem OnApp.ite {α : Type} {c : Prop} [Decidable c] {x y : M Proc α} (hx : OnApp x) (hy : OnApp y) : OnApp (if c then x else y) := by split <;> assumption
theorem OnApp.orDie {α : Type} (x : M App α) : OnApp (orDie x) := by
  intro p q a p' h hx
  obtain ⟨s, e, rfl⟩ := orDie_ok hx
  refine ⟨{ q with app := s }, ?_, rfl⟩
  unfold ToolsM.orDie
  rw [← h, e]
theorem callOrDie_onApp (S : Shell) (n : String) (vs : List Val) : OnApp (callOrDie S n vs) := by
  refine .bind (.act _) fun _ => .bind (.orDie _) fun r => ?_
  intro p q a p' h hx
  dsimp only at hx ⊢
  rw [← h]
  split at hx
  · cases hx; exact ⟨q, rfl, h.symm⟩
  · cases hx; exact ⟨q, rfl, h.symm⟩
  · cases hx
theorem connectStep_onApp (st : Start) (c : ConnTo) : OnApp (connectStep st c) := .bind (.act _) fun _ => .ite .die (.pure _)
theorem loginStep_onApp (S : Shell) (st : Start) (o : ConnOpts) (c : ConnTo) : OnApp (loginStep S st o c) := by
  refine .bind (.orDie _) fun r => ?_
  cases r with
  | normal x => exact .pure _
  | serverException i r => exact .die
  | libraryException i => exact .die

theorem tlsStep_total (st : Start) (t : TlsOpts) (tls : Bool) (p : Proc) : ∃ q, tlsStep st t tls p = .ok () q ∧ q.app = p.app := by
  unfold tlsStep tlsKey
  cases tls
  · exact ⟨p, rfl, rfl⟩
  · cases t.key with
    | none => exact ⟨_, rfl, rfl⟩
    | some k => exact ⟨_, rfl, rfl⟩

end Rmq.ToolsM
