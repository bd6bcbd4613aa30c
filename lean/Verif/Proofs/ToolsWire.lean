import Verif.Proofs.PublishOut
import Verif.Proofs.Tools3
/-!
# What the tools put on the wire
-/
namespace Rmq.ToolsM
open Rmq.ToolsSpec

/-- Acts that say nothing. -/
def mute : Act → Bool
  | .call _ _ | .get _ | .ack _ | .publish _ _ _ _ _ => false
  | _ => true

theorem FramesOf_nil {P : Bytes → Prop} : FramesOf P [] := ⟨[], by simp, rfl⟩

theorem mute_says {fm : Int} {a : Act} (h : mute a = true) : Says fm a [] := by
  refine .other a ?_ ?_ ?_ ?_ <;> intros <;> intro e <;> subst e <;> cases h

theorem Talk.append {fm : Int} {l l' : List Act} {b b' : Bytes} (h : Talk fm l b) (h' : Talk fm l' b') : Talk fm (l ++ l') (b ++ b') := by
  induction h with
  | nil => exact h'
  | cons a l x beats bs h1 h2 _ ih =>
    rw [List.append_assoc, List.append_assoc]
    have := Talk.cons a (l ++ l') x beats (bs ++ b') h1 h2 ih
    rwa [List.append_assoc] at this

theorem Talk.one {fm : Int} {a : Act} {b beats : Bytes} (h : Says fm a b) (hb : FramesOf Beat beats) : Talk fm [a] (b ++ beats) := by
  simpa using Talk.cons a [] b beats [] h hb .nil

theorem Talk.mutes {fm : Int} {l : List Act} (h : ∀ a ∈ l, mute a = true) : Talk fm l [] := by
  induction l with
  | nil => exact .nil
  | cons a l ih =>
    simpa using Talk.cons a l [] [] [] (mute_says (h a (by simp))) FramesOf_nil (ih fun x hx => h x (by simp [hx]))

/-- The process keeps to the talk. -/
def Wired (fm : Int) {α : Type} (x : M Proc α) : Prop :=
  ∀ p a p', Estab fm p.app.conn → x p = .ok a p' →
    Estab fm p'.app.conn ∧ ∃ seg bs, p'.acts = p.acts ++ seg ∧ Sent p.app.conn p'.app.conn bs ∧ Talk fm seg bs

theorem Sent.nothing (s : Conn) : Sent s s [] := ⟨[], by unfold Since; simp, rfl⟩

theorem Wired.pure {fm : Int} {α : Type} (a : α) : Wired fm (Pure.pure a : M Proc α) := by
  intro p b p' hs h
  cases h
  exact ⟨hs, [], [], by simp, Sent.nothing _, .nil⟩

theorem Wired.bind {fm : Int} {α β : Type} {x : M Proc α} {f : α → M Proc β} (hx : Wired fm x) (hf : ∀ a, Wired fm (f a)) : Wired fm (x >>= f) := by
  intro p b p' hs h
  obtain ⟨a, q, h1, h2⟩ := M.bind_ok h
  obtain ⟨e1, s1, b1, a1, n1, t1⟩ := hx p a q hs h1
  obtain ⟨e2, s2, b2, a2, n2, t2⟩ := hf a q b p' e1 h2
  exact ⟨e2, s1 ++ s2, b1 ++ b2, by rw [a2, a1, List.append_assoc], n1.append n2, Talk.append t1 t2⟩

theorem Wired.die {fm : Int} {α : Type} : Wired fm (die : M Proc α) := fun _ _ _ _ h => nomatch h
theorem Wired.ub {fm : Int} {α : Type} : Wired fm (M.ub : M Proc α) := fun _ _ _ _ h => nomatch h
theorem Wired.fuel {fm : Int} {α : Type} : Wired fm (M.outOfFuel : M Proc α) := fun _ _ _ _ h => nomatch h

theorem Wired.ite {fm : Int} {α : Type} {c : Prop} [Decidable c] {x y : M Proc α} (hx : Wired fm x) (hy : Wired fm y) :
    Wired fm (if c then x else y) := by split <;> assumption

/-- Outside the connection. -/
def Aside {α : Type} (x : M Proc α) : Prop := ∀ p a p', x p = .ok a p' → p'.app = p.app ∧ ∃ seg, p'.acts = p.acts ++ seg ∧ ∀ a ∈ seg, mute a = true

theorem Aside.wired {fm : Int} {α : Type} {x : M Proc α} (h : Aside x) : Wired fm x := by
  intro p a p' hs hx
  obtain ⟨h1, seg, h2, h3⟩ := h p a p' hx
  rw [h1]
  exact ⟨hs, seg, [], h2, Sent.nothing _, Talk.mutes h3⟩

theorem Aside.act {a : Act} (h : mute a = true) : Aside (act a) := by
  intro p _ p' hx
  cases hx
  exact ⟨rfl, [a], rfl, by simpa using h⟩

theorem Aside.step {α : Type} {p p' : Proc} {a : α} {x : M Proc α} {act : Act} (hx : Aside x) (hm : mute act = true) (h : x (p.push act) = .ok a p') :
    p'.app = p.app ∧ ∃ seg, p'.acts = p.acts ++ seg ∧ ∀ a ∈ seg, mute a = true := by
  obtain ⟨h1, seg, h2, h3⟩ := hx _ _ _ h
  refine ⟨h1, act :: seg, by rw [h2]; simp [Proc.push], ?_⟩
  intro b hb
  rcases List.mem_cons.1 hb with rfl | hb
  · exact hm
  · exact h3 b hb

theorem readLoop_aside (S : Shell) : ∀ n space ok buf, Aside (readLoop S n space ok buf) := by
  intro n
  induction n with
  | zero => intro _ _ _ p a p' h; cases h
  | succ n ih =>
    intro space ok buf p a p' h
    unfold readLoop at h
    split at h
    · exact (ih space ok buf).step rfl h
    · cases h
    · dsimp only at h
      split at h
      · cases h; exact ⟨rfl, [_], rfl, by simp [mute]⟩
      · split at h
        · cases h
        · split at h
          · refine Aside.step (act := .read _ _) (x := fun q => readLoop S n (space * 2) (S.alloc (p.push _).acts.length (space * 2)) _ (q.push (.alloc _))) ?_ rfl h
            intro q b q' hq
            exact (ih _ _ _).step rfl hq
          · exact (ih _ _ _).step rfl h

theorem readAll_aside (S : Shell) : Aside (readAll S) := by
  intro p a p' h
  exact (readLoop_aside S _ _ _ _).step rfl h

theorem writeLoop_aside (S : Shell) (fd : Nat) : ∀ n data, Aside (writeLoop S fd n data) := by
  intro n
  induction n with
  | zero => intro _ p a p' h; cases h
  | succ n ih =>
    intro data p a p' h
    unfold writeLoop at h
    split at h
    · split at h
      · cases h
      · exact (ih _).step rfl h
    · cases h; exact ⟨rfl, [], by simp, by simp⟩

theorem pipeline_aside (S : Shell) (argv : List Bytes) : Aside (pipeline S argv) := by
  intro p a p' h
  unfold pipeline at h
  split at h
  · cases h
  · next rd wr _ =>
    dsimp only at h
    generalize hsi : (if rd = 0 ∨ wr = 0 then none else some rd : Option Nat) = si at h
    by_cases hc : S.spawn (p.push (.pipe rd wr)).acts.length = false
    · rw [if_pos hc] at h; cases h
    · rw [if_neg hc] at h
      by_cases hk : S.close ((p.push (.pipe rd wr)).push (.spawn argv si)).acts.length rd = true
      · rw [if_pos hk] at h
        cases h
        exact ⟨rfl, [.pipe rd a, .spawn argv si, .close rd], by simp [Proc.push], by simp [mute]⟩
      · rw [if_neg hk] at h; cases h

theorem finishPipeline_aside (S : Shell) (fd : Nat) : Aside (finishPipeline S fd) := by
  intro p a p' h
  unfold finishPipeline at h
  dsimp only at h
  have key : ∀ w, ((p.push (.close fd)).push (.wait w)).acts = p.acts ++ [.close fd, .wait w] := by intro w; simp [Proc.push]
  split at h
  · cases h
  · split at h
    · cases h
    all_goals cases h; exact ⟨rfl, _, key _, by simp [mute]⟩

theorem orDie_ok {α : Type} {x : M App α} {p p' : Proc} {a : α} (h : orDie x p = .ok a p') : ∃ s, x p.app = .ok a s ∧ p' = { p with app := s } := by
  unfold orDie at h
  split at h
  · next e => cases h; exact ⟨_, e, rfl⟩
  · split at h <;> cases h
  · cases h
  · cases h

theorem lift_ok {α : Type} {x : M Conn α} {s s' : App} {a : α} (h : App.lift x s = .ok a s') : x s.conn = .ok a s'.conn := by
  unfold App.lift at h
  split at h
  · next e => cases h; exact e
  · cases h
  · cases h
  · cases h

theorem waitFrame_talk {S : Shell} (hT : NoTimeoutSend S.net) {fm : Int} {s s' : Conn} {f : DFrame} {tv : Option TimeVal} (hs : Estab fm s)
    (h : waitFrame S.net tv s = .ok f s') : Estab fm s' ∧ ∃ beats, FramesOf Beat beats ∧ Sent s s' beats := by
  have hfix := (sizes_api S.net s).toUpper.waitFrame tv (s := s) rfl
  have ht := waitFrame_tidy (sends_beat hT) tv hs.1
  rw [h] at hfix ht
  obtain ⟨o, l, h1, h2, _⟩ := ht
  exact ⟨hs.of_fixed o hfix.1, _, h2, l, h1, rfl⟩

theorem waitF_wired (S : Shell) (hT : NoTimeoutSend S.net) (fm : Int) : Wired fm (waitF S) := by
  intro p a p' hs h
  unfold waitF at h
  obtain ⟨f, q, h1, h⟩ := M.bind_ok h
  obtain ⟨_, q', h2, h⟩ := M.bind_ok h
  cases h2
  cases h
  obtain ⟨s, e, rfl⟩ := orDie_ok h1
  obtain ⟨k1, beats, k2, k3⟩ := waitFrame_talk hT hs (lift_ok e)
  exact ⟨k1, [.frame f.frame], [] ++ beats, rfl, by simpa [Proc.push] using k3, Talk.one (mute_says rfl) k2⟩

theorem copyLoop_wired (S : Shell) (hT : NoTimeoutSend S.net) (fm : Int) (fd : Nat) : ∀ n remaining, Wired fm (copyLoop S fd n remaining) := by
  intro n
  induction n with
  | zero => intro _; exact .fuel
  | succ n ih =>
    intro r
    unfold copyLoop
    refine .ite (.pure _) (.bind (waitF_wired S hT fm) fun f => ?_)
    split
    · exact .bind (writeLoop_aside S fd _ _).wired fun _ => ih _
    · exact .die

theorem copyBody_wired (S : Shell) (hT : NoTimeoutSend S.net) (fm : Int) (fd : Nat) : Wired fm (copyBody S fd) := by
  unfold copyBody
  refine .bind (waitF_wired S hT fm) fun f => ?_
  split
  · exact copyLoop_wired S hT fm fd _ _
  · exact .die

/-- A call that returned was answered. -/
theorem callOrDie_exchange (S : Shell) (hT : NoTimeoutSend S.net) {fm : Int} {n c m : String} (hn : (n, c, m) ∈ rpcFunctions) {p q : Proto}
    (hp : IsMethod p c m) (hq : IsMethod q c (m ++ "-ok")) (hcc : q.id ≠ CONNECTION_CLOSE) {vs : List Val} (hv : TypedArgs (askedFor p.args) vs)
    {pr pr' : Proc} {v : Option Rec} (hs : Estab fm pr.app.conn) (h : callOrDie S n vs pr = .ok v pr') :
    pr'.acts = pr.acts ++ [.call n vs] ∧ Estab fm pr'.app.conn ∧ ∃ r, v = some r ∧ Exchange S.net 1 c m (filled p.args vs) r pr.app.conn pr'.app.conn := by
  unfold callOrDie at h
  obtain ⟨_, q1, h1, h⟩ := M.bind_ok h
  obtain ⟨r, q2, h2, h⟩ := M.bind_ok h
  cases h1
  obtain ⟨s, e, rfl⟩ := orDie_ok h2
  have key := callRpc_exchange hT hn hp hq hcc hv hs e
  cases r with
  | some r =>
    cases h
    rcases key with ⟨r', e1, k1, k2⟩ | ⟨e1, _⟩
    · cases e1; exact ⟨rfl, k1, _, rfl, k2⟩
    · cases e1
  | none =>
    rcases key with ⟨r', e1, k1, k2⟩ | ⟨_, hne⟩
    · cases e1
    · dsimp only at h
      cases hl : s.last with
      | none => simp only [hl] at h; cases h
      | some rep =>
        cases rep with
        | normal i r => exact absurd hl (hne i r)
        | serverException i r => simp only [hl] at h; cases h
        | libraryException e => simp only [hl] at h; cases h

theorem Exchange.says {E : NetEnv} {fm : Int} {n c m : String} (hn : (n, c, m) ∈ rpcFunctions) {args : List Val} {p : Proto} (hp : IsMethod p c m)
    (huniq : ∀ p' , IsMethod p' c m → p' = p) {r : Rec} {s s' : Conn}
    (h : Exchange E 1 c m (filled p.args args) r s s') : ∃ bs, Sent s s' bs ∧ Talk fm [.call n args] bs := by
  obtain ⟨p', q, beats, t, u, hp', _, hb, h1, _⟩ := h
  have := huniq p' hp'
  subst this
  exact ⟨_, h1, Talk.one (.call n c m p' args hn hp') hb⟩

theorem callOrDie_wired (S : Shell) (hT : NoTimeoutSend S.net) (fm : Int) {n c m : String} (hn : (n, c, m) ∈ rpcFunctions) {p q : Proto}
    (hp : IsMethod p c m) (huniq : ∀ p' , IsMethod p' c m → p' = p) (hq : IsMethod q c (m ++ "-ok")) (hcc : q.id ≠ CONNECTION_CLOSE)
    {vs : List Val} (hv : TypedArgs (askedFor p.args) vs) : Wired fm (callOrDie S n vs) := by
  intro pr v pr' hs h
  obtain ⟨h1, h2, r, _, h4⟩ := callOrDie_exchange S hT hn hp hq hcc hv hs h
  obtain ⟨bs, h5, h6⟩ := Exchange.says (fm := fm) hn hp huniq h4
  exact ⟨h2, _, bs, h1, h5, h6⟩

theorem rpc_protos : ∀ f ∈ rpcFunctions, (∃ p ∈ protocol, p.clsName = f.2.1 ∧ p.name = f.2.2 ∧ ∀ p' ∈ protocol, p'.clsName = f.2.1 → p'.name = f.2.2 → p' = p) ∧
    ∃ q ∈ protocol, q.clsName = f.2.1 ∧ q.name = f.2.2 ++ "-ok" ∧ q.id ≠ CONNECTION_CLOSE := by decide +kernel

/-- … in terms of what the protocol says about the method. -/
theorem callW (S : Shell) (hT : NoTimeoutSend S.net) (fm : Int) {n c m : String} (hn : (n, c, m) ∈ rpcFunctions) {as : List (Fld × Dom)}
    (ha : ∀ p ∈ protocol, p.clsName = c → p.name = m → askedFor p.args = as) {vs : List Val} (hv : TypedArgs as vs) : Wired fm (callOrDie S n vs) := by
  obtain ⟨⟨p, hp, hc, hm, hu⟩, q, hq, hqc, hqm, hne⟩ := rpc_protos _ hn
  exact callOrDie_wired S hT fm hn ⟨hp, hc, hm⟩ (fun p' h => hu p' h.1 h.2.1 h.2.2) ⟨hq, hqc, hqm⟩ hne (by rw [ha p hp hc hm]; exact hv)

theorem declareW (S : Shell) (hT : NoTimeoutSend S.net) (fm : Int) (q : Bytes) (a b c d : Int32) :
    Wired fm (callOrDie S "amqp_queue_declare" [.bytes q, .bool a, .bool b, .bool c, .bool d, .table []]) :=
  callW S hT fm (c := "queue") (m := "declare") (by decide)
    (as := [(.queue, .shortstr), (.passive, .bit), (.durable, .bit), (.exclusive, .bit), (.auto_delete, .bit), (.arguments, .table)]) (by decide)
    ⟨trivial, trivial, trivial, trivial, trivial, trivial, trivial⟩
theorem deleteW (S : Shell) (hT : NoTimeoutSend S.net) (fm : Int) (q : Bytes) (a b : Int32) :
    Wired fm (callOrDie S "amqp_queue_delete" [.bytes q, .bool a, .bool b]) :=
  callW S hT fm (c := "queue") (m := "delete") (by decide)
    (as := [(.queue, .shortstr), (.if_unused, .bit), (.if_empty, .bit)]) (by decide) ⟨trivial, trivial, trivial, trivial⟩
theorem bindW (S : Shell) (hT : NoTimeoutSend S.net) (fm : Int) (q e k : Bytes) :
    Wired fm (callOrDie S "amqp_queue_bind" [.bytes q, .bytes e, .bytes k, .table []]) :=
  callW S hT fm (c := "queue") (m := "bind") (by decide)
    (as := [(.queue, .shortstr), (.exchange, .shortstr), (.routing_key, .shortstr), (.arguments, .table)]) (by decide) ⟨trivial, trivial, trivial, trivial, trivial⟩
theorem qosW (S : Shell) (hT : NoTimeoutSend S.net) (fm : Int) (a : UInt32) (b : UInt16) (c : Int32) :
    Wired fm (callOrDie S "amqp_basic_qos" [.u32 a, .u16 b, .bool c]) :=
  callW S hT fm (c := "basic") (m := "qos") (by decide)
    (as := [(.prefetch_size, .long), (.prefetch_count, .short), (.global, .bit)]) (by decide) ⟨trivial, trivial, trivial, trivial⟩
theorem consumeW (S : Shell) (hT : NoTimeoutSend S.net) (fm : Int) (q : Bytes) (a b c : Int32) :
    Wired fm (callOrDie S "amqp_basic_consume" [.bytes q, .bytes [], .bool a, .bool b, .bool c, .table []]) :=
  callW S hT fm (c := "basic") (m := "consume") (by decide)
    (as := [(.queue, .shortstr), (.consumer_tag, .shortstr), (.no_local, .bit), (.no_ack, .bit), (.exclusive, .bit), (.arguments, .table)]) (by decide)
    ⟨trivial, trivial, trivial, trivial, trivial, trivial, trivial⟩

theorem qosIf_wired (S : Shell) (hT : NoTimeoutSend S.net) (fm : Int) (c : Bool) (v : Int) : Wired fm (qosIf S c v) := by
  unfold qosIf
  cases c
  · exact .pure _
  · exact .bind (qosW S hT fm _ _ _) fun _ => .pure _

def ackProto : Proto := ⟨60, 80, "basic", "ack", [(.delivery_tag, .longlong), (.multiple, .bit)], false⟩
def getProto : Proto := ⟨60, 70, "basic", "get", [(.ticket, .short), (.queue, .shortstr), (.no_ack, .bit)], false⟩

theorem ack_wired (S : Shell) (fm : Int) (tag : UInt64) : Wired fm (ackOrDie S tag) := by
  intro p a p' hs h
  unfold ackOrDie at h
  obtain ⟨_, q, h1, h⟩ := M.bind_ok h
  cases h1
  obtain ⟨s, e, rfl⟩ := orDie_ok h
  have e1 := lift_ok e
  have e2 := e1
  have g := sendMethod_out (E := S.net) (p := ackProto) (r := [(.delivery_tag, .u64 tag), (.multiple, .bool 0)]) (by decide)
    (.cons trivial (.cons trivial .nil)) 1 SF_NONE TIME_INF hs.1
  have f := (sizes_api S.net p.app.conn).toUpper.sendFrame ⟨1, .method 0x003C0050 [(.delivery_tag, .u64 tag), (.multiple, .bool 0)]⟩ SF_NONE TIME_INF
    (Nat.le_refl _) (s := p.app.conn) rfl
  have e1' : sendMethod S.net 1 ackProto.id [(.delivery_tag, .u64 tag), (.multiple, .bool 0)] SF_NONE TIME_INF p.app.conn = .ok a s.conn := e1
  rw [e1'] at g
  unfold sendMethod at e2
  have e2' : sendFrame S.net ⟨1, .method 0x003C0050 [(.delivery_tag, .u64 tag), (.multiple, .bool 0)]⟩ SF_NONE TIME_INF p.app.conn = .ok a s.conn := e2
  rw [e2'] at f
  obtain ⟨_, o, l, hl, hb⟩ := g
  refine ⟨hs.of_fixed o f, [.ack tag], _ ++ [], rfl, by rw [List.append_nil]; exact ⟨l, hl, hb⟩, Talk.one (.ack tag ackProto ⟨by decide, rfl, rfl⟩) FramesOf_nil⟩

theorem basicGet_ok {E : NetEnv} {queue : Bytes} {a a' : App} {r : Reply} (h : basicGet E 1 queue 1 a = .ok r a') :
    ∃ s', simpleRpc E 1 getProto.id [0x003C0047, 0x003C0048] [(.ticket, .u16 0), (.queue, .bytes queue), (.no_ack, .bool 1)] a.conn = .ok r s' ∧ a'.conn = s' := by
  unfold basicGet at h
  split at h
  · next e => cases h; exact ⟨_, e, rfl⟩
  all_goals cases h

theorem get_wired (S : Shell) (hT : NoTimeoutSend S.net) (fm : Int) (queue : Bytes) : Wired fm (doGet S queue) := by
  intro p a p' hs h
  unfold doGet at h
  obtain ⟨_, q, h1, h⟩ := M.bind_ok h
  obtain ⟨r, q2, h2, h⟩ := M.bind_ok h
  cases h1
  obtain ⟨s, e, rfl⟩ := orDie_ok h2
  cases r with
  | serverException i r => cases h
  | libraryException i => cases h
  | normal id args =>
    obtain ⟨s', k1, rfl⟩ := basicGet_ok e
    obtain ⟨e1, _, beats, _, _, b1, b2, _⟩ := simpleRpc_exchange hT (p := getProto) (args := [(.ticket, .u16 0), (.queue, .bytes queue), (.no_ack, .bool 1)]) (by decide) (.cons trivial (.cons trivial (.cons trivial .nil))) (by decide) hs k1
    have t1 : Talk fm [.get queue] _ := Talk.one (.get queue getProto ⟨by decide, rfl, rfl⟩) b1
    dsimp only at h
    have hrest : Wired fm (if id = 0x003C0048 then pure false else do copyBody S 1; pure true : M Proc Bool) :=
      .ite (.pure _) (.bind (copyBody_wired S hT fm 1) fun _ => .pure _)
    obtain ⟨e3, seg, bs, a1, n1, t2⟩ := hrest _ _ _ e1 h
    exact ⟨e3, .get queue :: seg, _, by rw [a1]; simp [Proc.push], b2.append n1, Talk.append t1 t2⟩

theorem pubProps_word (o : PubOpts) : OneWord (pubProps o).1 := by
  obtain ⟨ex, rk, ct, ce, hd, rt, body, pers, lb⟩ := o
  rcases ct with _ | ct <;> rcases ce with _ | ce <;> rcases rt with _ | rt <;>
    rcases hd with _ | ⟨_ | ⟨h, hs⟩⟩ <;> simp only [pubProps] <;> unfold OneWord flagSet <;> decide

theorem pubProps_typed (o : PubOpts) : PropsOK (fun _ _ => True) (pubProps o).1 (pubProps o).2 basicProps := by
  obtain ⟨ex, rk, ct, ce, hd, rt, body, pers, lb⟩ := o
  rcases ct with _ | ct <;> rcases ce with _ | ce <;> rcases rt with _ | rt <;>
    rcases hd with _ | ⟨_ | ⟨h, hs⟩⟩ <;> simp only [pubProps] <;> unfold PropsOK flagSet basicProps <;>
    simp (decide := true) [Rec.get?, Dom.admits]

theorem doPublish_wired (S : Shell) (hT : NoTimeoutSend S.net) (fm : Int) (o : PubOpts) (body : Bytes) : Wired fm (doPublish S o body) := by
  intro p a p' hs h
  unfold doPublish at h
  obtain ⟨_, q, h1, h⟩ := M.bind_ok h
  cases h1
  obtain ⟨s, e, rfl⟩ := orDie_ok h
  obtain ⟨k1, frags, k2, k3, k4⟩ := publish_out hT hs (pubProps_word o) (pubProps_typed o) (lift_ok e)
  refine ⟨k1, [_], _ ++ [], rfl, by rw [List.append_nil]; exact k4, Talk.one (.publish _ _ _ _ _ frags k2 k3) FramesOf_nil⟩

theorem lineLoop_wired (S : Shell) (hT : NoTimeoutSend S.net) (fm : Int) (o : PubOpts) : ∀ n rest, Wired fm (lineLoop S o n rest) := by
  intro n
  induction n with
  | zero => intro _; exact .fuel
  | succ n ih =>
    intro rest
    unfold lineLoop
    split
    · exact .pure _
    · exact .bind (doPublish_wired S hT fm o _) fun _ => ih _

theorem publishMain_wired (S : Shell) (hT : NoTimeoutSend S.net) (fm : Int) (o : PubOpts) (stdin : Bytes) : Wired fm (publishMain S o stdin) := by
  unfold publishMain
  refine .ite .die ?_
  split
  · exact .ite (.pure _) (doPublish_wired S hT fm o _)
  · refine .ite (lineLoop_wired S hT fm o _ _) (.bind (readAll_aside S).wired fun r => ?_)
    obtain ⟨b, ok⟩ := r
    exact .ite .ub (doPublish_wired S hT fm o _)

theorem release_wired (fm : Int) : Wired fm releaseStep := by
  intro p a p' hs h
  cases h
  exact ⟨(maybeRelease_hush _).estab hs, [], [], by simp, maybeRelease_sent _, .nil⟩

theorem consumeOne_wired (S : Shell) (hT : NoTimeoutSend S.net) (fm : Int) (noAck : Bool) (argv : List Bytes) : Wired fm (consumeOne S noAck argv) := by
  unfold consumeOne
  refine .bind (waitF_wired S hT fm) fun f => ?_
  split
  · refine .ite (.pure _) ?_
    split
    · refine .bind (pipeline_aside S argv).wired fun fd => .bind (copyBody_wired S hT fm fd) fun _ => .bind (finishPipeline_aside S fd).wired fun ok =>
        .bind ?_ fun _ => release_wired fm
      unfold ackStep
      exact .ite (ack_wired S fm _) (.pure _)
    · exact .ub
  · exact .pure _

theorem consumeLoop_wired (S : Shell) (hT : NoTimeoutSend S.net) (fm : Int) (noAck : Bool) (count : Int) (argv : List Bytes) :
    ∀ n i, Wired fm (consumeLoop S noAck count argv n i) := by
  intro n
  induction n with
  | zero => intro _; exact .fuel
  | succ n ih =>
    intro i
    unfold consumeLoop
    exact .ite (.bind (consumeOne_wired S hT fm noAck argv) fun _ => .ite .ub (ih _)) (.pure _)

theorem doConsume_wired (S : Shell) (hT : NoTimeoutSend S.net) (fm : Int) (queue : Bytes) (noAck : Bool) (count prefetch : Int) (argv : List Bytes) :
    Wired fm (doConsume S queue noAck count prefetch argv) := by
  unfold doConsume qosStep
  exact .bind (.bind (qosIf_wired S hT fm _ _) fun _ => qosIf_wired S hT fm _ _) fun _ => .bind (consumeW S hT fm _ _ _ _) fun _ =>
    consumeLoop_wired S hT fm noAck count argv _ _

theorem bindLoop_wired (S : Shell) (hT : NoTimeoutSend S.net) (fm : Int) (queue exchange : Bytes) : ∀ ks, Wired fm (bindLoop S queue exchange ks) := by
  intro ks
  induction ks with
  | nil => exact .pure _
  | cons k ks ih => exact .bind (bindW S hT fm _ _ _) fun _ => ih

theorem queueName_aside (S : Shell) (queue : Option Bytes) (res : Option Rec) : Aside (queueName S queue res) := by
  intro p a p' h
  unfold queueName at h
  repeat' split at h
  all_goals first
    | (cases h; done)
    | (cases h; exact ⟨rfl, [.alloc _], rfl, by simp [mute]⟩)
    | (cases h; exact ⟨rfl, [], by simp, by simp⟩)

theorem bindStep_wired (S : Shell) (hT : NoTimeoutSend S.net) (fm : Int) (name : Bytes) (exchange routingKey : Option Bytes) :
    Wired fm (bindStep S name exchange routingKey) := by
  intro p a p' hs h
  unfold bindStep at h
  split at h
  · cases h; exact ⟨hs, [], [], by simp, Sent.nothing _, .nil⟩
  · cases h
  · dsimp only at h
    split at h
    · obtain ⟨k1, seg, bs, k2, k3, k4⟩ := bindLoop_wired S hT fm _ _ _ (p.push _) _ _ hs h
      exact ⟨k1, [.alloc _] ++ seg, [] ++ bs, by rw [k2]; show (p.acts ++ [_]) ++ seg = _; rw [List.append_assoc], (by rw [List.nil_append]; exact k3), Talk.append (Talk.mutes (by simp [mute])) k4⟩
    · cases h

theorem setupQueue_wired (S : Shell) (hT : NoTimeoutSend S.net) (fm : Int) (queue exchange routingKey : Option Bytes) (declare exclusive : Bool) :
    Wired fm (setupQueue S queue exchange routingKey declare exclusive) := by
  unfold setupQueue
  exact .ite .die (.ite (.bind (declareW S hT fm _ _ _ _ _) fun res => .bind (Aside.act rfl).wired fun _ => .bind (queueName_aside S _ _).wired fun n =>
    .bind (bindStep_wired S hT fm _ _ _) fun _ => .pure _) (.pure _))

theorem declareBody_wired (S : Shell) (hT : NoTimeoutSend S.net) (fm : Int) (q : Bytes) (d : Bool) : Wired fm (declareBody S q d) := by
  unfold declareBody
  refine .bind (declareW S hT fm _ _ _ _ _) fun r => ?_
  split
  · exact .ub
  · split
    · exact .bind (Aside.act rfl).wired fun _ => .pure _
    · exact .ub
theorem deleteBody_wired (S : Shell) (hT : NoTimeoutSend S.net) (fm : Int) (q : Bytes) (u e : Bool) : Wired fm (deleteBody S q u e) := by
  unfold deleteBody
  refine .bind (deleteW S hT fm _ _ _) fun r => ?_
  split
  · exact .ub
  · split
    · exact .bind (Aside.act rfl).wired fun _ => .pure _
    · exact .ub
theorem getBody_wired (S : Shell) (hT : NoTimeoutSend S.net) (fm : Int) (q : Bytes) : Wired fm (getBody S q) :=
  .bind (get_wired S hT fm q) fun _ => .pure _
theorem publishBodyM_wired (S : Shell) (hT : NoTimeoutSend S.net) (fm : Int) (o : PubOpts) (stdin : Bytes) : Wired fm (publishBodyM S o stdin) :=
  .bind (publishMain_wired S hT fm o stdin) fun _ => .pure _
theorem consumeBody_wired (S : Shell) (hT : NoTimeoutSend S.net) (fm : Int) (queue exchange routingKey : Option Bytes) (declare exclusive noAck : Bool)
    (count prefetch : Int) (argv : List Bytes) : Wired fm (consumeBody S queue exchange routingKey declare exclusive noAck count prefetch argv) :=
  .bind (setupQueue_wired S hT fm _ _ _ _ _) fun _ => .bind (doConsume_wired S hT fm _ _ _ _ _) fun _ => .pure _

end Rmq.ToolsM
