import Verif.Proofs.Arrive
import Verif.Proofs.LoginFull
import Verif.Proofs.FrameFirst
/-!
# What succeeds leaves the connection running: the socket is open if it was, and the frame parser is as frames leave it
-/
namespace Rmq

/-- A parser that returns a frame is between two frames. -/
theorem contBody_some {E : PEnv} {s s' : PState} {c n : Nat} {d : Bytes} {f : AFrame} (h : contBody E s c d = .ok (n, some f) s') :
    s'.mode = .idle := by
  unfold contBody at h
  cases hc : consumeData s d with
  | none => rw [hc] at h; cases h
  | some r =>
    obtain ⟨k, s1⟩ := r
    rw [hc] at h
    dsimp only at h
    split at h
    · cases h
    · obtain ⟨_, a, p, rfl⟩ := bodyPhase_ok h; rfl

theorem headerPhase_some {E : PEnv} {s s' : PState} {c n : Nat} {d : Bytes} {f : AFrame} (h : headerPhase E s c d = .ok (n, some f) s') :
    s'.mode = .idle := by
  rw [headerPhase_eq] at h
  cases hO : headerOpen E s with
  | ok u s2 => rw [hO] at h; exact contBody_some h
  | err e s2 => rw [hO] at h; cases h
  | ub => rw [hO] at h; cases h
  | fuel => rw [hO] at h; cases h

theorem handleInput_some {E : PEnv} {s s' : PState} {d : Bytes} {n : Nat} {f : AFrame} (h : handleInput E s d = .ok (n, some f) s') :
    s'.mode = .idle := by
  by_cases hd : d = []
  · subst hd; simp [handleInput] at h
  rw [handleInput_eq hd] at h
  cases hc : consumeData s.wake d with
  | none => rw [hc] at h; cases h
  | some r =>
    obtain ⟨k, s1⟩ := r
    rw [hc] at h
    dsimp only at h
    split at h
    · cases h
    unfold dispatch at h
    cases hm : s1.mode <;> rw [hm] at h
    · cases h
    · dsimp only at h
      cases hr : s1.raw with
      | none => rw [hr] at h; cases h
      | some raw =>
        rw [hr] at h
        dsimp only at h
        by_cases hA : raw.take 4 = [65, 77, 81, 80]
        · rw [if_pos hA] at h
          cases h4 : rd8 raw 4 <;> cases h5 : rd8 raw 5 <;> cases h6 : rd8 raw 6 <;> cases h7 : rd8 raw 7 <;>
            rw [h4, h5, h6, h7] at h <;> try cases h
          rfl
        · rw [if_neg hA] at h
          exact headerPhase_some h
    · exact headerPhase_some h
    · obtain ⟨_, a, p, rfl⟩ := bodyPhase_ok h; rfl

/-- From `s` to `t` the connection kept running. -/
def Runs (E : NetEnv) (s t : Conn) : Prop := (Live E.pe s.ps → Live E.pe t.ps) ∧ t.isOpen = s.isOpen

variable {E : NetEnv}

theorem Runs.refl (s : Conn) : Runs E s s := ⟨id, rfl⟩
theorem Runs.trans {s t u : Conn} (h : Runs E s t) (h' : Runs E t u) : Runs E s u := ⟨fun x => h'.1 (h.1 x), h'.2.trans h.2⟩
theorem Runs.same {s t : Conn} (h : t.ps = s.ps) (h' : t.isOpen = s.isOpen) : Runs E s t := ⟨fun x => by rw [h]; exact x, h'⟩
theorem Runs.used {s t : Conn} {a : Nat} {p : List UInt16} (h : t.ps = { s.ps with allocs := a, pools := p }) (h' : t.isOpen = s.isOpen) : Runs E s t :=
  ⟨fun x => by rw [h]; exact x.used a p, h'⟩
theorem Runs.quiet {s t : Conn} (h : QuietStep s t) : Runs E s t := by
  obtain ⟨l, rfl, _⟩ := h
  exact .same rfl rfl

theorem consumeOne_runs {s t : Conn} {f : Option DFrame} (h : consumeOne E s = .ok f t) : Runs E s t ∧ (f ≠ none → t.ps.mode = .idle) := by
  unfold consumeOne at h
  cases h1 : handleInput E.pe s.ps s.inb with
  | ok r p =>
    rw [h1] at h
    cases h
    refine ⟨⟨fun x => x.call h1, rfl⟩, fun hf => ?_⟩
    obtain ⟨k, _ | f⟩ := r
    · exact absurd rfl hf
    · exact handleInput_some h1
  | err e p => rw [h1] at h; cases h
  | ub => rw [h1] at h; cases h
  | fuel => rw [h1] at h; cases h

theorem createLink_runs (ch : UInt16) (s : Conn) : Runs E s (createLink E ch s).2 := by
  obtain ⟨a, p, h⟩ := createLink_eff E ch s
  rw [h]
  exact .used rfl rfl

theorem queueFrame_runs {f : DFrame} {s t : Conn} (h : queueFrame E f s = .ok () t) : Runs E s t := by
  unfold queueFrame at h
  have hc := createLink_runs (E := E) f.frame.channel s
  revert hc
  rcases hl : createLink E f.frame.channel s with ⟨_ | _, u⟩
  · rw [hl] at h; cases h
  · rw [hl] at h
    cases h
    exact fun hc => hc.trans (.same rfl rfl)

theorem recvWithTimeout_runs (timeout n : Nat) (s : Conn) : (recvWithTimeout E timeout n s).All (Runs E s) := by
  refine ClosedIO.recvWithTimeout (I := Runs E s) ⟨fun {u e} _ h => h.trans (.same rfl rfl), fun {u} b _ h => ?_⟩ timeout n (.refl s)
  have h1 := restartRecv_eff E ({ u with inb := b.take SOCK_BUF }.push (.recvData (b.take SOCK_BUF)))
  revert h1
  cases restartRecv E ({ u with inb := b.take SOCK_BUF }.push (.recvData (b.take SOCK_BUF))) with
  | ok x t => rintro ⟨t1, l1, rfl, _⟩; exact h.trans (.same rfl rfl)
  | err e t => rintro ⟨t1, l1, rfl, _⟩; exact h.trans (.same rfl rfl)
  | ub => exact fun _ => trivial
  | fuel => exact fun _ => trivial

theorem drainToQueue_runs : ∀ (n : Nat) {s t : Conn}, drainToQueue E n s = .ok () t → Runs E s t := by
  intro n
  induction n with
  | zero => intro s t h; cases h
  | succ n ih =>
    intro s t h
    unfold drainToQueue at h
    split at h
    · cases h; exact .refl _
    cases h1 : consumeOne E s with
    | err e u => rw [h1] at h; cases h
    | ub => rw [h1] at h; cases h
    | fuel => rw [h1] at h; cases h
    | ok f u =>
      rw [h1] at h
      have r1 := (consumeOne_runs h1).1
      cases f with
      | none => exact r1.trans (ih h)
      | some f =>
        dsimp only at h
        cases h2 : queueFrame E f u with
        | ok x v => rw [h2] at h; exact r1.trans ((queueFrame_runs h2).trans (ih h))
        | err e u => rw [h2] at h; cases h
        | ub => rw [h2] at h; cases h
        | fuel => rw [h2] at h; cases h

theorem tryRecv_runs {s t : Conn} (h : tryRecv E s = .ok () t) : Runs E s t := by
  unfold tryRecv at h
  obtain ⟨_, u, h1, h⟩ := M.bind_ok h
  obtain ⟨d, v, h2, h⟩ := M.bind_ok h
  have hq := fromNowIO_quiet E (some ⟨0, 0⟩) u
  rw [h2] at hq
  exact (drainToQueue_runs _ h1).trans ((Runs.quiet hq).trans (by have h5 := recvWithTimeout_runs (E := E) d E.fuel v; rw [h] at h5; exact h5))

theorem sendLoop_runs (flags deadline : Nat) : ∀ (n : Nat) (enc : Bytes) {s t : Conn}, sendLoop E flags deadline n enc s = .ok () t → Runs E s t := by
  intro n
  induction n with
  | zero => intro enc s t h; cases h
  | succ n ih =>
    intro enc s t h
    unfold sendLoop at h
    dsimp only at h
    have h1 := trySend_eff E (timeFirst deadline s.nextRecv) flags enc.length E.fuel enc s (Nat.le_refl _)
    revert h h1
    cases trySend E (timeFirst deadline s.nextRecv) flags enc.length E.fuel enc s with
    | err e u => intro h; cases h
    | ub => intro h; cases h
    | fuel => intro h; cases h
    | ok m u =>
      rintro h ⟨k, ⟨l, rfl, _⟩, _⟩
      have r1 : Runs E s (s.ext l) := .same rfl rfl
      dsimp only at h
      split at h
      · split at h
        · cases h
        cases h2 : tryRecv E (s.ext l) with
        | ok x v => rw [h2] at h; exact r1.trans ((tryRecv_runs h2).trans (ih _ h))
        | err e v => rw [h2] at h; dsimp only at h; split at h <;> cases h
        | ub => rw [h2] at h; cases h
        | fuel => rw [h2] at h; cases h
      · have h3 := restartSend_eff E (s.ext l)
        rw [h] at h3
        obtain ⟨t1, l1, rfl, _⟩ := h3
        exact .same rfl rfl

theorem sendFrame_runs {f : AFrame} {flags deadline : Nat} {s t : Conn} (h : sendFrame E f flags deadline s = .ok () t) : Runs E s t := by
  unfold sendFrame at h
  cases h1 : frameToBytes E.pe.be s.outMem s.outLen f with
  | ok enc mem => rw [h1] at h; exact Runs.trans (t := { s with outMem := mem }) (.same rfl rfl) (sendLoop_runs _ _ _ _ h)
  | err e mem => rw [h1] at h; cases h
  | ub => rw [h1] at h; cases h
  | fuel => rw [h1] at h; cases h

theorem beginRecv_runs {d : Nat} {s t : Conn} {b : Bool} (h : beginRecv E d s = .ok b t) : Runs E s t := by
  unfold beginRecv at h
  obtain ⟨l, h1, _⟩ := hasPastIO_ext E s.nextSend s
  revert h h1
  obtain ⟨res, s1⟩ := hasPastIO E s.nextSend s
  dsimp only
  intro h h1
  subst h1
  have r0 : Runs E s (s.ext l) := .same rfl rfl
  split at h
  · cases h
  have r1 : ∀ u, (if res = St.TIMEOUT then sendFrame E ⟨0, .heartbeat⟩ SF_NONE TIME_INF (s.ext l) else .ok () (s.ext l) : Res Conn Unit) = .ok () u → Runs E (s.ext l) u := by
    intro u hu
    split at hu
    · exact sendFrame_runs hu
    · cases hu; exact .refl _
  revert h r1
  cases (if res = St.TIMEOUT then sendFrame E ⟨0, .heartbeat⟩ SF_NONE TIME_INF (s.ext l) else .ok () (s.ext l) : Res Conn Unit) with
  | err e u => intro h; cases h
  | ub => intro h; cases h
  | fuel => intro h; cases h
  | ok x u =>
    intro h r1
    dsimp only at h
    have r2 := r0.trans (r1 u rfl)
    have r3 := recvWithTimeout_runs (E := E) (timeFirst d (timeFirst u.nextRecv u.nextSend)) E.fuel u
    revert h r3
    cases recvWithTimeout E (timeFirst d (timeFirst u.nextRecv u.nextSend)) E.fuel u with
    | ok y v => intro h r3; cases h; exact r2.trans r3
    | err e v =>
      intro h r3
      dsimp only at h
      split at h
      · split at h
        · cases h
        · split at h
          · cases h
          · split at h
            · cases h; exact r2.trans r3
            · cases h
      · cases h
    | ub => intro h; cases h
    | fuel => intro h; cases h

theorem release_runs (ch : UInt16) (s : Conn) : Runs E s (maybeReleaseOn ch s) ∧ (maybeReleaseOn ch s).ps = s.ps := by
  obtain ⟨l, h, _⟩ := maybeReleaseOn_ext ch s
  rw [h]
  exact ⟨.same rfl rfl, rfl⟩

theorem foldl_release_runs : ∀ (p : List UInt16) (s : Conn),
    Runs E s (p.foldl (fun s ch => maybeReleaseOn ch s) s) ∧ (p.foldl (fun s ch => maybeReleaseOn ch s) s).ps = s.ps
  | [], s => ⟨.refl s, rfl⟩
  | ch :: p, s => by
    obtain ⟨a, b⟩ := foldl_release_runs p (maybeReleaseOn ch s)
    obtain ⟨c, d⟩ := release_runs (E := E) ch s
    exact ⟨c.trans a, b.trans d⟩

theorem waitInner_runs (d : Nat) : ∀ (n : Nat) (b : Bool) {s t : Conn} {f : DFrame}, waitInner E d n b s = .ok f t → Runs E s t ∧ t.ps.mode = .idle := by
  intro n
  induction n with
  | zero => intro b s t f h; cases h
  | succ n ih =>
    intro b s t f h
    unfold waitInner at h
    split at h
    · cases h1 : consumeOne E s with
      | err e u => rw [h1] at h; cases h
      | ub => rw [h1] at h; cases h
      | fuel => rw [h1] at h; cases h
      | ok g u =>
        rw [h1] at h
        obtain ⟨r1, i1⟩ := consumeOne_runs h1
        cases g with
        | none => obtain ⟨r2, i2⟩ := ih _ h; exact ⟨r1.trans r2, i2⟩
        | some g =>
          dsimp only at h
          cases hp : g.frame.payload <;> rw [hp] at h <;> dsimp only at h
          case heartbeat =>
            obtain ⟨r2, i2⟩ := ih _ h
            exact ⟨r1.trans ((release_runs 0 u).1.trans r2), i2⟩
          all_goals cases h; exact ⟨r1, i1 nofun⟩
    · cases h1 : beginRecv E d s with
      | ok a u => rw [h1] at h; obtain ⟨r2, i2⟩ := ih _ h; exact ⟨(beginRecv_runs h1).trans r2, i2⟩
      | err e u => rw [h1] at h; cases h
      | ub => rw [h1] at h; cases h
      | fuel => rw [h1] at h; cases h

theorem waitFrameInner_runs {d : Nat} {s t : Conn} {f : DFrame} (h : waitFrameInner E d s = .ok f t) : Runs E s t ∧ t.ps.mode = .idle :=
  waitInner_runs d _ _ h

theorem waitFrame_runs {tv : Option TimeVal} {s t : Conn} {f : DFrame} (h : waitFrame E tv s = .ok f t) : Runs E s t := by
  unfold waitFrame at h
  obtain ⟨d, u, h1, h⟩ := M.bind_ok h
  have hq := fromNowIO_quiet E tv s
  rw [h1] at hq
  refine (Runs.quiet hq).trans ?_
  cases hq : u.queue with
  | nil => rw [hq] at h; exact (waitFrameInner_runs h).1
  | cons g q => rw [hq] at h; cases h; exact .same rfl rfl

theorem rpcLoop_runs {ch : UInt16} {expected : List UInt32} {d : Nat} {id : UInt32} {args : Rec} : ∀ (n : Nat) {s t : Conn},
    rpcLoop E ch expected d n s = .ok (.normal id args) t → Runs E s t ∧ t.ps.mode = .idle := by
  intro n
  induction n with
  | zero => intro s t h; cases h
  | succ n ih =>
    intro s t h
    unfold rpcLoop at h
    cases h1 : waitFrameInner E d s with
    | ub => rw [h1] at h; cases h
    | fuel => rw [h1] at h; cases h
    | err e u => rw [h1] at h; cases h
    | ok f u =>
      rw [h1] at h
      obtain ⟨r1, i1⟩ := waitFrameInner_runs h1
      dsimp only at h
      split at h
      · cases hp : f.frame.payload <;> rw [hp] at h <;> dsimp only at h
        case method id' args' => injection h with _ h; subst h; exact ⟨r1, i1⟩
        all_goals cases h
      · cases h3 : queueFrame E f u with
        | ub => rw [h3] at h; cases h
        | fuel => rw [h3] at h; cases h
        | err e v => rw [h3] at h; cases h
        | ok x v => rw [h3] at h; obtain ⟨r2, i2⟩ := ih h; exact ⟨r1.trans ((queueFrame_runs h3).trans r2), i2⟩

/-- After an RPC that returned its reply the socket is open, and the parser is between two frames. -/
theorem simpleRpc_runs {ch : UInt16} {id i : UInt32} {expected : List UInt32} {args r : Rec} {s t : Conn}
    (h : simpleRpc E ch id expected args s = .ok (.normal i r) t) : Runs E s t ∧ t.ps.mode = .idle ∧ t.isOpen = true := by
  unfold simpleRpc at h
  have hq := fromNowIO_quiet E (getRpcTimeout s.timeouts) s
  revert h hq
  cases fromNowIO E (getRpcTimeout s.timeouts) s with
  | ub => intro h; cases h
  | fuel => intro h; cases h
  | err e t => intro h; cases h
  | ok d s1 =>
    intro h hq
    dsimp only at h hq
    unfold rpcInner at h
    cases h1 : sendMethod E ch id args SF_NONE TIME_INF s1 with
    | ub => rw [h1] at h; cases h
    | fuel => rw [h1] at h; cases h
    | err e t => rw [h1] at h; cases h
    | ok x u =>
      rw [h1] at h
      have ho : s1.isOpen = true := by
        cases hs : s1.isOpen with
        | true => rfl
        | false => exact absurd h1 (sendFrame_shut _ _ _ hs)
      have r1 := sendFrame_runs h1
      obtain ⟨r2, i2⟩ := rpcLoop_runs _ h
      have r3 := r1.trans r2
      exact ⟨(Runs.quiet hq).trans r3, i2, r3.2.trans ho⟩

theorem openVhost_runs {v : Bytes} {d : Nat} {s t : Conn} (h : openVhost E v d s = .ok (.normal ()) t) :
    Runs E s t ∧ t.ps.mode = .idle ∧ t.isOpen = true := by
  unfold openVhost rpcInner at h
  cases h1 : sendMethod E 0 CONNECTION_OPEN [(.virtual_host, .bytes v), (.capabilities, .bytes []), (.insist, .bool 1)] SF_NONE TIME_INF s with
  | ub => rw [h1] at h; cases h
  | fuel => rw [h1] at h; cases h
  | err e t => rw [h1] at h; cases h
  | ok x u =>
    rw [h1] at h
    dsimp only at h
    have ho : s.isOpen = true := by
      cases hs : s.isOpen with
      | true => rfl
      | false => exact absurd h1 (sendFrame_shut _ _ _ hs)
    have r1 := sendFrame_runs h1
    cases h2 : rpcLoop E 0 [CONNECTION_OPEN_OK] d E.fuel u with
    | ub => rw [h2] at h; cases h
    | fuel => rw [h2] at h; cases h
    | err e w => rw [h2] at h; cases h
    | ok r w =>
      rw [h2] at h
      cases r with
      | serverException id a => cases h
      | libraryException st => cases h
      | normal id args =>
        cases h
        obtain ⟨r2, i2⟩ := rpcLoop_runs _ h2
        have hm : Runs E w (maybeRelease w) ∧ (maybeRelease w).ps = w.ps := by
          unfold maybeRelease
          by_cases hw : w.ps.mode = .idle
          · rw [if_pos hw]; exact foldl_release_runs w.ps.pools w
          · rw [if_neg hw]; exact ⟨.refl w, rfl⟩
        have r3 := r1.trans (r2.trans hm.1)
        exact ⟨r3, by rw [hm.2]; exact i2, r3.2.trans ho⟩

theorem tune_runs {cm fm hb : Int} {mem : Nat → UInt8} {s t : Conn} (h : tune E cm fm hb mem s = .ok () t) : Runs E s t := by
  unfold tune at h
  by_cases hm : s.ps.mode ≠ .idle
  · rw [if_pos hm] at h; cases h
  rw [if_neg hm] at h
  have hm : s.ps.mode = .idle := Classical.byContradiction hm
  dsimp only at h
  have r1 := restartSend_eff E { s with channelMax := cm, frameMax := fm, ps := { s.ps with frameMax := (fm % 2 ^ 64).toNat },
                                        heartbeat := if 0 > hb then 0 else hb }
  revert h r1
  cases restartSend E { s with channelMax := cm, frameMax := fm, ps := { s.ps with frameMax := (fm % 2 ^ 64).toNat },
                                        heartbeat := if 0 > hb then 0 else hb } with
  | ub => intro h; cases h
  | fuel => intro h; cases h
  | err e u => intro h; cases h
  | ok x u =>
    rintro h ⟨t1, l1, rfl, _⟩
    dsimp only at h
    have r2 := restartRecv_eff E { ({ s with channelMax := cm, frameMax := fm, ps := { s.ps with frameMax := (fm % 2 ^ 64).toNat },
                                             heartbeat := if 0 > hb then 0 else hb } : Conn).ext l1 with nextSend := t1 }
    revert h r2
    cases restartRecv E { ({ s with channelMax := cm, frameMax := fm, ps := { s.ps with frameMax := (fm % 2 ^ 64).toNat },
                                             heartbeat := if 0 > hb then 0 else hb } : Conn).ext l1 with nextSend := t1 } with
    | ub => intro h; cases h
    | fuel => intro h; cases h
    | err e u => intro h; cases h
    | ok x u =>
      rintro h ⟨t2, l2, rfl, _⟩
      dsimp only [smallAlloc] at h
      revert h
      cases E.pe.alloc _ with
      | false => intro h; cases h
      | true =>
        intro h
        cases h
        refine ⟨fun x => ?_, rfl⟩
        have h4 : Live E.pe { s.ps with frameMax := (fm % 2 ^ 64).toNat } := x.tune _ hm
        exact h4.used (s.ps.allocs + 1) s.ps.pools

theorem waitMethodList_runs {ch : UInt16} {expected : List UInt32} {d : Nat} {s t : Conn} {r : UInt32 × Rec}
    (h : waitMethodList E ch expected d s = .ok r t) : Runs E s t := by
  obtain ⟨id, r⟩ := r
  obtain ⟨s1, hq, ⟨tv, f, hw, _⟩, _⟩ := waitMethodList_ok h
  exact (Runs.quiet hq).trans (waitFrame_runs hw)

theorem releaseBuffers_runs {s t : Conn} (h : releaseBuffers s = .ok () t) : Runs E s t := by
  obtain ⟨_, l, rfl, _⟩ := releaseBuffers_ok h
  exact .same rfl rfl

/-- After a login that succeeded the socket is open, and the parser is between two frames. -/
theorem login_runs {b : Build} {memcmp : Bytes → Bytes → Int} (hM : MemcmpExact memcmp) {mem : Nat → UInt8} {a : LoginArgs} {s s' : Conn}
    (h0 : HbOff s) (hO : SendReady s) (h : login E b memcmp mem a s = .ok (.normal ()) s') :
    (Live E.pe s.ps → Live E.pe s'.ps) ∧ s'.ps.mode = .idle ∧ s'.isOpen = true := by
  obtain ⟨p1, p2, p3, p4, p5, hL⟩ := login_params h (fun hh => nomatch hh)
  have hL := hL.resolve_right (by rintro ⟨e, t, _, hh, _⟩; exact nomatch hh)
  obtain ⟨d, t0, t1, t2, t3, t4, t5, id, r0, e0, e1, e2, e3, e4, e5, hE⟩ := loginSteps_ok hL
  have hE := hE.resolve_left (by rintro ⟨_, hh, _⟩; exact nomatch hh)
  obtain ⟨rfl, c, f, hb, t6, t7, g1, g2, g3, e6, e7, e8⟩ := hE
  have hd : d ≤ TIME_INF := Login16.fromNowIO_le e0
  have q0 : QuietStep s t0 := by have := fromNowIO_quiet E (getHandshakeTimeout s.timeouts) s; rw [e0] at this; exact this
  obtain ⟨l1, k, rfl, _, _, _⟩ := sendHeaderInner_eff E d e1
  have r1 : Runs E s (t0.ext l1) := (Runs.quiet q0).trans (.same rfl rfl)
  have hOff1 : HbOff (t0.ext l1) := (Idle.quiet q0).off h0
  have hO1 : SendReady (t0.ext l1) := (Idle.quiet q0).ready hO
  obtain ⟨s1, s2, fs, n, sp, a1, a2, a3, rfl⟩ := awaitStart_ok hM e2
  have i2 : Idle (t0.ext l1) s2 := (Idle.quiet a1).trans (a2.idle ((Idle.quiet a1).off hOff1))
  obtain ⟨tv, df, hw, _⟩ := a2
  have r2 := r1.trans ((Runs.quiet a1).trans (waitFrame_runs hw))
  obtain ⟨_, _, l3, n3, p3', props, m3, tt3, rfl, _⟩ := sendStartOk_ok hd (by exact i2.off hOff1) (by exact i2.ready hO1) e3
  have r3 : Runs E s s2 := r2
  have r4 : Runs E s2 _ := Runs.trans (t := { { s2 with ps := { s2.ps with allocs := n }, serverProps := sp }.ext l3 with
      ps := { s2.ps with allocs := n3, pools := p3' }, clientProps := props, clientBorn := s2.log.length, outMem := m3, nextSend := tt3 })
    (.used rfl rfl) (releaseBuffers_runs e4)
  have r5 := r3.trans (r4.trans (waitMethodList_runs e5))
  unfold tuneOk at e6
  obtain ⟨_, u, e6, e6'⟩ := M.bind_ok e6
  have r6 := (tune_runs e6).trans (sendFrame_runs e6')
  obtain ⟨r7, i, o⟩ := openVhost_runs e8
  exact ⟨(r5.trans (r6.trans ((releaseBuffers_runs e7).trans r7))).1, i, o⟩

end Rmq
