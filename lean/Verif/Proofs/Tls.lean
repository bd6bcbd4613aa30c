import Verif.Proofs.OsSpec
import Verif.Spec.Tls
/-!
# Proofs about the TLS socket
-/
namespace Rmq
open OsSpec

theorem tlsHandshake_post (O : Os) (h : Nat) (fd : Int) (dl : Nat) (n : Nat) :
    OsPost (tlsHandshake O h fd dl n) (fun r l => TlsSpec.Handshake h fd dl l r) := by
  induction n with
  | zero => exact OsPost.fuel
  | succ n ih =>
    unfold tlsHandshake
    refine OsPost.sysBind fun a => ?_
    cases a with
    | done => exact OsPost.pure .done
    | other => exact OsPost.pure .broken
    | wantRead =>
      refine OsPost.bind (osPoll_post O fd .pollIn dl O.fuel) fun r w hw => ?_
      by_cases hr : r = St.OK
      · rw [if_pos hr]; subst hr; exact ih.mono fun r l h => .readOn hw h
      · rw [if_neg hr]; exact OsPost.pure (by rw [List.append_nil]; exact .read hw hr)
    | wantWrite =>
      refine OsPost.bind (osPoll_post O fd .pollOut dl O.fuel) fun r w hw => ?_
      by_cases hr : r = St.OK
      · rw [if_pos hr]; subst hr; exact ih.mono fun r l h => .writeOn hw h
      · rw [if_neg hr]; exact OsPost.pure (by rw [List.append_nil]; exact .write hw hr)

theorem certFree_post (c : Nat) : OsPost (certFree (some c)) (fun _ l => l = [.certFree c]) := by
  unfold certFree
  exact OsPost.sys fun _ => rfl

theorem tlsCheck_post (O : Os) (s : TlsSock) (h : Nat) (host : Bytes) :
    OsPost (tlsCheck O s h host) (fun r l => TlsSpec.Verified s.verifyPeer s.verifyHost h host l r) := by
  have hp : St.SSL_PEER_VERIFY_FAILED ≠ St.OK := by decide
  have hn : St.SSL_HOSTNAME_VERIFY_FAILED ≠ St.OK := by decide
  unfold tlsCheck
  refine OsPost.sysBind fun cert => ?_
  cases cert with
  | none =>
    cases hvp : s.verifyPeer with
    | true =>
      refine OsPost.bind (P := fun r l => r = St.SSL_PEER_VERIFY_FAILED ∧ l = []) (OsPost.pure ⟨rfl, rfl⟩) fun r l hr => ?_
      obtain ⟨rfl, rfl⟩ := hr
      refine OsPost.bind (P := fun r l => r = St.SSL_PEER_VERIFY_FAILED ∧ l = []) (OsPost.pure ⟨rfl, rfl⟩) fun r l hr => ?_
      obtain ⟨rfl, rfl⟩ := hr
      refine OsPost.bind (P := fun _ l => l = []) (OsPost.pure rfl) fun r l hr => ?_
      subst hr
      rw [if_neg hp]
      refine OsPost.sysBind fun _ => OsPost.pure ?_
      exact .noCertPeer rfl
    | false =>
      refine OsPost.bind (P := fun r l => r = St.OK ∧ l = []) (OsPost.pure ⟨rfl, rfl⟩) fun r l hr => ?_
      obtain ⟨rfl, rfl⟩ := hr
      rw [if_neg (by simp)]
      cases hvh : s.verifyHost with
      | true =>
        refine OsPost.bind (P := fun r l => r = St.SSL_HOSTNAME_VERIFY_FAILED ∧ l = []) (OsPost.pure ⟨rfl, rfl⟩) fun r l hr => ?_
        obtain ⟨rfl, rfl⟩ := hr
        refine OsPost.bind (P := fun _ l => l = []) (OsPost.pure rfl) fun r l hr => ?_
        subst hr
        rw [if_neg hn]
        refine OsPost.sysBind fun _ => OsPost.pure ?_
        exact .noCertName rfl rfl
      | false =>
        refine OsPost.bind (P := fun r l => r = St.OK ∧ l = []) (OsPost.pure ⟨rfl, rfl⟩) fun r l hr => ?_
        obtain ⟨rfl, rfl⟩ := hr
        refine OsPost.bind (P := fun _ l => l = []) (OsPost.pure rfl) fun r l hr => ?_
        subst hr
        rw [if_pos rfl]
        exact OsPost.pure (.unchecked rfl rfl)
  | some c =>
    refine OsPost.bind (P := fun r l => (s.verifyPeer = true ∧ ∃ v, v ≠ 0 ∧ l = [.verifyResult h v] ∧ r = St.SSL_PEER_VERIFY_FAILED) ∨
      (l = (if s.verifyPeer then [.verifyResult h 0] else []) ∧ r = St.OK)) ?_ fun r l hr => ?_
    · cases hvp : s.verifyPeer with
      | true =>
        rw [if_pos rfl]
        refine OsPost.sysBind fun v => ?_
        by_cases hv : v = 0
        · rw [if_pos hv]; subst hv; exact OsPost.pure (Or.inr ⟨by simp, rfl⟩)
        · rw [if_neg hv]; exact OsPost.pure (Or.inl ⟨rfl, v, hv, rfl, rfl⟩)
      | false => exact OsPost.pure (Or.inr ⟨by simp, rfl⟩)
    · rcases hr with ⟨hvp, v, hv, rfl, rfl⟩ | ⟨rfl, rfl⟩
      · rw [if_pos hp]
        refine OsPost.bind (P := fun r l => r = St.SSL_PEER_VERIFY_FAILED ∧ l = []) (OsPost.pure ⟨rfl, rfl⟩) fun r l hr => ?_
        obtain ⟨rfl, rfl⟩ := hr
        refine OsPost.bind (P := fun _ l => l = [.certFree c]) (certFree_post c) fun r l hr => ?_
        subst hr
        rw [if_neg hp]
        refine OsPost.sysBind fun _ => OsPost.pure ?_
        exact .badChain hvp hv
      · rw [if_neg (by simp)]
        refine OsPost.bind (P := fun r l => (s.verifyHost = true ∧ ∃ v, v ≠ 1 ∧ l = [.checkHost c host v] ∧ r = St.SSL_HOSTNAME_VERIFY_FAILED) ∨
          (l = (if s.verifyHost then [.checkHost c host 1] else []) ∧ r = St.OK)) ?_ fun r l hr => ?_
        · cases hvh : s.verifyHost with
          | true =>
            rw [if_pos rfl]
            refine OsPost.sysBind fun v => ?_
            by_cases hv : v = 1
            · rw [if_pos hv]; subst hv; exact OsPost.pure (Or.inr ⟨by simp, rfl⟩)
            · rw [if_neg hv]; exact OsPost.pure (Or.inl ⟨rfl, v, hv, rfl, rfl⟩)
          | false => exact OsPost.pure (Or.inr ⟨by simp, rfl⟩)
        · refine OsPost.bind (P := fun _ l => l = [.certFree c]) (certFree_post c) fun _ l hl => ?_
          subst hl
          rcases hr with ⟨hvh, v, hv, rfl, rfl⟩ | ⟨rfl, rfl⟩
          · rw [if_neg hn]
            refine OsPost.sysBind fun _ => OsPost.pure ?_
            exact .badName hvh hv
          · rw [if_pos rfl]
            refine OsPost.pure ?_
            rw [List.append_nil]
            exact .good

theorem tlsSession_post (O : Os) (s : TlsSock) (h : Nat) (fd : Int) (host : Bytes) (dl : Nat) :
    OsPost (tlsSession O s h fd host dl) (fun r l => TlsSpec.Session s.verifyPeer s.verifyHost h fd host dl l r) := by
  unfold tlsSession
  refine OsPost.sysBind fun b => ?_
  cases b with
  | false => exact OsPost.pure .noBio
  | true =>
    refine OsPost.sysBind fun b => ?_
    cases b with
    | false => exact OsPost.pure .noSni
    | true =>
      refine OsPost.bind (tlsHandshake_post O h fd dl O.fuel) fun r l hh => ?_
      by_cases hr : r = St.OK
      · subst hr
        rw [if_neg (by simp)]
        exact (tlsCheck_post O s h host).mono fun r m hm => .checked hh hm
      · rw [if_pos hr]
        exact OsPost.pure (by rw [List.append_nil]; exact .noHandshake hh hr)

theorem tlsOpen_post (O : Os) (s : TlsSock) (host : Bytes) (port : Int) (tv : Option TimeVal) (hs : s.fd = -1) :
    OsPost (tlsOpen O s host port tv) (fun r l => ∃ fd ssl, r.2 = { s with fd := fd, ssl := ssl } ∧
      TlsSpec.TlsOpens s.verifyPeer s.verifyHost host port tv l r.1 fd ssl) := by
  unfold tlsOpen
  rw [if_neg (by simpa using hs.symm)]
  refine OsPost.sysBind fun n => ?_
  cases n with
  | none => exact OsPost.pure ⟨-1, none, by rw [← hs], .noSession⟩
  | some h =>
    refine OsPost.bind (osTimeFromNow_post O tv) fun d l hd => ?_
    cases d with
    | error e => exact OsPost.pure ⟨-1, some h, by rw [← hs], by rw [List.append_nil]; exact .noDeadline hd⟩
    | ok dl =>
      refine OsPost.bind (openSocketInner_post O host port dl) fun fd m hm => ?_
      rcases Opens.range hm with hr | ⟨f, rfl⟩
      · rw [if_pos hr]
        refine OsPost.sysBind fun _ => OsPost.pure ⟨-1, none, rfl, .noConnection hd hm hr⟩
      · rw [if_neg (by omega)]
        refine OsPost.bind (tlsSession_post O s h f host dl) fun r k hk => ?_
        by_cases hr : r = St.OK
        · rw [if_pos hr]; subst hr
          exact OsPost.pure ⟨f, some h, rfl, by rw [List.append_nil]; exact .opened hd hm hk⟩
        · rw [if_neg hr]
          refine OsPost.sysBind fun ok => OsPost.sysBind fun _ => OsPost.pure ⟨-1, none, rfl, .failed hd hm hk hr⟩

theorem tlsOp_post (O : Os) (op : TlsOp) (s : TlsSock) : OsPost (tlsOp O op s) (fun r l => TlsSpec.Step s op l r.1 r.2.1 r.2.2) := by
  unfold tlsOp
  cases op with
  | send buf =>
    refine OsPost.bind (P := fun r l => TlsSpec.Step s (.send buf) l r [] s) ?_ fun r l h => OsPost.pure (by rw [List.append_nil]; exact h)
    unfold tlsSend
    by_cases hf : -1 = s.fd
    · rw [if_pos hf]; exact OsPost.pure (.sendClosed hf.symm)
    rw [if_neg hf]
    by_cases hl : buf.length > 2147483647
    · rw [if_pos hl]; exact OsPost.pure (.sendHuge (Ne.symm hf) (by omega))
    rw [if_neg hl]
    cases hs : s.ssl with
    | none => exact OsPost.ub
    | some h =>
      refine OsPost.sysBind fun a => ?_
      have := fun a => TlsSpec.Step.send (s := s) (buf := buf) (h := h) (a := a) (Ne.symm hf) (by omega) hs
      cases a <;> exact OsPost.pure (this _)
  | recv len =>
    refine OsPost.bind (P := fun r l => TlsSpec.Step s (.recv len) l r.1 r.2 s) ?_ fun r l h => OsPost.pure (by rw [List.append_nil]; exact h)
    unfold tlsRecv
    by_cases hf : -1 = s.fd
    · rw [if_pos hf]; exact OsPost.pure (.recvClosed hf.symm)
    rw [if_neg hf]
    by_cases hl : len > 2147483647
    · rw [if_pos hl]; exact OsPost.pure (.recvHuge (Ne.symm hf) (by omega))
    rw [if_neg hl]
    cases hs : s.ssl with
    | none => exact OsPost.ub
    | some h =>
      refine OsPost.sysBind fun a => ?_
      have := fun a => TlsSpec.Step.recv (s := s) (len := len) (h := h) (a := a) (Ne.symm hf) (by omega) hs
      cases a <;> exact OsPost.pure (this _)
  | «open» host port tv =>
    refine OsPost.bind (P := fun r l => TlsSpec.Step s (.open host port tv) l r.1 [] r.2) ?_ fun r l h => OsPost.pure (by rw [List.append_nil]; exact h)
    by_cases hf : s.fd = -1
    · refine (tlsOpen_post O s host port tv hf).mono fun r l h => ?_
      obtain ⟨fd, ssl, h1, h2⟩ := h
      rw [h1]
      exact .open hf h2
    · unfold tlsOpen
      rw [if_pos (Ne.symm hf)]
      exact OsPost.pure (.openInUse hf)
  | close force =>
    refine OsPost.bind (P := fun r l => TlsSpec.Step s (.close force) l r.1 [] r.2) ?_ fun r l h => OsPost.pure (by rw [List.append_nil]; exact h)
    unfold tlsClose
    by_cases hf : -1 = s.fd
    · rw [if_pos hf]; exact OsPost.pure (.closeClosed hf.symm)
    rw [if_neg hf]
    cases hs : s.ssl with
    | none =>
      cases force with
      | false => exact OsPost.ub
      | true =>
        dsimp only
        rw [if_neg (by simp)]
        refine OsPost.sysBind fun ok => ?_
        have := fun ok => TlsSpec.Step.closeAgain (s := s) (ok := ok) (Ne.symm hf) hs
        cases ok with
        | false => exact OsPost.pure (this false)
        | true => exact OsPost.pure (by have h := this true; rw [hs] at h; exact h)
    | some h =>
      refine OsPost.bind (P := fun _ l => l = if force then [] else [.sslShutdown h]) ?_ fun _ l hl => ?_
      · cases force with
        | false => rw [if_pos rfl]; exact OsPost.sys fun _ => rfl
        | true => exact OsPost.pure rfl
      · subst hl
        refine OsPost.sysBind fun _ => OsPost.sysBind fun ok => ?_
        cases ok with
        | false => exact OsPost.pure (.closeFails (Ne.symm hf) hs)
        | true => exact OsPost.pure (.close (Ne.symm hf) hs)
  | setVerifyPeer b => exact OsPost.pure .setVerifyPeer
  | setVerifyHost b => exact OsPost.pure .setVerifyHost

theorem tlsRun_post (O : Os) : ∀ (ops : List TlsOp) (s : TlsSock), OsPost (tlsRun O ops s) (fun r l => TlsSpec.Steps s ops l r.1 r.2)
  | [], s => by unfold tlsRun; exact OsPost.pure .nil
  | op :: rest, s => by
    unfold tlsRun
    refine OsPost.bind (tlsOp_post O op s) fun r l h => ?_
    obtain ⟨r, b, s'⟩ := r
    refine OsPost.bind (tlsRun_post O rest s') fun p l' h' => ?_
    obtain ⟨rs, s''⟩ := p
    exact OsPost.pure (by rw [List.append_nil]; exact .cons h h')

open TlsSpec

/-! ## Classes of calls -/

/-- a call to OpenSSL -/
def Sys.isTls : Sys → Bool
  | .sslNew _ => true | .bioNew _ _ _ => true | .sni _ _ _ => true | .sslConnect _ _ => true | .peerCert _ _ => true
  | .verifyResult _ _ => true | .checkHost _ _ _ => true | .certFree _ => true | .sslShutdown _ => true | .sslFree _ => true
  | .sslWrite _ _ _ => true | .sslRead _ _ _ => true
  | _ => false

theorem TimeLeft.net {dl : Nat} {l : List Sys} {ms : Int} (h : TimeLeft dl l ms) : ∀ e ∈ l, e.isTls = false := by
  cases h <;> simp [Sys.isTls]

theorem Waited.net {fd : Int} {ev : PollEv} {dl : Nat} {l : List Sys} {r : Int} (h : Waited fd ev dl l r) : ∀ e ∈ l, e.isTls = false := by
  induction h with
  | ready h => intro e he; rcases List.mem_append.1 he with h' | h'; exact TimeLeft.net h e h'; simp at h'; subst h'; rfl
  | timeout h => intro e he; rcases List.mem_append.1 he with h' | h'; exact TimeLeft.net h e h'; simp at h'; subst h'; rfl
  | error h => intro e he; rcases List.mem_append.1 he with h' | h'; exact TimeLeft.net h e h'; simp at h'; subst h'; rfl
  | noClock => simp [Sys.isTls]
  | far => simp [Sys.isTls]
  | intr h _ ih =>
    intro e he
    rcases List.mem_append.1 he with h' | h'
    · exact TimeLeft.net h e h'
    · rcases List.mem_cons.1 h' with h' | h'
      · subst h'; rfl
      · exact ih e h'

theorem Attempt.net {a : Addr} {dl : Nat} {l : List Sys} {r : Int} (h : Attempt a dl l r) : ∀ e ∈ l, e.isTls = false := by
  have hs (fd : Nat) : ∀ e ∈ setup fd, e.isTls = false := by simp [setup, Sys.isTls]
  intro e he
  cases h with
  | noSocket => simp at he; subst he; rfl
  | @connected fd m h =>
    simp only [List.mem_cons, List.mem_append] at he
    rcases he with rfl | he | he
    · rfl
    · exact hs fd e he
    · cases h with
      | atOnce => simp at he; subst he; rfl
      | later h =>
        simp only [List.mem_cons, List.mem_append, List.not_mem_nil, or_false] at he
        rcases he with rfl | he | rfl
        · rfl
        · exact Waited.net h e he
        · rfl
  | @failed fd m r ok h =>
    simp only [List.mem_cons, List.mem_append, List.not_mem_nil, or_false] at he
    rcases he with rfl | he | rfl
    · rfl
    · cases h with
      | @opt pre o rest h =>
        simp only [List.mem_cons, List.mem_append, List.not_mem_nil, or_false] at he
        rcases he with he | rfl
        · exact hs fd e (by rw [h]; exact List.mem_append_left _ he)
        · rfl
      | refused =>
        simp only [List.mem_cons, List.mem_append, List.not_mem_nil, or_false] at he
        rcases he with he | rfl
        · exact hs fd e he
        · rfl
      | waiting hw _ =>
        simp only [List.mem_cons, List.mem_append] at he
        rcases he with he | rfl | he
        · exact hs fd e he
        · rfl
        · exact Waited.net hw e he
      | soError hw _ =>
        simp only [List.mem_cons, List.mem_append, List.not_mem_nil, or_false] at he
        rcases he with he | rfl | he | rfl
        · exact hs fd e he
        · rfl
        · exact Waited.net hw e he
        · rfl
    · rfl

theorem Tries.net {dl : Nat} {as : List Addr} {l : List Sys} {r : Int} (h : Tries dl as l r) : ∀ e ∈ l, e.isTls = false := by
  induction h with
  | found h => exact Attempt.net h
  | timeout h => exact Attempt.net h
  | next h _ _ _ ih => intro e he; exact (List.mem_append.1 he).elim (Attempt.net h e) (ih e)
  | last h _ _ => exact Attempt.net h

theorem Opens.net {dl : Nat} {host : Bytes} {port : Int} {l : List Sys} {r : Int} (h : Opens dl host port l r) : ∀ e ∈ l, e.isTls = false := by
  cases h with
  | unresolved => simp [Sys.isTls]
  | empty => simp [Sys.isTls]
  | tried h => intro e he; rcases List.mem_cons.1 he with rfl | he; rfl; exact Tries.net h e he

theorem Deadline.net {tv : Option TimeVal} {l : List Sys} {d : Except Int Nat} (h : Deadline tv l d) : ∀ e ∈ l, e.isTls = false := by
  cases h <;> simp [Sys.isTls]

/-- a question to OpenSSL about the peer's certificate -/
def Sys.isCheck : Sys → Bool
  | .peerCert _ _ => true | .verifyResult _ _ => true | .checkHost _ _ _ => true
  | _ => false

theorem Sys.isCheck_net {e : Sys} (h : e.isTls = false) : e.isCheck = false := by cases e <;> simp_all [Sys.isTls, Sys.isCheck]

theorem Handshake.noCheck {h : Nat} {fd : Int} {dl : Nat} {l : List Sys} {r : Int} (hh : Handshake h fd dl l r) : ∀ e ∈ l, e.isCheck = false := by
  have cons : ∀ {x : HsAns} {w l : List Sys}, (∀ e ∈ w, e.isTls = false) → (∀ e ∈ l, e.isCheck = false) →
      ∀ e ∈ Sys.sslConnect h x :: (w ++ l), e.isCheck = false := by
    intro x w l hw hl e he
    simp only [List.mem_cons, List.mem_append] at he
    rcases he with rfl | he | he
    · rfl
    · exact Sys.isCheck_net (hw e he)
    · exact hl e he
  induction hh with
  | done => simp [Sys.isCheck]
  | broken => simp [Sys.isCheck]
  | @read w r hw _ => have := cons (x := .wantRead) (Waited.net hw) (l := []) (by simp); simpa using this
  | @write w r hw _ => have := cons (x := .wantWrite) (Waited.net hw) (l := []) (by simp); simpa using this
  | readOn hw _ ih => exact cons (Waited.net hw) ih
  | writeOn hw _ ih => exact cons (Waited.net hw) ih

theorem Handshake.ends {h : Nat} {fd : Int} {dl : Nat} {l : List Sys} {r : Int} (hh : Handshake h fd dl l r) (hr : r = St.OK) :
    ∃ l', l = l' ++ [.sslConnect h .done] := by
  induction hh with
  | done => exact ⟨[], rfl⟩
  | broken => cases hr
  | read _ h => exact absurd hr h
  | write _ h => exact absurd hr h
  | @readOn w l r _ _ ih => obtain ⟨l', rfl⟩ := ih hr; exact ⟨.sslConnect h .wantRead :: (w ++ l'), by simp⟩
  | @writeOn w l r _ _ ih => obtain ⟨l', rfl⟩ := ih hr; exact ⟨.sslConnect h .wantWrite :: (w ++ l'), by simp⟩

theorem Opens.neg {dl : Nat} {host : Bytes} {port : Int} {l : List Sys} {r : Int} (_ : Opens dl host port l r) (hr : r < 0) : r ≠ St.OK := by
  intro h; rw [h] at hr; exact absurd hr (by decide)

theorem Verified.ok {peer name : Bool} {h : Nat} {host : Bytes} {m : List Sys} {r : Int} (hv : Verified peer name h host m r) (hr : r = St.OK) :
    (∀ k, peer = true ∨ name = true → .peerCert k none ∉ m) ∧ (∀ k v, .verifyResult k v ∈ m → v = 0) ∧
    (∀ c x v, .checkHost c x v ∈ m → v = 1) := by
  cases hv with
  | noCertPeer => cases hr
  | badChain => cases hr
  | noCertName => cases hr
  | badName => cases hr
  | good => cases peer <;> cases name <;> simp
  | unchecked h1 h2 => subst h1 h2; simp

/-! ## Descriptors and sessions -/

theorem sessions_append (h : Nat) (l m : List Sys) : sessions h (l ++ m) = sessions h l + sessions h m := by
  induction l with
  | nil => simp [sessions]
  | cons e l ih =>
    cases e <;> simp only [List.cons_append, sessions, ih]
    case sslNew f => cases f <;> simp only [sessions, ih]; omega
    case sslFree f => omega

/-- neither creates nor frees a session -/
def Sys.keeps : Sys → Bool
  | .sslNew (some _) => false
  | .sslFree _ => false
  | _ => true

theorem sessions_keeps (h : Nat) (l : List Sys) (hl : ∀ e ∈ l, e.keeps = true) : sessions h l = 0 := by
  induction l with
  | nil => rfl
  | cons e l ih =>
    have h1 := hl e (List.mem_cons_self ..)
    have h2 := ih fun e he => hl e (List.mem_cons_of_mem _ he)
    cases e
    case sslNew f => cases f <;> simp_all [sessions, Sys.keeps]
    case sslFree f => simp [Sys.keeps] at h1
    all_goals simp only [sessions, h2]

theorem Sys.keeps_net {e : Sys} (h : e.isTls = false) : e.keeps = true := by cases e <;> simp_all [Sys.isTls, Sys.keeps]

theorem Handshake.plainKeeps {h : Nat} {fd : Int} {dl : Nat} {l : List Sys} {r : Int} (hh : Handshake h fd dl l r) :
    ∀ e ∈ l, e.plain = true ∧ e.keeps = true := by
  have cons : ∀ {x : HsAns} {w l : List Sys}, (∀ e ∈ w, e.plain = true ∧ e.keeps = true) → (∀ e ∈ l, e.plain = true ∧ e.keeps = true) →
      ∀ e ∈ Sys.sslConnect h x :: (w ++ l), e.plain = true ∧ e.keeps = true := by
    intro x w l hw hl e he
    simp only [List.mem_cons, List.mem_append] at he
    rcases he with rfl | he | he
    · exact ⟨rfl, rfl⟩
    · exact hw e he
    · exact hl e he
  have wait : ∀ {ev : PollEv} {w : List Sys} {r : Int}, Waited fd ev dl w r → ∀ e ∈ w, e.plain = true ∧ e.keeps = true :=
    fun hw e he => ⟨Waited.plain hw e he, Sys.keeps_net (Waited.net hw e he)⟩
  induction hh with
  | done => simp [Sys.plain, Sys.keeps]
  | broken => simp [Sys.plain, Sys.keeps]
  | @read w r hw _ => have := cons (x := .wantRead) (wait hw) (l := []) (by simp); simpa using this
  | @write w r hw _ => have := cons (x := .wantWrite) (wait hw) (l := []) (by simp); simpa using this
  | readOn hw _ ih => exact cons (wait hw) ih
  | writeOn hw _ ih => exact cons (wait hw) ih

theorem Verified.plainKeeps {peer name : Bool} {h : Nat} {host : Bytes} {m : List Sys} {r : Int} (hv : Verified peer name h host m r) :
    ∀ e ∈ m, e.plain = true ∧ e.keeps = true := by
  cases hv <;> cases peer <;> cases name <;> simp [Sys.plain, Sys.keeps]

theorem Session.plainKeeps {peer name : Bool} {h : Nat} {fd : Int} {host : Bytes} {dl : Nat} {m : List Sys} {r : Int}
    (hs : Session peer name h fd host dl m r) : ∀ e ∈ m, e.plain = true ∧ e.keeps = true := by
  intro e he
  cases hs with
  | noBio => simp at he; subst he; exact ⟨rfl, rfl⟩
  | noSni => simp at he; rcases he with rfl | rfl <;> exact ⟨rfl, rfl⟩
  | noHandshake hh _ =>
    simp only [List.mem_cons] at he
    rcases he with rfl | rfl | he
    · exact ⟨rfl, rfl⟩
    · exact ⟨rfl, rfl⟩
    · exact Handshake.plainKeeps hh e he
  | checked hh hv =>
    simp only [List.mem_cons, List.mem_append] at he
    rcases he with rfl | rfl | he | he
    · exact ⟨rfl, rfl⟩
    · exact ⟨rfl, rfl⟩
    · exact Handshake.plainKeeps hh e he
    · exact Verified.plainKeeps hv e he

theorem Opens.held {dl : Nat} {host : Bytes} {port : Int} {l : List Sys} {r : Int} (h : Opens dl host port l r)
    (hne : Sys.resolve host port (some []) ∉ l) (fd : Nat) : OsSpec.held fd l = if r = (fd : Int) then 1 else 0 := by
  cases h with
  | unresolved => rw [if_neg (by simp only [St.HOSTNAME_RESOLUTION_FAILED]; omega)]; rfl
  | empty => simp at hne
  | tried h => exact Tries.held h fd

theorem Deadline.plainKeeps {tv : Option TimeVal} {l : List Sys} {d : Except Int Nat} (h : Deadline tv l d) :
    ∀ e ∈ l, e.plain = true ∧ e.keeps = true := by
  cases h <;> simp [Sys.plain, Sys.keeps]

theorem TlsOpens.balance {peer name : Bool} {host : Bytes} {port : Int} {tv : Option TimeVal} {l : List Sys} {r fd : Int} {ssl : Option Nat}
    (h : TlsOpens peer name host port tv l r fd ssl) (hne : Sys.resolve host port (some []) ∉ l) :
    (∀ f : Nat, OsSpec.held f l = if fd = (f : Int) then 1 else 0) ∧ (∀ k, sessions k l = if ssl = some k then 1 else 0) := by
  have dk {l : List Sys} {d : Except Int Nat} (h : Deadline tv l d) (k : Nat) : OsSpec.held k l = 0 ∧ sessions k l = 0 :=
    ⟨held_plain k l fun e he => (Deadline.plainKeeps h e he).1, sessions_keeps k l fun e he => (Deadline.plainKeeps h e he).2⟩
  have sk {h : Nat} {fd : Int} {dl : Nat} {m : List Sys} {r : Int} (hs : Session peer name h fd host dl m r) (k : Nat) :
      OsSpec.held k m = 0 ∧ sessions k m = 0 :=
    ⟨held_plain k m fun e he => (Session.plainKeeps hs e he).1, sessions_keeps k m fun e he => (Session.plainKeeps hs e he).2⟩
  have ok {dl : Nat} {m : List Sys} {r : Int} (h : Opens dl host port m r) (k : Nat) : sessions k m = 0 :=
    sessions_keeps k m fun e he => Sys.keeps_net (Opens.net h e he)
  cases h with
  | noSession => exact ⟨fun f => by rw [if_neg (by omega)]; rfl, fun k => rfl⟩
  | @noDeadline h l e hd =>
    refine ⟨fun f => ?_, fun k => ?_⟩
    · rw [if_neg (by omega)]; simp only [OsSpec.held, (dk hd f).1]
    · simp only [sessions, (dk hd k).2, Option.some.injEq, Int.add_zero]
  | @noConnection h l dl m r hd hm hr =>
    have hne' : Sys.resolve host port (some []) ∉ m := fun h => hne (by simp [h])
    refine ⟨fun f => ?_, fun k => ?_⟩
    · simp only [OsSpec.held, held_append, (dk hd f).1, Opens.held hm hne' f]
      rw [if_neg (by omega), if_neg (by omega)]; rfl
    · simp only [sessions, sessions_append, (dk hd k).2, ok hm k]
      by_cases hh : h = k <;> simp [hh]
  | @failed h l dl m k r okk f hd hm hk hr =>
    have hne' : Sys.resolve host port (some []) ∉ m := fun h => hne (by simp [h])
    refine ⟨fun g => ?_, fun j => ?_⟩
    · simp only [OsSpec.held, held_append, (dk hd g).1, Opens.held hm hne' g, (sk hk g).1]
      rw [if_neg (show ¬ (-1 : Int) = g by omega)]
      by_cases hh : (f : Int) = g <;> simp [hh]
    · simp only [sessions, sessions_append, (dk hd j).2, ok hm j, (sk hk j).2]
      by_cases hh : h = j <;> simp [hh]
  | @opened h l dl m k f hd hm hk =>
    have hne' : Sys.resolve host port (some []) ∉ m := fun h => hne (by simp [h])
    refine ⟨fun g => ?_, fun j => ?_⟩
    · simp only [OsSpec.held, held_append, (dk hd g).1, Opens.held hm hne' g, (sk hk g).1]
      simp
    · simp only [sessions, sessions_append, (dk hd j).2, ok hm j, (sk hk j).2]
      simp

end Rmq
