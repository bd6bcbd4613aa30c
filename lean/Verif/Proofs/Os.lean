import Verif.Spec.Os
import Verif.Proofs.Heartbeat
/-!
# Proofs about system-call sequences
-/
namespace Rmq
open OsSpec

/-- every normal return of `x` has a result and new calls satisfying `P`; the clock values are below 2^64 -/
def OsPost {α : Type} (x : M OsLog α) (P : α → List Sys → Prop) : Prop :=
  ∀ l0 a l1, x l0 = .ok a l1 → ∃ l, l1 = l0 ++ l ∧ P a l

theorem OsPost.pure {α : Type} {a : α} {P : α → List Sys → Prop} (h : P a []) : OsPost (Pure.pure a : M OsLog α) P := by
  intro l0 b l1 e
  cases e
  exact ⟨[], (List.append_nil _).symm, h⟩

theorem OsPost.bind {α β : Type} {x : M OsLog α} {f : α → M OsLog β} {P : α → List Sys → Prop} {Q : β → List Sys → Prop}
    (hx : OsPost x P) (hf : ∀ a l, P a l → OsPost (f a) (fun b l' => Q b (l ++ l'))) : OsPost (x >>= f) Q := by
  intro l0 b l1 e
  rw [M.bind_def] at e
  cases hxe : x l0 with
  | ok a s =>
    rw [hxe] at e
    dsimp only at e
    obtain ⟨l, rfl, hp⟩ := hx _ _ _ hxe
    obtain ⟨l', rfl, hq⟩ := hf a l hp _ _ _ e
    exact ⟨l ++ l', List.append_assoc .., hq⟩
  | err st s => rw [hxe] at e; cases e
  | ub => rw [hxe] at e; cases e
  | fuel => rw [hxe] at e; cases e

theorem OsPost.sys {α : Type} {f : Nat → α} {e : α → Sys} {P : α → List Sys → Prop} (h : ∀ a, P a [e a]) : OsPost (Rmq.sys f e) P := by
  intro l0 b l1 he
  simp only [Rmq.sys, Res.ok.injEq] at he
  obtain ⟨rfl, rfl⟩ := he
  exact ⟨_, rfl, h _⟩

/-- first a call, then the rest -/
theorem OsPost.sysBind {α β : Type} {f : Nat → α} {e : α → Sys} {g : α → M OsLog β} {Q : β → List Sys → Prop}
    (h : ∀ a, OsPost (g a) (fun b l => Q b (e a :: l))) : OsPost (Rmq.sys f e >>= g) Q :=
  OsPost.bind (P := fun a l => l = [e a]) (OsPost.sys fun _ => rfl) (fun a l hl => by subst hl; exact h a)

theorem OsPost.sysBind' {α β : Type} {f : Nat → α} {e : α → Sys} {g : α → M OsLog β} {Q : β → List Sys → Prop}
    (h : ∀ i, OsPost (g (f i)) (fun b l => Q b (e (f i) :: l))) : OsPost (Rmq.sys f e >>= g) Q := by
  intro l0 b l1 he
  rw [M.bind_def] at he
  simp only [Rmq.sys] at he
  obtain ⟨l, e1, h1⟩ := h _ _ _ _ he
  exact ⟨e (f l0.length) :: l, by rw [e1, List.append_assoc]; rfl, h1⟩

theorem OsPost.mono {α : Type} {x : M OsLog α} {P Q : α → List Sys → Prop} (hx : OsPost x P) (h : ∀ a l, P a l → Q a l) : OsPost x Q :=
  fun l0 a l1 e => let ⟨l, e1, hp⟩ := hx l0 a l1 e; ⟨l, e1, h a l hp⟩

theorem OsPost.fuel {α : Type} {P : α → List Sys → Prop} : OsPost (M.outOfFuel : M OsLog α) P := by
  intro l0 b l1 he; cases he
theorem OsPost.ub {α : Type} {P : α → List Sys → Prop} : OsPost (M.ub : M OsLog α) P := by
  intro l0 b l1 he; cases he

/-- `x` returns normally, or runs out of the model's fuel -/
def OsTotal {α : Type} (x : M OsLog α) : Prop := ∀ l0, (∃ a l1, x l0 = .ok a l1) ∨ x l0 = .fuel

theorem OsTotal.pure {α : Type} {a : α} : OsTotal (Pure.pure a : M OsLog α) := fun l0 => Or.inl ⟨a, l0, rfl⟩
theorem OsTotal.sys {α : Type} {f : Nat → α} {e : α → Sys} : OsTotal (Rmq.sys f e) := fun _ => Or.inl ⟨_, _, rfl⟩
theorem OsTotal.fuel {α : Type} : OsTotal (M.outOfFuel : M OsLog α) := fun _ => Or.inr rfl
theorem OsTotal.bind {α β : Type} {x : M OsLog α} {f : α → M OsLog β} (hx : OsTotal x) (hf : ∀ a, OsTotal (f a)) : OsTotal (x >>= f) := by
  intro l0
  rw [M.bind_def]
  rcases hx l0 with ⟨a, l1, h⟩ | h
  · rw [h]; exact hf a l1
  · rw [h]; exact Or.inr rfl

/-- `x` returns normally -/
def OsRet {α : Type} (x : M OsLog α) : Prop := ∀ l0, ∃ a l1, x l0 = .ok a l1

theorem OsRet.pure {α : Type} {a : α} : OsRet (Pure.pure a : M OsLog α) := fun l0 => ⟨a, l0, rfl⟩
theorem OsRet.sys {α : Type} {f : Nat → α} {e : α → Sys} : OsRet (Rmq.sys f e) := fun _ => ⟨_, _, rfl⟩
theorem OsRet.bind {α β : Type} {x : M OsLog α} {f : α → M OsLog β} (hx : OsRet x) (hf : ∀ a, OsRet (f a)) : OsRet (x >>= f) := by
  intro l0
  rw [M.bind_def]
  obtain ⟨a, l1, h⟩ := hx l0
  rw [h]; exact hf a l1

/-! ## Waiting -/

theorem osMsUntil_post (O : Os) (t : Nat) : OsPost (osMsUntil O t) (fun ms l =>
    (TimeLeft t l ms ∧ -1 ≤ ms) ∨
    (ms < -1 ∧ ((l = [.clock 0] ∧ ms = St.TIMER_FAILURE ∧ t ≠ TIME_INF ∧ t ≠ 0) ∨ ∃ now, now ≠ 0 ∧ l = [.clock now] ∧ Far now t))) := by
  unfold osMsUntil
  by_cases hi : TIME_INF = t
  · rw [if_pos hi]; exact OsPost.pure (Or.inl ⟨.forever hi.symm, by omega⟩)
  rw [if_neg hi]
  by_cases h0 : 0 = t
  · rw [if_pos h0]; exact OsPost.pure (Or.inl ⟨.zero h0.symm, by omega⟩)
  rw [if_neg h0]
  refine OsPost.sysBind fun now => OsPost.pure ?_
  by_cases hn : now = 0
  · subst hn
    have hm : msUntil 0 t = St.TIMER_FAILURE := by unfold msUntil; rw [if_neg hi, if_neg h0, if_pos rfl]
    rw [hm]
    exact Or.inr ⟨by decide, Or.inl ⟨rfl, rfl, Ne.symm hi, Ne.symm h0⟩⟩
  by_cases hf : t < now + 2 ^ 31 * 1000000
  · obtain ⟨m1, m2, m3⟩ := msUntil_near (Ne.symm hi) (Ne.symm h0) hn hf
    generalize msUntil now t = ms at *
    obtain ⟨k, rfl⟩ := Int.eq_ofNat_of_zero_le m1
    have q1 : k = 0 ∨ now + k * 1000000 ≤ t := by clear hi h0 hf hn m1 m3; omega
    have q2 : t < now + (k + 1) * 1000000 := by clear hi h0 hf hn m1 m2; omega
    exact Or.inl ⟨TimeLeft.clock now k hn (Ne.symm hi) q1 q2, by clear hi h0 hf; omega⟩
  · have hfar : Far now t := ⟨Ne.symm hi, by omega⟩
    by_cases hm : -1 ≤ msUntil now t
    · exact Or.inl ⟨.far now _ hn hfar hm, hm⟩
    · exact Or.inr ⟨by omega, Or.inr ⟨now, hn, rfl, hfar⟩⟩

theorem osPoll_post (O : Os) (fd : Int) (ev : PollEv) (dl : Nat) (n : Nat) :
    OsPost (osPoll O fd ev dl n) (fun r l => Waited fd ev dl l r) := by
  induction n with
  | zero => exact OsPost.fuel
  | succ n ih =>
    unfold osPoll
    refine OsPost.bind (osMsUntil_post O dl) fun ms l hl => ?_
    by_cases hm : -1 > ms
    · rw [if_pos hm]
      refine OsPost.pure ?_
      rw [List.append_nil]
      rcases hl with ⟨_, h⟩ | ⟨_, ⟨rfl, rfl, h1, h2⟩ | ⟨now, hn, rfl, hfar⟩⟩
      · omega
      · exact .noClock h1 h2
      · exact .far now ms hn hfar hm
    · rw [if_neg hm]
      have htl : TimeLeft dl l ms := by
        rcases hl with ⟨h, _⟩ | ⟨h, _⟩
        · exact h
        · omega
      refine OsPost.sysBind fun a => ?_
      cases a with
      | ready => exact OsPost.pure (.ready htl)
      | timeout => exact OsPost.pure (.timeout htl)
      | error => exact OsPost.pure (.error htl)
      | intr => exact ih.mono fun r l' h => .intr htl h

theorem osMsUntil_ret (O : Os) (t : Nat) : OsRet (osMsUntil O t) := by
  unfold osMsUntil
  split
  · exact OsRet.pure
  · split
    · exact OsRet.pure
    · exact OsRet.sys.bind fun _ => OsRet.pure

theorem OsRet.total {α : Type} {x : M OsLog α} (h : OsRet x) : OsTotal x := fun l0 => Or.inl (h l0)

theorem osPoll_total (O : Os) (fd : Int) (ev : PollEv) (dl : Nat) (n : Nat) : OsTotal (osPoll O fd ev dl n) := by
  induction n with
  | zero => exact OsTotal.fuel
  | succ n ih =>
    unfold osPoll
    refine (osMsUntil_ret O dl).total.bind fun ms => ?_
    split
    · exact OsTotal.pure
    · refine OsTotal.sys.bind fun a => ?_
      cases a <;> first | exact OsTotal.pure | exact ih

theorem OsRet.sysBind {α β : Type} {f : Nat → α} {e : α → Sys} {g : α → M OsLog β} (h : ∀ i, OsRet (g (f i))) : OsRet (Rmq.sys f e >>= g) :=
  fun _ => h _ _

theorem osPoll_ret (O : Os) (fd : Int) (ev : PollEv) (dl : Nat) (n : Nat) (hO : ∀ i, O.poll i ≠ .intr) :
    OsRet (osPoll O fd ev dl (n + 1)) := by
  unfold osPoll
  refine (osMsUntil_ret O dl).bind fun ms => ?_
  split
  · exact OsRet.pure
  · refine OsRet.sysBind fun i => ?_
    have := hO i
    generalize O.poll i = a at *
    cases a <;> first | exact OsRet.pure | exact absurd rfl this

theorem OsSpec.Waited.neg {fd : Int} {ev : PollEv} {dl : Nat} {l : List Sys} {r : Int} (h : Waited fd ev dl l r) (hr : r ≠ St.OK) : r < -1 := by
  induction h with
  | ready _ => exact absurd rfl hr
  | timeout _ => decide
  | error _ => decide
  | noClock => decide
  | far _ _ _ _ h => exact h
  | intr _ _ ih => exact ih hr

theorem OsSpec.Failing.neg {fd : Nat} {a : Addr} {dl : Nat} {l : List Sys} {r : Int} (h : Failing fd a dl l r) : r < -1 := by
  cases h with
  | opt _ => decide
  | refused => decide
  | waiting hw hr => exact hw.neg hr
  | soError _ _ => decide

theorem OsSpec.Attempt.range {a : Addr} {dl : Nat} {l : List Sys} {r : Int} (h : Attempt a dl l r) : r < -1 ∨ ∃ fd : Nat, r = fd := by
  cases h with
  | noSocket => left; decide
  | connected _ => exact Or.inr ⟨_, rfl⟩
  | failed h => exact Or.inl h.neg

/-! ## Connecting -/

theorem connectFd_post (O : Os) (fd : Nat) (a : Addr) (dl : Nat) : OsPost (connectFd O fd a dl) (fun r l =>
    (r = St.OK ∧ ∃ m, l = setup fd ++ m ∧ Connected fd a dl m) ∨ (r ≠ St.OK ∧ Failing fd a dl l r)) := by
  have hse : St.SOCKET_ERROR ≠ St.OK := by decide
  unfold connectFd
  refine OsPost.sysBind fun b => ?_
  cases b with
  | false => exact OsPost.pure (Or.inr ⟨hse, .opt (pre := []) (o := .getFd) rfl⟩)
  | true =>
  refine OsPost.sysBind fun b => ?_
  cases b with
  | false => exact OsPost.pure (Or.inr ⟨hse, .opt (pre := [.opt fd .getFd true]) (o := .setCloexec) rfl⟩)
  | true =>
  refine OsPost.sysBind fun b => ?_
  cases b with
  | false => exact OsPost.pure (Or.inr ⟨hse, .opt (pre := [.opt fd .getFd true, .opt fd .setCloexec true]) (o := .getFl) rfl⟩)
  | true =>
  refine OsPost.sysBind fun b => ?_
  cases b with
  | false =>
    exact OsPost.pure (Or.inr ⟨hse, .opt (pre := [.opt fd .getFd true, .opt fd .setCloexec true, .opt fd .getFl true]) (o := .setNonblock) rfl⟩)
  | true =>
  refine OsPost.sysBind fun b => ?_
  cases b with
  | false =>
    exact OsPost.pure (Or.inr ⟨hse, .opt (pre := [.opt fd .getFd true, .opt fd .setCloexec true, .opt fd .getFl true,
      .opt fd .setNonblock true]) (o := .noDelay) rfl⟩)
  | true =>
  refine OsPost.sysBind fun b => ?_
  cases b with
  | false =>
    exact OsPost.pure (Or.inr ⟨hse, .opt (pre := [.opt fd .getFd true, .opt fd .setCloexec true, .opt fd .getFl true,
      .opt fd .setNonblock true, .opt fd .noDelay true]) (o := .keepAlive) rfl⟩)
  | true =>
  refine OsPost.sysBind fun c => ?_
  cases c with
  | ok => exact OsPost.pure (Or.inl ⟨rfl, _, rfl, .atOnce⟩)
  | error => exact OsPost.pure (Or.inr ⟨hse, .refused⟩)
  | inProgress =>
    refine OsPost.bind (osPoll_post O fd .pollOut dl O.fuel) fun r w hw => ?_
    by_cases hr : r = St.OK
    · subst hr
      rw [if_neg (by simp)]
      refine OsPost.sysBind fun e => ?_
      by_cases he : e = some 0
      · rw [if_pos he]; subst he
        exact OsPost.pure (Or.inl ⟨rfl, _, rfl, .later hw⟩)
      · rw [if_neg he]
        exact OsPost.pure (Or.inr ⟨hse, .soError hw he⟩)
    · rw [if_pos hr]
      refine OsPost.pure (Or.inr ⟨hr, ?_⟩)
      rw [List.append_nil]
      exact .waiting hw hr

theorem connectSocket_post (O : Os) (a : Addr) (dl : Nat) : OsPost (connectSocket O a dl) (fun r l => Attempt a dl l r) := by
  unfold connectSocket
  refine OsPost.sysBind fun f => ?_
  cases f with
  | none => exact OsPost.pure .noSocket
  | some fd =>
    refine OsPost.bind (connectFd_post O fd a dl) fun r l hl => ?_
    rcases hl with ⟨rfl, m, rfl, hm⟩ | ⟨hr, hf⟩
    · rw [if_pos rfl]
      refine OsPost.pure ?_
      rw [List.append_nil]
      exact .connected hm
    · rw [if_neg hr]
      refine OsPost.sysBind fun ok => OsPost.pure ?_
      exact .failed hf

theorem connectLoop_post (O : Os) (dl : Nat) : ∀ (as : List Addr) (sockfd : Int), as ≠ [] →
    OsPost (connectLoop O dl as sockfd) (fun r l => (r.2 = St.OK ∧ r.1 ≠ -1 ∧ Tries dl as l r.1) ∨ (r.2 = St.TIMEOUT ∧ Tries dl as l r.2))
  | [], _, h => absurd rfl h
  | a :: rest, _, _ => by
    unfold connectLoop
    refine OsPost.bind (connectSocket_post O a dl) fun r l hl => ?_
    have hrange := hl.range
    by_cases h0 : r ≥ 0
    · rw [if_pos h0]
      refine OsPost.pure ?_
      rw [List.append_nil]
      obtain ⟨fd, rfl⟩ := hrange.resolve_left (by omega)
      exact Or.inl ⟨rfl, by dsimp only; omega, .found hl⟩
    · rw [if_neg h0]
      by_cases ht : r = St.TIMEOUT
      · rw [if_pos ht]; subst ht
        refine OsPost.pure ?_
        rw [List.append_nil]
        exact Or.inr ⟨rfl, .timeout hl⟩
      · rw [if_neg ht]
        have hneg : r < -1 := by
          rcases hrange with h | ⟨fd, rfl⟩
          · exact h
          · omega
        cases rest with
        | nil =>
          unfold connectLoop
          refine OsPost.pure ?_
          rw [List.append_nil]
          exact Or.inl ⟨rfl, by dsimp only; omega, .last hl (by omega) ht⟩
        | cons b rest =>
          refine (connectLoop_post O dl (b :: rest) r (by simp)).mono fun p l' hp => ?_
          rcases hp with ⟨h1, h2, h3⟩ | ⟨h1, h3⟩
          · exact Or.inl ⟨h1, h2, .next hl (by omega) ht h3⟩
          · exact Or.inr ⟨h1, .next hl (by omega) ht h3⟩

theorem openSocketInner_post (O : Os) (host : Bytes) (port : Int) (dl : Nat) :
    OsPost (openSocketInner O host port dl) (fun r l => Opens dl host port l r) := by
  unfold openSocketInner
  refine OsPost.sysBind fun ans => ?_
  cases ans with
  | none => exact OsPost.pure .unresolved
  | some as =>
    cases as with
    | nil =>
      dsimp only
      unfold connectLoop
      refine OsPost.bind (P := fun p l => p = (-1, St.OK) ∧ l = []) (OsPost.pure ⟨rfl, rfl⟩) fun p l hp => ?_
      obtain ⟨rfl, rfl⟩ := hp
      dsimp only
      rw [if_pos (Or.inr rfl)]
      exact OsPost.pure .empty
    | cons a as =>
      refine OsPost.bind (connectLoop_post O dl (a :: as) (-1) (by simp)) fun p l hp => ?_
      obtain ⟨r, e⟩ := p
      dsimp only at hp ⊢
      rcases hp with ⟨rfl, h2, h3⟩ | ⟨rfl, h3⟩
      · rw [if_neg (by intro h; rcases h with h | h; exact h rfl; exact h2 h)]
        refine OsPost.pure ?_
        rw [List.append_nil]
        exact .tried h3
      · rw [if_pos (Or.inl (by decide))]
        refine OsPost.pure ?_
        rw [List.append_nil]
        exact .tried h3

theorem connectFd_total (O : Os) (fd : Nat) (a : Addr) (dl : Nat) : OsTotal (connectFd O fd a dl) := by
  unfold connectFd
  iterate 6
    refine OsTotal.sys.bind fun b => ?_
    by_cases hb : b = false
    · rw [if_pos hb]; exact OsTotal.pure
    rw [if_neg hb]
    clear hb b
  refine OsTotal.sys.bind fun c => ?_
  cases c <;> first | exact OsTotal.pure | skip
  refine (osPoll_total O fd .pollOut dl O.fuel).bind fun r => ?_
  split
  · exact OsTotal.pure
  · refine OsTotal.sys.bind fun e => ?_
    split <;> exact OsTotal.pure


theorem connectSocket_total (O : Os) (a : Addr) (dl : Nat) : OsTotal (connectSocket O a dl) := by
  unfold connectSocket
  refine OsTotal.sys.bind fun f => ?_
  cases f with
  | none => exact OsTotal.pure
  | some fd =>
    refine (connectFd_total O fd a dl).bind fun r => ?_
    split
    · exact OsTotal.pure
    · exact OsTotal.sys.bind fun _ => OsTotal.pure

theorem connectLoop_total (O : Os) (dl : Nat) : ∀ (as : List Addr) (sockfd : Int), OsTotal (connectLoop O dl as sockfd)
  | [], _ => by unfold connectLoop; exact OsTotal.pure
  | a :: rest, _ => by
    unfold connectLoop
    refine (connectSocket_total O a dl).bind fun r => ?_
    split
    · exact OsTotal.pure
    · split
      · exact OsTotal.pure
      · exact connectLoop_total O dl rest r

theorem openSocketInner_total (O : Os) (host : Bytes) (port : Int) (dl : Nat) : OsTotal (openSocketInner O host port dl) := by
  unfold openSocketInner
  refine OsTotal.sys.bind fun ans => ?_
  cases ans with
  | none => exact OsTotal.pure
  | some as =>
    refine (connectLoop_total O dl as (-1)).bind fun p => ?_
    dsimp only
    split <;> exact OsTotal.pure

theorem connectFd_ret (O : Os) (fd : Nat) (a : Addr) (dl : Nat) (hO : ∀ i, O.poll i ≠ .intr) (hf : O.fuel ≠ 0) :
    OsRet (connectFd O fd a dl) := by
  obtain ⟨n, hn⟩ := Nat.exists_eq_succ_of_ne_zero hf
  unfold connectFd
  iterate 6
    refine OsRet.sys.bind fun b => ?_
    by_cases hb : b = false
    · rw [if_pos hb]; exact OsRet.pure
    rw [if_neg hb]
    clear hb b
  refine OsRet.sys.bind fun c => ?_
  cases c <;> first | exact OsRet.pure | skip
  rw [hn]
  refine (osPoll_ret O fd .pollOut dl n hO).bind fun r => ?_
  split
  · exact OsRet.pure
  · refine OsRet.sys.bind fun e => ?_
    split <;> exact OsRet.pure

theorem connectSocket_ret (O : Os) (a : Addr) (dl : Nat) (hO : ∀ i, O.poll i ≠ .intr) (hf : O.fuel ≠ 0) : OsRet (connectSocket O a dl) := by
  unfold connectSocket
  refine OsRet.sys.bind fun f => ?_
  cases f with
  | none => exact OsRet.pure
  | some fd =>
    refine (connectFd_ret O fd a dl hO hf).bind fun r => ?_
    split
    · exact OsRet.pure
    · exact OsRet.sys.bind fun _ => OsRet.pure

theorem connectLoop_ret (O : Os) (dl : Nat) (hO : ∀ i, O.poll i ≠ .intr) (hf : O.fuel ≠ 0) :
    ∀ (as : List Addr) (sockfd : Int), OsRet (connectLoop O dl as sockfd)
  | [], _ => by unfold connectLoop; exact OsRet.pure
  | a :: rest, _ => by
    unfold connectLoop
    refine (connectSocket_ret O a dl hO hf).bind fun r => ?_
    split
    · exact OsRet.pure
    · split
      · exact OsRet.pure
      · exact connectLoop_ret O dl hO hf rest r

theorem openSocketInner_ret (O : Os) (host : Bytes) (port : Int) (dl : Nat) (hO : ∀ i, O.poll i ≠ .intr) (hf : O.fuel ≠ 0) :
    OsRet (openSocketInner O host port dl) := by
  unfold openSocketInner
  refine OsRet.sys.bind fun ans => ?_
  cases ans with
  | none => exact OsRet.pure
  | some as =>
    refine (connectLoop_ret O dl hO hf as (-1)).bind fun p => ?_
    dsimp only
    split <;> exact OsRet.pure

theorem osTimeFromNow_ret (O : Os) (tv : Option TimeVal) : OsRet (osTimeFromNow O tv) := by
  unfold osTimeFromNow
  cases tv with
  | none => exact OsRet.pure
  | some tv =>
    dsimp only
    split
    · exact OsRet.pure
    · exact OsRet.sys.bind fun _ => OsRet.pure

theorem osTimeFromNow_post (O : Os) (tv : Option TimeVal) : OsPost (osTimeFromNow O tv) (fun d l => Deadline tv l d) := by
  unfold osTimeFromNow
  cases tv with
  | none => exact OsPost.pure .none
  | some tv =>
    dsimp only
    by_cases hneg : tv.sec < 0 ∨ tv.usec < 0
    · rw [if_pos hneg]; exact OsPost.pure (.negative tv hneg)
    · rw [if_neg hneg]
      obtain ⟨s, hs⟩ := Int.eq_ofNat_of_zero_le (show 0 ≤ tv.sec by omega)
      obtain ⟨u, hu⟩ := Int.eq_ofNat_of_zero_le (show 0 ≤ tv.usec by omega)
      obtain ⟨sec, usec⟩ := tv
      dsimp only at hs hu hneg
      subst hs hu
      refine OsPost.sysBind' fun i => OsPost.pure ?_
      have hlt : O.now i < 2 ^ 64 := Nat.mod_lt _ (by decide)
      generalize O.now i = now at *
      unfold timeFromNow
      dsimp only
      rw [if_neg hneg, Int.toNat_natCast, Int.toNat_natCast]
      by_cases hn : now = 0
      · rw [if_pos hn]; subst hn; exact .noClock s u
      · rw [if_neg hn]
        by_cases hw : 2 ^ 64 ≤ s * 1000000000 + u * 1000
        · refine .wraps s u now _ hn hw fun e he => ?_
          split at he
          · cases he; decide
          · cases he
        · rw [Nat.mod_eq_of_lt (show s * 1000000000 + u * 1000 < 2 ^ 64 by omega)]
          by_cases hfit : now + (s * 1000000000 + u * 1000) < 2 ^ 64
          · rw [Nat.mod_eq_of_lt hfit, if_neg (by omega)]
            exact .at s u now hn hfit
          · generalize hd : s * 1000000000 + u * 1000 = d at *
            rw [if_pos (by omega)]
            have h := Deadline.tooFar s u now hn
            rw [hd] at h
            exact h (by omega) (by omega)

end Rmq
