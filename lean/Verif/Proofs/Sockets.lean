import Verif.Spec.Sockets
import Verif.Props.Os
/-!
# Socket objects: the ledger of descriptors and sessions
-/
namespace Rmq
open OsSpec TlsSpec

/-! ## Ledgers -/

theorem balance_append (r : Resource) (l m : List Sys) : balance r (l ++ m) = balance r l + balance r m := by
  induction l with
  | nil => simp [balance]
  | cons e l ih => simp only [List.cons_append, balance, ih]; omega

theorem Orderly.append {a : Resource → Int} : ∀ {l m : List Sys}, Orderly a l → Orderly (fun r => a r + balance r l) m → Orderly a (l ++ m) := by
  intro l
  induction l generalizing a with
  | nil => intro m _ h; simpa [balance] using h
  | cons e l ih =>
    intro m h1 h2
    refine ⟨h1.1, ih h1.2 ?_⟩
    have : (fun r => a r + balance r (e :: l)) = (fun r => a r + e.change r + balance r l) := by funext r; simp only [balance]; omega
    rw [this] at h2
    exact h2

theorem Orderly.mono {a b : Resource → Int} : ∀ {l : List Sys}, Orderly a l → (∀ r, a r ≤ b r) → Orderly b l := by
  intro l
  induction l generalizing a b with
  | nil => intro _ _; trivial
  | cons e l ih =>
    intro h hab
    refine ⟨fun r hr => ?_, ih h.2 fun r => ?_⟩
    · have := h.1 r hr; have := hab r; omega
    · have := hab r; omega

/-- The calls `l` are proper and lead from the resources `a` to the resources `b`. -/
def Moves (a : Resource → Int) (l : List Sys) (b : Resource → Int) : Prop := Orderly a l ∧ ∀ r, a r + balance r l = b r

theorem Moves.nil {a b : Resource → Int} (h : ∀ r, a r = b r) : Moves a [] b := ⟨trivial, fun r => by rw [balance, h r]; omega⟩

theorem Moves.trans {a b c : Resource → Int} {l m : List Sys} (h1 : Moves a l b) (h2 : Moves b m c) : Moves a (l ++ m) c := by
  refine ⟨h1.1.append ?_, fun r => ?_⟩
  · rw [show (fun r => a r + balance r l) = b from funext h1.2]; exact h2.1
  · rw [balance_append]; have := h1.2 r; have := h2.2 r; omega

theorem Moves.frame {a b k : Resource → Int} {l : List Sys} (h : Moves a l b) (hk : ∀ r, 0 ≤ k r) : Moves (fun r => a r + k r) l (fun r => b r + k r) := by
  refine ⟨h.1.mono fun r => ?_, fun r => ?_⟩
  · have := hk r; omega
  · have := h.2 r; dsimp only; omega

theorem Moves.cast {a a' b b' : Resource → Int} {l : List Sys} (h : Moves a l b) (ha : ∀ r, a' r = a r) (hb : ∀ r, b' r = b r) : Moves a' l b' := by
  rw [funext ha, funext hb]; exact h

/-- One of a resource. -/
def one (r : Resource) : Resource → Int := fun r' => if r' = r then 1 else 0
/-- Nothing. -/
def zero : Resource → Int := fun _ => 0
/-- What a descriptor returned by opening is worth; negative numbers are statuses. -/
def got (fd : Int) : Resource → Int := if fd < 0 then zero else one (.fd fd)

theorem one_nonneg (r r' : Resource) : 0 ≤ one r r' := by unfold one; split <;> omega
theorem one_pos (r : Resource) : 0 < one r r := by unfold one; rw [if_pos rfl]; omega
theorem got_nat (n : Nat) : got n = one (.fd n) := by unfold got; rw [if_neg (by omega)]
theorem got_neg {r : Int} (h : r < 0) : got r = zero := if_pos h
theorem got_nonneg (fd : Int) (r : Resource) : 0 ≤ got fd r := by unfold got; split; exact Int.le_refl _; exact one_nonneg _ _

/-- Calls that neither create nor give back, and need only resources in `R`. -/
def Still (R : Resource → Prop) (l : List Sys) : Prop := ∀ e ∈ l, (∀ r ∈ e.needs, R r) ∧ e.creates = none ∧ e.givesBack = none

theorem Still.moves {R : Resource → Prop} {a : Resource → Int} : ∀ {l : List Sys}, Still R l → (∀ r, R r → 0 < a r) → Moves a l a := by
  intro l
  induction l with
  | nil => intro _ _; exact Moves.nil fun _ => rfl
  | cons e l ih =>
    intro h ha
    have he := h e (by simp)
    have hc : ∀ r, e.change r = 0 := fun r => by unfold Sys.change; rw [he.2.1, he.2.2]; simp
    have hl := ih (fun x hx => h x (by simp [hx])) ha
    refine ⟨⟨fun r hr => ha r (he.1 r hr), ?_⟩, fun r => ?_⟩
    · rw [show (fun r => a r + e.change r) = a from funext fun r => by rw [hc r]; omega]; exact hl.1
    · rw [balance, hc r]; have := hl.2 r; omega

theorem Still.append {R : Resource → Prop} {l m : List Sys} (h1 : Still R l) (h2 : Still R m) : Still R (l ++ m) := fun e he =>
  (List.mem_append.mp he).elim (h1 e) (h2 e)
theorem Still.cons {R : Resource → Prop} {e : Sys} {l : List Sys} (h1 : (∀ r ∈ e.needs, R r) ∧ e.creates = none ∧ e.givesBack = none) (h2 : Still R l) :
    Still R (e :: l) := fun x hx => by
  rcases List.mem_cons.mp hx with rfl | hx
  · exact h1
  · exact h2 x hx
theorem Still.nil {R : Resource → Prop} : Still R [] := fun _ h => nomatch h
theorem Still.mono {R S : Resource → Prop} {l : List Sys} (h : Still R l) (hs : ∀ r, R r → S r) : Still S l := fun e he =>
  ⟨fun r hr => hs r ((h e he).1 r hr), (h e he).2⟩

theorem Moves.create {a : Resource → Int} {e : Sys} {r : Resource} (h1 : e.creates = some r) (h2 : e.givesBack = none) (h3 : e.needs = []) :
    Moves a [e] (fun x => a x + one r x) := by
  have hc : ∀ x, e.change x = one r x := fun x => by
    unfold Sys.change one; rw [h1, h2]
    by_cases hx : x = r
    · subst hx; simp
    · rw [if_neg (fun h => hx (Option.some.inj h).symm), if_neg hx]; simp
  refine ⟨⟨fun x hx => (by rw [h3] at hx; cases hx), trivial⟩, fun x => ?_⟩
  rw [balance, balance, hc x]; dsimp only; omega

theorem Moves.giveBack {a : Resource → Int} {e : Sys} {r : Resource} (h1 : e.creates = none) (h2 : e.givesBack = some r) (h3 : e.needs = [r])
    (ha : 0 ≤ a r) : Moves (fun x => a x + one r x) [e] a := by
  have hc : ∀ x, e.change x = - one r x := fun x => by
    unfold Sys.change one; rw [h1, h2]
    by_cases hx : x = r
    · subst hx; simp
    · rw [if_neg hx]; simp [Ne.symm hx]
  refine ⟨⟨fun x hx => ?_, trivial⟩, fun x => ?_⟩
  · rw [h3] at hx
    have hx : x = r := by simpa using hx
    subst hx
    have := one_pos x; dsimp only; omega
  · rw [balance, balance, hc x]; dsimp only; omega

/-! ## Connecting -/

theorem OsSpec.TimeLeft.quiet {dl : Nat} {l : List Sys} {ms : Int} (h : TimeLeft dl l ms) {R : Resource → Prop} : Still R l := by
  cases h with
  | forever _ => exact Still.nil
  | zero _ => exact Still.nil
  | _ => exact Still.cons ⟨(fun _ h => nomatch h), rfl, rfl⟩ Still.nil

theorem poll_quiet {fd : Int} {ev : PollEv} {ms : Int} {a : PollAns} {l : List Sys} (h : Still (· = .fd fd) l) : Still (· = .fd fd) (.poll fd ev ms a :: l) :=
  Still.cons ⟨(fun r hr => by simpa [Sys.needs] using hr), rfl, rfl⟩ h

theorem OsSpec.Waited.quiet {fd : Int} {ev : PollEv} {dl : Nat} {l : List Sys} {r : Int} (h : Waited fd ev dl l r) : Still (· = .fd fd) l := by
  induction h with
  | ready h => exact h.quiet.append (poll_quiet Still.nil)
  | timeout h => exact h.quiet.append (poll_quiet Still.nil)
  | error h => exact h.quiet.append (poll_quiet Still.nil)
  | noClock _ _ => exact Still.cons ⟨(fun _ h => nomatch h), rfl, rfl⟩ Still.nil
  | far _ _ _ _ _ => exact Still.cons ⟨(fun _ h => nomatch h), rfl, rfl⟩ Still.nil
  | intr h _ ih => exact h.quiet.append (poll_quiet ih)

theorem opt_quiet {fd : Nat} {o : OptCall} {b : Bool} {l : List Sys} (h : Still (· = .fd fd) l) : Still (· = .fd fd) (.opt fd o b :: l) :=
  Still.cons ⟨(fun r hr => by simpa [Sys.needs] using hr), rfl, rfl⟩ h
theorem setup_quiet (fd : Nat) : Still (· = .fd fd) (setup fd) :=
  opt_quiet <| opt_quiet <| opt_quiet <| opt_quiet <| opt_quiet <| opt_quiet Still.nil
theorem connect_quiet {fd : Nat} {a : Addr} {b : ConnAns} {l : List Sys} (h : Still (· = .fd fd) l) : Still (· = .fd fd) (.connect fd a b :: l) :=
  Still.cons ⟨(fun r hr => by simpa [Sys.needs] using hr), rfl, rfl⟩ h
theorem soError_quiet {fd : Nat} {b : Option Int} {l : List Sys} (h : Still (· = .fd fd) l) : Still (· = .fd fd) (.soError fd b :: l) :=
  Still.cons ⟨(fun r hr => by simpa [Sys.needs] using hr), rfl, rfl⟩ h

theorem OsSpec.Connected.quiet {fd : Nat} {a : Addr} {dl : Nat} {l : List Sys} (h : Connected fd a dl l) : Still (· = .fd fd) l := by
  cases h with
  | atOnce => exact connect_quiet Still.nil
  | later h => exact connect_quiet (h.quiet.append (soError_quiet Still.nil))

theorem OsSpec.Failing.quiet {fd : Nat} {a : Addr} {dl : Nat} {l : List Sys} {r : Int} (h : Failing fd a dl l r) : Still (· = .fd fd) l := by
  cases h with
  | opt h =>
    refine Still.append (fun e he => setup_quiet fd e ?_) (opt_quiet Still.nil)
    rw [h]; exact List.mem_append_left _ he
  | refused => exact (setup_quiet fd).append (connect_quiet Still.nil)
  | waiting h _ => exact (setup_quiet fd).append (connect_quiet h.quiet)
  | soError h _ => exact (setup_quiet fd).append (connect_quiet (h.quiet.append (soError_quiet Still.nil)))

theorem moves_socket (a : Addr) (fd : Nat) : Moves zero [.socket a (some fd)] (one (.fd fd)) :=
  (Moves.create (a := zero) rfl rfl rfl).cast (fun _ => rfl) fun r => by unfold zero; omega

theorem moves_close (fd : Int) (ok : Bool) : Moves (one (.fd fd)) [.close fd ok] zero :=
  (Moves.giveBack (a := zero) (r := .fd fd) rfl rfl rfl (Int.le_refl _)).cast (fun r => by unfold zero; omega) fun _ => rfl

theorem one_of_eq {r : Resource} : ∀ x, x = r → 0 < one r x := fun x h => h ▸ one_pos r

theorem OsSpec.Attempt.moves {a : Addr} {dl : Nat} {l : List Sys} {r : Int} (h : Attempt a dl l r) : Moves zero l (got r) := by
  cases h with
  | noSocket =>
    rw [got_neg (by decide)]
    exact (Still.cons (R := fun _ => False) ⟨(fun _ h => by simp [Sys.needs] at h), rfl, rfl⟩ Still.nil).moves fun _ h => h.elim
  | @connected fd m h =>
    rw [got_nat]
    exact (moves_socket a fd).trans (((setup_quiet fd).append h.quiet).moves one_of_eq)
  | @failed fd m r ok h =>
    rw [got_neg (by have := h.neg; omega)]
    exact (moves_socket a fd).trans ((h.quiet.moves one_of_eq).trans (moves_close fd ok))

theorem OsSpec.Tries.moves {dl : Nat} {as : List Addr} {l : List Sys} {r : Int} (h : Tries dl as l r) : Moves zero l (got r) := by
  induction h with
  | found h => exact h.moves
  | timeout h => exact h.moves
  | next h hn _ _ ih => have := h.moves; rw [got_neg hn] at this; exact this.trans ih
  | last h _ _ => exact h.moves

theorem OsSpec.Opens.moves {dl : Nat} {host : Bytes} {port : Int} {l : List Sys} {r : Int} (h : Opens dl host port l r)
    (hne : Sys.resolve host port (some []) ∉ l) : Moves zero l (got r) := by
  cases h with
  | unresolved =>
    rw [got_neg (by decide)]
    exact (Still.cons (R := fun _ => False) ⟨(fun _ h => by simp [Sys.needs] at h), rfl, rfl⟩ Still.nil).moves fun _ h => h.elim
  | empty => exact absurd (by simp) hne
  | @tried as l r h =>
    have h0 : Moves zero [.resolve host port (some as)] zero :=
      (Still.cons (R := fun _ => False) ⟨(fun _ h => by simp [Sys.needs] at h), rfl, rfl⟩ Still.nil).moves fun _ h => h.elim
    exact h0.trans h.moves

theorem OsSpec.Deadline.quiet {tv : Option TimeVal} {l : List Sys} {d : Except Int Nat} (h : Deadline tv l d) {R : Resource → Prop} : Still R l := by
  cases h with
  | none => exact Still.nil
  | negative _ _ => exact Still.nil
  | _ => exact Still.cons ⟨(fun _ h => nomatch h), rfl, rfl⟩ Still.nil

/-! ## TLS -/

/-- What a session over a descriptor needs. -/
def Both (h : Nat) (fd : Int) (r : Resource) : Prop := r = .fd fd ∨ r = .session h

theorem TlsSpec.Handshake.quiet {h : Nat} {fd : Int} {dl : Nat} {l : List Sys} {r : Int} (hh : Handshake h fd dl l r) : Still (Both h fd) l := by
  have k : ∀ a, (∀ r ∈ (Sys.sslConnect h a).needs, Both h fd r) ∧ (Sys.sslConnect h a).creates = none ∧ (Sys.sslConnect h a).givesBack = none := fun a =>
    ⟨(fun r hr => Or.inr (by simpa [Sys.needs] using hr)), rfl, rfl⟩
  induction hh with
  | done => exact Still.cons (k _) Still.nil
  | broken => exact Still.cons (k _) Still.nil
  | read h _ => exact Still.cons (k _) (h.quiet.mono fun r => Or.inl)
  | write h _ => exact Still.cons (k _) (h.quiet.mono fun r => Or.inl)
  | readOn h _ ih => exact Still.cons (k _) ((h.quiet.mono fun r => Or.inl).append ih)
  | writeOn h _ ih => exact Still.cons (k _) ((h.quiet.mono fun r => Or.inl).append ih)

theorem TlsSpec.Verified.quiet {peer name : Bool} {h : Nat} {host : Bytes} {m : List Sys} {r : Int} (hv : Verified peer name h host m r) :
    Still (· = .session h) m := by
  intro e he
  cases hv with
  | noCertPeer _ => simp at he; rcases he with rfl | rfl <;> simp [Sys.needs, Sys.creates, Sys.givesBack]
  | badChain _ _ => simp at he; rcases he with rfl | rfl | rfl | rfl <;> simp [Sys.needs, Sys.creates, Sys.givesBack]
  | noCertName _ _ => simp at he; rcases he with rfl | rfl <;> simp [Sys.needs, Sys.creates, Sys.givesBack]
  | badName _ _ =>
    cases peer <;> simp at he
    · rcases he with rfl | rfl | rfl | rfl <;> simp [Sys.needs, Sys.creates, Sys.givesBack]
    · rcases he with rfl | rfl | rfl | rfl | rfl <;> simp [Sys.needs, Sys.creates, Sys.givesBack]
  | good =>
    cases peer <;> cases name <;> simp at he
    · rcases he with rfl | rfl <;> simp [Sys.needs, Sys.creates, Sys.givesBack]
    · rcases he with rfl | rfl | rfl <;> simp [Sys.needs, Sys.creates, Sys.givesBack]
    · rcases he with rfl | rfl | rfl <;> simp [Sys.needs, Sys.creates, Sys.givesBack]
    · rcases he with rfl | rfl | rfl | rfl <;> simp [Sys.needs, Sys.creates, Sys.givesBack]
  | unchecked _ _ => simp at he; rcases he with rfl; simp [Sys.needs, Sys.creates, Sys.givesBack]

theorem TlsSpec.Session.quiet {peer name : Bool} {h : Nat} {fd : Int} {host : Bytes} {dl : Nat} {m : List Sys} {r : Int}
    (hs : Session peer name h fd host dl m r) : Still (Both h fd) m := by
  have kb : ∀ b, (∀ r ∈ (Sys.bioNew h fd b).needs, Both h fd r) ∧ (Sys.bioNew h fd b).creates = none ∧ (Sys.bioNew h fd b).givesBack = none := fun b =>
    ⟨(fun r hr => by simp [Sys.needs] at hr; exact hr.symm), rfl, rfl⟩
  have ks : ∀ b, (∀ r ∈ (Sys.sni h host b).needs, Both h fd r) ∧ (Sys.sni h host b).creates = none ∧ (Sys.sni h host b).givesBack = none := fun b =>
    ⟨(fun r hr => Or.inr (by simpa [Sys.needs] using hr)), rfl, rfl⟩
  cases hs with
  | noBio => exact Still.cons (kb _) Still.nil
  | noSni => exact Still.cons (kb _) (Still.cons (ks _) Still.nil)
  | noHandshake h _ => exact Still.cons (kb _) (Still.cons (ks _) h.quiet)
  | checked h hv => exact Still.cons (kb _) (Still.cons (ks _) (h.quiet.append (hv.quiet.mono fun r => Or.inr)))

/-- A session, if there is one. -/
def sess (o : Option Nat) (r : Resource) : Int := match o with | some h => one (.session h) r | none => 0

/-- The resources of a socket object. -/
def SockObj.own : SockObj → Resource → Int
  | .tcp fd, r => if fd = -1 then 0 else one (.fd fd) r
  | .tls s, r => if s.fd = -1 then 0 else one (.fd s.fd) r + sess s.ssl r

theorem sess_nonneg (o : Option Nat) (r : Resource) : 0 ≤ sess o r := by cases o; exact Int.le_refl _; exact one_nonneg _ _

theorem SockObj.own_nonneg (o : SockObj) (r : Resource) : 0 ≤ o.own r := by
  cases o with
  | tcp fd => unfold SockObj.own; have := one_nonneg (.fd fd) r; dsimp only; split <;> omega
  | tls s => unfold SockObj.own; have := one_nonneg (.fd s.fd) r; have := sess_nonneg s.ssl r; dsimp only; split <;> omega

theorem moves_sslNew (a : Resource → Int) (h : Nat) : Moves a [.sslNew (some h)] (fun r => a r + one (.session h) r) := Moves.create rfl rfl rfl
theorem moves_sslFree (a : Resource → Int) (h : Nat) (ha : 0 ≤ a (.session h)) : Moves (fun r => a r + one (.session h) r) [.sslFree h] a :=
  Moves.giveBack rfl rfl rfl ha

/-- What opening a TLS socket leaves: its descriptor and session; or the session alone, lost, if the time limit was refused. -/
theorem TlsSpec.TlsOpens.moves {peer name : Bool} {host : Bytes} {port : Int} {tv : Option TimeVal} {l : List Sys} {r fd : Int} {ssl : Option Nat}
    (h : TlsOpens peer name host port tv l r fd ssl) (hne : Sys.resolve host port (some []) ∉ l) (s : TlsSock) :
    ∃ leak : Resource → Int, (∀ x, 0 ≤ leak x) ∧ (∀ f, leak (.fd f) = 0) ∧ (tv = none → leak = zero) ∧
      Moves zero l (fun x => (SockObj.tls { s with fd := fd, ssl := ssl }).own x + leak x) ∧ (fd ≠ -1 → ssl ≠ none) := by
  have hz : ∀ (l : List Sys), Still (fun _ => False) l → ∀ a : Resource → Int, Moves a l a := fun l h a => h.moves fun _ h => h.elim
  have hs : ∀ h, Moves zero [.sslNew (some h)] (one (.session h)) := fun h => (moves_sslNew zero h).cast (fun _ => rfl) fun r => by unfold zero; omega
  cases h with
  | noSession =>
    refine ⟨zero, fun _ => Int.le_refl _, fun _ => rfl, fun _ => rfl, ?_, fun h => absurd rfl h⟩
    exact (hz _ (Still.cons ⟨(fun _ h => by simp [Sys.needs] at h), rfl, rfl⟩ Still.nil) zero).cast (fun _ => rfl) fun _ => rfl
  | @noDeadline h l e hd =>
    refine ⟨one (.session h), one_nonneg _, fun _ => if_neg (by simp), fun ht => ?_, ?_, fun h => absurd rfl h⟩
    · subst ht; cases hd
    · refine ((hs h).trans (hz l hd.quiet _)).cast (fun _ => rfl) fun x => ?_
      show (if (-1 : Int) = -1 then 0 else one (.fd (-1)) x + sess (some h) x) + one (.session h) x = _
      rw [if_pos rfl]; omega
  | @noConnection h l dl m r hd ho hr =>
    refine ⟨zero, fun _ => Int.le_refl _, fun _ => rfl, fun _ => rfl, ?_, fun h => absurd rfl h⟩
    have hm := ho.moves fun hc => hne (by simp [hc])
    rw [got_neg hr] at hm
    have hm' := (hm.frame (one_nonneg (.session h))).cast (a' := one (.session h)) (b' := one (.session h)) (fun x => by unfold zero; omega) (fun x => by unfold zero; omega)
    have hf := (moves_sslFree zero h (Int.le_refl _)).cast (a' := one (.session h)) (b' := zero) (fun x => by unfold zero; omega) (fun x => rfl)
    exact ((hs h).trans ((hz l hd.quiet _).trans (hm'.trans hf))).cast (fun _ => rfl) fun x => rfl
  | @failed h l dl m k r ok fd hd ho hk hr =>
    refine ⟨zero, fun _ => Int.le_refl _, fun _ => rfl, fun _ => rfl, ?_, fun h => absurd rfl h⟩
    have hm := ho.moves fun hc => hne (by simp [hc])
    rw [got_nat] at hm
    have hm' := (hm.frame (one_nonneg (.session h))).cast (a' := one (.session h)) (b' := fun x => one (.fd fd) x + one (.session h) x) (fun x => by unfold zero; omega) (fun x => rfl)
    have hq : Moves (fun x => one (.fd fd) x + one (.session h) x) k (fun x => one (.fd fd) x + one (.session h) x) := hk.quiet.moves fun x hx => by
      have h1 := one_nonneg (.fd fd) x; have h2 := one_nonneg (.session h) x
      rcases hx with rfl | rfl
      · have := one_pos (.fd fd); omega
      · have := one_pos (.session h); omega
    have hc := ((moves_close fd ok).frame (one_nonneg (.session h))).cast (a' := fun x => one (.fd fd) x + one (.session h) x) (b' := one (.session h)) (fun x => rfl) (fun x => by unfold zero; omega)
    have hf := (moves_sslFree zero h (Int.le_refl _)).cast (a' := one (.session h)) (b' := zero) (fun x => by unfold zero; omega) (fun x => rfl)
    exact ((hs h).trans ((hz l hd.quiet _).trans (hm'.trans (hq.trans (hc.trans hf))))).cast (fun _ => rfl) fun x => rfl
  | @opened h l dl m k fd hd ho hk =>
    refine ⟨zero, fun _ => Int.le_refl _, fun _ => rfl, fun _ => rfl, ?_, fun _ h => nomatch h⟩
    have hm := ho.moves fun hc => hne (by simp [hc])
    rw [got_nat] at hm
    have hm' := (hm.frame (one_nonneg (.session h))).cast (a' := one (.session h)) (b' := fun x => one (.fd fd) x + one (.session h) x) (fun x => by unfold zero; omega) (fun x => rfl)
    have hq : Moves (fun x => one (.fd fd) x + one (.session h) x) k (fun x => one (.fd fd) x + one (.session h) x) := hk.quiet.moves fun x hx => by
      have h1 := one_nonneg (.fd fd) x; have h2 := one_nonneg (.session h) x
      rcases hx with rfl | rfl
      · have := one_pos (.fd fd); omega
      · have := one_pos (.session h); omega
    refine ((hs h).trans ((hz l hd.quiet _).trans (hm'.trans hq))).cast (fun _ => rfl) fun x => ?_
    show (if (fd : Int) = -1 then 0 else one (.fd fd) x + one (.session h) x) + _ = _
    rw [if_neg (by omega)]; unfold zero; omega


/-! ## One operation on a socket -/

theorem NoMishap.left {l m : List Sys} (h : NoMishap (l ++ m)) : NoMishap l :=
  ⟨fun f hf => h.1 f (List.mem_append_left _ hf), fun a p hf => h.2 a p (List.mem_append_left _ hf)⟩
theorem NoMishap.right {l m : List Sys} (h : NoMishap (l ++ m)) : NoMishap m :=
  ⟨fun f hf => h.1 f (List.mem_append_right _ hf), fun a p hf => h.2 a p (List.mem_append_right _ hf)⟩

/-- Resources lost: never a descriptor; nothing at all when `none` is lost. -/
def Loses (none : Prop) (leak : Resource → Int) : Prop := (∀ x, 0 ≤ leak x) ∧ (∀ f, leak (.fd f) = 0) ∧ (none → leak = zero)

theorem Loses.zero {p : Prop} : Loses p zero := ⟨fun _ => Int.le_refl _, fun _ => rfl, fun _ => rfl⟩
theorem Loses.add {p q : Prop} {a b : Resource → Int} (h1 : Loses p a) (h2 : Loses q b) : Loses (p ∧ q) (fun x => a x + b x) := by
  refine ⟨fun x => ?_, fun f => ?_, fun h => funext fun x => ?_⟩
  · have := h1.1 x; have := h2.1 x; dsimp only; omega
  · dsimp only; rw [h1.2.1 f, h2.2.1 f]; rfl
  · rw [h1.2.2 h.1, h2.2.2 h.2]; rfl
theorem Loses.mono {p q : Prop} {a : Resource → Int} (h : Loses p a) (hq : q → p) : Loses q a := ⟨h.1, h.2.1, fun x => h.2.2 (hq x)⟩

/-- What the operation hands over. -/
def SockOp.hands : SockOp → Resource → Int
  | .setFd fd, r => if fd ≠ -1 ∧ r = .fd fd then 1 else 0
  | _, _ => 0

theorem SockOp.hands_nonneg (op : SockOp) (r : Resource) : 0 ≤ op.hands r := by
  cases op <;> first | exact Int.le_refl _ | (unfold SockOp.hands; dsimp only; split <;> omega)

/-- A socket with a session when it has a descriptor. -/
def SockObj.sound : SockObj → Prop
  | .tcp _ => True
  | .tls s => s.Sound

/-- Closed, if it is a TCP socket. -/
def SockObj.shut : SockObj → Prop
  | .tcp fd => fd = -1
  | .tls _ => True

theorem own_tcp_open {fd : Int} (h : fd ≠ -1) : (SockObj.tcp fd).own = one (.fd fd) := funext fun r => by unfold SockObj.own; dsimp only; rw [if_neg h]
theorem own_tcp_closed : (SockObj.tcp (-1)).own = zero := funext fun r => by unfold SockObj.own; dsimp only; rw [if_pos rfl]; rfl
theorem own_tls_closed {s : TlsSock} (h : s.fd = -1) : (SockObj.tls s).own = zero := funext fun r => by unfold SockObj.own; dsimp only; rw [if_pos h]; rfl
theorem own_tls_open {s : TlsSock} {k : Nat} (h : s.fd ≠ -1) (hk : s.ssl = some k) : (SockObj.tls s).own = fun r => one (.fd s.fd) r + one (.session k) r :=
  funext fun r => by unfold SockObj.own; dsimp only; rw [if_neg h, hk]; rfl

theorem OsSpec.Sends.still {fd : Int} {buf : Bytes} {more : Bool} {l : List Sys} {r : Int} (h : Sends fd buf more l r) : Still (· = .fd fd) l := by
  have k : ∀ a, (∀ r ∈ (Sys.send fd buf more a).needs, r = .fd fd) ∧ (Sys.send fd buf more a).creates = none ∧ (Sys.send fd buf more a).givesBack = none :=
    fun a => ⟨(fun r hr => by simpa [Sys.needs] using hr), rfl, rfl⟩
  induction h with
  | intr _ ih => exact Still.cons (k _) ih
  | _ => exact Still.cons (k _) Still.nil

theorem OsSpec.Receives.still {fd : Int} {len : Nat} {l : List Sys} {r : Int} {b : Bytes} (h : Receives fd len l r b) : Still (· = .fd fd) l := by
  have k : ∀ a, (∀ r ∈ (Sys.recv fd len a).needs, r = .fd fd) ∧ (Sys.recv fd len a).creates = none ∧ (Sys.recv fd len a).givesBack = none :=
    fun a => ⟨(fun r hr => by simpa [Sys.needs] using hr), rfl, rfl⟩
  induction h with
  | intr _ ih => exact Still.cons (k _) ih
  | _ => exact Still.cons (k _) Still.nil

theorem tcp_moves {fd : Int} {op : TcpOp} {l : List Sys} {r : Int} {b : Bytes} {fd' : Int} (h : OsSpec.Step fd op l r b fd') (hc : NoMishap l)
    (hop : ∀ f, op ≠ .setFd f) : Moves (SockObj.tcp fd).own l (SockObj.tcp fd').own := by
  have hd : ∀ {tv l d}, Deadline tv l d → Moves zero l zero := fun h => (h.quiet (R := fun _ => False)).moves fun _ h => h.elim
  cases h with
  | sendClosed _ => exact Moves.nil fun _ => rfl
  | send hf h => rw [own_tcp_open hf]; exact h.still.moves one_of_eq
  | recvClosed _ => exact Moves.nil fun _ => rfl
  | recv hf h => rw [own_tcp_open hf]; exact h.still.moves one_of_eq
  | openInUse _ => exact Moves.nil fun _ => rfl
  | openNoDeadline hf h => subst hf; rw [own_tcp_closed]; exact hd h
  | openFails hf h ho hr =>
    subst hf; rw [own_tcp_closed]
    have := ho.moves (hc.right.2 _ _)
    rw [got_neg hr] at this
    exact (hd h).trans this
  | opens hf h ho =>
    subst hf; rw [own_tcp_closed, own_tcp_open (by omega), ← got_nat]
    exact (hd h).trans (ho.moves (hc.right.2 _ _))
  | closeClosed _ => exact Moves.nil fun _ => rfl
  | close hf => rw [own_tcp_open hf, own_tcp_closed]; exact moves_close fd true
  | closeFails hf => exact absurd (by simp) (hc.1 fd)
  | setFd => exact absurd rfl (hop _)
  | getFd => exact Moves.nil fun _ => rfl

theorem tls_moves {s : TlsSock} {op : TlsOp} {l : List Sys} {r : Int} {b : Bytes} {s' : TlsSock} (h : TlsSpec.Step s op l r b s') (hc : NoMishap l)
    (hs : s.Sound) : s'.Sound ∧ ∃ leak, Loses (∀ a p tv, op = .open a p tv → tv = none) leak ∧
      Moves (SockObj.tls s).own l (fun x => (SockObj.tls s').own x + leak x) := by
  have nil : ∀ t : TlsSock, t.fd = s.fd → t.ssl = s.ssl → t.Sound ∧ ∃ leak, Loses (∀ a p tv, op = .open a p tv → tv = none) leak ∧
      Moves (SockObj.tls s).own [] (fun x => (SockObj.tls t).own x + leak x) := fun t h1 h2 =>
    ⟨(fun hf => by rw [h2]; exact hs (h1 ▸ hf)), zero, Loses.zero, Moves.nil fun x => by unfold SockObj.own zero; dsimp only; rw [h1, h2]; omega⟩
  have z : ∀ (a : Resource → Int), (fun x => a x + zero x) = a := fun a => funext fun x => by unfold zero; omega
  cases h with
  | sendClosed _ => exact nil s rfl rfl
  | sendHuge _ _ => exact nil s rfl rfl
  | @send buf h a hf _ hk =>
    refine ⟨hs, zero, Loses.zero, ?_⟩
    rw [z, own_tls_open hf hk]
    refine (Still.cons (R := (· = .session h)) ⟨(fun r hr => by simpa [Sys.needs] using hr), rfl, rfl⟩ Still.nil).moves fun x hx => ?_
    subst hx
    have := one_pos (.session h); have := one_nonneg (.fd s.fd) (.session h); omega
  | recvClosed _ => exact nil s rfl rfl
  | recvHuge _ _ => exact nil s rfl rfl
  | @recv len h a hf _ hk =>
    refine ⟨hs, zero, Loses.zero, ?_⟩
    rw [z, own_tls_open hf hk]
    refine (Still.cons (R := (· = .session h)) ⟨(fun r hr => by simpa [Sys.needs] using hr), rfl, rfl⟩ Still.nil).moves fun x hx => ?_
    subst hx
    have := one_pos (.session h); have := one_nonneg (.fd s.fd) (.session h); omega
  | openInUse _ => exact nil s rfl rfl
  | @«open» h p tv l r fd ssl hf ho =>
    obtain ⟨leak, h1, h2, h3, h4, h5⟩ := ho.moves (hc.2 _ _) s
    refine ⟨h5, leak, ⟨h1, h2, fun hn => h3 (hn h p tv rfl)⟩, ?_⟩
    rw [own_tls_closed hf]
    exact h4
  | closeClosed _ => exact nil s rfl rfl
  | @close force h hf hk =>
    refine ⟨fun h => absurd rfl h, zero, Loses.zero, ?_⟩
    rw [z, own_tls_closed (s := { s with fd := -1, ssl := none }) rfl, own_tls_open hf hk]
    have hsh : Moves (fun x => one (.fd s.fd) x + one (.session h) x) (if force then [] else [.sslShutdown h]) (fun x => one (.fd s.fd) x + one (.session h) x) := by
      refine Still.moves (R := (· = .session h)) ?_ fun x hx => ?_
      · cases force with
        | true => exact Still.nil
        | false => exact Still.cons ⟨(fun r hr => by simpa [Sys.needs] using hr), rfl, rfl⟩ Still.nil
      · subst hx
        have := one_pos (.session h); have := one_nonneg (.fd s.fd) (.session h); omega
    exact hsh.trans ((moves_sslFree (one (.fd s.fd)) h (one_nonneg _ _)).trans (moves_close s.fd true))
  | closeFails hf hk => exact absurd (by simp) (hc.1 s.fd)
  | closeAgain hf hk => exact absurd hk (hs hf)
  | setVerifyPeer => exact nil _ rfl rfl
  | setVerifyHost => exact nil _ rfl rfl

/-- What a closing operation leaves. -/
theorem tcp_close_own {fd : Int} {l : List Sys} {r : Int} {b : Bytes} {fd' : Int} (h : OsSpec.Step fd .close l r b fd') (hc : NoMishap l) : fd' = -1 := by
  cases h with
  | closeClosed hf => exact hf
  | close _ => rfl
  | closeFails _ => exact absurd (by simp) (hc.1 fd)

theorem tls_close_own {s : TlsSock} {f : Bool} {l : List Sys} {r : Int} {b : Bytes} {s' : TlsSock} (h : TlsSpec.Step s (.close f) l r b s') (hc : NoMishap l)
    (hs : s.Sound) : s'.fd = -1 := by
  cases h with
  | closeClosed hf => exact hf
  | close _ _ => rfl
  | closeFails _ _ => exact absurd (by simp) (hc.1 s.fd)
  | closeAgain hf hk => exact absurd hk (hs hf)

theorem lift_post {α β : Type} {x : M OsLog α} {f : α → β} {P : α → List Sys → Prop} (h : OsPost x P) :
    OsPost (do let a ← x; pure (f a)) (fun b l => ∃ a, b = f a ∧ P a l) :=
  h.bind fun a l ha => OsPost.pure ⟨a, rfl, by simpa using ha⟩

/-- One operation on a socket object, as a TCP or as a TLS socket. -/
theorem SockObj.op_post (O : Os) (op : SockOp) (o : SockObj) : OsPost (o.op O op) (fun q l => (NoMishap l → o.sound → (∀ f, op = .setFd f → o.shut) →
    q.2.2.sound ∧ ∃ leak, Loses op.unlimited leak ∧ Moves (fun x => o.own x + op.hands x) l (fun x => q.2.2.own x + leak x)) ∧
    ((∀ i, O.closeOk i = true) → o.sound → q.2.2.sound) ∧ (NoMishap l → o.sound → ∀ f, op = .close f → q.2.2.own = zero)) := by
  have z : ∀ (a : Resource → Int), (fun x => a x + 0) = a := fun a => funext fun x => by omega
  have tcp : ∀ (t : TcpOp) (fd : Int), (∀ f, t ≠ .setFd f) → (∀ f, op = .close f → t = .close) → op.hands = (fun _ => 0) →
      OsPost (do let (r, d, fd) ← tcpOp O t fd; pure (r, d, SockObj.tcp fd)) (fun q l =>
        (NoMishap l → (SockObj.tcp fd).sound → (∀ f, op = .setFd f → (SockObj.tcp fd).shut) →
          q.2.2.sound ∧ ∃ leak, Loses op.unlimited leak ∧ Moves (fun x => (SockObj.tcp fd).own x + op.hands x) l (fun x => q.2.2.own x + leak x)) ∧
        ((∀ i, O.closeOk i = true) → (SockObj.tcp fd).sound → q.2.2.sound) ∧
        (NoMishap l → (SockObj.tcp fd).sound → ∀ f, op = .close f → q.2.2.own = zero)) := fun t fd h1 h2 h3 => by
    refine (lift_post (f := fun a => (a.1, a.2.1, SockObj.tcp a.2.2)) (tcpOp_post O t fd)).mono fun q l ⟨a, hq, ha⟩ => ?_
    subst hq
    refine ⟨fun hc _ _ => ⟨trivial, zero, Loses.zero, ?_⟩, fun _ _ => trivial, fun hc _ f hf => ?_⟩
    · rw [h3, z]
      exact (tcp_moves ha hc h1).cast (fun _ => rfl) fun x => by unfold zero; dsimp only; omega
    · have := h2 f hf
      subst this
      show (SockObj.tcp a.2.2).own = zero
      rw [tcp_close_own ha hc, own_tcp_closed]
  have tls : ∀ (t : TlsOp) (s : TlsSock), (op.unlimited → ∀ a p tv, t = .open a p tv → tv = none) → (∀ f, op = .close f → t = .close f) →
      op.hands = (fun _ => 0) →
      OsPost (do let (r, d, s) ← tlsOp O t s; pure (r, d, SockObj.tls s)) (fun q l =>
        (NoMishap l → (SockObj.tls s).sound → (∀ f, op = .setFd f → (SockObj.tls s).shut) →
          q.2.2.sound ∧ ∃ leak, Loses op.unlimited leak ∧ Moves (fun x => (SockObj.tls s).own x + op.hands x) l (fun x => q.2.2.own x + leak x)) ∧
        ((∀ i, O.closeOk i = true) → (SockObj.tls s).sound → q.2.2.sound) ∧
        (NoMishap l → (SockObj.tls s).sound → ∀ f, op = .close f → q.2.2.own = zero)) := fun t s h1 h2 h3 => by
    have hp : OsPost (tlsOp O t s) (fun r l => TlsSpec.Step s t l r.1 r.2.1 r.2.2 ∧ ((∀ i, O.closeOk i = true) → s.Sound → r.2.2.Sound)) := by
      intro l0 a l1 he
      obtain ⟨l, hl, hst⟩ := tlsOp_post O t s _ _ _ he
      exact ⟨l, hl, hst, fun hO hs => (tlsOp_sound O hO t s hs _ _ _ he).choose_spec.2⟩
    refine (lift_post (f := fun a => (a.1, a.2.1, SockObj.tls a.2.2)) hp).mono fun q l ⟨a, hq, ha, hb⟩ => ?_
    subst hq
    refine ⟨fun hc hs _ => ?_, hb, fun hc hs f hf => ?_⟩
    · obtain ⟨g1, leak, g2, g3⟩ := tls_moves ha hc hs
      refine ⟨g1, leak, g2.mono h1, ?_⟩
      rw [h3, z]
      exact g3
    · have := h2 f hf
      subst this
      exact own_tls_closed (tls_close_own ha hc hs)
  cases o with
  | tcp fd =>
    cases op with
    | send b more => exact tcp _ fd (fun _ => by simp) (fun _ h => by simp at h) rfl
    | recv n => exact tcp _ fd (fun _ => by simp) (fun _ h => by simp at h) rfl
    | «open» h p tv => exact tcp _ fd (fun _ => by simp) (fun _ h => by simp at h) rfl
    | close f => exact tcp _ fd (fun _ => by simp) (fun _ _ => rfl) rfl
    | setFd f =>
      refine (lift_post (f := fun a => (a.1, a.2.1, SockObj.tcp a.2.2)) (tcpOp_post O (.setFd f) fd)).mono fun q l ⟨a, hq, ha⟩ => ?_
      subst hq
      refine ⟨fun hc _ hsh => ⟨trivial, zero, Loses.zero, ?_⟩, fun _ _ => trivial, fun _ _ _ h => by simp at h⟩
      have hfd : fd = -1 := hsh f rfl
      subst hfd
      generalize he : a.2.2 = f' at ha ⊢
      generalize a.1 = u at ha
      generalize a.2.1 = v at ha
      cases ha
      refine Moves.nil fun x => ?_
      rw [own_tcp_closed]
      unfold zero SockObj.own SockOp.hands one
      dsimp only
      by_cases h1 : f = -1
      · rw [if_neg (fun h => h.1 h1), if_pos h1]
      · rw [if_neg h1]
        by_cases h2 : x = .fd f
        · rw [if_pos ⟨h1, h2⟩, if_pos h2]; rfl
        · rw [if_neg (fun h => h2 h.2), if_neg h2]
    | setVerifyPeer b => intro l0 a l1 h; cases h
    | setVerifyHost b => intro l0 a l1 h; cases h
  | tls s =>
    cases op with
    | send b more => exact tls _ s (fun _ _ _ _ h => by simp at h) (fun _ h => by simp at h) rfl
    | recv n => exact tls _ s (fun _ _ _ _ h => by simp at h) (fun _ h => by simp at h) rfl
    | «open» h p tv => exact tls _ s (fun hu a p' tv' h' => by simp at h'; exact h'.2.2 ▸ hu h p tv rfl) (fun _ h => by simp at h) rfl
    | close f => exact tls _ s (fun _ _ _ _ h => by simp at h) (fun _ h => by simp at h; rw [h]) rfl
    | setFd f => intro l0 a l1 h; cases h
    | setVerifyPeer b => exact tls _ s (fun _ _ _ _ h => by simp at h) (fun _ h => by simp at h) rfl
    | setVerifyHost b => exact tls _ s (fun _ _ _ _ h => by simp at h) (fun _ h => by simp at h) rfl


/-! ## Objects and connections -/

/-- What a slot of the heap owns. -/
def slotOwn : Option SockObj → Resource → Int
  | some o, r => o.own r
  | none, _ => 0

/-- What all socket objects own. -/
def ownL : List (Option SockObj) → Resource → Int
  | [], _ => 0
  | o :: l, r => slotOwn o r + ownL l r

theorem slotOwn_nonneg (o : Option SockObj) (r : Resource) : 0 ≤ slotOwn o r := by
  cases o with
  | none => exact Int.le_refl _
  | some o => exact o.own_nonneg r

theorem ownL_nonneg (l : List (Option SockObj)) (r : Resource) : 0 ≤ ownL l r := by
  induction l with
  | nil => exact Int.le_refl _
  | cons o l ih => have := slotOwn_nonneg o r; unfold ownL; omega

theorem ownL_append (l m : List (Option SockObj)) (r : Resource) : ownL (l ++ m) r = ownL l r + ownL m r := by
  induction l with
  | nil => simp [ownL]
  | cons o l ih => simp only [List.cons_append, ownL, ih]; omega

theorem ownL_set {l : List (Option SockObj)} {i : Nat} {x : Option SockObj} (h : l[i]? = some x) (y : Option SockObj) (r : Resource) :
    ownL (l.set i y) r + slotOwn x r = ownL l r + slotOwn y r := by
  induction l generalizing i with
  | nil => simp at h
  | cons o l ih =>
    cases i with
    | zero => simp at h; subst h; simp only [List.set_cons_zero, ownL]; omega
    | succ i => have := ih (i := i) (by simpa using h); simp only [List.set_cons_succ, ownL]; omega

theorem ownL_pos {l : List (Option SockObj)} {r : Resource} : 0 < ownL l r ↔ ∃ (i : Nat) (o : SockObj), l[i]? = some (some o) ∧ 0 < o.own r := by
  induction l with
  | nil => simp [ownL]
  | cons o l ih =>
    constructor
    · intro h
      unfold ownL at h
      by_cases h' : 0 < ownL l r
      · obtain ⟨i, o', h1, h2⟩ := ih.mp h'; exact ⟨i + 1, o', by simpa using h1, h2⟩
      · cases o with
        | none => have : slotOwn none r = 0 := rfl; omega
        | some o => exact ⟨0, o, rfl, by have : slotOwn (some o) r = o.own r := rfl; omega⟩
    · intro ⟨i, o', h1, h2⟩
      have a := slotOwn_nonneg o r
      have b := ownL_nonneg l r
      unfold ownL
      cases i with
      | zero => simp at h1; subst h1; have : slotOwn (some o') r = o'.own r := rfl; omega
      | succ i => have := ih.mpr ⟨i, o', by simpa using h1, h2⟩; omega

/-- Every socket a connection has exists, belongs to it alone, and every socket belongs to a connection. -/
structure Sockets.Tidy (w : Sockets) : Prop where
  refs : ∀ (c i : Nat), w.conns[c]? = some (some (some i)) → ∃ o : SockObj, w.objs[i]? = some (some o)
  single : ∀ (c d i : Nat), w.conns[c]? = some (some (some i)) → w.conns[d]? = some (some (some i)) → c = d
  owned : ∀ (i : Nat) (o : SockObj), w.objs[i]? = some (some o) → ∃ c : Nat, w.conns[c]? = some (some (some i))

/-- All sockets are sound. -/
def Sockets.Sound (w : Sockets) : Prop := ∀ (i : Nat) (o : SockObj), w.objs[i]? = some (some o) → o.sound

theorem bind_inv {α β : Type} {x : M OsLog α} {f : α → M OsLog β} {l0 l1 : OsLog} {b : β} (h : (x >>= f) l0 = .ok b l1) :
    ∃ a m, x l0 = .ok a m ∧ f a m = .ok b l1 := by
  rw [M.bind_def] at h
  cases hx : x l0 with
  | ok a m => rw [hx] at h; exact ⟨a, m, rfl, h⟩
  | err _ _ => rw [hx] at h; cases h
  | ub => rw [hx] at h; cases h
  | fuel => rw [hx] at h; cases h

/-- The heap without the object `s`. -/
def dropObj (s : Option Nat) (objs : List (Option SockObj)) : List (Option SockObj) := match s with | none => objs | some i => objs.set i none

/-- Deleting a socket. -/
theorem delete_spec {O : Os} {s : Option Nat} {w w' : Sockets} {l0 l1 : OsLog} (h : w.delete O s l0 = .ok w' l1) :
    ∃ l, l1 = l0 ++ l ∧ w'.conns = w.conns ∧
      w'.objs = dropObj s w.objs ∧
      (∀ i, s = some i → ∃ o, w.objs[i]? = some (some o)) ∧
      (NoMishap l → w.Sound → Moves (ownL w.objs) l (ownL w'.objs)) := by
  cases s with
  | none => cases h; exact ⟨[], (List.append_nil _).symm, rfl, rfl, nofun, fun _ _ => Moves.nil fun _ => rfl⟩
  | some i =>
    unfold Sockets.delete at h
    dsimp only at h
    cases ho : w.objs[i]? with
    | none => rw [ho] at h; cases h
    | some o =>
      cases o with
      | none => rw [ho] at h; cases h
      | some o =>
        rw [ho] at h
        obtain ⟨q, m, h1, h2⟩ := bind_inv h
        cases h2
        obtain ⟨l, hl, hp, _, hz⟩ := SockObj.op_post O (.close false) o _ _ _ h1
        refine ⟨l, hl, rfl, rfl, fun j hj => (by cases hj; exact ⟨o, ho⟩), fun hc hs => ?_⟩
        obtain ⟨_, leak, hlk, hm⟩ := hp hc (hs i o ho) (fun _ h => by cases h)
        have hz := hz hc (hs i o ho) false rfl
        have hlk : leak = zero := hlk.2.2 fun _ _ _ h => by cases h
        subst hlk
        rw [hz] at hm
        have hset := fun r => ownL_set ho none r
        refine (hm.frame (k := ownL (w.objs.set i none)) (ownL_nonneg _)).cast (fun x => ?_) fun x => ?_
        · have := hset x
          have h1 : slotOwn (some o) x = o.own x := rfl
          have h2 : slotOwn none x = 0 := rfl
          have h3 : SockOp.hands (.close false) x = 0 := rfl
          rw [h3]; omega
        · unfold zero; dsimp only; omega


theorem dropObj_length (s : Option Nat) (objs : List (Option SockObj)) : (dropObj s objs).length = objs.length := by
  cases s with
  | none => rfl
  | some i => exact List.length_set

theorem dropObj_get {s : Option Nat} {objs : List (Option SockObj)} {i : Nat} {o : SockObj} :
    (dropObj s objs)[i]? = some (some o) ↔ objs[i]? = some (some o) ∧ s ≠ some i := by
  cases s with
  | none => simp [dropObj]
  | some j =>
    show (objs.set j none)[i]? = _ ↔ _
    rw [List.getElem?_set]
    by_cases h : j = i
    · subst h
      rw [if_pos rfl]
      constructor
      · intro h; split at h <;> cases h
      · intro h; exact absurd rfl h.2
    · rw [if_neg h]
      exact ⟨fun a => ⟨a, fun b => h (Option.some.inj b)⟩, fun a => a.1⟩

theorem snoc_get {α : Type} {l : List α} {x y : α} {i : Nat} : (l ++ [x])[i]? = some y ↔ l[i]? = some y ∨ (i = l.length ∧ x = y) := by
  rw [List.getElem?_append]
  by_cases h : i < l.length
  · rw [if_pos h]
    exact ⟨Or.inl, fun a => a.elim (·) fun b => absurd b.1 (by omega)⟩
  · rw [if_neg h, List.getElem?_eq_none (by omega : l.length ≤ i)]
    by_cases h2 : i = l.length
    · subst h2; simp
    · rw [List.getElem?_eq_none (by simp; omega)]; simp [h2]

theorem set_get {α : Type} {l : List α} {x y : α} {c i : Nat} : (l.set c x)[i]? = some y ↔ (c = i ∧ c < l.length ∧ x = y) ∨ (c ≠ i ∧ l[i]? = some y) := by
  rw [List.getElem?_set]
  by_cases h : c = i
  · subst h
    rw [if_pos rfl]
    by_cases h2 : c < l.length
    · rw [if_pos h2]; simp [h2]
    · rw [if_neg h2]; simp [h2]
  · rw [if_neg h]; simp [h]

theorem get_lt {α : Type} {l : List α} {i : Nat} {x : α} (h : l[i]? = some x) : i < l.length := by
  rcases Nat.lt_or_ge i l.length with h' | h'
  · exact h'
  · rw [List.getElem?_eq_none h'] at h; cases h

theorem Sockets.Tidy.destroy {w : Sockets} (ht : w.Tidy) {c : Nat} {old : Option Nat} (hc : w.conns[c]? = some (some old)) :
    Sockets.Tidy ⟨dropObj old w.objs, w.conns.set c none⟩ where
  refs d i h := by
    have h : (w.conns.set c none)[d]? = some (some (some i)) := h
    rcases set_get.mp h with ⟨_, _, h⟩ | ⟨hne, h'⟩
    · cases h
    · obtain ⟨o, ho⟩ := ht.refs d i h'
      refine ⟨o, dropObj_get.mpr ⟨ho, fun he => ?_⟩⟩
      subst he
      exact hne (ht.single c d i hc h')
  single d e i h1 h2 := by
    have h1 : (w.conns.set c none)[d]? = some (some (some i)) := h1
    have h2 : (w.conns.set c none)[e]? = some (some (some i)) := h2
    rcases set_get.mp h1 with ⟨_, _, h⟩ | ⟨_, h1⟩
    · cases h
    rcases set_get.mp h2 with ⟨_, _, h⟩ | ⟨_, h2⟩
    · cases h
    exact ht.single d e i h1 h2
  owned i o h := by
    obtain ⟨h, hne⟩ := dropObj_get.mp h
    obtain ⟨d, hd⟩ := ht.owned i o h
    refine ⟨d, set_get.mpr (Or.inr ⟨fun he => ?_, hd⟩)⟩
    subst he
    rw [hc] at hd
    cases hd
    exact hne rfl

theorem Sockets.Tidy.attach {w : Sockets} (ht : w.Tidy) {c : Nat} {old : Option Nat} (hc : w.conns[c]? = some (some old)) (o : SockObj) :
    Sockets.Tidy ⟨dropObj old w.objs ++ [some o], w.conns.set c (some (some w.objs.length))⟩ where
  refs d i h := by
    have h : (w.conns.set c _)[d]? = some (some (some i)) := h
    rcases set_get.mp h with ⟨_, _, h⟩ | ⟨hne, h'⟩
    · cases h
      exact ⟨o, snoc_get.mpr (Or.inr ⟨(dropObj_length _ _).symm, rfl⟩)⟩
    · obtain ⟨p, hp⟩ := ht.refs d i h'
      refine ⟨p, snoc_get.mpr (Or.inl (dropObj_get.mpr ⟨hp, fun he => ?_⟩))⟩
      subst he
      exact hne (ht.single c d i hc h')
  single d e i h1 h2 := by
    have h1 : (w.conns.set c _)[d]? = some (some (some i)) := h1
    have h2 : (w.conns.set c _)[e]? = some (some (some i)) := h2
    rcases set_get.mp h1 with ⟨a1, _, h⟩ | ⟨_, h1⟩
    · rcases set_get.mp h2 with ⟨a2, _, _⟩ | ⟨_, h2⟩
      · exact a1.symm.trans a2
      · cases h
        obtain ⟨p, hp⟩ := ht.refs e _ h2
        exact absurd (get_lt hp) (Nat.lt_irrefl _)
    · rcases set_get.mp h2 with ⟨a2, _, h⟩ | ⟨_, h2⟩
      · cases h
        obtain ⟨p, hp⟩ := ht.refs d _ h1
        exact absurd (get_lt hp) (Nat.lt_irrefl _)
      · exact ht.single d e i h1 h2
  owned i p h := by
    rcases snoc_get.mp h with h | ⟨hi, _⟩
    · obtain ⟨h, hne⟩ := dropObj_get.mp h
      obtain ⟨d, hd⟩ := ht.owned i p h
      refine ⟨d, set_get.mpr (Or.inr ⟨fun he => ?_, hd⟩)⟩
      subst he
      rw [hc] at hd
      cases hd
      exact hne rfl
    · rw [dropObj_length] at hi
      subst hi
      exact ⟨c, set_get.mpr (Or.inl ⟨rfl, get_lt hc, rfl⟩)⟩

/-- Replacing an object in place keeps the heap tidy. -/
theorem Sockets.Tidy.replace {w : Sockets} (ht : w.Tidy) {i : Nat} {o : SockObj} (ho : w.objs[i]? = some (some o)) (p : SockObj) :
    Sockets.Tidy ⟨w.objs.set i (some p), w.conns⟩ where
  refs c j h := by
    obtain ⟨q, hq⟩ := ht.refs c j h
    by_cases hij : i = j
    · subst hij; exact ⟨p, set_get.mpr (Or.inl ⟨rfl, get_lt hq, rfl⟩)⟩
    · exact ⟨q, set_get.mpr (Or.inr ⟨hij, hq⟩)⟩
  single := ht.single
  owned j q h := by
    have h : (w.objs.set i (some p))[j]? = some (some q) := h
    rcases set_get.mp h with ⟨rfl, _, _⟩ | ⟨_, h⟩
    · exact ht.owned _ o ho
    · exact ht.owned _ _ h

theorem Sockets.Sound.replace {w : Sockets} (hs : w.Sound) {i : Nat} {p : SockObj} (hp : p.sound) : Sockets.Sound ⟨w.objs.set i (some p), w.conns⟩ := by
  intro j q h
  have h : (w.objs.set i (some p))[j]? = some (some q) := h
  rcases set_get.mp h with ⟨_, _, h⟩ | ⟨_, h⟩
  · cases h; exact hp
  · exact hs j q h

/-- Attaching a new socket. -/
theorem attach_spec {O : Os} {c : Nat} {o : SockObj} {w w' : Sockets} {l0 l1 : OsLog} (h : w.attach O c o true l0 = .ok w' l1) (ht : w.Tidy) :
    ∃ l old, l1 = l0 ++ l ∧ w.conns[c]? = some (some old) ∧ w' = ⟨dropObj old w.objs ++ [some o], w.conns.set c (some (some w.objs.length))⟩ ∧
      (NoMishap l → w.Sound → o.sound → Moves (fun x => ownL w.objs x + o.own x) l (ownL w'.objs)) := by
  unfold Sockets.attach Sockets.setSocket at h
  rw [if_pos rfl] at h
  dsimp only at h
  cases hc : w.conns[c]? with
  | none => rw [hc] at h; cases h
  | some a =>
    cases a with
    | none => rw [hc] at h; cases h
    | some old =>
      rw [hc] at h
      obtain ⟨w1, m, h1, h2⟩ := bind_inv h
      cases h2
      obtain ⟨l, hl, g1, g2, g3, g4⟩ := delete_spec h1
      have g2 : w1.objs = dropObj old w.objs ++ [some o] := by
        rw [g2]
        cases old with
        | none => rfl
        | some i =>
          obtain ⟨p, hp⟩ := ht.refs c i hc
          exact List.set_append_left _ _ (get_lt hp)
      refine ⟨l, old, hl, rfl, ?_, fun h1 h2 h3 => ?_⟩
      · rw [g2, g1]
      · refine (g4 h1 fun i p hp => ?_).cast (fun x => ?_) fun x => rfl
        · rcases snoc_get.mp hp with hp | ⟨_, hp⟩
          · exact h2 i p hp
          · cases hp; exact h3
        · rw [ownL_append]; unfold ownL ownL slotOwn; dsimp only; omega

theorem Sockets.Sound.drop {w : Sockets} (hs : w.Sound) {old : Option Nat} {o : SockObj} (ho : o.sound) {cs : List (Option (Option Nat))} :
    Sockets.Sound ⟨dropObj old w.objs ++ [some o], cs⟩ := by
  intro i p hp
  rcases snoc_get.mp hp with hp | ⟨_, hp⟩
  · exact hs i p (dropObj_get.mp hp).1
  · cases hp; exact ho

theorem handed_cons (r : Resource) (op : AppOp) (ops : List AppOp) : handed r (op :: ops) = handed r [op] + handed r ops := by
  cases op with
  | use c op => cases op <;> simp [handed]
  | _ => simp [handed]

theorem handed_nonneg (r : Resource) (ops : List AppOp) : 0 ≤ handed r ops := by
  induction ops with
  | nil => exact Int.le_refl _
  | cons op ops ih =>
    rw [handed_cons]
    have : 0 ≤ handed r [op] := by
      cases op with
      | use c op => cases op <;> simp only [handed] <;> first | omega | (split <;> omega)
      | setSockfd c fd ok => simp only [handed]; split <;> omega
      | _ => simp [handed]
    omega

/-- One call of the application. -/
theorem step_spec {O : Os} {op : AppOp} {w w' : Sockets} {l0 l1 : OsLog} (h : op.step O w l0 = .ok w' l1) (ht : w.Tidy) (ha : op.allowed w) :
    ∃ l, l1 = l0 ++ l ∧ w'.Tidy ∧ ((∀ i, O.closeOk i = true) → w.Sound → w'.Sound) ∧
      (NoMishap l → w.Sound → w'.Sound ∧ ∃ leak, Loses op.unlimited leak ∧
        Moves (fun x => ownL w.objs x + handed x [op]) l (fun x => ownL w'.objs x + leak x)) := by
  have idle : ∀ {p : Prop}, op = op → (∀ x, handed x [op] = 0) → w' = w → l1 = l0 → ∃ l, l1 = l0 ++ l ∧ w'.Tidy ∧
      ((∀ i, O.closeOk i = true) → w.Sound → w'.Sound) ∧ (NoMishap l → w.Sound → w'.Sound ∧ ∃ leak, Loses op.unlimited leak ∧
        Moves (fun x => ownL w.objs x + handed x [op]) l (fun x => ownL w'.objs x + leak x)) := by
    intro _ _ hh hw hl
    subst hw hl
    exact ⟨[], (List.append_nil _).symm, ht, fun _ h => h, fun _ hs => ⟨hs, zero, Loses.zero, Moves.nil fun x => by rw [hh x]; rfl⟩⟩
  have att : ∀ {c : Nat} {o : SockObj} {ok : Bool}, o.own = zero → o.sound → (∀ x, handed x [op] = 0) → w.attach O c o ok l0 = .ok w' l1 →
      ∃ l, l1 = l0 ++ l ∧ w'.Tidy ∧ ((∀ i, O.closeOk i = true) → w.Sound → w'.Sound) ∧ (NoMishap l → w.Sound → w'.Sound ∧ ∃ leak, Loses op.unlimited leak ∧
        Moves (fun x => ownL w.objs x + handed x [op]) l (fun x => ownL w'.objs x + leak x)) := by
    intro c o ok ho1 ho2 hh h
    cases ok with
    | false => cases h; exact idle (p := True) rfl hh rfl rfl
    | true =>
      obtain ⟨l, old, hl, hc, hw, hm⟩ := attach_spec h ht
      have hs' : w.Sound → w'.Sound := fun hs => by rw [hw]; exact hs.drop ho2
      refine ⟨l, hl, ?_, fun _ => hs', fun h1 h2 => ⟨hs' h2, zero, Loses.zero, ?_⟩⟩
      · rw [hw]; exact ht.attach hc o
      · refine (hm h1 h2 ho2).cast (fun x => ?_) fun x => ?_
        · rw [hh x, ho1]; rfl
        · unfold zero; omega
  cases op with
  | newConnection ok =>
    cases ok with
    | false => cases h; exact idle (p := True) rfl (fun _ => rfl) rfl rfl
    | true =>
      cases h
      refine ⟨[], (List.append_nil _).symm, ⟨fun c i h => ?_, fun c d i h1 h2 => ?_, fun i o h => ?_⟩, fun _ h => h,
        fun _ hs => ⟨hs, zero, Loses.zero, Moves.nil fun x => rfl⟩⟩
      · rcases snoc_get.mp h with h | ⟨_, h⟩
        · exact ht.refs c i h
        · cases h
      · rcases snoc_get.mp h1 with h1 | ⟨_, h⟩
        · rcases snoc_get.mp h2 with h2 | ⟨_, h⟩
          · exact ht.single c d i h1 h2
          · cases h
        · cases h
      · obtain ⟨c, hc⟩ := ht.owned i o h
        exact ⟨c, snoc_get.mpr (Or.inl hc)⟩
  | tcpSocketNew c ok => exact att own_tcp_closed trivial (fun _ => rfl) h
  | sslSocketNew c ok => exact att (own_tls_closed rfl) (fun h => absurd rfl h) (fun _ => rfl) h
  | setSockfd c fd ok =>
    cases ok with
    | false => cases h
    | true =>
      obtain ⟨w1, m, h1, h2⟩ := bind_inv h
      cases h2
      obtain ⟨l, old, hl, hc, hw, hm⟩ := attach_spec h1 ht
      have ht1 := ht.attach hc (.tcp (-1))
      rw [← hw] at ht1
      have hn : w1.objs[w.objs.length]? = some (some (.tcp (-1))) := by
        rw [hw]; exact snoc_get.mpr (Or.inr ⟨(dropObj_length _ _).symm, rfl⟩)
      have hs' : w.Sound → w1.Sound := fun hs => by rw [hw]; exact hs.drop (o := .tcp (-1)) trivial
      refine ⟨l, hl, ht1.replace hn _, fun _ hs => (hs' hs).replace trivial, fun h1 h2 => ⟨(hs' h2).replace trivial, zero, Loses.zero, ?_⟩⟩
      have hset := fun x => ownL_set hn (some (.tcp fd)) x
      refine ((hm h1 h2 trivial).frame (k := fun x => handed x [.setSockfd c fd true]) (fun x => handed_nonneg x _)).cast (fun x => ?_) fun x => ?_
      · rw [own_tcp_closed]; unfold zero; omega
      · have := hset x
        have e1 : slotOwn (some (.tcp (-1))) x = 0 := by show (SockObj.tcp (-1)).own x = 0; rw [own_tcp_closed]; rfl
        have e2 : slotOwn (some (.tcp fd)) x = handed x [.setSockfd c fd true] := by
          show (SockObj.tcp fd).own x = _
          unfold SockObj.own one; simp only [handed]
          by_cases k1 : fd = -1
          · rw [if_pos k1, if_neg (fun h => h.1 k1)]; rfl
          · rw [if_neg k1]
            by_cases k2 : x = .fd fd
            · rw [if_pos k2, if_pos ⟨k1, k2⟩]; rfl
            · rw [if_neg k2, if_neg (fun h => k2 h.2)]; rfl
        unfold zero; dsimp only; omega
  | use c sop =>
    obtain ⟨q, m, h1, h2⟩ := bind_inv h
    cases h2
    unfold Sockets.use at h1
    cases hc : w.conns[c]? with
    | none => rw [hc] at h1; cases h1
    | some a =>
    cases a with
    | none => rw [hc] at h1; cases h1
    | some a =>
    cases a with
    | none => rw [hc] at h1; cases h1
    | some i =>
    rw [hc] at h1
    dsimp only at h1
    cases ho : w.objs[i]? with
    | none => rw [ho] at h1; cases h1
    | some o =>
    cases o with
    | none => rw [ho] at h1; cases h1
    | some o =>
    rw [ho] at h1
    obtain ⟨p, m', h3, h4⟩ := bind_inv h1
    cases h4
    obtain ⟨l, hl, hp, hsd, _⟩ := SockObj.op_post O sop o _ _ _ h3
    refine ⟨l, hl, ht.replace ho _, fun hO hs => hs.replace (hsd hO (hs i o ho)), fun hcl hs => ?_⟩
    have hshut : ∀ f, sop = .setFd f → o.shut := by
      intro f hf
      subst hf
      cases o with
      | tls s => trivial
      | tcp fd => exact ha.2 i fd hc ho
    obtain ⟨g1, leak, g2, g3⟩ := hp hcl (hs i o ho) hshut
    refine ⟨hs.replace g1, leak, g2, ?_⟩
    have hset := fun x => ownL_set ho (some p.2.2) x
    show Moves _ l (fun x => ownL (w.objs.set i (some p.2.2)) x + leak x)
    have hrest : ∀ x, ownL w.objs x - o.own x ≥ 0 := by
      intro x
      have a := ownL_set ho none x
      have b := ownL_nonneg (w.objs.set i none) x
      have e1 : slotOwn (some o) x = o.own x := rfl
      have e2 : slotOwn none x = 0 := rfl
      omega
    refine (g3.frame (k := fun x => ownL w.objs x - o.own x) hrest).cast (fun x => ?_) fun x => ?_
    · have : handed x [.use c sop] = sop.hands x := by cases sop <;> simp [handed, SockOp.hands]
      rw [this]; omega
    · have := hset x
      have e1 : slotOwn (some o) x = o.own x := rfl
      have e2 : slotOwn (some p.2.2) x = p.2.2.own x := rfl
      omega
  | getSockfd c =>
    obtain ⟨q, m, h1, h2⟩ := bind_inv h
    cases h2
    refine idle (p := True) rfl (fun _ => rfl) rfl ?_
    unfold Sockets.getSockfd at h1
    cases hc : w.conns[c]? with
    | none => rw [hc] at h1; cases h1
    | some a =>
    cases a with
    | none => rw [hc] at h1; cases h1
    | some a =>
    rw [hc] at h1
    cases a with
    | none => cases h1; rfl
    | some i =>
    dsimp only at h1
    cases ho : w.objs[i]? with
    | none => rw [ho] at h1; cases h1
    | some o =>
    cases o with
    | none => rw [ho] at h1; cases h1
    | some o =>
    rw [ho] at h1
    cases o <;> cases h1 <;> rfl
  | destroy c =>
    have h : w.destroy O c l0 = .ok w' l1 := h
    unfold Sockets.destroy at h
    cases hc : w.conns[c]? with
    | none => rw [hc] at h; cases h
    | some a =>
    cases a with
    | none => rw [hc] at h; cases h
    | some old =>
    rw [hc] at h
    obtain ⟨w1, m, h1, h2⟩ := bind_inv h
    cases h2
    obtain ⟨l, hl, g1, g2, g3, g4⟩ := delete_spec h1
    have hs' : w.Sound → Sockets.Sound ⟨w1.objs, w1.conns.set c none⟩ := fun hs i o ho => by
      have ho : w1.objs[i]? = some (some o) := ho
      rw [g2] at ho
      exact hs i o (dropObj_get.mp ho).1
    refine ⟨l, hl, ?_, fun _ => hs', fun h1 h2 => ⟨hs' h2, zero, Loses.zero, ?_⟩⟩
    · have := ht.destroy hc
      rw [← g2, ← g1] at this
      exact this
    · exact (g4 h1 h2).cast (fun x => by simp [handed]) fun x => by unfold zero; dsimp only; omega

/-- A whole history. -/
theorem run_spec {O : Os} : ∀ {ops : List AppOp} {w w' : Sockets} {l0 l1 : OsLog}, appRun O ops w l0 = .ok w' l1 → w.Tidy → Allowed O ops w l0 →
    ∃ l, l1 = l0 ++ l ∧ w'.Tidy ∧ (NoMishap l → w.Sound → w'.Sound ∧ ∃ leak, Loses (∀ op ∈ ops, op.unlimited) leak ∧
      Moves (fun x => ownL w.objs x + handed x ops) l (fun x => ownL w'.objs x + leak x)) := by
  intro ops
  induction ops with
  | nil =>
    intro w w' l0 l1 h ht _
    cases h
    exact ⟨[], (List.append_nil _).symm, ht, fun _ hs => ⟨hs, zero, Loses.zero, Moves.nil fun x => by simp [handed, zero]⟩⟩
  | cons op ops ih =>
    intro w w' l0 l1 h ht ha
    obtain ⟨w1, m, h1, h2⟩ := bind_inv h
    obtain ⟨l, hl, ht1, _, g⟩ := step_spec h1 ht ha.1
    obtain ⟨l', hl', ht', g'⟩ := ih h2 ht1 (ha.2 _ _ h1)
    refine ⟨l ++ l', by rw [hl', hl, List.append_assoc], ht', fun hc hs => ?_⟩
    obtain ⟨s1, k1, a1, b1⟩ := g hc.left hs
    obtain ⟨s2, k2, a2, b2⟩ := g' hc.right s1
    refine ⟨s2, fun x => k1 x + k2 x, (a1.add a2).mono fun h => ⟨h op (by simp), fun o ho => h o (by simp [ho])⟩, ?_⟩
    have c1 := b1.frame (k := fun x => handed x ops) (fun x => handed_nonneg x ops)
    have c2 := b2.frame (k := k1) a1.1
    refine (c1.trans (c2.cast (fun x => ?_) fun x => rfl)).cast (fun x => ?_) fun x => ?_
    · omega
    · rw [handed_cons]; omega
    · show ownL w'.objs x + (k1 x + k2 x) = _; omega


/-! ## Nothing is undefined -/

theorem bind_ne_ub {α β : Type} {x : M OsLog α} {f : α → M OsLog β} {l0 : OsLog} (hx : x l0 ≠ .ub) (hf : ∀ a m, x l0 = .ok a m → f a m ≠ .ub) :
    (x >>= f) l0 ≠ .ub := by
  rw [M.bind_def]
  cases h : x l0 with
  | ok a m => exact hf a m h
  | err _ _ => simp
  | ub => exact absurd h hx
  | fuel => simp

theorem OsTotal.ne_ub {α : Type} {x : M OsLog α} (h : OsTotal x) (l0 : OsLog) : x l0 ≠ .ub := by
  rcases h l0 with ⟨a, m, h⟩ | h <;> rw [h] <;> simp

theorem op_ne_ub (O : Os) (op : SockOp) (o : SockObj) (hs : o.sound) (l0 : OsLog) : o.op O op l0 ≠ .ub := by
  cases o with
  | tcp fd =>
    cases op with
    | setVerifyPeer b => intro h; cases h
    | setVerifyHost b => intro h; cases h
    | _ => exact bind_ne_ub ((tcpOp_total O _ fd).ne_ub l0) fun _ _ _ h => by cases h
  | tls s =>
    cases op with
    | setFd b => intro h; cases h
    | _ => exact bind_ne_ub ((tlsOp_total O _ s hs).ne_ub l0) fun _ _ _ h => by cases h

theorem delete_ne_ub (O : Os) (s : Option Nat) (w : Sockets) (hr : ∀ i, s = some i → ∃ o, w.objs[i]? = some (some o)) (hs : w.Sound) (l0 : OsLog) :
    w.delete O s l0 ≠ .ub := by
  cases s with
  | none => intro h; cases h
  | some i =>
    obtain ⟨o, ho⟩ := hr i rfl
    unfold Sockets.delete
    dsimp only
    rw [ho]
    exact bind_ne_ub (op_ne_ub O _ o (hs i o ho) l0) fun _ _ _ h => by cases h

theorem attach_ne_ub (O : Os) (c : Nat) (o : SockObj) (ok : Bool) (w : Sockets) (ht : w.Tidy) (hs : w.Sound) (ho : o.sound) (ha : w.alive c) (l0 : OsLog) :
    w.attach O c o ok l0 ≠ .ub := by
  cases ok with
  | false => intro h; cases h
  | true =>
    obtain ⟨old, hc⟩ := ha
    unfold Sockets.attach Sockets.setSocket
    rw [if_pos rfl]
    dsimp only
    rw [hc]
    refine bind_ne_ub (delete_ne_ub O old _ (fun i hi => ?_) (fun i p hp => ?_) l0) fun _ _ _ h => by cases h
    · subst hi
      obtain ⟨p, hp⟩ := ht.refs c i hc
      exact ⟨p, snoc_get.mpr (Or.inl hp)⟩
    · rcases snoc_get.mp hp with hp | ⟨_, hp⟩
      · exact hs i p hp
      · cases hp; exact ho

theorem step_ne_ub (O : Os) (op : AppOp) (w : Sockets) (ht : w.Tidy) (hs : w.Sound) (ha : op.allowed w) (l0 : OsLog) : op.step O w l0 ≠ .ub := by
  cases op with
  | newConnection ok => intro h; cases h
  | tcpSocketNew c ok => exact attach_ne_ub O c (.tcp (-1)) ok w ht hs trivial ha l0
  | sslSocketNew c ok => exact attach_ne_ub O c (.tls newTlsSock) ok w ht hs (fun h => absurd rfl h) ha l0
  | setSockfd c fd ok =>
    cases ok with
    | false => intro h; cases h
    | true => exact bind_ne_ub (attach_ne_ub O c (.tcp (-1)) true w ht hs trivial ha l0) fun _ _ _ h => by cases h
  | use c sop =>
    have ha : ∃ i, w.conns[c]? = some (some (some i)) := by cases sop <;> first | exact ha | exact ha.1
    obtain ⟨i, hc⟩ := ha
    obtain ⟨o, ho⟩ := ht.refs c i hc
    refine bind_ne_ub ?_ fun _ _ _ h => by cases h
    unfold Sockets.use
    rw [hc]
    dsimp only
    rw [ho]
    exact bind_ne_ub (op_ne_ub O sop o (hs i o ho) l0) fun _ _ _ h => by cases h
  | getSockfd c =>
    obtain ⟨s, hc⟩ := ha
    refine bind_ne_ub ?_ fun _ _ _ h => by cases h
    unfold Sockets.getSockfd
    rw [hc]
    cases s with
    | none => intro h; cases h
    | some i =>
      obtain ⟨o, ho⟩ := ht.refs c i hc
      dsimp only
      rw [ho]
      cases o <;> (intro h; cases h)
  | destroy c =>
    obtain ⟨s, hc⟩ := ha
    show w.destroy O c l0 ≠ _
    unfold Sockets.destroy
    rw [hc]
    refine bind_ne_ub (delete_ne_ub O s w (fun i hi => ?_) hs l0) fun _ _ _ h => by cases h
    subst hi
    exact ht.refs c i hc

theorem run_ne_ub (O : Os) (hO : ∀ i, O.closeOk i = true) : ∀ (ops : List AppOp) (w : Sockets) (l0 : OsLog), w.Tidy → w.Sound → Allowed O ops w l0 →
    appRun O ops w l0 ≠ .ub := by
  intro ops
  induction ops with
  | nil => intro w l0 _ _ _ h; cases h
  | cons op ops ih =>
    intro w l0 ht hs ha
    refine bind_ne_ub (step_ne_ub O op w ht hs ha.1 l0) fun w1 m h1 => ?_
    obtain ⟨_, _, ht1, hs1, _⟩ := step_spec h1 ht ha.1
    exact ih w1 m ht1 (hs1 hO hs) (ha.2 _ _ h1)

theorem noSockets_tidy : noSockets.Tidy := ⟨fun _ _ h => by simp [noSockets] at h, fun _ _ _ h => by simp [noSockets] at h, fun _ _ h => by simp [noSockets] at h⟩
theorem noSockets_sound : noSockets.Sound := fun _ _ h => by simp [noSockets] at h

theorem own_fd_pos {o : SockObj} {f : Int} : 0 < o.own (.fd f) ↔ f ≠ -1 ∧ (match o with | .tcp fd => fd | .tls s => s.fd) = f := by
  have ones : ∀ g : Int, one (.fd g) (.fd f) = if f = g then 1 else 0 := fun g => by
    unfold one
    by_cases h : f = g
    · rw [if_pos h, if_pos (by rw [h])]
    · rw [if_neg h, if_neg (fun hh => h (by cases hh; rfl))]
  have hses : ∀ k : Option Nat, sess k (.fd f) = 0 := fun k => by cases k <;> simp [sess, one]
  cases o with
  | tcp fd =>
    unfold SockObj.own
    dsimp only
    rw [ones]
    by_cases h1 : fd = -1
    · rw [if_pos h1]; subst h1; exact ⟨fun h => absurd h (by omega), fun h => absurd h.2.symm h.1⟩
    · rw [if_neg h1]
      by_cases h2 : f = fd
      · subst h2; simp [h1]
      · rw [if_neg h2]; exact ⟨fun h => absurd h (by omega), fun h => absurd h.2.symm h2⟩
  | tls s =>
    unfold SockObj.own
    dsimp only
    rw [ones, hses]
    by_cases h1 : s.fd = -1
    · rw [if_pos h1]; exact ⟨fun h => absurd h (by omega), fun h => absurd (h.2.symm.trans h1) h.1⟩
    · rw [if_neg h1]
      by_cases h2 : f = s.fd
      · rw [if_pos h2]; exact ⟨fun _ => ⟨by omega, h2.symm⟩, fun _ => by omega⟩
      · rw [if_neg h2]; exact ⟨fun h => absurd h (by omega), fun h => absurd h.2.symm h2⟩

/-- The descriptors the objects own are those of the connections. -/
theorem Sockets.Tidy.own_fd {w : Sockets} (ht : w.Tidy) (f : Int) (l : OsLog) :
    0 < ownL w.objs (.fd f) ↔ f ≠ -1 ∧ ∃ c, w.getSockfd c l = .ok f l := by
  rw [ownL_pos]
  constructor
  · intro ⟨i, o, ho, h⟩
    obtain ⟨hf, he⟩ := own_fd_pos.mp h
    obtain ⟨c, hc⟩ := ht.owned i o ho
    refine ⟨hf, c, ?_⟩
    unfold Sockets.getSockfd
    rw [hc]; dsimp only; rw [ho]
    cases o <;> (subst he; rfl)
  · intro ⟨hf, c, h⟩
    unfold Sockets.getSockfd at h
    cases hc : w.conns[c]? with
    | none => rw [hc] at h; cases h
    | some a =>
    cases a with
    | none => rw [hc] at h; cases h
    | some a =>
    rw [hc] at h
    cases a with
    | none => cases h; exact absurd rfl hf
    | some i =>
    dsimp only at h
    cases ho : w.objs[i]? with
    | none => rw [ho] at h; cases h
    | some o =>
    cases o with
    | none => rw [ho] at h; cases h
    | some o =>
    rw [ho] at h
    refine ⟨i, o, ho, own_fd_pos.mpr ⟨hf, ?_⟩⟩
    cases o <;> (cases h; rfl)

theorem Sockets.Tidy.gone {w : Sockets} (ht : w.Tidy) (hg : w.allGone) (r : Resource) : ownL w.objs r = 0 := by
  have h := ownL_nonneg w.objs r
  have : ¬ 0 < ownL w.objs r := fun hp => by
    obtain ⟨i, o, ho, _⟩ := ownL_pos.mp hp
    obtain ⟨c, hc⟩ := ht.owned i o ho
    exact hg c ⟨_, hc⟩
  omega


/-! ## What replacing a socket does to the old one -/

/-- The descriptor of an object. -/
def SockObj.fdOf : SockObj → Int
  | .tcp fd => fd
  | .tls s => s.fd

theorem getSockfd_inv {w : Sockets} {c : Nat} {f : Int} {l : OsLog} (h : w.getSockfd c l = .ok f l) (hf : f ≠ -1) :
    ∃ i o, w.conns[c]? = some (some (some i)) ∧ w.objs[i]? = some (some o) ∧ o.fdOf = f := by
  unfold Sockets.getSockfd at h
  cases hc : w.conns[c]? with
  | none => rw [hc] at h; cases h
  | some a =>
  cases a with
  | none => rw [hc] at h; cases h
  | some a =>
  rw [hc] at h
  cases a with
  | none => cases h; exact absurd rfl hf
  | some i =>
  dsimp only at h
  cases ho : w.objs[i]? with
  | none => rw [ho] at h; cases h
  | some o =>
  cases o with
  | none => rw [ho] at h; cases h
  | some o =>
  rw [ho] at h
  exact ⟨i, o, rfl, ho, by cases o <;> (cases h; rfl)⟩

theorem getSockfd_of {w : Sockets} {c i : Nat} {o : SockObj} (hc : w.conns[c]? = some (some (some i))) (ho : w.objs[i]? = some (some o)) (l : OsLog) :
    w.getSockfd c l = .ok o.fdOf l := by
  unfold Sockets.getSockfd
  rw [hc]
  dsimp only
  rw [ho]
  cases o <;> rfl

theorem close_closes {O : Os} {o : SockObj} {l0 l1 : OsLog} {q : Int × Bytes × SockObj} (h : o.op O (.close false) l0 = .ok q l1) (hf : o.fdOf ≠ -1) :
    ∃ l ok, l1 = l0 ++ l ∧ Sys.close o.fdOf ok ∈ l := by
  cases o with
  | tcp fd =>
    obtain ⟨a, m, h1, h2⟩ := bind_inv h
    cases h2
    obtain ⟨l, hl, hs⟩ := tcpOp_post O .close fd _ _ _ h1
    generalize a.1 = x at hs
    generalize a.2.1 = y at hs
    generalize a.2.2 = z at hs
    cases hs with
    | closeClosed h => exact absurd h hf
    | close _ => exact ⟨_, true, hl, by simp [SockObj.fdOf]⟩
    | closeFails _ => exact ⟨_, false, hl, by simp [SockObj.fdOf]⟩
  | tls s =>
    obtain ⟨a, m, h1, h2⟩ := bind_inv h
    cases h2
    obtain ⟨l, hl, hs⟩ := tlsOp_post O (.close false) s _ _ _ h1
    generalize a.1 = x at hs
    generalize a.2.1 = y at hs
    generalize a.2.2 = z at hs
    cases hs with
    | closeClosed h => exact absurd h hf
    | close _ _ => exact ⟨_, true, hl, by simp [SockObj.fdOf]⟩
    | closeFails _ _ => exact ⟨_, false, hl, by simp [SockObj.fdOf]⟩

theorem delete_closes {O : Os} {i : Nat} {o : SockObj} {w w' : Sockets} {l0 l1 : OsLog} (ho : w.objs[i]? = some (some o)) (hf : o.fdOf ≠ -1)
    (h : w.delete O (some i) l0 = .ok w' l1) : ∃ l ok, l1 = l0 ++ l ∧ Sys.close o.fdOf ok ∈ l := by
  unfold Sockets.delete at h
  dsimp only at h
  rw [ho] at h
  obtain ⟨q, m, h1, h2⟩ := bind_inv h
  cases h2
  exact close_closes h1 hf

theorem attach_closes {O : Os} {c : Nat} {p : SockObj} {f : Int} {w w' : Sockets} {l0 l1 : OsLog} (hg : w.getSockfd c l0 = .ok f l0) (hf : f ≠ -1)
    (h : w.attach O c p true l0 = .ok w' l1) : ∃ l ok, l1 = l0 ++ l ∧ Sys.close f ok ∈ l := by
  obtain ⟨i, o, hc, ho, he⟩ := getSockfd_inv hg hf
  unfold Sockets.attach Sockets.setSocket at h
  rw [if_pos rfl] at h
  dsimp only at h
  rw [hc] at h
  obtain ⟨w1, m, h1, h2⟩ := bind_inv h
  cases h2
  subst he
  exact delete_closes (w := { w with objs := w.objs ++ [some p] }) (snoc_get.mpr (Or.inl ho)) hf h1

theorem attach_get {O : Os} {c : Nat} {p : SockObj} {w w' : Sockets} {l0 l1 : OsLog} (ht : w.Tidy) (h : w.attach O c p true l0 = .ok w' l1) :
    w'.conns[c]? = some (some (some w.objs.length)) ∧ w'.objs[w.objs.length]? = some (some p) := by
  obtain ⟨_, old, _, hc, hw, _⟩ := attach_spec h ht
  rw [hw]
  exact ⟨set_get.mpr (Or.inl ⟨rfl, get_lt hc, rfl⟩), snoc_get.mpr (Or.inr ⟨(dropObj_length _ _).symm, rfl⟩)⟩

theorem replaced_spec {O : Os} {w w' : Sockets} {l l' : OsLog} {op : AppOp} {c : Nat} {f : Int} (ht : w.Tidy) (hf : w.getSockfd c l = .ok f l)
    (h1 : f ≠ -1) (hop : op = .tcpSocketNew c true ∨ op = .sslSocketNew c true ∨ (∃ g, op = .setSockfd c g true) ∨ op = .destroy c)
    (hs : op.step O w l = .ok w' l') :
    (∃ m ok, l' = l ++ m ∧ Sys.close f ok ∈ m) ∧
    (op = .tcpSocketNew c true ∨ op = .sslSocketNew c true → w'.getSockfd c l' = .ok (-1) l') ∧
    (∀ g, op = .setSockfd c g true → w'.getSockfd c l' = .ok g l') ∧ (op = .destroy c → ¬ w'.alive c) := by
  rcases hop with rfl | rfl | ⟨g, rfl⟩ | rfl
  · have hs : w.attach O c (.tcp (-1)) true l = .ok w' l' := hs
    obtain ⟨a, b⟩ := attach_get ht hs
    exact ⟨attach_closes hf h1 hs, fun _ => getSockfd_of a b l', nofun, nofun⟩
  · have hs : w.attach O c (.tls newTlsSock) true l = .ok w' l' := hs
    obtain ⟨a, b⟩ := attach_get ht hs
    exact ⟨attach_closes hf h1 hs, fun _ => getSockfd_of a b l', nofun, nofun⟩
  · obtain ⟨w1, m, h2, h3⟩ := bind_inv hs
    cases h3
    obtain ⟨a, b⟩ := attach_get ht h2
    refine ⟨attach_closes hf h1 h2, fun h => by simp at h, fun g' hg => ?_, nofun⟩
    cases hg
    exact getSockfd_of (w := { w1 with objs := w1.objs.set w.objs.length (some (.tcp g)) }) a (set_get.mpr (Or.inl ⟨rfl, get_lt b, rfl⟩)) l'
  · obtain ⟨i, o, hc, ho, he⟩ := getSockfd_inv hf h1
    have hs : w.destroy O c l = .ok w' l' := hs
    unfold Sockets.destroy at hs
    rw [hc] at hs
    obtain ⟨w1, m, h2, h3⟩ := bind_inv hs
    cases h3
    subst he
    refine ⟨delete_closes ho h1 h2, fun h => by simp at h, nofun, fun _ ⟨s, hc'⟩ => ?_⟩
    rcases set_get.mp hc' with ⟨_, _, h⟩ | ⟨h, _⟩
    · cases h
    · exact h rfl

end Rmq
