import Verif.Proofs.Os
/-!
# Consequences of the specification of connecting; the TCP socket
-/
namespace Rmq
open OsSpec

/-! ## Descriptors -/

theorem held_append (fd : Nat) (l m : List Sys) : held fd (l ++ m) = held fd l + held fd m := by
  induction l with
  | nil => simp [held]
  | cons e l ih =>
    cases e <;> simp only [List.cons_append, held, ih]
    case socket a f => cases f <;> simp only [held, ih]; omega
    case close f ok => omega

/-- neither opens nor closes a descriptor -/
def Sys.plain : Sys → Bool
  | .socket _ (some _) => false
  | .close _ _ => false
  | _ => true

theorem held_plain (fd : Nat) (l : List Sys) (h : ∀ e ∈ l, e.plain = true) : held fd l = 0 := by
  induction l with
  | nil => rfl
  | cons e l ih =>
    have h1 := h e (List.mem_cons_self ..)
    have h2 := ih fun e he => h e (List.mem_cons_of_mem _ he)
    cases e
    case socket a f => cases f <;> simp_all [held, Sys.plain]
    case close f ok => simp [Sys.plain] at h1
    all_goals simp only [held, h2]

theorem TimeLeft.plain {dl : Nat} {l : List Sys} {ms : Int} (h : TimeLeft dl l ms) : ∀ e ∈ l, e.plain = true := by
  cases h <;> simp [Sys.plain]

theorem Waited.plain {fd : Int} {ev : PollEv} {dl : Nat} {l : List Sys} {r : Int} (h : Waited fd ev dl l r) : ∀ e ∈ l, e.plain = true := by
  induction h with
  | ready h => intro e he; rcases List.mem_append.1 he with h' | h'; exact TimeLeft.plain h e h'; simp at h'; subst h'; rfl
  | timeout h => intro e he; rcases List.mem_append.1 he with h' | h'; exact TimeLeft.plain h e h'; simp at h'; subst h'; rfl
  | error h => intro e he; rcases List.mem_append.1 he with h' | h'; exact TimeLeft.plain h e h'; simp at h'; subst h'; rfl
  | noClock => simp [Sys.plain]
  | far => simp [Sys.plain]
  | intr h _ ih =>
    intro e he
    rcases List.mem_append.1 he with h' | h'
    · exact TimeLeft.plain h e h'
    · rcases List.mem_cons.1 h' with h' | h'
      · subst h'; rfl
      · exact ih e h'

theorem setup_plain (fd : Nat) : ∀ e ∈ setup fd, e.plain = true := by simp [setup, Sys.plain]

theorem Connected.plain {fd : Nat} {a : Addr} {dl : Nat} {l : List Sys} (h : Connected fd a dl l) : ∀ e ∈ l, e.plain = true := by
  cases h with
  | atOnce => simp [Sys.plain]
  | later h =>
    intro e he
    rcases List.mem_cons.1 he with h' | h'
    · subst h'; rfl
    · rcases List.mem_append.1 h' with h' | h'
      · exact Waited.plain h e h'
      · simp at h'; subst h'; rfl

theorem Failing.plain {fd : Nat} {a : Addr} {dl : Nat} {l : List Sys} {r : Int} (h : Failing fd a dl l r) : ∀ e ∈ l, e.plain = true := by
  cases h with
  | @opt pre o rest h =>
    intro e he
    rcases List.mem_append.1 he with h' | h'
    · exact setup_plain fd e (by rw [h]; exact List.mem_append_left _ h')
    · simp at h'; subst h'; rfl
  | refused =>
    intro e he
    rcases List.mem_append.1 he with h' | h'
    · exact setup_plain fd e h'
    · simp at h'; subst h'; rfl
  | waiting hw _ =>
    intro e he
    rcases List.mem_append.1 he with h' | h'
    · exact setup_plain fd e h'
    · rcases List.mem_cons.1 h' with h' | h'
      · subst h'; rfl
      · exact Waited.plain hw e h'
  | soError hw _ =>
    intro e he
    rcases List.mem_append.1 he with h' | h'
    · exact setup_plain fd e h'
    · rcases List.mem_cons.1 h' with h' | h'
      · subst h'; rfl
      · rcases List.mem_append.1 h' with h' | h'
        · exact Waited.plain hw e h'
        · simp at h'; subst h'; rfl

theorem Attempt.held {a : Addr} {dl : Nat} {l : List Sys} {r : Int} (h : Attempt a dl l r) (fd : Nat) :
    OsSpec.held fd l = if r = (fd : Int) then 1 else 0 := by
  cases h with
  | noSocket =>
    rw [if_neg (by simp only [St.SOCKET_ERROR]; omega)]
    rfl
  | @connected f m h =>
    simp only [OsSpec.held, held_append, held_plain fd _ (setup_plain f), held_plain fd _ (Connected.plain h)]
    by_cases hf : f = fd
    · subst hf; simp
    · rw [if_neg hf, if_neg (by omega)]; rfl
  | @failed f m r ok h =>
    have hr := h.neg
    simp only [OsSpec.held, held_append, held_plain fd _ (Failing.plain h)]
    rw [if_neg (show ¬ r = (fd : Int) by omega)]
    by_cases hf : f = fd
    · subst hf; simp
    · rw [if_neg hf, if_neg (by omega)]; rfl

theorem Tries.held {dl : Nat} {as : List Addr} {l : List Sys} {r : Int} (h : Tries dl as l r) (fd : Nat) :
    OsSpec.held fd l = if r = (fd : Int) then 1 else 0 := by
  induction h with
  | found h => exact Attempt.held h fd
  | timeout h => exact Attempt.held h fd
  | next h hr _ _ ih => rw [held_append, Attempt.held h fd, if_neg (show ¬ _ by omega), ih]; omega
  | last h _ _ => exact Attempt.held h fd

/-! ## Polls and the deadline -/

/-- every poll has its argument from a clock reading just before it, or needs none -/
def PollsTimed (dl : Nat) (l : List Sys) : Prop :=
  ∀ pre fd ev ms a post, l = pre ++ .poll fd ev ms a :: post → ∃ pre' c, pre = pre' ++ c ∧ TimeLeft dl c ms

theorem PollsTimed.append {dl : Nat} {l m : List Sys} (hl : PollsTimed dl l) (hm : PollsTimed dl m) : PollsTimed dl (l ++ m) := by
  intro pre fd ev ms a post h
  rcases List.append_eq_append_iff.1 h with ⟨t, h1, h2⟩ | ⟨t, h1, h2⟩
  · obtain ⟨p', c, h3, h4⟩ := hm t fd ev ms a post h2
    exact ⟨l ++ p', c, by rw [h1, h3, List.append_assoc], h4⟩
  · cases t with
    | nil =>
      rw [List.nil_append] at h2
      obtain ⟨p', c, h3, h4⟩ := hm [] fd ev ms a post (by rw [List.nil_append]; exact h2.symm)
      have : p' = [] ∧ c = [] := by simpa using h3.symm
      refine ⟨pre, [], by simp, ?_⟩
      rw [this.2] at h4; exact h4
    | cons x t =>
      simp only [List.cons_append, List.cons.injEq] at h2
      obtain ⟨h2, h3⟩ := h2
      subst h2
      exact hl pre fd ev ms a t h1

theorem PollsTimed.none {dl : Nat} {l : List Sys} (h : ∀ fd ev ms a, Sys.poll fd ev ms a ∉ l) : PollsTimed dl l := by
  intro pre fd ev ms a post e
  exact absurd (by rw [e]; simp) (h fd ev ms a)

theorem PollsTimed.one {dl : Nat} {c : List Sys} {ms : Int} (h : TimeLeft dl c ms) (fd : Int) (ev : PollEv) (a : PollAns) :
    PollsTimed dl (c ++ [.poll fd ev ms a]) := by
  intro pre fd' ev' ms' a' post e
  rcases List.append_eq_append_iff.1 e with ⟨t, h1, h2⟩ | ⟨t, h1, h2⟩
  · have : t = [] := by
      cases t with
      | nil => rfl
      | cons x t => simp at h2
    subst this
    simp only [List.nil_append, List.cons.injEq, Sys.poll.injEq] at h2
    obtain ⟨⟨_, _, rfl, _⟩, _⟩ := h2
    exact ⟨[], c, by simp [h1], h⟩
  · cases t with
    | nil =>
      simp only [List.nil_append, List.cons.injEq, Sys.poll.injEq] at h2
      obtain ⟨⟨_, _, rfl, _⟩, _⟩ := h2
      exact ⟨[], c, by simp [h1], h⟩
    | cons x t =>
      exfalso
      have hm : Sys.poll fd' ev' ms' a' ∈ c := by
        simp only [List.cons_append, List.cons.injEq] at h2
        rw [h1, h2.1]; simp
      cases h <;> simp at hm

theorem Waited.timed {fd : Int} {ev : PollEv} {dl : Nat} {l : List Sys} {r : Int} (h : Waited fd ev dl l r) : PollsTimed dl l := by
  induction h with
  | ready h => exact .one h _ _ _
  | timeout h => exact .one h _ _ _
  | error h => exact .one h _ _ _
  | noClock => exact .none (by simp)
  | far => exact .none (by simp)
  | @intr l ms m r h _ ih =>
    have := (PollsTimed.one h fd ev .intr).append ih
    simpa using this

theorem setup_timed (dl fd : Nat) : PollsTimed dl (setup fd) := .none (by simp [setup])

theorem Attempt.timed {a : Addr} {dl : Nat} {l : List Sys} {r : Int} (h : Attempt a dl l r) : PollsTimed dl l := by
  have hs (fd : Nat) : PollsTimed dl (Sys.socket a (some fd) :: setup fd) := .none (by simp [setup])
  cases h with
  | noSocket => exact .none (by simp)
  | @connected fd m h =>
    cases h with
    | atOnce => exact .none (by simp [setup])
    | @later w h =>
      have := ((hs fd).append (.none (l := [.connect fd a .inProgress]) (by simp))).append
        ((Waited.timed h).append (.none (l := [.soError fd (some 0)]) (by simp)))
      simpa using this
  | @failed fd m r ok h =>
    cases h with
    | @opt pre o rest h =>
      refine .none fun f ev ms x hx => ?_
      have hp : Sys.poll f ev ms x ∉ pre := fun hp => by
        have : Sys.poll f ev ms x ∈ setup fd := by rw [h]; exact List.mem_append_left _ hp
        simp [setup] at this
      simp at hx
      exact hp hx
    | refused => exact .none (by simp [setup])
    | @waiting w r h _ =>
      have := ((hs fd).append (.none (l := [.connect fd a .inProgress]) (by simp))).append
        ((Waited.timed h).append (.none (l := [.close fd ok]) (by simp)))
      simpa using this
    | @soError w e h _ =>
      have := ((hs fd).append (.none (l := [.connect fd a .inProgress]) (by simp))).append
        ((Waited.timed h).append (.none (l := [.soError fd e, .close fd ok]) (by simp)))
      simpa using this

theorem Tries.timed {dl : Nat} {as : List Addr} {l : List Sys} {r : Int} (h : Tries dl as l r) : PollsTimed dl l := by
  induction h with
  | found h => exact Attempt.timed h
  | timeout h => exact Attempt.timed h
  | next h _ _ _ ih => exact (Attempt.timed h).append ih
  | last h _ _ => exact Attempt.timed h

/-- a poll that timed out -/
def Sys.isTO : Sys → Bool
  | .poll _ _ _ .timeout => true
  | _ => false

theorem TimeLeft.noTO {dl : Nat} {l : List Sys} {ms : Int} (h : TimeLeft dl l ms) : ∀ e ∈ l, e.isTO = false := by
  cases h <;> simp [Sys.isTO]

theorem Waited.to {fd : Int} {ev : PollEv} {dl : Nat} {l : List Sys} {r : Int} (h : Waited fd ev dl l r) :
    ((∀ e ∈ l, e.isTO = false) ∧ (r = St.TIMEOUT → ∃ now, .clock now ∈ l ∧ Far now dl)) ∨
    (r = St.TIMEOUT ∧ ∃ l' ms, l = l' ++ [.poll fd ev ms .timeout] ∧ ∀ e ∈ l', e.isTO = false) := by
  have app : ∀ {l m : List Sys}, (∀ e ∈ l, e.isTO = false) → (∀ e ∈ m, e.isTO = false) → ∀ e ∈ l ++ m, e.isTO = false :=
    fun hl hm e he => (List.mem_append.1 he).elim (hl e) (hm e)
  induction h with
  | ready h => exact Or.inl ⟨app (TimeLeft.noTO h) (by simp [Sys.isTO]), by intro h; cases h⟩
  | timeout h => exact Or.inr ⟨rfl, _, _, rfl, TimeLeft.noTO h⟩
  | error h => exact Or.inl ⟨app (TimeLeft.noTO h) (by simp [Sys.isTO]), by intro h; cases h⟩
  | noClock => exact Or.inl ⟨by simp [Sys.isTO], by intro h; cases h⟩
  | far now r _ hf _ => exact Or.inl ⟨by simp [Sys.isTO], fun _ => ⟨now, by simp, hf⟩⟩
  | @intr l ms m r h _ ih =>
    have hpre : ∀ e ∈ l ++ [Sys.poll fd ev ms .intr], e.isTO = false := app (TimeLeft.noTO h) (by simp [Sys.isTO])
    rcases ih with ⟨h1, h2⟩ | ⟨h1, l', ms', h2, h3⟩
    · left
      refine ⟨?_, fun hr => ?_⟩
      · have := app hpre h1; simpa using this
      · obtain ⟨now, h4, h5⟩ := h2 hr
        exact ⟨now, by simp [h4], h5⟩
    · right
      refine ⟨h1, l ++ .poll fd ev ms .intr :: l', ms', by simp [h2], ?_⟩
      have := app hpre h3; simpa using this

theorem setup_noTO (fd : Nat) : ∀ e ∈ setup fd, e.isTO = false := by simp [setup, Sys.isTO]

/-- at most one poll timed out; then its descriptor was closed and nothing else happened -/
def EndsAtTimeout (dl : Nat) (l : List Sys) (r : Int) : Prop :=
  ((∀ e ∈ l, e.isTO = false) ∧ (r = St.TIMEOUT → ∃ now, .clock now ∈ l ∧ Far now dl)) ∨
  (r = St.TIMEOUT ∧ ∃ l' fd ev ms ok, l = l' ++ [.poll fd ev ms .timeout, .close fd ok] ∧ ∀ e ∈ l', e.isTO = false)

theorem Attempt.to {a : Addr} {dl : Nat} {l : List Sys} {r : Int} (h : Attempt a dl l r) : EndsAtTimeout dl l r := by
  have app : ∀ {l m : List Sys}, (∀ e ∈ l, e.isTO = false) → (∀ e ∈ m, e.isTO = false) → ∀ e ∈ l ++ m, e.isTO = false :=
    fun hl hm e he => (List.mem_append.1 he).elim (hl e) (hm e)
  have hs (fd : Nat) : ∀ e ∈ Sys.socket a (some fd) :: (setup fd ++ [.connect fd a .inProgress]), e.isTO = false := by simp [setup, Sys.isTO]
  have hok : St.OK ≠ St.TIMEOUT := by decide
  cases h with
  | noSocket => exact Or.inl ⟨by simp [Sys.isTO], by intro h; cases h⟩
  | @connected fd m h =>
    have hr : ¬ (fd : Int) = St.TIMEOUT := by simp only [St.TIMEOUT]; omega
    cases h with
    | atOnce => exact Or.inl ⟨by simp [setup, Sys.isTO], fun h => absurd h hr⟩
    | @later w h =>
      rcases Waited.to h with ⟨h1, _⟩ | ⟨h1, _⟩
      · refine Or.inl ⟨?_, fun h => absurd h hr⟩
        have := app (hs fd) (app h1 (show ∀ e ∈ [Sys.soError fd (some 0)], e.isTO = false by simp [Sys.isTO]))
        simpa using this
      · exact absurd h1 hok
  | @failed fd m r ok h =>
    cases h with
    | @opt pre o rest h =>
      refine Or.inl ⟨fun e he => ?_, by intro h; cases h⟩
      have hp : ∀ e ∈ pre, e.isTO = false := fun e hp => setup_noTO fd e (by rw [h]; exact List.mem_append_left _ hp)
      simp at he
      rcases he with rfl | he | rfl | rfl
      · rfl
      · exact hp e he
      · rfl
      · rfl
    | refused => exact Or.inl ⟨by simp [setup, Sys.isTO], by intro h; cases h⟩
    | @waiting w r h _ =>
      rcases Waited.to h with ⟨h1, h2⟩ | ⟨h1, l', ms, h2, h3⟩
      · refine Or.inl ⟨?_, fun hr => ?_⟩
        · have := app (hs fd) (app h1 (show ∀ e ∈ [Sys.close fd ok], e.isTO = false by simp [Sys.isTO]))
          simpa using this
        · obtain ⟨now, h4, h5⟩ := h2 hr
          exact ⟨now, by simp [h4], h5⟩
      · refine Or.inr ⟨h1, (Sys.socket a (some fd) :: (setup fd ++ [.connect fd a .inProgress])) ++ l', fd, .pollOut, ms, ok, ?_, app (hs fd) h3⟩
        rw [h2]; simp
    | @soError w e h _ =>
      rcases Waited.to h with ⟨h1, _⟩ | ⟨h1, _⟩
      · refine Or.inl ⟨?_, by intro h; cases h⟩
        have := app (hs fd) (app h1 (show ∀ x ∈ [Sys.soError fd e, Sys.close fd ok], x.isTO = false by simp [Sys.isTO]))
        simpa using this
      · exact absurd h1 hok

theorem Tries.to {dl : Nat} {as : List Addr} {l : List Sys} {r : Int} (h : Tries dl as l r) : EndsAtTimeout dl l r := by
  have app : ∀ {l m : List Sys}, (∀ e ∈ l, e.isTO = false) → (∀ e ∈ m, e.isTO = false) → ∀ e ∈ l ++ m, e.isTO = false :=
    fun hl hm e he => (List.mem_append.1 he).elim (hl e) (hm e)
  induction h with
  | found h => exact Attempt.to h
  | timeout h => exact Attempt.to h
  | next h _ ht _ ih =>
    have hn := ((Attempt.to h).resolve_right fun h => ht h.1).1
    rcases ih with ⟨h1, h2⟩ | ⟨h1, l', fd, ev, ms, ok, h2, h3⟩
    · refine Or.inl ⟨app hn h1, fun hr => ?_⟩
      obtain ⟨now, h4, h5⟩ := h2 hr
      exact ⟨now, List.mem_append_right _ h4, h5⟩
    · exact Or.inr ⟨h1, _, fd, ev, ms, ok, by rw [h2, List.append_assoc], app hn h3⟩
  | last h _ _ => exact Attempt.to h

theorem EndsAtTimeout.split {dl : Nat} {l : List Sys} {r : Int} (h : EndsAtTimeout dl l r) {pre post : List Sys} {fd : Int} {ev : PollEv}
    {ms : Int} (e : l = pre ++ .poll fd ev ms .timeout :: post) : r = St.TIMEOUT ∧ ∃ ok, post = [.close fd ok] := by
  rcases h with ⟨h, _⟩ | ⟨hr, l', fd', ev', ms', ok, h, hn⟩
  · have := h (.poll fd ev ms .timeout) (by rw [e]; simp)
    simp [Sys.isTO] at this
  · refine ⟨hr, ?_⟩
    rw [h] at e
    rcases List.append_eq_append_iff.1 e with ⟨t, h1, h2⟩ | ⟨t, h1, h2⟩
    · rcases t with _ | ⟨x, _ | ⟨y, t⟩⟩
      · simp only [List.nil_append, List.cons.injEq, Sys.poll.injEq] at h2
        obtain ⟨⟨rfl, rfl, rfl, _⟩, h2⟩ := h2
        exact ⟨ok, h2.symm⟩
      · simp at h2
      · simp at h2
    · rcases t with _ | ⟨x, t⟩
      · simp only [List.nil_append, List.cons.injEq, Sys.poll.injEq] at h2
        obtain ⟨⟨rfl, rfl, rfl, _⟩, h2⟩ := h2
        exact ⟨ok, h2⟩
      · simp only [List.cons_append, List.cons.injEq] at h2
        have := hn (.poll fd ev ms .timeout) (by rw [h1, h2.1]; simp)
        simp [Sys.isTO] at this

/-! ## The TCP socket -/

theorem tcpSendLoop_post (O : Os) (fd : Int) (buf : Bytes) (more : Bool) (n : Nat) :
    OsPost (tcpSendLoop O fd buf more n) (fun r l => Sends fd buf more l r) := by
  induction n with
  | zero => exact OsPost.fuel
  | succ n ih =>
    unfold tcpSendLoop
    refine OsPost.sysBind fun a => ?_
    cases a with
    | sent k => exact OsPost.pure (.sent k)
    | again => exact OsPost.pure .again
    | error => exact OsPost.pure .error
    | intr => exact ih.mono fun r l h => .intr h

theorem tcpRecvLoop_post (O : Os) (fd : Int) (len : Nat) (n : Nat) :
    OsPost (tcpRecvLoop O fd len n) (fun r l => Receives fd len l r.1 r.2) := by
  induction n with
  | zero => exact OsPost.fuel
  | succ n ih =>
    unfold tcpRecvLoop
    refine OsPost.sysBind fun a => ?_
    cases a with
    | data b =>
      cases b with
      | nil => exact OsPost.pure .eof
      | cons x b => exact OsPost.pure (.data (x :: b) (by simp))
    | again => exact OsPost.pure .again
    | error => exact OsPost.pure .error
    | intr => exact ih.mono fun r l h => .intr h

theorem Deadline.neg {tv : Option TimeVal} {l : List Sys} {e : Int} (h : Deadline tv l (.error e)) : e < 0 := by
  cases h with
  | negative => decide
  | noClock => decide
  | tooFar => decide
  | wraps _ _ _ _ _ _ h => exact h e rfl

theorem Tries.range {dl : Nat} {as : List Addr} {l : List Sys} {r : Int} (h : Tries dl as l r) : r < -1 ∨ ∃ fd : Nat, r = fd := by
  induction h with
  | found h => exact h.range
  | timeout h => exact h.range
  | next _ _ _ _ ih => exact ih
  | last h _ _ => exact h.range

theorem Opens.range {dl : Nat} {host : Bytes} {port : Int} {l : List Sys} {r : Int} (h : Opens dl host port l r) :
    r < 0 ∨ ∃ fd : Nat, r = fd := by
  cases h with
  | unresolved => left; decide
  | empty => exact Or.inr ⟨0, rfl⟩
  | tried h =>
    rcases Tries.range h with h | h
    · left; omega
    · exact Or.inr h

theorem openSocketNoblock_post (O : Os) (host : Bytes) (port : Int) (tv : Option TimeVal) :
    OsPost (openSocketNoblock O host port tv) (fun r l => Deadline tv l (.error r) ∨
      ∃ l1 l2 dl, l = l1 ++ l2 ∧ Deadline tv l1 (.ok dl) ∧ Opens dl host port l2 r) := by
  unfold openSocketNoblock
  refine OsPost.bind (osTimeFromNow_post O tv) fun d l hd => ?_
  cases d with
  | error e =>
    refine OsPost.pure (Or.inl ?_)
    rw [List.append_nil]; exact hd
  | ok dl => exact (openSocketInner_post O host port dl).mono fun r l' h => Or.inr ⟨l, l', dl, rfl, hd, h⟩

theorem openSocketNoblock_total (O : Os) (host : Bytes) (port : Int) (tv : Option TimeVal) : OsTotal (openSocketNoblock O host port tv) := by
  unfold openSocketNoblock
  refine (osTimeFromNow_ret O tv).total.bind fun d => ?_
  cases d with
  | error e => exact OsTotal.pure
  | ok dl => exact openSocketInner_total O host port dl

theorem tcpOp_post (O : Os) (op : TcpOp) (fd : Int) : OsPost (tcpOp O op fd) (fun r l => Step fd op l r.1 r.2.1 r.2.2) := by
  unfold tcpOp
  cases op with
  | send buf more =>
    refine OsPost.bind (P := fun r l => Step fd (.send buf more) l r [] fd) ?_ fun r l h => OsPost.pure (by rw [List.append_nil]; exact h)
    unfold tcpSend
    by_cases hf : -1 = fd
    · rw [if_pos hf]; exact OsPost.pure (.sendClosed hf.symm)
    · rw [if_neg hf]; exact (tcpSendLoop_post O fd buf more O.fuel).mono fun r l h => .send (Ne.symm hf) h
  | recv len =>
    refine OsPost.bind (P := fun r l => Step fd (.recv len) l r.1 r.2 fd) ?_ fun r l h => OsPost.pure (by rw [List.append_nil]; exact h)
    unfold tcpRecv
    by_cases hf : -1 = fd
    · rw [if_pos hf]; exact OsPost.pure (.recvClosed hf.symm)
    · rw [if_neg hf]; exact (tcpRecvLoop_post O fd len O.fuel).mono fun r l h => .recv (Ne.symm hf) h
  | «open» host port tv =>
    refine OsPost.bind (P := fun r l => Step fd (.open host port tv) l r.1 [] r.2) ?_ fun r l h => OsPost.pure (by rw [List.append_nil]; exact h)
    unfold tcpOpen
    by_cases hf : -1 = fd
    · rw [if_neg (by simpa using hf)]
      refine OsPost.bind (openSocketNoblock_post O host port tv) fun r l h => ?_
      rcases h with h | ⟨l1, l2, dl, rfl, h1, h2⟩
      · rw [if_pos (Deadline.neg h)]
        exact OsPost.pure (by rw [List.append_nil]; exact .openNoDeadline hf.symm h)
      · rcases Opens.range h2 with hr | ⟨f, rfl⟩
        · rw [if_pos hr]
          exact OsPost.pure (by rw [List.append_nil]; exact .openFails hf.symm h1 h2 hr)
        · rw [if_neg (by omega)]
          exact OsPost.pure (by rw [List.append_nil]; exact .opens hf.symm h1 h2)
    · rw [if_pos (by simpa using hf)]
      exact OsPost.pure (.openInUse (Ne.symm hf))
  | close =>
    refine OsPost.bind (P := fun r l => Step fd .close l r.1 [] r.2) ?_ fun r l h => OsPost.pure (by rw [List.append_nil]; exact h)
    unfold tcpClose
    by_cases hf : -1 = fd
    · rw [if_pos hf]; exact OsPost.pure (.closeClosed hf.symm)
    · rw [if_neg hf]
      refine OsPost.sysBind fun ok => ?_
      cases ok with
      | false => exact OsPost.pure (.closeFails (Ne.symm hf))
      | true => exact OsPost.pure (.close (Ne.symm hf))
  | setFd f => exact OsPost.pure (.setFd f)
  | getFd => exact OsPost.pure .getFd

theorem tcpRun_post (O : Os) : ∀ (ops : List TcpOp) (fd : Int), OsPost (tcpRun O ops fd) (fun r l => OsSpec.Steps fd ops l r.1 r.2)
  | [], fd => by unfold tcpRun; exact OsPost.pure .nil
  | op :: rest, fd => by
    unfold tcpRun
    refine OsPost.bind (tcpOp_post O op fd) fun r l h => ?_
    obtain ⟨r, b, fd'⟩ := r
    refine OsPost.bind (tcpRun_post O rest fd') fun p l' h' => ?_
    obtain ⟨rs, fd''⟩ := p
    exact OsPost.pure (by rw [List.append_nil]; exact .cons h h')

theorem tcpSendLoop_total (O : Os) (fd : Int) (buf : Bytes) (more : Bool) (n : Nat) : OsTotal (tcpSendLoop O fd buf more n) := by
  induction n with
  | zero => exact OsTotal.fuel
  | succ n ih =>
    unfold tcpSendLoop
    refine OsTotal.sys.bind fun a => ?_
    cases a <;> first | exact OsTotal.pure | exact ih

theorem tcpRecvLoop_total (O : Os) (fd : Int) (len : Nat) (n : Nat) : OsTotal (tcpRecvLoop O fd len n) := by
  induction n with
  | zero => exact OsTotal.fuel
  | succ n ih =>
    unfold tcpRecvLoop
    refine OsTotal.sys.bind fun a => ?_
    cases a with
    | data b => dsimp only; split <;> exact OsTotal.pure
    | intr => exact ih
    | again => exact OsTotal.pure
    | error => exact OsTotal.pure

theorem tcpOp_total (O : Os) (op : TcpOp) (fd : Int) : OsTotal (tcpOp O op fd) := by
  unfold tcpOp
  cases op with
  | send buf more =>
    refine OsTotal.bind ?_ fun _ => OsTotal.pure
    unfold tcpSend; split; exact OsTotal.pure; exact tcpSendLoop_total _ _ _ _ _
  | recv len =>
    refine OsTotal.bind ?_ fun _ => OsTotal.pure
    unfold tcpRecv; split; exact OsTotal.pure; exact tcpRecvLoop_total _ _ _ _
  | «open» host port tv =>
    refine OsTotal.bind ?_ fun _ => OsTotal.pure
    unfold tcpOpen; split
    · exact OsTotal.pure
    · refine (openSocketNoblock_total O host port tv).bind fun r => ?_
      split <;> exact OsTotal.pure
  | close =>
    refine OsTotal.bind ?_ fun _ => OsTotal.pure
    unfold tcpClose; split
    · exact OsTotal.pure
    · refine OsTotal.sys.bind fun r => ?_
      split <;> exact OsTotal.pure
  | setFd f => exact OsTotal.pure
  | getFd => exact OsTotal.pure

end Rmq
