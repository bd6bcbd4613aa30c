import Verif.Spec.Tools
/-! Lemmas about the tools. -/
namespace Rmq.ToolsM
open Rmq.ToolsSpec

/-- The acts of a run: `Q` of those of a normal return, `X` of those of an exit. -/
def Ext {α : Type} (p : Proc) (r : Res Proc α) (Q : List Act → α → Prop) (X : List Act → Prop) : Prop :=
  match r with
  | .ok a p' => ∃ seg, p'.acts = p.acts ++ seg ∧ Q seg a
  | .err e p' => e = 1 ∧ ∃ seg, p'.acts = p.acts ++ seg ∧ X seg
  | _ => True

theorem Ext.bind {α β : Type} {p : Proc} {x : M Proc α} {f : α → M Proc β} {Q₁ : List Act → α → Prop} {X₁ : List Act → Prop}
    {Q : List Act → β → Prop} {X : List Act → Prop} (hx : Ext p (x p) Q₁ X₁)
    (hf : ∀ a seg p', Q₁ seg a → p'.acts = p.acts ++ seg → Ext p' (f a p') (fun s b => Q (seg ++ s) b) (fun s => X (seg ++ s)))
    (hX : ∀ seg, X₁ seg → X seg) : Ext p ((x >>= f) p) Q X := by
  rw [M.bind_def]
  cases h : x p with
  | ok a p' =>
    rw [h] at hx
    obtain ⟨seg, h1, h2⟩ := hx
    have h3 := hf a seg p' h2 h1
    show Ext p (f a p') Q X
    cases h4 : f a p' with
    | ok b p'' =>
      rw [h4] at h3
      obtain ⟨s, h5, h6⟩ := h3
      exact ⟨seg ++ s, by rw [h5, h1, List.append_assoc], h6⟩
    | err e p'' =>
      rw [h4] at h3
      obtain ⟨he, s, h5, h6⟩ := h3
      exact ⟨he, seg ++ s, by rw [h5, h1, List.append_assoc], h6⟩
    | ub => trivial
    | fuel => trivial
  | err e p' =>
    rw [h] at hx
    obtain ⟨he, seg, h1, h2⟩ := hx
    exact ⟨he, seg, h1, hX _ h2⟩
  | ub => trivial
  | fuel => trivial

theorem Ext.mono {α : Type} {p : Proc} {r : Res Proc α} {Q Q' : List Act → α → Prop} {X X' : List Act → Prop}
    (h : Ext p r Q X) (hQ : ∀ s a, Q s a → Q' s a) (hX : ∀ s, X s → X' s) : Ext p r Q' X' := by
  cases r with
  | ok a p' => obtain ⟨s, h1, h2⟩ := h; exact ⟨s, h1, hQ _ _ h2⟩
  | err e p' => obtain ⟨he, s, h1, h2⟩ := h; exact ⟨he, s, h1, hX _ h2⟩
  | ub => trivial
  | fuel => trivial

theorem Ext.pure {α : Type} {p : Proc} (a : α) {Q : List Act → α → Prop} {X : List Act → Prop} (h : Q [] a) :
    Ext p ((Pure.pure a : M Proc α) p) Q X := ⟨[], by simp, h⟩

theorem Ext.die {α : Type} {p : Proc} {Q : List Act → α → Prop} {X : List Act → Prop} (h : X []) :
    Ext p ((ToolsM.die : M Proc α) p) Q X := ⟨rfl, [], by simp, h⟩

theorem Ext.act {p : Proc} (a : Act) {Q : List Act → Unit → Prop} {X : List Act → Prop} (h : Q [a] ()) :
    Ext p (ToolsM.act a p) Q X := ⟨[a], rfl, h⟩

theorem Ext.orDie {α : Type} {p : Proc} (x : M App α) {Q : List Act → α → Prop} {X : List Act → Prop} (hQ : ∀ a, Q [] a) (hX : X []) :
    Ext p (ToolsM.orDie x p) Q X := by
  unfold ToolsM.orDie
  cases x p.app with
  | ok a s => exact ⟨[], by simp, hQ a⟩
  | err e s =>
    by_cases h : e < 0
    · simp only [if_pos h]; exact ⟨rfl, [], by simp, hX⟩
    · simp only [if_neg h]; trivial
  | ub => trivial
  | fuel => trivial

/-- One act, then the rest. -/
theorem Ext.step {α : Type} {p : Proc} {a : Act} {r : Res Proc α} {Q : List Act → α → Prop} {X : List Act → Prop}
    (h : Ext (p.push a) r (fun s b => Q (a :: s) b) (fun s => X (a :: s))) : Ext p r Q X := by
  cases r with
  | ok b p' => obtain ⟨s, h1, h2⟩ := h; exact ⟨a :: s, by rw [h1]; simp [Proc.push], h2⟩
  | err e p' => obtain ⟨he, s, h1, h2⟩ := h; exact ⟨he, a :: s, by rw [h1]; simp [Proc.push], h2⟩
  | ub => trivial
  | fuel => trivial

/-! ### Observers distribute -/

theorem inputOf_append (a b : List Act) : inputOf (a ++ b) = inputOf a ++ inputOf b := by
  induction a with
  | nil => rfl
  | cons x l ih => cases x <;> simp [inputOf, ih]
theorem outputOf_append (fd : Nat) (a b : List Act) : outputOf fd (a ++ b) = outputOf fd a ++ outputOf fd b := by
  induction a with
  | nil => rfl
  | cons x l ih =>
    cases x <;> simp [outputOf, ih]
    split <;> simp
theorem framesOf_append (a b : List Act) : framesOf (a ++ b) = framesOf a ++ framesOf b := by
  induction a with
  | nil => rfl
  | cons x l ih => cases x <;> simp [framesOf, ih]
theorem bodyOf_append (a b : List AFrame) : bodyOf (a ++ b) = bodyOf a ++ bodyOf b := by
  induction a with
  | nil => rfl
  | cons x l ih => simp [bodyOf, ih]
theorem publishedOf_append (a b : List Act) : publishedOf (a ++ b) = publishedOf a ++ publishedOf b := by
  induction a with
  | nil => rfl
  | cons x l ih => cases x <;> simp [publishedOf, ih]

/-! ### Reading -/

/-- An act of read_all other than the read that meets the end of the file. -/
def ReadAct (a : Act) : Prop := (∀ k, a ≠ .read k []) ∧ publishedOf [a] = []

theorem readLoop_ext (S : Shell) (n : Nat) : ∀ (space : Nat) (ok : Bool) (buf : Bytes) (p : Proc), buf.length < space →
    Ext p (readLoop S n space ok buf p)
      (fun seg r => ∃ seg' asked, seg = seg' ++ [.read asked []] ∧ 0 < asked ∧ r.1 = buf ++ inputOf seg' ∧
        (∀ a ∈ seg', ReadAct a))
      (fun seg => ∃ seg', seg = seg' ++ [.readFail]) := by
  induction n with
  | zero => intros; trivial
  | succ n ih =>
    intro space ok buf p hb
    unfold readLoop
    cases hr : S.read p.acts.length with
    | intr =>
      refine Ext.step (Ext.mono (ih space ok buf _ hb) ?_ ?_)
      · rintro s a ⟨s', k, rfl, h1, h2, h3⟩
        exact ⟨.readFail :: s', k, rfl, h1, by simpa [inputOf] using h2, by
          intro a ha; rcases List.mem_cons.1 ha with rfl | ha
          · exact ⟨fun k h => (nomatch h), rfl⟩
          · exact h3 a ha⟩
      · rintro s ⟨s', rfl⟩; exact ⟨.readFail :: s', rfl⟩
    | error => exact ⟨rfl, [.readFail], rfl, [], rfl⟩
    | data b =>
      dsimp only
      by_cases hg : b.take (space - buf.length) = []
      · rw [if_pos hg]
        exact ⟨[.read (space - buf.length) []], rfl, [], _, rfl, by omega, by simp [inputOf], by simp⟩
      rw [if_neg hg]
      cases ok with
      | false => exact ⟨rfl, [.readFail], rfl, [], rfl⟩
      | true =>
        rw [if_neg (by decide)]
        have key : ∀ (l : List Act) (s' : List Act) (r : Bytes), inputOf l = [] → (∀ a ∈ l, ReadAct a) →
            r = (buf ++ b.take (space - buf.length)) ++ inputOf s' → (∀ a ∈ s', ReadAct a) →
            r = buf ++ inputOf (.read (space - buf.length) (b.take (space - buf.length)) :: (l ++ s')) ∧
            ∀ a ∈ (.read (space - buf.length) (b.take (space - buf.length)) :: (l ++ s')), ReadAct a := by
          intro l s' r hl hl' hr hs'
          refine ⟨by simp [inputOf, inputOf_append, hl, hr], ?_⟩
          intro a ha
          rcases List.mem_cons.1 ha with rfl | ha
          · exact ⟨fun k h => by injection h with _ h; exact hg h, rfl⟩
          · rcases List.mem_append.1 ha with ha | ha
            · exact hl' a ha
            · exact hs' a ha
        have hlen : (b.take (space - buf.length)).length ≤ space - buf.length := by
          rw [List.length_take]; omega
        by_cases hs : (buf ++ b.take (space - buf.length)).length = space
        · rw [if_pos hs]
          refine Ext.step (Ext.step (Ext.mono (ih _ _ _ _ (by omega)) ?_ ?_))
          · rintro s a ⟨s', k, rfl, h1, h2, h3⟩
            exact ⟨.read _ _ :: .alloc _ :: s', k, rfl, h1, key [.alloc _] s' a.1 rfl (by simp [ReadAct, publishedOf]) h2 h3⟩
          · rintro s ⟨s', rfl⟩; exact ⟨_ :: _ :: s', rfl⟩
        · rw [if_neg hs]
          refine Ext.step (Ext.mono (ih _ _ _ _ ?_) ?_ ?_)
          · rw [List.length_append] at hs ⊢; omega
          · rintro s a ⟨s', k, rfl, h1, h2, h3⟩
            exact ⟨.read _ _ :: s', k, rfl, h1, key [] s' a.1 rfl (by simp) h2 h3⟩
          · rintro s ⟨s', rfl⟩; exact ⟨_ :: s', rfl⟩

theorem readAll_ext (S : Shell) (p : Proc) :
    Ext p (readAll S p)
      (fun seg r => ∃ seg' asked, seg = seg' ++ [.read asked []] ∧ 0 < asked ∧ r.1 = inputOf seg' ∧ (∀ a ∈ seg', ReadAct a))
      (fun seg => ∃ seg', seg = seg' ++ [.readFail]) := by
  unfold readAll
  refine Ext.step (Ext.mono (readLoop_ext S _ _ _ _ _ (by simp)) ?_ ?_)
  · rintro s a ⟨s', k, rfl, h1, h2, h3⟩
    refine ⟨.alloc _ :: s', k, rfl, h1, by simpa [inputOf] using h2, ?_⟩
    intro a ha; rcases List.mem_cons.1 ha with rfl | ha
    · exact ⟨fun k h => (nomatch h), rfl⟩
    · exact h3 a ha
  · rintro s ⟨s', rfl⟩; exact ⟨_ :: s', rfl⟩

/-! ### Writing -/

theorem writeLoop_ext (S : Shell) (fd : Nat) (n : Nat) : ∀ (data : Bytes) (p : Proc),
    Ext p (writeLoop S fd n data p)
      (fun seg _ => outputOf fd seg = data ∧ ∀ a ∈ seg, ∃ b, a = .write fd b)
      (fun seg => ∃ seg', seg = seg' ++ [.writeFail fd] ∧ outputOf fd seg' <+: data ∧ ∀ a ∈ seg', ∃ b, a = .write fd b) := by
  induction n with
  | zero => intros; trivial
  | succ n ih =>
    intro data p
    unfold writeLoop
    by_cases hd : data.length > 0
    · rw [if_pos hd]
      cases S.write p.acts.length data with
      | error => exact ⟨rfl, [.writeFail fd], rfl, [], rfl, List.nil_prefix, by simp⟩
      | wrote k =>
        refine Ext.step (Ext.mono (ih _ _) ?_ ?_)
        · rintro s _ ⟨h1, h2⟩
          refine ⟨by rw [outputOf, if_pos rfl, h1, List.take_append_drop], ?_⟩
          intro a ha; rcases List.mem_cons.1 ha with rfl | ha
          · exact ⟨_, rfl⟩
          · exact h2 a ha
        · rintro s ⟨s', rfl, h1, h2⟩
          refine ⟨.write fd _ :: s', rfl, ?_, ?_⟩
          · rw [outputOf, if_pos rfl]
            obtain ⟨t, ht⟩ := h1
            exact ⟨t, by rw [List.append_assoc, ht, List.take_append_drop]⟩
          · intro a ha; rcases List.mem_cons.1 ha with rfl | ha
            · exact ⟨_, rfl⟩
            · exact h2 a ha
    · rw [if_neg hd]
      have : data = [] := by cases data with | nil => rfl | cons => simp at hd
      subst this
      exact ⟨[], by simp, rfl, by simp⟩

/-! ### Bodies -/

/-- Acts of which none acknowledges and none reports a command. -/
def Quiet (l : List Act) : Prop := ∀ a ∈ l, (∀ t, a ≠ .ack t) ∧ ∀ r, a ≠ .wait r

theorem Quiet.nil : Quiet [] := by intro a ha; cases ha
theorem Quiet.append {a b : List Act} (ha : Quiet a) (hb : Quiet b) : Quiet (a ++ b) := by
  intro x hx; rcases List.mem_append.1 hx with h | h
  · exact ha x h
  · exact hb x h
theorem Quiet.noSuccess {l : List Act} (h : Quiet l) : NoSuccess l := fun a ha => ⟨(h a ha).1, (h a ha).2 _⟩

theorem waitF_ext (S : Shell) (p : Proc) :
    Ext p (waitF S p) (fun seg f => seg = [.frame f]) (fun seg => seg = []) := by
  unfold waitF
  refine Ext.bind (Q₁ := fun seg _ => seg = []) (X₁ := fun seg => seg = []) (Ext.orDie _ (fun _ => rfl) rfl) ?_ (fun _ h => h)
  rintro a seg p' rfl _
  refine Ext.bind (Q₁ := fun seg _ => seg = [.frame a.frame]) (X₁ := fun _ => False) (Ext.act _ rfl) ?_ (fun _ h => h.elim)
  rintro _ seg p' rfl _
  exact Ext.pure _ rfl

/-- What a copy loop has done so far. -/
def CopyPart (fd : Nat) (seg : List Act) (bodies : List AFrame) : Prop :=
  framesOf seg = bodies ∧ (∀ f ∈ bodies, isBody f) ∧ outputOf fd seg = bodyOf bodies ∧
    ∀ a ∈ seg, (∃ f, a = .frame f) ∨ (∃ b, a = .write fd b)

theorem quiet_of_copy {fd : Nat} {seg : List Act} (h : ∀ a ∈ seg, (∃ f, a = .frame f) ∨ (∃ b, a = .write fd b)) : Quiet seg := by
  intro a ha
  rcases h a ha with ⟨f, rfl⟩ | ⟨b, rfl⟩
  · exact ⟨fun t h => (nomatch h), fun r h => (nomatch h)⟩
  · exact ⟨fun t h => (nomatch h), fun r h => (nomatch h)⟩

theorem framesOf_writes {fd : Nat} {seg : List Act} (h : ∀ a ∈ seg, ∃ b, a = .write fd b) : framesOf seg = [] := by
  induction seg with
  | nil => rfl
  | cons a l ih =>
    obtain ⟨b, rfl⟩ := h a (by simp)
    exact ih (fun a ha => h a (by simp [ha]))

theorem copyLoop_ext (S : Shell) (fd : Nat) (n : Nat) : ∀ (remaining : Nat) (p : Proc), remaining < 2 ^ 64 →
    Ext p (copyLoop S fd n remaining p)
      (fun seg _ => ∃ bodies, CopyPart fd seg bodies ∧ (bodyOf bodies).length % 2 ^ 64 = remaining)
      (fun seg => Quiet seg ∧ outputOf fd seg <+: bodyOf (framesOf seg)) := by
  induction n with
  | zero => intros; unfold copyLoop; trivial
  | succ n ih =>
    intro remaining p hr
    unfold copyLoop
    by_cases h0 : remaining = 0
    · rw [if_pos h0]; subst h0
      exact Ext.pure _ ⟨[], ⟨rfl, by simp, rfl, by simp⟩, rfl⟩
    rw [if_neg h0]
    refine Ext.bind (waitF_ext S p) ?_ (fun seg h => by subst h; exact ⟨Quiet.nil, List.nil_prefix⟩)
    rintro f seg p' rfl _
    have hdie : Ext p' ((die : M Proc Unit) p') (fun s (_ : Unit) => ∃ bodies, CopyPart fd ([.frame f] ++ s) bodies ∧
        (bodyOf bodies).length % 2 ^ 64 = remaining)
        (fun s => Quiet ([.frame f] ++ s) ∧ outputOf fd ([.frame f] ++ s) <+: bodyOf (framesOf ([.frame f] ++ s))) :=
      Ext.die ⟨quiet_of_copy (fd := fd) (by simp), List.nil_prefix⟩
    cases hp : f.payload with
    | body b =>
      dsimp only
      refine Ext.bind (writeLoop_ext S fd _ b p') ?_ ?_
      · rintro _ s1 p1 ⟨h1, h2⟩ _
        refine Ext.mono (ih _ p1 (Nat.mod_lt _ (by decide))) ?_ ?_
        · rintro s2 _ ⟨bodies, ⟨c1, c2, c3, c4⟩, c5⟩
          refine ⟨f :: bodies, ⟨?_, ?_, ?_, ?_⟩, ?_⟩
          · simp [framesOf, framesOf_append, framesOf_writes h2, c1]
          · intro g hg; rcases List.mem_cons.1 hg with rfl | hg
            · exact ⟨b, hp⟩
            · exact c2 g hg
          · simp [outputOf, outputOf_append, h1, c3, bodyOf, hp]
          · intro a ha
            rcases List.mem_append.1 ha with ha | ha
            · exact Or.inl ⟨f, by simpa using ha⟩
            · rcases List.mem_append.1 ha with ha | ha
              · exact Or.inr (h2 a ha)
              · exact c4 a ha
          · simp only [bodyOf, hp, List.length_append]; omega
        · rintro s2 ⟨q1, q2⟩
          refine ⟨?_, ?_⟩
          · refine Quiet.append (quiet_of_copy (fd := fd) (by simp)) (Quiet.append (quiet_of_copy (fd := fd) fun a ha => Or.inr (h2 a ha)) q1)
          · simp only [List.cons_append, List.nil_append, outputOf, outputOf_append, h1, framesOf, framesOf_append, framesOf_writes h2, bodyOf, hp]
            obtain ⟨t, ht⟩ := q2
            exact ⟨t, by rw [List.append_assoc, ht]⟩
      · rintro s1 ⟨s', rfl, h1, h2⟩
        refine ⟨?_, ?_⟩
        · refine Quiet.append (quiet_of_copy (fd := fd) (by simp)) (Quiet.append (quiet_of_copy (fd := fd) fun a ha => Or.inr (h2 a ha)) ?_)
          intro a ha; simp at ha; subst ha
          exact ⟨fun t h => (nomatch h), fun r h => (nomatch h)⟩
        · simp only [List.cons_append, List.nil_append, outputOf, outputOf_append, framesOf, framesOf_append, framesOf_writes h2, bodyOf, hp, List.append_nil]
          exact h1
    | method id args => exact hdie
    | header a b c d => exact hdie
    | heartbeat => exact hdie
    | protocolHeader a b c d => exact hdie
    | other t => exact hdie

theorem copyBody_ext (S : Shell) (fd : Nat) (p : Proc) :
    Ext p (copyBody S fd p) (fun seg _ => Copied fd seg)
      (fun seg => Quiet seg ∧ outputOf fd seg <+: bodyOf (framesOf seg)) := by
  unfold copyBody
  refine Ext.bind (waitF_ext S p) ?_ (fun seg h => by subst h; exact ⟨Quiet.nil, List.nil_prefix⟩)
  rintro f seg p' rfl _
  have hdie : Ext p' ((die : M Proc Unit) p') (fun s (_ : Unit) => Copied fd ([.frame f] ++ s))
      (fun s => Quiet ([.frame f] ++ s) ∧ outputOf fd ([.frame f] ++ s) <+: bodyOf (framesOf ([.frame f] ++ s))) :=
    Ext.die ⟨quiet_of_copy (fd := fd) (by simp), List.nil_prefix⟩
  cases hp : f.payload with
  | header cls size flags props =>
    dsimp only
    refine Ext.mono (copyLoop_ext S fd _ size.toNat p' size.toNat_lt) ?_ ?_
    · rintro s _ ⟨bodies, ⟨c1, c2, c3, c4⟩, c5⟩
      refine ⟨⟨f, cls, size, flags, props, bodies, by simp [framesOf, c1], hp, c2, c5, by simpa [outputOf] using c3⟩, ?_⟩
      intro a ha
      rcases List.mem_append.1 ha with ha | ha
      · exact Or.inl ⟨f, by simpa using ha⟩
      · exact c4 a ha
    · rintro s ⟨q1, q2⟩
      refine ⟨Quiet.append (quiet_of_copy (fd := fd) (by simp)) q1, ?_⟩
      simpa [outputOf, framesOf, bodyOf, hp] using q2
  | method id args => exact hdie
  | body b => exact hdie
  | heartbeat => exact hdie
  | protocolHeader a b c d => exact hdie
  | other t => exact hdie

/-! ### Commands -/

theorem pipeline_ext (S : Shell) (argv : List Bytes) (p : Proc) :
    Ext p (pipeline S argv p)
      (fun seg wr => ∃ rd, seg = [.pipe rd wr, .spawn argv (if rd = 0 ∨ wr = 0 then none else some rd), .close rd]) Quiet := by
  have q : ∀ (l : List Act), (∀ a ∈ l, (∃ r w, a = .pipe r w) ∨ (∃ v s, a = .spawn v s) ∨ ∃ f, a = .close f) → Quiet l := by
    intro l h a ha
    rcases h a ha with ⟨_, _, rfl⟩ | ⟨_, _, rfl⟩ | ⟨_, rfl⟩ <;> exact ⟨fun t h => (nomatch h), fun r h => (nomatch h)⟩
  unfold pipeline
  cases S.pipe p.acts.length with
  | none => exact ⟨rfl, [], by simp, Quiet.nil⟩
  | some rw_ =>
    obtain ⟨rd, wr⟩ := rw_
    dsimp only
    refine Ext.step (a := .pipe rd wr) ?_
    cases S.spawn (p.push (.pipe rd wr)).acts.length with
    | false => exact ⟨rfl, [], by simp, q _ (by simp)⟩
    | true =>
      rw [if_neg (by decide)]
      refine Ext.step (a := .spawn argv (if rd = 0 ∨ wr = 0 then none else some rd)) (Ext.step (a := .close rd) ?_)
      cases S.close _ rd with
      | true => exact ⟨[], by simp, rd, rfl⟩
      | false => exact ⟨rfl, [], by simp, q _ (by simp)⟩

theorem finishPipeline_ext (S : Shell) (fd : Nat) (p : Proc) :
    Ext p (finishPipeline S fd p)
      (fun seg ok => ∃ r, seg = [.close fd, .wait r] ∧ r ≠ .error ∧ (ok = true ↔ r = .exited 0)) NoSuccess := by
  unfold finishPipeline
  dsimp only
  refine Ext.step (a := .close fd) ?_
  cases S.close p.acts.length fd with
  | false => exact ⟨rfl, [], by simp, by intro a ha; simp at ha; subst ha; exact ⟨fun t h => (nomatch h), fun h => (nomatch h)⟩⟩
  | true =>
    rw [if_neg (by decide)]
    generalize S.wait (p.push (.close fd)).acts.length = r
    refine Ext.step (a := .wait r) ?_
    cases r with
    | error =>
      refine ⟨rfl, [], by simp, ?_⟩
      intro a ha; simp at ha
      rcases ha with rfl | rfl <;> exact ⟨fun t h => (nomatch h), fun h => (nomatch h)⟩
    | exited c => exact ⟨[], by simp, _, rfl, by simp, by simp⟩
    | signalled => exact ⟨[], by simp, _, rfl, by simp, by simp⟩

/-! ### The consuming loop -/

theorem ackOrDie_ext (S : Shell) (tag : UInt64) (p : Proc) :
    Ext p (ackOrDie S tag p) (fun seg _ => seg = [.ack tag]) (fun seg => seg = [.ack tag]) := by
  unfold ackOrDie
  refine Ext.bind (Q₁ := fun seg _ => seg = [.ack tag]) (X₁ := fun _ => False) (Ext.act _ rfl) ?_ (fun _ h => h.elim)
  rintro _ seg p' rfl _
  exact Ext.orDie _ (fun _ => by simp) (by simp)

theorem consumeOne_ext (S : Shell) (noAck : Bool) (argv : List Bytes) (p : Proc) :
    Ext p (consumeOne S noAck argv p) (fun seg _ => ∃ b, Round noAck argv b seg)
      (fun seg => NoSuccess seg ∨ Round noAck argv true seg) := by
  have qf : ∀ f : AFrame, Quiet [.frame f] := fun f => quiet_of_copy (fd := 0) (by simp)
  unfold consumeOne
  refine Ext.bind (waitF_ext S p) ?_ (fun seg h => by subst h; exact Or.inl Quiet.nil.noSuccess)
  rintro f seg p' rfl _
  have hother : NotDelivery f → Ext p' ((Pure.pure () : M Proc Unit) p') (fun s (_ : Unit) => ∃ b, Round noAck argv b ([.frame f] ++ s))
      (fun s => NoSuccess ([.frame f] ++ s) ∨ Round noAck argv true ([.frame f] ++ s)) :=
    fun h => Ext.pure _ ⟨false, Round.other f h⟩
  cases hp : f.payload with
  | method id args =>
    dsimp only
    by_cases hid : id ≠ BASIC_DELIVER
    · rw [if_pos hid]
      exact hother (fun a h => by rw [hp] at h; injection h with h; exact hid h)
    rw [if_neg hid]
    have hid' : id = 0x003C003C := Classical.not_not.1 hid
    have hub : Ext p' (M.ub p') (fun s (_ : Unit) => ∃ b, Round noAck argv b ([.frame f] ++ s))
      (fun s => NoSuccess ([.frame f] ++ s) ∨ Round noAck argv true ([.frame f] ++ s)) := trivial
    cases ht : args.get? .delivery_tag with
    | none => exact hub
    | some v =>
      cases v with
      | u64 tag =>
        dsimp only
        have hdel : IsDelivery f tag := ⟨args, by rw [hp, hid'], ht⟩
        refine Ext.bind (pipeline_ext S argv p') ?_ (fun seg h => Or.inl ((qf f).append h).noSuccess)
        rintro wr s1 p1 ⟨rd, rfl⟩ _
        have q1 : Quiet ([.frame f] ++ [.pipe rd wr, .spawn argv (if rd = 0 ∨ wr = 0 then none else some rd), .close rd]) := by
          intro a ha; simp at ha
          rcases ha with rfl | rfl | rfl | rfl <;> exact ⟨fun t h => (nomatch h), fun r h => (nomatch h)⟩
        refine Ext.bind (copyBody_ext S wr p1) ?_ (fun seg h => Or.inl (by
          have := (q1.append h.1).noSuccess
          simpa using this))
        rintro _ s2 p2 hcopy _
        have q2 : Quiet s2 := quiet_of_copy hcopy.only
        refine Ext.bind (finishPipeline_ext S wr p2) ?_ (fun seg h => Or.inl (by
          intro a ha
          rw [← List.append_assoc, ← List.append_assoc] at ha
          rcases List.mem_append.1 ha with ha | ha
          · exact (q1.append q2).noSuccess a ha
          · exact h a ha))
        rintro ok s3 p3 ⟨r, rfl, hre, hok⟩ _
        have hR := Round.message (noAck := noAck) (argv := argv) f tag rd wr s2 r hdel hcopy hre
        refine Ext.bind (Q₁ := fun seg _ => seg = if r = .exited 0 ∧ noAck = false then [.ack tag] else [])
          (X₁ := fun seg => seg = if r = .exited 0 ∧ noAck = false then [.ack tag] else []) ?_ ?_ ?_
        · unfold ackStep
          by_cases hc : (ok && !noAck) = true
          · rw [if_pos hc]
            have hc' : r = .exited 0 ∧ noAck = false := by
              rw [Bool.and_eq_true] at hc
              exact ⟨hok.1 hc.1, by simpa using hc.2⟩
            rw [if_pos hc']
            exact ackOrDie_ext S tag p3
          · rw [if_neg hc]
            have hc' : ¬ (r = .exited 0 ∧ noAck = false) := by
              rintro ⟨h1, h2⟩
              exact hc (by rw [hok.2 h1, h2]; rfl)
            rw [if_neg hc']
            exact Ext.pure _ rfl
        · rintro _ s4 p4 rfl _
          exact ⟨[], by simp, true, by simpa using hR⟩
        · rintro seg rfl; exact Or.inr (by simpa using hR)
      | u8 _ => exact hub
      | u16 _ => exact hub
      | u32 _ => exact hub
      | bytes _ => exact hub
      | table _ => exact hub
      | bool _ => exact hub
  | header a b c d => exact hother (fun a h => by rw [hp] at h; cases h)
  | body b => exact hother (fun a h => by rw [hp] at h; cases h)
  | heartbeat => exact hother (fun a h => by rw [hp] at h; cases h)
  | protocolHeader a b c d => exact hother (fun a h => by rw [hp] at h; cases h)
  | other t => exact hother (fun a h => by rw [hp] at h; cases h)

/-- The rest of a run that ended in an exit: a last round that did not end, or one that ended with an acknowledgement that could not be
sent. -/
def Last (noAck : Bool) (argv : List Bytes) (l : List Act) : Prop := NoSuccess l ∨ Round noAck argv true l

theorem consumeLoop_ext (S : Shell) (noAck : Bool) (count : Int) (argv : List Bytes) (n : Nat) : ∀ (i : Nat) (p : Proc),
    Ext p (consumeLoop S noAck count argv n i p)
      (fun seg _ => ∃ bs, Rounds noAck argv bs seg ∧ 0 ≤ count ∧ (i : Int) + bs.length = max count i)
      (fun seg => ∃ bs done last, seg = done ++ last ∧ Rounds noAck argv bs done ∧ Last noAck argv last ∧
        (0 ≤ count → (i : Int) + bs.length < count)) := by
  induction n with
  | zero => intros; unfold consumeLoop; trivial
  | succ n ih =>
    intro i p
    unfold consumeLoop
    by_cases h : count < 0 ∨ (i : Int) < count
    · rw [if_pos h]
      refine Ext.bind (consumeOne_ext S noAck argv p) ?_ ?_
      · rintro _ seg p' ⟨b, hb⟩ _
        by_cases hi : i = INT_MAX
        · rw [if_pos hi]; trivial
        rw [if_neg hi]
        refine Ext.mono (ih (i + 1) p') ?_ ?_
        · rintro s _ ⟨bs, h1, h2, h3⟩
          refine ⟨b :: bs, Rounds.cons b bs seg s hb h1, h2, ?_⟩
          rw [List.length_cons]; push_cast at h3 ⊢; omega
        · rintro s ⟨bs, d, l, rfl, h1, h2, h3⟩
          refine ⟨b :: bs, seg ++ d, l, by simp, Rounds.cons b bs seg d hb h1, h2, ?_⟩
          intro hc; have := h3 hc; rw [List.length_cons]; push_cast at this ⊢; omega
      · rintro seg h1
        exact ⟨[], [], seg, rfl, Rounds.nil, h1, by intro hc; simp; omega⟩
    · rw [if_neg h]
      exact Ext.pure _ ⟨[], Rounds.nil, by omega, by simp; omega⟩

def Calls (l : List Act) : Prop := ∀ a ∈ l, ∃ name args, a = .call name args

theorem Calls.append {a b : List Act} (ha : Calls a) (hb : Calls b) : Calls (a ++ b) := by
  intro x hx; rcases List.mem_append.1 hx with h | h
  · exact ha x h
  · exact hb x h

theorem callOrDie_ext (S : Shell) (name : String) (args : List Val) (p : Proc) :
    Ext p (callOrDie S name args p) (fun seg _ => seg = [.call name args]) (fun seg => seg = [.call name args]) := by
  unfold callOrDie
  refine Ext.bind (Q₁ := fun seg _ => seg = [.call name args]) (X₁ := fun _ => False) (Ext.act _ rfl) ?_ (fun _ h => h.elim)
  rintro _ seg p' rfl _
  refine Ext.bind (Q₁ := fun seg _ => seg = []) (X₁ := fun seg => seg = []) (Ext.orDie _ (fun _ => rfl) rfl) ?_ (fun _ h => by subst h; rfl)
  rintro r seg p1 rfl _
  cases r with
  | some r => exact ⟨[], by simp, rfl⟩
  | none =>
    cases p1.app.last with
    | none => exact ⟨rfl, [], by simp, rfl⟩
    | some l =>
      cases l with
      | normal a b => exact ⟨[], by simp, rfl⟩
      | _ => exact ⟨rfl, [], by simp, rfl⟩

theorem qosIf_ext (S : Shell) (c : Bool) (v : Int) (p : Proc) :
    Ext p (qosIf S c v p)
      (fun seg _ => seg = if c then [.call "amqp_basic_qos" [.u32 0, .u16 (UInt16.ofNat v.toNat), .bool 0]] else [])
      (fun seg => seg = if c then [.call "amqp_basic_qos" [.u32 0, .u16 (UInt16.ofNat v.toNat), .bool 0]] else []) := by
  unfold qosIf
  cases c with
  | true =>
    rw [if_pos rfl]
    exact Ext.bind (callOrDie_ext S _ _ p) (fun a seg p' h _ => by subst h; exact Ext.pure _ rfl) (fun _ h => h)
  | false => rw [if_neg (by decide)]; exact Ext.pure _ rfl

theorem Prefix.append_right {l l' : List Act} (m : List Act) (h : l <+: l') : l <+: l' ++ m := h.trans (List.prefix_append _ _)

def qosAct (c : Bool) (v : Int) : List Act :=
  if c then [.call "amqp_basic_qos" [.u32 0, .u16 (UInt16.ofNat v.toNat), .bool 0]] else []

theorem qosStep_ext (S : Shell) (count prefetch : Int) (p : Proc) :
    Ext p (qosStep S count prefetch p)
      (fun seg _ => seg = qosAct (0 < count ∧ count ≤ 65535) count ++
        qosAct (0 < prefetch ∧ prefetch ≤ 65535 ∧ ¬ ((0 < count ∧ count ≤ 65535) ∧ count ≤ prefetch)) prefetch)
      (fun seg => seg <+: qosAct (0 < count ∧ count ≤ 65535) count ++
        qosAct (0 < prefetch ∧ prefetch ≤ 65535 ∧ ¬ ((0 < count ∧ count ≤ 65535) ∧ count ≤ prefetch)) prefetch) := by
  unfold qosStep
  refine Ext.bind (qosIf_ext S _ count p) ?_ ?_
  · rintro _ seg p1 rfl _
    refine Ext.mono (qosIf_ext S _ prefetch p1) ?_ ?_
    · rintro s _ rfl; rfl
    · rintro s rfl; exact List.prefix_rfl
  · rintro seg rfl; exact List.prefix_append _ _

theorem startCalls_eq (queue : Bytes) (noAck : Bool) (count prefetch : Int) : startCalls queue noAck count prefetch =
    (qosAct (0 < count ∧ count ≤ 65535) count ++
      qosAct (0 < prefetch ∧ prefetch ≤ 65535 ∧ ¬ ((0 < count ∧ count ≤ 65535) ∧ count ≤ prefetch)) prefetch) ++
    [.call "amqp_basic_consume" [.bytes queue, .bytes [], .bool 0, .bool (if noAck then 1 else 0), .bool 0, .table []]] := by
  unfold startCalls qosAct
  simp only [decide_eq_true_eq, and_assoc]

theorem doConsume_ext (S : Shell) (queue : Bytes) (noAck : Bool) (count prefetch : Int) (argv : List Bytes) (p : Proc) :
    Ext p (doConsume S queue noAck count prefetch argv p)
      (fun seg _ => ∃ rest bs, seg = startCalls queue noAck count prefetch ++ rest ∧ Rounds noAck argv bs rest ∧ 0 ≤ count ∧
        (bs.length : Int) = count)
      (fun seg => seg <+: startCalls queue noAck count prefetch ∨
        ∃ done last bs, seg = startCalls queue noAck count prefetch ++ (done ++ last) ∧ Rounds noAck argv bs done ∧
          Last noAck argv last ∧ (0 ≤ count → (bs.length : Int) < count)) := by
  unfold doConsume
  rw [startCalls_eq]
  refine Ext.bind (qosStep_ext S count prefetch p) ?_ (fun seg h => Or.inl (h.trans (List.prefix_append _ _)))
  rintro _ seg p1 rfl _
  refine Ext.bind (callOrDie_ext S _ _ p1) ?_ ?_
  · rintro _ s p2 rfl _
    refine Ext.mono (consumeLoop_ext S noAck count argv _ 0 p2) ?_ ?_
    · rintro s2 _ ⟨bs, h1, h2, h3⟩
      exact ⟨s2, bs, (List.append_assoc _ _ _).symm, h1, h2, by push_cast at h3; omega⟩
    · rintro s2 ⟨bs, d, l, rfl, h1, h2, h3⟩
      exact Or.inr ⟨d, l, bs, (List.append_assoc _ _ _).symm, h1, h2, by intro hc; have := h3 hc; push_cast at this; omega⟩
  · rintro s rfl; exact Or.inl List.prefix_rfl

end Rmq.ToolsM
