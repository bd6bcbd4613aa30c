import Verif.Proofs.SendsFine
/-!
# Publishing does not disturb what is received either, without heartbeats
-/
namespace Rmq
variable {E : NetEnv}

/-- What happened since `s` did no harm, unless the outside failed. -/
def Mild (E : NetEnv) (s t : Conn) : Prop := ∃ l, Since s t l ∧ ((∀ e ∈ l, e.fine) → Unharmed E s t)

theorem Mild.refl {s : Conn} (hC : Calm0 E s) : Mild E s s := ⟨[], by simp [Since], fun _ => .refl hC⟩

theorem Mild.sendFrame {s t : Conn} {f : AFrame} {flags deadline : Nat} (hd : deadline ≤ TIME_INF) (h : Mild E s t) :
    (sendFrame E f flags deadline t).All (Mild E s) := by
  obtain ⟨l, h1, h2⟩ := h
  have h3 := (since_api E t).sendFrame f flags deadline hd (since_nil t)
  have step : ∀ u, (∃ l, Since t u l) → (Rmq.sendFrame E f flags deadline t).leaves u → Mild E s u := by
    rintro u ⟨l2, h4⟩ hl
    refine ⟨l ++ l2, h1.trans h4, fun hf => ?_⟩
    have hu := h2 fun e he => hf e (List.mem_append_left _ he)
    obtain ⟨l3, h5, h6⟩ := sendFrame_unharmed hd hu.1 hl
    cases h4.unique h5
    exact hu.trans (h6 fun e he => hf e (List.mem_append_right _ he))
  revert h3 step
  cases Rmq.sendFrame E f flags deadline t with
  | ok x u => exact fun h3 step => step u h3 rfl
  | err e u => exact fun h3 step => step u h3 rfl
  | ub => exact fun _ _ => trivial
  | fuel => exact fun _ _ => trivial

theorem Mild.publishBody {s : Conn} (ch : UInt16) (usable : Nat) : ∀ (n : Nat) (rest : Bytes) {t : Conn}, Mild E s t →
    (publishBody E ch usable n rest t).All (Mild E s) := by
  intro n
  induction n with
  | zero => intro rest t _; trivial
  | succ n ih =>
    intro rest t ht
    unfold Rmq.publishBody
    by_cases h0 : rest.length = 0
    · rw [if_pos h0]; exact ht
    rw [if_neg h0]
    by_cases h1 : rest.length ≥ usable
    · rw [if_pos h1]
      have h2 := ht.sendFrame (f := ⟨ch, .body (rest.take usable)⟩) (flags := SF_MORE) (Nat.le_refl TIME_INF)
      revert h2
      cases Rmq.sendFrame E ⟨ch, .body (rest.take usable)⟩ SF_MORE TIME_INF t with
      | ok x t => exact fun h2 => ih _ h2
      | err e t => exact id
      | ub => exact id
      | fuel => exact id
    · rw [if_neg h1]
      have h2 := ht.sendFrame (f := ⟨ch, .body rest⟩) (flags := SF_NONE) (Nat.le_refl TIME_INF)
      revert h2
      cases Rmq.sendFrame E ⟨ch, .body rest⟩ SF_NONE TIME_INF t with
      | ok x t => exact fun h2 => ih _ h2
      | err e t => exact id
      | ub => exact id
      | fuel => exact id

theorem HeartbeatsFine.off {s : Conn} (h : HeartbeatsFine E s) (h0 : s.heartbeat ≤ 0) : s.nextRecv = TIME_INF :=
  h.elim (fun h => h.2.2) fun h => (h.1.2.1 h0).2

theorem publishCheck_never {s : Conn} (h : s.nextRecv = TIME_INF) : publishCheck E s = .ok () s := by
  unfold publishCheck hasPastIO
  rw [h, if_pos rfl]
  rfl

/-- Publishing, successful or not, without heartbeats and on an open connection that takes what it is given harms nothing. -/
theorem basicPublish_unharmed {s t : Conn} {ch : UInt16} {exchange routingKey : Bytes} {mandatory immediate : Int32}
    {props : Option (UInt32 × Rec)} {body : Bytes} (h0 : s.heartbeat ≤ 0) (hC : Calm0 E s)
    (h : (basicPublish E ch exchange routingKey mandatory immediate props body s).leaves t) : Mild E s t := by
  refine Res.All.leaves (I := Mild E s) ?_ h
  unfold basicPublish
  dsimp only
  refine Res.All.bind (I := Mild E s) ?_ fun _ t ht => ?_
  · rw [publishCheck_never (hC.heart.off h0)]
    exact .refl hC
  refine Res.All.bind (ht.sendFrame (Nat.le_refl _)) fun _ u hu => ?_
  refine Res.All.bind (hu.sendFrame (Nat.le_refl _)) fun _ v hv => ?_
  exact hv.publishBody _ _ _ _

end Rmq
