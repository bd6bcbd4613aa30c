import Verif.Proofs.ApiClosed
/-!
# The invariants, for every history of calls
-/
namespace Rmq

theorem Upper.and {E : NetEnv} {I I' : Conn → Prop} {J J' : Conn → DFrame → Prop} (h : Upper E I J) (h' : Upper E I' J') :
    Upper E (fun s => I s ∧ I' s) (fun s f => J s f ∧ J' s f) := by
  have both : ∀ {α : Type} {r : Res Conn α}, r.All I → r.All I' → r.All fun s => I s ∧ I' s := by
    intro α r; cases r <;> first | exact fun a b => ⟨a, b⟩ | exact fun _ _ => trivial
  refine ⟨fun a q => ⟨h.tick a.1 q, h'.tick a.2 q⟩, fun d s a => ?_, fun f fl d s hd a => both (h.sendFrame f fl d hd a.1) (h'.sendFrame f fl d hd a.2),
    fun d n s a => both (h.header d n a.1) (h'.header d n a.2),
    fun j a => both (h.queue j.1 a.1) (h'.queue j.2 a.2), fun j a => both (h.putBack j.1 a.1) (h'.putBack j.2 a.2),
    fun a q => ⟨⟨(h.pop a.1 q).1, (h'.pop a.2 q).1⟩, ⟨(h.pop a.1 q).2, (h'.pop a.2 q).2⟩⟩, fun a => ⟨h.close a.1, h'.close a.2⟩,
    fun ch a => ⟨h.release ch a.1, h'.release ch a.2⟩⟩
  have h1 := h.wait d a.1
  have h2 := h'.wait d a.2
  revert h1 h2
  cases waitFrameInner E d s with
  | ok f t => exact fun a b => ⟨⟨a.1, b.1⟩, ⟨a.2, b.2⟩⟩
  | err e t => exact fun a b => ⟨a, b⟩
  | ub => exact fun _ _ => trivial
  | fuel => exact fun _ _ => trivial

theorem tune_all {E : NetEnv} {I : Conn → Prop} {cm fm hb : Int} {mem : Nat → UInt8} {s : Conn}
    (h : ∀ (ps : PState) (h : Int) (a b : Nat) (m : Bytes) (len : Nat) (l : List Ev), (∀ e ∈ l, e.quiet = true) →
      (ps.mode = s.ps.mode ∧ ps.bufLog = s.ps.bufLog) →
      I { s.ext l with channelMax := cm, frameMax := fm, ps := ps, heartbeat := h, nextSend := a, nextRecv := b, outMem := m, outLen := len }) :
    (tune E cm fm hb mem s).All I := by
  unfold tune
  by_cases hm : s.ps.mode ≠ .idle
  · rw [if_pos hm]; trivial
  rw [if_neg hm]
  dsimp only
  have r1 := restartSend_eff E { s with channelMax := cm, frameMax := fm, ps := { s.ps with frameMax := (fm % 2 ^ 64).toNat },
                                        heartbeat := if 0 > hb then 0 else hb }
  revert r1
  cases restartSend E { s with channelMax := cm, frameMax := fm, ps := { s.ps with frameMax := (fm % 2 ^ 64).toNat },
                                        heartbeat := if 0 > hb then 0 else hb } with
  | ub => exact fun _ => trivial
  | fuel => exact fun _ => trivial
  | err e t => rintro ⟨t1, l1, rfl, q1⟩; exact h _ _ _ _ _ _ l1 q1 ⟨rfl, rfl⟩
  | ok x t =>
    rintro ⟨t1, l1, rfl, q1⟩
    dsimp only
    have r2 := restartRecv_eff E { ({ s with channelMax := cm, frameMax := fm, ps := { s.ps with frameMax := (fm % 2 ^ 64).toNat },
                                             heartbeat := if 0 > hb then 0 else hb } : Conn).ext l1 with nextSend := t1 }
    revert r2
    cases restartRecv E { ({ s with channelMax := cm, frameMax := fm, ps := { s.ps with frameMax := (fm % 2 ^ 64).toNat },
                                             heartbeat := if 0 > hb then 0 else hb } : Conn).ext l1 with nextSend := t1 } with
    | ub => exact fun _ => trivial
    | fuel => exact fun _ => trivial
    | err e t =>
      rintro ⟨t2, l2, rfl, q2⟩
      have := h { s.ps with frameMax := (fm % 2 ^ 64).toNat } (if 0 > hb then 0 else hb) t1 t2 s.outMem s.outLen (l1 ++ l2) (q1.append q2) ⟨rfl, rfl⟩
      simpa [Conn.ext, Res.All] using this
    | ok x t =>
      rintro ⟨t2, l2, rfl, q2⟩
      dsimp only [smallAlloc]
      cases E.pe.alloc _ with
      | false =>
        have := h { s.ps with frameMax := (fm % 2 ^ 64).toNat, allocs := s.ps.allocs + 1 } (if 0 > hb then 0 else hb) t1 t2 s.outMem
          (fm % 2 ^ 64).toNat (l1 ++ l2) (q1.append q2) ⟨rfl, rfl⟩
        simpa [Conn.ext, Res.All] using this
      | true =>
        have := h { s.ps with frameMax := (fm % 2 ^ 64).toNat, allocs := s.ps.allocs + 1 } (if 0 > hb then 0 else hb) t1 t2
          ((List.range (fm % 2 ^ 64).toNat).map fun i => s.outMem.getD i (mem i)) (fm % 2 ^ 64).toNat (l1 ++ l2) (q1.append q2) ⟨rfl, rfl⟩
        simpa [Conn.ext, Res.All] using this

/-! ## Memory of queued frames -/

theorem intact_login (E : NetEnv) : LoginClosed E Intact Valid where
  toUpper := (intact_closed E).upper
  allocs := fun {s} n p h => h.step (l := []) (by simp) rfl (by simp)
  publishCheck := publishCheck_closed (intact_closed E).upper fun h => (intact_closed E).tryRecv h
  tune := fun {s} cm fm hb mem h => tune_all fun ps hh a b m len l hl _ => h.step (l := l) rfl rfl (quiet_no_recycle hl)
  setServer := fun {s} t h => h.step (l := []) (by simp) rfl (by simp)
  setClient := fun {s} t n h => h.step (l := []) (by simp) rfl (by simp)

/-! ## Received data -/

theorem kept_api (E : NetEnv) (s0 : Conn) : ApiClosed E (fun s => Unblocked E s ∧ Kept s0 s) (fun _ _ => True) where
  toUpper := kept_upper E s0
  allocs := fun {s} n p h => ⟨h.1, h.2.trans (.same (l := []) (by simp [Since]) rfl rfl rfl)⟩
  publishCheck := publishCheck_closed (kept_upper E s0) fun {s} h => by
    have h1 := tryRecv_kept E s
    have h2 := (unblocked_closed E).tryRecv h.1
    revert h1 h2
    cases tryRecv E s with
    | ok a t => exact fun h1 h2 => ⟨h2, h.2.trans h1⟩
    | err e t => exact fun h1 h2 => ⟨h2, h.2.trans h1⟩
    | ub => exact fun _ _ => trivial
    | fuel => exact fun _ _ => trivial

theorem Upper.drop {E : NetEnv} {Q : Conn → Prop} (hQ : ∀ s, Q s) {K : Conn → Prop} {J : Conn → DFrame → Prop}
    (h : Upper E (fun s => Q s ∧ K s) J) : Upper E K J := by
  have e : (fun s => Q s ∧ K s) = K := funext fun s => propext ⟨And.right, fun h => ⟨hQ s, h⟩⟩
  rwa [e] at h

theorem kept_login {E : NetEnv} (hN : NeverBlocks E ∨ HeartbeatsPass E) (s0 : Conn) : LoginClosed E (Kept s0) (fun _ _ => True) where
  toUpper := (kept_upper E s0).drop (fun _ => Or.inl hN)
  allocs := fun {s} n p h => h.trans (.same (l := []) (by simp [Since]) rfl rfl rfl)
  publishCheck := publishCheck_closed ((kept_upper E s0).drop (fun _ => Or.inl hN)) fun {s} h => (tryRecv_kept E s).mono fun t ht => h.trans ht
  tune := fun {s} cm fm hb mem h => tune_all fun ps hh a b m len l hl _ => by
    have := none_read fun e he => Ev.plain_delivered (Ev.quiet_plain (hl e he))
    exact h.trans (.same (l := l) rfl this.1 this.2 rfl)
  setServer := fun {s} t h => h.trans (.same (l := []) (by simp [Since]) rfl rfl rfl)
  setClient := fun {s} t n h => h.trans (.same (l := []) (by simp [Since]) rfl rfl rfl)

/-! ## Heartbeats -/

theorem nohb_call (E : NetEnv) : CallClosed E (fun s => Unhurried E s ∧ NoHb s) (fun _ f => f.frame.isHeartbeat = false) where
  toUpper := nohb_upper E
  allocs := fun n p h => ⟨h.1, h.2⟩

/-- With heartbeats off, publishing does not receive. -/
theorem publishCheck_off {E : NetEnv} {s : Conn} (h : HbOff s) : publishCheck E s = .ok () s := by
  unfold publishCheck
  rw [h.2.2, hasPastIO_inf]
  rfl

theorem nohb_api (E : NetEnv) : ApiClosed E (fun s => HbOff s ∧ (Unhurried E s ∧ NoHb s)) (fun _ f => True ∧ f.frame.isHeartbeat = false) where
  toUpper := (off_closed E).upper.and (nohb_upper E)
  allocs := fun n p h => ⟨h.1, h.2.1, h.2.2⟩
  publishCheck := fun h => by rw [publishCheck_off h.1]; exact h

theorem nohb_login {E : NetEnv} (hN : NeverBlocks E) : CallClosed E NoHb (fun _ f => f.frame.isHeartbeat = false) where
  toUpper := (nohb_upper E).drop (fun _ => Or.inl hN)
  allocs := fun n p h => h

end Rmq
