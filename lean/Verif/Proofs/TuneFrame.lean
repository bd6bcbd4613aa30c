import Verif.Proofs.Clean
import Verif.Proofs.Login
/-!
# What a connection.tune frame says
-/
namespace Rmq

theorem orFailVal_ok {σ α : Type} {st : Int} {x : M σ (Option α)} {s s' : σ} {a : α} (h : M.orFailVal st x s = .ok a s') : x s = .ok (some a) s' := by
  unfold M.orFailVal at h
  cases hx : x s with
  | ok o t =>
    rw [hx] at h
    cases o with
    | none => cases h
    | some b => cases h; rfl
  | err e t => rw [hx] at h; cases h
  | ub => rw [hx] at h; cases h
  | fuel => rw [hx] at h; cases h

theorem decRaw_ok {α : Type} {E : DEnv} {n : Nat} {d : Bytes → Option α} {s s' : DState} {v : α} (h : decRaw E n d s = .ok (some v) s') :
    s'.off = s.off + n ∧ s.off + n ≤ E.len ∧ ∃ bs, readAt E.mem s.off n = some bs ∧ d bs = some v := by
  unfold decRaw at h
  dsimp only at h
  by_cases hl : s.off + n ≤ E.len
  · rw [if_pos hl] at h
    cases hr : readAt E.mem s.off n with
    | none => rw [hr] at h; cases h
    | some bs =>
      rw [hr] at h
      dsimp only at h
      cases hd : d bs with
      | none => rw [hd] at h; cases h
      | some w => rw [hd] at h; cases h; exact ⟨rfl, hl, bs, rfl, hd⟩
  · rw [if_neg hl] at h; cases h

theorem tune_decoded {E : DEnv} {k : Nat} {r : Rec} {d : DState} (h : decMethod E CONNECTION_TUNE k = .ok r d) :
    8 ≤ E.len ∧ ∃ bs c f hb, readAt E.mem 2 4 = some bs ∧ d32 E.be bs = some f ∧
      r = [(.channel_max, .u16 c), (.frame_max, .u32 f), (.heartbeat, .u16 hb)] := by
  unfold decMethod at h
  have hs : switch CONNECTION_TUNE decTableOps = some [.field .short .channel_max, .field .long .frame_max, .field .short .heartbeat] := by decide +kernel
  rw [hs] at h
  dsimp only at h
  obtain ⟨_, s1, h1, h⟩ := M.bind_ok h
  have e1 : s1.off = 0 := by
    unfold M.orFail allocate at h1
    dsimp only at h1
    cases hk : E.alloc k with
    | false => rw [hk] at h1; cases h1
    | true => rw [hk] at h1; cases h1; rfl
  unfold decOps at h
  obtain ⟨a, s2, h2, h⟩ := M.bind_ok h
  obtain ⟨b, s3, h3, h⟩ := M.bind_ok h
  unfold decOps at h3
  obtain ⟨a', s4, h4, h3⟩ := M.bind_ok h3
  obtain ⟨b', s5, h5, h3⟩ := M.bind_ok h3
  unfold decOps at h5
  obtain ⟨a'', s6, h6, h5⟩ := M.bind_ok h5
  obtain ⟨b'', s7, h7, h5⟩ := M.bind_ok h5
  unfold decOp decField at h2 h4 h6
  obtain ⟨x, t, h2, h2'⟩ := M.bind_ok h2
  obtain ⟨y, t', h2, h2''⟩ := M.bind_ok h2
  obtain ⟨x4, t4, h4, h4'⟩ := M.bind_ok h4
  obtain ⟨y4, t4', h4, h4''⟩ := M.bind_ok h4
  obtain ⟨x6, t6, h6, h6'⟩ := M.bind_ok h6
  obtain ⟨y6, t6', h6, h6''⟩ := M.bind_ok h6
  cases h2''; cases h2'; cases h4''; cases h4'; cases h6''; cases h6'; cases h7; cases h5; cases h3; cases h
  obtain ⟨o1, _, _⟩ := decRaw_ok (orFailVal_ok h2)
  obtain ⟨o2, _, bs, hb, hd⟩ := decRaw_ok (orFailVal_ok h4)
  obtain ⟨o3, hl, _⟩ := decRaw_ok (orFailVal_ok h6)
  refine ⟨by omega, bs, y, y4, y6, ?_, hd, rfl⟩
  rw [o1, e1] at hb
  exact hb

/-- The octets of a frame decoded as connection.tune. -/
theorem payloadPhase_tune {E : PEnv} {s s' : PState} {ch : UInt16} {ty : UInt8} {p : Bytes} {c n : Nat} {g : AFrame} {r : Rec}
    (h : payloadPhase E s ch ty p c = .ok (n, some g) s') (hg : g.payload = .method CONNECTION_TUNE r) :
    g.channel = ch ∧ ty = 1 ∧ p.take 4 = [0, 10, 0, 30] ∧ 12 ≤ p.length ∧
      ∃ c f hb, r = [(.channel_max, .u16 c), (.frame_max, .u32 f), (.heartbeat, .u16 hb)] ∧ f.toNat = beVal ((p.drop 6).take 4) := by
  unfold payloadPhase at h
  by_cases t1 : ty = 1
  · rw [if_pos t1] at h
    cases hr : rd32 E.be (p ++ [FRAME_END]) 0 with
    | none => rw [hr] at h; cases h
    | some id =>
      rw [hr] at h
      dsimp only at h
      cases hd : decMethod ⟨(p ++ [FRAME_END]).drop 4, subWrap (p.length + 8) 12, E.be, E.alloc⟩ id s.allocs with
      | err e d => rw [hd] at h; cases h
      | ub => rw [hd] at h; cases h
      | fuel => rw [hd] at h; cases h
      | ok args d =>
        rw [hd] at h
        cases h
        cases hg
        obtain ⟨h8, bs, c, f, hb, e1, e2, e3⟩ := tune_decoded hd
        unfold rd32 at hr
        cases hq : readAt (p ++ [FRAME_END]) 0 4 with
        | none => rw [hq] at hr; cases hr
        | some q =>
          rw [hq, Option.bind_some] at hr
          obtain ⟨hl, hq⟩ : 0 + 4 ≤ (p ++ [FRAME_END]).length ∧ q = ((p ++ [FRAME_END]).drop 0).take 4 := by
            unfold readAt at hq
            split at hq
            · next hl => cases hq; exact ⟨hl, rfl⟩
            · cases hq
          have hql : q.length = 4 := by rw [hq]; simp at hl ⊢; omega
          rw [d32_spec _ _ hql] at hr
          have hlt := beVal_lt q
          rw [hql] at hlt
          have hv : beVal q = 655390 := by
            have := congrArg UInt32.toNat (Option.some.inj hr)
            rw [UInt32.toNat_ofNat', Nat.mod_eq_of_lt hlt] at this
            rw [this]; decide
          have hq4 : q = [0, 10, 0, 30] := by
            have := beBytes_beVal q
            rw [hql, hv] at this
            rw [← this]; decide
          rw [hq4, List.drop_zero] at hq
          have h4 : 4 ≤ p.length := by
            refine Classical.byContradiction fun hn => ?_
            have h3 : p.length = 3 := by simp at hl; omega
            match p, h3 with
            | [x, y, z], _ => simp [FRAME_END] at hq
          rw [List.take_append_of_le_length h4] at hq
          rw [subWrap_of_le (by omega)] at h8
          refine ⟨rfl, t1, hq.symm, (by dsimp only at h8; omega), c, f, hb, e3, ?_⟩
          rw [readAt_of_le (by simp at h8 ⊢; omega)] at e1
          have e1 := Option.some.inj e1
          dsimp only at e1 e2
          have hbs : bs = (p.drop 6).take 4 := by
            rw [← e1, List.drop_drop, List.drop_append_of_le_length (by simp at h8; omega), List.take_append_of_le_length (by simp at h8 ⊢; omega)]
          have hbl : bs.length = 4 := by rw [hbs]; simp at h8 ⊢; omega
          rw [d32_spec _ _ hbl] at e2
          have hlt := beVal_lt bs
          rw [hbl] at hlt
          rw [← Option.some.inj e2, UInt32.toNat_ofNat', Nat.mod_eq_of_lt hlt, hbs]
  rw [if_neg t1] at h
  by_cases t2 : ty = 2
  · rw [if_pos t2] at h
    split at h
    · split at h
      · cases h; cases hg
      all_goals cases h
    · cases h
  rw [if_neg t2] at h
  by_cases t3 : ty = 3
  · rw [if_pos t3] at h; cases h; cases hg
  rw [if_neg t3] at h
  by_cases t4 : ty = 8
  · rw [if_pos t4] at h; cases h; cases hg
  · rw [if_neg t4] at h; cases h

end Rmq
