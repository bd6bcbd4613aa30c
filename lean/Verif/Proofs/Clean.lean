import Verif.Proofs.Arrive
import Verif.Proofs.FrameSafe
import Verif.Proofs.FrameSticky
import Verif.Proofs.FrameFirst
import Verif.Proofs.ErrCodes
import Verif.Proofs.Typed
import Verif.Spec.Safety
/-!
# Octets that can be parsed without undefined behaviour
-/
namespace Rmq

/-- A content header frame is one of the class basic. -/
def Basic (f : AFrame) : Prop := ∀ cls sz fl r, f.payload = .header cls sz fl r → cls = 60

/-- Parsing `d` is defined up to its end or the first error, and each frame `g` in it satisfies `Q g p d'`, where `p` is the parser's
state after it and `d'` the rest. -/
inductive Clean (E : PEnv) (Q : AFrame → PState → Bytes → Prop) : PState → Bytes → Prop where
  | nil {s : PState} : Clean E Q s []
  | err {s p : PState} {d : Bytes} {e : Int} : handleInput E s d = .err e p → Clean E Q s d
  | more {s p : PState} {d : Bytes} {k : Nat} {f : Option AFrame} : handleInput E s d = .ok (k, f) p →
      (∀ g, f = some g → Q g p (d.drop k)) → Clean E Q p (d.drop k) → Clean E Q s d

/-- What the invariants below need of `Q`. -/
structure QLaw (Q : AFrame → PState → Bytes → Prop) : Prop where
  basic : ∀ {g p d}, Q g p d → Basic g
  sim : ∀ {g p p' d}, PSim p p' → Good p → Q g p d → Q g p' d

variable {E : PEnv} {Q : AFrame → PState → Bytes → Prop}

theorem Clean.mono {Q' : AFrame → PState → Bytes → Prop} (h : ∀ g p d, Clean E Q p d → Q g p d → Q' g p d) {s : PState} {d : Bytes}
    (hc : Clean E Q s d) : Clean E Q' s d := by
  induction hc with
  | nil => exact .nil
  | err h1 => exact .err h1
  | more h1 h2 h3 ih => exact .more h1 (fun g hg => h _ _ _ h3 (h2 g hg)) ih

/-- The parser's next call, when only the part `a` of the octets is there. -/
theorem Clean.step {s : PState} (hR : Ready s) {a X : Bytes} (ha : a ≠ []) (hc : Clean E Q s (a ++ X)) :
    match handleInput E s a with
    | .ok (k, f) p => Clean E Q p (a.drop k ++ X) ∧ ∀ g, f = some g → Q g p (a.drop k ++ X)
    | .err _ _ => True
    | .ub => False
    | .fuel => False := by
  have hax : a ++ X ≠ [] := fun h => ha (List.append_eq_nil_iff.1 h).1
  rcases handleInput_split E hR ha with ⟨s', h1, hR', _, h2⟩ | h2
  · rw [h1]
    refine ⟨?_, fun g hg => (by cases hg)⟩
    rw [List.drop_length, List.nil_append]
    by_cases hX : X = []
    · subst hX; exact .nil
    have h2 := h2 X hX
    generalize hd : a ++ X = d at *
    cases hc with
    | nil => exact absurd rfl hax
    | err h3 =>
      rw [h3] at h2
      cases h4 : handleInput E s' X with
      | err e p => exact .err h4
      | ok r p => rw [h4] at h2; cases h2
      | ub => rw [h4] at h2; cases h2
      | fuel => rw [h4] at h2; cases h2
    | @more _ p _ k f h3 h5 h6 =>
      rw [h3] at h2
      cases h4 : handleInput E s' X with
      | err e p => rw [h4] at h2; cases h2
      | ub => rw [h4] at h2; cases h2
      | fuel => rw [h4] at h2; cases h2
      | ok r p' =>
        obtain ⟨k', f'⟩ := r
        rw [h4] at h2
        unfold addC at h2
        cases h2
        have e : d.drop (a.length + k') = X.drop k' := by
          rw [← hd, List.drop_append, List.drop_of_length_le (by omega), List.nil_append]
          congr 1; omega
        rw [e] at h5 h6
        exact .more h4 h5 h6
  · have h2 := h2 X
    generalize hd : a ++ X = d at *
    cases hc with
    | nil => exact absurd rfl hax
    | err h3 => rw [← h2, h3]; trivial
    | @more _ p _ k f h3 h5 h6 =>
      rw [← h2, h3]
      have hk := (handleInput_ready hR ha (by rw [← h2]; exact h3)).2.2
      have e : d.drop k = a.drop k ++ X := by rw [← hd, List.drop_append_of_le_length hk]
      rw [e] at h5 h6
      exact ⟨h6, h5⟩

/-- The allocator and the memory never read make no difference. -/
theorem Clean.sim (hA : ∀ k, E.alloc k = true) (hQ : QLaw Q) {s : PState} {d : Bytes} (hc : Clean E Q s d) :
    ∀ t, PSim s t → Good s → Clean E Q t d := by
  have e := PEnv.ideal_of hA
  induction hc with
  | nil => intro t _ _; exact .nil
  | @err s p d c h1 =>
    intro t hS hG
    have h := handleInput_follow E hS.symm (hS.good hG).1 hG.1 d
    rw [e, h1] at h
    cases h2 : handleInput E t d with
    | err c' p' => exact .err h2
    | ok r p' => rw [h2] at h; exact h.elim
    | ub => rw [h2] at h; exact h.elim
    | fuel => rw [h2] at h; exact h.elim
  | @more s p d k f h1 h2 h3 ih =>
    intro t hS hG
    have h := handleInput_follow E hS.symm (hS.good hG).1 hG.1 d
    rw [e, h1] at h
    have hGp := (framesOf_step E hG h1).1
    cases h4 : handleInput E t d with
    | ok r p' =>
      rw [h4] at h
      obtain ⟨h5, h6⟩ := h
      subst h5
      exact .more h4 (fun g hg => hQ.sim h6.symm hGp (h2 g hg)) (ih p' h6.symm hGp)
    | err c p' =>
      rw [h4] at h
      exact absurd h (handleInput_memory hA h4)
    | ub => rw [h4] at h; exact h.elim
    | fuel => rw [h4] at h; exact h.elim

/-! ## What is still to come -/

theorem Stuck.alloc {E : PEnv} {e : Int} {s : PState} (h : Stuck E e s) (a : Nat) {p : List UInt16} (hp : s.pools ⊆ p) :
    Stuck E e { s with allocs := a, pools := p } := by
  intro a' p' d hp' hd
  exact h a' p' d (fun x hx => hp' (hp hx)) hd

theorem consumeData_mode {s u : PState} {d : Bytes} {k : Nat} (h : consumeData s d = some (k, u)) : u.mode = s.mode := by
  unfold consumeData at h
  dsimp only at h
  split at h
  · cases h
  · split at h
    · cases h
    · cases h; exact PState.at_mode s _ _

/-- A parser still waiting for the first octets stays that only if it does not look at the memory it has. -/
theorem initial_step {E : PEnv} {s p : PState} (hR : Ready s) (hm : s.mode = .initial) {d : Bytes} (hd : d ≠ []) {k : Nat} {f : Option AFrame}
    (h : handleInput E s d = .ok (k, f) p) : p.mode ≠ .initial ∨ k = d.length ∧ p.mode = .initial ∧ f = none ∧ ∀ a P,
      handleInput E { s with allocs := a, pools := P } d = .ok (k, f) { p with allocs := a, pools := P } := by
  have hw : s.wake = s := by unfold PState.wake; rw [if_neg (by rw [hm]; simp)]
  have hs := hR.inv.shape
  rw [hm] at hs
  have hraw : s.raw = some s.hdr := by unfold PState.raw; rw [hs.1]
  have hl := hR.inv.hdr
  have hmore := hR.more
  by_cases hfull : s.target - s.off ≤ d.length
  · left
    rw [handleInput_eq hd, hw, consumeData_full hraw (by omega) (by omega) hfull] at h
    dsimp only at h
    rw [if_neg (by simp)] at h
    unfold dispatch at h
    rw [show (s.at (splice s.hdr s.off (d.take (s.target - s.off))) s.target).mode = .initial by simp [hm]] at h
    dsimp only at h
    split at h
    · cases h
    · split at h
      · split at h
        · cases h; exact fun h => by cases h
        · cases h
      · rw [headerPhase_eq] at h
        cases hO : headerOpen E (s.at (splice s.hdr s.off (d.take (s.target - s.off))) s.target) with
        | err e t => rw [hO] at h; cases h
        | ub => rw [hO] at h; cases h
        | fuel => rw [hO] at h; cases h
        | ok x t =>
          rw [hO] at h
          dsimp only at h
          have hbody : t.mode = .body := (headerOpen_ok (by
            simp only [PState.at, PState.setRaw, hs.1]
            rw [splice_length (by simp; omega)]; exact hl) hO).2.2.2.1
          unfold contBody at h
          cases hc : consumeData t (d.drop (s.target - s.off)) with
          | none => rw [hc] at h; cases h
          | some r =>
            obtain ⟨k', u⟩ := r
            rw [hc] at h
            dsimp only at h
            have hu : u.mode = .body := (consumeData_mode hc).trans hbody
            by_cases ho : u.off < u.target
            · rw [if_pos ho] at h
              cases h
              rw [hu]; exact fun h => by cases h
            · rw [if_neg ho] at h
              obtain ⟨_, a, q, rfl⟩ := bodyPhase_ok h
              exact fun h => by cases h
  · right
    have key : ∀ a P, handleInput E { s with allocs := a, pools := P } d =
        .ok (d.length, none) { s.at (splice s.hdr s.off d) (s.off + d.length) with allocs := a, pools := P } := by
      intro a P
      rw [handleInput_eq hd]
      have hw : ({ s with allocs := a, pools := P } : PState).wake = { s with allocs := a, pools := P } := by
        unfold PState.wake; rw [if_neg (by show s.mode ≠ _; rw [hm]; simp)]
      rw [hw, consumeData_part (s := { s with allocs := a, pools := P }) (m := s.hdr) hraw (by show s.off ≤ s.target; omega) (by show s.target ≤ _; omega)
        (by show d.length ≤ s.target - s.off; omega)]
      dsimp only
      rw [if_pos (by simp; omega)]
      unfold PState.at PState.setRaw
      rw [hs.1]
    have h0 := key s.allocs s.pools
    rw [show ({ s with allocs := s.allocs, pools := s.pools } : PState) = s from rfl, h] at h0
    cases h0
    refine ⟨rfl, by simpa using hm, rfl, fun a P => ?_⟩
    rw [key]

/-- Parsing the octets `d` to come is defined, whatever is allocated in the meantime; or the parser has given up. -/
def Expects (E : PEnv) (Q : AFrame → PState → Bytes → Prop) (s : PState) (d : Bytes) : Prop :=
  (Good s ∧ Clean E Q s d) ∨ (Ready s ∧ s.mode = .initial ∧ ∀ a P, Clean E Q { s with allocs := a, pools := P } d) ∨ ∃ e, Stuck E e s

theorem Expects.alloc (hA : ∀ k, E.alloc k = true) (hQ : QLaw Q) {s : PState} {d : Bytes} (h : Expects E Q s d) (a : Nat) {p : List UInt16}
    (hp : s.pools ⊆ p) : Expects E Q { s with allocs := a, pools := p } d := by
  rcases h with ⟨hG, h⟩ | ⟨hR, hm, h⟩ | ⟨e, h⟩
  · have hS : PSim s { s with allocs := a, pools := p } := PSim.allocs_right hG a p
    exact Or.inl ⟨hS.good hG, h.sim hA hQ _ hS hG⟩
  · exact Or.inr (Or.inl ⟨⟨⟨hR.inv.hdr, hR.inv.shape⟩, hR.more⟩, hm, fun a' P' => h a' P'⟩)
  · exact Or.inr (Or.inr ⟨e, h.alloc a hp⟩)

/-- One call of the parser, on what has arrived. -/
theorem Expects.step (hA : ∀ k, E.alloc k = true) {s : PState} {a X : Bytes} (h : Expects E Q s (a ++ X)) :
    match handleInput E s a with
    | .ok (k, f) p => Expects E Q p (a.drop k ++ X) ∧ ∀ g, f = some g → Q g p (a.drop k ++ X) ∧ Proper g.payload ∧ Good p
    | .err _ p => ∀ d, Expects E Q p d
    | .ub => False
    | .fuel => True := by
  by_cases ha : a = []
  · subst ha
    exact ⟨h, fun g hg => (by cases hg)⟩
  rcases h with ⟨hG, h⟩ | ⟨hR, hm, h⟩ | ⟨e, h⟩
  · have h2 := h.step hG.1 ha
    cases h1 : handleInput E s a with
    | ub => rw [h1] at h2; exact h2
    | fuel => trivial
    | err e p => exact fun d => Or.inr (Or.inr ⟨e, handleInput_stuck hG.1 h1 (handleInput_memory hA h1)⟩)
    | ok r p =>
      obtain ⟨k, f⟩ := r
      rw [h1] at h2
      have hGp := (framesOf_step E hG h1).1
      exact ⟨Or.inl ⟨hGp, h2.1⟩, fun g hg => ⟨h2.2 g hg, by subst hg; exact handleInput_proper h1, hGp⟩⟩
  · have h2 := (h s.allocs s.pools).step (by exact hR) ha
    rw [show ({ s with allocs := s.allocs, pools := s.pools } : PState) = s from rfl] at h2
    cases h1 : handleInput E s a with
    | ub => rw [h1] at h2; exact h2
    | fuel => trivial
    | err e p => exact fun d => Or.inr (Or.inr ⟨e, handleInput_stuck hR h1 (handleInput_memory hA h1)⟩)
    | ok r p =>
      obtain ⟨k, f⟩ := r
      rw [h1] at h2
      have hRp := (handleInput_ready hR ha h1).1
      rcases initial_step hR hm ha h1 with hp | ⟨hk, hp, hf, hall⟩
      · exact ⟨Or.inl ⟨⟨hRp, hp⟩, h2.1⟩, fun g hg => ⟨h2.2 g hg, by subst hg; exact handleInput_proper h1, hRp, hp⟩⟩
      · subst hf
        refine ⟨Or.inr (Or.inl ⟨hRp, hp, fun n P => ?_⟩), fun g hg => (by cases hg)⟩
        have h3 := (h n P).step (⟨⟨hR.inv.hdr, hR.inv.shape⟩, hR.more⟩ : Ready { s with allocs := n, pools := P }) ha
        rw [hall n P] at h3
        exact h3.1
  · obtain ⟨e', a', h1, _⟩ := h s.allocs s.pools a (List.Subset.refl _) ha
    have h1 : handleInput E s a = .err e' { s with allocs := a', pools := s.pools } := h1
    rw [h1]
    exact fun d => Or.inr (Or.inr ⟨e, h.alloc a' (List.Subset.refl _)⟩)

/-! ## Frames -/

/-- The content header of a class whose number ends in 60 is one of the class basic. -/
theorem payloadPhase_basic (E : PEnv) (s : PState) (ch : UInt16) (ty : UInt8) (p : Bytes) (c n : Nat) (f : AFrame) (s' : PState)
    (hc : ty = 2 → ∃ x, p.take 2 = [x, 60]) (h : payloadPhase E s ch ty p c = .ok (n, some f) s') : Basic f := by
  unfold payloadPhase at h
  by_cases t1 : ty = 1
  · rw [if_pos t1] at h
    split at h
    · cases h
    · split at h
      · cases h; intro _ _ _ _ hp; cases hp
      all_goals cases h
  rw [if_neg t1] at h
  by_cases t2 : ty = 2
  · rw [if_pos t2] at h
    obtain ⟨x, hp⟩ := hc t2
    have hl : 2 ≤ p.length := by have := congrArg List.length hp; simp at this; omega
    have hl' : (((p ++ [FRAME_END]).drop 0).take 2).length = 2 := by simp; omega
    have e1 : ((p ++ [FRAME_END]).drop 0).take 2 = [x, 60] := by
      rw [List.drop_zero, List.take_append_of_le_length hl]; exact hp
    unfold rd16 at h
    rw [readAt_of_le (by simp; omega), Option.bind_some, d16_spec _ _ hl', e1] at h
    split at h
    · rename_i a b ha hb
      split at h
      · rename_i hdec
        cases h
        intro cls sz fl r hq
        cases hq
        obtain ⟨c, hc, he, _⟩ := decProperties_typed hdec
        have key : ∀ c ∈ propClasses, ∀ x : Fin 256, c.1 = UInt16.ofNat (beVal [UInt8.ofNat x.val, 60]) → c.1 = 60 := by decide +kernel
        have := Option.some.inj ha
        rw [← this]
        have hx : x = UInt8.ofNat (⟨x.toNat, x.toNat_lt⟩ : Fin 256).val := by simp
        rw [hx] at this ⊢
        rw [← key c hc ⟨x.toNat, x.toNat_lt⟩ (he.trans this.symm), he]
        exact this
      all_goals cases h
    · cases h
  rw [if_neg t2] at h
  by_cases t3 : ty = 3
  · rw [if_pos t3] at h; cases h; intro _ _ _ _ hp; cases hp
  rw [if_neg t3] at h
  by_cases t4 : ty = 8
  · rw [if_pos t4] at h; cases h; intro _ _ _ _ hp; cases hp
  · rw [if_neg t4] at h; cases h

theorem FullFrames.append {fm : Nat} {a b : Bytes} (ha : FullFrames fm a) (hb : FullFrames fm b) : FullFrames fm (a ++ b) := by
  induction ha with
  | nil => exact hb
  | cons ty ch p h1 _ ih => rw [List.append_assoc]; exact .cons ty ch p h1 ih

theorem frameHdr_cons (ty : UInt8) (ch : UInt16) (n : Nat) (rest : Bytes) :
    ty :: (beBytes 2 ch.toNat ++ beBytes 4 n ++ rest) = frameHdr ty ch n ++ rest := by simp [frameHdr]

theorem rawFrame_drop (ty : UInt8) (ch : UInt16) (p : Bytes) (fe : UInt8) (rest : Bytes) : (rawFrame ty ch p fe ++ rest).drop (p.length + 8) = rest := by
  rw [List.drop_append, List.drop_of_length_le (by rw [rawFrame_length]; omega), rawFrame_length]; simp

/-- What is in a frame the parser holds. -/
theorem Clean.frame {s0 sB s : PState} {ty : UInt8} {ch : UInt16} {p rest : Bytes} {d : Bytes} (hR : Ready s) (hne : d ≠ [])
    (hB : Holding s0 sB (rawFrame ty ch p FRAME_END) ch) (h : handleInput E s d = bodyPhase E sB (p.length + 8)) (hOK : PayloadOK ty p) (hp : p.length ≤ 2 ^ 30)
    (hd : d.drop (p.length + 8) = rest)
    (hQ : ∀ f s', payloadPhase E sB ch ty p (p.length + 8) = .ok (p.length + 8, f) s' → Ready s' → s'.mode = .idle → s'.frameMax = s0.frameMax →
      (∀ g, f = some g → Q g s' rest) ∧ Clean E Q s' rest) : Clean E Q s d := by
  have hg := bodyPhase_good E (p.length + 8) hB
  rcases payloadPhase_safe E sB ch ty p (p.length + 8) hOK hp with ⟨f, s', h'⟩ | ⟨e, s', h'⟩
  · rw [hg, h'] at h
    rw [h'] at hg
    obtain ⟨_, a, q, hs'⟩ := bodyPhase_ok hg
    have hR' := (handleInput_ready hR hne h).1
    have h2 := hQ f s' h' hR' (by rw [hs']; rfl) (by rw [hs']; exact hB.frameMax)
    rw [← hd] at h2
    exact .more h h2.1 h2.2
  · exact .err (by rw [h, hg, h'])

/-- Parsing what can be digested is defined. -/
theorem Harmless.clean (E : PEnv) {Q : AFrame → PState → Bytes → Prop} {fm : Nat} (hfm : fm ≤ 2 ^ 30) {d : Bytes} (hd : Harmless fm d)
    (hQ : ∀ (before after : Bytes) (ty : UInt8) (ch : UInt16) (p : Bytes) (sB s' : PState) (k : Nat) (g : AFrame), FullFrames fm before →
      d = before ++ (rawFrame ty ch p FRAME_END ++ after) → (ty = 2 → p.take 2 = [0, 60]) → p.length + 8 ≤ fm →
      payloadPhase E sB ch ty p k = .ok (k, some g) s' → Ready s' → s'.mode = .idle → s'.frameMax = fm → Q g s' after) :
    ∀ s : PState, Ready s → s.mode = .idle → s.frameMax = fm → Clean E Q s d := by
  induction hd with
  | @short d h =>
    intro s hR hm hf
    by_cases hne : d = []
    · subst hne; exact .nil
    have : handleInput E s d = .ok (d.length, none) (s.wake.at (splice ((s.wake.raw).getD []) s.wake.off d) (s.wake.off + d.length)) := by
      obtain ⟨hW, _⟩ := hR.wake
      obtain ⟨m, hr, ht, ho⟩ := hW.inv.raw
      have hs := hR.inv.shape
      rw [hm] at hs
      have e1 : s.wake.target = 7 := by unfold PState.wake; rw [if_pos hm]; exact hs.2.2
      have e2 : s.wake.off = 0 := by unfold PState.wake; rw [if_pos hm]; exact hs.2.1
      rw [handleInput_eq hne, consumeData_part hr ho ht (by omega), hr]
      dsimp only
      rw [if_pos (by simp; omega)]
      rfl
    exact .more this (fun g hg => (by cases hg)) (by rw [List.drop_length]; exact .nil)
  | tooLarge ty ch n rest hn hbig =>
    intro s hR hm hf
    rw [frameHdr_cons]
    obtain ⟨t, t1, t2, t3, _, _, _, _, _, t9⟩ := handleInput_hdr E hR hm ty ch n rest
    exact .err (by rw [t9, headerPhase_eq, (headerOpen_hdr E t1 t2 (by simp [hR.inv.hdr]) hn).1 (Or.inr (by omega))])
  | incomplete ty ch n rest hn hlt =>
    intro s hR hm hf
    rw [frameHdr_cons]
    obtain ⟨t, t1, t2, t3, _, _, _, t7, _, t9⟩ := handleInput_hdr E hR hm ty ch n rest
    rcases (headerOpen_hdr E t1 t2 (by simp [hR.inv.hdr]) (by omega)).2 (by omega) (by omega) with ⟨s', hO, _⟩ |
      ⟨k, s', hO, e1, e2, e3, e4, e5, e6, e7, _, _, e8⟩
    · exact .err (by rw [t9, headerPhase_eq, hO])
    · have hraw' : s'.raw = some (frameHdr ty ch n ++ ((List.range (n + 8)).map (E.fresh k)).drop 7) := by
        simp [PState.raw, e8]
      have h : ∃ s'', handleInput E s (frameHdr ty ch n ++ rest) = .ok ((frameHdr ty ch n ++ rest).length, none) s'' := by
        rw [t9, headerPhase_eq, hO]
        dsimp only
        unfold contBody
        rw [consumeData_part hraw' (by omega) (by simp [frameHdr_length]; omega) (by omega)]
        dsimp only
        rw [if_pos (by simp; omega)]
        rw [List.length_append, frameHdr_length]
        exact ⟨_, rfl⟩
      obtain ⟨s'', h⟩ := h
      exact .more h (fun g hg => (by cases hg)) (by rw [List.drop_length]; exact .nil)
  | badEnd ty ch p fe rest hp hfe =>
    intro s hR hm hf
    rcases handleInput_raw E hR hm ty ch p fe rest (by omega) (by omega) with ⟨s', h, _⟩ | ⟨sB, hB, h⟩
    · exact .err h
    · exact .err (by rw [h, bodyPhase_bad E _ hB hfe])
  | @frame ty ch p rest hp hOK hcls _ ih =>
    intro s hR hm hf
    have hne : rawFrame ty ch p FRAME_END ++ rest ≠ [] := by
      intro h; have := congrArg List.length h; simp [rawFrame_length] at this
    rcases handleInput_raw E hR hm ty ch p FRAME_END rest (by omega) (by omega) with ⟨s', h, _⟩ | ⟨sB, hB, h⟩
    · exact .err h
    · refine Clean.frame hR hne hB h hOK (by omega) (rawFrame_drop _ _ _ _ _) fun f s' h1 hR' hm' hf' => ⟨?_, ?_⟩
      · rintro g rfl
        exact hQ [] rest ty ch p sB s' _ g .nil rfl hcls hp h1 hR' hm' (hf'.trans hf)
      · refine ih (fun before after ty' ch' p' sB' s'' k g hw he => ?_) s' hR' hm' (hf'.trans hf)
        exact hQ (rawFrame ty ch p FRAME_END ++ before) after ty' ch' p' sB' s'' k g (.cons _ _ _ hp hw) (by rw [he, List.append_assoc])

/-! ## The first octets of a connection -/

/-- The parser of a new connection, whatever was allocated since. -/
def firstParser (fm a : Nat) (P : List UInt16) : PState := { newParser fm with allocs := a, pools := P }

theorem firstParser_ready (fm a : Nat) (P : List UInt16) : Ready (firstParser fm a P) :=
  ⟨⟨rfl, rfl, by simp [firstParser, newParser], rfl⟩, by simp [firstParser, newParser]⟩

theorem initial_short (E : PEnv) {Q : AFrame → PState → Bytes → Prop} (fm a : Nat) (P : List UInt16) {d : Bytes} (hd : d.length < 8) : Clean E Q (firstParser fm a P) d := by
  by_cases hne : d = []
  · subst hne; exact .nil
  have h : handleInput E (firstParser fm a P) d =
      .ok (d.length, none) ((firstParser fm a P).at (splice (List.replicate 8 0) 0 d) (0 + d.length)) := by
    rw [handleInput_eq hne]
    have hw : (firstParser fm a P).wake = firstParser fm a P := rfl
    rw [hw, consumeData_part (s := firstParser fm a P) (m := List.replicate 8 0) rfl (by simp [firstParser, newParser]) (by simp [firstParser, newParser])
      (by simp [firstParser, newParser]; omega)]
    dsimp only
    rw [if_pos (by simp [firstParser, newParser]; omega)]
    rfl
  exact .more h (fun g hg => (by cases hg)) (by rw [List.drop_length]; exact .nil)

/-- A frame header (and an octet more) arriving first. -/
theorem initial_hdr (E : PEnv) (fm a : Nat) (P : List UInt16) (ty : UInt8) (ch : UInt16) (n : Nat) (b : UInt8) (rest : Bytes)
    (h4 : (frameHdr ty ch n ++ b :: rest).take 4 ≠ [65, 77, 81, 80]) :
    ∃ t : PState, t.inb = .hdr ∧ t.hdr = frameHdr ty ch n ++ [b] ∧ t.frameMax = fm ∧ t.off = 8 ∧ t.bufLog = [] ∧
      handleInput E (firstParser fm a P) (frameHdr ty ch n ++ b :: rest) = headerPhase E t 8 rest := by
  have hne : frameHdr ty ch n ++ b :: rest ≠ [] := by simp
  refine ⟨{ firstParser fm a P with hdr := frameHdr ty ch n ++ [b], off := 8 }, rfl, rfl, rfl, rfl, rfl, ?_⟩
  have eF : frameHdr ty ch n ++ b :: rest = (frameHdr ty ch n ++ [b]) ++ rest := by simp
  have hl : (frameHdr ty ch n ++ [b]).length = 8 := by simp [frameHdr_length]
  rw [handleInput_eq hne]
  have hw : (firstParser fm a P).wake = firstParser fm a P := rfl
  rw [hw, consumeData_full (s := firstParser fm a P) (m := List.replicate 8 0) rfl (by simp [firstParser, newParser]) (by simp [firstParser, newParser])
    (by simp [firstParser, newParser, frameHdr_length]; omega)]
  have e1 : (frameHdr ty ch n ++ b :: rest).take 8 = frameHdr ty ch n ++ [b] := by
    rw [eF, List.take_append_of_le_length (by omega), List.take_of_length_le (by omega)]
  have e2 : (frameHdr ty ch n ++ b :: rest).drop 8 = rest := by
    rw [eF, List.drop_append, List.drop_of_length_le (by omega), hl]; rfl
  simp only [show (firstParser fm a P).target = 8 from rfl, show (firstParser fm a P).off = 0 from rfl, Nat.sub_zero, e1, e2]
  rw [if_neg (by simp [firstParser, newParser])]
  have hst : (firstParser fm a P).at (splice (List.replicate 8 0) 0 (frameHdr ty ch n ++ [b])) 8 =
      { firstParser fm a P with hdr := frameHdr ty ch n ++ [b], off := 8 } := by
    rw [splice_zero_full (by simp [frameHdr_length])]; rfl
  rw [hst]
  unfold dispatch
  dsimp only [firstParser, newParser, PState.raw]
  rw [if_neg]
  rw [eF, List.take_append_of_le_length (by omega)] at h4
  exact h4

/-- A frame arriving first: its first payload octet is replaced by what the memory contained. -/
theorem initial_raw (E : PEnv) (fm a : Nat) (P : List UInt16) (ty : UInt8) (ch : UInt16) (b : UInt8) (p : Bytes) (fe : UInt8) (rest : Bytes)
    (h4 : (rawFrame ty ch (b :: p) fe ++ rest).take 4 ≠ [65, 77, 81, 80]) (h1 : p.length + 1 < 2147483647) (h2 : p.length + 9 ≤ fm) :
    (∃ s', handleInput E (firstParser fm a P) (rawFrame ty ch (b :: p) fe ++ rest) = .err St.NO_MEMORY s') ∨
    (∃ x t sB, t.frameMax = fm ∧ Holding t sB (rawFrame ty ch (x :: p) fe) ch ∧
      handleInput E (firstParser fm a P) (rawFrame ty ch (b :: p) fe ++ rest) = bodyPhase E sB ((x :: p).length + 8)) := by
  have eF : rawFrame ty ch (b :: p) fe ++ rest = frameHdr ty ch (p.length + 1) ++ b :: (p ++ [fe] ++ rest) := by
    rw [rawFrame_eq]; simp
  rw [eF] at h4
  obtain ⟨t, t1, t2, t3, t4, t5, t6⟩ := initial_hdr E fm a P ty ch (p.length + 1) b (p ++ [fe] ++ rest) h4
  rw [eF, t6, headerPhase_eq]
  rcases (headerOpen_hdr E t1 t2 (by rfl) (by omega)).2 (by omega) (by omega) with ⟨s', hO, _⟩ |
      ⟨k, s', hO, e1, e2, e3, e4, e5, e6, e7, _, _, e8⟩
  · exact Or.inl ⟨s', by rw [hO]⟩
  refine Or.inr ⟨E.fresh k 7, t, ?_⟩
  rw [hO]
  dsimp only
  unfold contBody
  have hraw' : s'.raw = some (frameHdr ty ch (p.length + 1) ++ ((List.range (p.length + 1 + 8)).map (E.fresh k)).drop 7) := by
    simp [PState.raw, e8]
  generalize hmem : frameHdr ty ch (p.length + 1) ++ ((List.range (p.length + 1 + 8)).map (E.fresh k)).drop 7 = mem at *
  have hml : mem.length = p.length + 9 := by rw [← hmem]; simp [frameHdr_length]; omega
  have sp8 : splice mem 8 ((p ++ [fe] ++ rest).take (p.length + 1)) = rawFrame ty ch (E.fresh k 7 :: p) fe := by
    have e : (p ++ [fe] ++ rest).take (p.length + 1) = p ++ [fe] := by
      rw [List.take_append_of_le_length (by simp), List.take_of_length_le (by simp)]
    rw [e, rawFrame_eq]
    unfold splice
    rw [List.drop_of_length_le (by simp [hml]; omega)]
    have t8 : mem.take 8 = frameHdr ty ch (p.length + 1) ++ [E.fresh k 7] := by
      rw [← hmem, List.take_append, List.take_of_length_le (by simp [frameHdr_length])]
      congr 1
      rw [frameHdr_length, ← List.map_drop, ← List.map_take]
      have : ((List.range (p.length + 1 + 8)).drop 7).take (8 - 7) = [7] := by
        rw [List.range_eq_range', List.drop_range', show p.length + 1 + 8 - 7 = (p.length + 1) + 1 by omega,
          List.range'_succ]
        rfl
      rw [this]; rfl
    rw [t8]; simp
  rw [consumeData_full hraw' (by omega) (by omega) (by simp; omega)]
  simp only [e3, e4, t4]
  rw [if_neg (by simp [e4])]
  rw [show p.length + 1 + 8 - 8 = p.length + 1 by omega, sp8]
  refine ⟨s'.at (rawFrame ty ch (E.fresh k 7 :: p) fe) (p.length + 1 + 8), t3, ⟨?_, ?_, ?_, ?_, ?_, ?_, ?_, ?_⟩, ?_⟩
  · simp [PState.at, PState.setRaw, e8]
  · simp [rawFrame_length]
  · simp [rawFrame_length, e4]
  · simp [e1]
  · simp [e5]
  · simpa [PState.at, PState.setRaw, e8] using e6
  · simp [PState.at, PState.setRaw, e8, e7, rawFrame_length]
  · simp [PState.at, PState.setRaw, e8, e2, t2, frameHdr_length]
  · rw [show 8 + (p.length + 1) = (E.fresh k 7 :: p).length + 8 by simp; omega]

theorem PayloadOK.first {ty b x : UInt8} {p : Bytes} (h : PayloadOK ty (b :: p)) : PayloadOK ty (x :: p) := by
  unfold PayloadOK at *
  exact h

/-- The first frame is what it is; what follows satisfies `Q`. -/
def After (E : PEnv) (Q : AFrame → PState → Bytes → Prop) (g : AFrame) (p : PState) (d : Bytes) : Prop := Basic g ∧ p.mode = .idle ∧ Clean E Q p d

theorem Clean.after {E : PEnv} {Q : AFrame → PState → Bytes → Prop} (hQ : ∀ g p d, Q g p d → Basic g ∧ p.mode = .idle) {s : PState} {d : Bytes}
    (h : Clean E Q s d) : Clean E (After E Q) s d := h.mono fun g p d hc hq => ⟨(hQ g p d hq).1, (hQ g p d hq).2, hc⟩

theorem first_clean (E : PEnv) {Q : AFrame → PState → Bytes → Prop} (hQ : ∀ g p d, Q g p d → Basic g ∧ p.mode = .idle) {fm : Nat} (hfm : fm ≤ 2 ^ 30)
    (a : Nat) (P : List UInt16) {S : Bytes} (h4 : S.take 4 ≠ [65, 77, 81, 80]) (h0 : (S.drop 3).take 4 ≠ [0, 0, 0, 0]) (hd : Harmless fm S)
    (hrest : ∀ ty ch p after, S = rawFrame ty ch p FRAME_END ++ after → p.length + 8 ≤ fm → Harmless fm after → ∀ s : PState, Ready s → s.mode = .idle →
      s.frameMax = fm → Clean E Q s after) : Clean E (After E Q) (firstParser fm a P) S := by
  cases hd with
  | short h => exact initial_short E fm a P (by omega)
  | tooLarge ty ch n rest hn hbig =>
    rw [frameHdr_cons] at *
    cases rest with
    | nil => exact initial_short E fm a P (by simp [frameHdr_length])
    | cons b rest =>
      obtain ⟨t, t1, t2, t3, t4, t5, t6⟩ := initial_hdr E fm a P ty ch n b rest h4
      exact .err (by rw [t6, headerPhase_eq, (headerOpen_hdr E t1 t2 (by rfl) hn).1 (Or.inr (by omega))])
  | incomplete ty ch n rest hn hlt =>
    rw [frameHdr_cons] at *
    cases rest with
    | nil => exact initial_short E fm a P (by simp [frameHdr_length])
    | cons b rest =>
      obtain ⟨t, t1, t2, t3, t4, t5, t6⟩ := initial_hdr E fm a P ty ch n b rest h4
      rcases (headerOpen_hdr E t1 t2 (by rfl) (by omega)).2 (by omega) (by omega) with ⟨s', hO, _⟩ |
        ⟨k, s', hO, e1, e2, e3, e4, e5, e6, e7, _, _, e8⟩
      · exact .err (by rw [t6, headerPhase_eq, hO])
      · have hraw' : s'.raw = some (frameHdr ty ch n ++ ((List.range (n + 8)).map (E.fresh k)).drop 7) := by
          simp [PState.raw, e8]
        simp only [List.length_cons] at hlt
        have h : ∃ s'', handleInput E (firstParser fm a P) (frameHdr ty ch n ++ b :: rest) = .ok ((frameHdr ty ch n ++ b :: rest).length, none) s'' := by
          rw [t6, headerPhase_eq, hO]
          dsimp only
          unfold contBody
          rw [consumeData_part hraw' (by omega) (by simp [frameHdr_length]; omega) (by omega)]
          dsimp only
          rw [if_pos (by simp; omega)]
          rw [List.length_append, frameHdr_length, List.length_cons, show 8 + rest.length = 7 + (rest.length + 1) by omega]
          exact ⟨_, rfl⟩
        obtain ⟨s'', h⟩ := h
        exact .more h (fun g hg => (by cases hg)) (by rw [List.drop_length]; exact .nil)
  | badEnd ty ch p fe rest hp hfe =>
    cases p with
    | nil => exact absurd rfl h0
    | cons b p =>
      simp only [List.length_cons] at hp
      rcases initial_raw E fm a P ty ch b p fe rest h4 (by omega) (by omega) with ⟨s', h⟩ | ⟨x, t, sB, _, hB, h⟩
      · exact .err h
      · exact .err (by rw [h, bodyPhase_bad E _ hB hfe])
  | @frame ty ch p rest hp hOK hcls hr =>
    cases p with
    | nil => exact absurd rfl h0
    | cons b p =>
      have hp' := hp
      simp only [List.length_cons] at hp
      rcases initial_raw E fm a P ty ch b p FRAME_END rest h4 (by omega) (by omega) with ⟨s', h⟩ | ⟨x, t, sB, ht, hB, h⟩
      · exact .err h
      · refine Clean.frame (firstParser_ready fm a P) (by simp [rawFrame]) hB h hOK.first (by simp only [List.length_cons]; omega)
          (rawFrame_drop ty ch (b :: p) FRAME_END rest) fun f s' h1 hR' hm' hf' => ?_
        have hc := hrest ty ch (b :: p) rest rfl hp' hr s' hR' hm' (hf'.trans ht)
        refine ⟨?_, hc.after hQ⟩
        rintro g rfl
        refine ⟨payloadPhase_basic E sB ch ty (x :: p) _ _ g s' ?_ h1, hm', hc⟩
        intro h2
        have := hcls h2
        cases p with
        | nil => cases this
        | cons y p => simp at this; exact ⟨x, by simp [this.2]⟩

/-- The server's protocol header, first. -/
theorem first_header (E : PEnv) {Q : AFrame → PState → Bytes → Prop} (hQ : ∀ g p d, Q g p d → Basic g ∧ p.mode = .idle) {fm : Nat}
    (a : Nat) (P : List UInt16) {S : Bytes} (h4 : S.take 4 = [65, 77, 81, 80])
    (hrest : ∀ s : PState, Ready s → s.mode = .idle → s.frameMax = fm → Clean E Q s (S.drop 8)) : Clean E (After E Q) (firstParser fm a P) S := by
  by_cases hl : S.length < 8
  · exact initial_short E fm a P hl
  have hne : S ≠ [] := by rintro rfl; exact hl (by decide)
  have h8 : (S.take 8).length = 8 := by rw [List.length_take]; omega
  obtain ⟨v, hv, e⟩ : ∃ v : Bytes, v.length = 4 ∧ S.take 8 = [65, 77, 81, 80] ++ v := by
    refine ⟨(S.take 8).drop 4, by rw [List.length_drop]; omega, ?_⟩
    rw [← h4, show S.take 4 = (S.take 8).take 4 by rw [List.take_take]; rfl, List.take_append_drop]
  match v, hv with
  | [v1, v2, v3, v4], _ =>
    have h : handleInput E (firstParser fm a P) S = .ok (8, some ⟨0, .protocolHeader v1 v2 v3 v4⟩)
        ({ firstParser fm a P with hdr := S.take 8, off := 8 } : PState).idle := by
      rw [handleInput_eq hne]
      have hw : (firstParser fm a P).wake = firstParser fm a P := rfl
      rw [hw, consumeData_full (s := firstParser fm a P) (m := List.replicate 8 0) rfl (by simp [firstParser, newParser]) (by simp [firstParser, newParser])
        (by simp [firstParser, newParser]; omega)]
      simp only [show (firstParser fm a P).target = 8 from rfl, show (firstParser fm a P).off = 0 from rfl, Nat.sub_zero]
      rw [if_neg (by simp [firstParser, newParser])]
      have hst : (firstParser fm a P).at (splice (List.replicate 8 0) 0 (S.take 8)) 8 = { firstParser fm a P with hdr := S.take 8, off := 8 } := by
        rw [splice_zero_full (by simpa using h8)]; rfl
      rw [hst]
      unfold dispatch
      dsimp only [firstParser, newParser, PState.raw]
      rw [e]
      rfl
    have hR' : Ready ({ firstParser fm a P with hdr := S.take 8, off := 8 } : PState).idle := ready_idle h8
    have hc := hrest _ hR' rfl rfl
    refine .more h ?_ (hc.after hQ)
    intro g hg
    cases hg
    exact ⟨fun _ _ _ _ h => (by cases h), rfl, hc⟩

end Rmq
