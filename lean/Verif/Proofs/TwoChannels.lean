import Verif.Proofs.Arrive
/-!
# Two channels on one connection (C78)
-/
namespace Rmq

theorem Shuffle.mem {α : Type} {xs ys zs : List α} (h : Shuffle xs ys zs) {x : α} : x ∈ zs ↔ x ∈ xs ∨ x ∈ ys := by
  induction h with
  | nil => simp
  | left _ ih => simp [ih, or_assoc]
  | right _ ih => simp [ih, or_left_comm]

theorem Shuffle.symm {α : Type} {xs ys zs : List α} (h : Shuffle xs ys zs) : Shuffle ys xs zs := by
  induction h with
  | nil => exact .nil
  | left _ ih => exact .right ih
  | right _ ih => exact .left ih

theorem Shuffle.filter_left {α : Type} {xs ys zs : List α} (h : Shuffle xs ys zs) {p : α → Bool} : (∀ x ∈ xs, p x = true) → (∀ y ∈ ys, p y = false) →
    zs.filter p = xs := by
  induction h with
  | nil => intros; rfl
  | left _ ih => intro h1 h2; rw [List.filter_cons_of_pos (h1 _ List.mem_cons_self), ih (fun x hx => h1 x (List.mem_cons_of_mem _ hx)) h2]
  | right _ ih => intro h1 h2; rw [List.filter_cons_of_neg (by simp [h2 _ List.mem_cons_self]), ih h1 fun x hx => h2 x (List.mem_cons_of_mem _ hx)]

theorem Shuffle.filter_right {α : Type} {xs ys zs : List α} (h : Shuffle xs ys zs) {p : α → Bool} (h1 : ∀ x ∈ xs, p x = false) (h2 : ∀ y ∈ ys, p y = true) :
    zs.filter p = ys := h.symm.filter_left h2 h1

/-- Looking at channel `a`, `B` being to come on the other channel, `b`; what is queued is of one channel. -/
structure Pair (E : NetEnv) (a b : UInt16) (B : List AFrame) (s : Conn) (X : Bytes) (fs : List AFrame) : Prop where
  hb : NoHb s
  all : ∀ g ∈ pending E s X, g.channel = a ∨ g.channel = b
  one : (∀ g ∈ s.queue, g.frame.channel = a) ∨ ∀ g ∈ s.queue, g.frame.channel = b
  mine : (pending E s X).filter (·.channel == a) = fs
  yours : (pending E s X).filter (·.channel == b) = B

theorem Pair.swap {E : NetEnv} {a b : UInt16} {A B : List AFrame} {s : Conn} {X : Bytes} (h : Pair E a b B s X A) : Pair E b a A s X B :=
  ⟨h.hb, fun g hg => (h.all g hg).symm, h.one.symm, h.yours, h.mine⟩

theorem pair_view {E : NetEnv} {a b : UInt16} (hab : a ≠ b) (B : List AFrame) : View E a (Pair E a b B) where
  step := by
    intro s t f l X g more hC h hl _ p
    have fin : ∀ {before after : List AFrame}, NoHb t → f.frame.channel = a → (∀ g ∈ before, g.channel ≠ a) →
        ((∀ g ∈ t.queue, g.frame.channel = a) ∨ ∀ g ∈ t.queue, g.frame.channel = b) →
        pending E s (recvBytes l ++ X) = before ++ f.frame :: after → pending E t X = before ++ after → f.frame = g ∧ Pair E a b B t X more := by
      intro before after hN hc hbf ho e1 e2
      have hm := p.mine
      have hy := p.yours
      rw [e1] at hm hy
      have hb0 : before.filter (·.channel == a) = [] := List.filter_eq_nil_iff.2 fun g hg => by simpa using hbf g hg
      rw [List.filter_append, hb0, List.filter_cons_of_pos (by simpa using hc)] at hm
      injection hm with hm1 hm2
      refine ⟨hm1, hN, fun g hg => p.all g ?_, ho, ?_, ?_⟩
      · rw [e2] at hg
        rw [e1]
        rcases List.mem_append.1 hg with hg | hg
        · exact List.mem_append_left _ hg
        · exact List.mem_append_right _ (List.mem_cons_of_mem _ hg)
      · rw [e2, List.filter_append, hb0]
        exact hm2
      · rw [e2, ← hy, List.filter_append, List.filter_append, List.filter_cons_of_neg (by rw [hc]; simpa using hab)]
    unfold waitFrameOn at h
    have go : (∀ g ∈ s.queue, g.frame.channel = b) → f.frame = g ∧ Pair E a b B t X more := by
      intro hQ
      have hf : findQueued a s.queue = none := by
        cases hf : findQueued a s.queue with
        | none => rfl
        | some p =>
          obtain ⟨hc, x, ha, _⟩ := findQueued_split hf
          exact absurd (hc.symm.trans (hQ p.1 (by rw [ha]; simp))) hab
      rw [hf] at h
      obtain ⟨a1, b1, u1, fs, aside, ⟨_, l', hl', he⟩, q1, m1, n1⟩ := waitOnLoop_eff a _ s t f hC.good (hC.heart.unblocked) h
      cases hl.unique hl'
      have e1 : pending E s (recvBytes l ++ X) = ((s.queue.map (·.frame)).filter (!·.isHeartbeat) ++ fs.filter (!·.isHeartbeat)) ++
          f.frame :: (framesOf E.pe t.ps (t.inb ++ X)).filter (!·.isHeartbeat) := by
        unfold pending
        rw [he X]
        simp [List.filter_append, a1]
      have hN : NoHb t := by
        intro g hg
        rw [q1] at hg
        rcases List.mem_append.1 hg with hg | hg
        · exact p.hb g hg
        · have : g.frame ∈ fs.filter (!·.isHeartbeat) := m1 ▸ List.mem_map_of_mem hg
          simpa using (List.mem_filter.1 this).2
      refine fin hN b1 ?_ (.inr ?_) e1 ?_
      · intro x hx
        rcases List.mem_append.1 hx with hx | hx
        · obtain ⟨g, hg, rfl⟩ := List.mem_map.1 (List.mem_filter.1 hx).1
          rw [hQ g hg]
          exact fun e => hab e.symm
        · rw [← m1] at hx
          obtain ⟨g, hg, rfl⟩ := List.mem_map.1 hx
          exact n1 g hg
      · intro g hg
        rw [q1] at hg
        rcases List.mem_append.1 hg with hg | hg
        · exact hQ g hg
        · refine (p.all g.frame ?_).resolve_left (n1 g hg)
          rw [e1, ← m1]
          exact List.mem_append_left _ (List.mem_append_right _ (List.mem_map_of_mem hg))
      · unfold pending
        rw [q1, List.map_append, m1]
        simp [List.filter_append, List.filter_filter]
    cases hq : s.queue with
    | cons g0 rest =>
      by_cases hc : g0.frame.channel = a
      · rw [hq] at h
        unfold findQueued at h
        rw [if_pos hc] at h
        cases h
        cases hl.unique (l' := []) (by simp [Since])
        have hb : f.frame.isHeartbeat = false := p.hb f (by rw [hq]; exact List.mem_cons_self)
        refine fin (before := []) (fun g hg => p.hb g (by rw [hq]; exact List.mem_cons_of_mem _ hg)) hc (fun _ h => nomatch h) ?_ ?_ rfl
        · rcases p.one with h1 | h1
          · exact .inl fun g hg => h1 g (by rw [hq]; exact List.mem_cons_of_mem _ hg)
          · exact .inr fun g hg => h1 g (by rw [hq]; exact List.mem_cons_of_mem _ hg)
        · unfold pending
          rw [hq]
          show List.filter _ (List.map _ (f :: rest) ++ framesOf E.pe s.ps (s.inb ++ X)) = _
          simp [List.filter_cons, hb]
      · have h1 : ∀ g ∈ s.queue, g.frame.channel = b := by
          rcases p.one with h1 | h1
          · exact absurd (h1 g0 (by rw [hq]; exact List.mem_cons_self)) hc
          · exact h1
        exact go h1
    | nil => exact go (by rw [hq]; intro g hg; cases hg)
  same := by
    intro s t X fs hG hA p
    obtain ⟨_, h1, _, h2⟩ := hA.same (E := E) hG
    exact ⟨by intro g hg; rw [h1] at hg; exact p.hb g hg, by rw [h2]; exact p.all, by rw [h1]; exact p.one, by rw [h2]; exact p.mine, by rw [h2]; exact p.yours⟩

end Rmq
