import Verif.Model.Constants
import Verif.Spec.Constants
/-!
# C66: the names and the severity of the protocol's constants
-/
namespace Rmq
open ConstSpec

/-- C66: amqp_constant_name gives every constant of the protocol its own name, and amqp_constant_is_hard_error says 1 exactly for
the reply codes that close the connection. -/
theorem C66_known : ∀ k ∈ constants,
    (constantName k.value).toList = spelled k.name ∧ constantIsHardError k.value = if k.cls = .hard then 1 else 0 := by decide +kernel

/-- C66: any other integer is unknown, and no hard error. -/
theorem C66_unknown (n : Int) (h : ∀ k ∈ constants, (k.value : Int) ≠ n) : constantName n = "(unknown)" ∧ constantIsHardError n = 0 := by
  simp only [constants, List.forall_mem_cons, List.not_mem_nil, false_imp_iff, implies_true, and_true] at h
  constructor
  · unfold constantName
    repeat rw [if_neg (by omega)]
  · unfold constantIsHardError
    repeat rw [if_neg (by omega)]

/-- No two constants of the protocol share a value or a name, so a name identifies the constant. -/
theorem C66_injective : (constants.map (·.value)).Nodup ∧ (constants.map fun k => spelled k.name).Nodup ∧
    ∀ m n : Int, constantName m = constantName n → constantName m ≠ "(unknown)" → m = n := by
  refine ⟨by decide +kernel, by decide +kernel, fun m n h hm => ?_⟩
  have hin : ∀ n : Int, constantName n ≠ "(unknown)" → ∃ k ∈ constants, (k.value : Int) = n := by
    intro n hn
    refine Classical.byContradiction fun hc => hn (C66_unknown n fun k hk he => hc ⟨k, hk, he⟩).1
  obtain ⟨k, hk, rfl⟩ := hin m hm
  obtain ⟨k', hk', rfl⟩ := hin n (h ▸ hm)
  have key : ∀ a ∈ constants, ∀ b ∈ constants, (constantName a.value).toList = (constantName b.value).toList → a.value = b.value := by
    decide +kernel
  have := key k hk k' hk' (by rw [h])
  omega

example : constantName 404 = "AMQP_NOT_FOUND" ∧ constantIsHardError 404 = 0 ∧ constantIsHardError 530 = 1 ∧ constantName 7 = "(unknown)" := by
  decide +kernel

end Rmq
