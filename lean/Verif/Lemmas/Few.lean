import Mathlib.Data.Fintype.BigOperators
/- There are fewer models than functions. -/
namespace Tsetlini

/-- What a model of `L` clauses for `n` features says: which literals each clause includes, and its weight, one of `W`. -/
abbrev ModelCode (n L W : Nat) : Type := Fin L → (Fin n → Bool × Bool) × Fin W

theorem few_models {n L W R : Nat} (h : (4 ^ n * W) ^ L < R ^ (2 ^ n)) (g : ModelCode n L W → Fin (2 ^ n) → Fin R) :
    ∃ F, ∀ m, g m ≠ F := by
  refine Classical.byContradiction fun hc => ?_
  have hs : Function.Surjective g := fun F => Classical.byContradiction fun hF => hc ⟨F, fun m e => hF ⟨m, e⟩⟩
  have := Fintype.card_le_of_surjective g hs
  simp only [ModelCode, Fintype.card_pi, Fintype.card_prod, Fintype.card_bool, Fintype.card_fin, Finset.prod_const, Finset.card_univ] at this
  rw [show 2 * 2 = 4 from rfl] at this
  omega

end Tsetlini
