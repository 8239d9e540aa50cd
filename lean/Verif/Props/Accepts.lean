import Verif.Props.Factory
/- Which named arguments the factories and `fit` accept: C46. -/
namespace Tsetlini
open Spec

/-- **C46**: a call of a classifier's factory compiles exactly if no setting is given twice and none of them is a regressor's own or one of `fit`'s. -/
theorem C46_classifier_accepts (args : List Arg) : Compiles classifierArgTys args ↔ (args.map Arg.ty).Nodup ∧ ∀ x ∈ args,
    (∀ v, x ≠ .regressorClauses v) ∧ (∀ v, x ≠ .lossFn v) ∧ (∀ v, x ≠ .lossC1 v) ∧ (∀ v, x ≠ .boxMuller v) ∧ (∀ v, x ≠ .maxLabels v) ∧ ∀ v, x ≠ .epochs v := by
  have h : ∀ x : Arg, x.ty ∈ classifierArgTys ↔ (∀ v, x ≠ .regressorClauses v) ∧ (∀ v, x ≠ .lossFn v) ∧ (∀ v, x ≠ .lossC1 v) ∧ (∀ v, x ≠ .boxMuller v) ∧
      (∀ v, x ≠ .maxLabels v) ∧ ∀ v, x ≠ .epochs v := by
    intro x; cases x <;> simp [Arg.ty, classifierArgTys]
  unfold Compiles
  rw [and_comm]
  simp only [h]

/-- **C46**: a call of a regressor's factory compiles exactly if no setting is given twice and none of them is a classifier's own or one of `fit`'s. -/
theorem C46_regressor_accepts (args : List Arg) : Compiles regressorArgTys args ↔ (args.map Arg.ty).Nodup ∧ ∀ x ∈ args,
    (∀ v, x ≠ .clausesPerLabel v) ∧ (∀ v, x ≠ .maxLabels v) ∧ ∀ v, x ≠ .epochs v := by
  have h : ∀ x : Arg, x.ty ∈ regressorArgTys ↔ (∀ v, x ≠ .clausesPerLabel v) ∧ (∀ v, x ≠ .maxLabels v) ∧ ∀ v, x ≠ .epochs v := by
    intro x; cases x <;> simp [Arg.ty, regressorArgTys]
  unfold Compiles
  rw [and_comm]
  simp only [h]

/-- **C46**: a call of a classifier's `fit` or `partial_fit` compiles exactly if it gives nothing but the number of labels and of epochs, each at most once. -/
theorem C46_fit_accepts (args : List Arg) : Compiles fitArgTys args ↔ (args.map Arg.ty).Nodup ∧ ∀ x ∈ args,
    (∃ v, x = .maxLabels v) ∨ ∃ v, x = .epochs v := by
  have h : ∀ x : Arg, x.ty ∈ fitArgTys ↔ (∃ v, x = .maxLabels v) ∨ ∃ v, x = .epochs v := by
    intro x; cases x <;> simp [Arg.ty, fitArgTys]
  unfold Compiles
  rw [and_comm]
  simp only [h]

/-- Some that compile, and some that do not. -/
example : Compiles classifierArgTys [.verbose true, .threshold 3, .specificity (.fin 2)] ∧ Compiles regressorArgTys [.boxMuller true, .regressorClauses 4] ∧
    Compiles fitArgTys [.epochs 3, .maxLabels 2] ∧ ¬ Compiles classifierArgTys [.threshold 3, .threshold 4] ∧ ¬ Compiles classifierArgTys [.boxMuller true] ∧
    ¬ Compiles fitArgTys [.threshold 3] := by
  unfold Compiles
  decide +kernel

end Tsetlini
