import Verif.Instances.Runs
import Verif.Props.Epochs
import Verif.Props.Reference
import Verif.Props.Progress
import Verif.Props.Stuck
namespace Tsetlini
open Spec

/-! ### C35 -/

example := C35_no_epochs Toy.cc_reached Toy.cc_states Toy.cc_fitted (ran! (Toy.partCC 0))
example := C35_no_epochs Toy.bc_reached Toy.bc_states Toy.bc_fitted (ran! (Toy.partBC 0))
example := C35_partial_fit_twice Toy.cc_reached Toy.cc_states Toy.cc_fitted Toy.X_typed (m := 2) (Toy.ran Toy.partCC_ok)
example := C35_partial_fit_twice Toy.bc_reached Toy.bc_states Toy.bc_fitted Toy.XB_typed (m := 2) (Toy.ran Toy.partBC_ok)
example := C35_fit_then_partial_fit Toy.cc_reached Toy.cc_states Toy.X_typed (m := 2) (ml' := 0) (Toy.ran Toy.fitCC_ok) (by decide +kernel)
example := C35_no_epochs_regressor Toy.cr_reached Toy.cr_states Toy.cr_fitted (ran! (Toy.partCR 0))
example := C35_partial_fit_twice_regressor Toy.br_reached Toy.br_states Toy.br_fitted Toy.XB_typed (m := 2) (Toy.ran Toy.partBR_ok) (by decide +kernel)
example := C35_fit_then_partial_fit_regressor Toy.br_reached Toy.br_states Toy.XB_typed (m := 2) (Toy.ran Toy.fitBR_ok) (by decide +kernel)

/-! ### C18: one label only -/

private def ones : List (Call Algo.classic.Sample .classifier) := [.fit Toy.X [0, 0, 0, 0] 0 0]
private abbrev one := Toy.after .classic Toy.cParams ones
private theorem one_reached : Reached .classic .classifier one := Toy.reached_of Toy.cMade (by decide +kernel) (by decide +kernel)
example := C18_one_label_partial_fit (a := .classic) one_reached (Toy.statesOk_of (N := 3) (by decide +kernel) (by decide)) (by show Algo.classic.counters one ≠ []; decide +kernel)
  (X := Toy.X) (y := [0, 0, 0, 0]) ⟨fun _ _ => trivial, by decide⟩ (Toy.int (by decide +kernel))
  (ran! (partialFitClassifier Algo.classic.backend Toy.env Toy.seq one Toy.X [0, 0, 0, 0] 0 0)) (by decide +kernel) (ep := 2) (by decide)
example := C18_one_label_fit (a := .classic) one_reached (Toy.statesOk_of (N := 3) (by decide +kernel) (by decide))
  (X := Toy.X) (y := [0, 0, 0, 0]) ⟨fun _ _ => trivial, by decide⟩
  (ran! (fitClassifier Algo.classic.backend Toy.env Toy.seq one Toy.X [0, 0, 0, 0] 0 0)) (by decide +kernel) (Toy.int (by decide +kernel)) (ep := 2) (by decide)

/-! ### C16: an estimator without weights that was trained with two labels, and one with three -/

private def old₁ : List (Call Algo.classic.Sample .classifier) := [.fit Toy.X [1, 0, 0, 1] 0 2]
private def old₂ : List (Call Algo.classic.Sample .classifier) := [.fit Toy.X [1, 0, 2, 1] 0 1]
example := C16_fit (sc' := Toy.rev) (Toy.reached_of Toy.uMade (cs := old₁) (by decide +kernel) (by decide +kernel)) (Toy.reached_of Toy.uMade (cs := old₂) (by decide +kernel) (by decide +kernel))
  (Toy.agreeBut_of (by decide +kernel)) (Toy.statesOk_of (N := 3) (by decide +kernel) (by decide)) (.inl (by decide +kernel)) Toy.X_typed
  (ran! (fitClassifier Algo.classic.backend Toy.env Toy.seq (Toy.after .classic Toy.uParams old₁) Toy.X Toy.y 0 2))
example := C16_fit_regressor (sc' := Toy.rev) (st := Toy.br) (st₁ := Toy.br) Toy.br_reached Toy.br_reached (fun _ _ => rfl) Toy.br_states (.inr fun _ => rfl) Toy.XB_typed
  (Toy.ran Toy.fitBR_ok)

/-! ### C52 -/

private theorem cr_reg : HasRegSettings Toy.cr.params ⟨false, "MSE", .fin 0⟩ := by constructor <;> decide +kernel
private theorem br_reg : HasRegSettings Toy.br.params ⟨false, "MSE", .fin 0⟩ := by constructor <;> decide +kernel
example := C52_fit Toy.cc_reached Toy.cc_states Toy.X_typed Toy.cc_settings (seed := 5) (weighted := true) (by decide +kernel) (by decide +kernel) (Toy.ran Toy.fitCC_ok)
  (by decide +kernel) (labels := 3) (n := 3) (Toy.int (by decide +kernel)) (Toy.int (by decide +kernel))
example := C52_fit Toy.bc_reached Toy.bc_states Toy.XB_typed Toy.bc_settings (seed := 5) (weighted := true) (by decide +kernel) (by decide +kernel) (Toy.ran Toy.fitBC_ok)
  (by decide +kernel) (labels := 3) (n := 3) (Toy.int (by decide +kernel)) (Toy.int (by decide +kernel))
private def cc_chain := C52_partial_fit Toy.cc_reached Toy.cc_states Toy.cc_fitted Toy.X_typed Toy.cc_settings (Toy.ran Toy.partCC_ok) (by decide +kernel)
  (labels := 3) (n := 3) (Toy.int (by decide +kernel)) (Toy.int (by decide +kernel))
private def cc_start := C52_fit Toy.cc_reached Toy.cc_states Toy.X_typed Toy.cc_settings (seed := 5) (weighted := true) (by decide +kernel) (by decide +kernel)
  (Toy.ran Toy.fitCC_ok) (by decide +kernel) (labels := 3) (n := 3) (Toy.int (by decide +kernel)) (Toy.int (by decide +kernel))
example := C52_fit_regressor Toy.br_reached Toy.br_states Toy.XB_typed Toy.br_settings br_reg (seed := 5) (weighted := true) (by decide +kernel) (by decide +kernel)
  (Toy.ran Toy.fitBR_ok) (by decide +kernel) (n := 3) (Toy.int (by decide +kernel))
private def cr_chain := C52_partial_fit_regressor Toy.cr_reached Toy.cr_states Toy.cr_fitted Toy.X_typed Toy.cr_settings cr_reg (Toy.ran Toy.partCR_ok)
  (by decide +kernel) (n := 3) (Toy.int (by decide +kernel))
example := C52_one_result cc_chain cc_chain
example := C52_one_result_regressor cr_chain cr_chain
example : ∃ u, Started Toy.env 5 true (3 * Toy.settingsC.k) 3 Toy.cc.ta.weights u ∧ ∀ v, Started Toy.env 5 true (3 * Toy.settingsC.k) 3 Toy.cc.ta.weights v → v = u :=
  have ⟨u, hu, _⟩ := cc_start
  ⟨u, hu, fun _ hv => C52_one_start hv hu⟩

/-! ### C63, C64 -/

private def again : List Algo.classic.Sample := [Toy.xc, Toy.xc]
private abbrev againCC := partialFitClassifier Algo.classic.backend Toy.env Toy.seq Toy.cc again [(1 : Nat), (1 : Nat)] 0 3
private theorem again_ok : againCC.isOk = true := by decide +kernel
example := C63_scores (a := .classic) (t := 1) Toy.cc_reached Toy.cc_states Toy.cc_fitted trivial (by decide) (X := again) (x := Toy.xc) (by simp [again])
  (y := [(1 : Nat), (1 : Nat)]) (by simp) (Toy.ran again_ok) (by decide +kernel)
  (d := (Toy.says (decision1 classic Toy.env Toy.seq Toy.cc [1, 0, 1])).getD []) (sc₀ := Toy.seq) (Toy.gives_of (by decide +kernel))
example := C63_stays_right (a := .classic) (t := 1) Toy.cc_reached Toy.cc_states Toy.cc_fitted trivial (by decide) (X := again) (x := Toy.xc) (by simp [again])
  (y := [(1 : Nat), (1 : Nat)]) (by simp) (Toy.ran again_ok) (by decide +kernel) (sc₀ := Toy.seq) (Toy.gives_of (by decide +kernel)) Toy.rev
example := C63_response (v := 0) Toy.cr_reached Toy.cr_states Toy.cr_fitted trivial (by decide) (n := 3) (Toy.int (by decide +kernel)) (Toy.ran Toy.stepCR_ok) (by decide +kernel)
  (p := (Toy.says (predictRegressor1 classic Toy.env Toy.seq Toy.cr [1, 0, 1])).getD 0) (sc₀ := Toy.seq) (Toy.gives_of (by decide +kernel))
example := C63_response (v := 3) Toy.br_reached Toy.br_states Toy.br_fitted Toy.xb_built (by decide) (n := 3) (Toy.int (by decide +kernel)) (Toy.ran Toy.stepBR_ok) (by decide +kernel)
  (p := (Toy.says (predictRegressor1 bitwise Toy.env Toy.seq Toy.br ⟨3, [5]⟩)).getD 0) (sc₀ := Toy.seq) (Toy.gives_of (by decide +kernel))

end Tsetlini
