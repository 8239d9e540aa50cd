import Verif.Instances.Runs
namespace Tsetlini
open Spec

example := C34_fit Toy.cc_reached Toy.cc_states Toy.X_typed Toy.cc_settings (Toy.ran Toy.fitCC_ok) (by decide +kernel) (labels := 3) (n := 3)
  (Toy.int (by decide +kernel)) (Toy.int (by decide +kernel))
example := C34_fit Toy.bc_reached Toy.bc_states Toy.XB_typed Toy.bc_settings (Toy.ran Toy.fitBC_ok) (by decide +kernel) (labels := 3) (n := 3)
  (Toy.int (by decide +kernel)) (Toy.int (by decide +kernel))
example := C34_partial_fit Toy.cc_reached Toy.cc_states Toy.cc_fitted Toy.X_typed Toy.cc_settings (Toy.ran Toy.partCC_ok) (by decide +kernel) (labels := 3) (n := 3)
  (Toy.int (by decide +kernel)) (Toy.int (by decide +kernel))
example := C34_partial_fit Toy.bc_reached Toy.bc_states Toy.bc_fitted Toy.XB_typed Toy.bc_settings (Toy.ran Toy.partBC_ok) (by decide +kernel) (labels := 3) (n := 3)
  (Toy.int (by decide +kernel)) (Toy.int (by decide +kernel))
example := C34_fit_regressor Toy.cr_reached Toy.cr_states Toy.X_typed Toy.cr_settings (Toy.ran Toy.fitCR_ok) (by decide +kernel) (n := 3)
  (Toy.int (by decide +kernel))
example := C34_partial_fit_regressor Toy.br_reached Toy.br_states Toy.br_fitted Toy.XB_typed Toy.br_settings (Toy.ran Toy.partBR_ok) (by decide +kernel) (n := 3)
  (Toy.int (by decide +kernel))
example := C19_only_two_labels (t := 1) Toy.cc_reached Toy.cc_states Toy.cc_fitted trivial (Toy.ran Toy.stepCC_ok) (by decide +kernel) (labels := 3) (n := 3) (c := 4)
  (Toy.int (by decide +kernel)) (Toy.int (by decide +kernel)) (Toy.int (by decide +kernel)) (by decide)
example := C19_only_two_labels (t := 1) Toy.bc_reached Toy.bc_states Toy.bc_fitted Toy.xb_built (Toy.ran Toy.stepBC_ok) (by decide +kernel) (labels := 3) (n := 3) (c := 4)
  (Toy.int (by decide +kernel)) (Toy.int (by decide +kernel)) (Toy.int (by decide +kernel)) (by decide)
example := C18_opposite Toy.env (labels := 3) (t := 1) (by decide) (by decide) (by decide) (5 : Nat)
example := C18_every_other_label (labels := 3) (t := 1) (o := 0) (by decide) (by decide) (by decide) (by decide)
example := C20_feedback_types (t := 1) Toy.cc_reached Toy.cc_states Toy.cc_fitted trivial Toy.cc_settings (Toy.ran Toy.stepCC_ok) (by decide +kernel) (labels := 3) (n := 3)
  (Toy.int (by decide +kernel)) (Toy.int (by decide +kernel)) (by decide)
example := C20_feedback_types (t := 1) Toy.bc_reached Toy.bc_states Toy.bc_fitted Toy.xb_built Toy.bc_settings (Toy.ran Toy.stepBC_ok) (by decide +kernel) (labels := 3) (n := 3)
  (Toy.int (by decide +kernel)) (Toy.int (by decide +kernel)) (by decide)
/-- C21: Type II feedback to a clause that is true for the sample. -/
example := C21_type_II (x := [true, false, true]) (out := true) (u := (some ⟨[-2, -1, 0], [-1, 0, -1]⟩, some 2)) (u' := (some ⟨[-2, 0, 0], [0, 0, 0]⟩, some 1))
  ⟨_, rfl, rfl, rfl⟩
example := C21_contradicting_literals (t := 1) Toy.cc_reached Toy.cc_states Toy.cc_fitted trivial Toy.cc_settings (Toy.ran Toy.stepCC_ok) (by decide +kernel) (labels := 3)
  (n := 3) (Toy.int (by decide +kernel)) (Toy.int (by decide +kernel)) (by decide)
example := C22_feedback (env := Toy.env) (H := Toy.settingsC) (x := [true, false, true]) (n := 3) (out := true) (u := (some ⟨[-2, -1, 0], [-1, 0, -1]⟩, some 2))
  (u' := (some ⟨[-2, 0, 0], [0, 0, 0]⟩, some 1)) (.inr ⟨_, rfl, rfl, rfl⟩)
/-- C22: Type I feedback to a clause that is true for the sample; one positive and two negated literals were chosen. -/
example := C22_feedback (env := Toy.env) (H := Toy.settingsC) (x := [true, false, true]) (n := 3) (out := true) (u := (some ⟨[-2, -1, 0], [-1, 0, -1]⟩, some 1))
  (u' := (some ⟨[-2, -1, 1], [-2, 1, -2]⟩, some 2))
  (.inl ⟨_, _, rfl, rfl, ⟨[true, false, false], [true, false, true], ⟨rfl, by unfold Near; decide +kernel⟩, ⟨rfl, by unfold Near; decide +kernel⟩, by decide +kernel⟩, by decide +kernel⟩)
example := C22_step (t := 1) Toy.cc_reached Toy.cc_states Toy.cc_fitted (Toy.ran Toy.stepCC_ok) (by decide +kernel) (by decide) (i := 4)
  (c := ⟨[-2, -1, 0], [-1, 0, -1]⟩) (by decide +kernel)
example := C33_regressor_step Toy.cr_reached Toy.cr_states Toy.cr_fitted trivial (by decide) Toy.cr_settings (Toy.ran Toy.stepCR_ok) (by decide +kernel) (n := 3)
  (Toy.int (by decide +kernel))
example := C33_regressor_step Toy.br_reached Toy.br_states Toy.br_fitted Toy.xb_built (by decide) Toy.br_settings (Toy.ran Toy.stepBR_ok) (by decide +kernel) (n := 3)
  (Toy.int (by decide +kernel))

end Tsetlini
