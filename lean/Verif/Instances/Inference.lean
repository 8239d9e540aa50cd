import Verif.Instances.Base
import Verif.Props.Inference
import Verif.Props.Training
import Verif.Props.Progress
namespace Tsetlini
open Spec

/-! C04 to C10 for the trained toy estimators (3 labels, 3 features, weighted). -/

example := C04_training_output Toy.cc_reached Toy.cc_states (n := 3) (Toy.int (by decide +kernel)) (x := Toy.xc) trivial (Toy.bytes_good (by decide))
  rfl (o := 4) (c := ⟨[-2, -1, 0], [-1, 0, -1]⟩) (by decide +kernel)
example := C04_training_output Toy.bc_reached Toy.bc_states (n := 3) (Toy.int (by decide +kernel)) (x := Toy.xb) (Toy.XB_built _ (List.mem_cons_self ..)) (Toy.XB_good _ (List.mem_cons_self ..))
  rfl (o := 0) (c := (Algo.bitwise.clauses Toy.bc)[0]'(by decide +kernel)) (by decide +kernel)
example := C04_prediction_output Toy.cc_reached Toy.cc_states (n := 3) (Toy.int (by decide +kernel)) (x := Toy.xc) trivial (Toy.bytes_good (by decide))
  rfl (o := 4) (c := ⟨[-2, -1, 0], [-1, 0, -1]⟩) (by decide +kernel)
example := C04_prediction_output Toy.br_reached Toy.br_states (n := 3) (Toy.int (by decide +kernel)) (x := Toy.xb) (Toy.XB_built _ (List.mem_cons_self ..)) (Toy.XB_good _ (List.mem_cons_self ..))
  rfl (o := 0) (c := ⟨[0, 0, -1], [-1, -1, -1]⟩) (by decide +kernel)
example := C07_decision Toy.cc_reached Toy.cc_states Toy.cc_fitted (T := 2) (labels := 3) (clauses := 4) (n := 3) (Toy.int (by decide +kernel))
  (Toy.int (by decide +kernel)) (Toy.int (by decide +kernel)) (Toy.int (by decide +kernel)) (x := Toy.xc) trivial (Toy.bytes_good (by decide)) rfl
example := C07_decision Toy.bc_reached Toy.bc_states Toy.bc_fitted (T := 2) (labels := 3) (clauses := 4) (n := 3) (Toy.int (by decide +kernel))
  (Toy.int (by decide +kernel)) (Toy.int (by decide +kernel)) (Toy.int (by decide +kernel)) (x := Toy.xb) (Toy.XB_built _ (List.mem_cons_self ..)) (Toy.XB_good _ (List.mem_cons_self ..)) rfl
example := C08_predict Toy.cc_reached Toy.cc_states (labels := 3) (Toy.int (by decide +kernel)) (x := Toy.xc) trivial Toy.seq Toy.rev
  (scores := (Toy.says (decision1 classic Toy.env Toy.seq Toy.cc [1, 0, 1])).getD []) (Toy.gives_of (by decide +kernel))
example := C09_predict Toy.cr_reached Toy.cr_states Toy.cr_fitted (T := 3) (clauses := 4) (n := 3) (Toy.int (by decide +kernel))
  (Toy.int (by decide +kernel)) (Toy.int (by decide +kernel)) (x := Toy.xc) trivial (Toy.bytes_good (by decide)) rfl
example := C09_predict Toy.br_reached Toy.br_states Toy.br_fitted (T := 3) (clauses := 4) (n := 3) (Toy.int (by decide +kernel))
  (Toy.int (by decide +kernel)) (Toy.int (by decide +kernel)) (x := Toy.xb) (Toy.XB_built _ (List.mem_cons_self ..)) (Toy.XB_good _ (List.mem_cons_self ..)) rfl
example := C10_predict Toy.bc_reached Toy.bc_states (X := Toy.XB) Toy.XB_built
example := C10_decision Toy.bc_reached Toy.bc_states (X := Toy.XB) Toy.XB_built
example := C10_predict_regressor Toy.br_reached Toy.br_states (X := Toy.XB) Toy.XB_built

end Tsetlini
