import Verif.Instances.Base
import Verif.Props.Validation
namespace Tsetlini
open Spec

/-! The data of C12 include a row that is too long, a byte 2 and a label out of range: whichever checks they fail, `Decides` and `Answers` say
what is reported. -/

private def ragged : List Algo.classic.Sample := ([[1, 0, 1], [0, 1]] : List ClassicSample)

example := C12_fit Toy.cc Toy.seq (X := ragged) (y := [0, -1]) 0 3 (fun _ _ => trivial) (by decide)
example := C12_fit Toy.bc Toy.seq (X := Toy.XB) (y := [0, 1, 2, 1]) 0 3 Toy.XB_built (by decide)
example := C12_partial_fit Toy.cc_reached Toy.cc_states Toy.cc_fitted Toy.seq (labels := 3) (nf := 3) (Toy.int (by decide +kernel))
  (Toy.int (by decide +kernel)) (X := ragged) (y := [0, 7]) 0 3 (fun _ _ => trivial)
example := C12_partial_fit Toy.bc_reached Toy.bc_states Toy.bc_fitted Toy.seq (labels := 3) (nf := 3) (Toy.int (by decide +kernel))
  (Toy.int (by decide +kernel)) (X := Toy.XB) (y := [0, 1, 2, 3]) 0 3 Toy.XB_built
example := C12_fit_regressor Toy.cr Toy.seq (T := 3) (Toy.int (by decide +kernel)) (X := ragged) (y := [0, 9]) 3 (fun _ _ => trivial)
example := C12_partial_fit_regressor Toy.br Toy.br_fitted Toy.seq (T := 3) (nf := 3) (Toy.int (by decide +kernel)) (Toy.int (by decide +kernel))
  (X := Toy.XB) (y := [0, 1, 2, 4]) 3 Toy.XB_built
example := C12_int_max_label Toy.cc Toy.seq (X := Toy.X) (y := [0, 1, 2147483647, 0]) 0 3 (fun _ _ => trivial)
  (by
    intro p hp
    simp only [trainChecks, List.mem_cons, List.not_mem_nil, or_false] at hp
    rcases hp with h | h | h | h | h | h <;> rw [h]
    · exact fun e => nomatch e
    · exact fun e => nomatch e
    · exact fun e => absurd (show Toy.X.length ≠ 4 from e) (by decide)
    · have e : ∀ x ∈ Toy.X, x.length = 3 := by decide
      exact fun ⟨x, hx, y, hy, hn⟩ => hn ((e x hx).trans (e y hy).symm)
    · exact fun ⟨x, hx, hn⟩ => hn (Toy.X_good x hx).1
    · exact fun ⟨x, hx, hn⟩ => hn trivial)
  (by decide) (by decide)
example := C12_predict Toy.cc_reached Toy.cc_states (b := true) ⟨fun _ => Toy.cc_fitted, fun _ => rfl⟩ (nf := 3) (fun _ => Toy.int (by decide +kernel))
  (x := ([1, 0] : ClassicSample)) trivial Toy.seq
example := C12_predict_batch Toy.cc_reached Toy.cc_states (b := true) ⟨fun _ => Toy.cc_fitted, fun _ => rfl⟩ (nf := 3) (fun _ => Toy.int (by decide +kernel))
  (X := ragged) (fun _ _ => trivial) Toy.seq
example := C12_predict_regressor Toy.br_reached Toy.br_states (b := true) ⟨fun _ => Toy.br_fitted, fun _ => rfl⟩ (nf := 3) (fun _ => Toy.int (by decide +kernel))
  (x := (⟨3, [5]⟩ : BitVector)) (Toy.XB_built _ (List.mem_cons_self ..)) (X := Toy.XB) Toy.XB_built Toy.seq

/-- What a training call returned. -/
def Toy.statusOf {B : Backend} : EstState B Toy.env × Out → Option Status
  | (_, .status s) => some s
  | _ => none

/-- C13: `fit` with a label missing. -/
private def missing : Res (EstState classic Toy.env × Out) := step classic Toy.env Toy.seq (k := .classifier) (.fit Toy.X [0, 1] 0 3) Toy.cc
private theorem missing_told : ∃ st' s, missing = .ok (st', .status s) ∧ s.code ≠ .ok := by
  have h : (match missing with | .ok (_, .status s) => decide (s.code ≠ .ok) | _ => false) = true := by decide +kernel
  split at h
  · exact ⟨_, _, by assumption, of_decide_eq_true h⟩
  · cases h
example : ∃ st', st' = Toy.cc ∧ ∃ s, missing = .ok (st', .status s) ∧ s.code ≠ .ok :=
  have ⟨st', s, h, hs⟩ := missing_told
  ⟨st', C13_rejected_training (a := .classic) Toy.cc Toy.seq _ hs h, s, h, hs⟩

example := C14_partial_fit_unfitted (a := .bitwise) (EstState.fresh Algo.bitwise.backend Toy.env Toy.cParams) (fun h => h rfl) Toy.seq Toy.XB [0, 1, 2, 1] 0 3

private def noFit : List (Call Algo.classic.Sample .classifier) := [.predict1 ([1, 1, 1] : ClassicSample), .fit Toy.X [0, 1] 0 3]
private theorem noFit_run : (run classic Toy.env Toy.seq noFit (EstState.fresh classic Toy.env Toy.cParams)).isOk = true := by decide +kernel
/-- C14: an estimator whose only `fit` was rejected. -/
example := C14_never_fitted (a := .classic) (k := .classifier) (cs := noFit) (Toy.ran noFit_run)
  (by
    have h : ((Toy.val _ noFit_run).2.all fun o => match o with | .status s => decide (s.code ≠ .ok) | _ => true) = true := by decide +kernel
    exact fun s hs => of_decide_eq_true (List.all_eq_true.1 h _ hs)) Toy.rev Toy.X [0, 1, 2, 1] 0 3

example := C15_partial_fit Toy.cc_reached Toy.cc_states Toy.cc_fitted (X := Toy.X) (y := [0, 1, 2, 1]) (ml := 5) (ep := 2) (fun _ _ => trivial) (by decide)
  Toy.seq (ran! (partialFitClassifier Algo.classic.backend Toy.env Toy.seq Toy.cc Toy.X [0, 1, 2, 1] 5 2))
example := C15_partial_fit_regressor Toy.br_reached Toy.br_states Toy.br_fitted (X := Toy.XB) (y := [0, 1, 2, 1]) (ep := 2) Toy.XB_built (by decide)
  Toy.seq (ran! (partialFitRegressor Algo.bitwise.backend Toy.env Toy.seq Toy.br Toy.XB [0, 1, 2, 1] 2))

end Tsetlini
