import Verif.Instances.Base
import Verif.Props.Training
/-
Training calls on the toy estimators, and that they return OK.
-/
namespace Tsetlini.Toy
open Spec

def y : List Int := [0, 1, 2, 1]
theorem X_typed : DataTyped .classic X y := ⟨fun _ _ => trivial, by decide⟩
theorem XB_typed : DataTyped .bitwise XB y := ⟨XB_built, by decide⟩
theorem xb_built : Algo.bitwise.Built xb := XB_built _ (List.mem_cons_self ..)

abbrev fitCC (ep : Nat) := fitClassifier Algo.classic.backend env seq cc X y 0 ep
abbrev partCC (ep : Nat) := partialFitClassifier Algo.classic.backend env seq cc X y 0 ep
abbrev fitBC (ep : Nat) := fitClassifier Algo.bitwise.backend env seq bc XB y 0 ep
abbrev partBC (ep : Nat) := partialFitClassifier Algo.bitwise.backend env seq bc XB y 0 ep
abbrev fitCR (ep : Nat) := fitRegressor Algo.classic.backend env seq cr X y ep
abbrev partCR (ep : Nat) := partialFitRegressor Algo.classic.backend env seq cr X y ep
abbrev fitBR (ep : Nat) := fitRegressor Algo.bitwise.backend env seq br XB y ep
abbrev partBR (ep : Nat) := partialFitRegressor Algo.bitwise.backend env seq br XB y ep
/-- One sample, one epoch. -/
abbrev stepCC := partialFitClassifier Algo.classic.backend env seq cc [xc] [(1 : Nat)] 0 1
abbrev stepBC := partialFitClassifier Algo.bitwise.backend env seq bc [xb] [(1 : Nat)] 0 1
abbrev stepCR := partialFitRegressor Algo.classic.backend env seq cr [xc] [0] 1
abbrev stepBR := partialFitRegressor Algo.bitwise.backend env seq br [xb] [3] 1

theorem fitCC_ok : (fitCC 3).isOk = true := by decide +kernel
theorem partCC_ok : (partCC 3).isOk = true := by decide +kernel
theorem fitBC_ok : (fitBC 3).isOk = true := by decide +kernel
theorem partBC_ok : (partBC 3).isOk = true := by decide +kernel
theorem fitCR_ok : (fitCR 3).isOk = true := by decide +kernel
theorem partCR_ok : (partCR 3).isOk = true := by decide +kernel
theorem fitBR_ok : (fitBR 3).isOk = true := by decide +kernel
theorem partBR_ok : (partBR 3).isOk = true := by decide +kernel
theorem stepCC_ok : stepCC.isOk = true := by decide +kernel
theorem stepBC_ok : stepBC.isOk = true := by decide +kernel
theorem stepCR_ok : stepCR.isOk = true := by decide +kernel
theorem stepBR_ok : stepBR.isOk = true := by decide +kernel

end Tsetlini.Toy
