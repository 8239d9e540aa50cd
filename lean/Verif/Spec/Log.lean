import Verif.Model.Log
import Verif.Spec.Api
/-
What a verbose estimator writes to its log.
-/
namespace Tsetlini.Spec

/-- The lines "Epoch 1", "Epoch 2", ..., "Epoch n". -/
def epochLines : Nat → List LogLine
  | 0 => []
  | n + 1 => epochLines n ++ [.epoch (n + 1)]

end Tsetlini.Spec
