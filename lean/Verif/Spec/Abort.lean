import Verif.Model.Abort
import Verif.Spec.Safety
/-
Specification vocabulary for calls that run out of memory.
-/
namespace Tsetlini.Spec

/-- The family's automata while they are being made. -/
def Algo.half : (a : Algo) → CType → Nat → Nat → a.backend.Mat → List a.backend.Mat
  | .classic => classicHalf
  | .bitwise => bitwiseHalf

/-- Running out of memory before training starts can leave the estimator `st`, on which `c` was called, as `s`. -/
def LeftBefore (a : Algo) {k : Kind} {env : Env} (sc : Sched) (c : Call a.Sample k) (st s : EstState a.backend env) : Prop :=
  ∃ A, trainAborts a.backend a.half env sc c st = .ok A ∧ s ∈ A.before

/-- Running out of memory during training can leave the estimator `st`, on which `c` was called, as `s`. -/
def LeftDuring (a : Algo) {k : Kind} {env : Env} (sc : Sched) (c : Call a.Sample k) (st s : EstState a.backend env) : Prop :=
  ∃ A, trainAborts a.backend a.half env sc c st = .ok A ∧ s ∈ A.during

/-- The number of epochs a call asks for. -/
def _root_.Tsetlini.Call.epochs {S : Type} {k : Kind} : Call S k → Nat
  | .fit _ _ _ ep | .partialFit _ _ _ ep | .fitR _ _ ep | .partialFitR _ _ ep => ep
  | _ => 0

/-- The same call with another number of epochs. -/
def _root_.Tsetlini.Call.withEpochs {S : Type} {k : Kind} (e : Nat) : Call S k → Call S k
  | .fit X y ml _ => .fit X y ml e
  | .partialFit X y ml _ => .partialFit X y ml e
  | .fitR X y _ => .fitR X y e
  | .partialFitR X y _ => .partialFitR X y e
  | c => c

/-- The call is `fit`. -/
def IsFit {S : Type} {k : Kind} : Call S k → Prop
  | .fit .. | .fitR .. => True
  | _ => False

end Tsetlini.Spec
