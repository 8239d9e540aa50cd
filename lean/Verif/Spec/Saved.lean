import Verif.Model.Abort
import Verif.Spec.Api
/- What the properties of saving and loading are stated with. -/
namespace Tsetlini.Spec

/-- `from_json_string(state, js)`, whatever comes of it: what `state` is afterwards, and whether the call returned. -/
def loadLeaves (a : Algo) (k : Kind) {env : Env} (gio : GenIO env) (old : EstState a.backend env) (js : JVal) :
    EstState a.backend env × Res Unit := loadInto gio a.io k old js

/-- The call is `partial_fit`. -/
def IsPartialFit {S : Type} {k : Kind} : Call S k → Prop
  | .partialFit .. | .partialFitR .. => True
  | _ => False

/-- The call reported an error instead of a result. -/
def Refused : Out → Prop
  | .status s => s.code ≠ .ok
  | .label r => ∃ s, r = .error s
  | .labels r => ∃ s, r = .error s
  | .scores r => ∃ s, r = .error s
  | .scoreRows r => ∃ s, r = .error s
  | .accuracy r => ∃ s, r = .error s

/-- Generators survive saving and loading (shown of the library's own ones in `C30_generators`). -/
structure Faithful {env : Env} (gio : GenIO env) : Prop where
  igen : ∀ g, gio.iOf (gio.iTo g) = .ok g
  fgen : ∀ g, gio.fOf (gio.fTo g) = .ok g

/-- Every `real_type` parameter is finite, and a value of that type: rounding does not change it.  The C++ type guarantees
the latter, validation the former, except for loss_fn_C1. -/
def FloatsOk (rnd : Rat → Rat) (p : Params) : Prop := ∀ key v, p.get? key = some (.real v) → ∃ q, v = .fin q ∧ rnd q = q

end Tsetlini.Spec
