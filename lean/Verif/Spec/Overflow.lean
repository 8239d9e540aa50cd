import Verif.Model.Ieee
import Verif.Model.BoxMuller
import Verif.Model.Params
import Verif.Model.History
/-
Specification vocabulary for C67: which values a `float` can have, and the machines whose floats are IEEE 754's.
-/
namespace Tsetlini.Spec

/-- The largest finite `float`. -/
def maxFloat : Rat := 16777215 * (2 ^ 104 : Nat)

/-- A value a `float` can have. -/
def IsFloat : Fl → Prop
  | .fin c => rne32 c = c ∧ -maxFloat ≤ c ∧ c ≤ maxFloat
  | _ => True

/-- Floats are binary32 and doubles binary64, normal deviates are computed with the tables `t`, and these hold what the comments in
lib/src/box_muller_approx.cpp say they hold, roughly: radii up to 4, sines, and no square root exceeds both the number and 1. -/
structure IeeeMachine (env : Env) (t : BmTables) : Prop where
  rnd : env.rnd = rne32
  rnd64 : env.rnd64 = rne64
  normal : env.normal = bmNormal rne32 t
  radius : ∀ i, 0 ≤ t.radius i ∧ t.radius i ≤ 4
  angle : ∀ i, -1 ≤ t.angle i ∧ t.angle i ≤ 1
  sqrt : ∀ v, 0 ≤ v → 0 ≤ t.sqrt v ∧ (t.sqrt v ≤ 1 ∨ t.sqrt v ≤ v)

/-- The counters of `evaluate` can hold the number of samples. -/
def CountsFit {S : Type} {k : Kind} : Call S k → Prop
  | .evaluate X _ => X.length < 4294967296
  | _ => True

end Tsetlini.Spec
