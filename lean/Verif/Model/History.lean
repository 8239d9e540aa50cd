import Verif.Model.Estimator
/-
Call histories: what a user program can do with one estimator, in the order of the calls.
The public classes of lib/include/tsetlini.hpp:39-600 and their forwarding bodies in
lib/src/tsetlini.cpp:1055-1657.
-/
namespace Tsetlini

/-- A call of a public method with its arguments. `ml` is max_number_of_labels, `ep` is
number_of_epochs. Public methods, lib/include/tsetlini.hpp:30-646. -/
inductive Call (S : Type) : Kind → Type where
  | fit (X : List S) (y : List Int) (ml : Int) (ep : Nat) : Call S .classifier
  | partialFit (X : List S) (y : List Int) (ml : Int) (ep : Nat) : Call S .classifier
  | predict1 (x : S) : Call S .classifier
  | predict (X : List S) : Call S .classifier
  | decision1 (x : S) : Call S .classifier
  | decision (X : List S) : Call S .classifier
  | evaluate (X : List S) (y : List Int) : Call S .classifier
  | fitR (X : List S) (y : List Int) (ep : Nat) : Call S .regressor
  | partialFitR (X : List S) (y : List Int) (ep : Nat) : Call S .regressor
  | predictR1 (x : S) : Call S .regressor
  | predictR (X : List S) : Call S .regressor

/-- What a call gives back to the caller. Return types of the public methods, lib/include/tsetlini.hpp:30-646. -/
inductive Out where
  | status (s : Status)
  | label (r : Except Status Int)
  | labels (r : Except Status (List Int))
  | scores (r : Except Status (List Int))
  | scoreRows (r : Except Status (List (List Int)))
  | accuracy (r : Except Status Fl)

/-- Tag the returned value. No counterpart in the code: a wrapper. -/
def tagged {B : Backend} {env : Env} {α : Type} (f : α → Out) (r : Res (EstState B env × α)) :
    Res (EstState B env × Out) :=
  r.bind fun p => .ok (p.1, f p.2)

/-- One call. Public methods, lib/src/tsetlini.cpp:1020-1657; each is modelled in Model/Estimator. -/
def step (B : Backend) (env : Env) (sc : Sched) {k : Kind} (c : Call B.Sample k) (st : EstState B env) :
    Res (EstState B env × Out) :=
  match c with
  | .fit X y ml ep => tagged .status (fitClassifier B env sc st X y ml ep)
  | .partialFit X y ml ep => tagged .status (partialFitClassifier B env sc st X y ml ep)
  | .predict1 x => tagged .label (predictClassifier1 B env sc st x)
  | .predict X => tagged .labels (predictClassifier B env sc st X)
  | .decision1 x => tagged .scores (decision1 B env sc st x)
  | .decision X => tagged .scoreRows (decision B env sc st X)
  | .evaluate X y => tagged .accuracy (evaluate B env sc st X y)
  | .fitR X y ep => tagged .status (fitRegressor B env sc st X y ep)
  | .partialFitR X y ep => tagged .status (partialFitRegressor B env sc st X y ep)
  | .predictR1 x => tagged .label (predictRegressor1 B env sc st x)
  | .predictR X => tagged .labels (predictRegressor B env sc st X)

/-- A history of calls and everything they returned. No counterpart in the code: a user program, as a sequence of calls on one estimator. -/
def run (B : Backend) (env : Env) (sc : Sched) {k : Kind} :
    List (Call B.Sample k) → EstState B env → Res (EstState B env × List Out)
  | [], st => .ok (st, [])
  | c :: cs, st =>
    (step B env sc c st).bind fun r =>
    (run B env sc cs r.1).bind fun r' => .ok (r'.1, r.2 :: r'.2)

end Tsetlini
