import Verif.Spec.Twin
/-
Specification vocabulary for C44: calls that stay within what the implementation can handle.
-/
namespace Tsetlini.Spec

/-- `rows` rows of counters (two for each clause) for `n` features can be stored: the 32-bit sizes of the matrices do
not wrap, whatever the counter type. -/
def Roomy (rows n : Int) : Prop := rows ≤ 2147483647 ∧ 4 * n + 63 < 4294967296 ∧ (n + 63) * rows < 4294967296

/-- The greatest label, or -1. -/
def topLabel (y : List Int) : Int := y.foldl max (-1)

/-- A first training of a classifier: labels below INT_MAX, room for the automata of all labels, and if
there is an epoch at all, two labels at least and a threshold below 2^30. -/
def SafeFit (a : Algo) (p : Params) (X : List a.Sample) (y : List Int) (ml : Int) (ep : Nat) : Prop :=
  topLabel y < 2147483647 ∧ ∀ c T, IntParam p "number_of_clauses_per_label" c → IntParam p "threshold" T →
    (∀ x ∈ X, Roomy (max (topLabel y + 1) ml * c) (a.backend.size x)) ∧
    (ep = 0 ∨ (2 ≤ max (topLabel y + 1) ml ∧ T < 2^30))

/-- Further training of a classifier. -/
def SafeRefit (p : Params) (ep : Nat) : Prop :=
  ep = 0 ∨ ∀ labels T, IntParam p "number_of_labels" labels → IntParam p "threshold" T → 2 ≤ labels ∧ T < 2^30

/-- Rounding treats negative numbers like positive ones. -/
def Symmetric (env : Env) : Prop := ∀ x, env.rnd (-x) = -env.rnd x

/-- Settings of a regressor with which every training step is defined: no Box-Muller transform, and a sensible
constant for the losses that have one (for berHu any constant that is a float). -/
def SafeLoss (env : Env) (p : Params) : Prop :=
  p.get? "box_muller" = some (.bool false) ∧
  (∀ T, IntParam p "threshold" T → T ≤ 2^24 ∨ Symmetric env) ∧
  ∀ name c, p.get? "loss_fn" = some (.str name) → p.get? "loss_fn_C1" = some (.real (.fin c)) →
    (name = "berHu" → -1 ≤ c ∨ env.rnd (-c) = -c) ∧ (name = "L1+2" → 0 ≤ c ∧ c ≤ 1)

/-- Room for the automata of a regressor. -/
def SafeFitR (a : Algo) (p : Params) (X : List a.Sample) : Prop :=
  ∀ c, IntParam p "number_of_regressor_clauses" c → ∀ x ∈ X, Roomy c (a.backend.size x)

/-- The call stays within what the implementation can handle, for an estimator in the state `st`. -/
def SafeCall (a : Algo) {k : Kind} {env : Env} (st : EstState a.backend env) : Call a.Sample k → Prop
  | .fit X y ml ep => SafeFit a st.params X y ml ep
  | .partialFit X y ml ep => (Fitted a st → SafeRefit st.params ep) ∧ (¬ Fitted a st → SafeFit a st.params X y ml ep)
  | .evaluate X y => Fitted a st ∧ X.length ≤ y.length ∧
      ∀ x ∈ X, a.Good x ∧ IntParam st.params "number_of_features" (a.backend.size x)
  | .fitR X _ ep => SafeFitR a st.params X ∧ (ep = 0 ∨ SafeLoss env st.params)
  | .partialFitR X _ ep => (Fitted a st ∨ SafeFitR a st.params X) ∧ (ep = 0 ∨ SafeLoss env st.params)
  | _ => True

/-- Every call of a history is safe in the state it meets. -/
def SafeCalls (a : Algo) {k : Kind} {env : Env} (sc : Sched) : List (Call a.Sample k) → EstState a.backend env → Prop
  | [], _ => True
  | c :: cs, st => SafeCall a st c ∧ ∀ st' o, step a.backend env sc c st = .ok (st', o) → SafeCalls a sc cs st'

/-- The computation returns, or one of its rejection loops does not end (`Env.fuel` bounds them); it runs into no undefined
behaviour and throws nothing. -/
def Defined {α : Type} (r : Res α) : Prop := (∃ v, r = .ok v) ∨ r = .timeout

end Tsetlini.Spec
