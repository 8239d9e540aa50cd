import Verif.Model.Estimator
/-
Specification vocabulary for input validation: an ordered list of (what is wrong, what is
reported).
-/
namespace Tsetlini.Spec

/-- `s` is what the first violated check reports, `S_OK` if there is none. -/
def Reports : List (Prop × Status) → Status → Prop
  | [], s => s = ⟨.ok, ""⟩
  | (bad, e) :: rest, s => (bad ∧ s = e) ∨ (¬ bad ∧ Reports rest s)

def valueError (m : String) : Status := ⟨.valueError, m⟩

/-- What validation looks at in a sample. -/
structure SampleView (S : Type) where
  size : S → Nat
  /-- every element is 0 or 1 -/
  binary : S → Prop
  /-- the padding bits are 0 -/
  clear : S → Prop

variable {S : Type} (V : SampleView S)

/-- Training data. -/
def trainChecks (X : List S) (y : List Int) : List (Prop × Status) :=
  [(X = [], valueError "X cannot be empty"),
   (y = [], valueError "y cannot be empty"),
   (y.length ≠ X.length, valueError ("X and y must have the same lengths, got " ++
      toString X.length ++ " and " ++ toString y.length)),
   (∃ a ∈ X, ∃ b ∈ X, V.size a ≠ V.size b,
      valueError "All rows of X must have the same number of feature columns"),
   (∃ x ∈ X, ¬ V.binary x, valueError "Only values of 0 and 1 can be used in X"),
   (∃ x ∈ X, ¬ V.clear x, valueError "Some padding bits in X are not cleared to 0")]

/-- Labels of a first fit. -/
def labelChecks (y : List Int) : List (Prop × Status) :=
  [(∃ v ∈ y, v < 0, valueError "Labels in y cannot be negative")]

/-- Width of the data of a further fit. -/
def widthChecks (X : List S) (nf : Nat) : List (Prop × Status) :=
  [(∃ x ∈ X, V.size x ≠ nf,
      valueError ("X row size must match number of features previously used to train" ++
        " the estimator. Got input X with row size=" ++
        toString ((X.head?.map V.size).getD 0)))]

/-- Labels of a further fit. -/
def labelMaxChecks (y : List Int) (labels : Nat) : List (Prop × Status) :=
  [(∃ v ∈ y, v < 0, valueError "Labels in y cannot be negative"),
   (∃ v ∈ y, (labels : Int) ≤ v, valueError ("Max allowed label is " ++ toString ((labels : Int) - 1) ++
      " but y has value as high as " ++ toString (y.foldl max (y.headD 0))))]

/-- Responses. -/
def responseChecks (y : List Int) (T : Int) : List (Prop × Status) :=
  [(∃ v ∈ y, v < 0 ∨ T < v, valueError "Only values within [0, threshold] range can be used in y")]

/-- A sample to predict for. -/
def sampleChecks (x : S) (fitted : Bool) (nf : Nat) : List (Prop × Status) :=
  [(fitted = false, ⟨.notFitted,
      "This model instance is not fitted yet. Call fit or partial_fit before using this method"⟩),
   (V.size x ≠ nf, valueError ("Predict called with sample, which size " ++ toString (V.size x) ++
      " does not match number of features from prior fit " ++ toString nf)),
   (¬ V.binary x, valueError "Only values of 0 and 1 can be used in sample for prediction"),
   (¬ V.clear x, valueError "Some padding bits in X are not cleared to 0")]

/-- A batch to predict for. -/
def batchChecks (X : List S) (fitted : Bool) (nf : Nat) : List (Prop × Status) :=
  [(fitted = false, ⟨.notFitted,
      "This model instance is not fitted yet. Call fit or partial_fit before using this method"⟩),
   (X = [], valueError "Cannot predict for empty X"),
   (∃ a ∈ X, ∃ b ∈ X, V.size a ≠ V.size b,
      valueError "All samples in X must have the same number of feature columns"),
   (∃ x ∈ X, V.size x ≠ nf,
      valueError ("Predict called with X, which number of features " ++
        toString ((X.head?.map V.size).getD 0) ++
        " does not match that from prior fit " ++ toString nf)),
   (∃ x ∈ X, ¬ V.binary x, valueError "Only values of 0 and 1 can be used in X"),
   (∃ x ∈ X, ¬ V.clear x, valueError "Some padding bits in X are not cleared to 0")]

end Tsetlini.Spec
