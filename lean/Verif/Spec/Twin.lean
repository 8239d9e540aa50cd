import Verif.Spec.Api
/-
Vocabulary for statements that compare two estimators.
-/
namespace Tsetlini.Spec

/-- Two parameter maps agree on every key that is not listed. -/
def AgreeBut (K : List String) (p p' : Params) : Prop := ∀ key, key ∉ K → p'.get? key = p.get? key

/-- What two estimators have learned is the same: automata (counters, and for bitwise estimators
their polarity bits), weights and both random generators. -/
structure SameLearned {B : Backend} {env : Env} (st st' : EstState B env) : Prop where
  ta : st'.ta = st.ta
  igen : st'.igen = st.igen
  fgen : st'.fgen = st.fgen

/-- The numbers two estimators have learned are the same (they may be stored in different types): counters, weights and both random generators. -/
structure SameNumbers (a : Algo) {env : Env} (st st' : EstState a.backend env) : Prop where
  counters : a.counters st' = a.counters st
  weights : st'.ta.weights = st.ta.weights
  igen : st'.igen = st.igen
  fgen : st'.fgen = st.fgen

/-- From now on the two estimators answer every history of calls identically, whatever the schedules of
the parallel loops, and learn the same. -/
def Indistinguishable (a : Algo) (k : Kind) {env : Env} (st st' : EstState a.backend env) : Prop :=
  ∀ (sc sc' : Sched) (cs : List (Call a.Sample k)), (∀ c ∈ cs, WellTyped a c) →
    (∀ e outs, run a.backend env sc cs st = .ok (e, outs) →
      ∃ e', run a.backend env sc' cs st' = .ok (e', outs) ∧ AgreeBut [] e.params e'.params ∧ SameLearned e e') ∧
    (∀ e' outs, run a.backend env sc' cs st' = .ok (e', outs) →
      ∃ e, run a.backend env sc cs st = .ok (e, outs) ∧ AgreeBut [] e.params e'.params ∧ SameLearned e e')

/-- The samples of an `evaluate` call are ones `predict` would accept (`evaluate` itself checks
nothing): binary, clear padding, as many features as the estimator was fitted with. -/
def ProperEval (a : Algo) {k : Kind} {env : Env} (st : EstState a.backend env) : Call a.Sample k → Prop
  | .evaluate X _ => ∀ x ∈ X, a.Good x ∧ IntParam st.params "number_of_features" (a.backend.size x)
  | _ => True

/-- Every `evaluate` call of a history has samples that `predict` would accept at that point. -/
def ProperEvals (a : Algo) {k : Kind} {env : Env} (sc : Sched) :
    List (Call a.Sample k) → EstState a.backend env → Prop
  | [], _ => True
  | c :: cs, st => ProperEval a st c ∧
      ∀ st' o, step a.backend env sc c st = .ok (st', o) → ProperEvals a sc cs st'

/-- Calls that only read. -/
def _root_.Tsetlini.Call.Reads {S : Type} {k : Kind} : Call S k → Prop
  | .fit .. | .partialFit .. | .fitR .. | .partialFitR .. => False
  | _ => True

end Tsetlini.Spec
