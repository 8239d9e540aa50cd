import Verif.Model.History
/-
Comparison and copying of estimator states: lib/src/estimator_state.cpp:24-41,
lib/src/ta_state.hpp:62-67,91-97, lib/src/estimator_state_cache.cpp:33-39,60-63.
-/
namespace Tsetlini

/-- `float ==`: a NaN is not equal to anything. lib/src/estimator_state.cpp:37 -/
def Fl.cppEq : Fl → Fl → Bool
  | .nan, _ => false
  | _, .nan => false
  | a, b => a == b

/-- `std::variant ==` on `param_value_t`, with `nullopt == nullopt` true
(lib/src/estimator_state.hpp:16-22). -/
def PVal.cppEq : PVal → PVal → Bool
  | .real a, .real b => a.cppEq b
  | a, b => a == b

/-- `params_t ==`: the same keys with equal values. lib/src/estimator_state.cpp:37 -/
def Params.CppEq (p q : Params) : Prop :=
  ∀ key, match p.get? key, q.get? key with
    | some v, some w => v.cppEq w = true
    | none, none => True
    | _, _ => False

/-- `are_equal` of the caches compares sizes only: lib/src/estimator_state_cache.cpp:33-39 (classifier),
60-63 (regressor). -/
def Cache.cppEq (k : Kind) (c d : Cache) : Bool :=
  match k with
  | .classifier => c.feedback.length == d.feedback.length && c.clauseOutput.length == d.clauseOutput.length &&
      c.labelSum.length == d.labelSum.length
  | .regressor => c.clauseOutput.length == d.clauseOutput.length

/-- `operator==(EstimatorState, EstimatorState)`, lib/src/estimator_state.cpp:24-41, for two different
objects.  Matrices are compared by type, sizes and cells (the padding cells of a row, never written,
are not modelled; C82), generators by their tables. -/
def EstState.CppEq {B : Backend} {env : Env} (k : Kind) (st st' : EstState B env) : Prop :=
  st.ta.mat = st'.ta.mat ∧ st.ta.weights = st'.ta.weights ∧ st.igen = st'.igen ∧ st.fgen = st'.fgen ∧
  Params.CppEq st.params st'.params ∧ Cache.cppEq k st.cache st'.cache = true

/-- `clone_state()`: a memberwise copy, lib/src/tsetlini.cpp:1169-1174,1342-1347,1460-1465,1607-1612.
All members are values (no shared storage). -/
def EstState.clone {B : Backend} {env : Env} (st : EstState B env) : EstState B env :=
  ⟨st.params, ⟨st.ta.mat, st.ta.weights⟩,
   ⟨st.cache.clauseOutput, st.cache.labelSum, st.cache.feedback, st.cache.ct, st.cache.tick⟩, st.igen, st.fgen⟩

/-- A program that owns an estimator and a second one (a clone): calls in any interleaving; `true` marks
a call on the first. Each call gets the state of its own object only (`m_state_p` is a `unique_ptr`,
lib/include/tsetlini.hpp:127,265,432,570). -/
def runTwo (B : Backend) (env : Env) (sc : Sched) {k : Kind} :
    List (Bool × Call B.Sample k) → EstState B env → EstState B env →
      Res (EstState B env × EstState B env × List (Bool × Out))
  | [], s, t => .ok (s, t, [])
  | (true, c) :: cs, s, t =>
    (step B env sc c s).bind fun r => (runTwo B env sc cs r.1 t).bind fun r' =>
      .ok (r'.1, r'.2.1, (true, r.2) :: r'.2.2)
  | (false, c) :: cs, s, t =>
    (step B env sc c t).bind fun r => (runTwo B env sc cs s r.1).bind fun r' =>
      .ok (r'.1, r'.2.1, (false, r.2) :: r'.2.2)

end Tsetlini
