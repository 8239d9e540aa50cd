import Verif.Model.CoinTosser
/-
The interface between the estimator templates of lib/src/tsetlini.cpp and the two
algorithm families.  `Mat` is the automaton part of `TAState::value_type`
(lib/src/ta_state.hpp:55-68) or `TAStateWithPolarity::value_type` (lib/src/ta_state.hpp:83-98)
without the weights, which both share and which live in `TA` below.
-/
namespace Tsetlini

/-- Hyper-parameters read by the feedback routines. Read at lib/src/tsetlini.cpp:681-691,844-852. -/
structure Hyper where
  states : Int
  maxWeight : Int
  boost : Bool
deriving DecidableEq, Repr

/-- The functions the templates of lib/src/tsetlini.cpp:393-1000 get by overload resolution on the sample and automata types; the two instances are `classic` (lib/src/tsetlini_algo_classic.hpp) and `bitwise` (lib/src/tsetlini_algo_bitwise.hpp). -/
structure Backend where
  /-- automata -/
  Mat : Type
  /-- one sample -/
  Sample : Type
  /-- default constructed automata (unfitted estimator) -/
  emptyMat : Mat
  /-- `matrix.shape().first` -/
  nrows : Mat → Nat
  /-- the counters as `to_json` shows them, lib/src/tsetlini_state_json.cpp -/
  counters : Mat → List (List Int)
  /-- `initialize` without the weights, lib/src/ta_state.cpp:41-119 -/
  initMat : (env : Env) → CType → (clauses features : Nat) → env.G → Res (Mat × env.G)
  /-- `sample.size()` -/
  size : Sample → Nat
  /-- `check_all_0s_or_1s` -/
  all01 : Sample → Bool
  /-- `check_clear_padding` -/
  clearPadding : Sample → Res Bool
  /-- one iteration of `calculate_clause_output_T<B>` -/
  clauseOut : Tile → Mat → Nat → Sample → Res Bool
  /-- one iteration of `calculate_clause_output_with_pruning_T<B>` -/
  clauseOutPruned : Tile → Mat → Nat → Sample → Res Bool
  /-- Type I feedback to clause `i` whose output is 0 -/
  typeINeg : (env : Env) → Hyper → Mat → Nat → Sample → env.G → CoinTosser →
    Res (Mat × env.G × CoinTosser)
  /-- Type I feedback to clause `i` whose output is 1 -/
  typeIPos : (env : Env) → Hyper → Mat → Nat → Sample → env.G → CoinTosser →
    Res (Mat × env.G × CoinTosser)
  /-- Type II feedback to clause `i` whose output is 1 -/
  typeII : Mat → Nat → Sample → Res Mat

/-- `TAState::value_type` / `TAStateWithPolarity::value_type`, lib/src/ta_state.hpp:55-68,83-98. -/
structure TA (B : Backend) where
  mat : B.Mat
  weights : List Nat

end Tsetlini
