import Verif.Model.Env
/-
Parameters: `params_t`, its accessors and `normalize_counting_type`.
-/
namespace Tsetlini

/-- A `real_type` (float) value; finite values are rationals. lib/include/tsetlini_types.hpp:23 -/
inductive Fl where
  | fin (q : Rat)
  | inf (neg : Bool)
  | nan
deriving DecidableEq, Repr

/-- `param_value_t`, lib/include/tsetlini_params.hpp:
`variant<int, seed_type, real_type, bool, nullopt, string>`. lib/include/tsetlini_params.hpp:21 -/
inductive PVal where
  | int (v : Int)
  | seed (v : BitVec 32)
  | real (v : Fl)
  | bool (v : Bool)
  | none
  | str (v : String)
deriving DecidableEq, Repr

/-- `params_t = unordered_map<string, param_value_t>`, as an association list in
which the first binding of a key counts. lib/include/tsetlini_params.hpp:22 -/
abbrev Params := List (String × PVal)

namespace Params

/-- `params.find(k)`. Standard library; used by lib/src/params_companion.hpp:23-178. -/
def get? (p : Params) (k : String) : Option PVal := p.lookup k

/-- `params[k] = v`. Standard library; used at lib/src/tsetlini_params.cpp:85-240. -/
def set (p : Params) (k : String) (v : PVal) : Params := (k, v) :: p.filter (fun e => e.1 != k)

/-- `params.at(k)`. Standard library; used by lib/src/params_companion.hpp:23-178. -/
def at' (p : Params) (k : String) : Res PVal :=
  match p.get? k with
  | some v => .ok v
  | Option.none => .exn .outOfRange

/-- `std::get<int>(params.at(k))`. lib/src/params_companion.hpp:23-27 and the like. -/
def getInt (p : Params) (k : String) : Res Int :=
  (p.at' k).bind fun v => match v with
  | .int i => .ok i
  | _ => .exn .badVariant

/-- `std::get<seed_type>(params.at(k))`. lib/src/params_companion.hpp:44-48 -/
def getSeed (p : Params) (k : String) : Res (BitVec 32) :=
  (p.at' k).bind fun v => match v with
  | .seed i => .ok i
  | _ => .exn .badVariant

/-- `std::get<real_type>(params.at(k))`. lib/src/params_companion.hpp:72-76,174-178 -/
def getReal (p : Params) (k : String) : Res Fl :=
  (p.at' k).bind fun v => match v with
  | .real i => .ok i
  | _ => .exn .badVariant

/-- `std::get<bool>(params.at(k))`. lib/src/params_companion.hpp:51-55,146-150 -/
def getBool (p : Params) (k : String) : Res Bool :=
  (p.at' k).bind fun v => match v with
  | .bool i => .ok i
  | _ => .exn .badVariant

/-- `std::get<std::string>(params.at(k))`. lib/src/params_companion.hpp:30-34,167-171 -/
def getStr (p : Params) (k : String) : Res String :=
  (p.at' k).bind fun v => match v with
  | .str i => .ok i
  | _ => .exn .badVariant

/- lib/src/params_companion.hpp:21-182 -/

def nJobs (p : Params) : Res Int := p.getInt "n_jobs"
/-- lib/src/params_companion.hpp:30-34 -/
def countingType (p : Params) : Res String := p.getStr "counting_type"
/-- lib/src/params_companion.hpp:37-41 -/
def tileSize (p : Params) : Res Int := p.getInt "clause_output_tile_size"
/-- lib/src/params_companion.hpp:44-48 -/
def randomState (p : Params) : Res (BitVec 32) := p.getSeed "random_state"
/-- lib/src/params_companion.hpp:51-55 -/
def verbose (p : Params) : Res Bool := p.getBool "verbose"
/-- lib/src/params_companion.hpp:58-62 -/
def numberOfLabels (p : Params) : Res Int := p.getInt "number_of_labels"
/-- lib/src/params_companion.hpp:65-69 -/
def numberOfFeatures (p : Params) : Res Int := p.getInt "number_of_features"
/-- lib/src/params_companion.hpp:72-76 -/
def specificity (p : Params) : Res Fl := p.getReal "s"
/-- lib/src/params_companion.hpp:79-83 -/
def threshold (p : Params) : Res Int := p.getInt "threshold"
/-- lib/src/params_companion.hpp:86-90 -/
def boost (p : Params) : Res Bool :=
  (p.getInt "boost_true_positive_feedback").bind fun v => .ok (v != 0)
/-- lib/src/params_companion.hpp:93-97 -/
def numberOfStates (p : Params) : Res Int := p.getInt "number_of_states"
/-- lib/src/params_companion.hpp:146-150 -/
def weighted (p : Params) : Res Bool := p.getBool "weighted"
/-- lib/src/params_companion.hpp:153-157 -/
def boxMuller (p : Params) : Res Bool := p.getBool "box_muller"
/-- lib/src/params_companion.hpp:160-164 -/
def maxWeight (p : Params) : Res Int := p.getInt "max_weight"
/-- lib/src/params_companion.hpp:167-171 -/
def lossFnName (p : Params) : Res String := p.getStr "loss_fn"
/-- lib/src/params_companion.hpp:174-178 -/
def lossFnC1 (p : Params) : Res Fl := p.getReal "loss_fn_C1"
/-- lib/src/params_companion.hpp:116-120 -/
def clausesPerLabel (p : Params) : Res Int := p.getInt "number_of_clauses_per_label"

/-- `number_of_classifier_clause_outputs_per_label`: C++ `/` truncates towards 0. lib/src/params_companion.hpp:100-104 -/
def outputsPerLabel (p : Params) : Res Int :=
  p.clausesPerLabel.bind fun c => .ok (c.tdiv 2)

/-- `number_of_classifier_clause_outputs`: an `int` product. lib/src/params_companion.hpp:107-113 -/
def classifierOutputs (p : Params) : Res Int :=
  p.numberOfLabels.bind fun l => p.outputsPerLabel.bind fun k => i32 (l * k)

/-- `number_of_physical_classifier_clauses`: an `int` product. lib/src/params_companion.hpp:123-129 -/
def physicalClassifierClauses (p : Params) : Res Int :=
  p.numberOfLabels.bind fun l => p.clausesPerLabel.bind fun c => i32 (l * c)

/-- lib/src/params_companion.hpp:132-136 -/
def physicalRegressorClauses (p : Params) : Res Int := p.getInt "number_of_regressor_clauses"

/-- lib/src/params_companion.hpp:139-143 -/
def regressorOutputs (p : Params) : Res Int :=
  (p.getInt "number_of_regressor_clauses").bind fun c => .ok (c.tdiv 2)

end Params

/-- Width of the counters: the alternative held by `matrix_variant_type`,
lib/src/ta_state.hpp:45-49. -/
inductive CType where
  | int8 | int16 | int32
deriving DecidableEq, Repr

/-- `2 ^ (bits of the counter)`. lib/include/tsetlini_types.hpp:43-45 -/
def CType.modulus : CType → Nat
  | .int8 => 256
  | .int16 => 65536
  | .int32 => 4294967296

/-- `sizeof` of the counter. lib/include/tsetlini_types.hpp:43-45 -/
def CType.bytes : CType → Nat
  | .int8 => 1
  | .int16 => 2
  | .int32 => 4

/-- Storing an `int` into a counter of this width keeps its low bits. C++ [conv.integral]; lib/include/tsetlini_types.hpp:43-45. -/
def CType.store (t : CType) (x : Int) : Int := x.bmod t.modulus

/-- `normalize_counting_type`, lib/src/tsetlini_state.cpp:93-120. -/
def normalizeCountingType (ct : String) (states : Int) : String :=
  if states ≤ 127 ∧ (ct = "auto" ∨ ct = "int8") then "int8"
  else if states ≤ 32767 ∧ (ct = "auto" ∨ ct = "int8" ∨ ct = "int16") then "int16"
  else "int32"

/-- `make_ta_state_matrix`'s choice of the alternative, lib/src/ta_state.cpp:16-38. -/
def ctypeOfName (s : String) : CType :=
  if s = "int8" then .int8 else if s = "int16" then .int16 else .int32

/-- The instantiations selected by `clause_output_tile_size`,
lib/src/tsetlini_algo_common.hpp:43-155. -/
inductive Tile where
  | t16 | t32 | t64 | t128
deriving DecidableEq, Repr

/-- `ROW_SZ`/`BATCH_SZ` of the instances selected at lib/src/tsetlini_algo_common.hpp:43-155. -/
def Tile.size : Tile → Nat
  | .t16 => 16
  | .t32 => 32
  | .t64 => 64
  | .t128 => 128

/-- The `switch` of lib/src/tsetlini_algo_common.hpp:43-155; `default:` is 16. -/
def tileOf (v : Int) : Tile :=
  if v = 128 then .t128 else if v = 64 then .t64 else if v = 32 then .t32 else .t16

end Tsetlini
