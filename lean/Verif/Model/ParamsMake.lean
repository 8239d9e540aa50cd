import Verif.Model.Json
import Verif.Model.Estimator
/-
Construction of parameter sets: lib/src/tsetlini_params.cpp, and the argument handling of the
variadic factories, lib/include/tsetlini.hpp and lib/include/arg_extract.hpp.
-/
namespace Tsetlini

/-- `Either<status_message_t, params_t>`; `rightFlatMap` runs the next step on a right value
only. lib/include/neither/either.hpp:239-248,276-298 -/
abbrev EParams := Except Status Params

/-- `rightFlatMap`, lib/include/neither/either.hpp. lib/include/neither/either.hpp:276-298 -/
def flatMapR (r : Res EParams) (f : Params → Res EParams) : Res EParams :=
  r.bind fun e => match e with
  | .error s => .ok (.error s)
  | .ok p => f p

/-- lib/src/tsetlini_params.cpp:89,122,179 -/
def badJson (msg : String) : Status := ⟨.badJson, msg⟩

/-- `default_classifier_params`, lib/src/tsetlini_params.cpp:26-46. -/
def defaultClassifierParams : Params :=
  [("number_of_clauses_per_label", .int 12), ("number_of_states", .int 100), ("s", .real (.fin 2)),
   ("threshold", .int 15), ("weighted", .bool false), ("max_weight", .int 2147483647),
   ("boost_true_positive_feedback", .int 0), ("n_jobs", .int (-1)), ("verbose", .bool false),
   ("counting_type", .str "auto"), ("clause_output_tile_size", .int 16), ("random_state", .none),
   ("number_of_labels", .none), ("number_of_features", .none)]

/-- `default_regressor_params`, lib/src/tsetlini_params.cpp:49-73. -/
def defaultRegressorParams : Params :=
  [("number_of_regressor_clauses", .int 20), ("number_of_states", .int 100), ("s", .real (.fin 2)),
   ("threshold", .int 15), ("weighted", .bool true), ("max_weight", .int 2147483647),
   ("boost_true_positive_feedback", .int 0), ("n_jobs", .int (-1)), ("verbose", .bool false),
   ("counting_type", .str "auto"), ("clause_output_tile_size", .int 16), ("loss_fn", .str "MSE"),
   ("loss_fn_C1", .real (.fin 0)), ("box_muller", .bool false), ("random_state", .none),
   ("number_of_features", .none)]

/-- `merge(lhs, rhs)`, lib/src/tsetlini_params.cpp:98-106: `rhs` wins, missing keys come from `lhs`
(`std::unordered_map::merge`). -/
def mergeParams (lhs rhs : Params) : Params :=
  rhs ++ lhs.filter fun e => (rhs.get? e.1).isNone

/-- `assert_json_dictionary`, lib/src/tsetlini_params.cpp:112-124. -/
def assertJsonDictionary (js : JVal) : Except Status (List (String × JVal)) :=
  match js with
  | .obj l => .ok l
  | _ => .error (badJson "type error: passed json is not a dictionary")

/-- The keys of `json_to_params`, lib/src/tsetlini_params.cpp:138-180. -/
def intKeys : List String :=
  ["number_of_clauses_per_label", "number_of_regressor_clauses", "number_of_states",
   "boost_true_positive_feedback", "threshold", "n_jobs", "clause_output_tile_size", "max_weight"]
/-- lib/src/tsetlini_params.cpp:158-163 -/
def realKeys : List String := ["s", "loss_fn_C1"]
/-- lib/src/tsetlini_params.cpp:164-170 -/
def boolKeys : List String := ["verbose", "box_muller", "weighted"]
/-- lib/src/tsetlini_params.cpp:171-176 -/
def strKeys : List String := ["counting_type", "loss_fn"]

/-- `json_to_params`, lib/src/tsetlini_params.cpp:127-184: the loop over the members. -/
def jsonToParams (io : RealIO) : List (String × JVal) → Params → Res EParams
  | [], rv => .ok (.ok rv)
  | (key, value) :: rest, rv =>
    if key ∈ intKeys then value.getInt.bind fun v => jsonToParams io rest (rv.set key (.int v))
    else if key = "random_state" then
      match value with
      | .null => jsonToParams io rest rv
      | _ => value.getSeed.bind fun v => jsonToParams io rest (rv.set key (.seed v))
    else if key ∈ realKeys then
      (value.getReal io).bind fun v => jsonToParams io rest (rv.set key (.real v))
    else if key ∈ boolKeys then value.getBool.bind fun v => jsonToParams io rest (rv.set key (.bool v))
    else if key ∈ strKeys then value.getStr.bind fun v => jsonToParams io rest (rv.set key (.str v))
    else .ok (.error (badJson ("Unknown key [" ++ key ++ "] in config\n")))

/-- `params.at(k) = v`. lib/src/tsetlini_params.cpp:192,204 -/
def Params.setAt (p : Params) (k : String) (v : PVal) : Res Params :=
  (p.at' k).bind fun _ => .ok (p.set k v)

/-- `normalize_n_jobs`, lib/src/tsetlini_params.cpp:187-196. -/
def normalizeNJobs (m : Machine) (p : Params) : Res EParams :=
  p.nJobs.bind fun n =>
  if n = -1 then (p.setAt "n_jobs" (.int (max 1 m.hwThreads))).bind fun p => .ok (.ok p)
  else .ok (.ok p)

/-- `normalize_random_state`, lib/src/tsetlini_params.cpp:199-208. -/
def normalizeRandomState (m : Machine) (p : Params) : Res EParams :=
  (p.at' "random_state").bind fun v =>
  if v = .none then (p.setAt "random_state" (.seed m.randomDevice)).bind fun p => .ok (.ok p)
  else .ok (.ok p)

/-- `assert_counting_type_enumeration`, lib/src/tsetlini_params.cpp:211-229. -/
def assertCountingType (p : Params) : Res EParams :=
  p.countingType.bind fun s =>
  if ¬ (s = "auto" ∨ s = "int8" ∨ s = "int16" ∨ s = "int32") then
    .ok (.error (badJson ("Param 'counting_type' got value " ++ s ++
      ", instead of allowed int8, int16, int32, or auto\n")))
  else .ok (.ok p)

/-- `assert_n_jobs`, lib/src/tsetlini_params.cpp:232-247. -/
def assertNJobs (p : Params) : Res EParams :=
  p.nJobs.bind fun n =>
  if ¬ (n = -1 ∨ n ≥ 1) then
    .ok (.error (badJson ("Param 'n_jobs' got value " ++ toString n ++
      ", instead of natural integer or -1.\n")))
  else .ok (.ok p)

/-- `assert_boost_true_positive_feedback`, lib/src/tsetlini_params.cpp:250-265. -/
def assertBoost (p : Params) : Res EParams :=
  (p.getInt "boost_true_positive_feedback").bind fun v =>
  if v < 0 ∨ 1 < v then
    .ok (.error (badJson ("Param 'boost_true_positive_feedback' got value " ++ toString v ++
      ", instead of either 0 or 1.\n")))
  else .ok (.ok p)

/-- `assert_number_of_states`, lib/src/tsetlini_params.cpp:268-283. -/
def assertStates (p : Params) : Res EParams :=
  (p.getInt "number_of_states").bind fun v =>
  if v < 1 then
    .ok (.error (badJson ("Param 'number_of_states' got value " ++ toString v ++
      ", instead of a natural integer.\n")))
  else .ok (.ok p)

/-- `value < 1.0 or isinf or isnan`. lib/src/tsetlini_params.cpp:298 -/
def Fl.badS : Fl → Bool
  | .fin q => decide (q < 1)
  | _ => true

/-- `assert_specificity`, lib/src/tsetlini_params.cpp:286-307. -/
def assertS (io : RealIO) (p : Params) : Res EParams :=
  (p.getReal "s").bind fun v =>
  if v.badS then
    .ok (.error (badJson ("Param 's' got value " ++ io.toStr v ++ ", instead of a value >= 1.0 .\n")))
  else .ok (.ok p)

/-- `assert_max_weight`, lib/src/tsetlini_params.cpp:310-325. -/
def assertMaxWeight (p : Params) : Res EParams :=
  p.maxWeight.bind fun v =>
  if v < 1 then
    .ok (.error (badJson ("Param 'max_weight' got value " ++ toString v ++
      ", instead of a natural integer.\n")))
  else .ok (.ok p)

/-- `assert_threshold`, lib/src/tsetlini_params.cpp:328-343. -/
def assertThreshold (p : Params) : Res EParams :=
  (p.getInt "threshold").bind fun v =>
  if v < 1 then
    .ok (.error (badJson ("Param 'threshold' got value " ++ toString v ++
      ", instead of a natural integer.\n")))
  else .ok (.ok p)

/-- `assert_number_of_physical_clauses_per_label`, lib/src/tsetlini_params.cpp:346-361;
C++ `%` truncates (`tmod`). -/
def assertClassifierClauses (p : Params) : Res EParams :=
  p.clausesPerLabel.bind fun v =>
  if v < 1 ∨ v.tmod 4 ≠ 0 then
    .ok (.error (badJson ("Param 'number_of_clauses_per_label' got value " ++ toString v ++
      ", instead of a natural integer divisible by 4.\n")))
  else .ok (.ok p)

/-- `assert_number_of_regressor_clauses`, lib/src/tsetlini_params.cpp:364-379. -/
def assertRegressorClauses (p : Params) : Res EParams :=
  p.physicalRegressorClauses.bind fun v =>
  if v < 1 ∨ v.tmod 2 ≠ 0 then
    .ok (.error (badJson ("Param 'number_of_regressor_clauses' got value " ++ toString v ++
      ", instead of an even natural integer.\n")))
  else .ok (.ok p)

/-- `assert_clause_output_tile_size_enumeration`, lib/src/tsetlini_params.cpp:382-400. -/
def assertTileSize (p : Params) : Res EParams :=
  p.tileSize.bind fun v =>
  if ¬ (v = 16 ∨ v = 32 ∨ v = 64 ∨ v = 128) then
    .ok (.error (badJson ("Param 'clause_output_tile_size' got value " ++ toString v ++
      ", instead of allowed 16, 32, 64, or 128\n")))
  else .ok (.ok p)

/-- `assert_loss_function`, lib/src/tsetlini_params.cpp:403-423. -/
def assertLoss (p : Params) : Res EParams :=
  (p.getStr "loss_fn").bind fun v =>
  if ¬ (v = "L2" ∨ v = "MSE" ∨ v = "MAE" ∨ v = "L1" ∨ v = "berHu" ∨ v = "L1+2") then
    .ok (.error (badJson ("Param 'loss_fn' got value " ++ v ++
      ", instead of allowed MSE, MAE, L2, L1, L1+2, or berHu\n")))
  else .ok (.ok p)

/-- The steps shared by `make_classifier_params_from_json` and `..._from_args`,
lib/src/tsetlini_params.cpp:434-444,490-500. -/
def finishClassifier (m : Machine) (io : RealIO) (p : Params) : Res EParams :=
  let r := Res.ok (.ok p)
  let r := flatMapR r assertNJobs
  let r := flatMapR r assertStates
  let r := flatMapR r (assertS io)
  let r := flatMapR r assertClassifierClauses
  let r := flatMapR r assertBoost
  let r := flatMapR r assertThreshold
  let r := flatMapR r assertMaxWeight
  let r := flatMapR r (normalizeNJobs m)
  let r := flatMapR r (normalizeRandomState m)
  let r := flatMapR r assertCountingType
  flatMapR r assertTileSize

/-- The same for regressors, lib/src/tsetlini_params.cpp:515-526,578-589. -/
def finishRegressor (m : Machine) (io : RealIO) (p : Params) : Res EParams :=
  let r := Res.ok (.ok p)
  let r := flatMapR r assertNJobs
  let r := flatMapR r assertStates
  let r := flatMapR r (assertS io)
  let r := flatMapR r assertRegressorClauses
  let r := flatMapR r assertBoost
  let r := flatMapR r assertThreshold
  let r := flatMapR r assertMaxWeight
  let r := flatMapR r (normalizeNJobs m)
  let r := flatMapR r (normalizeRandomState m)
  let r := flatMapR r assertCountingType
  let r := flatMapR r assertLoss
  flatMapR r assertTileSize

/-- `make_classifier_params_from_json`, lib/src/tsetlini_params.cpp:426-448. The argument is what
`json_parse` (79-91) made of the text: a document or the parser's message. -/
def makeClassifierParamsFromJson (m : Machine) (io : RealIO) (doc : Except String JVal) : Res EParams :=
  match doc with
  | .error what => .ok (.error (badJson what))
  | .ok js =>
    match assertJsonDictionary js with
    | .error s => .ok (.error s)
    | .ok members =>
      flatMapR (jsonToParams io members []) fun p =>
      finishClassifier m io (mergeParams defaultClassifierParams p)

/-- `make_regressor_params_from_json`, lib/src/tsetlini_params.cpp:507-530. -/
def makeRegressorParamsFromJson (m : Machine) (io : RealIO) (doc : Except String JVal) : Res EParams :=
  match doc with
  | .error what => .ok (.error (badJson what))
  | .ok js =>
    match assertJsonDictionary js with
    | .error s => .ok (.error s)
    | .ok members =>
      flatMapR (jsonToParams io members []) fun p =>
      finishRegressor m io (mergeParams defaultRegressorParams p)

/-- Arguments of `make_classifier_params_from_args`, lib/src/tsetlini_params.cpp:452-464. -/
structure ClassifierArgs where
  clauses : Int
  states : Int
  s : Fl
  threshold : Int
  weighted : Bool
  maxWeight : Int
  boost : Bool
  nJobs : Int
  verbose : Bool
  countingType : String
  tileSize : Int
  seed : Option (BitVec 32)

/-- `make_classifier_params_from_args`, lib/src/tsetlini_params.cpp:451-504. -/
def makeClassifierParamsFromArgs (m : Machine) (io : RealIO) (a : ClassifierArgs) : Res EParams :=
  let p : Params := []
  let p := p.set "number_of_clauses_per_label" (.int a.clauses)
  let p := p.set "number_of_states" (.int a.states)
  let p := p.set "s" (.real a.s)
  let p := p.set "threshold" (.int a.threshold)
  let p := p.set "weighted" (.bool a.weighted)
  let p := p.set "max_weight" (.int a.maxWeight)
  let p := p.set "boost_true_positive_feedback" (.int (if a.boost then 1 else 0))
  let p := p.set "n_jobs" (.int a.nJobs)
  let p := p.set "verbose" (.bool a.verbose)
  let p := p.set "counting_type" (.str a.countingType)
  let p := p.set "clause_output_tile_size" (.int a.tileSize)
  let p := match a.seed with
    | some s => p.set "random_state" (.seed s)
    | none => p.set "random_state" .none
  finishClassifier m io p

/-- Arguments of `make_regressor_params_from_args`, lib/src/tsetlini_params.cpp:534-549. -/
structure RegressorArgs extends ClassifierArgs where
  lossFn : String
  lossC1 : Fl
  boxMuller : Bool

/-- `make_regressor_params_from_args`, lib/src/tsetlini_params.cpp:533-593. -/
def makeRegressorParamsFromArgs (m : Machine) (io : RealIO) (a : RegressorArgs) : Res EParams :=
  let p : Params := []
  let p := p.set "number_of_regressor_clauses" (.int a.clauses)
  let p := p.set "number_of_states" (.int a.states)
  let p := p.set "s" (.real a.s)
  let p := p.set "threshold" (.int a.threshold)
  let p := p.set "weighted" (.bool a.weighted)
  let p := p.set "max_weight" (.int a.maxWeight)
  let p := p.set "boost_true_positive_feedback" (.int (if a.boost then 1 else 0))
  let p := p.set "n_jobs" (.int a.nJobs)
  let p := p.set "verbose" (.bool a.verbose)
  let p := p.set "counting_type" (.str a.countingType)
  let p := p.set "clause_output_tile_size" (.int a.tileSize)
  let p := p.set "loss_fn" (.str a.lossFn)
  let p := p.set "loss_fn_C1" (.real a.lossC1)
  let p := p.set "box_muller" (.bool a.boxMuller)
  let p := match a.seed with
    | some s => p.set "random_state" (.seed s)
    | none => p.set "random_state" .none
  finishRegressor m io p

/-! ### Variadic factories -/

/-- A strongly typed argument of a factory or of `fit`, lib/include/tsetlini_strong_params.hpp. lib/include/tsetlini_strong_params.hpp:18-130 -/
inductive Arg where
  | clausesPerLabel (v : Int)
  | regressorClauses (v : Int)
  | states (v : Int)
  | specificity (v : Fl)
  | threshold (v : Int)
  | weighted (v : Bool)
  | maxWeight (v : Int)
  | boost (v : Bool)
  | nJobs (v : Int)
  | verbose (v : Bool)
  | countingType (v : String)
  | tileSize (v : Int)
  | lossFn (v : String)
  | lossC1 (v : Fl)
  | boxMuller (v : Bool)
  | seed (v : BitVec 32)
  | maxLabels (v : Int)
  | epochs (v : Nat)
deriving DecidableEq, Repr

/-- The C++ type of an argument. lib/include/tsetlini_strong_params.hpp:18-130 -/
inductive ArgTy where
  | clausesPerLabel | regressorClauses | states | specificity | threshold | weighted | maxWeight
  | boost | nJobs | verbose | countingType | tileSize | lossFn | lossC1 | boxMuller | seed
  | maxLabels | epochs
deriving DecidableEq, Repr

/-- lib/include/tsetlini_strong_params.hpp:18-130 -/
def Arg.ty : Arg → ArgTy
  | .clausesPerLabel _ => .clausesPerLabel
  | .regressorClauses _ => .regressorClauses
  | .states _ => .states
  | .specificity _ => .specificity
  | .threshold _ => .threshold
  | .weighted _ => .weighted
  | .maxWeight _ => .maxWeight
  | .boost _ => .boost
  | .nJobs _ => .nJobs
  | .verbose _ => .verbose
  | .countingType _ => .countingType
  | .tileSize _ => .tileSize
  | .lossFn _ => .lossFn
  | .lossC1 _ => .lossC1
  | .boxMuller _ => .boxMuller
  | .seed _ => .seed
  | .maxLabels _ => .maxLabels
  | .epochs _ => .epochs

/-- The accepted type sets of `make_classifier_*`, lib/include/tsetlini.hpp:149-163,453-467. -/
def classifierArgTys : List ArgTy :=
  [.clausesPerLabel, .states, .specificity, .threshold, .weighted, .maxWeight, .boost, .nJobs,
   .verbose, .countingType, .tileSize, .seed]

/-- The accepted type sets of `make_regressor_*`, lib/include/tsetlini.hpp:295-312,600-617. -/
def regressorArgTys : List ArgTy :=
  [.regressorClauses, .states, .specificity, .threshold, .weighted, .maxWeight, .boost, .nJobs,
   .verbose, .countingType, .tileSize, .lossFn, .lossC1, .boxMuller, .seed]

/-- The accepted type set of classifier `fit` and `partial_fit`, lib/include/tsetlini.hpp:190-195,205-210. -/
def fitArgTys : List ArgTy := [.maxLabels, .epochs]

/-- A call compiles if every argument type is accepted (`static_assert`) and no type is given
twice (`std::get<T>` would be ambiguous). lib/include/arg_extract.hpp:32-96 -/
def Compiles (accepted : List ArgTy) (args : List Arg) : Prop :=
  (∀ a ∈ args, a.ty ∈ accepted) ∧ (args.map Arg.ty).Nodup

/-- `maybe_extract<T>(args...)`, lib/include/arg_extract.hpp:79-96: the argument of that type. -/
def maybeExtract {α : Type} (pick : Arg → Option α) (args : List Arg) : Option α := args.findSome? pick

/-- `extract_or<T>(default, args...)`, lib/include/arg_extract.hpp:32-72. -/
def extractOr {α : Type} (pick : Arg → Option α) (dflt : α) (args : List Arg) : α :=
  (maybeExtract pick args).getD dflt

/-- The argument list built by `make_classifier_classic` / `make_classifier_bitwise`,
lib/include/tsetlini.hpp:166-180,470-484. -/
def classifierArgs (args : List Arg) : ClassifierArgs where
  clauses := extractOr (fun | .clausesPerLabel v => some v | _ => none) 12 args
  states := extractOr (fun | .states v => some v | _ => none) 100 args
  s := extractOr (fun | .specificity v => some v | _ => none) (.fin 2) args
  threshold := extractOr (fun | .threshold v => some v | _ => none) 15 args
  weighted := extractOr (fun | .weighted v => some v | _ => none) false args
  maxWeight := extractOr (fun | .maxWeight v => some v | _ => none) 2147483647 args
  boost := extractOr (fun | .boost v => some v | _ => none) false args
  nJobs := extractOr (fun | .nJobs v => some v | _ => none) (-1) args
  verbose := extractOr (fun | .verbose v => some v | _ => none) false args
  countingType := extractOr (fun | .countingType v => some v | _ => none) "auto" args
  tileSize := extractOr (fun | .tileSize v => some v | _ => none) 16 args
  seed := maybeExtract (fun | .seed v => some v | _ => none) args

/-- The argument list built by `make_regressor_classic` / `make_regressor_bitwise`,
lib/include/tsetlini.hpp:315-332,620-637. -/
def regressorArgs (args : List Arg) : RegressorArgs where
  clauses := extractOr (fun | .regressorClauses v => some v | _ => none) 20 args
  states := extractOr (fun | .states v => some v | _ => none) 100 args
  s := extractOr (fun | .specificity v => some v | _ => none) (.fin 2) args
  threshold := extractOr (fun | .threshold v => some v | _ => none) 15 args
  weighted := extractOr (fun | .weighted v => some v | _ => none) true args
  maxWeight := extractOr (fun | .maxWeight v => some v | _ => none) 2147483647 args
  boost := extractOr (fun | .boost v => some v | _ => none) false args
  nJobs := extractOr (fun | .nJobs v => some v | _ => none) (-1) args
  verbose := extractOr (fun | .verbose v => some v | _ => none) false args
  countingType := extractOr (fun | .countingType v => some v | _ => none) "auto" args
  tileSize := extractOr (fun | .tileSize v => some v | _ => none) 16 args
  seed := maybeExtract (fun | .seed v => some v | _ => none) args
  lossFn := extractOr (fun | .lossFn v => some v | _ => none) "MSE" args
  lossC1 := extractOr (fun | .lossC1 v => some v | _ => none) (.fin 0) args
  boxMuller := extractOr (fun | .boxMuller v => some v | _ => none) false args

/-- How a user can ask for an estimator. lib/src/tsetlini.cpp:1055-1071,1177-1208,1222-1231,1480-1508,1627-1655 -/
inductive Request : Kind → Type where
  /-- `make_classifier_classic(args...)` / `make_classifier_bitwise(args...)` -/
  | classifierArgs (args : List Arg) : Request .classifier
  /-- `make_classifier_*_from_json(text)`; the parsed text -/
  | classifierJson (doc : Except String JVal) : Request .classifier
  | regressorArgs (args : List Arg) : Request .regressor
  | regressorJson (doc : Except String JVal) : Request .regressor

/-- The parameters of the estimator the factory makes, or its error. The estimator itself is
`EstState.fresh` of them (lib/src/tsetlini.cpp:1055-1071,1177-1186,1192-1208,1222-1231,1480-1508,1627-1655 and lib/include/tsetlini.hpp:181,333,485,638). -/
def make (m : Machine) (io : RealIO) {k : Kind} (r : Request k) : Res EParams :=
  match r with
  | .classifierArgs args => makeClassifierParamsFromArgs m io (classifierArgs args)
  | .classifierJson doc => makeClassifierParamsFromJson m io doc
  | .regressorArgs args => makeRegressorParamsFromArgs m io (regressorArgs args)
  | .regressorJson doc => makeRegressorParamsFromJson m io doc

/-- `ClassifierClassic::fit(X, y, args...)`, lib/include/tsetlini.hpp:186-198 (and 490-502):
`max_number_of_labels` is required (its absence does not compile), epochs default to 100. -/
def fitArgs (args : List Arg) : Option (Int × Nat) :=
  (maybeExtract (fun | .maxLabels v => some v | _ => none) args).map fun ml =>
  (ml, extractOr (fun | .epochs v => some v | _ => none) 100 args)

end Tsetlini
