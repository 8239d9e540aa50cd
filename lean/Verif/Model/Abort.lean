import Verif.Model.StateJson
import Verif.Model.History
/-
What is left of an estimator when a member function is left by an exception: loading a text that turns out to be
unsuitable half way, and training that runs out of memory.
-/
namespace Tsetlini

/-- A statement that computes a value and stores it: if the computation does not return, the object is left as it is
(`st`).  No counterpart in the code: the C++ assignment. -/
def assign {σ α : Type} (st : σ) (r : Res α) (next : α → σ × Res Unit) : σ × Res Unit :=
  match r with
  | .ok v => next v
  | .ub u => (st, .ub u)
  | .exn e => (st, .exn e)
  | .timeout => (st, .timeout)

/-- `ClassifierStateCache::reset` and `RegressorStateCache::reset`, with what they leave when they throw,
lib/src/estimator_state_cache.cpp:14-30,45-57.  (`label_sum` and `feedback_to_clauses` are no members of a regressor's cache.) -/
def resetInto (env : Env) (kind : Kind) (p : Params) (c : Cache) : Cache × Res Unit :=
  match kind with
  | .classifier =>
    assign c p.classifierOutputs fun outputs =>
    let c := { c with clauseOutput := [] }
    assign c (vecSize outputs) fun n =>
    let c := { c with clauseOutput := List.replicate n false, labelSum := [] }
    assign c (p.numberOfLabels.bind vecSize) fun l =>
    let c := { c with labelSum := List.replicate l 0, feedback := [] }
    assign c (vecSize outputs) fun n =>
    let c := { c with feedback := List.replicate n 0 }
    assign c (p.specificity.bind fun s => p.numberOfFeatures.bind fun f => CoinTosser.make env s (BitVec.ofInt 32 f).toNat) fun ct =>
    ({ c with ct := ct }, .ok ())
  | .regressor =>
    assign c p.regressorOutputs fun outputs =>
    let c := { c with clauseOutput := [] }
    assign c (vecSize outputs) fun n =>
    let c := { c with clauseOutput := List.replicate n false, labelSum := [], feedback := [] }
    assign c (p.specificity.bind fun s => p.numberOfFeatures.bind fun f => CoinTosser.make env s (BitVec.ofInt 32 f).toNat) fun ct =>
    ({ c with ct := ct }, .ok ())

/-- `from_json_string`, with what it leaves of `state` when it throws,
lib/src/tsetlini_state_json.cpp:299-325,344-370,389-415,434-460.  The hack of lines 315-321 does not throw and is part of
`Params.ofJson`. -/
def loadInto {B : Backend} {env : Env} (gio : GenIO env) (tio : TaIO B) (k : Kind) (st : EstState B env) (js : JVal) :
    EstState B env × Res Unit :=
  assign st ((js.at' "igen").bind gio.iOf) fun g =>
  let st := { st with igen := g }
  assign st ((js.at' "fgen").bind gio.fOf) fun g =>
  let st := { st with fgen := g }
  assign st ((js.at' "ta_state").bind tio.ofJ) fun ta =>
  let st := { st with ta := ta }
  assign st ((js.at' "params").bind (Params.ofJson env.rnd)) fun p =>
  let st := { st with params := p }
  let r := resetInto env k p st.cache
  ({ st with cache := r.1 }, r.2)

/-! ### Training that runs out of memory

Memory is allocated for keys of parameters (`params.at("number_of_states")` makes a `std::string`), for map nodes, for the
log statements, for matrices and for vectors.  `std::bad_alloc` leaves the call at that point, and
the estimator in the state it has then.  Lists of such states follow.  Training on a sample
(`classifier_update_impl`, `regressor_update_impl`) and shuffling allocate nothing. -/

/-- The caches in which `reset` can be left; `clear()` keeps the capacity, so a vector that is to get no longer than it
was needs no memory. lib/src/estimator_state_cache.cpp:14-30,45-57 -/
def cacheAborts (kind : Kind) (p : Params) (c : Cache) : Res (List Cache) :=
  match kind with
  | .classifier =>
    p.classifierOutputs.bind fun n =>
    (vecSize n).bind fun n =>
    p.numberOfLabels.bind fun l =>
    (vecSize l).bind fun l =>
    let c0 : Cache := { c with clauseOutput := [] }
    let c1 : Cache := { c with clauseOutput := List.replicate n false, labelSum := [] }
    let c2 : Cache := { c1 with labelSum := List.replicate l 0, feedback := [] }
    let c3 : Cache := { c2 with feedback := List.replicate n 0 }
    .ok ([c] ++ (if c.clauseOutput.length < n then [c0] else []) ++ [c1] ++ (if c.feedback.length < n then [c2] else []) ++ [c3])
  | .regressor =>
    p.regressorOutputs.bind fun n =>
    (vecSize n).bind fun n =>
    let c0 : Cache := { c with clauseOutput := [] }
    let c1 : Cache := { c with clauseOutput := List.replicate n false, labelSum := [], feedback := [] }
    .ok ([c] ++ (if c.clauseOutput.length < n then [c0] else []) ++ [c1])

/-- Where `initialize` can be left between making the matrix and drawing its counters: a classic machine nowhere,
lib/src/ta_state.cpp:52-66. -/
def classicHalf (_ : CType) (_ _ : Nat) (_ : classic.Mat) : List classic.Mat := []

/-- A bitwise machine where the polarity matrix is made: the new counters are all zero and the polarity bits still the
old ones, lib/src/ta_state.cpp:86-87. -/
def bitwiseHalf (ct : CType) (rows cols : Nat) (old : bitwise.Mat) : List bitwise.Mat :=
  [(⟨⟨ct, cols, List.replicate rows (List.replicate cols 0)⟩, (show PMatrix from old).pol⟩ : PMatrix)]

/-- The states in which `initialize_state` can be left, as `initializeState`. lib/src/tsetlini_state.cpp:216-246, lib/src/ta_state.cpp:42-119 -/
def initAborts (B : Backend) (half : CType → Nat → Nat → B.Mat → List B.Mat) (env : Env) (kind : Kind) (st : EstState B env) :
    Res (List (EstState B env)) :=
  st.params.verbose.bind fun _ =>
  st.params.randomState.bind fun seed =>
  (logParams kind st.params).bind fun _ =>
  st.params.numberOfStates.bind fun states =>
  (physicalClauses kind st.params).bind fun clauses =>
  (clauseOutputs kind st.params).bind fun outputs =>
  st.params.numberOfFeatures.bind fun features =>
  st.params.countingType.bind fun ctn =>
  st.params.weighted.bind fun weighted =>
  let ct := ctypeOfName (normalizeCountingType ctn states)
  (B.initMat env ct clauses.toNat features.toNat (env.seedG seed)).bind fun (m, igen) =>
  let weights := if weighted then resize st.ta.weights outputs.toNat else st.ta.weights
  (cacheAborts kind st.params st.cache).bind fun caches =>
  let seeded : EstState B env := { st with igen := env.seedG seed, fgen := env.seedF seed }
  let halves := (half ct clauses.toNat features.toNat st.ta.mat).map fun m => { seeded with ta := ⟨m, st.ta.weights⟩ }
  let drawn := if weighted = true ∧ st.ta.weights.length < outputs.toNat then
      [{ seeded with ta := ⟨m, st.ta.weights⟩, igen := igen }] else []
  .ok ([st, { st with igen := env.seedG seed }, seeded] ++ halves ++ drawn ++ caches.map fun c => { seeded with ta := ⟨m, weights⟩, igen := igen, cache := c })

/-- The states after 0, 1, ..., `epochs` epochs of training, at the end of which an epoch can be logged (or the call
left, lib/src/tsetlini.cpp:699-733,861-895). -/
def epochAborts {σ : Type} (train : Nat → Res (σ × Status)) : Nat → Res (List σ)
  | 0 => (train 0).bind fun r => .ok [r.1]
  | e + 1 => (epochAborts train e).bind fun l => (train (e + 1)).bind fun r => .ok (l ++ [r.1])

/-- Where a training call can be left: up to the start of training, or during training. No counterpart in the code: a pair. -/
structure Aborts (B : Backend) (env : Env) where
  before : List (EstState B env)
  during : List (EstState B env)

/-- Where a classifier's `fit` can be left, lib/src/tsetlini.cpp:738-776. -/
def fitAborts (B : Backend) (half : CType → Nat → Nat → B.Mat → List B.Mat) (env : Env) (sc : Sched) (st : EstState B env)
    (X : List B.Sample) (y : List Int) (maxLabels : Int) (epochs : Nat) : Res (Aborts B env) :=
  (checkXy B X y).bind fun sm =>
  if sm.code ≠ .ok then .ok ⟨[st], []⟩ else
  (maxElem y).bind fun hi =>
  (i32 (hi + 1)).bind fun hi1 =>
  let labels := max hi1 maxLabels
  (checkLabels y).bind fun sm =>
  if sm.code ≠ .ok then .ok ⟨[st], []⟩ else
  match X with
  | [] => .ub .emptyRange
  | x0 :: _ =>
    let st1 := { st with params := st.params.set "number_of_labels" (.int labels) }
    let st2 := { st with params := (st.params.set "number_of_labels" (.int labels)).set "number_of_features" (.int (B.size x0)) }
    (initAborts B half env .classifier st2).bind fun inits =>
    (initializeState B env .classifier st2).bind fun st3 =>
    (epochAborts (fun e => fitClassifierOnline B env sc st3 X y e) epochs).bind fun trained =>
    .ok ⟨[st, st1, st2] ++ inits, trained⟩

/-- Where a regressor's `fit` can be left, lib/src/tsetlini.cpp:899-928. -/
def fitRAborts (B : Backend) (half : CType → Nat → Nat → B.Mat → List B.Mat) (env : Env) (sc : Sched) (st : EstState B env)
    (X : List B.Sample) (y : List Int) (epochs : Nat) : Res (Aborts B env) :=
  (checkXy B X y).bind fun sm =>
  if sm.code ≠ .ok then .ok ⟨[st], []⟩ else
  st.params.threshold.bind fun T =>
  if (checkResponseY y T).code ≠ .ok then .ok ⟨[st], []⟩ else
  match X with
  | [] => .ub .emptyRange
  | x0 :: _ =>
    let st2 := { st with params := st.params.set "number_of_features" (.int (B.size x0)) }
    (initAborts B half env .regressor st2).bind fun inits =>
    (initializeState B env .regressor st2).bind fun st3 =>
    (epochAborts (fun e => fitRegressorOnline B env sc st3 X y e) epochs).bind fun trained =>
    .ok ⟨[st, st2] ++ inits, trained⟩

/-- Where a classifier's `partial_fit` can be left, lib/src/tsetlini.cpp:1002-1052. -/
def partialFitAborts (B : Backend) (half : CType → Nat → Nat → B.Mat → List B.Mat) (env : Env) (sc : Sched) (st : EstState B env)
    (X : List B.Sample) (y : List Int) (maxLabels : Int) (epochs : Nat) : Res (Aborts B env) :=
  if isFitted B st.ta then
    (epochAborts (fun e => fitClassifierOnlineChecked B env sc st X y e) epochs).bind fun trained => .ok ⟨[st], trained⟩
  else fitAborts B half env sc st X y maxLabels epochs

/-- Where a regressor's `partial_fit` can be left, lib/src/tsetlini.cpp:1241-1287. -/
def partialFitRAborts (B : Backend) (half : CType → Nat → Nat → B.Mat → List B.Mat) (env : Env) (sc : Sched) (st : EstState B env)
    (X : List B.Sample) (y : List Int) (epochs : Nat) : Res (Aborts B env) :=
  if isFitted B st.ta then
    (epochAborts (fun e => fitRegressorOnlineChecked B env sc st X y e) epochs).bind fun trained => .ok ⟨[st], trained⟩
  else fitRAborts B half env sc st X y epochs

/-- Where a training call can be left; the calls that only read are modelled access by access in Model/Shared. Public methods,
lib/src/tsetlini.cpp:1020-1657. -/
def trainAborts (B : Backend) (half : CType → Nat → Nat → B.Mat → List B.Mat) (env : Env) (sc : Sched) {k : Kind}
    (c : Call B.Sample k) (st : EstState B env) : Res (Aborts B env) :=
  match c with
  | .fit X y ml ep => fitAborts B half env sc st X y ml ep
  | .partialFit X y ml ep => partialFitAborts B half env sc st X y ml ep
  | .fitR X y ep => fitRAborts B half env sc st X y ep
  | .partialFitR X y ep => partialFitRAborts B half env sc st X y ep
  | _ => .ok ⟨[], []⟩

end Tsetlini
