import Verif.Model.Overflow
import Verif.Model.History
/-
All calls of the public methods once more, with the float computations of Model/Overflow in place of those of Model/Estimator:
the definitions of Model/Estimator and Model/History on the way from a call to a float computation, otherwise unchanged.
-/
namespace Tsetlini

/-- `classifier_update_impl`, lib/src/tsetlini.cpp:277-389. -/
def classifierUpdateIeee (B : Backend) (env : Env) (sc : Sched) (cfg : TrainCfg) (X : B.Sample)
    (target opposite : Int) (st : EstState B env) : Res (EstState B env) :=
  (labelRange target cfg.k).bind fun (ta, tb) =>
  (outputsLoop sc (fun o => B.clauseOut cfg.tile st.ta.mat o X) ta tb st.cache).bind fun c =>
  (labelRange opposite cfg.k).bind fun (oa, ob) =>
  (outputsLoop sc (fun o => B.clauseOut cfg.tile st.ta.mat o X) oa ob c).bind fun c =>
  (sumUpLabelVotes c.clauseOutput st.ta.weights c.labelSum target cfg.k cfg.T).bind fun ls =>
  (sumUpLabelVotes c.clauseOutput st.ta.weights ls opposite cfg.k cfg.T).bind fun ls =>
  (rd ls target.toNat).bind fun tv =>
  (rd ls opposite.toNat).bind fun ov =>
  (classifierFeedbackIeee env c.feedback target opposite tv ov cfg.k cfg.T st.fgen).bind fun (fb, fgen) =>
  (trainClassifier B env cfg.hy X fb c.clauseOutput ta tb ⟨st.ta, st.igen, c.ct⟩).bind fun s =>
  (trainClassifier B env cfg.hy X fb c.clauseOutput oa ob s).bind fun s =>
  .ok { st with ta := s.ta, igen := s.g, fgen := fgen,
                cache := { c with labelSum := ls, feedback := fb, ct := s.ct } }

/-- One epoch of `fit_classifier_online_impl`, lib/src/tsetlini.cpp:699-732; `ct.populate` (708) does
nothing, lib/src/coin_tosser_exact.hpp:79-82. -/
def classifierEpochIeee (B : Backend) (env : Env) (sc : Sched) (cfg : TrainCfg) (X : List B.Sample) (y : List Int)
    (st : EstState B env) : Res (EstState B env) :=
  (generateOppositeY env cfg.labels y st.igen).bind fun (opp, g) =>
  let (ix, g) := env.shuffle g X.length
  iter ix (fun i st =>
    (rd X i).bind fun x => (rd y i).bind fun yi => (rd opp i).bind fun oi =>
    classifierUpdateIeee B env sc cfg x yi oi st) { st with igen := g }

/-- `fit_classifier_online_impl`, lib/src/tsetlini.cpp:671-735. -/
def fitClassifierOnlineIeee (B : Backend) (env : Env) (sc : Sched) (st : EstState B env) (X : List B.Sample)
    (y : List Int) (epochs : Nat) : Res (EstState B env × Status) :=
  st.params.numberOfLabels.bind fun labels =>
  st.params.outputsPerLabel.bind fun k =>
  st.params.threshold.bind fun T =>
  st.params.maxWeight.bind fun maxWeight =>
  st.params.numberOfStates.bind fun states =>
  st.params.specificity.bind fun _ =>
  st.params.boost.bind fun boost =>
  st.params.tileSize.bind fun tile =>
  st.params.nJobs.bind fun _ =>
  st.params.verbose.bind fun _ =>
  let cfg : TrainCfg := ⟨labels, k, T, ⟨states, maxWeight, boost⟩, tileOf tile⟩
  (iter (List.range epochs) (fun _ st => classifierEpochIeee B env sc cfg X y st) st).bind fun st =>
  .ok (st, .sOk)

/-- `regressor_update_impl`, lib/src/tsetlini.cpp:779-830. -/
def regressorUpdateIeee (B : Backend) (env : Env) (t : BmTables) (sc : Sched) (cfg : RegCfg) (X : B.Sample) (target : Int)
    (st : EstState B env) : Res (EstState B env) :=
  (outputsLoop sc (fun o => B.clauseOut cfg.tile st.ta.mat o X) 0 cfg.outputs.toNat st.cache).bind
    fun c =>
  (sumUpRegressorVotes c.clauseOutput st.ta.weights cfg.T).bind fun votes =>
  (i32 (votes - target)).bind fun err =>
  (trainRegressorIeee B env t cfg.hy cfg.loss cfg.C1 cfg.boxMuller X c.clauseOutput cfg.outputs.toNat
    err cfg.T ⟨st.ta, st.igen, c.ct⟩).bind fun s =>
  .ok { st with ta := s.ta, igen := s.g, cache := { c with ct := s.ct } }

/-- One epoch of `fit_regressor_online_impl`, lib/src/tsetlini.cpp:861-893; `ct.populate` (868) does
nothing, lib/src/coin_tosser_exact.hpp:79-82. -/
def regressorEpochIeee (B : Backend) (env : Env) (t : BmTables) (sc : Sched) (cfg : RegCfg) (X : List B.Sample) (y : List Int)
    (st : EstState B env) : Res (EstState B env) :=
  let (ix, g) := env.shuffle st.igen X.length
  iter ix (fun i st =>
    (rd X i).bind fun x => (rd y i).bind fun yi => regressorUpdateIeee B env t sc cfg x yi st)
    { st with igen := g }

/-- `fit_regressor_online_impl`, lib/src/tsetlini.cpp:833-896. -/
def fitRegressorOnlineIeee (B : Backend) (env : Env) (t : BmTables) (sc : Sched) (st : EstState B env) (X : List B.Sample)
    (y : List Int) (epochs : Nat) : Res (EstState B env × Status) :=
  st.params.regressorOutputs.bind fun outputs =>
  st.params.threshold.bind fun T =>
  st.params.maxWeight.bind fun maxWeight =>
  st.params.numberOfStates.bind fun states =>
  st.params.specificity.bind fun _ =>
  st.params.boost.bind fun boost =>
  st.params.tileSize.bind fun tile =>
  st.params.nJobs.bind fun _ =>
  st.params.verbose.bind fun _ =>
  st.params.lossFnName.bind fun name =>
  st.params.lossFnC1.bind fun C1 =>
  (lossOf name).bind fun loss =>
  st.params.boxMuller.bind fun bm =>
  let cfg : RegCfg := ⟨outputs, T, ⟨states, maxWeight, boost⟩, tileOf tile, loss, C1, bm⟩
  (iter (List.range epochs) (fun _ st => regressorEpochIeee B env t sc cfg X y st) st).bind fun st =>
  .ok (st, .sOk)

/-- `ClassifierStateCache::reset` and `RegressorStateCache::reset`,
lib/src/estimator_state_cache.cpp:14-30,45-57; the tosser takes the number of features as `unsigned`. -/
def resetCacheIeee (kind : Kind) (p : Params) (tick : Nat) : Res Cache :=
  match kind with
  | .classifier =>
    p.classifierOutputs.bind fun n =>
    (vecSize n).bind fun n =>
    p.numberOfLabels.bind fun l =>
    (vecSize l).bind fun l =>
    p.specificity.bind fun s =>
    p.numberOfFeatures.bind fun f =>
    (coinTosserIeee s (BitVec.ofInt 32 f).toNat).bind fun ct =>
    .ok ⟨List.replicate n false, List.replicate l 0, List.replicate n 0, ct, tick⟩
  | .regressor =>
    p.regressorOutputs.bind fun n =>
    (vecSize n).bind fun n =>
    p.specificity.bind fun s =>
    p.numberOfFeatures.bind fun f =>
    (coinTosserIeee s (BitVec.ofInt 32 f).toNat).bind fun ct =>
    .ok ⟨List.replicate n false, [], [], ct, tick⟩

/-- `initialize_state`, lib/src/tsetlini_state.cpp:216-246, with the weights part of `initialize`,
lib/src/ta_state.cpp:68-71,115-118.  What the log statements print is in `Model/Log`; here only
the evaluation of their operands matters. -/
def initializeStateIeee (B : Backend) (env : Env) (kind : Kind) (st : EstState B env) :
    Res (EstState B env) :=
  st.params.verbose.bind fun _ =>
  st.params.randomState.bind fun seed =>
  (logParams kind st.params).bind fun _ =>
  st.params.numberOfStates.bind fun states =>
  (physicalClauses kind st.params).bind fun clauses =>
  (clauseOutputs kind st.params).bind fun outputs =>
  st.params.numberOfFeatures.bind fun features =>
  st.params.countingType.bind fun ctn =>
  st.params.weighted.bind fun weighted =>
  (B.initMat env (ctypeOfName (normalizeCountingType ctn states)) clauses.toNat features.toNat
    (env.seedG seed)).bind fun (m, igen) =>
  let weights := if weighted then resize st.ta.weights outputs.toNat else st.ta.weights
  (resetCacheIeee kind st.params st.cache.tick).bind fun cache =>
  .ok { params := st.params, ta := ⟨m, weights⟩, cache := cache, igen := igen, fgen := env.seedF seed }

/-- `fit_classifier_impl`, lib/src/tsetlini.cpp:738-776. -/
def fitClassifierIeee (B : Backend) (env : Env) (sc : Sched) (st : EstState B env) (X : List B.Sample)
    (y : List Int) (maxLabels : Int) (epochs : Nat) : Res (EstState B env × Status) :=
  (checkXy B X y).bind fun sm =>
  if sm.code ≠ .ok then .ok (st, sm) else
  (maxElem y).bind fun hi =>
  (i32 (hi + 1)).bind fun hi1 =>
  let labels := max hi1 maxLabels
  (checkLabels y).bind fun sm =>
  if sm.code ≠ .ok then .ok (st, sm) else
  match X with
  | [] => .ub .emptyRange
  | x0 :: _ =>
    let p := (st.params.set "number_of_labels" (.int labels)).set
      "number_of_features" (.int (B.size x0))
    (initializeStateIeee B env .classifier { st with params := p }).bind fun st =>
    fitClassifierOnlineIeee B env sc st X y epochs

/-- `fit_classifier_online_with_input_check`, lib/src/tsetlini.cpp:1002-1033. -/
def fitClassifierOnlineCheckedIeee (B : Backend) (env : Env) (sc : Sched) (st : EstState B env) (X : List B.Sample)
    (y : List Int) (epochs : Nat) : Res (EstState B env × Status) :=
  (checkXy B X y).bind fun sm =>
  if sm.code ≠ .ok then .ok (st, sm) else
  st.params.numberOfFeatures.bind fun nf =>
  (checkX B X nf).bind fun sm =>
  if sm.code ≠ .ok then .ok (st, sm) else
  st.params.numberOfLabels.bind fun labels =>
  (i32 (labels - 1)).bind fun maxLabel =>
  (checkLabelsMax y maxLabel).bind fun sm =>
  if sm.code ≠ .ok then .ok (st, sm) else
  fitClassifierOnlineIeee B env sc st X y epochs

/-- `partial_fit_impl` (classifiers), lib/src/tsetlini.cpp:1036-1052,1372-1388. -/
def partialFitClassifierIeee (B : Backend) (env : Env) (sc : Sched) (st : EstState B env) (X : List B.Sample)
    (y : List Int) (maxLabels : Int) (epochs : Nat) : Res (EstState B env × Status) :=
  if isFitted B st.ta then fitClassifierOnlineCheckedIeee B env sc st X y epochs
  else fitClassifierIeee B env sc st X y maxLabels epochs

/-- `fit_regressor_impl`, lib/src/tsetlini.cpp:899-928. -/
def fitRegressorIeee (B : Backend) (env : Env) (t : BmTables) (sc : Sched) (st : EstState B env) (X : List B.Sample)
    (y : List Int) (epochs : Nat) : Res (EstState B env × Status) :=
  (checkXy B X y).bind fun sm =>
  if sm.code ≠ .ok then .ok (st, sm) else
  st.params.threshold.bind fun T =>
  let sm := checkResponseY y T
  if sm.code ≠ .ok then .ok (st, sm) else
  match X with
  | [] => .ub .emptyRange
  | x0 :: _ =>
    let p := st.params.set "number_of_features" (.int (B.size x0))
    (initializeStateIeee B env .regressor { st with params := p }).bind fun st =>
    fitRegressorOnlineIeee B env t sc st X y epochs

/-- `fit_regressor_online_with_input_check`, lib/src/tsetlini.cpp:1241-1269. -/
def fitRegressorOnlineCheckedIeee (B : Backend) (env : Env) (t : BmTables) (sc : Sched) (st : EstState B env) (X : List B.Sample)
    (y : List Int) (epochs : Nat) : Res (EstState B env × Status) :=
  (checkXy B X y).bind fun sm =>
  if sm.code ≠ .ok then .ok (st, sm) else
  st.params.numberOfFeatures.bind fun nf =>
  (checkX B X nf).bind fun sm =>
  if sm.code ≠ .ok then .ok (st, sm) else
  st.params.threshold.bind fun T =>
  let sm := checkResponseY y T
  if sm.code ≠ .ok then .ok (st, sm) else
  fitRegressorOnlineIeee B env t sc st X y epochs

/-- `partial_fit_impl` (regressors), lib/src/tsetlini.cpp:1272-1287,1549-1564. -/
def partialFitRegressorIeee (B : Backend) (env : Env) (t : BmTables) (sc : Sched) (st : EstState B env) (X : List B.Sample)
    (y : List Int) (epochs : Nat) : Res (EstState B env × Status) :=
  if isFitted B st.ta then fitRegressorOnlineCheckedIeee B env t sc st X y epochs
  else fitRegressorIeee B env t sc st X y epochs

/-- `evaluate_classifier_impl`, lib/src/tsetlini.cpp:392-443: no validation;
`ONE - ONE * errors / n`, NaN for an empty `X`. -/
def evaluateIeee (B : Backend) (env : Env) (sc : Sched) (st : EstState B env) (X : List B.Sample) (y : List Int) :
    Res (EstState B env × Except Status Fl) :=
  (inferCfg st.params).bind fun i =>
  (evalLoop B sc st.ta i X y (List.range X.length) (st.cache, 0)).bind fun (c, errors) =>
  let rv : Fl := accuracyIeee errors X.length
  .ok ({ st with cache := c }, .ok rv)

/-- One call. Public methods, lib/src/tsetlini.cpp:1020-1657; each is modelled in Model/Estimator. -/
def stepIeee (B : Backend) (env : Env) (t : BmTables) (sc : Sched) {k : Kind} (c : Call B.Sample k) (st : EstState B env) :
    Res (EstState B env × Out) :=
  match c with
  | .fit X y ml ep => tagged .status (fitClassifierIeee B env sc st X y ml ep)
  | .partialFit X y ml ep => tagged .status (partialFitClassifierIeee B env sc st X y ml ep)
  | .predict1 x => tagged .label (predictClassifier1 B env sc st x)
  | .predict X => tagged .labels (predictClassifier B env sc st X)
  | .decision1 x => tagged .scores (decision1 B env sc st x)
  | .decision X => tagged .scoreRows (decision B env sc st X)
  | .evaluate X y => tagged .accuracy (evaluateIeee B env sc st X y)
  | .fitR X y ep => tagged .status (fitRegressorIeee B env t sc st X y ep)
  | .partialFitR X y ep => tagged .status (partialFitRegressorIeee B env t sc st X y ep)
  | .predictR1 x => tagged .label (predictRegressor1 B env sc st x)
  | .predictR X => tagged .labels (predictRegressor B env sc st X)

/-- A history of calls and everything they returned. No counterpart in the code: a user program, as a sequence of calls on one estimator. -/
def runIeee (B : Backend) (env : Env) (t : BmTables) (sc : Sched) {k : Kind} :
    List (Call B.Sample k) → EstState B env → Res (EstState B env × List Out)
  | [], st => .ok (st, [])
  | c :: cs, st =>
    (stepIeee B env t sc c st).bind fun r =>
    (runIeee B env t sc cs r.1).bind fun r' => .ok (r'.1, r.2 :: r'.2)

end Tsetlini
