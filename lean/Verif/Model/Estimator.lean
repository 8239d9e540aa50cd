import Verif.Model.Backend
/-
The estimator templates of lib/src/tsetlini.cpp, the shared vote/feedback/training
loops of lib/src/tsetlini_algo_classic.hpp and lib/src/tsetlini_algo_bitwise.hpp,
lib/src/tsetlini_state.cpp and lib/src/estimator_state_cache.cpp.
-/
namespace Tsetlini

/-! ### Status -/

/-- lib/include/tsetlini_status_code.hpp:12-19 -/
inductive Code where
  | ok | badJson | valueError | notFitted
deriving DecidableEq, Repr

/-- `status_message_t`, lib/include/tsetlini_status_code.hpp:21 -/
structure Status where
  code : Code
  msg : String
deriving DecidableEq, Repr

/-- lib/include/tsetlini_status_code.hpp:12-21 -/
def Status.sOk : Status := ⟨.ok, ""⟩

/-! ### State -/

/-- `ClassifierStateCache::value_type` / `RegressorStateCache::value_type`,
lib/src/estimator_state_cache.hpp (the regressor's has no `label_sum` and no
`feedback_to_clauses`; they stay empty here).  Clause outputs only ever receive
`bool` values.  `tick` is a ghost counter of OpenMP loops run so far, it only
selects the schedule. lib/src/estimator_state_cache.hpp:46-73 -/
structure Cache where
  clauseOutput : List Bool
  labelSum : List Int
  feedback : List Int
  ct : CoinTosser
  tick : Nat
deriving DecidableEq, Repr

/-- Default constructed `value_type`, lib/src/estimator_state_cache.hpp:46-73. -/
def Cache.empty : Cache := ⟨[], [], [], CoinTosser.empty, 0⟩

/-- `EstimatorState`, lib/src/estimator_state.hpp:51-68 -/
structure EstState (B : Backend) (env : Env) where
  params : Params
  ta : TA B
  cache : Cache
  igen : env.G
  fgen : env.F

/-- Constructor from parameters, lib/src/estimator_state.hpp:71-75: everything else is
default constructed; the generators' default seed is 1 (lib/include/mt.hpp:75-79). -/
def EstState.fresh (B : Backend) (env : Env) (p : Params) : EstState B env :=
  ⟨p, ⟨B.emptyMat, []⟩, Cache.empty, env.seedG 1#32, env.seedF 1#32⟩

/-- Which estimator template is instantiated. lib/src/estimator_state.hpp:78-82 -/
inductive Kind where
  | classifier | regressor
deriving DecidableEq, Repr

/-! ### Clause outputs, votes -/

/-- An OpenMP clause-output loop over `a..b-1`: each iteration computes one clause and
writes its own cell of `clause_output`; the iterations take effect in the order the
environment picks.  lib/src/tsetlini_algo_classic.hpp:154-181,185-228,274-293,297-333 and
lib/src/tsetlini_algo_bitwise.hpp:51-72,76-116,227-256,260-305. -/
def outputsLoop (sc : Sched) (clause : Nat → Res Bool) (a b : Nat) (c : Cache) : Res Cache :=
  (iter (sc.order c.tick a b) (fun o out => (clause o).bind fun v => wr out o v)
    c.clauseOutput).bind fun out =>
  .ok { c with clauseOutput := out, tick := c.tick + 1 }

/-- `clause_outputs_range_for_label`, lib/src/tsetlini_algo_classic.hpp:51-58, in `int`
arithmetic; a negative start (negative label, never passed) would index out of bounds. -/
def labelRange (label k : Int) : Res (Nat × Nat) :=
  (i32 (label * k)).bind fun b =>
  (i32 (b + k)).bind fun e =>
  if b < 0 then .ub .oob else .ok (b.toNat, e.toNat)

/-- `std::clamp`. lib/src/tsetlini_algo_classic.hpp:97,752 -/
def clamp (x lo hi : Int) : Int := if x < lo then lo else if hi < x then hi else x

/-- One term of the label vote, lib/src/tsetlini_algo_classic.hpp:82-85,92-93. -/
def voteTerm (weights : List Nat) (o : Nat) (v : Bool) : Res Int :=
  if weights.length ≠ 0 then
    (rd weights o).bind fun w =>
    let x : Int := (if v then 1 else 0) * (1 + (w : Int))
    .ok (if o % 2 = 0 then x else -x)
  else
    let x : Int := if v then 1 else 0
    .ok (if o % 2 = 0 then x else -x)

/-- The accumulation of `sum_up_label_votes` over `a..b-1` in `int64_t`. lib/src/tsetlini_algo_classic.hpp:74-95 -/
def sumVotes (out : List Bool) (weights : List Nat) (a b : Nat) : Res Int :=
  iter (range a b) (fun o acc =>
    (rd out o).bind fun v => (voteTerm weights o v).bind fun t => i64 (acc + t)) 0

/-- `sum_up_label_votes`, lib/src/tsetlini_algo_classic.hpp:61-98. -/
def sumUpLabelVotes (out : List Bool) (weights : List Nat) (labelSum : List Int)
    (label : Int) (k T : Int) : Res (List Int) :=
  (labelRange label k).bind fun (a, b) =>
  (sumVotes out weights a b).bind fun s =>
  wr labelSum label.toNat (clamp s (-T) T)

/-- `sum_up_all_label_votes`, lib/src/tsetlini_algo_classic.hpp:119-133. -/
def sumUpAllLabelVotes (out : List Bool) (weights : List Nat) (labelSum : List Int)
    (labels k T : Int) : Res (List Int) :=
  iter (range 0 labels.toNat) (fun l sums => sumUpLabelVotes out weights sums (l : Int) k T) labelSum

/-- `sum_up_regressor_votes`, lib/src/tsetlini_algo_classic.hpp:726-753. -/
def sumUpRegressorVotes (out : List Bool) (weights : List Nat) (T : Int) : Res Int :=
  (iter (range 0 out.length) (fun o acc =>
    (rd out o).bind fun v =>
    (if weights.length ≠ 0 then
      (rd weights o).bind fun w => .ok ((if v then 1 else 0) * (1 + (w : Int)))
     else .ok (if v then 1 else 0)).bind fun t => i64 (acc + t)) 0).bind fun s =>
  .ok (clamp s 0 T)

/-- `std::max_element` then `std::distance`: the first maximum. Loop of the standard
algorithm: keep `best`, replace it when `*best < *it`. lib/src/tsetlini.cpp:433-435,475-477,554-556 -/
def argmaxLoop : List Int → (idx best : Nat) → (bestV : Int) → Nat
  | [], _, best, _ => best
  | v :: vs, idx, best, bestV =>
    if bestV < v then argmaxLoop vs (idx + 1) idx v else argmaxLoop vs (idx + 1) best bestV

/-- `std::distance(begin, std::max_element(begin, end))`, lib/src/tsetlini.cpp:433-435,475-477,554-556. -/
def argmax : List Int → Nat
  | [] => 0
  | v :: vs => argmaxLoop vs 1 0 v

/-! ### Training: classifier -/

/-- One draw of the feedback loop, lib/src/tsetlini_algo_classic.hpp:698-707,713-722. -/
def feedbackLoop (env : Env) (thr : Rat) (even odd : Int) (fs : List Nat)
    (s : List Int × env.F) : Res (List Int × env.F) :=
  iter fs (fun f (s : List Int × env.F) =>
    let (v, g) := env.fnext s.2
    if v > thr then .ok (s.1, g)
    else (wr s.1 f (if f % 2 = 0 then even else odd)).bind fun fb => .ok (fb, g)) s

/-- `calculate_classifier_feedback_to_clauses`, lib/src/tsetlini_algo_classic.hpp:676-723.
`threshold = 0` (rejected by the factories) is mapped to `ub`. -/
def classifierFeedback (env : Env) (fb : List Int) (target opposite : Int)
    (targetVotes oppositeVotes : Int) (k T : Int) (fgen : env.F) : Res (List Int × env.F) :=
  (i32 (T * 2)).bind fun t2 =>
  if t2 = 0 then .ub .divZero else
  let inv := env.rnd (1 / env.rnd t2)
  (i32 (T - targetVotes)).bind fun dp =>
  let thrPos := env.rnd (inv * env.rnd dp)
  (i32 (T + oppositeVotes)).bind fun dn =>
  let thrNeg := env.rnd (inv * env.rnd dn)
  let fb := List.replicate fb.length 0
  (labelRange target k).bind fun (a, b) =>
  (feedbackLoop env thrPos 1 (-1) (range a b) (fb, fgen)).bind fun s =>
  (labelRange opposite k).bind fun (a, b) =>
  feedbackLoop env thrNeg (-1) 1 (range a b) s

/-- What a training loop carries. The `state` members written at lib/src/tsetlini.cpp:694-737,857-960. -/
structure TrainSt (B : Backend) (env : Env) where
  ta : TA B
  g : env.G
  ct : CoinTosser

/-- Type I feedback to clause `i` with output `out`, including the weight:
lib/src/tsetlini_algo_classic.hpp:600-620,801-821, lib/src/tsetlini_algo_bitwise.hpp:914-950,1060-1095
(same text in both files). `weights[i] += (weights[i] + 1) < max_weight`. -/
def applyTypeI (B : Backend) (env : Env) (hy : Hyper) (X : B.Sample) (i : Nat) (out : Bool)
    (s : TrainSt B env) : Res (TrainSt B env) :=
  if out = false then
    (B.typeINeg env hy s.ta.mat i X s.g s.ct).bind fun (m, g, ct) =>
    .ok ⟨{ s.ta with mat := m }, g, ct⟩
  else
    (B.typeIPos env hy s.ta.mat i X s.g s.ct).bind fun (m, g, ct) =>
    (if s.ta.weights.length ≠ 0 then
      (rd s.ta.weights i).bind fun w =>
      wr s.ta.weights i (w + (if ((w : Int) + 1) < hy.maxWeight then 1 else 0))
     else .ok s.ta.weights).bind fun ws =>
    .ok ⟨⟨m, ws⟩, g, ct⟩

/-- Type II feedback to clause `i` with output `out`:
lib/src/tsetlini_algo_classic.hpp:624-632,825-833, lib/src/tsetlini_algo_bitwise.hpp:954-967,1099-1112.
`weights[i] -= weights[i] != 0`. -/
def applyTypeII (B : Backend) (env : Env) (X : B.Sample) (i : Nat) (out : Bool)
    (s : TrainSt B env) : Res (TrainSt B env) :=
  if out then
    (B.typeII s.ta.mat i X).bind fun m =>
    (if s.ta.weights.length ≠ 0 then
      (rd s.ta.weights i).bind fun w => wr s.ta.weights i (w - (if w ≠ 0 then 1 else 0))
     else .ok s.ta.weights).bind fun ws =>
    .ok { s with ta := ⟨m, ws⟩ }
  else .ok s

/-- `train_classifier_automata`, lib/src/tsetlini_algo_classic.hpp:575-635 and
lib/src/tsetlini_algo_bitwise.hpp:888-970: for each clause in the range, by feedback sign. -/
def trainClassifier (B : Backend) (env : Env) (hy : Hyper) (X : B.Sample)
    (fb : List Int) (out : List Bool) (a b : Nat) (s : TrainSt B env) : Res (TrainSt B env) :=
  iter (range a b) (fun i s =>
    (rd fb i).bind fun f =>
    if f ≥ 1 then (rd out i).bind fun o => applyTypeI B env hy X i o s
    else if f ≤ -1 then (rd out i).bind fun o => applyTypeII B env X i o s
    else .ok s) s

/-- Parameters read once per training call, lib/src/tsetlini.cpp:681-691. -/
structure TrainCfg where
  labels : Int
  k : Int
  T : Int
  hy : Hyper
  tile : Tile
deriving DecidableEq, Repr

/-- `classifier_update_impl`, lib/src/tsetlini.cpp:277-389. -/
def classifierUpdate (B : Backend) (env : Env) (sc : Sched) (cfg : TrainCfg) (X : B.Sample)
    (target opposite : Int) (st : EstState B env) : Res (EstState B env) :=
  (labelRange target cfg.k).bind fun (ta, tb) =>
  (outputsLoop sc (fun o => B.clauseOut cfg.tile st.ta.mat o X) ta tb st.cache).bind fun c =>
  (labelRange opposite cfg.k).bind fun (oa, ob) =>
  (outputsLoop sc (fun o => B.clauseOut cfg.tile st.ta.mat o X) oa ob c).bind fun c =>
  (sumUpLabelVotes c.clauseOutput st.ta.weights c.labelSum target cfg.k cfg.T).bind fun ls =>
  (sumUpLabelVotes c.clauseOutput st.ta.weights ls opposite cfg.k cfg.T).bind fun ls =>
  (rd ls target.toNat).bind fun tv =>
  (rd ls opposite.toNat).bind fun ov =>
  (classifierFeedback env c.feedback target opposite tv ov cfg.k cfg.T st.fgen).bind fun (fb, fgen) =>
  (trainClassifier B env cfg.hy X fb c.clauseOutput ta tb ⟨st.ta, st.igen, c.ct⟩).bind fun s =>
  (trainClassifier B env cfg.hy X fb c.clauseOutput oa ob s).bind fun s =>
  .ok { st with ta := s.ta, igen := s.g, fgen := fgen,
                cache := { c with labelSum := ls, feedback := fb, ct := s.ct } }

/-- `generate_opposite_y`, lib/src/tsetlini.cpp:657-668:
`(y + 1 + g() % (n - 1)) % n` in unsigned arithmetic.  `n <= 1` divides by zero
(`n - 1 = 0`, or `% n` with `n = 0`). -/
def oppositeLabel (env : Env) (n y : Int) (g : env.G) : Res (Int × env.G) :=
  (i32 (y + 1)).bind fun y1 =>
  let (r, g) := env.next g
  if n ≤ 1 then .ub .divZero else
  .ok ((((y1 + (r.toNat % (n - 1).toNat : Nat)) % 4294967296) % n), g)

/-- lib/src/tsetlini.cpp:657-668 -/
def generateOppositeY (env : Env) (n : Int) : List Int → env.G → Res (List Int × env.G)
  | [], g => .ok ([], g)
  | y :: ys, g =>
    (oppositeLabel env n y g).bind fun (o, g) =>
    (generateOppositeY env n ys g).bind fun (os, g) => .ok (o :: os, g)

/-- One epoch of `fit_classifier_online_impl`, lib/src/tsetlini.cpp:699-732; `ct.populate` (708) does
nothing, lib/src/coin_tosser_exact.hpp:79-82. -/
def classifierEpoch (B : Backend) (env : Env) (sc : Sched) (cfg : TrainCfg) (X : List B.Sample) (y : List Int)
    (st : EstState B env) : Res (EstState B env) :=
  (generateOppositeY env cfg.labels y st.igen).bind fun (opp, g) =>
  let (ix, g) := env.shuffle g X.length
  iter ix (fun i st =>
    (rd X i).bind fun x => (rd y i).bind fun yi => (rd opp i).bind fun oi =>
    classifierUpdate B env sc cfg x yi oi st) { st with igen := g }

/-- `fit_classifier_online_impl`, lib/src/tsetlini.cpp:671-735. -/
def fitClassifierOnline (B : Backend) (env : Env) (sc : Sched) (st : EstState B env) (X : List B.Sample)
    (y : List Int) (epochs : Nat) : Res (EstState B env × Status) :=
  st.params.numberOfLabels.bind fun labels =>
  st.params.outputsPerLabel.bind fun k =>
  st.params.threshold.bind fun T =>
  st.params.maxWeight.bind fun maxWeight =>
  st.params.numberOfStates.bind fun states =>
  st.params.specificity.bind fun _ =>
  st.params.boost.bind fun boost =>
  st.params.tileSize.bind fun tile =>
  st.params.nJobs.bind fun _ =>
  st.params.verbose.bind fun _ =>
  let cfg : TrainCfg := ⟨labels, k, T, ⟨states, maxWeight, boost⟩, tileOf tile⟩
  (iter (List.range epochs) (fun _ st => classifierEpoch B env sc cfg X y st) st).bind fun st =>
  .ok (st, .sOk)

/-! ### Training: regressor -/

/-- The lambdas of `make_loss_fn`, lib/src/loss_fn.cpp:16-54. -/
inductive Loss where
  | abs | sq | berHu | l1p2
deriving DecidableEq, Repr

/-- `make_loss_fn`'s selection by name, lib/src/loss_fn.cpp:18-53; an unknown name exits. -/
def lossOf (name : String) : Res Loss :=
  if name = "MAE" ∨ name = "L1" then .ok .abs
  else if name = "MSE" ∨ name = "L2" then .ok .sq
  else if name = "berHu" then .ok .berHu
  else if name = "L1+2" then .ok .l1p2
  else .exn .exit

/-- `std::abs` of a float, lib/src/loss_fn.cpp:21. -/
def ratAbs (x : Rat) : Rat := if x < 0 then -x else x

/-- The loss lambdas in float arithmetic, lib/src/loss_fn.cpp:21,26,30-41,45-48.
`C1` may be non-finite (it is not validated). -/
def lossVal (env : Env) (l : Loss) (C1 : Fl) (x : Rat) : Fl :=
  match l with
  | .abs => .fin (ratAbs x)
  | .sq => .fin (env.rnd (x * x))
  | .berHu =>
    match C1 with
    | .fin c =>
      if ratAbs x ≤ c then .fin (ratAbs x)
      else .fin (env.rnd (env.rnd (x * x) - env.rnd (env.rnd (c * c) + c)))
    | .inf false => .fin (ratAbs x)
    | _ => .nan
  | .l1p2 =>
    match C1 with
    | .fin c =>
      .fin (env.rnd (env.rnd (c * ratAbs x) + env.rnd (env.rnd (env.rnd (1 - c) * x) * x)))
    | _ => .nan

/-- `binomial(n, p, prng)`, lib/src/box_muller_approx.cpp:98-104. A NaN or out-of-range
normal deviate makes the conversion to `unsigned` undefined. -/
def binomial (env : Env) (n : Nat) (p : Fl) (g : env.G) : Res (Nat × env.G) :=
  let (r, g) := env.next g
  match p with
  | .fin p =>
    let np := env.rnd (env.rnd n * p)
    match env.normal np (env.rnd (np * env.rnd (1 - p))) r with
    | some v => (toUnsigned (roundHalfAway v)).bind fun h => .ok (min h n, g)
    | none => .ub .floatConv
  | _ => .ub .floatConv

/-- `feedback_hits`, lib/src/tsetlini_algo_classic.hpp:783-789, lib/src/tsetlini_algo_bitwise.hpp:1042-1048. -/
def feedbackHits (env : Env) (boxMuller : Bool) (n : Nat) (p : Fl) (g : env.G) :
    Res (Nat × env.G) :=
  if boxMuller then binomial env n p g
  else
    match p with
    | .fin p =>
      let np := env.rnd (env.rnd n * p)
      if np ≥ 1/2 then
        (toUnsigned (roundHalfAway np)).bind fun h => .ok (min h n, g)
      else
        let (r, g) := env.next g
        .ok (min (if (r.toNat : Rat) < env.rnd64 (np * 4294967295) then 1 else 0) n, g)
    | .inf false => .ub .floatConv
    | _ =>
      let (_, g) := env.next g
      .ok (0, g)

/-- `train_regressor_automata`, lib/src/tsetlini_algo_classic.hpp:756-836,
lib/src/tsetlini_algo_bitwise.hpp:1014-1115; always called with `input_begin_ix = 0`,
`input_end_ix = n`. -/
def trainRegressor (B : Backend) (env : Env) (hy : Hyper) (loss : Loss) (C1 : Fl) (boxMuller : Bool)
    (X : B.Sample) (out : List Bool) (n : Nat) (err T : Int) (s : TrainSt B env) :
    Res (TrainSt B env) :=
  if T = 0 then .ub .divZero else
  let P := lossVal env loss C1 (env.rnd (env.rnd err / env.rnd T))
  (feedbackHits env boxMuller n P s.g).bind fun (hits, g) =>
  iter (List.range hits) (fun _ (s : TrainSt B env) =>
    let (r, g) := env.next s.g
    if n = 0 then .ub .divZero else
    let i := r.toNat % n
    let s := { s with g := g }
    if err < 0 then (rd out i).bind fun o => applyTypeI B env hy X i o s
    else if err > 0 then (rd out i).bind fun o => applyTypeII B env X i o s
    else .ok s) { s with g := g }

/-- Locals of the regressor's training loop, lib/src/tsetlini.cpp:844-855. -/
structure RegCfg where
  outputs : Int
  T : Int
  hy : Hyper
  tile : Tile
  loss : Loss
  C1 : Fl
  boxMuller : Bool
deriving DecidableEq, Repr

/-- `regressor_update_impl`, lib/src/tsetlini.cpp:779-830. -/
def regressorUpdate (B : Backend) (env : Env) (sc : Sched) (cfg : RegCfg) (X : B.Sample) (target : Int)
    (st : EstState B env) : Res (EstState B env) :=
  (outputsLoop sc (fun o => B.clauseOut cfg.tile st.ta.mat o X) 0 cfg.outputs.toNat st.cache).bind
    fun c =>
  (sumUpRegressorVotes c.clauseOutput st.ta.weights cfg.T).bind fun votes =>
  (i32 (votes - target)).bind fun err =>
  (trainRegressor B env cfg.hy cfg.loss cfg.C1 cfg.boxMuller X c.clauseOutput cfg.outputs.toNat
    err cfg.T ⟨st.ta, st.igen, c.ct⟩).bind fun s =>
  .ok { st with ta := s.ta, igen := s.g, cache := { c with ct := s.ct } }

/-- One epoch of `fit_regressor_online_impl`, lib/src/tsetlini.cpp:861-893; `ct.populate` (868) does
nothing, lib/src/coin_tosser_exact.hpp:79-82. -/
def regressorEpoch (B : Backend) (env : Env) (sc : Sched) (cfg : RegCfg) (X : List B.Sample) (y : List Int)
    (st : EstState B env) : Res (EstState B env) :=
  let (ix, g) := env.shuffle st.igen X.length
  iter ix (fun i st =>
    (rd X i).bind fun x => (rd y i).bind fun yi => regressorUpdate B env sc cfg x yi st)
    { st with igen := g }

/-- `fit_regressor_online_impl`, lib/src/tsetlini.cpp:833-896. -/
def fitRegressorOnline (B : Backend) (env : Env) (sc : Sched) (st : EstState B env) (X : List B.Sample)
    (y : List Int) (epochs : Nat) : Res (EstState B env × Status) :=
  st.params.regressorOutputs.bind fun outputs =>
  st.params.threshold.bind fun T =>
  st.params.maxWeight.bind fun maxWeight =>
  st.params.numberOfStates.bind fun states =>
  st.params.specificity.bind fun _ =>
  st.params.boost.bind fun boost =>
  st.params.tileSize.bind fun tile =>
  st.params.nJobs.bind fun _ =>
  st.params.verbose.bind fun _ =>
  st.params.lossFnName.bind fun name =>
  st.params.lossFnC1.bind fun C1 =>
  (lossOf name).bind fun loss =>
  st.params.boxMuller.bind fun bm =>
  let cfg : RegCfg := ⟨outputs, T, ⟨states, maxWeight, boost⟩, tileOf tile, loss, C1, bm⟩
  (iter (List.range epochs) (fun _ st => regressorEpoch B env sc cfg X y st) st).bind fun st =>
  .ok (st, .sOk)

/-! ### Initialisation -/

/-- `std::vector::resize`: keeps old elements, appends zeros. lib/src/ta_state.cpp:70,117 -/
def resize (l : List Nat) (n : Nat) : List Nat := l.take n ++ List.replicate (n - l.length) 0

/-- The argument of `std::vector::resize`, an `int` converted to `std::size_t`: a negative one is larger than
`max_size()`. lib/src/estimator_state_cache.cpp:21,23,25,52 -/
def vecSize (n : Int) : Res Nat := if 0 ≤ n then .ok n.toNat else .exn .lengthError

/-- `ClassifierStateCache::reset` and `RegressorStateCache::reset`,
lib/src/estimator_state_cache.cpp:14-30,45-57; the tosser takes the number of features as `unsigned`. -/
def resetCache (env : Env) (kind : Kind) (p : Params) (tick : Nat) : Res Cache :=
  match kind with
  | .classifier =>
    p.classifierOutputs.bind fun n =>
    (vecSize n).bind fun n =>
    p.numberOfLabels.bind fun l =>
    (vecSize l).bind fun l =>
    p.specificity.bind fun s =>
    p.numberOfFeatures.bind fun f =>
    (CoinTosser.make env s (BitVec.ofInt 32 f).toNat).bind fun ct =>
    .ok ⟨List.replicate n false, List.replicate l 0, List.replicate n 0, ct, tick⟩
  | .regressor =>
    p.regressorOutputs.bind fun n =>
    (vecSize n).bind fun n =>
    p.specificity.bind fun s =>
    p.numberOfFeatures.bind fun f =>
    (CoinTosser.make env s (BitVec.ofInt 32 f).toNat).bind fun ct =>
    .ok ⟨List.replicate n false, [], [], ct, tick⟩

/-- lib/src/tsetlini_state.cpp:124-213 -/
def physicalClauses (kind : Kind) (p : Params) : Res Int :=
  match kind with
  | .classifier => p.physicalClassifierClauses
  | .regressor => p.physicalRegressorClauses

/-- lib/src/tsetlini_state.cpp:124-213 -/
def clauseOutputs (kind : Kind) (p : Params) : Res Int :=
  match kind with
  | .classifier => p.classifierOutputs
  | .regressor => p.regressorOutputs

/-- One `LOG(...) << ...` statement: a parameter with its value, the chosen counter width, or the
number of an epoch.  How the value is rendered as text is in LogText. lib/src/tsetlini_state.cpp:26-39,60-75,104-115; lib/src/tsetlini.cpp:701,863 -/
inductive LogLine where
  | param (name : String) (value : PVal)
  | selected (ctype : String)
  | epoch (n : Nat)
deriving DecidableEq, Repr

/-- The line about max_weight, lib/src/tsetlini_state.cpp:33-36,66-69. -/
def logMaxWeight (p : Params) : Res (List LogLine) :=
  p.weighted.bind fun w =>
  if w then p.maxWeight.bind fun mw => .ok [.param "max_weight" (.int mw)] else .ok []

/-- The operands of the statements in `log_classifier_params`, lib/src/tsetlini_state.cpp:24-40, and
`log_regressor_params`, 58-76.  They are evaluated whether or not anything is printed: `LOG` only
chooses the stream (lib/src/logger.hpp:158). -/
def logParams (kind : Kind) (p : Params) : Res (List LogLine) :=
  match kind with
  | .classifier =>
    p.numberOfLabels.bind fun labels =>
    p.physicalClassifierClauses.bind fun clauses =>
    p.numberOfFeatures.bind fun features =>
    p.specificity.bind fun s =>
    p.numberOfStates.bind fun states =>
    p.threshold.bind fun T =>
    p.weighted.bind fun weighted =>
    (logMaxWeight p).bind fun mw =>
    p.countingType.bind fun ct =>
    p.nJobs.bind fun jobs =>
    p.randomState.bind fun seed =>
    .ok ([.param "number_of_labels" (.int labels), .param "number_of_clauses" (.int clauses),
      .param "number_of_features" (.int features), .param "s" (.real s),
      .param "number_of_states" (.int states), .param "threshold" (.int T),
      .param "weighted" (.bool weighted)] ++ mw ++
      [.param "counting_type" (.str ct), .param "n_jobs" (.int jobs), .param "random_state" (.seed seed)])
  | .regressor =>
    p.physicalRegressorClauses.bind fun clauses =>
    p.numberOfFeatures.bind fun features =>
    p.specificity.bind fun s =>
    p.numberOfStates.bind fun states =>
    p.threshold.bind fun T =>
    p.weighted.bind fun weighted =>
    (logMaxWeight p).bind fun mw =>
    p.lossFnName.bind fun loss =>
    p.lossFnC1.bind fun C1 =>
    p.boxMuller.bind fun bm =>
    p.countingType.bind fun ct =>
    p.nJobs.bind fun jobs =>
    p.randomState.bind fun seed =>
    .ok ([.param "number_of_clauses" (.int clauses),
      .param "number_of_features" (.int features), .param "s" (.real s),
      .param "number_of_states" (.int states), .param "threshold" (.int T),
      .param "weighted" (.bool weighted)] ++ mw ++
      [.param "loss_fn" (.str loss), .param "loss_fn(C1)" (.real C1), .param "box_muller" (.bool bm),
      .param "counting_type" (.str ct), .param "n_jobs" (.int jobs), .param "random_state" (.seed seed)])

/-- `initialize_state`, lib/src/tsetlini_state.cpp:216-246, with the weights part of `initialize`,
lib/src/ta_state.cpp:68-71,115-118.  What the log statements print is in `Model/Log`; here only
the evaluation of their operands matters. -/
def initializeState (B : Backend) (env : Env) (kind : Kind) (st : EstState B env) :
    Res (EstState B env) :=
  st.params.verbose.bind fun _ =>
  st.params.randomState.bind fun seed =>
  (logParams kind st.params).bind fun _ =>
  st.params.numberOfStates.bind fun states =>
  (physicalClauses kind st.params).bind fun clauses =>
  (clauseOutputs kind st.params).bind fun outputs =>
  st.params.numberOfFeatures.bind fun features =>
  st.params.countingType.bind fun ctn =>
  st.params.weighted.bind fun weighted =>
  (B.initMat env (ctypeOfName (normalizeCountingType ctn states)) clauses.toNat features.toNat
    (env.seedG seed)).bind fun (m, igen) =>
  let weights := if weighted then resize st.ta.weights outputs.toNat else st.ta.weights
  (resetCache env kind st.params st.cache.tick).bind fun cache =>
  .ok { params := st.params, ta := ⟨m, weights⟩, cache := cache, igen := igen, fgen := env.seedF seed }

/-! ### Validation -/

/-- `std::all_of` with a predicate that may be undefined. lib/src/tsetlini.cpp:107,113,118,219,231,236 -/
def allM {α : Type} (f : α → Res Bool) : List α → Res Bool
  | [] => .ok true
  | a :: as => (f a).bind fun b => if b then allM f as else .ok false

/-- `check_X_y`, lib/src/tsetlini.cpp:87-125. -/
def checkXy (B : Backend) (X : List B.Sample) (y : List Int) : Res Status :=
  match X with
  | [] => .ok ⟨.valueError, "X cannot be empty"⟩
  | x0 :: rest =>
    if y.isEmpty then .ok ⟨.valueError, "y cannot be empty"⟩
    else if y.length ≠ X.length then
      .ok ⟨.valueError, "X and y must have the same lengths, got " ++ toString X.length ++
        " and " ++ toString y.length⟩
    else if rest.all (fun r => B.size r == B.size x0) = false then
      .ok ⟨.valueError, "All rows of X must have the same number of feature columns"⟩
    else if X.all B.all01 = false then
      .ok ⟨.valueError, "Only values of 0 and 1 can be used in X"⟩
    else (allM B.clearPadding X).bind fun clear =>
      if clear = false then .ok ⟨.valueError, "Some padding bits in X are not cleared to 0"⟩
      else .ok .sOk

/-- `check_X`, lib/src/tsetlini.cpp:128-141; `X.front()` of an empty `X` is undefined. -/
def checkX (B : Backend) (X : List B.Sample) (nf : Int) : Res Status :=
  match X with
  | [] => .ub .emptyRange
  | x0 :: _ =>
    if (B.size x0 : Int) ≠ nf then
      .ok ⟨.valueError, "X row size must match number of features previously used to train" ++
        " the estimator. Got input X with row size=" ++ toString (B.size x0)⟩
    else .ok .sOk

/-- `check_response_y`, lib/src/tsetlini.cpp:144-153. -/
def checkResponseY (y : List Int) (T : Int) : Status :=
  if y.all (fun v => decide (0 ≤ v) && decide (v ≤ T)) = false then
    ⟨.valueError, "Only values within [0, threshold] range can be used in y"⟩
  else .sOk

/-- `*std::max_element` of a non-empty range (undefined for an empty one). lib/src/tsetlini.cpp:158,169,756 -/
def maxElem : List Int → Res Int
  | [] => .ub .emptyRange
  | v :: vs => .ok (vs.foldl max v)

/-- `*std::min_element` of a non-empty range, lib/src/tsetlini.cpp:158,169,756. -/
def minElem : List Int → Res Int
  | [] => .ub .emptyRange
  | v :: vs => .ok (vs.foldl min v)

/-- `check_labels(labels)`, lib/src/tsetlini.cpp:156-164; taking the set of unique labels
(186-189) does not change its minimum or maximum. -/
def checkLabels (y : List Int) : Res Status :=
  (minElem y).bind fun lo =>
  if lo < 0 then .ok ⟨.valueError, "Labels in y cannot be negative"⟩ else .ok .sOk

/-- `check_labels(labels, max_label)`, lib/src/tsetlini.cpp:167-183. -/
def checkLabelsMax (y : List Int) (maxLabel : Int) : Res Status :=
  (minElem y).bind fun lo =>
  (maxElem y).bind fun hi =>
  if lo < 0 then .ok ⟨.valueError, "Labels in y cannot be negative"⟩
  else if hi > maxLabel then
    .ok ⟨.valueError, "Max allowed label is " ++ toString maxLabel ++
      " but y has value as high as " ++ toString hi⟩
  else .ok .sOk

/-- `is_fitted`, lib/src/tsetlini.cpp:192-201. -/
def isFitted (B : Backend) (ta : TA B) : Bool := B.nrows ta.mat != 0

/-- lib/src/tsetlini.cpp:211-212 -/
def notFittedMsg : String :=
  "This model instance is not fitted yet. Call fit or partial_fit before using this method"

/-- `check_for_predict` for a batch, lib/src/tsetlini.cpp:204-243. -/
def checkForPredictBatch (B : Backend) (ta : TA B) (p : Params) (X : List B.Sample) : Res Status :=
  if isFitted B ta = false then .ok ⟨.notFitted, notFittedMsg⟩ else
  match X with
  | [] => .ok ⟨.valueError, "Cannot predict for empty X"⟩
  | x0 :: rest =>
    if rest.all (fun r => B.size r == B.size x0) = false then
      .ok ⟨.valueError, "All samples in X must have the same number of feature columns"⟩
    else p.numberOfFeatures.bind fun nf =>
    if (B.size x0 : Int) ≠ nf then
      .ok ⟨.valueError, "Predict called with X, which number of features " ++ toString (B.size x0) ++
        " does not match that from prior fit " ++ toString nf⟩
    else if X.all B.all01 = false then
      .ok ⟨.valueError, "Only values of 0 and 1 can be used in X"⟩
    else (allM B.clearPadding X).bind fun clear =>
      if clear = false then .ok ⟨.valueError, "Some padding bits in X are not cleared to 0"⟩
      else .ok .sOk

/-- `check_for_predict` for one sample, lib/src/tsetlini.cpp:246-274. -/
def checkForPredict (B : Backend) (ta : TA B) (p : Params) (x : B.Sample) : Res Status :=
  if isFitted B ta = false then .ok ⟨.notFitted, notFittedMsg⟩ else
  p.numberOfFeatures.bind fun nf =>
  if (B.size x : Int) ≠ nf then
    .ok ⟨.valueError, "Predict called with sample, which size " ++ toString (B.size x) ++
      " does not match number of features from prior fit " ++ toString nf⟩
  else if B.all01 x = false then
    .ok ⟨.valueError, "Only values of 0 and 1 can be used in sample for prediction"⟩
  else (B.clearPadding x).bind fun clear =>
    if clear = false then .ok ⟨.valueError, "Some padding bits in X are not cleared to 0"⟩
    else .ok .sOk

/-! ### fit / partial_fit -/

/-- `fit_classifier_impl`, lib/src/tsetlini.cpp:738-776. -/
def fitClassifier (B : Backend) (env : Env) (sc : Sched) (st : EstState B env) (X : List B.Sample)
    (y : List Int) (maxLabels : Int) (epochs : Nat) : Res (EstState B env × Status) :=
  (checkXy B X y).bind fun sm =>
  if sm.code ≠ .ok then .ok (st, sm) else
  (maxElem y).bind fun hi =>
  (i32 (hi + 1)).bind fun hi1 =>
  let labels := max hi1 maxLabels
  (checkLabels y).bind fun sm =>
  if sm.code ≠ .ok then .ok (st, sm) else
  match X with
  | [] => .ub .emptyRange
  | x0 :: _ =>
    let p := (st.params.set "number_of_labels" (.int labels)).set
      "number_of_features" (.int (B.size x0))
    (initializeState B env .classifier { st with params := p }).bind fun st =>
    fitClassifierOnline B env sc st X y epochs

/-- `fit_classifier_online_with_input_check`, lib/src/tsetlini.cpp:1002-1033. -/
def fitClassifierOnlineChecked (B : Backend) (env : Env) (sc : Sched) (st : EstState B env) (X : List B.Sample)
    (y : List Int) (epochs : Nat) : Res (EstState B env × Status) :=
  (checkXy B X y).bind fun sm =>
  if sm.code ≠ .ok then .ok (st, sm) else
  st.params.numberOfFeatures.bind fun nf =>
  (checkX B X nf).bind fun sm =>
  if sm.code ≠ .ok then .ok (st, sm) else
  st.params.numberOfLabels.bind fun labels =>
  (i32 (labels - 1)).bind fun maxLabel =>
  (checkLabelsMax y maxLabel).bind fun sm =>
  if sm.code ≠ .ok then .ok (st, sm) else
  fitClassifierOnline B env sc st X y epochs

/-- `partial_fit_impl` (classifiers), lib/src/tsetlini.cpp:1036-1052,1372-1388. -/
def partialFitClassifier (B : Backend) (env : Env) (sc : Sched) (st : EstState B env) (X : List B.Sample)
    (y : List Int) (maxLabels : Int) (epochs : Nat) : Res (EstState B env × Status) :=
  if isFitted B st.ta then fitClassifierOnlineChecked B env sc st X y epochs
  else fitClassifier B env sc st X y maxLabels epochs

/-- `fit_regressor_impl`, lib/src/tsetlini.cpp:899-928. -/
def fitRegressor (B : Backend) (env : Env) (sc : Sched) (st : EstState B env) (X : List B.Sample)
    (y : List Int) (epochs : Nat) : Res (EstState B env × Status) :=
  (checkXy B X y).bind fun sm =>
  if sm.code ≠ .ok then .ok (st, sm) else
  st.params.threshold.bind fun T =>
  let sm := checkResponseY y T
  if sm.code ≠ .ok then .ok (st, sm) else
  match X with
  | [] => .ub .emptyRange
  | x0 :: _ =>
    let p := st.params.set "number_of_features" (.int (B.size x0))
    (initializeState B env .regressor { st with params := p }).bind fun st =>
    fitRegressorOnline B env sc st X y epochs

/-- `fit_regressor_online_with_input_check`, lib/src/tsetlini.cpp:1241-1269. -/
def fitRegressorOnlineChecked (B : Backend) (env : Env) (sc : Sched) (st : EstState B env) (X : List B.Sample)
    (y : List Int) (epochs : Nat) : Res (EstState B env × Status) :=
  (checkXy B X y).bind fun sm =>
  if sm.code ≠ .ok then .ok (st, sm) else
  st.params.numberOfFeatures.bind fun nf =>
  (checkX B X nf).bind fun sm =>
  if sm.code ≠ .ok then .ok (st, sm) else
  st.params.threshold.bind fun T =>
  let sm := checkResponseY y T
  if sm.code ≠ .ok then .ok (st, sm) else
  fitRegressorOnline B env sc st X y epochs

/-- `partial_fit_impl` (regressors), lib/src/tsetlini.cpp:1272-1287,1549-1564. -/
def partialFitRegressor (B : Backend) (env : Env) (sc : Sched) (st : EstState B env) (X : List B.Sample)
    (y : List Int) (epochs : Nat) : Res (EstState B env × Status) :=
  if isFitted B st.ta then fitRegressorOnlineChecked B env sc st X y epochs
  else fitRegressor B env sc st X y epochs

/-! ### predict / decision_function / evaluate -/

/-- Clause outputs with pruning and all label votes for one sample: the common part of
lib/src/tsetlini.cpp:416-430,459-473,537-551,587-601,634-648. -/
def scoresInto (B : Backend) (sc : Sched) (ta : TA B) (tile : Tile) (labels k outputs T : Int)
    (x : B.Sample) (c : Cache) : Res Cache :=
  (outputsLoop sc (fun o => B.clauseOutPruned tile ta.mat o x) 0 outputs.toNat c).bind fun c =>
  (sumUpAllLabelVotes c.clauseOutput ta.weights c.labelSum labels k T).bind fun ls =>
  .ok { c with labelSum := ls }

/-- Parameters read by the classifier's inference routines. lib/src/tsetlini.cpp:405-410 -/
structure InferCfg where
  labels : Int
  k : Int
  T : Int
  outputs : Int
  tile : Tile
deriving DecidableEq, Repr

/-- lib/src/tsetlini.cpp:405-410,526-531,579-584,623-628. -/
def inferCfg (p : Params) : Res InferCfg :=
  p.numberOfLabels.bind fun labels =>
  p.outputsPerLabel.bind fun k =>
  p.threshold.bind fun T =>
  p.classifierOutputs.bind fun outputs =>
  p.nJobs.bind fun _ =>
  p.tileSize.bind fun tile =>
  .ok ⟨labels, k, T, outputs, tileOf tile⟩

/-- `scoresInto` with the parameters read before it, lib/src/tsetlini.cpp:416-430. -/
def scores (B : Backend) (sc : Sched) (ta : TA B) (i : InferCfg) (x : B.Sample) (c : Cache) :
    Res Cache :=
  scoresInto B sc ta i.tile i.labels i.k i.outputs i.T x c

/-- `predict_classifier_impl` for one sample, lib/src/tsetlini.cpp:446-480 (the parameters are
there read at slightly different points; all are read before any is used). -/
def predictClassifier1 (B : Backend) (env : Env) (sc : Sched) (st : EstState B env) (x : B.Sample) :
    Res (EstState B env × Except Status Int) :=
  (checkForPredict B st.ta st.params x).bind fun sm =>
  if sm.code ≠ .ok then .ok (st, .error sm) else
  (inferCfg st.params).bind fun i =>
  (scores B sc st.ta i x st.cache).bind fun c =>
  .ok ({ st with cache := c }, .ok (argmax c.labelSum : Int))

/-- Loop over the batch in lib/src/tsetlini.cpp:535-559,632-651. -/
def batchLoopC {α : Type} (B : Backend) (sc : Sched) (ta : TA B) (i : InferCfg) (f : List Int → α) :
    List B.Sample → Cache → Res (Cache × List α)
  | [], c => .ok (c, [])
  | x :: xs, c =>
    (scores B sc ta i x c).bind fun c =>
    (batchLoopC B sc ta i f xs c).bind fun (c', rs) => .ok (c', f c.labelSum :: rs)

/-- `predict_classifier_impl` for a batch, lib/src/tsetlini.cpp:510-562. -/
def predictClassifier (B : Backend) (env : Env) (sc : Sched) (st : EstState B env) (X : List B.Sample) :
    Res (EstState B env × Except Status (List Int)) :=
  (checkForPredictBatch B st.ta st.params X).bind fun sm =>
  if sm.code ≠ .ok then .ok (st, .error sm) else
  (inferCfg st.params).bind fun i =>
  (batchLoopC B sc st.ta i (fun ls => (argmax ls : Int)) X st.cache).bind fun (c, rs) =>
  .ok ({ st with cache := c }, .ok rs)

/-- `predict_classifier_raw_impl` for one sample, lib/src/tsetlini.cpp:565-604. -/
def decision1 (B : Backend) (env : Env) (sc : Sched) (st : EstState B env) (x : B.Sample) :
    Res (EstState B env × Except Status (List Int)) :=
  (checkForPredict B st.ta st.params x).bind fun sm =>
  if sm.code ≠ .ok then .ok (st, .error sm) else
  (inferCfg st.params).bind fun i =>
  (scores B sc st.ta i x st.cache).bind fun c =>
  .ok ({ st with cache := c }, .ok c.labelSum)

/-- `predict_classifier_raw_impl` for a batch, lib/src/tsetlini.cpp:607-654. -/
def decision (B : Backend) (env : Env) (sc : Sched) (st : EstState B env) (X : List B.Sample) :
    Res (EstState B env × Except Status (List (List Int))) :=
  (checkForPredictBatch B st.ta st.params X).bind fun sm =>
  if sm.code ≠ .ok then .ok (st, .error sm) else
  (inferCfg st.params).bind fun i =>
  (batchLoopC B sc st.ta i id X st.cache).bind fun (c, rs) =>
  .ok ({ st with cache := c }, .ok rs)

/-- Loop of `evaluate_classifier_impl`, lib/src/tsetlini.cpp:414-438: counts errors. -/
def evalLoop (B : Backend) (sc : Sched) (ta : TA B) (i : InferCfg) (X : List B.Sample) (y : List Int) :
    List Nat → Cache × Nat → Res (Cache × Nat)
  | [], s => .ok s
  | it :: its, s =>
    (rd X it).bind fun x =>
    (scores B sc ta i x s.1).bind fun c =>
    (rd y it).bind fun yi =>
    evalLoop B sc ta i X y its (c, s.2 + (if (argmax c.labelSum : Int) ≠ yi then 1 else 0))

/-- `evaluate_classifier_impl`, lib/src/tsetlini.cpp:392-443: no validation;
`ONE - ONE * errors / n`, NaN for an empty `X`. -/
def evaluate (B : Backend) (env : Env) (sc : Sched) (st : EstState B env) (X : List B.Sample) (y : List Int) :
    Res (EstState B env × Except Status Fl) :=
  (inferCfg st.params).bind fun i =>
  (evalLoop B sc st.ta i X y (List.range X.length) (st.cache, 0)).bind fun (c, errors) =>
  let rv : Fl := if X.length = 0 then .nan
    else .fin (env.rnd (1 - env.rnd (env.rnd errors / env.rnd X.length)))
  .ok ({ st with cache := c }, .ok rv)

/-- Clause outputs with pruning and the regressor's vote, lib/src/tsetlini.cpp:496-505,954-964. -/
def responseInto (B : Backend) (sc : Sched) (ta : TA B) (tile : Tile) (outputs T : Int)
    (x : B.Sample) (c : Cache) : Res (Cache × Int) :=
  (outputsLoop sc (fun o => B.clauseOutPruned tile ta.mat o x) 0 outputs.toNat c).bind fun c =>
  (sumUpRegressorVotes c.clauseOutput ta.weights T).bind fun v => .ok (c, v)

/-- `predict_regressor_impl` for one sample, lib/src/tsetlini.cpp:483-507. -/
def predictRegressor1 (B : Backend) (env : Env) (sc : Sched) (st : EstState B env) (x : B.Sample) :
    Res (EstState B env × Except Status Int) :=
  (checkForPredict B st.ta st.params x).bind fun sm =>
  if sm.code ≠ .ok then .ok (st, .error sm) else
  st.params.nJobs.bind fun _ =>
  st.params.tileSize.bind fun tile =>
  st.params.regressorOutputs.bind fun outputs =>
  st.params.threshold.bind fun T =>
  (responseInto B sc st.ta (tileOf tile) outputs T x st.cache).bind fun (c, v) =>
  .ok ({ st with cache := c }, .ok v)

/-- The loop over the batch, lib/src/tsetlini.cpp:954-967. -/
def batchLoopR (B : Backend) (sc : Sched) (ta : TA B) (tile : Tile) (outputs T : Int) :
    List B.Sample → Cache → Res (Cache × List Int)
  | [], c => .ok (c, [])
  | x :: xs, c =>
    (responseInto B sc ta tile outputs T x c).bind fun (c, v) =>
    (batchLoopR B sc ta tile outputs T xs c).bind fun (c, vs) => .ok (c, v :: vs)

/-- `predict_regressor_impl` for a batch, lib/src/tsetlini.cpp:931-970. -/
def predictRegressor (B : Backend) (env : Env) (sc : Sched) (st : EstState B env) (X : List B.Sample) :
    Res (EstState B env × Except Status (List Int)) :=
  (checkForPredictBatch B st.ta st.params X).bind fun sm =>
  if sm.code ≠ .ok then .ok (st, .error sm) else
  st.params.threshold.bind fun T =>
  st.params.regressorOutputs.bind fun outputs =>
  st.params.nJobs.bind fun _ =>
  st.params.tileSize.bind fun tile =>
  (batchLoopR B sc st.ta (tileOf tile) outputs T X st.cache).bind fun (c, vs) =>
  .ok ({ st with cache := c }, .ok vs)

end Tsetlini
