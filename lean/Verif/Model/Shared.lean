import Verif.Model.History
import Verif.Model.StateEq
/-
Read-only calls in flight at the same time, at the granularity of single accesses to the scratch memory.

predict, decision_function and evaluate are `const` (lib/include/tsetlini.hpp:93-109,244-248,399-415,549-553), so a program may
call them on one estimator from several threads.  They work in `state.cache.clause_output` and
`state.cache.label_sum`, which are `mutable` members of the estimator (lib/src/estimator_state.hpp:62) and
not protected in any way.  Everything else they use is either not written by any of them (parameters,
automata, weights) or a local variable.

A call may use any number of threads (`n_jobs`): an iteration of its parallel loop stores one clause output and does nothing else to the
scratch memory, and the threads join at the end of the loop, so whatever the threads do, the outputs are stored in some order, which is
given by a `Sched`.

Simplifications: a call reads parameters, automata, weights and its sample in no time; values are stored and loaded whole.
-/
namespace Tsetlini

/-- The scratch memory of one estimator: `cache.clause_output` and `cache.label_sum`,
lib/src/estimator_state_cache.hpp:46-73. -/
structure Scratch where
  out : List Bool
  sums : List Int
deriving DecidableEq, Repr

/-- The code of a call: private computation between accesses to the scratch memory, and what the call
returns.  No counterpart in the code: the accesses of lib/src/tsetlini.cpp:393-654,931-970. -/
inductive CallCode (α : Type) where
  | ret (a : α)
  /-- undefined behaviour, or an exception -/
  | stop (r : Res Empty)
  /-- `clause_output[o]` is read -/
  | loadOut (o : Nat) (k : Bool → CallCode α)
  /-- `clause_output[o] = v` -/
  | storeOut (o : Nat) (v : Bool) (k : CallCode α)
  /-- `label_sum[l]` is read -/
  | loadSum (l : Nat) (k : Int → CallCode α)
  /-- `label_sum[l] = v` -/
  | storeSum (l : Nat) (v : Int) (k : CallCode α)

namespace CallCode

variable {α β σ : Type}

/-- Private computation.  No counterpart in the code: C++ expressions without access to the scratch memory. -/
def ofRes : Res α → CallCode α
  | .ok a => ret a
  | .ub u => stop (.ub u)
  | .exn e => stop (.exn e)
  | .timeout => stop .timeout

/-- No counterpart in the code: the C++ statement sequence. -/
def bind : CallCode α → (α → CallCode β) → CallCode β
  | ret a, f => f a
  | stop r, _ => stop r
  | loadOut o k, f => loadOut o fun v => (k v).bind f
  | storeOut o v k, f => storeOut o v (k.bind f)
  | loadSum l k, f => loadSum l fun v => (k v).bind f
  | storeSum l v k, f => storeSum l v (k.bind f)

/-- No counterpart in the code: the C++ `for` statement. -/
def iter {ι : Type} : List ι → (ι → σ → CallCode σ) → σ → CallCode σ
  | [], _, s => ret s
  | i :: is, f, s => (f i s).bind (iter is f)

/-- The next action of a call; `none` when it has returned.  No counterpart in the code: the effect of one
load or store. -/
def act : CallCode α → Scratch → Option (Res (CallCode α × Scratch))
  | ret _, _ => none
  | stop r, _ => some (r.bind Empty.elim)
  | loadOut o k, m => some ((rd m.out o).bind fun v => .ok (k v, m))
  | storeOut o v k, m => some ((wr m.out o v).bind fun l => .ok (k, { m with out := l }))
  | loadSum l k, m => some ((rd m.sums l).bind fun v => .ok (k v, m))
  | storeSum l v k, m => some ((wr m.sums l v).bind fun s => .ok (k, { m with sums := s }))

end CallCode

open CallCode

/-- The loop of `calculate_clause_output_with_pruning_T`, as `outputsLoop`; `tick` counts the loops:
lib/src/tsetlini_algo_classic.hpp:154-181,185-228, lib/src/tsetlini_algo_bitwise.hpp:227-256,260-305. -/
def outputsCode (sc : Sched) (tick : Nat) (clause : Nat → Res Bool) (n : Nat) : CallCode Unit :=
  CallCode.iter (sc.order tick 0 n) (fun o _ => (ofRes (clause o)).bind fun v => storeOut o v (ret ())) ()

/-- As `sumVotes`, lib/src/tsetlini_algo_classic.hpp:74-95 -/
def sumVotesCode (weights : List Nat) (a b : Nat) : CallCode Int :=
  CallCode.iter (range a b) (fun o acc => loadOut o fun v => ofRes ((voteTerm weights o v).bind fun t => i64 (acc + t))) 0

/-- As `sumUpLabelVotes`, lib/src/tsetlini_algo_classic.hpp:61-98 -/
def labelVotesCode (weights : List Nat) (label k T : Int) : CallCode Unit :=
  (ofRes (labelRange label k)).bind fun r =>
  (sumVotesCode weights r.1 r.2).bind fun s =>
  storeSum label.toNat (clamp s (-T) T) (ret ())

/-- As `sumUpAllLabelVotes`, lib/src/tsetlini_algo_classic.hpp:119-133 -/
def allVotesCode (weights : List Nat) (labels k T : Int) : CallCode Unit :=
  CallCode.iter (range 0 labels.toNat) (fun (l : Nat) (_ : Unit) => labelVotesCode weights (l : Int) k T) ()

/-- As `sumUpRegressorVotes`, lib/src/tsetlini_algo_classic.hpp:726-753; `n` is `clause_output.size()`. -/
def regressorVotesCode (weights : List Nat) (n : Nat) (T : Int) : CallCode Int :=
  (CallCode.iter (range 0 n) (fun o acc => loadOut o fun v => ofRes (
    (if weights.length ≠ 0 then
      (rd weights o).bind fun w => .ok ((if v then 1 else 0) * (1 + (w : Int)))
     else .ok (if v then 1 else 0)).bind fun t => i64 (acc + t))) 0).bind fun s =>
  ret (clamp s 0 T)

/-- `std::max_element` on `label_sum`, of size `n`, as `argmax`: `best` is dereferenced anew in each comparison.
lib/src/tsetlini.cpp:433-435,475-477,554-556 -/
def argmaxCode (n : Nat) : CallCode Nat :=
  CallCode.iter (range 1 n) (fun i best => loadSum best fun u => loadSum i fun v => ret (if u < v then i else best)) 0

/-- Copying `label_sum`, of size `n`; lib/src/tsetlini.cpp:603,650 -/
def copyCode (n : Nat) : CallCode (List Int) :=
  CallCode.iter (range 0 n) (fun i l => loadSum i fun v => ret (l ++ [v])) []

/-- As `scores`, lib/src/tsetlini.cpp:416-430,459-473,537-551,587-601,634-648 -/
def scoresCode (B : Backend) (sc : Sched) (tick : Nat) (ta : TA B) (i : InferCfg) (x : B.Sample) : CallCode Unit :=
  (outputsCode sc tick (fun o => B.clauseOutPruned i.tile ta.mat o x) i.outputs.toNat).bind fun _ =>
  allVotesCode ta.weights i.labels i.k i.T

/-- The loops over the batch in lib/src/tsetlini.cpp:535-559,632-651, as `batchLoopC`; `f` reads the result from
`label_sum`. -/
def batchCode {α : Type} (B : Backend) (sc : Sched) (tick : Nat) (ta : TA B) (i : InferCfg) (f : CallCode α) (X : List B.Sample) : CallCode (List α) :=
  CallCode.iter X (fun x rs => (scoresCode B sc (tick + rs.length) ta i x).bind fun _ => f.bind fun r => ret (rs ++ [r])) []

/-- As `evalLoop`, lib/src/tsetlini.cpp:414-437; `n` is the size of `label_sum`. -/
def evalCode (B : Backend) (sc : Sched) (tick : Nat) (ta : TA B) (i : InferCfg) (n : Nat) (X : List B.Sample) (y : List Int) : CallCode Nat :=
  CallCode.iter (List.range X.length) (fun it errors =>
    (ofRes (rd X it)).bind fun x =>
    (scoresCode B sc (tick + it) ta i x).bind fun _ =>
    (argmaxCode n).bind fun m =>
    (ofRes (rd y it)).bind fun yi =>
    ret (errors + (if (m : Int) ≠ yi then 1 else 0))) 0

/-- As `responseInto`, lib/src/tsetlini.cpp:496-505,954-964; `n` is `clause_output.size()`. -/
def responseCode (B : Backend) (sc : Sched) (tick : Nat) (ta : TA B) (tile : Tile) (outputs T : Int) (n : Nat) (x : B.Sample) : CallCode Int :=
  (outputsCode sc tick (fun o => B.clauseOutPruned tile ta.mat o x) outputs.toNat).bind fun _ =>
  regressorVotesCode ta.weights n T

variable (B : Backend) (env : Env) (sc : Sched) (st : EstState B env)

/-- As `predictClassifier1`, lib/src/tsetlini.cpp:446-480 -/
def predictClassifier1Code (x : B.Sample) : CallCode (Except Status Int) :=
  (ofRes (checkForPredict B st.ta st.params x)).bind fun sm =>
  if sm.code ≠ .ok then ret (.error sm) else
  (ofRes (inferCfg st.params)).bind fun i =>
  (scoresCode B sc st.cache.tick st.ta i x).bind fun _ =>
  (argmaxCode st.cache.labelSum.length).bind fun m => ret (.ok (m : Int))

/-- As `predictClassifier`, lib/src/tsetlini.cpp:510-562 -/
def predictClassifierCode (X : List B.Sample) : CallCode (Except Status (List Int)) :=
  (ofRes (checkForPredictBatch B st.ta st.params X)).bind fun sm =>
  if sm.code ≠ .ok then ret (.error sm) else
  (ofRes (inferCfg st.params)).bind fun i =>
  (batchCode B sc st.cache.tick st.ta i ((argmaxCode st.cache.labelSum.length).bind fun m => ret (m : Int)) X).bind fun rs => ret (.ok rs)

/-- As `decision1`, lib/src/tsetlini.cpp:565-604 -/
def decision1Code (x : B.Sample) : CallCode (Except Status (List Int)) :=
  (ofRes (checkForPredict B st.ta st.params x)).bind fun sm =>
  if sm.code ≠ .ok then ret (.error sm) else
  (ofRes (inferCfg st.params)).bind fun i =>
  (scoresCode B sc st.cache.tick st.ta i x).bind fun _ =>
  (copyCode st.cache.labelSum.length).bind fun l => ret (.ok l)

/-- As `decision`, lib/src/tsetlini.cpp:607-654 -/
def decisionCode (X : List B.Sample) : CallCode (Except Status (List (List Int))) :=
  (ofRes (checkForPredictBatch B st.ta st.params X)).bind fun sm =>
  if sm.code ≠ .ok then ret (.error sm) else
  (ofRes (inferCfg st.params)).bind fun i =>
  (batchCode B sc st.cache.tick st.ta i (copyCode st.cache.labelSum.length) X).bind fun rs => ret (.ok rs)

/-- As `evaluate`, lib/src/tsetlini.cpp:392-443 -/
def evaluateCode (X : List B.Sample) (y : List Int) : CallCode (Except Status Fl) :=
  (ofRes (inferCfg st.params)).bind fun i =>
  (evalCode B sc st.cache.tick st.ta i st.cache.labelSum.length X y).bind fun errors =>
  ret (.ok (if X.length = 0 then .nan else .fin (env.rnd (1 - env.rnd (env.rnd errors / env.rnd X.length)))))

/-- As `predictRegressor1`, lib/src/tsetlini.cpp:483-507 -/
def predictRegressor1Code (x : B.Sample) : CallCode (Except Status Int) :=
  (ofRes (checkForPredict B st.ta st.params x)).bind fun sm =>
  if sm.code ≠ .ok then ret (.error sm) else
  (ofRes st.params.nJobs).bind fun _ =>
  (ofRes st.params.tileSize).bind fun tile =>
  (ofRes st.params.regressorOutputs).bind fun outputs =>
  (ofRes st.params.threshold).bind fun T =>
  (responseCode B sc st.cache.tick st.ta (tileOf tile) outputs T st.cache.clauseOutput.length x).bind fun v => ret (.ok v)

/-- As `predictRegressor`, lib/src/tsetlini.cpp:931-970 -/
def predictRegressorCode (X : List B.Sample) : CallCode (Except Status (List Int)) :=
  (ofRes (checkForPredictBatch B st.ta st.params X)).bind fun sm =>
  if sm.code ≠ .ok then ret (.error sm) else
  (ofRes st.params.threshold).bind fun T =>
  (ofRes st.params.regressorOutputs).bind fun outputs =>
  (ofRes st.params.nJobs).bind fun _ =>
  (ofRes st.params.tileSize).bind fun tile =>
  (CallCode.iter X (fun x vs =>
    (responseCode B sc (st.cache.tick + vs.length) st.ta (tileOf tile) outputs T st.cache.clauseOutput.length x).bind fun v => ret (vs ++ [v])) []).bind fun vs =>
  ret (.ok vs)

variable {B env}

/-- The code of a read-only call on an estimator, lib/src/tsetlini.cpp:1092-1135,1315-1334,1405-1452,1520-1525,1580-1599.  Training
calls are not read-only and have no code here (`stop`); no statement is about them. -/
def callCode {k : Kind} : Call B.Sample k → CallCode Out
  | .predict1 x => (predictClassifier1Code B env sc st x).bind fun r => ret (.label r)
  | .predict X => (predictClassifierCode B env sc st X).bind fun r => ret (.labels r)
  | .decision1 x => (decision1Code B env sc st x).bind fun r => ret (.scores r)
  | .decision X => (decisionCode B env sc st X).bind fun r => ret (.scoreRows r)
  | .evaluate X y => (evaluateCode B env sc st X y).bind fun r => ret (.accuracy r)
  | .predictR1 x => (predictRegressor1Code B env sc st x).bind fun r => ret (.label r)
  | .predictR X => (predictRegressorCode B env sc st X).bind fun r => ret (.labels r)
  | .fit .. | .partialFit .. | .fitR .. | .partialFitR .. => .stop .timeout

/-- A call in flight: the estimator it was made on, and what it has yet to do.  No counterpart in the code:
user threads. -/
structure InFlight where
  target : Nat
  code : CallCode Out

/-- Several estimators, with the calls in flight on them.  No counterpart in the code: a user program. -/
structure Program where
  mems : List Scratch
  calls : List InFlight

/-- One of the calls performs its next action on the scratch memory of its estimator.  No counterpart in the
code: sequentially consistent interleaving of the user's threads. -/
def Program.Step (W W' : Program) : Prop :=
  ∃ i c m code' m', W.calls[i]? = some c ∧ W.mems[c.target]? = some m ∧ c.code.act m = some (.ok (code', m')) ∧
    W' = ⟨W.mems.set c.target m', W.calls.set i ⟨c.target, code'⟩⟩

/-- The scratch memory an estimator has when the calls begin, lib/src/estimator_state.hpp:62 -/
def EstState.scratch (st : EstState B env) : Scratch := ⟨st.cache.clauseOutput, st.cache.labelSum⟩

/-- The estimator with the scratch memory `m`, lib/src/estimator_state.hpp:62 -/
def EstState.withScratch (st : EstState B env) (m : Scratch) : EstState B env :=
  { st with cache := { st.cache with clauseOutput := m.out, labelSum := m.sums } }

/-- The read-only calls `calls` are made on the estimators `ests`: a call is an estimator's number and a method with
its arguments; `scs j` is how the threads of call number `j` share its loops.  No counterpart in the code: a user program. -/
def Program.start {k : Kind} (scs : Nat → Sched) (ests : List (EstState B env)) (calls : List (Nat × Call B.Sample k)) : Program :=
  ⟨ests.map EstState.scratch, calls.mapIdx fun j c => ⟨c.1, match ests[c.1]? with
    | some st => callCode (scs j) st c.2
    | none => .stop .timeout⟩⟩

/-! ### Clones made while calls are in flight -/

/-- `clone_state()`, lib/src/tsetlini.cpp:1169-1174,1342-1347,1460-1465,1607-1612, is `const` too.  The implicit copy constructor of the state
copies `cache.clause_output`, of size `n`, and then `cache.label_sum`, of size `s` (classifiers; a regressor has none: `s` is 0),
lib/src/estimator_state_cache.hpp:46-73, element by element.  What else it copies is written by no read-only call. -/
def cloneCode (n s : Nat) : CallCode Scratch :=
  (CallCode.iter (range 0 n) (fun o l => loadOut o fun v => ret (l ++ [v])) []).bind fun out =>
  (copyCode s).bind fun sums => ret ⟨out, sums⟩

/-- Read-only calls in flight, and clones being made: the number of the estimator to clone and what is yet to be done.  No
counterpart in the code: a user program. -/
structure Cloning where
  prog : Program
  clones : List (Nat × CallCode Scratch)

/-- A call or a clone performs its next action.  No counterpart in the code: sequentially consistent interleaving of the user's threads. -/
def Cloning.Step (W W' : Cloning) : Prop :=
  (∃ P, W.prog.Step P ∧ W' = ⟨P, W.clones⟩) ∨
  ∃ i t code m code' m', W.clones[i]? = some (t, code) ∧ W.prog.mems[t]? = some m ∧ code.act m = some (.ok (code', m')) ∧
    W' = ⟨⟨W.prog.mems.set t m', W.prog.calls⟩, W.clones.set i (t, code')⟩

/-- `Program.start`, and clones made of the estimators numbered `ts`.  No counterpart in the code: a user program. -/
def Cloning.start {k : Kind} (scs : Nat → Sched) (ests : List (EstState B env)) (calls : List (Nat × Call B.Sample k)) (ts : List Nat) : Cloning :=
  ⟨Program.start scs ests calls, ts.map fun t => (t, match ests[t]? with
    | some st => cloneCode st.cache.clauseOutput.length st.cache.labelSum.length
    | none => .stop .timeout)⟩

/-- The clone with the scratch memory that was read, lib/src/tsetlini.cpp:1169-1174,1342-1347,1460-1465,1607-1612. -/
def EstState.cloneWith (st : EstState B env) (m : Scratch) : EstState B env := st.clone.withScratch m

end Tsetlini
