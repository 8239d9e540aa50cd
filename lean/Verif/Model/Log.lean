import Verif.Model.History
/-
What the library writes to its log: lib/src/logger.hpp, lib/src/tsetlini_state.cpp:23-120,
lib/src/tsetlini.cpp:701,863.
-/
namespace Tsetlini

/-- `LOG(level) << ...`, lib/src/logger.hpp:148-158: the message goes to `std::clog` when verbose
is set, whatever the level, and to a null stream otherwise. -/
def emitted (verbose : Bool) (l : List LogLine) : List LogLine := if verbose then l else []

/-- The log of `initialize_state`, lib/src/tsetlini_state.cpp:222-236: the parameters
(`log_estimator_params`, 227), then the counter width (`normalize_counting_type`, 236). -/
def initLog (kind : Kind) (p : Params) : Res (List LogLine) :=
  p.verbose.bind fun verbose =>
  (logParams kind p).bind fun lines =>
  p.numberOfStates.bind fun states =>
  p.countingType.bind fun ctn =>
  .ok (emitted verbose (lines ++ [.selected (normalizeCountingType ctn states)]))

/-- The log of the epochs of one call, lib/src/tsetlini.cpp:699-701,861-863. -/
def epochsLog (p : Params) (epochs : Nat) : Res (List LogLine) :=
  p.verbose.bind fun verbose =>
  .ok (emitted verbose ((List.range epochs).map fun e => .epoch (e + 1)))

/-- The log of one training call, from the state it starts in and what it returns.  A call that
reports an error returns from its checks, before anything is logged; `fit`, and `partial_fit` of an
estimator that is not fitted, go through `initialize_state` (lib/src/tsetlini.cpp:771-775,923-927,
1042-1051,1278-1286), always with the parameters the call leaves behind. -/
def trainLog {B : Backend} {env : Env} (kind : Kind) (fresh : Bool) (epochs : Nat)
    (after : EstState B env) (o : Out) : Res (List LogLine) :=
  match o with
  | .status s =>
    if s.code ≠ .ok then .ok [] else
    (if fresh then initLog kind after.params else .ok []).bind fun l =>
    (epochsLog after.params epochs).bind fun l' => .ok (l ++ l')
  | _ => .ok []

/-- The log of one call.  Nothing but training logs. lib/src/tsetlini_state.cpp:23-120; lib/src/tsetlini.cpp:701,863 -/
def callLog {B : Backend} {env : Env} {k : Kind} (c : Call B.Sample k) (before after : EstState B env)
    (o : Out) : Res (List LogLine) :=
  match c with
  | .fit _ _ _ ep => trainLog .classifier true ep after o
  | .partialFit _ _ _ ep => trainLog .classifier (!isFitted B before.ta) ep after o
  | .fitR _ _ ep => trainLog .regressor true ep after o
  | .partialFitR _ _ ep => trainLog .regressor (!isFitted B before.ta) ep after o
  | _ => .ok []

/-- A history of calls, with everything it writes to the log. lib/src/tsetlini_state.cpp:23-120; lib/src/tsetlini.cpp:701,863 -/
def runLog (B : Backend) (env : Env) (sc : Sched) {k : Kind} :
    List (Call B.Sample k) → EstState B env → Res (EstState B env × List LogLine)
  | [], st => .ok (st, [])
  | c :: cs, st =>
    (step B env sc c st).bind fun r =>
    (callLog c st r.1 r.2).bind fun l =>
    (runLog B env sc cs r.1).bind fun r' => .ok (r'.1, l ++ r'.2)

end Tsetlini
