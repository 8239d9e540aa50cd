import Verif.Spec.Clause
import Verif.Spec.Bits
import Verif.Spec.Votes
import Verif.Spec.Params
import Verif.Spec.Validation
import Verif.Model.History
import Verif.Model.Bitwise
import Verif.Model.StateJson
/-
Vocabulary of the property statements: the two families of estimators, their samples, and the
estimators a user program can get hold of.
-/
namespace Tsetlini.Spec

/-- The two families: `*Classic` estimators take byte vectors, `*Bitwise` ones bit vectors. -/
inductive Algo where
  | classic | bitwise
deriving DecidableEq, Repr

/-- The instantiation of the estimator templates. -/
def Algo.backend : Algo → Backend
  | .classic => Tsetlini.classic
  | .bitwise => Tsetlini.bitwise

/-- Samples of a family. -/
abbrev Algo.Sample (a : Algo) : Type := a.backend.Sample

/-- The least `number_of_states` the family works for (see C01 for bitwise with 1). -/
def Algo.minStates : Algo → Int
  | .classic => 1
  | .bitwise => 2

/-- The truth values of the features of a sample. -/
def Algo.bits : (a : Algo) → a.Sample → List Bool
  | .classic => fun (x : List (BitVec 8)) => x.map fun v => v != 0#8
  | .bitwise => fun (x : BitVector) => (List.range x.len).map (bitAt x.blocks)

/-- Every element is 0 or 1. -/
def Algo.Binary : (a : Algo) → a.Sample → Prop
  | .classic => fun (x : List (BitVec 8)) => ∀ v ∈ x, v = 0#8 ∨ v = 1#8
  | .bitwise => fun _ => True

/-- No bit beyond the length is set. -/
def Algo.Clear : (a : Algo) → a.Sample → Prop
  | .classic => fun _ => True
  | .bitwise => fun (x : BitVector) => ∀ f, x.len ≤ f → bitAt x.blocks f = false

/-- The sample was built without surplus storage: at most one block more than needed. -/
def Algo.Built : (a : Algo) → a.Sample → Prop
  | .classic => fun _ => True
  | .bitwise => fun (x : BitVector) => x.len ≤ x.blocks.length * 64 ∧ x.blocks.length * 64 ≤ x.len + 64

/-- A sample that passes validation of its contents. -/
def Algo.Good (a : Algo) (x : a.Sample) : Prop := a.Binary x ∧ a.Clear x

/-- What validation looks at. -/
def Algo.view (a : Algo) : SampleView a.Sample := ⟨a.backend.size, a.Binary, a.Clear⟩

/-- `v` is a C++ `int`. -/
def IsInt (v : Int) : Prop := -2147483648 ≤ v ∧ v ≤ 2147483647

/-- The arguments of a call are values of the declared C++ types. -/
def WellTyped (a : Algo) {k : Kind} : Call a.Sample k → Prop
  | .fit X y _ _ | .partialFit X y _ _ | .evaluate X y | .fitR X y _ | .partialFitR X y _ =>
    (∀ x ∈ X, a.Built x) ∧ ∀ v ∈ y, IsInt v
  | .predict1 x | .decision1 x | .predictR1 x => a.Built x
  | .predict X | .decision X | .predictR X => ∀ x ∈ X, a.Built x

/-- An `int` argument of a factory holds an `int`. -/
def ArgTyped : Arg → Prop
  | .clausesPerLabel v | .regressorClauses v | .states v | .threshold v | .maxWeight v | .nJobs v | .tileSize v => IsInt v
  | _ => True

/-- A factory call that compiles with arguments of the declared types; a parsed JSON object has
no two members of the same name. -/
def ReqTyped {k : Kind} : Request k → Prop
  | .classifierArgs args => Compiles classifierArgTys args ∧ ∀ x ∈ args, ArgTyped x
  | .regressorArgs args => Compiles regressorArgTys args ∧ ∀ x ∈ args, ArgTyped x
  | .classifierJson doc | .regressorJson doc => ∀ l, doc = .ok (.obj l) → (l.map Prod.fst).Nodup

/-- What a factory call asks for: the named arguments or the members of the JSON configuration, none of
which is faulty, completed by the defaults. -/
inductive Requests (io : RealIO) : {k : Kind} → Request k → ParamSet → Prop
  | classifierArgs {args r} : RequestedBy .classifier args r → Requests io (.classifierArgs args) r
  | regressorArgs {args r} : RequestedBy .regressor args r → Requests io (.regressorArgs args) r
  | classifierJson {l} : (∀ e ∈ l, MemberOk e.1 e.2) →
      Requests io (.classifierJson (.ok (.obj l))) (requestedJson io .classifier l)
  | regressorJson {l} : (∀ e ∈ l, MemberOk e.1 e.2) →
      Requests io (.regressorJson (.ok (.obj l))) (requestedJson io .regressor l)

/-- The factory call for a kind that reads a JSON text; `doc` is what the parser made of it. -/
def Request.json : (k : Kind) → (doc : Except String JVal) → Request k
  | .classifier, doc => .classifierJson doc
  | .regressor, doc => .regressorJson doc

/-- The factory call for a kind with named arguments. -/
def Request.args : (k : Kind) → List Arg → Request k
  | .classifier, l => .classifierArgs l
  | .regressor, l => .regressorArgs l

/-- `p` is the parameter map of an estimator some factory call made. -/
def Made (k : Kind) (p : Params) : Prop :=
  ∃ (m : Machine) (io : RealIO) (req : Request k), ReqTyped req ∧ make m io req = .ok (.ok p)

/-- The value of an `int` parameter, as `read_params()` shows it. -/
def IntParam (p : Params) (key : String) (v : Int) : Prop := p.get? key = some (.int v)

/-- `number_of_states` is one the family works for. -/
def StatesOk (a : Algo) (p : Params) : Prop := ∀ N, IntParam p "number_of_states" N → a.minStates ≤ N

/-- A call that may report a status instead of a result returned `v`. -/
def Gives {σ α : Type} (r : Res (σ × Except Status α)) (v : α) : Prop := ∃ s, r = .ok (s, .ok v)

/-- The call reported `e`. -/
def Rejects {σ α : Type} (r : Res (σ × Except Status α)) (e : Status) : Prop := ∃ s, r = .ok (s, .error e)

/-- The batch call is the single-sample call mapped over a non-empty batch of which every sample
is accepted; otherwise it is rejected. -/
def BatchOf {S σ α : Type} (single : S → Res (σ × Except Status α)) (batch : Res (σ × Except Status (List α)))
    (X : List S) : Prop :=
  (X ≠ [] ∧ (∀ x ∈ X, ∃ v, Gives (single x) v) ∧
    ∃ vs, Gives batch vs ∧ vs.length = X.length ∧ ∀ (i : Nat) x v, X[i]? = some x → vs[i]? = some v → Gives (single x) v) ∨
  ((X = [] ∨ ∃ x ∈ X, ∃ e, Rejects (single x) e) ∧ ∃ e, Rejects batch e)

/-- The clauses a list of counter rows describes: the positive literals of clause `i` in row
`2i`, its negated literals in row `2i+1`. -/
def pairRows : List (List Int) → List Clause
  | p :: n :: rest => ⟨p, n⟩ :: pairRows rest
  | _ => []

/-- The counters of an estimator, as its saved state shows them. -/
def Algo.counters (a : Algo) {env : Env} (st : EstState a.backend env) : List (List Int) :=
  a.backend.counters st.ta.mat

/-- The size in bytes of a stored counter (the matrix is one of three alternatives). -/
def Algo.counterBytes : (a : Algo) → {env : Env} → EstState a.backend env → Nat
  | .classic, _, st => (show Matrix from st.ta.mat).ctype.bytes
  | .bitwise, _, st => (show PMatrix from st.ta.mat).m.ctype.bytes

/-- The clauses of an estimator. -/
def Algo.clauses (a : Algo) {env : Env} (st : EstState a.backend env) : List Clause := pairRows (a.counters st)

/-- The estimator has automata, i.e. some training call succeeded. -/
def Fitted (a : Algo) {env : Env} (st : EstState a.backend env) : Prop := a.counters st ≠ []

/-- The parameter that holds the number of clauses (per label). -/
def clauseParam : Kind → String
  | .classifier => "number_of_clauses_per_label"
  | .regressor => "number_of_regressor_clauses"

/-- How the family saves its automata. -/
def Algo.io : (a : Algo) → TaIO a.backend
  | .classic => classicIO
  | .bitwise => bitwiseIO

/-- The member "algo" of saved states. -/
def Algo.name : Algo → String
  | .classic => "classic"
  | .bitwise => "bitwise"

/-- `to_json_string(state)` -/
def save (a : Algo) (k : Kind) {env : Env} (gio : GenIO env) (st : EstState a.backend env) : JVal :=
  saveState gio a.io a.name k st

/-- `from_json_string(state, js)`; `old` is what `state` is before. -/
def load (a : Algo) (k : Kind) {env : Env} (gio : GenIO env) (old : EstState a.backend env) (js : JVal) :
    Res (EstState a.backend env) := loadState gio a.io k old js

/-- The counter width an estimator uses: at least the width asked for ("auto" asks for the
smallest), and wide enough for number_of_states. -/
def counterWidth (countingType : String) (states : Int) : String :=
  let asked := if countingType = "auto" ∨ countingType = "int8" then 8 else if countingType = "int16" then 16 else 32
  if asked ≤ 8 ∧ states ≤ 127 then "int8" else if asked ≤ 16 ∧ states ≤ 32767 then "int16" else "int32"

/-- The parameters that training sets. -/
def sizeParams : Kind → List String
  | .classifier => ["number_of_labels", "number_of_features"]
  | .regressor => ["number_of_features"]

/-- The polarity rows of a bitwise estimator; a classic one has none. -/
def Algo.polarity : (a : Algo) → {env : Env} → EstState a.backend env → List (List (BitVec 64))
  | .classic, _, _ => []
  | .bitwise, _, st => (show PMatrix from st.ta.mat).pol

/-- `p` has the documented parameters of the kind, with acceptable values; n_jobs and random_state are concrete. (It may have others.) -/
def Configured (k : Kind) (p : Params) : Prop :=
  ∃ r : ParamSet, Acceptable k r ∧ r.IntSized ∧ r.nJobs ≠ -1 ∧ r.seed ≠ none ∧ ∀ e ∈ r.entries k, p.get? e.1 = some e.2

/-- The parts of a state fit together: its parameters are acceptable, and there are the number of labels (a regressor has one, but no such parameter) and of features besides;
there are as many rows of counters as literals of clauses, each as long as there are features, counters
are in range and stored in the width chosen for them; the polarity bits of a bitwise state (in whole 512-bit units) mirror the counters;
there is one weight for each clause, in range, or no weights at all. -/
structure FitsTogether (a : Algo) (k : Kind) {env : Env} (st : EstState a.backend env) (labels n clauses : Nat) (N M : Int) (weighted : Bool)
    (ctype : String) : Prop where
  params : Configured k st.params
  noLabels : k = .regressor → ∀ i, ¬ IntParam st.params "number_of_labels" i
  labelsParam : k = .classifier → IntParam st.params "number_of_labels" labels
  oneLabel : k = .regressor → labels = 1
  someLabel : 1 ≤ labels
  featuresParam : IntParam st.params "number_of_features" n
  clausesParam : IntParam st.params (clauseParam k) clauses
  statesParam : IntParam st.params "number_of_states" N
  maxWeightParam : IntParam st.params "max_weight" M
  weightedParam : st.params.get? "weighted" = some (.bool weighted)
  ctypeParam : st.params.get? "counting_type" = some (.str ctype)
  rows : (a.counters st).length = labels * clauses
  columns : ∀ row ∈ a.counters st, row.length = n
  range : ∀ row ∈ a.counters st, ∀ c ∈ row, -N ≤ c ∧ c ≤ N - 1
  width : a.counterBytes st = if counterWidth ctype N = "int8" then 1 else if counterWidth ctype N = "int16" then 2 else 4
  mirror : a = .bitwise → (a.polarity st).length = (a.counters st).length ∧ ∀ (i : Nat) (row : List Int), (a.counters st)[i]? = some row →
    ∃ p, (a.polarity st)[i]? = some p ∧ p.length = (n + 511) / 512 * 8 ∧ Mirrors row p
  weights : st.ta.weights.length = if weighted then labels * (clauses / 2) else 0
  weightRange : ∀ w ∈ st.ta.weights, (w : Int) + 1 ≤ M
  small : labels * clauses ≤ 2147483647

/-- See `FitsTogether`. -/
def Coherent (a : Algo) (k : Kind) {env : Env} (st : EstState a.backend env) : Prop :=
  ∃ labels n clauses N M weighted ctype, FitsTogether a k st labels n clauses N M weighted ctype

/-- `st` is the state of an estimator that a factory call just made, or that was just loaded from some document (saved by this library, or
edited) whose parts fit together. -/
inductive Start (a : Algo) (k : Kind) {env : Env} (st : EstState a.backend env) : Prop
  | made (p : Params) : Made k p → st = EstState.fresh a.backend env p → Start a k st
  | loaded (gio : GenIO env) (old : EstState a.backend env) (js : JVal) : load a k gio old js = .ok st → Coherent a k st → Start a k st

/-- `st` is the state of an estimator that some factory call made, or that was loaded from a document whose parts fit together, and that then went through
some history of public calls, under some schedule of its parallel loops, all of which returned. -/
def Reached (a : Algo) (k : Kind) {env : Env} (st : EstState a.backend env) : Prop :=
  ∃ (st0 : EstState a.backend env) (sc : Sched) (cs : List (Call a.Sample k)) (outs : List Out),
    Start a k st0 ∧ (∀ c ∈ cs, WellTyped a c) ∧ run a.backend env sc cs st0 = .ok (st, outs)

/-- A training call on `st` reports the first violated check and then leaves `st` as it was; if it
returns at all, its status is the one the checks demand. -/
def Decides {σ : Type} (checks : List (Prop × Status)) (st : σ) (r : Res (σ × Status)) : Prop :=
  ∃ s, Reports checks s ∧ (s.code ≠ .ok → r = .ok (st, s)) ∧ ∀ q, r = .ok q → q.2 = s

/-- A prediction call reports the first violated check, and gives a result if there is none. -/
def Answers {σ α : Type} (checks : List (Prop × Status)) (r : Res (σ × Except Status α)) : Prop :=
  ∃ s, Reports checks s ∧ (s.code ≠ .ok → Rejects r s) ∧ (s.code = .ok → ∃ v, Gives r v)

end Tsetlini.Spec
