import Verif.Model.ParamsMake
import Verif.Spec.Validation
/-
Specification vocabulary for parameter sets: the documented keys, their types and defaults,
which values are acceptable and what is reported otherwise.
-/
namespace Tsetlini.Spec

/-- A complete parameter set as requested: given values and defaults. `seed = none` asks for a
random one, `nJobs = -1` for the hardware concurrency. The last three belong to regressors. -/
structure ParamSet where
  clauses : Int
  states : Int
  s : Fl
  threshold : Int
  weighted : Bool
  maxWeight : Int
  boost : Int
  nJobs : Int
  verbose : Bool
  countingType : String
  tileSize : Int
  seed : Option (BitVec 32)
  lossFn : String
  lossC1 : Fl
  boxMuller : Bool

/-- Name of the parameter holding the number of clauses. -/
def clausesKey : Kind → String
  | .classifier => "number_of_clauses_per_label"
  | .regressor => "number_of_regressor_clauses"

/-- How a requested seed is stored: no seed is the empty value. -/
def seedVal : Option (BitVec 32) → PVal
  | some s => .seed s
  | none => .none

/-- The parameters by name. -/
def ParamSet.entries (r : ParamSet) (kind : Kind) : List (String × PVal) :=
  [(clausesKey kind, .int r.clauses), ("number_of_states", .int r.states), ("s", .real r.s),
   ("threshold", .int r.threshold), ("weighted", .bool r.weighted), ("max_weight", .int r.maxWeight),
   ("boost_true_positive_feedback", .int r.boost), ("n_jobs", .int r.nJobs),
   ("verbose", .bool r.verbose), ("counting_type", .str r.countingType),
   ("clause_output_tile_size", .int r.tileSize)] ++
  (match kind with
  | .classifier => []
  | .regressor => [("loss_fn", .str r.lossFn), ("loss_fn_C1", .real r.lossC1), ("box_muller", .bool r.boxMuller)]) ++
  [("random_state", seedVal r.seed)]

/-- The documented defaults. -/
def defaults : Kind → ParamSet
  | .classifier => ⟨12, 100, .fin 2, 15, false, 2147483647, 0, -1, false, "auto", 16, none, "", .nan, false⟩
  | .regressor => ⟨20, 100, .fin 2, 15, true, 2147483647, 0, -1, false, "auto", 16, none, "MSE", .fin 0, false⟩

/-- Acceptable parameter sets. -/
structure Acceptable (kind : Kind) (r : ParamSet) : Prop where
  nJobs : r.nJobs = -1 ∨ 1 ≤ r.nJobs
  states : 1 ≤ r.states
  s : ∃ q, r.s = .fin q ∧ 1 ≤ q
  clauses : 0 < r.clauses
  divisible : (match kind with | .classifier => 4 | .regressor => 2) ∣ r.clauses
  boost : r.boost = 0 ∨ r.boost = 1
  threshold : 1 ≤ r.threshold
  maxWeight : 1 ≤ r.maxWeight
  countingType : r.countingType ∈ ["auto", "int8", "int16", "int32"]
  lossFn : kind = .regressor → r.lossFn ∈ ["MSE", "L2", "MAE", "L1", "berHu", "L1+2"]
  tileSize : r.tileSize ∈ [16, 32, 64, 128]

/-- A refused parameter. -/
def refused (msg : String) : Status := ⟨.badJson, msg⟩

/-- What is checked, in order, and reported. -/
def paramChecks (io : RealIO) (kind : Kind) (r : ParamSet) : List (Prop × Status) :=
  [(¬ (r.nJobs = -1 ∨ 1 ≤ r.nJobs),
      refused ("Param 'n_jobs' got value " ++ toString r.nJobs ++ ", instead of natural integer or -1.\n")),
   (¬ 1 ≤ r.states,
      refused ("Param 'number_of_states' got value " ++ toString r.states ++ ", instead of a natural integer.\n")),
   (¬ ∃ q, r.s = .fin q ∧ 1 ≤ q,
      refused ("Param 's' got value " ++ io.toStr r.s ++ ", instead of a value >= 1.0 .\n")),
   (¬ (0 < r.clauses ∧ (match kind with | .classifier => 4 | .regressor => 2) ∣ r.clauses),
      refused (match kind with
        | .classifier => "Param 'number_of_clauses_per_label' got value " ++ toString r.clauses ++
            ", instead of a natural integer divisible by 4.\n"
        | .regressor => "Param 'number_of_regressor_clauses' got value " ++ toString r.clauses ++
            ", instead of an even natural integer.\n")),
   (¬ (r.boost = 0 ∨ r.boost = 1),
      refused ("Param 'boost_true_positive_feedback' got value " ++ toString r.boost ++ ", instead of either 0 or 1.\n")),
   (¬ 1 ≤ r.threshold,
      refused ("Param 'threshold' got value " ++ toString r.threshold ++ ", instead of a natural integer.\n")),
   (¬ 1 ≤ r.maxWeight,
      refused ("Param 'max_weight' got value " ++ toString r.maxWeight ++ ", instead of a natural integer.\n")),
   (r.countingType ∉ ["auto", "int8", "int16", "int32"],
      refused ("Param 'counting_type' got value " ++ r.countingType ++
        ", instead of allowed int8, int16, int32, or auto\n"))] ++
  (match kind with
   | .classifier => []
   | .regressor =>
     [(r.lossFn ∉ ["MSE", "L2", "MAE", "L1", "berHu", "L1+2"],
        refused ("Param 'loss_fn' got value " ++ r.lossFn ++
          ", instead of allowed MSE, MAE, L2, L1, L1+2, or berHu\n"))]) ++
  [(r.tileSize ∉ [16, 32, 64, 128],
      refused ("Param 'clause_output_tile_size' got value " ++ toString r.tileSize ++
        ", instead of allowed 16, 32, 64, or 128\n"))]

/-- The parameter set with the machine's answers filled in. -/
def ParamSet.concrete (r : ParamSet) (m : Machine) : ParamSet :=
  { r with nJobs := if r.nJobs = -1 then max 1 m.hwThreads else r.nJobs,
           seed := some (r.seed.getD m.randomDevice) }

/-- All `int` parameters are representable as a C++ `int`. -/
def ParamSet.IntSized (r : ParamSet) : Prop :=
  ∀ v ∈ [r.clauses, r.states, r.threshold, r.maxWeight, r.nJobs, r.tileSize],
    -2147483648 ≤ v ∧ v ≤ 2147483647

/-! ### JSON configurations -/

/-- What can be wrong with a member of a JSON configuration. -/
inductive Fault where
  | unknownKey | illTyped | outOfRange
deriving DecidableEq, Repr

/-- `j` as a number truncated towards zero lies in `[lo, hi]`, if it is a fractional number. -/
def FracFits (lo hi : Int) : JVal → Prop
  | .float q => ∃ t : Int, lo ≤ t ∧ t ≤ hi ∧ (if 0 ≤ q then t ≤ q ∧ q < t + 1 else q ≤ t ∧ t - 1 < q)
  | _ => True

/-- Numbers and booleans are read as numbers. -/
def Numeric : JVal → Prop
  | .unsigned _ | .integer _ | .float _ | .bool _ => True
  | _ => False

def IsBool : JVal → Prop
  | .bool _ => True
  | _ => False

def IsStr : JVal → Prop
  | .str _ => True
  | _ => False

def intParams : List String :=
  ["number_of_clauses_per_label", "number_of_regressor_clauses", "number_of_states", "threshold", "max_weight",
   "boost_true_positive_feedback", "n_jobs", "clause_output_tile_size"]

/-- The documented keys of a configuration, each with its type; `none`: nothing is wrong. -/
inductive MemberFault : String → JVal → Fault → Prop
  | intTy {k j} : k ∈ intParams → ¬ Numeric j → MemberFault k j .illTyped
  | intRange {k j} : k ∈ intParams → Numeric j → ¬ FracFits (-2147483648) 2147483647 j → MemberFault k j .outOfRange
  | seedTy {j} : j ≠ .null → ¬ Numeric j → MemberFault "random_state" j .illTyped
  | seedRange {j} : Numeric j → ¬ FracFits 0 4294967295 j → MemberFault "random_state" j .outOfRange
  | realTy {k j} : k ∈ ["s", "loss_fn_C1"] → ¬ Numeric j → MemberFault k j .illTyped
  | boolTy {k j} : k ∈ ["verbose", "weighted", "box_muller"] → ¬ IsBool j → MemberFault k j .illTyped
  | strTy {k j} : k ∈ ["counting_type", "loss_fn"] → ¬ IsStr j → MemberFault k j .illTyped
  | unknown {k j} : k ∉ intParams → k ∉ ["random_state", "s", "loss_fn_C1", "verbose", "weighted", "box_muller",
      "counting_type", "loss_fn"] → MemberFault k j .unknownKey

/-- Nothing is wrong with the member. -/
def MemberOk (k : String) (j : JVal) : Prop := ∀ f, ¬ MemberFault k j f

/-- The number a JSON value stands for: `true` is 1, `false` is 0. -/
def numberOf : JVal → Option Rat
  | .unsigned n => some n
  | .integer i => some i
  | .float q => some q
  | .bool b => some (if b then 1 else 0)
  | _ => none

/-- The whole part of a number: what is left of it when the fraction is cut off, towards zero. -/
def wholePart (q : Rat) : Int := if 0 ≤ q then q.floor else -(-q).floor

/-- The value given for an `int` parameter, or the default: the whole part of the number, reduced
modulo 2^32 to the range of `int`. -/
def givenInt (l : List (String × JVal)) (k : String) (d : Int) : Int :=
  match (l.lookup k).bind numberOf with
  | some q => (wholePart q).bmod (2^32)
  | none => d

def givenReal (io : RealIO) (l : List (String × JVal)) (k : String) (d : Fl) : Fl :=
  match (l.lookup k).bind numberOf with
  | some q => io.toReal q
  | none => d

def givenBool (l : List (String × JVal)) (k : String) (d : Bool) : Bool :=
  match l.lookup k with
  | some (.bool b) => b
  | _ => d

def givenStr (l : List (String × JVal)) (k : String) (d : String) : String :=
  match l.lookup k with
  | some (.str b) => b
  | _ => d

/-- The seed given: the whole part of the number, modulo 2^32.  A seed given as `null` is no seed. -/
def givenSeed (l : List (String × JVal)) : Option (BitVec 32) :=
  ((l.lookup "random_state").bind numberOf).map fun q => BitVec.ofInt 32 (wholePart q)

/-- The parameter set a JSON configuration asks for. -/
def requestedJson (io : RealIO) (kind : Kind) (l : List (String × JVal)) : ParamSet :=
  let d := defaults kind
  { clauses := givenInt l (clausesKey kind) d.clauses
    states := givenInt l "number_of_states" d.states
    s := givenReal io l "s" d.s
    threshold := givenInt l "threshold" d.threshold
    weighted := givenBool l "weighted" d.weighted
    maxWeight := givenInt l "max_weight" d.maxWeight
    boost := givenInt l "boost_true_positive_feedback" d.boost
    nJobs := givenInt l "n_jobs" d.nJobs
    verbose := givenBool l "verbose" d.verbose
    countingType := givenStr l "counting_type" d.countingType
    tileSize := givenInt l "clause_output_tile_size" d.tileSize
    seed := givenSeed l
    lossFn := givenStr l "loss_fn" d.lossFn
    lossC1 := givenReal io l "loss_fn_C1" d.lossC1
    boxMuller := givenBool l "box_muller" d.boxMuller }

/-! ### Named arguments -/

/-- `x` is the value of the argument built by `mk` among `args`, or the default `d` if there is
none. -/
def Given {α : Type} (args : List Arg) (mk : α → Arg) (d x : α) : Prop :=
  mk x ∈ args ∨ (∀ v, mk v ∉ args) ∧ x = d

/-- The parameter set a factory call with named arguments asks for: each given argument, in
whatever position, and the default of every other parameter. -/
structure RequestedBy (kind : Kind) (args : List Arg) (r : ParamSet) : Prop where
  clauses : Given args (match kind with | .classifier => .clausesPerLabel | .regressor => .regressorClauses)
    (defaults kind).clauses r.clauses
  states : Given args .states (defaults kind).states r.states
  s : Given args .specificity (defaults kind).s r.s
  threshold : Given args .threshold (defaults kind).threshold r.threshold
  weighted : Given args .weighted (defaults kind).weighted r.weighted
  maxWeight : Given args .maxWeight (defaults kind).maxWeight r.maxWeight
  boost : ∃ b, Given args .boost false b ∧ r.boost = if b then 1 else 0
  nJobs : Given args .nJobs (defaults kind).nJobs r.nJobs
  verbose : Given args .verbose (defaults kind).verbose r.verbose
  countingType : Given args .countingType (defaults kind).countingType r.countingType
  tileSize : Given args .tileSize (defaults kind).tileSize r.tileSize
  seed : (∃ v, .seed v ∈ args ∧ r.seed = some v) ∨ (∀ v, .seed v ∉ args) ∧ r.seed = none
  lossFn : kind = .regressor → Given args .lossFn (defaults kind).lossFn r.lossFn
  lossC1 : kind = .regressor → Given args .lossC1 (defaults kind).lossC1 r.lossC1
  boxMuller : kind = .regressor → Given args .boxMuller (defaults kind).boxMuller r.boxMuller

end Tsetlini.Spec
