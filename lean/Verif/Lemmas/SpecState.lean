import Verif.Lemmas.Votes
import Verif.Lemmas.Lawful
/- The abstract estimator: what an estimator is without caches, tiles, schedules, counter widths. -/
namespace Tsetlini
open Res Spec

/-- The parameters an estimator was made with. -/
structure Cfg where
  kind : Kind
  clauses : Int
  T : Int
  states : Int
  maxWeight : Int
  s : Rat
  boost : Int
  weighted : Bool
  seed : BitVec 32
  ctype : String
  tile : Int
  nJobs : Int
  verbose : Bool
  lossName : String
  C1 : Fl
  boxMuller : Bool

/-- Clause outputs per label. -/
def Cfg.k (c : Cfg) : Nat := (c.clauses / 2).toNat

/-- The counter type chosen for a configuration. -/
def Cfg.ct (c : Cfg) : CType := ctypeOfName (normalizeCountingType c.ctype c.states)

def Cfg.clauseKey (c : Cfg) : String :=
  match c.kind with
  | .classifier => "number_of_clauses_per_label"
  | .regressor => "number_of_regressor_clauses"

/-- The parameter map holds these values. -/
structure Reads (p : Params) (c : Cfg) : Prop where
  clauses : p.get? c.clauseKey = some (.int c.clauses)
  T : p.get? "threshold" = some (.int c.T)
  states : p.get? "number_of_states" = some (.int c.states)
  maxWeight : p.get? "max_weight" = some (.int c.maxWeight)
  s : p.get? "s" = some (.real (.fin c.s))
  boost : p.get? "boost_true_positive_feedback" = some (.int c.boost)
  weighted : p.get? "weighted" = some (.bool c.weighted)
  seed : p.get? "random_state" = some (.seed c.seed)
  ctype : p.get? "counting_type" = some (.str c.ctype)
  tile : p.get? "clause_output_tile_size" = some (.int c.tile)
  nJobs : p.get? "n_jobs" = some (.int c.nJobs)
  verbose : p.get? "verbose" = some (.bool c.verbose)
  loss : c.kind = .regressor → p.get? "loss_fn" = some (.str c.lossName)
  C1 : c.kind = .regressor → p.get? "loss_fn_C1" = some (.real c.C1)
  boxMuller : c.kind = .regressor → p.get? "box_muller" = some (.bool c.boxMuller)

/-- What the factories guarantee. -/
structure Valid (c : Cfg) : Prop where
  clauses : 0 < c.clauses
  div : c.clauses % (match c.kind with | .classifier => 4 | .regressor => 2) = 0
  clausesMax : c.clauses ≤ 2147483647
  T : 1 ≤ c.T
  TMax : c.T ≤ 2147483647
  states : 1 ≤ c.states
  statesMax : c.states ≤ 2147483647
  maxWeight : 1 ≤ c.maxWeight
  maxWeightMax : c.maxWeight ≤ 2147483647
  s : 1 ≤ c.s
  loss : c.kind = .regressor → c.lossName ∈ ["MAE", "L1", "MSE", "L2", "berHu", "L1+2"]

theorem Valid.two_k {c : Cfg} (h : Valid c) : (2 * c.k : Int) = c.clauses := by
  have h1 := h.div
  have h2 := h.clauses
  unfold Cfg.k
  cases hk : c.kind <;> rw [hk] at h1 <;> dsimp only at h1 <;> omega

theorem Valid.k_pos {c : Cfg} (h : Valid c) : 0 < c.k := by
  have := h.two_k; have := h.clauses; omega

theorem Valid.k_even {c : Cfg} (h : Valid c) (hk : c.kind = .classifier) : c.k % 2 = 0 := by
  have h1 := h.div
  have h2 := h.two_k
  rw [hk] at h1; dsimp only at h1; omega

theorem Valid.tdiv {c : Cfg} (h : Valid c) : c.clauses.tdiv 2 = (c.k : Int) := by
  have h2 := h.clauses
  rw [Int.tdiv_eq_ediv_of_nonneg (by omega)]
  unfold Cfg.k
  omega

theorem normalize_fits {c : Cfg} (h : Valid c) (ctn : String) :
    (ctypeOfName (normalizeCountingType ctn c.states)).Fits c.states := by
  have := h.statesMax
  have := h.states
  unfold normalizeCountingType
  split
  · simp only [ctypeOfName, CType.Fits, if_true, CType.modulus]; omega
  · split
    · simp [ctypeOfName, CType.Fits, CType.modulus]; omega
    · simp [ctypeOfName, CType.Fits, CType.modulus]; omega

/-- The abstract estimator. `shape` is (labels, features) once fitted; a regressor has one
"label". -/
structure SState (env : Env) where
  shape : Option (Nat × Nat)
  clauses : List Clause
  weights : List Nat
  igen : env.G
  fgen : env.F

/-- The two numbers a coin tosser is built from. -/
def ctNums (env : Env) (s : Rat) (nf : Nat) : Nat × Nat :=
  match CoinTosser.make env (.fin s) nf with
  | .ok ct => (ct.hitsFloor, ct.thr)
  | _ => (0, 0)

end Tsetlini
