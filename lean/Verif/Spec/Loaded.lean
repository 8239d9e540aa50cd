import Verif.Spec.Saved
/- A model given by its numbers. -/
namespace Tsetlini.Spec

/-- `cl` and `ws` are the clauses and weights of a model with parameters `p` for `labels` labels (a regressor has one) and `n` features: the right number of clauses,
one counter in range for each literal, one weight in range for each clause (or none at all), small enough for the library's 32-bit sizes. -/
structure ModelOf (k : Kind) (p : Params) (labels n : Nat) (cl : List Clause) (ws : List Nat) : Prop where
  someLabel : 1 ≤ labels
  oneLabel : k = .regressor → labels = 1
  clauses : ∀ C : Int, IntParam p (clauseParam k) C → (cl.length : Int) = labels * (C / 2)
  literals : ∀ c ∈ cl, c.pos.length = n ∧ c.neg.length = n
  range : ∀ N, IntParam p "number_of_states" N → ∀ c ∈ cl, ∀ v, v ∈ c.pos ∨ v ∈ c.neg → -N ≤ v ∧ v ≤ N - 1
  weights : ∀ w, p.get? "weighted" = some (.bool w) → ws.length = if w then cl.length else 0
  weightRange : ∀ M, IntParam p "max_weight" M → ∀ w ∈ ws, (w : Int) + 1 ≤ M
  fewFeatures : n < 1073741808
  small : 2 * cl.length * (n + 64) < 4294967296
  few : 2 * cl.length ≤ 2147483647

/-- The document with the value of one parameter replaced. -/
def withSetting (key : String) (j : JVal) : JVal → JVal
  | .obj l => .obj (l.map fun e => if e.1 = "params" then (e.1, match e.2 with
    | .obj ps => .obj (ps.map fun m => if m.1 = key then (key, j) else m)
    | v => v) else e)
  | v => v

/-- Settings a trained estimator `st` may be given: parameter, text, value.  Not among them are those that its automata and weights have the shape of (the number of clauses, of labels and of
features, weighted and counting_type); number_of_states and max_weight must leave room for the counters and weights there are. -/
inductive Setting (a : Algo) (k : Kind) {env : Env} (st : EstState a.backend env) : String → JVal → PVal → Prop
  | threshold {n : Nat} : 1 ≤ n → n ≤ 2147483647 → Setting a k st "threshold" (.unsigned n) (.int n)
  | s {q : Rat} : 1 ≤ q → env.rnd q = q → Setting a k st "s" (.float q) (.real (.fin q))
  | boost {n : Nat} : n ≤ 1 → Setting a k st "boost_true_positive_feedback" (.unsigned n) (.int n)
  | nJobs {n : Nat} : 1 ≤ n → n ≤ 2147483647 → Setting a k st "n_jobs" (.unsigned n) (.int n)
  | verbose {b : Bool} : Setting a k st "verbose" (.bool b) (.bool b)
  | tileSize {n : Nat} : n ∈ [16, 32, 64, 128] → Setting a k st "clause_output_tile_size" (.unsigned n) (.int n)
  | seed {v : BitVec 32} : Setting a k st "random_state" (.unsigned v.toNat) (.seed v)
  | lossFn {v : String} : k = .regressor → v ∈ ["MSE", "L2", "MAE", "L1", "berHu", "L1+2"] → Setting a k st "loss_fn" (.str v) (.str v)
  | lossC1 {q : Rat} : k = .regressor → env.rnd q = q → Setting a k st "loss_fn_C1" (.float q) (.real (.fin q))
  | boxMuller {b : Bool} : k = .regressor → Setting a k st "box_muller" (.bool b) (.bool b)
  | maxWeight {n : Nat} : 1 ≤ n → n ≤ 2147483647 → (∀ w ∈ st.ta.weights, w + 1 ≤ n) → Setting a k st "max_weight" (.unsigned n) (.int n)
  | states {n : Nat} : 1 ≤ n → n ≤ 2147483647 → (∀ row ∈ a.counters st, ∀ c ∈ row, -n ≤ c ∧ c ≤ (n : Int) - 1) →
      (∀ ct N, st.params.get? "counting_type" = some (.str ct) → IntParam st.params "number_of_states" N → counterWidth ct n = counterWidth ct N) →
      Setting a k st "number_of_states" (.unsigned n) (.int n)

end Tsetlini.Spec
