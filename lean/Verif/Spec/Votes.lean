import Verif.Spec.Clause
/-
Specification vocabulary for votes: scores of labels and regressor responses.
-/
namespace Tsetlini.Spec

/-- Effective weight of clause `o`: 1 plus the stored weight; 1 if there are no weights. -/
def weight (ws : List Nat) (o : Nat) : Int := 1 + (ws.getD o 0 : Int)

/-- Signed vote of clause `o` with output `v`: even clauses vote for, odd ones against. -/
def vote (ws : List Nat) (o : Nat) (v : Bool) : Int :=
  if v then (if o % 2 = 0 then weight ws o else - weight ws o) else 0

/-- Restrict `x` to `[lo, hi]`. -/
def clampTo (lo hi x : Int) : Int := max lo (min x hi)

/-- Score of label `l` whose `k` clauses are `l*k, ..., l*k+k-1`, with outputs `out`. -/
def score (out : Nat → Bool) (ws : List Nat) (k : Nat) (T : Int) (l : Nat) : Int :=
  clampTo (-T) T (((List.range' (l * k) k).map fun o => vote ws o (out o)).sum)

/-- Response of a regressor with `n` clauses. -/
def response (out : Nat → Bool) (ws : List Nat) (n : Nat) (T : Int) : Int :=
  clampTo 0 T (((List.range n).map fun o => if out o then weight ws o else 0).sum)

/-- `i` is the first position of the maximum of `l`. -/
def FirstMax (l : List Int) (i : Nat) : Prop :=
  ∃ m, l[i]? = some m ∧ (∀ v ∈ l, v ≤ m) ∧ ∀ j v, j < i → l[j]? = some v → v < m

/-- Output of clause `o` for sample `x` while training. -/
def outAt (cl : List Clause) (x : List Bool) (o : Nat) : Bool :=
  match cl[o]? with | some c => c.out x | none => false

/-- Output of clause `o` for sample `x` in prediction. -/
def outPrunedAt (cl : List Clause) (x : List Bool) (o : Nat) : Bool :=
  match cl[o]? with | some c => c.outPruned x | none => false

end Tsetlini.Spec
