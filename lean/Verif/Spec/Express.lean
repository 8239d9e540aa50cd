import Verif.Spec.Loaded
/- Models given by a table: what is said of the expressive power of estimators. -/
namespace Tsetlini.Spec

/-- The samples of `n` features, numbered: sample `i` has the binary digits of `i` for features, the lowest first. -/
def sampleOf : Nat → Nat → List Bool
  | 0, _ => []
  | n + 1, i => decide (i % 2 = 1) :: sampleOf n (i / 2)

/-- The clause that is true for the sample `y` only: it includes the literals that are true of it. -/
def exactly (y : List Bool) : Clause := ⟨y.map fun b => if b then 0 else -1, y.map fun b => if b then -1 else 0⟩

/-- A clause that is true for no sample of `n` features, at least one: it includes all literals. -/
def never (n : Nat) : Clause := ⟨List.replicate n 0, List.replicate n 0⟩

/-- The clauses of a table: of each label, the clauses that vote for it are, in turn, true for just those samples that have the label, and those that vote against it for just the others;
`k` clauses for each label. -/
def tableOf (n k labels : Nat) (f : List Bool → Nat) : List Clause :=
  (List.range (labels * k)).map fun o =>
    let y := sampleOf n (o / 2 % 2 ^ n)
    if (o % 2 = 0) ↔ (f y = o / k) then exactly y else never n

/-- For a regressor with `k` clauses: as many clauses are true for a sample as its response is. -/
def responsesOf (n k : Nat) (f : List Bool → Nat) : List Clause :=
  (List.range k).map fun o =>
    let y := sampleOf n (o % 2 ^ n)
    if o / 2 ^ n < f y then exactly y else never n

end Tsetlini.Spec
