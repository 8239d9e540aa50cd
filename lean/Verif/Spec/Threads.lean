import Verif.Model.Threads
/-
Specification vocabulary for parallel loops: executions, data races.
-/
namespace Tsetlini.Spec

/-- The memory locations the threads share. -/
inductive Loc where
  | cell (row col : Nat)
  | sample (f : Nat)
  | out (o : Nat)
deriving DecidableEq

variable {C S : Type}

/-- The shared location a thread accesses next, and whether it writes there. -/
def access (t : Thread C S) : Option (Loc × Bool) :=
  match t.cur with
  | some (o, .ret _) => some (.out o, true)
  | some (_, .cell r c _) => some (.cell r c, false)
  | some (_, .sample f _) => some (.sample f, false)
  | _ => none

/-- Two threads are about to access the same location, one of them to write. -/
def DataRace (R : Region C S) : Prop :=
  ∃ (i j : Nat) (ti tj : Thread C S) (l : Loc) (wi wj : Bool), i ≠ j ∧ R.threads[i]? = some ti ∧ R.threads[j]? = some tj ∧
    access ti = some (l, wi) ∧ access tj = some (l, wj) ∧ (wi = true ∨ wj = true)

/-- A team about to execute the iterations `a..b-1`: any number of threads, each iteration given to one
of them, in any order. -/
def TeamOf (a b : Nat) (out : List Bool) (R : Region C S) : Prop :=
  R.out = out ∧ (∀ t ∈ R.threads, t.cur = none) ∧ (R.threads.flatMap (·.todo)).Perm (range a b)

/-- All threads are at the barrier. -/
def Joined (R : Region C S) : Prop := ∀ t ∈ R.threads, t.cur = none ∧ t.todo = []

/-- Some thread's next action is undefined behaviour. -/
def Faulty (rows : List (List C)) (x : List S) (body : Nat → ThreadCode C S Bool) (R : Region C S) : Prop :=
  ∃ t ∈ R.threads, ∃ r, t.step rows x body R.out = some r ∧ ∀ p, r ≠ .ok p

/-- An execution of `n` actions, interleaved in any way. -/
inductive Execution (rows : List (List C)) (x : List S) (body : Nat → ThreadCode C S Bool) : Nat → Region C S → Region C S → Prop
  | refl (R) : Execution rows x body 0 R R
  | step {n R R' R''} : Execution rows x body n R R' → Region.Step rows x body R' R'' → Execution rows x body (n + 1) R R''

/-- The parallel loop over `a..b-1` is correct: for every team, whatever the interleaving of the actions of its
threads, no data race and no undefined behaviour arises, the team never blocks before all threads are at the
barrier, is there after a number of actions that does not depend on the interleaving, and then
`clause_output` is `result`. -/
def ParallelOk (rows : List (List C)) (x : List S) (body : Nat → ThreadCode C S Bool) (a b : Nat) (out result : List Bool) : Prop :=
  ∀ R₀, TeamOf a b out R₀ → ∃ total, (∃ R, Execution rows x body total R₀ R) ∧ ∀ n R, Execution rows x body n R₀ R →
    ¬ DataRace R ∧ ¬ Faulty rows x body R ∧ n ≤ total ∧ (Joined R ↔ n = total) ∧
    (¬ Joined R → ∃ R', Region.Step rows x body R R') ∧ (Joined R → R.out = result)

end Tsetlini.Spec
