import Verif.Model.BitOutputs
import Verif.Spec.Bits
/-
Specification vocabulary for parallel loops that store into a bit vector.
-/
namespace Tsetlini.Spec

/-- The memory locations the threads share. -/
inductive BitLoc where
  | cell (row col : Nat)
  | sample (f : Nat)
  | block (q : Nat)
deriving DecidableEq

variable {C S : Type}

/-- The shared location a thread accesses next, and whether it writes there. -/
def bitAccess (t : BitThread C S) : Option (BitLoc × Bool) :=
  match t.cur with
  | some (o, .run (.ret _)) => some (.block (o / 64), false)
  | some (_, .run (.cell r c _)) => some (.cell r c, false)
  | some (_, .run (.sample f _)) => some (.sample f, false)
  | some (o, .store _) => some (.block (o / 64), true)
  | _ => none

/-- Two threads are about to access the same location, one of them to write. -/
def BitRace (R : BitRegion C S) : Prop :=
  ∃ (i j : Nat) (ti tj : BitThread C S) (l : BitLoc) (wi wj : Bool), i ≠ j ∧ R.threads[i]? = some ti ∧ R.threads[j]? = some tj ∧
    bitAccess ti = some (l, wi) ∧ bitAccess tj = some (l, wj) ∧ (wi = true ∨ wj = true)

/-- A team about to execute the iterations `a..b-1`: any number of threads, each iteration given to one
of them, in any order. -/
def BitTeamOf (a b : Nat) (out : List (BitVec 64)) (R : BitRegion C S) : Prop :=
  R.out = out ∧ (∀ t ∈ R.threads, t.cur = none) ∧ (R.threads.flatMap (·.todo)).Perm (range a b)

/-- No block of the bit vector holds bits of iterations of two threads. -/
def Apart (R : BitRegion C S) : Prop :=
  ∀ (i j : Nat) (ti tj : BitThread C S), i ≠ j → R.threads[i]? = some ti → R.threads[j]? = some tj →
    ∀ o ∈ ti.todo, ∀ p ∈ tj.todo, o / 64 ≠ p / 64

/-- All threads are at the barrier. -/
def BitJoined (R : BitRegion C S) : Prop := ∀ t ∈ R.threads, t.cur = none ∧ t.todo = []

/-- Some thread's next action is undefined behaviour. -/
def BitFaulty (rows : List (List C)) (x : List S) (body : Nat → ThreadCode C S Bool) (R : BitRegion C S) : Prop :=
  ∃ t ∈ R.threads, ∃ r, t.step rows x body R.out = some r ∧ ∀ p, r ≠ .ok p

/-- An execution of `n` actions, interleaved in any way. -/
inductive BitExecution (rows : List (List C)) (x : List S) (body : Nat → ThreadCode C S Bool) : Nat → BitRegion C S → BitRegion C S → Prop
  | refl (R) : BitExecution rows x body 0 R R
  | step {n R R' R''} : BitExecution rows x body n R R' → BitRegion.Step rows x body R' R'' → BitExecution rows x body (n + 1) R R''

end Tsetlini.Spec
