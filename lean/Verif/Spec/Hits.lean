import Verif.Spec.Training
/-
Specification vocabulary for C48: how many clauses a regressor trains in one step.
-/
namespace Tsetlini.Spec

/-- A number an `unsigned int` can hold. -/
def IsUnsigned (z : Int) : Prop := 0 ≤ z ∧ z < 4294967296

/-- `hits` is a number of hits for `n` clauses and the loss `p`, all float operations rounded: `n * p` to the nearest integer, but at
most `n`; less than a half hit is a hit or none, by chance. With Box-Muller the number is a normal deviate for that mean and the
variance of a binomial distribution. A loss that is no number hits nothing. -/
def Hits (env : Env) (boxMuller : Bool) (n : Nat) (p : Fl) (hits : Nat) : Prop :=
  if boxMuller then
    ∃ v d z, p = .fin v ∧
      env.normal (env.rnd (env.rnd n * v)) (env.rnd (env.rnd (env.rnd n * v) * env.rnd (1 - v))) d = some z ∧
      IsUnsigned (roundHalfAway z) ∧ (hits : Int) = min (roundHalfAway z) n
  else
    match p with
    | .fin v =>
      let np := env.rnd (env.rnd n * v)
      (1/2 ≤ np → (hits : Int) = min (roundHalfAway np) n) ∧ (np < 1/2 → hits ≤ 1 ∧ hits ≤ n) ∧ (np ≤ 0 → hits = 0)
    | _ => hits = 0

/-- The loss `p` has no number of hits: the conversion to `unsigned int` is undefined. `d` is the draw that Box-Muller uses. -/
def NoHits (env : Env) (boxMuller : Bool) (n : Nat) (p : Fl) (d : BitVec 32) : Prop :=
  if boxMuller then
    ∀ v z, p = .fin v → env.normal (env.rnd (env.rnd n * v)) (env.rnd (env.rnd (env.rnd n * v) * env.rnd (1 - v))) d = some z →
      ¬ IsUnsigned (roundHalfAway z)
  else p = .inf false ∨ ∃ v, p = .fin v ∧ 4294967296 ≤ roundHalfAway (env.rnd (env.rnd n * v))

/-- `n` is the whole number nearest to `q`; halfway between two, the one farther from zero. -/
def Nearest (q : Rat) (n : Int) : Prop :=
  if 0 ≤ q then n - 1/2 ≤ q ∧ q < n + 1/2 else n - 1/2 < q ∧ q ≤ n + 1/2

end Tsetlini.Spec
