import Verif.Model.CoinTosser
/-
Specification vocabulary for C66: counting the tapes of words that lead to an outcome.
-/
namespace Tsetlini.Spec

/-- The words below the largest multiple of `n`: all but fewer than `n` of the 2^32 words. On these, each remainder modulo `n` is equally
frequent. -/
def fairWords (n : Nat) : List (BitVec 32) := (List.range (n * (4294967296 / n))).map (BitVec.ofNat 32)

/-- All sequences of `m` words of `A`. -/
def tapes {α : Type} (A : List α) : Nat → List (List α)
  | 0 => [[]]
  | m + 1 => A.flatMap fun w => (tapes A m).map (w :: ·)

/-- `load ws` is a generator that yields the words `ws`, in this order. -/
def Loads (env : Env) (load : List (BitVec 32) → env.G) : Prop := ∀ w ws, env.next (load (w :: ws)) = (w, load ws)

/-- The call ends with a result. -/
def ended {α : Type} : Res α → Bool
  | .ok _ => true
  | _ => false

/-- The toss ends and marks feature `f`. -/
def marksFeature {γ : Type} (f : Nat) : Res (List Bool × γ) → Bool
  | .ok (l, _) => l[f]? == some true
  | _ => false

end Tsetlini.Spec
