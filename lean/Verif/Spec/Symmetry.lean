import Verif.Spec.Training
/-
Specification vocabulary for C85: when two models say the same in other words.
-/
namespace Tsetlini.Spec

/-- The clause includes the literal "feature `f` is `b`". -/
def Clause.Has (c : Clause) (f : Nat) (b : Bool) : Prop := Includes (if b then c.pos else c.neg) f

/-- `c'` says in the words of `τ` what `c` says: feature `f` is called `(τ f).1` and is complemented if `(τ f).2`. Only what is included
matters, not the values of counters. -/
def Reworded (τ : Nat → Nat × Bool) (c c' : Clause) : Prop :=
  (∀ f b, c.Has f b → c'.Has (τ f).1 (b != (τ f).2)) ∧
  ∀ g b', c'.Has g b' → ∃ f b, c.Has f b ∧ (τ f).1 = g ∧ (b != (τ f).2) = b'

/-- `x'` is `x` in the words of `τ`, as far as the features go that some clause mentions. -/
def SameSample (τ : Nat → Nat × Bool) (cs : List Clause) (x x' : List Bool) : Prop :=
  ∀ c ∈ cs, ∀ f b, c.Has f b → val x' (τ f).1 = (val x f != (τ f).2)

/-- The `k` clauses of label `l` in `m` are, in the words of `τ`, those of label `l'` in `m'`: clause `i` is clause `σ i`, which has
its weight. -/
structure SameRules (τ : Nat → Nat × Bool) (k : Nat) (m m' : Learned) (l l' : Nat) (σ : Nat → Nat) : Prop where
  owner : ∀ i, Owns k l i → Owns k l' (σ i)
  inj : ∀ i j, Owns k l i → Owns k l j → σ i = σ j → i = j
  weight : ∀ i, Owns k l i → weight m'.weights (σ i) = weight m.weights i
  clause : ∀ i, Owns k l i → ∃ c c', m.clauses[i]? = some c ∧ m'.clauses[σ i]? = some c' ∧ Reworded τ c c'

/-- Each clause that votes for (against) a label is matched by one that votes for (against) its counterpart. -/
def KeepsSign (k l : Nat) (σ : Nat → Nat) : Prop := ∀ i, Owns k l i → σ i % 2 = i % 2

end Tsetlini.Spec
