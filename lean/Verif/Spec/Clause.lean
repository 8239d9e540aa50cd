/-
Specification vocabulary for clauses: what a Tsetlin machine clause is, without any
reference to how the library stores or evaluates it.
-/
namespace Tsetlini.Spec

/-- A clause over `n` features: one counter per positive literal `x_f` and one per negated
literal `¬x_f`. -/
structure Clause where
  pos : List Int
  neg : List Int
deriving DecidableEq, Repr

/-- The literal whose counter is at index `f` of `row` is included: its counter is
non-negative. -/
def Includes (row : List Int) (f : Nat) : Prop := ∃ c, row[f]? = some c ∧ 0 ≤ c

instance (row : List Int) (f : Nat) : Decidable (Includes row f) :=
  match h : row[f]? with
  | some c => if h0 : 0 ≤ c then .isTrue ⟨c, h, h0⟩
    else .isFalse fun ⟨d, hd, h1⟩ => h0 (by rw [h] at hd; cases hd; exact h1)
  | none => .isFalse fun ⟨d, hd, _⟩ => by rw [h] at hd; cases hd

/-- Value of feature `f` of the sample. -/
def val (x : List Bool) (f : Nat) : Bool := x.getD f false

/-- The conjunction of the included literals is true for `x`. -/
def Clause.Holds (c : Clause) (x : List Bool) : Prop :=
  ∀ f, f < x.length →
    (Includes c.pos f → val x f = true) ∧ (Includes c.neg f → val x f = false)

/-- At least one literal is included. -/
def Clause.NonEmpty (c : Clause) (n : Nat) : Prop :=
  ∃ f, f < n ∧ (Includes c.pos f ∨ Includes c.neg f)

instance (c : Clause) (x : List Bool) : Decidable (c.Holds x) :=
  inferInstanceAs (Decidable (∀ f, f < x.length → _))

instance (c : Clause) (n : Nat) : Decidable (c.NonEmpty n) :=
  inferInstanceAs (Decidable (∃ f, f < n ∧ _))

/-- Clause output while training. -/
def Clause.out (c : Clause) (x : List Bool) : Bool := decide (c.Holds x)

/-- Clause output in prediction: an empty clause outputs 0. -/
def Clause.outPruned (c : Clause) (x : List Bool) : Bool :=
  decide (c.Holds x ∧ c.NonEmpty x.length)

/-- All counters lie in `[-N, N-1]`. -/
def InRange (N : Int) (row : List Int) : Prop := ∀ c ∈ row, -N ≤ c ∧ c ≤ N - 1

/-- A clause over `n` features with counters in `[-N, N-1]`. -/
structure Clause.WF (N : Int) (n : Nat) (c : Clause) : Prop where
  posLen : c.pos.length = n
  negLen : c.neg.length = n
  posRange : InRange N c.pos
  negRange : InRange N c.neg

end Tsetlini.Spec
