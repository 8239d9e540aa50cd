/-
Rounding to nearest, ties to even, as IEEE 754 prescribes it (section 4.3.1), without reference to how it is computed.
-/
namespace Tsetlini.Spec

/-- A number of at most `p` binary digits that is a multiple of `2^-q`: the values of a binary format with precision `p` and least positive number `2^-q`, if its
greatest exponent were unbounded. -/
def InFormat (p q : Nat) (d : Rat) : Prop := ∃ (m : Int) (k : Nat), m.natAbs < 2 ^ p ∧ d * (2 ^ q : Nat) = m * (2 ^ k : Nat)

/-- Its last digit is even: with all `p` digits, or, for the least numbers, as a multiple of `2^-q`. -/
def EvenLast (p q : Nat) (d : Rat) : Prop :=
  ∃ (m : Int) (k : Nat), m.natAbs < 2 ^ p ∧ d * (2 ^ q : Nat) = m * (2 ^ k : Nat) ∧ (k = 0 ∨ 2 ^ (p - 1) ≤ m.natAbs) ∧ m % 2 = 0

/-- `y` is `x` rounded: no other number of the format is nearer, and if another is as near, the last digit of `y` is even. -/
structure Rounds (p q : Nat) (x y : Rat) : Prop where
  format : InFormat p q y
  nearest : ∀ d, InFormat p q d → (x - y).abs ≤ (x - d).abs
  ties : ∀ d, InFormat p q d → d ≠ y → (x - d).abs = (x - y).abs → EvenLast p q y

/-- Rounding to `double`: infinite if the rounded number is at least `2^1024`. -/
def RoundsDouble (x y : Rat) : Prop := Rounds 53 1074 x y ∧ y.abs < (2 ^ 1024 : Nat)

/-- Rounding to `float`: infinite if the rounded number is at least `2^128`. -/
def RoundsFloat (x y : Rat) : Prop := Rounds 24 149 x y ∧ y.abs < (2 ^ 128 : Nat)

end Tsetlini.Spec
