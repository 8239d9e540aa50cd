import Verif.Spec.Clause
/-
Specification vocabulary for C65: probabilities as exact counts over all words a generator can yield.
-/
namespace Tsetlini.Spec

/-- For how many of the 2^32 words `p` holds. -/
def ways (p : BitVec 32 → Bool) : Nat := (List.range 4294967296).countP fun r => p (BitVec.ofNat 32 r)

/-- The probability of `p` if all words are equally likely. -/
def prob (p : BitVec 32 → Bool) : Rat := (ways p : Rat) / 4294967296

/-- The sum of `f` over all 2^32 words. -/
def total (f : BitVec 32 → Nat) : Nat := ((List.range 4294967296).map fun r => f (BitVec.ofNat 32 r)).sum

/-- The mean of `f` if all words are equally likely. -/
def mean (f : BitVec 32 → Nat) : Rat := (total f : Rat) / 4294967296

/-- As evenly as 2^32 words can be spread over `n` outcomes. -/
def Even (n c : Nat) : Prop := c = 4294967296 / n ∨ c = 4294967296 / n + 1

/-- `x` differs from `y` by at most `e`. -/
def Close (e x y : Rat) : Prop := x - y ≤ e ∧ y - x ≤ e

/-- Each of the `2 n` counters of each of the `count` clauses is decided by a number of its own of the stream `w`: -1 if `P` holds for that
number and 0 otherwise. `pos i f` and `neg i f` are the places in the stream. -/
def DrawnBy (P : BitVec 32 → Bool) (w : Nat → BitVec 32) (count n : Nat) (clauses : List Clause) : Prop :=
  ∃ pos neg : Nat → Nat → Nat,
    (∀ i f i' f', f < n → f' < n →
      (pos i f = pos i' f' → i = i' ∧ f = f') ∧ (neg i f = neg i' f' → i = i' ∧ f = f') ∧ pos i f ≠ neg i' f') ∧
    ∀ i < count, ∃ c, clauses[i]? = some c ∧ c.pos.length = n ∧ c.neg.length = n ∧ ∀ f < n,
      c.pos[f]? = some (if P (w (pos i f)) then -1 else 0) ∧ c.neg[f]? = some (if P (w (neg i f)) then -1 else 0)

end Tsetlini.Spec
