/-
Specification vocabulary for bit storage: bit `f` of a sequence of 64-bit blocks,
least significant bit first.
-/
namespace Tsetlini.Spec

/-- Bit `f` of the blocks; `false` outside. -/
def bitAt (v : List (BitVec 64)) (f : Nat) : Bool := (v.getD (f / 64) 0#64).getLsbD (f % 64)

/-- A polarity row mirrors a row of counters: bit `f` is set iff counter `f` exists and is
non-negative; all other bits are 0. -/
def Mirrors (row : List Int) (p : List (BitVec 64)) : Prop :=
  ∀ f, bitAt p f = true ↔ ∃ c, row[f]? = some c ∧ 0 ≤ c

end Tsetlini.Spec
