/- Specification vocabulary for `evaluate`. -/
namespace Tsetlini.Spec

/-- The number of positions of `ps` at which `y` does not hold the same value. -/
def mismatches (ps y : List Int) : Nat := ((List.range ps.length).filter fun i => decide (ps[i]? ≠ y[i]?)).length

end Tsetlini.Spec
