import Verif.Model.Env
/-
The normal deviate of lib/src/box_muller_approx.cpp.  The two tables are filled by `std::cos`, `std::log` and
`std::sqrt` of the standard library, whose results C++ does not prescribe; they are parameters here.
-/
namespace Tsetlini

/-- What lib/src/box_muller_approx.cpp takes from the standard library. lib/src/box_muller_approx.cpp:42-77 -/
structure BmTables where
  /-- `sqrt_log_u1_arr`, lib/src/box_muller_approx.cpp:62-77; according to the comment there 3.331389 at 0 -/
  radius : Nat → Rat
  /-- `sin_u2_arr`, lib/src/box_muller_approx.cpp:42-59; according to the comment there -0.999925 at 127 -/
  angle : Nat → Rat
  /-- `std::sqrt(float)` of a number that is not negative -/
  sqrt : Rat → Rat

/-- `box_muller::normal`, lib/src/box_muller_approx.cpp:80-91, as a function of the draw: the low byte of the draw selects
the radius, the next byte the angle. `none` is NaN, the square root of a negative variance. -/
def bmNormal (rnd : Rat → Rat) (t : BmTables) (mean variance : Rat) (r : BitVec 32) : Option Rat :=
  if variance < 0 then none else
  let n1 := rnd (t.radius (r.toNat % 256) * t.angle (r.toNat / 256 % 256))
  some (rnd (mean + rnd (t.sqrt variance * n1)))

end Tsetlini
