/-
IEEE 754 rounding to nearest, ties to even, on rationals: what the C++ types `float` and `double` do on
the usual machines (`real_type = float`, lib/include/tsetlini_types.hpp). Exponents are not bounded above:
results that would overflow to infinity are left as they are (see Model/Overflow.lean). Subnormal results are rounded as such.
Nothing in the other model files depends on this; it is one instance of `Env.rnd` and `Env.rnd64`.
-/
namespace Tsetlini

/-- Nearest integer, ties to even. No counterpart in the code: IEEE 754, roundTiesToEven, the rounding of `float` arithmetic. -/
def roundEven (x : Rat) : Int :=
  let f := x.floor
  let r := x - f
  if r < 1/2 then f else if 1/2 < r then f + 1 else if f % 2 = 0 then f else f + 1

/-- Binary exponent, counted from the least positive number `2^-q`, of the last digit of a `p`-digit number of the size of `x`.
No counterpart in the code: IEEE 754 number formats. -/
def lastDigit (p q : Nat) (x : Rat) : Nat := (x * (2 ^ q : Nat)).floor.toNat.log2 - (p - 1)

/-- Rounding of a non-negative `x` to `p` binary digits, at least `2^-q` apart. No counterpart in the code: IEEE 754, roundTiesToEven. -/
def rnePos (p q : Nat) (x : Rat) : Rat :=
  (roundEven (x * (2 ^ q : Nat) / (2 ^ lastDigit p q x : Nat)) : Rat) * (2 ^ lastDigit p q x : Nat) / (2 ^ q : Nat)

/-- Round to nearest even with `p` digits and least positive number `2^-q`. No counterpart in the code: IEEE 754, roundTiesToEven. -/
def rne (p q : Nat) (x : Rat) : Rat := if 0 ≤ x then rnePos p q x else - rnePos p q (-x)

/-- binary32. `real_type`, lib/include/tsetlini_types.hpp:23-25. -/
def rne32 : Rat → Rat := rne 24 149

/-- binary64. No counterpart in the code: the C++ type `double`. -/
def rne64 : Rat → Rat := rne 53 1074

end Tsetlini
