import Verif.Model.Log
import Verif.Model.JsonDump
/-
The text of the log: lib/src/logger.hpp:30-80,112-119,144-158 and the statements of lib/src/tsetlini_state.cpp:24-120,
lib/src/tsetlini.cpp:701,863.  A statement collects its text in a string stream with the default format flags and
hands it to `std::clog` at its end (lib/src/logger.hpp:67-73,115).
-/
namespace Tsetlini

/-- The digits of a number, last one first. -/
def digitsBack : Nat → Nat → Bytes
  | 0, _ => []
  | fuel + 1, n => if n < 10 then [48 + n] else (48 + n % 10) :: digitsBack fuel (n / 10)

/-- `operator<<` of an unsigned number; lib/src/tsetlini_state.cpp:39,75, lib/src/tsetlini.cpp:701,863. -/
def putNat (n : Nat) : Bytes := (digitsBack (n + 1) n).reverse

/-- `operator<<` of an `int`; lib/src/tsetlini_state.cpp:26-38,60-74. -/
def putInt (i : Int) : Bytes := if i < 0 then 45 :: putNat i.natAbs else putNat i.natAbs

/-- How many digits a number has, none for 0. -/
def sizeOfNat (n : Nat) : Nat := if n = 0 then 0 else (putNat n).length

/-- The exponent `e` with `10^e ≤ q < 10^(e+1)`, for a positive number. -/
def exp10 (q : Rat) : Int := if 1 ≤ q then (sizeOfNat q.floor.toNat : Int) - 1 else -(sizeOfNat ((1 / q).ceil.toNat - 1) : Int)

/-- The six significant digits and the exponent of the first of them, for a positive number. -/
def sixDigits (q : Rat) : Nat × Int :=
  let e := exp10 q
  let m := (roundEven (q * (10 : Rat) ^ (5 - e))).toNat
  if m = 1000000 then (100000, e + 1) else (m, e)

/-- Digits without the zeros at their end. -/
def stripZeros (t : Bytes) : Bytes := (t.reverse.dropWhile (· == 48)).reverse

/-- A fraction: nothing when it has no digits. -/
def putFraction (t : Bytes) : Bytes := if stripZeros t = [] then [] else 46 :: stripZeros t

/-- The exponent: a sign and at least two digits. -/
def putExponent (e : Int) : Bytes :=
  101 :: (if e < 0 then 45 else 43) :: (if e.natAbs < 10 then [48, 48 + e.natAbs] else putNat e.natAbs)

/-- `%g` of a positive number. -/
def putPositive (q : Rat) : Bytes :=
  let (m, e) := sixDigits q
  let ds := putNat m
  if e < -4 ∨ 6 ≤ e then ds.take 1 ++ putFraction (ds.drop 1) ++ putExponent e
  else if 0 ≤ e then ds.take (e.toNat + 1) ++ putFraction (ds.drop (e.toNat + 1))
  else 48 :: putFraction (List.replicate (-e - 1).toNat 48 ++ ds)

/-- `operator<<` of a `float` (`%g` with six significant digits; the exact value is rounded, ties to even); lib/src/tsetlini_state.cpp:29,62,71.
The sign of a NaN and of a zero is not modelled. -/
def putReal : Fl → Bytes
  | .fin q => if q = 0 then [48] else if q < 0 then 45 :: putPositive (-q) else putPositive q
  | .nan => ascii "nan"
  | .inf neg => if neg then ascii "-inf" else ascii "inf"

/-- What is printed of a parameter's value: `strong::ostreamable` prints the wrapped value, and a `bool` is printed as a number.  No
statement prints an absent value. lib/src/tsetlini_state.cpp:26-39,60-75 -/
def valueText : PVal → Bytes
  | .int i => putInt i
  | .seed s => putNat s.toNat
  | .real v => putReal v
  | .bool b => if b then [49] else [48]
  | .str s => ascii s
  | .none => []

/-- One statement: level and module (lib/src/logger.hpp:30-44,58-64; lib/src/tsetlini.cpp:1, lib/src/tsetlini_state.cpp:1), the message
(lib/src/tsetlini_state.cpp:26-39,60-75,104-115, lib/src/tsetlini.cpp:701,863), the end of the line. -/
def lineText : LogLine → Bytes
  | .param name v => ascii "INFO:tsetlini-core:" ++ ascii name ++ ascii ": " ++ valueText v ++ [10]
  | .selected ct => ascii "TRACE:tsetlini-core:Selected " ++ ascii ct ++ ascii " for ta_state" ++ [10]
  | .epoch n => ascii "INFO:tsetlini:Epoch " ++ putNat n ++ [10]

/-- What is written to `std::clog`. lib/src/logger.hpp:67-73,115 -/
def logText (l : List LogLine) : Bytes := l.flatMap lineText

end Tsetlini
