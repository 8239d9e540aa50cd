import Verif.Model.Params
/-
Values of nlohmann::json as the library meets them: what `json::parse` can produce and what
`get<T>()` makes of them (lib/src/json/json.hpp, vendored, version 3.11.2).  The text format
(printer and parser) is modelled in JsonDump and JsonParse.
-/
namespace Tsetlini

/-- `nlohmann::json`.  An object lists its members in iteration order, which for the default
`std::map` container is the sorted order of the keys.  Numbers written without a fraction or
an exponent are `unsigned` when non-negative, `integer` when negative; the others are finite
`double`s (the parser rejects numbers that overflow).
No counterpart in the code: the JSON library used by lib/src/tsetlini_params.cpp:85-180 and lib/src/tsetlini_state_json.cpp:1-310. -/
inductive JVal where
  | null
  | bool (b : Bool)
  | unsigned (n : Nat)
  | integer (i : Int)
  | float (q : Rat)
  | str (s : String)
  | arr (l : List JVal)
  | obj (l : List (String × JVal))

/-- The machine the factories query, as far as numbers are concerned: conversion of a JSON
number to `real_type` and `std::to_string(real_type)`. Conversions at lib/src/tsetlini_params.cpp:158-163 and lib/src/tsetlini_state_json.cpp:293,306. -/
structure RealIO where
  toReal : Rat → Fl
  toStr : Fl → String

/-- `get<int>()`: `from_json(j, ArithmeticType &)`, lib/src/json/json.hpp:4896-4936.  Integers
are narrowed modulo 2^32, booleans become 0/1, a `double` is truncated (undefined when out of
range), everything else throws. -/
def JVal.getInt : JVal → Res Int
  | .unsigned n => .ok ((n : Int).bmod 4294967296)
  | .integer i => .ok (i.bmod 4294967296)
  | .float q =>
    let t : Int := if 0 ≤ q then q.floor else -((-q).floor)
    if -2147483648 ≤ t ∧ t ≤ 2147483647 then .ok t else .ub .floatConv
  | .bool b => .ok (if b then 1 else 0)
  | _ => .exn .jsonError

/-- `get<seed_type>()` (`unsigned int`), lib/src/json/json.hpp:4896-4936. -/
def JVal.getSeed : JVal → Res (BitVec 32)
  | .unsigned n => .ok (BitVec.ofNat 32 n)
  | .integer i => .ok (BitVec.ofInt 32 i)
  | .float q =>
    let t : Int := if 0 ≤ q then q.floor else -((-q).floor)
    if 0 ≤ t ∧ t ≤ 4294967295 then .ok (BitVec.ofInt 32 t) else .ub .floatConv
  | .bool b => .ok (if b then 1#32 else 0#32)
  | _ => .exn .jsonError

/-- `get<real_type>()` (`float`), lib/src/json/json.hpp:4896-4936. -/
def JVal.getReal (io : RealIO) : JVal → Res Fl
  | .unsigned n => .ok (io.toReal n)
  | .integer i => .ok (io.toReal i)
  | .float q => .ok (io.toReal q)
  | .bool b => .ok (io.toReal (if b then 1 else 0))
  | _ => .exn .jsonError

/-- `get<bool>()`, lib/src/json/json.hpp:4640-4647. -/
def JVal.getBool : JVal → Res Bool
  | .bool b => .ok b
  | _ => .exn .jsonError

/-- `get<std::string>()`, lib/src/json/json.hpp:4650-4657. -/
def JVal.getStr : JVal → Res String
  | .str s => .ok s
  | _ => .exn .jsonError

end Tsetlini
