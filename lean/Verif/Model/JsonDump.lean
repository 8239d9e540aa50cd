import Verif.Model.Grisu
import Verif.Model.Params
/-
Writing JSON: `basic_json::dump()` of the vendored lib/src/json/json.hpp (version 3.11.2), with the arguments the library uses: no
indentation, `ensure_ascii = false`, strict error handling.  Text and strings are sequences of bytes, 0..255.
-/
namespace Tsetlini

/-- Bytes as the numbers 0..255. No counterpart in the code: `std::string`. -/
abbrev Bytes := List Nat

/-- The bytes of an ASCII literal. No counterpart in the code: string literals. -/
def ascii (s : String) : Bytes := s.toList.map Char.toNat

/-- `nlohmann::json` with byte strings, lib/src/json/json.hpp:19601-19640 (`json_value`).  An object is the list of the members of the
`std::map` in order.  A `double` is its value; the two zeros are one value here. Binary values do not occur. -/
inductive TVal where
  | null
  | bool (b : Bool)
  | unsigned (n : Nat)
  | integer (i : Int)
  | float (x : Fl)
  | str (s : Bytes)
  | arr (l : List TVal)
  | obj (l : List (Bytes × TVal))

/-! ### Strings -/

/-- The table `utf8d` of `decode`, lib/src/json/json.hpp:18789-18802: the class of each byte, then the transitions. -/
def utf8d : List Nat :=
  [0, 0, 0, 0, 0, 0, 0, 0, 0, 0, 0, 0, 0, 0, 0, 0, 0, 0, 0, 0, 0, 0, 0, 0, 0, 0, 0, 0, 0, 0, 0, 0,
   0, 0, 0, 0, 0, 0, 0, 0, 0, 0, 0, 0, 0, 0, 0, 0, 0, 0, 0, 0, 0, 0, 0, 0, 0, 0, 0, 0, 0, 0, 0, 0,
   0, 0, 0, 0, 0, 0, 0, 0, 0, 0, 0, 0, 0, 0, 0, 0, 0, 0, 0, 0, 0, 0, 0, 0, 0, 0, 0, 0, 0, 0, 0, 0,
   0, 0, 0, 0, 0, 0, 0, 0, 0, 0, 0, 0, 0, 0, 0, 0, 0, 0, 0, 0, 0, 0, 0, 0, 0, 0, 0, 0, 0, 0, 0, 0,
   1, 1, 1, 1, 1, 1, 1, 1, 1, 1, 1, 1, 1, 1, 1, 1, 9, 9, 9, 9, 9, 9, 9, 9, 9, 9, 9, 9, 9, 9, 9, 9,
   7, 7, 7, 7, 7, 7, 7, 7, 7, 7, 7, 7, 7, 7, 7, 7, 7, 7, 7, 7, 7, 7, 7, 7, 7, 7, 7, 7, 7, 7, 7, 7,
   8, 8, 2, 2, 2, 2, 2, 2, 2, 2, 2, 2, 2, 2, 2, 2, 2, 2, 2, 2, 2, 2, 2, 2, 2, 2, 2, 2, 2, 2, 2, 2,
   10, 3, 3, 3, 3, 3, 3, 3, 3, 3, 3, 3, 3, 4, 3, 3, 11, 6, 6, 6, 5, 8, 8, 8, 8, 8, 8, 8, 8, 8, 8, 8,
   0, 1, 2, 3, 5, 8, 7, 1, 1, 1, 4, 6, 1, 1, 1, 1, 1, 1, 1, 1, 1, 1, 1, 1, 1, 1, 1, 1, 1, 1, 1, 1,
   1, 0, 1, 1, 1, 1, 1, 0, 1, 0, 1, 1, 1, 1, 1, 1, 1, 2, 1, 1, 1, 1, 1, 2, 1, 2, 1, 1, 1, 1, 1, 1,
   1, 1, 1, 1, 1, 1, 1, 2, 1, 1, 1, 1, 1, 1, 1, 1, 1, 2, 1, 1, 1, 1, 1, 1, 1, 2, 1, 1, 1, 1, 1, 1,
   1, 1, 1, 1, 1, 1, 1, 3, 1, 3, 1, 1, 1, 1, 1, 1, 1, 3, 1, 1, 1, 1, 1, 3, 1, 3, 1, 1, 1, 1, 1, 1,
   1, 3, 1, 1, 1, 1, 1, 1, 1, 1, 1, 1, 1, 1, 1, 1]

/-- `decode`, lib/src/json/json.hpp:18784-18817: the new state and code point. -/
def utf8Decode (state codep byte : Nat) : Res (Nat × Nat) :=
  (rd utf8d byte).bind fun type =>
  let codep := if state ≠ 0 then byte % 64 ||| codep * 64 % 4294967296 else 255 / 2 ^ type &&& byte
  (rd utf8d (256 + state * 16 + type)).bind fun state => .ok (state, codep)

/-- The local variables of `dump_escaped` and the output; lib/src/json/json.hpp:18275-18283,18860. `buf` is the filled part of
`string_buffer`. -/
structure Escaper where
  out : Bytes
  buf : Bytes
  state : Nat
  codep : Nat

/-- Writing to `string_buffer`, 512 bytes, lib/src/json/json.hpp:18860; `extra` bytes more are written than counted (`snprintf` ends
with a NUL). -/
def putBytes (bs : Bytes) (extra : Nat) (e : Escaper) : Res Escaper :=
  if e.buf.length + bs.length + extra ≤ 512 then .ok { e with buf := e.buf ++ bs } else .ub .oob

/-- A hexadecimal digit as printed by `%x`. lib/src/json/json.hpp:18349 -/
def hexDigit (n : Nat) : Nat := if n < 10 then 48 + n else 87 + n

/-- `"\\u%04x"` of a number up to 0xFFFF. lib/src/json/json.hpp:18349 -/
def hexEscape (n : Nat) : Bytes :=
  [92, 117, hexDigit (n / 4096 % 16), hexDigit (n / 256 % 16), hexDigit (n / 16 % 16), hexDigit (n % 16)]

/-- What an accepted code point adds to the buffer, lib/src/json/json.hpp:18291-18372; `byte` is its last byte. -/
def putCodepoint (codep byte : Nat) (e : Escaper) : Res Escaper :=
  if codep = 0x08 then putBytes [92, 98] 0 e
  else if codep = 0x09 then putBytes [92, 116] 0 e
  else if codep = 0x0A then putBytes [92, 110] 0 e
  else if codep = 0x0C then putBytes [92, 102] 0 e
  else if codep = 0x0D then putBytes [92, 114] 0 e
  else if codep = 0x22 then putBytes [92, 34] 0 e
  else if codep = 0x5C then putBytes [92, 92] 0 e
  else if codep ≤ 0x1F then putBytes (hexEscape codep) 1 e
  else putBytes [byte] 0 e

/-- One byte of `dump_escaped`, lib/src/json/json.hpp:18285-18455. -/
def escapeByte (byte : Nat) (e : Escaper) : Res Escaper :=
  (utf8Decode e.state e.codep byte).bind fun (state, codep) =>
  let e := { e with state := state, codep := codep }
  if state = 0 then
    (putCodepoint codep byte e).bind fun e =>
    if 512 - e.buf.length < 13 then .ok { e with out := e.out ++ e.buf, buf := [] } else .ok e
  else if state = 1 then .exn .jsonError
  else putBytes [byte] 0 e

/-- `dump_escaped`, lib/src/json/json.hpp:18275-18518. -/
def dumpEscaped (s : Bytes) : Res Bytes :=
  (iter s escapeByte ⟨[], [], 0, 0⟩).bind fun e =>
  if e.state = 0 then .ok (e.out ++ e.buf) else .exn .jsonError

/-! ### Numbers -/

/-- The loop of `count_digits`, lib/src/json/json.hpp:18530-18554; `fuel` bounds the number of turns (`timeout`). -/
def countDigits : Nat → Nat → Nat → Res Nat
  | 0, _, _ => .timeout
  | fuel + 1, n, x =>
    if x < 10 then .ok n
    else if x < 100 then .ok (n + 1)
    else if x < 1000 then .ok (n + 2)
    else if x < 10000 then .ok (n + 3)
    else countDigits fuel (n + 4) (x / 10000)

/-- `*(--buffer_ptr) = c`: the buffer and the pointer. lib/src/json/json.hpp:18657-18669 -/
def putBack (c : Nat) (s : Bytes × Nat) : Res (Bytes × Nat) :=
  if s.2 = 0 then .ub .oob else (wr s.1 (s.2 - 1) c).bind fun buf => .ok (buf, s.2 - 1)

/-- The loop over pairs of digits of `dump_integer`, lib/src/json/json.hpp:18653-18659; `fuel` bounds the number of turns (`timeout`). -/
def putDigits : Nat → Nat → Bytes × Nat → Res (Bytes × Nat)
  | 0, _, _ => .timeout
  | fuel + 1, x, s =>
    if 100 ≤ x then
      (putBack (48 + x % 100 % 10) s).bind fun s => (putBack (48 + x % 100 / 10) s).bind fun s => putDigits fuel (x / 100) s
    else if 10 ≤ x then (putBack (48 + x % 10) s).bind fun s => putBack (48 + x / 10) s
    else putBack (48 + x) s

/-- `dump_integer`, lib/src/json/json.hpp:18598-18673, `number_buffer` of 64 bytes; the contents of the buffer from earlier calls, which
are overwritten, are taken as zeros. -/
def dumpInteger (x : Int) : Res Bytes :=
  if x = 0 then .ok [48] else
  let neg := decide (x < 0)
  let abs := x.natAbs
  (countDigits 20 1 abs).bind fun n =>
  let nChars := (if neg then 1 else 0) + n
  (jsonAssert (nChars < 63)).bind fun _ =>
  let buf : Bytes := List.replicate 64 0
  let buf := if neg then buf.set 0 45 else buf
  (putDigits 20 abs (buf, nChars)).bind fun s => .ok (s.1.take nChars)

/-- `append_exponent`, lib/src/json/json.hpp:17711-17750. -/
def appendExponent (e : Int) : Bytes :=
  let k := e.natAbs
  (if e < 0 then [45] else [43]) ++
    (if k < 10 then [48, 48 + k]
     else if k < 100 then [48 + k / 10, 48 + k % 10]
     else [48 + k / 100, 48 + k % 100 / 10, 48 + k % 100 % 10])

/-- `format_buffer`, lib/src/json/json.hpp:17763-17831, with `min_exp = -4` and `max_exp = 15`; the result as a list instead of moves within the buffer. -/
def formatBuffer (digits : Bytes) (exp10 : Int) : Bytes :=
  let k : Int := digits.length
  let n : Int := k + exp10
  if k ≤ n ∧ n ≤ 15 then digits ++ List.replicate (n - k).toNat 48 ++ [46, 48]
  else if 0 < n ∧ n ≤ 15 then digits.take n.toNat ++ [46] ++ digits.drop n.toNat
  else if -4 < n ∧ n ≤ 0 then [48, 46] ++ List.replicate (-n).toNat 48 ++ digits
  else if k = 1 then digits ++ [101] ++ appendExponent (n - 1)
  else digits.take 1 ++ [46] ++ digits.drop 1 ++ [101] ++ appendExponent (n - 1)

/-- `to_chars` of a finite `double`, lib/src/json/json.hpp:17848-17898; into 64 bytes (lib/src/json/json.hpp:18850). -/
def toChars (q : Rat) : Res Bytes :=
  let sign : Bytes := if q < 0 then [45] else []
  let q := if q < 0 then -q else q
  if q = 0 then .ok (sign ++ [48, 46, 48]) else
  (grisu2 q).bind fun (digits, e) =>
  (jsonAssert (digits.length ≤ 17)).bind fun _ =>
  let t := sign ++ formatBuffer digits e
  if t.length ≤ 64 then .ok t else .ub .oob

/-- `dump_float`, lib/src/json/json.hpp:18683-18710. -/
def dumpFloat : Fl → Res Bytes
  | .fin q => toChars q
  | _ => .ok (ascii "null")

/-! ### Values -/

mutual

/-- `dump`, lib/src/json/json.hpp:17991-18259, not pretty. -/
def dump : TVal → Res Bytes
  | .obj l => (dumpMembers l).bind fun t => .ok ([123] ++ t ++ [125])
  | .arr l => (dumpElements l).bind fun t => .ok ([91] ++ t ++ [93])
  | .str s => (dumpEscaped s).bind fun t => .ok ([34] ++ t ++ [34])
  | .bool b => .ok (if b then ascii "true" else ascii "false")
  | .integer i => dumpInteger i
  | .unsigned n => dumpInteger n
  | .float x => dumpFloat x
  | .null => .ok (ascii "null")

/-- The members of an object, each followed by a comma except the last, lib/src/json/json.hpp:18001-18005,18045-18066. -/
def dumpMembers : List (Bytes × TVal) → Res Bytes
  | [] => .ok []
  | m :: l => (dumpMember m).bind fun t => (dumpMembers l).bind fun u => .ok (t ++ (if l.isEmpty then [] else [44]) ++ u)

/-- A member, lib/src/json/json.hpp:18051-18054. -/
def dumpMember : Bytes × TVal → Res Bytes
  | (k, v) => (dumpEscaped k).bind fun t => (dump v).bind fun u => .ok ([34] ++ t ++ [34, 58] ++ u)

/-- The elements of an array, each followed by a comma except the last, lib/src/json/json.hpp:18074-18078,18111-18125. -/
def dumpElements : List TVal → Res Bytes
  | [] => .ok []
  | v :: l => (dump v).bind fun t => (dumpElements l).bind fun u => .ok (t ++ (if l.isEmpty then [] else [44]) ++ u)

end

end Tsetlini
