import Verif.Model.JsonDump
import Verif.Model.Overflow
/-
Reading JSON: `json::parse(text)` of the vendored lib/src/json/json.hpp (version 3.11.2), with the arguments the library uses: no
callback, exceptions, no comments.  All errors are exceptions derived from `nlohmann::json::exception` (`exn jsonError`).  The decimal point of the
C library is taken to be '.'.  Positions and messages of errors are not modelled.
-/
namespace Tsetlini

/-! ### Strings -/

/-- What one turn of the loop of `scan_string` does: ends the string, adds bytes, or finds an error. lib/src/json/json.hpp:7555-8138 -/
inductive StrStep where
  | done (rest : Bytes)
  | add (bs rest : Bytes)
  | error
deriving DecidableEq, Repr

/-- The value of a hexadecimal digit, lib/src/json/json.hpp:7480-7493. -/
def hexValue (c : Nat) : Option Nat :=
  if 48 ≤ c ∧ c ≤ 57 then some (c - 48)
  else if 65 ≤ c ∧ c ≤ 70 then some (c - 55)
  else if 97 ≤ c ∧ c ≤ 102 then some (c - 87)
  else none

/-- `get_codepoint`, lib/src/json/json.hpp:7470-7501. -/
def getCodepoint : Bytes → Option (Nat × Bytes)
  | a :: b :: c :: d :: rest => do
    let a ← hexValue a
    let b ← hexValue b
    let c ← hexValue c
    let d ← hexValue d
    return (a * 4096 + b * 256 + c * 16 + d, rest)
  | _ => none

/-- The bytes added for a code point, lib/src/json/json.hpp:7683-7710. -/
def codepointBytes (cp : Nat) : Bytes :=
  if cp < 0x80 then [cp]
  else if cp ≤ 0x7FF then [0xC0 ||| cp / 64, 0x80 ||| cp % 64]
  else if cp ≤ 0xFFFF then [0xE0 ||| cp / 4096, 0x80 ||| cp / 64 % 64, 0x80 ||| cp % 64]
  else [0xF0 ||| cp / 262144, 0x80 ||| cp / 4096 % 64, 0x80 ||| cp / 64 % 64, 0x80 ||| cp % 64]

/-- A unicode escape after `\u`, lib/src/json/json.hpp:7620-7713. -/
def unicodeEscape (rest : Bytes) : StrStep :=
  match getCodepoint rest with
  | none => .error
  | some (c1, rest) =>
    if 0xD800 ≤ c1 ∧ c1 ≤ 0xDBFF then
      match rest with
      | 92 :: 117 :: rest =>
        match getCodepoint rest with
        | none => .error
        | some (c2, rest) =>
          if 0xDC00 ≤ c2 ∧ c2 ≤ 0xDFFF then .add (codepointBytes (c1 * 1024 + c2 - 0x35FDC00)) rest else .error
      | _ => .error
    else if 0xDC00 ≤ c1 ∧ c1 ≤ 0xDFFF then .error
    else .add (codepointBytes c1) rest

/-- An escape sequence after the backslash, lib/src/json/json.hpp:7584-7722. -/
def escapeSequence : Bytes → StrStep
  | [] => .error
  | c :: rest =>
    if c = 34 then .add [34] rest
    else if c = 92 then .add [92] rest
    else if c = 47 then .add [47] rest
    else if c = 98 then .add [8] rest
    else if c = 102 then .add [12] rest
    else if c = 110 then .add [10] rest
    else if c = 114 then .add [13] rest
    else if c = 116 then .add [9] rest
    else if c = 117 then unicodeEscape rest
    else .error

/-- `next_byte_in_range`, lib/src/json/json.hpp:7518-7538; `acc` is what has been added. -/
def nextInRange (acc : Bytes) : List (Nat × Nat) → Bytes → StrStep
  | [], rest => .add acc rest
  | _ :: _, [] => .error
  | r :: ranges, c :: rest => if r.1 ≤ c ∧ c ≤ r.2 then nextInRange (acc ++ [c]) ranges rest else .error

/-- One turn of the loop of `scan_string`, lib/src/json/json.hpp:7565-8137. -/
def strStep : Bytes → StrStep
  | [] => .error
  | c :: rest =>
    if c = 34 then .done rest
    else if c = 92 then escapeSequence rest
    else if c ≤ 0x1F then .error
    else if c ≤ 0x7F then .add [c] rest
    else if 0xC2 ≤ c ∧ c ≤ 0xDF then nextInRange [c] [(0x80, 0xBF)] rest
    else if c = 0xE0 then nextInRange [c] [(0xA0, 0xBF), (0x80, 0xBF)] rest
    else if (0xE1 ≤ c ∧ c ≤ 0xEC) ∨ c = 0xEE ∨ c = 0xEF then nextInRange [c] [(0x80, 0xBF), (0x80, 0xBF)] rest
    else if c = 0xED then nextInRange [c] [(0x80, 0x9F), (0x80, 0xBF)] rest
    else if c = 0xF0 then nextInRange [c] [(0x90, 0xBF), (0x80, 0xBF), (0x80, 0xBF)] rest
    else if 0xF1 ≤ c ∧ c ≤ 0xF3 then nextInRange [c] [(0x80, 0xBF), (0x80, 0xBF), (0x80, 0xBF)] rest
    else if c = 0xF4 then nextInRange [c] [(0x80, 0x8F), (0x80, 0xBF), (0x80, 0xBF)] rest
    else .error

/-- Token, lib/src/json/json.hpp:7339-7358, with its value. -/
inductive Tok where
  | literalTrue
  | literalFalse
  | literalNull
  | str (s : Bytes)
  | unsigned (n : Nat)
  | integer (i : Int)
  | float (x : Fl)
  | beginArray
  | beginObject
  | endArray
  | endObject
  | nameSeparator
  | valueSeparator
  | parseError
  | endOfInput

/-- The loop of `scan_string`, lib/src/json/json.hpp:7565-8137; `fuel` bounds the number of turns (`timeout`). -/
def scanString : Nat → Bytes → Bytes → Res (Tok × Bytes)
  | 0, _, _ => .timeout
  | fuel + 1, acc, rest =>
    match strStep rest with
    | .done rest => .ok (.str acc, rest)
    | .add bs rest => scanString fuel (acc ++ bs) rest
    | .error => .ok (.parseError, rest)

/-! ### Numbers -/

/-- The type of a number, lib/src/json/json.hpp:8277. -/
inductive NumType where
  | unsigned
  | integer
  | float
deriving DecidableEq

/-- The states of `scan_number`, lib/src/json/json.hpp:8312-8537. -/
inductive NumState where
  | minus
  | zero
  | any1
  | decimal1
  | decimal2
  | exponent
  | sign
  | any2
deriving DecidableEq

/-- What `scan_number` does with the next character. lib/src/json/json.hpp:8312-8537 -/
inductive NumMove where
  | next (st : NumState) (ty : NumType)
  | done
  | error

/-- Digits. lib/src/json/json.hpp:8366-8375 -/
def isDigit (c : Nat) : Bool := decide (48 ≤ c ∧ c ≤ 57)

/-- The transitions of `scan_number`, lib/src/json/json.hpp:8312-8537; `none` is the end of the input. -/
def numStep (ty : NumType) : NumState → Option Nat → NumMove
  | .minus, some c => if c = 48 then .next .zero ty else if isDigit c then .next .any1 ty else .error
  | .minus, none => .error
  | .zero, some c =>
    if c = 46 then .next .decimal1 .float else if c = 101 ∨ c = 69 then .next .exponent .float else .done
  | .zero, none => .done
  | .any1, some c =>
    if isDigit c then .next .any1 ty
    else if c = 46 then .next .decimal1 .float else if c = 101 ∨ c = 69 then .next .exponent .float else .done
  | .any1, none => .done
  | .decimal1, some c => if isDigit c then .next .decimal2 ty else .error
  | .decimal1, none => .error
  | .decimal2, some c =>
    if isDigit c then .next .decimal2 ty else if c = 101 ∨ c = 69 then .next .exponent .float else .done
  | .decimal2, none => .done
  | .exponent, some c => if c = 43 ∨ c = 45 then .next .sign ty else if isDigit c then .next .any2 ty else .error
  | .exponent, none => .error
  | .sign, some c => if isDigit c then .next .any2 ty else .error
  | .sign, none => .error
  | .any2, some c => if isDigit c then .next .any2 ty else .done
  | .any2, none => .done

/-- The automaton of `scan_number`, lib/src/json/json.hpp:8312-8543: the type, the characters of the number and what follows it. -/
def numLoop (st : NumState) (ty : NumType) (acc : Bytes) : Bytes → Option (NumType × Bytes × Bytes)
  | [] =>
    match numStep ty st none with
    | .done => some (ty, acc, [])
    | _ => none
  | c :: rest =>
    match numStep ty st (some c) with
    | .next st ty => numLoop st ty (acc ++ [c]) rest
    | .done => some (ty, acc, c :: rest)
    | .error => none

/-- The value of a sequence of digits. No counterpart in the code: `strtoull`, C standard. -/
def digitsValue (t : Bytes) : Nat := t.foldl (fun n c => n * 10 + (c - 48)) 0

/-- Powers of ten. No counterpart in the code: used for `strtod`. -/
def pow10 (e : Int) : Rat := if 0 ≤ e then ((10 ^ e.toNat : Nat) : Rat) else 1 / ((10 ^ (-e).toNat : Nat) : Rat)

/-- The exponent of a number after the mantissa. No counterpart in the code: `strtod`, C standard. -/
def exponentValue : Bytes → Int
  | 45 :: t => -(digitsValue t : Int)
  | 43 :: t => digitsValue t
  | t => digitsValue t

/-- The decimal number without sign that a text of a number writes. No counterpart in the code: `strtod`, C standard. -/
def decimalValue (t : Bytes) : Rat :=
  let int := t.takeWhile isDigit
  let t := t.dropWhile isDigit
  let frac := if t.head? = some 46 then (t.drop 1).takeWhile isDigit else []
  let t := if t.head? = some 46 then (t.drop 1).dropWhile isDigit else t
  let e := if t.head? = some 101 ∨ t.head? = some 69 then exponentValue (t.drop 1) else 0
  (digitsValue (int ++ frac) : Rat) * pow10 (e - frac.length)

/-- `std::strtod` of the text of a number: correctly rounded, infinite on overflow; used at lib/src/json/json.hpp:8220-8223,8587.
No counterpart in the code: C standard, IEC 60559 implementations. -/
def strtod : Bytes → Fl
  | 45 :: t => f64 (-decimalValue t)
  | t => f64 (decimalValue t)

/-- The conversion at the end of `scan_number`, lib/src/json/json.hpp:8545-8592.  `strtoull` and `strtoll` report a number that does not fit. -/
def numberToken (ty : NumType) (t : Bytes) : Tok :=
  match ty with
  | .unsigned => if digitsValue t ≤ 18446744073709551615 then .unsigned (digitsValue t) else .float (strtod t)
  | .integer => if digitsValue (t.drop 1) ≤ 9223372036854775808 then .integer (-(digitsValue (t.drop 1) : Int)) else .float (strtod t)
  | .float => .float (strtod t)

/-- `scan_number`, lib/src/json/json.hpp:8270-8592; `c` is the first character. -/
def scanNumber (c : Nat) (rest : Bytes) : Tok × Bytes :=
  let st : NumState := if c = 45 then .minus else if c = 48 then .zero else .any1
  let ty : NumType := if c = 45 then .integer else .unsigned
  match numLoop st ty [c] rest with
  | some (ty, t, rest) => (numberToken ty t, rest)
  | none => (.parseError, [])

/-! ### Tokens -/

/-- `scan_literal`, lib/src/json/json.hpp:8601-8614, after the first character. -/
def scanLiteral (tok : Tok) : Bytes → Bytes → Tok × Bytes
  | [], rest => (tok, rest)
  | _ :: _, [] => (.parseError, [])
  | c :: lit, d :: rest => if d = c then scanLiteral tok lit rest else (.parseError, rest)

/-- `skip_whitespace`, lib/src/json/json.hpp:8801-8808. -/
def skipWhitespace : Bytes → Bytes
  | c :: rest => if c = 32 ∨ c = 9 ∨ c = 10 ∨ c = 13 then skipWhitespace rest else c :: rest
  | [] => []

/-- The switch of `scan`, lib/src/json/json.hpp:8834-8897. -/
def scanToken : Bytes → Res (Tok × Bytes)
  | [] => .ok (.endOfInput, [])
  | c :: rest =>
    if c = 91 then .ok (.beginArray, rest)
    else if c = 93 then .ok (.endArray, rest)
    else if c = 123 then .ok (.beginObject, rest)
    else if c = 125 then .ok (.endObject, rest)
    else if c = 58 then .ok (.nameSeparator, rest)
    else if c = 44 then .ok (.valueSeparator, rest)
    else if c = 116 then .ok (scanLiteral .literalTrue (ascii "rue") rest)
    else if c = 102 then .ok (scanLiteral .literalFalse (ascii "alse") rest)
    else if c = 110 then .ok (scanLiteral .literalNull (ascii "ull") rest)
    else if c = 34 then scanString (rest.length + 1) [] rest
    else if c = 45 ∨ isDigit c then .ok (scanNumber c rest)
    else if c = 0 then .ok (.endOfInput, rest)
    else .ok (.parseError, rest)

/-- `scan` of all tokens but the first, lib/src/json/json.hpp:8810-8898. -/
def scan (t : Bytes) : Res (Tok × Bytes) := scanToken (skipWhitespace t)

/-- `scan` of the first token, with `skip_bom`, lib/src/json/json.hpp:8787-8799,8810-8818. -/
def scanFirst : Bytes → Res (Tok × Bytes)
  | 0xEF :: t =>
    match t with
    | 0xBB :: 0xBF :: t => scan t
    | _ => .ok (.parseError, [])
  | t => scan t

/-! ### Values -/

/-- The order of `std::map<std::string, ...>`: bytes compared as unsigned numbers, lexicographically. lib/src/json/json.hpp:19500-19515 -/
def bytesLt : Bytes → Bytes → Bool
  | _, [] => false
  | [], _ :: _ => true
  | a :: s, b :: t => decide (a < b) || decide (a = b) && bytesLt s t

/-- `object[key] = value`: in place, or a new member at its place in the order, lib/src/json/json.hpp:6809-6817,6894-6897. -/
def setMember (k : Bytes) (v : TVal) : List (Bytes × TVal) → List (Bytes × TVal)
  | [] => [(k, v)]
  | m :: l => if bytesLt k m.1 then (k, v) :: m :: l else if k = m.1 then (k, v) :: l else m :: setMember k v l

/-- A container that is being parsed: an element of `states` and the value `ref_stack` points to, lib/src/json/json.hpp:6869-6905,12282. -/
inductive Frame where
  | arr (l : List TVal)
  | obj (l : List (Bytes × TVal)) (key : Bytes)

/-- Where the loop of `sax_parse_internal` goes on: with the next token, or after its end. lib/src/json/json.hpp:12278-12556 -/
inductive Next where
  | go (tok : Tok) (rest : Bytes) (stack : List Frame)
  | done (v : TVal) (rest : Bytes)

/-- A key and the colon, then the next token, lib/src/json/json.hpp:12310-12335,12508-12531; `tok` is where the key should be. -/
def parseKey (tok : Tok) (rest : Bytes) (l : List (Bytes × TVal)) (stack : List Frame) : Res Next :=
  match tok with
  | .str k =>
    (scan rest).bind fun
    | (.nameSeparator, rest) => (scan rest).bind fun (tok, rest) => .ok (.go tok rest (.obj l k :: stack))
    | _ => .exn .jsonError
  | _ => .exn .jsonError

/-- After a value, lib/src/json/json.hpp:12463-12555: it is stored (lib/src/json/json.hpp:6878-6898) and the containers that end here are closed. -/
def afterValue : List Frame → TVal → Bytes → Res Next
  | [], v, rest => .ok (.done v rest)
  | .arr l :: stack, v, rest =>
    (scan rest).bind fun
    | (.valueSeparator, rest) => (scan rest).bind fun (tok, rest) => .ok (.go tok rest (.arr (l ++ [v]) :: stack))
    | (.endArray, rest) => afterValue stack (.arr (l ++ [v])) rest
    | _ => .exn .jsonError
  | .obj l k :: stack, v, rest =>
    (scan rest).bind fun
    | (.valueSeparator, rest) => (scan rest).bind fun (tok, rest) => parseKey tok rest (setMember k v l) stack
    | (.endObject, rest) => afterValue stack (.obj (setMember k v l)) rest
    | _ => .exn .jsonError

/-- The start of a value, lib/src/json/json.hpp:12288-12457. -/
def parseValue (tok : Tok) (rest : Bytes) (stack : List Frame) : Res Next :=
  match tok with
  | .beginObject =>
    (scan rest).bind fun
    | (.endObject, rest) => afterValue stack (.obj []) rest
    | (tok, rest) => parseKey tok rest [] stack
  | .beginArray =>
    (scan rest).bind fun
    | (.endArray, rest) => afterValue stack (.arr []) rest
    | (tok, rest) => .ok (.go tok rest (.arr [] :: stack))
  | .float (.fin q) => afterValue stack (.float (.fin q)) rest
  | .float _ => .exn .jsonError
  | .literalFalse => afterValue stack (.bool false) rest
  | .literalNull => afterValue stack .null rest
  | .literalTrue => afterValue stack (.bool true) rest
  | .integer i => afterValue stack (.integer i) rest
  | .str s => afterValue stack (.str s) rest
  | .unsigned n => afterValue stack (.unsigned n) rest
  | _ => .exn .jsonError

/-- The loop of `sax_parse_internal`, lib/src/json/json.hpp:12286-12556; `fuel` bounds the number of turns (`timeout`). -/
def parseLoop : Nat → Next → Res (TVal × Bytes)
  | _, .done v rest => .ok (v, rest)
  | 0, .go _ _ _ => .timeout
  | fuel + 1, .go tok rest stack => (parseValue tok rest stack).bind (parseLoop fuel)

/-- `parser(...).parse(strict = true, result)`, lib/src/json/json.hpp:12191-12243 (also `json::parse`, 23186-23194): nothing may follow the value. -/
def parse (text : Bytes) : Res TVal :=
  (scanFirst text).bind fun (tok, rest) =>
  (parseLoop (text.length + 1) (.go tok rest [])).bind fun (v, rest) =>
  (scan rest).bind fun
  | (.endOfInput, _) => .ok v
  | _ => .exn .jsonError

end Tsetlini
