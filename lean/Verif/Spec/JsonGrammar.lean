import Verif.Spec.JsonText
import Verif.Spec.Rounding
/-
The grammar of JSON (RFC 8259) and what its texts denote, for C75.  It refers to no code of the model but the type of values.
-/
namespace Tsetlini.Spec

/-- White space (section 2). -/
def Blank (t : Bytes) : Prop := ∀ c ∈ t, c = 32 ∨ c = 9 ∨ c = 10 ∨ c = 13

/-! ### Strings (section 7) -/

/-- A hexadecimal digit and its value. -/
inductive HexDigit : Nat → Nat → Prop
  | digit {n : Nat} : n ≤ 9 → HexDigit (48 + n) n
  | upper {n : Nat} : 10 ≤ n → n ≤ 15 → HexDigit (65 + (n - 10)) n
  | lower {n : Nat} : 10 ≤ n → n ≤ 15 → HexDigit (97 + (n - 10)) n

/-- Four hexadecimal digits and their value. -/
inductive Hex4 : Bytes → Nat → Prop
  | mk {a b c d m n o p : Nat} : HexDigit a m → HexDigit b n → HexDigit c o → HexDigit d p → Hex4 [a, b, c, d] (((m * 16 + n) * 16 + o) * 16 + p)

/-- The characters that may follow a backslash, and what they stand for. -/
def shortEscapes : List (Nat × Nat) := [(34, 34), (92, 92), (47, 47), (98, 8), (102, 12), (110, 10), (114, 13), (116, 9)]

/-- One character of a string: its text and the Unicode scalar value it stands for. -/
inductive CharText : Bytes → Nat → Prop
  /-- Any character but control characters, the quotation mark and the backslash, in UTF-8. -/
  | plain {c : Nat} : Scalar c → 0x20 ≤ c → c ≠ 34 → c ≠ 92 → CharText (utf8 c) c
  /-- A backslash and a character. -/
  | short {e c : Nat} : (e, c) ∈ shortEscapes → CharText [92, e] c
  /-- `\uXXXX`. -/
  | hex {t : Bytes} {c : Nat} : Hex4 t c → Scalar c → CharText ([92, 117] ++ t) c
  /-- `\uXXXX\uXXXX`, a surrogate pair. -/
  | pair {t u : Bytes} {hi lo : Nat} : Hex4 t hi → Hex4 u lo → 0xD800 ≤ hi → hi ≤ 0xDBFF → 0xDC00 ≤ lo → lo ≤ 0xDFFF →
      CharText ([92, 117] ++ t ++ [92, 117] ++ u) (0x10000 + (hi - 0xD800) * 0x400 + (lo - 0xDC00))

/-- What is between the quotation marks of a string, and the UTF-8 encoding of what it stands for. -/
inductive StringText : Bytes → Bytes → Prop
  | nil : StringText [] []
  | cons {t u s : Bytes} {c : Nat} : CharText t c → StringText u s → StringText (t ++ u) (utf8 c ++ s)

/-! ### Numbers (section 6) -/

/-- At least one digit. -/
def DigitsText (t : Bytes) : Prop := t ≠ [] ∧ ∀ c ∈ t, 48 ≤ c ∧ c ≤ 57

/-- The value of digits. -/
def digitsNumber : Bytes → Nat
  | [] => 0
  | c :: t => (c - 48) * 10 ^ t.length + digitsNumber t

/-- `int`: no leading zero. -/
def IntText (t : Bytes) : Prop := DigitsText t ∧ (t.head? = some 48 → t = [48])

/-- `[ frac ]`: the text and the digits after the point. -/
inductive FracText : Bytes → Bytes → Prop
  | none : FracText [] []
  | some {t : Bytes} : DigitsText t → FracText ([46] ++ t) t

/-- `[ exp ]`: the text and the exponent. -/
inductive ExpText : Bytes → Int → Prop
  | none : ExpText [] 0
  | plain {e : Nat} {t : Bytes} : e = 101 ∨ e = 69 → DigitsText t → ExpText ([e] ++ t) (digitsNumber t)
  | plus {e : Nat} {t : Bytes} : e = 101 ∨ e = 69 → DigitsText t → ExpText ([e, 43] ++ t) (digitsNumber t)
  | minus {e : Nat} {t : Bytes} : e = 101 ∨ e = 69 → DigitsText t → ExpText ([e, 45] ++ t) (-(digitsNumber t : Int))

/-- The number that an integer part, a fraction and an exponent of ten denote. -/
def decimal (int frac : Bytes) (e : Int) : Rat := (digitsNumber (int ++ frac) : Rat) * (10 : Rat) ^ (e - frac.length)

/-- A number and its value: an integer, if there is neither fraction nor exponent and it fits 64 bits, otherwise the nearest `double`, which must be finite. -/
inductive NumberText : Bytes → TVal → Prop
  | nat {t : Bytes} : IntText t → digitsNumber t < 2 ^ 64 → NumberText t (.unsigned (digitsNumber t))
  | neg {t : Bytes} : IntText t → digitsNumber t ≤ 2 ^ 63 → NumberText ([45] ++ t) (.integer (-(digitsNumber t : Int)))
  | real {int frac exp ds : Bytes} {e : Int} {q : Rat} : IntText int → FracText frac ds → ExpText exp e →
      frac ++ exp ≠ [] ∨ 2 ^ 64 ≤ digitsNumber int → RoundsDouble (decimal int ds e) q → NumberText (int ++ frac ++ exp) (.float (.fin q))
  | negReal {int frac exp ds : Bytes} {e : Int} {q : Rat} : IntText int → FracText frac ds → ExpText exp e →
      frac ++ exp ≠ [] ∨ 2 ^ 63 < digitsNumber int → RoundsDouble (-decimal int ds e) q → NumberText ([45] ++ int ++ frac ++ exp) (.float (.fin q))

/-! ### Values (sections 3 to 5) -/

/-- An element of an array: white space, a value, white space. -/
structure Item where
  before : Bytes
  text : Bytes
  after : Bytes
  value : TVal

/-- Its text. -/
def Item.all (x : Item) : Bytes := x.before ++ x.text ++ x.after

/-- A member of an object: white space, a string, white space, a colon, white space, a value, white space. -/
structure Member where
  before : Bytes
  key : Bytes
  name : Bytes
  middle : Bytes
  item : Item

/-- Its text. -/
def Member.all (x : Member) : Bytes := x.before ++ [34] ++ x.key ++ [34] ++ x.middle ++ [58] ++ x.item.all

/-- Texts with commas between them. -/
def commas : List Bytes → Bytes
  | [] => []
  | [t] => t
  | t :: ts => t ++ [44] ++ commas ts

/-- The members of an object with these members in this order: of members with the same name the last counts; they are held in the order of their names. -/
def Members (ms l : List (Bytes × TVal)) : Prop :=
  (l.map (·.1)).Pairwise (· < ·) ∧ ∀ k v, (k, v) ∈ l ↔ ∃ a b, ms = a ++ (k, v) :: b ∧ ∀ m ∈ b, m.1 ≠ k

/-- A value: its text, without white space around it, and what it denotes. -/
inductive ValueText : Bytes → TVal → Prop
  | null : ValueText [110, 117, 108, 108] .null
  | true : ValueText [116, 114, 117, 101] (.bool true)
  | false : ValueText [102, 97, 108, 115, 101] (.bool false)
  | number {t : Bytes} {v : TVal} : NumberText t v → ValueText t v
  | str {t s : Bytes} : StringText t s → ValueText ([34] ++ t ++ [34]) (.str s)
  | noItems {w : Bytes} : Blank w → ValueText ([91] ++ w ++ [93]) (.arr [])
  | arr {xs : List Item} : xs ≠ [] → (∀ x ∈ xs, Blank x.before ∧ Blank x.after) → (∀ x ∈ xs, ValueText x.text x.value) →
      ValueText ([91] ++ commas (xs.map Item.all) ++ [93]) (.arr (xs.map Item.value))
  | noMembers {w : Bytes} : Blank w → ValueText ([123] ++ w ++ [125]) (.obj [])
  | obj {xs : List Member} {l : List (Bytes × TVal)} : xs ≠ [] →
      (∀ x ∈ xs, Blank x.before ∧ StringText x.key x.name ∧ Blank x.middle ∧ Blank x.item.before ∧ Blank x.item.after) →
      (∀ x ∈ xs, ValueText x.item.text x.item.value) → Members (xs.map fun x => (x.name, x.item.value)) l →
      ValueText ([123] ++ commas (xs.map Member.all) ++ [125]) (.obj l)

/-- A JSON text: a value with white space around it (section 2). -/
def JsonText (t : Bytes) (v : TVal) : Prop := ∃ a u b, t = a ++ u ++ b ∧ Blank a ∧ ValueText u v ∧ Blank b

/-- What the library takes for a JSON text: a byte order mark may precede it, and a NUL byte ends it, whatever follows. -/
def ReadText (t : Bytes) (v : TVal) : Prop :=
  ∃ bom u tail, t = bom ++ u ++ tail ∧ (bom = [] ∨ bom = [0xEF, 0xBB, 0xBF]) ∧ JsonText u v ∧ (tail = [] ∨ tail.head? = some 0)

end Tsetlini.Spec
