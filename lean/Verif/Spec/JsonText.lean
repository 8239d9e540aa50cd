import Verif.Model.JsonParse
/-
What texts and values of JSON are, for C70..C72: UTF-8, `double`s, well-formed values, and what a value is after it was written and read.
-/
namespace Tsetlini.Spec

/-- A Unicode scalar value. -/
def Scalar (c : Nat) : Prop := c ≤ 0xD7FF ∨ (0xE000 ≤ c ∧ c ≤ 0x10FFFF)

/-- The UTF-8 encoding of a scalar value (RFC 3629, section 3). -/
def utf8 (c : Nat) : List Nat :=
  if c ≤ 0x7F then [c]
  else if c ≤ 0x7FF then [0xC0 + c / 64, 0x80 + c % 64]
  else if c ≤ 0xFFFF then [0xE0 + c / 4096, 0x80 + c / 64 % 64, 0x80 + c % 64]
  else [0xF0 + c / 262144, 0x80 + c / 4096 % 64, 0x80 + c / 64 % 64, 0x80 + c % 64]

/-- A byte string is UTF-8: the encodings of some scalar values, one after the other. -/
def Utf8 (s : List Nat) : Prop := ∃ cs : List Nat, (∀ c ∈ cs, Scalar c) ∧ s = cs.flatMap utf8

/-- Bytes. -/
def AreBytes (s : List Nat) : Prop := ∀ b ∈ s, b < 256

/-- A value of the type `double`: an integer of at most 53 binary digits times a power of two, within the range of the exponent. -/
def Double (q : Rat) : Prop := ∃ (m : Int) (k : Nat), m.natAbs < 2 ^ 53 ∧ k ≤ 2045 ∧ q * (2 ^ 1074 : Nat) = m * (2 ^ k : Nat)

/-- A value a C++ program can hold: integers of 64 bits, `double`s, strings of bytes, objects with their keys in order and only once. -/
inductive Wide : TVal → Prop
  | null : Wide .null
  | bool (b : Bool) : Wide (.bool b)
  | unsigned {n : Nat} : n < 2 ^ 64 → Wide (.unsigned n)
  | integer {i : Int} : -2 ^ 63 ≤ i → i < 2 ^ 63 → Wide (.integer i)
  | finite {q : Rat} : Double q → Wide (.float (.fin q))
  | inf (neg : Bool) : Wide (.float (.inf neg))
  | nan : Wide (.float .nan)
  | str {s : Bytes} : AreBytes s → Wide (.str s)
  | arr {l : List TVal} : (∀ v ∈ l, Wide v) → Wide (.arr l)
  | obj {l : List (Bytes × TVal)} : (∀ m ∈ l, Wide m.2) → (∀ m ∈ l, AreBytes m.1) → (l.map (·.1)).Pairwise (· < ·) → Wide (.obj l)

/-- All strings in the value, keys included, are UTF-8. -/
inductive Encoded : TVal → Prop
  | null : Encoded .null
  | bool (b : Bool) : Encoded (.bool b)
  | unsigned (n : Nat) : Encoded (.unsigned n)
  | integer (i : Int) : Encoded (.integer i)
  | float (x : Fl) : Encoded (.float x)
  | str {s : Bytes} : Utf8 s → Encoded (.str s)
  | arr {l : List TVal} : (∀ v ∈ l, Encoded v) → Encoded (.arr l)
  | obj {l : List (Bytes × TVal)} : (∀ m ∈ l, Encoded m.2) → (∀ m ∈ l, Utf8 m.1) → Encoded (.obj l)

/-- A value without infinities and NaN and without positive numbers of the signed type: those that a text can write (`-0` is a zero of the signed type). -/
inductive Written : TVal → Prop
  | null : Written .null
  | bool (b : Bool) : Written (.bool b)
  | unsigned (n : Nat) : Written (.unsigned n)
  | integer {i : Int} : i ≤ 0 → Written (.integer i)
  | finite (q : Rat) : Written (.float (.fin q))
  | str (s : Bytes) : Written (.str s)
  | arr {l : List TVal} : (∀ v ∈ l, Written v) → Written (.arr l)
  | obj {l : List (Bytes × TVal)} : (∀ m ∈ l, Written m.2) → Written (.obj l)

/-- No non-negative number is of the signed type. -/
inductive Unsigned : TVal → Prop
  | null : Unsigned .null
  | bool (b : Bool) : Unsigned (.bool b)
  | unsigned (n : Nat) : Unsigned (.unsigned n)
  | integer {i : Int} : i < 0 → Unsigned (.integer i)
  | float (x : Fl) : Unsigned (.float x)
  | str (s : Bytes) : Unsigned (.str s)
  | arr {l : List TVal} : (∀ v ∈ l, Unsigned v) → Unsigned (.arr l)
  | obj {l : List (Bytes × TVal)} : (∀ m ∈ l, Unsigned m.2) → Unsigned (.obj l)

mutual

/-- What is read back: a non-negative number of the signed type as unsigned, an infinity or NaN as null, all else as it was. -/
def reread : TVal → TVal
  | .integer i => if 0 ≤ i then .unsigned i.toNat else .integer i
  | .float (.fin q) => .float (.fin q)
  | .float _ => .null
  | .arr l => .arr (rereadAll l)
  | .obj l => .obj (rereadMembers l)
  | v => v

/-- Each element. -/
def rereadAll : List TVal → List TVal
  | [] => []
  | v :: l => reread v :: rereadAll l

/-- Each member. -/
def rereadMembers : List (Bytes × TVal) → List (Bytes × TVal)
  | [] => []
  | m :: l => rereadMember m :: rereadMembers l

/-- The value of a member. -/
def rereadMember : Bytes × TVal → Bytes × TVal
  | (k, v) => (k, reread v)

end

end Tsetlini.Spec
