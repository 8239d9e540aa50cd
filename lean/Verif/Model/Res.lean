/-
Outcomes of modelled C++ code.

Every modelled function that can leave the defined, exception-free part of C++
returns a `Res`.  `ub` and `exn` are distinct outcomes, they are never mapped to
a default value.
-/
namespace Tsetlini

/-- Kinds of undefined behaviour the model tells apart. No counterpart in the code: undefined behaviour in the sense of the C++ standard. -/
inductive UB where
  /-- access outside a `std::vector` or outside the logical row of a matrix -/
  | oob
  /-- integer division or remainder by zero -/
  | divZero
  /-- signed integer overflow -/
  | overflow
  /-- shift by an amount not smaller than the width -/
  | shift
  /-- conversion of a floating point value outside the range of the target integer type -/
  | floatConv
  /-- dereferencing an iterator of an empty range -/
  | emptyRange
  /-- access to, or destruction of, an object that is not alive (such as the other member of a union) -/
  | lifetime
deriving DecidableEq, Repr

/-- C++ exceptions that can leave the API. No counterpart in the code: exceptions of the standard library and of the JSON library. -/
inductive Exn where
  /-- `std::out_of_range` from `unordered_map::at` -/
  | outOfRange
  /-- `std::bad_variant_access` from `std::get` on a variant -/
  | badVariant
  /-- `nlohmann::detail::type_error` / `out_of_range` -/
  | jsonError
  /-- `std::exit` -/
  | exit
  /-- `std::length_error` from `std::vector::resize` -/
  | lengthError
  /-- `std::bad_alloc`, or any other exception of an allocator -/
  | badAlloc
deriving DecidableEq, Repr

/-- Outcome of a piece of code. `timeout`: a loop ran out of the fuel given to it, the coin tosser's
rejection loop (the environment's fuel) or the loops of the JSON parser (which never do, C72). No counterpart in the code: the outcome of running C++ code. -/
inductive Res (α : Type) where
  | ok (a : α)
  | ub (u : UB)
  | exn (e : Exn)
  | timeout
deriving DecidableEq, Repr

namespace Res

/-- No counterpart in the code: the C++ statement sequence `x; f`. -/
def bind {α β : Type} (r : Res α) (f : α → Res β) : Res β :=
  match r with
  | ok a => f a
  | ub u => ub u
  | exn e => exn e
  | timeout => timeout

/-- No counterpart in the code: the C++ statement sequence, for Lean's `do`. -/
instance : Monad Res where
  pure := ok
  bind := bind

/-- Total-correctness predicate: the code neither is undefined nor throws, and if
it terminates within the fuel then its value satisfies `P`. No counterpart in the code: used in statements. -/
def Post {α : Type} (P : α → Prop) : Res α → Prop
  | ok a => P a
  | ub _ => False
  | exn _ => False
  | timeout => True

/-- Partial-correctness predicate: if the code returns normally its value satisfies `P`. No counterpart in the code: used in statements. -/
def IfOk {α : Type} (P : α → Prop) : Res α → Prop
  | ok a => P a
  | _ => True

/-- Two outcomes are of the same kind, with `R`-related values if normal. No counterpart in the code: used in statements. -/
def Rel {α β : Type} (R : α → β → Prop) : Res α → Res β → Prop
  | ok a, ok b => R a b
  | ub u, ub v => u = v
  | exn u, exn v => u = v
  | timeout, timeout => True
  | _, _ => False

end Res

/-- Checked read `v[i]`. No counterpart in the code: the rule for `operator[]` of vectors and pointers. -/
def rd {α : Type} (l : List α) (i : Nat) : Res α :=
  match l[i]? with
  | some a => .ok a
  | none => .ub .oob

/-- Checked write `v[i] = a`. No counterpart in the code: the rule for `operator[]` of vectors and pointers. -/
def wr {α : Type} (l : List α) (i : Nat) (a : α) : Res (List α) :=
  if i < l.length then .ok (l.set i a) else .ub .oob

/-- `for (i : l) s = f(i, s)`. No counterpart in the code: the C++ `for` statement. -/
def iter {ι σ : Type} : List ι → (ι → σ → Res σ) → σ → Res σ
  | [], _, s => .ok s
  | i :: is, f, s => (f i s).bind (iter is f)

/-- The indices `a, a+1, ..., b-1` of `for (i = a; i < b; ++i)`. No counterpart in the code: the C++ `for` statement. -/
def range (a b : Nat) : List Nat := List.range' a (b - a)

/-- Result of a signed 32-bit computation: undefined when it does not fit. No counterpart in the code: the rule for `int` arithmetic. -/
def i32 (x : Int) : Res Int :=
  if -2147483648 ≤ x ∧ x ≤ 2147483647 then .ok x else .ub .overflow

/-- Result of a signed 64-bit computation: undefined when it does not fit. No counterpart in the code: the rule for `int64_t` arithmetic. -/
def i64 (x : Int) : Res Int :=
  if -9223372036854775808 ≤ x ∧ x ≤ 9223372036854775807 then .ok x else .ub .overflow

end Tsetlini
