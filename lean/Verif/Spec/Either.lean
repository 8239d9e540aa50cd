import Verif.Model.Either
/-
What programs that handle results should do, in terms of plain values: `Except L R` for `Either<L, R>` (`error` for a left value, `ok` for a
right one) and `Option` for `Maybe`.
-/
namespace Tsetlini.Spec

/-- The results a program holds — `none` for one that has been destroyed — and how many times the program's functions have been called. -/
structure Holding (L R : Type) where
  vars : List (Option (Except L R))
  calls : Nat

/-- Number of results a program holds. -/
def Holding.living (h : Holding L R) : Nat := (h.vars.filter Option.isSome).length

/-- What a move leaves behind of a result: it stays on its side, with a value of the moved-from kind. -/
def leavings (mL : L → L) (mR : R → R) : Except L R → Except L R
  | .error l => .error (mL l)
  | .ok r => .ok (mR r)

/-- `leftFlatMap` on values. -/
def orElse (e : Except L R) (f : L → Except L' R) : Except L' R :=
  match e with
  | .error l => f l
  | .ok r => .ok r

/-- Construct one more result. -/
def Holding.add (h : Holding L R) (e : Except L R) : Holding L R := { h with vars := h.vars ++ [some e] }

/-- Construct one more result `e` from variable `y` that holds `v`, possibly by moving, with one call of the program's function if `called`. -/
def Holding.derive (mL : L → L) (mR : R → R) (h : Holding L R) (y : Nat) (v e : Except L R) (moving called : Bool) : Holding L R :=
  ⟨(if moving then h.vars.set y (some (leavings mL mR v)) else h.vars) ++ [some e], if called then h.calls + 1 else h.calls⟩

/-- Use of variable `y`: it must hold a result. -/
def Holding.use (h : Holding L R) (y : Nat) (k : Except L R → Holding L R) : Option (Holding L R) :=
  match h.vars[y]? with
  | some (some v) => some (k v)
  | _ => none

def isError : Except L R → Bool
  | .error _ => true
  | .ok _ => false

/-- The effect of a statement; none if the statement uses a variable that does not hold a result. -/
def effect (mL : L → L) (mR : R → R) (h : Holding L R) : ECmd L R → Option (Holding L R)
  | .leftOf l => some (h.add (.error l))
  | .rightOf r => some (h.add (.ok r))
  | .copy y => h.use y fun v => h.derive mL mR y v v false false
  | .move y => h.use y fun v => h.derive mL mR y v v true false
  | .leftMap m f y => h.use y fun v => h.derive mL mR y v (v.mapError f) m (isError v)
  | .rightMap m f y => h.use y fun v => h.derive mL mR y v (v.map f) m (!isError v)
  | .leftFlatMap m f y => h.use y fun v => h.derive mL mR y v (orElse v f) m (isError v)
  | .rightFlatMap m f y => h.use y fun v => h.derive mL mR y v (v.bind f) m (!isError v)
  | .destroy y => h.use y fun _ => { h with vars := h.vars.set y none }

/-- The effect of a program. -/
def effects (mL : L → L) (mR : R → R) : List (ECmd L R) → Holding L R → Option (Holding L R)
  | [], h => some h
  | c :: cs, h => (effect mL mR h c).bind (effects mL mR cs)

/-- The object that represents a value of type `Except`. -/
def object : Except L R → EitherObj L R
  | .error l => ⟨.left l, true⟩
  | .ok r => ⟨.right r, false⟩

/-- The object that represents a value of type `Option`. -/
def maybeObject : Option T → MaybeObj T
  | none => ⟨none, false⟩
  | some v => ⟨some v, true⟩

/-- How many values the object holds. -/
def held : Option T → Nat
  | none => 0
  | some _ => 1

/-- How many functions of a chain are called: those up to and including the first that fails. -/
def asked : List (R → Except L R) → Except L R → Nat
  | f :: fs, .ok r => asked fs (f r) + 1
  | _, _ => 0

end Tsetlini.Spec
