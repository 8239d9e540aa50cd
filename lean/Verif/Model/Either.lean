import Verif.Model.Res
/-
`neither::Either` and `neither::Maybe`, lib/include/neither/either.hpp and maybe.hpp: the objects in which the API returns results and
errors.  They are unions with a tag, filled by placement new and emptied by explicit destructor calls, so the model keeps track of
which member is alive, of the number of values alive, and of the calls of the functions given to `leftMap` and the like.
Only the overloads for copyable types are modelled (all results of the library are copyable).
-/
namespace Tsetlini

/-- Which member of the anonymous union is alive. lib/include/neither/either.hpp:50-53 -/
inductive Cell (L R : Type) where
  | none
  | left (v : L)
  | right (v : R)
deriving DecidableEq, Repr

/-- `Either<L, R>`, lib/include/neither/either.hpp:48-55. -/
structure EitherObj (L R : Type) where
  cell : Cell L R
  isLeft : Bool
deriving DecidableEq, Repr

/-- `Maybe<T>`, lib/include/neither/maybe.hpp:16-24: the value, if it is alive, and the tag. -/
structure MaybeObj (T : Type) where
  cell : Option T
  hasValue : Bool
deriving DecidableEq, Repr

/-- Number of values that are alive and of calls of the user's functions so far.
No counterpart in the code: what a run of it has constructed, destroyed and called. -/
structure Counts where
  alive : Nat
  calls : Nat
deriving DecidableEq, Repr

/-- Code that constructs and destroys objects. No counterpart in the code: C++ object lifetimes. -/
abbrev Life (α : Type) := Counts → Res (α × Counts)

namespace Life

/-- No counterpart in the code: a value. -/
def pure (a : α) : Life α := fun c => .ok (a, c)

/-- No counterpart in the code: the C++ statement sequence `x; f`. -/
def bind (x : Life α) (f : α → Life β) : Life β := fun c => (x c).bind fun (a, c) => f a c

/-- The outcome of undefined behaviour. No counterpart in the code: the C++ standard. -/
def undef : Life α := fun _ => .ub .lifetime

/-- A copy of a value: one more object. No counterpart in the code: a copy constructor. -/
def copyOf (v : α) : Life α := fun c => .ok (v, { c with alive := c.alive + 1 })

/-- A value moved to a new object, and what the move leaves in the old one. No counterpart in the code: a move constructor. -/
def moveOf (moved : α → α) (v : α) : Life (α × α) := fun c => .ok ((v, moved v), { c with alive := c.alive + 1 })

/-- A destructor call. No counterpart in the code: `~T()`. -/
def drop (_ : α) : Life Unit := fun c => if c.alive = 0 then .ub .lifetime else .ok ((), { c with alive := c.alive - 1 })

/-- A call of a function of the user's, which returns a new object. lib/include/neither/either.hpp:181-298 -/
def call (f : α → β) (v : α) : Life β := fun c => .ok (f v, ⟨c.alive + 1, c.calls + 1⟩)

end Life

open Life

namespace MaybeObj

/-- `maybe()`, converted to `Maybe<T>`; lib/include/neither/maybe.hpp:26,31,105-106. -/
def empty : MaybeObj T := ⟨.none, false⟩

/-- `maybe(value)`: the argument is a copy, from which the object is copied; lib/include/neither/maybe.hpp:28,102-103. -/
def of (v : T) : Life (MaybeObj T) :=
  (copyOf v).bind fun arg => (copyOf arg).bind fun v => (drop arg).bind fun _ => Life.pure ⟨some v, true⟩

/-- The destructor, lib/include/neither/maybe.hpp:39-43. -/
def destroy (m : MaybeObj T) : Life Unit :=
  if m.hasValue then (match m.cell with | some v => drop v | .none => undef) else Life.pure ()

/-- `unsafeGet()`, lib/include/neither/maybe.hpp:49-52, compiled without assertions. -/
def unsafeGet (m : MaybeObj T) : Life T :=
  match m.cell with
  | some v => copyOf v
  | .none => undef

/-- `equal`, lib/include/neither/maybe.hpp:115-121. -/
def eq [DecidableEq T] (a b : MaybeObj T) : Life Bool :=
  if a.hasValue then
    if b.hasValue then
      match a.cell, b.cell with
      | some x, some y => Life.pure (decide (x = y))
      | _, _ => undef
    else Life.pure false
  else Life.pure (!b.hasValue)

/-- The copy constructor, lib/include/neither/maybe.hpp:33-37. -/
def copy (m : MaybeObj T) : Life (MaybeObj T) :=
  if m.hasValue then (match m.cell with | some v => (copyOf v).bind fun v => Life.pure ⟨some v, m.hasValue⟩ | .none => undef)
  else Life.pure ⟨.none, m.hasValue⟩

/-- `get(defaultValue)`, lib/include/neither/maybe.hpp:45-47: the argument is a copy, destroyed after the call. -/
def get (m : MaybeObj T) (d : T) : Life T :=
  (copyOf d).bind fun d =>
    (if m.hasValue then (match m.cell with | some v => copyOf v | .none => undef) else copyOf d).bind fun r =>
      (drop d).bind fun _ => Life.pure r

/-- `size()`, `empty()` and `operator bool`, lib/include/neither/maybe.hpp:54-56,98. -/
def size (m : MaybeObj T) : Nat := if m.hasValue then 1 else 0

/-- lib/include/neither/maybe.hpp:56 -/
def isEmpty (m : MaybeObj T) : Bool := !m.hasValue

/-- `map(f)`, lib/include/neither/maybe.hpp:58-67,70-78: the result of the call is a temporary, from which the new value is moved. -/
def map (mT' : T' → T') (f : T → T') (m : MaybeObj T) : Life (MaybeObj T') :=
  if !m.hasValue then Life.pure ⟨.none, false⟩
  else match m.cell with
    | some v => (call f v).bind fun t => (moveOf mT' t).bind fun (n, t) => (drop t).bind fun _ => Life.pure ⟨some n, true⟩
    | .none => undef

end MaybeObj

namespace EitherObj

/-- Access to `leftValue`. lib/include/neither/either.hpp:50-53 -/
def leftValue (e : EitherObj L R) : Life L :=
  match e.cell with
  | .left v => Life.pure v
  | _ => undef

/-- Access to `rightValue`. lib/include/neither/either.hpp:50-53 -/
def rightValue (e : EitherObj L R) : Life R :=
  match e.cell with
  | .right v => Life.pure v
  | _ => undef

variable (mL : L → L) (mR : R → R)

/-- `leftOf(L &&)`: moved to a temporary `Left` and from there into the object, lib/include/neither/either.hpp:24-27,69-72,125-127.
The second result is what is left of the argument. -/
def leftOfMove (l : L) : Life (EitherObj L R × L) :=
  (moveOf mL l).bind fun (t, l) => (moveOf mL t).bind fun (v, t) => (drop t).bind fun _ => Life.pure (⟨.left v, true⟩, l)

/-- `rightOf(R &&)`, lib/include/neither/either.hpp:39-42,74-77,129-131. -/
def rightOfMove (r : R) : Life (EitherObj L R × R) :=
  (moveOf mR r).bind fun (t, r) => (moveOf mR t).bind fun (v, t) => (drop t).bind fun _ => Life.pure (⟨.right v, false⟩, r)

/-- `leftOf(L const &)`, lib/include/neither/either.hpp:19-22,69-72,117-119. -/
def leftOf (l : L) : Life (EitherObj L R) :=
  (copyOf l).bind fun t => (moveOf mL t).bind fun (v, t) => (drop t).bind fun _ => Life.pure ⟨.left v, true⟩

/-- `rightOf(R const &)`, lib/include/neither/either.hpp:34-37,74-77,121-123. -/
def rightOf (r : R) : Life (EitherObj L R) :=
  (copyOf r).bind fun t => (moveOf mR t).bind fun (v, t) => (drop t).bind fun _ => Life.pure ⟨.right v, false⟩

/-- The copy constructor, lib/include/neither/either.hpp:79-86. -/
def copy (e : EitherObj L R) : Life (EitherObj L R) :=
  if e.isLeft then e.leftValue.bind fun v => (copyOf v).bind fun v => Life.pure ⟨.left v, e.isLeft⟩
  else e.rightValue.bind fun v => (copyOf v).bind fun v => Life.pure ⟨.right v, e.isLeft⟩

/-- The move constructor, lib/include/neither/either.hpp:88-95: the new object and what is left of the old one. -/
def move (e : EitherObj L R) : Life (EitherObj L R × EitherObj L R) :=
  if e.isLeft then e.leftValue.bind fun v => (moveOf mL v).bind fun (v, m) => Life.pure (⟨.left v, e.isLeft⟩, { e with cell := .left m })
  else e.rightValue.bind fun v => (moveOf mR v).bind fun (v, m) => Life.pure (⟨.right v, e.isLeft⟩, { e with cell := .right m })

/-- The destructor, lib/include/neither/either.hpp:97-103. -/
def destroy (e : EitherObj L R) : Life Unit :=
  if e.isLeft then e.leftValue.bind drop else e.rightValue.bind drop

/-- `left()`, lib/include/neither/either.hpp:105-109. -/
def left (e : EitherObj L R) : Life (MaybeObj L) :=
  if e.isLeft then e.leftValue.bind MaybeObj.of else Life.pure .empty

/-- `right()`, lib/include/neither/either.hpp:111-115. -/
def right (e : EitherObj L R) : Life (MaybeObj R) :=
  if e.isLeft then Life.pure .empty else e.rightValue.bind MaybeObj.of

/-- `operator bool`, lib/include/neither/either.hpp:300. -/
def isRight (e : EitherObj L R) : Bool := !e.isLeft

/-- `join(leftCase, rightCase) const`, lib/include/neither/either.hpp:161-165. -/
def join (f : L → A) (g : R → A) (e : EitherObj L R) : Life A :=
  if e.isLeft then e.leftValue.bind (call f) else e.rightValue.bind (call g)

/-- `leftMap(leftCase) const &`, lib/include/neither/either.hpp:175-182. The result of the call is a temporary. -/
def leftMap (mL' : L' → L') (f : L → L') (e : EitherObj L R) : Life (EitherObj L' R) :=
  if e.isLeft then
    e.leftValue.bind fun v => (call f v).bind fun t => (leftOfMove mL' t).bind fun (n, t) => (drop t).bind fun _ => Life.pure n
  else e.rightValue.bind fun v => rightOf mR v

/-- `leftMap(leftCase) &&`, lib/include/neither/either.hpp:184-190, and what is left of the object. -/
def leftMapMove (mL' : L' → L') (f : L → L') (e : EitherObj L R) : Life (EitherObj L' R × EitherObj L R) :=
  if e.isLeft then
    e.leftValue.bind fun v => (call f v).bind fun t => (leftOfMove mL' t).bind fun (n, t) => (drop t).bind fun _ =>
    Life.pure (n, { e with cell := .left (mL v) })
  else e.rightValue.bind fun v => (rightOfMove mR v).bind fun (n, v) => Life.pure (n, { e with cell := .right v })

/-- `rightMap(rightCase) const &`, lib/include/neither/either.hpp:203-209. -/
def rightMap (mR' : R' → R') (f : R → R') (e : EitherObj L R) : Life (EitherObj L R') :=
  if e.isLeft then e.leftValue.bind fun v => leftOf mL v
  else e.rightValue.bind fun v => (call f v).bind fun t => (rightOfMove mR' t).bind fun (n, t) => (drop t).bind fun _ => Life.pure n

/-- `rightMap(rightCase) &&`, lib/include/neither/either.hpp:211-217, and what is left of the object. -/
def rightMapMove (mR' : R' → R') (f : R → R') (e : EitherObj L R) : Life (EitherObj L R' × EitherObj L R) :=
  if e.isLeft then e.leftValue.bind fun v => (leftOfMove mL v).bind fun (n, v) => Life.pure (n, { e with cell := .left v })
  else e.rightValue.bind fun v => (call f v).bind fun t => (rightOfMove mR' t).bind fun (n, t) => (drop t).bind fun _ =>
    Life.pure (n, { e with cell := .right (mR v) })

/-- What a function that returns an `Either` makes of its result. lib/include/neither/either.hpp:229-298 -/
def ofExcept : Except L R → EitherObj L R
  | .error l => ⟨.left l, true⟩
  | .ok r => ⟨.right r, false⟩

/-- `leftFlatMap(leftCase) const &`, lib/include/neither/either.hpp:229-239. -/
def leftFlatMap (f : L → Except L' R) (e : EitherObj L R) : Life (EitherObj L' R) :=
  if !e.isRight then e.leftValue.bind fun v => call (fun v => ofExcept (f v)) v
  else e.rightValue.bind fun v => rightOf mR v

/-- `rightFlatMap(rightCase) const &`, lib/include/neither/either.hpp:241-251. -/
def rightFlatMap (f : R → Except L R') (e : EitherObj L R) : Life (EitherObj L R') :=
  if e.isRight then e.rightValue.bind fun v => call (fun v => ofExcept (f v)) v
  else e.leftValue.bind fun v => leftOf mL v

/-- `leftFlatMap(leftCase) &&`, lib/include/neither/either.hpp:253-263, and what is left of the object. -/
def leftFlatMapMove (f : L → Except L' R) (e : EitherObj L R) : Life (EitherObj L' R × EitherObj L R) :=
  if !e.isRight then e.leftValue.bind fun v => (call (fun v => ofExcept (f v)) v).bind fun n => Life.pure (n, { e with cell := .left (mL v) })
  else e.rightValue.bind fun v => (rightOfMove mR v).bind fun (n, v) => Life.pure (n, { e with cell := .right v })

/-- `rightFlatMap(rightCase) &&`, lib/include/neither/either.hpp:278-287, and what is left of the object. -/
def rightFlatMapMove (f : R → Except L R') (e : EitherObj L R) : Life (EitherObj L R' × EitherObj L R) :=
  if e.isRight then e.rightValue.bind fun v => (call (fun v => ofExcept (f v)) v).bind fun n => Life.pure (n, { e with cell := .right (mR v) })
  else e.leftValue.bind fun v => (leftOfMove mL v).bind fun (n, v) => Life.pure (n, { e with cell := .left v })

/-- `operator==`, lib/include/neither/either.hpp:303-315: the temporaries `left()` and `right()` are destroyed again. -/
def eq [DecidableEq L] [DecidableEq R] (a b : EitherObj L R) : Life Bool :=
  if a.isLeft then
    if b.isLeft then
      a.left.bind fun x => b.left.bind fun y => (x.eq y).bind fun r => y.destroy.bind fun _ => x.destroy.bind fun _ => Life.pure r
    else Life.pure false
  else
    if !b.isLeft then
      a.right.bind fun x => b.right.bind fun y => (x.eq y).bind fun r => y.destroy.bind fun _ => x.destroy.bind fun _ => Life.pure r
    else Life.pure false

end EitherObj

/-- A chain `e.rightFlatMap(f).rightFlatMap(g)...` on temporaries, which are destroyed at the end, as in
lib/src/tsetlini_params.cpp:429-445 and 488-501; `rightMap` is the case of a function that returns right values only. -/
def EitherObj.chain (mL : L → L) (mR : R → R) : List (R → Except L R) → EitherObj L R → Life (EitherObj L R)
  | [], e => Life.pure e
  | f :: fs, e => (e.rightFlatMapMove mL mR f).bind fun (n, e) => (EitherObj.chain mL mR fs n).bind fun r =>
    e.destroy.bind fun _ => Life.pure r

/-! ### Programs that handle results -/

/-- A statement of a program that handles results. The variables are numbered in the order of their construction; each statement but the last
constructs one more. No counterpart in the code: what callers do with results, e.g. lib/examples/noisy-xor/src/main.cpp. -/
inductive ECmd (L R : Type) where
  | leftOf (l : L)
  | rightOf (r : R)
  | copy (y : Nat)
  | move (y : Nat)
  | leftMap (moving : Bool) (f : L → L) (y : Nat)
  | rightMap (moving : Bool) (f : R → R) (y : Nat)
  | leftFlatMap (moving : Bool) (f : L → Except L R) (y : Nat)
  | rightFlatMap (moving : Bool) (f : R → Except L R) (y : Nat)
  | destroy (y : Nat)

/-- The variables of such a program: the objects that are alive. No counterpart in the code: C++ object lifetimes. -/
abbrev EVars (L R : Type) := List (Option (EitherObj L R))

/-- Access to a variable. No counterpart in the code: C++ object lifetimes. -/
def EVars.get (vs : EVars L R) (y : Nat) : Life (EitherObj L R) :=
  match vs[y]? with
  | some (some e) => Life.pure e
  | _ => undef

/-- One statement. lib/include/neither/either.hpp:57-298 -/
def ECmd.exec (mL : L → L) (mR : R → R) (vs : EVars L R) : ECmd L R → Life (EVars L R)
  | .leftOf l => (EitherObj.leftOf mL l).bind fun n => Life.pure (vs ++ [some n])
  | .rightOf r => (EitherObj.rightOf mR r).bind fun n => Life.pure (vs ++ [some n])
  | .copy y => (vs.get y).bind fun e => e.copy.bind fun n => Life.pure (vs ++ [some n])
  | .move y => (vs.get y).bind fun e => (e.move mL mR).bind fun (n, e) => Life.pure (vs.set y (some e) ++ [some n])
  | .leftMap false f y => (vs.get y).bind fun e => (e.leftMap mR mL f).bind fun n => Life.pure (vs ++ [some n])
  | .leftMap true f y => (vs.get y).bind fun e => (e.leftMapMove mL mR mL f).bind fun (n, e) => Life.pure (vs.set y (some e) ++ [some n])
  | .rightMap false f y => (vs.get y).bind fun e => (e.rightMap mL mR f).bind fun n => Life.pure (vs ++ [some n])
  | .rightMap true f y => (vs.get y).bind fun e => (e.rightMapMove mL mR mR f).bind fun (n, e) => Life.pure (vs.set y (some e) ++ [some n])
  | .leftFlatMap false f y => (vs.get y).bind fun e => (e.leftFlatMap mR f).bind fun n => Life.pure (vs ++ [some n])
  | .leftFlatMap true f y => (vs.get y).bind fun e => (e.leftFlatMapMove mL mR f).bind fun (n, e) => Life.pure (vs.set y (some e) ++ [some n])
  | .rightFlatMap false f y => (vs.get y).bind fun e => (e.rightFlatMap mL f).bind fun n => Life.pure (vs ++ [some n])
  | .rightFlatMap true f y => (vs.get y).bind fun e => (e.rightFlatMapMove mL mR f).bind fun (n, e) => Life.pure (vs.set y (some e) ++ [some n])
  | .destroy y => (vs.get y).bind fun e => e.destroy.bind fun _ => Life.pure (vs.set y none)

/-- A program. No counterpart in the code: what callers do with results. -/
def ECmd.run (mL : L → L) (mR : R → R) : List (ECmd L R) → EVars L R → Life (EVars L R)
  | [], vs => Life.pure vs
  | c :: cs, vs => (c.exec mL mR vs).bind fun vs => ECmd.run mL mR cs vs

end Tsetlini
