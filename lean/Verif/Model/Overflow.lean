import Verif.Model.Estimator
import Verif.Model.Ieee
import Verif.Model.BoxMuller
/-
The float computations of the library once more, operation by operation in IEEE 754 arithmetic with infinities and NaN: a result whose
rounded value is too large becomes infinite.  The rest of the model computes with rounded rationals of any size (`Env.rnd`); C67 says that
this makes no difference.  Zeros have no sign here: the library divides by no zero and never looks at the sign of one.
-/
namespace Tsetlini

/-- A rounded result, infinite from `2^e` on. No counterpart in the code: IEEE 754, overflow of the round-to-nearest modes. -/
def overflowAt (e : Nat) (rnd : Rat → Rat) (x : Rat) : Fl :=
  if ((2 ^ e : Nat) : Rat) ≤ rnd x then .inf false else if rnd x ≤ -((2 ^ e : Nat) : Rat) then .inf true else .fin (rnd x)

/-- A real result as a `float`. `real_type`, lib/include/tsetlini_types.hpp:23-25. -/
def f32 : Rat → Fl := overflowAt 128 rne32

/-- A real result as a `double`. No counterpart in the code: the C++ type `double`. -/
def f64 : Rat → Fl := overflowAt 1024 rne64

namespace Fl

/-- `-x`. No counterpart in the code: IEEE 754. -/
def neg : Fl → Fl
  | .fin x => .fin (-x)
  | .inf s => .inf (!s)
  | .nan => .nan

/-- `std::abs(x)`. Standard library; used at lib/src/loss_fn.cpp:21,32,34,47. -/
def abs : Fl → Fl
  | .fin x => .fin (if x < 0 then -x else x)
  | .inf _ => .inf false
  | .nan => .nan

/-- `x + y`, rounded by `r`. No counterpart in the code: IEEE 754. -/
def add (r : Rat → Fl) : Fl → Fl → Fl
  | .fin x, .fin y => r (x + y)
  | .fin _, .inf s => .inf s
  | .inf s, .fin _ => .inf s
  | .inf s, .inf t => if s = t then .inf s else .nan
  | .nan, _ => .nan
  | _, .nan => .nan

/-- `x - y`. No counterpart in the code: IEEE 754. -/
def sub (r : Rat → Fl) (x y : Fl) : Fl := add r x y.neg

/-- `x * y`, rounded by `r`; infinity times zero is NaN. No counterpart in the code: IEEE 754. -/
def mul (r : Rat → Fl) : Fl → Fl → Fl
  | .fin x, .fin y => r (x * y)
  | .fin x, .inf s => if x = 0 then .nan else .inf (xor (decide (x < 0)) s)
  | .inf s, .fin y => if y = 0 then .nan else .inf (xor s (decide (y < 0)))
  | .inf s, .inf t => .inf (xor s t)
  | .nan, _ => .nan
  | _, .nan => .nan

/-- `x / y`, rounded by `r`; a zero divisor is taken to be positive. No counterpart in the code: IEEE 754. -/
def div (r : Rat → Fl) : Fl → Fl → Fl
  | .fin x, .fin y => if y = 0 then (if x = 0 then .nan else .inf (decide (x < 0))) else r (x / y)
  | .fin _, .inf _ => .fin 0
  | .inf s, .fin y => .inf (xor s (decide (y < 0)))
  | .inf _, .inf _ => .nan
  | .nan, _ => .nan
  | _, .nan => .nan

/-- `x < y`; false if one of them is NaN. No counterpart in the code: IEEE 754. -/
def lt : Fl → Fl → Bool
  | .fin x, .fin y => decide (x < y)
  | .fin _, .inf s => !s
  | .inf s, .fin _ => s
  | .inf s, .inf t => s && !t
  | .nan, _ => false
  | _, .nan => false

/-- `x <= y`; false if one of them is NaN. No counterpart in the code: IEEE 754. -/
def le : Fl → Fl → Bool
  | .fin x, .fin y => decide (x ≤ y)
  | .fin _, .inf s => !s
  | .inf s, .fin _ => s
  | .inf s, .inf t => s || !t
  | .nan, _ => false
  | _, .nan => false

/-- `static_cast<double>(x)` of a `float`: exact. No counterpart in the code: C++ [conv.fpprom]. -/
def widen (x : Fl) : Fl := x

/-- `std::floor(x)`. Standard library; used at lib/src/coin_tosser_exact.hpp:69,71. -/
def floor : Fl → Fl
  | .fin x => .fin x.floor
  | x => x

/-- `std::round(x)`. Standard library; used at lib/src/coin_tosser_exact.hpp:71, lib/src/box_muller_approx.cpp:101. -/
def round : Fl → Fl
  | .fin x => .fin (roundHalfAway x)
  | x => x

/-- `std::sqrt(x)`, given the square roots of numbers. Standard library; used at lib/src/box_muller_approx.cpp:90. -/
def sqrt (sqrt : Rat → Rat) : Fl → Fl
  | .fin x => if x < 0 then .nan else .fin (sqrt x)
  | .inf s => if s then .nan else .inf false
  | .nan => .nan

/-- Conversion to `unsigned int`: infinities and NaN make it undefined. C++ [conv.fpint]; lib/src/coin_tosser_exact.hpp:69-71, lib/src/box_muller_approx.cpp:101 -/
def toUnsigned : Fl → Res Nat
  | .fin x => Tsetlini.toUnsigned x
  | _ => .ub .floatConv

end Fl

open Fl

/-- `static_cast<float>(i)`. C++ [conv.fpint]; lib/src/tsetlini_algo_classic.hpp:687-689,778 -/
def floatOf (i : Int) : Fl := f32 i

/-- `make_loss_fn`, lib/src/loss_fn.cpp:16-48: line 21, 26, 30-41 and 47 in this order. -/
def lossIeee (l : Loss) (C1 x : Fl) : Fl :=
  match l with
  | .abs => x.abs
  | .sq => mul f32 x x
  | .berHu =>
    if le x.abs C1 then x.abs else sub f32 (mul f32 x x) (add f32 (mul f32 C1 C1) C1)
  | .l1p2 =>
    add f32 (mul f32 C1 x.abs) (mul f32 (mul f32 (sub f32 (.fin 1) C1) x) x)

/-- `box_muller::normal`, lib/src/box_muller_approx.cpp:80-91. -/
def normalIeee (t : BmTables) (mean variance : Fl) (r : BitVec 32) : Fl :=
  let n1 := mul f32 (.fin (t.radius (r.toNat % 256))) (.fin (t.angle (r.toNat / 256 % 256)))
  add f32 mean (mul f32 (variance.sqrt t.sqrt) n1)

/-- `binomial`, lib/src/box_muller_approx.cpp:98-104. -/
def binomialIeee (env : Env) (t : BmTables) (n : Nat) (p : Fl) (g : env.G) : Res (Nat × env.G) :=
  let (r, g) := env.next g
  let np := mul f32 (floatOf n) p
  (normalIeee t np (mul f32 np (sub f32 (.fin 1) p)) r).round.toUnsigned.bind fun h => .ok (min h n, g)

/-- `feedback_hits`, lib/src/tsetlini_algo_classic.hpp:783-789, lib/src/tsetlini_algo_bitwise.hpp:1042-1048. -/
def feedbackHitsIeee (env : Env) (t : BmTables) (boxMuller : Bool) (n : Nat) (p : Fl) (g : env.G) : Res (Nat × env.G) :=
  if boxMuller then binomialIeee env t n p g
  else
    let np := mul f32 (floatOf n) p
    if le (.fin (1/2)) np.widen then np.round.toUnsigned.bind fun h => .ok (min h n, g)
    else
      let (r, g) := env.next g
      .ok (min (if lt (.fin r.toNat) (mul f64 np.widen (.fin 4294967295)) then 1 else 0) n, g)

/-- `train_regressor_automata`, lib/src/tsetlini_algo_classic.hpp:756-836, lib/src/tsetlini_algo_bitwise.hpp:1014-1115. -/
def trainRegressorIeee (B : Backend) (env : Env) (t : BmTables) (hy : Hyper) (loss : Loss) (C1 : Fl) (boxMuller : Bool)
    (X : B.Sample) (out : List Bool) (n : Nat) (err T : Int) (s : TrainSt B env) :
    Res (TrainSt B env) :=
  let P := lossIeee loss C1 (div f32 (floatOf err) (floatOf T))
  (feedbackHitsIeee env t boxMuller n P s.g).bind fun (hits, g) =>
  iter (List.range hits) (fun _ (s : TrainSt B env) =>
    let (r, g) := env.next s.g
    if n = 0 then .ub .divZero else
    let i := r.toNat % n
    let s := { s with g := g }
    if err < 0 then (rd out i).bind fun o => applyTypeI B env hy X i o s
    else if err > 0 then (rd out i).bind fun o => applyTypeII B env X i o s
    else .ok s) { s with g := g }

/-- `FRNG::post_process`, lib/include/mt.hpp:278-282. -/
def frngIeee (y : BitVec 32) : Fl :=
  mul f32 (add f32 (floatOf y.toNat) (.fin (1/2))) (div f32 (.fin 1) (.fin 4294967296))

/-- The loop of `calculate_classifier_feedback_to_clauses`, lib/src/tsetlini_algo_classic.hpp:698-707,713-722. -/
def feedbackLoopIeee (env : Env) (thr : Fl) (even odd : Int) (fs : List Nat) (s : List Int × env.F) : Res (List Int × env.F) :=
  iter fs (fun f (s : List Int × env.F) =>
    let (v, g) := env.fnext s.2
    if lt thr (.fin v) then .ok (s.1, g)
    else (wr s.1 f (if f % 2 = 0 then even else odd)).bind fun fb => .ok (fb, g)) s

/-- `calculate_classifier_feedback_to_clauses`, lib/src/tsetlini_algo_classic.hpp:676-723. -/
def classifierFeedbackIeee (env : Env) (fb : List Int) (target opposite : Int) (targetVotes oppositeVotes : Int) (k T : Int) (fgen : env.F) :
    Res (List Int × env.F) :=
  (i32 (T * 2)).bind fun t2 =>
  let inv := div f32 (.fin 1) (floatOf t2)
  (i32 (T - targetVotes)).bind fun dp =>
  let thrPos := mul f32 inv (floatOf dp)
  (i32 (T + oppositeVotes)).bind fun dn =>
  let thrNeg := mul f32 inv (floatOf dn)
  let fb := List.replicate fb.length 0
  (labelRange target k).bind fun (a, b) =>
  (feedbackLoopIeee env thrPos 1 (-1) (range a b) (fb, fgen)).bind fun s =>
  (labelRange opposite k).bind fun (a, b) =>
  feedbackLoopIeee env thrNeg (-1) 1 (range a b) s

/-- `CoinTosserExact(1.f / s, size)`, lib/src/coin_tosser_exact.hpp:67-76, lib/src/estimator_state_cache.cpp:27-29,54-56. -/
def coinTosserIeee (s : Fl) (size : Nat) : Res CoinTosser :=
  let sInv := div f32 (.fin 1) s
  (floor (mul f32 (floatOf size) sInv)).toUnsigned.bind fun hf =>
  (round (mul f64 (sub f32 (mul f32 sInv (floatOf size)) (floor (mul f32 sInv (floatOf size)))).widen (.fin 4294967295))).toUnsigned.bind fun thr =>
  .ok ⟨hf, thr, List.replicate size false, List.replicate size false⟩

/-- `ONE - ONE * errors / number_of_examples`, lib/src/tsetlini.cpp:440. -/
def accuracyIeee (errors examples : Nat) : Fl :=
  sub f32 (.fin 1) (div f32 (mul f32 (.fin 1) (floatOf errors)) (floatOf examples))

end Tsetlini
