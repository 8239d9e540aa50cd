import Verif.Model.Res
/-
Everything the library takes from outside: random numbers, shuffles, floating
point rounding (`Env`), thread schedules (`Sched`), the machine (`Machine`).  The theorems quantify over all
of it; the structure fields named `*_law` are the assumptions made about it.
-/
namespace Tsetlini

/-- `std::round`: half away from zero. Called at lib/src/coin_tosser_exact.hpp:71, lib/src/coin_tosser.hpp:58,153, lib/src/box_muller_approx.cpp:101. -/
def roundHalfAway (x : Rat) : Int :=
  if 0 ≤ x then (x + 1/2).floor else -((-x + 1/2).floor)

/-- `FRNG::post_process`, lib/include/mt.hpp:278-282: `(y + 0.5f) * (1.0f / 4294967296.0f)`. -/
def frngPost (rnd : Rat → Rat) (y : BitVec 32) : Rat := rnd (rnd (rnd (y.toNat : Rat) + 1/2) * (1 / 4294967296))

/-- The environment a run of the library lives in.
No counterpart in the code: the external functions the library calls (generator, float rounding, Box-Muller) gathered in one place. -/
structure Env where
  /-- State of an integer generator `IRNG` (the engine of lib/include/mt.hpp:40-262; see
  `Model/Mt.lean`). -/
  G : Type
  /-- `init(seed)`, lib/include/mt.hpp:81-97 -/
  seedG : BitVec 32 → G
  /-- `rand()`, lib/include/mt.hpp:145-166 -/
  next : G → BitVec 32 × G
  /-- State of a float generator `FRNG` (same engine, but its results are converted when they are
  generated, lib/include/mt.hpp:265-285). -/
  F : Type
  /-- `init(seed)`, lib/include/mt.hpp:81-97 -/
  seedF : BitVec 32 → F
  /-- `FRNG::next()`, lib/include/mt.hpp:265-285 -/
  fnext : F → Rat × F
  /-- `std::shuffle` of `0..n-1` (std library, any permutation) -/
  shuffle : G → Nat → List Nat × G
  shuffle_law : ∀ g n, (shuffle g n).1.Perm (List.range n)
  /-- bound on the number of draws of one coin-tosser rejection loop -/
  fuel : Nat
  /-- `f(ct.tosses1(prng), ct.tosses2(prng))`: true if the compiler evaluates the
  second argument first (unspecified by C++) -/
  tossSwap : Bool
  /-- rounding of a real result to binary32 (`real_type = float`) -/
  rnd : Rat → Rat
  rnd_mono_law : ∀ x y, x ≤ y → rnd x ≤ rnd y
  rnd_exact_law : ∀ (m : Int) (k : Nat), m.natAbs ≤ 2^24 → k ≤ 149 →
    rnd (m / (2^k : Nat)) = m / (2^k : Nat)
  rnd_exact_up_law : ∀ (m : Int) (k : Nat), m.natAbs ≤ 2^24 → k ≤ 104 →
    rnd (m * (2^k : Nat)) = m * (2^k : Nat)
  fnext_law : ∀ g, ∃ y : BitVec 32, (fnext g).1 = frngPost rnd y
  /-- rounding of a real result to binary64 -/
  rnd64 : Rat → Rat
  rnd64_mono_law : ∀ x y, x ≤ y → rnd64 x ≤ rnd64 y
  rnd64_exact_law : ∀ (m : Int) (k : Nat), m.natAbs ≤ 2^53 → k ≤ 1074 →
    rnd64 (m / (2^k : Nat)) = m / (2^k : Nat)
  rnd64_exact_up_law : ∀ (m : Int) (k : Nat), m.natAbs ≤ 2^53 → k ≤ 971 →
    rnd64 (m * (2^k : Nat)) = m * (2^k : Nat)
  /-- `box_muller::normal(mean, variance, irng)` as a function of the draw,
  lib/src/box_muller_approx.cpp:80-91; `none` is NaN (negative variance) -/
  normal : Rat → Rat → BitVec 32 → Option Rat

/-- A choice of thread schedules: the order in which the iterations `a..b-1` of the
`t`-th OpenMP loop take effect.
No counterpart in the code: the freedom OpenMP leaves to `#pragma omp parallel for`, e.g. lib/src/tsetlini_algo_classic.hpp:154-181. -/
structure Sched where
  order : Nat → Nat → Nat → List Nat
  order_law : ∀ t a b, (order t a b).Perm (range a b)

/-- The machine the factories query.
No counterpart in the code: `std::thread::hardware_concurrency` and `std::random_device` as called at lib/src/tsetlini_params.cpp:192,204. -/
structure Machine where
  /-- `std::thread::hardware_concurrency()` -/
  hwThreads : Nat
  hwThreads_law : hwThreads ≤ 2147483647
  /-- `std::random_device{}()` -/
  randomDevice : BitVec 32

/-- `IRNG::next(int a, int b)`, lib/include/mt.hpp:249-253, at its only call site
`next(-1, 0)` (lib/src/ta_state.cpp:61,99): `a + rand() % (b + 1 - a)` computed in
unsigned arithmetic and then stored in a signed counter, i.e. -1 for an even and
0 for an odd draw. -/
def Env.nextMinus1or0 (env : Env) (g : env.G) : Int × env.G :=
  let (y, g') := env.next g
  (-1 + (y.toNat % 2 : Nat), g')

end Tsetlini
