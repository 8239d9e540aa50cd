import Verif.Model.Params
/-
`CoinTosserExact`, lib/src/coin_tosser_exact.hpp.
-/
namespace Tsetlini

/-- Conversion of a finite float to `unsigned int`: truncation, undefined outside
of `(-1, 2^32)`. C++ [conv.fpint]; lib/src/coin_tosser_exact.hpp:69-71, lib/src/box_muller_approx.cpp:101 -/
def toUnsigned (x : Rat) : Res Nat :=
  if -1 < x ∧ x < 4294967296 then .ok (x.floor.toNat) else .ub .floatConv

/-- lib/src/coin_tosser_exact.hpp:19-32.  `m_s_inv` is never read after construction
and is left out; the toss vectors hold only 0 and 1. -/
structure CoinTosser where
  hitsFloor : Nat
  thr : Nat
  cache1 : List Bool
  cache2 : List Bool
deriving DecidableEq, Repr

/-- Default constructor, lib/src/coin_tosser_exact.hpp:59-65. -/
def CoinTosser.empty : CoinTosser := ⟨0, 0, [], []⟩

/-- `CoinTosserExact(s_inv, size)`, lib/src/coin_tosser_exact.hpp:67-76, called with
`s_inv = 1.f / s` (lib/src/estimator_state_cache.cpp:27-29,54-56).  A non-finite or
zero `s` (rejected by every factory) is mapped to `ub`. -/
def CoinTosser.make (env : Env) (s : Fl) (size : Nat) : Res CoinTosser :=
  match s with
  | .fin q =>
    if q = 0 then .ub .floatConv else
    let sInv := env.rnd (1 / q)
    let prod := env.rnd (sInv * env.rnd size)
    let frac := env.rnd (prod - prod.floor)
    (toUnsigned prod.floor).bind fun hf =>
    (toUnsigned (roundHalfAway (env.rnd64 (frac * 4294967295)))).bind fun thr =>
    .ok ⟨hf, thr, List.replicate size false, List.replicate size false⟩
  | _ => .ub .floatConv

/-- `estimate_hits`, lib/src/coin_tosser_exact.hpp:106-111. -/
def CoinTosser.estimateHits (env : Env) (ct : CoinTosser) (g : env.G) : Nat × env.G :=
  let (r, g) := env.next g
  (ct.hitsFloor + (if r.toNat < ct.thr then 1 else 0), g)

/-- The rejection loop of `tosses_`, lib/src/coin_tosser_exact.hpp:130-136. -/
def tossLoop (env : Env) : (fuel hits it : Nat) → List Bool → env.G → Res (List Bool × env.G)
  | fuel, hits, it, cache, g =>
    if it < hits then
      match fuel with
      | 0 => .timeout
      | fuel + 1 =>
        let (r, g) := env.next g
        if cache.length = 0 then .ub .divZero else
        let ix := r.toNat % cache.length
        (rd cache ix).bind fun c =>
        tossLoop env fuel hits (it + (if c then 0 else 1)) (cache.set ix true) g
    else .ok (cache, g)

/-- `tosses_`, lib/src/coin_tosser_exact.hpp:114-139. -/
def tosses (env : Env) (ct : CoinTosser) (cache : List Bool) (g : env.G) :
    Res (List Bool × env.G) :=
  let cache := List.replicate cache.length false
  let (hits, g) := ct.estimateHits env g
  tossLoop env env.fuel hits 0 cache g

/-- The two arguments `ct.tosses1(prng), ct.tosses2(prng)` of the feedback
routines (lib/src/tsetlini_algo_classic.hpp:602,608,612,803,809,813, lib/src/tsetlini_algo_bitwise.hpp:933,942,1078,1087);
their evaluation order is unspecified, see `Env.tossSwap`. -/
def tossBoth (env : Env) (ct : CoinTosser) (g : env.G) :
    Res (CoinTosser × env.G) :=
  if env.tossSwap then
    (tosses env ct ct.cache2 g).bind fun (c2, g) =>
    (tosses env ct ct.cache1 g).bind fun (c1, g) =>
    .ok ({ ct with cache1 := c1, cache2 := c2 }, g)
  else
    (tosses env ct ct.cache1 g).bind fun (c1, g) =>
    (tosses env ct ct.cache2 g).bind fun (c2, g) =>
    .ok ({ ct with cache1 := c1, cache2 := c2 }, g)

end Tsetlini
