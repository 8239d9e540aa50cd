import Verif.Model.CoinTosser
import Verif.Model.Bits
/-
The coin tossers that draw their choices from a cache, lib/src/coin_tosser.hpp, and the cache of random
floats, lib/src/frand_cache.hpp.  The estimators use neither; the bitwise tosser is part of
`ClassifierStateBitwiseCache` / `RegressorStateBitwiseCache` (lib/src/estimator_state_cache.hpp:76-109).
-/
namespace Tsetlini

/-- `CoinTosser`, lib/src/coin_tosser.hpp:19-37; the cache holds only 0 and 1. -/
structure TossCache where
  base : Nat
  cache : List Bool
deriving DecidableEq, Repr

/-- `CoinTosser(base_size, extra_size)`, lib/src/coin_tosser.hpp:46-51: the sum is 32-bit unsigned. -/
def TossCache.make (base extra : BitVec 32) : TossCache :=
  ⟨base.toNat, List.replicate (base + extra).toNat false⟩

/-- `unsigned int one_count = std::round(vsz / value_of(s))`, lib/src/coin_tosser.hpp:58,153, in `float`.
A non-finite or zero `s` (rejected by every factory) is mapped to `ub`. -/
def onesFor (env : Env) (size : Nat) : Fl → Res Nat
  | .fin q => if q = 0 then .ub .floatConv else toUnsigned (roundHalfAway (env.rnd (env.rnd size / q)))
  | _ => .ub .floatConv

/-- `populate`, lib/src/coin_tosser.hpp:54-70; its loop is that of `tosses_` in
lib/src/coin_tosser_exact.hpp, see `tossLoop`. -/
def TossCache.populate (env : Env) (s : Fl) (t : TossCache) (g : env.G) : Res (TossCache × env.G) :=
  (onesFor env t.cache.length s).bind fun ones =>
  (tossLoop env env.fuel ones 0 (List.replicate t.cache.length false) g).bind fun (c, g) =>
  .ok ({ t with cache := c }, g)

/-- `mutate`, lib/src/coin_tosser.hpp:73-80.  (Which of the two positions is drawn first is unspecified and
does not matter: swapping is symmetric.) -/
def TossCache.mutate (env : Env) (t : TossCache) (g : env.G) : Res (TossCache × env.G) :=
  let (r1, g) := env.next g
  let (r2, g) := env.next g
  if t.cache.length = 0 then .ub .divZero else
  let i := r1.toNat % t.cache.length
  let j := r2.toNat % t.cache.length
  (rd t.cache i).bind fun a =>
  (rd t.cache j).bind fun b =>
  (wr t.cache i b).bind fun c =>
  (wr c j a).bind fun c =>
  .ok ({ t with cache := c }, g)

/-- `tosses`, lib/src/coin_tosser.hpp:82-96: the offset of the returned pointer in the cache.  Sizes are
`size_t`; the alignment is 64. -/
def TossCache.tosses (env : Env) (t : TossCache) (g : env.G) : Res (TossCache × Nat × env.G) :=
  (t.mutate env g).bind fun (t', g) =>
  let (r, g) := env.next g
  let room := BitVec.ofNat 64 t.cache.length - BitVec.ofNat 64 t.base
  if room = 0#64 then .ub .divZero else
  let off := ((BitVec.ofNat 64 r.toNat % room) &&& ~~~ (64#64 - 1#64)).toNat
  if off < t'.cache.length then .ok (t', off, g) else .ub .oob

/-- `CoinTosserBitwise`, lib/src/coin_tosser.hpp:102-130. -/
structure BitTossCache where
  base : Nat
  cache : BitVector
deriving DecidableEq, Repr

/-- `ceil2`, lib/src/coin_tosser.hpp:187-193, in 32-bit unsigned arithmetic. -/
def ceil2 (v A : BitVec 32) : BitVec 32 := (v + A - 1#32) / A * A

/-- `CoinTosserBitwise(base_size, extra_size)`, lib/src/coin_tosser.hpp:140-146. -/
def BitTossCache.make (base extra : BitVec 32) : BitTossCache :=
  ⟨(ceil2 base 64#32).toNat, BitVector.ofLen (ceil2 (base + extra) 64#32).toNat⟩

/-- The tosser of a reset bitwise cache, lib/src/estimator_state_cache.cpp:89-90,115-116: `n` is
number_of_features, an `int` (a product beyond INT_MAX is undefined). -/
def BitTossCache.forFeatures (n : Nat) : Res BitTossCache :=
  if 2147483647 < 3 * 8 * n then .ub .overflow else
  .ok (BitTossCache.make (.ofNat 32 n) (.ofNat 32 (3 * 8 * n)))

/-- The loop of `populate`, lib/src/coin_tosser.hpp:157-163. -/
def bitTossLoop (env : Env) (size : Nat) : (fuel hits it : Nat) → List Block → env.G → Res (List Block × env.G)
  | fuel, hits, it, v, g =>
    if it < hits then
      match fuel with
      | 0 => .timeout
      | fuel + 1 =>
        let (r, g) := env.next g
        if size = 0 then .ub .divZero else
        let ix := r.toNat % size
        (bitTest v ix).bind fun c =>
        (bitSet v ix).bind fun v =>
        bitTossLoop env size fuel hits (it + (if c then 0 else 1)) v g
    else .ok (v, g)

/-- `populate`, lib/src/coin_tosser.hpp:149-164. -/
def BitTossCache.populate (env : Env) (s : Fl) (t : BitTossCache) (g : env.G) : Res (BitTossCache × env.G) :=
  (onesFor env t.cache.len s).bind fun ones =>
  (bitTossLoop env t.cache.len env.fuel ones 0 (List.replicate t.cache.blocks.length 0#64) g).bind fun (v, g) =>
  .ok ({ t with cache := { t.cache with blocks := v } }, g)

/-- `mutate`, lib/src/coin_tosser.hpp:167-184. -/
def BitTossCache.mutate (env : Env) (t : BitTossCache) (g : env.G) : Res (BitTossCache × env.G) :=
  let (r1, g) := env.next g
  let (r2, g) := env.next g
  if t.cache.len = 0 then .ub .divZero else
  let i := r1.toNat % t.cache.len
  let j := r2.toNat % t.cache.len
  (bitTest t.cache.blocks i).bind fun a =>
  (bitTest t.cache.blocks j).bind fun b =>
  if a ^^ b then
    (bitFlip t.cache.blocks i).bind fun v =>
    (bitFlip v j).bind fun v =>
    .ok ({ t with cache := { t.cache with blocks := v } }, g)
  else .ok (t, g)

/-- `tosses`, lib/src/coin_tosser.hpp:196-207: the index of the block the returned pointer refers to. -/
def BitTossCache.tosses (env : Env) (t : BitTossCache) (g : env.G) : Res (BitTossCache × Nat × env.G) :=
  (t.mutate env g).bind fun (t', g) =>
  let (r, g) := env.next g
  let room := BitVec.ofNat 64 t.cache.contentBlocks - BitVec.ofNat 64 (t.base / 64)
  if room = 0#64 then .ub .divZero else
  let blk := (BitVec.ofNat 64 r.toNat % room).toNat
  if blk < t'.cache.blocks.length then .ok (t', blk, g) else .ub .oob

/-- `frand_cache`, lib/src/frand_cache.hpp:16-31,59-60. -/
structure FrandCache (V : Type) where
  pos : Nat
  vals : List V
deriving DecidableEq, Repr

/-- `frand_cache(sz)`, lib/src/frand_cache.hpp:21-25: full of zeros, all of them consumed. -/
def FrandCache.make {V : Type} (zero : V) (sz : Nat) : FrandCache V := ⟨sz, List.replicate sz zero⟩

/-- `refill`, lib/src/frand_cache.hpp:33-44: new numbers for the consumed ones; `next` is the generator. -/
def FrandCache.refill {V S : Type} (next : S → V × S) (c : FrandCache V) (s : S) : Res (FrandCache V × S) :=
  (iter (List.range (min c.pos c.vals.length)) (fun i (u : List V × S) =>
    let (v, s) := next u.2
    (wr u.1 i v).bind fun vals => .ok (vals, s)) (c.vals, s)).bind fun (vals, s) =>
  .ok (⟨0, vals⟩, s)

/-- `next` / `operator()`, lib/src/frand_cache.hpp:46-57. -/
def FrandCache.next {V : Type} (c : FrandCache V) : Res (V × FrandCache V) :=
  (rd c.vals c.pos).bind fun v => .ok (v, { c with pos := c.pos + 1 })

end Tsetlini
