import Verif.Model.CoinTosserApprox
import Verif.Spec.Bits
/-
Specification vocabulary for the coin tossers that work from a cache: sizes, the number of ones, nearest integer.
-/
namespace Tsetlini.Spec

/-- `k` is the integer nearest to `x ≥ 0`, the larger of two. -/
def NearestTo (x : Rat) (k : Nat) : Prop := (k : Rat) - 1 / 2 ≤ x ∧ x < (k : Rat) + 1 / 2

/-- How many of the first `n` bits are set. -/
def ones (v : List (BitVec 64)) (n : Nat) : Nat := (List.range n).countP (bitAt v)

/-- Room for a window of `base` entries at more than one place, in a cache of fewer than 2^32. -/
def TossCache.Roomy (t : TossCache) : Prop := t.base < t.cache.length ∧ t.cache.length < 4294967296

/-- The same for a bit cache, whose sizes are whole blocks. -/
def BitTossCache.Roomy (t : BitTossCache) : Prop :=
  t.cache.len = t.cache.blocks.length * 64 ∧ t.base % 64 = 0 ∧ t.base < t.cache.len ∧ t.cache.len < 4294967296

/-- `k` calls of `tosses`, and the offsets they return. -/
def TossCache.many (env : Env) : Nat → TossCache → env.G → Res (TossCache × List Nat × env.G)
  | 0, t, g => .ok (t, [], g)
  | k + 1, t, g =>
    (t.tosses env g).bind fun (t, off, g) => (many env k t g).bind fun (t, offs, g) => .ok (t, off :: offs, g)

/-- `k` calls of `tosses` on a bit cache, and the blocks at which the returned windows start. -/
def BitTossCache.many (env : Env) : Nat → BitTossCache → env.G → Res (BitTossCache × List Nat × env.G)
  | 0, t, g => .ok (t, [], g)
  | k + 1, t, g =>
    (t.tosses env g).bind fun (t, b, g) => (many env k t g).bind fun (t, bs, g) => .ok (t, b :: bs, g)

end Tsetlini.Spec

namespace Tsetlini.Spec

/-- Number `i` of those a generator in state `s` will yield. -/
def drawn {V S : Type} (next : S → V × S) (s : S) : Nat → V
  | 0 => (next s).1
  | i + 1 => drawn next (next s).2 i

/-- The calls of a `frand_cache`. -/
inductive FrandCall
  | refill
  | next
deriving DecidableEq

/-- A sequence of calls, and the numbers the calls of `next` return. -/
def frandRun {V S : Type} (gen : S → V × S) : List FrandCall → FrandCache V → S → Res (List V)
  | [], _, _ => .ok []
  | .refill :: cs, c, s => (c.refill gen s).bind fun (c, s) => frandRun gen cs c s
  | .next :: cs, c, s => c.next.bind fun (v, c) => (frandRun gen cs c s).bind fun vs => .ok (v :: vs)

/-- Every call of `next` comes after a `refill`, with at most `size` of them until the next `refill`; `left` may come
before the first. -/
def Enough (size : Nat) : (left : Nat) → List FrandCall → Prop
  | _, [] => True
  | _, .refill :: cs => Enough size size cs
  | left, .next :: cs => 0 < left ∧ Enough size (left - 1) cs

end Tsetlini.Spec
