import Verif.Model.Env
/-
The Mersenne-Twister generator `BasePRNG` with 8 interleaved streams, lib/include/mt.hpp.

`V` is the type of the stored results: `unsigned int` for `IRNG`, `float` for `FRNG`. The pointers `RESp()` and
`MTp()` are the (aligned) starts of the arrays; the padding behind the `MTSZ * NS` elements is never
used and not modelled, so an access to it counts as out of bounds. `unsigned long` intermediate results are below 2^32
or get truncated to 32 bits, so 32-bit arithmetic gives the same values.
-/
namespace Tsetlini

/-- `MTSZ * NS`, lib/include/mt.hpp:52-54,262,285 (`MTSZ = 624`, `NS = 8`). -/
def mtLen : Nat := 4992

/-- The fields of `BasePRNG`, lib/include/mt.hpp:57-60. -/
structure Mt (V : Type) where
  index : Nat
  res : List V
  mt : List (BitVec 32)
deriving DecidableEq, Repr

/-- lib/include/mt.hpp:93: one step of the initialisation. -/
def mtGrow (prev : BitVec 32) (i : Nat) : BitVec 32 :=
  1812433253#32 * (prev ^^^ (prev >>> 30)) + BitVec.ofNat 32 (i / 8)

/-- lib/include/mt.hpp:106-108,112-114,119-120: the new word from the words `a` and `b` (the next one of
the stream) and the word `c` further on. The mask for `a` is `0x8000000`, one digit short of the usual one. -/
def mtTwist (a b c : BitVec 32) : BitVec 32 :=
  let y := (a &&& 0x8000000#32) + (b &&& 0x7FFFFFFF#32)
  c ^^^ (y >>> 1) ^^^ (if y &&& 1#32 = 1#32 then 2567483615#32 else 0#32)

/-- lib/include/mt.hpp:127-131: tempering. -/
def mtTemper (y : BitVec 32) : BitVec 32 :=
  let y := y ^^^ (y >>> 11)
  let y := y ^^^ ((y <<< 7) &&& 2636928640#32)
  let y := y ^^^ ((y <<< 15) &&& 4022730752#32)
  y ^^^ (y >>> 18)

/-- `init(seed)`, lib/include/mt.hpp:81-97; called on an object whose arrays hold anything. `zero` is the
value whose bytes are all 0. -/
def Mt.init {V : Type} (zero : V) (m : Mt V) (seed : BitVec 32) : Res (Mt V) :=
  (iter (range 0 8) (fun it (mt : List (BitVec 32)) => wr mt it (BitVec.ofNat 32 it + seed)) m.mt).bind fun mt =>
  (iter (range 8 mtLen) (fun i (mt : List (BitVec 32)) =>
    (rd mt (i - 8)).bind fun p => wr mt i (mtGrow p i)) mt).bind fun mt =>
  .ok ⟨0, List.replicate m.res.length zero, mt⟩

/-- One of the three loops that renew the words, lib/include/mt.hpp:104-121: word `i` from itself, word `b i`
and word `c i`. -/
def mtLoop (b c : Nat → Nat) (is : List Nat) (mt : List (BitVec 32)) : Res (List (BitVec 32)) :=
  iter is (fun i (mt : List (BitVec 32)) =>
    (rd mt i).bind fun x => (rd mt (b i)).bind fun y => (rd mt (c i)).bind fun z => wr mt i (mtTwist x y z)) mt

/-- `generate()`, lib/include/mt.hpp:99-134. The last loop, over the 8 streams, is written with
`i = (MTSZ - 1) * NS + it`. -/
def Mt.generate {V : Type} (post : BitVec 32 → V) (m : Mt V) : Res (Mt V) :=
  (mtLoop (· + 8) (· + 3176) (range 0 1816) m.mt).bind fun mt =>
  (mtLoop (· + 8) (· - 1816) (range 1816 4984) mt).bind fun mt =>
  (mtLoop (· - 4984) (· - 1816) (range 4984 4992) mt).bind fun mt =>
  (iter (range 0 mtLen) (fun it (res : List V) =>
    (rd mt it).bind fun y => wr res it (post (mtTemper y))) m.res).bind fun res =>
  .ok ⟨m.index, res, mt⟩

/-- `rand()`, lib/include/mt.hpp:145-166. -/
def Mt.rand {V : Type} (post : BitVec 32 → V) (m : Mt V) : Res (V × Mt V) :=
  (if m.index = 0 then m.generate post else .ok m).bind fun m =>
  (rd m.res m.index).bind fun y =>
  .ok (y, { m with index := if m.index = mtLen - 1 then 0 else m.index + 1 })

/-- `peek()`, lib/include/mt.hpp:136-143. -/
def Mt.peek {V : Type} (m : Mt V) : Res V := rd m.res m.index

/-- `n` calls of `rand()`. lib/include/mt.hpp:145-166 -/
def Mt.rands {V : Type} (post : BitVec 32 → V) : Nat → Mt V → Res (List V × Mt V)
  | 0, m => .ok ([], m)
  | n + 1, m =>
    (m.rand post).bind fun (y, m) => (Mt.rands post n m).bind fun (ys, m) => .ok (y :: ys, m)

/-- `IRNG::post_process`, lib/include/mt.hpp:255-259. -/
def irngPost (y : BitVec 32) : BitVec 32 := y

end Tsetlini
