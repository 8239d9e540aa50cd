import Verif.Model.Res
import Verif.Model.Ieee
/-
How the JSON library writes a `double`: the decimal digits that the Grisu2 algorithm of the vendored lib/src/json/json.hpp picks.
64-bit unsigned arithmetic wraps (`u64`); a failing `JSON_ASSERT` ends the process (`exn exit`), as in a build with assertions.
-/
namespace Tsetlini

/-- The value of a `std::uint64_t` computation. No counterpart in the code: unsigned arithmetic is modulo 2^64. -/
def u64 (n : Nat) : Nat := n % 18446744073709551616

/-- `JSON_ASSERT(c)`, lib/src/json/json.hpp:2541-2543, in a build with assertions: the process ends. -/
def jsonAssert (c : Prop) [Decidable c] : Res Unit := if c then .ok () else .exn .exit

/-- `diyfp`, f * 2^e, lib/src/json/json.hpp:16840-16847. -/
structure Diyfp where
  f : Nat
  e : Int
deriving DecidableEq, Repr

/-- `diyfp::sub`, lib/src/json/json.hpp:16853-16859. -/
def Diyfp.sub (x y : Diyfp) : Res Diyfp :=
  (jsonAssert (x.e = y.e)).bind fun _ => (jsonAssert (y.f ≤ x.f)).bind fun _ =>
  .ok ⟨u64 (x.f + 18446744073709551616 - y.f), x.e⟩

/-- `diyfp::mul`, lib/src/json/json.hpp:16865-16923: schoolbook multiplication in 32-bit halves, the upper 64 bits, rounded. -/
def Diyfp.mul (x y : Diyfp) : Diyfp :=
  let uLo := x.f % 4294967296
  let uHi := x.f / 4294967296
  let vLo := y.f % 4294967296
  let vHi := y.f / 4294967296
  let p0 := u64 (uLo * vLo)
  let p1 := u64 (uLo * vHi)
  let p2 := u64 (uHi * vLo)
  let p3 := u64 (uHi * vHi)
  let Q := u64 (u64 (p0 / 4294967296 + p1 % 4294967296) + p2 % 4294967296)
  let Q := u64 (Q + 2147483648)
  ⟨u64 (u64 (u64 (p3 + p2 / 4294967296) + p1 / 4294967296) + Q / 4294967296), x.e + y.e + 64⟩

/-- The loop of `diyfp::normalize`, lib/src/json/json.hpp:16929-16940; runs forever on 0 (`timeout`). -/
def Diyfp.normalizeLoop : Nat → Diyfp → Res Diyfp
  | 0, _ => .timeout
  | fuel + 1, x => if x.f / 9223372036854775808 = 0 then normalizeLoop fuel ⟨u64 (x.f * 2), x.e - 1⟩ else .ok x

/-- `diyfp::normalize`, lib/src/json/json.hpp:16929-16940. -/
def Diyfp.normalize (x : Diyfp) : Res Diyfp := (jsonAssert (x.f ≠ 0)).bind fun _ => Diyfp.normalizeLoop 65 x

/-- `diyfp::normalize_to`, lib/src/json/json.hpp:16946-16954. -/
def Diyfp.normalizeTo (x : Diyfp) (target : Int) : Res Diyfp :=
  let delta := x.e - target
  (jsonAssert (0 ≤ delta)).bind fun _ =>
  if 64 ≤ delta then .ub .shift else
  (jsonAssert (u64 (x.f * 2 ^ delta.toNat) / 2 ^ delta.toNat = x.f)).bind fun _ =>
  .ok ⟨u64 (x.f * 2 ^ delta.toNat), target⟩

/-- `boundaries`, lib/src/json/json.hpp:16957-16962. -/
structure Boundaries where
  w : Diyfp
  minus : Diyfp
  plus : Diyfp
deriving DecidableEq, Repr

/-- The biased exponent `E` and the fraction `F` of a positive `double`, lib/src/json/json.hpp:16995-16997 (`reinterpret_bits`).
No counterpart in the code: IEEE 754 binary64, the encoding of the number `q`. -/
def doubleBits (q : Rat) : Nat × Nat :=
  let n := (q * (2 ^ 1074 : Nat)).floor.toNat
  if n < 4503599627370496 then (0, n) else (n.log2 - 52 + 1, n / 2 ^ (n.log2 - 52) - 4503599627370496)

/-- `compute_boundaries<double>`, lib/src/json/json.hpp:16971-17042. -/
def computeBoundaries (q : Rat) : Res Boundaries :=
  let E := (doubleBits q).1
  let F := (doubleBits q).2
  let v : Diyfp := if E = 0 then ⟨F, -1074⟩ else ⟨F + 4503599627370496, (E : Int) - 1075⟩
  let closer := decide (F = 0) && decide (1 < E)
  let mPlus : Diyfp := ⟨u64 (2 * v.f + 1), v.e - 1⟩
  let mMinus : Diyfp := if closer then ⟨u64 (4 * v.f - 1), v.e - 2⟩ else ⟨u64 (2 * v.f - 1), v.e - 1⟩
  mPlus.normalize.bind fun wPlus =>
  (mMinus.normalizeTo wPlus.e).bind fun wMinus =>
  v.normalize.bind fun w => .ok ⟨w, wMinus, wPlus⟩

/-- `cached_power`, lib/src/json/json.hpp:17096-17101. -/
structure CachedPower where
  f : Nat
  e : Int
  k : Int
deriving DecidableEq, Repr

/-- `kCachedPowers`, lib/src/json/json.hpp:17169-17247. -/
def cachedPowers : List CachedPower :=
  [⟨0xAB70FE17C79AC6CA, -1060, -300⟩,
   ⟨0xFF77B1FCBEBCDC4F, -1034, -292⟩,
   ⟨0xBE5691EF416BD60C, -1007, -284⟩,
   ⟨0x8DD01FAD907FFC3C, -980, -276⟩,
   ⟨0xD3515C2831559A83, -954, -268⟩,
   ⟨0x9D71AC8FADA6C9B5, -927, -260⟩,
   ⟨0xEA9C227723EE8BCB, -901, -252⟩,
   ⟨0xAECC49914078536D, -874, -244⟩,
   ⟨0x823C12795DB6CE57, -847, -236⟩,
   ⟨0xC21094364DFB5637, -821, -228⟩,
   ⟨0x9096EA6F3848984F, -794, -220⟩,
   ⟨0xD77485CB25823AC7, -768, -212⟩,
   ⟨0xA086CFCD97BF97F4, -741, -204⟩,
   ⟨0xEF340A98172AACE5, -715, -196⟩,
   ⟨0xB23867FB2A35B28E, -688, -188⟩,
   ⟨0x84C8D4DFD2C63F3B, -661, -180⟩,
   ⟨0xC5DD44271AD3CDBA, -635, -172⟩,
   ⟨0x936B9FCEBB25C996, -608, -164⟩,
   ⟨0xDBAC6C247D62A584, -582, -156⟩,
   ⟨0xA3AB66580D5FDAF6, -555, -148⟩,
   ⟨0xF3E2F893DEC3F126, -529, -140⟩,
   ⟨0xB5B5ADA8AAFF80B8, -502, -132⟩,
   ⟨0x87625F056C7C4A8B, -475, -124⟩,
   ⟨0xC9BCFF6034C13053, -449, -116⟩,
   ⟨0x964E858C91BA2655, -422, -108⟩,
   ⟨0xDFF9772470297EBD, -396, -100⟩,
   ⟨0xA6DFBD9FB8E5B88F, -369, -92⟩,
   ⟨0xF8A95FCF88747D94, -343, -84⟩,
   ⟨0xB94470938FA89BCF, -316, -76⟩,
   ⟨0x8A08F0F8BF0F156B, -289, -68⟩,
   ⟨0xCDB02555653131B6, -263, -60⟩,
   ⟨0x993FE2C6D07B7FAC, -236, -52⟩,
   ⟨0xE45C10C42A2B3B06, -210, -44⟩,
   ⟨0xAA242499697392D3, -183, -36⟩,
   ⟨0xFD87B5F28300CA0E, -157, -28⟩,
   ⟨0xBCE5086492111AEB, -130, -20⟩,
   ⟨0x8CBCCC096F5088CC, -103, -12⟩,
   ⟨0xD1B71758E219652C, -77, -4⟩,
   ⟨0x9C40000000000000, -50, 4⟩,
   ⟨0xE8D4A51000000000, -24, 12⟩,
   ⟨0xAD78EBC5AC620000, 3, 20⟩,
   ⟨0x813F3978F8940984, 30, 28⟩,
   ⟨0xC097CE7BC90715B3, 56, 36⟩,
   ⟨0x8F7E32CE7BEA5C70, 83, 44⟩,
   ⟨0xD5D238A4ABE98068, 109, 52⟩,
   ⟨0x9F4F2726179A2245, 136, 60⟩,
   ⟨0xED63A231D4C4FB27, 162, 68⟩,
   ⟨0xB0DE65388CC8ADA8, 189, 76⟩,
   ⟨0x83C7088E1AAB65DB, 216, 84⟩,
   ⟨0xC45D1DF942711D9A, 242, 92⟩,
   ⟨0x924D692CA61BE758, 269, 100⟩,
   ⟨0xDA01EE641A708DEA, 295, 108⟩,
   ⟨0xA26DA3999AEF774A, 322, 116⟩,
   ⟨0xF209787BB47D6B85, 348, 124⟩,
   ⟨0xB454E4A179DD1877, 375, 132⟩,
   ⟨0x865B86925B9BC5C2, 402, 140⟩,
   ⟨0xC83553C5C8965D3D, 428, 148⟩,
   ⟨0x952AB45CFA97A0B3, 455, 156⟩,
   ⟨0xDE469FBD99A05FE3, 481, 164⟩,
   ⟨0xA59BC234DB398C25, 508, 172⟩,
   ⟨0xF6C69A72A3989F5C, 534, 180⟩,
   ⟨0xB7DCBF5354E9BECE, 561, 188⟩,
   ⟨0x88FCF317F22241E2, 588, 196⟩,
   ⟨0xCC20CE9BD35C78A5, 614, 204⟩,
   ⟨0x98165AF37B2153DF, 641, 212⟩,
   ⟨0xE2A0B5DC971F303A, 667, 220⟩,
   ⟨0xA8D9D1535CE3B396, 694, 228⟩,
   ⟨0xFB9B7CD9A4A7443C, 720, 236⟩,
   ⟨0xBB764C4CA7A44410, 747, 244⟩,
   ⟨0x8BAB8EEFB6409C1A, 774, 252⟩,
   ⟨0xD01FEF10A657842C, 800, 260⟩,
   ⟨0x9B10A4E5E9913129, 827, 268⟩,
   ⟨0xE7109BFBA19C0C9D, 853, 276⟩,
   ⟨0xAC2820D9623BF429, 880, 284⟩,
   ⟨0x80444B5E7AA7CF85, 907, 292⟩,
   ⟨0xBF21E44003ACDD2D, 933, 300⟩,
   ⟨0x8E679C2F5E44FF8F, 960, 308⟩,
   ⟨0xD433179D9C8CB841, 986, 316⟩,
   ⟨0x9E19DB92B4E31BA9, 1013, 324⟩]

/-- `get_cached_power_for_binary_exponent`, lib/src/json/json.hpp:17111-17269.  `int` division truncates. -/
def cachedPower (e : Int) : Res CachedPower :=
  (jsonAssert (-1500 ≤ e)).bind fun _ => (jsonAssert (e ≤ 1500)).bind fun _ =>
  let f := -60 - e - 1
  let k := (f * 78913).tdiv 262144 + (if 0 < f then 1 else 0)
  let index := (300 + k + 7).tdiv 8
  (jsonAssert (0 ≤ index)).bind fun _ =>
  (rd cachedPowers index.toNat).bind fun c =>
  (jsonAssert (-60 ≤ c.e + e + 64)).bind fun _ => (jsonAssert (c.e + e + 64 ≤ -32)).bind fun _ =>
  .ok c

/-- `find_largest_pow10`, lib/src/json/json.hpp:17275-17328: the number of digits and the power. -/
def findLargestPow10 (n : Nat) : Nat × Nat :=
  if 1000000000 ≤ n then (10, 1000000000)
  else if 100000000 ≤ n then (9, 100000000)
  else if 10000000 ≤ n then (8, 10000000)
  else if 1000000 ≤ n then (7, 1000000)
  else if 100000 ≤ n then (6, 100000)
  else if 10000 ≤ n then (5, 10000)
  else if 1000 ≤ n then (4, 1000)
  else if 100 ≤ n then (3, 100)
  else if 10 ≤ n then (2, 10)
  else (1, 1)

/-- `buffer[length++] = c` with what is left of the 64 bytes of `number_buffer` after a sign. lib/src/json/json.hpp:17447,17554,18850 -/
def pushDigit (buf : List Nat) (c : Nat) : Res (List Nat) := if buf.length < 63 then .ok (buf ++ [c]) else .ub .oob

/-- The loop of `grisu2_round`, lib/src/json/json.hpp:17356-17363; `fuel` bounds the number of turns (`timeout`). -/
def grisuRoundLoop (dist delta ten : Nat) : Nat → List Nat → Nat → Res (List Nat)
  | 0, _, _ => .timeout
  | fuel + 1, buf, rest =>
    if rest < dist ∧ ten ≤ delta - rest ∧ (u64 (rest + ten) < dist ∨ u64 (rest + ten) - dist < dist - rest) then
      (rd buf (buf.length - 1)).bind fun c =>
      (jsonAssert (c ≠ 48)).bind fun _ =>
      (wr buf (buf.length - 1) (c - 1)).bind fun buf =>
      grisuRoundLoop dist delta ten fuel buf (u64 (rest + ten))
    else .ok buf

/-- `grisu2_round`, lib/src/json/json.hpp:17329-17364. -/
def grisuRound (buf : List Nat) (dist delta rest ten : Nat) : Res (List Nat) :=
  (jsonAssert (1 ≤ buf.length)).bind fun _ => (jsonAssert (dist ≤ delta)).bind fun _ =>
  (jsonAssert (rest ≤ delta)).bind fun _ => (jsonAssert (0 < ten)).bind fun _ =>
  grisuRoundLoop dist delta ten 257 buf rest

/-- The loop over the integral part, lib/src/json/json.hpp:17433-17492, `s = -one.e`.  Left: done, with the number of digits that are not
written; right: all digits are written. -/
def digitLoop1 (s p2 delta dist : Nat) : Nat → List Nat → Nat → Nat → Res (Except (List Nat × Nat) (List Nat))
  | 0, buf, _, _ => .ok (.ok buf)
  | n + 1, buf, p1, pow10 =>
    if pow10 = 0 then .ub .divZero else
    (jsonAssert (p1 / pow10 ≤ 9)).bind fun _ =>
    (pushDigit buf (48 + p1 / pow10)).bind fun buf =>
    let r := p1 % pow10
    let rest := u64 (u64 (r * 2 ^ s) + p2)
    if rest ≤ delta then
      (grisuRound buf dist delta rest (u64 (pow10 * 2 ^ s))).bind fun buf => .ok (.error (buf, n))
    else digitLoop1 s p2 delta dist n buf r (pow10 / 10)

/-- The loop over the fractional part, lib/src/json/json.hpp:17533-17575: the buffer, the number of digits, and what is left;
`fuel` bounds the number of turns (`timeout`). -/
def digitLoop2 (s : Nat) : Nat → List Nat → Nat → Nat → Nat → Nat → Res (List Nat × Nat × Nat × Nat × Nat)
  | 0, _, _, _, _, _ => .timeout
  | fuel + 1, buf, m, p2, delta, dist =>
    (jsonAssert (p2 ≤ 1844674407370955161)).bind fun _ =>
    let p2 := u64 (p2 * 10)
    let d := p2 / 2 ^ s
    let r := p2 % 2 ^ s
    (jsonAssert (d ≤ 9)).bind fun _ =>
    (pushDigit buf (48 + d)).bind fun buf =>
    let delta := u64 (delta * 10)
    let dist := u64 (dist * 10)
    if r ≤ delta then .ok (buf, m + 1, r, delta, dist) else digitLoop2 s fuel buf (m + 1) r delta dist

/-- `grisu2_digit_gen`, lib/src/json/json.hpp:17370-17603: the buffer and the decimal exponent. -/
def digitGen (exp10 : Int) (mMinus w mPlus : Diyfp) : Res (List Nat × Int) :=
  (jsonAssert (-60 ≤ mPlus.e)).bind fun _ => (jsonAssert (mPlus.e ≤ -32)).bind fun _ =>
  (mPlus.sub mMinus).bind fun delta => (mPlus.sub w).bind fun dist =>
  let s := (-mPlus.e).toNat
  let p1 := mPlus.f / 2 ^ s % 4294967296
  let p2 := mPlus.f % 2 ^ s
  (jsonAssert (0 < p1)).bind fun _ =>
  let kp := findLargestPow10 p1
  (digitLoop1 s p2 delta.f dist.f kp.1 [] p1 kp.2).bind fun
  | .error (buf, n) => .ok (buf, exp10 + n)
  | .ok buf =>
    (jsonAssert (delta.f < p2)).bind fun _ =>
    (digitLoop2 s 65 buf 0 p2 delta.f dist.f).bind fun (buf, m, p2, delta, dist) =>
    (grisuRound buf dist delta p2 (2 ^ s)).bind fun buf => .ok (buf, exp10 - m)

/-- `grisu2` of boundaries, lib/src/json/json.hpp:17611-17662. -/
def grisuBounds (b : Boundaries) : Res (List Nat × Int) :=
  (jsonAssert (b.plus.e = b.minus.e)).bind fun _ => (jsonAssert (b.plus.e = b.w.e)).bind fun _ =>
  (cachedPower b.plus.e).bind fun c =>
  let ck : Diyfp := ⟨c.f, c.e⟩
  let w := b.w.mul ck
  let wMinus := b.minus.mul ck
  let wPlus := b.plus.mul ck
  digitGen (-c.k) ⟨u64 (wMinus.f + 1), wMinus.e⟩ w ⟨u64 (wPlus.f + 18446744073709551616 - 1), wPlus.e⟩

/-- `grisu2` of a positive `double`, lib/src/json/json.hpp:17671-17702: decimal digits (as characters) and an exponent. -/
def grisu2 (q : Rat) : Res (List Nat × Int) := (computeBoundaries q).bind grisuBounds

end Tsetlini
