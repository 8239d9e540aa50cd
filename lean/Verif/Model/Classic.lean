import Verif.Model.Backend
/-
The classic algorithm: lib/src/tsetlini_algo_classic.hpp and `TAState::initialize`.
-/
namespace Tsetlini

/-- `numeric_matrix<int8/16/32>` held by `matrix_variant_type`.  Simplification:
rows are separate lists; the flat, padded storage of lib/include/basic_numeric_matrix.hpp
is modelled in `Model/Layout.lean`, where rows are shown not to alias. lib/src/ta_state.hpp:45-49; element types lib/include/tsetlini_types.hpp:43-45. -/
structure Matrix where
  ctype : CType
  cols : Nat
  rows : List (List Int)
deriving DecidableEq, Repr

/-- Default constructed variant: an empty `numeric_matrix_int32`. lib/src/ta_state.hpp:45-49 -/
def Matrix.empty : Matrix := ⟨.int32, 0, []⟩

/-- `row_items()`, lib/include/basic_numeric_matrix.hpp:100-105 (there in 32-bit unsigned
arithmetic, here exact; `allocOk` says when the two agree). -/
def rowItems (itemSize ncols : Nat) : Nat :=
  (ncols * itemSize + 63) / 64 * (64 / itemSize)

/-- The sizes the constructor of `basic_numeric_matrix` computes in 32-bit unsigned
arithmetic (lib/include/basic_numeric_matrix.hpp:38-43,100-105) do not wrap. -/
def allocOk (itemSize nrows ncols : Nat) : Bool :=
  decide (ncols * itemSize + 63 < 4294967296 ∧ rowItems itemSize ncols * nrows < 4294967296)

/-- A `char` element of a sample. lib/include/tsetlini_types.hpp:32 -/
abbrev Byte := BitVec 8

/-- `aligned_vector_char`. lib/include/tsetlini_types.hpp:32 -/
abbrev ClassicSample := List Byte

/-- `action`, lib/src/tsetlini_algo_classic.hpp:40-45 -/
def action (s : Int) : Bool := decide (0 ≤ s)

/-- C++ conversion of a `bool` to `char`. lib/src/tsetlini_algo_classic.hpp:204,207 -/
def b2c (b : Bool) : Byte := if b then 1#8 else 0#8

/-- `a > b ? a : b` on (signed) `char`. lib/src/tsetlini_algo_classic.hpp:205,208 -/
def maxChar (a b : Byte) : Byte := if b.slt a then a else b

/-- `flag`, lib/src/tsetlini_algo_classic.hpp:204,220,315,328:
`((X | !inc) ^ 1) | (((!inc_neg) | (X ^ 1)) ^ 1)` -/
def clauseFlag (x : Byte) (inc incNeg : Bool) : Byte :=
  ((x ||| b2c (!inc)) ^^^ 1#8) ||| (((b2c (!incNeg)) ||| (x ^^^ 1#8)) ^^^ 1#8)

/-- The loop for fewer features than the tile, lib/src/tsetlini_algo_classic.hpp:168-176
(with pruning) and 284-290 (without; there `all_exclude` does not exist).
`fs` are the indices still to visit; returns `(output, all_exclude)`. -/
def simpleLoop (pos neg : List Int) (X : ClassicSample) :
    List Nat → (output allExclude : Bool) → Res (Bool × Bool)
  | [], o, e => .ok (o, e)
  | f :: fs, o, e =>
    if o then
      (rd pos f).bind fun p =>
      (rd neg f).bind fun n =>
      (rd X f).bind fun x =>
      let inc := action p
      let incNeg := action n
      let e := if inc || incNeg then false else e
      let o := if (inc && x == 0#8) || (incNeg && x != 0#8) then false else o
      simpleLoop pos neg X fs o e
    else .ok (o, e)

/-- Body of the loops over one feature in the batched path,
lib/src/tsetlini_algo_classic.hpp:201-208,217-224,312-316,325-329. State: `(toggle_output, neg_all_exclude)`. -/
def flagStep (pos neg : List Int) (X : ClassicSample) (f : Nat) (st : Byte × Byte) :
    Res (Byte × Byte) :=
  (rd pos f).bind fun p =>
  (rd neg f).bind fun n =>
  (rd X f).bind fun x =>
  let inc := action p
  let incNeg := action n
  let flag := clauseFlag x inc incNeg
  let xflag := b2c inc + b2c incNeg
  .ok (maxChar flag st.1, maxChar xflag st.2)

/-- Outer loop of the batched path with its `break`: `stop` is `toggle_output != 0`.
Returns `kk` and the state.  lib/src/tsetlini_algo_classic.hpp:196-214,307-322 and
lib/src/tsetlini_algo_bitwise.hpp:86-103,271-289. -/
def tileBatch {σ : Type} (step : Nat → σ → Res σ) (stop : σ → Bool) (B : Nat) (hB : 0 < B) (n : Nat)
    (kk : Nat) (st : σ) : Res (Nat × σ) :=
  if kk < n - (B - 1) then
    (iter (range kk (B + kk)) step st).bind fun st =>
    if stop st then .ok (kk, st)
    else tileBatch step stop B hB n (kk + B) st
  else .ok (kk, st)
termination_by n - kk

/-- Tail loop of the batched path, lib/src/tsetlini_algo_classic.hpp:215-225,323-330,
lib/src/tsetlini_algo_bitwise.hpp:104-113,290-300. -/
def tileTail {σ : Type} (step : Nat → σ → Res σ) (stop : σ → Bool) : List Nat → σ → Res σ
  | [], st => .ok st
  | f :: fs, st =>
    if stop st then .ok st else (step f st).bind (tileTail step stop fs)

theorem Tile.size_pos (t : Tile) : 0 < t.size := by cases t <;> decide

/-- Batched path over `n` items (features or blocks). lib/src/tsetlini_algo_classic.hpp:196-225 -/
def tileLoops {σ : Type} (step : Nat → σ → Res σ) (stop : σ → Bool) (t : Tile) (n : Nat) (st : σ) :
    Res σ :=
  (tileBatch step stop t.size t.size_pos n 0 st).bind fun (kk, st) =>
  tileTail step stop (range kk n) st

/-- Batched path of the classic clause output, lib/src/tsetlini_algo_classic.hpp:190-225,302-330. -/
def batchedLoops (t : Tile) (pos neg : List Int) (X : ClassicSample) : Res (Byte × Byte) :=
  tileLoops (flagStep pos neg X) (fun st => st.1 != 0#8) t X.length (0#8, 0#8)

/-- One iteration of `calculate_clause_output_T`, lib/src/tsetlini_algo_classic.hpp:259-335,
after the two row pointers are formed. -/
def classicClause (t : Tile) (pos neg : List Int) (X : ClassicSample) : Res Bool :=
  if X.length < t.size then
    (simpleLoop pos neg X (range 0 X.length) true true).bind fun (o, _) => .ok o
  else
    (batchedLoops t pos neg X).bind fun (toggle, _) => .ok (toggle == 0#8)

/-- One iteration of `calculate_clause_output_with_pruning_T`,
lib/src/tsetlini_algo_classic.hpp:138-230. -/
def classicClausePruned (t : Tile) (pos neg : List Int) (X : ClassicSample) : Res Bool :=
  if X.length < t.size then
    (simpleLoop pos neg X (range 0 X.length) true true).bind fun (o, e) =>
    .ok (if e then false else o)
  else
    (batchedLoops t pos neg X).bind fun (toggle, nae) =>
    .ok (if nae = 0#8 then false else toggle == 0#8)

/-- `block1`, lib/src/tsetlini_algo_classic.hpp:369-400: Type I feedback, output 0. -/
def block1 (ct : CType) (nf : Nat) (N : Int) (pos neg : List Int) (ctPos ctNeg : List Bool) :
    Res (List Int × List Int) :=
  iter (range 0 nf) (fun f (pn : List Int × List Int) =>
    (rd ctPos f).bind fun cp =>
    (rd pn.1 f).bind fun p =>
    (wr pn.1 f (ct.store (if cp then (if p > -N then p - 1 else p) else p))).bind fun pos =>
    (rd ctNeg f).bind fun cn =>
    (rd pn.2 f).bind fun n =>
    (wr pn.2 f (ct.store (if cn then (if n > -N then n - 1 else n) else n))).bind fun neg =>
    .ok (pos, neg)) (pos, neg)

/-- The four conditional updates of one feature in `block2`,
lib/src/tsetlini_algo_classic.hpp:429-477.  `X & cond` on a `char` tests its lowest bit,
`!X` tests the whole byte. -/
def block2Cell (ct : CType) (boost : Bool) (N : Int) (x : Byte) (cp cn : Bool) (p n : Int) :
    Int × Int :=
  let cond1Pos := boost || !cp
  let cond2Pos := cp
  let cond1Neg := boost || !cn
  let cond2Neg := cn
  let x1 := x.getLsbD 0
  let x0 := x == 0#8
  let posInc := decide (p < N - 1)
  let posDec := decide (p > -N)
  let negInc := decide (n < N - 1)
  let negDec := decide (n > -N)
  let p' := ct.store (if x1 && cond1Pos && posInc then p + 1 else p)
  let n' := ct.store (if x1 && cond2Neg && negDec then n - 1 else n)
  let p'' := ct.store (if x0 && cond2Pos && posDec then p' - 1 else p')
  let n'' := ct.store (if x0 && cond1Neg && negInc then n' + 1 else n')
  (p'', n'')

/-- `block2`, lib/src/tsetlini_algo_classic.hpp:408-517: Type I feedback, output 1. -/
def block2 (ct : CType) (boost : Bool) (nf : Nat) (N : Int) (pos neg : List Int)
    (X : ClassicSample) (ctPos ctNeg : List Bool) : Res (List Int × List Int) :=
  iter (range 0 nf) (fun f (pn : List Int × List Int) =>
    (rd ctPos f).bind fun cp =>
    (rd ctNeg f).bind fun cn =>
    (rd X f).bind fun x =>
    (rd pn.1 f).bind fun p =>
    (rd pn.2 f).bind fun n =>
    let c := block2Cell ct boost N x cp cn p n
    (wr pn.1 f c.1).bind fun pos =>
    (wr pn.2 f c.2).bind fun neg =>
    .ok (pos, neg)) (pos, neg)

/-- One feature of `block3`, lib/src/tsetlini_algo_classic.hpp:542-548. -/
def block3Cell (ct : CType) (x : Byte) (p n : Int) : Int × Int :=
  let x0 := (x ^^^ 1#8).getLsbD 0
  let x1 := x.getLsbD 0
  let posInc := decide (p < 0)
  let negInc := decide (n < 0)
  (ct.store (if x0 && posInc then p + 1 else p), ct.store (if x1 && negInc then n + 1 else n))

/-- `block3`, lib/src/tsetlini_algo_classic.hpp:525-572: Type II feedback. -/
def block3 (ct : CType) (nf : Nat) (pos neg : List Int) (X : ClassicSample) :
    Res (List Int × List Int) :=
  iter (range 0 nf) (fun f (pn : List Int × List Int) =>
    (rd X f).bind fun x =>
    (rd pn.1 f).bind fun p =>
    (rd pn.2 f).bind fun n =>
    let c := block3Cell ct x p n
    (wr pn.1 f c.1).bind fun pos =>
    (wr pn.2 f c.2).bind fun neg =>
    .ok (pos, neg)) (pos, neg)

/-- Run `f` on the two rows of clause `i` (`row_data(2*i)`, `row_data(2*i+1)`) and
write them back: the routines update the rows in place. lib/src/tsetlini_algo_classic.hpp:595-596,796-797 -/
def onClause (m : Matrix) (i : Nat) (f : List Int → List Int → Res (List Int × List Int)) :
    Res Matrix :=
  (rd m.rows (2 * i + 0)).bind fun pos =>
  (rd m.rows (2 * i + 1)).bind fun neg =>
  (f pos neg).bind fun pn =>
  (wr m.rows (2 * i + 0) pn.1).bind fun rows =>
  (wr rows (2 * i + 1) pn.2).bind fun rows =>
  .ok { m with rows := rows }

/-- One row of the double loop of `TAState::initialize`, lib/src/ta_state.cpp:59-62. -/
def initRow (env : Env) (ct : CType) : Nat → env.G → List Int × env.G
  | 0, g => ([], g)
  | n + 1, g =>
    let (v, g) := env.nextMinus1or0 g
    let (vs, g) := initRow env ct n g
    (ct.store v :: vs, g)

/-- The double loop of `TAState::initialize`, lib/src/ta_state.cpp:53-66. -/
def initRows (env : Env) (ct : CType) (cols : Nat) : Nat → env.G → List (List Int) × env.G
  | 0, g => ([], g)
  | n + 1, g =>
    let (r, g) := initRow env ct cols g
    let (rs, g) := initRows env ct cols n g
    (r :: rs, g)

/-- `TAState::initialize` up to the weights, lib/src/ta_state.cpp:41-66, with
`make_ta_state_matrix` 17-39.  If the size of the allocation wraps (`allocOk`),
the initialisation writes out of bounds. -/
def classicInit (env : Env) (ct : CType) (clauses features : Nat) (g : env.G) :
    Res (Matrix × env.G) :=
  if allocOk ct.bytes clauses features = false then .ub .oob else
  let (rows, g) := initRows env ct features clauses g
  .ok (⟨ct, features, rows⟩, g)

/-- The classic instance of the estimator templates. lib/src/tsetlini_algo_classic.hpp:1-888 as used by lib/src/tsetlini.cpp:1055-1186,1492-1508. -/
def classic : Backend where
  Mat := Matrix
  Sample := ClassicSample
  emptyMat := Matrix.empty
  nrows m := m.rows.length
  counters m := m.rows
  initMat := classicInit
  size := List.length
  /- `check_all_0s_or_1s`, lib/src/tsetlini.cpp:45-49 -/
  all01 X := X.all (fun v => v == 0#8 || v == 1#8)
  /- `check_clear_padding`, lib/src/tsetlini.cpp:60-65 -/
  clearPadding _ := .ok true
  clauseOut t m i X :=
    (rd m.rows (2 * i + 0)).bind fun pos => (rd m.rows (2 * i + 1)).bind fun neg =>
    classicClause t pos neg X
  clauseOutPruned t m i X :=
    (rd m.rows (2 * i + 0)).bind fun pos => (rd m.rows (2 * i + 1)).bind fun neg =>
    classicClausePruned t pos neg X
  /- lib/src/tsetlini_algo_classic.hpp:600-603,801-804 -/
  typeINeg env hy m i X g ct :=
    (tossBoth env ct g).bind fun (ct, g) =>
    (onClause m i fun pos neg =>
      block1 m.ctype X.length hy.states pos neg ct.cache1 ct.cache2).bind fun m =>
    .ok (m, g, ct)
  /- lib/src/tsetlini_algo_classic.hpp:604-613,805-814 -/
  typeIPos env hy m i X g ct :=
    (tossBoth env ct g).bind fun (ct, g) =>
    (onClause m i fun pos neg =>
      block2 m.ctype hy.boost X.length hy.states pos neg X ct.cache1 ct.cache2).bind fun m =>
    .ok (m, g, ct)
  /- lib/src/tsetlini_algo_classic.hpp:624-626,825-827 -/
  typeII m i X :=
    onClause m i fun pos neg => block3 m.ctype X.length pos neg X

end Tsetlini
