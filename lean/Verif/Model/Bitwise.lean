import Verif.Model.Classic
import Verif.Model.Bits
/-
The bitwise algorithm: the routines of lib/src/tsetlini_algo_bitwise.hpp that the
library uses, and `TAStateWithPolarity::initialize`.  What is never called is modelled elsewhere: `block1`,
`block2` with bit-vector tosses and `block3_` in `Model/BitwiseUnused.lean`, the overloads of the clause
output that fill a bit vector in `Model/BitOutputs.lean`.
-/
namespace Tsetlini

/-- `row_blocks()`, lib/include/basic_bit_matrix.hpp:122-128,198-205 -/
def rowBlocks (ncols : Nat) : Nat := (ncols + 511) / 512 * 8

/-- The sizes the constructor of `basic_bit_matrix` computes in 32-bit unsigned
arithmetic do not wrap. lib/include/basic_bit_matrix.hpp:122-128,198-205 -/
def bitAllocOk (nrows ncols : Nat) : Bool :=
  decide (ncols + 511 < 4294967296 ∧ rowBlocks ncols * nrows < 4294967296)

/-- The automata of `TAStateWithPolarity::value_type`: counters and polarity
(rows of 64-bit blocks; separate lists, see `Model/Layout.lean`). lib/src/ta_state.hpp:83-98 -/
structure PMatrix where
  m : Matrix
  pol : List (List Block)
deriving DecidableEq, Repr

/-- State of the block loops: `(toggle_output, any_inclusions)`. lib/src/tsetlini_algo_bitwise.hpp:265-266 -/
abbrev BlkSt := Block × Block

/-- `a > b ? a : b` on blocks. lib/src/tsetlini_algo_bitwise.hpp:279,283,295,299 -/
def maxBlock (a b : Block) : Block := if b < a then a else b

/-- `eval`, lib/src/tsetlini_algo_bitwise.hpp:67,95,110,249,281,297:
`(action_include & ~features) | (action_include_negated & features)` -/
def evalBlock (inc incNeg x : Block) : Block := (inc &&& ~~~ x) ||| (incNeg &&& x)

/-- Loop for fewer blocks than the tile, lib/src/tsetlini_algo_bitwise.hpp:61-69 (without
pruning; no `any_inclusions`) and 242-251 (with).  Returns `(output, any_inclusions)`. -/
def bitSimpleLoop (pos neg X : List Block) : List Nat → Bool → Block → Res (Bool × Block)
  | [], o, a => .ok (o, a)
  | f :: fs, o, a =>
    if o then
      (rd pos f).bind fun p =>
      (rd neg f).bind fun n =>
      (rd X f).bind fun x =>
      bitSimpleLoop pos neg X fs (evalBlock p n x == 0#64) (maxBlock (p ||| n) a)
    else .ok (o, a)

/-- Body over one block, lib/src/tsetlini_algo_bitwise.hpp:91-97,106-112,276-283,292-299. -/
def bitStep (pos neg X : List Block) (f : Nat) (st : BlkSt) : Res BlkSt :=
  (rd pos f).bind fun p =>
  (rd neg f).bind fun n =>
  (rd X f).bind fun x =>
  .ok (maxBlock (evalBlock p n x) st.1, maxBlock (p ||| n) st.2)

/-- Batched path, lib/src/tsetlini_algo_bitwise.hpp:86-113,271-300. -/
def bitBatchedLoops (t : Tile) (pos neg X : List Block) (nb : Nat) : Res BlkSt :=
  tileLoops (bitStep pos neg X) (fun st => st.1 != 0#64) t nb (0#64, 0#64)

/-- One iteration of `calculate_clause_output_T`, lib/src/tsetlini_algo_bitwise.hpp:35-118. -/
def bitClause (t : Tile) (pos neg : List Block) (X : BitVector) : Res Bool :=
  if X.contentBlocks < t.size then
    (bitSimpleLoop pos neg X.blocks (range 0 X.contentBlocks) true 0#64).bind fun (o, _) => .ok o
  else
    (bitBatchedLoops t pos neg X.blocks X.contentBlocks).bind fun (toggle, _) =>
    .ok (toggle == 0#64)

/-- One iteration of `calculate_clause_output_with_pruning_T`,
lib/src/tsetlini_algo_bitwise.hpp:210-307. -/
def bitClausePruned (t : Tile) (pos neg : List Block) (X : BitVector) : Res Bool :=
  if X.contentBlocks < t.size then
    (bitSimpleLoop pos neg X.blocks (range 0 X.contentBlocks) true 0#64).bind fun (o, a) =>
    .ok (if 0#64 < a then o else false)
  else
    (bitBatchedLoops t pos neg X.blocks X.contentBlocks).bind fun (toggle, a) =>
    .ok ((if 0#64 < a then toggle else 1#64) == 0#64)

/-- One literal of `block1_sparse`, lib/src/tsetlini_algo_bitwise.hpp:488-501,503-516 (positive)
and 503-516 (negated): draw a feature, flip its polarity if the counter is 0,
decrement the counter if above `-N`. -/
def sparseDec (env : Env) (ct : CType) (nf : Nat) (N : Int) (row : List Int) (pol : List Block)
    (g : env.G) : Res (List Int × List Block × env.G) :=
  let (r, g) := env.next g
  if nf = 0 then .ub .divZero else
  let f := r.toNat % nf
  (rd row f).bind fun s =>
  (if s = 0 then bitFlip pol f else .ok pol).bind fun pol =>
  (if s > -N then wr row f (ct.store (s - 1)) else .ok row).bind fun row =>
  .ok (row, pol, g)

/-- Rows touched by one application of feedback to a clause. lib/src/tsetlini_algo_bitwise.hpp:909-910,919-920 -/
structure ClauseRows where
  pos : List Int
  neg : List Int
  ppos : List Block
  pneg : List Block
deriving DecidableEq, Repr

/-- `block1_sparse`, lib/src/tsetlini_algo_bitwise.hpp:473-518: `hits` rounds. -/
def block1Sparse (env : Env) (ct : CType) (nf hits : Nat) (N : Int) (c : ClauseRows) (g : env.G) :
    Res (ClauseRows × env.G) :=
  iter (List.range hits) (fun _ (s : ClauseRows × env.G) =>
    (sparseDec env ct nf N s.1.pos s.1.ppos s.2).bind fun (pos, ppos, g) =>
    (sparseDec env ct nf N s.1.neg s.1.pneg g).bind fun (neg, pneg, g) =>
    .ok (⟨pos, neg, ppos, pneg⟩, g)) (c, g)

/-- One feature of `block2`, lib/src/tsetlini_algo_bitwise.hpp:617-677. -/
def bitBlock2Step (ct : CType) (boost : Bool) (N : Int) (X : BitVector)
    (ctPos ctNeg : List Bool) (f : Nat) (c : ClauseRows) : Res ClauseRows :=
  (rd ctPos f).bind fun cp =>
  (rd ctNeg f).bind fun cn =>
  (bitTest X.blocks f).bind fun x =>
  if x then
    (if boost || !cp then
      -- increment, then test for zero *outside* of the increment's condition
      (rd c.pos f).bind fun p =>
      (if p < N - 1 then wr c.pos f (ct.store (p + 1)) else .ok c.pos).bind fun pos =>
      (rd pos f).bind fun p =>
      (if p = 0 then bitFlip c.ppos f else .ok c.ppos).bind fun ppos =>
      .ok { c with pos := pos, ppos := ppos }
    else .ok c).bind fun c =>
    (if cn then
      (rd c.neg f).bind fun n =>
      (if n = 0 then bitFlip c.pneg f else .ok c.pneg).bind fun pneg =>
      (if n > -N then wr c.neg f (ct.store (n - 1)) else .ok c.neg).bind fun neg =>
      .ok { c with neg := neg, pneg := pneg }
    else .ok c)
  else
    (if boost || !cn then
      (rd c.neg f).bind fun n =>
      (if n < N - 1 then
        (wr c.neg f (ct.store (n + 1))).bind fun neg =>
        (rd neg f).bind fun n =>
        (if n = 0 then bitFlip c.pneg f else .ok c.pneg).bind fun pneg =>
        .ok { c with neg := neg, pneg := pneg }
      else .ok c)
    else .ok c).bind fun c =>
    (if cp then
      (rd c.pos f).bind fun p =>
      (if p = 0 then bitFlip c.ppos f else .ok c.ppos).bind fun ppos =>
      (if p > -N then wr c.pos f (ct.store (p - 1)) else .ok c.pos).bind fun pos =>
      .ok { c with pos := pos, ppos := ppos }
    else .ok c)

/-- `block2` with char tosses, lib/src/tsetlini_algo_bitwise.hpp:593-679. -/
def bitBlock2 (ct : CType) (boost : Bool) (N : Int) (X : BitVector) (ctPos ctNeg : List Bool)
    (c : ClauseRows) : Res ClauseRows :=
  iter (range 0 X.len) (bitBlock2Step ct boost N X ctPos ctNeg) c

/-- Local variables of the inner loop of `block3`'s `process_block`. lib/src/tsetlini_algo_bitwise.hpp:850-854 -/
structure B3 where
  pos : List Int
  neg : List Int
  posInc : Block
  negInc : Block
  posFlip : Block
  negFlip : Block
deriving DecidableEq, Repr

/-- Inner loop body of `process_block`, lib/src/tsetlini_algo_bitwise.hpp:856-869. -/
def block3Bit (ct : CType) (base bix : Nat) (s : B3) : Res B3 :=
  let pb := s.posInc &&& 1#64
  let nb := s.negInc &&& 1#64
  (rd s.pos (base + bix)).bind fun p =>
  (wr s.pos (base + bix) (ct.store (p + pb.toNat))).bind fun pos =>
  (rd s.neg (base + bix)).bind fun n =>
  (wr s.neg (base + bix) (ct.store (n + nb.toNat))).bind fun neg =>
  (rd pos (base + bix)).bind fun p =>
  (rd neg (base + bix)).bind fun n =>
  .ok { pos := pos, neg := neg,
        posFlip := s.posFlip ||| (((if p = 0 then 1#64 else 0#64) &&& pb) <<< bix),
        negFlip := s.negFlip ||| (((if n = 0 then 1#64 else 0#64) &&& nb) <<< bix),
        posInc := s.posInc >>> 1, negInc := s.negInc >>> 1 }

/-- `process_block`, lib/src/tsetlini_algo_bitwise.hpp:843-873. -/
def processBlock (ct : CType) (X : List Block) (fidx bits : Nat) (c : ClauseRows) :
    Res ClauseRows :=
  (rd X fidx).bind fun x =>
  (rd c.ppos fidx).bind fun pp =>
  (rd c.pneg fidx).bind fun pn =>
  (iter (range 0 bits) (block3Bit ct (fidx * 64))
    ⟨c.pos, c.neg, ~~~ x &&& ~~~ pp, x &&& ~~~ pn, 0#64, 0#64⟩).bind fun s =>
  (wr c.ppos fidx (pp ^^^ s.posFlip)).bind fun ppos =>
  (wr c.pneg fidx (pn ^^^ s.negFlip)).bind fun pneg =>
  .ok ⟨s.pos, s.neg, ppos, pneg⟩

/-- `block3`, lib/src/tsetlini_algo_bitwise.hpp:823-885. -/
def bitBlock3 (ct : CType) (X : BitVector) (c : ClauseRows) : Res ClauseRows :=
  let full := X.contentBlocks - (if X.tailBits ≠ 0 then 1 else 0)
  (iter (range 0 full) (fun f c => processBlock ct X.blocks f 64 c) c).bind fun c =>
  if X.tailBits ≠ 0 then processBlock ct X.blocks full X.tailBits c else .ok c

/-- Run `f` on the rows of clause `i` and write them back. lib/src/tsetlini_algo_bitwise.hpp:909-920,1055-1066 -/
def onClauseP {γ : Type} (M : PMatrix) (i : Nat) (f : ClauseRows → Res (ClauseRows × γ)) :
    Res (PMatrix × γ) :=
  (rd M.m.rows (2 * i + 0)).bind fun pos =>
  (rd M.m.rows (2 * i + 1)).bind fun neg =>
  (rd M.pol (2 * i + 0)).bind fun ppos =>
  (rd M.pol (2 * i + 1)).bind fun pneg =>
  (f ⟨pos, neg, ppos, pneg⟩).bind fun (c, x) =>
  (wr M.m.rows (2 * i + 0) c.pos).bind fun rows =>
  (wr rows (2 * i + 1) c.neg).bind fun rows =>
  (wr M.pol (2 * i + 0) c.ppos).bind fun pol =>
  (wr pol (2 * i + 1) c.pneg).bind fun pol =>
  .ok (⟨{ M.m with rows := rows }, pol⟩, x)

/-- The polarity writes of one row, lib/src/ta_state.cpp:101-108: `set` for a non-negative
counter, `clear` for a negative one. -/
def initPolRow : List Int → (col : Nat) → List Block → Res (List Block)
  | [], _, b => .ok b
  | v :: vs, c, b =>
    (if 0 ≤ v then bitSet b c else bitClear b c).bind (initPolRow vs (c + 1))

/-- `initPolRow` for every row. lib/src/ta_state.cpp:92-111 -/
def initPol (nblocks : Nat) : List (List Int) → Res (List (List Block))
  | [] => .ok []
  | r :: rs =>
    (initPolRow r 0 (List.replicate nblocks 0#64)).bind fun b =>
    (initPol nblocks rs).bind fun bs => .ok (b :: bs)

/-- `TAStateWithPolarity::initialize` up to the weights, lib/src/ta_state.cpp:75-113.
Simplification: the counters are drawn first and the polarity bits written
afterwards; in the code the two alternate cell by cell, but writing polarity
draws nothing. -/
def bitwiseInit (env : Env) (ct : CType) (clauses features : Nat) (g : env.G) :
    Res (PMatrix × env.G) :=
  (classicInit env ct clauses features g).bind fun (m, g) =>
  if bitAllocOk clauses features = false then .ub .oob else
  (initPol (rowBlocks features) m.rows).bind fun pol =>
  .ok (⟨m, pol⟩, g)

/-- The bitwise instance of the estimator templates. lib/src/tsetlini_algo_bitwise.hpp:1-1172 as used by lib/src/tsetlini.cpp:1192-1231,1639-1655. -/
def bitwise : Backend where
  Mat := PMatrix
  Sample := BitVector
  emptyMat := ⟨Matrix.empty, []⟩
  nrows M := M.m.rows.length
  counters M := M.m.rows
  initMat := bitwiseInit
  size X := X.len
  /- `check_all_0s_or_1s`, lib/src/tsetlini.cpp:52-57 -/
  all01 _ := true
  clearPadding := bitClearPadding
  clauseOut t M i X :=
    (rd M.pol (2 * i + 0)).bind fun pos => (rd M.pol (2 * i + 1)).bind fun neg =>
    bitClause t pos neg X
  clauseOutPruned t M i X :=
    (rd M.pol (2 * i + 0)).bind fun pos => (rd M.pol (2 * i + 1)).bind fun neg =>
    bitClausePruned t pos neg X
  /- lib/src/tsetlini_algo_bitwise.hpp:914-923 -/
  typeINeg env hy M i X g ct :=
    let (hits, g) := ct.estimateHits env g
    (onClauseP M i fun c => block1Sparse env M.m.ctype X.len hits hy.states c g).bind
      fun (M, g) => .ok (M, g, ct)
  /- lib/src/tsetlini_algo_bitwise.hpp:924-943 -/
  typeIPos env hy M i X g ct :=
    (tossBoth env ct g).bind fun (ct, g) =>
    (onClauseP M i fun c =>
      (bitBlock2 M.m.ctype hy.boost hy.states X ct.cache1 ct.cache2 c).bind
        fun c => .ok (c, ())).bind fun (M, _) =>
    .ok (M, g, ct)
  /- lib/src/tsetlini_algo_bitwise.hpp:954-962 -/
  typeII M i X :=
    (onClauseP M i fun c => (bitBlock3 M.m.ctype X c).bind fun c => .ok (c, ())).bind
      fun (M, _) => .ok M

end Tsetlini
