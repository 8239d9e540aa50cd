import Verif.Model.Bitwise
/-
The feedback routines of lib/src/tsetlini_algo_bitwise.hpp that no caller uses: `block1` with tosses as chars or as
bits, `block2` with tosses as bits, and `block3_`.

The two rows of a clause and its two polarity rows do not overlap (`__restrict`, different rows of the
matrices); what the code does to the rows of the positive and of the negated literals in turn is written one
after the other here.
-/
namespace Tsetlini

/-- One literal of `block1` with char tosses, lib/src/tsetlini_algo_bitwise.hpp:433-449 (positive), 451-467 (negated). -/
def denseDec (ct : CType) (N : Int) (toss : List Bool) (f : Nat) (row : List Int) (pol : List Block) :
    Res (List Int × List Block) :=
  (rd toss f).bind fun t =>
  if t then
    (rd row f).bind fun s =>
    (if s = 0 then bitFlip pol f else .ok pol).bind fun pol =>
    (if s > -N then wr row f (ct.store (s - 1)) else .ok row).bind fun row =>
    .ok (row, pol)
  else .ok (row, pol)

/-- `block1` with char tosses, lib/src/tsetlini_algo_bitwise.hpp:410-470. -/
def bitBlock1 (ct : CType) (nf : Nat) (N : Int) (ctPos ctNeg : List Bool) (c : ClauseRows) : Res ClauseRows :=
  iter (range 0 nf) (fun f (c : ClauseRows) =>
    (denseDec ct N ctPos f c.pos c.ppos).bind fun (pos, ppos) =>
    (denseDec ct N ctNeg f c.neg c.pneg).bind fun (neg, pneg) =>
    .ok ⟨pos, neg, ppos, pneg⟩) c

/-- Local variables of an inner loop over the bits of a block, for one row. lib/src/tsetlini_algo_bitwise.hpp:552-556,717-723 -/
structure BitRow where
  row : List Int
  inc : Block
  dec : Block
  flip : Block
deriving DecidableEq, Repr

/-- `(bit_block_type)(0 == state) & bit`. lib/src/tsetlini_algo_bitwise.hpp:564,734,743 -/
def zeroAnd (v : Int) (b : Block) : Block := (if v = 0 then 1#64 else 0#64) &&& b

/-- Body of the inner loop of `block1` with bit tosses for one row, lib/src/tsetlini_algo_bitwise.hpp:560-571; there is
nothing to increment (`inc` is not used). `block & bool` is the lowest bit of the block, or 0. -/
def decBit (ct : CType) (N : Int) (base bix : Nat) (s : BitRow) : Res BitRow :=
  (rd s.row (base + bix)).bind fun v =>
  let db := s.dec &&& (if v > -N then 1#64 else 0#64)
  (wr s.row (base + bix) (ct.store (v - db.toNat))).bind fun row =>
  .ok ⟨row, s.inc, s.dec >>> 1, s.flip ||| (zeroAnd v db <<< bix)⟩

/-- Body of the inner loop of `block2` with bit tosses for one row, lib/src/tsetlini_algo_bitwise.hpp:727-749. -/
def incDecBit (ct : CType) (N : Int) (base bix : Nat) (s : BitRow) : Res BitRow :=
  (rd s.row (base + bix)).bind fun v =>
  let ib := s.inc &&& (if v < N - 1 then 1#64 else 0#64)
  let db := s.dec &&& (if v > -N then 1#64 else 0#64)
  let flip := s.flip ||| (zeroAnd v db <<< bix)
  (wr s.row (base + bix) (ct.store (v + ib.toNat))).bind fun row =>
  (rd row (base + bix)).bind fun v =>
  (wr row (base + bix) (ct.store (v - db.toNat))).bind fun row =>
  (rd row (base + bix)).bind fun v =>
  .ok ⟨row, s.inc >>> 1, s.dec >>> 1, flip ||| (zeroAnd v ib <<< bix)⟩

/-- The inner loop over the bits of a block and the flips after it, for both rows. lib/src/tsetlini_algo_bitwise.hpp:558-575,725-753 -/
def bothRows (body : Nat → BitRow → Res BitRow) (q bits : Nat) (pinc pdec ninc ndec : Block) (c : ClauseRows) :
    Res ClauseRows :=
  (iter (range 0 bits) (fun bix (s : BitRow × BitRow) =>
    (body bix s.1).bind fun p => (body bix s.2).bind fun n => .ok (p, n))
    (⟨c.pos, pinc, pdec, 0#64⟩, ⟨c.neg, ninc, ndec, 0#64⟩)).bind fun (p, n) =>
  (rd c.ppos q).bind fun pp =>
  (wr c.ppos q (pp ^^^ p.flip)).bind fun ppos =>
  (rd c.pneg q).bind fun pn =>
  (wr c.pneg q (pn ^^^ n.flip)).bind fun pneg =>
  .ok ⟨p.row, n.row, ppos, pneg⟩

/-- The loop over whole blocks and the tail, lib/src/tsetlini_algo_bitwise.hpp:579-588,756-765; `n` is the number of
columns of the polarity matrix (`block1`) or of features of the sample (`block2`). -/
def overBlocks (n : Nat) (f : Nat → Nat → ClauseRows → Res ClauseRows) (c : ClauseRows) : Res ClauseRows :=
  let full := (n + 63) / 64 - (if n % 64 ≠ 0 then 1 else 0)
  (iter (range 0 full) (fun q c => f q 64 c) c).bind fun c =>
  if n % 64 ≠ 0 then f full (n % 64) c else .ok c

/-- `block1` with bit tosses, lib/src/tsetlini_algo_bitwise.hpp:524-589. -/
def bitBlock1Bits (ct : CType) (nf : Nat) (N : Int) (ctPos ctNeg : List Block) (c : ClauseRows) : Res ClauseRows :=
  overBlocks nf (fun q bits c =>
    (rd ctPos q).bind fun tp =>
    (rd ctNeg q).bind fun tn =>
    bothRows (decBit ct N (q * 64)) q bits 0#64 tp 0#64 tn c) c

/-- `block2` with bit tosses, lib/src/tsetlini_algo_bitwise.hpp:685-766. With boost the tosses for
incrementing are not read; they are read for decrementing. -/
def bitBlock2Bits (ct : CType) (boost : Bool) (N : Int) (X : BitVector) (ctPos ctNeg : List Block) (c : ClauseRows) :
    Res ClauseRows :=
  overBlocks X.len (fun q bits c =>
    (rd X.blocks q).bind fun x =>
    (rd ctPos q).bind fun tp =>
    (rd ctNeg q).bind fun tn =>
    bothRows (incDecBit ct N (q * 64)) q bits
      (x &&& (if boost then BitVec.allOnes 64 else ~~~ tp)) (~~~ x &&& tp)
      (~~~ x &&& (if boost then BitVec.allOnes 64 else ~~~ tn)) (x &&& tn) c) c

/-- One literal of `block3_`, lib/src/tsetlini_algo_bitwise.hpp:788-799 (positive), 803-816 (negated). -/
def incExcluded (ct : CType) (f : Nat) (row : List Int) (pol : List Block) : Res (List Int × List Block) :=
  (rd row f).bind fun s =>
  if action s = false then
    (wr row f (ct.store (s + 1))).bind fun row =>
    (rd row f).bind fun s =>
    (if s = 0 then bitFlip pol f else .ok pol).bind fun pol =>
    .ok (row, pol)
  else .ok (row, pol)

/-- `block3_`, lib/src/tsetlini_algo_bitwise.hpp:770-817. -/
def bitBlock3Simple (ct : CType) (nf : Nat) (X : BitVector) (c : ClauseRows) : Res ClauseRows :=
  iter (range 0 nf) (fun f (c : ClauseRows) =>
    (bitTest X.blocks f).bind fun x =>
    if x = false then
      (incExcluded ct f c.pos c.ppos).bind fun (pos, ppos) => .ok { c with pos := pos, ppos := ppos }
    else
      (incExcluded ct f c.neg c.pneg).bind fun (neg, pneg) => .ok { c with neg := neg, pneg := pneg }) c

end Tsetlini
