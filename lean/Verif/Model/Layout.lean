import Verif.Model.Classic
import Verif.Model.Bits
/-
The flat storage of lib/include/basic_numeric_matrix.hpp and lib/include/basic_bit_matrix.hpp
(`Alignment = 64`), with the 32-bit unsigned size arithmetic of the code.

`std::vector` is a list, so an access is `rd`/`wr` at the flat index.  Not modelled: the
allocator (`_mm_malloc` returns an address that is a multiple of 64, or the constructor throws).
-/
namespace Tsetlini

/-- `basic_numeric_matrix<ValueType, 64>`, lib/include/basic_numeric_matrix.hpp:18-28,152-154;
`itemSize` is `sizeof (value_type)`. -/
structure NumericMatrix where
  itemSize : BitVec 32
  nrows : BitVec 32
  ncols : BitVec 32
  v : List Int
deriving DecidableEq, Repr

/-- `row_items`, lib/include/basic_numeric_matrix.hpp:100-105 -/
def NumericMatrix.rowItems (M : NumericMatrix) : BitVec 32 :=
  (M.ncols * M.itemSize + 64#32 - 1#32) / 64#32 * (64#32 / M.itemSize)

/-- `basic_numeric_matrix(nrows, ncols)`, lib/include/basic_numeric_matrix.hpp:38-43 -/
def NumericMatrix.make (itemSize nrows ncols : BitVec 32) : NumericMatrix :=
  let M : NumericMatrix := ⟨itemSize, nrows, ncols, []⟩
  { M with v := List.replicate (M.rowItems * nrows).toNat 0 }

/-- `row_offset`, lib/include/basic_numeric_matrix.hpp:107-110 (`size_t`) -/
def NumericMatrix.rowOffset (M : NumericMatrix) (nr : BitVec 64) : BitVec 64 :=
  nr * M.rowItems.setWidth 64

/-- The index in the storage of `row_data(nr)[nc]`,
lib/include/basic_numeric_matrix.hpp:112-120,134-142 -/
def NumericMatrix.index (M : NumericMatrix) (nr nc : BitVec 64) : Nat := (M.rowOffset nr).toNat + nc.toNat

/-- `operator[]({nr, nc})` and reads through `row_data(nr)[nc]`,
lib/include/basic_numeric_matrix.hpp:112-120,134-137 -/
def NumericMatrix.load (M : NumericMatrix) (nr nc : BitVec 64) : Res Int := rd M.v (M.index nr nc)

/-- `row_data(nr)[nc] = x`, lib/include/basic_numeric_matrix.hpp:139-142; `x` is a value of the
item type. -/
def NumericMatrix.store (M : NumericMatrix) (nr nc : BitVec 64) (x : Int) : Res NumericMatrix :=
  (wr M.v (M.index nr nc) x).bind fun v => .ok { M with v := v }

/-- `basic_bit_matrix<uint64_t, 64>`, lib/include/basic_bit_matrix.hpp:17-30,291-294 -/
structure BitMatrix where
  nrows : BitVec 32
  ncols : BitVec 32
  rowBlocks : BitVec 32
  v : List Block
deriving DecidableEq, Repr

/-- `basic_bit_matrix(nrows, ncols)`, lib/include/basic_bit_matrix.hpp:122-128 -/
def BitMatrix.make (nrows ncols : BitVec 32) : BitMatrix :=
  let rb := (ncols + 64#32 * 8#32 - 1#32) / (64#32 * 8#32) * (64#32 / 8#32)
  ⟨nrows, ncols, rb, List.replicate (rb * nrows).toNat 0#64⟩

/-- `row_offset`, lib/include/basic_bit_matrix.hpp:207-211 -/
def BitMatrix.rowOffset (M : BitMatrix) (nr : BitVec 64) : BitVec 64 := nr * M.rowBlocks.setWidth 64

/-- The index in the storage of the block of bit `nc` of row `nr`,
lib/include/basic_bit_matrix.hpp:225-256 -/
def BitMatrix.index (M : BitMatrix) (nr nc : BitVec 64) : Nat := (M.rowOffset nr).toNat + nc.toNat / 64

/-- `test`, lib/include/basic_bit_matrix.hpp:225-232; also `row(nr).test(nc)`, 77-81,271-282 -/
def BitMatrix.test (M : BitMatrix) (nr nc : BitVec 64) : Res Bool :=
  (rd M.v (M.index nr nc)).bind fun b => .ok (b &&& setMask nc.toNat != 0#64)

/-- The read-modify-write of `set`, `clear` and `flip`. lib/include/basic_bit_matrix.hpp:234-256 -/
def BitMatrix.modify (M : BitMatrix) (nr nc : BitVec 64) (f : Block → Block) : Res BitMatrix :=
  (rd M.v (M.index nr nc)).bind fun b =>
  (wr M.v (M.index nr nc) (f b)).bind fun v => .ok { M with v := v }

/-- `set`, lib/include/basic_bit_matrix.hpp:242-248; also `row(nr).set(nc)`, 59-63 -/
def BitMatrix.set (M : BitMatrix) (nr nc : BitVec 64) : Res BitMatrix :=
  M.modify nr nc (· ||| setMask nc.toNat)

/-- `clear`, lib/include/basic_bit_matrix.hpp:234-240; also `row(nr).clear(nc)`, 65-69 -/
def BitMatrix.clear (M : BitMatrix) (nr nc : BitVec 64) : Res BitMatrix :=
  M.modify nr nc (· &&& clearMask nc.toNat)

/-- `flip`, lib/include/basic_bit_matrix.hpp:250-256; also `row(nr).flip(nc)`, 71-75 -/
def BitMatrix.flip (M : BitMatrix) (nr nc : BitVec 64) : Res BitMatrix :=
  M.modify nr nc (· ^^^ setMask nc.toNat)

end Tsetlini
