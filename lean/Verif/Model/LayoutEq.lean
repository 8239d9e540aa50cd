import Verif.Model.Layout
/-
Comparison, copies and moves of the matrices: lib/include/basic_numeric_matrix.hpp:31-36,45-82,144-150,
lib/include/basic_bit_matrix.hpp:112-119,130-184,297-306.

`std::vector`: copying copies the elements; moving from one leaves it empty (the allocator is stateless,
lib/include/aligned_allocator.hpp:84-90, so that no element-wise move takes place; the standard
guarantees an empty source for move construction, and all implementations have it for the assignment).
The source and the target of an assignment are different objects.
-/
namespace Tsetlini

/-- `basic_numeric_matrix()`, lib/include/basic_numeric_matrix.hpp:31-36 -/
def NumericMatrix.empty (itemSize : BitVec 32) : NumericMatrix := ⟨itemSize, 0#32, 0#32, []⟩

/-- The copy constructor, lib/include/basic_numeric_matrix.hpp:54-59 -/
def NumericMatrix.copy (rhs : NumericMatrix) : NumericMatrix := ⟨rhs.itemSize, rhs.nrows, rhs.ncols, rhs.v⟩

/-- The move constructor, lib/include/basic_numeric_matrix.hpp:45-52: the new matrix, and what is left of `rhs` -/
def NumericMatrix.move (rhs : NumericMatrix) : NumericMatrix × NumericMatrix :=
  (⟨rhs.itemSize, rhs.nrows, rhs.ncols, rhs.v⟩, { rhs with v := [], nrows := 0#32, ncols := 0#32 })

/-- Copy assignment, lib/include/basic_numeric_matrix.hpp:75-82 -/
def NumericMatrix.assign (self rhs : NumericMatrix) : NumericMatrix :=
  { self with nrows := rhs.nrows, ncols := rhs.ncols, v := rhs.v }

/-- Move assignment, lib/include/basic_numeric_matrix.hpp:61-72: the target, and what is left of `rhs` -/
def NumericMatrix.assignMove (self rhs : NumericMatrix) : NumericMatrix × NumericMatrix :=
  ({ self with nrows := rhs.nrows, ncols := rhs.ncols, v := rhs.v }, { rhs with nrows := 0#32, ncols := 0#32, v := [] })

/-- `operator==`, lib/include/basic_numeric_matrix.hpp:144-150 (both of one type, so of one item size) -/
def NumericMatrix.cppEq (M other : NumericMatrix) : Bool :=
  M.nrows == other.nrows && M.ncols == other.ncols && M.v == other.v

/-- `basic_bit_matrix()`, lib/include/basic_bit_matrix.hpp:112-119 -/
def BitMatrix.empty : BitMatrix := ⟨0#32, 0#32, 0#32, []⟩

/-- The copy constructor, lib/include/basic_bit_matrix.hpp:141-148 -/
def BitMatrix.copy (rhs : BitMatrix) : BitMatrix := ⟨rhs.nrows, rhs.ncols, rhs.rowBlocks, rhs.v⟩

/-- The move constructor, lib/include/basic_bit_matrix.hpp:130-139: `m_row_blocks` of `rhs` stays -/
def BitMatrix.move (rhs : BitMatrix) : BitMatrix × BitMatrix :=
  (⟨rhs.nrows, rhs.ncols, rhs.rowBlocks, rhs.v⟩, { rhs with v := [], nrows := 0#32, ncols := 0#32 })

/-- Copy assignment, lib/include/basic_bit_matrix.hpp:168-177 -/
def BitMatrix.assign (self rhs : BitMatrix) : BitMatrix :=
  { self with nrows := rhs.nrows, ncols := rhs.ncols, rowBlocks := rhs.rowBlocks, v := rhs.v }

/-- Move assignment, lib/include/basic_bit_matrix.hpp:150-165 -/
def BitMatrix.assignMove (self rhs : BitMatrix) : BitMatrix × BitMatrix :=
  ({ self with nrows := rhs.nrows, ncols := rhs.ncols, rowBlocks := rhs.rowBlocks, v := rhs.v },
   { rhs with nrows := 0#32, ncols := 0#32, rowBlocks := 0#32, v := [] })

/-- `operator==`, lib/include/basic_bit_matrix.hpp:297-306: `m_row_blocks` is not compared -/
def BitMatrix.cppEq (lhs rhs : BitMatrix) : Bool :=
  lhs.nrows == rhs.nrows && lhs.ncols == rhs.ncols && lhs.v == rhs.v

end Tsetlini
