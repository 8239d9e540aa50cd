import Verif.Model.Layout
/-
Specification vocabulary for the containers: what it means to write one cell of an array.
-/
namespace Tsetlini.Spec

/-- Of two arrays read by `old` and `new`, the second is the first with cell `p` set to `x`;
`D` are the cells. -/
def Writes {ι α : Type} [DecidableEq ι] (D : ι → Prop) (old new : ι → Res α) (p : ι) (x : Res α) : Prop :=
  ∀ q, D q → new q = if q = p then x else old q

/-- The cell `(r, c)` of a numeric matrix, as `matrix[{r, c}]` or `row_data(r)[c]` reads it. -/
def numCell (M : NumericMatrix) (q : Nat × Nat) : Res Int := M.load (.ofNat 64 q.1) (.ofNat 64 q.2)

/-- The cell `(r, c)` of a bit matrix, as `matrix[{r, c}]` or `matrix[r][c]` reads it. -/
def bitCell (M : BitMatrix) (q : Nat × Nat) : Res Bool := M.test (.ofNat 64 q.1) (.ofNat 64 q.2)

/-- The cells of a table of `rows` by `cols`. -/
def InShape (rows cols : Nat) (q : Nat × Nat) : Prop := q.1 < rows ∧ q.2 < cols

/-- Items a row of `cols` items of `size` bytes occupies when padded to 64 bytes. -/
def paddedItems (size cols : Nat) : Nat := (cols * size + 63) / 64 * 64 / size

/-- Blocks of 8 bytes a row of `cols` bits occupies when padded to 64 bytes. -/
def paddedBlocks (cols : Nat) : Nat := (cols + 511) / 512 * 8

end Tsetlini.Spec
