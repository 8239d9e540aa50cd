import Verif.Model.LayoutEq
import Verif.Spec.Storage
/-
Specification vocabulary for comparing matrices (C82): which matrices a program can have built.
-/
namespace Tsetlini.Spec

/-- The numeric matrices with items of `item` bytes that a program can have, `rows` by `cols`: constructed, written to within the
shape, copied, moved and assigned; sources of moves are empty. -/
inductive BuiltNumbers (item : Nat) : (rows cols : Nat) → NumericMatrix → Prop
  | default : BuiltNumbers item 0 0 (.empty (.ofNat 32 item))
  | new {rows cols : Nat} : rows < 4294967296 → cols * item + 63 < 4294967296 → paddedItems item cols * rows < 4294967296 →
      BuiltNumbers item rows cols (.make (.ofNat 32 item) (.ofNat 32 rows) (.ofNat 32 cols))
  | store {rows cols r c : Nat} {M M' x} : BuiltNumbers item rows cols M → r < rows → c < cols →
      M.store (.ofNat 64 r) (.ofNat 64 c) x = .ok M' → BuiltNumbers item rows cols M'
  | copy {rows cols : Nat} {M} : BuiltNumbers item rows cols M → BuiltNumbers item rows cols M.copy
  | move {rows cols : Nat} {M} : BuiltNumbers item rows cols M → BuiltNumbers item rows cols M.move.1
  | moved {rows cols : Nat} {M} : BuiltNumbers item rows cols M → BuiltNumbers item 0 0 M.move.2
  | assign {rows cols rows' cols' : Nat} {M N} : BuiltNumbers item rows cols M → BuiltNumbers item rows' cols' N →
      BuiltNumbers item rows cols (N.assign M)
  | assignMove {rows cols rows' cols' : Nat} {M N} : BuiltNumbers item rows cols M → BuiltNumbers item rows' cols' N →
      BuiltNumbers item rows cols (N.assignMove M).1
  | assignMoved {rows cols rows' cols' : Nat} {M N} : BuiltNumbers item rows cols M → BuiltNumbers item rows' cols' N →
      BuiltNumbers item 0 0 (N.assignMove M).2

/-- The bit matrices a program can have, `rows` by `cols`. -/
inductive BuiltBits : (rows cols : Nat) → BitMatrix → Prop
  | default : BuiltBits 0 0 .empty
  | new {rows cols : Nat} : rows < 4294967296 → cols + 511 < 4294967296 → paddedBlocks cols * rows < 4294967296 →
      BuiltBits rows cols (.make (.ofNat 32 rows) (.ofNat 32 cols))
  | set {rows cols r c : Nat} {M M'} : BuiltBits rows cols M → r < rows → c < cols →
      M.set (.ofNat 64 r) (.ofNat 64 c) = .ok M' → BuiltBits rows cols M'
  | clear {rows cols r c : Nat} {M M'} : BuiltBits rows cols M → r < rows → c < cols →
      M.clear (.ofNat 64 r) (.ofNat 64 c) = .ok M' → BuiltBits rows cols M'
  | flip {rows cols r c : Nat} {M M'} : BuiltBits rows cols M → r < rows → c < cols →
      M.flip (.ofNat 64 r) (.ofNat 64 c) = .ok M' → BuiltBits rows cols M'
  | copy {rows cols : Nat} {M} : BuiltBits rows cols M → BuiltBits rows cols M.copy
  | move {rows cols : Nat} {M} : BuiltBits rows cols M → BuiltBits rows cols M.move.1
  | moved {rows cols : Nat} {M} : BuiltBits rows cols M → BuiltBits 0 0 M.move.2
  | assign {rows cols rows' cols' : Nat} {M N} : BuiltBits rows cols M → BuiltBits rows' cols' N →
      BuiltBits rows cols (N.assign M)
  | assignMove {rows cols rows' cols' : Nat} {M N} : BuiltBits rows cols M → BuiltBits rows' cols' N →
      BuiltBits rows cols (N.assignMove M).1
  | assignMoved {rows cols rows' cols' : Nat} {M N} : BuiltBits rows cols M → BuiltBits rows' cols' N →
      BuiltBits 0 0 (N.assignMove M).2

/-- The matrix read by `cell` holds the table `T` of `rows` rows of `cols` entries. -/
def HoldsTable {α : Type} (rows cols : Nat) (cell : Nat × Nat → Res α) (T : List (List α)) : Prop :=
  T.length = rows ∧ (∀ row ∈ T, row.length = cols) ∧
  ∀ (r c : Nat) (row : List α) (x : α), T[r]? = some row → row[c]? = some x → cell (r, c) = .ok x

end Tsetlini.Spec
