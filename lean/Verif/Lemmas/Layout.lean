import Verif.Model.Layout
import Verif.Model.Bitwise
import Verif.Lemmas.Bits
/- Lemmas about the flat matrix storage. -/
namespace Tsetlini
open Res Spec

/-- The sizes of a numeric matrix do not wrap. -/
structure NumericMatrix.Ok (M : NumericMatrix) (item rows cols : Nat) : Prop where
  w : item = 1 ∨ item = 2 ∨ item = 4
  i : M.itemSize.toNat = item
  r : M.nrows.toNat = rows
  c : M.ncols.toNat = cols
  fit1 : cols * item + 63 < 4294967296
  fit2 : Tsetlini.rowItems item cols * rows < 4294967296
  len : M.v.length = Tsetlini.rowItems item cols * rows

theorem rowItems_ge {item cols : Nat} (h : item = 1 ∨ item = 2 ∨ item = 4) : cols ≤ rowItems item cols := by
  unfold rowItems
  rcases h with rfl | rfl | rfl <;> simp <;> omega

theorem rowItems_align {item cols : Nat} (h : item = 1 ∨ item = 2 ∨ item = 4) : rowItems item cols * item % 64 = 0 := by
  unfold rowItems
  rcases h with rfl | rfl | rfl <;> simp <;> omega

theorem rowItems_lt {item cols : Nat} (h : item = 1 ∨ item = 2 ∨ item = 4) (hf : cols * item + 63 < 4294967296) :
    rowItems item cols < 4294967296 := by
  unfold rowItems
  rcases h with rfl | rfl | rfl <;> simp at hf ⊢ <;> omega

theorem NumericMatrix.rowItems_eq {M : NumericMatrix} {item cols : Nat} (hi : item = 1 ∨ item = 2 ∨ item = 4)
    (i : M.itemSize.toNat = item) (c : M.ncols.toNat = cols) (hf : cols * item + 63 < 4294967296) :
    M.rowItems.toNat = Tsetlini.rowItems item cols := by
  have h1 : (M.ncols * M.itemSize + 64#32 - 1#32).toNat = cols * item + 63 := by
    rw [BitVec.toNat_sub, BitVec.toNat_add, BitVec.toNat_mul, i, c]
    simp
    omega
  have h2 := rowItems_lt hi hf
  unfold NumericMatrix.rowItems Tsetlini.rowItems at *
  rw [BitVec.toNat_mul, BitVec.toNat_udiv, BitVec.toNat_udiv, h1, i]
  exact Nat.mod_eq_of_lt h2

theorem NumericMatrix.make_ok {item rows cols : Nat} (hi : item = 1 ∨ item = 2 ∨ item = 4)
    (hr : rows < 4294967296) (hf : cols * item + 63 < 4294967296) (hf2 : Tsetlini.rowItems item cols * rows < 4294967296) :
    (NumericMatrix.make (.ofNat 32 item) (.ofNat 32 rows) (.ofNat 32 cols)).Ok item rows cols := by
  have i : (BitVec.ofNat 32 item).toNat = item := by simp; omega
  have r : (BitVec.ofNat 32 rows).toNat = rows := by simp; omega
  have hc : cols < 4294967296 := by rcases hi with rfl | rfl | rfl <;> omega
  have c : (BitVec.ofNat 32 cols).toNat = cols := by simp; omega
  refine ⟨hi, i, r, c, hf, hf2, ?_⟩
  simp only [NumericMatrix.make, List.length_replicate]
  rw [BitVec.toNat_mul, NumericMatrix.rowItems_eq hi (M := ⟨BitVec.ofNat 32 item, BitVec.ofNat 32 rows, BitVec.ofNat 32 cols, []⟩) i c hf, r]
  exact Nat.mod_eq_of_lt hf2

theorem NumericMatrix.index_eq {M : NumericMatrix} {item rows cols : Nat} (h : M.Ok item rows cols) {r c : Nat}
    (hr : r < rows) (hc : c < 18446744073709551616) :
    M.index (.ofNat 64 r) (.ofNat 64 c) = r * Tsetlini.rowItems item cols + c := by
  have hb := rowItems_lt h.w h.fit1
  have hR := h.r
  have hlt := M.nrows.isLt
  unfold NumericMatrix.index NumericMatrix.rowOffset
  rw [BitVec.toNat_mul, BitVec.toNat_setWidth, M.rowItems_eq h.w h.i h.c h.fit1]
  simp only [BitVec.toNat_ofNat]
  rw [Nat.mod_eq_of_lt (a := r) (by omega), Nat.mod_eq_of_lt (a := c) (by omega),
    Nat.mod_eq_of_lt (a := Tsetlini.rowItems item cols) (by omega)]
  have : r * Tsetlini.rowItems item cols ≤ 4294967296 * 4294967295 := Nat.mul_le_mul (by omega) (by omega)
  omega

/-- Flat indices of a table with rows of `w` items determine the cell. -/
theorem flat_inj {w r c r' c' : Nat} (hc : c < w) (hc' : c' < w) (h : r * w + c = r' * w + c') : r = r' ∧ c = c' := by
  have h1 : (r * w + c) / w = r := by
    rw [Nat.mul_comm, Nat.mul_add_div (by omega), Nat.div_eq_of_lt hc, Nat.add_zero]
  have h2 : (r' * w + c') / w = r' := by
    rw [Nat.mul_comm, Nat.mul_add_div (by omega), Nat.div_eq_of_lt hc', Nat.add_zero]
  have : r = r' := by rw [← h1, ← h2, h]
  subst this
  exact ⟨rfl, by omega⟩

theorem flat_lt {w r c rows : Nat} (hr : r < rows) (hc : c < w) : r * w + c < w * rows := by
  have : (r + 1) * w ≤ rows * w := Nat.mul_le_mul_right w hr
  rw [Nat.mul_comm w rows]
  rw [Nat.add_mul] at this
  omega

theorem NumericMatrix.store_load {M : NumericMatrix} {item rows cols : Nat} (h : M.Ok item rows cols) {r c : Nat}
    (hr : r < rows) (hc : c < cols) (x : Int) :
    (M.store (.ofNat 64 r) (.ofNat 64 c) x).Ret fun M' => M'.Ok item rows cols ∧
      ∀ r' c', r' < rows → c' < cols → M'.load (.ofNat 64 r') (.ofNat 64 c') =
        if r' = r ∧ c' = c then .ok x else M.load (.ofNat 64 r') (.ofNat 64 c') := by
  have hg := rowItems_ge (cols := cols) h.w
  have hb := rowItems_lt h.w h.fit1
  have hi := M.index_eq h hr (c := c) (by omega)
  have hlt := flat_lt (w := Tsetlini.rowItems item cols) hr (c := c) (by omega)
  have hw : M.store (.ofNat 64 r) (.ofNat 64 c) x = .ok { M with v := M.v.set (r * Tsetlini.rowItems item cols + c) x } := by
    unfold NumericMatrix.store
    rw [hi, wr_ok (by rw [h.len]; exact hlt)]
    rfl
  refine ⟨_, hw, ?_⟩
  have hok' : NumericMatrix.Ok { M with v := M.v.set (r * Tsetlini.rowItems item cols + c) x } item rows cols :=
    ⟨h.w, h.i, h.r, h.c, h.fit1, h.fit2, by simp [h.len]⟩
  refine ⟨hok', fun r' c' hr' hc' => ?_⟩
  unfold NumericMatrix.load
  rw [NumericMatrix.index_eq hok' hr' (by omega), NumericMatrix.index_eq h hr' (by omega)]
  by_cases he : r' = r ∧ c' = c
  · obtain ⟨rfl, rfl⟩ := he
    have hlt' : r' * Tsetlini.rowItems item cols + c' < M.v.length := by rw [h.len]; exact hlt
    simp [rd, hlt']
  · rw [if_neg he]
    have hne : r * Tsetlini.rowItems item cols + c ≠ r' * Tsetlini.rowItems item cols + c' := by
      intro hq
      have := flat_inj (by omega) (by omega) hq
      exact he ⟨this.1.symm, this.2.symm⟩
    simp [rd, List.getElem?_set_ne hne]

/-- The sizes of a bit matrix do not wrap. -/
structure BitMatrix.Ok (M : BitMatrix) (rows cols : Nat) : Prop where
  r : M.nrows.toNat = rows
  c : M.ncols.toNat = cols
  fit1 : cols + 511 < 4294967296
  fit2 : Tsetlini.rowBlocks cols * rows < 4294967296
  rb : M.rowBlocks.toNat = Tsetlini.rowBlocks cols
  len : M.v.length = Tsetlini.rowBlocks cols * rows

theorem BitMatrix.make_ok {rows cols : Nat} (hr : rows < 4294967296) (hf : cols + 511 < 4294967296)
    (hf2 : Tsetlini.rowBlocks cols * rows < 4294967296) :
    (BitMatrix.make (.ofNat 32 rows) (.ofNat 32 cols)).Ok rows cols := by
  have r : (BitVec.ofNat 32 rows).toNat = rows := by simp; omega
  have c : (BitVec.ofNat 32 cols).toNat = cols := by simp; omega
  have hb : ((BitVec.ofNat 32 cols + 64#32 * 8#32 - 1#32) / (64#32 * 8#32) * (64#32 / 8#32)).toNat
      = Tsetlini.rowBlocks cols := by
    have e1 : (64#32 * 8#32) = 512#32 := by decide
    have e2 : (64#32 / 8#32) = 8#32 := by decide
    have h1 : (BitVec.ofNat 32 cols + 512#32 - 1#32).toNat = cols + 511 := by
      rw [BitVec.toNat_sub, BitVec.toNat_add, c]
      simp
      omega
    rw [e1, e2, BitVec.toNat_mul, BitVec.toNat_udiv, h1]
    unfold Tsetlini.rowBlocks
    simp
    omega
  refine ⟨r, c, hf, hf2, hb, ?_⟩
  simp only [BitMatrix.make, List.length_replicate]
  rw [BitVec.toNat_mul, hb, r]
  exact Nat.mod_eq_of_lt hf2

theorem rowBlocks_ge {c cols : Nat} (h : c < cols) : c / 64 < Tsetlini.rowBlocks cols := by
  unfold Tsetlini.rowBlocks; omega

theorem BitMatrix.index_eq {M : BitMatrix} {rows cols : Nat} (h : M.Ok rows cols) {r c : Nat}
    (hr : r < rows) (hc : c < 18446744073709551616) :
    M.index (.ofNat 64 r) (.ofNat 64 c) = r * Tsetlini.rowBlocks cols + c / 64 := by
  have hb : Tsetlini.rowBlocks cols < 4294967296 := by rw [← h.rb]; exact M.rowBlocks.isLt
  have hR := h.r
  have hlt := M.nrows.isLt
  unfold BitMatrix.index BitMatrix.rowOffset
  rw [BitVec.toNat_mul, BitVec.toNat_setWidth, h.rb]
  simp only [BitVec.toNat_ofNat]
  rw [Nat.mod_eq_of_lt (a := r) (by omega), Nat.mod_eq_of_lt (a := c) (by omega),
    Nat.mod_eq_of_lt (a := Tsetlini.rowBlocks cols) (by omega)]
  have : r * Tsetlini.rowBlocks cols ≤ 4294967296 * 4294967295 := Nat.mul_le_mul (by omega) (by omega)
  omega

theorem BitMatrix.test_eq {M : BitMatrix} {rows cols : Nat} (h : M.Ok rows cols) {r c : Nat}
    (hr : r < rows) (hc : c < cols) :
    M.test (.ofNat 64 r) (.ofNat 64 c) =
      .ok ((M.v.getD (r * Tsetlini.rowBlocks cols + c / 64) 0#64).getLsbD (c % 64)) := by
  have hf := h.fit1
  have hlt := flat_lt hr (rowBlocks_ge hc)
  unfold BitMatrix.test
  rw [BitMatrix.index_eq h hr (by omega), rd_ok (by rw [h.len]; exact hlt)]
  simp only [ok_bind, BitVec.toNat_ofNat]
  rw [Nat.mod_eq_of_lt (a := c) (by omega), and_setMask_ne_zero]
  have : r * Tsetlini.rowBlocks cols + c / 64 < M.v.length := by rw [h.len]; exact hlt
  simp [this]

theorem BitMatrix.modify_test {M : BitMatrix} {rows cols : Nat} (h : M.Ok rows cols) {r c : Nat}
    (hr : r < rows) (hc : c < cols) (op : Block → Block) (new : Bool → Bool)
    (hop : ∀ b : Block, ∀ i, i < 64 → (op b).getLsbD i =
      if i = c % 64 then new (b.getLsbD i) else b.getLsbD i) :
    (M.modify (.ofNat 64 r) (.ofNat 64 c) op).Ret fun M' => M'.Ok rows cols ∧
      ∀ r' c', r' < rows → c' < cols → M'.test (.ofNat 64 r') (.ofNat 64 c') =
        if r' = r ∧ c' = c then (M.test (.ofNat 64 r) (.ofNat 64 c)).bind fun b => .ok (new b)
        else M.test (.ofNat 64 r') (.ofNat 64 c') := by
  have hf := h.fit1
  have hlt : r * Tsetlini.rowBlocks cols + c / 64 < M.v.length := by
    rw [h.len]; exact flat_lt hr (rowBlocks_ge hc)
  have hi := BitMatrix.index_eq h hr (c := c) (by omega)
  have hw : M.modify (.ofNat 64 r) (.ofNat 64 c) op =
      .ok { M with v := M.v.set (r * Tsetlini.rowBlocks cols + c / 64) (op (M.v.getD (r * Tsetlini.rowBlocks cols + c / 64) 0#64)) } := by
    unfold BitMatrix.modify
    rw [hi, rd_ok hlt]
    simp only [ok_bind]
    rw [wr_ok hlt]
    simp [hlt]
  refine ⟨_, hw, ?_⟩
  have hok' : BitMatrix.Ok { M with v := M.v.set (r * Tsetlini.rowBlocks cols + c / 64) (op (M.v.getD (r * Tsetlini.rowBlocks cols + c / 64) 0#64)) } rows cols :=
    ⟨h.r, h.c, h.fit1, h.fit2, h.rb, by simp [h.len]⟩
  refine ⟨hok', fun r' c' hr' hc' => ?_⟩
  rw [BitMatrix.test_eq hok' hr' hc', BitMatrix.test_eq h hr' hc', BitMatrix.test_eq h hr hc]
  dsimp only
  by_cases hq : r' * Tsetlini.rowBlocks cols + c' / 64 = r * Tsetlini.rowBlocks cols + c / 64
  · obtain ⟨rfl, hc2⟩ := flat_inj (rowBlocks_ge hc') (rowBlocks_ge hc) hq
    rw [hc2]
    have := hop (M.v.getD (r' * Tsetlini.rowBlocks cols + c / 64) 0#64) (c' % 64) (by omega)
    simp only [List.getD_eq_getElem?_getD, List.getElem?_set_self hlt, Option.getD_some] at this ⊢
    rw [this]
    by_cases hcc : c' = c
    · subst hcc; simp
    · have : c' % 64 ≠ c % 64 := by omega
      simp [this, hcc]
  · have : ¬ (r' = r ∧ c' = c) := by rintro ⟨rfl, rfl⟩; exact hq rfl
    rw [if_neg this]
    simp only [List.getD_eq_getElem?_getD, List.getElem?_set_ne (Ne.symm hq)]

end Tsetlini
