import Verif.Model.Bits
import Verif.Spec.Bits
import Verif.Lemmas.Res
/- Bit container lemmas. -/
namespace Tsetlini
open Res Spec

theorem setMask_getLsbD (pos i : Nat) (hi : i < 64) :
    (setMask pos).getLsbD i = decide (i = pos % 64) := by
  have : pos % 64 < 64 := Nat.mod_lt _ (by decide)
  simp only [setMask, BitVec.getLsbD_shiftLeft, BitVec.getLsbD_one]
  by_cases h : i = pos % 64
  · subst h; simp [hi]
  · simp only [h, decide_false, Bool.and_eq_false_iff]
    by_cases h2 : i < pos % 64
    · simp [h2]
    · right; simp; omega

theorem bv_ne_zero_iff (b : BitVec 64) : b ≠ 0#64 ↔ ∃ i, i < 64 ∧ b.getLsbD i = true := by
  constructor
  · intro h
    apply Classical.byContradiction
    intro hn
    apply h
    apply BitVec.eq_of_getLsbD_eq
    intro i hi
    simp only [BitVec.getLsbD_zero]
    cases hb : b.getLsbD i
    · rfl
    · exact absurd ⟨i, hi, hb⟩ hn
  · rintro ⟨i, _, hb⟩ rfl
    simp at hb

theorem and_setMask_ne_zero (b : BitVec 64) (pos : Nat) :
    (b &&& setMask pos != 0#64) = b.getLsbD (pos % 64) := by
  have hm : pos % 64 < 64 := Nat.mod_lt _ (by decide)
  rw [Bool.eq_iff_iff, bne_iff_ne, bv_ne_zero_iff]
  constructor
  · rintro ⟨i, hi, hb⟩
    rw [BitVec.getLsbD_and, setMask_getLsbD _ _ hi] at hb
    simp only [Bool.and_eq_true, decide_eq_true_eq] at hb
    rw [← hb.2]; exact hb.1
  · intro h
    exact ⟨pos % 64, hm, by rw [BitVec.getLsbD_and, setMask_getLsbD _ _ hm]; simp [h]⟩

theorem bitTest_ok {v : List Block} {pos : Nat} (h : pos / 64 < v.length) :
    bitTest v pos = .ok (bitAt v pos) := by
  simp only [bitTest, rd_ok h, ok_bind, and_setMask_ne_zero, bitAt]
  simp [h]

/-- Changing one block by a function that acts bit by bit. -/
theorem bitAt_set {v : List Block} {q : Nat} {b : Block} (h : q < v.length) (j : Nat) :
    bitAt (v.set q b) j = if j / 64 = q then b.getLsbD (j % 64) else bitAt v j := by
  unfold bitAt
  by_cases hj : j / 64 = q
  · subst hj; simp [h]
  · simp [hj, List.getD_eq_getElem?_getD, List.getElem?_set_ne (Ne.symm hj)]

private theorem eq_of_divmod {j pos : Nat} : (j / 64 = pos / 64 ∧ j % 64 = pos % 64) ↔ j = pos := by
  omega

theorem bit_update {v : List Block} {pos : Nat} (h : pos / 64 < v.length) (op : Block → Block)
    (new : Bool → Bool)
    (hop : ∀ b : Block, ∀ i, i < 64 → (op b).getLsbD i =
      if i = pos % 64 then new (b.getLsbD i) else b.getLsbD i) :
    (rd v (pos / 64)).bind (fun b => wr v (pos / 64) (op b)) =
      .ok (v.set (pos / 64) (op (v.getD (pos / 64) 0#64))) ∧
    ∀ j, bitAt (v.set (pos / 64) (op (v.getD (pos / 64) 0#64))) j =
      if j = pos then new (bitAt v pos) else bitAt v j := by
  constructor
  · simp [rd_ok h, wr_ok h, h]
  · intro j
    rw [bitAt_set h]
    have hj : j % 64 < 64 := Nat.mod_lt _ (by decide)
    by_cases h1 : j / 64 = pos / 64
    · rw [if_pos h1, hop _ _ hj]
      by_cases h2 : j % 64 = pos % 64
      · have : j = pos := eq_of_divmod.mp ⟨h1, h2⟩
        subst this
        simp [bitAt]
      · have : j ≠ pos := fun he => h2 (by rw [he])
        simp [h2, this, bitAt, h1]
    · have : j ≠ pos := fun he => h1 (by rw [he])
      simp [h1, this]

theorem bitSet_ret {v : List Block} {pos : Nat} (h : pos / 64 < v.length) :
    (bitSet v pos).Ret fun v' => v'.length = v.length ∧
      ∀ j, bitAt v' j = if j = pos then true else bitAt v j := by
  have := bit_update h (fun b => b ||| setMask pos) (fun _ => true) (by
    intro b i hi
    rw [BitVec.getLsbD_or, setMask_getLsbD _ _ hi]
    by_cases h : i = pos % 64 <;> simp [h])
  exact ⟨_, this.1, by simp, this.2⟩

theorem bitClear_ret {v : List Block} {pos : Nat} (h : pos / 64 < v.length) :
    (bitClear v pos).Ret fun v' => v'.length = v.length ∧
      ∀ j, bitAt v' j = if j = pos then false else bitAt v j := by
  have := bit_update h (fun b => b &&& clearMask pos) (fun _ => false) (by
    intro b i hi
    rw [BitVec.getLsbD_and, clearMask, BitVec.getLsbD_not, setMask_getLsbD _ _ hi]
    by_cases h : i = pos % 64 <;> simp [h, hi])
  exact ⟨_, this.1, by simp, this.2⟩

theorem bitFlip_ret {v : List Block} {pos : Nat} (h : pos / 64 < v.length) :
    (bitFlip v pos).Ret fun v' => v'.length = v.length ∧
      ∀ j, bitAt v' j = if j = pos then !(bitAt v pos) else bitAt v j := by
  have := bit_update h (fun b => b ^^^ setMask pos) (fun b => !b) (by
    intro b i hi
    rw [BitVec.getLsbD_xor, setMask_getLsbD _ _ hi]
    by_cases h : i = pos % 64 <;> simp [h])
  exact ⟨_, this.1, by simp, this.2⟩

theorem bitXor_ret {v : List Block} {pos : Nat} (val : Bool) (h : pos / 64 < v.length) :
    (bitXor v pos val).Ret fun v' => v'.length = v.length ∧
      ∀ j, bitAt v' j = if j = pos then (bitAt v pos ^^ val) else bitAt v j := by
  have := bit_update h (fun b => b ^^^ xorMask pos val) (fun b => b ^^ val) (by
    intro b i hi
    cases val
    · simp [xorMask]
    · have : xorMask pos true = setMask pos := rfl
      rw [this, BitVec.getLsbD_xor, setMask_getLsbD _ _ hi]
      by_cases h : i = pos % 64 <;> simp [h])
  exact ⟨_, this.1, by simp, this.2⟩

theorem bitAssign_ret {v : List Block} {pos : Nat} (val : Bool) (h : pos / 64 < v.length) :
    (bitAssign v pos val).Ret fun v' => v'.length = v.length ∧
      ∀ j, bitAt v' j = if j = pos then val else bitAt v j := by
  cases val
  · exact bitClear_ret h
  · exact bitSet_ret h

theorem bitAt_oob {v : List Block} {j : Nat} (h : v.length ≤ j / 64) : bitAt v j = false := by
  simp [bitAt, List.getD_eq_getElem?_getD, List.getElem?_eq_none h]

theorem bitAt_replicate_zero (n j : Nat) : bitAt (List.replicate n 0#64) j = false := by
  simp only [bitAt, List.getD_eq_getElem?_getD, List.getElem?_replicate]
  split <;> simp

/-- The representation invariant of `basic_bit_vector` that the constructors establish, with
at most one whole surplus block (see `bitClearPadding`). -/
structure BitVector.Inv (v : BitVector) : Prop where
  fits : v.len ≤ v.blocks.length * 64
  tight : v.blocks.length * 64 ≤ v.len + 64

theorem bitClearPadding_eq {v : BitVector} (h : v.Inv) :
    (bitClearPadding v).Ret fun b => b = true ↔ ∀ j, v.len ≤ j → bitAt v.blocks j = false := by
  obtain ⟨h1, h2⟩ := h
  unfold bitClearPadding
  dsimp only
  split
  next hp =>
    rw [if_neg (by omega)]
    have hne : v.blocks ≠ [] := by
      intro h; rw [h] at hp; simp at hp
    have hpos : 0 < v.blocks.length := List.length_pos_iff.mpr hne
    rw [List.getLast?_eq_some_getLast hne]
    simp only [ret_ok, beq_iff_eq]
    classical
    apply Decidable.not_iff_not.mp
    rw [← ne_eq, bv_ne_zero_iff]
    have hlast : v.blocks.getLast hne = v.blocks.getD (v.blocks.length - 1) 0#64 := by
      rw [List.getLast_eq_getElem, List.getD_eq_getElem?_getD, List.getElem?_eq_getElem (by omega)]; rfl
    constructor
    · rintro ⟨i, hi, hb⟩ hall
      rw [BitVec.getLsbD_and, BitVec.getLsbD_shiftLeft, Bool.and_eq_true, Bool.and_eq_true] at hb
      obtain ⟨hb1, hb2, _⟩ := hb
      simp only [hi, decide_true, Bool.true_and, Bool.not_eq_true', decide_eq_false_iff_not] at hb2
      have := hall ((v.blocks.length - 1) * 64 + i) (by omega)
      rw [bitAt, show ((v.blocks.length - 1) * 64 + i) / 64 = v.blocks.length - 1 by omega,
        show ((v.blocks.length - 1) * 64 + i) % 64 = i by omega, ← hlast] at this
      rw [this] at hb1; cases hb1
    · intro hn
      obtain ⟨j, hj, hb⟩ : ∃ j, v.len ≤ j ∧ bitAt v.blocks j = true := by
        apply Classical.byContradiction
        intro hc
        exact hn fun j hj => by
          cases hb : bitAt v.blocks j
          · rfl
          · exact absurd ⟨j, hj, hb⟩ hc
      have hlt : j / 64 < v.blocks.length := by
        apply Classical.byContradiction
        intro hc
        rw [bitAt_oob (by omega)] at hb; cases hb
      have hq : j / 64 = v.blocks.length - 1 := by omega
      refine ⟨j % 64, Nat.mod_lt _ (by decide), ?_⟩
      rw [BitVec.getLsbD_and, BitVec.getLsbD_shiftLeft]
      rw [bitAt, hq, ← hlast] at hb
      rw [hb]
      have h3 : j % 64 < 64 := Nat.mod_lt _ (by decide)
      have h4 : ¬ j % 64 < 64 - (v.blocks.length * 64 - v.len) := by omega
      simp only [h3, h4, decide_true, decide_false, Bool.not_false, Bool.true_and,
        BitVec.getLsbD_allOnes, decide_eq_true_eq]
      omega
  next hp =>
    simp only [ret_ok, true_iff]
    intro j hj
    exact bitAt_oob (by omega)

end Tsetlini
