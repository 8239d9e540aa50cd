import Verif.Spec.Unused
import Verif.Lemmas.BitwiseUnused
/-
C56: the feedback routines of the bitwise algorithm that training does not use.
-/
namespace Tsetlini
open Res Spec

theorem rowsOk_of {N : Int} {n blocks : Nat} {c : ClauseRows} (h : ClauseOk N n blocks c) : RowsOk N n blocks c :=
  ⟨⟨h.wf.posLen, by rw [h.posBlocks]; exact h.room, h.posMirror⟩, ⟨h.wf.negLen, by rw [h.negBlocks]; exact h.room, h.negMirror⟩,
    h.wf.posRange, h.wf.negRange, h.posBlocks, h.negBlocks⟩

theorem clauseOk_of {N : Int} {n blocks : Nat} {c : ClauseRows} (h : RowsOk N n blocks c) : ClauseOk N n blocks c :=
  ⟨h.wf, by rw [← h.pl]; exact h.pos.fits, h.pl, h.nl, h.pos.mirror, h.neg.mirror⟩

theorem bvInv_of {X : BitVector} (h : X.blocks.length = (X.len + 63) / 64) : X.Inv := ⟨by omega, by omega⟩

variable {ct : CType} {N : Int} {n blocks : Nat} {c : ClauseRows}

/-- **C56**: `block1` with char tosses never fails, weakens exactly the chosen literals and keeps polarity right. -/
theorem C56_weaken (hN : 1 ≤ N) (hct : 2 * N ≤ ct.modulus) (h : ClauseOk N n blocks c) {tp tn : List Bool}
    (hp : tp.length = n) (hn : tn.length = n) :
    ∃ c', bitBlock1 ct n N tp tn c = .ok c' ∧ ClauseOk N n blocks c' ∧
      (⟨c'.pos, c'.neg⟩ : Clause) = Clause.weaken N tp tn ⟨c.pos, c.neg⟩ := by
  obtain ⟨c', e, h1, h2⟩ := bitBlock1_eq hN hct hp hn (rowsOk_of h)
  exact ⟨c', e, clauseOk_of h1, h2⟩

/-- **C56**: `block1` with bit tosses yields the same rows as with the same tosses as chars. -/
theorem C56_weaken_bits (hN : 1 ≤ N) (hct : 2 * N ≤ ct.modulus) (h : ClauseOk N n blocks c) {tp tn : List Block}
    (hp : n ≤ 64 * tp.length) (hn : n ≤ 64 * tn.length) :
    bitBlock1Bits ct n N tp tn c = bitBlock1 ct n N (firstBits tp n) (firstBits tn n) c := by
  obtain ⟨c', e, h1, h2⟩ := bitBlock1Bits_eq hN hct hp hn (rowsOk_of h)
  obtain ⟨d', f, g1, g2⟩ := bitBlock1_eq (tp := firstBits tp n) (tn := firstBits tn n) hN hct (by simp [firstBits])
    (by simp [firstBits]) (rowsOk_of h)
  rw [e, f, rows_unique h1 g1 (h2.trans g2.symm)]

/-- **C56**: `block2` with bit tosses never fails, does what Type I feedback to a true clause should and keeps
polarity right, for every number of states. -/
theorem C56_strengthen_bits (hN : 1 ≤ N) (hct : 2 * N ≤ ct.modulus) {X : BitVector} (hX : X.blocks.length = (X.len + 63) / 64)
    (h : ClauseOk N X.len blocks c) (boost : Bool) {tp tn : List Block} (hp : X.len ≤ 64 * tp.length)
    (hn : X.len ≤ 64 * tn.length) :
    ∃ c', bitBlock2Bits ct boost N X tp tn c = .ok c' ∧ ClauseOk N X.len blocks c' ∧
      (⟨c'.pos, c'.neg⟩ : Clause) = Clause.strengthen N boost (firstBits X.blocks X.len) (firstBits tp X.len)
        (firstBits tn X.len) ⟨c.pos, c.neg⟩ := by
  obtain ⟨c', e, h1, h2⟩ := bitBlock2Bits_eq (boost := boost) hN hct (bvInv_of hX) hp hn (rowsOk_of h)
  exact ⟨c', e, clauseOk_of h1, h2⟩

/-- **C56**: from two states on it yields the same rows as the `block2` that training uses. -/
theorem C56_strengthen_same (hN : 2 ≤ N) (hct : 2 * N ≤ ct.modulus) {X : BitVector}
    (hX : X.blocks.length = (X.len + 63) / 64) (h : ClauseOk N X.len blocks c) (boost : Bool) {tp tn : List Block}
    (hp : X.len ≤ 64 * tp.length) (hn : X.len ≤ 64 * tn.length) :
    bitBlock2Bits ct boost N X tp tn c = bitBlock2 ct boost N X (firstBits tp X.len) (firstBits tn X.len) c := by
  obtain ⟨c', e, h1, h2⟩ := bitBlock2Bits_eq (boost := boost) (by omega) hct (bvInv_of hX) hp hn (rowsOk_of h)
  obtain ⟨d', f, g1, g2⟩ := bitBlock2_eq (boost := boost) (tp := firstBits tp X.len) (tn := firstBits tn X.len) hN hct
    (bvInv_of hX) (rowsOk_of h) (by simp [firstBits]) (by simp [firstBits])
  rw [e, f, rows_unique h1 g1 (h2.trans g2.symm)]

/-- **C56**: with one state it does not: there the `block2` that training uses flips the polarity of an included literal it leaves
included. -/
theorem C56_one_state : ∃ (c : ClauseRows) (X : BitVector) (tp tn : List Block), ClauseOk 1 1 1 c ∧
    X.len = 1 ∧ X.blocks.length = 1 ∧ tp.length = 1 ∧ tn.length = 1 ∧
    (∃ c', bitBlock2Bits .int8 true 1 X tp tn c = .ok c' ∧ ClauseOk 1 1 1 c') ∧
    (∃ c', bitBlock2 .int8 true 1 X (firstBits tp 1) (firstBits tn 1) c = .ok c' ∧ ¬ ClauseOk 1 1 1 c') := by
  have hm1 : Mirrors [0] [1#64] := by
    intro f
    rcases Nat.eq_zero_or_pos f with rfl | hf
    · simp [bitAt]
    · have e : ([0] : List Int)[f]? = none := by simp; omega
      rw [e]
      simp only [reduceCtorEq, false_and, exists_false, iff_false, Bool.not_eq_true]
      unfold bitAt
      by_cases h : f / 64 = 0
      · rw [h]
        simp only [List.getD_cons_zero, BitVec.getLsbD_one]
        have : f % 64 ≠ 0 := by omega
        simp [this]
      · rw [List.getD_eq_getElem?_getD, List.getElem?_eq_none (by simp; omega)]
        simp
  have hm2 : Mirrors [-1] [0#64] := by
    intro f
    rw [show ([0#64] : List (BitVec 64)) = List.replicate 1 0#64 from rfl, bitAt_replicate_zero]
    rcases Nat.eq_zero_or_pos f with rfl | hf
    · simp
    · have e : ([-1] : List Int)[f]? = none := by simp; omega
      rw [e]; simp
  have hok : ClauseOk 1 1 1 ⟨[0], [-1], [1#64], [0#64]⟩ :=
    ⟨⟨rfl, rfl, fun v hv => by simp at hv; subst hv; decide, fun v hv => by simp at hv; subst hv; decide⟩, by decide, rfl, rfl, hm1, hm2⟩
  refine ⟨⟨[0], [-1], [1#64], [0#64]⟩, ⟨1, [1#64]⟩, [0#64], [0#64], hok, rfl, rfl, rfl, rfl, ?_, ?_⟩
  · obtain ⟨c', e, h, -⟩ := C56_strengthen_bits (ct := .int8) (N := 1) (X := ⟨1, [1#64]⟩) (tp := [0#64]) (tn := [0#64])
      (by decide) (by decide) rfl hok true (by decide) (by decide)
    exact ⟨c', e, h⟩
  · refine ⟨⟨[0], [-1], [0#64], [0#64]⟩, by decide, fun h => ?_⟩
    have := (h.posMirror 0).2 ⟨0, rfl, by decide⟩
    exact absurd this (by decide)

/-- **C56**: `block3_` yields the same rows as the `block3` that training uses. -/
theorem C56_contradict_same (hN : 1 ≤ N) (hct : 2 * N ≤ ct.modulus) {X : BitVector}
    (hX : X.blocks.length = (X.len + 63) / 64) (h : ClauseOk N X.len blocks c) :
    bitBlock3Simple ct X.len X c = bitBlock3 ct X c ∧
    ∃ c', bitBlock3Simple ct X.len X c = .ok c' ∧ ClauseOk N X.len blocks c' ∧
      (⟨c'.pos, c'.neg⟩ : Clause) = Clause.contradict (firstBits X.blocks X.len) ⟨c.pos, c.neg⟩ := by
  obtain ⟨c', e, h1, h2⟩ := bitBlock3Simple_eq hN hct (bvInv_of hX) (rowsOk_of h)
  obtain ⟨d', f, g1, g2⟩ := bitBlock3_eq hN hct (bvInv_of hX) (rowsOk_of h)
  exact ⟨by rw [e, f, rows_unique h1 g1 (h2.trans g2.symm)], c', e, clauseOk_of h1, h2⟩

/-- Two blocks, 66 features: an included positive literal (1 of feature 65, 0 of feature 64), tosses for features 0, 64 and 65. -/
example : ∃ c', bitBlock1Bits .int8 66 3 [1#64, 3#64] [0#64, 2#64]
      ⟨List.replicate 64 (-1) ++ [0, 1], List.replicate 66 (-3), [0#64, 3#64, 0#64, 0#64, 0#64, 0#64, 0#64, 0#64], List.replicate 8 0#64⟩ = .ok c' ∧
    c'.pos = [-2] ++ List.replicate 63 (-1) ++ [-1, 0] ∧ c'.neg = List.replicate 66 (-3) ∧
    c'.ppos = [0#64, 2#64, 0#64, 0#64, 0#64, 0#64, 0#64, 0#64] :=
  ⟨⟨[-2] ++ List.replicate 63 (-1) ++ [-1, 0], List.replicate 66 (-3), [0#64, 2#64, 0#64, 0#64, 0#64, 0#64, 0#64, 0#64],
    List.replicate 8 0#64⟩, by decide +kernel, rfl, rfl, rfl⟩

end Tsetlini
