import Verif.Model.Bitwise
import Verif.Lemmas.Bits
import Verif.Lemmas.ClassicClause
/- The bitwise clause output is the conjunction of the included literals. -/
namespace Tsetlini
open Res Spec

/-- The truth values a bit-vector sample stands for. -/
def bitwiseBits (X : BitVector) : List Bool := (List.range X.len).map (bitAt X.blocks)

theorem bitwiseBits_length (X : BitVector) : (bitwiseBits X).length = X.len := by
  simp [bitwiseBits]

theorem val_bitwiseBits {X : BitVector} {f : Nat} (h : f < X.len) :
    val (bitwiseBits X) f = bitAt X.blocks f := by
  simp [val, bitwiseBits, h]

/-- Bits beyond the length are 0. -/
def Clear (X : BitVector) : Prop := ∀ j, X.len ≤ j → bitAt X.blocks j = false

/-- Block `b` falsifies the clause. -/
def violBlk (p n x : List Block) (b : Nat) : Bool :=
  evalBlock (p.getD b 0#64) (n.getD b 0#64) (x.getD b 0#64) != 0#64

def inclBlk (p n : List Block) (b : Nat) : Bool := (p.getD b 0#64 ||| n.getD b 0#64) != 0#64

private theorem maxBlock_ne (a b : Block) : (maxBlock a b != 0#64) = ((b != 0#64) || (a != 0#64)) := by
  unfold maxBlock
  by_cases ha : a = 0#64
  · subst ha
    simp only [bne_self_eq_false, Bool.or_false]
    by_cases hb : b = 0#64
    · subst hb; rfl
    · have : ¬ b < 0#64 := by simp
      rw [if_neg this]
  · by_cases hb : b = 0#64
    · subst hb
      have : 0#64 < a := by
        rw [BitVec.lt_def]
        have : a.toNat ≠ 0 := fun h => ha (BitVec.eq_of_toNat_eq (by simpa using h))
        simp; omega
      simp [this]
    · split <;> simp [ha, hb]

theorem bit_tileStep (p n x : List Block) (nb : Nat) (hp : nb ≤ p.length) (hn : nb ≤ n.length)
    (hx : nb ≤ x.length) :
    TileStep (bitStep p n x) (fun st => st.1 != 0#64) (fun st => st.2 != 0#64)
      (fun _ => True) (violBlk p n x) (inclBlk p n) nb where
  step_ok := by
    rintro f hf ⟨t, i⟩ -
    have h1 : f < p.length := by omega
    have h2 : f < n.length := by omega
    have h3 : f < x.length := by omega
    simp only [bitStep, rd_ok h1, rd_ok h2, rd_ok h3, ok_bind, ret_ok, maxBlock_ne, violBlk, inclBlk]
    simp [h1, h2, h3]

theorem bitSimpleLoop_done (p n x : List Block) (nb : Nat) (hp : nb ≤ p.length) (hn : nb ≤ n.length)
    (hx : nb ≤ x.length) (m k : Nat) (hk : k + m = nb) (a : Block)
    (hv : ¬ ∃ f, f < k ∧ violBlk p n x f = true)
    (ha : a ≠ 0#64 ↔ ∃ f, f < k ∧ inclBlk p n f = true) :
    (bitSimpleLoop p n x (List.range' k m) true a).Ret fun r =>
      (r.1 = true ↔ ¬ ∃ f, f < nb ∧ violBlk p n x f = true) ∧
      (r.1 = true → (r.2 ≠ 0#64 ↔ ∃ f, f < nb ∧ inclBlk p n f = true)) := by
  induction m generalizing k a with
  | zero =>
    obtain rfl : k = nb := by omega
    simp only [List.range'_zero, bitSimpleLoop, ret_ok]
    exact ⟨by simpa using hv, fun _ => ha⟩
  | succ m ih =>
    have h1 : k < p.length := by omega
    have h2 : k < n.length := by omega
    have h3 : k < x.length := by omega
    rw [List.range'_succ]
    simp only [bitSimpleLoop, if_true, rd_ok h1, rd_ok h2, rd_ok h3, ok_bind]
    have hvk : (evalBlock p[k] n[k] x[k] == 0#64) = !(violBlk p n x k) := by
      simp [violBlk, h1, h2, h3, bne]
    rw [hvk]
    cases hviol : violBlk p n x k with
    | true =>
      have hend : ∀ e', bitSimpleLoop p n x (List.range' (k + 1) m) false e' = .ok (false, e') := by
        intro e'; cases m <;> simp [List.range'_succ, bitSimpleLoop]
      simp only [Bool.not_true, hend, ret_ok]
      refine ⟨?_, by simp⟩
      simp only [Bool.false_eq_true, false_iff, Classical.not_not]
      exact ⟨k, by omega, hviol⟩
    | false =>
      refine ih (k + 1) (by omega) _ ?_ ?_
      · rintro ⟨f, hf', hp'⟩
        by_cases hfk : f = k
        · subst hfk; rw [hviol] at hp'; cases hp'
        · exact hv ⟨f, by omega, hp'⟩
      · have := maxBlock_ne (p[k] ||| n[k]) a
        have hi : inclBlk p n k = ((p[k] ||| n[k]) != 0#64) := by simp [inclBlk, h1, h2]
        rw [← hi] at this
        rw [← bne_iff_ne, this, Bool.or_eq_true, bne_iff_ne, ha]
        constructor
        · rintro (⟨f, hf, hp⟩ | hp)
          · exact ⟨f, by omega, hp⟩
          · exact ⟨k, by omega, hp⟩
        · rintro ⟨f, hf, hp⟩
          by_cases hk : f = k
          · subst hk; exact .inr hp
          · exact .inl ⟨f, by omega, hp⟩

/-- Going from blocks to features. -/
theorem exists_blk {p n x : List Block} {nb : Nat} {q : Block → Block → Block → Block}
    {Q : Nat → Bool}
    (h : ∀ f, (q (p.getD (f / 64) 0#64) (n.getD (f / 64) 0#64) (x.getD (f / 64) 0#64)).getLsbD (f % 64) = Q f) :
    (∃ b, b < nb ∧ (q (p.getD b 0#64) (n.getD b 0#64) (x.getD b 0#64) != 0#64) = true) ↔
      ∃ f, f < 64 * nb ∧ Q f = true := by
  constructor
  · rintro ⟨b, hb, hv⟩
    rw [bne_iff_ne, bv_ne_zero_iff] at hv
    obtain ⟨i, hi, hbit⟩ := hv
    refine ⟨64 * b + i, by omega, ?_⟩
    rw [← h, show (64 * b + i) / 64 = b by omega, show (64 * b + i) % 64 = i by omega]
    exact hbit
  · rintro ⟨f, hf, hq⟩
    refine ⟨f / 64, by omega, ?_⟩
    rw [bne_iff_ne, bv_ne_zero_iff]
    exact ⟨f % 64, Nat.mod_lt _ (by decide), by rw [h]; exact hq⟩

theorem includes_iff_mirror {row : List Int} {p : List Block} (h : Mirrors row p) (f : Nat) :
    decide (Includes row f) = bitAt p f := by
  rw [Bool.eq_iff_iff, h f, decide_eq_true_iff]; rfl

theorem viol_blocks {pos neg : List Int} {p n : List Block} {X : BitVector}
    (hp : Mirrors pos p) (hn : Mirrors neg n) (hpl : pos.length = X.len) (hnl : neg.length = X.len) :
    (∃ b, b < X.contentBlocks ∧ violBlk p n X.blocks b = true) ↔
      ∃ f, f < X.len ∧ violB pos neg (bitwiseBits X) f = true := by
  unfold violBlk
  rw [exists_blk (q := evalBlock)
    (Q := fun f => (bitAt p f && !(bitAt X.blocks f)) || (bitAt n f && bitAt X.blocks f))]
  · constructor
    · rintro ⟨f, _, hq⟩
      have hinc : Includes pos f ∨ Includes neg f := by
        simp only [← includes_iff_mirror hp, ← includes_iff_mirror hn, Bool.or_eq_true,
          Bool.and_eq_true, decide_eq_true_eq] at hq
        rcases hq with h | h
        · exact .inl h.1
        · exact .inr h.1
      have hf : f < X.len := by
        rcases hinc with ⟨c, hc, _⟩ | ⟨c, hc, _⟩
        · rw [← hpl]; exact (List.getElem?_eq_some_iff.mp hc).1
        · rw [← hnl]; exact (List.getElem?_eq_some_iff.mp hc).1
      refine ⟨f, hf, ?_⟩
      rw [violB, includes_iff_mirror hp, includes_iff_mirror hn, val_bitwiseBits hf]
      exact hq
    · rintro ⟨f, hf, hq⟩
      refine ⟨f, by unfold BitVector.contentBlocks; omega, ?_⟩
      rw [violB, includes_iff_mirror hp, includes_iff_mirror hn, val_bitwiseBits hf] at hq
      exact hq
  · intro f
    have : f % 64 < 64 := Nat.mod_lt _ (by decide)
    simp [evalBlock, bitAt, this]

theorem incl_blocks {pos neg : List Int} {p n : List Block} {X : BitVector}
    (hp : Mirrors pos p) (hn : Mirrors neg n) (hpl : pos.length = X.len) (hnl : neg.length = X.len) :
    (∃ b, b < X.contentBlocks ∧ inclBlk p n b = true) ↔
      ∃ f, f < X.len ∧ inclB pos neg f = true := by
  unfold inclBlk
  rw [exists_blk (x := X.blocks) (q := fun a b _ => a ||| b) (Q := fun f => bitAt p f || bitAt n f)]
  · constructor
    · rintro ⟨f, _, hq⟩
      have hinc : Includes pos f ∨ Includes neg f := by
        simpa only [← includes_iff_mirror hp, ← includes_iff_mirror hn, Bool.or_eq_true,
          decide_eq_true_eq] using hq
      have hf : f < X.len := by
        rcases hinc with ⟨c, hc, _⟩ | ⟨c, hc, _⟩
        · rw [← hpl]; exact (List.getElem?_eq_some_iff.mp hc).1
        · rw [← hnl]; exact (List.getElem?_eq_some_iff.mp hc).1
      refine ⟨f, hf, ?_⟩
      rw [inclB, includes_iff_mirror hp, includes_iff_mirror hn]
      exact hq
    · rintro ⟨f, hf, hq⟩
      refine ⟨f, by unfold BitVector.contentBlocks; omega, ?_⟩
      rw [inclB, includes_iff_mirror hp, includes_iff_mirror hn] at hq
      exact hq
  · intro f
    simp [bitAt]

theorem content_le {X : BitVector} (h : X.Inv) : X.contentBlocks ≤ X.blocks.length := by
  have := h.fits; unfold BitVector.contentBlocks; omega

/-- Everything the bitwise clause evaluation relies on. -/
structure BitClauseOk (pos neg : List Int) (p n : List Block) (X : BitVector) : Prop where
  inv : X.Inv
  mp : Mirrors pos p
  mn : Mirrors neg n
  posLen : pos.length = X.len
  negLen : neg.length = X.len
  pLen : X.contentBlocks ≤ p.length
  nLen : X.contentBlocks ≤ n.length

theorem bitClause_eq (t : Tile) {pos neg : List Int} {p n : List Block} {X : BitVector}
    (h : BitClauseOk pos neg p n X) :
    bitClause t p n X = .ok ((Clause.mk pos neg).out (bitwiseBits X)) := by
  have hl := bitwiseBits_length X
  have hc := content_le h.inv
  unfold bitClause
  simp only [Clause.out, holds_iff, hl, ← viol_blocks h.mp h.mn h.posLen h.negLen]
  split
  · have := bitSimpleLoop_done p n X.blocks X.contentBlocks h.pLen h.nLen hc X.contentBlocks 0
      (by omega) 0#64 (by simp) (by simp)
    obtain ⟨r, hr, h1, h2⟩ := this
    rw [show range 0 X.contentBlocks = List.range' 0 X.contentBlocks by simp [range], hr]
    simp only [ok_bind]
    congr 1
    rw [Bool.eq_iff_iff, h1, decide_eq_true_iff]
  · obtain ⟨r, hr, h1, h2⟩ := tileLoops_done (bit_tileStep p n X.blocks X.contentBlocks h.pLen h.nLen hc)
      t (0#64, 0#64) ⟨trivial, by simp, by simp⟩
    rw [bitBatchedLoops, hr]
    simp only [ok_bind]
    congr 1
    rw [Bool.eq_iff_iff, decide_eq_true_iff, ← h1]
    simp

private theorem zero_lt_iff (a : Block) : 0#64 < a ↔ a ≠ 0#64 := by
  rw [BitVec.lt_def, ne_eq, ← BitVec.toNat_inj]; simp; omega

theorem bitClausePruned_eq (t : Tile) {pos neg : List Int} {p n : List Block} {X : BitVector}
    (h : BitClauseOk pos neg p n X) :
    bitClausePruned t p n X = .ok ((Clause.mk pos neg).outPruned (bitwiseBits X)) := by
  have hl := bitwiseBits_length X
  have hc := content_le h.inv
  unfold bitClausePruned
  simp only [Clause.outPruned, holds_iff, nonEmpty_iff, hl, ← viol_blocks h.mp h.mn h.posLen h.negLen,
    ← incl_blocks (X := X) h.mp h.mn h.posLen h.negLen, zero_lt_iff]
  split
  · have := bitSimpleLoop_done p n X.blocks X.contentBlocks h.pLen h.nLen hc X.contentBlocks 0
      (by omega) 0#64 (by simp) (by simp)
    obtain ⟨⟨o, a⟩, hr, h1, h2⟩ := this
    rw [show range 0 X.contentBlocks = List.range' 0 X.contentBlocks by simp [range], hr]
    simp only [ok_bind]
    congr 1
    rw [Bool.eq_iff_iff, decide_eq_true_iff, ← h1]
    cases o
    · simp
    · simp only [forall_const] at h2
      rw [← h2]
      by_cases ha : a = 0#64 <;> simp [ha]
  · obtain ⟨⟨tg, a⟩, hr, h1, h2⟩ := tileLoops_done
      (bit_tileStep p n X.blocks X.contentBlocks h.pLen h.nLen hc)
      t (0#64, 0#64) ⟨trivial, by simp, by simp⟩
    rw [bitBatchedLoops, hr]
    simp only [ok_bind]
    congr 1
    rw [Bool.eq_iff_iff, decide_eq_true_iff, ← h1]
    dsimp only at h2 ⊢
    by_cases ht : tg = 0#64
    · subst ht
      simp only [bne_self_eq_false, forall_const] at h2
      rw [← h2]
      by_cases ha : a = 0#64 <;> simp [ha]
    · by_cases ha : a = 0#64 <;> simp [ha, ht]

end Tsetlini
