import Verif.Lemmas.BitwiseTrain
/- Type II feedback of the bitwise algorithm, block by block. -/
namespace Tsetlini
open Res Spec

/-- What `block3` does to the counter of a positive literal. -/
def posC (x : List Bool) (f : Nat) (p : Int) : Int := if !(val x f) && decide (p < 0) then p + 1 else p

/-- What `block3` does to the counter of a negated literal. -/
def negC (x : List Bool) (f : Nat) (n : Int) : Int := if val x f && decide (n < 0) then n + 1 else n

private theorem and_one (b : Block) : b &&& 1#64 = if b.getLsbD 0 then 1#64 else 0#64 := by
  apply BitVec.eq_of_getLsbD_eq
  intro i hi
  rw [BitVec.getLsbD_and, BitVec.getLsbD_one]
  by_cases h : i = 0
  · subst h; cases b.getLsbD 0 <;> simp
  · cases b.getLsbD 0 <;> simp [h]

/-- Progress of the inner loop for one row: `k` bits of block `base/64` are done. -/
structure B3Row (N : Int) (orig : List Int) (F : Nat → Int → Int) (base k : Nat) (I : Block)
    (cur : List Int) (incr flip : Block) : Prop where
  upto : Upto (base + k) F (orig) cur
  shift : incr = I >>> k
  flipLo : ∀ j, j < k → flip.getLsbD j =
    (I.getLsbD j && decide (∃ c, orig[base + j]? = some c ∧ c + 1 = 0))
  flipHi : ∀ j, k ≤ j → flip.getLsbD j = false

private theorem b3row_step {ct : CType} {N : Int} {orig cur : List Int} {F : Nat → Int → Int}
    {base k : Nat} {I incr flip : Block} (hN : 1 ≤ N) (hfit : ct.Fits N)
    (h : B3Row N orig F base k I cur incr flip) (hk : k < 64) (hlt : base + k < orig.length)
    (hr : InRange N orig) (hF : F (base + k) orig[base + k] =
      if I.getLsbD k then orig[base + k] + 1 else orig[base + k])
    (hI : I.getLsbD k = true → orig[base + k] < 0) :
    ∃ h' : base + k < cur.length,
      ct.store (cur[base + k] + (incr &&& 1#64).toNat) = F (base + k) orig[base + k] ∧
      B3Row N orig F base (k + 1) I (cur.set (base + k) (F (base + k) orig[base + k])) (incr >>> 1)
        (flip ||| (((if F (base + k) orig[base + k] = 0 then 1#64 else 0#64) &&& (incr &&& 1#64)) <<< k)) := by
  have hl : base + k < cur.length := by rw [h.upto.length]; exact hlt
  have hcell := h.upto.cell (Nat.le_refl _) hl hlt
  have hrng := hr _ (List.getElem_mem hlt)
  have hbit : incr.getLsbD 0 = I.getLsbD k := by
    rw [h.shift, BitVec.getLsbD_ushiftRight]; simp
  refine ⟨hl, ?_, ?_⟩
  · rw [hcell, and_one, hbit, hF]
    cases hb : I.getLsbD k
    · simp only [Bool.false_eq_true, if_false]
      exact (by simpa using store_id hfit hrng.1 hrng.2)
    · have := hI hb
      simp only [if_true]
      exact (by simpa using store_id (x := orig[base + k] + 1) hfit (by omega) (by omega))
  · refine ⟨?_, ?_, ?_, ?_⟩
    · exact h.upto.step hlt rfl
    · rw [h.shift, ← BitVec.shiftRight_add]
    · intro j hj
      rw [BitVec.getLsbD_or, BitVec.getLsbD_shiftLeft]
      rcases Nat.lt_or_ge j k with hjk | hjk
      · rw [h.flipLo j hjk]; simp [hjk]
      · obtain rfl : j = k := by omega
        rw [h.flipHi j (Nat.le_refl _), and_one, hbit, hF]
        rw [List.getElem?_eq_getElem hlt]
        cases hb : I.getLsbD j
        · simp
        · simp only [if_true, Nat.sub_self, Nat.lt_irrefl, decide_false, Bool.not_false, hk, decide_true,
            Bool.true_and, Bool.false_or, Option.some.injEq]
          by_cases hz : orig[base + j] + 1 = 0
          · simp [hz]
          · simp [hz]
    · intro j hj
      rw [BitVec.getLsbD_or, h.flipHi j (by omega), BitVec.getLsbD_shiftLeft, and_one]
      have h1 : ¬ j < k := by omega
      have h2 : j - k ≠ 0 := by omega
      simp only [Bool.false_or, h1, decide_false, Bool.not_false, Bool.and_true]
      split <;> split <;> simp [h2]

/-- The inner loop of `process_block`. -/
theorem block3Inner {ct : CType} {N : Int} {pos neg : List Int} {FP FN : Nat → Int → Int}
    {base bits : Nat} {IP IN : Block} (hN : 1 ≤ N) (hfit : ct.Fits N) (hb : bits ≤ 64)
    (hp : base + bits ≤ pos.length) (hn : base + bits ≤ neg.length)
    (hrp : InRange N pos) (hrn : InRange N neg)
    (hFP : ∀ k (_ : k < bits) (h : base + k < pos.length),
      FP (base + k) pos[base + k] = (if IP.getLsbD k then pos[base + k] + 1 else pos[base + k]) ∧
      (IP.getLsbD k = true → pos[base + k] < 0))
    (hFN : ∀ k (_ : k < bits) (h : base + k < neg.length),
      FN (base + k) neg[base + k] = (if IN.getLsbD k then neg[base + k] + 1 else neg[base + k]) ∧
      (IN.getLsbD k = true → neg[base + k] < 0))
    {p0 n0 : List Int} (hp0 : Upto base FP pos p0) (hn0 : Upto base FN neg n0) :
    (iter (range 0 bits) (block3Bit ct base) ⟨p0, n0, IP, IN, 0#64, 0#64⟩).Ret fun s =>
      B3Row N pos FP base bits IP s.pos s.posInc s.posFlip ∧
      B3Row N neg FN base bits IN s.neg s.negInc s.negFlip := by
  apply iter_range_ret (P := fun k (s : B3) =>
      B3Row N pos FP base k IP s.pos s.posInc s.posFlip ∧
      B3Row N neg FN base k IN s.neg s.negInc s.negFlip) bits
  · exact ⟨⟨hp0, by simp, by simp, by simp⟩, ⟨hn0, by simp, by simp, by simp⟩⟩
  · rintro k hk ⟨p, n, ip, i_n, fp, fn⟩ ⟨h1, h2⟩
    have hlp : base + k < pos.length := by omega
    have hln : base + k < neg.length := by omega
    obtain ⟨a1, a2, a3⟩ := b3row_step hN hfit h1 (by omega) hlp hrp (hFP k hk hlp).1 (hFP k hk hlp).2
    obtain ⟨b1, b2, b3⟩ := b3row_step hN hfit h2 (by omega) hln hrn (hFN k hk hln).1 (hFN k hk hln).2
    dsimp only at a1 a2 a3 b1 b2 b3
    unfold block3Bit
    simp only [rd_ok a1, ok_bind, a2, wr_ok a1, rd_ok b1, b2, wr_ok b1]
    rw [rd_ok (by simpa using a1), rd_ok (by simpa using b1)]
    simp only [ok_bind, List.getElem_set_self, ret_ok]
    exact ⟨a3, b3⟩

/-- Polarity after the block's flips. -/
private theorem flip_mirror {N : Int} {orig cur curOld : List Int} {p : List Block} {F : Nat → Int → Int}
    {q bits : Nat} {I incr flip : Block} (hold : Mirrors curOld p) (hUold : Upto (q * 64) F orig curOld)
    (hb : bits ≤ 64) (hq : q < p.length) (hend : q * 64 + bits ≤ orig.length)
    (h : B3Row N orig F (q * 64) bits I cur incr flip)
    (hF : ∀ k (_ : k < bits) (h : q * 64 + k < orig.length),
      F (q * 64 + k) orig[q * 64 + k] =
        (if I.getLsbD k then orig[q * 64 + k] + 1 else orig[q * 64 + k]) ∧
      (I.getLsbD k = true → orig[q * 64 + k] < 0)) :
    Mirrors cur (p.set q (p.getD q 0#64 ^^^ flip)) := by
  intro j
  rw [bitAt_set hq]
  by_cases hj : j / 64 = q
  · rw [if_pos hj, BitVec.getLsbD_xor]
    have hbit : (p.getD q 0#64).getLsbD (j % 64) = bitAt p j := by rw [bitAt, hj]
    rw [hbit]
    obtain ⟨k, rfl, hk64⟩ : ∃ k, j = q * 64 + k ∧ k < 64 :=
      ⟨j % 64, by omega, Nat.mod_lt _ (by decide)⟩
    rw [show (q * 64 + k) % 64 = k by omega]
    rcases Nat.lt_or_ge k bits with hlt | hge
    · -- inside the processed part
      rw [h.flipLo _ hlt]
      have hlen : q * 64 + k < orig.length := by omega
      have hcur : cur[q * 64 + k]? = some (F (q * 64 + k) orig[q * 64 + k]) := by
        rw [h.upto, if_pos (by omega), List.getElem?_eq_getElem hlen]; rfl
      have hold' : bitAt p (q * 64 + k) = decide (0 ≤ orig[q * 64 + k]) := by
        rw [Bool.eq_iff_iff, hold, hUold, if_neg (by omega), List.getElem?_eq_getElem hlen]
        simp
      obtain ⟨h1, h2⟩ := hF k hlt hlen
      rw [hcur, hold', h1, List.getElem?_eq_getElem hlen]
      cases hI : I.getLsbD k
      · simp
      · have := h2 hI
        simp only [Bool.true_and, if_true, Option.some.injEq, exists_eq_left']
        have hz : decide (0 ≤ orig[q * 64 + k]) = false := by simp; omega
        rw [hz]
        simp only [Bool.false_xor, decide_eq_true_eq]
        omega
    · rw [h.flipHi _ hge, Bool.xor_false, hold, hUold, h.upto, if_neg (by omega), if_neg (by omega)]
  · rw [if_neg hj, hold j, hUold j, h.upto j]
    by_cases h1 : j < q * 64
    · rw [if_pos h1, if_pos (by omega)]
    · rw [if_neg h1, if_neg (by omega)]

/-- `process_block` on block `q`. -/
theorem processBlock_ret {ct : CType} {N : Int} {X : BitVector} {nblk q bits : Nat} {c c0 : ClauseRows}
    (hN : 1 ≤ N) (hfit : ct.Fits N) (hX : X.Inv) (hb : bits ≤ 64) (hb0 : 0 < bits) (hend : q * 64 + bits ≤ X.len)
    (h0 : RowsOk N X.len nblk c0) (h : RowsOk N X.len nblk c)
    (hp : Upto (q * 64) (posC (bitwiseBits X)) c0.pos c.pos)
    (hn : Upto (q * 64) (negC (bitwiseBits X)) c0.neg c.neg) :
    (processBlock ct X.blocks q bits c).Ret fun c' => RowsOk N X.len nblk c' ∧
      Upto (q * 64 + bits) (posC (bitwiseBits X)) c0.pos c'.pos ∧
      Upto (q * 64 + bits) (negC (bitwiseBits X)) c0.neg c'.neg := by
  have hqx : q < X.blocks.length := by have := hX.fits; omega
  have hqp : q < c.ppos.length := by have := h.pos.fits; omega
  have hqn : q < c.pneg.length := by have := h.neg.fits; omega
  have hlp0 := h0.pos.len
  have hln0 := h0.neg.len
  have bitx : ∀ k, k < bits → (X.blocks[q]).getLsbD k = val (bitwiseBits X) (q * 64 + k) := by
    intro k hk
    rw [val_bitwiseBits (by omega), bitAt, show (q * 64 + k) / 64 = q by omega,
      show (q * 64 + k) % 64 = k by omega]
    simp [hqx]
  have bitp : ∀ k (hk : k < bits) (hl : q * 64 + k < c0.pos.length),
      (c.ppos[q]).getLsbD k = decide (0 ≤ c0.pos[q * 64 + k]) := by
    intro k hk hl
    have hl' : q * 64 + k < c.pos.length := by rw [h.pos.len]; omega
    have := h.pos.bit hl'
    rw [hp.cell (by omega) hl' hl] at this
    rw [← this, bitAt, show (q * 64 + k) / 64 = q by omega, show (q * 64 + k) % 64 = k by omega]
    simp [hqp]
  have bitn : ∀ k (hk : k < bits) (hl : q * 64 + k < c0.neg.length),
      (c.pneg[q]).getLsbD k = decide (0 ≤ c0.neg[q * 64 + k]) := by
    intro k hk hl
    have hl' : q * 64 + k < c.neg.length := by rw [h.neg.len]; omega
    have := h.neg.bit hl'
    rw [hn.cell (by omega) hl' hl] at this
    rw [← this, bitAt, show (q * 64 + k) / 64 = q by omega, show (q * 64 + k) % 64 = k by omega]
    simp [hqn]
  have hFP : ∀ k (_ : k < bits) (hl : q * 64 + k < c0.pos.length),
      posC (bitwiseBits X) (q * 64 + k) c0.pos[q * 64 + k] =
        (if (~~~ X.blocks[q] &&& ~~~ c.ppos[q]).getLsbD k then c0.pos[q * 64 + k] + 1
         else c0.pos[q * 64 + k]) ∧
      ((~~~ X.blocks[q] &&& ~~~ c.ppos[q]).getLsbD k = true → c0.pos[q * 64 + k] < 0) := by
    intro k hk hl
    have hk64 : k < 64 := by omega
    rw [BitVec.getLsbD_and, BitVec.getLsbD_not, BitVec.getLsbD_not, bitx k hk, bitp k hk hl]
    unfold posC
    by_cases hz : c0.pos[q * 64 + k] < 0
    · have : ¬ 0 ≤ c0.pos[q * 64 + k] := by omega
      simp [hk64, hz, this]
    · have : 0 ≤ c0.pos[q * 64 + k] := by omega
      simp [hz, this]
  have hFN : ∀ k (_ : k < bits) (hl : q * 64 + k < c0.neg.length),
      negC (bitwiseBits X) (q * 64 + k) c0.neg[q * 64 + k] =
        (if (X.blocks[q] &&& ~~~ c.pneg[q]).getLsbD k then c0.neg[q * 64 + k] + 1
         else c0.neg[q * 64 + k]) ∧
      ((X.blocks[q] &&& ~~~ c.pneg[q]).getLsbD k = true → c0.neg[q * 64 + k] < 0) := by
    intro k hk hl
    have hk64 : k < 64 := by omega
    rw [BitVec.getLsbD_and, BitVec.getLsbD_not, bitx k hk, bitn k hk hl]
    unfold negC
    by_cases hz : c0.neg[q * 64 + k] < 0
    · have : ¬ 0 ≤ c0.neg[q * 64 + k] := by omega
      simp [hk64, hz, this]
    · have : 0 ≤ c0.neg[q * 64 + k] := by omega
      simp [hz, this]
  unfold processBlock
  simp only [rd_ok hqx, rd_ok hqp, rd_ok hqn, ok_bind]
  refine Ret.bind (block3Inner hN hfit hb (by omega) (by omega) h0.pr h0.nr hFP hFN hp hn) ?_
  rintro ⟨p, n, ip, i_n, fp, fn⟩ ⟨h1, h2⟩
  dsimp only at h1 h2 ⊢
  simp only [wr_ok hqp, wr_ok hqn, ok_bind, ret_ok]
  have m1 := flip_mirror h.pos.mirror hp hb hqp (by omega) h1 hFP
  have m2 := flip_mirror h.neg.mirror hn hb hqn (by omega) h2 hFN
  rw [List.getD_eq_getElem?_getD, List.getElem?_eq_getElem hqp, Option.getD_some] at m1
  rw [List.getD_eq_getElem?_getD, List.getElem?_eq_getElem hqn, Option.getD_some] at m2
  have rng : ∀ {orig cur : List Int} {F : Nat → Int → Int} {k : Nat}, InRange N orig → Upto k F orig cur →
      (∀ f c, -N ≤ c → c ≤ N - 1 → -N ≤ F f c ∧ F f c ≤ N - 1) → InRange N cur := by
    intro orig cur F k hr hu hF v hv
    obtain ⟨i, hi⟩ := List.mem_iff_getElem?.mp hv
    rw [hu i] at hi
    split at hi
    · cases ho : orig[i]? with
      | none => simp [ho] at hi
      | some w =>
        have := hr w (List.mem_of_getElem? ho)
        simp [ho] at hi; subst hi; exact hF i w this.1 this.2
    · exact hr v (List.mem_of_getElem? hi)
  refine ⟨⟨⟨?_, ?_, m1⟩, ⟨?_, ?_, m2⟩, ?_, ?_, ?_, ?_⟩, h1.upto, h2.upto⟩
  · rw [h1.upto.length]; exact h0.pos.len
  · simpa using h.pos.fits
  · rw [h2.upto.length]; exact h0.neg.len
  · simpa using h.neg.fits
  · exact rng h0.pr h1.upto fun f v h1 h2 => by
      unfold posC; cases val (bitwiseBits X) f <;> by_cases hv : v < 0 <;> simp [hv] <;> omega
  · exact rng h0.nr h2.upto fun f v h1 h2 => by
      unfold negC; cases val (bitwiseBits X) f <;> by_cases hv : v < 0 <;> simp [hv] <;> omega
  · simpa using h.pl
  · simpa using h.nl

theorem bitBlock3_eq {ct : CType} {N : Int} {X : BitVector} {nblk : Nat} {c : ClauseRows}
    (hN : 1 ≤ N) (hfit : ct.Fits N) (hX : X.Inv) (h : RowsOk N X.len nblk c) :
    (bitBlock3 ct X c).Ret fun c' => RowsOk N X.len nblk c' ∧
      c'.clause = c.clause.contradict (bitwiseBits X) := by
  have hfull : X.contentBlocks - (if X.tailBits ≠ 0 then 1 else 0) = X.len / 64 := by
    unfold BitVector.contentBlocks BitVector.tailBits
    by_cases ht : X.len % 64 = 0 <;> simp [ht] <;> omega
  unfold bitBlock3
  simp only [hfull]
  have h1 := iter_range_ret (f := fun f c => processBlock ct X.blocks f 64 c) (P := fun k (s : ClauseRows) =>
    RowsOk N X.len nblk s ∧ Upto (k * 64) (posC (bitwiseBits X)) c.pos s.pos ∧
      Upto (k * 64) (negC (bitwiseBits X)) c.neg s.neg) (X.len / 64) c
    ⟨h, by simpa using upto_zero _ _, by simpa using upto_zero _ _⟩ (by
      rintro k hk s ⟨g1, g2, g3⟩
      have := processBlock_ret (ct := ct) (q := k) (bits := 64) hN hfit hX (by omega) (by omega) (by omega) h g1 g2 g3
      rwa [show k * 64 + 64 = (k + 1) * 64 by omega] at this)
  refine Ret.bind h1 ?_
  rintro s ⟨g1, g2, g3⟩
  have fin : ∀ s' : ClauseRows, RowsOk N X.len nblk s' → Upto X.len (posC (bitwiseBits X)) c.pos s'.pos →
      Upto X.len (negC (bitwiseBits X)) c.neg s'.neg →
      RowsOk N X.len nblk s' ∧ s'.clause = c.clause.contradict (bitwiseBits X) := by
    intro s' a b d
    refine ⟨a, ?_⟩
    unfold ClauseRows.clause Clause.contradict
    rw [b.done (by rw [h.pos.len]; exact Nat.le_refl _), d.done (by rw [h.neg.len]; exact Nat.le_refl _)]
    rfl
  by_cases ht : X.tailBits = 0
  · have hl : X.len / 64 * 64 = X.len := by unfold BitVector.tailBits at ht; omega
    rw [hl] at g2 g3
    simp only [ht, ne_eq, not_true_eq_false, if_false, ret_ok]
    exact fin s g1 g2 g3
  · simp only [ht, ne_eq, not_false_eq_true, if_true]
    have ht' : X.len % 64 ≠ 0 := ht
    have := processBlock_ret (ct := ct) (q := X.len / 64) (bits := X.tailBits) hN hfit hX
      (by unfold BitVector.tailBits; omega) (by unfold BitVector.tailBits; omega)
      (by unfold BitVector.tailBits; omega) h g1 g2 g3
    rw [show X.len / 64 * 64 + X.tailBits = X.len by unfold BitVector.tailBits; omega] at this
    exact this.mono fun s' ⟨a, b, d⟩ => fin s' a b d

end Tsetlini
