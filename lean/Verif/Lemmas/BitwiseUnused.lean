import Verif.Model.BitwiseUnused
import Verif.Lemmas.BitwiseTrain3
/- The feedback routines no caller uses do what the others do. -/
namespace Tsetlini
open Res Spec

/-- Progress of the inner loop for one row: `k` bits of the block at `base` are done. -/
structure BInv (orig : List Int) (F : Nat → Int → Int) (base k : Nat) (I D : Block) (s : BitRow) : Prop where
  upto : Upto (base + k) F orig s.row
  inc : s.inc = I >>> k
  dec : s.dec = D >>> k
  flipLo : ∀ j, j < k → s.flip.getLsbD j =
    (decide (0 ≤ orig.getD (base + j) 0) ^^ decide (0 ≤ F (base + j) (orig.getD (base + j) 0)))
  flipHi : ∀ j, k ≤ j → s.flip.getLsbD j = false

/-- The counter after the bits of `inc` and `dec` have been applied. -/
def moved (N : Int) (i d : Bool) (v : Int) : Int :=
  if i then Spec.inc N v else if d then Spec.dec N v else v

theorem low_bit (b : Block) (c : Prop) [Decidable c] :
    b &&& (if c then 1#64 else 0#64) = if b.getLsbD 0 && decide c then 1#64 else 0#64 := by
  by_cases h : c
  · rw [if_pos h]
    apply BitVec.eq_of_getLsbD_eq
    intro i hi
    rw [BitVec.getLsbD_and, BitVec.getLsbD_one]
    by_cases h' : i = 0
    · subst h'; cases b.getLsbD 0 <;> simp [h]
    · cases b.getLsbD 0 <;> simp [h, h']
  · rw [if_neg h]; simp [h]

theorem zeroAnd_eq (v : Int) (c : Bool) :
    zeroAnd v (if c then 1#64 else 0#64) = if decide (v = 0) && c then 1#64 else 0#64 := by
  unfold zeroAnd
  cases c <;> by_cases h : v = 0 <;> simp [h]

theorem shl_bit (c : Bool) {k j : Nat} (hk : k < 64) :
    ((if c then 1#64 else 0#64 : Block) <<< k).getLsbD j = (c && decide (j = k)) := by
  cases c
  · simp
  · rw [if_pos rfl, BitVec.getLsbD_shiftLeft, BitVec.getLsbD_one]
    by_cases h : j = k
    · subst h; simp [hk]
    · by_cases h2 : j < k
      · simp [h, h2]
      · have : j - k ≠ 0 := by omega
        simp [h, this]

/-- The flips after a bit: set where the sign changes. -/
theorem flips_step {orig : List Int} {F : Nat → Int → Int} {base k : Nat} {flip flip' : Block} {v w : Int}
    (hk : k < 64) (hv : orig.getD (base + k) 0 = v) (hw : F (base + k) v = w)
    (h1 : ∀ j, j < k → flip.getLsbD j =
      (decide (0 ≤ orig.getD (base + j) 0) ^^ decide (0 ≤ F (base + j) (orig.getD (base + j) 0))))
    (h2 : ∀ j, k ≤ j → flip.getLsbD j = false)
    (h3 : ∀ j, flip'.getLsbD j = (flip.getLsbD j || ((decide (0 ≤ v) ^^ decide (0 ≤ w)) && decide (j = k)))) :
    (∀ j, j < k + 1 → flip'.getLsbD j =
      (decide (0 ≤ orig.getD (base + j) 0) ^^ decide (0 ≤ F (base + j) (orig.getD (base + j) 0)))) ∧
    (∀ j, k + 1 ≤ j → flip'.getLsbD j = false) := by
  constructor
  · intro j hj
    rw [h3 j]
    rcases Nat.lt_or_ge j k with hlt | hge
    · rw [h1 j hlt]
      have : j ≠ k := by omega
      simp [this]
    · obtain rfl : j = k := by omega
      rw [h2 j (Nat.le_refl _), hv, hw]
      simp
  · intro j hj
    rw [h3 j, h2 j (by omega)]
    have : j ≠ k := by omega
    simp [this]

theorem incDecBit_ret {ct : CType} {N : Int} {orig : List Int} {F : Nat → Int → Int} {base k : Nat} {I D : Block}
    {s : BitRow} (hN : 1 ≤ N) (hfit : ct.Fits N) (h : BInv orig F base k I D s) (hk : k < 64)
    (hlt : base + k < orig.length) (hr : InRange N orig)
    (hF : F (base + k) orig[base + k] = moved N (I.getLsbD k) (D.getLsbD k) orig[base + k])
    (hx : (I.getLsbD k && D.getLsbD k) = false) :
    (incDecBit ct N base k s).Ret fun s' => BInv orig F base (k + 1) I D s' := by
  have hl : base + k < s.row.length := by rw [h.upto.length]; exact hlt
  have hcell := h.upto.cell (Nat.le_refl _) hl hlt
  have hrng := hr _ (List.getElem_mem hlt)
  have hi : s.inc.getLsbD 0 = I.getLsbD k := by rw [h.inc, BitVec.getLsbD_ushiftRight]; simp
  have hd : s.dec.getLsbD 0 = D.getLsbD k := by rw [h.dec, BitVec.getLsbD_ushiftRight]; simp
  have hgd : orig.getD (base + k) 0 = orig[base + k] := by simp [hlt]
  unfold incDecBit
  rw [rd_ok hl, ok_bind, hcell]
  dsimp only
  rw [low_bit, low_bit, hi, hd, wr_ok hl, ok_bind, rd_ok (by simpa using hl), ok_bind, List.getElem_set_self,
    wr_ok (by simpa using hl), ok_bind, rd_ok (by simpa using hl), ok_bind, List.getElem_set_self, ret_ok, List.set_set]
  rw [zeroAnd_eq, zeroAnd_eq]
  generalize hv : orig[base + k] = v at *
  -- the two stores
  have key : ct.store (ct.store (v + ((if I.getLsbD k && decide (v < N - 1) then 1#64 else 0#64 : Block).toNat : Nat)) -
      ((if D.getLsbD k && decide (v > -N) then 1#64 else 0#64 : Block).toNat : Nat)) = F (base + k) v := by
    rw [hF]
    unfold moved Spec.inc Spec.dec
    have s0 := store_id hfit hrng.1 hrng.2
    cases hI : I.getLsbD k <;> cases hD : D.getLsbD k
    · simp [s0]
    · by_cases hc : -N < v
      · simp only [Bool.false_and, Bool.false_eq_true, if_false, Bool.true_and, decide_eq_true_eq, gt_iff_lt, hc, if_true]
        have := store_id (x := v - 1) hfit (by omega) (by omega)
        simp only [show ((0#64 : Block).toNat : Int) = 0 from rfl, show ((1#64 : Block).toNat : Int) = 1 from rfl, Int.add_zero, s0, this]
      · simp [hc, s0]
    · by_cases hc : v < N - 1
      · simp only [Bool.false_and, Bool.false_eq_true, if_false, Bool.true_and, decide_eq_true_eq, hc, if_true]
        have := store_id (x := v + 1) hfit (by omega) (by omega)
        simp only [show ((0#64 : Block).toNat : Int) = 0 from rfl, show ((1#64 : Block).toNat : Int) = 1 from rfl, Int.sub_zero, this]
      · simp [hc, s0]
    · rw [hI, hD] at hx; cases hx
  rw [key]
  have hup := h.upto.step hlt (v := F (base + k) v) (by rw [hv])
  obtain ⟨f1, f2⟩ := flips_step hk hgd rfl h.flipLo h.flipHi (flip' := s.flip ||| ((if decide (v = 0) && (D.getLsbD k && decide (v > -N)) then 1#64 else 0#64 : Block) <<< k) |||
      ((if decide (F (base + k) v = 0) && (I.getLsbD k && decide (v < N - 1)) then 1#64 else 0#64 : Block) <<< k)) (fun j => by
    rw [BitVec.getLsbD_or, BitVec.getLsbD_or, shl_bit _ hk, shl_bit _ hk, Bool.or_assoc]
    congr 1
    by_cases hj : j = k
    · simp only [hj, decide_true, Bool.and_true]
      rw [hF]
      unfold moved Spec.inc Spec.dec
      cases hI : I.getLsbD k <;> cases hD : D.getLsbD k
      · simp
      · by_cases hc : -N < v
        · simp only [Bool.false_eq_true, if_false, if_true, hc, gt_iff_lt, Bool.false_and, Bool.and_false, Bool.or_false, Bool.true_and, decide_true, Bool.and_true]
          rw [Bool.eq_iff_iff]; simp; omega
        · have : v ≠ 0 := by omega
          simp [hc]
      · by_cases hc : v < N - 1
        · simp only [Bool.false_eq_true, if_false, if_true, hc, Bool.false_and, Bool.and_false, Bool.false_or, Bool.true_and, decide_true, Bool.and_true]
          rw [Bool.eq_iff_iff]; simp; omega
        · simp [hc]
      · rw [hI, hD] at hx; cases hx
    · simp [hj])
  exact ⟨hup, by rw [h.inc, ← BitVec.shiftRight_add], by rw [h.dec, ← BitVec.shiftRight_add], f1, f2⟩

theorem decBit_ret {ct : CType} {N : Int} {orig : List Int} {F : Nat → Int → Int} {base k : Nat} {D : Block}
    {s : BitRow} (hN : 1 ≤ N) (hfit : ct.Fits N) (h : BInv orig F base k 0#64 D s) (hk : k < 64)
    (hlt : base + k < orig.length) (hr : InRange N orig)
    (hF : F (base + k) orig[base + k] = moved N false (D.getLsbD k) orig[base + k]) :
    (decBit ct N base k s).Ret fun s' => BInv orig F base (k + 1) 0#64 D s' := by
  have hl : base + k < s.row.length := by rw [h.upto.length]; exact hlt
  have hcell := h.upto.cell (Nat.le_refl _) hl hlt
  have hrng := hr _ (List.getElem_mem hlt)
  have hd : s.dec.getLsbD 0 = D.getLsbD k := by rw [h.dec, BitVec.getLsbD_ushiftRight]; simp
  have hgd : orig.getD (base + k) 0 = orig[base + k] := by simp [hlt]
  unfold decBit
  rw [rd_ok hl, ok_bind, hcell]
  dsimp only
  rw [low_bit, hd, wr_ok hl, ok_bind, ret_ok, zeroAnd_eq]
  generalize hv : orig[base + k] = v at *
  have key : ct.store (v - ((if D.getLsbD k && decide (v > -N) then 1#64 else 0#64 : Block).toNat : Nat)) = F (base + k) v := by
    rw [hF]
    unfold moved Spec.dec
    have s0 := store_id hfit hrng.1 hrng.2
    cases hD : D.getLsbD k
    · simp [s0]
    · by_cases hc : -N < v
      · simp only [Bool.false_eq_true, if_false, Bool.true_and, decide_eq_true_eq, gt_iff_lt, hc, if_true]
        have := store_id (x := v - 1) hfit (by omega) (by omega)
        simp only [show ((1#64 : Block).toNat : Int) = 1 from rfl, this]
      · simp [hc, s0]
  rw [key]
  have hup := h.upto.step hlt (v := F (base + k) v) (by rw [hv])
  obtain ⟨f1, f2⟩ := flips_step hk hgd rfl h.flipLo h.flipHi (flip' := s.flip ||| ((if decide (v = 0) && (D.getLsbD k && decide (v > -N)) then 1#64 else 0#64 : Block) <<< k)) (fun j => by
    rw [BitVec.getLsbD_or, shl_bit _ hk]
    congr 1
    by_cases hj : j = k
    · simp only [hj, decide_true, Bool.and_true]
      rw [hF]
      unfold moved Spec.dec
      cases hD : D.getLsbD k
      · simp
      · by_cases hc : -N < v
        · simp only [Bool.false_eq_true, if_false, if_true, hc, gt_iff_lt, Bool.true_and, decide_true, Bool.and_true]
          rw [Bool.eq_iff_iff]; simp; omega
        · have : v ≠ 0 := by omega
          simp [hc]
    · simp [hj])
  exact ⟨hup, by rw [h.inc]; simp, by rw [h.dec, ← BitVec.shiftRight_add], f1, f2⟩

/-- Polarity after the block's flips. -/
theorem binv_mirror {orig curOld : List Int} {p : List Block} {F : Nat → Int → Int} {q bits : Nat} {I D : Block} {s : BitRow}
    (hold : Mirrors curOld p) (hUold : Upto (q * 64) F orig curOld) (hb : bits ≤ 64) (hq : q < p.length)
    (hend : q * 64 + bits ≤ orig.length) (h : BInv orig F (q * 64) bits I D s) :
    Mirrors s.row (p.set q (p[q] ^^^ s.flip)) := by
  intro j
  rw [bitAt_set hq]
  by_cases hj : j / 64 = q
  · rw [if_pos hj, BitVec.getLsbD_xor]
    have hbit : (p[q]).getLsbD (j % 64) = bitAt p j := by rw [bitAt, hj]; simp [hq]
    rw [hbit]
    obtain ⟨k, rfl, hk64⟩ : ∃ k, j = q * 64 + k ∧ k < 64 := ⟨j % 64, by omega, Nat.mod_lt _ (by decide)⟩
    rw [show (q * 64 + k) % 64 = k by omega]
    rcases Nat.lt_or_ge k bits with hlt | hge
    · rw [h.flipLo _ hlt]
      have hlen : q * 64 + k < orig.length := by omega
      have hcur : s.row[q * 64 + k]? = some (F (q * 64 + k) orig[q * 64 + k]) := by
        rw [h.upto, if_pos (by omega), List.getElem?_eq_getElem hlen]; rfl
      have hold' : bitAt p (q * 64 + k) = decide (0 ≤ orig[q * 64 + k]) := by
        rw [Bool.eq_iff_iff, hold, hUold, if_neg (by omega), List.getElem?_eq_getElem hlen]
        simp
      have hgd : orig.getD (q * 64 + k) 0 = orig[q * 64 + k] := by simp [hlen]
      rw [hcur, hold', hgd, ← Bool.xor_assoc, Bool.xor_self, Bool.false_xor]
      simp
    · rw [h.flipHi _ hge, Bool.xor_false, hold, hUold, h.upto, if_neg (by omega), if_neg (by omega)]
  · rw [if_neg hj, hold j, hUold j, h.upto j]
    by_cases h1 : j < q * 64
    · rw [if_pos h1, if_pos (by omega)]
    · rw [if_neg h1, if_neg (by omega)]

theorem upto_range {N : Int} {orig cur : List Int} {F : Nat → Int → Int} {k : Nat} (hr : InRange N orig)
    (hu : Upto k F orig cur) (hF : ∀ f c, -N ≤ c → c ≤ N - 1 → -N ≤ F f c ∧ F f c ≤ N - 1) : InRange N cur := by
  intro v hv
  obtain ⟨i, hi⟩ := List.mem_iff_getElem?.mp hv
  rw [hu i] at hi
  split at hi
  · cases ho : orig[i]? with
    | none => simp [ho] at hi
    | some w =>
      have := hr w (List.mem_of_getElem? ho)
      simp [ho] at hi; subst hi; exact hF i w this.1 this.2
  · exact hr v (List.mem_of_getElem? hi)

/-- One block of both rows. -/
theorem bothRows_ret {N : Int} {nf nblk q bits : Nat} {c c0 : ClauseRows} {body : Nat → BitRow → Res BitRow}
    {FP FN : Nat → Int → Int} {pi pd ni nd : Block} (hb : bits ≤ 64) (hb0 : 0 < bits) (hend : q * 64 + bits ≤ nf)
    (h0 : RowsOk N nf nblk c0) (h : RowsOk N nf nblk c)
    (hp : Upto (q * 64) FP c0.pos c.pos) (hn : Upto (q * 64) FN c0.neg c.neg)
    (rp : ∀ f v, -N ≤ v → v ≤ N - 1 → -N ≤ FP f v ∧ FP f v ≤ N - 1)
    (rn : ∀ f v, -N ≤ v → v ≤ N - 1 → -N ≤ FN f v ∧ FN f v ≤ N - 1)
    (sp : ∀ k, k < bits → ∀ s, BInv c0.pos FP (q * 64) k pi pd s → (body k s).Ret fun s' => BInv c0.pos FP (q * 64) (k + 1) pi pd s')
    (sn : ∀ k, k < bits → ∀ s, BInv c0.neg FN (q * 64) k ni nd s → (body k s).Ret fun s' => BInv c0.neg FN (q * 64) (k + 1) ni nd s') :
    (bothRows body q bits pi pd ni nd c).Ret fun c' => RowsOk N nf nblk c' ∧
      Upto (q * 64 + bits) FP c0.pos c'.pos ∧ Upto (q * 64 + bits) FN c0.neg c'.neg := by
  have hqp : q < c.ppos.length := by have := h.pos.fits; omega
  have hqn : q < c.pneg.length := by have := h.neg.fits; omega
  have hlp0 := h0.pos.len
  have hln0 := h0.neg.len
  unfold bothRows
  refine Ret.bind (P := fun s : BitRow × BitRow => BInv c0.pos FP (q * 64) bits pi pd s.1 ∧ BInv c0.neg FN (q * 64) bits ni nd s.2) ?_ ?_
  · apply iter_range_ret (P := fun k (s : BitRow × BitRow) =>
      BInv c0.pos FP (q * 64) k pi pd s.1 ∧ BInv c0.neg FN (q * 64) k ni nd s.2) bits
    · exact ⟨⟨hp, by simp, by simp, by simp, by simp⟩, ⟨hn, by simp, by simp, by simp, by simp⟩⟩
    · rintro k hk ⟨p, n⟩ ⟨h1, h2⟩
      dsimp only at h1 h2 ⊢
      obtain ⟨p', e1, g1⟩ := sp k hk p h1
      obtain ⟨n', e2, g2⟩ := sn k hk n h2
      rw [e1, ok_bind, e2, ok_bind, ret_ok]
      exact ⟨g1, g2⟩
  · rintro ⟨p, n⟩ ⟨h1, h2⟩
    dsimp only at h1 h2 ⊢
    rw [rd_ok hqp, ok_bind, wr_ok hqp, ok_bind, rd_ok hqn, ok_bind, wr_ok hqn, ok_bind, ret_ok]
    have m1 := binv_mirror h.pos.mirror hp hb hqp (by omega) h1
    have m2 := binv_mirror h.neg.mirror hn hb hqn (by omega) h2
    refine ⟨⟨⟨?_, ?_, m1⟩, ⟨?_, ?_, m2⟩, ?_, ?_, ?_, ?_⟩, h1.upto, h2.upto⟩
    · rw [h1.upto.length]; exact h0.pos.len
    · simpa using h.pos.fits
    · rw [h2.upto.length]; exact h0.neg.len
    · simpa using h.neg.fits
    · exact upto_range h0.pr h1.upto rp
    · exact upto_range h0.nr h2.upto rn
    · simpa using h.pl
    · simpa using h.nl

/-- All blocks. -/
theorem overBlocks_ret {N : Int} {nf nblk : Nat} {c : ClauseRows} {f : Nat → Nat → ClauseRows → Res ClauseRows}
    {FP FN : Nat → Int → Int} (h : RowsOk N nf nblk c)
    (hf : ∀ q bits c', bits ≤ 64 → 0 < bits → q * 64 + bits ≤ nf → RowsOk N nf nblk c' →
      Upto (q * 64) FP c.pos c'.pos → Upto (q * 64) FN c.neg c'.neg →
      (f q bits c').Ret fun c' => RowsOk N nf nblk c' ∧
        Upto (q * 64 + bits) FP c.pos c'.pos ∧ Upto (q * 64 + bits) FN c.neg c'.neg) :
    (overBlocks nf f c).Ret fun c' => RowsOk N nf nblk c' ∧ c'.clause = ⟨c.pos.mapIdx FP, c.neg.mapIdx FN⟩ := by
  have hfull : (nf + 63) / 64 - (if nf % 64 ≠ 0 then 1 else 0) = nf / 64 := by
    by_cases ht : nf % 64 = 0 <;> simp [ht] <;> omega
  unfold overBlocks
  simp only [hfull]
  have h1 := iter_range_ret (f := fun q c => f q 64 c) (P := fun k (s : ClauseRows) =>
    RowsOk N nf nblk s ∧ Upto (k * 64) FP c.pos s.pos ∧ Upto (k * 64) FN c.neg s.neg) (nf / 64) c
    ⟨h, by simpa using upto_zero _ _, by simpa using upto_zero _ _⟩ (by
      rintro k hk s ⟨g1, g2, g3⟩
      have := hf k 64 s (by omega) (by omega) (by omega) g1 g2 g3
      rwa [show k * 64 + 64 = (k + 1) * 64 by omega] at this)
  refine Ret.bind h1 ?_
  rintro s ⟨g1, g2, g3⟩
  have fin : ∀ s' : ClauseRows, RowsOk N nf nblk s' → Upto nf FP c.pos s'.pos → Upto nf FN c.neg s'.neg →
      RowsOk N nf nblk s' ∧ s'.clause = ⟨c.pos.mapIdx FP, c.neg.mapIdx FN⟩ := by
    intro s' a b d
    refine ⟨a, ?_⟩
    unfold ClauseRows.clause
    rw [b.done (by rw [h.pos.len]; exact Nat.le_refl _), d.done (by rw [h.neg.len]; exact Nat.le_refl _)]
  by_cases ht : nf % 64 = 0
  · have hl : nf / 64 * 64 = nf := by omega
    rw [hl] at g2 g3
    simp only [ht, ne_eq, not_true_eq_false, if_false, ret_ok]
    exact fin s g1 g2 g3
  · simp only [ht, ne_eq, not_false_eq_true, if_true]
    have := hf (nf / 64) (nf % 64) s (by omega) (by omega) (by omega) g1 g2 g3
    rw [show nf / 64 * 64 + nf % 64 = nf by omega] at this
    exact this.mono fun s' ⟨a, b, d⟩ => fin s' a b d

/-- The first `n` bits of a sequence of blocks. -/
def tossBits (v : List Block) (n : Nat) : List Bool := (List.range n).map (bitAt v)

theorem tossBits_getD {v : List Block} {n f : Nat} (h : f < n) : (tossBits v n).getD f false = bitAt v f := by
  unfold tossBits
  simp [h]

theorem block_bit {v : List Block} {q k : Nat} (hq : q < v.length) (hk : k < 64) : (v[q]).getLsbD k = bitAt v (q * 64 + k) := by
  rw [bitAt, show (q * 64 + k) / 64 = q by omega, show (q * 64 + k) % 64 = k by omega]
  simp [hq]

theorem bitBlock1Bits_eq {ct : CType} {N : Int} {nf nblk : Nat} {tp tn : List Block} {c : ClauseRows}
    (hN : 1 ≤ N) (hfit : ct.Fits N) (hp : nf ≤ 64 * tp.length) (hn : nf ≤ 64 * tn.length) (h : RowsOk N nf nblk c) :
    (bitBlock1Bits ct nf N tp tn c).Ret fun c' => RowsOk N nf nblk c' ∧
      c'.clause = c.clause.weaken N (tossBits tp nf) (tossBits tn nf) := by
  unfold bitBlock1Bits
  refine overBlocks_ret (FP := fun f p => if (tossBits tp nf).getD f false then Spec.dec N p else p)
    (FN := fun f n => if (tossBits tn nf).getD f false then Spec.dec N n else n) h ?_
  intro q bits c' hb hb0 hend h' up un
  have hq1 : q < tp.length := by omega
  have hq2 : q < tn.length := by omega
  have rng : ∀ (t : List Bool) (f : Nat) (v : Int), -N ≤ v → v ≤ N - 1 →
      -N ≤ (if t.getD f false then Spec.dec N v else v) ∧ (if t.getD f false then Spec.dec N v else v) ≤ N - 1 := by
    intro t f v h1 h2
    cases t.getD f false
    · exact ⟨h1, h2⟩
    · unfold Spec.dec; rw [if_pos rfl]; split <;> omega
  rw [rd_ok hq1, ok_bind, rd_ok hq2, ok_bind]
  refine bothRows_ret hb hb0 hend h h' up un (rng _) (rng _) ?_ ?_
  · intro k hk s hs
    have hl : q * 64 + k < c.pos.length := by rw [h.pos.len]; omega
    refine decBit_ret hN hfit hs (by omega) hl h.pr ?_
    rw [tossBits_getD (by omega), block_bit hq1 (by omega)]
    rfl
  · intro k hk s hs
    have hl : q * 64 + k < c.neg.length := by rw [h.neg.len]; omega
    refine decBit_ret hN hfit hs (by omega) hl h.nr ?_
    rw [tossBits_getD (by omega), block_bit hq2 (by omega)]
    rfl

theorem bitBlock2Bits_eq {ct : CType} {boost : Bool} {N : Int} {X : BitVector} {nblk : Nat} {tp tn : List Block} {c : ClauseRows}
    (hN : 1 ≤ N) (hfit : ct.Fits N) (hX : X.Inv) (hp : X.len ≤ 64 * tp.length) (hn : X.len ≤ 64 * tn.length)
    (h : RowsOk N X.len nblk c) :
    (bitBlock2Bits ct boost N X tp tn c).Ret fun c' => RowsOk N X.len nblk c' ∧
      c'.clause = c.clause.strengthen N boost (bitwiseBits X) (tossBits tp X.len) (tossBits tn X.len) := by
  unfold bitBlock2Bits
  refine overBlocks_ret (FP := posF N boost (bitwiseBits X) (tossBits tp X.len))
    (FN := negF N boost (bitwiseBits X) (tossBits tn X.len)) h ?_
  intro q bits c' hb hb0 hend h' up un
  have hq0 : q < X.blocks.length := by have := hX.fits; omega
  have hq1 : q < tp.length := by omega
  have hq2 : q < tn.length := by omega
  have ri : ∀ v, -N ≤ v → v ≤ N - 1 → -N ≤ Spec.inc N v ∧ Spec.inc N v ≤ N - 1 := fun v h1 h2 => by
    unfold Spec.inc; split <;> omega
  have rd' : ∀ v, -N ≤ v → v ≤ N - 1 → -N ≤ Spec.dec N v ∧ Spec.dec N v ≤ N - 1 := fun v h1 h2 => by
    unfold Spec.dec; split <;> omega
  rw [rd_ok hq0, ok_bind, rd_ok hq1, ok_bind, rd_ok hq2, ok_bind]
  refine bothRows_ret hb hb0 hend h h' up un ?_ ?_ ?_ ?_
  · intro f v h1 h2
    unfold posF
    split <;> split <;> first | exact ri v h1 h2 | exact rd' v h1 h2 | exact ⟨h1, h2⟩
  · intro f v h1 h2
    unfold negF
    split <;> split <;> first | exact ri v h1 h2 | exact rd' v h1 h2 | exact ⟨h1, h2⟩
  · intro k hk s hs
    have hk64 : k < 64 := by omega
    have hl : q * 64 + k < c.pos.length := by rw [h.pos.len]; omega
    have e1 : (X.blocks[q] &&& (if boost then BitVec.allOnes 64 else ~~~ tp[q])).getLsbD k =
        (bitAt X.blocks (q * 64 + k) && (boost || !(bitAt tp (q * 64 + k)))) := by
      rw [BitVec.getLsbD_and, block_bit hq0 hk64]
      cases boost
      · simp [hk64, ← block_bit hq1 hk64]
      · rw [if_pos rfl, BitVec.getLsbD_allOnes]; simp [hk64]
    have e2 : (~~~ X.blocks[q] &&& tp[q]).getLsbD k = (!(bitAt X.blocks (q * 64 + k)) && bitAt tp (q * 64 + k)) := by
      rw [BitVec.getLsbD_and, BitVec.getLsbD_not, block_bit hq0 hk64, block_bit hq1 hk64]
      simp [hk64]
    refine incDecBit_ret hN hfit hs hk64 hl h.pr ?_ ?_
    · rw [e1, e2]
      unfold posF moved
      rw [tossBits_getD (by omega), val_bitwiseBits (by omega)]
      cases bitAt X.blocks (q * 64 + k) <;> cases bitAt tp (q * 64 + k) <;> cases boost <;> simp
    · rw [e1, e2]
      cases bitAt X.blocks (q * 64 + k) <;> simp
  · intro k hk s hs
    have hk64 : k < 64 := by omega
    have hl : q * 64 + k < c.neg.length := by rw [h.neg.len]; omega
    have e1 : (~~~ X.blocks[q] &&& (if boost then BitVec.allOnes 64 else ~~~ tn[q])).getLsbD k =
        (!(bitAt X.blocks (q * 64 + k)) && (boost || !(bitAt tn (q * 64 + k)))) := by
      rw [BitVec.getLsbD_and, BitVec.getLsbD_not, block_bit hq0 hk64]
      cases boost
      · simp [hk64, ← block_bit hq2 hk64]
      · rw [if_pos rfl, BitVec.getLsbD_allOnes]; simp [hk64]
    have e2 : (X.blocks[q] &&& tn[q]).getLsbD k = (bitAt X.blocks (q * 64 + k) && bitAt tn (q * 64 + k)) := by
      rw [BitVec.getLsbD_and, block_bit hq0 hk64, block_bit hq2 hk64]
    refine incDecBit_ret hN hfit hs hk64 hl h.nr ?_ ?_
    · rw [e1, e2]
      unfold negF moved
      rw [tossBits_getD (by omega), val_bitwiseBits (by omega)]
      cases bitAt X.blocks (q * 64 + k) <;> cases bitAt tn (q * 64 + k) <;> cases boost <;> simp
    · rw [e1, e2]
      cases bitAt X.blocks (q * 64 + k) <;> simp

theorem modify_set {row : List Int} {f : Nat} (F : Int → Int) (h : f < row.length) : row.modify f F = row.set f (F row[f]) := by
  apply List.ext_getElem?
  intro j
  rw [List.getElem?_modify, List.getElem?_set]
  by_cases hj : f = j
  · subst hj; simp [h]
  · simp [hj]

/-- What `block1` does to a counter. -/
def tossDec (N : Int) (t : List Bool) (f : Nat) (v : Int) : Int := if t.getD f false then Spec.dec N v else v

theorem denseDec_ret {ct : CType} {N : Int} {nf f : Nat} {t : List Bool} {row orig : List Int} {p : List Block}
    (hN : 1 ≤ N) (hfit : ct.Fits N) (h : RowOk nf row p) (hr : InRange N row) (hf : f < nf) (ht : t.length = nf)
    (hol : orig.length = nf) (hu : Upto f (tossDec N t) orig row) :
    (denseDec ct N t f row p).Ret fun r => RowOk nf r.1 r.2 ∧ InRange N r.1 ∧ r.2.length = p.length ∧
      Upto (f + 1) (tossDec N t) orig r.1 := by
  have htl : f < t.length := by omega
  have hrl : f < row.length := by rw [h.len]; exact hf
  have hgt : t.getD f false = t[f] := by simp [htl]
  unfold denseDec
  rw [rd_ok htl, ok_bind]
  cases hb : t[f]
  · rw [if_neg (by simp), ret_ok]
    exact ⟨h, hr, rfl, hu.skip (by omega) (by unfold tossDec; rw [hgt, hb]; rfl)⟩
  · rw [if_pos rfl]
    obtain ⟨p', q1, q2, q3⟩ := decRow hN hfit h hr hf (fun row pol => Res.ok (row, pol))
    rw [q3, ret_ok]
    refine ⟨q1, inRange_modify hr _, q2, ?_⟩
    dsimp only
    rw [modify_set _ hrl]
    refine hu.step (by omega) ?_
    rw [hu.cell (Nat.le_refl _) hrl (by omega)]
    unfold tossDec
    rw [hgt, hb]; rfl

theorem bitBlock1_eq {ct : CType} {N : Int} {nf nblk : Nat} {tp tn : List Bool} {c : ClauseRows}
    (hN : 1 ≤ N) (hfit : ct.Fits N) (hp : tp.length = nf) (hn : tn.length = nf) (h : RowsOk N nf nblk c) :
    (bitBlock1 ct nf N tp tn c).Ret fun c' => RowsOk N nf nblk c' ∧ c'.clause = c.clause.weaken N tp tn := by
  unfold bitBlock1
  have := iter_range_ret (f := fun f (c : ClauseRows) =>
    (denseDec ct N tp f c.pos c.ppos).bind fun (pos, ppos) =>
    (denseDec ct N tn f c.neg c.pneg).bind fun (neg, pneg) =>
    .ok (⟨pos, neg, ppos, pneg⟩ : ClauseRows)) (P := fun k (s : ClauseRows) =>
    RowsOk N nf nblk s ∧ Upto k (tossDec N tp) c.pos s.pos ∧ Upto k (tossDec N tn) c.neg s.neg) nf c
    ⟨h, upto_zero _ _, upto_zero _ _⟩ (by
      rintro k hk s ⟨h1, h2, h3⟩
      obtain ⟨⟨pos, ppos⟩, e1, a1, a2, a3, a4⟩ := denseDec_ret hN hfit h1.pos h1.pr hk hp h.pos.len h2
      obtain ⟨⟨neg, pneg⟩, e2, b1, b2, b3, b4⟩ := denseDec_ret hN hfit h1.neg h1.nr hk hn h.neg.len h3
      rw [e1, ok_bind]
      dsimp only
      rw [e2, ok_bind, ret_ok]
      exact ⟨⟨a1, b1, a2, b2, by rw [← h1.pl]; exact a3, by rw [← h1.nl]; exact b3⟩, a4, b4⟩)
  refine this.mono fun s ⟨h1, h2, h3⟩ => ⟨h1, ?_⟩
  unfold ClauseRows.clause Clause.weaken
  rw [h2.done (by rw [h.pos.len]; exact Nat.le_refl _), h3.done (by rw [h.neg.len]; exact Nat.le_refl _)]
  rfl

theorem incExcluded_ret {ct : CType} {N : Int} {nf f : Nat} {row orig : List Int} {p : List Block} {F : Nat → Int → Int}
    (hN : 1 ≤ N) (hfit : ct.Fits N) (h : RowOk nf row p) (hr : InRange N row) (hf : f < nf)
    (hol : orig.length = nf) (hu : Upto f F orig row) (hF : ∀ v, F f v = if v < 0 then v + 1 else v) :
    (incExcluded ct f row p).Ret fun r => RowOk nf r.1 r.2 ∧ InRange N r.1 ∧ r.2.length = p.length ∧
      Upto (f + 1) F orig r.1 := by
  have hrl : f < row.length := by rw [h.len]; exact hf
  have hol' : f < orig.length := by omega
  have hc := hu.cell (Nat.le_refl _) hrl hol'
  have hrng := hr _ (List.getElem_mem hrl)
  unfold incExcluded action
  rw [rd_ok hrl, ok_bind]
  by_cases h0 : 0 ≤ row[f]
  · rw [if_neg (by simp [h0]), ret_ok]
    exact ⟨h, hr, rfl, hu.skip hol' (by rw [hF, if_neg (by omega)])⟩
  · rw [if_pos (by simp [h0]), wr_ok hrl, ok_bind, rd_ok (by simpa using hrl), ok_bind, List.getElem_set_self,
      store_id hfit (by omega) (by omega)]
    have hu' := hu.step hol' (v := row[f] + 1) (by rw [hF, if_pos (by omega), hc])
    have hr' : InRange N (row.set f (row[f] + 1)) := inRange_set hr (by omega)
    by_cases h1 : row[f] + 1 = 0
    · rw [if_pos h1]
      obtain ⟨p', hp', hl, hb⟩ := bitFlip_ret (h.blk hf)
      rw [hp', ok_bind, ret_ok]
      refine ⟨⟨by simp [h.len], by rw [hl]; exact h.fits, mirrors_set h.mirror hrl fun j => ?_⟩, hr', hl, hu'⟩
      rw [hb j, h.bit hrl]
      simp [h0, h1]
    · rw [if_neg h1, ok_bind, ret_ok]
      refine ⟨⟨by simp [h.len], h.fits, mirrors_set h.mirror hrl fun j => ?_⟩, hr', rfl, hu'⟩
      by_cases hj : j = f
      · subst hj
        rw [if_pos rfl, h.bit hrl]
        have : ¬ 0 ≤ row[j] + 1 := by omega
        simp [h0, this]
      · rw [if_neg hj]

theorem bitBlock3Simple_eq {ct : CType} {N : Int} {X : BitVector} {nblk : Nat} {c : ClauseRows}
    (hN : 1 ≤ N) (hfit : ct.Fits N) (hX : X.Inv) (h : RowsOk N X.len nblk c) :
    (bitBlock3Simple ct X.len X c).Ret fun c' => RowsOk N X.len nblk c' ∧
      c'.clause = c.clause.contradict (bitwiseBits X) := by
  unfold bitBlock3Simple
  have := iter_range_ret (f := fun f (c : ClauseRows) =>
    (bitTest X.blocks f).bind fun x =>
    if x = false then
      (incExcluded ct f c.pos c.ppos).bind fun (pos, ppos) => .ok { c with pos := pos, ppos := ppos }
    else
      (incExcluded ct f c.neg c.pneg).bind fun (neg, pneg) => .ok { c with neg := neg, pneg := pneg })
    (P := fun k (s : ClauseRows) =>
    RowsOk N X.len nblk s ∧ Upto k (posC (bitwiseBits X)) c.pos s.pos ∧ Upto k (negC (bitwiseBits X)) c.neg s.neg) X.len c
    ⟨h, upto_zero _ _, upto_zero _ _⟩ (by
      rintro k hk s ⟨h1, h2, h3⟩
      have hxb : k / 64 < X.blocks.length := by have := hX.fits; omega
      have hlp : k < c.pos.length := by rw [h.pos.len]; exact hk
      have hln : k < c.neg.length := by rw [h.neg.len]; exact hk
      rw [bitTest_ok hxb, ok_bind]
      cases hx : bitAt X.blocks k
      · rw [if_pos rfl]
        obtain ⟨⟨pos, ppos⟩, e1, a1, a2, a3, a4⟩ := incExcluded_ret hN hfit h1.pos h1.pr hk h.pos.len h2
          (fun v => by unfold posC; rw [val_bitwiseBits hk, hx]; simp)
        rw [e1, ok_bind, ret_ok]
        exact ⟨⟨a1, h1.neg, a2, h1.nr, by rw [← h1.pl]; exact a3, h1.nl⟩, a4,
          h3.skip hln (by unfold negC; rw [val_bitwiseBits hk, hx]; simp)⟩
      · rw [if_neg (by simp)]
        obtain ⟨⟨neg, pneg⟩, e1, a1, a2, a3, a4⟩ := incExcluded_ret hN hfit h1.neg h1.nr hk h.neg.len h3
          (fun v => by unfold negC; rw [val_bitwiseBits hk, hx]; simp)
        rw [e1, ok_bind, ret_ok]
        exact ⟨⟨h1.pos, a1, h1.pr, a2, h1.pl, by rw [← h1.nl]; exact a3⟩,
          h2.skip hlp (by unfold posC; rw [val_bitwiseBits hk, hx]; simp), a4⟩)
  refine this.mono fun s ⟨h1, h2, h3⟩ => ⟨h1, ?_⟩
  unfold ClauseRows.clause Clause.contradict
  rw [h2.done (by rw [h.pos.len]; exact Nat.le_refl _), h3.done (by rw [h.neg.len]; exact Nat.le_refl _)]
  rfl

/-- Polarity rows of the same length that mirror the same counters are the same. -/
theorem mirrors_unique {row : List Int} {p p' : List Block} (h : Mirrors row p) (h' : Mirrors row p')
    (hl : p.length = p'.length) : p = p' := by
  have hb : ∀ f, bitAt p f = bitAt p' f := fun f => by rw [Bool.eq_iff_iff, h f, h' f]
  apply List.ext_getElem hl
  intro i h1 h2
  apply BitVec.eq_of_getLsbD_eq
  intro k hk
  rw [block_bit h1 hk, block_bit h2 hk, hb]

theorem rows_unique {N : Int} {nf nblk : Nat} {c c' : ClauseRows} (h : RowsOk N nf nblk c) (h' : RowsOk N nf nblk c')
    (he : c.clause = c'.clause) : c = c' := by
  obtain ⟨p, n, pp, pn⟩ := c
  obtain ⟨p', n', pp', pn'⟩ := c'
  unfold ClauseRows.clause at he
  cases he
  have e1 := mirrors_unique h.pos.mirror h'.pos.mirror (h.pl.trans h'.pl.symm)
  have e2 := mirrors_unique h.neg.mirror h'.neg.mirror (h.nl.trans h'.nl.symm)
  dsimp only at e1 e2
  rw [e1, e2]

end Tsetlini
