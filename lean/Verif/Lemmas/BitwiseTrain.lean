import Verif.Lemmas.BitwiseClause
import Verif.Lemmas.ClassicTrain
/- The bitwise feedback routines compute the specified feedback and keep the polarity
in step, for `N >= 2`. -/
namespace Tsetlini
open Res Spec

/-- Cells below `k` have been rewritten by `F`, the others are untouched. -/
def Upto (k : Nat) (F : Nat → Int → Int) (orig cur : List Int) : Prop :=
  ∀ f, cur[f]? = if f < k then orig[f]?.map (F f) else orig[f]?

theorem upto_zero (F : Nat → Int → Int) (orig : List Int) : Upto 0 F orig orig := by
  intro f; simp

theorem Upto.length {k : Nat} {F : Nat → Int → Int} {orig cur : List Int} (h : Upto k F orig cur) :
    cur.length = orig.length := by
  apply Nat.le_antisymm
  · apply Classical.byContradiction
    intro hc
    have h1 := h orig.length
    rw [List.getElem?_eq_getElem (by omega), List.getElem?_eq_none (Nat.le_refl _)] at h1
    split at h1 <;> simp at h1
  · apply Classical.byContradiction
    intro hc
    have h1 := h cur.length
    rw [List.getElem?_eq_none (Nat.le_refl _), List.getElem?_eq_getElem (by omega)] at h1
    split at h1 <;> simp at h1

theorem Upto.done {k : Nat} {F : Nat → Int → Int} {orig cur : List Int} (h : Upto k F orig cur)
    (hk : orig.length ≤ k) : cur = orig.mapIdx F := by
  apply List.ext_getElem?
  intro f
  rw [h f, List.getElem?_mapIdx]
  by_cases hf : f < k
  · simp [hf]
  · simp [hf, show orig.length ≤ f by omega]

theorem Upto.cell {k : Nat} {F : Nat → Int → Int} {orig cur : List Int} (h : Upto k F orig cur)
    {f : Nat} (hf : k ≤ f) (h1 : f < cur.length) (h2 : f < orig.length) : cur[f] = orig[f] := by
  have := h f
  rw [if_neg (by omega), List.getElem?_eq_getElem h1, List.getElem?_eq_getElem h2] at this
  exact Option.some.inj this

theorem Upto.step {k : Nat} {F : Nat → Int → Int} {orig cur : List Int} (h : Upto k F orig cur)
    {v : Int} (h2 : k < orig.length) (hv : v = F k orig[k]) : Upto (k + 1) F orig (cur.set k v) := by
  intro f
  have hl := h.length
  rcases Nat.lt_trichotomy f k with h3 | h3 | h3
  · rw [List.getElem?_set_ne (by omega), h f, if_pos h3, if_pos (by omega)]
  · subst h3
    rw [List.getElem?_set_self (by omega), if_pos (by omega), List.getElem?_eq_getElem h2, hv]
    rfl
  · rw [List.getElem?_set_ne (by omega), h f, if_neg (by omega), if_neg (by omega)]

/-- Skipping a cell that `F` does not change. -/
theorem Upto.skip {k : Nat} {F : Nat → Int → Int} {orig cur : List Int} (h : Upto k F orig cur)
    (h2 : k < orig.length) (hv : F k orig[k] = orig[k]) : Upto (k + 1) F orig cur := by
  intro f
  rcases Nat.lt_trichotomy f k with h3 | h3 | h3
  · rw [h f, if_pos h3, if_pos (by omega)]
  · subst h3
    rw [h f, if_neg (by omega), if_pos (by omega), List.getElem?_eq_getElem h2]
    simp [hv]
  · rw [h f, if_neg (by omega), if_neg (by omega)]

theorem mirrors_set {row : List Int} {p p' : List Block} {f : Nat} {v : Int} (h : Mirrors row p)
    (hf : f < row.length) (hp : ∀ j, bitAt p' j = if j = f then decide (0 ≤ v) else bitAt p j) :
    Mirrors (row.set f v) p' := by
  intro j
  rw [hp j]
  by_cases hj : j = f
  · subst hj; simp [hf]
  · rw [if_neg hj, h j, List.getElem?_set_ne (Ne.symm hj)]

/-- A row of counters with its polarity. -/
structure RowOk (nf : Nat) (row : List Int) (p : List Block) : Prop where
  len : row.length = nf
  fits : nf ≤ 64 * p.length
  mirror : Mirrors row p

theorem RowOk.bit {nf : Nat} {row : List Int} {p : List Block} (h : RowOk nf row p) {f : Nat}
    (hf : f < row.length) : bitAt p f = decide (0 ≤ row[f]) := by
  rw [Bool.eq_iff_iff, h.mirror f]
  simp [List.getElem?_eq_getElem hf]

theorem RowOk.blk {nf : Nat} {row : List Int} {p : List Block} (h : RowOk nf row p) {f : Nat}
    (hf : f < nf) : f / 64 < p.length := by
  have := h.fits; omega

/-- `if (s == 0) flip; if (s > -N) --s` -/
theorem decRow {ct : CType} {N : Int} {nf f : Nat} {row : List Int} {p : List Block} (hN : 1 ≤ N)
    (hfit : ct.Fits N) (h : RowOk nf row p) (hr : InRange N row) (hf : f < nf) {γ : Type}
    (k : List Int → List Block → Res γ) :
    ∃ p', RowOk nf (row.modify f (dec N)) p' ∧ p'.length = p.length ∧
    (rd row f).bind (fun s =>
      (if s = 0 then bitFlip p f else .ok p).bind fun pol =>
      (if s > -N then wr row f (ct.store (s - 1)) else .ok row).bind fun row => k row pol) =
      k (row.modify f (dec N)) p' := by
  have hfl : f < row.length := by rw [h.len]; exact hf
  have hrng := hr _ (List.getElem_mem hfl)
  have hmod : row.modify f (dec N) = row.set f (dec N row[f]) := by
    apply List.ext_getElem?
    intro j
    rw [List.getElem?_modify, List.getElem?_set]
    by_cases hj : f = j
    · subst hj; simp [hfl]
    · simp [hj]
  rw [rd_ok hfl]
  simp only [ok_bind]
  have hw : (if row[f] > -N then wr row f (ct.store (row[f] - 1)) else .ok row) =
      .ok (row.modify f (dec N)) := by
    rw [hmod]
    unfold dec
    by_cases h1 : row[f] > -N
    · rw [if_pos h1, if_pos (by omega), wr_ok hfl, store_id hfit (by omega) (by omega)]
    · rw [if_neg h1, if_neg (by omega)]
      simp
  rw [hw]
  by_cases h0 : row[f] = 0
  · rw [if_pos h0]
    obtain ⟨p', hp', hl, hb⟩ := bitFlip_ret (h.blk hf)
    refine ⟨p', ⟨?_, ?_, ?_⟩, hl, by rw [hp']; rfl⟩
    · simp [h.len]
    · rw [hl]; exact h.fits
    · rw [hmod]
      apply mirrors_set h.mirror hfl
      intro j
      rw [hb j, h.bit hfl, h0]
      have : dec N 0 = -1 := by unfold dec; rw [if_pos (by omega)]; rfl
      rw [this]; rfl
  · rw [if_neg h0]
    refine ⟨p, ⟨?_, h.fits, ?_⟩, rfl, rfl⟩
    · simp [h.len]
    · rw [hmod]
      apply mirrors_set h.mirror hfl
      intro j
      by_cases hj : j = f
      · subst hj
        rw [if_pos rfl, h.bit hfl]
        unfold dec
        have : (0 ≤ row[j]) ↔ (0 ≤ if -N < row[j] then row[j] - 1 else row[j]) := by
          split <;> omega
        simp [this]
      · rw [if_neg hj]

theorem sparseDec_eq {env : Env} {ct : CType} {N : Int} {nf : Nat} {row : List Int} {p : List Block}
    (hN : 1 ≤ N) (hfit : ct.Fits N) (h : RowOk nf row p) (hr : InRange N row) (hnf : 0 < nf)
    (g : env.G) :
    ∃ p', RowOk nf (row.modify ((env.next g).1.toNat % nf) (dec N)) p' ∧ p'.length = p.length ∧
      sparseDec env ct nf N row p g =
        .ok (row.modify ((env.next g).1.toNat % nf) (dec N), p', (env.next g).2) := by
  have hf : (env.next g).1.toNat % nf < nf := Nat.mod_lt _ hnf
  obtain ⟨p', h1, h2, h3⟩ := decRow hN hfit h hr hf (fun row pol => Res.ok (row, pol, (env.next g).2))
  refine ⟨p', h1, h2, ?_⟩
  unfold sparseDec
  simp only [show ¬ nf = 0 by omega, if_false]
  exact h3

/-- Clause rows with polarity. -/
structure RowsOk (N : Int) (nf : Nat) (nblk : Nat) (c : ClauseRows) : Prop where
  pos : RowOk nf c.pos c.ppos
  neg : RowOk nf c.neg c.pneg
  pr : InRange N c.pos
  nr : InRange N c.neg
  pl : c.ppos.length = nblk
  nl : c.pneg.length = nblk

/-- The counters of the rows as a clause. -/
def ClauseRows.clause (c : ClauseRows) : Clause := ⟨c.pos, c.neg⟩

theorem RowsOk.wf {N : Int} {nf nblk : Nat} {c : ClauseRows} (h : RowsOk N nf nblk c) :
    c.clause.WF N nf := ⟨h.pos.len, h.neg.len, h.pr, h.nr⟩

/-- Specification of the sparse weakening: `hits` rounds, each drawing one positive and one
negated literal. -/
def sparseSpec (env : Env) (N : Int) (nf : Nat) : Nat → Clause → env.G → Clause × env.G
  | 0, c, g => (c, g)
  | h + 1, c, g =>
    let (r1, g) := env.next g
    let (r2, g) := env.next g
    sparseSpec env N nf h (c.weakenAt N (r1.toNat % nf) (r2.toNat % nf)) g

theorem sparseSpec_wf (env : Env) {N : Int} {nf : Nat} (h : Nat) {c : Clause} (hc : c.WF N nf)
    (g : env.G) : (sparseSpec env N nf h c g).1.WF N nf := by
  induction h generalizing c g with
  | zero => exact hc
  | succ h ih => exact ih (weakenAt_wf hc _ _) _

theorem block1Sparse_eq {env : Env} {ct : CType} {N : Int} {nf nblk : Nat} (hits : Nat) {c : ClauseRows}
    (hN : 1 ≤ N) (hfit : ct.Fits N) (h : RowsOk N nf nblk c) (hnf : hits = 0 ∨ 0 < nf) (g : env.G) :
    (block1Sparse env ct nf hits N c g).Ret fun r => RowsOk N nf nblk r.1 ∧
      r.1.clause = (sparseSpec env N nf hits c.clause g).1 ∧
      r.2 = (sparseSpec env N nf hits c.clause g).2 := by
  unfold block1Sparse
  rw [List.range_eq_range']
  generalize 0 = start
  induction hits generalizing c g start with
  | zero => simpa [sparseSpec] using h
  | succ m ih =>
    have hnf : 0 < nf := by omega
    rw [List.range'_succ, iter_cons]
    obtain ⟨p1, a1, a2, a3⟩ := sparseDec_eq hN hfit h.pos h.pr hnf g
    obtain ⟨p2, b1, b2, b3⟩ := sparseDec_eq hN hfit h.neg h.nr hnf (env.next g).2
    simp only [a3, ok_bind, b3]
    have hR : RowsOk N nf nblk ⟨c.pos.modify ((env.next g).1.toNat % nf) (dec N),
        c.neg.modify ((env.next (env.next g).2).1.toNat % nf) (dec N), p1, p2⟩ :=
      ⟨a1, b1, inRange_modify h.pr _, inRange_modify h.nr _, by rw [a2]; exact h.pl,
        by rw [b2]; exact h.nl⟩
    refine (ih hR (.inr hnf) (env.next (env.next g).2).2 (start + 1)).mono fun r hr => ?_
    exact hr

/-! ### block2 -/

private theorem incRow_mirror {N : Int} {nf f : Nat} {row : List Int} {p : List Block} (hN : 2 ≤ N)
    (h : RowOk nf row p) (hf : f < nf) :
    ∃ p', RowOk nf (row.set f (inc N (row.getD f 0))) p' ∧ p'.length = p.length ∧
      (if inc N (row.getD f 0) = 0 then bitFlip p f else .ok p) = .ok p' := by
  have hfl : f < row.length := by rw [h.len]; exact hf
  have hg : row.getD f 0 = row[f] := by simp [hfl]
  rw [hg]
  by_cases h0 : inc N row[f] = 0
  · rw [if_pos h0]
    obtain ⟨p', hp', hl, hb⟩ := bitFlip_ret (h.blk hf)
    refine ⟨p', ⟨by simp [h.len], by rw [hl]; exact h.fits, ?_⟩, hl, hp'⟩
    apply mirrors_set h.mirror hfl
    intro j
    have hneg : ¬ 0 ≤ row[f] := by
      unfold inc at h0
      split at h0 <;> omega
    rw [hb j, h.bit hfl, h0]
    simp [hneg]
  · rw [if_neg h0]
    refine ⟨p, ⟨by simp [h.len], h.fits, ?_⟩, rfl, rfl⟩
    apply mirrors_set h.mirror hfl
    intro j
    by_cases hj : j = f
    · subst hj
      rw [if_pos rfl, h.bit hfl]
      have : (0 ≤ row[j]) ↔ (0 ≤ inc N row[j]) := by
        unfold inc at *
        split at h0 <;> rename_i h1 <;> simp [h1] <;> omega
      simp [this]
    · rw [if_neg hj]

private theorem incWrite {ct : CType} {N : Int} {f : Nat} {row : List Int} (hfit : ct.Fits N)
    (hr : InRange N row) (hf : f < row.length) :
    (if row[f] < N - 1 then wr row f (ct.store (row[f] + 1)) else .ok row) =
      .ok (row.set f (inc N (row.getD f 0))) := by
  have hrng := hr _ (List.getElem_mem hf)
  have hg : row.getD f 0 = row[f] := by simp [hf]
  rw [hg]
  unfold inc
  by_cases h1 : row[f] < N - 1
  · rw [if_pos h1, if_pos h1, wr_ok hf, store_id hfit (by omega) (by omega)]
  · rw [if_neg h1, if_neg h1]
    simp

theorem inRange_set {N : Int} {row : List Int} {f : Nat} {v : Int} (h : InRange N row)
    (hv : -N ≤ v ∧ v ≤ N - 1) : InRange N (row.set f v) := by
  intro c hc
  rcases List.mem_or_eq_of_mem_set hc with h1 | h1
  · exact h c h1
  · subst h1; exact hv

private theorem modify_eq_set {row : List Int} {f : Nat} (F : Int → Int) (h : f < row.length) :
    row.modify f F = row.set f (F row[f]) := by
  apply List.ext_getElem?
  intro j
  rw [List.getElem?_modify, List.getElem?_set]
  by_cases hj : f = j
  · subst hj; simp [h]
  · simp [hj]

/-- What `block2` does to the counter of a positive literal. -/
def posF (N : Int) (boost : Bool) (x tp : List Bool) (f : Nat) (p : Int) : Int :=
  if val x f then (if boost || !(tp.getD f false) then inc N p else p)
  else (if tp.getD f false then dec N p else p)

/-- What `block2` does to the counter of a negated literal. -/
def negF (N : Int) (boost : Bool) (x tn : List Bool) (f : Nat) (n : Int) : Int :=
  if val x f then (if tn.getD f false then dec N n else n)
  else (if boost || !(tn.getD f false) then inc N n else n)

private theorem set_self {row : List Int} {f : Nat} (h : f < row.length) : row.set f row[f] = row := by
  simp

theorem bitBlock2Step_ret {ct : CType} {boost : Bool} {N : Int} {X : BitVector} {tp tn : List Bool}
    {nblk f : Nat} {c : ClauseRows} (hN : 2 ≤ N) (hfit : ct.Fits N) (hX : X.Inv)
    (h : RowsOk N X.len nblk c) (hp : tp.length = X.len) (hn : tn.length = X.len) (hf : f < X.len) :
    (bitBlock2Step ct boost N X tp tn f c).Ret fun c' => RowsOk N X.len nblk c' ∧
      c'.pos = c.pos.set f (posF N boost (bitwiseBits X) tp f (c.pos.getD f 0)) ∧
      c'.neg = c.neg.set f (negF N boost (bitwiseBits X) tn f (c.neg.getD f 0)) := by
  have h3 : f < tp.length := by omega
  have h4 : f < tn.length := by omega
  have hxb : f / 64 < X.blocks.length := by have := hX.fits; omega
  have hpl : f < c.pos.length := by rw [h.pos.len]; exact hf
  have hnl : f < c.neg.length := by rw [h.neg.len]; exact hf
  have hgp : c.pos.getD f 0 = c.pos[f] := by simp [hpl]
  have hgn : c.neg.getD f 0 = c.neg[f] := by simp [hnl]
  have htp : tp.getD f false = tp[f] := by simp [h3]
  have htn : tn.getD f false = tn[f] := by simp [h4]
  have hrp := h.pr _ (List.getElem_mem hpl)
  have hrn := h.nr _ (List.getElem_mem hnl)
  unfold bitBlock2Step posF negF
  simp only [rd_ok h3, rd_ok h4, bitTest_ok hxb, ok_bind, val_bitwiseBits hf, htp, htn]
  cases hx : bitAt X.blocks f
  · -- x = 0
    simp only [Bool.false_eq_true, if_false]
    -- negated literal
    have hneg : (if boost || !tn[f] then
        (rd c.neg f).bind fun n =>
        (if n < N - 1 then
          (wr c.neg f (ct.store (n + 1))).bind fun neg =>
          (rd neg f).bind fun n =>
          (if n = 0 then bitFlip c.pneg f else .ok c.pneg).bind fun pneg =>
          .ok { c with neg := neg, pneg := pneg }
        else .ok c)
        else .ok c : Res ClauseRows).Ret fun c' => RowsOk N X.len nblk c' ∧ c'.pos = c.pos ∧
          c'.ppos = c.ppos ∧
          c'.neg = c.neg.set f (if boost || !tn[f] then inc N (c.neg.getD f 0) else c.neg.getD f 0) := by
      cases hc : (boost || !tn[f])
      · simp only [Bool.false_eq_true, if_false, ret_ok, hgn, set_self hnl]
        exact ⟨h, trivial, trivial, trivial⟩
      · simp only [if_true, rd_ok hnl, ok_bind]
        by_cases h1 : c.neg[f] < N - 1
        · rw [if_pos h1]
          have hst : ct.store (c.neg[f] + 1) = inc N (c.neg.getD f 0) := by
            rw [hgn, store_id hfit (by omega) (by omega)]; unfold inc; rw [if_pos h1]
          obtain ⟨p', hp1, hp2, hp3⟩ := incRow_mirror hN h.neg hf
          rw [wr_ok hnl, hst]
          simp only [ok_bind]
          rw [rd_ok (by simpa using hnl)]
          simp only [ok_bind, List.getElem_set_self]
          rw [hp3]
          simp only [ok_bind, ret_ok]
          have hi := inc_range hrn.1 hrn.2
          rw [hgn] at hp1 ⊢
          exact ⟨⟨h.pos, hp1, h.pr, inRange_set h.nr hi, h.pl, by rw [← h.nl]; exact hp2⟩,
            trivial, trivial, trivial⟩
        · rw [if_neg h1, ret_ok]
          have : inc N c.neg[f] = c.neg[f] := by unfold inc; rw [if_neg h1]
          rw [hgn, this, set_self hnl]
          exact ⟨h, rfl, rfl, rfl⟩
    refine Ret.bind hneg fun c1 ⟨g1, g2, g3, g4⟩ => ?_
    cases ht : tp[f]
    · simp only [Bool.false_eq_true, if_false, ret_ok, g2, g4, hgp, set_self hpl]
      exact ⟨g1, trivial, trivial⟩
    · simp only [if_true]
      obtain ⟨p', q1, q2, q3⟩ := decRow (N := N) (by omega) hfit g1.pos g1.pr hf
        (fun pos ppos => Res.ok { c1 with pos := pos, ppos := ppos })
      rw [q3, ret_ok]
      refine ⟨⟨q1, g1.neg, inRange_modify g1.pr _, g1.nr, by rw [← g1.pl]; exact q2, g1.nl⟩, ?_, g4⟩
      dsimp only
      rw [g2, modify_eq_set _ hpl, hgp]
  · -- x = 1
    simp only [if_true]
    have hpos : (if boost || !tp[f] then
        (rd c.pos f).bind fun p =>
        (if p < N - 1 then wr c.pos f (ct.store (p + 1)) else .ok c.pos).bind fun pos =>
        (rd pos f).bind fun p =>
        (if p = 0 then bitFlip c.ppos f else .ok c.ppos).bind fun ppos =>
        .ok { c with pos := pos, ppos := ppos }
        else .ok c : Res ClauseRows).Ret fun c' => RowsOk N X.len nblk c' ∧ c'.neg = c.neg ∧
          c'.pneg = c.pneg ∧
          c'.pos = c.pos.set f (if boost || !tp[f] then inc N (c.pos.getD f 0) else c.pos.getD f 0) := by
      cases hc : (boost || !tp[f])
      · simp only [Bool.false_eq_true, if_false, ret_ok, hgp, set_self hpl]
        exact ⟨h, trivial, trivial, trivial⟩
      · simp only [if_true, rd_ok hpl, ok_bind, incWrite hfit h.pr hpl]
        rw [rd_ok (by simpa using hpl)]
        simp only [ok_bind, List.getElem_set_self]
        obtain ⟨p', hp1, hp2, hp3⟩ := incRow_mirror hN h.pos hf
        rw [hp3]
        simp only [ok_bind, ret_ok]
        have hi := inc_range hrp.1 hrp.2
        rw [hgp] at hp1 ⊢
        exact ⟨⟨hp1, h.neg, inRange_set h.pr hi, h.nr, by rw [← h.pl]; exact hp2, h.nl⟩,
          trivial, trivial, trivial⟩
    refine Ret.bind hpos fun c1 ⟨g1, g2, g3, g4⟩ => ?_
    cases ht : tn[f]
    · simp only [Bool.false_eq_true, if_false, ret_ok, g2, g4, hgn, set_self hnl]
      exact ⟨g1, trivial, trivial⟩
    · simp only [if_true]
      obtain ⟨p', q1, q2, q3⟩ := decRow (N := N) (by omega) hfit g1.neg g1.nr hf
        (fun neg pneg => Res.ok { c1 with neg := neg, pneg := pneg })
      rw [q3, ret_ok]
      refine ⟨⟨g1.pos, q1, g1.pr, inRange_modify g1.nr _, g1.pl, by rw [← g1.nl]; exact q2⟩, g4, ?_⟩
      dsimp only
      rw [g2, modify_eq_set _ hnl, hgn]

theorem bitBlock2_eq {ct : CType} {boost : Bool} {N : Int} {X : BitVector} {tp tn : List Bool}
    {nblk : Nat} {c : ClauseRows} (hN : 2 ≤ N) (hfit : ct.Fits N) (hX : X.Inv)
    (h : RowsOk N X.len nblk c) (hp : tp.length = X.len) (hn : tn.length = X.len) :
    (bitBlock2 ct boost N X tp tn c).Ret fun c' => RowsOk N X.len nblk c' ∧
      c'.clause = c.clause.strengthen N boost (bitwiseBits X) tp tn := by
  unfold bitBlock2
  have := iter_range_ret (f := bitBlock2Step ct boost N X tp tn) (P := fun k (s : ClauseRows) =>
    RowsOk N X.len nblk s ∧ Upto k (posF N boost (bitwiseBits X) tp) c.pos s.pos ∧
      Upto k (negF N boost (bitwiseBits X) tn) c.neg s.neg) X.len c
    ⟨h, upto_zero _ _, upto_zero _ _⟩ (by
      rintro k hk s ⟨h1, h2, h3⟩
      refine (bitBlock2Step_ret hN hfit hX h1 hp hn hk).mono fun s' ⟨g1, g2, g3⟩ => ?_
      have e1 : k < c.pos.length := by rw [h.pos.len]; exact hk
      have e2 : k < c.neg.length := by rw [h.neg.len]; exact hk
      have e3 : k < s.pos.length := by rw [h1.pos.len]; exact hk
      have e4 : k < s.neg.length := by rw [h1.neg.len]; exact hk
      refine ⟨g1, ?_, ?_⟩
      · rw [g2]
        apply h2.step e1
        rw [← h2.cell (Nat.le_refl _) e3 e1]; simp [e3]
      · rw [g3]
        apply h3.step e2
        rw [← h3.cell (Nat.le_refl _) e4 e2]; simp [e4])
  refine this.mono fun s ⟨h1, h2, h3⟩ => ⟨h1, ?_⟩
  unfold ClauseRows.clause Clause.strengthen
  rw [h2.done (by rw [h.pos.len]; exact Nat.le_refl _), h3.done (by rw [h.neg.len]; exact Nat.le_refl _)]
  rfl

end Tsetlini
