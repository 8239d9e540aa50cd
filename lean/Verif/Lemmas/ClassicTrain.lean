import Verif.Lemmas.ClassicClause
import Verif.Spec.Feedback
/- The classic feedback routines compute the specified feedback, without overflow. -/
namespace Tsetlini
open Res Spec

/-- The counter type can hold `[-N, N-1]`. -/
def CType.Fits (ct : CType) (N : Int) : Prop := 2 * N ≤ ct.modulus

theorem store_id {ct : CType} {N x : Int} (h : ct.Fits N) (h1 : -N ≤ x) (h2 : x ≤ N - 1) :
    ct.store x = x := by
  unfold CType.store CType.Fits at *
  apply Int.bmod_eq_of_le
  · cases ct <;> simp only [CType.modulus] at * <;> omega
  · cases ct <;> simp only [CType.modulus] at * <;> omega

theorem dec_range {N c : Int} (h1 : -N ≤ c) (h2 : c ≤ N - 1) : -N ≤ dec N c ∧ dec N c ≤ N - 1 := by
  unfold dec; split <;> omega

theorem inc_range {N c : Int} (h1 : -N ≤ c) (h2 : c ≤ N - 1) : -N ≤ inc N c ∧ inc N c ≤ N - 1 := by
  unfold inc; split <;> omega

/-- A loop whose `f`-th step rewrites only the `f`-th cells of two rows. -/
theorem pointwise2 {step : Nat → List Int × List Int → Res (List Int × List Int)}
    {P : Int → Prop} {F G : Nat → Int → Int → Int} {nf : Nat} {pos neg : List Int}
    (hp : pos.length = nf) (hn : neg.length = nf) (hpos : ∀ c ∈ pos, P c) (hneg : ∀ c ∈ neg, P c)
    (hstep : ∀ f, f < nf → ∀ (p n : List Int) (h1 : f < p.length) (h2 : f < n.length), P p[f] → P n[f] →
      step f (p, n) = .ok (p.set f (F f p[f] n[f]), n.set f (G f p[f] n[f]))) :
    iter (range 0 nf) step (pos, neg) =
      .ok (pos.mapIdx fun f p => F f p (neg.getD f 0), neg.mapIdx fun f n => G f (pos.getD f 0) n) := by
  have := iter_range_ret (f := step) (P := fun k (s : List Int × List Int) =>
    s.1.length = nf ∧ s.2.length = nf ∧
    ∀ f, f < nf → s.1[f]? = (if f < k then some (F f (pos.getD f 0) (neg.getD f 0)) else pos[f]?) ∧
      s.2[f]? = (if f < k then some (G f (pos.getD f 0) (neg.getD f 0)) else neg[f]?)) nf (pos, neg)
    ⟨hp, hn, by simp⟩ (by
      rintro k hk ⟨p, n⟩ ⟨hl1, hl2, hall⟩
      dsimp only at hl1 hl2 hall
      have h1 : k < p.length := by omega
      have h2 : k < n.length := by omega
      have h3 : k < pos.length := by omega
      have h4 : k < neg.length := by omega
      have e1 : p[k] = pos[k] := by
        have := (hall k hk).1
        simpa [h1, h3] using this
      have e2 : n[k] = neg[k] := by
        have := (hall k hk).2
        simpa [h2, h4] using this
      rw [hstep k hk p n h1 h2 (e1 ▸ hpos _ (List.getElem_mem h3)) (e2 ▸ hneg _ (List.getElem_mem h4)),
        ret_ok]
      refine ⟨by simp [hl1], by simp [hl2], ?_⟩
      intro f hf
      have := hall f hf
      rcases Nat.lt_trichotomy f k with h | h | h
      · have h5 : f < k + 1 := by omega
        simp only [List.getElem?_set, h5, if_true]
        rw [if_neg (by omega), if_neg (by omega), this.1, this.2]
        simp [h]
      · subst h
        simp [h1, h2, e1, e2, h3, h4]
      · have h5 : ¬ f < k + 1 := by omega
        simp only [List.getElem?_set, h5, if_false]
        rw [if_neg (by omega), if_neg (by omega), this.1, this.2]
        simp [show ¬ f < k by omega])
  obtain ⟨⟨p, n⟩, hr, hl1, hl2, hall⟩ := this
  rw [hr]
  dsimp only at hl1 hl2 hall
  congr 2
  · apply List.ext_getElem?
    intro f
    by_cases hf : f < nf
    · rw [(hall f hf).1]
      have h3 : f < pos.length := by omega
      simp [hf, h3]
    · simp [show p.length ≤ f by omega, show pos.length ≤ f by omega]
  · apply List.ext_getElem?
    intro f
    by_cases hf : f < nf
    · rw [(hall f hf).2]
      have h3 : f < neg.length := by omega
      simp [hf, h3]
    · simp [show n.length ≤ f by omega, show neg.length ≤ f by omega]

theorem block1_eq {ct : CType} {nf : Nat} {N : Int} {c : Clause} {tp tn : List Bool}
    (hfit : ct.Fits N) (hc : c.WF N nf) (hp : tp.length = nf) (hn : tn.length = nf) :
    block1 ct nf N c.pos c.neg tp tn =
      .ok ((c.weaken N tp tn).pos, (c.weaken N tp tn).neg) := by
  unfold block1
  rw [pointwise2 (P := fun v => -N ≤ v ∧ v ≤ N - 1)
    (F := fun f p _ => if tp.getD f false then dec N p else p)
    (G := fun f _ n => if tn.getD f false then dec N n else n) hc.posLen hc.negLen hc.posRange hc.negRange]
  · rfl
  · intro f hf p n h1 h2 hp1 hn1
    have h3 : f < tp.length := by omega
    have h4 : f < tn.length := by omega
    have e1 : ct.store (if tp[f] then (if p[f] > -N then p[f] - 1 else p[f]) else p[f]) =
        if tp.getD f false then dec N p[f] else p[f] := by
      simp only [List.getD_eq_getElem?_getD, List.getElem?_eq_getElem h3, Option.getD_some, dec]
      apply store_id hfit
      · (repeat' split) <;> omega
      · (repeat' split) <;> omega
    have e2 : ct.store (if tn[f] then (if n[f] > -N then n[f] - 1 else n[f]) else n[f]) =
        if tn.getD f false then dec N n[f] else n[f] := by
      simp only [List.getD_eq_getElem?_getD, List.getElem?_eq_getElem h4, Option.getD_some, dec]
      apply store_id hfit
      · (repeat' split) <;> omega
      · (repeat' split) <;> omega
    simp only [rd_ok h1, rd_ok h2, rd_ok h3, rd_ok h4, wr_ok h1, ok_bind, wr_ok h2, e1, e2]

theorem block2Cell_eq {ct : CType} {N : Int} (hfit : ct.Fits N) (boost : Bool) (x : Byte)
    (hx : x = 0#8 ∨ x = 1#8) (cp cn : Bool) {p n : Int} (hp : -N ≤ p ∧ p ≤ N - 1)
    (hn : -N ≤ n ∧ n ≤ N - 1) :
    block2Cell ct boost N x cp cn p n =
      (if (x != 0#8) then (if boost || !cp then inc N p else p) else (if cp then dec N p else p),
       if (x != 0#8) then (if cn then dec N n else n) else (if boost || !cn then inc N n else n)) := by
  have sp := store_id hfit hp.1 hp.2
  have sn := store_id hfit hn.1 hn.2
  have ip := inc_range hp.1 hp.2
  have dp := dec_range hp.1 hp.2
  have i_n := inc_range hn.1 hn.2
  have dn := dec_range hn.1 hn.2
  have e1 : ct.store (inc N p) = inc N p := store_id hfit ip.1 ip.2
  have e2 : ct.store (dec N p) = dec N p := store_id hfit dp.1 dp.2
  have e3 : ct.store (inc N n) = inc N n := store_id hfit i_n.1 i_n.2
  have e4 : ct.store (dec N n) = dec N n := store_id hfit dn.1 dn.2
  unfold inc dec at *
  rcases hx with rfl | rfl
  · simp only [block2Cell, show (0#8 : Byte).getLsbD 0 = false from rfl,
      show ((0#8 : Byte) == 0#8) = true from rfl, show ((0#8 : Byte) != 0#8) = false from rfl,
      Bool.false_and, Bool.true_and, Bool.false_eq_true, if_false, sp, sn]
    cases boost <;> cases cp <;> cases cn <;> simp_all
  · simp only [block2Cell, show (1#8 : Byte).getLsbD 0 = true from rfl,
      show ((1#8 : Byte) == 0#8) = false from rfl, show ((1#8 : Byte) != 0#8) = true from rfl,
      Bool.false_and, Bool.true_and, Bool.false_eq_true, if_false, if_true]
    cases boost <;> cases cp <;> cases cn <;> simp_all

theorem block2_eq {ct : CType} {boost : Bool} {nf : Nat} {N : Int} {c : Clause} {X : ClassicSample}
    {tp tn : List Bool} (hfit : ct.Fits N) (hc : c.WF N nf) (hb : Binary X) (hX : X.length = nf)
    (hp : tp.length = nf) (hn : tn.length = nf) :
    block2 ct boost nf N c.pos c.neg X tp tn =
      .ok ((c.strengthen N boost (classicBits X) tp tn).pos,
        (c.strengthen N boost (classicBits X) tp tn).neg) := by
  unfold block2
  rw [pointwise2 (P := fun v => -N ≤ v ∧ v ≤ N - 1)
    (F := fun f p _ => if val (classicBits X) f then (if boost || !(tp.getD f false) then inc N p else p)
      else (if tp.getD f false then dec N p else p))
    (G := fun f _ n => if val (classicBits X) f then (if tn.getD f false then dec N n else n)
      else (if boost || !(tn.getD f false) then inc N n else n))
    hc.posLen hc.negLen hc.posRange hc.negRange]
  · rfl
  · intro f hf p n h1 h2 hp1 hn1
    have h3 : f < tp.length := by omega
    have h4 : f < tn.length := by omega
    have h5 : f < X.length := by omega
    simp only [rd_ok h1, rd_ok h2, rd_ok h3, rd_ok h4, rd_ok h5, wr_ok h1, ok_bind, wr_ok h2,
      block2Cell_eq hfit boost _ (hb _ (List.getElem_mem h5)) _ _ hp1 hn1, val_classicBits h5,
      List.getD_eq_getElem?_getD, List.getElem?_eq_getElem h3, List.getElem?_eq_getElem h4,
      Option.getD_some]

theorem block3Cell_eq {ct : CType} {N : Int} (hN : 1 ≤ N) (hfit : ct.Fits N) (x : Byte)
    (hx : x = 0#8 ∨ x = 1#8) {p n : Int} (hp : -N ≤ p ∧ p ≤ N - 1) (hn : -N ≤ n ∧ n ≤ N - 1) :
    block3Cell ct x p n =
      (if !(x != 0#8) && decide (p < 0) then p + 1 else p,
       if (x != 0#8) && decide (n < 0) then n + 1 else n) := by
  have sp := store_id hfit hp.1 hp.2
  have sn := store_id hfit hn.1 hn.2
  have sp1 : p < 0 → ct.store (p + 1) = p + 1 := fun h => store_id hfit (by omega) (by omega)
  have sn1 : n < 0 → ct.store (n + 1) = n + 1 := fun h => store_id hfit (by omega) (by omega)
  rcases hx with rfl | rfl
  · simp only [block3Cell, show ((0#8 : Byte) ^^^ 1#8).getLsbD 0 = true from rfl,
      show (0#8 : Byte).getLsbD 0 = false from rfl, show ((0#8 : Byte) != 0#8) = false from rfl,
      Bool.false_and, Bool.true_and, Bool.false_eq_true, if_false, sn, Bool.not_false]
    by_cases h : p < 0
    · simp [h, sp1 h]
    · simp [h, sp]
  · simp only [block3Cell, show ((1#8 : Byte) ^^^ 1#8).getLsbD 0 = false from rfl,
      show (1#8 : Byte).getLsbD 0 = true from rfl, show ((1#8 : Byte) != 0#8) = true from rfl,
      Bool.false_and, Bool.true_and, Bool.false_eq_true, if_false, sp, Bool.not_true]
    by_cases h : n < 0
    · simp [h, sn1 h]
    · simp [h, sn]

theorem block3_eq {ct : CType} {nf : Nat} {N : Int} {c : Clause} {X : ClassicSample} (hN : 1 ≤ N)
    (hfit : ct.Fits N) (hc : c.WF N nf) (hb : Binary X) (hX : X.length = nf) :
    block3 ct nf c.pos c.neg X =
      .ok ((c.contradict (classicBits X)).pos, (c.contradict (classicBits X)).neg) := by
  unfold block3
  rw [pointwise2 (P := fun v => -N ≤ v ∧ v ≤ N - 1)
    (F := fun f p _ => if !(val (classicBits X) f) && decide (p < 0) then p + 1 else p)
    (G := fun f _ n => if val (classicBits X) f && decide (n < 0) then n + 1 else n)
    hc.posLen hc.negLen hc.posRange hc.negRange]
  · rfl
  · intro f hf p n h1 h2 hp1 hn1
    have h5 : f < X.length := by omega
    simp only [rd_ok h1, rd_ok h2, rd_ok h5, wr_ok h1, ok_bind, wr_ok h2,
      block3Cell_eq hN hfit _ (hb _ (List.getElem_mem h5)) hp1 hn1, val_classicBits h5]

/-! The specified feedback keeps clauses well-formed. -/

theorem inRange_mapIdx {N : Int} {row : List Int} {F : Nat → Int → Int} (h : InRange N row)
    (hF : ∀ f c, -N ≤ c → c ≤ N - 1 → -N ≤ F f c ∧ F f c ≤ N - 1) : InRange N (row.mapIdx F) := by
  intro c hc
  rw [List.mem_mapIdx] at hc
  obtain ⟨i, hi, rfl⟩ := hc
  have := h _ (List.getElem_mem hi)
  exact hF i _ this.1 this.2

theorem weaken_wf {N : Int} {n : Nat} {c : Clause} (h : c.WF N n) (tp tn : List Bool) :
    (c.weaken N tp tn).WF N n where
  posLen := by simp [Clause.weaken, h.posLen]
  negLen := by simp [Clause.weaken, h.negLen]
  posRange := inRange_mapIdx h.posRange fun f c h1 h2 => by
    have := dec_range h1 h2; split <;> omega
  negRange := inRange_mapIdx h.negRange fun f c h1 h2 => by
    have := dec_range h1 h2; split <;> omega

theorem strengthen_wf {N : Int} {n : Nat} {c : Clause} (h : c.WF N n) (boost : Bool)
    (x tp tn : List Bool) : (c.strengthen N boost x tp tn).WF N n where
  posLen := by simp [Clause.strengthen, h.posLen]
  negLen := by simp [Clause.strengthen, h.negLen]
  posRange := inRange_mapIdx h.posRange fun f c h1 h2 => by
    have := dec_range h1 h2; have := inc_range h1 h2; split <;> split <;> omega
  negRange := inRange_mapIdx h.negRange fun f c h1 h2 => by
    have := dec_range h1 h2; have := inc_range h1 h2; split <;> split <;> omega

theorem contradict_wf {N : Int} {n : Nat} {c : Clause} (hN : 1 ≤ N) (h : c.WF N n) (x : List Bool) :
    (c.contradict x).WF N n where
  posLen := by simp [Clause.contradict, h.posLen]
  negLen := by simp [Clause.contradict, h.negLen]
  posRange := inRange_mapIdx h.posRange fun f c h1 h2 => by
    cases val x f <;> by_cases h : c < 0 <;> simp [h] <;> omega
  negRange := inRange_mapIdx h.negRange fun f c h1 h2 => by
    cases val x f <;> by_cases h : c < 0 <;> simp [h] <;> omega

theorem inRange_modify {N : Int} {row : List Int} (h : InRange N row) (f : Nat) :
    InRange N (row.modify f (dec N)) := by
  intro c hc
  obtain ⟨i, hi⟩ := List.mem_iff_getElem?.mp hc
  rw [List.getElem?_modify] at hi
  cases hr : row[i]? with
  | none => simp [hr] at hi
  | some v =>
    have hv := h v (List.mem_of_getElem? hr)
    rw [hr] at hi
    by_cases hfi : f = i
    · simp [hfi] at hi; subst hi; exact dec_range hv.1 hv.2
    · simp [hfi] at hi; subst hi; exact hv

theorem weakenAt_wf {N : Int} {n : Nat} {c : Clause} (h : c.WF N n) (fp fn : Nat) :
    (c.weakenAt N fp fn).WF N n where
  posLen := by simp [Clause.weakenAt, h.posLen]
  negLen := by simp [Clause.weakenAt, h.negLen]
  posRange := inRange_modify h.posRange fp
  negRange := inRange_modify h.negRange fn

end Tsetlini
