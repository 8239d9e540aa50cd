import Verif.Model.Estimator
import Verif.Lemmas.Res
import Verif.Spec.Votes
/- Clause output loops, vote sums, argmax. -/
namespace Tsetlini
open Res Spec

theorem outputsLoop_ret (sc : Sched) {clause : Nat → Res Bool} {v : Nat → Bool} {a b : Nat} {c : Cache}
    (hv : ∀ o, a ≤ o → o < b → clause o = .ok (v o)) (hb : b ≤ c.clauseOutput.length) :
    (outputsLoop sc clause a b c).Ret fun c' =>
      (∃ out, c' = { c with clauseOutput := out, tick := c.tick + 1 } ∧
        out.length = c.clauseOutput.length ∧
        ∀ i, i < c.clauseOutput.length →
          out[i]? = if a ≤ i ∧ i < b then some (v i) else c.clauseOutput[i]?) := by
  have hmem : ∀ o, o ∈ sc.order c.tick a b ↔ a ≤ o ∧ o < b := fun o => by
    rw [(sc.order_law c.tick a b).mem_iff, mem_range]
  have hcongr : ∀ (l : List Nat), (∀ o ∈ l, a ≤ o ∧ o < b) → ∀ out,
      iter l (fun o out => (clause o).bind fun v => wr out o v) out =
        iter l (fun o out => wr out o (v o)) out := by
    intro l
    induction l with
    | nil => intros; rfl
    | cons o l ih =>
      intro hl out
      have ho := hl o (by simp)
      rw [iter_cons, iter_cons, hv o ho.1 ho.2, ok_bind]
      congr 1; funext s
      exact ih (fun p hp => hl p (by simp [hp])) s
  unfold outputsLoop
  rw [hcongr _ (fun o ho => (hmem o).1 ho)]
  obtain ⟨out, h1, h2, h3⟩ := iter_writes v (sc.order c.tick a b) c.clauseOutput (by
    intro o ho; have := (hmem o).1 ho; omega)
  rw [h1, ok_bind, ret_ok]
  exact ⟨out, rfl, h2, fun i hi => by rw [h3 i hi]; simp [hmem i]⟩

theorem labelRange_ok {t k : Nat} (h : t * k + k ≤ 2147483647) :
    labelRange (t : Int) (k : Int) = .ok (t * k, t * k + k) := by
  have e : ((t : Int) * (k : Int)) = ((t * k : Nat) : Int) := by push_cast; rfl
  unfold labelRange
  rw [e]
  generalize t * k = m at *
  rw [i32_ok (by omega) (by omega), ok_bind, i32_ok (by omega) (by omega), ok_bind, if_neg (by omega)]
  congr

theorem clamp_eq (x lo hi : Int) (h : lo ≤ hi) : clamp x lo hi = clampTo lo hi x := by
  unfold clamp clampTo
  split
  · omega
  · split <;> omega

theorem clampTo_range {lo hi : Int} (x : Int) (h : lo ≤ hi) :
    lo ≤ clampTo lo hi x ∧ clampTo lo hi x ≤ hi := by
  unfold clampTo; omega

/-- Weights that are all small enough, one for each of `n` clauses or none at all. -/
structure WOk (n : Nat) (ws : List Nat) : Prop where
  len : ws.length = 0 ∨ n ≤ ws.length
  small : ∀ w ∈ ws, (w : Int) + 1 ≤ 2147483647

theorem WOk.weight_range {n : Nat} {ws : List Nat} (h : WOk n ws) (o : Nat) :
    1 ≤ weight ws o ∧ weight ws o ≤ 2147483647 := by
  unfold weight
  by_cases ho : o < ws.length
  · have := h.small _ (List.getElem_mem ho)
    rw [List.getD_eq_getElem?_getD, List.getElem?_eq_getElem ho, Option.getD_some]
    omega
  · rw [List.getD_eq_getElem?_getD, List.getElem?_eq_none (by omega), Option.getD_none]
    omega

theorem WOk.rd {n : Nat} {ws : List Nat} (h : WOk n ws) {o : Nat} (ho : o < n) (hz : ws.length ≠ 0) :
    Tsetlini.rd ws o = .ok (ws.getD o 0) := by
  have hl : o < ws.length := by have := h.len; omega
  rw [rd_ok hl, List.getD_eq_getElem?_getD, List.getElem?_eq_getElem hl, Option.getD_some]

theorem voteTerm_eq {n : Nat} {ws : List Nat} (h : WOk n ws) {o : Nat} (ho : o < n) (v : Bool) :
    voteTerm ws o v = .ok (vote ws o v) := by
  unfold voteTerm vote weight
  by_cases hz : ws.length = 0
  · rw [if_neg (by omega)]
    have : ws = [] := List.length_eq_zero_iff.1 hz
    subst this
    cases v <;> by_cases hp : o % 2 = 0 <;> simp [hp]
  · rw [if_pos hz, h.rd ho hz, ok_bind]
    cases v <;> by_cases hp : o % 2 = 0 <;> simp [hp]

/-- A running 64-bit sum of terms that are small. -/
theorem iter_sum {f : Nat → Res Int} {t : Nat → Int} (M : Int) (hM : 0 ≤ M) (l : List Nat)
    (acc : Int) (B : Int)
    (hf : ∀ o ∈ l, f o = .ok (t o)) (ht : ∀ o ∈ l, -M ≤ t o ∧ t o ≤ M)
    (hacc : -B ≤ acc ∧ acc ≤ B) (hB : B + M * l.length ≤ 9223372036854775807) :
    iter l (fun o acc => (f o).bind fun x => i64 (acc + x)) acc = .ok (acc + (l.map t).sum) := by
  induction l generalizing acc B with
  | nil => simp
  | cons o l ih =>
    have h1 := ht o (by simp)
    have e : M * ((o :: l).length : Int) = M * (l.length : Int) + M := by
      rw [List.length_cons]; push_cast; rw [Int.mul_add, Int.mul_one]
    have hnn : 0 ≤ M * (l.length : Int) := Int.mul_nonneg hM (by omega)
    rw [e] at hB
    rw [iter_cons, hf o (by simp), ok_bind, i64_ok (by omega) (by omega), ok_bind,
      ih (acc + t o) (B + M) (fun p hp => hf p (by simp [hp])) (fun p hp => ht p (by simp [hp]))
        (by omega) (by omega), List.map_cons, List.sum_cons, Int.add_assoc]

theorem vote_range {n : Nat} {ws : List Nat} (h : WOk n ws) (o : Nat) (v : Bool) :
    -2147483647 ≤ vote ws o v ∧ vote ws o v ≤ 2147483647 := by
  have := h.weight_range o
  unfold vote
  split
  · split <;> omega
  · omega

theorem sumVotes_eq {n a b : Nat} {ws : List Nat} {out : List Bool} {v : Nat → Bool} (h : WOk n ws)
    (hb : b ≤ n) (hn : n ≤ 2147483647) (hv : ∀ i, a ≤ i → i < b → out[i]? = some (v i)) :
    sumVotes out ws a b = .ok (((range a b).map fun o => vote ws o (v o)).sum) := by
  unfold sumVotes
  have hlen : (range a b).length ≤ 2147483647 := by simp only [range, List.length_range']; omega
  have := iter_sum (f := fun o => (rd out o).bind fun v => voteTerm ws o v)
    (t := fun o => vote ws o (v o)) 2147483647 (by omega) (range a b) 0 0
    (fun o ho => by
      rw [mem_range] at ho
      rw [rd_of_getElem? (hv o ho.1 ho.2), ok_bind, voteTerm_eq h (by omega)])
    (fun o _ => vote_range h o _) (by omega) (by omega)
  simp only [Res.bind_assoc] at this
  rw [this, Int.zero_add]

theorem range_eq (a k : Nat) : range a (a + k) = List.range' a k := by
  unfold range; rw [Nat.add_sub_cancel_left]

theorem sumUpLabelVotes_eq {n t k : Nat} {ws : List Nat} {out : List Bool} {v : Nat → Bool} {ls : List Int}
    {T : Int} (h : WOk n ws) (hk : t * k + k ≤ n) (hn : n ≤ 2147483647) (hT : 0 ≤ T)
    (hv : ∀ i, t * k ≤ i → i < t * k + k → out[i]? = some (v i)) (hl : t < ls.length) :
    sumUpLabelVotes out ws ls (t : Int) (k : Int) T = .ok (ls.set t (score v ws k T t)) := by
  unfold sumUpLabelVotes
  rw [labelRange_ok (by omega), ok_bind]
  dsimp only
  rw [sumVotes_eq h hk hn hv, ok_bind, Int.toNat_natCast, wr_ok hl, clamp_eq _ _ _ (by omega), range_eq]
  rfl

theorem sumUpAllLabelVotes_eq {n labels k : Nat} {ws : List Nat} {out : List Bool} {v : Nat → Bool}
    {ls : List Int} {T : Int} (h : WOk n ws) (hk : labels * k ≤ n) (hn : n ≤ 2147483647) (hT : 0 ≤ T)
    (hv : ∀ i, i < labels * k → out[i]? = some (v i)) (hl : ls.length = labels) :
    sumUpAllLabelVotes out ws ls (labels : Int) (k : Int) T =
      .ok ((List.range labels).map (score v ws k T)) := by
  unfold sumUpAllLabelVotes
  rw [Int.toNat_natCast]
  have key : (iter (range 0 labels) (fun l sums => sumUpLabelVotes out ws sums (l : Int) k T) ls).Ret
      fun ls' => ls'.length = labels ∧ ∀ i, i < labels → ls'[i]? = some (score v ws k T i) := by
    refine (iter_range_ret (P := fun m (l : List Int) => l.length = labels ∧
      ∀ i, i < m → l[i]? = some (score v ws k T i)) labels ls ⟨hl, by intro i hi; omega⟩ ?_)
    rintro m hm s ⟨h1, h2⟩
    have hb : m * k + k ≤ labels * k := by
      rw [← Nat.succ_mul]; exact Nat.mul_le_mul_right k hm
    rw [sumUpLabelVotes_eq (v := v) h (by omega) hn hT (fun i _ hi => hv i (by omega)) (by omega), ret_ok]
    refine ⟨by simpa using h1, fun i hi => ?_⟩
    by_cases him : i = m
    · subst him; rw [List.getElem?_set_self (by omega)]
    · rw [List.getElem?_set_ne (by omega)]; exact h2 i (by omega)
  obtain ⟨ls', h1, h2, h3⟩ := key
  rw [h1]
  congr 1
  apply List.ext_getElem?
  intro i
  by_cases hi : i < labels
  · rw [h3 i hi]; simp [hi]
  · rw [List.getElem?_eq_none (by omega), List.getElem?_eq_none (by simp; omega)]

theorem sumUpRegressorVotes_eq {n : Nat} {ws : List Nat} {out : List Bool} {v : Nat → Bool} {T : Int}
    (h : WOk n ws) (hlen : out.length = n) (hn : n ≤ 2147483647) (hT : 0 ≤ T)
    (hv : ∀ i, i < n → out[i]? = some (v i)) :
    sumUpRegressorVotes out ws T = .ok (response v ws n T) := by
  unfold sumUpRegressorVotes
  have hl2 : (range 0 out.length).length ≤ 2147483647 := by simp only [range, List.length_range']; omega
  have := iter_sum (f := fun o => (rd out o).bind fun v =>
      (if ws.length ≠ 0 then
        (rd ws o).bind fun w => .ok ((if v then 1 else 0) * (1 + (w : Int)))
       else .ok (if v then 1 else 0)))
    (t := fun o => if v o then weight ws o else 0) 2147483647 (by omega) (range 0 out.length) 0 0
    (fun o ho => by
      rw [mem_range] at ho
      rw [rd_of_getElem? (hv o (by omega)), ok_bind]
      by_cases hz : ws.length = 0
      · rw [if_neg (by omega)]
        have : ws = [] := List.length_eq_zero_iff.1 hz
        subst this
        unfold weight
        cases v o <;> simp
      · rw [if_pos hz, h.rd (by omega) hz, ok_bind]
        unfold weight
        cases v o <;> simp)
    (fun o _ => by
      have := h.weight_range o
      split <;> omega) (by omega) (by omega)
  simp only [Res.bind_assoc] at this
  rw [this, ok_bind, clamp_eq _ _ _ (by omega), Int.zero_add]
  unfold response range
  rw [hlen, List.range_eq_range', Nat.sub_zero]

theorem argmaxLoop_spec (l pre : List Int) (best : Nat) (bestV : Int)
    (h : FirstMax pre best) (hv : pre[best]? = some bestV) :
    FirstMax (pre ++ l) (argmaxLoop l pre.length best bestV) := by
  induction l generalizing pre best bestV with
  | nil => simpa [argmaxLoop] using h
  | cons v vs ih =>
    unfold argmaxLoop
    obtain ⟨m, hm1, hm2, hm3⟩ := h
    rw [hv] at hm1; cases hm1
    have hbl : best < pre.length := by
      apply Classical.byContradiction; intro hc
      rw [List.getElem?_eq_none (by omega)] at hv; cases hv
    have e : pre ++ v :: vs = (pre ++ [v]) ++ vs := by simp
    have el : pre.length + 1 = (pre ++ [v]).length := by simp
    rw [e, el]
    split
    · rename_i hlt
      apply ih
      · refine ⟨v, by simp, ?_, ?_⟩
        · intro w hw
          rw [List.mem_append, List.mem_singleton] at hw
          rcases hw with hw | rfl
          · have := hm2 w hw; omega
          · omega
        · intro j w hj hw
          rw [List.getElem?_append_left (by omega)] at hw
          have := hm2 w (List.mem_of_getElem? hw); omega
      · simp
    · rename_i hlt
      apply ih
      · refine ⟨bestV, by rw [List.getElem?_append_left hbl]; exact hv, ?_, ?_⟩
        · intro w hw
          rw [List.mem_append, List.mem_singleton] at hw
          rcases hw with hw | rfl
          · exact hm2 w hw
          · omega
        · intro j w hj hw
          rw [List.getElem?_append_left (by omega)] at hw
          exact hm3 j w hj hw
      · rw [List.getElem?_append_left hbl]; exact hv

theorem argmax_spec {l : List Int} (h : l ≠ []) : FirstMax l (argmax l) := by
  cases l with
  | nil => simp at h
  | cons v vs =>
    unfold argmax
    have := argmaxLoop_spec vs [v] 0 v ⟨v, rfl, by simp, by intro j w hj; omega⟩ rfl
    simpa using this

theorem FirstMax.unique {l : List Int} {i j : Nat} (hi : FirstMax l i) (hj : FirstMax l j) : i = j := by
  obtain ⟨m, a1, a2, a3⟩ := hi
  obtain ⟨m', b1, b2, b3⟩ := hj
  have h1 := a2 m' (List.mem_of_getElem? b1)
  have h2 := b2 m (List.mem_of_getElem? a1)
  rcases Nat.lt_trichotomy i j with h | h | h
  · have := b3 i m h a1; omega
  · exact h
  · have := a3 j m' h b1; omega

end Tsetlini
