import Verif.Spec.Express
import Verif.Spec.Votes
/- Counting the votes of a model given by a table. -/
namespace Tsetlini
open Spec

/-! ### Samples and their numbers -/

/-- The number of a sample. -/
def sampleNo : List Bool → Nat
  | [] => 0
  | b :: x => b.toNat + 2 * sampleNo x

theorem sampleNo_lt (x : List Bool) : sampleNo x < 2 ^ x.length := by
  induction x with
  | nil => simp [sampleNo]
  | cons b x ih =>
    rw [List.length_cons, Nat.pow_succ]
    cases b <;> simp only [sampleNo, Bool.toNat_true, Bool.toNat_false] <;> omega

theorem sampleOf_sampleNo (x : List Bool) : sampleOf x.length (sampleNo x) = x := by
  induction x with
  | nil => rfl
  | cons b x ih =>
    show decide ((b.toNat + 2 * sampleNo x) % 2 = 1) :: sampleOf x.length ((b.toNat + 2 * sampleNo x) / 2) = _
    cases b
    · rw [show ((false.toNat + 2 * sampleNo x) / 2) = sampleNo x by simp only [Bool.toNat_false]; omega, ih]
      congr 1
      simp only [Bool.toNat_false]
      exact decide_eq_false (by omega)
    · rw [show ((true.toNat + 2 * sampleNo x) / 2) = sampleNo x by simp only [Bool.toNat_true]; omega, ih]
      congr 1
      simp only [Bool.toNat_true]
      exact decide_eq_true (by omega)

theorem sampleOf_length (n i : Nat) : (sampleOf n i).length = n := by
  induction n generalizing i with
  | zero => rfl
  | succ n ih => show (sampleOf n (i / 2)).length + 1 = _; rw [ih]

theorem sampleNo_sampleOf (n i : Nat) (h : i < 2 ^ n) : sampleNo (sampleOf n i) = i := by
  induction n generalizing i with
  | zero => simp only [Nat.pow_zero] at h; show 0 = i; omega
  | succ n ih =>
    rw [Nat.pow_succ] at h
    show (decide (i % 2 = 1)).toNat + 2 * sampleNo (sampleOf n (i / 2)) = i
    rw [ih _ (by omega)]
    by_cases e : i % 2 = 1
    · rw [decide_eq_true e, Bool.toNat_true]; omega
    · rw [decide_eq_false e, Bool.toNat_false]; omega

/-- The sample numbered `i` is `x` if and only if `i` is the number of `x`. -/
theorem sampleOf_eq {n i : Nat} (h : i < 2 ^ n) {x : List Bool} (hx : x.length = n) : sampleOf n i = x ↔ i = sampleNo x := by
  constructor
  · intro e; rw [← e, sampleNo_sampleOf n i h]
  · intro e; subst hx; rw [e, sampleOf_sampleNo]

/-! ### The clauses -/

theorem includes_map {y : List Bool} {g : Bool → Int} {f : Nat} : Includes (y.map g) f ↔ ∃ b, y[f]? = some b ∧ 0 ≤ g b := by
  unfold Includes
  simp only [List.getElem?_map]
  constructor
  · rintro ⟨c, h, h0⟩
    match hy : y[f]? with
    | none => rw [hy] at h; cases h
    | some b => rw [hy] at h; cases h; exact ⟨b, rfl, h0⟩
  · rintro ⟨b, h, h0⟩
    exact ⟨g b, by rw [h]; rfl, h0⟩

theorem exactly_holds {y x : List Bool} (h : x.length = y.length) : (exactly y).Holds x ↔ x = y := by
  have hl : ∀ f < x.length, ∃ b, y[f]? = some b := fun f hf => ⟨y[f], List.getElem?_eq_getElem (by omega)⟩
  unfold Clause.Holds exactly
  simp only [includes_map]
  constructor
  · intro hh
    apply List.ext_getElem h
    intro f h1 h2
    obtain ⟨b1, b2⟩ := hh f h1
    have e : y[f]? = some y[f] := List.getElem?_eq_getElem h2
    have ev : val x f = x[f] := by unfold val; rw [List.getD_eq_getElem?_getD, List.getElem?_eq_getElem h1]; rfl
    rw [ev] at b1 b2
    cases hy : y[f] with
    | true => exact b1 ⟨true, by rw [e, hy], by decide⟩
    | false => exact b2 ⟨false, by rw [e, hy], by decide⟩
  · rintro rfl f hf
    have e : x[f]? = some x[f] := List.getElem?_eq_getElem hf
    have ev : val x f = x[f] := by unfold val; rw [List.getD_eq_getElem?_getD, e]; rfl
    rw [ev]
    constructor
    · rintro ⟨b, h1, h2⟩
      rw [e] at h1
      cases h1
      cases hb : x[f] with
      | true => rfl
      | false => rw [hb] at h2; exact absurd h2 (by decide)
    · rintro ⟨b, h1, h2⟩
      rw [e] at h1
      cases h1
      cases hb : x[f] with
      | false => rfl
      | true => rw [hb] at h2; exact absurd h2 (by decide)

theorem exactly_nonEmpty {y : List Bool} {n : Nat} (h : y.length = n) (hn : 1 ≤ n) : (exactly y).NonEmpty n := by
  refine ⟨0, hn, ?_⟩
  unfold exactly
  simp only [includes_map]
  have e : y[0]? = some y[0] := List.getElem?_eq_getElem (by omega)
  cases hb : y[0] with
  | true => exact .inl ⟨true, by rw [e, hb], by decide⟩
  | false => exact .inr ⟨false, by rw [e, hb], by decide⟩

theorem never_holds {n : Nat} (hn : 1 ≤ n) {x : List Bool} (h : x.length = n) : ¬ (never n).Holds x := by
  intro hh
  obtain ⟨h1, h2⟩ := hh 0 (by omega)
  have i : Includes (List.replicate n (0 : Int)) 0 := ⟨0, by rw [List.getElem?_replicate, if_pos (by omega)], by decide⟩
  have := h1 i
  rw [h2 i] at this
  cases this

theorem never_nonEmpty {n : Nat} (hn : 1 ≤ n) : (never n).NonEmpty n :=
  ⟨0, hn, .inl ⟨0, by show (List.replicate n (0 : Int))[0]? = _; rw [List.getElem?_replicate, if_pos (by omega)], by decide⟩⟩

/-- Of both kinds of output. -/
theorem cell_outs {n : Nat} (hn : 1 ≤ n) {y x : List Bool} (hy : y.length = n) (hx : x.length = n) (P : Prop) [Decidable P] :
    (if P then exactly y else never n).out x = decide (P ∧ x = y) ∧ (if P then exactly y else never n).outPruned x = decide (P ∧ x = y) := by
  unfold Clause.out Clause.outPruned
  split
  · rename_i h
    have e := exactly_holds (hx.trans hy.symm)
    have ne := exactly_nonEmpty hy hn
    rw [hx]
    constructor
    · exact decide_eq_decide.2 ⟨fun h' => ⟨h, e.1 h'⟩, fun h' => e.2 h'.2⟩
    · exact decide_eq_decide.2 ⟨fun h' => ⟨h, e.1 h'.1⟩, fun h' => ⟨e.2 h'.2, ne⟩⟩
  · rename_i h
    have e := never_holds hn hx
    constructor
    · exact decide_eq_decide.2 ⟨fun h' => absurd h' e, fun h' => absurd h'.1 h⟩
    · exact decide_eq_decide.2 ⟨fun h' => absurd h'.1 e, fun h' => absurd h'.1 h⟩

theorem table_outs {n k labels : Nat} (hn : 1 ≤ n) {f : List Bool → Nat} {x : List Bool} (hx : x.length = n) {o : Nat} (ho : o < labels * k) :
    outAt (tableOf n k labels f) x o = decide ((o % 2 = 0 ↔ f x = o / k) ∧ o / 2 % 2 ^ n = sampleNo x) ∧
    outPrunedAt (tableOf n k labels f) x o = decide ((o % 2 = 0 ↔ f x = o / k) ∧ o / 2 % 2 ^ n = sampleNo x) := by
  have hp : o / 2 % 2 ^ n < 2 ^ n := Nat.mod_lt _ (Nat.two_pow_pos n)
  have e : (tableOf n k labels f)[o]? =
      some (if (o % 2 = 0) ↔ (f (sampleOf n (o / 2 % 2 ^ n)) = o / k) then exactly (sampleOf n (o / 2 % 2 ^ n)) else never n) := by
    unfold tableOf
    rw [List.getElem?_map, List.getElem?_range ho]
    rfl
  have key : ((o % 2 = 0 ↔ f (sampleOf n (o / 2 % 2 ^ n)) = o / k) ∧ x = sampleOf n (o / 2 % 2 ^ n)) ↔
      ((o % 2 = 0 ↔ f x = o / k) ∧ o / 2 % 2 ^ n = sampleNo x) := by
    rw [← sampleOf_eq hp hx]
    constructor
    · rintro ⟨h1, h2⟩; rw [← h2] at h1 ⊢; exact ⟨h1, rfl⟩
    · rintro ⟨h1, h2⟩; rw [h2]; exact ⟨h1, rfl⟩
  obtain ⟨h1, h2⟩ := cell_outs hn (sampleOf_length n (o / 2 % 2 ^ n)) hx ((o % 2 = 0) ↔ (f (sampleOf n (o / 2 % 2 ^ n)) = o / k))
  unfold outAt outPrunedAt
  rw [e]
  dsimp only
  rw [h1, h2]
  exact ⟨decide_eq_decide.2 key, decide_eq_decide.2 key⟩

theorem responses_outs {n k : Nat} (hn : 1 ≤ n) {f : List Bool → Nat} {x : List Bool} (hx : x.length = n) {o : Nat} (ho : o < k) :
    outAt (responsesOf n k f) x o = decide (o / 2 ^ n < f x ∧ o % 2 ^ n = sampleNo x) ∧
    outPrunedAt (responsesOf n k f) x o = decide (o / 2 ^ n < f x ∧ o % 2 ^ n = sampleNo x) := by
  have hp : o % 2 ^ n < 2 ^ n := Nat.mod_lt _ (Nat.two_pow_pos n)
  have e : (responsesOf n k f)[o]? =
      some (if o / 2 ^ n < f (sampleOf n (o % 2 ^ n)) then exactly (sampleOf n (o % 2 ^ n)) else never n) := by
    unfold responsesOf
    rw [List.getElem?_map, List.getElem?_range ho]
    rfl
  have key : (o / 2 ^ n < f (sampleOf n (o % 2 ^ n)) ∧ x = sampleOf n (o % 2 ^ n)) ↔ (o / 2 ^ n < f x ∧ o % 2 ^ n = sampleNo x) := by
    rw [← sampleOf_eq hp hx]
    constructor
    · rintro ⟨h1, h2⟩; rw [← h2] at h1 ⊢; exact ⟨h1, rfl⟩
    · rintro ⟨h1, h2⟩; rw [h2]; exact ⟨h1, rfl⟩
  obtain ⟨h1, h2⟩ := cell_outs hn (sampleOf_length n (o % 2 ^ n)) hx (o / 2 ^ n < f (sampleOf n (o % 2 ^ n)))
  unfold outAt outPrunedAt
  rw [e]
  dsimp only
  rw [h1, h2]
  exact ⟨decide_eq_decide.2 key, decide_eq_decide.2 key⟩

/-! ### Counting -/

theorem countP_block (Q r : Nat) (hr : r < Q) (s : Nat) : (List.range' s Q).countP (fun o => decide (o % Q = r)) = 1 := by
  induction s with
  | zero =>
    rw [← List.range_eq_range']
    have e : (List.range Q).countP (fun o => decide (o % Q = r)) = (List.range Q).countP (fun o => o == r) := by
      apply List.countP_congr
      intro o ho
      rw [Nat.mod_eq_of_lt (List.mem_range.1 ho)]
      simp
    rw [e]
    show (List.range Q).count r = 1
    rw [List.nodup_range.count, if_pos (List.mem_range.2 hr)]
  | succ s ih =>
    have e1 : List.range' s (Q + 1) = s :: List.range' (s + 1) Q := List.range'_succ ..
    have e2 : List.range' s (Q + 1) = List.range' s Q ++ [s + Q] := List.range'_1_concat ..
    rw [e1] at e2
    have e3 := congrArg (List.countP (fun o => decide (o % Q = r))) e2
    rw [List.countP_append, List.countP_cons, List.countP_singleton, Nat.add_mod_right, ih] at e3
    omega

theorem countP_blocks (Q r : Nat) (hr : r < Q) (T s : Nat) : (List.range' s (T * Q)).countP (fun o => decide (o % Q = r)) = T := by
  induction T generalizing s with
  | zero => simp
  | succ T ih =>
    rw [Nat.succ_mul, Nat.add_comm (T * Q) Q, ← List.range'_append_1, List.countP_append, countP_block Q r hr, ih]
    omega

theorem countP_ge {Q r : Nat} (hr : r < Q) {T s k : Nat} (h : T * Q ≤ k) : T ≤ (List.range' s k).countP (fun o => decide (o % Q = r)) := by
  obtain ⟨d, rfl⟩ := Nat.exists_eq_add_of_le h
  rw [← List.range'_append_1, List.countP_append, countP_blocks Q r hr]
  omega

theorem sum_ite_countP (l : List Nat) (p : Nat → Prop) [DecidablePred p] (c : Int) :
    (l.map fun o => if p o then c else 0).sum = c * (l.countP fun o => decide (p o) : Nat) := by
  induction l with
  | nil => simp
  | cons o l ih =>
    rw [List.map_cons, List.sum_cons, ih, List.countP_cons]
    by_cases h : p o
    · rw [if_pos h, if_pos (decide_eq_true h), Int.natCast_add, Int.mul_add]; omega
    · rw [if_neg h, if_neg (by simp [h])]; simp

/-! ### Votes -/

theorem weight_zero {ws : List Nat} (h : ∀ w ∈ ws, w = 0) (o : Nat) : weight ws o = 1 := by
  unfold weight
  rw [List.getD_eq_getElem?_getD]
  match hw : ws[o]? with
  | none => rfl
  | some w => rw [h w (List.mem_of_getElem? hw)]; rfl

/-- The score of a label in a model given by a table: the highest for the one label, the lowest for the others. -/
theorem table_score {n k labels T : Nat} (hk : T * (2 * 2 ^ n) ≤ k) {f : List Bool → Nat} {ws : List Nat} (hw : ∀ w ∈ ws, w = 0)
    {x : List Bool} (hx : x.length = n) {l : Nat} (hl : l < labels) {out : Nat → Bool}
    (ho : ∀ o < labels * k, out o = decide ((o % 2 = 0 ↔ f x = o / k) ∧ o / 2 % 2 ^ n = sampleNo x)) :
    score out ws k T l = if l = f x then (T : Int) else -T := by
  have hin : ∀ o ∈ List.range' (l * k) k, o < labels * k ∧ o / k = l := by
    intro o h
    rw [List.mem_range'_1] at h
    have h1 : (l + 1) * k ≤ labels * k := Nat.mul_le_mul_right k hl
    rw [Nat.succ_mul] at h1
    refine ⟨by omega, Nat.div_eq_of_lt_le h.1 ?_⟩
    rw [Nat.succ_mul]
    exact h.2
  have hno : sampleNo x < 2 ^ n := by rw [← hx]; exact sampleNo_lt x
  have hmod : ∀ o : Nat, o % (2 * 2 ^ n) = o % 2 + 2 * (o / 2 % 2 ^ n) := fun o => Nat.mod_mul
  unfold score
  by_cases e : l = f x
  · rw [if_pos e]
    have h1 : ((List.range' (l * k) k).map fun o => vote ws o (out o)) =
        (List.range' (l * k) k).map fun o => if o % (2 * 2 ^ n) = 2 * sampleNo x then (1 : Int) else 0 := by
      apply List.map_congr_left
      intro o h
      obtain ⟨h2, h3⟩ := hin o h
      have := hmod o
      unfold vote
      rw [ho o h2, h3, weight_zero hw]
      by_cases e2 : o % 2 = 0
      · by_cases e3 : o / 2 % 2 ^ n = sampleNo x
        · rw [if_pos (by simp [e, e2, e3]), if_pos e2, if_pos (by omega)]
        · rw [if_neg (by simp [e3]), if_neg (by omega)]
      · rw [if_neg (by simp [e, e2]), if_neg (by omega)]
    rw [h1, sum_ite_countP]
    have := countP_ge (Q := 2 * 2 ^ n) (r := 2 * sampleNo x) (by omega) (s := l * k) hk
    unfold clampTo
    omega
  · rw [if_neg e]
    have h1 : ((List.range' (l * k) k).map fun o => vote ws o (out o)) =
        (List.range' (l * k) k).map fun o => if o % (2 * 2 ^ n) = 2 * sampleNo x + 1 then (-1 : Int) else 0 := by
      apply List.map_congr_left
      intro o h
      obtain ⟨h2, h3⟩ := hin o h
      have := hmod o
      unfold vote
      rw [ho o h2, h3, weight_zero hw]
      have e' : ¬ f x = l := fun h => e h.symm
      by_cases e2 : o % 2 = 0
      · rw [if_neg (by simp [e', e2]), if_neg (by omega)]
      · by_cases e3 : o / 2 % 2 ^ n = sampleNo x
        · rw [if_pos (by simp [e', e2, e3]), if_neg e2, if_pos (by omega)]
        · rw [if_neg (by simp [e3]), if_neg (by omega)]
    rw [h1, sum_ite_countP]
    have := countP_ge (Q := 2 * 2 ^ n) (r := 2 * sampleNo x + 1) (by omega) (s := l * k) hk
    unfold clampTo
    omega

/-- The response of a regressor given by a table. -/
theorem responses_response {n k T : Nat} (hk : T * 2 ^ n ≤ k) {f : List Bool → Nat} {ws : List Nat} (hw : ∀ w ∈ ws, w = 0)
    {x : List Bool} (hx : x.length = n) (hf : f x ≤ T) {out : Nat → Bool}
    (ho : ∀ o < k, out o = decide (o / 2 ^ n < f x ∧ o % 2 ^ n = sampleNo x)) : response out ws k T = f x := by
  have hno : sampleNo x < 2 ^ n := by rw [← hx]; exact sampleNo_lt x
  have h1 : ((List.range k).map fun o => if out o then weight ws o else 0) =
      (List.range k).map fun o => if o / 2 ^ n < f x ∧ o % 2 ^ n = sampleNo x then (1 : Int) else 0 := by
    apply List.map_congr_left
    intro o h
    rw [ho o (List.mem_range.1 h), weight_zero hw]
    simp only [decide_eq_true_eq]
  have hk' : f x * 2 ^ n ≤ k := Nat.le_trans (Nat.mul_le_mul_right _ hf) hk
  have h2 : (List.range k).countP (fun o => decide (o / 2 ^ n < f x ∧ o % 2 ^ n = sampleNo x)) = f x := by
    obtain ⟨d, rfl⟩ := Nat.exists_eq_add_of_le hk'
    rw [List.range_eq_range', ← List.range'_append_1, List.countP_append, Nat.zero_add]
    have e1 : (List.range' 0 (f x * 2 ^ n)).countP (fun o => decide (o / 2 ^ n < f x ∧ o % 2 ^ n = sampleNo x)) =
        (List.range' 0 (f x * 2 ^ n)).countP (fun o => decide (o % 2 ^ n = sampleNo x)) := by
      apply List.countP_congr
      intro o h
      rw [List.mem_range'_1] at h
      have : o / 2 ^ n < f x := Nat.div_lt_of_lt_mul (by rw [Nat.mul_comm]; omega)
      simp [this]
    have e2 : (List.range' (f x * 2 ^ n) d).countP (fun o => decide (o / 2 ^ n < f x ∧ o % 2 ^ n = sampleNo x)) = 0 := by
      rw [List.countP_eq_zero]
      intro o h
      rw [List.mem_range'_1] at h
      have : f x ≤ o / 2 ^ n := (Nat.le_div_iff_mul_le (Nat.two_pow_pos n)).2 h.1
      simp only [decide_eq_true_eq]
      omega
    rw [e1, e2, countP_blocks _ _ hno]
    rfl
  unfold response
  rw [h1, sum_ite_countP, h2]
  unfold clampTo
  omega

end Tsetlini
