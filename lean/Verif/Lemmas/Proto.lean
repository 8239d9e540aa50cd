import Verif.Lemmas.Program
/- Calls in flight on one estimator: what a call does whatever the others store meanwhile, as long as all
store only values that obey given rules. -/
namespace Tsetlini
open Res Spec

variable {α β σ ι : Type}

/-- The sizes of the two tables and the values that may be stored in them. -/
structure Rules where
  no : Nat
  ns : Nat
  So : Nat → Bool → Prop
  Ss : Nat → Int → Prop

/-- What is known to hold proper values. -/
abbrev Known := ScratchLoc → Prop

/-- Code that stays within the tables, stores only proper values, and after `n` actions returns something that
satisfies `P`; it reads only locations known to hold proper values, and may find any proper value there. -/
inductive Proto (R : Rules) (P : Known → α → Prop) : Known → Nat → CallCode α → Prop
  | ret {D a} : P D a → Proto R P D 0 (.ret a)
  | loadOut {D n o k} : o < R.no → D (.out o) → (∀ v, R.So o v → Proto R P D n (k v)) → Proto R P D (n + 1) (.loadOut o k)
  | storeOut {D n o v k} : o < R.no → R.So o v → Proto R P (fun l => l = .out o ∨ D l) n k → Proto R P D (n + 1) (.storeOut o v k)
  | loadSum {D n l k} : l < R.ns → D (.sum l) → (∀ v, R.Ss l v → Proto R P D n (k v)) → Proto R P D (n + 1) (.loadSum l k)
  | storeSum {D n l v k} : l < R.ns → R.Ss l v → Proto R P (fun m => m = .sum l ∨ D m) n k → Proto R P D (n + 1) (.storeSum l v k)

section
variable {R : Rules} {P : Known → α → Prop} {Q : Known → β → Prop} {D : Known}

theorem Proto.bind {n p : Nat} {code : CallCode α} {f : α → CallCode β} (h : Proto R P D n code)
    (hf : ∀ D' a, P D' a → Proto R Q D' p (f a)) : Proto R Q D (n + p) (code.bind f) := by
  induction h with
  | ret h => rw [Nat.zero_add]; exact hf _ _ h
  | loadOut e d _ ih => rw [Nat.add_right_comm]; exact .loadOut e d fun v hv => ih v hv
  | storeOut e hs _ ih => rw [Nat.add_right_comm]; exact .storeOut e hs ih
  | loadSum e d _ ih => rw [Nat.add_right_comm]; exact .loadSum e d fun v hv => ih v hv
  | storeSum e hs _ ih => rw [Nat.add_right_comm]; exact .storeSum e hs ih

theorem Proto.mono {P' : Known → α → Prop} {n : Nat} {code : CallCode α} (h : Proto R P D n code) (hp : ∀ D' a, P D' a → P' D' a) :
    Proto R P' D n code := by
  induction h with
  | ret h => exact .ret (hp _ _ h)
  | loadOut e d _ ih => exact .loadOut e d ih
  | storeOut e hs _ ih => exact .storeOut e hs ih
  | loadSum e d _ ih => exact .loadSum e d ih
  | storeSum e hs _ ih => exact .storeSum e hs ih

theorem Proto.ofRes {r : Res α} {a : α} (h : r = .ok a) : Proto R (fun D' b => D' = D ∧ b = a) D 0 (CallCode.ofRes r) := by
  subst h; exact .ret ⟨rfl, rfl⟩

/-- Private computation first. -/
theorem Proto.after {r : Res α} {a : α} (h : r = .ok a) {f : α → CallCode β} {p : Nat} (hf : Proto R Q D p (f a)) :
    Proto R Q D p ((CallCode.ofRes r).bind f) := by
  subst h; exact hf

theorem proto_iter {f : Nat → σ → CallCode σ} {J : Nat → Known → σ → Prop} {d a : Nat} (n : Nat)
    (h : ∀ i, a ≤ i → i < a + n → ∀ D s, J i D s → Proto R (J (i + 1)) D d (f i s)) {s : σ} (h0 : J a D s) :
    Proto R (J (a + n)) D (n * d) (CallCode.iter (range a (a + n)) f s) := by
  rw [range_eq]
  induction n generalizing a D s with
  | zero => rw [Nat.zero_mul]; exact .ret h0
  | succ n ih =>
    rw [List.range'_succ, Nat.succ_mul, Nat.add_comm (n * d) d]
    refine Proto.bind (h a (Nat.le_refl _) (by omega) D s h0) fun D' s' h1 => ?_
    have := ih (a := a + 1) (fun i h2 h3 => h i (by omega) (by omega)) h1
    rw [show a + 1 + n = a + (n + 1) by omega] at this
    exact this

theorem proto_each {f : ι → σ → CallCode σ} {J : Known → σ → Prop} {d : Nat} (l : List ι)
    (h : ∀ i ∈ l, ∀ D s, J D s → Proto R J D d (f i s)) {s : σ} (h0 : J D s) :
    Proto R J D (l.length * d) (CallCode.iter l f s) := by
  induction l generalizing D s with
  | nil => rw [List.length_nil, Nat.zero_mul]; exact .ret h0
  | cons i l ih =>
    rw [List.length_cons, Nat.succ_mul, Nat.add_comm (l.length * d) d]
    exact Proto.bind (h i (by simp) D s h0) fun D' s' h1 => ih (fun j hj => h j (by simp [hj])) h1

/-! ### The pieces -/

def outsKnown (n : Nat) (D : Known) : Prop := ∀ o, o < n → D (.out o)
def sumsKnown (n : Nat) (D : Known) : Prop := ∀ l, l < n → D (.sum l)

theorem proto_outputsList {clause : Nat → Res Bool} (l : List Nat) (hv : ∀ o ∈ l, o < R.no ∧ ∃ v, clause o = .ok v ∧ R.So o v) :
    Proto R (fun D' _ => (∀ o ∈ l, D' (.out o)) ∧ ∀ x, D x → D' x) D l.length
      (CallCode.iter l (fun o (_ : Unit) => (CallCode.ofRes (clause o)).bind fun v => CallCode.storeOut o v (.ret ())) ()) := by
  induction l generalizing D with
  | nil => exact .ret ⟨by simp, fun _ h => h⟩
  | cons o l ih =>
    obtain ⟨ho, v, e, hs⟩ := hv o List.mem_cons_self
    rw [List.length_cons, Nat.add_comm l.length 1]
    refine Proto.bind (P := fun D' _ => D' (.out o) ∧ ∀ x, D x → D' x) (Proto.after e (.storeOut ho hs (.ret ⟨.inl rfl, fun x hx => .inr hx⟩))) fun D' _ ⟨h1, h2⟩ => ?_
    refine (ih (D := D') fun o' ho' => hv o' (List.mem_cons_of_mem _ ho')).mono fun D'' _ ⟨h3, h4⟩ => ⟨fun o' ho' => ?_, fun x hx => h4 x (h2 x hx)⟩
    rcases List.mem_cons.1 ho' with rfl | ho'
    · exact h4 _ h1
    · exact h3 o' ho'

theorem proto_outputs {sc : Sched} {tick : Nat} {clause : Nat → Res Bool} {n : Nat} (hv : ∀ o, o < n → ∃ v, clause o = .ok v ∧ R.So o v) (hn : n ≤ R.no) :
    Proto R (fun D' _ => outsKnown n D' ∧ ∀ l, D l → D' l) D n (outputsCode sc tick clause n) := by
  have hp := sc.order_law tick 0 n
  have hm : ∀ o, o ∈ sc.order tick 0 n ↔ o < n := fun o => by rw [hp.mem_iff, mem_range]; omega
  have hl : (sc.order tick 0 n).length = n := by rw [hp.length_eq]; simp [range]
  have := proto_outputsList (R := R) (D := D) (clause := clause) (sc.order tick 0 n) fun o ho => ⟨by have := (hm o).1 ho; omega, hv o ((hm o).1 ho)⟩
  rw [hl] at this
  exact this.mono fun D' _ ⟨h1, h2⟩ => ⟨fun o ho => h1 o ((hm o).2 ho), h2⟩

theorem sum_bound (ws : List Nat) {m : Nat} (h : WOk m ws) (v : Nat → Bool) (l : List Nat) :
    -(2147483647 * (l.length : Int)) ≤ (l.map fun o => vote ws o (v o)).sum ∧
      (l.map fun o => vote ws o (v o)).sum ≤ 2147483647 * (l.length : Int) := by
  induction l with
  | nil => simp
  | cons o l ih =>
    have := vote_range h o (v o)
    simp only [List.map_cons, List.sum_cons, List.length_cons]
    omega

theorem range_snoc {a i : Nat} (h : a ≤ i) : range a (i + 1) = range a i ++ [i] := by
  unfold range
  rw [show i + 1 - a = (i - a) + 1 by omega, List.range'_concat]
  congr 2; omega

theorem proto_sumVotes {ws : List Nat} {m a n : Nat} (hw : WOk m ws) (hb : a + n ≤ m) (hm : m ≤ 1073741823) (hno : a + n ≤ R.no)
    (hD : outsKnown (a + n) D) :
    Proto R (fun D' s => D' = D ∧ ∃ v : Nat → Bool, (∀ o, a ≤ o → o < a + n → R.So o (v o)) ∧
      s = ((range a (a + n)).map fun o => vote ws o (v o)).sum) D n (sumVotesCode ws a (a + n)) := by
  have := proto_iter (R := R) (D := D) (f := fun o (acc : Int) => CallCode.loadOut o fun v =>
      CallCode.ofRes ((voteTerm ws o v).bind fun t => i64 (acc + t)))
    (J := fun i D' s => D' = D ∧ ∃ v : Nat → Bool, (∀ o, a ≤ o → o < i → R.So o (v o)) ∧
      s = ((range a i).map fun o => vote ws o (v o)).sum) (d := 1) (a := a) n (by
      rintro i h1 h2 D' s ⟨rfl, v, h3, rfl⟩
      refine .loadOut (by omega) (hD _ h2) fun x hx => ?_
      have hb := sum_bound ws hw v (range a i)
      have hl : (range a i).length ≤ 1073741823 := by simp only [range, List.length_range']; omega
      have hvr := vote_range hw i x
      have e : ((voteTerm ws i x).bind fun t => i64 (((range a i).map fun o => vote ws o (v o)).sum + t)) =
          .ok (((range a i).map fun o => vote ws o (v o)).sum + vote ws i x) := by
        rw [voteTerm_eq hw (by omega), ok_bind, i64_ok (by omega) (by omega)]
      rw [e]
      refine .ret ⟨rfl, fun o => if o = i then x else v o, ?_, ?_⟩
      · intro o h4 h5
        dsimp only
        split
        · rename_i h6; subst h6; exact hx
        · exact h3 o h4 (by omega)
      · rw [range_snoc h1, List.map_append, List.sum_append, List.map_singleton, List.sum_singleton]
        dsimp only
        rw [if_pos rfl]
        congr 2
        refine List.map_congr_left fun o ho => ?_
        rw [mem_range] at ho
        rw [if_neg (by omega)]) (s := 0) ⟨rfl, fun _ => false, fun o h1 h2 => by omega, by simp [range]⟩
  rw [Nat.mul_one] at this
  exact this

theorem proto_labelVotes {ws : List Nat} {m t k : Nat} {T : Int} (hw : WOk m ws) (hb : t * k + k ≤ m) (hm : m ≤ 1073741823)
    (hT : 0 ≤ T) (hno : m ≤ R.no) (hns : t < R.ns) (hD : outsKnown m D)
    (hS : ∀ v : Nat → Bool, (∀ o, t * k ≤ o → o < t * k + k → R.So o (v o)) → R.Ss t (score v ws k T t)) :
    Proto R (fun D' _ => D' (.sum t) ∧ ∀ l, D l → D' l) D (k + 1) (labelVotesCode ws (t : Int) (k : Int) T) := by
  unfold labelVotesCode
  refine Proto.after (labelRange_ok (by omega)) (Proto.bind (proto_sumVotes hw hb hm (by omega) (fun o ho => hD o (by omega))) ?_)
  rintro D' s ⟨rfl, v, h1, rfl⟩
  have : clamp ((range (t * k) (t * k + k)).map fun o => vote ws o (v o)).sum (-T) T = score v ws k T t := by
    rw [clamp_eq _ _ _ (by omega), range_eq]; rfl
  rw [this, Int.toNat_natCast]
  exact .storeSum hns (hS v h1) (.ret ⟨.inl rfl, fun l hl => .inr hl⟩)

theorem proto_allVotes {ws : List Nat} {labels k : Nat} {T : Int} (hw : WOk (labels * k) ws) (hm : labels * k ≤ 1073741823)
    (hT : 0 ≤ T) (hno : labels * k ≤ R.no) (hns : labels ≤ R.ns) (hD : outsKnown (labels * k) D)
    (hS : ∀ t, t < labels → ∀ v : Nat → Bool, (∀ o, t * k ≤ o → o < t * k + k → R.So o (v o)) → R.Ss t (score v ws k T t)) :
    Proto R (fun D' _ => sumsKnown labels D' ∧ ∀ l, D l → D' l) D (labels * (k + 1)) (allVotesCode ws (labels : Int) (k : Int) T) := by
  have := proto_iter (R := R) (D := D) (f := fun (l : Nat) (_ : Unit) => labelVotesCode ws (l : Int) (k : Int) T)
    (J := fun i D' _ => sumsKnown i D' ∧ ∀ l, D l → D' l) (d := k + 1) (a := 0) labels (by
      rintro t - ht D' s ⟨h1, h2⟩
      have hb : t * k + k ≤ labels * k := by rw [← Nat.succ_mul]; exact Nat.mul_le_mul_right k (by omega)
      refine (proto_labelVotes (D := D') hw hb hm hT hno (by omega) (fun o ho => h2 _ (hD o ho)) (hS t (by omega))).mono ?_
      rintro D'' - ⟨h3, h4⟩
      refine ⟨fun l hl => ?_, fun l hl => h4 l (h2 l hl)⟩
      by_cases h : l = t
      · subst h; exact h3
      · exact h4 _ (h1 l (by omega))) (s := ()) ⟨fun o ho => by omega, fun l hl => hl⟩
  rw [Nat.zero_add] at this
  unfold allVotesCode
  rw [Int.toNat_natCast]
  exact this

theorem proto_argmax (hns : 0 < R.ns) (hD : sumsKnown R.ns D) : Proto R (fun D' m => D' = D ∧ m < R.ns) D ((R.ns - 1) * 2) (argmaxCode R.ns) := by
  have := proto_iter (R := R) (D := D) (f := fun i best => CallCode.loadSum best fun u => CallCode.loadSum i fun v =>
      CallCode.ret (if u < v then i else best))
    (J := fun _ D' best => D' = D ∧ best < R.ns) (d := 2) (a := 1) (R.ns - 1) (by
      rintro i h1 h2 D' best ⟨rfl, h⟩
      refine .loadSum h (hD _ h) fun u _ => .loadSum (by omega) (hD _ (by omega)) fun v _ => .ret ⟨rfl, ?_⟩
      split <;> omega) (s := 0) ⟨rfl, hns⟩
  unfold argmaxCode
  rw [show 1 + (R.ns - 1) = R.ns by omega] at this
  exact this

theorem proto_copy {n : Nat} (hn : n = R.ns) (hD : sumsKnown R.ns D) :
    Proto R (fun D' l => D' = D ∧ l.length = R.ns ∧ ∀ (i : Nat) (v : Int), l[i]? = some v → R.Ss i v) D R.ns (copyCode n) := by
  subst hn
  have := proto_iter (R := R) (D := D) (f := fun i l => CallCode.loadSum i fun v => CallCode.ret (l ++ [v]))
    (J := fun i D' l => D' = D ∧ l.length = i ∧ ∀ (i : Nat) (v : Int), l[i]? = some v → R.Ss i v) (d := 1) (a := 0) R.ns (by
      rintro i - h2 D' l ⟨rfl, h3, h4⟩
      refine .loadSum (by omega) (hD _ (by omega)) fun v hv => .ret ⟨rfl, by simp [h3], ?_⟩
      intro j w hj
      rw [List.getElem?_append] at hj
      split at hj
      · exact h4 j w hj
      · by_cases hji : j = i
        · subst hji
          rw [h3, Nat.sub_self] at hj
          simp at hj
          subst hj
          exact hv
        · rw [List.getElem?_eq_none (by simp; omega)] at hj
          cases hj) (s := []) ⟨rfl, rfl, by simp⟩
  rw [Nat.zero_add, Nat.mul_one] at this
  exact this

theorem proto_regressorVotes {ws : List Nat} {n : Nat} {T : Int} (hw : WOk n ws) (hm : n ≤ 1073741823) (hT : 0 ≤ T) (hno : n ≤ R.no)
    (hD : outsKnown n D) :
    Proto R (fun D' r => D' = D ∧ ∃ v : Nat → Bool, (∀ o, o < n → R.So o (v o)) ∧ r = response v ws n T) D n (regressorVotesCode ws n T) := by
  have := proto_iter (R := R) (D := D) (f := fun o (acc : Int) => CallCode.loadOut o fun v => CallCode.ofRes (
      (if ws.length ≠ 0 then
        (rd ws o).bind fun w => .ok ((if v then 1 else 0) * (1 + (w : Int)))
       else .ok (if v then 1 else 0)).bind fun t => i64 (acc + t)))
    (J := fun i D' s => D' = D ∧ ∃ v : Nat → Bool, (∀ o, o < i → R.So o (v o)) ∧
      s = ((range 0 i).map fun o => if v o then weight ws o else 0).sum ∧ 0 ≤ s ∧ s ≤ 2147483647 * (i : Int)) (d := 1) (a := 0) n (by
      rintro i - h2 D' s ⟨rfl, v, h3, hs, hb⟩
      refine .loadOut (by omega) (hD _ (by omega)) fun x hx => ?_
      have hwr := hw.weight_range i
      have e : ((if ws.length ≠ 0 then
          (rd ws i).bind fun w => .ok ((if x then 1 else 0) * (1 + (w : Int)))
          else .ok (if x then 1 else 0)) : Res Int) = .ok (if x then weight ws i else 0) := by
        by_cases hz : ws.length = 0
        · rw [if_neg (by omega)]
          have : ws = [] := List.length_eq_zero_iff.1 hz
          subst this
          unfold weight
          cases x <;> simp
        · rw [if_pos hz, hw.rd (by omega) hz, ok_bind]
          unfold weight
          cases x <;> simp
      have ht : (0 : Int) ≤ (if x then weight ws i else 0) ∧ (if x then weight ws i else 0) ≤ 2147483647 := by
        cases x
        · simp
        · simp only [if_true]; omega
      rw [e, ok_bind, i64_ok (by omega) (by omega)]
      refine .ret ⟨rfl, fun o => if o = i then x else v o, ?_, ?_, by omega, by push_cast; omega⟩
      · intro o h5
        dsimp only
        split
        · rename_i h6; subst h6; exact hx
        · exact h3 o (by omega)
      · rw [range_snoc (Nat.zero_le _), List.map_append, List.sum_append, List.map_singleton, List.sum_singleton]
        have e2 : ((range 0 i).map fun o => if (if o = i then x else v o) then weight ws o else 0) =
            (range 0 i).map fun o => if v o then weight ws o else 0 := by
          refine List.map_congr_left fun o ho => ?_
          rw [mem_range] at ho
          have : o ≠ i := by omega
          simp only [this, if_false]
        have e3 : (if (if i = i then x else v i) then weight ws i else 0) = if x then weight ws i else 0 := by
          simp only [if_true]
        show _ = ((range 0 i).map fun o => if (if o = i then x else v o) then weight ws o else 0).sum +
          (if (if i = i then x else v i) then weight ws i else 0)
        rw [e2, e3, hs]) (s := 0) ⟨rfl, fun _ => false, fun o h1 => by omega, by simp [range], by omega, by omega⟩
  rw [Nat.zero_add, Nat.mul_one] at this
  unfold regressorVotesCode
  refine Proto.bind (p := 0) this ?_
  rintro D' s ⟨rfl, v, h1, rfl, -⟩
  refine .ret ⟨rfl, v, h1, ?_⟩
  rw [clamp_eq _ _ _ hT]
  unfold response
  rw [show range 0 n = List.range n by rw [List.range_eq_range']; rfl]

end

end Tsetlini
