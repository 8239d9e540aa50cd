import Verif.Lemmas.Refit
import Verif.Props.Training
/-
C16, C35 and the single-label part of C18: fitting again, and how epochs add up.
-/
namespace Tsetlini
open Res Spec

variable {a : Algo} {env : Env} {st st' st₁ : EstState a.backend env} {X : List a.Sample} {y : List Int} {ml : Int} {ep : Nat}
  {sc sc' : Sched} {s : Status}

/-! ### C35 -/

/-- **C35**: training a fitted classifier for no epochs changes nothing. -/
theorem C35_no_epochs (h : Reached a .classifier st) (hN : StatesOk a st.params) (hf : Fitted a st)
    (hr : partialFitClassifier a.backend env sc st X y ml 0 = .ok (st', s)) : st' = st := by
  obtain ⟨cfg, L, nf, ss, h1, hv, h2, hF⟩ := reached_fit h hN hf
  unfold partialFitClassifier at hr
  rw [if_pos (hF.fitted hv)] at hr
  by_cases hc : s.code = .ok
  · rw [fitClassifierOnlineChecked_split hr hc rfl] at hr
    unfold fitClassifierOnline at hr
    simp only [bind_eq_ok] at hr
    obtain ⟨_, -, _, -, _, -, _, -, _, -, _, -, _, -, _, -, _, -, _, -, _, h3, h4⟩ := hr
    cases h4
    rw [List.range_zero, iter_nil] at h3
    cases h3; rfl
  · exact (ifOk_iff.1 (fitClassifierOnlineChecked_effect _ _ _ _) _ hr).1 hc

/-- **C35**: training a fitted classifier for `n` epochs and then for `m` epochs on the same data is training it for
`n + m` epochs. -/
theorem C35_partial_fit_twice (h : Reached a .classifier st) (hN : StatesOk a st.params) (hf : Fitted a st) (ht : DataTyped a X y)
    {n m : Nat} (hr : partialFitClassifier a.backend env sc st X y ml n = .ok (st₁, s)) :
    partialFitClassifier a.backend env sc st₁ X y ml m = partialFitClassifier a.backend env sc st X y ml (n + m) := by
  obtain ⟨cfg, L, nf, ss, h1, hv, h2, hF⟩ := reached_fit h hN hf
  by_cases hc : s.code = .ok
  · obtain ⟨ss', hF', -, hd, htr, hp, hi⟩ := refit_call hv h1 h2 ht.typed hF hr hc
    unfold partialFitClassifier at hr ⊢
    rw [if_pos (hF.fitted hv)] at hr ⊢
    rw [if_pos (hF'.fitted hv), fitClassifierOnlineChecked_split hr hc hp, fitClassifierOnlineChecked_split hr hc rfl]
    rw [fitClassifierOnlineChecked_split hr hc rfl] at hr
    exact fitClassifierOnline_add hr m
  · have e : st₁ = st := (ifOk_iff.1 (partialFitClassifier_effect _ _ _ _ _) _ hr).1 hc
    subst e
    unfold partialFitClassifier at hr ⊢
    rw [if_pos (hF.fitted hv)] at hr ⊢
    have key : ∀ e, fitClassifierOnlineChecked a.backend env sc st₁ X y e = .ok (st₁, s) := by
      intro e
      unfold fitClassifierOnlineChecked at hr ⊢
      rw [bind_eq_ok] at hr
      obtain ⟨s1, e1, hr⟩ := hr
      rw [e1, ok_bind]
      split at hr
      · next g => rw [if_pos g]; exact hr
      next g1 =>
      rw [if_neg g1]
      rw [bind_eq_ok] at hr
      obtain ⟨nf, e2, hr⟩ := hr
      rw [e2, ok_bind]
      rw [bind_eq_ok] at hr
      obtain ⟨s2, e3, hr⟩ := hr
      rw [e3, ok_bind]
      split at hr
      · next g => rw [if_pos g]; exact hr
      next g2 =>
      rw [if_neg g2]
      simp only [bind_eq_ok] at hr
      obtain ⟨l, e4, i, e5, s3, e6, hr⟩ := hr
      rw [e4, ok_bind, e5, ok_bind, e6, ok_bind]
      split at hr
      · next g => rw [if_pos g]; exact hr
      · have := (ifOk_iff.1 (fitClassifierOnline_params _ _ _ _) _ hr).2
        dsimp only at this
        subst this
        exact absurd rfl hc
    rw [key, if_pos (hF.fitted hv), key]

/-- **C35**: fitting a classifier for `n` epochs and then training it for `m` epochs on the same data is fitting it for `n + m`
epochs. -/
theorem C35_fit_then_partial_fit (h : Reached a .classifier st) (hN : StatesOk a st.params) (ht : DataTyped a X y)
    {n m : Nat} {ml' : Int} (hr : fitClassifier a.backend env sc st X y ml n = .ok (st₁, s)) (hc : s.code = .ok) :
    partialFitClassifier a.backend env sc st₁ X y ml' m = fitClassifier a.backend env sc st X y ml (n + m) := by
  obtain ⟨cfg, ss, h1, hv, h2, hS⟩ := Reached.sim h hN
  obtain ⟨L, nf, ss', -, -, hF, -, hd, htr, hi⟩ := fit_call hv h1 h2 ht.typed hS hr hc
  have hne : X ≠ [] := by
    intro e; subst e
    unfold fitClassifier at hr
    have e1 : checkXy a.backend ([] : List a.Sample) y = .ok ⟨.valueError, "X cannot be empty"⟩ := rfl
    rw [e1, ok_bind, if_pos (by simp)] at hr
    cases hr; cases hc
  have hsm : L ≤ 2147483647 := by
    have := hF.small' hv
    have := Nat.le_mul_of_pos_right L hv.k_pos
    omega
  obtain ⟨stI, hI⟩ := fitClassifier_split hr hc
  unfold partialFitClassifier
  rw [if_pos (hF.fitted hv), refit_checked h1 ht.typed hne hF hsm hd, hI]
  rw [hI] at hr
  exact fitClassifierOnline_add hr m

/-- **C35** for regressors: no epochs. -/
theorem C35_no_epochs_regressor (h : Reached a .regressor st) (hN : StatesOk a st.params) (hf : Fitted a st)
    (hr : partialFitRegressor a.backend env sc st X y 0 = .ok (st', s)) : st' = st := by
  obtain ⟨cfg, L, nf, ss, h1, hv, h2, hF⟩ := reached_fit h hN hf
  unfold partialFitRegressor at hr
  rw [if_pos (hF.fitted hv)] at hr
  by_cases hc : s.code = .ok
  · rw [fitRegressorOnlineChecked_split hr hc rfl] at hr
    unfold fitRegressorOnline at hr
    simp only [bind_eq_ok] at hr
    obtain ⟨_, -, _, -, _, -, _, -, _, -, _, -, _, -, _, -, _, -, _, -, _, -, _, -, _, -, _, h3, h4⟩ := hr
    cases h4
    rw [List.range_zero, iter_nil] at h3
    cases h3; rfl
  · exact (ifOk_iff.1 (fitRegressorOnlineChecked_effect _ _ _ _) _ hr).1 hc

/-- **C35** for regressors: partial_fit twice. -/
theorem C35_partial_fit_twice_regressor (h : Reached a .regressor st) (hN : StatesOk a st.params) (hf : Fitted a st) (ht : DataTyped a X y)
    {n m : Nat} (hr : partialFitRegressor a.backend env sc st X y n = .ok (st₁, s)) (hc : s.code = .ok) :
    partialFitRegressor a.backend env sc st₁ X y m = partialFitRegressor a.backend env sc st X y (n + m) := by
  obtain ⟨cfg, L, nf, ss, h1, hv, h2, hF⟩ := reached_fit h hN hf
  have e3 := hF.reg1 h1
  subst e3
  obtain ⟨ss', hF', -, hd, hp, hi⟩ := refitR_call hv h1 h2 ht.typed hF hr hc
  unfold partialFitRegressor at hr ⊢
  rw [if_pos (hF.fitted hv)] at hr ⊢
  rw [if_pos (hF'.fitted hv), fitRegressorOnlineChecked_split hr hc hp, fitRegressorOnlineChecked_split hr hc rfl]
  rw [fitRegressorOnlineChecked_split hr hc rfl] at hr
  exact fitRegressorOnline_add hr m

/-- **C35** for regressors: fit, then partial_fit. -/
theorem C35_fit_then_partial_fit_regressor (h : Reached a .regressor st) (hN : StatesOk a st.params) (ht : DataTyped a X y)
    {n m : Nat} (hr : fitRegressor a.backend env sc st X y n = .ok (st₁, s)) (hc : s.code = .ok) :
    partialFitRegressor a.backend env sc st₁ X y m = fitRegressor a.backend env sc st X y (n + m) := by
  obtain ⟨cfg, ss, h1, hv, h2, hS⟩ := Reached.sim h hN
  obtain ⟨nf, ss', -, hF, -, hd, hi⟩ := fitR_call hv h1 h2 ht.typed hS hr hc
  have hne : X ≠ [] := by
    intro e; subst e
    unfold fitRegressor at hr
    have e1 : checkXy a.backend ([] : List a.Sample) y = .ok ⟨.valueError, "X cannot be empty"⟩ := rfl
    rw [e1, ok_bind, if_pos (by simp)] at hr
    cases hr; cases hc
  obtain ⟨stI, hI⟩ := fitRegressor_split hr hc
  unfold partialFitRegressor
  rw [if_pos (hF.fitted hv), refitR_checked ht.typed hne hF hd, hI]
  rw [hI] at hr
  exact fitRegressorOnline_add hr m

/-! ### C18: a single label -/

theorem online_one_label {cfg : Cfg} (hv : Valid cfg) (hk : cfg.kind = .classifier) (hr : Reads st.params cfg)
    (hl : IntParam st.params "number_of_labels" 1) (hy : y ≠ []) (hy' : ∀ v ∈ y, 0 ≤ v ∧ v < 1) (hep : 1 ≤ ep) :
    fitClassifierOnline a.backend env sc st X y ep = .ub .divZero := by
  have hlab : st.params.numberOfLabels = .ok 1 := Params.getInt_eq hl
  unfold fitClassifierOnline
  rw [hlab, ok_bind, hr.p_k hv hk, ok_bind, hr.p_T, ok_bind, hr.p_maxWeight, ok_bind, hr.p_states, ok_bind,
    hr.p_s, ok_bind, hr.p_boost, ok_bind, hr.p_tile, ok_bind, hr.p_nJobs, ok_bind, hr.p_verbose, ok_bind]
  dsimp only
  obtain ⟨e, rfl⟩ : ∃ e, ep = e + 1 := ⟨ep - 1, by omega⟩
  rw [List.range_succ_eq_map, iter_cons]
  cases y with
  | nil => exact absurd rfl hy
  | cons v vs =>
    have hv0 := hy' v (by simp)
    unfold classifierEpoch generateOppositeY oppositeLabel
    rw [i32_ok (by omega) (by omega)]
    rfl

/-- **C18**, the excluded case: training a fitted classifier that has a single label, with valid data (data it accepts
for 0 epochs), for at least one epoch divides by zero. -/
theorem C18_one_label_partial_fit (h : Reached a .classifier st) (hN : StatesOk a st.params) (hf : Fitted a st) (ht : DataTyped a X y)
    (hl : IntParam st.params "number_of_labels" 1)
    (hr : partialFitClassifier a.backend env sc st X y ml 0 = .ok (st', s)) (hc : s.code = .ok) (hep : 1 ≤ ep) :
    partialFitClassifier a.backend env sc st X y ml ep = .ub .divZero := by
  obtain ⟨cfg, L, nf, ss, h1, hv, h2, hF⟩ := reached_fit h hN hf
  have eL := hF.labelsC h1 hl
  obtain ⟨ss', hF', -, hd, htr, hp, hi⟩ := refit_call hv h1 h2 ht.typed hF hr hc
  unfold partialFitClassifier at hr ⊢
  rw [if_pos (hF.fitted hv)] at hr ⊢
  rw [fitClassifierOnlineChecked_split hr hc rfl]
  refine online_one_label hv h1 hF.reads hl ?_ (fun v hv => by have := hd.ys v hv; omega) hep
  rintro rfl
  unfold fitClassifierOnlineChecked at hr
  rw [bind_eq_ok] at hr
  obtain ⟨s1, e1, hr⟩ := hr
  cases X with
  | nil => cases e1; rw [if_pos (by simp)] at hr; cases hr; cases hc
  | cons x X => have := hd.len; simp at this

/-- **C18**, the excluded case: so does fitting a classifier on data that has a single label. -/
theorem C18_one_label_fit (h : Reached a .classifier st) (hN : StatesOk a st.params) (ht : DataTyped a X y)
    (hr : fitClassifier a.backend env sc st X y ml 0 = .ok (st', s)) (hc : s.code = .ok)
    (hl : IntParam st'.params "number_of_labels" 1) (hep : 1 ≤ ep) :
    fitClassifier a.backend env sc st X y ml ep = .ub .divZero := by
  obtain ⟨cfg, ss, h1, hv, h2, hS⟩ := Reached.sim h hN
  obtain ⟨L, nf, ss', -, -, hF, -, hd, htr, hi⟩ := fit_call hv h1 h2 ht.typed hS hr hc
  have eL := hF.labelsC h1 hl
  have hne : X ≠ [] := by
    intro e; subst e
    unfold fitClassifier at hr
    have e1 : checkXy a.backend ([] : List a.Sample) y = .ok ⟨.valueError, "X cannot be empty"⟩ := rfl
    rw [e1, ok_bind, if_pos (by simp)] at hr
    cases hr; cases hc
  obtain ⟨stI, hI⟩ := fitClassifier_split hr hc
  rw [hI] at hr ⊢
  have hp := (ifOk_iff.1 (fitClassifierOnline_params _ _ _ _) _ hr).1
  dsimp only at hp
  rw [hp] at hl
  refine online_one_label hv h1 (by rw [← hp]; exact hF.reads) hl ?_ (fun v hv => by have := hd.ys v hv; omega) hep
  rintro rfl
  have := hd.len
  exact hne (List.length_eq_zero_iff.1 this.symm)

/-! ### C16 -/

/-- The weights are the same, where there are none taken as 0. -/
def SameWeights (ws ws' : List Nat) : Prop := ∀ i, ws.getD i 0 = ws'.getD i 0

theorem SameWeights.resize {ws ws' : List Nat} (h : SameWeights ws ws') (n : Nat) : Tsetlini.resize ws n = Tsetlini.resize ws' n := by
  have e : ∀ l : List Nat, Tsetlini.resize l n = (List.range n).map fun i => l.getD i 0 := by
    intro l
    unfold Tsetlini.resize
    refine List.ext_getElem (by simp; omega) fun i h1 h2 => ?_
    have hi : i < n := by simpa using h2
    rw [List.getElem_append, List.getElem_map, List.getElem_range]
    split
    · next hl =>
      rw [List.length_take] at hl
      rw [List.getElem_take, List.getD_eq_getElem?_getD, List.getElem?_eq_getElem (by omega)]
      rfl
    · next hl =>
      rw [List.length_take] at hl
      rw [List.getElem_replicate, List.getD_eq_getElem?_getD, List.getElem?_eq_none (by omega)]
      rfl
  rw [e, e]
  exact List.map_congr_left fun i _ => h i

/-- **C16** for classifiers: of what two estimators with the same parameters were trained on before (if they were at all), the
result of fit depends only on the clause weights left from it. If those are the same (a missing one counts as 0), and in any case if the
estimators are unweighted, fit gives the same status and, if that is OK, the same parameters, automata, weights and generators. -/
theorem C16_fit (h : Reached a .classifier st) (h₁ : Reached a .classifier st₁)
    (hp : AgreeBut ["number_of_labels", "number_of_features"] st.params st₁.params) (hN : StatesOk a st.params)
    (hw : st.params.get? "weighted" = some (.bool false) ∨ SameWeights st.ta.weights st₁.ta.weights) (ht : DataTyped a X y)
    (hr : fitClassifier a.backend env sc st X y ml ep = .ok (st', s)) :
    ∃ st₁', fitClassifier a.backend env sc' st₁ X y ml ep = .ok (st₁', s) ∧
      (s.code = .ok → AgreeBut [] st'.params st₁'.params ∧ SameLearned st' st₁') := by
  have hN' : StatesOk a st₁.params := fun N g => hN N (by unfold IntParam at g ⊢; rw [← hp _ (by simp)]; exact g)
  obtain ⟨cfg, ss, h1, hv, h2, hS⟩ := Reached.sim h hN
  obtain ⟨cfg₁, ss₁, k1, -, -, hS₁⟩ := Reached.sim h₁ hN'
  have hS₁ := hS₁.recfg (hS.reads.agreeSizes hp) (h1.trans k1.symm)
  have hwe : ∀ n, (if cfg.weighted then resize ss.weights n else ss.weights) = if cfg.weighted then resize ss₁.weights n else ss₁.weights := by
    intro n
    rcases hw with hw | hw
    · have hwf : cfg.weighted = false := by
        have := hS.reads.weighted.symm.trans hw
        simpa using this
      rw [hS.weights.2.2 hwf, hS₁.weights.2.2 hwf]
    · rw [hS.weights.1, hS₁.weights.1] at hw
      cases hwt : cfg.weighted with
      | true => exact hw.resize n
      | false => rw [hS.weights.2.2 hwt, hS₁.weights.2.2 hwt]
  obtain ⟨st₁', g1, g2⟩ := fit_same (sc' := sc') hv h1 h2 ht.typed hS hS₁
    (by unfold initS; rw [hwe]) hr
  refine ⟨st₁', g1, fun hc => ⟨?_, g2 hc⟩⟩
  have r1 := ifOk_iff.1 (fitClassifier_record _ _ _ _ _) _ hr
  have r2 := ifOk_iff.1 (fitClassifier_record _ _ _ _ _) _ g1
  dsimp only at r1 r2
  unfold recordC at r1 r2
  rw [if_pos hc] at r1 r2
  rw [r1, r2]
  intro key _
  by_cases e1 : key = "number_of_features"
  · subst e1; rw [Params.get?_set_self, Params.get?_set_self]
  · rw [Params.get?_set_ne _ e1, Params.get?_set_ne _ e1]
    by_cases e2 : key = "number_of_labels"
    · subst e2; rw [Params.get?_set_self, Params.get?_set_self]
    · rw [Params.get?_set_ne _ e2, Params.get?_set_ne _ e2]
      exact hp key (by simp [e1, e2])

/-- **C16** for regressors. -/
theorem C16_fit_regressor (h : Reached a .regressor st) (h₁ : Reached a .regressor st₁)
    (hp : AgreeBut ["number_of_features"] st.params st₁.params) (hN : StatesOk a st.params)
    (hw : st.params.get? "weighted" = some (.bool false) ∨ SameWeights st.ta.weights st₁.ta.weights) (ht : DataTyped a X y)
    (hr : fitRegressor a.backend env sc st X y ep = .ok (st', s)) :
    ∃ st₁', fitRegressor a.backend env sc' st₁ X y ep = .ok (st₁', s) ∧
      (s.code = .ok → AgreeBut [] st'.params st₁'.params ∧ SameLearned st' st₁') := by
  have hN' : StatesOk a st₁.params := fun N g => hN N (by unfold IntParam at g ⊢; rw [← hp _ (by simp)]; exact g)
  obtain ⟨cfg, ss, h1, hv, h2, hS⟩ := Reached.sim h hN
  obtain ⟨cfg₁, ss₁, k1, -, -, hS₁⟩ := Reached.sim h₁ hN'
  have hS₁ := hS₁.recfg (hS.reads.agreeSizes fun key hk => hp key (by simp [sizeKeys] at hk ⊢; exact hk.2)) (h1.trans k1.symm)
  have hwe : ∀ n, (if cfg.weighted then resize ss.weights n else ss.weights) = if cfg.weighted then resize ss₁.weights n else ss₁.weights := by
    intro n
    rcases hw with hw | hw
    · have hwf : cfg.weighted = false := by
        have := hS.reads.weighted.symm.trans hw
        simpa using this
      rw [hS.weights.2.2 hwf, hS₁.weights.2.2 hwf]
    · rw [hS.weights.1, hS₁.weights.1] at hw
      cases hwt : cfg.weighted with
      | true => exact hw.resize n
      | false => rw [hS.weights.2.2 hwt, hS₁.weights.2.2 hwt]
  obtain ⟨st₁', g1, g2⟩ := fitR_same (sc' := sc') hv h1 h2 ht.typed hS hS₁
    (by unfold initS; rw [hwe]) hr
  refine ⟨st₁', g1, fun hc => ⟨?_, g2 hc⟩⟩
  have r1 := ifOk_iff.1 (fitRegressor_record _ _ _ _) _ hr
  have r2 := ifOk_iff.1 (fitRegressor_record _ _ _ _) _ g1
  dsimp only at r1 r2
  unfold recordR at r1 r2
  rw [if_pos hc] at r1 r2
  rw [r1, r2]
  intro key _
  by_cases e1 : key = "number_of_features"
  · subst e1; rw [Params.get?_set_self, Params.get?_set_self]
  · rw [Params.get?_set_ne _ e1, Params.get?_set_ne _ e1]
    exact hp key (by simp [e1])

/-- The weights after fitting on the toy data. -/
def Toy.refitted (cs : List (Call Algo.classic.Sample .classifier)) : Option (List (List Int) × List Nat) :=
  Toy.outcome (B := Algo.classic.backend) (fitClassifier Algo.classic.backend Toy.env Toy.seq (Toy.after .classic Toy.cParams cs)
    Toy.X [0, 1, 2, 1] 0 2)

/-- **C16**, the excluded case: a weighted classifier that had been trained before keeps its old clause weights when it is
fitted again, and learns something else than a new one does. -/
theorem C16_weighted_violates : ∃ (env : Env) (sc : Sched) (st st₁ st' st₁' : EstState Algo.classic.backend env) (X : List Algo.classic.Sample)
    (y : List Int) (s : Status), Reached .classic .classifier st ∧ Reached .classic .classifier st₁ ∧
    AgreeBut ["number_of_labels", "number_of_features"] st.params st₁.params ∧ StatesOk .classic st.params ∧ DataTyped .classic X y ∧
    fitClassifier Algo.classic.backend env sc st X y 0 2 = .ok (st', s) ∧ fitClassifier Algo.classic.backend env sc st₁ X y 0 2 = .ok (st₁', s) ∧
    s.code = .ok ∧ st'.ta.weights ≠ st₁'.ta.weights ∧ Algo.classic.clauses st' ≠ Algo.classic.clauses st₁' := by
  obtain ⟨st', s, h1, h2, h3⟩ := Toy.outcome_ok (B := Algo.classic.backend)
    (r := fitClassifier Algo.classic.backend Toy.env Toy.seq (Toy.after .classic Toy.cParams ([] : List (Call Algo.classic.Sample .classifier)))
      Toy.X [0, 1, 2, 1] 0 2) (by decide +kernel)
  obtain ⟨st₁', s₁, k1, k2, k3⟩ := Toy.outcome_ok (B := Algo.classic.backend)
    (r := fitClassifier Algo.classic.backend Toy.env Toy.seq
      (Toy.after .classic Toy.cParams ([.fit Toy.X [1, 0, 0, 2] 0 6] : List (Call Algo.classic.Sample .classifier)))
      Toy.X [0, 1, 2, 1] 0 2) (by decide +kernel)
  have e1 : Toy.refitted [] = some ([[-1, 0, -3], [-2, -2, -1], [-2, -1, -1], [0, 0, -2], [-1, -1, -1], [-2, 0, -1],
    [0, -1, -2], [-1, -2, -2], [-1, -1, -1], [-1, -1, 0], [-1, -3, 0], [-2, -2, 0]], [0, 0, 0, 0, 0, 0]) := by decide +kernel
  have e2 : Toy.refitted [.fit Toy.X [1, 0, 0, 2] 0 6] = some ([[-1, 0, -3], [-2, -2, -1], [-2, -1, -1], [-1, 0, -2], [-2, 0, -2], [-1, 0, -1],
    [0, -1, -2], [-1, -2, -2], [-1, -1, -1], [-1, -1, 0], [-1, -3, 0], [-2, -2, 0]], [1, 0, 1, 0, 2, 1]) := by decide +kernel
  unfold Toy.refitted at e1 e2
  rw [h3] at e1
  rw [k3] at e2
  obtain ⟨c1, w1⟩ := Prod.mk.inj (Option.some.inj e1)
  obtain ⟨c2, w2⟩ := Prod.mk.inj (Option.some.inj e2)
  have c1 : Algo.classic.counters st' = _ := c1
  have c2 : Algo.classic.counters st₁' = _ := c2
  have hs := (ifOk_iff.1 (fitClassifier_online_ok _ _ _ _ _) _ h1) h2
  have hs₁ := (ifOk_iff.1 (fitClassifier_online_ok _ _ _ _ _) _ k1) k2
  dsimp only at hs hs₁
  subst hs hs₁
  refine ⟨Toy.env, Toy.seq, _, _, st', st₁', Toy.X, [0, 1, 2, 1], .sOk,
    Toy.reached_of Toy.cMade (cs := ([] : List (Call Algo.classic.Sample .classifier))) (by simp) (by decide +kernel),
    Toy.reached_of Toy.cMade (cs := ([.fit Toy.X [1, 0, 0, 2] 0 6] : List (Call Algo.classic.Sample .classifier))) (by decide +kernel) (by decide +kernel),
    ?_, Toy.statesOk_of (N := 3) (by decide +kernel) (by decide), ⟨fun _ _ => trivial, by decide +kernel⟩, h1, k1, h2, ?_, ?_⟩
  · exact Toy.agreeBut_of (by decide +kernel)
  · rw [w1, w2]; decide
  · unfold Algo.clauses
    rw [c1, c2]; decide

/-- The toy classifier without weights. -/
def Toy.uParams : Params := Toy.made (.classifierArgs (Toy.cArgs false 3))
theorem Toy.uMade : Made .classifier Toy.uParams :=
  Toy.made_of (.classifierArgs (Toy.cArgs false 3)) (by constructor <;> decide +kernel) (by decide +kernel)

/-- C16: an unweighted classifier that was trained on other data (two labels) and a new one. -/
example : Reached .classic .classifier (Toy.after .classic Toy.uParams ([.fit Toy.X [1, 0, 0, 1] 0 2] : List (Call Algo.classic.Sample .classifier))) ∧
    (Toy.after .classic Toy.uParams ([.fit Toy.X [1, 0, 0, 1] 0 2] : List (Call Algo.classic.Sample .classifier))).params.get? "weighted" =
      some (.bool false) ∧
    (Toy.outcome (B := Algo.classic.backend) (fitClassifier Algo.classic.backend Toy.env Toy.seq
      (Toy.after .classic Toy.uParams ([.fit Toy.X [1, 0, 0, 1] 0 2] : List (Call Algo.classic.Sample .classifier))) Toy.X [0, 1, 2, 1] 0 2)).isSome := by
  refine ⟨Toy.reached_of Toy.uMade (by decide +kernel) (by decide +kernel), by decide +kernel, by decide +kernel⟩

/-- C35: the toy classifier trained for 1 and then 2 epochs. -/
example : (Toy.outcome (B := Algo.classic.backend)
      (partialFitClassifier Algo.classic.backend Toy.env Toy.seq Toy.cc Toy.X [0, 1, 2, 1] 0 1)).isSome ∧
    (Toy.outcome (B := Algo.classic.backend)
      (fitClassifier Algo.classic.backend Toy.env Toy.seq Toy.cc Toy.X [0, 1, 2, 1] 0 1)).isSome ∧
    (Toy.outcome (B := Algo.classic.backend)
      (partialFitRegressor Algo.classic.backend Toy.env Toy.seq Toy.cr Toy.X [0, 1, 2, 1] 1)).isSome ∧
    (Toy.outcome (B := Algo.classic.backend)
      (fitRegressor Algo.classic.backend Toy.env Toy.seq Toy.cr Toy.X [0, 1, 2, 1] 1)).isSome := by
  refine ⟨?_, ?_, ?_, ?_⟩ <;> decide +kernel

/-- C18: data with the single label 0, which `fit` accepts for 0 epochs; the estimator then has one label. -/
example : (Toy.outcome (B := Algo.classic.backend)
      (fitClassifier Algo.classic.backend Toy.env Toy.seq Toy.cc Toy.X [0, 0, 0, 0] 0 0)).isSome ∧
    IntParam (Toy.after .classic Toy.cParams ([.fit Toy.X [0, 0, 0, 0] 0 0] : List (Call Algo.classic.Sample .classifier))).params
      "number_of_labels" 1 ∧
    (Toy.outcome (B := Algo.classic.backend) (partialFitClassifier Algo.classic.backend Toy.env Toy.seq
      (Toy.after .classic Toy.cParams ([.fit Toy.X [0, 0, 0, 0] 0 0] : List (Call Algo.classic.Sample .classifier))) Toy.X [0, 0, 0, 0] 0 0)).isSome := by
  refine ⟨by decide +kernel, ?_, by decide +kernel⟩
  show Params.get? _ _ = _; decide +kernel

end Tsetlini
