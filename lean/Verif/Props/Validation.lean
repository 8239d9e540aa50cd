import Verif.Lemmas.Observe
import Verif.Lemmas.Direct
import Verif.Props.Toy
import Verif.Props.Inference
/-
C12-C15: what is rejected, and what training calls do to the estimator.
-/
namespace Tsetlini
open Res Spec

variable {a : Algo} {k : Kind} {env : Env} {st : EstState a.backend env}

theorem reports_append {l1 l2 : List (Prop × Status)} {s1 s : Status} (h1 : Reports l1 s1)
    (hl : ∀ p ∈ l1, p.2.code ≠ .ok) (hbad : s1.code ≠ .ok → s = s1) (hok : s1.code = .ok → Reports l2 s) :
    Reports (l1 ++ l2) s := by
  induction l1 with
  | nil => cases h1; exact hok rfl
  | cons p l ih =>
    obtain ⟨bad, e⟩ := p
    rcases h1 with ⟨b, rfl⟩ | ⟨b, h⟩
    · exact .inl ⟨b, hbad (hl (bad, s1) (by simp))⟩
    · exact .inr ⟨b, ih h fun p hp => hl p (by simp [hp])⟩

/-- A chain of checks followed by the actual work. -/
theorem Decides.check {σ : Type} {l1 l2 : List (Prop × Status)} {st : σ} {c : Res Status}
    {rest : Res (σ × Status)} (hc : c.Ret (Reports l1)) (hl : ∀ p ∈ l1, p.2.code ≠ .ok)
    (h : c.Ret (fun s => s.code = .ok → Decides l2 st rest)) :
    Decides (l1 ++ l2) st (c.bind fun sm => if sm.code ≠ .ok then .ok (st, sm) else rest) := by
  obtain ⟨s1, e, h1⟩ := hc
  obtain ⟨s1', e', h2⟩ := h
  rw [e] at e'; cases e'
  rw [e, ok_bind]
  by_cases hc : s1.code = .ok
  · rw [if_neg (by simpa using hc)]
    obtain ⟨s, h3, h4⟩ := h2 hc
    exact ⟨s, reports_append h1 hl (fun h => absurd hc h) (fun _ => h3), h4⟩
  · rw [if_pos hc]
    refine ⟨s1, reports_append h1 hl (fun _ => rfl) (fun h => absurd h hc), fun _ => rfl, ?_⟩
    rintro q h; cases h; rfl

theorem Decides.done {σ : Type} {st : σ} {r : Res (σ × Status)} (h : r.IfOk fun q => q.2 = .sOk) : Decides [] st r :=
  ⟨.sOk, rfl, fun h => absurd rfl h, fun q hq => ifOk_iff.1 h q hq⟩

theorem Decides.last {σ : Type} {l1 : List (Prop × Status)} {st : σ} {c : Res Status}
    {rest : Res (σ × Status)} (hc : c.Ret (Reports l1)) (hl : ∀ p ∈ l1, p.2.code ≠ .ok)
    (h : rest.IfOk fun q => q.2 = .sOk) :
    Decides l1 st (c.bind fun sm => if sm.code ≠ .ok then .ok (st, sm) else rest) := by
  have := Decides.check (l2 := []) (st := st) hc hl (hc.mono fun _ _ _ => Decides.done h)
  rwa [List.append_nil] at this

theorem Decides.last' {σ : Type} {l1 : List (Prop × Status)} {st : σ} {c : Status}
    {rest : Res (σ × Status)} (hc : Reports l1 c) (hl : ∀ p ∈ l1, p.2.code ≠ .ok)
    (h : rest.IfOk fun q => q.2 = .sOk) :
    Decides l1 st (if c.code ≠ .ok then .ok (st, c) else rest) :=
  Decides.last (c := .ok c) (ret_ok.2 hc) hl h

theorem fitted_iff : isFitted a.backend st.ta = true ↔ Fitted a st := by
  have : a.backend.nrows st.ta.mat = (a.counters st).length := by cases a <;> rfl
  unfold isFitted Fitted
  rw [this, bne_iff_ne, ne_eq, List.length_eq_zero_iff]

/-! ### C12: training calls -/

/-- **C12**, classifier fit: the first violated check is reported and the estimator untouched; otherwise
the status is S_OK. Holds of every estimator, whatever happened to it. (A label of INT_MAX is
excluded, see `C12_int_max_label`.) -/
theorem C12_fit (st : EstState a.backend env) (sc : Sched) {X : List a.Sample} {y : List Int} (ml : Int) (ep : Nat)
    (hX : ∀ x ∈ X, a.Built x) (hy : ∀ v ∈ y, IsInt v ∧ v ≠ 2147483647) :
    Decides (trainChecks a.view X y ++ labelChecks y) st (fitClassifier a.backend env sc st X y ml ep) := by
  have hX' : ∀ x ∈ X, a.lawful.SInv x := fun x hx => (lawful_sinv a x).2 (hX x hx)
  have h1 := checkXy_ret a.lawful X y hX'
  rw [lawful_view] at h1
  unfold fitClassifier
  refine Decides.check h1 (trainChecks_codes _ _ _) ((checkXy_ok a.lawful X y hX').mono fun s hs hc => ?_)
  have hxy := hs.1 hc
  obtain ⟨m, em, m1, m2, m3⟩ := maxElem_ret hxy.yne
  have hm1 := hy m m1
  obtain ⟨⟨i1, i2⟩, i3⟩ := hm1
  rw [em, ok_bind, i32_ok (by omega) (by omega), ok_bind]
  dsimp only
  refine Decides.last (checkLabels_ret hxy.yne) (labelChecks_codes y) ?_
  split
  · trivial
  · exact ifOk_bind_any fun _ => ifOk_iff.2 fun q hq => (ifOk_iff.1 (fitClassifierOnline_params _ _ _ _) _ hq).2

/-- **C12**, classifier partial_fit on a fitted estimator. -/
theorem C12_partial_fit (h : Reached a .classifier st) (hN : StatesOk a st.params) (hf : Fitted a st) (sc : Sched)
    {labels nf : Nat} (hl : IntParam st.params "number_of_labels" labels)
    (hn : IntParam st.params "number_of_features" nf) {X : List a.Sample} {y : List Int} (ml : Int) (ep : Nat)
    (hX : ∀ x ∈ X, a.Built x) :
    Decides (trainChecks a.view X y ++ (widthChecks a.view X nf ++ labelMaxChecks y labels)) st
      (partialFitClassifier a.backend env sc st X y ml ep) := by
  obtain ⟨cfg, L, nf', ss, k1, hv, k2, hF⟩ := reached_fit h hN hf
  have e1 := hF.featC hn
  have e2 := hF.labelsC k1 hl
  rw [Int.ofNat_inj] at e1 e2
  subst e1 e2
  have hls := hF.labels_small hv
  unfold partialFitClassifier
  rw [if_pos (fitted_iff.2 hf)]
  have hX' : ∀ x ∈ X, a.lawful.SInv x := fun x hx => (lawful_sinv a x).2 (hX x hx)
  have h1 := checkXy_ret a.lawful X y hX'
  rw [lawful_view] at h1
  unfold fitClassifierOnlineChecked
  refine Decides.check h1 (trainChecks_codes _ _ _) ((checkXy_ok a.lawful X y hX').mono fun s hs hc => ?_)
  have hxy := hs.1 hc
  have hfeat : st.params.numberOfFeatures = .ok (nf : Int) := Params.getInt_eq hn
  have hlab : st.params.numberOfLabels = .ok (labels : Int) := Params.getInt_eq hl
  rw [hfeat, ok_bind]
  have h2 := checkX_ret a.lawful (nf := nf) hxy.ne hxy.size
  rw [lawful_view] at h2
  refine Decides.check h2 (widthChecks_codes _ _ _) (h2.mono fun _ _ _ => ?_)
  rw [hlab, ok_bind, i32_ok (by omega) (by omega), ok_bind]
  exact Decides.last (checkLabelsMax_ret hxy.yne labels) (labelMaxChecks_codes y labels)
    (ifOk_iff.2 fun q hq => (ifOk_iff.1 (fitClassifierOnline_params _ _ _ _) _ hq).2)

/-- **C12**, regressor fit. -/
theorem C12_fit_regressor (st : EstState a.backend env) (sc : Sched) {T : Int} (hT : IntParam st.params "threshold" T)
    {X : List a.Sample} {y : List Int} (ep : Nat) (hX : ∀ x ∈ X, a.Built x) :
    Decides (trainChecks a.view X y ++ responseChecks y T) st (fitRegressor a.backend env sc st X y ep) := by
  have hX' : ∀ x ∈ X, a.lawful.SInv x := fun x hx => (lawful_sinv a x).2 (hX x hx)
  have h1 := checkXy_ret a.lawful X y hX'
  rw [lawful_view] at h1
  unfold fitRegressor
  refine Decides.check h1 (trainChecks_codes _ _ _) ((checkXy_ok a.lawful X y hX').mono fun s hs hc => ?_)
  have hxy := hs.1 hc
  have hTT : st.params.threshold = .ok T := Params.getInt_eq hT
  rw [hTT, ok_bind]
  dsimp only
  refine Decides.last' (checkResponseY_reports y T) (responseChecks_codes y T) ?_
  split
  · trivial
  · exact ifOk_bind_any fun _ => ifOk_iff.2 fun q hq => (ifOk_iff.1 (fitRegressorOnline_params _ _ _ _) _ hq).2

/-- **C12**, regressor partial_fit on a fitted estimator. -/
theorem C12_partial_fit_regressor (st : EstState a.backend env) (hf : Fitted a st) (sc : Sched) {T : Int} {nf : Nat}
    (hT : IntParam st.params "threshold" T) (hn : IntParam st.params "number_of_features" nf)
    {X : List a.Sample} {y : List Int} (ep : Nat) (hX : ∀ x ∈ X, a.Built x) :
    Decides (trainChecks a.view X y ++ (widthChecks a.view X nf ++ responseChecks y T)) st
      (partialFitRegressor a.backend env sc st X y ep) := by
  unfold partialFitRegressor
  rw [if_pos (fitted_iff.2 hf)]
  have hX' : ∀ x ∈ X, a.lawful.SInv x := fun x hx => (lawful_sinv a x).2 (hX x hx)
  have h1 := checkXy_ret a.lawful X y hX'
  rw [lawful_view] at h1
  unfold fitRegressorOnlineChecked
  refine Decides.check h1 (trainChecks_codes _ _ _) ((checkXy_ok a.lawful X y hX').mono fun s hs hc => ?_)
  have hxy := hs.1 hc
  have hfeat : st.params.numberOfFeatures = .ok (nf : Int) := Params.getInt_eq hn
  have hTT : st.params.threshold = .ok T := Params.getInt_eq hT
  rw [hfeat, ok_bind]
  have h2 := checkX_ret a.lawful (nf := nf) hxy.ne hxy.size
  rw [lawful_view] at h2
  refine Decides.check h2 (widthChecks_codes _ _ _) (h2.mono fun _ _ _ => ?_)
  rw [hTT, ok_bind]
  exact Decides.last' (checkResponseY_reports y T) (responseChecks_codes y T)
    (ifOk_iff.2 fun q hq => (ifOk_iff.1 (fitRegressorOnline_params _ _ _ _) _ hq).2)

/-- A first fit with a negative label, one with a ragged batch and one that passes. -/
example :
    (match fitClassifier classic Toy.env Toy.seq Toy.cc Toy.X [0, 1, -2, 1] 0 1 with
      | .ok (_, s) => s.msg | _ => "") = "Labels in y cannot be negative" ∧
    (match fitClassifier classic Toy.env Toy.seq Toy.cc ([[1], [1, 0]] : List ClassicSample) [0, -1] 0 1 with
      | .ok (_, s) => s.msg | _ => "") = "All rows of X must have the same number of feature columns" ∧
    (match fitClassifier classic Toy.env Toy.seq Toy.cc Toy.X [0, 1, 1, 1] 0 1 with
      | .ok (_, s) => s.code | _ => .valueError) = .ok ∧
    (match partialFitClassifier classic Toy.env Toy.seq Toy.cc Toy.X [0, 1, 3, 1] 0 1 with
      | .ok (_, s) => s.msg | _ => "") = "Max allowed label is 2 but y has value as high as 3" ∧
    (match partialFitRegressor classic Toy.env Toy.seq Toy.cr Toy.X [0, 1, 4, 1] 1 with
      | .ok (_, s) => s.msg | _ => "") = "Only values within [0, threshold] range can be used in y" := by
  refine ⟨?_, ?_, ?_, ?_, ?_⟩ <;> decide +kernel

/-- **C12**, the excluded case: with a label of INT_MAX the code computes INT_MAX + 1 before it would
report the negative label. -/
theorem C12_int_max_label (st : EstState a.backend env) (sc : Sched) {X : List a.Sample} {y : List Int} (ml : Int)
    (ep : Nat) (hX : ∀ x ∈ X, a.Built x) (hxy : ∀ p ∈ trainChecks a.view X y, ¬ p.1)
    (hy : ∀ v ∈ y, IsInt v) (hm : 2147483647 ∈ y) :
    fitClassifier a.backend env sc st X y ml ep = .ub .overflow := by
  have hX' : ∀ x ∈ X, a.lawful.SInv x := fun x hx => (lawful_sinv a x).2 (hX x hx)
  obtain ⟨s, e, hs⟩ := checkXy_ret a.lawful X y hX'
  rw [lawful_view] at hs
  have hok := (reports_ok hs (trainChecks_codes _ _ _)).2 hxy
  unfold fitClassifier
  rw [e, ok_bind, if_neg (by simpa using hok)]
  obtain ⟨m, em, m1, m2, m3⟩ := maxElem_ret (List.ne_nil_of_mem hm)
  have : m = 2147483647 := by
    have h1 := (hy m m1).2
    have h2 := m2 _ hm
    omega
  subst this
  rw [em, ok_bind]
  rfl

example : (match fitClassifier classic Toy.env Toy.seq Toy.cc Toy.X [0, 1, -2, 2147483647] 0 1 with
      | .ub .overflow => true | _ => false) = true := by decide +kernel

/-! ### C12: prediction calls -/

theorem answers_of {α : Type} {ss : SState env} {checks : List (Prop × Status)} {chk : Res Status}
    {f : Nat → Nat → α} {r : Res (EstState a.backend env × Except Status α)}
    (hc : chk.Ret (Reports checks)) (hok : chk.Ret fun s => s.code = .ok → ss.shape ≠ none)
    (hr : r.Ret fun q => withShape ss chk f = .ok q.2) : Answers checks r := by
  obtain ⟨s, e, hs⟩ := hc
  obtain ⟨s', e', hok⟩ := hok
  rw [e] at e'; cases e'
  obtain ⟨⟨s1, q⟩, er, hq⟩ := hr
  refine ⟨s, hs, fun h => ?_, fun h => ?_⟩
  · have := withShape_rejects e h hq
    dsimp only at this
    subst this
    exact ⟨s1, er⟩
  · cases hsh : ss.shape with
    | none => exact absurd hsh (hok h)
    | some p =>
      obtain ⟨l, n⟩ := p
      have := withShape_gives hsh ⟨s, e, h⟩ hq
      dsimp only at this
      subst this
      exact ⟨_, s1, er⟩

theorem checkS_reports {cfg : Cfg} {ss : SState env} (hv : Valid cfg) (hS : Sim a.lawful cfg st ss) {b : Bool}
    (hb : b = true ↔ Fitted a st) {nf : Nat} (hn : Fitted a st → IntParam st.params "number_of_features" nf)
    {x : a.Sample} (hx : a.Built x) :
    (checkS a.backend ss.shape x).Ret (Reports (sampleChecks a.view x b nf)) := by
  have e : b = isFitted a.backend st.ta := by
    rw [Bool.eq_iff_iff, hb, fitted_iff]
  rw [← hS.check hv, e, ← lawful_view]
  exact checkForPredict_ret a.lawful ((lawful_sinv a x).2 hx)
    fun h => Params.getInt_eq (hn (fitted_iff.1 h))

theorem checkBatchS_reports {cfg : Cfg} {ss : SState env} (hv : Valid cfg) (hS : Sim a.lawful cfg st ss) {b : Bool}
    (hb : b = true ↔ Fitted a st) {nf : Nat} (hn : Fitted a st → IntParam st.params "number_of_features" nf)
    {X : List a.Sample} (hX : ∀ x ∈ X, a.Built x) :
    (checkBatchS a.backend ss.shape X).Ret (Reports (batchChecks a.view X b nf)) := by
  have e : b = isFitted a.backend st.ta := by
    rw [Bool.eq_iff_iff, hb, fitted_iff]
  rw [← hS.checkBatch hv, e, ← lawful_view]
  exact checkForPredictBatch_ret a.lawful (fun x hx => (lawful_sinv a x).2 (hX x hx))
    fun h => Params.getInt_eq (hn (fitted_iff.1 h))

/-- **C12**, single-sample predict and decision_function of a classifier. `b` says whether the
estimator is fitted. -/
theorem C12_predict (h : Reached a .classifier st) (hN : StatesOk a st.params) {b : Bool}
    (hb : b = true ↔ Fitted a st) {nf : Nat} (hn : Fitted a st → IntParam st.params "number_of_features" nf)
    {x : a.Sample} (hx : a.Built x) (sc : Sched) :
    Answers (sampleChecks a.view x b nf) (predictClassifier1 a.backend env sc st x) ∧
    Answers (sampleChecks a.view x b nf) (decision1 a.backend env sc st x) := by
  obtain ⟨cfg, ss, h1, hv, h2, hS⟩ := Reached.sim h hN
  have hx' := (lawful_sinv a x).2 hx
  have hok : (checkS a.backend ss.shape x).Ret fun s => s.code = .ok → ss.shape ≠ none :=
    (hS.checkS_ok hv hx').mono fun s hs hc => by
      obtain ⟨_, _, e, -⟩ := hs.1 hc
      rw [e]; simp
  have hr := checkS_reports hv hS hb hn hx
  exact ⟨answers_of hr hok ((predict1_ref sc hv h1 hS hx').mono fun _ h => h.2.2),
    answers_of hr hok ((decision1_ref sc hv h1 hS hx').mono fun _ h => h.2.2)⟩

/-- **C12**, batch predict and decision_function of a classifier. -/
theorem C12_predict_batch (h : Reached a .classifier st) (hN : StatesOk a st.params) {b : Bool}
    (hb : b = true ↔ Fitted a st) {nf : Nat} (hn : Fitted a st → IntParam st.params "number_of_features" nf)
    {X : List a.Sample} (hX : ∀ x ∈ X, a.Built x) (sc : Sched) :
    Answers (batchChecks a.view X b nf) (predictClassifier a.backend env sc st X) ∧
    Answers (batchChecks a.view X b nf) (decision a.backend env sc st X) := by
  obtain ⟨cfg, ss, h1, hv, h2, hS⟩ := Reached.sim h hN
  have hX' : ∀ x ∈ X, a.lawful.SInv x := fun x hx => (lawful_sinv a x).2 (hX x hx)
  have hok : (checkBatchS a.backend ss.shape X).Ret fun s => s.code = .ok → ss.shape ≠ none :=
    (hS.checkBatchS_ok hv hX').mono fun s hs hc => by
      obtain ⟨_, _, _, e, -⟩ := hs.1 hc
      rw [e]; simp
  have hr := checkBatchS_reports hv hS hb hn hX
  exact ⟨answers_of hr hok ((predict_ref sc hv h1 hS hX').mono fun _ h => h.2.2),
    answers_of hr hok ((decision_ref sc hv h1 hS hX').mono fun _ h => h.2.2)⟩

/-- **C12**, single and batch predict of a regressor. -/
theorem C12_predict_regressor (h : Reached a .regressor st) (hN : StatesOk a st.params) {b : Bool}
    (hb : b = true ↔ Fitted a st) {nf : Nat} (hn : Fitted a st → IntParam st.params "number_of_features" nf)
    {x : a.Sample} (hx : a.Built x) {X : List a.Sample} (hX : ∀ x ∈ X, a.Built x) (sc : Sched) :
    Answers (sampleChecks a.view x b nf) (predictRegressor1 a.backend env sc st x) ∧
    Answers (batchChecks a.view X b nf) (predictRegressor a.backend env sc st X) := by
  obtain ⟨cfg, ss, h1, hv, h2, hS⟩ := Reached.sim h hN
  have hx' := (lawful_sinv a x).2 hx
  have hX' : ∀ x ∈ X, a.lawful.SInv x := fun x hx => (lawful_sinv a x).2 (hX x hx)
  have hok : (checkS a.backend ss.shape x).Ret fun s => s.code = .ok → ss.shape ≠ none :=
    (hS.checkS_ok hv hx').mono fun s hs hc => by
      obtain ⟨_, _, e, -⟩ := hs.1 hc
      rw [e]; simp
  have hok' : (checkBatchS a.backend ss.shape X).Ret fun s => s.code = .ok → ss.shape ≠ none :=
    (hS.checkBatchS_ok hv hX').mono fun s hs hc => by
      obtain ⟨_, _, _, e, -⟩ := hs.1 hc
      rw [e]; simp
  exact ⟨answers_of (checkS_reports hv hS hb hn hx) hok ((predictR1_ref sc hv h1 hS hx').mono fun _ h => h.2.2),
    answers_of (checkBatchS_reports hv hS hb hn hX) hok' ((predictR_ref sc hv h1 hS hX').mono fun _ h => h.2.2)⟩

/-- A fresh estimator, a wrong width, a dirty padding bit and an accepted sample. -/
example :
    (match predictClassifier1 classic Toy.env Toy.seq (EstState.fresh classic Toy.env Toy.cParams) ([1, 1, 0] : ClassicSample) with
      | .ok (_, .error s) => s.code | _ => .ok) = .notFitted ∧
    (match predictClassifier1 classic Toy.env Toy.seq Toy.cc ([1, 1] : ClassicSample) with
      | .ok (_, .error s) => s.code | _ => .ok) = .valueError ∧
    (match predictClassifier1 bitwise Toy.env Toy.seq Toy.bc (⟨3, [8]⟩ : BitVector) with
      | .ok (_, .error s) => s.msg | _ => "") = "Some padding bits in X are not cleared to 0" ∧
    (match decision1 bitwise Toy.env Toy.seq Toy.bc (⟨3, [7]⟩ : BitVector) with
      | .ok (_, .ok _) => true | _ => false) = true := by
  refine ⟨?_, ?_, ?_, ?_⟩ <;> decide +kernel

/-! ### C13 -/

/-- **C13**: a rejected fit or partial_fit leaves the estimator exactly as it was, whatever its state,
its arguments and the schedule. -/
theorem C13_rejected_training (st : EstState a.backend env) (sc : Sched) (c : Call a.Sample k) {s : Status}
    (hs : s.code ≠ .ok) {st' : EstState a.backend env} (h : step a.backend env sc c st = .ok (st', .status s)) :
    st' = st := by
  have key : ∀ {r : Res (EstState a.backend env × Status)}, r.IfOk (TrainEffect st) →
      tagged .status r = .ok (st', .status s) → st' = st := by
    intro r hr e
    unfold tagged at e
    rw [bind_eq_ok] at e
    obtain ⟨q, hq, e⟩ := e
    cases e
    exact (ifOk_iff.1 hr q hq).1 hs
  have no : ∀ {α : Type} {f : α → Out} {r : Res (EstState a.backend env × α)}, (∀ v, f v ≠ .status s) →
      tagged f r = .ok (st', .status s) → st' = st := by
    intro α f r hf e
    unfold tagged at e
    rw [bind_eq_ok] at e
    obtain ⟨q, hq, e⟩ := e
    have := congrArg (fun r => match r with | .ok (p : EstState a.backend env × Out) => p.2 | _ => .status s) e
    exact absurd this (hf _)
  cases c with
  | fit X y ml ep => exact key (fitClassifier_effect _ _ _ _ _) h
  | partialFit X y ml ep => exact key (partialFitClassifier_effect _ _ _ _ _) h
  | fitR X y ep => exact key (fitRegressor_effect _ _ _ _) h
  | partialFitR X y ep => exact key (partialFitRegressor_effect _ _ _ _) h
  | predict1 x => exact no (by simp) h
  | predict X => exact no (by simp) h
  | decision1 x => exact no (by simp) h
  | decision X => exact no (by simp) h
  | evaluate X y => exact no (by simp) h
  | predictR1 x => exact no (by simp) h
  | predictR X => exact no (by simp) h

example : (match step classic Toy.env Toy.seq (.partialFit Toy.X [0, 1, 3, 1] 0 1) Toy.cc with
      | .ok (_, .status s) => s.code | _ => .ok) = .valueError := by decide +kernel

/-! ### C14 -/

/-- **C14**: on an estimator without automata partial_fit is fit. -/
theorem C14_partial_fit_unfitted (st : EstState a.backend env) (hf : ¬ Fitted a st) (sc : Sched) (X : List a.Sample)
    (y : List Int) (ml : Int) (ep : Nat) :
    partialFitClassifier a.backend env sc st X y ml ep = fitClassifier a.backend env sc st X y ml ep ∧
    partialFitRegressor a.backend env sc st X y ep = fitRegressor a.backend env sc st X y ep := by
  have : ¬ isFitted a.backend st.ta = true := fun h => hf (fitted_iff.1 h)
  unfold partialFitClassifier partialFitRegressor
  rw [if_neg this, if_neg this]
  exact ⟨rfl, rfl⟩

/-- What a call that did not train anything leaves behind still has no automata. -/
theorem step_unfitted {c : Call a.Sample k} {sc : Sched} {r : EstState a.backend env × Out} (hu : ¬ Fitted a st)
    (h : step a.backend env sc c st = .ok r) (hs : ∀ s, r.2 = .status s → s.code ≠ .ok) : ¬ Fitted a r.1 := by
  have fr : ∀ {α : Type} {f : α → Out} {q : Res (EstState a.backend env × α)}, q.IfOk (fun p => Frozen st p.1) →
      tagged f q = .ok r → ¬ Fitted a r.1 := by
    intro α f q hq e
    unfold tagged at e
    rw [bind_eq_ok] at e
    obtain ⟨p, hp, e⟩ := e
    cases e
    have := (ifOk_iff.1 hq p hp).ta
    unfold Fitted Algo.counters at hu ⊢
    dsimp only
    rwa [this]
  have tr : ∀ {q : Res (EstState a.backend env × Status)}, q.IfOk (TrainEffect st) →
      tagged .status q = .ok r → ¬ Fitted a r.1 := by
    intro q hq e
    unfold tagged at e
    rw [bind_eq_ok] at e
    obtain ⟨p, hp, e⟩ := e
    cases e
    rw [(ifOk_iff.1 hq p hp).1 (hs _ rfl)]
    exact hu
  cases c with
  | fit X y ml ep => exact tr (fitClassifier_effect _ _ _ _ _) h
  | partialFit X y ml ep => exact tr (partialFitClassifier_effect _ _ _ _ _) h
  | fitR X y ep => exact tr (fitRegressor_effect _ _ _ _) h
  | partialFitR X y ep => exact tr (partialFitRegressor_effect _ _ _ _) h
  | predict1 x => exact fr (predictClassifier1_frozen _ _) h
  | predict X => exact fr (predictClassifier_frozen _ _) h
  | decision1 x => exact fr (decision1_frozen _ _) h
  | decision X => exact fr (decision_frozen _ _) h
  | evaluate X y => exact fr (evaluate_frozen _ _ _) h
  | predictR1 x => exact fr (predictRegressor1_frozen _ _) h
  | predictR X => exact fr (predictRegressor_frozen _ _) h

theorem run_unfitted {cs : List (Call a.Sample k)} {sc : Sched} {st' : EstState a.backend env} {outs : List Out}
    (hu : ¬ Fitted a st) (h : run a.backend env sc cs st = .ok (st', outs))
    (hs : ∀ s, .status s ∈ outs → s.code ≠ .ok) : ¬ Fitted a st' := by
  induction cs generalizing st outs with
  | nil => cases h; exact hu
  | cons c cs ih =>
    unfold run at h
    simp only [bind_eq_ok] at h
    obtain ⟨r1, h1, r2, h2, h3⟩ := h
    cases h3
    exact ih (step_unfitted hu h1 fun s e => hs s (by simp [← e])) h2 fun s e => hs s (by simp [e])

/-- **C14**, in terms of histories: after a factory call and any calls none of which trained
successfully, partial_fit does what fit does. -/
theorem C14_never_fitted {p : Params} {sc : Sched} {cs : List (Call a.Sample k)} {outs : List Out}
    (h : run a.backend env sc cs (EstState.fresh a.backend env p) = .ok (st, outs))
    (hs : ∀ s, .status s ∈ outs → s.code ≠ .ok) (sc' : Sched) (X : List a.Sample) (y : List Int) (ml : Int) (ep : Nat) :
    partialFitClassifier a.backend env sc' st X y ml ep = fitClassifier a.backend env sc' st X y ml ep ∧
    partialFitRegressor a.backend env sc' st X y ep = fitRegressor a.backend env sc' st X y ep :=
  C14_partial_fit_unfitted st (run_unfitted (st := EstState.fresh a.backend env p)
    (by unfold Fitted Algo.counters; cases a <;> simp [EstState.fresh] <;> rfl) h hs) sc' X y ml ep

/-- A history with a rejected fit and a rejected prediction, as the hypothesis asks. -/
example : (match run classic Toy.env Toy.seq
      ([.fit Toy.X [0, -1, 1, 1] 0 1, .predict Toy.X] : List (Call Algo.classic.Sample .classifier))
      (EstState.fresh classic Toy.env Toy.cParams) with
    | .ok (_, [.status s, .labels (.error e)]) => s.code != .ok && e.code == .notFitted
    | _ => false) = true := by decide +kernel

/-! ### C15 -/

/-- **C15**: partial_fit on a fitted classifier keeps all parameters (so also number_of_labels and
number_of_features), the number of clauses, the width of every counter row and the number of
weights, and ignores max_number_of_labels. -/
theorem C15_partial_fit (h : Reached a .classifier st) (hN : StatesOk a st.params) (hf : Fitted a st)
    {X : List a.Sample} {y : List Int} {ml : Int} {ep : Nat} (hX : ∀ x ∈ X, a.Built x) (hy : ∀ v ∈ y, IsInt v)
    (sc : Sched) {st' : EstState a.backend env} {s : Status}
    (hr : partialFitClassifier a.backend env sc st X y ml ep = .ok (st', s)) :
    st'.params = st.params ∧ (a.counters st').map List.length = (a.counters st).map List.length ∧
    st'.ta.weights.length = st.ta.weights.length ∧
    ∀ ml', partialFitClassifier a.backend env sc st X y ml' ep = .ok (st', s) := by
  obtain ⟨cfg, L, nf, ss, k1, hv, k2, hF⟩ := reached_fit h hN hf
  have ht : Typed a.lawful X y := ⟨fun x hx => (lawful_sinv a x).2 (hX x hx), hy⟩
  have hs := partialFitClassifier_sized a.lawful hv k1 ht (.inr ⟨_, _, hF⟩) hr
  rw [hF.shape] at hs
  have hfit : isFitted a.backend st.ta = true := fitted_iff.2 hf
  unfold partialFitClassifier at hr ⊢
  rw [if_pos hfit] at hr
  have := refitClassifier_ref a.lawful sc hv k1 k2 ht hs hF
  rw [hr] at this
  obtain ⟨b, -, q1, -, q3⟩ := this.ok_left
  dsimp only at q1 q3
  refine ⟨q3, ?_, ?_, fun ml' => by rw [if_pos hfit]; exact hr⟩
  · rw [q1.rowLens, hF.rowLens]
  · rw [q1.w, hF.w, q1.wlen, hF.wlen]

/-- **C15** for regressors. -/
theorem C15_partial_fit_regressor (h : Reached a .regressor st) (hN : StatesOk a st.params) (hf : Fitted a st)
    {X : List a.Sample} {y : List Int} {ep : Nat} (hX : ∀ x ∈ X, a.Built x) (hy : ∀ v ∈ y, IsInt v)
    (sc : Sched) {st' : EstState a.backend env} {s : Status}
    (hr : partialFitRegressor a.backend env sc st X y ep = .ok (st', s)) :
    st'.params = st.params ∧ (a.counters st').map List.length = (a.counters st).map List.length ∧
    st'.ta.weights.length = st.ta.weights.length := by
  obtain ⟨cfg, L, nf, ss, k1, hv, k2, hF⟩ := reached_fit h hN hf
  have ht : Typed a.lawful X y := ⟨fun x hx => (lawful_sinv a x).2 (hX x hx), hy⟩
  have hfit : isFitted a.backend st.ta = true := fitted_iff.2 hf
  unfold partialFitRegressor at hr
  rw [if_pos hfit] at hr
  have e1 := hF.reg1 k1
  subst e1
  have := refitRegressor_ref a.lawful sc hv k1 k2 ht (ep := ep) hF
  rw [hr] at this
  obtain ⟨b, -, q1, -, q3⟩ := this.ok_left
  dsimp only at q1 q3
  exact ⟨q3, by rw [q1.rowLens, hF.rowLens], by rw [q1.w, hF.w, q1.wlen, hF.wlen]⟩

example : (match partialFitClassifier classic Toy.env Toy.seq Toy.cc Toy.X [0, 1, 0, 1] 7 1 with
      | .ok (st', s) => s.code == .ok && (Algo.classic.counters st' != Algo.classic.counters Toy.cc)
      | _ => false) = true := by decide +kernel

end Tsetlini
