import Verif.Model.OverflowCalls
import Verif.Props.Overflow
import Verif.Props.Loaded
import Verif.Props.Toy
/-
C67 for whole histories of calls.
-/
namespace Tsetlini
open Res Spec

variable {env : Env} {t : BmTables} {k : Kind}

private theorem iter_eq {ι σ : Type} {f g : ι → σ → Res σ} (l : List ι) (s : σ) (h : ∀ i ∈ l, ∀ s, f i s = g i s) : iter l f s = iter l g s := by
  induction l generalizing s with
  | nil => rfl
  | cons i l ih =>
    rw [iter_cons, iter_cons, h i (by simp)]
    cases g i s with
    | ok s' => exact ih s' fun j hj => h j (by simp [hj])
    | _ => rfl

private theorem bind_eq {α β : Type} {r : Res α} {f g : α → Res β} (h : ∀ a, r = .ok a → f a = g a) : r.bind f = r.bind g := by
  cases r with
  | ok a => exact h a rfl
  | _ => rfl

/-- What the float computations rely on. -/
private structure Ready (k : Kind) (p : Params) : Prop where
  T : ∀ T, p.threshold = .ok T → 1 ≤ T ∧ T ≤ 2147483647
  s : ∀ s, p.specificity = .ok s → s.badS = false
  n : k = .regressor → ∀ n, p.regressorOutputs = .ok n → 1 ≤ n ∧ n ≤ 2147483647
  C1 : k = .regressor → ∀ c, p.lossFnC1 = .ok c → IsFloat c

private theorem getInt_of {p : Params} {key : String} {v : Int} (h : p.get? key = some (.int v)) : p.getInt key = .ok v := by
  unfold Params.getInt Params.at'
  rw [h]; rfl

private theorem getReal_of {p : Params} {key : String} {v : Fl} (h : p.get? key = some (.real v)) : p.getReal key = .ok v := by
  unfold Params.getReal Params.at'
  rw [h]; rfl

private theorem Spec.Configured.ready {p : Params} (h : Configured k p) (hC : k = .regressor → ∀ c, p.get? "loss_fn_C1" = some (.real c) → IsFloat c) :
    Ready k p := by
  obtain ⟨cfg, rfl, hr, hv⟩ := Configured.cfg h
  refine ⟨fun T hT => ?_, fun s hs => ?_, fun hk n hn => ?_, fun hk c hc => ?_⟩
  · unfold Params.threshold at hT
    rw [getInt_of hr.T] at hT
    have := Res.ok.inj hT
    subst this
    exact ⟨hv.T, hv.TMax⟩
  · unfold Params.specificity at hs
    rw [getReal_of hr.s] at hs
    have := Res.ok.inj hs
    subst this
    have := hv.s
    exact decide_eq_false (by grind)
  · have hc := hr.clauses
    unfold Cfg.clauseKey at hc
    rw [hk] at hc
    unfold Params.regressorOutputs at hn
    rw [getInt_of hc, ok_bind] at hn
    have := Res.ok.inj hn
    have h1 := hv.clauses
    have h2 := hv.clausesMax
    have h3 := hv.div
    rw [hk] at h3
    dsimp only at h3
    rw [Int.tdiv_eq_ediv_of_nonneg (by omega)] at this
    omega
  · unfold Params.lossFnC1 at hc
    rw [getReal_of (hr.C1 hk)] at hc
    have := Res.ok.inj hc
    subst this
    exact hC hk _ (hr.C1 hk)

/-! ### Training -/

private theorem online_eq {B : Backend} (hm : IeeeMachine env t) (sc : Sched) {st : EstState B env} (hp : Ready k st.params) (X : List B.Sample) (y : List Int) (epochs : Nat) :
    fitClassifierOnlineIeee B env sc st X y epochs = fitClassifierOnline B env sc st X y epochs := by
  unfold fitClassifierOnlineIeee fitClassifierOnline
  refine bind_eq fun labels _ => bind_eq fun kk _ => bind_eq fun T hT => ?_
  refine bind_eq fun _ _ => bind_eq fun _ _ => bind_eq fun _ _ => bind_eq fun _ _ => bind_eq fun _ _ => bind_eq fun _ _ => bind_eq fun _ _ => ?_
  dsimp only
  refine congrArg (fun r => Res.bind r _) (iter_eq _ _ fun i _ s => ?_)
  unfold classifierEpochIeee classifierEpoch
  refine bind_eq fun o _ => ?_
  obtain ⟨opp, g⟩ := o
  dsimp only
  refine iter_eq _ _ fun i _ s => ?_
  refine bind_eq fun x _ => bind_eq fun yi _ => bind_eq fun oi _ => ?_
  unfold classifierUpdateIeee classifierUpdate
  simp only [C67_classifier hm _ _ _ _ _ _ (hp.T T hT).1]

private theorem clamp_bounds {x T : Int} (hT : 0 ≤ T) : 0 ≤ clamp x 0 T ∧ clamp x 0 T ≤ T := by
  unfold clamp
  split
  · omega
  · split <;> omega

private theorem onlineR_eq {B : Backend} (hm : IeeeMachine env t) (sc : Sched) {st : EstState B env} (hp : Ready .regressor st.params) (X : List B.Sample) {y : List Int}
    (hy : ∀ T, st.params.threshold = .ok T → ∀ v ∈ y, 0 ≤ v ∧ v ≤ T) (epochs : Nat) :
    fitRegressorOnlineIeee B env t sc st X y epochs = fitRegressorOnline B env sc st X y epochs := by
  unfold fitRegressorOnlineIeee fitRegressorOnline
  refine bind_eq fun n hn => bind_eq fun T hT => ?_
  refine bind_eq fun _ _ => bind_eq fun _ _ => bind_eq fun _ _ => bind_eq fun _ _ => bind_eq fun _ _ => bind_eq fun _ _ => bind_eq fun _ _ => ?_
  refine bind_eq fun _ _ => bind_eq fun C1 hC => bind_eq fun _ _ => bind_eq fun _ _ => ?_
  dsimp only
  refine congrArg (fun r => Res.bind r _) (iter_eq _ _ fun i _ s => ?_)
  unfold regressorEpochIeee regressorEpoch
  dsimp only
  refine iter_eq _ _ fun i _ s => ?_
  refine bind_eq fun x _ => bind_eq fun yi hyi => ?_
  have hb : 0 ≤ yi ∧ yi ≤ T := by
    refine hy T hT yi ?_
    unfold rd at hyi
    split at hyi
    · rename_i v hv
      cases hyi
      exact List.mem_of_getElem? hv
    · cases hyi
  unfold regressorUpdateIeee regressorUpdate
  refine bind_eq fun c _ => bind_eq fun votes hv => bind_eq fun err he => ?_
  unfold sumUpRegressorVotes at hv
  obtain ⟨sm, -, hv⟩ := bind_eq_ok.1 hv
  have hv := Res.ok.inj hv
  have hT' := hp.T T hT
  have hcl := clamp_bounds (x := sm) (T := T) (by omega)
  obtain ⟨rfl, -, -⟩ := i32_bounds he
  have hn' := hp.n rfl n hn
  dsimp only at hv ⊢
  rw [hv] at hcl
  rw [C67_regressor B hm _ _ (hp.C1 rfl C1 hC) _ _ _ (by omega) (by omega) hT'.1 hT'.2 (by omega) (by omega)]

private theorem reset_eq (hm : IeeeMachine env t) {p : Params} (hp : Ready k p) (kind : Kind) (tick : Nat) : resetCacheIeee kind p tick = resetCache env kind p tick := by
  unfold resetCacheIeee resetCache
  cases kind with
  | classifier =>
    refine bind_eq fun _ _ => bind_eq fun _ _ => bind_eq fun _ _ => bind_eq fun _ _ => bind_eq fun s hs => bind_eq fun f _ => ?_
    rw [C67_coin_tosser hm (hp.s s hs) (Nat.le_of_lt (BitVec.isLt _))]
  | regressor =>
    refine bind_eq fun _ _ => bind_eq fun _ _ => bind_eq fun s hs => bind_eq fun f _ => ?_
    rw [C67_coin_tosser hm (hp.s s hs) (Nat.le_of_lt (BitVec.isLt _))]

private theorem init_eq {B : Backend} (hm : IeeeMachine env t) {st : EstState B env} (hp : Ready k st.params) (kind : Kind) :
    initializeStateIeee B env kind st = initializeState B env kind st := by
  unfold initializeStateIeee initializeState
  simp only [reset_eq hm hp]

private theorem Ready.agree {p q : Params} (h : Ready k p) (hpq : ∀ key, key ∉ sizeParams .classifier → q.get? key = p.get? key) : Ready k q := by
  have hi : ∀ key, key ∉ sizeParams .classifier → q.getInt key = p.getInt key := fun key hk => by
    unfold Params.getInt Params.at'; rw [hpq key hk]
  have hr : ∀ key, key ∉ sizeParams .classifier → q.getReal key = p.getReal key := fun key hk => by
    unfold Params.getReal Params.at'; rw [hpq key hk]
  refine ⟨fun T hT => h.T T ?_, fun s hs => h.s s ?_, fun hk n hn => h.n hk n ?_, fun hk c hc => h.C1 hk c ?_⟩
  · exact (hi _ (by decide)).symm.trans hT
  · exact (hr _ (by decide)).symm.trans hs
  · unfold Params.regressorOutputs at hn ⊢
    rw [← hi _ (by decide)]; exact hn
  · exact (hr _ (by decide)).symm.trans hc

private theorem checkResponse_ok {y : List Int} {T : Int} (h : ¬ (checkResponseY y T).code ≠ .ok) : ∀ v ∈ y, 0 ≤ v ∧ v ≤ T := by
  unfold checkResponseY at h
  split at h
  · exact absurd (show Code.valueError ≠ .ok by decide) h
  · rename_i hy
    rw [Bool.not_eq_false, List.all_eq_true] at hy
    intro v hv
    have := hy v hv
    simp only [Bool.and_eq_true, decide_eq_true_eq] at this
    exact this

private theorem fitC_eq {B : Backend} (hm : IeeeMachine env t) (sc : Sched) {st : EstState B env} (hp : Ready k st.params) (X : List B.Sample) (y : List Int) (ml : Int) (epochs : Nat) :
    fitClassifierIeee B env sc st X y ml epochs = fitClassifier B env sc st X y ml epochs := by
  unfold fitClassifierIeee fitClassifier
  refine bind_eq fun _ _ => ?_
  split
  · rfl
  refine bind_eq fun _ _ => bind_eq fun hi1 _ => ?_
  dsimp only
  refine bind_eq fun _ _ => ?_
  split
  · rfl
  cases X with
  | nil => rfl
  | cons x0 xs =>
    dsimp only
    have hq : Ready k ((st.params.set "number_of_labels" (.int (max hi1 ml))).set "number_of_features" (.int (B.size x0))) := by
      refine hp.agree fun key hk => ?_
      simp only [sizeParams, List.mem_cons, List.not_mem_nil, or_false, not_or] at hk
      rw [Params.get?_set_ne _ hk.2, Params.get?_set_ne _ hk.1]
    generalize (st.params.set "number_of_labels" (.int (max hi1 ml))).set "number_of_features" (.int (B.size x0)) = p at hq
    rw [init_eq hm (k := k) (st := { st with params := p }) hq]
    refine bind_eq fun st' he => ?_
    have e1 := ifOk_iff.1 (initializeState_params _) _ he
    exact online_eq (k := k) hm sc (by rw [e1]; exact hq) _ _ _

private theorem fitR_eq {B : Backend} (hm : IeeeMachine env t) (sc : Sched) {st : EstState B env} (hp : Ready .regressor st.params) (X : List B.Sample) (y : List Int) (epochs : Nat) :
    fitRegressorIeee B env t sc st X y epochs = fitRegressor B env sc st X y epochs := by
  unfold fitRegressorIeee fitRegressor
  refine bind_eq fun _ _ => ?_
  split
  · rfl
  refine bind_eq fun T hT => ?_
  dsimp only
  split
  · rfl
  rename_i hy
  have hy := checkResponse_ok hy
  cases X with
  | nil => rfl
  | cons x0 xs =>
    dsimp only
    have ha : ∀ key, key ∉ sizeParams .classifier → (st.params.set "number_of_features" (.int (B.size x0))).get? key = st.params.get? key := by
      intro key hk
      simp only [sizeParams, List.mem_cons, List.not_mem_nil, or_false, not_or] at hk
      rw [Params.get?_set_ne _ hk.2]
    have hq : Ready .regressor (st.params.set "number_of_features" (.int (B.size x0))) := hp.agree ha
    generalize st.params.set "number_of_features" (.int (B.size x0)) = p at hq ha
    rw [init_eq hm (k := .regressor) (st := { st with params := p }) hq]
    refine bind_eq fun st' he => ?_
    have e1 := ifOk_iff.1 (initializeState_params _) _ he
    refine onlineR_eq hm sc (by rw [e1]; exact hq) _ (fun T' hT' => ?_) _
    have : T' = T := by
      rw [e1] at hT'
      unfold Params.threshold Params.getInt Params.at' at hT hT'
      dsimp only at hT'
      rw [ha _ (by decide), hT] at hT'
      exact (Res.ok.inj hT').symm
    subst this
    exact hy

private theorem evalLoop_le {B : Backend} {sc : Sched} {ta : TA B} {i : InferCfg} {X : List B.Sample} {y : List Int} {its : List Nat} {s s' : Cache × Nat}
    (h : evalLoop B sc ta i X y its s = .ok s') : s'.2 ≤ s.2 + its.length := by
  induction its generalizing s with
  | nil => cases h; simp
  | cons it its ih =>
    unfold evalLoop at h
    obtain ⟨x, -, h⟩ := bind_eq_ok.1 h
    obtain ⟨c, -, h⟩ := bind_eq_ok.1 h
    obtain ⟨yi, -, h⟩ := bind_eq_ok.1 h
    have := ih h
    rw [List.length_cons]
    dsimp only at this
    split at this <;> omega

/-! ### Calls -/

private theorem step_eq {B : Backend} (hm : IeeeMachine env t) (sc : Sched) (c : Call B.Sample k) {st : EstState B env} (hp : Ready k st.params)
    (hc : CountsFit c) : stepIeee B env t sc c st = step B env sc c st := by
  cases c with
  | fit X y ml ep =>
    unfold stepIeee step
    dsimp only
    rw [fitC_eq hm sc hp X y ml ep]
  | partialFit X y ml ep =>
    unfold stepIeee step
    dsimp only
    refine congrArg (tagged _) ?_
    unfold partialFitClassifierIeee partialFitClassifier
    split
    · unfold fitClassifierOnlineCheckedIeee fitClassifierOnlineChecked
      simp only [online_eq hm sc hp]
    · exact fitC_eq hm sc hp X y ml ep
  | fitR X y ep =>
    unfold stepIeee step
    dsimp only
    rw [fitR_eq hm sc hp X y ep]
  | partialFitR X y ep =>
    unfold stepIeee step
    dsimp only
    refine congrArg (tagged _) ?_
    unfold partialFitRegressorIeee partialFitRegressor
    split
    · unfold fitRegressorOnlineCheckedIeee fitRegressorOnlineChecked
      refine bind_eq fun _ _ => ?_
      split
      · rfl
      refine bind_eq fun _ _ => bind_eq fun _ _ => ?_
      split
      · rfl
      refine bind_eq fun T hT => ?_
      dsimp only
      split
      · rfl
      rename_i hy
      have hy := checkResponse_ok hy
      refine onlineR_eq hm sc hp _ (fun T' hT' => ?_) _
      rw [hT] at hT'
      rw [← Res.ok.inj hT']
      exact hy
    · exact fitR_eq hm sc hp X y ep
  | evaluate X y =>
    unfold stepIeee step
    dsimp only
    refine congrArg (tagged _) ?_
    unfold evaluateIeee evaluate
    refine bind_eq fun i _ => bind_eq fun r hr => ?_
    have hle := evalLoop_le hr
    obtain ⟨c, errors⟩ := r
    rw [List.length_range] at hle
    dsimp only at hle ⊢
    rw [C67_accuracy hm (by omega) (Nat.le_of_lt hc)]
  | _ => rfl

/-- **C67**, whole histories: on an IEEE machine every history of calls on an estimator that can arise gives what rounded arithmetic without
a bound on exponents gives, every result and the state it ends in, and also if it is undefined or throws. -/
theorem C67_history {a : Algo} (hm : IeeeMachine env t) {st : EstState a.backend env} (h : Reached a k st)
    (hC : k = .regressor → ∀ C1, st.params.get? "loss_fn_C1" = some (.real C1) → IsFloat C1) (sc : Sched) (cs : List (Call a.Sample k))
    (hc : ∀ c ∈ cs, CountsFit c) : runIeee a.backend env t sc cs st = run a.backend env sc cs st := by
  have hp := (reached_params h).configured
  clear h
  induction cs generalizing st with
  | nil => rfl
  | cons c cs ih =>
    unfold runIeee run
    rw [step_eq hm sc c (hp.ready hC) (hc c (by simp))]
    refine bind_eq fun r hr => ?_
    have hs : run a.backend env sc [c] st = .ok (r.1, [r.2]) := by
      unfold run
      rw [hr]; rfl
    have hq : ∀ key, key ∉ sizeParams k → r.1.params.get? key = st.params.get? key := fun key hk => run_sizes [c] hs hk
    rw [ih (st := r.1) (fun hk C1 h1 => hC hk C1 (by rw [← hq _ (by subst hk; decide)]; exact h1)) (fun c hc' => hc c (by simp [hc']))
      (hp.agree hq)]

/-- A regressor with the loss berHu and the least float as its C1, where overflow does happen, fresh from a factory: the theorem covers all
that may be done with it. -/
example (a : Algo) (sc : Sched) (cs : List (Call a.Sample .regressor)) (hc : ∀ c ∈ cs, CountsFit c) :
    let p := Toy.made (.regressorArgs (.lossFn "berHu" :: .lossC1 (.fin (-maxFloat)) :: Toy.rArgs true 3))
    p.get? "loss_fn_C1" = some (.real (.fin (-maxFloat))) ∧
    runIeee a.backend Toy.ieeeEnv Toy.tables sc cs (.fresh a.backend Toy.ieeeEnv p) = run a.backend Toy.ieeeEnv sc cs (.fresh a.backend Toy.ieeeEnv p) := by
  have hm : Made .regressor (Toy.made (.regressorArgs (.lossFn "berHu" :: .lossC1 (.fin (-maxFloat)) :: Toy.rArgs true 3))) :=
    Toy.made_of _ (by constructor <;> decide +kernel) (by decide +kernel)
  have hC : (Toy.made (.regressorArgs (.lossFn "berHu" :: .lossC1 (.fin (-maxFloat)) :: Toy.rArgs true 3))).get? "loss_fn_C1" = some (.real (.fin (-maxFloat))) := by
    decide +kernel
  refine ⟨hC, C67_history Toy.ieee ⟨_, sc, [], [], .made _ hm rfl, by simp, rfl⟩ (fun _ C1 h => ?_) sc cs hc⟩
  have h := hC.symm.trans h
  cases h
  exact ⟨rne32_nmax, Rat.le_refl, by decide +kernel⟩

end Tsetlini
