import Verif.Lemmas.Predict
import Verif.Model.History
/- What calls do to parameters and to rejected estimators, in any state whatsoever. -/
namespace Tsetlini
open Res Spec

section
variable {B : Backend} {env : Env} {sc : Sched}

theorem ifOk_bind_any {α β : Type} {r : Res α} {f : α → Res β} {Q : β → Prop} (h : ∀ a, (f a).IfOk Q) :
    (r.bind f).IfOk Q := by
  cases r with
  | ok a => exact h a
  | ub _ => trivial
  | exn _ => trivial
  | timeout => trivial

theorem classifierUpdate_params {cfg : TrainCfg} {X : B.Sample} {t o : Int} (st : EstState B env) :
    (classifierUpdate B env sc cfg X t o st).IfOk fun r => r.params = st.params := by
  unfold classifierUpdate
  iterate 11 (refine ifOk_bind_any fun _ => ?_)
  exact rfl

theorem classifierEpoch_params {cfg : TrainCfg} {X : List B.Sample} {y : List Int} (st : EstState B env) :
    (classifierEpoch B env sc cfg X y st).IfOk fun r => r.params = st.params := by
  unfold classifierEpoch
  refine ifOk_bind_any fun q => ?_
  refine iter_ifOk (P := fun s : EstState B env => s.params = st.params) _ _ rfl ?_
  intro i _ s hs
  iterate 3 (refine ifOk_bind_any fun _ => ?_)
  refine ifOk_iff.2 fun a ha => ?_
  exact (ifOk_iff.1 (classifierUpdate_params s) a ha).trans hs

theorem fitClassifierOnline_params (st : EstState B env) (X : List B.Sample) (y : List Int) (ep : Nat) :
    (fitClassifierOnline B env sc st X y ep).IfOk fun r => r.1.params = st.params ∧ r.2 = .sOk := by
  unfold fitClassifierOnline
  iterate 10 (refine ifOk_bind_any fun _ => ?_)
  refine IfOk.bind (P := fun s : EstState B env => s.params = st.params)
    (iter_ifOk (P := fun s : EstState B env => s.params = st.params) _ _ rfl ?_) ?_
  · intro i _ s hs
    exact ifOk_iff.2 fun a ha => (ifOk_iff.1 (classifierEpoch_params s) a ha).trans hs
  · intro s hs
    exact ⟨hs, rfl⟩

theorem regressorUpdate_params {cfg : RegCfg} {X : B.Sample} {t : Int} (st : EstState B env) :
    (regressorUpdate B env sc cfg X t st).IfOk fun r => r.params = st.params := by
  unfold regressorUpdate
  iterate 4 (refine ifOk_bind_any fun _ => ?_)
  exact rfl

theorem regressorEpoch_params {cfg : RegCfg} {X : List B.Sample} {y : List Int} (st : EstState B env) :
    (regressorEpoch B env sc cfg X y st).IfOk fun r => r.params = st.params := by
  unfold regressorEpoch
  refine iter_ifOk (P := fun s : EstState B env => s.params = st.params) _ _ rfl ?_
  intro i _ s hs
  iterate 2 (refine ifOk_bind_any fun _ => ?_)
  exact ifOk_iff.2 fun a ha => (ifOk_iff.1 (regressorUpdate_params s) a ha).trans hs

theorem fitRegressorOnline_params (st : EstState B env) (X : List B.Sample) (y : List Int) (ep : Nat) :
    (fitRegressorOnline B env sc st X y ep).IfOk fun r => r.1.params = st.params ∧ r.2 = .sOk := by
  unfold fitRegressorOnline
  iterate 13 (refine ifOk_bind_any fun _ => ?_)
  refine IfOk.bind (P := fun s : EstState B env => s.params = st.params)
    (iter_ifOk (P := fun s : EstState B env => s.params = st.params) _ _ rfl ?_) ?_
  · intro i _ s hs
    exact ifOk_iff.2 fun a ha => (ifOk_iff.1 (regressorEpoch_params s) a ha).trans hs
  · intro s hs
    exact ⟨hs, rfl⟩

theorem initializeState_params {k : Kind} (st : EstState B env) :
    (initializeState B env k st).IfOk fun r => r.params = st.params := by
  unfold initializeState
  iterate 11 (refine ifOk_bind_any fun _ => ?_)
  exact rfl

/-- What a training call may do: nothing when it reports an error, otherwise set the two sizes. -/
def TrainEffect (st : EstState B env) (r : EstState B env × Status) : Prop :=
  (r.2.code ≠ .ok → r.1 = st) ∧
  ∀ key, key ≠ "number_of_labels" → key ≠ "number_of_features" → r.1.params.get? key = st.params.get? key

theorem TrainEffect.same (st : EstState B env) (s : Status) : TrainEffect st (st, s) :=
  ⟨fun _ => rfl, fun _ _ _ => rfl⟩

theorem fitClassifier_effect (st : EstState B env) (X : List B.Sample) (y : List Int) (ml : Int) (ep : Nat) :
    (fitClassifier B env sc st X y ml ep).IfOk (TrainEffect st) := by
  unfold fitClassifier
  refine ifOk_bind_any fun sm => ?_
  split
  · exact .same _ _
  refine ifOk_bind_any fun _ => ?_
  refine ifOk_bind_any fun _ => ?_
  dsimp only
  refine ifOk_bind_any fun sm => ?_
  split
  · exact .same _ _
  split
  · trivial
  · refine ifOk_iff.2 fun a ha => ?_
    rw [bind_eq_ok] at ha
    obtain ⟨st1, h1, h2⟩ := ha
    have e1 := ifOk_iff.1 (initializeState_params _) _ h1
    obtain ⟨e2, e3⟩ := ifOk_iff.1 (fitClassifierOnline_params _ _ _ _) _ h2
    refine ⟨fun h => absurd (by rw [e3]; rfl) h, fun key n1 n2 => ?_⟩
    rw [e2, e1, Params.get?_set_ne _ n2, Params.get?_set_ne _ n1]

theorem fitClassifierOnlineChecked_effect (st : EstState B env) (X : List B.Sample) (y : List Int) (ep : Nat) :
    (fitClassifierOnlineChecked B env sc st X y ep).IfOk
      fun r => (r.2.code ≠ .ok → r.1 = st) ∧ r.1.params = st.params := by
  unfold fitClassifierOnlineChecked
  refine ifOk_bind_any fun sm => ?_
  split
  · exact ⟨fun _ => rfl, rfl⟩
  refine ifOk_bind_any fun _ => ?_
  refine ifOk_bind_any fun sm => ?_
  split
  · exact ⟨fun _ => rfl, rfl⟩
  refine ifOk_bind_any fun _ => ?_
  refine ifOk_bind_any fun _ => ?_
  refine ifOk_bind_any fun sm => ?_
  split
  · exact ⟨fun _ => rfl, rfl⟩
  refine ifOk_iff.2 fun a ha => ?_
  obtain ⟨e2, e3⟩ := ifOk_iff.1 (fitClassifierOnline_params _ _ _ _) _ ha
  exact ⟨fun h => absurd (by rw [e3]; rfl) h, e2⟩

theorem partialFitClassifier_effect (st : EstState B env) (X : List B.Sample) (y : List Int) (ml : Int) (ep : Nat) :
    (partialFitClassifier B env sc st X y ml ep).IfOk (TrainEffect st) := by
  unfold partialFitClassifier
  split
  · refine ifOk_iff.2 fun a ha => ?_
    obtain ⟨e2, e3⟩ := ifOk_iff.1 (fitClassifierOnlineChecked_effect _ _ _ _) _ ha
    exact ⟨e2, fun _ _ _ => by rw [e3]⟩
  · exact fitClassifier_effect _ _ _ _ _

theorem fitRegressor_effect (st : EstState B env) (X : List B.Sample) (y : List Int) (ep : Nat) :
    (fitRegressor B env sc st X y ep).IfOk (TrainEffect st) := by
  unfold fitRegressor
  refine ifOk_bind_any fun sm => ?_
  split
  · exact .same _ _
  refine ifOk_bind_any fun _ => ?_
  dsimp only
  split
  · exact .same _ _
  split
  · trivial
  · refine ifOk_iff.2 fun a ha => ?_
    rw [bind_eq_ok] at ha
    obtain ⟨st1, h1, h2⟩ := ha
    have e1 := ifOk_iff.1 (initializeState_params _) _ h1
    obtain ⟨e2, e3⟩ := ifOk_iff.1 (fitRegressorOnline_params _ _ _ _) _ h2
    refine ⟨fun h => absurd (by rw [e3]; rfl) h, fun key n1 n2 => ?_⟩
    rw [e2, e1, Params.get?_set_ne _ n2]

theorem fitRegressorOnlineChecked_effect (st : EstState B env) (X : List B.Sample) (y : List Int) (ep : Nat) :
    (fitRegressorOnlineChecked B env sc st X y ep).IfOk
      fun r => (r.2.code ≠ .ok → r.1 = st) ∧ r.1.params = st.params := by
  unfold fitRegressorOnlineChecked
  refine ifOk_bind_any fun sm => ?_
  split
  · exact ⟨fun _ => rfl, rfl⟩
  refine ifOk_bind_any fun _ => ?_
  refine ifOk_bind_any fun sm => ?_
  split
  · exact ⟨fun _ => rfl, rfl⟩
  refine ifOk_bind_any fun _ => ?_
  dsimp only
  split
  · exact ⟨fun _ => rfl, rfl⟩
  refine ifOk_iff.2 fun a ha => ?_
  obtain ⟨e2, e3⟩ := ifOk_iff.1 (fitRegressorOnline_params _ _ _ _) _ ha
  exact ⟨fun h => absurd (by rw [e3]; rfl) h, e2⟩

theorem partialFitRegressor_effect (st : EstState B env) (X : List B.Sample) (y : List Int) (ep : Nat) :
    (partialFitRegressor B env sc st X y ep).IfOk (TrainEffect st) := by
  unfold partialFitRegressor
  split
  · refine ifOk_iff.2 fun a ha => ?_
    obtain ⟨e2, e3⟩ := ifOk_iff.1 (fitRegressorOnlineChecked_effect _ _ _ _) _ ha
    exact ⟨e2, fun _ _ _ => by rw [e3]⟩
  · exact fitRegressor_effect _ _ _ _

/-! ### Readers -/

theorem Frozen.cache (st : EstState B env) (c : Cache) : Frozen st { st with cache := c } := ⟨rfl, rfl, rfl, rfl⟩

theorem predictClassifier1_frozen (st : EstState B env) (x : B.Sample) :
    (predictClassifier1 B env sc st x).IfOk fun r => Frozen st r.1 := by
  unfold predictClassifier1
  refine ifOk_bind_any fun sm => ?_
  split
  · exact Frozen.refl _
  iterate 2 (refine ifOk_bind_any fun _ => ?_)
  exact Frozen.cache _ _

theorem predictClassifier_frozen (st : EstState B env) (X : List B.Sample) :
    (predictClassifier B env sc st X).IfOk fun r => Frozen st r.1 := by
  unfold predictClassifier
  refine ifOk_bind_any fun sm => ?_
  split
  · exact Frozen.refl _
  iterate 2 (refine ifOk_bind_any fun _ => ?_)
  exact Frozen.cache _ _

theorem decision1_frozen (st : EstState B env) (x : B.Sample) :
    (decision1 B env sc st x).IfOk fun r => Frozen st r.1 := by
  unfold decision1
  refine ifOk_bind_any fun sm => ?_
  split
  · exact Frozen.refl _
  iterate 2 (refine ifOk_bind_any fun _ => ?_)
  exact Frozen.cache _ _

theorem decision_frozen (st : EstState B env) (X : List B.Sample) :
    (decision B env sc st X).IfOk fun r => Frozen st r.1 := by
  unfold decision
  refine ifOk_bind_any fun sm => ?_
  split
  · exact Frozen.refl _
  iterate 2 (refine ifOk_bind_any fun _ => ?_)
  exact Frozen.cache _ _

theorem evaluate_frozen (st : EstState B env) (X : List B.Sample) (y : List Int) :
    (evaluate B env sc st X y).IfOk fun r => Frozen st r.1 := by
  unfold evaluate
  iterate 2 (refine ifOk_bind_any fun _ => ?_)
  exact Frozen.cache _ _

theorem predictRegressor1_frozen (st : EstState B env) (x : B.Sample) :
    (predictRegressor1 B env sc st x).IfOk fun r => Frozen st r.1 := by
  unfold predictRegressor1
  refine ifOk_bind_any fun sm => ?_
  split
  · exact Frozen.refl _
  iterate 5 (refine ifOk_bind_any fun _ => ?_)
  exact Frozen.cache _ _

theorem predictRegressor_frozen (st : EstState B env) (X : List B.Sample) :
    (predictRegressor B env sc st X).IfOk fun r => Frozen st r.1 := by
  unfold predictRegressor
  refine ifOk_bind_any fun sm => ?_
  split
  · exact Frozen.refl _
  iterate 5 (refine ifOk_bind_any fun _ => ?_)
  exact Frozen.cache _ _

theorem Frozen.other {st st' : EstState B env} (h : Frozen st st') (key : String) :
    st'.params.get? key = st.params.get? key := by rw [h.params]

theorem tagged_ifOk {α : Type} {f : α → Out} {r : Res (EstState B env × α)} {P : EstState B env → Prop}
    (h : r.IfOk fun r => P r.1) : (tagged f r).IfOk fun r => P r.1 := by
  unfold tagged
  exact h.bind fun _ ha => ha

/-- No call changes a parameter other than the two sizes. -/
theorem step_other {k : Kind} (c : Call B.Sample k) (st : EstState B env) :
    (step B env sc c st).IfOk fun r => ∀ key, key ≠ "number_of_labels" → key ≠ "number_of_features" →
      r.1.params.get? key = st.params.get? key := by
  have tr : ∀ {r : Res (EstState B env × Status)}, r.IfOk (TrainEffect st) →
      r.IfOk fun r => ∀ key, key ≠ "number_of_labels" → key ≠ "number_of_features" →
      r.1.params.get? key = st.params.get? key := fun h => ifOk_iff.2 fun a ha => (ifOk_iff.1 h a ha).2
  have ro : ∀ {α : Type} {r : Res (EstState B env × α)}, (r.IfOk fun r => Frozen st r.1) →
      r.IfOk fun r => ∀ key, key ≠ "number_of_labels" → key ≠ "number_of_features" →
      r.1.params.get? key = st.params.get? key :=
    fun h => ifOk_iff.2 fun a ha key _ _ => (ifOk_iff.1 h a ha).other key
  let P : EstState B env → Prop := fun s => ∀ key, key ≠ "number_of_labels" → key ≠ "number_of_features" →
      s.params.get? key = st.params.get? key
  cases c with
  | fit X y ml ep => exact tagged_ifOk (P := P) (tr (fitClassifier_effect _ _ _ _ _))
  | partialFit X y ml ep => exact tagged_ifOk (P := P) (tr (partialFitClassifier_effect _ _ _ _ _))
  | predict1 x => exact tagged_ifOk (P := P) (ro (predictClassifier1_frozen _ _))
  | predict X => exact tagged_ifOk (P := P) (ro (predictClassifier_frozen _ _))
  | decision1 x => exact tagged_ifOk (P := P) (ro (decision1_frozen _ _))
  | decision X => exact tagged_ifOk (P := P) (ro (decision_frozen _ _))
  | evaluate X y => exact tagged_ifOk (P := P) (ro (evaluate_frozen _ _ _))
  | fitR X y ep => exact tagged_ifOk (P := P) (tr (fitRegressor_effect _ _ _ _))
  | partialFitR X y ep => exact tagged_ifOk (P := P) (tr (partialFitRegressor_effect _ _ _ _))
  | predictR1 x => exact tagged_ifOk (P := P) (ro (predictRegressor1_frozen _ _))
  | predictR X => exact tagged_ifOk (P := P) (ro (predictRegressor_frozen _ _))

theorem run_other {k : Kind} (cs : List (Call B.Sample k)) (st : EstState B env) {r : EstState B env × List Out}
    (h : run B env sc cs st = .ok r) : ∀ key, key ≠ "number_of_labels" → key ≠ "number_of_features" →
      r.1.params.get? key = st.params.get? key := by
  induction cs generalizing st r with
  | nil => cases h; exact fun _ _ _ => rfl
  | cons c cs ih =>
    unfold run at h
    simp only [bind_eq_ok] at h
    obtain ⟨r1, h1, r2, h2, h3⟩ := h
    cases h3
    intro key n1 n2
    exact (ih r1.1 h2 key n1 n2).trans (ifOk_iff.1 (step_other c st) _ h1 key n1 n2)

end
end Tsetlini
