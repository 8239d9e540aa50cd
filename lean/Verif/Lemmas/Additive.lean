import Verif.Lemmas.Calls
import Verif.Lemmas.Direct
/- Epochs add up. -/
namespace Tsetlini
open Res Spec

theorem iter_range_const {σ : Type} (f : σ → Res σ) (b : Nat) (s : σ) (l : List Nat) (hl : l.length = b) :
    iter l (fun _ s => f s) s = iter (List.range b) (fun _ s => f s) s := by
  subst hl
  have key : ∀ (l l' : List Nat) (s : σ), l.length = l'.length → iter l (fun _ s => f s) s = iter l' (fun _ s => f s) s := by
    intro l
    induction l with
    | nil => intro l' s h; cases l' with
      | nil => rfl
      | cons _ _ => cases h
    | cons i l ih => intro l' s h; cases l' with
      | nil => cases h
      | cons j l' =>
        rw [iter_cons, iter_cons]
        congr 1
        funext s1
        exact ih _ _ (by simpa using h)
  exact key _ _ _ (by simp)

theorem iter_range_add {σ : Type} (f : σ → Res σ) (a b : Nat) {s s1 : σ} (h : iter (List.range a) (fun _ s => f s) s = .ok s1) :
    iter (List.range (a + b)) (fun _ s => f s) s = iter (List.range b) (fun _ s => f s) s1 := by
  rw [List.range_add, iter_append, h, ok_bind]
  exact iter_range_const f b s1 _ (by simp)

variable {B : Backend} {env : Env} {sc : Sched} {st st1 : EstState B env} {X : List B.Sample} {y : List Int} {s : Status} {ml : Int}

theorem fitClassifierOnline_add {a : Nat} (h : fitClassifierOnline B env sc st X y a = .ok (st1, s)) (b : Nat) :
    fitClassifierOnline B env sc st1 X y b = fitClassifierOnline B env sc st X y (a + b) := by
  have hp := (ifOk_iff.1 (fitClassifierOnline_params st X y a) _ h).1
  dsimp only at hp
  unfold fitClassifierOnline at h ⊢
  rw [hp]
  simp only [bind_eq_ok] at h
  obtain ⟨_, e1, _, e2, _, e3, _, e4, _, e5, _, e6, _, e7, _, e8, _, e9, _, e10, st2, h, h'⟩ := h
  simp only [e1, e2, e3, e4, e5, e6, e7, e8, e9, e10, ok_bind]
  cases h'
  rw [iter_range_add _ a b h]

theorem fitRegressorOnline_add {a : Nat} (h : fitRegressorOnline B env sc st X y a = .ok (st1, s)) (b : Nat) :
    fitRegressorOnline B env sc st1 X y b = fitRegressorOnline B env sc st X y (a + b) := by
  have hp := (ifOk_iff.1 (fitRegressorOnline_params st X y a) _ h).1
  dsimp only at hp
  unfold fitRegressorOnline at h ⊢
  rw [hp]
  simp only [bind_eq_ok] at h
  obtain ⟨_, e1, _, e2, _, e3, _, e4, _, e5, _, e6, _, e7, _, e8, _, e9, _, e10, _, e11, _, e12, _, e13, st2, h, h'⟩ := h
  simp only [e1, e2, e3, e4, e5, e6, e7, e8, e9, e10, e11, e12, e13, ok_bind]
  cases h'
  rw [iter_range_add _ a b h]

theorem fitClassifier_split {a : Nat} (h : fitClassifier B env sc st X y ml a = .ok (st1, s)) (hc : s.code = .ok) :
    ∃ stI : EstState B env, ∀ ep, fitClassifier B env sc st X y ml ep = fitClassifierOnline B env sc stI X y ep := by
  unfold fitClassifier at h
  rw [bind_eq_ok] at h
  obtain ⟨s1, e1, h⟩ := h
  by_cases hc1 : s1.code = .ok
  rotate_left
  · rw [if_pos hc1] at h; cases h; exact absurd hc hc1
  rw [if_neg (by simpa using hc1)] at h
  simp only [bind_eq_ok] at h
  obtain ⟨hi, e2, hi1, e3, s2, e4, h⟩ := h
  by_cases hc2 : s2.code = .ok
  rotate_left
  · rw [if_pos hc2] at h; cases h; exact absurd hc hc2
  rw [if_neg (by simpa using hc2)] at h
  cases X with
  | nil => cases h
  | cons x0 rest =>
    dsimp only at h
    rw [bind_eq_ok] at h
    obtain ⟨stI, e5, h⟩ := h
    refine ⟨stI, fun ep => ?_⟩
    unfold fitClassifier
    rw [e1, ok_bind, if_neg (by simpa using hc1), e2, ok_bind, e3, ok_bind]
    dsimp only
    rw [e4, ok_bind, if_neg (by simpa using hc2), e5, ok_bind]

theorem fitRegressor_split {a : Nat} (h : fitRegressor B env sc st X y a = .ok (st1, s)) (hc : s.code = .ok) :
    ∃ stI : EstState B env, ∀ ep, fitRegressor B env sc st X y ep = fitRegressorOnline B env sc stI X y ep := by
  unfold fitRegressor at h
  rw [bind_eq_ok] at h
  obtain ⟨s1, e1, h⟩ := h
  by_cases hc1 : s1.code = .ok
  rotate_left
  · rw [if_pos hc1] at h; cases h; exact absurd hc hc1
  rw [if_neg (by simpa using hc1), bind_eq_ok] at h
  obtain ⟨T, e2, h⟩ := h
  dsimp only at h
  by_cases hc2 : (checkResponseY y T).code = .ok
  rotate_left
  · rw [if_pos hc2] at h; cases h; exact absurd hc hc2
  rw [if_neg (by simpa using hc2)] at h
  cases X with
  | nil => cases h
  | cons x0 rest =>
    dsimp only at h
    rw [bind_eq_ok] at h
    obtain ⟨stI, e5, h⟩ := h
    refine ⟨stI, fun ep => ?_⟩
    unfold fitRegressor
    rw [e1, ok_bind, if_neg (by simpa using hc1), e2, ok_bind]
    dsimp only
    rw [if_neg (by simpa using hc2), e5, ok_bind]

theorem fitClassifierOnlineChecked_split {a : Nat} (h : fitClassifierOnlineChecked B env sc st X y a = .ok (st1, s)) (hc : s.code = .ok)
    {st' : EstState B env} (hp : st'.params = st.params) (ep : Nat) :
    fitClassifierOnlineChecked B env sc st' X y ep = fitClassifierOnline B env sc st' X y ep := by
  unfold fitClassifierOnlineChecked at h ⊢
  rw [bind_eq_ok] at h
  obtain ⟨s1, e1, h⟩ := h
  by_cases hc1 : s1.code = .ok
  rotate_left
  · rw [if_pos hc1] at h; cases h; exact absurd hc hc1
  rw [if_neg (by simpa using hc1), bind_eq_ok] at h
  obtain ⟨nf, e2, h⟩ := h
  rw [bind_eq_ok] at h
  obtain ⟨s2, e3, h⟩ := h
  by_cases hc2 : s2.code = .ok
  rotate_left
  · rw [if_pos hc2] at h; cases h; exact absurd hc hc2
  rw [if_neg (by simpa using hc2)] at h
  simp only [bind_eq_ok] at h
  obtain ⟨l, e4, m, e5, s3, e6, h⟩ := h
  by_cases hc3 : s3.code = .ok
  rotate_left
  · rw [if_pos hc3] at h; cases h; exact absurd hc hc3
  rw [hp, e1, ok_bind, if_neg (by simpa using hc1), e2, ok_bind, e3, ok_bind, if_neg (by simpa using hc2), e4, ok_bind,
    e5, ok_bind, e6, ok_bind, if_neg (by simpa using hc3)]

theorem fitRegressorOnlineChecked_split {a : Nat} (h : fitRegressorOnlineChecked B env sc st X y a = .ok (st1, s)) (hc : s.code = .ok)
    {st' : EstState B env} (hp : st'.params = st.params) (ep : Nat) :
    fitRegressorOnlineChecked B env sc st' X y ep = fitRegressorOnline B env sc st' X y ep := by
  unfold fitRegressorOnlineChecked at h ⊢
  rw [bind_eq_ok] at h
  obtain ⟨s1, e1, h⟩ := h
  by_cases hc1 : s1.code = .ok
  rotate_left
  · rw [if_pos hc1] at h; cases h; exact absurd hc hc1
  rw [if_neg (by simpa using hc1), bind_eq_ok] at h
  obtain ⟨nf, e2, h⟩ := h
  rw [bind_eq_ok] at h
  obtain ⟨s2, e3, h⟩ := h
  by_cases hc2 : s2.code = .ok
  rotate_left
  · rw [if_pos hc2] at h; cases h; exact absurd hc hc2
  rw [if_neg (by simpa using hc2), bind_eq_ok] at h
  obtain ⟨T, e4, h⟩ := h
  dsimp only at h
  by_cases hc3 : (checkResponseY y T).code = .ok
  rotate_left
  · rw [if_pos hc3] at h; cases h; exact absurd hc hc3
  rw [hp, e1, ok_bind, if_neg (by simpa using hc1), e2, ok_bind, e3, ok_bind, if_neg (by simpa using hc2), e4, ok_bind]
  dsimp only
  rw [if_neg (by simpa using hc3)]

/-- After the checks nothing but training is left (classifiers). -/
theorem refit_checked {a : Algo} {cfg : Cfg} {labels nf : Nat} {X : List a.Sample} {y : List Int} {st : EstState a.backend env} {ss : SState env}
    (hk : cfg.kind = .classifier) (ht : Typed a.lawful X y) (hne : X ≠ []) (h : Fit a.lawful cfg labels nf st ss)
    (hsm : labels ≤ 2147483647)
    (hd : DataOk a.lawful labels nf X y) (ep : Nat) :
    fitClassifierOnlineChecked a.backend env sc st X y ep = fitClassifierOnline a.backend env sc st X y ep := by
  have hyne : y ≠ [] := by
    intro e; have := hd.len; rw [e] at this
    exact hne (List.length_eq_zero_iff.1 this.symm)
  have hxy : XyOk a.lawful X y :=
    ⟨hne, hyne, hd.len, fun x hx z hz => (hd.xs x hx).size.trans (hd.xs z hz).size.symm, fun x hx => (hd.xs x hx).bin⟩
  unfold fitClassifierOnlineChecked
  obtain ⟨s1, e1, k1⟩ := checkXy_ok a.lawful X y ht.xs
  obtain ⟨s2, e2, k2⟩ := checkX_ok a.lawful hxy (nf := nf)
  obtain ⟨s3, e3, k3⟩ := checkLabelsMax_ok hyne labels
  have hfeat : st.params.numberOfFeatures = .ok (nf : Int) := Params.getInt_eq h.featP
  have hlab : st.params.numberOfLabels = .ok (labels : Int) := Params.getInt_eq (h.labelsP hk)
  have hp := h.pos
  rw [e1, ok_bind, if_neg (by simpa using k1.2 hxy), hfeat, ok_bind, e2, ok_bind,
    if_neg (by simpa using k2.2 fun x hx => (hd.xs x hx).size), hlab, ok_bind, i32_ok (by omega) (by omega), ok_bind, e3, ok_bind,
    if_neg (by simpa using k3.2 hd.ys)]

/-- After the checks nothing but training is left (regressors). -/
theorem refitR_checked {a : Algo} {cfg : Cfg} {nf : Nat} {X : List a.Sample} {y : List Int} {st : EstState a.backend env} {ss : SState env}
    (ht : Typed a.lawful X y) (hne : X ≠ []) (h : Fit a.lawful cfg 1 nf st ss)
    (hd : RegDataOk a.lawful cfg.T nf X y) (ep : Nat) :
    fitRegressorOnlineChecked a.backend env sc st X y ep = fitRegressorOnline a.backend env sc st X y ep := by
  have hyne : y ≠ [] := by
    intro e; have := hd.len; rw [e] at this
    exact hne (List.length_eq_zero_iff.1 this.symm)
  have hxy : XyOk a.lawful X y :=
    ⟨hne, hyne, hd.len, fun x hx z hz => (hd.xs x hx).size.trans (hd.xs z hz).size.symm, fun x hx => (hd.xs x hx).bin⟩
  unfold fitRegressorOnlineChecked
  obtain ⟨s1, e1, k1⟩ := checkXy_ok a.lawful X y ht.xs
  obtain ⟨s2, e2, k2⟩ := checkX_ok a.lawful hxy (nf := nf)
  have hfeat : st.params.numberOfFeatures = .ok (nf : Int) := Params.getInt_eq h.featP
  rw [e1, ok_bind, if_neg (by simpa using k1.2 hxy), hfeat, ok_bind, e2, ok_bind,
    if_neg (by simpa using k2.2 fun x hx => (hd.xs x hx).size), h.reads.p_T, ok_bind]
  dsimp only
  rw [if_neg (by simpa using (checkResponseY_ok _ _).2 hd.ys)]

end Tsetlini
