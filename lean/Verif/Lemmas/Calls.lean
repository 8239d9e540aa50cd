import Verif.Lemmas.Epoch
/- Successful training calls, unfolded. -/
namespace Tsetlini
open Res Spec

variable {a : Algo} {env : Env} {cfg : Cfg} {sc : Sched} {X : List a.Sample} {y : List Int} {ml : Int} {ep : Nat}
  {st st' : EstState a.backend env} {ss : SState env} {s : Status}

theorem Fit.ofSim {labels nf : Nat} (h : Sim a.lawful cfg st ss) (hs : ss.shape = some (labels, nf)) : Fit a.lawful cfg labels nf st ss := by
  rcases h with h | ⟨l, n, h⟩
  · rw [h.shape] at hs; cases hs
  · rw [h.shape] at hs; cases hs; exact h

theorem fit_call (hv : Valid cfg) (hk : cfg.kind = .classifier) (hN : a.lawful.minStates ≤ cfg.states) (ht : Typed a.lawful X y)
    (h : Sim a.lawful cfg st ss) (hr : fitClassifier a.backend env sc st X y ml ep = .ok (st', s)) (hc : s.code = .ok) :
    ∃ labels nf ss', labels = numLabels y ml ∧ nf = width a.backend X ∧ Fit a.lawful cfg labels nf st' ss' ∧ s = .sOk ∧
      DataOk a.lawful labels nf X y ∧ (ep = 0 ∨ (2 ≤ labels ∧ cfg.T * 2 ≤ 2147483647)) ∧
      iter (List.range ep) (fun _ ss => epochS a.lawful env cfg labels nf X y ss) (initS env cfg labels nf ss.weights) = .ok ss' := by
  have hsz := fitClassifier_sized a.lawful hv hk ht h hr
  have href := fitClassifier_ref a.lawful sc hv hk hN ht hsz.1 hsz.2 h
  rw [hr] at href
  obtain ⟨⟨ss', s'⟩, e, h1, h2⟩ := href.ok_left
  dsimp only at h1 h2
  subst h2
  unfold fitS at e
  obtain ⟨s1, e1, k1⟩ := checkXy_ok a.lawful X y ht.xs
  rw [e1, ok_bind] at e
  by_cases hc1 : s1.code = .ok
  rotate_left
  · rw [if_pos hc1] at e; cases e; exact absurd hc hc1
  rw [if_neg (by simpa using hc1)] at e
  have hxy := k1.1 hc1
  obtain ⟨s2, e2, k2⟩ := checkLabels_ok hxy.yne
  rw [e2, ok_bind] at e
  by_cases hc2 : s2.code = .ok
  rotate_left
  · rw [if_pos hc2] at e; cases e; exact absurd hc hc2
  rw [if_neg (by simpa using hc2)] at e
  have hy0 := k2.1 hc2
  have hS := hsz.2 hxy hy0
  dsimp only at e
  rw [bind_eq_ok] at e
  obtain ⟨ss2, e3, e4⟩ := e
  cases e4
  obtain ⟨n1, n2, n3⟩ := numLabels_spec hxy.yne hy0 ml
  have hpn : 1 ≤ numLabels y ml * cfg.k := Nat.mul_pos n2 hv.k_pos
  have hnf := a.lawful.alloc_small hS.alloc (by omega)
  have hsh : ss'.shape = some (numLabels y ml, width a.backend X) := by
    rw [iter_frame SState.shape (fun i hi s s' hs => epochS_shape hv hnf hs) e3]; rfl
  refine ⟨_, _, ss', rfl, rfl, Fit.ofSim h1 hsh, rfl, ?_, hS.train, e3⟩
  refine ⟨hxy.len, fun x hx => ⟨ht.xs x hx, hxy.bin x hx, ?_⟩, fun v hv => ⟨hy0 v hv, n3 v hv⟩⟩
  cases hXe : X with
  | nil => exact absurd hXe hxy.ne
  | cons x0 rest => exact hxy.size x hx x0 (by rw [hXe]; simp)

theorem refit_call {labels nf : Nat} (hv : Valid cfg) (hk : cfg.kind = .classifier) (hN : a.lawful.minStates ≤ cfg.states) (ht : Typed a.lawful X y)
    (h : Fit a.lawful cfg labels nf st ss) (hr : partialFitClassifier a.backend env sc st X y ml ep = .ok (st', s)) (hc : s.code = .ok) :
    ∃ ss', Fit a.lawful cfg labels nf st' ss' ∧ s = .sOk ∧
      DataOk a.lawful labels nf X y ∧ (ep = 0 ∨ (2 ≤ labels ∧ cfg.T * 2 ≤ 2147483647)) ∧ st'.params = st.params ∧
      iter (List.range ep) (fun _ ss => epochS a.lawful env cfg labels nf X y ss) ss = .ok ss' := by
  have hsz := partialFitClassifier_sized a.lawful hv hk ht (.inr ⟨_, _, h⟩) hr
  unfold partialFitClassifier at hr
  rw [if_pos (h.fitted hv)] at hr
  unfold PSized at hsz
  rw [h.shape] at hsz
  dsimp only at hsz
  have href := refitClassifier_ref a.lawful sc hv hk hN ht hsz h
  rw [hr] at href
  obtain ⟨⟨ss', s'⟩, e, h1, h2, h3⟩ := href.ok_left
  dsimp only at h1 h2 h3
  subst h2
  unfold refitS at e
  obtain ⟨s1, e1, k1⟩ := checkXy_ok a.lawful X y ht.xs
  rw [e1, ok_bind] at e
  by_cases hc1 : s1.code = .ok
  rotate_left
  · rw [if_pos hc1] at e; cases e; exact absurd hc hc1
  rw [if_neg (by simpa using hc1)] at e
  have hxy := k1.1 hc1
  obtain ⟨s2, e2, k2⟩ := checkX_ok a.lawful hxy (nf := nf)
  rw [e2, ok_bind] at e
  by_cases hc2 : s2.code = .ok
  rotate_left
  · rw [if_pos hc2] at e; cases e; exact absurd hc hc2
  rw [if_neg (by simpa using hc2)] at e
  obtain ⟨s3, e3, k3⟩ := checkLabelsMax_ok hxy.yne labels
  rw [e3, ok_bind] at e
  by_cases hc3 : s3.code = .ok
  rotate_left
  · rw [if_pos hc3] at e; cases e; exact absurd hc hc3
  rw [if_neg (by simpa using hc3), bind_eq_ok] at e
  obtain ⟨ss2, e4, e5⟩ := e
  cases e5
  have a2 := k2.1 hc2
  have a3 := k3.1 hc3
  exact ⟨ss', h1, rfl, ⟨hxy.len, fun x hx => ⟨ht.xs x hx, hxy.bin x hx, a2 x hx⟩, a3⟩, hsz hxy a2 a3, h3, e4⟩

theorem fitR_call (hv : Valid cfg) (hk : cfg.kind = .regressor) (hN : a.lawful.minStates ≤ cfg.states) (ht : Typed a.lawful X y)
    (h : Sim a.lawful cfg st ss) (hr : fitRegressor a.backend env sc st X y ep = .ok (st', s)) (hc : s.code = .ok) :
    ∃ nf ss', nf = width a.backend X ∧ Fit a.lawful cfg 1 nf st' ss' ∧ s = .sOk ∧
      RegDataOk a.lawful cfg.T nf X y ∧
      iter (List.range ep) (fun _ ss => regEpochS a.lawful env cfg nf X y ss) (initS env cfg 1 nf ss.weights) = .ok ss' := by
  have hsz := fitRegressor_sized a.lawful hv hk ht h hr
  have href := fitRegressor_ref a.lawful sc hv hk hN ht (ep := ep) hsz h
  rw [hr] at href
  obtain ⟨⟨ss', s'⟩, e, h1, h2⟩ := href.ok_left
  dsimp only at h1 h2
  subst h2
  unfold fitRS at e
  obtain ⟨s1, e1, k1⟩ := checkXy_ok a.lawful X y ht.xs
  rw [e1, ok_bind] at e
  by_cases hc1 : s1.code = .ok
  rotate_left
  · rw [if_pos hc1] at e; cases e; exact absurd hc hc1
  rw [if_neg (by simpa using hc1)] at e
  have hxy := k1.1 hc1
  dsimp only at e
  by_cases hc2 : (checkResponseY y cfg.T).code = .ok
  rotate_left
  · rw [if_pos hc2] at e; cases e; exact absurd hc hc2
  rw [if_neg (by simpa using hc2)] at e
  have hy0 := (checkResponseY_ok _ _).1 hc2
  rw [bind_eq_ok] at e
  obtain ⟨ss2, e3, e4⟩ := e
  cases e4
  have hkp := hv.k_pos
  have hnf := a.lawful.alloc_small (hsz hxy hy0) (by omega)
  have hsh : ss'.shape = some (1, width a.backend X) := by
    rw [iter_frame SState.shape (fun i hi s s' hs => regEpochS_shape hv hnf hs) e3]; rfl
  refine ⟨_, ss', rfl, Fit.ofSim h1 hsh, rfl, ?_, e3⟩
  refine ⟨hxy.len, fun x hx => ⟨ht.xs x hx, hxy.bin x hx, ?_⟩, hy0⟩
  cases hXe : X with
  | nil => exact absurd hXe hxy.ne
  | cons x0 rest => exact hxy.size x hx x0 (by rw [hXe]; simp)

theorem refitR_call {nf : Nat} (hv : Valid cfg) (hk : cfg.kind = .regressor) (hN : a.lawful.minStates ≤ cfg.states) (ht : Typed a.lawful X y)
    (h : Fit a.lawful cfg 1 nf st ss) (hr : partialFitRegressor a.backend env sc st X y ep = .ok (st', s)) (hc : s.code = .ok) :
    ∃ ss', Fit a.lawful cfg 1 nf st' ss' ∧ s = .sOk ∧ RegDataOk a.lawful cfg.T nf X y ∧ st'.params = st.params ∧
      iter (List.range ep) (fun _ ss => regEpochS a.lawful env cfg nf X y ss) ss = .ok ss' := by
  unfold partialFitRegressor at hr
  rw [if_pos (h.fitted hv)] at hr
  have href := refitRegressor_ref a.lawful sc hv hk hN ht (ep := ep) h
  rw [hr] at href
  obtain ⟨⟨ss', s'⟩, e, h1, h2, h3⟩ := href.ok_left
  dsimp only at h1 h2 h3
  subst h2
  unfold refitRS at e
  obtain ⟨s1, e1, k1⟩ := checkXy_ok a.lawful X y ht.xs
  rw [e1, ok_bind] at e
  by_cases hc1 : s1.code = .ok
  rotate_left
  · rw [if_pos hc1] at e; cases e; exact absurd hc hc1
  rw [if_neg (by simpa using hc1)] at e
  have hxy := k1.1 hc1
  obtain ⟨s2, e2, k2⟩ := checkX_ok a.lawful hxy (nf := nf)
  rw [e2, ok_bind] at e
  by_cases hc2 : s2.code = .ok
  rotate_left
  · rw [if_pos hc2] at e; cases e; exact absurd hc hc2
  rw [if_neg (by simpa using hc2)] at e
  dsimp only at e
  by_cases hc3 : (checkResponseY y cfg.T).code = .ok
  rotate_left
  · rw [if_pos hc3] at e; cases e; exact absurd hc hc3
  rw [if_neg (by simpa using hc3), bind_eq_ok] at e
  obtain ⟨ss2, e4, e5⟩ := e
  cases e5
  have a2 := k2.1 hc2
  have a3 := (checkResponseY_ok _ _).1 hc3
  exact ⟨ss', h1, rfl, ⟨hxy.len, fun x hx => ⟨ht.xs x hx, hxy.bin x hx, a2 x hx⟩, a3⟩, h3, e4⟩

/-! ### Settings -/

theorem Reads.settings {p : Params} (h : Reads p cfg) {k : Kind} (hk : cfg.kind = k) : HasSettings k p cfg.settings := by
  refine ⟨h.states, h.maxWeight, h.T, ⟨_, h.boost, rfl⟩, h.s, ⟨cfg.clauses, ?_, rfl⟩⟩
  have e : clauseParam k = cfg.clauseKey := by subst hk; unfold clauseParam Cfg.clauseKey; rfl
  unfold IntParam
  rw [e]; exact h.clauses

theorem Spec.HasSettings.unique {p : Params} {k : Kind} {H H' : Settings} (h : HasSettings k p H) (h' : HasSettings k p H') : H = H' := by
  have int : ∀ {key : String} {u v : Int}, IntParam p key u → IntParam p key v → u = v := by
    intro key u v h1 h2
    have := h1.symm.trans h2
    simpa using this
  obtain ⟨b, b1, b2⟩ := h.boost
  obtain ⟨b', b1', b2'⟩ := h'.boost
  obtain ⟨c, c1, c2⟩ := h.k
  obtain ⟨c', c1', c2'⟩ := h'.k
  have e1 := int h.states h'.states
  have e2 := int h.maxWeight h'.maxWeight
  have e3 := int h.threshold h'.threshold
  have e4 := int b1 b1'
  have e5 := int c1 c1'
  have e6 : H.s = H'.s := by
    have := h.s.symm.trans h'.s
    simpa using this
  cases H; cases H'
  simp_all

theorem Fit.learnedEq {labels nf : Nat} (h : Fit a.lawful cfg labels nf st ss) : a.learned st = ss.learned := by
  unfold Algo.learned SState.learned
  rw [← h.clausesEq, h.w]

end Tsetlini
