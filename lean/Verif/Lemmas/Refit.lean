import Verif.Lemmas.Additive
import Verif.Lemmas.Same
/- Fitting again. -/
namespace Tsetlini
open Res Spec

def sizeKeys : List String := ["number_of_labels", "number_of_features"]

theorem Reads.agreeSizes {p q : Params} {cfg : Cfg} (h : Reads p cfg) (hp : AgreeBut sizeKeys p q) : Reads q cfg := by
  constructor
  · rw [hp _ (by unfold Cfg.clauseKey; split <;> simp [sizeKeys])]; exact h.clauses
  all_goals intros; rw [hp _ (by simp [sizeKeys])]
  · exact h.T
  · exact h.states
  · exact h.maxWeight
  · exact h.s
  · exact h.boost
  · exact h.weighted
  · exact h.seed
  · exact h.ctype
  · exact h.tile
  · exact h.nJobs
  · exact h.verbose
  · exact h.loss ‹_›
  · exact h.C1 ‹_›
  · exact h.boxMuller ‹_›

/-- A parameter map determines the configuration as far as it matters. -/
theorem Reads.eqs {p : Params} {cfg cfg' : Cfg} (h : Reads p cfg) (h' : Reads p cfg') (hk : cfg'.kind = cfg.kind) :
    ∃ l c b, cfg' = { cfg with lossName := l, C1 := c, boxMuller := b } := by
  have hck : cfg'.clauseKey = cfg.clauseKey := by unfold Cfg.clauseKey; rw [hk]
  have c0 := h'.clauses
  rw [hck] at c0
  have e1 := c0.symm.trans h.clauses
  have e2 := h'.T.symm.trans h.T
  have e3 := h'.states.symm.trans h.states
  have e4 := h'.maxWeight.symm.trans h.maxWeight
  have e5 := h'.s.symm.trans h.s
  have e6 := h'.boost.symm.trans h.boost
  have e7 := h'.weighted.symm.trans h.weighted
  have e8 := h'.seed.symm.trans h.seed
  have e9 := h'.ctype.symm.trans h.ctype
  have e10 := h'.tile.symm.trans h.tile
  have e11 := h'.nJobs.symm.trans h.nJobs
  have e12 := h'.verbose.symm.trans h.verbose
  clear h h' hck c0
  simp only [Option.some.injEq, PVal.int.injEq, PVal.real.injEq, Fl.fin.injEq, PVal.bool.injEq, PVal.seed.injEq,
    PVal.str.injEq] at *
  obtain ⟨⟩ := cfg
  obtain ⟨⟩ := cfg'
  dsimp only at *
  subst hk e1 e2 e3 e4 e5 e6 e7 e8 e9 e10 e11 e12
  exact ⟨_, _, _, rfl⟩

theorem Fit.recfg {B : Backend} {L : Lawful B} {env : Env} {cfg cfg' : Cfg} {labels nf : Nat} {st : EstState B env} {ss : SState env}
    (h : Fit L cfg labels nf st ss) (hr : Reads st.params cfg') (hk : cfg'.kind = cfg.kind) : Fit L cfg' labels nf st ss := by
  obtain ⟨l, c, b, rfl⟩ := h.reads.eqs hr hk
  exact ⟨hr, h.labelsP, h.featP, h.reg1, h.pos, h.abs, h.len, h.w, h.wlen, h.wmax, h.coLen, h.lsLen, h.fbLen, h.fbRange, h.lsRange,
    h.ct, h.igen, h.fgen, h.shape, h.small, h.nfSmall, h.alloc⟩

theorem Sim.recfg {B : Backend} {L : Lawful B} {env : Env} {cfg cfg' : Cfg} {st : EstState B env} {ss : SState env}
    (h : Sim L cfg st ss) (hr : Reads st.params cfg') (hk : cfg'.kind = cfg.kind) : Sim L cfg' st ss := by
  rcases h with h | ⟨_, _, h⟩
  · exact .inl { h with reads := hr }
  · exact .inr ⟨_, _, h.recfg hr hk⟩

variable {a : Algo} {env : Env} {cfg : Cfg} {sc sc' : Sched} {X : List a.Sample} {y : List Int} {ml : Int} {ep : Nat}
  {st st' st₁ : EstState a.backend env} {ss ss₁ : SState env} {s : Status}

/-- Two classifiers whose training starts from the same clauses and weights learn the same. -/
theorem fit_same (hv : Valid cfg) (hk : cfg.kind = .classifier) (hN : a.lawful.minStates ≤ cfg.states) (ht : Typed a.lawful X y)
    (h : Sim a.lawful cfg st ss) (h₁ : Sim a.lawful cfg st₁ ss₁)
    (hi : initS env cfg (numLabels y ml) (width a.backend X) ss.weights = initS env cfg (numLabels y ml) (width a.backend X) ss₁.weights)
    (hr : fitClassifier a.backend env sc st X y ml ep = .ok (st', s)) :
    ∃ st₁', fitClassifier a.backend env sc' st₁ X y ml ep = .ok (st₁', s) ∧ (s.code = .ok → SameLearned st' st₁') := by
  have hsz := fitClassifier_sized a.lawful hv hk ht h hr
  have href := fitClassifier_ref a.lawful sc hv hk hN ht hsz.1 hsz.2 h
  have href₁ := fitClassifier_ref a.lawful sc' hv hk hN ht hsz.1 hsz.2 h₁
  rw [hr] at href
  obtain ⟨⟨ss', s'⟩, e, h1, h2⟩ := href.ok_left
  dsimp only at h1 h2
  subst h2
  have key : ∃ q, fitS a.lawful env cfg ss₁ X y ml ep = .ok q ∧ q.2 = s ∧ (s.code = .ok → q.1 = ss') := by
    unfold fitS at e ⊢
    obtain ⟨s1, e1, k1⟩ := checkXy_ok a.lawful X y ht.xs
    rw [e1, ok_bind] at e ⊢
    by_cases hc1 : s1.code = .ok
    rotate_left
    · rw [if_pos hc1] at e ⊢; cases e; exact ⟨_, rfl, rfl, fun h => absurd h hc1⟩
    rw [if_neg (by simpa using hc1)] at e ⊢
    have hxy := k1.1 hc1
    obtain ⟨s2, e2, k2⟩ := checkLabels_ok hxy.yne
    rw [e2, ok_bind] at e ⊢
    by_cases hc2 : s2.code = .ok
    rotate_left
    · rw [if_pos hc2] at e ⊢; cases e; exact ⟨_, rfl, rfl, fun h => absurd h hc2⟩
    rw [if_neg (by simpa using hc2)] at e ⊢
    dsimp only at e ⊢
    rw [← hi, e]
    exact ⟨_, rfl, rfl, fun _ => rfl⟩
  obtain ⟨⟨ss₁', s₁⟩, f1, f2, f3⟩ := key
  rw [f1] at href₁
  obtain ⟨⟨st₁', s₁'⟩, g1, g2, g3⟩ := href₁.ok_right
  dsimp only at f2 f3 g2 g3
  subst f2 g3
  refine ⟨st₁', g1, fun hc => ?_⟩
  have := f3 hc
  subst this
  exact ⟨h1.ta_eq rfl rfl g2, (h1.igen_eq g2).1, (h1.igen_eq g2).2⟩

/-- The same for regressors. -/
theorem fitR_same (hv : Valid cfg) (hk : cfg.kind = .regressor) (hN : a.lawful.minStates ≤ cfg.states) (ht : Typed a.lawful X y)
    (h : Sim a.lawful cfg st ss) (h₁ : Sim a.lawful cfg st₁ ss₁)
    (hi : initS env cfg 1 (width a.backend X) ss.weights = initS env cfg 1 (width a.backend X) ss₁.weights)
    (hr : fitRegressor a.backend env sc st X y ep = .ok (st', s)) :
    ∃ st₁', fitRegressor a.backend env sc' st₁ X y ep = .ok (st₁', s) ∧ (s.code = .ok → SameLearned st' st₁') := by
  have hsz := fitRegressor_sized a.lawful hv hk ht h hr
  have href := fitRegressor_ref a.lawful sc hv hk hN ht (ep := ep) hsz h
  have href₁ := fitRegressor_ref a.lawful sc' hv hk hN ht (ep := ep) hsz h₁
  rw [hr] at href
  obtain ⟨⟨ss', s'⟩, e, h1, h2⟩ := href.ok_left
  dsimp only at h1 h2
  subst h2
  have key : ∃ q, fitRS a.lawful env cfg ss₁ X y ep = .ok q ∧ q.2 = s ∧ (s.code = .ok → q.1 = ss') := by
    unfold fitRS at e ⊢
    obtain ⟨s1, e1, k1⟩ := checkXy_ok a.lawful X y ht.xs
    rw [e1, ok_bind] at e ⊢
    by_cases hc1 : s1.code = .ok
    rotate_left
    · rw [if_pos hc1] at e ⊢; cases e; exact ⟨_, rfl, rfl, fun h => absurd h hc1⟩
    rw [if_neg (by simpa using hc1)] at e ⊢
    dsimp only at e ⊢
    by_cases hc2 : (checkResponseY y cfg.T).code = .ok
    rotate_left
    · rw [if_pos hc2] at e ⊢; cases e; exact ⟨_, rfl, rfl, fun h => absurd h hc2⟩
    rw [if_neg (by simpa using hc2)] at e ⊢
    rw [← hi, e]
    exact ⟨_, rfl, rfl, fun _ => rfl⟩
  obtain ⟨⟨ss₁', s₁⟩, f1, f2, f3⟩ := key
  rw [f1] at href₁
  obtain ⟨⟨st₁', s₁'⟩, g1, g2, g3⟩ := href₁.ok_right
  dsimp only at f2 f3 g2 g3
  subst f2 g3
  refine ⟨st₁', g1, fun hc => ?_⟩
  have := f3 hc
  subst this
  exact ⟨h1.ta_eq rfl rfl g2, (h1.igen_eq g2).1, (h1.igen_eq g2).2⟩

theorem fitClassifier_online_ok {B : Backend} {env : Env} {sc : Sched} (st : EstState B env) (X : List B.Sample) (y : List Int) (ml : Int) (ep : Nat) :
    (fitClassifier B env sc st X y ml ep).IfOk fun r => r.2.code = .ok → r.2 = .sOk := by
  refine ifOk_iff.2 fun r hr hc => ?_
  obtain ⟨stI, hI⟩ := fitClassifier_split (st1 := r.1) (s := r.2) hr hc
  rw [hI] at hr
  exact (ifOk_iff.1 (fitClassifierOnline_params _ _ _ _) _ hr).2

end Tsetlini
